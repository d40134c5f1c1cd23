import Verif.Coef.Block
import Verif.Coef.Cdfs
import Verif.Cdf.Init

/-!
# C41: coefficients come back
-/

namespace Rav1e.Coef
open Av1Spec (Src Rd Dec)
open Rav1e.Ec
open Rav1e.Quant (TxSize TxType scanOf storage codedW codedH specOrder EobExact)

/-- What the encoder does and what the decoder does at the same point of the tile. -/
def Match (mono : Bool) : Job → Av1Spec.Coef.Op → Prop
  | .coeffs a, .coeffs b => Fits (if mono then 1 else 3) a b
  | .skip x y bs xdec ydec m, .skip b => m = mono ∧ FitsSkip x y bs xdec ydec mono b
  | .row planes, .row => planes = if mono then 1 else 3
  | .other t, .other p => AllOk t ∧ ∀ ts, p.onToks (t ++ ts) = some ((), ts)
  | _, _ => False

/-- The coefficients that were to be coded, block by block. -/
def contents : List Job → List Av1Spec.Coef.Out
  | [] => []
  | .coeffs a :: js => outOf a :: contents js
  | _ :: js => contents js

theorem rel_start (mono : Bool) : Rel (if mono then 1 else 3) Cx.new Av1Spec.Coef.Ctx.start := by
  refine ⟨fun _ _ => List.length_replicate, fun _ _ => List.length_replicate, ?_, ?_⟩ <;>
  · intro p _ k v hv
    have := List.eq_of_mem_replicate (List.mem_of_getElem? hv)
    subst this
    exact ⟨rfl, rfl, by omega⟩

theorem wr_jobs (mono : Bool) : ∀ (jobs : List Job) (ops : List Av1Spec.Coef.Op), List.Forall₂ (Match mono) jobs ops →
    ∀ (s : Cx) (c : Av1Spec.Coef.Ctx), Rel (if mono then 1 else 3) s c →
    Wr (encodeJobs jobs s) (Av1Spec.Coef.rdOps num ops c) (contents jobs) := by
  intro jobs ops h
  induction h with
  | nil => intro s c _; exact Wr.ret []
  | @cons j o jobs ops hm _ ih =>
    intro s c hr
    cases j with
    | coeffs a =>
      cases o with
      | coeffs b =>
        obtain ⟨t1, s', c', e1, o1, hr', r1⟩ := wr_block hm hr
        obtain ⟨t2, e2, o2, r2⟩ := ih s' c' hr'
        refine ⟨t1 ++ t2, ?_, o1.append o2, fun ts => ?_⟩
        · rw [encodeJobs]
          simp only [Option.bind_eq_bind]
          rw [e1, Option.bind_some, e2, Option.bind_some]
        · rw [Av1Spec.Coef.rdOps, onToks_bind, List.append_assoc, r1, Option.bind_some]
          dsimp only
          rw [onToks_bind, r2, Option.bind_some]
          rfl
      | skip b => exact hm.elim
      | row => exact hm.elim
      | other p => exact hm.elim
    | skip x y bs xdec ydec m =>
      cases o with
      | skip b =>
        obtain ⟨rfl, hf⟩ := hm
        obtain ⟨s', e1, hr'⟩ := wr_skip hf hr
        obtain ⟨t2, e2, o2, r2⟩ := ih s' _ hr'
        refine ⟨t2, ?_, o2, fun ts => ?_⟩
        · rw [encodeJobs]
          simp only [Option.bind_eq_bind]
          rw [e1, Option.bind_some, e2]
        · rw [Av1Spec.Coef.rdOps, r2]; rfl
      | coeffs b => exact hm.elim
      | row => exact hm.elim
      | other p => exact hm.elim
    | row planes =>
      cases o with
      | row =>
        have hm : planes = if mono then 1 else 3 := hm
        subst hm
        obtain ⟨t2, e2, o2, r2⟩ := ih _ _ (row_ok hr)
        exact ⟨t2, by rw [encodeJobs, e2], o2, fun ts => by rw [Av1Spec.Coef.rdOps, r2]; rfl⟩
      | skip b => exact hm.elim
      | coeffs b => exact hm.elim
      | other p => exact hm.elim
    | other t =>
      cases o with
      | other p =>
        obtain ⟨ok, r⟩ := hm
        obtain ⟨t2, e2, o2, r2⟩ := ih s c hr
        refine ⟨t ++ t2, by rw [encodeJobs, e2]; rfl, ok.append o2, fun ts => ?_⟩
        rw [Av1Spec.Coef.rdOps, onToks_bind, List.append_assoc, r, Option.bind_some, r2]; rfl
      | skip b => exact hm.elim
      | coeffs b => exact hm.elim
      | row => exact hm.elim

/-- **C41**: for every sequence of transform blocks, blocks without coefficients and rows of superblocks in a tile,
the encoder does not panic, and from the elements it writes the decoding process of the specification reads back,
for every block, exactly the coefficients, end of block and transform type that were to be coded, and nothing
more. -/
theorem coefficients_roundtrip (mono : Bool) (jobs : List Job) (ops : List Av1Spec.Coef.Op)
    (h : List.Forall₂ (Match mono) jobs ops) :
    ∃ t, encodeJobs jobs Cx.new = some t ∧
      ∀ rest, (Av1Spec.Coef.rdOps num ops .start).onToks (t ++ rest) = some (contents jobs, rest) := by
  obtain ⟨t, e, _, r⟩ := wr_jobs mono jobs ops h _ _ (rel_start mono)
  exact ⟨t, e, r⟩

/-! ## In bytes -/

/-- All CDFs of a `CDFContext` in memory, in the order of their numbers. -/
def rows (m : Cdf.Mem) : List (List Nat) :=
  Cdf.layout.flatMap fun p =>
    if p.1.len = 0 then [] else (List.range p.1.count).map fun i => Cdf.readWin m (p.2 + i * p.1.len) p.1.len

theorem rows_wf {m : Cdf.Mem} (hm : Cdf.AllWf m) : ∀ c ∈ rows m, WfCdf c := by
  intro c hc
  unfold rows at hc
  obtain ⟨⟨f, o⟩, hp, hc⟩ := List.mem_flatMap.1 hc
  dsimp only at hc
  split_ifs at hc with h0
  · exact absurd hc (by simp)
  · obtain ⟨i, hi, rfl⟩ := List.mem_map.1 hc
    exact hm ⟨o + i * f.len, f.len⟩ ⟨f, o, i, hp, h0, List.mem_range.1 hi, rfl⟩

theorem readWin_length (m : Cdf.Mem) (o n : Nat) : (Cdf.readWin m o n).length = n := by simp [Cdf.readWin]

theorem rows_length_aux (m : Cdf.Mem) : ∀ (fs : List Cdf.Field) (o : Nat),
    ((Cdf.place o fs).flatMap fun p =>
      if p.1.len = 0 then [] else (List.range p.1.count).map fun i =>
        Cdf.readWin m (p.2 + i * p.1.len) p.1.len).map List.length =
      fs.flatMap fun f => if f.len = 0 then [] else List.replicate f.count f.len := by
  intro fs
  induction fs with
  | nil => intro o; rfl
  | cons f fs ih =>
    intro o
    rw [Cdf.place, List.flatMap_cons, List.map_append, ih, List.flatMap_cons]
    congr 1
    dsimp only
    split_ifs
    · rfl
    · rw [List.map_map]
      rw [List.eq_replicate_iff]
      refine ⟨by simp, ?_⟩
      intro b hb
      obtain ⟨i, _, rfl⟩ := List.mem_map.1 hb
      exact readWin_length _ _ _

theorem rows_length (m : Cdf.Mem) : (rows m).map List.length = lens := rows_length_aux m _ _

theorem toksOk_rows (m : Cdf.Mem) {t : Toks} (h : AllOk t) : ToksOk (rows m) t := by
  intro e he
  have := h e he
  obtain ⟨src, s⟩ := e
  cases src with
  | flat => exact this
  | cdf i =>
    obtain ⟨n, hn, hs⟩ := this
    rw [← rows_length m, List.getElem?_map] at hn
    obtain ⟨c, hc, rfl⟩ := Option.map_eq_some_iff.1 hn
    refine ⟨(List.getElem?_eq_some_iff.1 hc).1, ?_⟩
    rw [List.getD_eq_getElem?_getD, hc]; exact hs

/-- **C41 (in bytes)**: with any well-formed CDFs, which adapt on both sides, the decoder reads the coefficients back
from the bytes of the tile. -/
theorem coefficients_roundtrip_bytes (m : Cdf.Mem) (hm : Cdf.AllWf m) (mono : Bool) (jobs : List Job)
    (ops : List Av1Spec.Coef.Op) (h : List.Forall₂ (Match mono) jobs ops) :
    ∃ t, encodeJobs jobs Cx.new = some t ∧
      ((Av1Spec.Coef.rdOps num ops .start).onDec ((rows m).map toSpec)
        (Dec.init (encodeTile (toSyms (rows m) t)))).1 = contents jobs := by
  obtain ⟨t, e, ok, r⟩ := wr_jobs mono jobs ops h _ _ (rel_start mono)
  have := r []
  rw [List.append_nil] at this
  exact ⟨t, e, syntax_roundtrip _ _ (rows_wf hm) _ (toksOk_rows m ok) _ _ this⟩

/-! ## The hypotheses are met -/

/-- The size up to the edge of the frame, in the encoder and in the specification, for positions and frame sizes
that are multiples of eight luma pixels. -/
theorem clipped_eq (inB x dec size : Nat) (hd : dec ≤ 1) (h1 : inB % 2 = 0) (h2 : dec = 1 → x % 2 = 0) :
    clipped inB x dec size = min (4 * ((inB >>> dec) - (x >>> dec))) size := by
  unfold clipped
  rw [Nat.shiftLeft_eq]
  have : dec = 0 ∨ dec = 1 := by omega
  rcases this with rfl | rfl
  · simp; omega
  · have := h2 rfl
    simp only [Nat.shiftRight_eq_div_pow]; omega

def demoCoeffs : List Int := [20, 0, -1, 0, 0, 3, 0, 0, 0, 0, 0, 0, 0, 0, 0, 0]

/-- A luma block in an 8x8 inter block at the right edge of the frame, -/
def demoArg : Arg :=
  { plane := 0, x := 7, y := 17, coeffs := demoCoeffs, eob := 5, mode := 14, tx := .tx4x4, ty := .dctDct, pb := .b8x8
    xdec := 0, ydec := 0, reduced := false, clippedW := 4, clippedH := 4 }

def demoBlk : Av1Spec.Coef.Blk :=
  { plane := 0, tx := ⟨2, 2⟩, x4 := 7, y4 := 1, cols := 1, rows := 3, bw := 8, bh := 8, isInter := true
    reduced := false, intraDir := 0, chromaType := 0 }

theorem demo_fits : Fits 3 demoArg demoBlk where
  plane := rfl
  planes := by decide
  tx := rfl
  x4 := rfl
  y4 := rfl
  roomX := by decide
  roomY := by decide
  bw := rfl
  bh := rfl
  clippedW := rfl
  clippedH := rfl
  inSet := by show 0 ∈ _; decide
  chroma := by decide
  isInter := fun _ => rfl
  reduced := rfl
  mode := fun _ h => absurd h (by decide)
  notWht := by decide
  size := by decide
  length := rfl
  small := by decide
  eob := by
    refine ⟨by decide +kernel, ?_, fun _ => ⟨5, 3, by decide +kernel, rfl, by decide⟩⟩
    intro j p hj hp
    have h16 : j < 16 := by
      have := (List.getElem?_eq_some_iff.1 hp).1
      have e : ((specOrder demoArg.tx demoArg.ty).map (storage (codedH demoArg.tx))).length = 16 := by decide +kernel
      omega
    have key : ∀ j < 16, 5 ≤ j → ∀ p, ((specOrder .tx4x4 .dctDct).map (storage 4))[j]? = some p →
        demoCoeffs[p]? = some 0 := by
      have e : (specOrder .tx4x4 .dctDct).map (storage 4) = [0, 4, 1, 2, 5, 8, 12, 9, 6, 3, 7, 10, 13, 14, 11, 15] := by
        decide +kernel
      rw [e]
      intro j h1 h2 p h
      interval_cases j <;> simp at h <;> subst h <;> rfl
    exact key j h16 hj p hp

/-- then a block without coefficients, the next row of superblocks and the luma block again. -/
def demoJobs : List Job := [.coeffs demoArg, .skip 8 16 .b8x8 1 1 false, .row 3, .coeffs demoArg]

def demoOps : List Av1Spec.Coef.Op := [.coeffs demoBlk, .skip ⟨8, 0, 2, 2, 1, 1, false⟩, .row, .coeffs demoBlk]

example : List.Forall₂ (Match false) demoJobs demoOps := by
  refine .cons demo_fits (.cons ⟨rfl, ?_⟩ (.cons rfl (.cons demo_fits .nil)))
  exact { miCol := rfl, miRow := rfl, bw4 := rfl, bh4 := rfl, subX := rfl, subY := rfl, mono := rfl, dec := by decide,
          alignX := by decide, alignY := by decide, roomX := by decide, roomY := by decide, chroma := by decide }

example : (encodeJobs demoJobs Cx.new).map List.length = some 46 := by decide +kernel

/-! ## The two sizes left out -/

/-- A block of 16x64 with one coefficient. -/
def tallArg : Arg :=
  { plane := 0, x := 0, y := 0, coeffs := 1 :: List.replicate 511 0, eob := 1, mode := 14, tx := .tx16x64
    ty := .dctDct, pb := .b16x64, xdec := 0, ydec := 0, reduced := false, clippedW := 16, clippedH := 64 }

def tallBlk : Av1Spec.Coef.Blk :=
  { plane := 0, tx := ⟨4, 6⟩, x4 := 0, y4 := 0, cols := 4, rows := 16, bw := 16, bh := 64, isInter := true
    reduced := false, intraDir := 0, chromaType := 0 }

/-- For transforms of 16x64 (and 64x16) `encode_eob` takes the CDF for 1024 coefficients, while the specification
has 512: the size is not reduced to the coded one. The decoder would read with another CDF. Such transforms are only
made for blocks of these shapes, which the encoder never chooses. -/
theorem tall_block_misread : ∃ t, encodeJobs [.coeffs tallArg] Cx.new = some t ∧
    (Av1Spec.Coef.rdOps num [.coeffs tallBlk] .start).onToks t = none := by
  have key : (match encodeJobs [.coeffs tallArg] Cx.new with
      | some t => ((Av1Spec.Coef.rdOps num [.coeffs tallBlk] .start).onToks t).isNone
      | none => false) = true := by decide +kernel
  cases h : encodeJobs [.coeffs tallArg] Cx.new with
  | none => rw [h] at key; exact absurd key (by decide)
  | some t => rw [h] at key; exact ⟨t, rfl, Option.isNone_iff_eq_none.1 key⟩

end Rav1e.Coef

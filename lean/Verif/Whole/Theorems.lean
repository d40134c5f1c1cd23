import Verif.Block.Coded
import Verif.Whole.Tile

/-!
# C66: one list of symbols for everything in a tile
-/

namespace Rav1e.Whole

open Spec (Tok Out)
open Coef (num)
open Resid (px)
open Block (Tree motions place)
open Mvref (GeoOk I16)

variable {C : Cfg} {X : Nat → Nat → Extra}

/-- A transform block that a decoder gets holds what the quantizer made of the block there. -/
def Quantized (C : Cfg) (X : Extra) (b : Resid.Spec.Txb) : Prop :=
  ∃ a : Coef.Arg, b = Resid.txbOf C.resid a ∧ (a.coeffs, a.eob) = X.q a.plane a.x a.y

/-- **C66.**  For every tile, every partition of it, everything that is decided for its blocks (modes, references, motion vectors, segments, `skip`, transform
sizes and types, quantized coefficients) and whatever follows: if the modes can be coded (`he`), then the encoder writes everything without panic, and a
decoder, which knows nothing but the headers and one list of symbols in which the symbols of modes, transform sizes and coefficients of all blocks follow each
other, reads back from it a list of blocks: the blocks of the partition in order, each with the modes, the transform size and the transform blocks that the
encoder decided on; in these are the coefficients of the quantizer. -/
theorem tile_decoder (G : GeoOk C.toCfg.par.g) (h7 : C.lastActiveSegid ≤ 7) (hd : (C.xdec, C.ydec) ∈ [(0, 0), (1, 0), (1, 1)]) (hw : C.cols ≤ 1024)
    {t : Nat → Nat → Tree} (ht : ∀ r c, (t r c).motion.Ok 16) {data : Nat → Nat → Block.EBlk} (hi : ∀ r c, I16 (data r c).blk.mv0 ∧ I16 (data r c).blk.mv1)
    {s : List Block.Spec.Sym} {B : Block.State} (he : Block.encodeTile C.toCfg t data = some (s, B)) (hE : ∀ e ∈ B.log, Decided C X e) (types : Nat → Nat → Nat) :
    ∃ toks S outs, encodeTile C X t data = some (toks, S) ∧
      (∀ rest, Spec.readTile num C.head types (toks ++ rest) = some (outs, rest)) ∧
      outs.map (·.blk) = B.log.map (place C.toCfg) ∧
      outs.map (·.blk.motion) = C.toCfg.par.g.tile (motions C.toCfg t) ∧
      outs.map (·.txSize) = B.log.map (fun e => px (X e.x e.y).tx) ∧
      outs.map (·.txbs) = B.log.map (fun e => txbsOf C (residOf C X e)) ∧
      ∀ e ∈ B.log, (e.ch.skip = true → txbsOf C (residOf C X e) = []) ∧ ∀ b ∈ txbsOf C (residOf C X e), Quantized C (X e.x e.y) b := by
  obtain ⟨toks, S, h1, -, h2⟩ := tile_step G h7 hd hw ht hi he hE types
  obtain ⟨h3, -⟩ := Block.tile_rt G h7 ht hi he (entryOk hE)
  refine ⟨toks, S, _, h1, h2, ?_, ?_, ?_, ?_, fun e _ => ?_⟩
  · rw [List.map_map]; rfl
  · rw [← h3, List.map_map, List.map_map]; rfl
  · rw [List.map_map]; rfl
  · rw [List.map_map]; rfl
  · have key : ∀ b ∈ txbsOf C (residOf C X e), e.ch.skip = false ∧ Quantized C (X e.x e.y) b := by
      intro b hb
      unfold txbsOf at hb
      cases hj : Resid.encodeBlock C.resid (residOf C X e) with
      | none => rw [hj] at hb; exact absurd hb (by simp)
      | some jobs =>
        rw [hj] at hb
        obtain ⟨a, ha, rfl⟩ := List.mem_map.1 (show b ∈ (Resid.args jobs).map (Resid.txbOf C.resid) from hb)
        obtain ⟨k1, k2⟩ := Resid.block_from hj a ha
        exact ⟨k1, a, rfl, k2⟩
    refine ⟨fun hs => ?_, fun b hb => (key b hb).2⟩
    rw [List.eq_nil_iff_forall_not_mem]
    intro b hb
    have := (key b hb).1
    rw [hs] at this
    cases this

/-! ### The frame of 40x24 pixels of C62, with coefficients -/

/-- The key frame of `Block.exCfg`. -/
def exCfg : Cfg := { Block.exCfg with key := true, rdo := true, split := true, reduced := false }

/-- The transform sizes of the blocks, two of them smaller than the largest that is possible, and one coefficient in most transform blocks. -/
def exExtra (x y : Nat) : Extra :=
  let (tx, luma, chroma) : Quant.TxSize × Nat × Nat := match x, y with
    | 0, 0 => (.tx8x8, 64, 32)
    | 0, _ => (.tx16x8, 128, 32)
    | 4, 0 => (.tx4x4, 16, 16)
    | 4, 2 => (.tx4x8, 32, 16)
    | 5, _ => (.tx4x8, 32, 16)
    | 6, 0 => (.tx4x4, 16, 16)
    | 6, 1 => (.tx4x4, 16, 16)
    | 7, _ => (.tx4x4, 16, 16)
    | 8, 0 => (.tx8x16, 128, 32)
    | _, _ => (.tx8x8, 64, 16)
  ⟨tx, .dctDct, Resid.exQ luma chroma 3⟩

/-- Whether what is decided for a block is possible. -/
def exCheck (e : Block.Entry) : Bool :=
  let r := residOf exCfg exExtra e
  decide (r.base.tx ∈ TxSize.rdoSizes exCfg.resid.toCfg (r.base.bw4, r.base.bh4) r.base.inter r.base.skip ∧ r.base.inter = false ∧
    r.ty ∈ Resid.rdoTypes exCfg.resid r.tx r.inter r.skip ∧ r.mode < 13 ∧ r.uvMode < 14) &&
  (match Resid.encodeBlock exCfg.resid r with | some jobs => (Resid.args jobs).all Resid.coefCheck | none => false)

theorem ex_decided : ∃ s B, Block.encodeTile exCfg.toCfg (fun _ _ => Block.exTree) Block.exData = some (s, B) ∧ B.log.length = 15 ∧
    ((B.log.map fun e => (txbsOf exCfg (residOf exCfg exExtra e)).length).sum = 31) ∧ ∀ e ∈ B.log, Decided exCfg exExtra e := by
  obtain ⟨s, B, h1, -, h3, h4⟩ := Block.ex_ok
  have h : ((Block.encodeTile Block.exCfg (fun _ _ => Block.exTree) Block.exData).any fun p => p.2.log.all exCheck &&
      decide ((p.2.log.map fun e => (txbsOf exCfg (residOf exCfg exExtra e)).length).sum = 31)) = true := by decide +kernel
  rw [h1] at h
  simp only [Option.any_some, Bool.and_eq_true, decide_eq_true_eq, List.all_eq_true] at h
  refine ⟨s, B, h1, h3, h.2, fun e he => ?_⟩
  have hc := h.1 e he
  unfold exCheck at hc
  simp only [Bool.and_eq_true, decide_eq_true_eq] at hc
  obtain ⟨⟨k1, k2, k3, k4, k5⟩, k6⟩ := hc
  refine ⟨h4 e he, ⟨⟨k1, fun _ => k2⟩, k3, fun _ => k4, fun _ => k5, fun _ h => absurd h (by decide)⟩, fun jobs hj a ha => ?_⟩
  rw [hj] at k6
  exact Resid.coefOk_of (List.all_eq_true.1 k6 a ha)

example : ∃ toks S outs, encodeTile exCfg exExtra (fun _ _ => Block.exTree) Block.exData = some (toks, S) ∧ outs.length = 15 ∧
    (outs.map (·.txbs.length)).sum = 31 ∧ ∀ rest, Spec.readTile num exCfg.head (fun _ _ => 0) (toks ++ rest) = some (outs, rest) := by
  obtain ⟨s, B, h1, h2, h3, h4⟩ := ex_decided
  obtain ⟨toks, S, outs, k1, k2, k3, -, -, k4, -⟩ := tile_decoder (C := exCfg) (X := exExtra) ⟨rfl, rfl, rfl, rfl, by decide, by decide, .inl rfl, .inl rfl⟩ (by decide)
    (by decide) (by decide) (fun _ _ => by simp [Block.exTree, Tree.motion, Mvref.Spec.Tree.Ok]) (fun _ _ => by show I16 (0, 0) ∧ I16 (0, 0); unfold I16; decide)
    h1 h4 (fun _ _ => 0)
  refine ⟨toks, S, outs, k1, ?_, ?_, k2⟩
  · have := congrArg List.length k3
    rw [List.length_map, List.length_map] at this
    rw [this, h2]
  · have := congrArg (fun l => (l.map List.length).sum) k4
    simp only [List.map_map] at this
    rw [← h3]
    exact this

end Rav1e.Whole

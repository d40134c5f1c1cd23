import Verif.Resid.Rt
import Verif.TxSize.Theorems

/-!
# C64: a decoder reads back the residual of every block
-/

namespace Rav1e.Resid

open Coef (BlockSize Arg Job Cx Fits outOf Rel num AllOk Toks encodeJobs)
open Quant (TxType)
open Spec (Frame Hdr Place Txb Dec)
open TxSize (sbRow rectOf Shape)
open TxSize.Spec (Inside)
open Mvref.Spec (Geo Tree Blk Info)
open Rav1e.Ec (onToks_bind syntax_roundtrip toSpec toSyms)

variable {f : Frame} {C : Cfg} {e : Coded}

/-- The calls of `write_coeffs_lv_map`. -/
def args : List Job → List Arg
  | [] => []
  | .coeffs a :: js => a :: args js
  | _ :: js => args js

theorem args_append : ∀ (l m : List Job), args (l ++ m) = args l ++ args m
  | [], _ => rfl
  | .coeffs a :: l, m => by simp [args, args_append l m]
  | .skip .. :: l, m => by simp [args, args_append l m]
  | .row _ :: l, m => by simp [args, args_append l m]
  | .other _ :: l, m => by simp [args, args_append l m]

theorem args_map : ∀ l : List Arg, args (l.map Job.coeffs) = l
  | [] => rfl
  | a :: l => by simp [args, args_map l]

theorem hasChroma_hdr (O : Cor f C) (P : Placed f.g e) :
    f.hasChroma e.hdr = Coef.hasChroma (e.col - C.col0) (e.row - C.row0) e.bs C.xdec C.ydec C.mono := by
  have hd1 : C.xdec = 0 ∨ C.xdec = 1 := by have := O.dec; simp [decs] at this; omega
  have hd2 : C.ydec = 0 ∨ C.ydec = 1 := by have := O.dec; simp [decs] at this; omega
  have g1 := O.geo.row0
  have g2 := O.geo.col0
  have := P.rowLo
  have := P.colLo
  have hx : (e.col - C.col0) % 2 = e.col % 2 := by rw [O.col0]; omega
  have hy : (e.row - C.row0) % 2 = e.row % 2 := by rw [O.row0]; omega
  unfold Spec.Frame.hasChroma Coef.hasChroma
  rw [hx, hy, O.subX, O.subY, O.mono]
  show (if C.ydec = 1 ∧ e.row % 2 = 0 ∧ e.bs.heightMi % 2 = 1 then false else if C.xdec = 1 ∧ e.col % 2 = 0 ∧ e.bs.widthMi % 2 = 1 then false else !C.mono) = _
  clear * - hd1 hd2
  cases C.mono with
  | true => simp
  | false =>
    rw [Bool.eq_iff_iff]
    simp only [Bool.false_eq_true, if_false, Bool.and_eq_true, Bool.or_eq_true, beq_iff_eq]
    split_ifs <;> simp <;> omega

/-- The transform blocks that the encoder codes for a block that is not skipped are those that the decoder reads. -/
theorem write_ok (O : Cor f C) (P : Placed f.g e) (H : Chosen C e) (hs : e.skip = false) {itx : Nat → Nat → TxSize.Spec.Tx}
    (ht : ∀ r c, Inside e.row e.col e.bs.widthMi e.bs.heightMi r c → r < f.g.miRows → c < f.g.miCols → itx r c = px e.tx) :
    ∃ l m p q, (if e.inter then writeTxTree C e (e.col - C.col0) (e.row - C.row0) else writeTxBlocks C e (e.col - C.col0) (e.row - C.row0)) = some (l ++ m) ∧
      f.places itx e.hdr = p ++ q ∧ List.Forall₂ (LumaRel f C e) l p ∧ List.Forall₂ (ChromaRel f C e) m q ∧
      p = ((grid (e.bs.widthMi / widthMi e.tx) (e.bs.heightMi / heightMi e.tx)).map (lumaPlace e)).filter f.inFrame := by
  obtain ⟨as, l1, l2⟩ := (luma_ok O P H).2 hs
  have hp : f.planePlaces itx e.hdr 0 = ((grid (e.bs.widthMi / widthMi e.tx) (e.bs.heightMi / heightMi e.tx)).map (lumaPlace e)).filter f.inFrame := by
    cases hi : e.inter with
    | true => exact places_inter O P H hi ht
    | false => exact places_intra P H hi itx
  have L := lumaFacts P.shape (trio_of H)
  obtain ⟨mx1, mx2, -⟩ := maxFacts P.shape
  have hpl : f.places itx e.hdr = f.planePlaces itx e.hdr 0 ++ if f.hasChroma e.hdr then f.planePlaces itx e.hdr 1 ++ f.planePlaces itx e.hdr 2 else [] := by
    unfold Spec.Frame.places
    cases f.hasChroma e.hdr with
    | true =>
      rw [show List.range (1 + 2 * true.toNat) = [0, 1, 2] from rfl]
      simp
    | false =>
      rw [show List.range (1 + 2 * false.toNat) = [0] from rfl]
      simp
  rw [hasChroma_hdr O P] at hpl
  cases hc : Coef.hasChroma (e.col - C.col0) (e.row - C.row0) e.bs C.xdec C.ydec C.mono with
  | false =>
    rw [hc] at hpl
    refine ⟨as, [], _, [], ?_, hpl.trans (by rw [hp]; rfl), l2, .nil, rfl⟩
    unfold writeTxTree writeTxBlocks
    rw [l1, hs]
    simp only [Option.bind_some, hc, Bool.false_eq_true, if_false]
    simp
  | true =>
    rw [hc, if_pos rfl] at hpl
    obtain ⟨pb, hpb, F⟩ := chromaFacts P.shape O.dec (fun h => by
      have h1 := (Prod.mk.inj h).1
      have h2 := (Prod.mk.inj h).2
      exact H.vert h1 h2)
    have hlc : largestChroma e.bs C.xdec C.ydec = some (Coef.codedSize (maxTx pb)) := by unfold largestChroma; rw [show e.bs.subsampled C.xdec C.ydec = some pb from hpb]; rfl
    cases hi : e.inter with
    | true =>
      have hd : (if hasCoeff as then uvInter e.ty (Coef.codedSize (maxTx pb)) else .dctDct) = TxType.dctDct := by
        rw [(types_inSet H.ty).2.2 hi, uvInter_dct]; split_ifs <;> rfl
      obtain ⟨m, c1, c2⟩ := (chroma_ok O P H hpb F hc (ty := .dctDct) (mode := e.mode) (by unfold TypeRight; rw [hi, if_pos rfl]) itx).2 hs
      refine ⟨as, m, _, _, ?_, hpl.trans (by rw [hp]), l2, c2, rfl⟩
      unfold writeTxTree
      rw [l1, hs, if_pos rfl, if_neg (by decide)]
      simp only [Option.bind_some, hc, if_true, hlc]
      rw [hd, mx1, mx2, c1]
      rfl
    | false =>
      obtain ⟨ty, u1, -⟩ := uv_type (Coef.codedSize (maxTx pb)) C.reduced (H.uvMode hi)
      obtain ⟨m, c1, c2⟩ := (chroma_ok O P H hpb F hc (ty := ty) (mode := e.uvMode) (by unfold TypeRight; rw [hi, if_neg (by decide)]; exact u1) itx).2 hs
      refine ⟨as, m, _, _, ?_, hpl.trans (by rw [hp]), l2, c2, rfl⟩
      unfold writeTxBlocks
      rw [l1, if_neg (by decide)]
      simp only [Option.bind_some, hc, if_true, hlc]
      rw [u1, Option.bind_some, ← L.w, ← L.h, c1]
      rfl

/-- The encoder codes nothing for a skipped block. -/
theorem write_skip (O : Cor f C) (P : Placed f.g e) (H : Chosen C e) (hs : e.skip = true) :
    (if e.inter then writeTxTree C e (e.col - C.col0) (e.row - C.row0) else writeTxBlocks C e (e.col - C.col0) (e.row - C.row0)) = some [] := by
  cases hi : e.inter with
  | true => unfold writeTxTree; rw [hs]; rfl
  | false =>
    have l1 := (luma_ok O P H).1 hs
    have L := lumaFacts P.shape (trio_of H)
    unfold writeTxBlocks
    rw [l1, if_neg (by decide)]
    cases hc : Coef.hasChroma (e.col - C.col0) (e.row - C.row0) e.bs C.xdec C.ydec C.mono with
    | false => rfl
    | true =>
      obtain ⟨pb, hpb, F⟩ := chromaFacts P.shape O.dec (fun h => H.vert (Prod.mk.inj h).1 (Prod.mk.inj h).2)
      have hlc : largestChroma e.bs C.xdec C.ydec = some (Coef.codedSize (maxTx pb)) := by
        unfold largestChroma; rw [show e.bs.subsampled C.xdec C.ydec = some pb from hpb]; rfl
      obtain ⟨ty, u1, -⟩ := uv_type (Coef.codedSize (maxTx pb)) C.reduced (H.uvMode hi)
      have c1 := (chroma_ok O P H hpb F hc (ty := ty) (mode := e.uvMode) (by unfold TypeRight; rw [hi, if_neg (by decide)]; exact u1) (fun _ _ => (0, 0))).1 hs
      simp only [Option.bind_some, if_true, hlc]
      rw [u1, Option.bind_some, ← L.w, ← L.h, c1]
      rfl

/-- The quantized coefficients of a block. -/
def CoefsOk (C : Cfg) (e : Coded) : Prop := ∀ jobs, encodeBlock C e = some jobs → ∀ a ∈ args jobs, CoefOk a

theorem jobs_append : ∀ (l m : List Job) (s : Cx), encodeJobs (l ++ m) s = (runJobs l s).bind fun r => (encodeJobs m r.2).map (r.1 ++ ·)
  | [], m, s => by simp [runJobs]
  | .coeffs a :: l, m, s => by
    rw [List.cons_append, encodeJobs, runJobs]
    cases h : Coef.writeCoeffs a s with
    | none => rfl
    | some r =>
      simp only [Option.bind_eq_bind, Option.bind_some, jobs_append l m]
      cases runJobs l r.2 with
      | none => rfl
      | some q => cases h' : encodeJobs m q.2 <;> simp [h']
  | .skip x y b xdec ydec mono :: l, m, s => by
    rw [List.cons_append, encodeJobs, runJobs]
    cases h : Coef.resetSkip s x y b xdec ydec mono with
    | none => rfl
    | some r => simp only [Option.bind_eq_bind, Option.bind_some, jobs_append l m]
  | .row planes :: l, m, s => by rw [List.cons_append, encodeJobs, runJobs, jobs_append l m]
  | .other t :: l, m, s => by
    rw [List.cons_append, encodeJobs, runJobs, jobs_append l m]
    cases runJobs l s with
    | none => rfl
    | some q => cases h' : encodeJobs m q.2 <;> simp [h']

/-- What was coded comes back, and the contexts are the same again afterwards. -/
def Back (C : Cfg) (jobs : List Job) (read : Dec → Av1Spec.Rd (List Txb × Dec)) : Prop :=
  ∀ (s : Cx) (c : Av1Spec.Coef.Ctx) (types : Nat → Nat → Nat), Rel (if C.mono then 1 else 3) s c → ∃ t s' c' types',
    (∀ js, runJobs (jobs ++ js) s = (runJobs js s').map fun q => (t ++ q.1, q.2)) ∧ AllOk t ∧ Rel (if C.mono then 1 else 3) s' c' ∧
    ∀ ts, (read ⟨c, types⟩).onToks (t ++ ts) = some (((args jobs).map (txbOf C), ⟨c', types'⟩), ts)

theorem block_rt (O : Cor f C) (P : Placed f.g e) (H : Chosen C e) (K : CoefsOk C e) {itx : Nat → Nat → TxSize.Spec.Tx}
    (ht : ∀ r c, Inside e.row e.col e.bs.widthMi e.bs.heightMi r c → r < f.g.miRows → c < f.g.miCols → itx r c = px e.tx) :
    ∃ jobs, encodeBlock C e = some jobs ∧ Back C jobs (f.readBlock num itx e.hdr) := by
  cases hs : e.skip with
  | true =>
    have hw := write_skip O P H hs
    refine ⟨[.skip (e.col - C.col0) (e.row - C.row0) e.bs C.xdec C.ydec C.mono], ?_, ?_⟩
    · unfold encodeBlock; dsimp only; rw [hw, hs]; rfl
    · intro s c types hr
      obtain ⟨-, -, -, mw, mh, -⟩ := maxFacts P.shape
      have g1 := O.geo.row0
      have g2 := O.geo.col0
      have a1 := P.rowLo
      have a2 := P.colLo
      have r1 := room1024 mw P.colMod O.geo.col0 P.colHi O.width
      have r2 := room mh P.rowMod
      have w1 : 1 < e.bs.widthMi → (e.col - C.col0) % 2 = 0 := by
        intro h
        have hm := P.colMod
        rw [O.col0]
        clear * - mw hm h g2
        simp only [List.mem_cons, List.not_mem_nil, or_false] at mw
        rcases mw with h' | h' | h' | h' | h' <;> rw [h'] at hm h <;> omega
      have w2 : 1 < e.bs.heightMi → (e.row - C.row0) % 2 = 0 := by
        intro h
        have hm := P.rowMod
        rw [O.row0]
        clear * - mh hm h g1
        simp only [List.mem_cons, List.not_mem_nil, or_false] at mh
        rcases mh with h' | h' | h' | h' | h' <;> rw [h'] at hm h <;> omega
      obtain ⟨s', e1, r⟩ := Coef.wr_skip (x := e.col - C.col0) (y := e.row - C.row0) (bs := e.bs) (xdec := C.xdec) (ydec := C.ydec) (mono := C.mono)
        (b := ⟨e.col - f.g.colStart, e.row % 16, e.bs.widthMi, e.bs.heightMi, f.subX, f.subY, f.mono⟩)
        { miCol := by rw [O.col0]
          miRow := by show e.row % 16 = (e.row - C.row0) % 16; rw [O.row0]; clear * - g1 a1; omega
          bw4 := rfl
          bh4 := rfl
          subX := O.subX
          subY := O.subY
          mono := O.mono
          dec := by have := O.dec; clear * - this; simp only [decs, List.mem_cons, List.not_mem_nil, or_false, Prod.mk.injEq] at this; exact this
          alignX := w1
          alignY := w2
          roomX := by rw [O.col0]; clear * - r1 a2; omega
          roomY := by rw [O.row0]; clear * - r2 g1 a1; omega
          chroma := fun _ => by
            obtain ⟨pb, hpb, -⟩ := chromaFacts P.shape O.dec (fun h => H.vert (Prod.mk.inj h).1 (Prod.mk.inj h).2)
            rw [show e.bs.subsampled C.xdec C.ydec = some pb from hpb]
            exact Option.some_ne_none _ } hr
      refine ⟨[], s', _, types, fun js => ?_, fun _ h => absurd h (by simp), r, fun ts => ?_⟩
      · rw [List.cons_append, runJobs, e1, Option.bind_some]
        cases h : runJobs js s' <;> simp [h]
      · unfold Spec.Frame.readBlock
        rw [show e.hdr.skip = e.skip from rfl, hs, if_pos rfl]
        rfl
  | false =>
    obtain ⟨l, m, p, q, hw, hp, hl, hm, hcov⟩ := write_ok O P H hs ht
    have hb : encodeBlock C e = some ((l ++ m).map Job.coeffs) := by unfold encodeBlock; dsimp only; rw [hw, hs]; rfl
    have hK : ∀ a ∈ l ++ m, CoefOk a := fun a ha => K _ hb a (by rw [args_map]; exact ha)
    refine ⟨_, hb, ?_⟩
    intro s c types hr
    have hl' : List.Forall₂ (fun a p => placeOf C a = p ∧ ∀ types, (fun _ => True) types → Fits (if C.mono then 1 else 3) a (f.blk e.hdr p types)) l p := by
      have hK1 : ∀ a ∈ l, CoefOk a := fun a ha => hK a (List.mem_append_left _ ha)
      clear hK hb hw hcov
      revert hK1
      clear hp
      induction hl with
      | nil => intro _; exact .nil
      | cons h _ ih =>
        intro hK1
        exact .cons ⟨h.1, fun types _ => h.2.2.2 (hK1 _ (by simp)) types⟩ (ih fun a ha => hK1 a (List.mem_cons_of_mem _ ha))
    have hm' : List.Forall₂ (fun a p => placeOf C a = p ∧ ∀ types, TypesOk f e types → Fits (if C.mono then 1 else 3) a (f.blk e.hdr p types)) m q := by
      have hK1 : ∀ a ∈ m, CoefOk a := fun a ha => hK a (List.mem_append_right _ ha)
      clear hK hb hw hcov
      revert hK1
      clear hp
      induction hm with
      | nil => intro _; exact .nil
      | cons h _ ih =>
        intro hK1
        exact .cons ⟨h.1, fun types T => h.2.2 (hK1 _ (by simp)) types T⟩ (ih fun a ha => hK1 a (List.mem_cons_of_mem _ ha))
    obtain ⟨t1, s1, c1, e1, o1, r1, d1⟩ := txbs_rt (types := types) hl' (fun _ _ _ _ => trivial) hr trivial
    have hT : TypesOk f e (after C l types) := by
      intro hi r c hin h1 h2
      obtain ⟨p0, hp0, hp1⟩ := luma_cover P H hin h1 h2
      rw [← hcov] at hp0
      obtain ⟨a, ha, h3⟩ := forall₂_right hl p0 hp0
      refine after_zero l types (fun b hb => ?_) (Or.inr ⟨a, ha, ?_⟩)
      · obtain ⟨_, _, h4⟩ := forall₂_left hl b hb
        rw [h4.2.2.1]
        exact (types_inSet H.ty).2.2 hi
      · rw [h3.1]
        exact ⟨h3.2.1, hp1⟩
    have hid : ∀ a ∈ m, ∀ types, TypesOk f e types → TypesOk f e (Spec.setTypes (placeOf C a) (outOf a).type types) := by
      intro a ha types T
      obtain ⟨p0, -, h3⟩ := forall₂_left hm a ha
      unfold Spec.setTypes
      rw [if_neg (by rw [h3.1]; exact h3.2.1)]
      exact T
    obtain ⟨t2, s2, c2, e2, o2, r2, d2⟩ := txbs_rt (types := after C l types) hm' hid r1 hT
    refine ⟨t1 ++ t2, s2, c2, after C m (after C l types), fun js => ?_, o1.append o2, r2, fun ts => ?_⟩
    · rw [List.map_append, List.append_assoc, e1, e2]
      cases runJobs js s2 <;> simp
    · unfold Spec.Frame.readBlock
      rw [show e.hdr.skip = e.skip from rfl, hs, if_neg (by decide), hp, readTxbs_append, List.append_assoc, d1, Option.bind_some]
      dsimp only
      rw [d2, Option.bind_some, args_map, List.map_append]

/-! ### Tiles -/

theorem partition_shape {g : Geo} (t : Tree) : ∀ {n r c : Nat}, n ∈ [1, 2, 4, 8, 16] → t.Ok n → ∀ b ∈ g.partition n r c t, Shape b.bw4 b.bh4 := by
  induction t with
  | none a =>
    intro n r c hn _ b hb
    rw [Geo.partition] at hb
    split_ifs at hb
    · exact absurd hb (by simp)
    · rw [List.mem_singleton.1 hb]; exact ⟨n, hn, .inl ⟨rfl, rfl⟩⟩
  | horz a a' =>
    intro n r c hn ho b hb
    have hs : Shape n (n / 2) := ⟨n, hn, .inr (.inl ⟨ho, rfl, rfl⟩)⟩
    rw [Geo.partition] at hb
    split_ifs at hb
    · exact absurd hb (by simp)
    · simp only [List.mem_cons, List.not_mem_nil, or_false] at hb; rcases hb with rfl | rfl <;> exact hs
    · rw [List.mem_singleton.1 hb]; exact hs
  | vert a a' =>
    intro n r c hn ho b hb
    have hs : Shape (n / 2) n := ⟨n, hn, .inr (.inr ⟨ho, rfl, rfl⟩)⟩
    rw [Geo.partition] at hb
    split_ifs at hb
    · exact absurd hb (by simp)
    · simp only [List.mem_cons, List.not_mem_nil, or_false] at hb; rcases hb with rfl | rfl <;> exact hs
    · rw [List.mem_singleton.1 hb]; exact hs
  | split t0 t1 t2 t3 i0 i1 i2 i3 =>
    intro n r c hn ho b hb
    obtain ⟨h2n, o0, o1, o2, o3⟩ := ho
    have hm : n / 2 ∈ [1, 2, 4, 8, 16] := by
      simp only [List.mem_cons, List.not_mem_nil, or_false] at hn
      rcases hn with rfl | rfl | rfl | rfl | rfl <;> first | (exfalso; revert h2n; decide) | decide
    rw [Geo.partition] at hb
    split_ifs at hb
    · exact absurd hb (by simp)
    · simp only [List.mem_append] at hb
      rcases hb with ((hb | hb) | hb) | hb
      · exact i0 hm o0 b hb
      · exact i1 hm o1 b hb
      · exact i2 hm o2 b hb
      · exact i3 hm o3 b hb

/-- Where the blocks of a tile are. -/
theorem placed_of (O : Cor f C) {t : Nat → Nat → Tree} (ht : ∀ r c, (t r c).Ok 16) {rows : List (List Coded)}
    (hl : rows.map (·.map (·.base.rect)) = (List.range ((f.g.rowEnd - f.g.rowStart + 15) / 16)).map fun i => (sbRow f.g t i).map rectOf)
    {e : Coded} (he : e ∈ rows.flatten) : Placed f.g e := by
  have h1 : rows.flatten.map (·.base.rect) = (f.g.tile t).map rectOf := by
    rw [TxSize.tile_rows, List.map_flatten, List.map_flatten, hl, List.map_map]; rfl
  have h2 : e.base.rect ∈ (f.g.tile t).map rectOf := by rw [← h1]; exact List.mem_map_of_mem (f := fun e : Coded => e.base.rect) he
  obtain ⟨b, hb, hbe⟩ := List.mem_map.1 h2
  obtain ⟨pre, post, hsp⟩ := List.append_of_mem hb
  have L := Mvref.tile_leaf O.geo ht hsp
  have hin := L.inTile
  unfold Mvref.In at hin
  have s1 := L.sized.row
  have s2 := L.sized.col
  have hsh : Shape b.bw4 b.bh4 := by
    rw [TxSize.tile_rows] at hb
    obtain ⟨l, hl', hb⟩ := List.mem_flatten.1 hb
    obtain ⟨i, -, rfl⟩ := List.mem_map.1 hl'
    unfold TxSize.sbRow TxSize.sbs at hb
    obtain ⟨j, -, hb⟩ := List.mem_flatMap.1 hb
    exact partition_shape _ (by decide) (ht _ _) b hb
  have e1 : b.row = e.row := congrArg TxSize.Rect.row hbe
  have e2 : b.col = e.col := congrArg TxSize.Rect.col hbe
  have e3 : b.bw4 = e.bs.widthMi := congrArg TxSize.Rect.w hbe
  have e4 : b.bh4 = e.bs.heightMi := congrArg TxSize.Rect.h hbe
  rw [e1, e2] at hin
  rw [e1, e4] at s1
  rw [e2, e3] at s2
  rw [e3, e4] at hsh
  exact ⟨by omega, by omega, by omega, by omega, s1, s2, mem_shapes hsh⟩

/-- The sizes of transforms that the decoder has for the blocks of a tile. -/
def Sizes (f : Frame) (itx : Nat → Nat → TxSize.Spec.Tx) (e : Coded) : Prop :=
  ∀ r c, Inside e.row e.col e.bs.widthMi e.bs.heightMi r c → r < f.g.miRows → c < f.g.miCols → itx r c = px e.tx

theorem row_rt (O : Cor f C) {itx : Nat → Nat → TxSize.Spec.Tx} (l : List Coded) (P : ∀ e ∈ l, Placed f.g e) (H : ∀ e ∈ l, Chosen C e)
    (K : ∀ e ∈ l, CoefsOk C e) (ht : ∀ e ∈ l, Sizes f itx e) :
    ∃ jobs, encodeRow C l = some jobs ∧ Back C jobs (f.readRow num itx (l.map Coded.hdr)) := by
  induction l with
  | nil => exact ⟨[], rfl, fun s c types hr => ⟨[], s, c, types, fun js => by cases h : runJobs js s <;> simp [h], by intro x hx; exact absurd hx (by simp), hr, fun ts => rfl⟩⟩
  | cons e l ih =>
    obtain ⟨j1, e1, b1⟩ := block_rt O (P e (by simp)) (H e (by simp)) (K e (by simp)) (ht e (by simp))
    obtain ⟨j2, e2, b2⟩ := ih (fun x hx => P x (by simp [hx])) (fun x hx => H x (by simp [hx])) (fun x hx => K x (by simp [hx])) (fun x hx => ht x (by simp [hx]))
    refine ⟨j1 ++ j2, by simp [encodeRow, e1, e2], fun s c types hr => ?_⟩
    obtain ⟨t1, s1, c1, ty1, a1, o1, r1, d1⟩ := b1 s c types hr
    obtain ⟨t2, s2, c2, ty2, a2, o2, r2, d2⟩ := b2 s1 c1 ty1 r1
    refine ⟨t1 ++ t2, s2, c2, ty2, fun js => ?_, o1.append o2, r2, fun ts => ?_⟩
    · rw [List.append_assoc, a1, a2]; cases runJobs js s2 <;> simp
    · rw [List.map_cons, Spec.Frame.readRow, onToks_bind, List.append_assoc, d1, Option.bind_some]
      dsimp only
      rw [onToks_bind, d2, Option.bind_some, args_append, List.map_append]
      rfl

theorem rows_rt (O : Cor f C) {itx : Nat → Nat → TxSize.Spec.Tx} (rows : List (List Coded)) (P : ∀ l ∈ rows, ∀ e ∈ l, Placed f.g e)
    (H : ∀ l ∈ rows, ∀ e ∈ l, Chosen C e) (K : ∀ l ∈ rows, ∀ e ∈ l, CoefsOk C e) (ht : ∀ l ∈ rows, ∀ e ∈ l, Sizes f itx e) :
    ∃ jobs, encodeRows C rows = some jobs ∧ ∀ (s : Cx) (c : Av1Spec.Coef.Ctx) (types : Nat → Nat → Nat), Rel (if C.mono then 1 else 3) s c →
      ∃ t, encodeJobs jobs s = some t ∧ AllOk t ∧
        ∀ ts, (f.readRows num itx (rows.map (·.map Coded.hdr)) ⟨c, types⟩).onToks (t ++ ts) = some ((args jobs).map (txbOf C), ts) := by
  induction rows with
  | nil => exact ⟨[], rfl, fun s c types hr => ⟨[], rfl, by intro x hx; exact absurd hx (by simp), fun ts => rfl⟩⟩
  | cons l ls ih =>
    obtain ⟨j1, e1, b1⟩ := row_rt O l (P l (by simp)) (H l (by simp)) (K l (by simp)) (ht l (by simp))
    obtain ⟨j2, e2, b2⟩ := ih (fun x hx => P x (by simp [hx])) (fun x hx => H x (by simp [hx])) (fun x hx => K x (by simp [hx])) (fun x hx => ht x (by simp [hx]))
    refine ⟨Job.row (if C.mono then 1 else 3) :: j1 ++ j2, by simp [encodeRows, e1, e2], fun s c types hr => ?_⟩
    obtain ⟨t1, s1, c1, ty1, a1, o1, r1, d1⟩ := b1 _ _ types (Coef.row_ok hr)
    obtain ⟨t2, a2, o2, d2⟩ := b2 s1 c1 ty1 r1
    refine ⟨t1 ++ t2, ?_, o1.append o2, fun ts => ?_⟩
    · have h1 := a1 []
      rw [List.append_nil, runJobs] at h1
      rw [List.cons_append, encodeJobs, jobs_append, h1, Option.map_some, Option.bind_some, List.append_nil]
      dsimp only
      rw [a2]; rfl
    · rw [List.map_cons, Spec.Frame.readRows, onToks_bind, List.append_assoc]
      dsimp only
      rw [d1, Option.bind_some]
      dsimp only
      rw [onToks_bind, d2, Option.bind_some, List.cons_append]
      rw [show args (Job.row (if C.mono then 1 else 3) :: (j1 ++ j2)) = args j1 ++ args j2 from args_append j1 j2, List.map_append]
      rfl

/-- What is coded is what came out of the quantizer for the place. -/
theorem calls_mem {ι : Type} {g : ι → Option (List Arg)} {Q : Arg → Prop} (h : ∀ i as, g i = some as → ∀ a ∈ as, Q a) :
    ∀ (l : List ι) (as : List Arg), calls g l = some as → ∀ a ∈ as, Q a := by
  intro l
  induction l with
  | nil => intro as e a ha; cases e; exact absurd ha (by simp)
  | cons i l ih =>
    intro as e a ha
    unfold calls at e
    obtain ⟨x, hx, e⟩ := Option.bind_eq_some_iff.1 e
    obtain ⟨y, hy, rfl⟩ := Option.map_eq_some_iff.1 e
    rcases List.mem_append.1 ha with ha | ha
    · exact h i x hx a ha
    · exact ih y hy a ha

/-- A transform block of `e`. -/
def From (e : Coded) (a : Arg) : Prop := e.skip = false ∧ (a.coeffs, a.eob) = e.q a.plane a.x a.y

theorem txBlock_from {s : Site} {as : List Arg} (h : encodeTxBlock C e s = some as) : ∀ a ∈ as, From e a := by
  intro a ha
  unfold encodeTxBlock at h
  by_cases h0 : s.x ≥ C.cols ∨ s.y ≥ C.rows
  · rw [if_pos h0] at h; cases h; exact absurd ha (by simp)
  · rw [if_neg h0] at h
    obtain ⟨pb, -, h⟩ := Option.bind_eq_some_iff.1 h
    by_cases hs : e.skip = true
    · rw [if_pos hs] at h; cases h; exact absurd ha (by simp)
    · rw [if_neg hs] at h
      cases h
      rw [List.mem_singleton.1 ha]
      exact ⟨by simpa using hs, rfl⟩

theorem luma_from {x y : Nat} {as : List Arg} (h : luma C e x y = some as) : ∀ a ∈ as, From e a :=
  calls_mem (fun _ _ h => txBlock_from h) _ _ h

theorem chroma_from {x y w h mode : Nat} {uv : Quant.TxSize} {ty : TxType} {as : List Arg} (hc : chroma C e x y w h mode uv ty = some as) :
    ∀ a ∈ as, From e a := by
  refine calls_mem (fun _ _ h1 => calls_mem (fun _ _ h2 => ?_) _ _ h1) _ _ hc
  obtain ⟨_, -, h2⟩ := Option.bind_eq_some_iff.1 h2
  obtain ⟨_, -, h2⟩ := Option.bind_eq_some_iff.1 h2
  exact txBlock_from h2

theorem block_from {jobs : List Job} (h : encodeBlock C e = some jobs) : ∀ a ∈ args jobs, From e a := by
  unfold encodeBlock at h
  obtain ⟨l, hl, rfl⟩ := Option.map_eq_some_iff.1 h
  have : args ((if e.skip = true then [Job.skip (e.col - C.col0) (e.row - C.row0) e.bs C.xdec C.ydec C.mono] else []) ++ l.map Job.coeffs) = l := by
    rw [args_append, args_map]; split_ifs <;> rfl
  rw [this]
  intro a ha
  split_ifs at hl with hi
  · unfold writeTxTree at hl
    by_cases hs : e.skip = true
    · rw [if_pos hs] at hl; cases hl; exact absurd ha (by simp)
    · rw [if_neg hs] at hl
      obtain ⟨x, hx, hl⟩ := Option.bind_eq_some_iff.1 hl
      by_cases hc : Coef.hasChroma (e.col - C.col0) (e.row - C.row0) e.bs C.xdec C.ydec C.mono = true
      · rw [if_pos hc] at hl
        obtain ⟨_, -, hl⟩ := Option.bind_eq_some_iff.1 hl
        obtain ⟨y, hy, rfl⟩ := Option.map_eq_some_iff.1 hl
        rcases List.mem_append.1 ha with ha | ha
        · exact luma_from hx a ha
        · exact chroma_from hy a ha
      · rw [if_neg hc] at hl; cases hl; exact luma_from hx a ha
  · unfold writeTxBlocks at hl
    obtain ⟨x, hx, hl⟩ := Option.bind_eq_some_iff.1 hl
    by_cases hc : Coef.hasChroma (e.col - C.col0) (e.row - C.row0) e.bs C.xdec C.ydec C.mono = true
    · rw [if_pos hc] at hl
      obtain ⟨_, -, hl⟩ := Option.bind_eq_some_iff.1 hl
      obtain ⟨_, -, hl⟩ := Option.bind_eq_some_iff.1 hl
      obtain ⟨y, hy, rfl⟩ := Option.map_eq_some_iff.1 hl
      rcases List.mem_append.1 ha with ha | ha
      · exact luma_from hx a ha
      · exact chroma_from hy a ha
    · rw [if_neg hc] at hl; cases hl; exact luma_from hx a ha

theorem row_from {l : List Coded} : ∀ {jobs : List Job}, encodeRow C l = some jobs → ∀ a ∈ args jobs, ∃ e ∈ l, From e a := by
  induction l with
  | nil => intro jobs h a ha; cases h; exact absurd ha (by simp [args])
  | cons e l ih =>
    intro jobs h a ha
    unfold encodeRow at h
    obtain ⟨x, hx, h⟩ := Option.bind_eq_some_iff.1 h
    obtain ⟨y, hy, rfl⟩ := Option.map_eq_some_iff.1 h
    rw [args_append] at ha
    rcases List.mem_append.1 ha with ha | ha
    · exact ⟨e, by simp, block_from hx a ha⟩
    · obtain ⟨e', h1, h2⟩ := ih hy a ha
      exact ⟨e', by simp [h1], h2⟩

theorem rows_from {rows : List (List Coded)} : ∀ {jobs : List Job}, encodeRows C rows = some jobs → ∀ a ∈ args jobs, ∃ e ∈ rows.flatten, From e a := by
  induction rows with
  | nil => intro jobs h a ha; cases h; exact absurd ha (by simp [args])
  | cons l ls ih =>
    intro jobs h a ha
    unfold encodeRows at h
    obtain ⟨x, hx, h⟩ := Option.bind_eq_some_iff.1 h
    obtain ⟨y, hy, rfl⟩ := Option.map_eq_some_iff.1 h
    have ha : a ∈ args x ++ args y := by rw [← args_append]; exact ha
    rw [List.flatten_cons]
    rcases List.mem_append.1 ha with ha | ha
    · obtain ⟨e, h1, h2⟩ := row_from hx a ha
      exact ⟨e, List.mem_append_left _ h1, h2⟩
    · obtain ⟨e, h1, h2⟩ := ih hy a ha
      exact ⟨e, List.mem_append_right _ h1, h2⟩

theorem tile_rt (O : Cor f C) {t : Nat → Nat → Tree} (ht : ∀ r c, (t r c).Ok 16) (rows : List (List Coded))
    (hl : rows.map (·.map (·.base.rect)) = (List.range ((f.g.rowEnd - f.g.rowStart + 15) / 16)).map fun i => (sbRow f.g t i).map rectOf)
    (H : ∀ l ∈ rows, ∀ e ∈ l, Chosen C e) (K : ∀ l ∈ rows, ∀ e ∈ l, CoefsOk C e) {itx : Nat → Nat → TxSize.Spec.Tx}
    (hi : ∀ e ∈ rows.flatten, Sizes f itx e) (types : Nat → Nat → Nat) :
    ∃ jobs toks, encodeRows C rows = some jobs ∧ encodeTile C rows = some toks ∧ AllOk toks ∧
      ∀ rest, (f.readTile num itx (rows.map (·.map Coded.hdr)) types).onToks (toks ++ rest) = some ((args jobs).map (txbOf C), rest) := by
  have mem : ∀ l ∈ rows, ∀ e ∈ l, e ∈ rows.flatten := fun l hl e he => List.mem_flatten.2 ⟨l, hl, he⟩
  obtain ⟨jobs, e1, b⟩ := rows_rt O rows (fun l h e he => placed_of O ht hl (mem l h e he)) H K (fun l h e he => hi e (mem l h e he))
  obtain ⟨t, e2, ok, d⟩ := b Cx.new .start types (Coef.rel_start C.mono)
  exact ⟨jobs, t, e1, by unfold encodeTile; rw [e1]; exact e2, ok, d⟩

/-- **C64.**  For every tile, every partition of it, every choice of modes, `skip`, transform sizes and types that the settings allow, every quantized
coefficients and whatever follows: the encoder does not panic, and a decoder, which knows the sizes and modes of the blocks and `skip`, has read the sizes of
the transforms as in `tx_sizes_decoder` (from the symbols `sizes`) and finds by itself where the transform blocks of the three planes are, reads from what the
encoder writes the transform blocks that the encoder coded, each at its place in the frame, with its type and its coefficients.  `jobs` is what the encoder
does for the tile, `args` are the transform blocks in it, and what they hold is what the quantizer made of the block there. -/
theorem residual_decoder (O : Cor f C) {t : Nat → Nat → Tree} (ht : ∀ r c, (t r c).Ok 16) (rows : List (List Coded))
    (hl : rows.map (·.map (·.base.rect)) = (List.range ((f.g.rowEnd - f.g.rowStart + 15) / 16)).map fun i => (sbRow f.g t i).map rectOf)
    (H : ∀ l ∈ rows, ∀ e ∈ l, Chosen C e) (K : ∀ l ∈ rows, ∀ e ∈ l, CoefsOk C e) (types : Nat → Nat → Nat) (sizes : List TxSize.Spec.Sym) :
    ∃ jobs toks D, encodeRows C rows = some jobs ∧ encodeTile C rows = some toks ∧
      (∀ a ∈ args jobs, ∃ e ∈ rows.flatten, e.skip = false ∧ (a.coeffs, a.eob) = e.q a.plane a.x a.y) ∧
      TxSize.Spec.readTile f.g C.select (rows.flatten.map (·.base.hdr)) TxSize.Spec.start
          ((TxSize.encodeRows C.toCfg C.row0 C.col0 (rows.map (·.map Coded.base)) TxSize.init).1 ++ sizes) =
        some (rows.flatten.map (fun e => px e.tx), D, sizes) ∧
      ∀ rest, (f.readTile num D.itx (rows.map (·.map Coded.hdr)) types).onToks (toks ++ rest) = some ((args jobs).map (txbOf C), rest) := by
  have h1 : (rows.map (·.map Coded.base)).map (·.map TxSize.Coded.rect) =
      (List.range ((f.g.rowEnd - f.g.rowStart + 15) / 16)).map fun i => (sbRow f.g t i).map rectOf := by
    rw [← hl, List.map_map]; simp [Function.comp_def]
  obtain ⟨D, d1, d2⟩ := TxSize.tx_sizes_decoder (C := C.toCfg) O.geo ht O.rows O.cols _ h1 (by
    intro l hl' e he
    obtain ⟨l0, h0, rfl⟩ := List.mem_map.1 hl'
    obtain ⟨e0, h0', rfl⟩ := List.mem_map.1 he
    exact (H l0 h0 e0 h0').tx) sizes
  have hf : (rows.map (·.map Coded.base)).flatten = rows.flatten.map Coded.base := by rw [List.map_flatten]
  obtain ⟨jobs, toks, e1, e2, -, d⟩ := tile_rt O ht rows hl H K (itx := D.itx)
    (fun e he r c h a b => d2 e.base (by rw [hf]; exact List.mem_map_of_mem he) r c h a b) types
  refine ⟨jobs, toks, D, e1, e2, rows_from e1, ?_, d⟩
  rw [hf, List.map_map, List.map_map] at d1
  rw [O.row0, O.col0]
  exact d1

/-- The same for the bytes of the tile, with any CDFs that the frame may start from. -/
theorem residual_decoder_bytes (m : Cdf.Mem) (hm : Cdf.AllWf m) (O : Cor f C) {t : Nat → Nat → Tree} (ht : ∀ r c, (t r c).Ok 16) (rows : List (List Coded))
    (hl : rows.map (·.map (·.base.rect)) = (List.range ((f.g.rowEnd - f.g.rowStart + 15) / 16)).map fun i => (sbRow f.g t i).map rectOf)
    (H : ∀ l ∈ rows, ∀ e ∈ l, Chosen C e) (K : ∀ l ∈ rows, ∀ e ∈ l, CoefsOk C e) {itx : Nat → Nat → TxSize.Spec.Tx}
    (hi : ∀ e ∈ rows.flatten, Sizes f itx e) (types : Nat → Nat → Nat) :
    ∃ jobs toks, encodeRows C rows = some jobs ∧ encodeTile C rows = some toks ∧
      ((f.readTile num itx (rows.map (·.map Coded.hdr)) types).onDec ((Coef.rows m).map toSpec)
        (Av1Spec.Dec.init (Ec.encodeTile (toSyms (Coef.rows m) toks)))).1 = (args jobs).map (txbOf C) := by
  obtain ⟨jobs, toks, e1, e2, ok, d⟩ := tile_rt O ht rows hl H K hi types
  have := d []
  rw [List.append_nil] at this
  exact ⟨jobs, toks, e1, e2, syntax_roundtrip _ _ (Coef.rows_wf hm) _ (Coef.toksOk_rows m ok) _ _ this⟩

/-! ### An inter frame of 56x40 pixels in 4:2:0, with the blocks of the example of C63 -/

/-- Whether coefficients and their number fit together. -/
def coefCheck (a : Arg) : Bool :=
  let scan := (Quant.specOrder a.tx a.ty).map (Quant.storage (Quant.codedH a.tx))
  a.coeffs.length == Quant.codedW a.tx * Quant.codedH a.tx && a.coeffs.all (fun v => decide (v.natAbs < 2 ^ 20)) && decide (a.eob ≤ scan.length) &&
    (scan.drop a.eob).all (fun p => a.coeffs[p]? == some 0) &&
    (a.eob == 0 || (match scan[a.eob - 1]? with | some p => (match a.coeffs[p]? with | some v => v != 0 | none => false) | none => false))

theorem coefOk_of {a : Arg} (h : coefCheck a = true) : CoefOk a := by
  unfold coefCheck at h
  simp only [Bool.and_eq_true, beq_iff_eq, List.all_eq_true, decide_eq_true_eq, Bool.or_eq_true] at h
  obtain ⟨⟨⟨⟨h1, h2⟩, h3⟩, h4⟩, h5⟩ := h
  refine ⟨h1, h2, h3, fun j p hj hp => ?_, fun h0 => ?_⟩
  · refine h4 p (List.mem_of_getElem? (i := j - a.eob) ?_)
    rw [List.getElem?_drop, show a.eob + (j - a.eob) = j by omega]
    exact hp
  · rcases h5 with h5 | h5
    · omega
    · split at h5
      · rename_i p hp
        split at h5
        · rename_i v hv
          exact ⟨p, v, hp, hv, by simpa using h5⟩
        · exact absurd h5 (by decide)
      · exact absurd h5 (by decide)

/-- The frame. -/
def exFrame : Frame := { g := TxSize.exGeo, subX := 1, subY := 1, mono := false, reduced := false }

/-- The settings. -/
def exCfg : Cfg := { TxSize.exCfg with row0 := 0, col0 := 0, wInB := 14, hInB := 10, xdec := 1, ydec := 1, mono := false, reduced := false }

/-- Quantized coefficients: one in every transform block of the planes 0 and 1, none in plane 2. -/
def exQ (luma chroma : Nat) (v : Int) (plane x y : Nat) : List Int × Nat :=
  let w : Int := v + Int.ofNat x - Int.ofNat y
  if plane = 0 then (w :: List.replicate (luma - 1) 0, if w = 0 then 0 else 1)
  else if plane = 1 then (-v :: List.replicate (chroma - 1) 0, 1)
  else (List.replicate chroma 0, 0)

/-- The blocks. -/
def exRows : List (List Coded) :=
  [[⟨0, 0, .b32x32, 15, 0, false, .tx16x16, .dctDct, exQ 256 256 3⟩, ⟨0, 8, .b16x32, 1, 2, false, .tx8x8, .adstAdst, exQ 64 128 5⟩,
    ⟨0, 12, .b16x32, 15, 0, false, .tx16x16, .dctDct, exQ 256 128 (-12)⟩, ⟨8, 0, .b16x16, 15, 0, true, .tx16x16, .dctDct, exQ 256 64 1⟩,
    ⟨8, 4, .b16x8, 15, 0, false, .tx8x8, .dctDct, exQ 64 32 4⟩, ⟨8, 8, .b8x8, 0, 0, true, .tx8x8, .dctDct, exQ 64 16 1⟩,
    ⟨8, 10, .b8x4, 4, 4, false, .tx4x4, .idtx, exQ 16 16 1⟩, ⟨9, 10, .b8x4, 15, 0, false, .tx4x4, .dctDct, exQ 16 16 2⟩,
    ⟨8, 12, .b16x16, 9, 13, false, .tx4x4, .dctAdst, exQ 16 64 7⟩]]

theorem exCor : Cor exFrame exCfg where
  geo := TxSize.exGeo_ok
  rows := rfl
  cols := rfl
  row0 := rfl
  col0 := rfl
  wInB := rfl
  hInB := rfl
  subX := rfl
  subY := rfl
  mono := rfl
  reduced := rfl
  dec := by decide
  width := by decide

theorem exRows_rect : exRows.map (·.map (·.base.rect)) =
    (List.range ((exFrame.g.rowEnd - exFrame.g.rowStart + 15) / 16)).map fun i => (sbRow exFrame.g (fun _ _ => TxSize.exTree) i).map rectOf :=
  TxSize.exRows_ok

theorem exRows_chosen : ∀ l ∈ exRows, ∀ e ∈ l, Chosen exCfg e := by
  have h1 : ∀ l ∈ exRows.map (·.map Coded.base), ∀ b ∈ l, TxSize.Chosen exCfg.toCfg b := TxSize.exRows_chosen
  have h2 : ∀ l ∈ exRows, ∀ e ∈ l, e.ty ∈ rdoTypes exCfg e.tx e.inter e.skip ∧ (e.inter = false → e.mode < 13) ∧ (e.inter = false → e.uvMode < 14) := by
    decide +kernel
  intro l hl e he
  obtain ⟨a, b, c⟩ := h2 l hl e he
  exact ⟨h1 _ (List.mem_map_of_mem hl) _ (List.mem_map_of_mem he), a, b, c, fun _ h => absurd h (by decide)⟩

theorem exRows_check : (exRows.all fun l => l.all fun e => match encodeBlock exCfg e with | some jobs => (args jobs).all coefCheck | none => false) = true := by
  decide +kernel

theorem exRows_coefs : ∀ l ∈ exRows, ∀ e ∈ l, CoefsOk exCfg e := by
  intro l hl e he jobs hj a ha
  have h := List.all_eq_true.1 (List.all_eq_true.1 exRows_check l hl) e he
  rw [hj] at h
  exact coefOk_of (List.all_eq_true.1 h a ha)

/-- The hypotheses of `residual_decoder` hold of these blocks. -/
example (sizes : List TxSize.Spec.Sym) : ∃ jobs toks D, encodeRows exCfg exRows = some jobs ∧ encodeTile exCfg exRows = some toks ∧
      (∀ a ∈ args jobs, ∃ e ∈ exRows.flatten, e.skip = false ∧ (a.coeffs, a.eob) = e.q a.plane a.x a.y) ∧
      TxSize.Spec.readTile exFrame.g exCfg.select (exRows.flatten.map (·.base.hdr)) TxSize.Spec.start
          ((TxSize.encodeRows exCfg.toCfg 0 0 (exRows.map (·.map Coded.base)) TxSize.init).1 ++ sizes) =
        some (exRows.flatten.map (fun e => px e.tx), D, sizes) ∧
      ∀ rest, (exFrame.readTile num D.itx (exRows.map (·.map Coded.hdr)) fun _ _ => 0).onToks (toks ++ rest) = some ((args jobs).map (txbOf exCfg), rest) :=
  residual_decoder exCor (fun _ _ => TxSize.exTree_ok) exRows exRows_rect exRows_chosen exRows_coefs (fun _ _ => 0) sizes

/-- The transform blocks of these blocks: plane, place, size and number of coefficients.  The ones beyond the edges of the frame are left out, and the chroma
of the two 8x4 blocks is coded with the second. -/
example : (encodeRows exCfg exRows).map (fun jobs => (args jobs).map fun a =>
      [(placeOf exCfg a).plane, (placeOf exCfg a).x, (placeOf exCfg a).y, a.tx.width, a.tx.height, a.eob]) =
    some
      [[0, 0, 0, 16, 16, 1], [0, 16, 0, 16, 16, 1], [0, 0, 16, 16, 16, 1], [0, 16, 16, 16, 16, 1], [1, 0, 0, 16, 16, 1],
        [2, 0, 0, 16, 16, 0], [0, 32, 0, 8, 8, 1], [0, 40, 0, 8, 8, 1], [0, 32, 8, 8, 8, 1], [0, 40, 8, 8, 8, 1],
        [0, 32, 16, 8, 8, 1], [0, 40, 16, 8, 8, 1], [0, 32, 24, 8, 8, 1], [0, 40, 24, 8, 8, 1], [1, 16, 0, 8, 16, 1],
        [2, 16, 0, 8, 16, 0], [0, 48, 0, 16, 16, 0], [0, 48, 16, 16, 16, 1], [1, 24, 0, 8, 16, 1], [2, 24, 0, 8, 16, 0],
        [0, 16, 32, 8, 8, 0], [0, 24, 32, 8, 8, 1], [1, 8, 16, 8, 4, 1], [2, 8, 16, 8, 4, 0], [0, 40, 32, 4, 4, 1],
        [0, 44, 32, 4, 4, 1], [0, 40, 36, 4, 4, 1], [0, 44, 36, 4, 4, 1], [1, 20, 16, 4, 4, 1], [2, 20, 16, 4, 4, 0],
        [0, 48, 32, 4, 4, 1], [0, 52, 32, 4, 4, 1], [0, 48, 36, 4, 4, 1], [0, 52, 36, 4, 4, 1], [1, 24, 16, 8, 8, 1],
        [2, 24, 16, 8, 8, 0]] := by decide +kernel

/-! ### Transforms of inter blocks that are not DCT -/

/-- An inter block of 16x16 pixels with transforms of 8x8, the first of which has no coefficients, and a type other than DCT. -/
def odd : Coded :=
  ⟨0, 0, .b16x16, 15, 0, false, .tx8x8, .idtx, fun plane x y => if plane = 0 ∧ x = 0 ∧ y = 0 then (List.replicate 64 0, 0) else (1 :: List.replicate 63 0, 1)⟩

/-- The types that the decoder gets. -/
def oddRead : Option (List Nat) :=
  (encodeTile exCfg [[odd]]).bind fun t =>
    ((exFrame.readTile num (fun _ _ => (8, 8)) [[odd.hdr]] fun _ _ => 0).onToks t).map fun r => r.1.map fun b => b.out.type

/-- The type of chroma transforms of inter blocks is the one of the luma transform at the same place: for the decoder this is DCT if there are no coefficients,
while `write_tx_tree` uses the type that was chosen for the block if any of its luma transforms has coefficients.  So chroma would be decoded with another type,
if the encoder ever chose one other than DCT for inter blocks, which it does not (`rdoTypes`). -/
theorem inter_type_misread : oddRead ≠ (encodeRows exCfg [[odd]]).map fun jobs => (args jobs).map fun a => (outOf a).type := by decide +kernel

end Rav1e.Resid

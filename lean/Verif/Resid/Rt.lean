import Verif.Resid.Blocks
import Mathlib.Data.List.Forall2

/-!
# Reading back a block
-/

namespace Rav1e.Resid

open Coef (BlockSize Arg Job Cx Fits outOf Rel num AllOk Toks encodeJobs wr_block)
open Quant (TxType)
open Spec (Frame Hdr Place Txb Dec)
open TxSize.Spec (Inside)
open Rav1e.Ec (onToks_bind)

variable {f : Frame} {C : Cfg} {e : Coded}

/-- What the decoder should get for a transform block. -/
def txbOf (C : Cfg) (a : Arg) : Txb := ⟨placeOf C a, outOf a⟩

/-- `TxTypes` after these transform blocks. -/
def after (C : Cfg) (as : List Arg) (types : Nat → Nat → Nat) : Nat → Nat → Nat :=
  as.foldl (fun ty a => Spec.setTypes (placeOf C a) (outOf a).type ty) types

theorem readTxbs_append {h : Hdr} : ∀ (ps qs : List Place) (D : Dec) (ts : Toks),
    (f.readTxbs num h (ps ++ qs) D).onToks ts =
      ((f.readTxbs num h ps D).onToks ts).bind fun r => ((f.readTxbs num h qs r.1.2).onToks r.2).bind fun q => some ((r.1.1 ++ q.1.1, q.1.2), q.2) := by
  intro ps
  induction ps with
  | nil =>
    intro qs D ts
    show (f.readTxbs num h qs D).onToks ts = ((f.readTxbs num h qs D).onToks ts).bind fun q => some (([] ++ q.1.1, q.1.2), q.2)
    cases (f.readTxbs num h qs D).onToks ts <;> rfl
  | cons p ps ih =>
    intro qs D ts
    rw [List.cons_append, Spec.Frame.readTxbs, Spec.Frame.readTxbs, onToks_bind, onToks_bind, Option.bind_assoc]
    congr 1
    funext r
    rw [onToks_bind, onToks_bind, ih, Option.bind_assoc, Option.bind_assoc]
    congr 1
    funext q
    rw [Option.bind_assoc]
    rfl

/-- A list of transform blocks comes back. -/
theorem txbs_rt {planes : Nat} {h : Hdr} {T : (Nat → Nat → Nat) → Prop} : ∀ {as : List Arg} {ps : List Place},
    List.Forall₂ (fun a p => placeOf C a = p ∧ ∀ types, T types → Fits planes a (f.blk h p types)) as ps →
    (∀ a ∈ as, ∀ types, T types → T (Spec.setTypes (placeOf C a) (outOf a).type types)) →
    ∀ {s : Cx} {c : Av1Spec.Coef.Ctx} {types : Nat → Nat → Nat}, Rel planes s c → T types →
    ∃ t s' c', (∀ js, runJobs (as.map Job.coeffs ++ js) s = (runJobs js s').map fun q => (t ++ q.1, q.2)) ∧ AllOk t ∧ Rel planes s' c' ∧
      ∀ ts, (f.readTxbs num h ps ⟨c, types⟩).onToks (t ++ ts) = some ((as.map (txbOf C), ⟨c', after C as types⟩), ts) := by
  intro as ps h2
  induction h2 with
  | nil =>
    intro _ s c types hr _
    exact ⟨[], s, c, fun js => by cases h : runJobs js s <;> simp [h], fun _ h => absurd h (by simp), hr, fun ts => rfl⟩
  | @cons a p as ps hap _ ih =>
    intro hT s c types hr ht
    obtain ⟨rfl, hf⟩ := hap
    obtain ⟨t1, s1, c1, e1, o1, r1, d1⟩ := wr_block (hf types ht) hr
    obtain ⟨t2, s2, c2, e2, o2, r2, d2⟩ := ih (fun b hb => hT b (List.mem_cons_of_mem _ hb)) r1 (hT a (by simp) types ht)
    refine ⟨t1 ++ t2, s2, c2, fun js => ?_, o1.append o2, r2, fun ts => ?_⟩
    · rw [List.map_cons, List.cons_append, runJobs, e1, Option.bind_some]
      dsimp only
      rw [e2]
      cases runJobs js s2 <;> simp
    · rw [Spec.Frame.readTxbs, onToks_bind, List.append_assoc, d1, Option.bind_some]
      dsimp only
      rw [onToks_bind, d2, Option.bind_some]
      rfl

/-- The transform types of the luma plane of an inter block are known to be `DCT_DCT`. -/
def TypesOk (f : Frame) (e : Coded) (types : Nat → Nat → Nat) : Prop :=
  e.inter = true → ∀ r c, Inside e.row e.col e.bs.widthMi e.bs.heightMi r c → r < f.g.miRows → c < f.g.miCols → types r c = 0

theorem after_zero {r c : Nat} : ∀ (as : List Arg) (types : Nat → Nat → Nat), (∀ a ∈ as, a.ty = .dctDct) →
    (types r c = 0 ∨ ∃ a ∈ as, (placeOf C a).plane = 0 ∧ Inside ((placeOf C a).y / 4) ((placeOf C a).x / 4) ((placeOf C a).tx.1 / 4) ((placeOf C a).tx.2 / 4) r c) →
    after C as types r c = 0 := by
  intro as
  induction as with
  | nil =>
    intro types _ h
    rcases h with h | ⟨a, ha, _⟩
    · exact h
    · exact absurd ha (by simp)
  | cons a as ih =>
    intro types hd h
    have h0 : (outOf a).type = 0 := by
      show (if a.eob = 0 then 0 else a.ty.idx) = 0
      rw [hd a (by simp)]; split_ifs <;> rfl
    refine ih _ (fun b hb => hd b (List.mem_cons_of_mem _ hb)) ?_
    dsimp only
    rw [h0]
    rcases h with h | ⟨b, hb, h1, h2⟩
    · left
      unfold Spec.setTypes
      split_ifs
      · dsimp only; split_ifs
        · rfl
        · exact h
      · exact h
    · rcases List.mem_cons.1 hb with rfl | hb
      · left
        unfold Spec.setTypes
        rw [if_pos h1, if_pos h2]
      · exact Or.inr ⟨b, hb, h1, h2⟩

theorem forall₂_left {α β : Type} {R : α → β → Prop} : ∀ {l : List α} {m : List β}, List.Forall₂ R l m → ∀ a ∈ l, ∃ b ∈ m, R a b := by
  intro l m h
  induction h with
  | nil => intro a ha; exact absurd ha (by simp)
  | cons hr _ ih =>
    intro a ha
    rcases List.mem_cons.1 ha with rfl | ha
    · exact ⟨_, by simp, hr⟩
    · obtain ⟨b, hb, h⟩ := ih a ha; exact ⟨b, List.mem_cons_of_mem _ hb, h⟩

theorem forall₂_right {α β : Type} {R : α → β → Prop} : ∀ {l : List α} {m : List β}, List.Forall₂ R l m → ∀ b ∈ m, ∃ a ∈ l, R a b := by
  intro l m h
  induction h with
  | nil => intro a ha; exact absurd ha (by simp)
  | cons hr _ ih =>
    intro a ha
    rcases List.mem_cons.1 ha with rfl | ha
    · exact ⟨_, by simp, hr⟩
    · obtain ⟨b, hb, h⟩ := ih a ha; exact ⟨b, List.mem_cons_of_mem _ hb, h⟩

/-- What holds of a luma transform block and the place where the decoder looks for it. -/
def LumaRel (f : Frame) (C : Cfg) (e : Coded) (a : Arg) (p : Place) : Prop :=
  placeOf C a = p ∧ p.plane = 0 ∧ a.ty = e.ty ∧ (CoefOk a → ∀ types, Fits (if C.mono then 1 else 3) a (f.blk e.hdr p types))

/-- What holds of a chroma transform block and the place where the decoder looks for it. -/
def ChromaRel (f : Frame) (C : Cfg) (e : Coded) (a : Arg) (p : Place) : Prop :=
  placeOf C a = p ∧ p.plane ≠ 0 ∧ (CoefOk a → ∀ types, TypesOk f e types → Fits (if C.mono then 1 else 3) a (f.blk e.hdr p types))

/-- The luma plane. -/
theorem luma_ok (O : Cor f C) (P : Placed f.g e) (H : Chosen C e) :
    (e.skip = true → luma C e (e.col - C.col0) (e.row - C.row0) = some []) ∧
    (e.skip = false → ∃ as, luma C e (e.col - C.col0) (e.row - C.row0) = some as ∧
      List.Forall₂ (LumaRel f C e) as (((grid (e.bs.widthMi / widthMi e.tx) (e.bs.heightMi / heightMi e.tx)).map (lumaPlace e)).filter f.inFrame)) := by
  constructor
  · intro hs
    refine calls_nil fun p hp => ?_
    obtain ⟨h1, h2⟩ := mem_grid.1 hp
    exact (luma_fits O P H h1 h2).1 hs
  · intro hs
    refine calls_rel fun p hp => ?_
    obtain ⟨h1, h2⟩ := mem_grid.1 hp
    obtain ⟨-, l1, l2⟩ := luma_fits O P H h1 h2
    refine ⟨l1, fun hq => ?_⟩
    obtain ⟨a, e1, e2, e3, e4, e5⟩ := l2 hs hq
    exact ⟨a, e1, e4, rfl, e3, e5⟩

/-- The luma transform blocks cover the block, as far as it is in the frame. -/
theorem luma_cover (P : Placed f.g e) (H : Chosen C e) {r c : Nat} (hin : Inside e.row e.col e.bs.widthMi e.bs.heightMi r c) (hr : r < f.g.miRows)
    (hc : c < f.g.miCols) : ∃ p ∈ ((grid (e.bs.widthMi / widthMi e.tx) (e.bs.heightMi / heightMi e.tx)).map (lumaPlace e)).filter f.inFrame,
      Inside (p.y / 4) (p.x / 4) (p.tx.1 / 4) (p.tx.2 / 4) r c := by
  have L := lumaFacts P.shape (trio_of H)
  obtain ⟨i1, i2, i3, i4⟩ := hin
  have t1 := L.twPos
  have t2 := L.thPos
  have d1 : (c - e.col) / widthMi e.tx < e.bs.widthMi / widthMi e.tx := by
    rw [Nat.div_lt_iff_lt_mul t1, ← L.w]; omega
  have d2 : (r - e.row) / heightMi e.tx < e.bs.heightMi / heightMi e.tx := by
    rw [Nat.div_lt_iff_lt_mul t2, ← L.h]; omega
  have m1 := Nat.div_add_mod' (c - e.col) (widthMi e.tx)
  have m2 := Nat.div_add_mod' (r - e.row) (heightMi e.tx)
  have n1 := Nat.mod_lt (c - e.col) t1
  have n2 := Nat.mod_lt (r - e.row) t2
  have tw := L.tw
  have th := L.th
  refine ⟨lumaPlace e ((c - e.col) / widthMi e.tx, (r - e.row) / heightMi e.tx), List.mem_filter.2 ⟨List.mem_map_of_mem (mem_grid.2 ⟨d1, d2⟩), ?_⟩, ?_⟩
  · unfold Spec.Frame.inFrame lumaPlace
    simp only [Spec.Frame.subXOf, Spec.Frame.subYOf, Nat.lt_irrefl, if_false, Nat.shiftRight_zero]
    rw [← Bool.decide_and]
    exact decide_eq_true (by omega)
  · simp only [lumaPlace, px]
    generalize (c - e.col) / widthMi e.tx * widthMi e.tx = X at *
    generalize (r - e.row) / heightMi e.tx * heightMi e.tx = Y at *
    rw [tw, th]
    refine ⟨?_, ?_, ?_, ?_⟩ <;> omega

/-- Where the decoder looks for the type of a chroma transform of an inter block. -/
theorem type_axis {d z n X W Q t : Nat} (hd : d = 0 ∨ d = 1) (hQ : max 1 (W >>> d) = Q) (hX : X + t ≤ Q) (ht : 0 < t) (h1 : 1 ≤ W) (hn : n % 2 = 0)
    (hz : z < n) (hin : (z >>> d) * 4 + 4 * X < (n * 4) >>> d) :
    z ≤ max z ((((z >>> d) * 4 + 4 * X) / 4) <<< d) ∧ max z ((((z >>> d) * 4 + 4 * X) / 4) <<< d) < z + W ∧ max z ((((z >>> d) * 4 + 4 * X) / 4) <<< d) < n := by
  rw [show ((z >>> d) * 4 + 4 * X) / 4 = z >>> d + X by omega]
  rcases hd with rfl | rfl
  · simp only [Nat.shiftRight_zero, Nat.shiftLeft_zero] at *; omega
  · simp only [Nat.shiftLeft_eq, Nat.shiftRight_eq_div_pow, Nat.pow_one] at *; omega

/-- The type that the encoder uses for chroma. -/
def TypeRight (e : Coded) (uv : Quant.TxSize) (ty : TxType) : Prop :=
  if e.inter then ty = .dctDct else (if uv.width ≥ 32 ∨ uv.height ≥ 32 then some .dctDct else uvIntraType e.uvMode) = some ty

/-- The chroma planes. -/
theorem chroma_ok (O : Cor f C) (P : Placed f.g e) (H : Chosen C e) {pb : BlockSize} (hpb : e.bs.subsampled C.xdec C.ydec = some pb)
    (F : ChromaFacts e.bs (C.xdec, C.ydec) pb (uvN (C.xdec, C.ydec) e.bs.widthMi e.bs.heightMi (Coef.codedSize (maxTx pb))))
    (hc : Coef.hasChroma (e.col - C.col0) (e.row - C.row0) e.bs C.xdec C.ydec C.mono = true)
    {ty : TxType} {mode : Nat} (hty : TypeRight e (Coef.codedSize (maxTx pb)) ty) (itx : Nat → Nat → TxSize.Spec.Tx) :
    let r := chroma C e (e.col - C.col0) (e.row - C.row0) e.bs.widthMi e.bs.heightMi mode (Coef.codedSize (maxTx pb)) ty
    (e.skip = true → r = some []) ∧
    (e.skip = false → ∃ as, r = some as ∧ List.Forall₂ (ChromaRel f C e) as (f.planePlaces itx e.hdr 1 ++ f.planePlaces itx e.hdr 2)) := by
  intro r
  have hn : uvCount C e.bs.widthMi e.bs.heightMi (Coef.codedSize (maxTx pb)) = uvN (C.xdec, C.ydec) e.bs.widthMi e.bs.heightMi (Coef.codedSize (maxTx pb)) := rfl
  have g1 : (uvCount C e.bs.widthMi e.bs.heightMi (Coef.codedSize (maxTx pb))).1 = pb.widthMi / widthMi (Coef.codedSize (maxTx pb)) := by rw [hn]; exact F.cw
  have g2 : (uvCount C e.bs.widthMi e.bs.heightMi (Coef.codedSize (maxTx pb))).2 = pb.heightMi / heightMi (Coef.codedSize (maxTx pb)) := by rw [hn]; exact F.ch
  have hd1 : C.xdec = 0 ∨ C.xdec = 1 := by have := O.dec; simp [decs] at this; omega
  have hd2 : C.ydec = 0 ∨ C.ydec = 1 := by have := O.dec; simp [decs] at this; omega
  obtain ⟨-, -, -, mw, mh, -⟩ := maxFacts P.shape
  have pw1 : 1 ≤ e.bs.widthMi := by clear * - mw; simp at mw; omega
  have ph1 : 1 ≤ e.bs.heightMi := by clear * - mh; simp at mh; omega
  constructor
  · intro hs
    refine calls_nil fun pl hpl => ?_
    refine calls_nil fun p hp => ?_
    rw [g1, g2] at hp
    obtain ⟨h1, h2⟩ := mem_grid.1 hp
    exact (chroma_fits O P hpb F hc rfl (by simpa using hpl) h1 h2).1 hs
  · intro hs
    have one : ∀ pl, pl = 1 ∨ pl = 2 → ∃ as, calls (fun p =>
        (usub (e.col - C.col0 + ((p.1 * widthMi (Coef.codedSize (maxTx pb))) <<< C.xdec)) ((if e.bs.widthMi = 1 then 1 else 0) * C.xdec)).bind fun tx =>
        (usub (e.row - C.row0 + ((p.2 * heightMi (Coef.codedSize (maxTx pb))) <<< C.ydec)) ((if e.bs.heightMi = 1 then 1 else 0) * C.ydec)).bind fun ty' =>
          encodeTxBlock C e ⟨pl, tx, ty', mode, Coef.codedSize (maxTx pb), ty⟩)
        (grid (uvCount C e.bs.widthMi e.bs.heightMi (Coef.codedSize (maxTx pb))).1 (uvCount C e.bs.widthMi e.bs.heightMi (Coef.codedSize (maxTx pb))).2) = some as ∧
        List.Forall₂ (ChromaRel f C e) as (f.planePlaces itx e.hdr pl) := by
      intro pl hpl
      rw [g1, g2, places_chroma O F rfl (by omega) itx]
      refine calls_rel fun p hp => ?_
      obtain ⟨h1, h2⟩ := mem_grid.1 hp
      obtain ⟨-, l1, l2⟩ := chroma_fits O P hpb F hc rfl hpl (mode := mode) (ty := ty) h1 h2
      refine ⟨l1, fun hq => ?_⟩
      obtain ⟨a, e1, e2, e3⟩ := l2 hs hq
      refine ⟨a, e1, e2, by simp only [chromaPlace]; omega, fun K types T => ?_⟩
      unfold TypeRight at hty
      cases hi : e.inter with
      | true =>
        rw [hi, if_pos rfl] at hty
        subst hty
        refine e3 K (by decide) (dct_inSet _ _ _) types ?_
        have c1 := cell h1 F.facts.w
        have c2 := cell h2 F.facts.h
        have hr : e.row < f.g.miRows := Nat.lt_of_lt_of_le P.rowHi O.geo.rowLe
        have hc' : e.col < f.g.miCols := Nat.lt_of_lt_of_le P.colHi O.geo.colLe
        unfold Spec.Frame.inFrame at hq
        rw [Bool.and_eq_true, decide_eq_true_eq, decide_eq_true_eq] at hq
        have s1 : f.subXOf pl = C.xdec := by rw [Spec.Frame.subXOf, if_pos (by omega), O.subX]
        have s2 : f.subYOf pl = C.ydec := by rw [Spec.Frame.subYOf, if_pos (by omega), O.subY]
        have b1 := hq.1
        have b2 := hq.2
        rw [show (chromaPlace f e (Coef.codedSize (maxTx pb)) pl p).plane = pl from rfl, s1] at b1
        rw [show (chromaPlace f e (Coef.codedSize (maxTx pb)) pl p).plane = pl from rfl, s2] at b2
        simp only [chromaPlace, O.subX] at b1
        simp only [chromaPlace, O.subY] at b2
        obtain ⟨v1, v2, v3⟩ := type_axis hd1 F.pw c1 F.facts.twPos pw1 O.geo.cols hc' b1
        obtain ⟨w1, w2, w3⟩ := type_axis hd2 F.ph c2 F.facts.thPos ph1 O.geo.rows hr b2
        have hz := T hi _ _ ⟨w1, w2, v1, v2⟩ w3 v3
        unfold Spec.Frame.chromaType
        rw [show e.hdr.inter = e.inter from rfl, hi, if_pos rfl]
        simp only [chromaPlace, O.subX, O.subY]
        rw [show e.hdr.row = e.row from rfl, show e.hdr.col = e.col from rfl, hz]
        split_ifs <;> rfl
      | false =>
        rw [hi, if_neg (by decide)] at hty
        obtain ⟨ty', u1, u2, u3, u4⟩ := uv_type (Coef.codedSize (maxTx pb)) C.reduced (H.uvMode hi)
        rw [u1] at hty
        have hty := Option.some.inj hty
        subst hty
        refine e3 K u2 (by rw [hi]; exact u3) types ?_
        unfold Spec.Frame.chromaType
        simp only [show e.hdr.inter = e.inter from rfl, hi, chromaPlace, Bool.false_eq_true, if_false, logs_px, O.reduced]
        exact u4
    obtain ⟨a1, k1, f1⟩ := one 1 (Or.inl rfl)
    obtain ⟨a2, k2, f2⟩ := one 2 (Or.inr rfl)
    refine ⟨a1 ++ a2, ?_, List.rel_append f1 f2⟩
    show chroma C e _ _ _ _ _ _ _ = _
    unfold chroma
    simp only [calls]
    rw [k1, k2]
    simp

end Rav1e.Resid

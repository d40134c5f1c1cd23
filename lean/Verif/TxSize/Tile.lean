import Verif.TxSize.Blk

/-!
# Reading the transform sizes of a tile
-/

namespace Rav1e.TxSize

open Mvref (GeoOk)
open Mvref.Spec (Geo Blk Tree)
open Spec (Tx Sym Cdf Hdr Dec Inside)

variable {g : Geo} {C : Cfg} {lo hi : Nat} {F G F0 G0 : Nat → Nat} {S : State} {D : Dec} {e : Coded}

/-- Where a block is. -/
def Coded.rect (e : Coded) : Rect := ⟨e.row, e.col, e.bw4, e.bh4⟩

/-- What the decoder knows of a block before it reads transform sizes. -/
def Coded.hdr (e : Coded) : Hdr := ⟨e.row, e.col, e.bw4, e.bh4, e.inter, e.skip⟩

/-- The size is one that the encoder may choose, and key frames have no inter blocks. -/
def Chosen (C : Cfg) (e : Coded) : Prop := e.tx ∈ rdoSizes C (e.bw4, e.bh4) e.inter e.skip ∧ (C.key = true → e.inter = false)

/-- Coding a block at its place in the tile. -/
def encodeAt (C : Cfg) (row0 col0 : Nat) (S : State) (e : Coded) : List Sym × State :=
  encodeTx C S (e.col - col0) (e.row - row0) ⟨e.bw4, e.bh4, e.inter, e.skip⟩ e.tx

/-- The effect of reading the transform size of a block. -/
structure BStep (g : Geo) (C : Cfg) (lo : Nat) (F G : Nat → Nat) (S : State) (D : Dec) (e : Coded) (S' : State) (D' : Dec) : Prop where
  rel : C.select = true → Rel g lo (updF F e.rect) (updG G e.rect) S' D'
  data : S'.data = (S.store C (e.col - g.colStart) (e.row - g.rowStart) ⟨e.bw4, e.bh4, e.inter, e.skip⟩).data
  blk : D'.blk = D.blk
  out : ∀ r c, ¬ Inside e.row e.col e.bw4 e.bh4 r c → D'.itx r c = D.itx r c
  inn : ∀ r c, Inside e.row e.col e.bw4 e.bh4 r c → r < g.miRows → c < g.miCols → D'.itx r c = e.tx
  size : D'.txSize = e.tx

theorem Good.part (K : Good g lo hi F G e.rect) (T : TileOk g C lo hi) : Part g C lo hi e.hdr F G :=
  ⟨T, K.rowLo, K.rowHi, K.colLo, K.colHi, K.rowIn, K.colIn, K.shape.sizes, K.above, K.left⟩

theorem DataRel.store (K : Good g lo hi F G e.rect) (Q : DataRel g F G S D) (T : TileOk g C lo hi) (b : EBlk) (hw : b.w4 = e.bw4) (hh : b.h4 = e.bh4) :
    DataRel g F G (S.store C (e.col - g.colStart) (e.row - g.rowStart) b) D := by
  intro r c h1 h2 h3 h4 h5
  obtain ⟨h, a, d⟩ := Q r c h1 h2 h3 h4 h5
  refine ⟨h, a, ?_⟩
  have k1 := K.rowLo
  have k2 := K.colLo
  have k3 := T.row0
  simp only [Coded.rect] at k1 k2
  simp only [State.store]
  rw [if_neg ?_]
  · exact d
  · rintro ⟨p1, p2, p3, p4, _, _⟩
    rw [hw] at p4
    rw [hh] at p2
    have := K.above c (by show e.col ≤ c; omega) (by show c < e.col + e.bw4; omega) h4
    have := K.left r (by show e.row ≤ r; omega) (by show r < e.row + e.bh4; omega) h3
    simp only [Coded.rect] at *
    omega

theorem tx_of_small (h : (e.bw4, e.bh4) = (1, 1)) (hx : e.tx ∈ rdoSizes C (e.bw4, e.bh4) e.inter e.skip) : e.tx = maxTx (e.bw4, e.bh4) := by
  rw [h] at hx ⊢
  have h1 : maxTx (1, 1) = (4, 4) := rfl
  have h2 : subTx (4, 4) = (4, 4) := rfl
  unfold rdoSizes at hx
  simp only [h1, h2, ite_self] at hx
  split at hx <;> simpa [h1] using hx

theorem tx_of_off (hs : C.select = false) (H : Chosen C e) : e.tx = maxTx (e.bw4, e.bh4) := by
  obtain ⟨hx, hk⟩ := H
  unfold rdoSizes at hx
  have : (C.split && e.inter && !e.skip) = false := by
    unfold Cfg.select at hs
    cases hkey : C.key with
    | true => simp [hk hkey]
    | false => rw [hkey] at hs; simp only [Bool.false_eq_true, if_false] at hs; simp [hs]
  simpa [this, hs] using hx

theorem tx_of_skip (h : e.inter = true) (h2 : e.skip = true) (hx : e.tx ∈ rdoSizes C (e.bw4, e.bh4) e.inter e.skip) : e.tx = maxTx (e.bw4, e.bh4) := by
  unfold rdoSizes at hx
  simpa [h, h2] using hx

theorem tx_of_inter (hs : C.select = true) (H : Chosen C e) (h : e.inter = true) (h2 : e.skip = false) : C.split = true ∧ e.tx = subTx (maxTx (e.bw4, e.bh4)) := by
  obtain ⟨hx, hk⟩ := H
  have hkey : C.key = false := by
    cases hkey : C.key with
    | true => simp [hk hkey] at h
    | false => rfl
  have hsp : C.split = true := by simpa [Cfg.select, hkey] using hs
  refine ⟨hsp, ?_⟩
  unfold rdoSizes at hx
  simpa [h, h2, hsp] using hx

theorem tx_of_intra (h : e.inter = false) (hx : e.tx ∈ rdoSizes C (e.bw4, e.bh4) e.inter e.skip) :
    e.tx ∈ [maxTx (e.bw4, e.bh4), subTx (maxTx (e.bw4, e.bh4)), subTx (subTx (maxTx (e.bw4, e.bh4)))] := by
  unfold rdoSizes at hx
  simp only [h, Bool.and_false, Bool.false_and, Bool.false_eq_true, if_false] at hx
  split at hx
  · exact hx
  · simp only [List.mem_singleton] at hx; simp [hx]

theorem smaller_sub (H : Shape e.bw4 e.bh4) (h1 : (e.bw4, e.bh4) ≠ (1, 1)) :
    smaller ((subTx (maxTx (e.bw4, e.bh4))).1 / 4, (subTx (maxTx (e.bw4, e.bh4))).2 / 4) (e.bw4, e.bh4) = true := by
  generalize e.bw4 = w at *
  generalize e.bh4 = h at *
  obtain ⟨n, hn, H⟩ := H
  simp only [List.mem_cons, List.not_mem_nil, or_false] at hn
  rcases hn with rfl | rfl | rfl | rfl | rfl <;> rcases H with ⟨rfl, rfl⟩ | ⟨h2, rfl, rfl⟩ | ⟨h2, rfl, rfl⟩ <;>
    first
    | (exfalso; revert h2; decide)
    | (exfalso; revert h1; decide)
    | decide

theorem Step.block {t : Tx} {S' : State} {D' : Dec} (K : Good g lo hi F G e.rect) (ht : e.tx = t)
    (A : Step g lo F G (S.store C (e.col - g.colStart) (e.row - g.rowStart) ⟨e.bw4, e.bh4, e.inter, e.skip⟩) D e.rect t S' D') :
    BStep g C lo F G S D e S' D' :=
  ⟨fun _ => A.rel, A.data, A.blk, A.out, ht ▸ A.inn, ht ▸ A.size K.rowIn K.colIn⟩

theorem block_rt (K : Good g lo hi F G e.rect) (T : TileOk g C lo hi) (H : Chosen C e) (R : C.select = true → Rel g lo F G S D) (Q : DataRel g F G S D)
    : ∃ D', let r := encodeAt C g.rowStart g.colStart S e
      (∀ rest, Spec.readBlockTx g C.select D e.hdr (r.1 ++ rest) = some (D', rest)) ∧ BStep g C lo F G S D e r.2 D' := by
  have P := K.part T
  have Z : Sizes e.bw4 e.bh4 := P.sizes
  have Q' := DataRel.store K Q T ⟨e.bw4, e.bh4, e.inter, e.skip⟩ rfl rfl
  have hm : Spec.maxRect e.hdr = maxTx (e.bw4, e.bh4) := by rw [maxRect_eq Z, Z.mx]; rfl
  simp only [encodeAt, encodeTx]
  generalize hS : S.store C (e.col - g.colStart) (e.row - g.rowStart) ⟨e.bw4, e.bh4, e.inter, e.skip⟩ = S1 at *
  cases hs : C.select with
  | false =>
    have ht := tx_of_off hs H
    refine ⟨D.fill e.row e.col e.bw4 e.bh4 e.tx, fun rest => ?_, ?_⟩
    · simp [Spec.readBlockTx, Spec.readTxSize, hm, ht]; rfl
    · refine ⟨by simp [hs], by rw [← hS]; rfl, rfl, ?_, ?_, rfl⟩
      · intro r c h; simp only [Dec.fill]; rw [if_neg h]
      · intro r c h _ _; simp only [Dec.fill]; rw [if_pos h]
  | true =>
    have R1 : Rel g lo F G S1 D := by rw [← hS]; exact ⟨(R hs).above, (R hs).left⟩
    have fill := R1.fill T (q := e.rect) (t := e.tx) K.rowLo K.rowHi K.colLo Z.wide.1 Z.high.1
    simp only [if_true]
    by_cases hc : (e.bw4, e.bh4) ≠ (1, 1) ∧ (!e.inter || !e.skip) = true
    · rw [if_pos hc]
      cases hi : e.inter with
      | false =>
        refine ⟨D.fill e.row e.col e.bw4 e.bh4 e.tx, fun rest => ?_, ?_⟩
        · obtain ⟨d1, d2, d3⟩ := depth_ok (b := e.hdr) K.shape hc.1 (tx_of_intra hi H.1)
          have hx := size_ctx P Q' R1
          simp only [Coded.hdr] at d1 d2 d3 hx
          simp only [Bool.not_false, if_true, writeIntra, d1, Spec.readBlockTx, Spec.readTxSize, Coded.hdr, hi, Bool.or_true, true_and,
            and_false, false_and, Bool.false_eq_true, if_false]
          rw [if_pos ⟨hc.1, trivial⟩]
          rw [hi] at d1 d2 d3 hx
          rw [hx]
          have hsz : ∀ c, toDepth 3 e.tx (maxTx (e.bw4, e.bh4)) < (Cdf.txDepth (Spec.depthCdf ⟨e.row, e.col, e.bw4, e.bh4, false, e.skip⟩) c).size := fun _ => d3
          split
          · rename_i h0
            rw [Nat.sub_add_cancel h0, List.singleton_append]
            simp only [Option.bind_eq_bind, Option.bind_some]
            rw [read_cons _ _ _ (hsz _)]
            simp only [Option.bind_some]
            rw [d2]
          · rename_i h0
            have h0 : Spec.depthCdf ⟨e.row, e.col, e.bw4, e.bh4, false, e.skip⟩ = 0 := by omega
            rw [h0] at hsz ⊢
            rw [List.singleton_append]
            simp only [Option.bind_eq_bind, Option.bind_some]
            rw [read_cons _ _ _ (hsz _)]
            simp only [Option.bind_some]
            rw [d2]
        · exact Step.block K rfl (hS ▸ fill)
      | true =>
        have hk : e.skip = false := by simpa [hi] using hc.2
        obtain ⟨hsp, ht⟩ := tx_of_inter hs H hi hk
        have hsm := smaller_sub K.shape hc.1
        have main : ∃ D', let r := writeInter C S1 (e.col - g.colStart) (e.row - g.rowStart) (e.bw4, e.bh4) (maxTx (e.bw4, e.bh4)) true
            (∀ rest, Spec.readVar g e.hdr 2 D e.row e.col (Spec.maxRect e.hdr) (r.1 ++ rest) = some (D', rest)) ∧
            Step g lo F G S1 D e.rect (subTx (maxTx (e.bw4, e.bh4))) r.2 D' := by
          obtain ⟨n, hn, hh⟩ := K.shape
          have hn2 : n ≠ 1 := by
            rintro rfl
            rcases hh with ⟨a, b⟩ | ⟨a, _⟩ | ⟨a, _⟩
            · exact hc.1 (Prod.ext a b)
            · omega
            · omega
          have hk2 : n / 2 ∈ [1, 2, 4, 8] ∧ n = 2 * (n / 2) := by
            simp only [List.mem_cons, List.not_mem_nil, or_false] at hn
            rcases hn with rfl | rfl | rfl | rfl | rfl <;> first | (exact absurd rfl hn2) | decide
          rcases hh with ⟨a, b⟩ | ⟨_, a, b⟩ | ⟨_, a, b⟩
          · exact quad_rt P Q' R1 hk2.1 (a.trans hk2.2) (b.trans hk2.2)
          · exact wide_rt P Q' R1 hk2.1 (a.trans hk2.2) b
          · exact tall_rt P Q' R1 hk2.1 a (b.trans hk2.2)
        obtain ⟨D', a, s⟩ := main
        refine ⟨D', fun rest => ?_, ?_⟩
        · have h1 := hc.1
          simp only [Bool.not_true, Bool.false_eq_true, if_false, hsp, ht, hsm, Bool.and_self, Spec.readBlockTx]
          rw [if_pos ⟨trivial, h1, hi, hk⟩]
          exact a rest
        · simp only [Bool.not_true, Bool.false_eq_true, if_false, hsp, ht, hsm, Bool.and_self]
          exact Step.block K ht (hS ▸ s)
    · rw [if_neg hc]
      have ht : e.tx = maxTx (e.bw4, e.bh4) := by
        by_cases h1 : (e.bw4, e.bh4) = (1, 1)
        · exact tx_of_small h1 H.1
        · have : e.inter = true ∧ e.skip = true := by
            have := fun h => hc ⟨h1, h⟩
            revert this
            cases e.inter <;> cases e.skip <;> simp
          exact tx_of_skip this.1 this.2 H.1
      have hu : S1.update (e.col - g.colStart) (e.row - g.rowStart) e.bw4 e.bh4 e.tx (e.inter && e.skip) =
          S1.update (e.col - g.colStart) (e.row - g.rowStart) e.bw4 e.bh4 e.tx false := by
        simp only [State.update, ht, Z.mx, Nat.mul_comm _ 4, ite_self]
      refine ⟨D.fill e.row e.col e.bw4 e.bh4 e.tx, fun rest => ?_, ?_⟩
      · simp only [Spec.readBlockTx, Spec.readTxSize, List.nil_append]
        rw [if_neg ?_, if_neg ?_]
        · simp only [Option.bind_eq_bind, Option.bind_some, hm, ht]; rfl
        · rintro ⟨a, b, _⟩
          exact hc ⟨a, by simpa [Coded.hdr, Bool.or_comm] using b⟩
        · rintro ⟨_, a, b, c⟩
          exact hc ⟨a, by simp only [Coded.hdr] at c; simp [c]⟩
      · rw [hu]; exact Step.block K rfl (hS ▸ fill)

/-! ### Rows of superblocks -/

theorem updF_pos {c : Nat} (h : e.col ≤ c ∧ c < e.col + e.bw4) : updF F e.rect c = e.row + e.bh4 := if_pos h

theorem updF_neg {c : Nat} (h : ¬ (e.col ≤ c ∧ c < e.col + e.bw4)) : updF F e.rect c = F c := if_neg h

theorem updG_pos {r : Nat} (h : e.row ≤ r ∧ r < e.row + e.bh4) : updG G e.rect r = e.col + e.bw4 := if_pos h

theorem updG_neg {r : Nat} (h : ¬ (e.row ≤ r ∧ r < e.row + e.bh4)) : updG G e.rect r = G r := if_neg h

theorem store_pos {r c : Nat} (h : Inside e.row e.col e.bw4 e.bh4 r c) : (D.store e.hdr).blk r c = some e.hdr := if_pos h

theorem store_neg {r c : Nat} (h : ¬ Inside e.row e.col e.bw4 e.bh4 r c) : (D.store e.hdr).blk r c = D.blk r c := if_neg h

theorem DataRel.next {S' : State} {D' : Dec} (K : Good g lo hi F G e.rect) (T : TileOk g C lo hi) (Q : DataRel g F G S D)
    (A : BStep g C lo F G S D e S' D') : DataRel g (updF F e.rect) (updG G e.rect) S' (D'.store e.hdr) := by
  have k1 := K.rowLo
  have k2 := K.colLo
  have k3 := T.row0
  have k4 := K.rowHi
  have k5 := K.colHi
  simp only [Coded.rect] at k1 k2 k4 k5
  intro r c h1 h2 h3 h4 h5
  by_cases hin : Inside e.row e.col e.bw4 e.bh4 r c
  · refine ⟨e.hdr, store_pos hin, ?_⟩
    unfold Inside at hin
    have tr := T.rows r h1 (by omega)
    have tc := T.cols c h2 (by omega)
    rw [A.data]
    simp only [State.store, Coded.hdr]
    rw [if_pos (by omega)]
  · have h6 : r < F c ∨ c < G r := by
      rcases h5 with h5 | h5
      · by_cases hc : e.col ≤ c ∧ c < e.col + e.bw4
        · rw [updF_pos hc] at h5
          have := K.above c hc.1 hc.2 h4
          simp only [Coded.rect] at this
          unfold Inside at hin
          exact Or.inl (by omega)
        · rw [updF_neg hc] at h5; exact Or.inl h5
      · by_cases hr : e.row ≤ r ∧ r < e.row + e.bh4
        · rw [updG_pos hr] at h5
          have := K.left r hr.1 hr.2 h3
          simp only [Coded.rect] at this
          unfold Inside at hin
          exact Or.inr (by omega)
        · rw [updG_neg hr] at h5; exact Or.inr h5
    obtain ⟨h, a, d⟩ := Q r c h1 h2 h3 h4 h6
    refine ⟨h, by rw [store_neg hin, A.blk]; exact a, ?_⟩
    rw [A.data]
    simp only [State.store]
    rw [if_neg (by unfold Inside at hin; omega)]
    exact d

/-- The effect of reading blocks. -/
structure LStep (g : Geo) (C : Cfg) (F F' : Nat → Nat) (D : Dec) (l : List Coded) (s s' : List Sym) (D' : Dec) : Prop where
  read : ∀ tail, Spec.readTile g C.select (l.map Coded.hdr ++ tail) D s =
    (Spec.readTile g C.select tail D' s').map fun a => (l.map Coded.tx ++ a.1, a.2)
  mono : ∀ c, c < g.miCols → F c ≤ F' c
  keep : ∀ r c, c < g.miCols → r < F c → D'.itx r c = D.itx r c
  inn : ∀ e ∈ l, ∀ r c, Inside e.row e.col e.bw4 e.bh4 r c → r < g.miRows → c < g.miCols → D'.itx r c = e.tx ∧ r < F' c

theorem LStep.trans {F' F'' : Nat → Nat} {l m : List Coded} {s s' s'' : List Sym} {D' D'' : Dec} (A : LStep g C F F' D l s s' D')
    (B : LStep g C F' F'' D' m s' s'' D'') : LStep g C F F'' D (l ++ m) s s'' D'' := by
  refine ⟨?_, fun c h => Nat.le_trans (A.mono c h) (B.mono c h), ?_, ?_⟩
  · intro tail
    rw [List.map_append, List.append_assoc, A.read, B.read, Option.map_map]
    congr 1
    funext a
    simp
  · intro r c h h2
    rw [B.keep r c h (Nat.lt_of_lt_of_le h2 (A.mono c h)), A.keep r c h h2]
  · intro e he r c hin hr hc
    rcases List.mem_append.mp he with he | he
    · obtain ⟨p, q⟩ := A.inn e he r c hin hr hc
      exact ⟨(B.keep r c hc q).trans p, Nat.lt_of_lt_of_le q (B.mono c hc)⟩
    · exact B.inn e he r c hin hr hc

theorem row_rt (T : TileOk g C lo hi) (l : List Coded) : ∀ {F G : Nat → Nat} {S : State} {D : Dec}, Ordered g lo hi F G (l.map Coded.rect) →
    (∀ e ∈ l, Chosen C e) → (C.select = true → Rel g lo F G S D) → DataRel g F G S D → ∀ rest,
    ∃ D', let r := encodeRow C g.rowStart g.colStart l S
      LStep g C F (endF F (l.map Coded.rect)) D l (r.1 ++ rest) rest D' ∧
      (C.select = true → Rel g lo (endF F (l.map Coded.rect)) (endG G (l.map Coded.rect)) r.2 D') ∧
      DataRel g (endF F (l.map Coded.rect)) (endG G (l.map Coded.rect)) r.2 D' := by
  induction l with
  | nil =>
    intro F G S D _ _ R Q rest
    refine ⟨D, ⟨?_, fun _ _ => Nat.le_refl _, fun _ _ _ _ => rfl, by simp⟩, R, Q⟩
    intro tail
    simp only [encodeRow, List.map_nil, List.nil_append]
    cases Spec.readTile g C.select tail D rest <;> rfl
  | cons e l ih =>
    intro F G S D O H R Q rest
    obtain ⟨K, O⟩ := O
    obtain ⟨D1, a, A⟩ := block_rt K T (H e (List.mem_cons_self ..)) R Q
    obtain ⟨D2, L, R2, Q2⟩ := ih O (fun e he => H e (List.mem_cons_of_mem _ he)) (fun hs => (⟨(A.rel hs).above, (A.rel hs).left⟩ : Rel g lo _ _ _ (D1.store e.hdr)))
      (Q.next K T A) rest
    refine ⟨D2, ?_, R2, Q2⟩
    have one : LStep g C F (updF F e.rect) D [e] ((encodeAt C g.rowStart g.colStart S e).1 ++
        ((encodeRow C g.rowStart g.colStart l (encodeAt C g.rowStart g.colStart S e).2).1 ++ rest))
        ((encodeRow C g.rowStart g.colStart l (encodeAt C g.rowStart g.colStart S e).2).1 ++ rest) (D1.store e.hdr) := by
      refine ⟨?_, ?_, ?_, ?_⟩
      · intro tail
        simp only [List.map_cons, List.map_nil, List.cons_append, List.nil_append, Spec.readTile]
        rw [a]
        simp only [Option.bind_eq_bind, Option.bind_some]
        rw [A.size]
        cases Spec.readTile g C.select tail (D1.store e.hdr) ((encodeRow C g.rowStart g.colStart l (encodeAt C g.rowStart g.colStart S e).2).1 ++ rest) <;> rfl
      · intro c hc
        by_cases h : e.col ≤ c ∧ c < e.col + e.bw4
        · have := K.above c h.1 h.2 hc
          simp only [Coded.rect] at this
          rw [updF_pos h]
          omega
        · rw [updF_neg h]
      · intro r c hc hr
        refine A.out r c ?_
        intro hin
        unfold Inside at hin
        have := K.above c hin.2.2.1 hin.2.2.2 hc
        simp only [Coded.rect] at this
        omega
      · intro e' he' r c hin hr hc
        obtain rfl : e' = e := by simpa using he'
        refine ⟨A.inn r c hin hr hc, ?_⟩
        unfold Inside at hin
        rw [updF_pos hin.2.2]
        exact hin.2.1
    have := one.trans L
    simp only [encodeRow, List.append_assoc]
    exact this

theorem tileOk (O : GeoOk g) (hr : C.rows = g.rowEnd - g.rowStart) (hc : C.cols = g.colEnd - g.colStart) {i : Nat} (h : i < (g.rowEnd - g.rowStart + 15) / 16) :
    TileOk g C (g.rowStart + 16 * i) (g.colStart + 16 * ((g.colEnd - g.colStart + 15) / 16)) := by
  have h0 := O.row0
  have h1 := O.col0
  have h2 := O.rowLe
  have h3 := O.colLe
  have h4 := O.rowEnd
  have h5 := O.colEnd
  refine ⟨by omega, by omega, ?_, ?_⟩
  · intro r a b; rw [hr]; omega
  · intro c a b; rw [hc]; omega

theorem rows_rt (O : GeoOk g) {t : Nat → Nat → Tree} (ht : ∀ r c, (t r c).Ok 16) (hr : C.rows = g.rowEnd - g.rowStart) (hc : C.cols = g.colEnd - g.colStart)
    (ls : List (List Coded)) : ∀ {i : Nat} {F : Nat → Nat} {G : Nat → Nat} {S : State} {D : Dec}, i + ls.length ≤ (g.rowEnd - g.rowStart + 15) / 16 →
    (∀ k (hk : k < ls.length), (ls[k]).map Coded.rect = (sbRow g t (i + k)).map rectOf) → (∀ l ∈ ls, ∀ e ∈ l, Chosen C e) →
    (∀ j, g.colStart ≤ j → j < g.colStart + 16 * ((g.colEnd - g.colStart + 15) / 16) → j < g.miCols → g.rowStart + 16 * i < g.miRows → F j = g.rowStart + 16 * i) →
    (C.select = true → ∀ c, g.colStart ≤ c → c < g.miCols → g.rowStart < F c → F c < g.miRows → S.above (c - g.colStart) = (D.itx (F c - 1) c).1) →
    DataRel g F G S D → ∀ rest,
    ∃ F' D', LStep g C F F' D ls.flatten ((encodeRows C g.rowStart g.colStart ls S).1 ++ rest) rest D' := by
  induction ls with
  | nil =>
    intro i F G S D _ _ _ _ _ _ rest
    refine ⟨F, D, ?_, fun _ _ => Nat.le_refl _, fun _ _ _ _ => rfl, by simp⟩
    intro tail
    simp [encodeRows]
  | cons l ls ih =>
    intro i F G S D hlen hl H hF hR Q rest
    have hlen' : i + (ls.length + 1) ≤ (g.rowEnd - g.rowStart + 15) / 16 := hlen
    have T := tileOk O hr hc (show i < (g.rowEnd - g.rowStart + 15) / 16 by omega)
    have e0 : l.map Coded.rect = (sbRow g t i).map rectOf := hl 0 (by simp)
    have hin : g.rowStart + 16 * i < g.miRows := by have := O.rowLe; omega
    have W := sbs_ok (g := g) (lo := g.rowStart + 16 * i) (hi := g.colStart + 16 * ((g.colEnd - g.colStart + 15) / 16)) ht (F := F) (G := fun _ => g.colStart)
      ((g.colEnd - g.colStart + 15) / 16) (Nat.le_refl _) (fun j a b d => hF j a b d hin) (fun _ _ _ _ => rfl)
    have W' : RowOf g (g.rowStart + 16 * i) (g.colStart + 16 * ((g.colEnd - g.colStart + 15) / 16)) ((g.colEnd - g.colStart + 15) / 16) F (fun _ => g.colStart)
      (l.map Coded.rect) := by rw [e0]; exact W
    have Q0 : DataRel g F (fun _ => g.colStart) S.resetLeft D := by
      intro r c a b d f h
      exact Q r c a b d f (Or.inl (h.resolve_right (by show ¬ c < g.colStart; omega)))
    obtain ⟨D1, L1, R1, Q1⟩ := row_rt T l (S := S.resetLeft) W'.ok (H l (List.mem_cons_self ..))
      (fun hs => ⟨hR hs, fun r _ _ _ h _ => absurd h (Nat.lt_irrefl _)⟩) Q0
      ((encodeRows C g.rowStart g.colStart ls (encodeRow C g.rowStart g.colStart l S.resetLeft).2).1 ++ rest)
    obtain ⟨F', D', L2⟩ := ih (i := i + 1) (by omega)
      (fun k hk => by
        have := hl (k + 1) (by simpa using hk)
        rw [show i + 1 + k = i + (k + 1) by omega]
        simpa using this)
      (fun l hl => H l (List.mem_cons_of_mem _ hl))
      (fun j a b d f => by
        rw [W'.f j a b d (by omega)]; omega)
      (fun hs => (R1 hs).above) Q1 rest
    refine ⟨F', D', ?_⟩
    have := L1.trans L2
    simp only [encodeRows, List.append_assoc, List.flatten_cons]
    exact this

end Rav1e.TxSize

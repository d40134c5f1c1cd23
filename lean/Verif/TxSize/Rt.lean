import Verif.TxSize.Model
import Verif.TxSize.Front

/-!
# Reading the transform sizes of a block
-/

namespace Rav1e.TxSize

open Mvref.Spec (Geo)
open Spec (Tx Sym Cdf Hdr Dec Inside)

variable {g : Geo} {C : Cfg} {lo hi : Nat} {F G F0 G0 : Nat → Nat} {S : State} {D : Dec}

/-- The tile: a row of superblocks starts at `lo`, the superblocks end at `hi`. -/
structure TileOk (g : Geo) (C : Cfg) (lo hi : Nat) : Prop where
  row0 : g.rowStart ≤ lo
  align : (lo - g.rowStart) % 16 = 0
  rows : ∀ r, g.rowStart ≤ r → r < lo + 16 → (r - g.rowStart ≥ C.rows ↔ r ≥ g.miRows)
  cols : ∀ c, g.colStart ≤ c → c < hi → (c - g.colStart ≥ C.cols ↔ c ≥ g.miCols)

/-- The contexts of the encoder are the transform sizes along the blocks that have been coded. -/
structure Rel (g : Geo) (lo : Nat) (F G : Nat → Nat) (S : State) (D : Dec) : Prop where
  above : ∀ c, g.colStart ≤ c → c < g.miCols → g.rowStart < F c → F c < g.miRows → S.above (c - g.colStart) = (D.itx (F c - 1) c).1
  left : ∀ r, lo ≤ r → r < lo + 16 → r < g.miRows → g.colStart < G r → G r < g.miCols → S.left ((r - g.rowStart) % 16) = (D.itx r (G r - 1)).2

/-- The encoder and the decoder know the same of the blocks that have been coded. -/
def DataRel (g : Geo) (F G : Nat → Nat) (S : State) (D : Dec) : Prop :=
  ∀ r c, g.rowStart ≤ r → g.colStart ≤ c → r < g.miRows → c < g.miCols → (r < F c ∨ c < G r) →
    ∃ h : Hdr, D.blk r c = some h ∧ S.data (r - g.rowStart) (c - g.colStart) = ⟨h.bw4, h.bh4, h.inter, h.skip⟩

/-- Reading the transform size `t` of the rectangle `q`. -/
structure Step (g : Geo) (lo : Nat) (F G : Nat → Nat) (S : State) (D : Dec) (q : Rect) (t : Tx) (S' : State) (D' : Dec) : Prop where
  rel : Rel g lo (updF F q) (updG G q) S' D'
  data : S'.data = S.data
  blk : D'.blk = D.blk
  out : ∀ r c, ¬ Inside q.row q.col q.w q.h r c → D'.itx r c = D.itx r c
  inn : ∀ r c, Inside q.row q.col q.w q.h r c → r < g.miRows → c < g.miCols → D'.itx r c = t
  size : q.row < g.miRows → q.col < g.miCols → D'.txSize = t
  keep : D.txSize = t → D'.txSize = t

theorem Rel.fill (T : TileOk g C lo hi) (R : Rel g lo F G S D) {q : Rect} {t : Tx} (h1 : lo ≤ q.row) (h2 : q.row + q.h ≤ lo + 16) (h3 : g.colStart ≤ q.col)
    (hw : 0 < q.w) (hh : 0 < q.h) :
    Step g lo F G S D q t (S.update (q.col - g.colStart) (q.row - g.rowStart) q.w q.h t false) (D.fill q.row q.col q.w q.h t) := by
  have h0 := T.row0
  have ha := T.align
  refine ⟨⟨?_, ?_⟩, rfl, rfl, ?_, ?_, fun _ _ => rfl, fun _ => rfl⟩
  · intro c hc hm hf hfm
    simp only [State.update, Dec.fill, Bool.false_eq_true, if_false]
    by_cases hin : q.col ≤ c ∧ c < q.col + q.w
    · rw [if_pos (by omega), updF, if_pos hin, if_pos (by unfold Inside; omega)]
    · rw [updF, if_neg hin] at hf hfm
      rw [if_neg (by omega), updF, if_neg hin, if_neg (by unfold Inside; omega)]
      exact R.above c hc hm hf hfm
  · intro r hr hr2 hm hf hfm
    simp only [State.update, Dec.fill, Bool.false_eq_true, if_false]
    by_cases hin : q.row ≤ r ∧ r < q.row + q.h
    · rw [if_pos (by omega), updG, if_pos hin, if_pos (by unfold Inside; omega)]
    · rw [updG, if_neg hin] at hf hfm
      rw [if_neg (by omega), updG, if_neg hin, if_neg (by unfold Inside; omega)]
      exact R.left r hr hr2 hm hf hfm
  · intro r c h; simp only [Dec.fill]; rw [if_neg h]
  · intro r c h _ _; simp only [Dec.fill]; rw [if_pos h]

theorem Rel.outside (R : Rel g lo F G S D) {q : Rect} {t : Tx} (ho : q.row ≥ g.miRows ∨ q.col ≥ g.miCols) : Step g lo F G S D q t S D := by
  refine ⟨⟨?_, ?_⟩, rfl, rfl, fun _ _ _ => rfl, ?_, by omega, id⟩
  · intro c hc hm hf hfm
    by_cases hin : q.col ≤ c ∧ c < q.col + q.w
    · rw [updF, if_pos hin] at hfm; omega
    · rw [updF, if_neg hin] at hf hfm ⊢; exact R.above c hc hm hf hfm
  · intro r hr hr2 hm hf hfm
    by_cases hin : q.row ≤ r ∧ r < q.row + q.h
    · rw [updG, if_pos hin] at hfm; omega
    · rw [updG, if_neg hin] at hf hfm ⊢; exact R.left r hr hr2 hm hf hfm
  · intro r c h _ _; unfold Inside at h; omega

theorem Step.join {q1 q2 q : Rect} {t : Tx} {S1 S2 : State} {D1 D2 : Dec} (A : Step g lo F G S D q1 t S1 D1)
    (B : Step g lo (updF F q1) (updG G q1) S1 D1 q2 t S2 D2) (hF : updF (updF F q1) q2 = updF F q) (hG : updG (updG G q1) q2 = updG G q)
    (hi : ∀ r c, Inside q.row q.col q.w q.h r c ↔ Inside q1.row q1.col q1.w q1.h r c ∨ Inside q2.row q2.col q2.w q2.h r c)
    (hr : q1.row = q.row) (hc : q1.col = q.col) : Step g lo F G S D q t S2 D2 := by
  refine ⟨by rw [← hF, ← hG]; exact B.rel, by rw [B.data, A.data], by rw [B.blk, A.blk], ?_, ?_, ?_, fun h => B.keep (A.keep h)⟩
  · intro r c h
    rw [hi] at h
    rw [B.out r c (fun h' => h (Or.inr h')), A.out r c (fun h' => h (Or.inl h'))]
  · intro r c h a b
    rw [hi] at h
    by_cases h2 : Inside q2.row q2.col q2.w q2.h r c
    · exact B.inn r c h2 a b
    · rw [B.out r c h2]; exact A.inn r c (h.resolve_right h2) a b
  · intro a b; exact B.keep (A.size (hr ▸ a) (hc ▸ b))

theorem updF_across {r c w1 w2 h : Nat} : updF (updF F ⟨r, c, w1, h⟩) ⟨r, c + w1, w2, h⟩ = updF F ⟨r, c, w1 + w2, h⟩ := by
  funext j; simp only [updF]
  by_cases h1 : c + w1 ≤ j ∧ j < c + w1 + w2
  · rw [if_pos h1, if_pos (by omega)]
  · rw [if_neg h1]
    by_cases h2 : c ≤ j ∧ j < c + w1
    · rw [if_pos h2, if_pos (by omega)]
    · rw [if_neg h2, if_neg (by omega)]

theorem updG_across {r c w1 w2 h : Nat} : updG (updG G ⟨r, c, w1, h⟩) ⟨r, c + w1, w2, h⟩ = updG G ⟨r, c, w1 + w2, h⟩ := by
  funext i; simp only [updG]
  by_cases h1 : r ≤ i ∧ i < r + h
  · rw [if_pos h1, if_pos h1]; omega
  · rw [if_neg h1, if_neg h1, if_neg h1]

theorem updF_down {r c w h1 h2 : Nat} : updF (updF F ⟨r, c, w, h1⟩) ⟨r + h1, c, w, h2⟩ = updF F ⟨r, c, w, h1 + h2⟩ := by
  funext i; simp only [updF]
  by_cases h3 : c ≤ i ∧ i < c + w
  · rw [if_pos h3, if_pos h3]; omega
  · rw [if_neg h3, if_neg h3, if_neg h3]

theorem updG_down {r c w h1 h2 : Nat} : updG (updG G ⟨r, c, w, h1⟩) ⟨r + h1, c, w, h2⟩ = updG G ⟨r, c, w, h1 + h2⟩ := by
  funext j; simp only [updG]
  by_cases h3 : r + h1 ≤ j ∧ j < r + h1 + h2
  · rw [if_pos h3, if_pos (by omega)]
  · rw [if_neg h3]
    by_cases h4 : r ≤ j ∧ j < r + h1
    · rw [if_pos h4, if_pos (by omega)]
    · rw [if_neg h4, if_neg (by omega)]

/-- Side by side. -/
theorem Step.across {r c w1 w2 h : Nat} {t : Tx} {S1 S2 : State} {D1 D2 : Dec} (A : Step g lo F G S D ⟨r, c, w1, h⟩ t S1 D1)
    (B : Step g lo (updF F ⟨r, c, w1, h⟩) (updG G ⟨r, c, w1, h⟩) S1 D1 ⟨r, c + w1, w2, h⟩ t S2 D2) : Step g lo F G S D ⟨r, c, w1 + w2, h⟩ t S2 D2 :=
  A.join B updF_across updG_across (by intro i j; simp only [Inside]; omega) rfl rfl

/-- One above the other. -/
theorem Step.down {r c w h1 h2 : Nat} {t : Tx} {S1 S2 : State} {D1 D2 : Dec} (A : Step g lo F G S D ⟨r, c, w, h1⟩ t S1 D1)
    (B : Step g lo (updF F ⟨r, c, w, h1⟩) (updG G ⟨r, c, w, h1⟩) S1 D1 ⟨r + h1, c, w, h2⟩ t S2 D2) : Step g lo F G S D ⟨r, c, w, h1 + h2⟩ t S2 D2 :=
  A.join B updF_down updG_down (by intro i j; simp only [Inside]; omega) rfl rfl

/-! ### Contexts -/

theorem above_eq {b : Hdr} {row col : Nat} (R : Rel g lo F G S D) (Q : DataRel g F0 G0 S D) (hb : g.rowStart ≤ b.row) (hc : g.colStart ≤ col)
    (hcm : col < g.miCols) (hle : b.row ≤ row) (hrm : row < g.miRows) (hF0 : F0 col = b.row) (hF : F col = row) :
    Spec.aboveWidth g D b row col = some (S.aboveWidth (col - g.colStart) (row - g.rowStart) (decide (row = b.row))) := by
  unfold Spec.aboveWidth State.aboveWidth
  by_cases h : row = b.row
  · rw [if_pos h]
    by_cases h0 : row ≤ g.rowStart
    · rw [if_pos h0, if_pos (by simp [h]; omega)]
    · rw [if_neg h0, if_neg (by simp; omega)]
      obtain ⟨a, h1, h2⟩ := Q (row - 1) col (by omega) hc (by omega) hcm (by omega)
      have e : row - g.rowStart - 1 = row - 1 - g.rowStart := by omega
      rw [e, h1, h2]
      have hv := R.above col hc hcm (by omega) (by omega)
      rw [hF] at hv
      simp only [h, decide_true, Bool.true_and, Option.bind_eq_bind, Option.bind_some]
      rw [← h, ← hv, Nat.mul_comm]
  · rw [if_neg h, if_neg (by simp [h]), if_neg (by simp [h])]
    have hv := R.above col hc hcm (by omega) (by omega)
    rw [hF] at hv
    rw [hv]

theorem left_eq {b : Hdr} {row col : Nat} (R : Rel g lo F G S D) (Q : DataRel g F0 G0 S D) (hb : g.colStart ≤ b.col) (hr : g.rowStart ≤ row)
    (hrl : lo ≤ row) (hrh : row < lo + 16)
    (hrm : row < g.miRows) (hle : b.col ≤ col) (hcm : col < g.miCols) (hG0 : G0 row = b.col) (hG : G row = col) :
    Spec.leftHeight g D b row col = some (S.leftHeight (col - g.colStart) (row - g.rowStart) (decide (col = b.col))) := by
  unfold Spec.leftHeight State.leftHeight
  by_cases h : col = b.col
  · rw [if_pos h]
    by_cases h0 : col ≤ g.colStart
    · rw [if_pos h0, if_pos (by simp [h]; omega)]
    · rw [if_neg h0, if_neg (by simp; omega)]
      obtain ⟨a, h1, h2⟩ := Q row (col - 1) hr (by omega) hrm (by omega) (by omega)
      have e : col - g.colStart - 1 = col - 1 - g.colStart := by omega
      rw [e, h1, h2]
      have hv := R.left row hrl hrh hrm (by omega) (by omega)
      rw [hG] at hv
      simp only [h, decide_true, Bool.true_and, Option.bind_eq_bind, Option.bind_some]
      rw [← h, ← hv, Nat.mul_comm]
  · rw [if_neg h, if_neg (by simp [h]), if_neg (by simp [h])]
    have hv := R.left row hrl hrh hrm (by omega) (by omega)
    rw [hG] at hv
    rw [hv]

/-- The tables of the encoder, for the sizes of blocks. -/
structure Sizes (w h : Nat) : Prop where
  wide : 0 < w ∧ w ≤ 16
  high : 0 < h ∧ h ≤ 16
  mx : maxTx (w, h) = (4 * w, 4 * h)
  idx : sqrUp (maxTx (w, h)) = Spec.squareIdx (min 64 (max (4 * w) (4 * h)))
  idx0 : sqrUp (maxTx (w, h)) = Spec.squareIdx (max (4 * w) (4 * h))
  small : sqrUp (maxTx (w, h)) ≤ 4

theorem Shape.sizes {w h : Nat} (H : Shape w h) : Sizes w h := by
  obtain ⟨n, hn, H⟩ := H
  simp only [List.mem_cons, List.not_mem_nil, or_false] at hn
  rcases hn with rfl | rfl | rfl | rfl | rfl <;> rcases H with ⟨rfl, rfl⟩ | ⟨h2, rfl, rfl⟩ | ⟨h2, rfl, rfl⟩ <;>
    first | (exfalso; revert h2; decide) | exact ⟨by decide, by decide, by decide, by decide +kernel, by decide +kernel, by decide⟩

theorem split_ctx {b : Hdr} {row col tbx tby : Nat} {t : Tx} {x y : Nat} (Z : Sizes b.bw4 b.bh4)
    (ht : sqrUp t = Spec.squareIdx (max t.1 t.2))
    (ha : Spec.aboveWidth g D b row col = some (S.aboveWidth x y (tby == 0)))
    (hl : Spec.leftHeight g D b row col = some (S.leftHeight x y (tbx == 0))) :
    Spec.splitCtx g D b row col t = some (S.splitCtx x y (b.bw4, b.bh4) t tbx tby) := by
  have := Z.small
  unfold Spec.splitCtx State.splitCtx
  rw [ha, hl, ← ht, ← Z.idx]
  simp only [Option.bind_eq_bind, Option.bind_some, Option.some.injEq]
  generalize (if S.aboveWidth x y (tby == 0) < t.1 then 1 else 0) = p
  generalize (if S.leftHeight x y (tbx == 0) < t.2 then 1 else 0) = q
  split <;> omega

/-! ### Inter blocks -/

theorem read_cons (c : Cdf) (v : Nat) (l : List Sym) (h : v < c.size) : Spec.read c ((c, v) :: l) = some (v, l) := by simp [Spec.read, h]

/-- What is known when a part of a block is read. -/
structure Part (g : Geo) (C : Cfg) (lo hi : Nat) (b : Hdr) (F0 G0 : Nat → Nat) : Prop where
  tile : TileOk g C lo hi
  row0 : lo ≤ b.row
  row1 : b.row + b.bh4 ≤ lo + 16
  col0 : g.colStart ≤ b.col
  col1 : b.col + b.bw4 ≤ hi
  rowIn : b.row < g.miRows
  colIn : b.col < g.miCols
  sizes : Sizes b.bw4 b.bh4
  above : ∀ c, b.col ≤ c → c < b.col + b.bw4 → c < g.miCols → F0 c = b.row
  left : ∀ r, b.row ≤ r → r < b.row + b.bh4 → r < g.miRows → G0 r = b.col

theorem first {a i k : Nat} (hk : 0 < k) : (i == 0) = decide (a + i * k = a) := by
  rw [Bool.eq_iff_iff, beq_iff_eq, decide_eq_true_eq]
  constructor
  · intro h; simp [h]
  · intro h
    rcases Nat.mul_eq_zero.mp (by omega : i * k = 0) with h | h
    · exact h
    · omega

theorem leaf_rt {b : Hdr} (P : Part g C lo hi b F0 G0) (Q : DataRel g F0 G0 S D) (R : Rel g lo F G S D) {k i j : Nat}
    (hk : k ∈ [1, 2, 4, 8]) (hi1 : (i + 1) * k ≤ b.bh4) (hj1 : (j + 1) * k ≤ b.bw4)
    (hF : b.row + i * k < g.miRows → b.col + j * k < g.miCols → F (b.col + j * k) = b.row + i * k)
    (hG : b.row + i * k < g.miRows → b.col + j * k < g.miCols → G (b.row + i * k) = b.col + j * k) :
    ∃ D', let r := writeUnsplit C S (b.col - g.colStart + j * k) (b.row - g.rowStart + i * k) (b.bw4, b.bh4) (4 * k, 4 * k) j i 1
      (∀ rest, Spec.readVar g b 1 D (b.row + i * k) (b.col + j * k) (4 * k, 4 * k) (r.1 ++ rest) = some (D', rest)) ∧
      Step g lo F G S D ⟨b.row + i * k, b.col + j * k, k, k⟩ (4 * k, 4 * k) r.2 D' := by
  have hrow := P.row0
  have hcol := P.col0
  have hT := P.tile.row0
  have hk0 : 0 < k := by simp only [List.mem_cons, List.not_mem_nil, or_false] at hk; omega
  have ei : (i + 1) * k = i * k + k := by rw [Nat.add_mul, Nat.one_mul]
  have ej : (j + 1) * k = j * k + k := by rw [Nat.add_mul, Nat.one_mul]
  have e1 : b.col - g.colStart + j * k = b.col + j * k - g.colStart := by omega
  have e2 : b.row - g.rowStart + i * k = b.row + i * k - g.rowStart := by omega
  have hi0 : (i == 0) = decide (b.row + i * k = b.row) := first hk0
  have hj0 : (j == 0) = decide (b.col + j * k = b.col) := first hk0
  have hr1 := P.row1
  have hc1 := P.col1
  rw [e1, e2]
  generalize hrr : b.row + i * k = row at *
  generalize hcc : b.col + j * k = col at *
  have tr := P.tile.rows row (by omega) (by omega)
  have tc := P.tile.cols col (by omega) (by omega)
  simp only [writeUnsplit, Spec.readVar]
  by_cases ho : row ≥ g.miRows ∨ col ≥ g.miCols
  · rw [if_pos (show col - g.colStart ≥ C.cols ∨ row - g.rowStart ≥ C.rows by omega)]
    simp only [if_pos ho]
    exact ⟨D, fun _ => rfl, R.outside ho⟩
  · rw [if_neg (show ¬ (col - g.colStart ≥ C.cols ∨ row - g.rowStart ≥ C.rows) by omega)]
    simp only [if_neg ho]
    refine ⟨D.fill row col (4 * k / 4) (4 * k / 4) (4 * k, 4 * k), fun rest => ?_, ?_⟩
    · by_cases h4 : ((4 * k, 4 * k) : Tx) = (4, 4)
      · simp [h4]
      · have hs : sqrUp (4 * k, 4 * k) = Spec.squareIdx (max (4 * k) (4 * k)) := by
          simp only [List.mem_cons, List.not_mem_nil, or_false] at hk
          rcases hk with rfl | rfl | rfl | rfl <;> decide +kernel
        have ha := above_eq (b := b) R Q (by omega) (by omega) (by omega : col < g.miCols) (by omega : b.row ≤ row) (by omega)
          (P.above col (by omega) (by omega) (by omega)) (hF (by omega) (by omega))
        have hl := left_eq (b := b) R Q (by omega) (by omega) (by omega) (by omega) (by omega : row < g.miRows) (by omega : b.col ≤ col) (by omega)
          (P.left row (by omega) (by omega) (by omega)) (hG (by omega) (by omega))
        rw [← hi0] at ha
        rw [← hj0] at hl
        have hx := split_ctx P.sizes (t := (4 * k, 4 * k)) hs ha hl
        rw [if_neg h4, hx, if_pos (by exact ⟨h4, by omega⟩)]
        simp only [Option.bind_eq_bind, Option.bind_some, List.singleton_append]
        rw [read_cons _ _ _ (by show 0 < 2; omega)]
        simp
    · have e4 : 4 * k / 4 = k := by omega
      simp only [e4]
      exact R.fill P.tile (q := ⟨row, col, k, k⟩) (by show lo ≤ row; omega) (by show row + k ≤ _; omega) (by show _ ≤ col; omega) hk0 hk0

end Rav1e.TxSize

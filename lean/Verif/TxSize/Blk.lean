import Verif.TxSize.Rt

/-!
# Reading the transform sizes of a block: inter blocks, intra blocks, and all others
-/

namespace Rav1e.TxSize

open Mvref.Spec (Geo)
open Spec (Tx Sym Cdf Hdr Dec Inside)

variable {g : Geo} {C : Cfg} {lo hi : Nat} {F G F0 G0 : Nat → Nat} {S : State} {D : Dec} {b : Hdr}

theorem DataRel.step {q : Rect} {t : Tx} {S' : State} {D' : Dec} (Q : DataRel g F0 G0 S D) (A : Step g lo F G S D q t S' D') : DataRel g F0 G0 S' D' := by
  unfold DataRel; rw [A.data, A.blk]; exact Q

theorem maxRect_eq (Z : Sizes b.bw4 b.bh4) : Spec.maxRect b = (4 * b.bw4, 4 * b.bh4) := by
  have h1 := Z.wide.2
  have h2 := Z.high.2
  rw [Spec.maxRect, Nat.min_eq_right (by omega), Nat.min_eq_right (by omega)]

theorem head_rt (P : Part g C lo hi b F0 G0) (Q : DataRel g F0 G0 S D) (R : Rel g lo F0 G0 S D) (h1 : (b.bw4, b.bh4) ≠ (1, 1)) (s : List Sym) :
    Spec.readVar g b 2 D b.row b.col (Spec.maxRect b)
      ((.txfmSplit (S.splitCtx (b.col - g.colStart) (b.row - g.rowStart) (b.bw4, b.bh4) (maxTx (b.bw4, b.bh4)) 0 0), 1) :: s) =
    (Spec.parts (4 * b.bw4, 4 * b.bh4)).foldlM
      (fun a p => Spec.readVar g b 1 a.1 (b.row + p.1) (b.col + p.2) (Spec.split (4 * b.bw4, 4 * b.bh4)) a.2) (D, s) := by
  have hrow := P.row0
  have hcol := P.col0
  have hT := P.tile.row0
  have hw := P.sizes.wide
  have hh := P.sizes.high
  have hr1 := P.row1
  have hrm := P.rowIn
  have hcm := P.colIn
  have h4 : ((4 * b.bw4, 4 * b.bh4) : Tx) ≠ (4, 4) := by
    intro h; apply h1; simp only [Prod.mk.injEq] at h ⊢; omega
  have ha := above_eq (b := b) (row := b.row) (col := b.col) R Q (by omega) hcol hcm (Nat.le_refl _) hrm
    (P.above b.col (Nat.le_refl _) (by omega) hcm) (P.above b.col (Nat.le_refl _) (by omega) hcm)
  have hl := left_eq (b := b) (row := b.row) (col := b.col) R Q hcol (by omega) hrow (by omega) hrm (Nat.le_refl _) hcm
    (P.left b.row (Nat.le_refl _) (by omega) hrm) (P.left b.row (Nat.le_refl _) (by omega) hrm)
  simp only [decide_true] at ha hl
  have hx := split_ctx (tbx := 0) (tby := 0) P.sizes (t := maxTx (b.bw4, b.bh4)) (by rw [P.sizes.idx0, P.sizes.mx]) ha hl
  rw [P.sizes.mx] at hx
  rw [maxRect_eq P.sizes, P.sizes.mx]
  simp only [Spec.readVar]
  rw [if_neg (show ¬ (b.row ≥ g.miRows ∨ b.col ≥ g.miCols) by omega), if_neg h4, hx]
  simp only [Option.bind_eq_bind, Option.bind_some]
  rw [read_cons _ _ _ (by show 1 < 2; omega)]
  simp only [Option.bind_some, if_true]

/-- A square block in four. -/
theorem quad_rt (P : Part g C lo hi b F0 G0) (Q : DataRel g F0 G0 S D) (R : Rel g lo F0 G0 S D) {k : Nat} (hk : k ∈ [1, 2, 4, 8])
    (hw : b.bw4 = 2 * k) (hh : b.bh4 = 2 * k) :
    ∃ D', let r := writeInter C S (b.col - g.colStart) (b.row - g.rowStart) (b.bw4, b.bh4) (maxTx (b.bw4, b.bh4)) true
      (∀ rest, Spec.readVar g b 2 D b.row b.col (Spec.maxRect b) (r.1 ++ rest) = some (D', rest)) ∧
      Step g lo F0 G0 S D ⟨b.row, b.col, b.bw4, b.bh4⟩ (subTx (maxTx (b.bw4, b.bh4))) r.2 D' := by
  have hrow := P.row0
  have hcol := P.col0
  have hT := P.tile.row0
  have hk0 : 0 < k := by simp only [List.mem_cons, List.not_mem_nil, or_false] at hk; omega
  have h1 : (b.bw4, b.bh4) ≠ (1, 1) := by intro h; simp only [Prod.mk.injEq] at h; omega
  have tr := P.tile.rows b.row (by omega) (by have := P.row1; omega)
  have tc := P.tile.cols b.col (by omega) (by have := P.col1; omega)
  have hrm := P.rowIn
  have hcm := P.colIn
  have hs : subTx (maxTx (b.bw4, b.bh4)) = (4 * k, 4 * k) := by
    rw [hw, hh]; simp only [List.mem_cons, List.not_mem_nil, or_false] at hk; rcases hk with rfl | rfl | rfl | rfl <;> rfl
  have hp : Spec.parts (4 * b.bw4, 4 * b.bh4) = [(0 * k, 0 * k), (0 * k, 1 * k), (1 * k, 0 * k), (1 * k, 1 * k)] := by
    rw [hw, hh]; simp only [List.mem_cons, List.not_mem_nil, or_false] at hk; rcases hk with rfl | rfl | rfl | rfl <;> decide
  have hsp : Spec.split (4 * b.bw4, 4 * b.bh4) = (4 * k, 4 * k) := by
    rw [hw, hh]; simp only [List.mem_cons, List.not_mem_nil, or_false] at hk; rcases hk with rfl | rfl | rfl | rfl <;> decide
  have h4 : maxTx (b.bw4, b.bh4) ≠ (4, 4) := by rw [P.sizes.mx]; intro h; simp only [Prod.mk.injEq] at h; omega
  have e4 : 4 * k / 4 = k := by omega
  have hpl : ((List.range (b.bh4 / k)).flatMap fun i => (List.range (b.bw4 / k)).map fun j => (j, i)) = [(0, 0), (1, 0), (0, 1), (1, 1)] := by
    rw [hw, hh, Nat.mul_div_cancel _ hk0]; decide
  simp only [writeInter, if_true, hs, e4, hpl, List.foldl_cons, List.foldl_nil, if_pos h4]
  rw [if_neg (show ¬ (b.col - g.colStart ≥ C.cols ∨ b.row - g.rowStart ≥ C.rows) by omega)]
  simp only [List.append_assoc, List.cons_append, List.nil_append]
  have fin : ∀ {m}, m < b.col + b.bw4 → b.col ≤ m → m < g.miCols → F0 m = b.row := fun a c d => P.above _ c a d
  have gin : ∀ {m}, m < b.row + b.bh4 → b.row ≤ m → m < g.miRows → G0 m = b.col := fun a c d => P.left _ c a d
  obtain ⟨D1, a1, s1⟩ := leaf_rt P Q R (i := 0) (j := 0) hk (by omega) (by omega)
    (fun _ d => fin (by omega) (by omega) d |>.trans (by omega)) (fun d _ => gin (by omega) (by omega) d |>.trans (by omega))
  obtain ⟨D2, a2, s2⟩ := leaf_rt P (Q.step s1) s1.rel (i := 0) (j := 1) hk (by omega) (by omega)
    (fun _ d => by
      simp only [updF]; rw [if_neg (by omega)]; exact (fin (by omega) (by omega) d).trans (by omega))
    (fun _ _ => by simp only [updG]; rw [if_pos (by omega)]; omega)
  obtain ⟨D3, a3, s3⟩ := leaf_rt P ((Q.step s1).step s2) s2.rel (i := 1) (j := 0) hk (by omega) (by omega)
    (fun _ d => by
      simp only [updF]; rw [if_neg (by omega), if_pos (by omega)]; omega)
    (fun d _ => by
      simp only [updG]; rw [if_neg (by omega), if_neg (by omega)]; exact (gin (by omega) (by omega) d).trans (by omega))
  obtain ⟨D4, a4, s4⟩ := leaf_rt P (((Q.step s1).step s2).step s3) s3.rel (i := 1) (j := 1) hk (by omega) (by omega)
    (fun _ d => by
      simp only [updF]; rw [if_neg (by omega), if_pos (by omega)]; omega)
    (fun d _ => by
      simp only [updG]; rw [if_pos (by omega)]; omega)
  refine ⟨D4, fun rest => ?_, ?_⟩
  · rw [head_rt P Q R h1, hp, hsp]
    simp only [List.foldlM_cons, List.foldlM_nil]
    rw [a1]; simp only [Option.bind_eq_bind, Option.bind_some]
    rw [a2]; simp only [Option.bind_some]
    rw [a3]; simp only [Option.bind_some]
    rw [a4]; rfl
  · have z : ∀ n, n + 0 * k = n := by omega
    have o : ∀ n, n + 1 * k = n + k := by omega
    simp only [z, o] at s1 s2 s3 s4 ⊢
    rw [updF_across, updG_across] at s3 s4
    have := (s1.across s2).down (s3.across s4)
    rw [← Nat.two_mul] at this
    rw [hw, hh] at *
    exact this

/-- A block that is wider than high in two. -/
theorem wide_rt (P : Part g C lo hi b F0 G0) (Q : DataRel g F0 G0 S D) (R : Rel g lo F0 G0 S D) {k : Nat} (hk : k ∈ [1, 2, 4, 8])
    (hw : b.bw4 = 2 * k) (hh : b.bh4 = k) :
    ∃ D', let r := writeInter C S (b.col - g.colStart) (b.row - g.rowStart) (b.bw4, b.bh4) (maxTx (b.bw4, b.bh4)) true
      (∀ rest, Spec.readVar g b 2 D b.row b.col (Spec.maxRect b) (r.1 ++ rest) = some (D', rest)) ∧
      Step g lo F0 G0 S D ⟨b.row, b.col, b.bw4, b.bh4⟩ (subTx (maxTx (b.bw4, b.bh4))) r.2 D' := by
  have hrow := P.row0
  have hcol := P.col0
  have hT := P.tile.row0
  have hk0 : 0 < k := by simp only [List.mem_cons, List.not_mem_nil, or_false] at hk; omega
  have h1 : (b.bw4, b.bh4) ≠ (1, 1) := by intro h; simp only [Prod.mk.injEq] at h; omega
  have tr := P.tile.rows b.row (by omega) (by have := P.row1; omega)
  have tc := P.tile.cols b.col (by omega) (by have := P.col1; omega)
  have hrm := P.rowIn
  have hcm := P.colIn
  have hs : subTx (maxTx (b.bw4, b.bh4)) = (4 * k, 4 * k) := by
    rw [hw, hh]; simp only [List.mem_cons, List.not_mem_nil, or_false] at hk; rcases hk with rfl | rfl | rfl | rfl <;> rfl
  have hp : Spec.parts (4 * b.bw4, 4 * b.bh4) = [(0 * k, 0 * k), (0 * k, 1 * k)] := by
    rw [hw, hh]; simp only [List.mem_cons, List.not_mem_nil, or_false] at hk; rcases hk with rfl | rfl | rfl | rfl <;> decide
  have hsp : Spec.split (4 * b.bw4, 4 * b.bh4) = (4 * k, 4 * k) := by
    rw [hw, hh]; simp only [List.mem_cons, List.not_mem_nil, or_false] at hk; rcases hk with rfl | rfl | rfl | rfl <;> decide
  have h4 : maxTx (b.bw4, b.bh4) ≠ (4, 4) := by rw [P.sizes.mx]; intro h; simp only [Prod.mk.injEq] at h; omega
  have e4 : 4 * k / 4 = k := by omega
  have hpl : ((List.range (b.bh4 / k)).flatMap fun i => (List.range (b.bw4 / k)).map fun j => (j, i)) = [(0, 0), (1, 0)] := by
    rw [hw, hh, Nat.mul_div_cancel _ hk0, Nat.div_self hk0]; decide
  simp only [writeInter, if_true, hs, e4, hpl, List.foldl_cons, List.foldl_nil, if_pos h4]
  rw [if_neg (show ¬ (b.col - g.colStart ≥ C.cols ∨ b.row - g.rowStart ≥ C.rows) by omega)]
  simp only [List.append_assoc, List.cons_append, List.nil_append]
  have fin : ∀ {m}, m < b.col + b.bw4 → b.col ≤ m → m < g.miCols → F0 m = b.row := fun a c d => P.above _ c a d
  have gin : ∀ {m}, m < b.row + b.bh4 → b.row ≤ m → m < g.miRows → G0 m = b.col := fun a c d => P.left _ c a d
  obtain ⟨D1, a1, s1⟩ := leaf_rt P Q R (i := 0) (j := 0) hk (by omega) (by omega)
    (fun _ d => fin (by omega) (by omega) d |>.trans (by omega)) (fun d _ => gin (by omega) (by omega) d |>.trans (by omega))
  obtain ⟨D2, a2, s2⟩ := leaf_rt P (Q.step s1) s1.rel (i := 0) (j := 1) hk (by omega) (by omega)
    (fun _ d => by
      simp only [updF]; rw [if_neg (by omega)]; exact (fin (by omega) (by omega) d).trans (by omega))
    (fun _ _ => by simp only [updG]; rw [if_pos (by omega)]; omega)
  refine ⟨D2, fun rest => ?_, ?_⟩
  · rw [head_rt P Q R h1, hp, hsp]
    simp only [List.foldlM_cons, List.foldlM_nil]
    rw [a1]; simp only [Option.bind_eq_bind, Option.bind_some]
    rw [a2]; rfl
  · have z : ∀ n, n + 0 * k = n := by omega
    have o : ∀ n, n + 1 * k = n + k := by omega
    simp only [z, o] at s1 s2 ⊢
    have := s1.across s2
    rw [← Nat.two_mul] at this
    rw [hw, hh] at *
    exact this

/-- A block that is higher than wide in two. -/
theorem tall_rt (P : Part g C lo hi b F0 G0) (Q : DataRel g F0 G0 S D) (R : Rel g lo F0 G0 S D) {k : Nat} (hk : k ∈ [1, 2, 4, 8])
    (hw : b.bw4 = k) (hh : b.bh4 = 2 * k) :
    ∃ D', let r := writeInter C S (b.col - g.colStart) (b.row - g.rowStart) (b.bw4, b.bh4) (maxTx (b.bw4, b.bh4)) true
      (∀ rest, Spec.readVar g b 2 D b.row b.col (Spec.maxRect b) (r.1 ++ rest) = some (D', rest)) ∧
      Step g lo F0 G0 S D ⟨b.row, b.col, b.bw4, b.bh4⟩ (subTx (maxTx (b.bw4, b.bh4))) r.2 D' := by
  have hrow := P.row0
  have hcol := P.col0
  have hT := P.tile.row0
  have hk0 : 0 < k := by simp only [List.mem_cons, List.not_mem_nil, or_false] at hk; omega
  have h1 : (b.bw4, b.bh4) ≠ (1, 1) := by intro h; simp only [Prod.mk.injEq] at h; omega
  have tr := P.tile.rows b.row (by omega) (by have := P.row1; omega)
  have tc := P.tile.cols b.col (by omega) (by have := P.col1; omega)
  have hrm := P.rowIn
  have hcm := P.colIn
  have hs : subTx (maxTx (b.bw4, b.bh4)) = (4 * k, 4 * k) := by
    rw [hw, hh]; simp only [List.mem_cons, List.not_mem_nil, or_false] at hk; rcases hk with rfl | rfl | rfl | rfl <;> rfl
  have hp : Spec.parts (4 * b.bw4, 4 * b.bh4) = [(0 * k, 0 * k), (1 * k, 0 * k)] := by
    rw [hw, hh]; simp only [List.mem_cons, List.not_mem_nil, or_false] at hk; rcases hk with rfl | rfl | rfl | rfl <;> decide
  have hsp : Spec.split (4 * b.bw4, 4 * b.bh4) = (4 * k, 4 * k) := by
    rw [hw, hh]; simp only [List.mem_cons, List.not_mem_nil, or_false] at hk; rcases hk with rfl | rfl | rfl | rfl <;> decide
  have h4 : maxTx (b.bw4, b.bh4) ≠ (4, 4) := by rw [P.sizes.mx]; intro h; simp only [Prod.mk.injEq] at h; omega
  have e4 : 4 * k / 4 = k := by omega
  have hpl : ((List.range (b.bh4 / k)).flatMap fun i => (List.range (b.bw4 / k)).map fun j => (j, i)) = [(0, 0), (0, 1)] := by
    rw [hw, hh, Nat.mul_div_cancel _ hk0, Nat.div_self hk0]; decide
  simp only [writeInter, if_true, hs, e4, hpl, List.foldl_cons, List.foldl_nil, if_pos h4]
  rw [if_neg (show ¬ (b.col - g.colStart ≥ C.cols ∨ b.row - g.rowStart ≥ C.rows) by omega)]
  simp only [List.append_assoc, List.cons_append, List.nil_append]
  have fin : ∀ {m}, m < b.col + b.bw4 → b.col ≤ m → m < g.miCols → F0 m = b.row := fun a c d => P.above _ c a d
  have gin : ∀ {m}, m < b.row + b.bh4 → b.row ≤ m → m < g.miRows → G0 m = b.col := fun a c d => P.left _ c a d
  obtain ⟨D1, a1, s1⟩ := leaf_rt P Q R (i := 0) (j := 0) hk (by omega) (by omega)
    (fun _ d => fin (by omega) (by omega) d |>.trans (by omega)) (fun d _ => gin (by omega) (by omega) d |>.trans (by omega))
  obtain ⟨D2, a2, s2⟩ := leaf_rt P (Q.step s1) s1.rel (i := 1) (j := 0) hk (by omega) (by omega)
    (fun _ _ => by simp only [updF]; rw [if_pos (by omega)]; omega)
    (fun d _ => by
      simp only [updG]; rw [if_neg (by omega)]; exact (gin (by omega) (by omega) d).trans (by omega))
  refine ⟨D2, fun rest => ?_, ?_⟩
  · rw [head_rt P Q R h1, hp, hsp]
    simp only [List.foldlM_cons, List.foldlM_nil]
    rw [a1]; simp only [Option.bind_eq_bind, Option.bind_some]
    rw [a2]; rfl
  · have z : ∀ n, n + 0 * k = n := by omega
    have o : ∀ n, n + 1 * k = n + k := by omega
    simp only [z, o] at s1 s2 ⊢
    have := s1.down s2
    rw [← Nat.two_mul] at this
    rw [hw, hh] at *
    exact this

/-! ### Intra blocks -/

theorem size_ctx (P : Part g C lo hi b F0 G0) (Q : DataRel g F0 G0 S D) (R : Rel g lo F0 G0 S D) :
    Spec.depthCtx g D b = some (S.sizeCtx (b.col - g.colStart) (b.row - g.rowStart) (b.bw4, b.bh4)) := by
  have hrow := P.row0
  have hcol := P.col0
  have hT := P.tile.row0
  have hw := P.sizes.wide
  have hh := P.sizes.high
  have hr1 := P.row1
  have hrm := P.rowIn
  have hcm := P.colIn
  have f0 := P.above b.col (Nat.le_refl _) (by omega) hcm
  have g0 := P.left b.row (Nat.le_refl _) (by omega) hrm
  have A : ∃ v, Spec.depthAbove g D b = some v ∧
      (if v ≥ 4 * b.bw4 then 1 else 0) = if 0 < b.row - g.rowStart then
        (if (S.data (b.row - g.rowStart - 1) (b.col - g.colStart)).inter then decide ((S.data (b.row - g.rowStart - 1) (b.col - g.colStart)).w4 * 4 ≥ 4 * b.bw4)
          else decide (S.above (b.col - g.colStart) ≥ 4 * b.bw4)).toNat else 0 := by
    unfold Spec.depthAbove
    by_cases h : b.row ≤ g.rowStart
    · exact ⟨0, by rw [if_pos h], by rw [if_neg (by omega), if_neg (by omega)]⟩
    · obtain ⟨a, h1, h2⟩ := Q (b.row - 1) b.col (by omega) hcol (by omega) hcm (by omega)
      have e : b.row - g.rowStart - 1 = b.row - 1 - g.rowStart := by omega
      rw [if_neg h, if_pos (by omega), e, h1, h2]
      simp only [Option.bind_some]
      cases hi : a.inter with
      | true =>
        refine ⟨4 * a.bw4, by simp, ?_⟩
        rw [Nat.mul_comm a.bw4]
        by_cases hv : 4 * a.bw4 ≥ 4 * b.bw4 <;> simp [hv]
      | false =>
        refine ⟨_, by
          rw [if_neg (by simp)]
          exact above_eq (b := b) (row := b.row) (col := b.col) R Q (by omega) hcol hcm (Nat.le_refl _) hrm f0 f0, ?_⟩
        have hy : (b.row - g.rowStart == 0) = false := by simp; omega
        simp only [State.aboveWidth, e, h2, hi, hy, decide_true, Bool.and_false, Bool.false_eq_true, if_false]
        by_cases hv : S.above (b.col - g.colStart) ≥ 4 * b.bw4 <;> simp [hv]
  have B : ∃ v, Spec.depthLeft g D b = some v ∧
      (if v ≥ 4 * b.bh4 then 1 else 0) = if 0 < b.col - g.colStart then
        (if (S.data (b.row - g.rowStart) (b.col - g.colStart - 1)).inter then decide ((S.data (b.row - g.rowStart) (b.col - g.colStart - 1)).h4 * 4 ≥ 4 * b.bh4)
          else decide (S.left ((b.row - g.rowStart) % 16) ≥ 4 * b.bh4)).toNat else 0 := by
    unfold Spec.depthLeft
    by_cases h : b.col ≤ g.colStart
    · exact ⟨0, by rw [if_pos h], by rw [if_neg (by omega), if_neg (by omega)]⟩
    · obtain ⟨a, h1, h2⟩ := Q b.row (b.col - 1) (by omega) (by omega) hrm (by omega) (by omega)
      have e : b.col - g.colStart - 1 = b.col - 1 - g.colStart := by omega
      rw [if_neg h, if_pos (by omega), e, h1, h2]
      simp only [Option.bind_some]
      cases hi : a.inter with
      | true =>
        refine ⟨4 * a.bh4, by simp, ?_⟩
        rw [Nat.mul_comm a.bh4]
        by_cases hv : 4 * a.bh4 ≥ 4 * b.bh4 <;> simp [hv]
      | false =>
        refine ⟨_, by
          rw [if_neg (by simp)]
          exact left_eq (b := b) (row := b.row) (col := b.col) R Q hcol (by omega) hrow (by omega) hrm (Nat.le_refl _) hcm g0 g0, ?_⟩
        have hx : (b.col - g.colStart == 0) = false := by simp; omega
        simp only [State.leftHeight, e, h2, hi, hx, decide_true, Bool.and_false, Bool.false_eq_true, if_false]
        by_cases hv : S.left ((b.row - g.rowStart) % 16) ≥ 4 * b.bh4 <;> simp [hv]
  obtain ⟨v, hv, ev⟩ := A
  obtain ⟨u, hu, eu⟩ := B
  unfold Spec.depthCtx State.sizeCtx
  rw [hv, hu, maxRect_eq P.sizes, P.sizes.mx]
  simp only [Option.bind_eq_bind, Option.bind_some]
  rw [ev, eu]
  by_cases hy : 0 < b.row - g.rowStart <;> by_cases hx : 0 < b.col - g.colStart <;> simp [hy, hx]

/-- The depth in `tx_depth` and its distribution. -/
theorem depth_ok (H : Shape b.bw4 b.bh4) (h1 : (b.bw4, b.bh4) ≠ (1, 1)) {t : Tx}
    (ht : t ∈ [maxTx (b.bw4, b.bh4), subTx (maxTx (b.bw4, b.bh4)), subTx (subTx (maxTx (b.bw4, b.bh4)))]) :
    toCat 5 (maxTx (b.bw4, b.bh4)) - 1 = Spec.depthCdf b ∧
    Nat.repeat Spec.split (toDepth 3 t (maxTx (b.bw4, b.bh4))) (Spec.maxRect b) = t ∧
    toDepth 3 t (maxTx (b.bw4, b.bh4)) < if Spec.depthCdf b = 0 then 2 else 3 := by
  obtain ⟨r, c, w, h, i, s⟩ := b
  simp only at *
  have e1 : Spec.depthCdf ⟨r, c, w, h, i, s⟩ = Spec.depthCdf ⟨0, 0, w, h, false, false⟩ := rfl
  have e2 : Spec.maxRect ⟨r, c, w, h, i, s⟩ = Spec.maxRect ⟨0, 0, w, h, false, false⟩ := rfl
  rw [e1, e2]
  clear e1 e2
  obtain ⟨n, hn, H⟩ := H
  simp only [List.mem_cons, List.not_mem_nil, or_false] at hn
  rcases hn with rfl | rfl | rfl | rfl | rfl <;> rcases H with ⟨rfl, rfl⟩ | ⟨h2, rfl, rfl⟩ | ⟨h2, rfl, rfl⟩ <;>
    first
    | (exfalso; revert h2; decide)
    | (exfalso; revert h1; decide)
    | (simp only [List.mem_cons, List.not_mem_nil, or_false] at ht
       rcases ht with rfl | rfl | rfl <;> decide +kernel)

end Rav1e.TxSize

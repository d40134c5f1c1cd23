import Verif.Mvref.Order

/-!
# The order of blocks

When a block is decoded, the last block that was decoded in any of its columns is the one directly above it, and the last one in any of its rows the one
directly to the left of it.
-/

namespace Rav1e.TxSize

open Mvref.Spec (Geo Blk Tree)

/-- A rectangle of units. -/
structure Rect where
  row : Nat
  col : Nat
  w : Nat
  h : Nat
  deriving DecidableEq, Repr

/-- Where a block is. -/
def rectOf (b : Blk) : Rect := ⟨b.row, b.col, b.bw4, b.bh4⟩

/-- For every column, the row below the last block in it. -/
def updF (F : Nat → Nat) (q : Rect) : Nat → Nat := fun c => if q.col ≤ c ∧ c < q.col + q.w then q.row + q.h else F c

/-- For every row, the column to the right of the last block in it. -/
def updG (G : Nat → Nat) (q : Rect) : Nat → Nat := fun r => if q.row ≤ r ∧ r < q.row + q.h then q.col + q.w else G r

/-- The sizes of blocks. -/
def Shape (w h : Nat) : Prop :=
  ∃ n ∈ [1, 2, 4, 8, 16], (w = n ∧ h = n) ∨ (2 ≤ n ∧ w = n ∧ h = n / 2) ∨ (2 ≤ n ∧ w = n / 2 ∧ h = n)

/-- A block of the superblock row that starts at `lo`, where the previous blocks leave room for it. -/
structure Good (g : Geo) (lo hi : Nat) (F G : Nat → Nat) (q : Rect) : Prop where
  rowIn : q.row < g.miRows
  colIn : q.col < g.miCols
  rowLo : lo ≤ q.row
  rowHi : q.row + q.h ≤ lo + 16
  colLo : g.colStart ≤ q.col
  colHi : q.col + q.w ≤ hi
  shape : Shape q.w q.h
  above : ∀ c, q.col ≤ c → c < q.col + q.w → c < g.miCols → F c = q.row
  left : ∀ r, q.row ≤ r → r < q.row + q.h → r < g.miRows → G r = q.col

/-- All blocks of a list find room. -/
def Ordered (g : Geo) (lo hi : Nat) : (Nat → Nat) → (Nat → Nat) → List Rect → Prop
  | _, _, [] => True
  | F, G, q :: l => Good g lo hi F G q ∧ Ordered g lo hi (updF F q) (updG G q) l

/-- After all blocks of a list. -/
def endF (F : Nat → Nat) (l : List Rect) : Nat → Nat := l.foldl updF F

/-- After all blocks of a list. -/
def endG (G : Nat → Nat) (l : List Rect) : Nat → Nat := l.foldl updG G

theorem endF_append (F : Nat → Nat) (l m : List Rect) : endF F (l ++ m) = endF (endF F l) m := by simp [endF]

theorem endG_append (G : Nat → Nat) (l m : List Rect) : endG G (l ++ m) = endG (endG G l) m := by simp [endG]

variable {g : Geo} {lo hi : Nat}

theorem ordered_append {l m : List Rect} : ∀ {F G : Nat → Nat}, Ordered g lo hi F G l → Ordered g lo hi (endF F l) (endG G l) m → Ordered g lo hi F G (l ++ m) := by
  induction l with
  | nil => intro F G _ h; exact h
  | cons q l ih => intro F G h h2; exact ⟨h.1, ih h.2 h2⟩

/-- What the blocks of a square do. -/
structure Square (g : Geo) (lo hi n r c : Nat) (F G : Nat → Nat) (l : List Rect) : Prop where
  ok : Ordered g lo hi F G l
  f : ∀ j, c ≤ j → j < c + n → j < g.miCols → r + n < g.miRows → endF F l j = r + n
  fo : ∀ j, ¬ (c ≤ j ∧ j < c + n) → endF F l j = F j
  g : ∀ i, r ≤ i → i < r + n → i < g.miRows → c + n < g.miCols → endG G l i = c + n
  go : ∀ i, ¬ (r ≤ i ∧ i < r + n) → endG G l i = G i

theorem square (t : Tree) : ∀ {n r c : Nat} {F G : Nat → Nat}, n ∈ [1, 2, 4, 8, 16] → t.Ok n → lo ≤ r → r + n ≤ lo + 16 → g.colStart ≤ c → c + n ≤ hi →
    (r < g.miRows → c < g.miCols → ∀ j, c ≤ j → j < c + n → j < g.miCols → F j = r) →
    (r < g.miRows → c < g.miCols → ∀ i, r ≤ i → i < r + n → i < g.miRows → G i = c) →
    Square g lo hi n r c F G ((g.partition n r c t).map rectOf) := by
  induction t with
  | none a =>
    intro n r c F G hn _ h1 h2 h3 h4 hF hG
    rw [Geo.partition]
    by_cases hin : r ≥ g.miRows ∨ c ≥ g.miCols
    · rw [if_pos hin]; exact ⟨trivial, by intros; omega, fun _ _ => rfl, by intros; omega, fun _ _ => rfl⟩
    rw [if_neg hin]
    have hs : Shape n n := ⟨n, hn, Or.inl ⟨rfl, rfl⟩⟩
    refine ⟨⟨⟨by show r < _; omega, by show c < _; omega, h1, h2, h3, h4, hs, hF (by omega) (by omega), hG (by omega) (by omega)⟩, trivial⟩, ?_, ?_, ?_, ?_⟩
    · intro j a b _ _; simp [endF, updF, rectOf, a, b]
    · intro j hj; simp [endF, updF, rectOf, hj]
    · intro j a b _ _; simp [endG, updG, rectOf, a, b]
    · intro j hj; simp [endG, updG, rectOf, hj]
  | horz a b =>
    intro n r c F G hn ho h1 h2 h3 h4 hF hG
    rw [Geo.partition]
    by_cases hin : r ≥ g.miRows ∨ c ≥ g.miCols
    · rw [if_pos hin]; exact ⟨trivial, by intros; omega, fun _ _ => rfl, by intros; omega, fun _ _ => rfl⟩
    rw [if_neg hin]
    have h2n : 2 ≤ n := ho
    have he : n / 2 + n / 2 = n := by simp only [List.mem_cons, List.not_mem_nil, or_false] at hn; omega
    have hs : Shape n (n / 2) := ⟨n, hn, Or.inr (Or.inl ⟨h2n, rfl, rfl⟩)⟩
    have hF := hF (by omega) (by omega)
    have hG := hG (by omega) (by omega)
    have A : Good g lo hi F G ⟨r, c, n, n / 2⟩ :=
      ⟨by show r < _; omega, by show c < _; omega, h1, by show r + n / 2 ≤ _; omega, h3, h4, hs, hF, fun i a b d => hG i a (by simp only at b; omega) d⟩
    by_cases hh : r + n / 2 < g.miRows
    · have B : Good g lo hi (updF F ⟨r, c, n, n / 2⟩) (updG G ⟨r, c, n, n / 2⟩) ⟨r + n / 2, c, n, n / 2⟩ := by
        refine ⟨hh, by show c < _; omega, by show lo ≤ r + n / 2; omega, by show r + n / 2 + n / 2 ≤ _; omega, h3, h4, hs, ?_, ?_⟩
        · intro j a b _; simp only at a b; simp [updF, a, b]
        · intro i a b d; simp only at a b; simp only [updG]; rw [if_neg (by omega)]; exact hG i (by omega) (by omega) d
      simp only [if_pos hh, List.map_cons, List.map_nil, rectOf]
      refine ⟨⟨A, B, trivial⟩, ?_, ?_, ?_, ?_⟩
      · intro j a b _ _; simp only [endF, updF, List.foldl]; rw [if_pos ⟨a, b⟩]; omega
      · intro j hj; simp only [endF, updF, List.foldl]; rw [if_neg hj, if_neg hj]
      · intro i a b _ _; simp only [endG, updG, List.foldl]; split <;> [rfl; rw [if_pos (by omega)]]
      · intro i hi; simp only [endG, updG, List.foldl]; rw [if_neg (by omega), if_neg (by omega)]
    · simp only [if_neg hh, List.map_cons, List.map_nil, rectOf]
      refine ⟨⟨A, trivial⟩, ?_, ?_, ?_, ?_⟩
      · intro j a b _ _; omega
      · intro j hj; simp only [endF, updF, List.foldl]; rw [if_neg hj]
      · intro i a b _ _; simp only [endG, updG, List.foldl]; rw [if_pos (by omega)]
      · intro i hi; simp only [endG, updG, List.foldl]; rw [if_neg (by omega)]
  | vert a b =>
    intro n r c F G hn ho h1 h2 h3 h4 hF hG
    rw [Geo.partition]
    by_cases hin : r ≥ g.miRows ∨ c ≥ g.miCols
    · rw [if_pos hin]; exact ⟨trivial, by intros; omega, fun _ _ => rfl, by intros; omega, fun _ _ => rfl⟩
    rw [if_neg hin]
    have h2n : 2 ≤ n := ho
    have he : n / 2 + n / 2 = n := by simp only [List.mem_cons, List.not_mem_nil, or_false] at hn; omega
    have hs : Shape (n / 2) n := ⟨n, hn, Or.inr (Or.inr ⟨h2n, rfl, rfl⟩)⟩
    have hF := hF (by omega) (by omega)
    have hG := hG (by omega) (by omega)
    have A : Good g lo hi F G ⟨r, c, n / 2, n⟩ :=
      ⟨by show r < _; omega, by show c < _; omega, h1, h2, h3, by show c + n / 2 ≤ _; omega, hs, fun i a b d => hF i a (by simp only at b; omega) d, hG⟩
    by_cases hh : c + n / 2 < g.miCols
    · have B : Good g lo hi (updF F ⟨r, c, n / 2, n⟩) (updG G ⟨r, c, n / 2, n⟩) ⟨r, c + n / 2, n / 2, n⟩ := by
        refine ⟨by show r < _; omega, hh, h1, h2, by show _ ≤ c + n / 2; omega, by show c + n / 2 + n / 2 ≤ _; omega, hs, ?_, ?_⟩
        · intro j a b d; simp only at a b; simp only [updF]; rw [if_neg (by omega)]; exact hF j (by omega) (by omega) d
        · intro i a b _; simp only at a b; simp [updG, a, b]
      simp only [if_pos hh, List.map_cons, List.map_nil, rectOf]
      refine ⟨⟨A, B, trivial⟩, ?_, ?_, ?_, ?_⟩
      · intro j a b _ _; simp only [endF, updF, List.foldl]; split <;> [rfl; rw [if_pos (by omega)]]
      · intro j hj; simp only [endF, updF, List.foldl]; rw [if_neg (by omega), if_neg (by omega)]
      · intro i a b _ _; simp only [endG, updG, List.foldl]; rw [if_pos ⟨a, b⟩]; omega
      · intro i hi; simp only [endG, updG, List.foldl]; rw [if_neg hi, if_neg hi]
    · simp only [if_neg hh, List.map_cons, List.map_nil, rectOf]
      refine ⟨⟨A, trivial⟩, ?_, ?_, ?_, ?_⟩
      · intro j a b _ _; simp only [endF, updF, List.foldl]; rw [if_pos (by omega)]
      · intro j hj; simp only [endF, updF, List.foldl]; rw [if_neg (by omega)]
      · intro i a b _ _; omega
      · intro i hi; simp only [endG, updG, List.foldl]; rw [if_neg hi]
  | split t0 t1 t2 t3 i0 i1 i2 i3 =>
    intro n r c F G hn ho h1 h2 h3 h4 hF hG
    rw [Geo.partition]
    by_cases hin : r ≥ g.miRows ∨ c ≥ g.miCols
    · rw [if_pos hin]; exact ⟨trivial, by intros; omega, fun _ _ => rfl, by intros; omega, fun _ _ => rfl⟩
    rw [if_neg hin]
    obtain ⟨h2n, o0, o1, o2, o3⟩ := ho
    have he : n / 2 + n / 2 = n := by simp only [List.mem_cons, List.not_mem_nil, or_false] at hn; omega
    have hm : n / 2 ∈ [1, 2, 4, 8, 16] := by
      simp only [List.mem_cons, List.not_mem_nil, or_false] at hn
      rcases hn with rfl | rfl | rfl | rfl | rfl <;> first | (exfalso; revert h2n; decide) | decide
    generalize hk : n / 2 = k at *
    have hF := hF (by omega) (by omega)
    have hG := hG (by omega) (by omega)
    have q0 := i0 (F := F) (G := G) hm o0 h1 (by omega) h3 (by omega) (fun _ _ j a b d => hF j a (by omega) d) (fun _ _ i a b d => hG i a (by omega) d)
    simp only [List.map_append]
    generalize (g.partition k r c t0).map rectOf = l0 at *
    have q1 := i1 (r := r) (c := c + k) (F := endF F l0) (G := endG G l0) hm o1 h1 (by omega) (by omega) (by omega)
      (fun _ _ j a b d => by rw [q0.fo j (by omega)]; exact hF j (by omega) (by omega) d)
      (fun _ hc i a b d => q0.g i a b d hc)
    generalize (g.partition k r (c + k) t1).map rectOf = l1 at *
    have q2 := i2 (r := r + k) (c := c) (F := endF (endF F l0) l1) (G := endG (endG G l0) l1) hm o2 (by omega) (by omega) h3 (by omega)
      (fun hr _ j a b d => by rw [q1.fo j (by omega)]; exact q0.f j a b d hr)
      (fun _ _ i a b d => by rw [q1.go i (by omega), q0.go i (by omega)]; exact hG i (by omega) (by omega) d)
    generalize (g.partition k (r + k) c t2).map rectOf = l2 at *
    have q3 := i3 (r := r + k) (c := c + k) (F := endF (endF (endF F l0) l1) l2) (G := endG (endG (endG G l0) l1) l2) hm o3 (by omega) (by omega) (by omega) (by omega)
      (fun hr _ j a b d => by rw [q2.fo j (by omega)]; exact q1.f j a b d hr)
      (fun _ hc i a b d => q2.g i a b d hc)
    generalize (g.partition k (r + k) (c + k) t3).map rectOf = l3 at *
    refine ⟨?_, ?_, ?_, ?_, ?_⟩
    · refine ordered_append (ordered_append (ordered_append q0.ok q1.ok) ?_) ?_
      · rw [endF_append, endG_append]; exact q2.ok
      · rw [endF_append, endG_append, endF_append, endG_append]; exact q3.ok
    · intro j a b d e
      rw [endF_append, endF_append, endF_append]
      by_cases hj : j < c + k
      · rw [q3.fo j (by omega), q2.f j a hj d (by omega)]; omega
      · rw [q3.f j (by omega) (by omega) d (by omega)]; omega
    · intro j hj
      rw [endF_append, endF_append, endF_append, q3.fo j (by omega), q2.fo j (by omega), q1.fo j (by omega), q0.fo j (by omega)]
    · intro i a b d e
      rw [endG_append, endG_append, endG_append]
      by_cases hi : i < r + k
      · rw [q3.go i (by omega), q2.go i (by omega), q1.g i a hi d (by omega)]; omega
      · rw [q3.g i (by omega) (by omega) d (by omega)]; omega
    · intro i hi
      rw [endG_append, endG_append, endG_append, q3.go i (by omega), q2.go i (by omega), q1.go i (by omega), q0.go i (by omega)]

/-- The first `m` superblocks of a row. -/
def sbs (g : Geo) (t : Nat → Nat → Tree) (r m : Nat) : List Blk :=
  (List.range m).flatMap fun j => g.partition 16 r (g.colStart + 16 * j) (t r (g.colStart + 16 * j))

/-- A row of superblocks, from left to right. -/
def sbRow (g : Geo) (t : Nat → Nat → Tree) (i : Nat) : List Blk := sbs g t (g.rowStart + 16 * i) ((g.colEnd - g.colStart + 15) / 16)

theorem tile_rows (g : Geo) (t : Nat → Nat → Tree) : g.tile t = ((List.range ((g.rowEnd - g.rowStart + 15) / 16)).map (sbRow g t)).flatten := by
  rw [Geo.tile, List.flatMap_def]; rfl

/-- What the blocks of a row of superblocks do. -/
structure RowOf (g : Geo) (lo hi m : Nat) (F G : Nat → Nat) (l : List Rect) : Prop where
  ok : Ordered g lo hi F G l
  f : ∀ j, g.colStart ≤ j → j < g.colStart + 16 * m → j < g.miCols → lo + 16 < g.miRows → endF F l j = lo + 16
  fo : ∀ j, ¬ (g.colStart ≤ j ∧ j < g.colStart + 16 * m) → endF F l j = F j
  g : ∀ i, lo ≤ i → i < lo + 16 → i < g.miRows → g.colStart + 16 * m < g.miCols → endG G l i = g.colStart + 16 * m

theorem sbs_ok {t : Nat → Nat → Tree} (ht : ∀ r c, (t r c).Ok 16) {F G : Nat → Nat} (m : Nat) (hm : g.colStart + 16 * m ≤ hi)
    (hF : ∀ j, g.colStart ≤ j → j < g.colStart + 16 * m → j < g.miCols → F j = lo)
    (hG : ∀ i, lo ≤ i → i < lo + 16 → i < g.miRows → G i = g.colStart) : RowOf g lo hi m F G ((sbs g t lo m).map rectOf) := by
  induction m with
  | zero =>
    refine ⟨trivial, by intros; omega, fun _ _ => rfl, ?_⟩
    intro i a b d _; simpa [sbs, endG] using hG i a b d
  | succ m ih =>
    have q := ih (by omega) (fun j a b d => hF j a (by omega) d)
    have e : (sbs g t lo (m + 1)).map rectOf =
        (sbs g t lo m).map rectOf ++ (g.partition 16 lo (g.colStart + 16 * m) (t lo (g.colStart + 16 * m))).map rectOf := by
      simp [sbs, List.range_succ]
    rw [e]
    generalize (sbs g t lo m).map rectOf = l at *
    have s := square (g := g) (lo := lo) (hi := hi) (t lo (g.colStart + 16 * m)) (n := 16) (r := lo) (c := g.colStart + 16 * m) (F := endF F l) (G := endG G l)
      (by decide) (ht _ _) (Nat.le_refl _) (Nat.le_refl _) (by omega) (by omega)
      (fun _ _ j a b d => by rw [q.fo j (by omega)]; exact hF j (by omega) (by omega) d)
      (fun _ hc i a b d => q.g i a b d hc)
    generalize (g.partition 16 lo (g.colStart + 16 * m) (t lo (g.colStart + 16 * m))).map rectOf = l' at *
    refine ⟨ordered_append q.ok s.ok, ?_, ?_, ?_⟩
    · intro j a b d e
      rw [endF_append]
      by_cases hj : j < g.colStart + 16 * m
      · rw [s.fo j (by omega)]; exact q.f j a hj d e
      · exact s.f j (by omega) (by omega) d e
    · intro j hj
      rw [endF_append, s.fo j (by omega), q.fo j (by omega)]
    · intro i a b d e
      rw [endG_append, s.g i a b d (by omega)]; omega

end Rav1e.TxSize

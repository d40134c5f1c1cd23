import Verif.Quant.Model
import Mathlib.Data.List.Perm.Subperm
import Mathlib.Data.List.Nodup
import Mathlib.Data.List.Range
import Mathlib.Data.Nat.Bitwise
/-
C39: the scan orders are permutations, the inverse scans are their inverses, and the orders are those of the
AV1 specification.
-/
namespace Rav1e.Quant

/-! ## The inverse of a permutation -/

theorem invertLoop_length (scan : List Nat) (i : Nat) (l : List Nat) :
    (invertLoop scan i l).length = l.length := by
  induction scan generalizing i l with
  | nil => rfl
  | cons s rest ih => rw [invertLoop, ih, List.length_set]

theorem invertLoop_get {scan : List Nat} (hn : scan.Nodup) (i : Nat) (l : List Nat)
    (hb : ∀ p ∈ scan, p < l.length) :
    (∀ j p, scan[j]? = some p → (invertLoop scan i l)[p]? = some (i + j)) ∧
    (∀ p, p ∉ scan → (invertLoop scan i l)[p]? = l[p]?) := by
  induction scan generalizing i l with
  | nil => exact ⟨by simp, fun _ _ => rfl⟩
  | cons s rest ih =>
    obtain ⟨hs, hr⟩ := List.nodup_cons.1 hn
    have hsl := hb s (by simp)
    obtain ⟨ih1, ih2⟩ := ih hr (i + 1) (l.set s i) (fun p hp => by
      rw [List.length_set]; exact hb p (List.mem_cons_of_mem _ hp))
    constructor
    · intro j p hj
      cases j with
      | zero =>
        rw [List.getElem?_cons_zero] at hj
        injection hj with hj
        subst hj
        rw [invertLoop, ih2 _ hs, List.getElem?_set_self hsl, Nat.add_zero]
      | succ j =>
        rw [List.getElem?_cons_succ] at hj
        rw [invertLoop, ih1 j p hj]
        congr 1; omega
    · intro p hp
      rw [List.mem_cons, not_or] at hp
      rw [invertLoop, ih2 p hp.2, List.getElem?_set_ne (Ne.symm hp.1)]

/-- The inverse scan of a permutation is its inverse. -/
theorem invert_inverse {scan : List Nat} {n : Nat} (h : scan.Perm (List.range n)) :
    (invert scan).length = n ∧ ∀ i p, scan[i]? = some p ↔ i < n ∧ (invert scan)[p]? = some i := by
  have hlen : scan.length = n := by rw [h.length_eq, List.length_range]
  have hnd : scan.Nodup := h.nodup_iff.2 List.nodup_range
  have hmem : ∀ p, p ∈ scan ↔ p < n := fun p => by rw [h.mem_iff, List.mem_range]
  obtain ⟨h1, _⟩ := invertLoop_get hnd 0 scan (fun p hp => by rw [hlen]; exact (hmem p).1 hp)
  have hil : (invert scan).length = n := by rw [invert, invertLoop_length, hlen]
  refine ⟨hil, fun i p => ⟨fun hi => ⟨?_, ?_⟩, fun ⟨hi, hp⟩ => ?_⟩⟩
  · have := (List.getElem?_eq_some_iff.1 hi).1
    omega
  · have := h1 i p hi
    rw [Nat.zero_add] at this
    exact this
  · have hpn : p < n := by
      have := (List.getElem?_eq_some_iff.1 hp).1
      omega
    obtain ⟨j, hj⟩ := List.mem_iff_getElem?.1 ((hmem p).2 hpn)
    have := h1 j p hj
    rw [Nat.zero_add] at this
    change (invert scan)[p]? = some j at this
    rw [hp] at this
    injection this with this
    rw [this]; exact hj

/-! ## Checking a permutation in linear time -/

/-- A set of numbers as the bits of a number. -/
def maskOf (l : List Nat) : Nat := l.foldl (fun m x => m ||| (1 <<< x)) 0

theorem mem_of_maskOf (l : List Nat) (m i : Nat)
    (h : (l.foldl (fun m x => m ||| (1 <<< x)) m).testBit i = true) : m.testBit i = true ∨ i ∈ l := by
  induction l generalizing m with
  | nil => exact Or.inl h
  | cons x rest ih =>
    rcases ih _ h with h | h
    · rw [Nat.testBit_or, Bool.or_eq_true] at h
      rcases h with h | h
      · exact Or.inl h
      · rw [Nat.one_shiftLeft, Nat.testBit_two_pow] at h
        exact Or.inr (by simp at h; simp [h])
    · exact Or.inr (List.mem_cons_of_mem _ h)

/-- A list is a permutation of `0, 1, …, n - 1`. -/
def permCheck (l : List Nat) (n : Nat) : Bool := l.length == n && maskOf l == 2 ^ n - 1

theorem perm_of_check {l : List Nat} {n : Nat} (h : permCheck l n = true) : l.Perm (List.range n) := by
  simp only [permCheck, Bool.and_eq_true, beq_iff_eq] at h
  have hsub : List.range n ⊆ l := by
    intro i hi
    rw [List.mem_range] at hi
    have : (maskOf l).testBit i = true := by
      rw [h.2, Nat.testBit_two_pow_sub_one]; simpa using hi
    rcases mem_of_maskOf l 0 i this with h | h
    · simp at h
    · exact h
  exact ((List.subperm_of_subset List.nodup_range hsub).perm_of_length_le (by rw [List.length_range]; omega)).symm

/-! ## The orders of the specification -/

/-- The part of a transform block that is coded: at most 32 columns and rows (AV1 specification, 5.11.39:
larger transforms code their low frequencies only). -/
def codedW (tx : TxSize) : Nat := min tx.width 32
def codedH (tx : TxSize) : Nat := min tx.height 32

/-- The positions on the diagonal `d` of a block of `w` columns and `h` rows, by increasing row. -/
def diagonal (w h d : Nat) : List (Nat × Nat) :=
  ((List.range h).filter fun r => r ≤ d && d - r < w).map fun r => (r, d - r)

/-- The default order: the diagonals in turn. On a square block the direction alternates (zig-zag); on a
tall one each diagonal runs downwards, on a wide one upwards. -/
def defaultOrder (w h : Nat) : List (Nat × Nat) :=
  (List.range (w + h - 1)).flatMap fun d =>
    if w < h ∨ (w = h ∧ d % 2 = 1) then diagonal w h d else (diagonal w h d).reverse

/-- Row by row. -/
def rowOrder (w h : Nat) : List (Nat × Nat) :=
  (List.range h).flatMap fun r => (List.range w).map fun c => (r, c)

/-- Column by column. -/
def colOrder (w h : Nat) : List (Nat × Nat) :=
  (List.range w).flatMap fun c => (List.range h).map fun r => (r, c)

/-- `get_scan` of the AV1 specification (5.11.41) as a list of (row, column): row order for the transforms
that are one-dimensional and vertical, column order for the horizontal ones. -/
def specOrder (tx : TxSize) (ty : TxType) : List (Nat × Nat) :=
  let w := codedW tx
  let h := codedH tx
  match ty with
  | .vDct | .vAdst | .vFlipadst => rowOrder w h
  | .hDct | .hAdst | .hFlipadst => colOrder w h
  | _ => defaultOrder w h

/-- The encoder stores coefficients transposed: column by column. -/
def storage (h : Nat) (rc : Nat × Nat) : Nat := rc.2 * h + rc.1

def allTx : List TxSize :=
  [.tx4x4, .tx8x8, .tx16x16, .tx32x32, .tx64x64, .tx4x8, .tx8x4, .tx8x16, .tx16x8, .tx16x32, .tx32x16,
   .tx32x64, .tx64x32, .tx4x16, .tx16x4, .tx8x32, .tx32x8, .tx16x64, .tx64x16]

theorem mem_allTx (tx : TxSize) : tx ∈ allTx := by cases tx <;> decide

/-- Three types stand for all: one of each class. -/
def classOf : TxType → TxType
  | .vDct | .vAdst | .vFlipadst => .vDct
  | .hDct | .hAdst | .hFlipadst => .hDct
  | _ => .dctDct

theorem scanOf_class (tx : TxSize) (ty : TxType) (h : ty ≠ .whtWht) : scanOf tx ty = scanOf tx (classOf ty) := by
  cases ty <;> first | exact absurd rfl h | (cases tx <;> rfl)

theorem specOrder_class (tx : TxSize) (ty : TxType) : specOrder tx ty = specOrder tx (classOf ty) := by
  cases ty <;> rfl

def scanCheck (tx : TxSize) (ty : TxType) : Bool :=
  match scanOf tx ty with
  | none => false
  | some s => permCheck s (codedW tx * codedH tx) && s == (specOrder tx ty).map (storage (codedH tx))

set_option maxRecDepth 20000 in
theorem scanCheck_all : (allTx.all fun tx => [TxType.dctDct, .vDct, .hDct].all fun ty => scanCheck tx ty) = true := by
  decide +kernel

theorem scanCheck_ok (tx : TxSize) (ty : TxType) (h : ty ≠ .whtWht) :
    ∃ s, scanOf tx ty = some s ∧ s.Perm (List.range (codedW tx * codedH tx)) ∧
      s = (specOrder tx ty).map (storage (codedH tx)) := by
  have h1 := scanCheck_all
  rw [List.all_eq_true] at h1
  have h2 := h1 tx (mem_allTx tx)
  rw [List.all_eq_true] at h2
  have h3 : scanCheck tx (classOf ty) = true := h2 _ (by cases ty <;> decide)
  rw [scanOf_class tx ty h, specOrder_class]
  unfold scanCheck at h3
  split at h3
  · exact absurd h3 (by decide)
  · rename_i s hs
    simp only [Bool.and_eq_true, beq_iff_eq] at h3
    exact ⟨s, hs, perm_of_check h3.1, h3.2⟩

/-- C39: for every transform size and type the scan visits every coded position exactly once, starts at the
DC coefficient, and the inverse scan is its inverse. -/
theorem scan_permutation (tx : TxSize) (ty : TxType) (h : ty ≠ .whtWht) :
    ∃ scan iscan, scanOf tx ty = some scan ∧ iscanOf tx ty = some iscan ∧
      scan.Perm (List.range (codedW tx * codedH tx)) ∧
      scan[0]? = some 0 ∧ iscan.length = codedW tx * codedH tx ∧
      ∀ i p, scan[i]? = some p ↔ i < codedW tx * codedH tx ∧ iscan[p]? = some i := by
  obtain ⟨s, h1, h2, h3⟩ := scanCheck_ok tx ty h
  obtain ⟨h4, h5⟩ := invert_inverse h2
  refine ⟨s, invert s, h1, by simp [iscanOf, h1], h2, ?_, h4, h5⟩
  have : (∀ tx, (specOrder tx ty).head? = some (0, 0)) := by
    intro tx
    rw [specOrder_class]
    cases ty <;> (cases tx <;> decide +kernel)
  rw [h3, List.getElem?_map, ← List.head?_eq_getElem?, this tx]
  simp [storage]

/-- C39: the scans are the ones of the specification, up to the transposed storage. -/
theorem scan_spec (tx : TxSize) (ty : TxType) (h : ty ≠ .whtWht) :
    scanOf tx ty = some ((specOrder tx ty).map (storage (codedH tx))) := by
  obtain ⟨s, h1, _, h3⟩ := scanCheck_ok tx ty h
  rw [h1, h3]

/-- There is no scan for the lossless transform: quantizing with it would panic. -/
theorem scan_wht (tx : TxSize) : scanOf tx .whtWht = none := by cases tx <;> rfl

example : scanOf .tx4x4 .dctDct = some [0, 4, 1, 2, 5, 8, 12, 9, 6, 3, 7, 10, 13, 14, 11, 15] ∧
    specOrder .tx4x4 .dctDct = [(0, 0), (0, 1), (1, 0), (2, 0), (1, 1), (0, 2), (0, 3), (1, 2), (2, 1), (3, 0),
      (3, 1), (2, 2), (1, 3), (2, 3), (3, 2), (3, 3)] := by decide +kernel

end Rav1e.Quant

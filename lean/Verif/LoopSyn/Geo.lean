import Verif.LoopSyn.Blocks

/-!
# CDEF indices and loop restoration units: superblocks, units and their order
-/

namespace Rav1e.LoopSyn

open Av1Spec
open Ec
open Lrf (Filter)
open Lrf.Spec (round2)
open Spec (Frame countUnits)

/-! ### Hypotheses -/

/-- The units of a plane of the tile, as the encoder sets them up and as the decoder counts them. -/
structure PlaneOk (C : Cfg) (f : Frame) (p : Nat) : Prop where
  subX : f.subX p ≤ 1
  subY : f.subY p ≤ 1
  sizeX : f.unitSize p = (64 >>> f.subX p) * 2 ^ (C.plane p).hShift
  sizeY : f.unitSize p = (64 >>> f.subY p) * 2 ^ (C.plane p).vShift
  /-- The tile starts with a unit. -/
  alignX : C.gx % 2 ^ (C.plane p).hShift = 0
  alignY : C.gy % 2 ^ (C.plane p).vShift = 0
  region : ((C.plane p).ux, (C.plane p).uy, (C.plane p).cols, (C.plane p).rows) =
    unitsRegion (C.plane p).hShift (C.plane p).vShift (countUnits (f.unitSize p) (round2 f.width (f.subX p)))
      (countUnits (f.unitSize p) (round2 f.height (f.subY p))) C.gx C.gy C.sbW C.sbH
  /-- The tile ends with a unit, or where the frame ends. -/
  lastX : C.sbW % 2 ^ (C.plane p).hShift = 0 ∨ C.gx + C.sbW = C.frameSbW
  lastY : C.sbH % 2 ^ (C.plane p).vShift = 0 ∨ C.gy + C.sbH = C.frameSbH

/-- The encoder and the decoder look at the same frame, and at the same tile of it. -/
structure CfgOk (C : Cfg) (f : Frame) : Prop where
  planes : f.numPlanes = C.planes
  planesPos : 0 < C.planes
  plane : ∀ p < C.planes, PlaneOk C f p
  nestX : ∀ p < C.planes, (C.plane 0).hShift ≤ (C.plane p).hShift
  nestY : ∀ p < C.planes, (C.plane 0).vShift ≤ (C.plane p).vShift
  chroma : ∀ p < C.planes, ∀ q < C.planes, p ≠ 0 → q ≠ 0 → (C.plane p).hShift = (C.plane q).hShift ∧ (C.plane p).vShift = (C.plane q).vShift ∧
    (C.plane p).cols = (C.plane q).cols ∧ (C.plane p).rows = (C.plane q).rows
  sbW : 0 < C.sbW
  sbH : 0 < C.sbH
  enableCdef : f.enableCdef = C.enableCdef
  cdefBits : f.cdefBits = C.cdefBits
  intrabc : f.allowIntrabc = false ∧ C.allowIntrabc = false
  on : C.enableRestoration = true → ∀ p < C.planes, CorType C f p
  off : C.enableRestoration = false → ∀ p < C.planes, f.lrType p = .none

/-! ### Raster order -/

/-- A superblock (row and column) comes before another. -/
def Before (z w : Nat × Nat) : Prop := z.1 < w.1 ∨ z.1 = w.1 ∧ z.2 < w.2

theorem mem_pairs {n m : Nat} {z : Nat × Nat} : z ∈ pairs n m ↔ z.1 < n ∧ z.2 < m := by
  obtain ⟨a, b⟩ := z
  simp [pairs]

theorem pairs_sorted (n m : Nat) : (pairs n m).Pairwise Before := by
  unfold pairs
  rw [List.pairwise_flatMap]
  refine ⟨fun y _ => ?_, ?_⟩
  · rw [List.pairwise_map]
    exact List.pairwise_lt_range.imp fun h => .inr ⟨rfl, h⟩
  · refine List.pairwise_lt_range.imp fun {a b} h => ?_
    intro x hx y hy
    simp only [List.mem_map] at hx hy
    obtain ⟨_, _, rfl⟩ := hx
    obtain ⟨_, _, rfl⟩ := hy
    exact .inl h

/-- What is before an element of the list is what comes before in raster order. -/
theorem pairs_split {n m : Nat} {pre post : List (Nat × Nat)} {k : Nat × Nat} (h : pairs n m = pre ++ k :: post) :
    k.1 < n ∧ k.2 < m ∧ ∀ z, z ∈ pre ↔ z.1 < n ∧ z.2 < m ∧ Before z k := by
  have hs := pairs_sorted n m
  rw [h, List.pairwise_append] at hs
  obtain ⟨_, h2, h3⟩ := hs
  rw [List.pairwise_cons] at h2
  have hk := (mem_pairs (n := n) (m := m) (z := k)).1 (by rw [h]; simp)
  refine ⟨hk.1, hk.2, fun z => ⟨fun hz => ?_, fun ⟨z1, z2, z3⟩ => ?_⟩⟩
  · have := (mem_pairs (n := n) (m := m) (z := z)).1 (by rw [h]; simp [hz])
    exact ⟨this.1, this.2, h3 z hz k (by simp)⟩
  · have hz : z ∈ pre ++ k :: post := by rw [← h]; exact mem_pairs.2 ⟨z1, z2⟩
    rcases List.mem_append.1 hz with hz | hz
    · exact hz
    · rcases List.mem_cons.1 hz with rfl | hz
      · unfold Before at z3; omega
      · have := h2.1 z hz
        unfold Before at this z3
        omega

/-! ### Units -/

/-- The superblock is in a unit of the plane and not in the part over which the last unit is stretched. -/
def In (C : Cfg) (p : Nat) (k : Nat × Nat) : Prop :=
  k.2 / 2 ^ (C.plane p).hShift < (C.plane p).cols ∧ k.1 / 2 ^ (C.plane p).vShift < (C.plane p).rows

instance (C : Cfg) (p : Nat) (k : Nat × Nat) : Decidable (In C p k) := by unfold In; infer_instance

/-- The superblock is the first of a unit of the plane. -/
def Corner (C : Cfg) (p : Nat) (k : Nat × Nat) : Prop := k.2 % 2 ^ (C.plane p).hShift = 0 ∧ k.1 % 2 ^ (C.plane p).vShift = 0

instance (C : Cfg) (p : Nat) (k : Nat × Nat) : Decidable (Corner C p k) := by unfold Corner; infer_instance

/-- The number of the unit of a superblock. -/
def idx (C : Cfg) (p : Nat) (k : Nat × Nat) : Nat := k.1 / 2 ^ (C.plane p).vShift * (C.plane p).cols + k.2 / 2 ^ (C.plane p).hShift

/-- The first superblock of the unit of a superblock. -/
def cornerOf (C : Cfg) (p : Nat) (k : Nat × Nat) : Nat × Nat :=
  (k.1 / 2 ^ (C.plane p).vShift * 2 ^ (C.plane p).vShift, k.2 / 2 ^ (C.plane p).hShift * 2 ^ (C.plane p).hShift)

theorem unitIndex_false (P : Plane) (x y : Nat) : unitIndex P x y false =
    if x / 2 ^ P.hShift < P.cols ∧ y / 2 ^ P.vShift < P.rows then some (x / 2 ^ P.hShift, y / 2 ^ P.vShift) else none := by
  unfold unitIndex
  simp only [Nat.shiftRight_eq_div_pow]
  by_cases h : x / 2 ^ P.hShift < P.cols ∧ y / 2 ^ P.vShift < P.rows
  · rw [if_pos h, if_pos (show P.rows > 0 ∧ P.cols > 0 from ⟨Nat.zero_lt_of_lt h.2, Nat.zero_lt_of_lt h.1⟩)]
    have h1 : decide (x < P.sbCols ∧ x / 2 ^ P.hShift ≥ P.cols) = false := decide_eq_false (by omega)
    have h2 : decide (y < P.sbRows ∧ y / 2 ^ P.vShift ≥ P.rows) = false := decide_eq_false (by omega)
    rw [h1, h2]
    simp [h]
  · rw [if_neg h]
    by_cases h0 : P.rows > 0 ∧ P.cols > 0
    · rw [if_pos h0]
      by_cases hs : (decide (x < P.sbCols ∧ x / 2 ^ P.hShift ≥ P.cols) || decide (y < P.sbRows ∧ y / 2 ^ P.vShift ≥ P.rows)) = true
      · rw [hs]; rfl
      · have hs' := Bool.eq_false_iff.2 hs
        rw [hs']
        rw [Bool.or_eq_false_iff] at hs'
        rw [hs'.1, hs'.2]
        simp only [Bool.false_and, Bool.false_eq_true, if_false, Nat.sub_zero]
        rw [if_neg h]
    · rw [if_neg h0]

theorem unitIndex_true {P : Plane} {x y : Nat} (h : x / 2 ^ P.hShift < P.cols ∧ y / 2 ^ P.vShift < P.rows) :
    unitIndex P x y true = some (x / 2 ^ P.hShift, y / 2 ^ P.vShift) := by
  unfold unitIndex
  simp only [Nat.shiftRight_eq_div_pow]
  rw [if_pos (show P.rows > 0 ∧ P.cols > 0 from ⟨Nat.zero_lt_of_lt h.2, Nat.zero_lt_of_lt h.1⟩)]
  have h1 : decide (x < P.sbCols ∧ x / 2 ^ P.hShift ≥ P.cols) = false := decide_eq_false (by omega)
  have h2 : decide (y < P.sbRows ∧ y / 2 ^ P.vShift ≥ P.rows) = false := decide_eq_false (by omega)
  rw [h1, h2]
  simp [h]

theorem lruOf_eq (C : Cfg) (x y p : Nat) : lruOf C x y p = if p < C.planes ∧ In C p (y, x) then (idx C p (y, x) : Int) else -1 := by
  unfold lruOf
  rw [unitIndex_false]
  by_cases hp : p < C.planes
  · rw [if_pos hp]
    by_cases h : In C p (y, x)
    · rw [if_pos (show p < C.planes ∧ In C p (y, x) from ⟨hp, h⟩), if_pos (show x / 2 ^ (C.plane p).hShift < _ ∧ y / 2 ^ (C.plane p).vShift < _ from h)]
      rfl
    · rw [if_neg (show ¬(p < C.planes ∧ In C p (y, x)) from fun hc => h hc.2),
        if_neg (show ¬(x / 2 ^ (C.plane p).hShift < _ ∧ y / 2 ^ (C.plane p).vShift < _) from h)]
  · rw [if_neg hp, if_neg (fun hc => hp hc.1)]

theorem cornerOf_le (C : Cfg) (p : Nat) (k : Nat × Nat) : (cornerOf C p k).1 ≤ k.1 ∧ (cornerOf C p k).2 ≤ k.2 :=
  ⟨Nat.div_mul_le_self _ _, Nat.div_mul_le_self _ _⟩

theorem cornerOf_div (C : Cfg) (p : Nat) (k : Nat × Nat) : (cornerOf C p k).1 / 2 ^ (C.plane p).vShift = k.1 / 2 ^ (C.plane p).vShift ∧
    (cornerOf C p k).2 / 2 ^ (C.plane p).hShift = k.2 / 2 ^ (C.plane p).hShift :=
  ⟨Nat.mul_div_cancel _ (Nat.two_pow_pos _), Nat.mul_div_cancel _ (Nat.two_pow_pos _)⟩

theorem cornerOf_corner (C : Cfg) (p : Nat) (k : Nat × Nat) : Corner C p (cornerOf C p k) :=
  ⟨Nat.mul_mod_left _ _, Nat.mul_mod_left _ _⟩

theorem cornerOf_in {C : Cfg} {p : Nat} {k : Nat × Nat} : In C p (cornerOf C p k) ↔ In C p k := by
  unfold In; rw [(cornerOf_div C p k).1, (cornerOf_div C p k).2]

theorem cornerOf_idx (C : Cfg) (p : Nat) (k : Nat × Nat) : idx C p (cornerOf C p k) = idx C p k := by
  unfold idx; rw [(cornerOf_div C p k).1, (cornerOf_div C p k).2]

theorem eq_cornerOf {C : Cfg} {p : Nat} {k : Nat × Nat} : Corner C p k ↔ cornerOf C p k = k := by
  refine ⟨fun h => ?_, fun h => by rw [← h]; exact cornerOf_corner C p k⟩
  exact Prod.ext (Nat.div_mul_cancel (Nat.dvd_of_mod_eq_zero h.2)) (Nat.div_mul_cancel (Nat.dvd_of_mod_eq_zero h.1))

/-- A superblock that is not the first of its unit comes after the first. -/
theorem cornerOf_before {C : Cfg} {p : Nat} {k : Nat × Nat} (h : ¬Corner C p k) : Before (cornerOf C p k) k := by
  have h1 := cornerOf_le C p k
  have h2 : ¬((cornerOf C p k).1 = k.1 ∧ (cornerOf C p k).2 = k.2) := fun hc => h (eq_cornerOf.2 (Prod.ext hc.1 hc.2))
  unfold Before
  omega

/-- Units whose superblocks come before the first superblock of a unit have lower numbers. -/
theorem idx_lt {C : Cfg} {p : Nat} {z k : Nat × Nat} (hk : Corner C p k) (hz : In C p z) (hb : Before z k) : idx C p z < idx C p k := by
  obtain ⟨k1, k2⟩ := hk
  obtain ⟨z1, z2⟩ := hz
  unfold idx
  rcases hb with hb | ⟨hb, hb2⟩
  · have : z.1 / 2 ^ (C.plane p).vShift < k.1 / 2 ^ (C.plane p).vShift := by
      rw [Nat.div_lt_iff_lt_mul (Nat.two_pow_pos _), Nat.div_mul_cancel (Nat.dvd_of_mod_eq_zero k2)]
      exact hb
    have := Nat.mul_le_mul_right (C.plane p).cols (show z.1 / 2 ^ (C.plane p).vShift + 1 ≤ k.1 / 2 ^ (C.plane p).vShift from this)
    rw [Nat.add_mul] at this
    generalize z.2 / 2 ^ (C.plane p).hShift = t at *
    generalize k.2 / 2 ^ (C.plane p).hShift = t2 at *
    omega
  · have : z.2 / 2 ^ (C.plane p).hShift < k.2 / 2 ^ (C.plane p).hShift := by
      rw [Nat.div_lt_iff_lt_mul (Nat.two_pow_pos _), Nat.div_mul_cancel (Nat.dvd_of_mod_eq_zero k1)]
      exact hb2
    rw [hb]
    omega

/-! ### The units of the tile in the frame -/

theorem ceil_div {n m : Nat} (hm : 0 < m) : (n + m - 1) / m * m < n + m := by
  have := Nat.div_mul_le_self (n + m - 1) m
  omega

theorem lt_ceil_div {x n m : Nat} (hm : 0 < m) (h : x < n) : x / m < (n + m - 1) / m := by
  rw [Nat.div_lt_iff_lt_mul hm]
  have h1 := Nat.div_add_mod (n + m - 1) m
  have h2 := Nat.mod_lt (n + m - 1) hm
  rw [Nat.mul_comm] at h1
  omega

/-- One direction of the region of a tile. -/
theorem region_facts {u c g w n m : Nat} (hm : 0 < m) (hu : u = min (g / m) n) (hc : c = min ((w + m - 1) / m) (n - u)) :
    c * m < w + m ∧ (∀ x < w, x / m < c ↔ g / m + x / m < n) ∧ (0 < c → u = g / m) := by
  refine ⟨?_, fun x hx => ?_, fun h => by omega⟩
  · have h1 := ceil_div (n := w) hm
    have h2 : c ≤ (w + m - 1) / m := by omega
    have h3 := Nat.mul_le_mul_right m h2
    omega
  · have := lt_ceil_div hm hx
    generalize x / m = t at *
    generalize g / m = t2 at *
    omega

/-- The region of a tile. -/
theorem PlaneOk.facts {C : Cfg} {f : Frame} {p : Nat} (K : PlaneOk C f p) :
    ((C.plane p).cols * 2 ^ (C.plane p).hShift < C.sbW + 2 ^ (C.plane p).hShift ∧
      (∀ x < C.sbW, x / 2 ^ (C.plane p).hShift < (C.plane p).cols ↔
        C.gx / 2 ^ (C.plane p).hShift + x / 2 ^ (C.plane p).hShift < countUnits (f.unitSize p) (round2 f.width (f.subX p))) ∧
      (0 < (C.plane p).cols → (C.plane p).ux = C.gx / 2 ^ (C.plane p).hShift)) ∧
    ((C.plane p).rows * 2 ^ (C.plane p).vShift < C.sbH + 2 ^ (C.plane p).vShift ∧
      (∀ y < C.sbH, y / 2 ^ (C.plane p).vShift < (C.plane p).rows ↔
        C.gy / 2 ^ (C.plane p).vShift + y / 2 ^ (C.plane p).vShift < countUnits (f.unitSize p) (round2 f.height (f.subY p))) ∧
      (0 < (C.plane p).rows → (C.plane p).uy = C.gy / 2 ^ (C.plane p).vShift)) := by
  have h := K.region
  simp only [unitsRegion, Nat.shiftRight_eq_div_pow, Nat.shiftLeft_eq, Nat.one_mul, Prod.mk.injEq] at h
  obtain ⟨h1, h2, h3, h4⟩ := h
  exact ⟨region_facts (Nat.two_pow_pos _) h1 (by rw [h3, h1]), region_facts (Nat.two_pow_pos _) h2 (by rw [h4, h2])⟩

/-- The unit of a plane starts inside the tile. -/
theorem unit_in {C : Cfg} {f : Frame} {p : Nat} (K : PlaneOk C f p) {a b : Nat} (ha : a < (C.plane p).cols) (hb : b < (C.plane p).rows) :
    a * 2 ^ (C.plane p).hShift < C.sbW ∧ b * 2 ^ (C.plane p).vShift < C.sbH := by
  have h := K.facts
  have h1 := h.1.1
  have h2 := h.2.1
  have h3 := Nat.mul_le_mul_right (2 ^ (C.plane p).hShift) (show a + 1 ≤ (C.plane p).cols from ha)
  have h4 := Nat.mul_le_mul_right (2 ^ (C.plane p).vShift) (show b + 1 ≤ (C.plane p).rows from hb)
  rw [Nat.add_mul] at h3 h4
  omega

end Rav1e.LoopSyn

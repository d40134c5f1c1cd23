import Verif.Coef.Model
import Verif.Coef.Spec
import Verif.Ec.CodeThms

/-!
# Lemmas for C41: orders and contexts of the levels
-/

namespace Rav1e.Coef
open Av1Spec
open Rav1e.Quant (TxSize TxType scanOf storage codedW codedH specOrder rowOrder colOrder defaultOrder diagonal)

/-! ## Sizes, classes, scans -/

/-- The size as the specification has it. -/
def txOf (tx : TxSize) : Av1Spec.Coef.Tx := ⟨tx.widthLog2, tx.heightLog2⟩

def clsOf : TxClass → Av1Spec.Coef.Class
  | .two => .two
  | .horiz => .horiz
  | .vert => .vert

theorem txsCtx_eq (tx : TxSize) : txsCtx tx = (txOf tx).ctx := by cases tx <;> rfl
theorem txsCtx_lt (tx : TxSize) : txsCtx tx < 5 := by cases tx <;> decide
theorem codedW_eq (tx : TxSize) : codedW tx = (txOf tx).adj.w := by cases tx <;> rfl
theorem codedH_eq (tx : TxSize) : codedH tx = (txOf tx).adj.h := by cases tx <;> rfl
theorem codedSize_h (tx : TxSize) : (codedSize tx).height = codedH tx := by cases tx <;> rfl
theorem codedSize_hl (tx : TxSize) : 2 ^ (codedSize tx).heightLog2 = codedH tx := by cases tx <;> rfl
theorem codedSize_area (tx : TxSize) : (codedSize tx).area = codedH tx <<< (txOf tx).adj.wl := by cases tx <;> rfl
theorem codedSize_area' (tx : TxSize) : (codedSize tx).area = codedW tx * codedH tx := by cases tx <;> rfl
theorem codedW_le (tx : TxSize) : codedW tx ≤ 32 := by cases tx <;> decide
theorem codedH_le (tx : TxSize) : codedH tx ≤ 32 := by cases tx <;> decide
theorem codedW_pos (tx : TxSize) : 0 < codedW tx := by cases tx <;> decide
theorem codedH_pos (tx : TxSize) : 0 < codedH tx := by cases tx <;> decide

theorem specOrder_eq (tx : TxSize) (ty : TxType) : specOrder tx ty = Av1Spec.Coef.scan (txOf tx) ty.idx := by
  unfold specOrder Av1Spec.Coef.scan
  rw [codedW_eq, codedH_eq]
  cases ty <;> rfl

theorem class_eq (ty : TxType) {c : TxClass} (h : txClasses[ty.idx]? = some c) :
    Av1Spec.Coef.txClass ty.idx = clsOf c := by
  cases ty <;> simp [txClasses, TxType.idx] at h <;> subst h <;> rfl

theorem class_some (ty : TxType) (h : ty ≠ .whtWht) : ∃ c, txClasses[ty.idx]? = some c := by
  cases ty <;> first | exact absurd rfl h | exact ⟨_, rfl⟩

/-! ## In every order, a position comes after those above and to the left of it -/

/-- `y` is not above and to the left of `x`, nor `x` itself. -/
def After (x y : Nat × Nat) : Prop := ¬(y.1 ≤ x.1 ∧ y.2 ≤ x.2)

theorem rowOrder_after (w h : Nat) : (rowOrder w h).Pairwise After := by
  unfold rowOrder
  rw [List.pairwise_flatMap]
  refine ⟨fun r _ => ?_, ?_⟩
  · rw [List.pairwise_map]
    exact List.pairwise_lt_range.imp fun h => by unfold After; dsimp only; omega
  · refine List.pairwise_lt_range.imp fun h x hx y hy => ?_
    obtain ⟨_, _, rfl⟩ := List.mem_map.1 hx
    obtain ⟨_, _, rfl⟩ := List.mem_map.1 hy
    unfold After; dsimp only; omega

theorem colOrder_after (w h : Nat) : (colOrder w h).Pairwise After := by
  unfold colOrder
  rw [List.pairwise_flatMap]
  refine ⟨fun r _ => ?_, ?_⟩
  · rw [List.pairwise_map]
    exact List.pairwise_lt_range.imp fun h => by unfold After; dsimp only; omega
  · refine List.pairwise_lt_range.imp fun h x hx y hy => ?_
    obtain ⟨_, _, rfl⟩ := List.mem_map.1 hx
    obtain ⟨_, _, rfl⟩ := List.mem_map.1 hy
    unfold After; dsimp only; omega

theorem mem_diagonal {w h d : Nat} {x : Nat × Nat} :
    x ∈ diagonal w h d ↔ x.1 < h ∧ x.2 < w ∧ x.1 + x.2 = d := by
  unfold diagonal
  simp only [List.mem_map, List.mem_filter, List.mem_range, Bool.and_eq_true, decide_eq_true_eq]
  constructor
  · rintro ⟨r, ⟨h1, h2, h3⟩, rfl⟩
    dsimp only; omega
  · rintro ⟨h1, h2, h3⟩
    exact ⟨x.1, by omega, by ext <;> simp; omega⟩

theorem diagonal_lt (w h d : Nat) : (diagonal w h d).Pairwise fun x y => x.1 < y.1 := by
  unfold diagonal
  rw [List.pairwise_map]
  exact List.Pairwise.sublist List.filter_sublist List.pairwise_lt_range

theorem defaultOrder_after (w h : Nat) : (defaultOrder w h).Pairwise After := by
  unfold defaultOrder
  rw [List.pairwise_flatMap]
  have hm : ∀ d x, x ∈ (if w < h ∨ (w = h ∧ d % 2 = 1) then diagonal w h d else (diagonal w h d).reverse) →
      x.1 + x.2 = d := by
    intro d x hx
    split_ifs at hx
    · exact (mem_diagonal.1 hx).2.2
    · exact (mem_diagonal.1 (List.mem_reverse.1 hx)).2.2
  refine ⟨fun d _ => ?_, ?_⟩
  · split_ifs
    · refine List.Pairwise.imp_of_mem (fun {x y} hx hy h => ?_) (diagonal_lt w h d)
      have := mem_diagonal.1 hx; have := mem_diagonal.1 hy
      unfold After; omega
    · rw [List.pairwise_reverse]
      refine List.Pairwise.imp_of_mem (fun {x y} hx hy h => ?_) (diagonal_lt w h d)
      have := mem_diagonal.1 hx; have := mem_diagonal.1 hy
      unfold After; omega
  · refine List.pairwise_lt_range.imp fun h x hx y hy => ?_
    have := hm _ _ hx; have := hm _ _ hy
    unfold After; omega

theorem scan_after (tx : TxSize) (ty : TxType) : (specOrder tx ty).Pairwise After := by
  unfold specOrder
  split
  all_goals first | exact rowOrder_after _ _ | exact colOrder_after _ _ | exact defaultOrder_after _ _

theorem mem_specOrder (tx : TxSize) (ty : TxType) (x : Nat × Nat) :
    x ∈ specOrder tx ty ↔ x.1 < codedH tx ∧ x.2 < codedW tx := by
  have hr : x ∈ rowOrder (codedW tx) (codedH tx) ↔ x.1 < codedH tx ∧ x.2 < codedW tx := by
    simp only [rowOrder, List.mem_flatMap, List.mem_map, List.mem_range]
    constructor
    · rintro ⟨a, h1, b, h2, rfl⟩; exact ⟨h1, h2⟩
    · rintro ⟨h1, h2⟩; exact ⟨_, h1, _, h2, rfl⟩
  have hc : x ∈ colOrder (codedW tx) (codedH tx) ↔ x.1 < codedH tx ∧ x.2 < codedW tx := by
    simp only [colOrder, List.mem_flatMap, List.mem_map, List.mem_range]
    constructor
    · rintro ⟨a, h1, b, h2, rfl⟩; exact ⟨h2, h1⟩
    · rintro ⟨h1, h2⟩; exact ⟨_, h2, _, h1, rfl⟩
  have hd : x ∈ defaultOrder (codedW tx) (codedH tx) ↔ x.1 < codedH tx ∧ x.2 < codedW tx := by
    simp only [defaultOrder, List.mem_flatMap, List.mem_range]
    constructor
    · rintro ⟨d, h1, h2⟩
      split_ifs at h2
      · have := mem_diagonal.1 h2; omega
      · have := mem_diagonal.1 (List.mem_reverse.1 h2); omega
    · rintro ⟨h1, h2⟩
      refine ⟨x.1 + x.2, by omega, ?_⟩
      split_ifs
      · exact mem_diagonal.2 ⟨h1, h2, rfl⟩
      · exact List.mem_reverse.2 (mem_diagonal.2 ⟨h1, h2, rfl⟩)
  unfold specOrder
  cases ty <;> assumption

theorem specOrder_length (tx : TxSize) (ty : TxType) (h : ty ≠ .whtWht) :
    (specOrder tx ty).length = codedW tx * codedH tx := by
  obtain ⟨s, _, h2, h3⟩ := Rav1e.Quant.scanCheck_ok tx ty h
  have := h2.length_eq
  rw [h3, List.length_map, List.length_range] at this
  exact this

/-- A position to the right of or below number `c` has a larger number. -/
theorem later {l : List (Nat × Nat)} (hl : l.Pairwise After) {c j : Nat} {x y : Nat × Nat}
    (hc : l[c]? = some x) (hj : l[j]? = some y) (h : x.1 ≤ y.1 ∧ x.2 ≤ y.2) (hne : x ≠ y) : c < j := by
  rcases Nat.lt_trichotomy c j with h1 | h1 | h1
  · exact h1
  · subst h1; rw [hc] at hj; exact absurd (Option.some.inj hj) hne
  · obtain ⟨h2, rfl⟩ := List.getElem?_eq_some_iff.1 hc
    obtain ⟨h3, rfl⟩ := List.getElem?_eq_some_iff.1 hj
    have := List.pairwise_iff_getElem.1 hl j c h3 h2 h1
    exact absurd h this

theorem order_nodup {l : List (Nat × Nat)} (hl : l.Pairwise After) : l.Nodup :=
  hl.imp fun {x y} h e => h (by subst e; exact ⟨Nat.le_refl _, Nat.le_refl _⟩)

/-! ## The padded array of levels -/

/-- The coefficient in row `r` and column `c` of a block of height `h`. -/
def coefAt (coeffs : List Int) (h r c : Nat) : Int := coeffs.getD (c * h + r) 0

/-- What is stored in the padded array. -/
def padded (coeffs : List Int) (h w r c : Nat) : Nat :=
  if r < h ∧ c < w then min (coefAt coeffs h r c).natAbs 127 else 0

theorem initLevels_length (h stride : Nat) (hs : h ≤ stride) (coeffs : List Int) (levels : List Nat) :
    (initLevels h stride coeffs levels).length = levels.length := by
  induction coeffs, levels using initLevels.induct (h := h) (stride := stride) with
  | case1 coeffs levels hc ih =>
    rw [initLevels, dif_pos hc]
    simp only [List.length_append, List.length_map, List.length_take, List.length_drop] at ih ⊢
    omega
  | case2 coeffs levels hc => rw [initLevels, dif_neg hc]

theorem initLevels_get {h : Nat} (hh : 0 < h) : ∀ (w : Nat) (coeffs : List Int) (levels : List Nat),
    coeffs.length = w * h → w * (h + 4) ≤ levels.length → ∀ r c, r < h + 4 →
    (initLevels h (h + 4) coeffs levels)[c * (h + 4) + r]? =
      if r < h ∧ c < w then some (min (coefAt coeffs h r c).natAbs 127) else levels[c * (h + 4) + r]? := by
  intro w
  induction w with
  | zero =>
    intro coeffs levels hl _ r c _
    rw [initLevels, dif_neg (by omega), if_neg (by omega)]
  | succ w ih =>
    intro coeffs levels hl hv r c hr
    have e1 : (w + 1) * h = w * h + h := Nat.succ_mul _ _
    have e2 : (w + 1) * (h + 4) = w * (h + 4) + (h + 4) := Nat.succ_mul _ _
    rw [initLevels, dif_pos (by omega)]
    have la : ((coeffs.take h).map fun c => min c.natAbs 127).length = h := by
      rw [List.length_map, List.length_take]; omega
    have lb : ((levels.take (h + 4)).drop h).length = 4 := by
      rw [List.length_drop, List.length_take]; omega
    rcases Nat.eq_zero_or_pos c with rfl | hc
    · rw [Nat.zero_mul, Nat.zero_add]
      rcases Nat.lt_or_ge r h with h1 | h1
      · rw [if_pos (by omega), List.append_assoc, List.getElem?_append_left (by omega), List.getElem?_map,
          List.getElem?_take_of_lt h1]
        unfold coefAt
        rw [Nat.zero_mul, Nat.zero_add, List.getElem?_eq_getElem (by omega : r < coeffs.length), Option.map_some,
          List.getD_eq_getElem _ _ (by omega : r < coeffs.length)]
      · rw [if_neg (by omega), List.getElem?_append_left (by rw [List.length_append]; omega),
          List.getElem?_append_right (by omega), la, List.getElem?_drop, List.getElem?_take_of_lt (by omega)]
        congr 1; omega
    · obtain ⟨c, rfl⟩ : ∃ k, c = k + 1 := ⟨c - 1, by omega⟩
      have e3 : (c + 1) * (h + 4) = c * (h + 4) + (h + 4) := Nat.succ_mul _ _
      have e4 : (c + 1) * h = c * h + h := Nat.succ_mul _ _
      rw [List.getElem?_append_right (by rw [List.length_append]; omega), List.length_append, la, lb]
      have e5 : (c + 1) * (h + 4) + r - (h + 4) = c * (h + 4) + r := by omega
      rw [e5, ih _ _ (by rw [List.length_drop]; omega) (by rw [List.length_drop]; omega) r c hr]
      have e6 : coefAt (coeffs.drop h) h r c = coefAt coeffs h r (c + 1) := by
        unfold coefAt
        rw [List.getD_eq_getElem?_getD, List.getD_eq_getElem?_getD, List.getElem?_drop]
        congr 2; omega
      rw [e6, List.getElem?_drop]
      have e7 : h + 4 + (c * (h + 4) + r) = (c + 1) * (h + 4) + r := by omega
      rw [e7]
      simp only [Nat.add_lt_add_iff_right]

/-- The array of `write_coeffs_lv_map`. -/
def levelsOf (tx : TxSize) (coeffs : List Int) : List Nat :=
  initLevels (codedH tx) (codedH tx + 4) coeffs (List.replicate (1384 - 2 * (codedH tx + 4)) 0)

theorem levels_get (tx : TxSize) {coeffs : List Int} (hl : coeffs.length = codedW tx * codedH tx) {r c : Nat}
    (hr : r < codedH tx + 4) (hc : c < codedW tx + 4) :
    (levelsOf tx coeffs)[c * (codedH tx + 4) + r]? = some (padded coeffs (codedH tx) (codedW tx) r c) := by
  have hw := codedW_le tx
  have hh := codedH_le tx
  have b1 : c * (codedH tx + 4) + r < 1384 - 2 * (codedH tx + 4) := by
    have : c * (codedH tx + 4) ≤ 35 * (codedH tx + 4) := Nat.mul_le_mul_right _ (by omega)
    omega
  have b2 : codedW tx * (codedH tx + 4) ≤ 32 * (codedH tx + 4) := Nat.mul_le_mul_right _ hw
  unfold levelsOf padded
  rw [initLevels_get (codedH_pos tx) (codedW tx) _ _ hl (by rw [List.length_replicate]; omega) r c hr]
  split_ifs
  · rfl
  · rw [List.getElem?_replicate, if_pos b1]

/-! ## Contexts -/

/-- Sum of what the array holds at the given offsets. -/
def padSum (coeffs : List Int) (h w lim r c : Nat) (offs : List (Nat × Nat)) : Nat :=
  (offs.map fun o => min (padded coeffs h w (r + o.1) (c + o.2)) lim).sum

theorem shl_two (k bhl : Nat) : (k <<< bhl) + (k <<< 2) = k * (2 ^ bhl + 4) := by
  rw [Nat.shiftLeft_eq, Nat.shiftLeft_eq, Nat.mul_add]

theorem nzMag_eq (tx : TxSize) {coeffs : List Int} (hl : coeffs.length = codedW tx * codedH tx) (cls : TxClass)
    {r c : Nat} (hr : r < codedH tx) (hc : c < codedW tx) :
    nzMag (levelsOf tx coeffs) (c * (codedH tx + 4) + r) (codedSize tx).heightLog2 cls =
      some (padSum coeffs (codedH tx) (codedW tx) 3 r c (Av1Spec.Coef.sigRef (clsOf cls))) := by
  have g : ∀ dr dc, dr ≤ 4 → dc ≤ 4 → r + dr < codedH tx + 4 → c + dc < codedW tx + 4 →
      (levelsOf tx coeffs)[c * (codedH tx + 4) + r + (dc * (codedH tx + 4) + dr)]? =
        some (padded coeffs (codedH tx) (codedW tx) (r + dr) (c + dc)) := by
    intro dr dc _ _ h1 h2
    rw [← levels_get tx hl h1 h2, Nat.add_mul]
    congr 1; omega
  unfold nzMag
  simp only [Option.bind_eq_bind]
  have s1 : (1 <<< (codedSize tx).heightLog2) + 4 = 1 * (codedH tx + 4) + 0 := by
    rw [Nat.shiftLeft_eq, codedSize_hl]; omega
  have s2 : ∀ k, (k <<< (codedSize tx).heightLog2) + (k <<< 2) = k * (codedH tx + 4) + 0 := by
    intro k; rw [shl_two, codedSize_hl]; omega
  have z : ∀ k, k = 0 * (codedH tx + 4) + k := by intro k; omega
  have g1 := g 1 0 (by omega) (by omega) (by omega) (by omega)
  have g2 := g 2 0 (by omega) (by omega) (by omega) (by omega)
  have g3 := g 3 0 (by omega) (by omega) (by omega) (by omega)
  have g4 := g 4 0 (by omega) (by omega) (by omega) (by omega)
  have k1 := g 0 1 (by omega) (by omega) (by omega) (by omega)
  have k2 := g 0 2 (by omega) (by omega) (by omega) (by omega)
  have k3 := g 0 3 (by omega) (by omega) (by omega) (by omega)
  have k4 := g 0 4 (by omega) (by omega) (by omega) (by omega)
  have d1 := g 1 1 (by omega) (by omega) (by omega) (by omega)
  rw [← z] at g1 g2 g3 g4
  rw [g1, Option.bind_some, s1, k1, Option.bind_some]
  cases cls
  · dsimp only
    rw [show 1 * (codedH tx + 4) + 0 + 1 = 1 * (codedH tx + 4) + 1 from rfl, d1, Option.bind_some, g2,
      Option.bind_some, s2 2, k2, Option.bind_some]
    simp only [padSum, Av1Spec.Coef.sigRef, clsOf, List.map_cons, List.map_nil, List.sum_cons, List.sum_nil,
      Option.some.injEq, Nat.min_comm 3]
    omega
  · dsimp only
    rw [s2 2, k2, Option.bind_some, s2 3, k3, Option.bind_some, s2 4, k4, Option.bind_some]
    simp only [padSum, Av1Spec.Coef.sigRef, clsOf, List.map_cons, List.map_nil, List.sum_cons, List.sum_nil,
      Option.some.injEq, Nat.min_comm 3]
    omega
  · dsimp only
    rw [g2, Option.bind_some, g3, Option.bind_some, g4, Option.bind_some]
    simp only [padSum, Av1Spec.Coef.sigRef, clsOf, List.map_cons, List.map_nil, List.sum_cons, List.sum_nil,
      Option.some.injEq, Nat.min_comm 3]
    omega

/-- The decoder's levels agree with the coefficients after number `c`. -/
def Known (tx : TxSize) (ty : TxType) (coeffs : List Int) (c : Nat) (q : Nat → Nat → Nat) : Prop :=
  ∀ j x, c ≤ j → (specOrder tx ty)[j]? = some x →
    q x.1 x.2 = min (coefAt coeffs (codedH tx) x.1 x.2).natAbs 15

theorem known_at {tx : TxSize} {ty : TxType} {coeffs : List Int} {c : Nat} {q : Nat → Nat → Nat}
    (hk : Known tx ty coeffs (c + 1) q) {x : Nat × Nat} (hx : (specOrder tx ty)[c]? = some x) {dr dc : Nat}
    (hd : 0 < dr + dc) (hr : x.1 + dr < codedH tx) (hc : x.2 + dc < codedW tx) :
    q (x.1 + dr) (x.2 + dc) = min (coefAt coeffs (codedH tx) (x.1 + dr) (x.2 + dc)).natAbs 15 := by
  obtain ⟨j, hj⟩ := List.mem_iff_getElem?.1 ((mem_specOrder tx ty (x.1 + dr, x.2 + dc)).2 ⟨hr, hc⟩)
  have := later (scan_after tx ty) hx hj (by dsimp only; omega) (by
    intro e
    have e1 := congrArg Prod.fst e; have e2 := congrArg Prod.snd e
    dsimp only at e1 e2; omega)
  exact hk j _ this hj

theorem refSum_base {tx : TxSize} {ty : TxType} {coeffs : List Int} {c : Nat} {q : Nat → Nat → Nat}
    (hk : Known tx ty coeffs (c + 1) q) {x : Nat × Nat} (hx : (specOrder tx ty)[c]? = some x)
    (offs : List (Nat × Nat)) (ho : ∀ o ∈ offs, 0 < o.1 + o.2) :
    Av1Spec.Coef.refSum (txOf tx) q 3 x.1 x.2 offs = padSum coeffs (codedH tx) (codedW tx) 3 x.1 x.2 offs := by
  unfold Av1Spec.Coef.refSum padSum
  congr 1
  refine List.map_congr_left fun o hom => ?_
  rw [← codedH_eq, ← codedW_eq]
  unfold padded
  split_ifs with h
  · rw [known_at hk hx (ho o hom) h.1 h.2]
    omega
  · rfl

end Rav1e.Coef

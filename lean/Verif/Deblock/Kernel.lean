import Verif.Deblock.Model
import Verif.Deblock.Spec

/-!
# One line across an edge

The filter of the code on one line of pixels is the sample filtering process of the specification.
-/

namespace Rav1e.Deblock

/-! ## Thresholds -/

theorem dist_eq (a b : Int) : dist a b = Spec.absDiff a b := by
  unfold dist Spec.absDiff; split <;> omega

theorem absDiff_nonneg (a b : Int) : 0 ≤ Spec.absDiff a b := by
  unfold Spec.absDiff; split <;> omega

theorem limit_le {s : Nat} (hs : s = 0 ∨ s = 2 ∨ s = 4) (d : Int) (L : Nat) :
    limitToLevel d s ≤ L ↔ d ≤ L * 2 ^ s := by
  unfold limitToLevel
  rw [Int.shiftRight_eq_div_pow]
  rcases hs with rfl | rfl | rfl <;> simp <;> omega

theorem tdiv3_le (a : Int) (L : Nat) (ha : -2 ≤ a) : a.tdiv 3 ≤ L ↔ a ≤ 3 * L + 2 := by
  rcases Int.lt_or_le a 0 with h | h
  · have : a = -1 ∨ a = -2 := by omega
    rcases this with rfl | rfl
    · have : Int.tdiv (-1) 3 = 0 := by decide
      omega
    · have : Int.tdiv (-2) 3 = 0 := by decide
      omega
  · rw [Int.tdiv_eq_ediv_of_nonneg h]; omega

theorem blimit_le {s : Nat} (hs : s = 0 ∨ s = 2 ∨ s = 4) (b : Int) (hb : 0 ≤ b) (L : Nat) :
    blimitToLevel b s ≤ L ↔ b ≤ (3 * L + 4) * 2 ^ s := by
  unfold blimitToLevel
  rw [tdiv3_le, Int.shiftRight_eq_div_pow]
  · rcases hs with rfl | rfl | rfl <;> simp <;> omega
  · rw [Int.shiftRight_eq_div_pow]
    rcases hs with rfl | rfl | rfl <;> simp <;> omega

theorem thresh_le {s : Nat} (hs : s = 0 ∨ s = 2 ∨ s = 4) (t : Int) (L : Nat) :
    threshToLevel t s ≤ L ↔ t ≤ Spec.thresh L * 2 ^ s := by
  unfold threshToLevel Spec.thresh
  rw [Int.shiftRight_eq_div_pow]
  rcases hs with rfl | rfl | rfl <;> simp <;> omega

theorem toNat_max_le (a b : Int) (L : Nat) : (max a b).toNat ≤ L ↔ a ≤ L ∧ b ≤ L := by omega

theorem max_le' (a b c : Int) : max a b ≤ c ↔ a ≤ c ∧ b ≤ c := by omega

theorem toNat_le' (a : Int) (L : Nat) : a.toNat ≤ L ↔ a ≤ L := by omega

/-- The limits with sharpness 0. -/
theorem limits_sharp0 (d : Spec.Dec) (h : d.sharpness = 0) (L : Nat) (hL : 0 < L) :
    d.limit L = L ∧ d.blimit L = 3 * L + 4 := by
  unfold Spec.Dec.blimit Spec.Dec.limit
  simp [h]
  omega

theorem bb_nonneg (a b c d : Int) : 0 ≤ Spec.absDiff a b * 2 + (Spec.absDiff c d).tdiv 2 := by
  have := absDiff_nonneg a b
  have := absDiff_nonneg c d
  rw [Int.tdiv_eq_ediv_of_nonneg this]
  omega

theorem nhev_iff {bd : Nat} (hbd : bd = 8 ∨ bd = 10 ∨ bd = 12) (l : Spec.Line) (L : Nat) :
    nhev4 (l (-2)) (l (-1)) (l 0) (l 1) (bd - 8) ≤ L ↔ Spec.hevMask l (Spec.thresh L) bd = false := by
  have hs : bd - 8 = 0 ∨ bd - 8 = 2 ∨ bd - 8 = 4 := by omega
  unfold nhev4 Spec.hevMask Spec.p Spec.q
  rw [toNat_le', thresh_le hs, max_le', dist_eq, dist_eq]
  simp

theorem mask4_iff {bd : Nat} (hbd : bd = 8 ∨ bd = 10 ∨ bd = 12) (l : Spec.Line) (L : Nat) :
    mask4 (l (-2)) (l (-1)) (l 0) (l 1) (bd - 8) ≤ L ↔ Spec.filterMask l 4 L (3 * L + 4) bd = true := by
  have hs : bd - 8 = 0 ∨ bd - 8 = 2 ∨ bd - 8 = 4 := by omega
  unfold mask4 Spec.filterMask Spec.p Spec.q
  simp only [dist_eq]
  rw [toNat_max_le, limit_le hs, blimit_le hs _ (bb_nonneg _ _ _ _), max_le',
    Int.tdiv_eq_ediv_of_nonneg (absDiff_nonneg _ _)]
  simp [and_assoc]

theorem mask6_iff {bd : Nat} (hbd : bd = 8 ∨ bd = 10 ∨ bd = 12) (l : Spec.Line) (L : Nat) :
    mask6 (l (-3)) (l (-2)) (l (-1)) (l 0) (l 1) (l 2) (bd - 8) ≤ L ↔
      Spec.filterMask l 6 L (3 * L + 4) bd = true := by
  have hs : bd - 8 = 0 ∨ bd - 8 = 2 ∨ bd - 8 = 4 := by omega
  unfold mask6 Spec.filterMask Spec.p Spec.q
  simp only [dist_eq]
  rw [toNat_max_le, limit_le hs, blimit_le hs _ (bb_nonneg _ _ _ _), max_le', max_le', max_le',
    Int.tdiv_eq_ediv_of_nonneg (absDiff_nonneg _ _)]
  simp
  constructor
  · rintro ⟨⟨a, b, c, d⟩, e⟩; exact ⟨⟨⟨b, d⟩, e⟩, a, c⟩
  · rintro ⟨⟨⟨b, d⟩, e⟩, a, c⟩; exact ⟨⟨a, b, c, d⟩, e⟩

theorem mask8_iff {bd : Nat} (hbd : bd = 8 ∨ bd = 10 ∨ bd = 12) (l : Spec.Line) (L n : Nat) (hn : 8 ≤ n) :
    mask8 (l (-4)) (l (-3)) (l (-2)) (l (-1)) (l 0) (l 1) (l 2) (l 3) (bd - 8) ≤ L ↔
      Spec.filterMask l n L (3 * L + 4) bd = true := by
  have hs : bd - 8 = 0 ∨ bd - 8 = 2 ∨ bd - 8 = 4 := by omega
  have h6 : ¬ n < 6 := by omega
  have h8 : ¬ n < 8 := by omega
  unfold mask8 Spec.filterMask Spec.p Spec.q
  simp only [dist_eq]
  rw [toNat_max_le, limit_le hs, blimit_le hs _ (bb_nonneg _ _ _ _), max_le', max_le', max_le', max_le', max_le',
    Int.tdiv_eq_ediv_of_nonneg (absDiff_nonneg _ _)]
  simp [h6, h8]
  constructor
  · rintro ⟨⟨a, b, c, d, e, f⟩, g⟩; exact ⟨⟨⟨⟨c, f⟩, g⟩, b, e⟩, a, d⟩
  · rintro ⟨⟨⟨⟨c, f⟩, g⟩, b, e⟩, a, d⟩; exact ⟨⟨a, b, c, d, e, f⟩, g⟩

theorem flat6_iff (bd : Nat) (l : Spec.Line) :
    flat6 (l (-3)) (l (-2)) (l (-1)) (l 0) (l 1) (l 2) ≤ 1 <<< (bd - 8) ↔ Spec.flatMask l 6 bd = true := by
  unfold flat6 Spec.flatMask Spec.p Spec.q
  simp only [dist_eq]
  rw [toNat_le', max_le', max_le', max_le']
  simp [Nat.shiftLeft_eq, and_assoc]

theorem flat8_iff (bd : Nat) (l : Spec.Line) (n : Nat) (hn : 8 ≤ n) :
    flat8 (l (-4)) (l (-3)) (l (-2)) (l (-1)) (l 0) (l 1) (l 2) (l 3) ≤ 1 <<< (bd - 8) ↔
      Spec.flatMask l n bd = true := by
  have h8 : ¬ n < 8 := by omega
  unfold flat8 Spec.flatMask Spec.p Spec.q
  simp only [dist_eq]
  rw [toNat_le', max_le', max_le', max_le', max_le', max_le']
  simp [Nat.shiftLeft_eq, h8, and_assoc]

theorem flat14_iff (bd : Nat) (l : Spec.Line) :
    flat14Outer (l (-7)) (l (-6)) (l (-5)) (l (-1)) (l 0) (l 4) (l 5) (l 6) ≤ 1 <<< (bd - 8) ↔
      Spec.flatMask2 l bd = true := by
  unfold flat14Outer Spec.flatMask2 Spec.p Spec.q
  simp only [dist_eq]
  rw [toNat_le', max_le', max_le', max_le', max_le', max_le']
  simp [Nat.shiftLeft_eq]
  constructor
  · rintro ⟨a, b, c, d, e, f⟩; exact ⟨⟨⟨⟨⟨e, f⟩, c⟩, d⟩, a⟩, b⟩
  · rintro ⟨⟨⟨⟨⟨e, f⟩, c⟩, d⟩, a⟩, b⟩; exact ⟨a, b, c, d, e, f⟩

/-! ## Filters -/

/-- A line where `data` has been written from position `a` on. -/
def put (l : Spec.Line) (a : Int) (data : List Int) : Spec.Line :=
  fun k => if a ≤ k ∧ k < a + data.length then data.getD (k - a).toNat 0 else l k

theorem clamp_eq (x lo hi : Int) (h : lo ≤ hi) : clamp x lo hi = max lo (min hi x) := by
  unfold clamp; split
  · omega
  · split <;> omega

theorem clip3_eq (lo hi x : Int) (h : lo ≤ hi) : Spec.clip3 lo hi x = max lo (min hi x) := by
  unfold Spec.clip3; split
  · omega
  · split <;> omega

theorem filter4Clamp_eq {bd : Nat} (hbd : bd = 8 ∨ bd = 10 ∨ bd = 12) (x : Int) :
    Spec.filter4Clamp x bd = clamp x (-128 * 2 ^ (bd - 8)) (128 * 2 ^ (bd - 8) - 1) := by
  unfold Spec.filter4Clamp Spec.clip3 clamp
  rcases hbd with rfl | rfl | rfl <;> rfl

/-- Leaving out the clamp of the sum changes nothing after the shift. -/
theorem clamp_merge {bd : Nat} (hbd : bd = 8 ∨ bd = 10 ∨ bd = 12) (x c : Int) (hc : c = 3 ∨ c = 4) :
    Spec.filter4Clamp (Spec.filter4Clamp x bd + c) bd / (8 : Int) =
      clamp (x + c) (-128 * 2 ^ (bd - 8)) (128 * 2 ^ (bd - 8) - 1) >>> 3 := by
  rw [filter4Clamp_eq hbd, filter4Clamp_eq hbd, Int.shiftRight_eq_div_pow]
  rw [clamp_eq, clamp_eq, clamp_eq]
  · rcases hbd with rfl | rfl | rfl <;> rcases hc with rfl | rfl <;> simp <;> omega
  all_goals rcases hbd with rfl | rfl | rfl <;> simp

theorem clamp_off {bd : Nat} (hbd : bd = 8 ∨ bd = 10 ∨ bd = 12) (x y : Int)
    (h : y = x - 0x80 * 2 ^ (bd - 8)) :
    Spec.filter4Clamp y bd + 0x80 * 2 ^ (bd - 8) = clamp x 0 (256 * 2 ^ (bd - 8) - 1) := by
  subst h
  rw [filter4Clamp_eq hbd, clamp_eq, clamp_eq]
  · rcases hbd with rfl | rfl | rfl <;> simp <;> omega
  all_goals rcases hbd with rfl | rfl | rfl <;> simp

theorem round2_1 (x : Int) : Spec.round2 x 1 = (x + 1) >>> 1 := by
  rw [Int.shiftRight_eq_div_pow]; simp [Spec.round2]

theorem narrow_eq {bd : Nat} (hbd : bd = 8 ∨ bd = 10 ∨ bd = 12) (l : Spec.Line) (hev : Bool) (F0 F1 F2 : Int)
    (h0 : F0 = if hev then clamp (l (-2) - l 1) (-128 * 2 ^ (bd - 8)) (128 * 2 ^ (bd - 8) - 1) else 0)
    (h1 : F1 = clamp (F0 + 3 * (l 0 - l (-1)) + 4) (-128 * 2 ^ (bd - 8)) (128 * 2 ^ (bd - 8) - 1) >>> 3)
    (h2 : F2 = clamp (F0 + 3 * (l 0 - l (-1)) + 3) (-128 * 2 ^ (bd - 8)) (128 * 2 ^ (bd - 8) - 1) >>> 3) :
    Spec.narrow l hev bd = fun k =>
      if k = 0 then clamp (l 0 - F1) 0 (256 * 2 ^ (bd - 8) - 1)
      else if k = -1 then clamp (l (-1) + F2) 0 (256 * 2 ^ (bd - 8) - 1)
      else if k = 1 ∧ hev = false then clamp (l 1 - (F1 + 1) >>> 1) 0 (256 * 2 ^ (bd - 8) - 1)
      else if k = -2 ∧ hev = false then clamp (l (-2) + (F1 + 1) >>> 1) 0 (256 * 2 ^ (bd - 8) - 1)
      else l k := by
  have a1 : (l (-2) - 0x80 * 2 ^ (bd - 8)) - (l 1 - 0x80 * 2 ^ (bd - 8)) = l (-2) - l 1 := by omega
  have a2 : (l 0 - 0x80 * 2 ^ (bd - 8)) - (l (-1) - 0x80 * 2 ^ (bd - 8)) = l 0 - l (-1) := by omega
  rw [← filter4Clamp_eq hbd] at h0
  rw [← clamp_merge hbd _ _ (by omega)] at h1 h2
  funext k
  unfold Spec.narrow Spec.p Spec.q
  simp only [show (-1 - 1 : Int) = -2 from rfl, show (-1 - 0 : Int) = -1 from rfl, a1, a2, ← h0, round2_1]
  rw [← h1, ← h2]
  rw [clamp_off hbd (l 0 - F1) _ (by omega), clamp_off hbd (l (-1) + F2) _ (by omega),
    clamp_off hbd (l 1 - (F1 + 1) >>> 1) _ (by omega), clamp_off hbd (l (-2) + (F1 + 1) >>> 1) _ (by omega)]

theorem narrow_true {bd : Nat} (hbd : bd = 8 ∨ bd = 10 ∨ bd = 12) (l : Spec.Line) :
    Spec.narrow l true bd = put l (-2) (filterNarrow2 (l (-2)) (l (-1)) (l 0) (l 1) (bd - 8)) := by
  rw [narrow_eq hbd l true _ _ _ rfl rfl rfl]
  funext k
  unfold put filterNarrow2
  by_cases h : k = -2 ∨ k = -1 ∨ k = 0 ∨ k = 1
  · rcases h with rfl | rfl | rfl | rfl <;> simp
  · rw [if_neg (by omega), if_neg (by omega), if_neg (by simp), if_neg (by simp), if_neg (by simp; omega)]

theorem narrow_false {bd : Nat} (hbd : bd = 8 ∨ bd = 10 ∨ bd = 12) (l : Spec.Line) :
    Spec.narrow l false bd = put l (-2) (filterNarrow4 (l (-2)) (l (-1)) (l 0) (l 1) (bd - 8)) := by
  rw [narrow_eq hbd l false _ _ _ rfl rfl rfl]
  funext k
  unfold put filterNarrow4
  by_cases h : k = -2 ∨ k = -1 ∨ k = 0 ∨ k = 1
  · rcases h with rfl | rfl | rfl | rfl <;> simp
  · rw [if_neg (by omega), if_neg (by omega), if_neg (by simp; omega), if_neg (by simp; omega), if_neg (by simp; omega)]

/-- Writing back what is there already. -/
theorem put_pad (l : Spec.Line) (a : Int) (pre data post : List Int)
    (hpre : ∀ i (h : i < pre.length), pre[i] = l (a + i))
    (hpost : ∀ i (h : i < post.length), post[i] = l (a + pre.length + data.length + i)) :
    put l a (pre ++ data ++ post) = put l (a + pre.length) data := by
  funext k
  unfold put
  by_cases h1 : a ≤ k ∧ k < a + (pre ++ data ++ post).length
  · rw [if_pos h1]
    simp only [List.length_append] at h1
    rw [List.getD_eq_getElem?_getD]
    by_cases h2 : k < a + pre.length
    · rw [if_neg (by omega), List.append_assoc, List.getElem?_append_left (by omega),
        List.getElem?_eq_getElem (by omega), hpre]
      simp only [Option.getD_some]
      congr 1; omega
    · by_cases h3 : k < a + pre.length + data.length
      · rw [if_pos (by omega), List.getElem?_append_left (by simp; omega), List.getElem?_append_right (by omega),
          List.getD_eq_getElem?_getD]
        congr 2; omega
      · rw [if_neg (by omega), List.getElem?_append_right (by simp; omega),
          List.getElem?_eq_getElem (by simp; omega), hpost]
        simp only [Option.getD_some, List.length_append]
        congr 1; omega
  · rw [if_neg h1, if_neg]
    simp only [List.length_append] at h1
    omega

theorem wide6_eq (l : Spec.Line) (plane : Nat) (hp : plane ≠ 0) :
    Spec.wide l plane 3 = put l (-2) (filterWide6 (l (-3)) (l (-2)) (l (-1)) (l 0) (l 1) (l 2)) := by
  funext k
  unfold put Spec.wide filterWide6
  by_cases h : k = -2 ∨ k = -1 ∨ k = 0 ∨ k = 1
  · rcases h with rfl | rfl | rfl | rfl <;>
      simp [hp, Int.shiftRight_eq_div_pow, List.range_succ, Spec.round2, Spec.absDiff, Spec.clip3] <;> omega
  · simp [hp]
    rw [if_neg (by omega), if_neg (by omega)]

theorem wide8_eq (l : Spec.Line) :
    Spec.wide l 0 3 = put l (-3) (filterWide8 (l (-4)) (l (-3)) (l (-2)) (l (-1)) (l 0) (l 1) (l 2) (l 3)) := by
  funext k
  unfold put Spec.wide filterWide8
  by_cases h : k = -3 ∨ k = -2 ∨ k = -1 ∨ k = 0 ∨ k = 1 ∨ k = 2
  · rcases h with rfl | rfl | rfl | rfl | rfl | rfl <;>
      simp [Int.shiftRight_eq_div_pow, List.range_succ, Spec.round2, Spec.absDiff, Spec.clip3] <;> omega
  · simp
    rw [if_neg (by omega), if_neg (by omega)]

theorem wide14_eq (l : Spec.Line) (plane : Nat) :
    Spec.wide l plane 4 = put l (-6) (filterWide14 (l (-7)) (l (-6)) (l (-5)) (l (-4)) (l (-3)) (l (-2)) (l (-1)) (l 0)
      (l 1) (l 2) (l 3) (l 4) (l 5) (l 6)) := by
  funext k
  unfold put Spec.wide filterWide14
  by_cases h : k = -6 ∨ k = -5 ∨ k = -4 ∨ k = -3 ∨ k = -2 ∨ k = -1 ∨ k = 0 ∨ k = 1 ∨ k = 2 ∨ k = 3 ∨ k = 4 ∨ k = 5
  · rcases h with rfl | rfl | rfl | rfl | rfl | rfl | rfl | rfl | rfl | rfl | rfl | rfl <;>
      simp [Int.shiftRight_eq_div_pow, List.range_succ, Spec.round2, Spec.absDiff, Spec.clip3] <;> omega
  · simp
    rw [if_neg (by omega), if_neg (by omega)]

/-! ## The whole line -/

/-- The size that the code uses for the filter size of the specification. -/
def codeSize (plane filterSize : Nat) : Nat := if plane = 0 then min 14 filterSize else min 6 filterSize

/-- The pixels of a line after the code has filtered it. -/
def after (l : Spec.Line) (size : Nat) : Option (List Int) → Spec.Line
  | some data => put l (outAt size - (size >>> 1 : Nat)) data
  | none => l

theorem after4 {bd : Nat} (hbd : bd = 8 ∨ bd = 10 ∨ bd = 12) (plane L : Nat) (l : Spec.Line) :
    after l 4 (size4Inner (l (-2)) (l (-1)) (l 0) (l 1) L bd) =
      Spec.sampleFilter plane 4 L (3 * L + 4) (Spec.thresh L) bd l := by
  have m := mask4_iff hbd l L
  have n := nhev_iff hbd l L
  unfold size4Inner Spec.sampleFilter
  rw [show Spec.filterLen plane 4 = 4 from rfl]
  by_cases h : mask4 (l (-2)) (l (-1)) (l 0) (l 1) (bd - 8) ≤ L
  · simp only [if_pos h, m.1 h]
    by_cases h2 : nhev4 (l (-2)) (l (-1)) (l 0) (l 1) (bd - 8) ≤ L
    · simp only [if_pos h2, n.1 h2, narrow_false hbd]
      rfl
    · have e : Spec.hevMask l (Spec.thresh L) bd = true := by
        cases h3 : Spec.hevMask l (Spec.thresh L) bd
        · exact absurd (n.2 h3) h2
        · rfl
      simp only [if_neg h2, e, narrow_true hbd]
      rfl
  · have e : Spec.filterMask l 4 L (3 * L + 4) bd = false := by
      cases h3 : Spec.filterMask l 4 L (3 * L + 4) bd
      · rfl
      · exact absurd (m.2 h3) h
    simp only [if_neg h, e]
    rfl

theorem after6 {bd : Nat} (hbd : bd = 8 ∨ bd = 10 ∨ bd = 12) (plane L : Nat) (hp : plane ≠ 0) (l : Spec.Line) :
    after l 6 (size6Inner (l (-3)) (l (-2)) (l (-1)) (l 0) (l 1) (l 2) L bd) =
      Spec.sampleFilter plane 8 L (3 * L + 4) (Spec.thresh L) bd l := by
  have m := mask6_iff hbd l L
  have n := nhev_iff hbd l L
  have f := flat6_iff bd l
  unfold size6Inner Spec.sampleFilter
  rw [show Spec.filterLen plane 8 = 6 from by simp [Spec.filterLen, hp]]
  by_cases h : mask6 (l (-3)) (l (-2)) (l (-1)) (l 0) (l 1) (l 2) (bd - 8) ≤ L
  · simp only [if_pos h, m.1 h]
    by_cases hf : flat6 (l (-3)) (l (-2)) (l (-1)) (l 0) (l 1) (l 2) ≤ 1 <<< (bd - 8)
    · simp only [if_pos hf, f.1 hf, wide6_eq l plane hp]
      rfl
    · have ef : Spec.flatMask l 6 bd = false := by
        cases h3 : Spec.flatMask l 6 bd
        · rfl
        · exact absurd (f.2 h3) hf
      simp only [if_neg hf, ef]
      by_cases h2 : nhev4 (l (-2)) (l (-1)) (l 0) (l 1) (bd - 8) ≤ L
      · simp only [if_pos h2, n.1 h2, narrow_false hbd]
        rfl
      · have e : Spec.hevMask l (Spec.thresh L) bd = true := by
          cases h3 : Spec.hevMask l (Spec.thresh L) bd
          · exact absurd (n.2 h3) h2
          · rfl
        simp only [if_neg h2, e, narrow_true hbd]
        rfl
  · have e : Spec.filterMask l 6 L (3 * L + 4) bd = false := by
      cases h3 : Spec.filterMask l 6 L (3 * L + 4) bd
      · rfl
      · exact absurd (m.2 h3) h
    simp only [if_neg h, e]
    rfl

theorem pad8 (l : Spec.Line) (data : List Int) (hd : data.length = 4) :
    put l (-3) ([l (-3)] ++ data ++ [l 2]) = put l (-2) data := by
  rw [put_pad]
  · rfl
  · intro i h
    have : i = 0 := by simp at h; omega
    subst this; rfl
  · intro i h
    have : i = 0 := by simp at h; omega
    subst this; rw [hd]; rfl

theorem pad14 (l : Spec.Line) (data : List Int) (hd : data.length = 4) :
    put l (-6) ([l (-6), l (-5), l (-4), l (-3)] ++ data ++ [l 2, l 3, l 4, l 5]) = put l (-2) data := by
  rw [put_pad]
  · rfl
  · intro i h
    have : i = 0 ∨ i = 1 ∨ i = 2 ∨ i = 3 := by simp at h; omega
    rcases this with rfl | rfl | rfl | rfl <;> rfl
  · intro i h
    have : i = 0 ∨ i = 1 ∨ i = 2 ∨ i = 3 := by simp at h; omega
    rw [hd]
    rcases this with rfl | rfl | rfl | rfl <;> rfl

theorem pad14w (l : Spec.Line) (data : List Int) (hd : data.length = 6) :
    put l (-6) ([l (-6), l (-5), l (-4)] ++ data ++ [l 3, l 4, l 5]) = put l (-3) data := by
  rw [put_pad]
  · rfl
  · intro i h
    have : i = 0 ∨ i = 1 ∨ i = 2 := by simp at h; omega
    rcases this with rfl | rfl | rfl <;> rfl
  · intro i h
    have : i = 0 ∨ i = 1 ∨ i = 2 := by simp at h; omega
    rw [hd]
    rcases this with rfl | rfl | rfl <;> rfl

theorem after8 {bd : Nat} (hbd : bd = 8 ∨ bd = 10 ∨ bd = 12) (L : Nat) (l : Spec.Line) :
    after l 8 (size8Inner (l (-4)) (l (-3)) (l (-2)) (l (-1)) (l 0) (l 1) (l 2) (l 3) L bd) =
      Spec.sampleFilter 0 8 L (3 * L + 4) (Spec.thresh L) bd l := by
  have m := mask8_iff hbd l L 8 (by omega)
  have n := nhev_iff hbd l L
  have f := flat8_iff bd l 8 (by omega)
  unfold size8Inner Spec.sampleFilter
  rw [show Spec.filterLen 0 8 = 8 from by simp [Spec.filterLen]]
  by_cases h : mask8 (l (-4)) (l (-3)) (l (-2)) (l (-1)) (l 0) (l 1) (l 2) (l 3) (bd - 8) ≤ L
  · simp only [if_pos h, m.1 h]
    by_cases hf : flat8 (l (-4)) (l (-3)) (l (-2)) (l (-1)) (l 0) (l 1) (l 2) (l 3) ≤ 1 <<< (bd - 8)
    · simp only [if_pos hf, f.1 hf, wide8_eq l]
      rfl
    · have ef : Spec.flatMask l 8 bd = false := by
        cases h3 : Spec.flatMask l 8 bd
        · rfl
        · exact absurd (f.2 h3) hf
      simp only [if_neg hf, ef]
      by_cases h2 : nhev4 (l (-2)) (l (-1)) (l 0) (l 1) (bd - 8) ≤ L
      · simp only [if_pos h2, n.1 h2, narrow_false hbd]
        exact pad8 l _ rfl
      · have e : Spec.hevMask l (Spec.thresh L) bd = true := by
          cases h3 : Spec.hevMask l (Spec.thresh L) bd
          · exact absurd (n.2 h3) h2
          · rfl
        simp only [if_neg h2, e, narrow_true hbd]
        exact pad8 l _ rfl
  · have e : Spec.filterMask l 8 L (3 * L + 4) bd = false := by
      cases h3 : Spec.filterMask l 8 L (3 * L + 4) bd
      · rfl
      · exact absurd (m.2 h3) h
    simp only [if_neg h, e]
    rfl

theorem after14 {bd : Nat} (hbd : bd = 8 ∨ bd = 10 ∨ bd = 12) (L : Nat) (l : Spec.Line) :
    after l 14 (size14Inner (l (-7)) (l (-6)) (l (-5)) (l (-4)) (l (-3)) (l (-2)) (l (-1)) (l 0) (l 1) (l 2) (l 3)
      (l 4) (l 5) (l 6) L bd) = Spec.sampleFilter 0 16 L (3 * L + 4) (Spec.thresh L) bd l := by
  have m := mask8_iff hbd l L 16 (by omega)
  have n := nhev_iff hbd l L
  have f := flat8_iff bd l 16 (by omega)
  have f2 := flat14_iff bd l
  unfold size14Inner Spec.sampleFilter
  rw [show Spec.filterLen 0 16 = 16 from by simp [Spec.filterLen]]
  by_cases h : mask8 (l (-4)) (l (-3)) (l (-2)) (l (-1)) (l 0) (l 1) (l 2) (l 3) (bd - 8) ≤ L
  · simp only [if_pos h, m.1 h]
    by_cases hf : flat8 (l (-4)) (l (-3)) (l (-2)) (l (-1)) (l 0) (l 1) (l 2) (l 3) ≤ 1 <<< (bd - 8)
    · simp only [if_pos hf, f.1 hf]
      by_cases hg : flat14Outer (l (-7)) (l (-6)) (l (-5)) (l (-1)) (l 0) (l 4) (l 5) (l 6) ≤ 1 <<< (bd - 8)
      · simp only [if_pos hg, f2.1 hg, wide14_eq l]
        rfl
      · have ef : Spec.flatMask2 l bd = false := by
          cases h3 : Spec.flatMask2 l bd
          · rfl
          · exact absurd (f2.2 h3) hg
        simp only [if_neg hg, ef, wide8_eq l]
        exact pad14w l _ rfl
    · have ef : Spec.flatMask l 16 bd = false := by
        cases h3 : Spec.flatMask l 16 bd
        · rfl
        · exact absurd (f.2 h3) hf
      simp only [if_neg hf, ef]
      by_cases h2 : nhev4 (l (-2)) (l (-1)) (l 0) (l 1) (bd - 8) ≤ L
      · simp only [if_pos h2, n.1 h2, narrow_false hbd]
        exact pad14 l _ rfl
      · have e : Spec.hevMask l (Spec.thresh L) bd = true := by
          cases h3 : Spec.hevMask l (Spec.thresh L) bd
          · exact absurd (n.2 h3) h2
          · rfl
        simp only [if_neg h2, e, narrow_true hbd]
        exact pad14 l _ rfl
  · have e : Spec.filterMask l 16 L (3 * L + 4) bd = false := by
      cases h3 : Spec.filterMask l 16 L (3 * L + 4) bd
      · rfl
      · exact absurd (m.2 h3) h
    simp only [if_neg h, e]
    rfl

/-- The code filters a line of pixels as the specification says. -/
theorem inner_eq {bd : Nat} (hbd : bd = 8 ∨ bd = 10 ∨ bd = 12) (plane fs L : Nat) (l : Spec.Line)
    (hfs : fs = 4 ∨ fs = 8 ∨ (fs = 16 ∧ plane = 0)) :
    ∃ o, inner (codeSize plane fs) (fun j => l (j - (codeSize plane fs >>> 1 : Nat))) L bd = some o ∧
      after l (codeSize plane fs) o = Spec.sampleFilter plane fs L (3 * L + 4) (Spec.thresh L) bd l := by
  rcases hfs with rfl | rfl | ⟨rfl, rfl⟩
  · have hc : codeSize plane 4 = 4 := by unfold codeSize; split <;> rfl
    rw [hc]
    exact ⟨_, rfl, after4 hbd plane L l⟩
  · by_cases hp : plane = 0
    · subst hp
      exact ⟨_, rfl, after8 hbd L l⟩
    · have hc : codeSize plane 8 = 6 := by unfold codeSize; rw [if_neg hp]; rfl
      rw [hc]
      exact ⟨_, rfl, after6 hbd plane L hp l⟩
  · exact ⟨_, rfl, after14 hbd L l⟩

end Rav1e.Deblock

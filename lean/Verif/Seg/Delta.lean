import Verif.Seg.Blog
import Verif.LogExp.Theorems
import Verif.Quant.Select

/-!
# The quantizer index of a centroid
-/

namespace Rav1e.Seg

open Real
open Rav1e.Quant
open Rav1e.LogExp (i64 blog64 bexp64)

/-- The logarithm of a score. -/
theorem blog16_near {s : Nat} (h0 : 0 < s) (h1 : s < 2 ^ 28) : ∃ v, blog16 s = some v ∧ -28673 ≤ v ∧ v ≤ 28673 ∧ |(v : ℝ) - (2048 * logb 2 s - 28672)| ≤ 11 / 10 := by
  obtain ⟨v, e, h⟩ := blog32Q11_near h0 (by omega : s < 2 ^ 32)
  have S1 : (1 : ℝ) ≤ s := by exact_mod_cast h0
  have S2 : (s : ℝ) ≤ 2 ^ (28 : ℕ) := by exact_mod_cast h1.le
  have l0 : 0 ≤ logb 2 (s : ℝ) := logb_nonneg (by norm_num) S1
  have l1 : logb 2 (s : ℝ) ≤ 28 := by
    rw [logb_le_iff_le_rpow (by norm_num) (by linarith)]
    calc (s : ℝ) ≤ 2 ^ (28 : ℕ) := S2
      _ = 2 ^ (28 : ℝ) := by rw [← rpow_natCast]; norm_num
  rw [abs_le] at h
  have v0 : (-2 : ℝ) < v := by linarith
  have v1 : (v : ℝ) < 57346 := by linarith
  have v0' : -2 < v := by exact_mod_cast v0
  have v1' : v < 57346 := by exact_mod_cast v1
  have ew : wrap16 (v - 14 * 2 ^ 11) = v - 28672 := by unfold wrap16; omega
  refine ⟨v - 28672, by unfold blog16; rw [e, Option.map_some, ew], by omega, by omega, ?_⟩
  rw [abs_le]
  push_cast
  constructor <;> linarith

/-- `ac_q` for an index without a delta. -/
theorem acQ_base {bd base : Nat} (hbd : bd ∈ [8, 10, 12]) (hb : base ≤ 255) : ∃ t q, acTable bd = some t ∧ TableOk t ∧ t[base]? = some q ∧ acQ base 0 bd = some q ∧ 1 ≤ q ∧ q < 32768 := by
  have h : bd = 8 ∨ bd = 10 ∨ bd = 12 := by simpa using hbd
  obtain ⟨t, e, ok⟩ := acTable_ok h
  have hl : base < t.length := by rw [ok.len]; omega
  refine ⟨t, t[base], e, ok, List.getElem?_eq_getElem hl, ?_, ok.pos _ (List.getElem_mem hl), ok.small _ (List.getElem_mem hl)⟩
  have hq : qIndex base 0 = base := by unfold qIndex; omega
  unfold acQ
  rw [hq]
  rcases h with rfl | rfl | rfl
  all_goals
    cases e
    exact List.getElem?_eq_getElem hl

/-- `ac_q` never fails. -/
theorem acQ_some {bd base : Nat} (hbd : bd ∈ [8, 10, 12]) (d : Int) : ∃ q, acQ base d bd = some q ∧ 1 ≤ q ∧ q < 32768 := by
  have h : bd = 8 ∨ bd = 10 ∨ bd = 12 := by simpa using hbd
  obtain ⟨t, e, ok⟩ := acTable_ok h
  have hl : qIndex base d < t.length := by rw [ok.len]; unfold qIndex; omega
  refine ⟨t[qIndex base d], ?_, ok.pos _ (List.getElem_mem hl), ok.small _ (List.getElem_mem hl)⟩
  unfold acQ
  rcases h with rfl | rfl | rfl
  all_goals
    cases e
    exact List.getElem?_eq_getElem hl

/-- The target of a centroid. -/
theorem target {q : Nat} (h1 : 1 ≤ q) (h2 : q < 32768) : ∃ l, blog64 q = some l ∧ |(l : ℝ) - 2 ^ 57 * logb 2 q| ≤ 91 ∧ ∀ s : Int, -28674 ≤ s → s ≤ 28674 →
    ∃ v, i64 (l - s * 2 ^ (57 - 11 - 1)) = some (l - s * 2 ^ 45) ∧ bexp64 (l - s * 2 ^ 45) = some v ∧ (l - s * 2 ^ 45 < 0 → v = 0) ∧
      (0 ≤ l - s * 2 ^ 45 → |(v : ℝ) - (2 : ℝ) ^ (((l - s * 2 ^ 45 : Int) : ℝ) / 2 ^ 57)| ≤ 1 / 2 + (2 : ℝ) ^ (((l - s * 2 ^ 45 : Int) : ℝ) / 2 ^ 57) / 2 ^ 31) := by
  obtain ⟨l, e, h⟩ := LogExp.blog64_accurate (q : Int) (by omega) (by omega)
  rw [Int.cast_natCast] at h
  have Q1 : (1 : ℝ) ≤ q := by exact_mod_cast h1
  have l0 : 0 ≤ logb 2 (q : ℝ) := logb_nonneg (by norm_num) Q1
  have l1 : logb 2 (q : ℝ) ≤ 15 := by
    rw [logb_le_iff_le_rpow (by norm_num) (by linarith)]
    have : (q : ℝ) ≤ 2 ^ (15 : ℕ) := by
      have : q ≤ 2 ^ 15 := by omega
      exact_mod_cast this
    calc (q : ℝ) ≤ 2 ^ (15 : ℕ) := this
      _ = 2 ^ (15 : ℝ) := by rw [← rpow_natCast]; norm_num
  refine ⟨l, e, h, ?_⟩
  rw [abs_le] at h
  have a : (-92 : ℝ) < l := by linarith
  have b : (l : ℝ) < 15 * 144115188075855872 + 92 := by linarith
  have a' : -92 < l := by exact_mod_cast a
  have b' : l < 15 * 144115188075855872 + 92 := by exact_mod_cast b
  intro s s1 s2
  have i : i64 (l - s * 2 ^ 45) = some (l - s * 2 ^ 45) := by
    unfold i64
    rw [if_pos (by omega)]
  rcases lt_or_ge (l - s * 2 ^ 45) 0 with hx | hx
  · exact ⟨0, i, (LogExp.bexp64_clamped _).1 hx, fun _ => rfl, fun h => absurd h (by omega)⟩
  · obtain ⟨v, e1, e2⟩ := LogExp.bexp64_accurate_partial _ hx (by omega) (Or.inl (by omega))
    rw [if_pos (by omega)] at e2
    exact ⟨v, i, e1, fun h => absurd h (by omega), fun _ => e2⟩

/-- Powers of two that differ by `2^45` in the exponent. -/
theorem pow_gap {x y : Int} (h : y + 2 ^ 45 ≤ x) : (2 : ℝ) ^ ((y : ℝ) / 2 ^ 57) * (1 + 1 / 8192) ≤ (2 : ℝ) ^ ((x : ℝ) / 2 ^ 57) := by
  have h1 : ((y : ℝ) / 2 ^ 57) + 1 / 4096 ≤ (x : ℝ) / 2 ^ 57 := by
    have : ((y + 2 ^ 45 : Int) : ℝ) ≤ x := by exact_mod_cast h
    push_cast at this
    rw [div_add' _ _ _ (by norm_num), div_le_div_iff_of_pos_right (by norm_num)]
    linarith
  calc (2 : ℝ) ^ ((y : ℝ) / 2 ^ 57) * (1 + 1 / 8192) ≤ (2 : ℝ) ^ ((y : ℝ) / 2 ^ 57) * (2 : ℝ) ^ ((1 : ℝ) / 4096) := by
        refine mul_le_mul_of_nonneg_left ?_ (rpow_nonneg (by norm_num) _)
        rw [rpow_def_of_pos (by norm_num)]
        have := add_one_le_exp (log 2 * ((1 : ℝ) / 4096))
        have := LogExp.log_two_pos
        linarith
    _ = (2 : ℝ) ^ ((y : ℝ) / 2 ^ 57 + 1 / 4096) := by rw [rpow_add (by norm_num)]
    _ ≤ _ := rpow_le_rpow_of_exponent_le (by norm_num) h1

/-- Between two entries the nearer one is decided by the product. -/
theorem nearer_mul {q a b : Nat} (h : Nearer q a b) (hab : a < b) (hb : 1 ≤ a) : q * q ≤ a * b := by
  unfold Nearer at h
  rcases Nat.lt_or_ge q a with h1 | h1
  · exact Nat.mul_le_mul h1.le (by omega)
  · rcases Nat.lt_or_ge b q with h2 | h2
    · rw [max_eq_right h1, min_eq_left h2.le, max_eq_right h2.le, min_eq_left h1] at h
      exact absurd (Nat.le_of_mul_le_mul_left h (by omega)) (by omega)
    · rw [max_eq_right h1, min_eq_right h2, max_eq_left h2, min_eq_left h1] at h
      calc q * q ≤ b * a := h
        _ = a * b := Nat.mul_comm _ _

theorem mul_nearer {q a b : Nat} (h : Nearer q b a) (hab : a < b) (hb : 1 ≤ a) (hq : 1 ≤ q) : a * b ≤ q * q := by
  unfold Nearer at h
  rcases Nat.lt_or_ge q a with h1 | h1
  · rw [max_eq_left (by omega : q ≤ b), min_eq_right h1.le, max_eq_left h1.le, min_eq_right (by omega : q ≤ b)] at h
    exact absurd (Nat.le_of_mul_le_mul_right h (by omega)) (by omega)
  · rcases Nat.lt_or_ge b q with h2 | h2
    · exact Nat.mul_le_mul h1 h2.le
    · rw [max_eq_left h2, min_eq_left h1, max_eq_right h1, min_eq_right h2] at h
      calc a * b = b * a := Nat.mul_comm _ _
        _ ≤ q * q := h

/-- The tables for AC increase; a quantizer at most 1/512 of an octave below an entry is nearer to this entry than to the one before. -/
def steep (t : List Nat) : Bool := (List.range 255).all fun j => Nat.blt (t.getD j 0) (t.getD (j + 1) 0) &&
  Nat.blt (t.getD j 0 * t.getD (j + 1) 0) (((9972 * t.getD (j + 1) 0 - 5001 + 9999) / 10000) ^ 2)

theorem steep_ac {bd : Nat} {t : List Nat} (h : acTable bd = some t) : steep t = true := by
  unfold acTable at h
  split at h
  · cases h; decide +kernel
  · cases h; decide +kernel
  · cases h; decide +kernel
  · cases h

theorem strict_of {t : List Nat} (hs : steep t = true) (ht : TableOk t) {i j a b : Nat} (hij : i < j) (ha : t[i]? = some a) (hb : t[j]? = some b) : a < b := by
  have hj := (List.getElem?_eq_some_iff.1 hb).1
  rw [ht.len] at hj
  have h1 := (List.all_eq_true.1 hs) i (List.mem_range.2 (by omega))
  simp only [Bool.and_eq_true, Nat.blt_eq] at h1
  rw [List.getD_eq_getElem?_getD, List.getD_eq_getElem?_getD, ha] at h1
  have hl : i + 1 < t.length := by rw [ht.len]; omega
  rw [List.getElem?_eq_getElem hl] at h1
  have := ht.sorted (i + 1) j _ b (by omega) (List.getElem?_eq_getElem hl) hb
  have := h1.1
  simp only [Option.getD_some] at this
  omega

/-- What `select_ac_qi` gives. -/
structure Sel (bs : Search) (bd : Nat) (t : List Nat) (q : Int) (i : Nat) : Prop where
  eq : selectAcQi bs q bd = some i
  lt : i < 256
  near : 1 ≤ q → IsNearest t q.toNat i
  low : q < 1 → i = 0

theorem sel {bs : Search} (hbs : bs.Ok) {bd : Nat} {t : List Nat} (ht : acTable bd = some t) (q : Int) : ∃ i, Sel bs bd t q i := by
  have hbd : bd = 8 ∨ bd = 10 ∨ bd = 12 := by
    unfold acTable at ht
    split at ht <;> simp_all
  obtain ⟨t', i, e, h1, h2, h3, h4⟩ := (select_nearest bs hbs q bd hbd).2
  rw [ht] at e
  cases e
  exact ⟨i, h1, h2, h3, h4⟩

/-- A larger target has an index that is not smaller. -/
theorem sel_mono {bs : Search} {bd : Nat} {t : List Nat} (ht : acTable bd = some t) (ok : TableOk t) {p q : Int} {i j : Nat} (hi : Sel bs bd t p i) (hj : Sel bs bd t q j)
    (h : p ≤ q) : i ≤ j := by
  rcases eq_or_lt_of_le h with rfl | h
  · have := hi.eq
    rw [hj.eq] at this
    cases this
    exact le_refl _
  by_contra hc
  rcases lt_or_ge p 1 with h1 | h1
  · have := hi.low h1
    omega
  obtain ⟨a, a1, a2⟩ := hi.near h1
  obtain ⟨b, b1, b2⟩ := hj.near (by omega)
  have hab := strict_of (steep_ac ht) ok (by omega) b1 a1
  have ha := ok.pos b (List.mem_of_getElem? b1)
  have h2 := mul_nearer (a2 b (List.mem_of_getElem? b1)) hab ha (by omega)
  have h3 := nearer_mul (b2 a (List.mem_of_getElem? a1)) hab ha
  have h4 : p.toNat < q.toNat := by omega
  have := Nat.mul_lt_mul_of_lt_of_le h4 h4.le (by omega)
  omega

/-- The index for a target close below an entry. -/
theorem sel_ge {bs : Search} {bd : Nat} {t : List Nat} (ht : acTable bd = some t) (ok : TableOk t) {q : Int} {i base a : Nat} (hi : Sel bs bd t q i) (ha : t[base]? = some a)
    (h : 9972 * (a : Int) - 5001 ≤ 10000 * q) : base ≤ i := by
  by_contra hc
  have hb := (List.getElem?_eq_some_iff.1 ha).1
  rw [ok.len] at hb
  obtain ⟨j, rfl⟩ : ∃ j, base = j + 1 := ⟨base - 1, by omega⟩
  have h1 := (List.all_eq_true.1 (steep_ac ht)) j (List.mem_range.2 (by omega))
  simp only [Bool.and_eq_true, Nat.blt_eq] at h1
  have hl : j < t.length := by rw [ok.len]; omega
  rw [List.getD_eq_getElem?_getD, List.getD_eq_getElem?_getD, ha, List.getElem?_eq_getElem hl] at h1
  simp only [Option.getD_some] at h1
  have hpos := ok.pos t[j] (List.getElem_mem hl)
  have q1 : 1 ≤ q := by omega
  obtain ⟨b, b1, b2⟩ := hi.near q1
  have hba := strict_of (steep_ac ht) ok (by omega : i < j + 1) b1 ha
  have h3 := nearer_mul (b2 a (List.mem_of_getElem? ha)) hba (ok.pos b (List.mem_of_getElem? b1))
  have h4 : b ≤ t[j] := ok.sorted i j b _ (by omega) b1 (List.getElem?_eq_getElem hl)
  have h5 : (9972 * a - 5001 + 9999) / 10000 ≤ q.toNat := by omega
  have h6 := Nat.mul_le_mul h5 h5
  rw [← pow_two] at h6
  have h7 : b * a ≤ t[j] * a := Nat.mul_le_mul_right _ h4
  omega

/-- The deltas of all centroids: defined, between the limits, and decreasing in the centroid; for a centroid of at most 16 not negative. -/
theorem delta_ok {bs : Search} (hbs : bs.Ok) {bd base : Nat} (hbd : bd ∈ [8, 10, 12]) (hb : base ≤ 255) : ∃ q l, acQ base 0 bd = some q ∧ blog64 q = some l ∧
    ∃ δ : Int → Int, (∀ s, -28674 ≤ s → s ≤ 28674 → deltaOf bs base bd l s = some (δ s) ∧ 1 ≤ base + δ s ∧ base + δ s ≤ 255) ∧
      (∀ s s', -28674 ≤ s → s ≤ s' → s' ≤ 28674 → δ s' ≤ δ s) ∧ (∀ s, -28674 ≤ s → s ≤ 16 → 0 ≤ δ s) := by
  obtain ⟨t, q, ht, ok, eq, e, q1, q2⟩ := acQ_base hbd hb
  obtain ⟨l, el, hl, H⟩ := target q1 q2
  have H' : ∀ s : Int, ∃ v, -28674 ≤ s → s ≤ 28674 → i64 (l - s * 2 ^ (57 - 11 - 1)) = some (l - s * 2 ^ 45) ∧ bexp64 (l - s * 2 ^ 45) = some v ∧ (l - s * 2 ^ 45 < 0 → v = 0) ∧
      (0 ≤ l - s * 2 ^ 45 → |(v : ℝ) - (2 : ℝ) ^ (((l - s * 2 ^ 45 : Int) : ℝ) / 2 ^ 57)| ≤ 1 / 2 + (2 : ℝ) ^ (((l - s * 2 ^ 45 : Int) : ℝ) / 2 ^ 57) / 2 ^ 31) := by
    intro s
    by_cases h : -28674 ≤ s ∧ s ≤ 28674
    · obtain ⟨v, hv⟩ := H s h.1 h.2
      exact ⟨v, fun _ _ => hv⟩
    · exact ⟨0, fun a b => absurd ⟨a, b⟩ h⟩
  choose v hv using H'
  choose i hi using fun s => sel hbs ht (v s)
  have mono : ∀ s s', -28674 ≤ s → s ≤ s' → s' ≤ 28674 → v s' ≤ v s := by
    intro s s' h1 h2 h3
    rcases eq_or_lt_of_le h2 with rfl | h2
    · exact le_refl _
    obtain ⟨-, -, a1, a2⟩ := hv s h1 (by omega)
    obtain ⟨-, -, b1, b2⟩ := hv s' (by omega) h3
    have P : ∀ x : ℝ, 0 < (2 : ℝ) ^ x := fun x => rpow_pos_of_pos (by norm_num) x
    have v0 : 0 ≤ v s := by
      rcases lt_or_ge (l - s * 2 ^ 45) 0 with hx | hx
      · rw [a1 hx]
      · have := a2 hx
        rw [abs_le] at this
        have p := P (((l - s * 2 ^ 45 : Int) : ℝ) / 2 ^ 57)
        have : (-1 : ℝ) < v s := by linarith
        have : -1 < v s := by exact_mod_cast this
        omega
    rcases lt_or_ge (l - s' * 2 ^ 45) 0 with hx | hx
    · rw [b1 hx]; exact v0
    have g := pow_gap (x := l - s * 2 ^ 45) (y := l - s' * 2 ^ 45) (by omega)
    have A := a2 (by omega)
    have B := b2 hx
    have p := P (((l - s' * 2 ^ 45 : Int) : ℝ) / 2 ^ 57)
    generalize (2 : ℝ) ^ (((l - s * 2 ^ 45 : Int) : ℝ) / 2 ^ 57) = X at *
    generalize (2 : ℝ) ^ (((l - s' * 2 ^ 45 : Int) : ℝ) / 2 ^ 57) = Y at *
    rw [abs_le] at A B
    have : (v s' : ℝ) < v s + 1 := by linarith
    have : v s' < v s + 1 := by exact_mod_cast this
    omega
  refine ⟨q, l, e, el, fun s => (max (i s) 1 : Nat) - base, ?_, ?_, ?_⟩
  · intro s h1 h2
    obtain ⟨e1, e2, -, -⟩ := hv s h1 h2
    refine ⟨?_, by dsimp only; omega, by have := (hi s).lt; dsimp only; omega⟩
    unfold deltaOf
    simp only [e1, e2, (hi s).eq, Option.bind_eq_bind, Option.bind_some]
  · intro s s' h1 h2 h3
    have := sel_mono ht ok (hi s') (hi s) (mono s s' h1 h2 h3)
    dsimp only
    omega
  · intro s h1 h2
    have key : 9972 * (q : Int) - 5001 ≤ 10000 * v s := by
      obtain ⟨-, -, a1, a2⟩ := hv s h1 (by omega)
      have Q1 : (1 : ℝ) ≤ q := by exact_mod_cast q1
      have hx : (((l - s * 2 ^ 45 : Int) : ℝ) / 2 ^ 57) ≥ logb 2 q - 1 / 255 := by
        rw [abs_le] at hl
        have s' : (s : ℝ) ≤ 16 := by exact_mod_cast h2
        rw [ge_iff_le, le_div_iff₀ (by norm_num)]
        push_cast
        linarith
      have hpow : (q : ℝ) * (19945 / 20000) ≤ (2 : ℝ) ^ (((l - s * 2 ^ 45 : Int) : ℝ) / 2 ^ 57) := by
        calc (q : ℝ) * (19945 / 20000) ≤ (2 : ℝ) ^ (logb 2 (q : ℝ)) * (2 : ℝ) ^ (-(1 / 255 : ℝ)) := by
              rw [rpow_logb (by norm_num) (by norm_num) (by linarith)]
              refine mul_le_mul_of_nonneg_left ?_ (by linarith)
              rw [rpow_def_of_pos (by norm_num)]
              have := add_one_le_exp (log 2 * (-(1 / 255 : ℝ)))
              have := LogExp.log_two_lt
              linarith
          _ = (2 : ℝ) ^ (logb 2 (q : ℝ) - 1 / 255) := by rw [← rpow_add (by norm_num), sub_eq_add_neg]
          _ ≤ _ := rpow_le_rpow_of_exponent_le (by norm_num) hx
      rcases lt_or_ge (l - s * 2 ^ 45) 0 with h0 | h0
      · -- then the quantizer is small
        exfalso
        have : (((l - s * 2 ^ 45 : Int) : ℝ) / 2 ^ 57) < 0 := div_neg_of_neg_of_pos (by exact_mod_cast h0) (by norm_num)
        have h3 : (2 : ℝ) ^ (((l - s * 2 ^ 45 : Int) : ℝ) / 2 ^ 57) ≤ 1 := rpow_le_one_of_one_le_of_nonpos (by norm_num) this.le
        have h4 : (q : ℝ) < 2 := by linarith
        have h5 : q < 2 := by exact_mod_cast h4
        have : ∀ j < 256, 4 ≤ t.getD j 0 := by
          have hbd' : bd = 8 ∨ bd = 10 ∨ bd = 12 := by simpa using hbd
          rcases hbd' with rfl | rfl | rfl <;> (cases ht; decide +kernel)
        have := this base (by omega)
        rw [List.getD_eq_getElem?_getD, eq] at this
        simp only [Option.getD_some] at this
        omega
      · have A := a2 h0
        rw [abs_le] at A
        have : (9972 * q - 5001 : ℝ) ≤ 10000 * v s := by
          have hX : (2 : ℝ) ^ (((l - s * 2 ^ 45 : Int) : ℝ) / 2 ^ 57) * (1 - 1 / 2 ^ 31) ≥ (q : ℝ) * (19945 / 20000) * (1 - 1 / 2 ^ 31) := mul_le_mul_of_nonneg_right hpow (by norm_num)
          linarith
        exact_mod_cast this
    have := sel_ge ht ok (hi s) eq key
    dsimp only
    omega

end Rav1e.Seg

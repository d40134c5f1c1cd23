import Verif.Ec.Model
import Verif.Ec.Spec
import Mathlib.Tactic.Ring
import Mathlib.Tactic.Linarith
/-
Helper lemmas for the range coder: bounds, refinement of the concrete encoder
to an unbounded-precision interval coder, carry propagation.
-/
namespace Rav1e.Ec

/-- Well-formed CDF in rav1e's representation: between 2 and 16 symbols, the stored
inverse cumulative frequencies are below 32768 and non-increasing, the adaptation counter
(last element) is below 64.  This is what `debug_assert!`s in src/ec.rs:520-537 ask for. -/
structure ValidCdf (c : List Nat) : Prop where
  two_le : 2 ≤ c.length
  le_sixteen : c.length ≤ 16
  lt : ∀ i, i + 1 < c.length → c.getD i 0 < 32768
  mono : ∀ i, i + 2 < c.length → c.getD (i + 1) 0 ≤ c.getD i 0
  count : c.getD (c.length - 1) 0 < 64

/-- A symbol inside a well-formed CDF. -/
structure Sym.Valid (x : Sym) : Prop where
  cdf : ValidCdf x.cdf
  lt : x.s < x.cdf.length

/-! ### Interval boundaries -/

/-- Upper end of the sub-interval of symbol `i` measured from the top. -/
def bndU (rng : Nat) (c : List Nat) (i : Nat) : Nat :=
  if i = 0 then rng else scaled rng (c.getD (i - 1) 0) (c.length - i)
/-- Lower end. -/
def bndV (rng : Nat) (c : List Nat) (i : Nat) : Nat :=
  scaled rng (c.getD i 0) (c.length - i - 1)

theorem shr6_mono {a b : Nat} (h : a ≤ b) : a >>> 6 ≤ b >>> 6 := by
  simp only [Nat.shiftRight_eq_div_pow]; exact Nat.div_le_div_right h

theorem shr1_mono {a b : Nat} (h : a ≤ b) : a >>> 1 ≤ b >>> 1 := by
  simp only [Nat.shiftRight_eq_div_pow]; exact Nat.div_le_div_right h

theorem scaled_mono {rng f f' k k' : Nat} (h : f ≤ f') (hk : k < k') :
    scaled rng f k + 4 ≤ scaled rng f' k' := by
  unfold scaled EC_PROB_SHIFT EC_MIN_PROB
  have h1 := shr6_mono h
  have h2 := Nat.mul_le_mul_left (rng >>> 8) h1
  have h3 := shr1_mono h2
  omega

theorem scaled_lt {rng f k : Nat} (hr : 32768 ≤ rng) (hf : f < 32768) (hk : k ≤ 15) :
    scaled rng f k + 4 ≤ rng := by
  unfold scaled EC_PROB_SHIFT EC_MIN_PROB
  have h1 : f >>> 6 ≤ 511 := by simp only [Nat.shiftRight_eq_div_pow]; omega
  have h2 := shr1_mono (Nat.mul_le_mul_left (rng >>> 8) h1)
  simp only [Nat.shiftRight_eq_div_pow] at *
  omega

theorem count_shr {c : Nat} (h : c < 64) : c >>> 6 = 0 := by
  simp only [Nat.shiftRight_eq_div_pow]; omega

theorem bndV_zero {rng : Nat} {c : List Nat} (hc : ValidCdf c) :
    bndV rng c (c.length - 1) = 0 := by
  have := count_shr hc.count
  have h2 := hc.two_le
  unfold bndV scaled EC_PROB_SHIFT
  rw [this]
  have : c.length - (c.length - 1) - 1 = 0 := by omega
  simp [this]

/-- Each symbol keeps at least `EC_MIN_PROB` units of range. -/
theorem bnd_lt {rng : Nat} {c : List Nat} (hc : ValidCdf c) (hr : 32768 ≤ rng) {i : Nat}
    (hi : i < c.length) : bndV rng c i + 4 ≤ bndU rng c i := by
  have h16 := hc.le_sixteen
  have h2 := hc.two_le
  rcases Nat.eq_zero_or_pos i with h0 | hpos
  · subst h0
    unfold bndV bndU
    simp only [↓reduceIte]
    exact scaled_lt hr (hc.lt 0 (by omega)) (by omega)
  · by_cases hlast : i = c.length - 1
    · subst hlast
      rw [bndV_zero hc]
      unfold bndU scaled EC_MIN_PROB
      rw [if_neg (by omega)]
      have : c.length - (c.length - 1) = 1 := by omega
      rw [this]
      exact Nat.le_add_left _ _
    · unfold bndU bndV
      rw [if_neg (by omega)]
      have := hc.mono (i - 1) (by omega)
      rw [show i - 1 + 1 = i by omega] at this
      exact scaled_mono this (by omega)

theorem bndU_succ (rng : Nat) (c : List Nat) (i : Nat) : bndU rng c (i + 1) = bndV rng c i := by
  unfold bndU bndV
  rw [if_neg (by omega)]
  simp only [Nat.add_sub_cancel]
  rw [Nat.sub_sub]

theorem bndU_anti {rng : Nat} {c : List Nat} (hc : ValidCdf c) (hr : 32768 ≤ rng) {i j : Nat}
    (hij : i ≤ j) (hj : j < c.length) : bndU rng c j ≤ bndU rng c i := by
  induction hij with
  | refl => exact Nat.le_refl _
  | @step j hij ih =>
    have h1 := ih (by omega)
    have h2 := bnd_lt hc hr (i := j) (by omega)
    rw [bndU_succ]; omega

theorem bndU_le {rng : Nat} {c : List Nat} (hc : ValidCdf c) (hr : 32768 ≤ rng) {i : Nat}
    (hi : i < c.length) : bndU rng c i ≤ rng := by
  have := bndU_anti hc hr (Nat.zero_le i) hi
  simpa [bndU] using this

theorem lrU_triple {x : Sym} (hx : x.Valid) (rng : Nat) :
    lrU rng x.triple.1 x.triple.2.2 = bndU rng x.cdf x.s := by
  have h2 := hx.cdf.two_le
  have hl := hx.lt
  unfold lrU bndU Sym.triple
  rcases Nat.eq_zero_or_pos x.s with h0 | hpos
  · simp [h0]
  · have := hx.cdf.lt (x.s - 1) (by omega)
    simp only [gt_iff_lt, hpos, ↓reduceIte]
    rw [if_neg (by omega), if_neg (by omega)]

theorem lrV_triple (x : Sym) (rng : Nat) :
    lrV rng x.triple.2.1 x.triple.2.2 = bndV rng x.cdf x.s := rfl

/-! ### `leading_zeros` -/

theorem clz16_spec {r : Nat} (h0 : 0 < r) (h : r < 65536) :
    clz16 r ≤ 15 ∧ 32768 ≤ r * 2 ^ clz16 r ∧ r * 2 ^ clz16 r < 65536 := by
  have hl : r.log2 < 16 := (Nat.log2_lt (by omega)).2 h
  have h1 : 2 ^ r.log2 ≤ r := Nat.log2_self_le (by omega)
  have h2 : r < 2 ^ (r.log2 + 1) := Nat.lt_log2_self
  have hc : clz16 r = 15 - r.log2 := by unfold clz16; rw [if_neg (by omega)]
  rw [hc]
  refine ⟨by omega, ?_, ?_⟩
  · have : 2 ^ r.log2 * 2 ^ (15 - r.log2) = 32768 := by
      rw [← Nat.pow_add]; rw [show r.log2 + (15 - r.log2) = 15 by omega]
    have := Nat.mul_le_mul_right (2 ^ (15 - r.log2)) h1
    omega
  · have : 2 ^ (r.log2 + 1) * 2 ^ (15 - r.log2) = 65536 := by
      rw [← Nat.pow_add]; rw [show r.log2 + 1 + (15 - r.log2) = 16 by omega]
    have := Nat.mul_lt_mul_of_pos_right h2 (Nat.two_pow_pos (15 - r.log2))
    omega

theorem lt_of_clz {r : Nat} (h0 : 0 < r) (h : r < 65536) : r < 2 ^ (16 - clz16 r) := by
  obtain ⟨h1, _, h3⟩ := clz16_spec h0 h
  have : (65536 : Nat) = 2 ^ (16 - clz16 r) * 2 ^ clz16 r := by
    rw [← Nat.pow_add, show 16 - clz16 r + clz16 r = 16 by omega]
  rw [this] at h3
  exact Nat.lt_of_mul_lt_mul_right h3

/-! ### Digits in base 256 -/

/-- Value of a digit string in base 256 (digits may exceed 255 before carry propagation). -/
def val (ps : List Nat) : Nat := ps.foldl (fun a p => 256 * a + p) 0

theorem foldl_val (ps : List Nat) (a : Nat) :
    ps.foldl (fun a p => 256 * a + p) a = a * 256 ^ ps.length + val ps := by
  induction ps generalizing a with
  | nil => simp [val]
  | cons p ps ih =>
    have e : val (p :: ps) = p * 256 ^ ps.length + val ps := by
      unfold val
      rw [List.foldl_cons, ih, ih]
      simp
    rw [e, List.foldl_cons, ih, List.length_cons, Nat.pow_succ]
    rw [Nat.add_mul]
    have : 256 * a * 256 ^ ps.length = a * (256 ^ ps.length * 256) := by
      rw [Nat.mul_comm 256 a, Nat.mul_assoc, Nat.mul_comm 256]
    omega

theorem val_nil : val [] = 0 := rfl
theorem val_cons (p : Nat) (ps : List Nat) : val (p :: ps) = p * 256 ^ ps.length + val ps := by
  have := foldl_val ps (256 * 0 + p)
  simpa [val] using this
theorem val_snoc (ps : List Nat) (p : Nat) : val (ps ++ [p]) = 256 * val ps + p := by
  unfold val; simp
theorem val_snoc2 (ps : List Nat) (p q : Nat) :
    val (ps ++ [p, q]) = 256 * (256 * val ps + p) + q := by
  unfold val; simp

theorem val_lt {ps : List Nat} (h : ∀ p ∈ ps, p < 256) : val ps < 256 ^ ps.length := by
  induction ps with
  | nil => simp [val]
  | cons p ps ih =>
    rw [val_cons, List.length_cons, Nat.pow_succ]
    have h1 := ih (fun q hq => h q (by simp [hq]))
    have h2 := h p (by simp)
    have h3 := Nat.mul_le_mul_right (256 ^ ps.length) (show p ≤ 255 by omega)
    omega

theorem carry_spec {ps : List Nat} (h : ∀ p ∈ ps, p < 512) :
    (carry ps).1.length = ps.length ∧ (∀ b ∈ (carry ps).1, b < 256) ∧ (carry ps).2 ≤ 2 ∧
      val ps = (carry ps).2 * 256 ^ ps.length + val (carry ps).1 := by
  induction ps with
  | nil => simp [carry, val]
  | cons p ps ih =>
    obtain ⟨h1, h2, h3, h4⟩ := ih (fun q hq => h q (by simp [hq]))
    have hp := h p (by simp)
    have e : carry (p :: ps) = ((((carry ps).2 + p) % 65536 % 256) :: (carry ps).1,
        (((carry ps).2 + p) % 65536) >>> 8) := rfl
    have hm : ((carry ps).2 + p) % 65536 = (carry ps).2 + p := Nat.mod_eq_of_lt (by omega)
    rw [e, hm]
    refine ⟨by simp [h1], ?_, ?_, ?_⟩
    · intro b hb
      rcases List.mem_cons.1 hb with rfl | hb
      · omega
      · exact h2 b hb
    · simp only [Nat.shiftRight_eq_div_pow]; omega
    · simp only [val_cons, h4, h1, List.length_cons, Nat.pow_succ, Nat.shiftRight_eq_div_pow]
      have e2 : (carry ps).2 + p = 256 * (((carry ps).2 + p) / 2 ^ 8) + ((carry ps).2 + p) % 256 := by
        omega
      generalize ((carry ps).2 + p) / 2 ^ 8 = q at *
      generalize ((carry ps).2 + p) % 256 = m at *
      generalize 256 ^ ps.length = P at *
      have e3 : ((carry ps).2 + p) * P = (256 * q + m) * P := by rw [e2]
      nlinarith [e3]

/-! ### Refinement to an unbounded interval coder -/

/-- Idealised interval coder: exact lower end `A`, range `R`, number of shifted bits `n`. -/
structure Ideal where
  A : Nat
  R : Nat
  n : Nat

def Ideal.new : Ideal := ⟨0, 32768, 0⟩

def Ideal.symbol (i : Ideal) (x : Sym) : Ideal :=
  let u := bndU i.R x.cdf x.s
  let v := bndV i.R x.cdf x.s
  let d := clz16 (u - v)
  ⟨(i.A + (i.R - u)) * 2 ^ d, (u - v) * 2 ^ d, i.n + d⟩

def Ideal.symbols (i : Ideal) (xs : List Sym) : Ideal := xs.foldl Ideal.symbol i

/-- The concrete encoder represents the idealised one.  `k = cnt + 24`. -/
structure Rel (e : Enc) (i : Ideal) (k : Nat) : Prop where
  cnt : e.cnt = (k : Int) - 24
  klo : 15 ≤ k
  khi : k ≤ 23
  rng : e.rng = i.R
  rlo : 32768 ≤ i.R
  rhi : i.R < 65536
  A : i.A = val e.precarry * 2 ^ k + e.low
  n : i.n + 15 = 8 * e.precarry.length + k
  low : e.low + e.rng ≤ 2 ^ (k + 1)
  digits : ∀ p ∈ e.precarry, p < 512
  top : i.A + i.R ≤ 2 ^ (15 + i.n)

theorem rel_new : Rel Enc.new Ideal.new 15 := by
  constructor <;> simp [Enc.new, Ideal.new, val]

theorem pow_split {a b c : Nat} (h : a = b + c) : 2 ^ a = 2 ^ b * 2 ^ c := by
  rw [h, Nat.pow_add]

theorem div_lt_pow {l a b : Nat} (h : l < 2 ^ (a + b)) : l / 2 ^ a < 2 ^ b := by
  rw [Nat.div_lt_iff_lt_mul (Nat.two_pow_pos a), Nat.mul_comm, ← Nat.pow_add]; exact h

theorem ideal_top {i : Ideal} {x : Sym} (hx : x.Valid) (hr : 32768 ≤ i.R)
    (h : i.A + i.R ≤ 2 ^ (15 + i.n)) :
    (i.symbol x).A + (i.symbol x).R ≤ 2 ^ (15 + (i.symbol x).n) := by
  have h1 := bnd_lt hx.cdf hr hx.lt
  have h2 := bndU_le hx.cdf hr hx.lt
  simp only [Ideal.symbol]
  rw [← Nat.add_mul, ← Nat.add_assoc 15, Nat.pow_add]
  exact Nat.mul_le_mul_right _ (by omega)

/-- One coding step preserves the representation relation. -/
theorem rel_step {e : Enc} {i : Ideal} {k : Nat} (h : Rel e i k) {x : Sym} (hx : x.Valid) :
    ∃ k', Rel (e.symbol x) (i.symbol x) k' := by
  have hb := bnd_lt hx.cdf h.rlo hx.lt
  have hu := bndU_le hx.cdf h.rlo hx.lt
  obtain ⟨hcnt, hklo, hkhi, hrng, hrlo, hrhi, hA, hn, hlow, hdig, htop⟩ := h
  have htop' := ideal_top hx hrlo htop
  rw [hrng] at hlow
  -- names for the interval ends
  have eu : lrU e.rng x.triple.1 x.triple.2.2 = bndU i.R x.cdf x.s := by rw [hrng, lrU_triple hx]
  have ev : lrV e.rng x.triple.2.1 x.triple.2.2 = bndV i.R x.cdf x.s := by rw [hrng, lrV_triple]
  generalize hU : bndU i.R x.cdf x.s = u at *
  generalize hV : bndV i.R x.cdf x.s = v at *
  obtain ⟨r, hr⟩ : ∃ r, r = u - v := ⟨_, rfl⟩
  have hr0 : 0 < r := by omega
  have hr16 : r < 65536 := by omega
  have hc := clz16_spec hr0 hr16
  have hrd := lt_of_clz hr0 hr16
  have hl : (lrCompute e.rng x.triple.1 x.triple.2.1 x.triple.2.2).1 = i.R - u := by
    simp only [lrCompute]; rw [eu, hrng]
  have hrr : (lrCompute e.rng x.triple.1 x.triple.2.1 x.triple.2.2).2 = r := by
    simp only [lrCompute, eu, ev, ← hr]; exact Nat.mod_eq_of_lt hr16
  obtain ⟨d, hd⟩ : ∃ d, d = clz16 r := ⟨_, rfl⟩
  rw [← hd] at hc hrd
  obtain ⟨l, hl'⟩ : ∃ l, l = i.R - u + e.low := ⟨_, rfl⟩
  have hlr : l + r ≤ 2 ^ (k + 1) := by omega
  have hsym : i.symbol x = ⟨(i.A + (i.R - u)) * 2 ^ d, r * 2 ^ d, i.n + d⟩ := by
    simp only [Ideal.symbol, hU, hV, ← hr, ← hd]
  rw [hsym] at htop' ⊢
  have hAl : i.A + (i.R - u) = val e.precarry * 2 ^ k + l := by omega
  have hrs : (r <<< d) % 65536 = r * 2 ^ d := by
    rw [Nat.shiftLeft_eq, Nat.mod_eq_of_lt hc.2.2]
  simp only [Enc.symbol, Enc.store, hl, hrr, ← hd, ← hl', hrs, hcnt]
  by_cases hs : (k : Int) - 24 + d ≥ 0
  · rw [if_pos hs]
    have hc16 : ((k : Int) - 24 + 16).toNat = k - 8 := by omega
    rw [hc16]
    have hp1 : l / 2 ^ (k - 8) < 512 := by
      have : l < 2 ^ ((k - 8) + 9) := by rw [show k - 8 + 9 = k + 1 by omega]; omega
      exact div_lt_pow this
    have hsplit : l = 2 ^ (k - 8) * (l / 2 ^ (k - 8)) + l % 2 ^ (k - 8) :=
      (Nat.div_add_mod _ _).symm
    have hm1 : l % 2 ^ (k - 8) < 2 ^ (k - 8) := Nat.mod_lt _ (Nat.two_pow_pos _)
    by_cases hs8 : (k : Int) - 24 + d ≥ 8
    · rw [if_pos hs8]
      have hk17 : 17 ≤ k := by omega
      generalize hl1 : l % 2 ^ (k - 8) = l1 at *
      have e16 : k - 8 - 8 = k - 16 := by omega
      rw [e16]
      have hp2 : l1 / 2 ^ (k - 16) < 256 := by
        have : l1 < 2 ^ ((k - 16) + 8) := by rw [show k - 16 + 8 = k - 8 by omega]; omega
        exact div_lt_pow this
      have hsplit2 : l1 = 2 ^ (k - 16) * (l1 / 2 ^ (k - 16)) + l1 % 2 ^ (k - 16) :=
        (Nat.div_add_mod _ _).symm
      have hm2 : l1 % 2 ^ (k - 16) < 2 ^ (k - 16) := Nat.mod_lt _ (Nat.two_pow_pos _)
      have hrc : r ≤ 2 ^ (k - 16) :=
        Nat.le_trans (Nat.le_of_lt hrd) (Nat.pow_le_pow_right (by decide) (by omega))
      have hk' : 2 ^ (k - 16 + d) = 2 ^ (k - 16) * 2 ^ d := Nat.pow_add _ _ _
      have hbound : l1 % 2 ^ (k - 16) * 2 ^ d + r * 2 ^ d ≤ 2 ^ (k - 16 + d + 1) := by
        rw [Nat.pow_succ, hk', ← Nat.add_mul, Nat.mul_right_comm]
        exact Nat.mul_le_mul_right _ (by omega)
      have hfit : l1 % 2 ^ (k - 16) * 2 ^ d < 2 ^ 32 := by
        have : 2 ^ (k - 16 + d + 1) ≤ 2 ^ 31 := Nat.pow_le_pow_right (by decide) (by omega)
        omega
      have hlm : ((l1 % 2 ^ (k - 16)) <<< d) % 2 ^ 32 = l1 % 2 ^ (k - 16) * 2 ^ d := by
        rw [Nat.shiftLeft_eq, Nat.mod_eq_of_lt hfit]
      refine ⟨k - 16 + d, ?_⟩
      rw [hlm]
      simp only [Nat.shiftRight_eq_div_pow]
      rw [Nat.mod_eq_of_lt (by omega : l / 2 ^ (k - 8) < 65536),
        Nat.mod_eq_of_lt (by omega : l1 / 2 ^ (k - 16) < 65536)]
      refine ⟨by simp only; omega, by omega, by omega, rfl, hc.2.1, hc.2.2, ?_, ?_, hbound, ?_, htop'⟩
      · simp only
        rw [hAl, val_snoc2, hk', ← Nat.mul_assoc, ← Nat.add_mul]
        congr 1
        have e1 : 2 ^ k = 256 * (256 * 2 ^ (k - 16)) := by
          rw [pow_split (show k = 8 + (8 + (k - 16)) by omega), Nat.pow_add]; ring
        have e2 : 2 ^ (k - 8) = 256 * 2 ^ (k - 16) := by
          rw [pow_split (show k - 8 = 8 + (k - 16) by omega)]; ring
        generalize l / 2 ^ (k - 8) = q1 at *
        rw [e2] at hsplit
        rw [e1]
        generalize 2 ^ (k - 16) = P at *
        generalize l1 / P = q2 at *
        generalize l1 % P = m at *
        generalize val e.precarry = w at *
        rw [hsplit, hsplit2]; ring
      · simp only [List.length_append, List.length_cons, List.length_nil]; omega
      · intro p hp
        rcases List.mem_append.1 hp with hp | hp
        · exact hdig p hp
        · simp only [List.mem_cons, List.not_mem_nil, or_false] at hp
          rcases hp with rfl | rfl <;> omega
    · rw [if_neg hs8]
      have hrc : r ≤ 2 ^ (k - 8) :=
        Nat.le_trans (Nat.le_of_lt hrd) (Nat.pow_le_pow_right (by decide) (by omega))
      have hk' : 2 ^ (k - 8 + d) = 2 ^ (k - 8) * 2 ^ d := Nat.pow_add _ _ _
      have hbound : l % 2 ^ (k - 8) * 2 ^ d + r * 2 ^ d ≤ 2 ^ (k - 8 + d + 1) := by
        rw [Nat.pow_succ, hk', ← Nat.add_mul, Nat.mul_right_comm]
        exact Nat.mul_le_mul_right _ (by omega)
      have hfit : l % 2 ^ (k - 8) * 2 ^ d < 2 ^ 32 := by
        have : 2 ^ (k - 8 + d + 1) ≤ 2 ^ 31 := Nat.pow_le_pow_right (by decide) (by omega)
        omega
      have hlm : ((l % 2 ^ (k - 8)) <<< d) % 2 ^ 32 = l % 2 ^ (k - 8) * 2 ^ d := by
        rw [Nat.shiftLeft_eq, Nat.mod_eq_of_lt hfit]
      refine ⟨k - 8 + d, ?_⟩
      rw [hlm]
      simp only [Nat.shiftRight_eq_div_pow]
      rw [Nat.mod_eq_of_lt (by omega : l / 2 ^ (k - 8) < 65536)]
      refine ⟨by simp only; omega, by omega, by omega, rfl, hc.2.1, hc.2.2, ?_, ?_, hbound, ?_, htop'⟩
      · simp only
        rw [hAl, val_snoc, hk', ← Nat.mul_assoc, ← Nat.add_mul]
        congr 1
        have e1 : 2 ^ k = 256 * 2 ^ (k - 8) := by
          rw [pow_split (show k = 8 + (k - 8) by omega)]; ring
        rw [e1]
        generalize 2 ^ (k - 8) = P at *
        generalize l / P = q1 at *
        generalize l % P = m at *
        generalize val e.precarry = w at *
        rw [hsplit]; ring
      · simp only [List.length_append, List.length_cons, List.length_nil]; omega
      · intro p hp
        rcases List.mem_append.1 hp with hp | hp
        · exact hdig p hp
        · simp only [List.mem_cons, List.not_mem_nil, or_false] at hp
          subst hp; omega
  · rw [if_neg hs]
    have hbound : l * 2 ^ d + r * 2 ^ d ≤ 2 ^ (k + d + 1) := by
      rw [show k + d + 1 = k + 1 + d by omega, Nat.pow_add, ← Nat.add_mul]
      exact Nat.mul_le_mul_right _ hlr
    have hfit : l * 2 ^ d < 2 ^ 32 := by
      have : 2 ^ (k + d + 1) ≤ 2 ^ 31 := Nat.pow_le_pow_right (by decide) (by omega)
      omega
    have hlm : (l <<< d) % 2 ^ 32 = l * 2 ^ d := by
      rw [Nat.shiftLeft_eq, Nat.mod_eq_of_lt hfit]
    refine ⟨k + d, ?_⟩
    rw [hlm]
    refine ⟨by simp only; omega, by omega, by omega, rfl, hc.2.1, hc.2.2, ?_, ?_, hbound, hdig, htop'⟩
    · simp only
      rw [hAl, Nat.pow_add, ← Nat.mul_assoc, ← Nat.add_mul]
    · simp only; omega

theorem rel_symbols {e : Enc} {i : Ideal} {k : Nat} (h : Rel e i k) {xs : List Sym}
    (hx : ∀ x ∈ xs, x.Valid) : ∃ k', Rel (e.symbols xs) (i.symbols xs) k' := by
  induction xs generalizing e i k with
  | nil => exact ⟨k, h⟩
  | cons x xs ih =>
    obtain ⟨k', h'⟩ := rel_step h (hx x (by simp))
    exact ih h' (fun y hy => hx y (by simp [hy]))

/-! ### Finishing -/

theorem or_one (q : Nat) : q ||| 1 = 2 * (q / 2) + 1 := by
  apply Nat.eq_of_testBit_eq
  intro j
  cases j with
  | zero => simp [Nat.testBit_zero]
  | succ j =>
    rw [Nat.testBit_succ, Nat.testBit_succ]
    have : (q ||| 1) / 2 = q / 2 := by
      have := Nat.or_div_two (a := q) (b := 1)
      simpa using this
    rw [this]
    congr 1
    omega

theorem doneE_eq (l : Nat) : doneE l = (2 * ((l + 0x3FFF) / 0x4000 / 2) + 1) * 2 ^ 14 := by
  unfold doneE
  rw [← or_one]
  have h1 : (l + 0x3FFF) / 0x4000 * 0x4000 = ((l + 0x3FFF) / 0x4000) <<< 14 := by
    rw [Nat.shiftLeft_eq]
  have h2 : (0x4000 : Nat) = 1 <<< 14 := rfl
  rw [h1]
  conv => lhs; rhs; rw [h2]
  rw [← Nat.shiftLeft_or_distrib, Nat.shiftLeft_eq]

theorem doneE_bounds (l : Nat) : l ≤ doneE l ∧ doneE l < l + 32768 := by
  rw [doneE_eq]; omega

/-- The shift of the last emitted digit. -/
def lastShift (k : Nat) : Nat := if k = 23 then 7 else k - 8

theorem done_digits {e : Enc} {i : Ideal} {k : Nat} (h : Rel e i k) :
    val e.doneDigits * 2 ^ lastShift k = val e.precarry * 2 ^ k + doneE e.low ∧
    8 * e.doneDigits.length + lastShift k = 15 + i.n ∧
    (∀ p ∈ e.doneDigits, p < 512) := by
  obtain ⟨hcnt, hklo, hkhi, hrng, hrlo, hrhi, hA, hn, hlow, hdig, htop⟩ := h
  rw [hrng] at hlow
  have hb := doneE_bounds e.low
  have hd : doneE e.low < 2 ^ (k + 1) := by omega
  have h14 : doneE e.low % 2 ^ 14 = 0 := by rw [doneE_eq]; exact Nat.mul_mod_left _ _
  generalize hE : doneE e.low = E at *
  unfold Enc.doneDigits
  rw [hcnt, if_pos (by omega), hE]
  have hs : ((k : Int) - 24 + 16).toNat = k - 8 := by omega
  rw [hs]
  have hp1 : E / 2 ^ (k - 8) < 512 := by
    have : E < 2 ^ ((k - 8) + 9) := by rw [show k - 8 + 9 = k + 1 by omega]; omega
    exact div_lt_pow this
  by_cases h23 : k = 23
  · subst h23
    simp only [lastShift, if_true]
    have hl : doneLoop 3 E 15 (10 + ((23 : Nat) : Int) - 24) =
        [(E >>> 15) % 65536, ((E % 2 ^ 15) >>> 7) % 65536] := by
      simp [doneLoop]
    have : (10 + (((23 : Nat) : Int) - 24)) = (10 + ((23 : Nat) : Int) - 24) := by omega
    rw [show 23 - 8 = 15 from rfl, this, hl]
    simp only [Nat.shiftRight_eq_div_pow]
    rw [Nat.mod_eq_of_lt (show E / 2 ^ 15 < 65536 by omega),
      Nat.mod_eq_of_lt (show E % 2 ^ 15 / 2 ^ 7 < 65536 by omega)]
    refine ⟨?_, ?_, ?_⟩
    · rw [val_snoc2]; omega
    · simp only [List.length_append, List.length_cons, List.length_nil]; omega
    · intro p hp
      rcases List.mem_append.1 hp with hp | hp
      · exact hdig p hp
      · simp only [List.mem_cons, List.not_mem_nil, or_false] at hp
        rcases hp with rfl | rfl <;> omega
  · have hl : doneLoop 3 E (k - 8) (10 + ((k : Int) - 24)) = [(E >>> (k - 8)) % 65536] := by
      unfold doneLoop
      rw [if_pos (by omega)]
    rw [hl]
    simp only [Nat.shiftRight_eq_div_pow, lastShift, if_neg h23]
    rw [Nat.mod_eq_of_lt (show E / 2 ^ (k - 8) < 65536 by omega)]
    refine ⟨?_, ?_, ?_⟩
    · rw [val_snoc]
      have e1 : 2 ^ k = 256 * 2 ^ (k - 8) := by
        rw [pow_split (show k = 8 + (k - 8) by omega)]; ring
      have hdiv : 2 ^ (k - 8) * (E / 2 ^ (k - 8)) = E := by
        apply Nat.mul_div_cancel'
        exact Nat.dvd_trans (Nat.pow_dvd_pow 2 (by omega : k - 8 ≤ 14)) (Nat.dvd_of_mod_eq_zero h14)
      rw [e1, Nat.add_mul, Nat.mul_comm (E / _), hdiv]
      congr 1
      rw [Nat.mul_comm 256, Nat.mul_assoc]
    · simp only [List.length_append, List.length_cons, List.length_nil]; omega
    · intro p hp
      rcases List.mem_append.1 hp with hp | hp
      · exact hdig p hp
      · simp only [List.mem_cons, List.not_mem_nil, or_false] at hp
        subst hp; omega

/-- Summary of what the finished bytes are: as a number, padded with `lastShift k` zero
bits, they equal `A - low + doneE low`, which lies in the final interval. -/
theorem done_spec {e : Enc} {i : Ideal} {k : Nat} (h : Rel e i k) :
    (∀ b ∈ e.done, b < 256) ∧ 8 * e.done.length + lastShift k = 15 + i.n ∧
    val e.done * 2 ^ lastShift k = val e.precarry * 2 ^ k + doneE e.low ∧
    i.A ≤ val e.done * 2 ^ lastShift k ∧ val e.done * 2 ^ lastShift k < i.A + i.R := by
  obtain ⟨h1, h2, h3⟩ := done_digits h
  obtain ⟨c1, c2, c3, c4⟩ := carry_spec h3
  have hb := doneE_bounds e.low
  have hA := h.A
  have hR := h.rlo
  have ht := h.top
  have hlen : e.done.length = e.doneDigits.length := c1
  have hval : val e.done = val e.doneDigits := by
    have hlt : val e.doneDigits < 256 ^ e.doneDigits.length := by
      have h256 : (256 : Nat) ^ e.doneDigits.length = 2 ^ (8 * e.doneDigits.length) := by
        rw [Nat.pow_mul]
      have : val e.doneDigits * 2 ^ lastShift k < 2 ^ (8 * e.doneDigits.length) * 2 ^ lastShift k := by
        rw [← Nat.pow_add, h2]; omega
      rw [h256]
      exact Nat.lt_of_mul_lt_mul_right this
    have hc0 : (carry e.doneDigits).2 = 0 := by
      rcases Nat.eq_zero_or_pos (carry e.doneDigits).2 with h0 | hp
      · exact h0
      · have := Nat.mul_le_mul_right (256 ^ e.doneDigits.length) hp
        omega
    rw [c4, hc0]; simp [Enc.done]
  refine ⟨c2, by rw [hlen]; exact h2, by rw [hval]; exact h1, ?_, ?_⟩
  · rw [hval, h1]; omega
  · rw [hval, h1]; omega

end Rav1e.Ec

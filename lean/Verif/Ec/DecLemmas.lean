import Mathlib.Tactic.IntervalCases
import Verif.Ec.Lemmas
/-
Helper lemmas about the specification's symbol decoder.
-/
namespace Rav1e.Ec
open Av1Spec

/-! ### Bit strings -/

theorem bitsVal_foldl (bs : List Bool) (a : Nat) :
    bs.foldl (fun a b => 2 * a + b.toNat) a = a * 2 ^ bs.length + bitsVal bs := by
  induction bs generalizing a with
  | nil => simp [bitsVal]
  | cons b bs ih =>
    have e : bitsVal (b :: bs) = b.toNat * 2 ^ bs.length + bitsVal bs := by
      unfold bitsVal; rw [List.foldl_cons, ih, ih]; simp
    rw [e, List.foldl_cons, ih, List.length_cons, Nat.pow_succ]; ring

theorem bitsVal_nil : bitsVal [] = 0 := rfl

theorem bitsVal_cons (b : Bool) (bs : List Bool) :
    bitsVal (b :: bs) = b.toNat * 2 ^ bs.length + bitsVal bs := by
  have := bitsVal_foldl bs (2 * 0 + b.toNat)
  simpa [bitsVal] using this

theorem bitsVal_append (as bs : List Bool) :
    bitsVal (as ++ bs) = bitsVal as * 2 ^ bs.length + bitsVal bs := by
  unfold bitsVal
  rw [List.foldl_append, bitsVal_foldl]
  rfl

theorem bitsVal_lt (bs : List Bool) : bitsVal bs < 2 ^ bs.length := by
  induction bs with
  | nil => simp [bitsVal]
  | cons b bs ih =>
    rw [bitsVal_cons, List.length_cons, Nat.pow_succ]
    cases b <;> simp <;> omega

theorem bits_length (bs : List Nat) : (bits bs).length = 8 * bs.length := by
  induction bs with
  | nil => rfl
  | cons b bs ih =>
    have : bits (b :: bs) = byteBits b ++ bits bs := rfl
    rw [this, List.length_append, ih, List.length_cons]
    simp only [byteBits, List.length_cons, List.length_nil]; omega

theorem byteBits_val : ∀ b : Nat, b < 256 → bitsVal (byteBits b) = b := by decide +kernel

theorem bits_val {bs : List Nat} (h : ∀ b ∈ bs, b < 256) : bitsVal (bits bs) = val bs := by
  induction bs with
  | nil => rfl
  | cons b bs ih =>
    have : bits (b :: bs) = byteBits b ++ bits bs := rfl
    rw [this, bitsVal_append, byteBits_val b (h b (by simp)), ih (fun c hc => h c (by simp [hc])),
      val_cons, bits_length, Nat.pow_mul]

/-- The first `m` bits of `bs` followed by zeros, as a number. -/
def xval (bs : List Bool) (m : Nat) : Nat := bitsVal (bs.take m) * 2 ^ (m - bs.length)

/-- The `d` bits at position `m`, zero padded. -/
def xnew (bs : List Bool) (m d : Nat) : Nat :=
  bitsVal ((bs.drop m).take d) * 2 ^ (d - (bs.length - m))

theorem xval_lt (bs : List Bool) (m : Nat) : xval bs m < 2 ^ m := by
  unfold xval
  have h := bitsVal_lt (bs.take m)
  rw [List.length_take] at h
  have : 2 ^ m = 2 ^ (min m bs.length) * 2 ^ (m - bs.length) := by
    rw [← Nat.pow_add]; congr 1; omega
  rw [this]
  exact Nat.mul_lt_mul_of_pos_right h (Nat.two_pow_pos _)

theorem xnew_lt (bs : List Bool) (m d : Nat) : xnew bs m d < 2 ^ d := by
  have := xval_lt (bs.drop m) d
  unfold xval at this
  rw [List.length_drop] at this
  exact this

theorem xval_add (bs : List Bool) (m d : Nat) :
    xval bs (m + d) = xval bs m * 2 ^ d + xnew bs m d := by
  unfold xval xnew
  rw [List.take_add, bitsVal_append, List.length_take, List.length_drop]
  have e1 : 2 ^ (m + d - bs.length) * 2 ^ (min d (bs.length - m)) =
      2 ^ (m - bs.length) * 2 ^ d := by
    rw [← Nat.pow_add, ← Nat.pow_add]; congr 1; omega
  by_cases h : m ≤ bs.length
  · have e2 : m + d - bs.length = d - (bs.length - m) := by omega
    rw [← e2, Nat.add_mul, Nat.mul_assoc, Nat.mul_comm (2 ^ min d _), e1]; ring
  · have : bs.drop m = [] := List.drop_eq_nil_of_le (by omega)
    rw [this]
    simp only [List.take_nil, bitsVal_nil, Nat.zero_mul, Nat.add_zero]
    rw [Nat.mul_assoc, Nat.mul_comm (2 ^ min d _), e1, Nat.mul_assoc]

theorem xval_zero (bs : List Bool) : xval bs 0 = 0 := by simp [xval, bitsVal]

/-- Reading all bits and more: the whole number shifted. -/
theorem xval_all (bs : List Bool) (m : Nat) (h : bs.length ≤ m) :
    xval bs m = bitsVal bs * 2 ^ (m - bs.length) := by
  unfold xval; rw [List.take_of_length_le h]

/-! ### XOR with all-ones -/

theorem xor_ones {a n : Nat} (h : a < 2 ^ n) : (2 ^ n - 1) ^^^ a = 2 ^ n - 1 - a := by
  apply Nat.eq_of_testBit_eq
  intro j
  have : 2 ^ n - 1 - a = 2 ^ n - (a + 1) := by omega
  rw [this, Nat.testBit_two_pow_sub_succ h, Nat.testBit_xor, Nat.testBit_two_pow_sub_one]
  by_cases hj : j < n
  · simp [hj]
  · have ha : a.testBit j = false :=
      Nat.testBit_lt_two_pow (Nat.lt_of_lt_of_le h (Nat.pow_le_pow_right (by decide) (by omega)))
    simp [hj, ha]

theorem xor_shift {a w d : Nat} (h : a < 2 ^ d) :
    a ^^^ (((w + 1) <<< d) - 1) = (w + 1) * 2 ^ d - 1 - a := by
  have e : ((w + 1) <<< d) - 1 = 2 ^ d * w + (2 ^ d - 1) := by
    rw [Nat.shiftLeft_eq, Nat.add_mul, Nat.mul_comm w]
    have := Nat.two_pow_pos d
    omega
  rw [e]
  have e2 : (w + 1) * 2 ^ d - 1 - a = 2 ^ d * w + (2 ^ d - 1 - a) := by
    rw [Nat.add_mul, Nat.mul_comm w]
    have := Nat.two_pow_pos d
    omega
  rw [e2, ← xor_ones h]
  have hp := Nat.two_pow_pos d
  apply Nat.eq_of_testBit_eq
  intro j
  have hx : (2 ^ d - 1) ^^^ a < 2 ^ d := Nat.xor_lt_two_pow (by omega) h
  rw [Nat.testBit_xor, Nat.testBit_two_pow_mul_add _ (by omega : 2 ^ d - 1 < 2 ^ d),
    Nat.testBit_two_pow_mul_add _ hx]
  by_cases hj : j < d
  · simp only [hj, if_true, Nat.testBit_xor]
    exact Bool.xor_comm _ _
  · have ha : a.testBit j = false :=
      Nat.testBit_lt_two_pow (Nat.lt_of_lt_of_le h (Nat.pow_le_pow_right (by decide) (by omega)))
    simp [hj, ha]

/-! ### CDF formats -/

/-- Translate rav1e's inverse CDF (`32768 - cumulative`, last element the counter) to the
specification's format (cumulative values, then 32768, then the counter). -/
def toSpec (c : List Nat) : List Nat :=
  c.dropLast.map (fun v => 32768 - v) ++ [32768, c.getD (c.length - 1) 0]

theorem toSpec_length {c : List Nat} (h : 1 ≤ c.length) : (toSpec c).length = c.length + 1 := by
  simp [toSpec]; omega

/-- The cumulative entries of the specification's format. -/
def specVals (c : List Nat) : List Nat := c.dropLast.map (fun v => 32768 - v) ++ [32768]

theorem toSpec_take {c : List Nat} (h : 1 ≤ c.length) :
    (toSpec c).take ((toSpec c).length - 1) = specVals c := by
  rw [toSpec_length h]
  have : toSpec c = specVals c ++ [c.getD (c.length - 1) 0] := by simp [toSpec, specVals]
  rw [this, List.take_append_of_le_length (by simp [specVals]; omega)]
  apply List.take_of_length_le
  simp [specVals]; omega

theorem specVals_length {c : List Nat} (h : 1 ≤ c.length) : (specVals c).length = c.length := by
  simp [specVals]; omega

/-- The boundary the decoder computes for symbol `i` equals the encoder's. -/
def cur (range n c i : Nat) : Nat :=
  ((((range >>> 8) * (((1 <<< 15) - c) >>> 6)) >>> (7 - 6)) + 4 * (n - i - 1))

theorem cur_eq {c : List Nat} (hc : ValidCdf c) {i : Nat} (hi : i < c.length) (range : Nat) :
    cur range c.length ((specVals c).getD i 0) i = bndV range c i := by
  have h2 := hc.two_le
  unfold cur bndV scaled EC_PROB_SHIFT EC_MIN_PROB
  by_cases hl : i = c.length - 1
  · have e1 : (specVals c).getD i 0 = 32768 := by
      unfold specVals
      rw [List.getD_eq_getElem?_getD, List.getElem?_append_right (by simp; omega)]
      simp [hl]
    rw [e1]
    have := count_shr hc.count
    rw [← hl] at this
    rw [this]
    simp
  · have e1 : (specVals c).getD i 0 = 32768 - c.getD i 0 := by
      unfold specVals
      rw [List.getD_eq_getElem?_getD, List.getElem?_append_left (by simp; omega)]
      simp only [List.getD_eq_getElem?_getD, List.getElem?_map, List.getElem?_dropLast]
      rw [if_pos (by omega)]
      rw [List.getElem?_eq_getElem hi]; simp
    have := hc.lt i (by omega)
    rw [e1]
    have e2 : (1 <<< 15) - (32768 - c.getD i 0) = c.getD i 0 := by
      simp only [Nat.shiftLeft_eq]; omega
    rw [e2]

theorem decodeLoop_spec (range value n : Nat) (k : Nat) : ∀ (cs : List Nat) (i prev : Nat),
    k < cs.length →
    (∀ j, j < k → value < cur range n (cs.getD j 0) (i + j)) →
    ¬ value < cur range n (cs.getD k 0) (i + k) →
    decodeLoop range value n cs i prev =
      (i + k, if k = 0 then prev else cur range n (cs.getD (k - 1) 0) (i + k - 1),
        cur range n (cs.getD k 0) (i + k)) := by
  induction k with
  | zero =>
    intro cs i prev hk _ h2
    match cs, hk with
    | c :: cs, _ =>
      simp only [List.getD_cons_zero, Nat.add_zero] at h2
      unfold cur at h2
      simp only [decodeLoop, if_neg h2]
      simp [cur]
  | succ k ih =>
    intro cs i prev hk h1 h2
    match cs, hk with
    | c :: cs, hk =>
      have h0 := h1 0 (by omega)
      simp only [List.getD_cons_zero, Nat.add_zero] at h0
      unfold cur at h0
      simp only [decodeLoop, if_pos h0]
      rw [ih cs (i + 1) _ (by simpa using hk)]
      · simp only [Nat.add_one_sub_one, List.getD_cons_succ]
        rw [show i + 1 + k = i + (k + 1) by omega]
        refine Prod.ext rfl (Prod.ext ?_ rfl)
        simp only [Nat.add_one_ne_zero, if_false]
        cases k with
        | zero => simp [cur]
        | succ k => simp
      · intro j hj
        have := h1 (j + 1) (by omega)
        rw [List.getD_cons_succ, show i + (j + 1) = i + 1 + j by omega] at this
        exact this
      · rw [List.getD_cons_succ, show i + (k + 1) = i + 1 + k by omega] at h2
        exact h2

/-- If the decoder's value lies in the sub-interval of symbol `x.s`, the decoder finds it. -/
theorem decodeLoop_sym {x : Sym} (hx : x.Valid) {range value : Nat} (hr : 32768 ≤ range)
    (h1 : bndV range x.cdf x.s ≤ value) (h2 : value < bndU range x.cdf x.s) :
    decodeLoop range value ((toSpec x.cdf).length - 1)
      ((toSpec x.cdf).take ((toSpec x.cdf).length - 1)) 0 range =
      (x.s, bndU range x.cdf x.s, bndV range x.cdf x.s) := by
  have hl2 := hx.cdf.two_le
  have hlt := hx.lt
  rw [toSpec_take (by omega), toSpec_length (by omega), Nat.add_sub_cancel]
  rw [decodeLoop_spec range value _ x.s _ 0 range (by rw [specVals_length (by omega)]; exact hlt)]
  · rw [Nat.zero_add, cur_eq hx.cdf hlt]
    refine Prod.ext rfl (Prod.ext ?_ rfl)
    simp only
    by_cases h0 : x.s = 0
    · simp [h0, bndU]
    · rw [if_neg h0, cur_eq hx.cdf (by omega), ← bndU_succ, show x.s - 1 + 1 = x.s by omega]
  · intro j hj
    rw [Nat.zero_add, cur_eq hx.cdf (by omega), ← bndU_succ]
    exact Nat.lt_of_lt_of_le h2 (bndU_anti hx.cdf hr (by omega) hlt)
  · rw [Nat.zero_add, cur_eq hx.cdf hlt]; omega

/-! ### The decoder tracks the idealised coder -/

/-- Decoder state after reading `15 + i.n` (zero padded) bits of `bs`. -/
structure DRel (bs : List Bool) (d : Dec) (i : Ideal) : Prop where
  rest : d.rest = bs.drop (15 + i.n)
  range : d.range = i.R
  maxBits : d.maxBits = (bs.length : Int) - ((15 + i.n : Nat) : Int)
  value : d.value + 1 + xval bs (15 + i.n) = i.A + i.R
  rlo : 32768 ≤ i.R
  rhi : i.R < 65536

theorem drel_init (bs : List Nat) : DRel (bits bs) (Dec.init bs) Ideal.new := by
  have hl := bits_length bs
  have hx := xval_lt (bits bs) 15
  refine ⟨?_, rfl, ?_, ?_, by simp [Ideal.new], by simp [Ideal.new]⟩
  · simp only [Dec.init, Ideal.new]
    by_cases h : 15 ≤ bs.length * 8
    · rw [Nat.min_eq_right h]
    · rw [Nat.min_eq_left (by omega), List.drop_eq_nil_of_le (by omega),
        List.drop_eq_nil_of_le (by omega)]
  · simp only [Dec.init, Ideal.new]; omega
  · have e : bitsVal ((bits bs).take (min (bs.length * 8) 15)) <<< (15 - min (bs.length * 8) 15) =
        xval (bits bs) 15 := by
      rw [Nat.shiftLeft_eq]
      unfold xval
      by_cases h : 15 ≤ bs.length * 8
      · rw [Nat.min_eq_right h]; congr 2; omega
      · rw [Nat.min_eq_left (by omega), List.take_of_length_le (by omega),
          List.take_of_length_le (by omega)]
        congr 2; omega
    simp only [Dec.init, Ideal.new]
    rw [e]
    have := xor_ones hx
    have h15 : (1 <<< 15) - 1 = 2 ^ 15 - 1 := rfl
    rw [h15, this]
    simp only [Nat.add_zero]
    omega

/-- One decoding step: if the stream lies in the interval of the coded symbol, the decoder
returns the symbol and keeps tracking. -/
theorem drel_step {bs : List Bool} {d : Dec} {i : Ideal} (h : DRel bs d i) {x : Sym}
    (hx : x.Valid)
    (hlo : i.A + (i.R - bndU i.R x.cdf x.s) ≤ xval bs (15 + i.n))
    (hhi : xval bs (15 + i.n) < i.A + (i.R - bndV i.R x.cdf x.s)) :
    (d.symbol (toSpec x.cdf)).1 = x.s ∧ DRel bs (d.symbol (toSpec x.cdf)).2 (i.symbol x) := by
  obtain ⟨hrest, hrange, hmax, hval, hrlo, hrhi⟩ := h
  have hb := bnd_lt hx.cdf hrlo hx.lt
  have hu := bndU_le hx.cdf hrlo hx.lt
  have hloop := decodeLoop_sym hx (range := i.R) (value := d.value) hrlo (by omega) (by omega)
  simp only [Dec.symbol, hrange, hloop]
  refine ⟨trivial, ?_⟩
  generalize hU : bndU i.R x.cdf x.s = u at *
  generalize hV : bndV i.R x.cdf x.s = v at *
  obtain ⟨r, hr⟩ : ∃ r, r = u - v := ⟨_, rfl⟩
  have hr0 : 0 < r := by omega
  have hr16 : r < 65536 := by omega
  have hc := clz16_spec hr0 hr16
  have hclz : 15 - r.log2 = clz16 r := by unfold clz16; rw [if_neg (by omega)]
  rw [← hr, hclz]
  generalize hd : clz16 r = dd at *
  have hsym : i.symbol x = ⟨(i.A + (i.R - u)) * 2 ^ dd, r * 2 ^ dd, i.n + dd⟩ := by
    simp only [Ideal.symbol, hU, hV, ← hr, hd]
  rw [hsym]
  have hnb : d.maxBits.toNat = bs.length - (15 + i.n) := by omega
  rw [hnb, hrest]
  have hnew : bitsVal ((bs.drop (15 + i.n)).take (min dd (bs.length - (15 + i.n)))) <<<
      (dd - min dd (bs.length - (15 + i.n))) = xnew bs (15 + i.n) dd := by
    rw [Nat.shiftLeft_eq]
    unfold xnew
    by_cases hle : dd ≤ bs.length - (15 + i.n)
    · rw [Nat.min_eq_left hle]; congr 2; omega
    · rw [Nat.min_eq_right (by omega)]
      rw [List.take_of_length_le (by simp), List.take_of_length_le (by simp; omega)]
  rw [hnew]
  have hxl := xnew_lt bs (15 + i.n) dd
  have hxa := xval_add bs (15 + i.n) dd
  have h3 : 15 + (i.n + dd) = 15 + i.n + dd := by omega
  refine ⟨?_, ?_, ?_, ?_, hc.2.1, hc.2.2⟩
  · simp only
    rw [List.drop_drop, h3]
    by_cases hle : dd ≤ bs.length - (15 + i.n)
    · rw [Nat.min_eq_left hle]
    · rw [List.drop_eq_nil_of_le (by omega), List.drop_eq_nil_of_le (by omega)]
  · simp only; rw [Nat.shiftLeft_eq]
  · simp only; omega
  · simp only
    rw [xor_shift hxl, h3, hxa]
    have hw : d.value - v + 1 + xval bs (15 + i.n) = i.A + (i.R - u) + r := by omega
    have hm : (d.value - v + 1) * 2 ^ dd + xval bs (15 + i.n) * 2 ^ dd =
        (i.A + (i.R - u)) * 2 ^ dd + r * 2 ^ dd := by
      rw [← Nat.add_mul, ← Nat.add_mul, hw]
    have hge : 2 ^ dd ≤ (d.value - v + 1) * 2 ^ dd := Nat.le_mul_of_pos_left _ (by omega)
    omega

/-- Being in the interval after a step implies being in the symbol's sub-interval before. -/
theorem in_step {bs : List Bool} {i : Ideal} {x : Sym} (hx : x.Valid) (hrlo : 32768 ≤ i.R)
    (h1 : (i.symbol x).A ≤ xval bs (15 + (i.symbol x).n))
    (h2 : xval bs (15 + (i.symbol x).n) < (i.symbol x).A + (i.symbol x).R) :
    i.A + (i.R - bndU i.R x.cdf x.s) ≤ xval bs (15 + i.n) ∧
    xval bs (15 + i.n) < i.A + (i.R - bndV i.R x.cdf x.s) := by
  have hb := bnd_lt hx.cdf hrlo hx.lt
  have hu := bndU_le hx.cdf hrlo hx.lt
  simp only [Ideal.symbol] at h1 h2
  generalize bndU i.R x.cdf x.s = u at *
  generalize bndV i.R x.cdf x.s = v at *
  generalize clz16 (u - v) = d at *
  rw [← Nat.add_assoc, xval_add] at h1 h2
  have hxl := xnew_lt bs (15 + i.n) d
  constructor
  · by_contra hlt
    have : (xval bs (15 + i.n) + 1) * 2 ^ d ≤ (i.A + (i.R - u)) * 2 ^ d :=
      Nat.mul_le_mul_right _ (by omega)
    rw [Nat.add_mul] at this
    omega
  · by_contra hge
    have : (i.A + (i.R - u) + (u - v)) * 2 ^ d ≤ xval bs (15 + i.n) * 2 ^ d :=
      Nat.mul_le_mul_right _ (by omega)
    rw [Nat.add_mul] at this
    omega

theorem ideal_range {i : Ideal} {x : Sym} (hx : x.Valid) (hrlo : 32768 ≤ i.R)
    (hrhi : i.R < 65536) : 32768 ≤ (i.symbol x).R ∧ (i.symbol x).R < 65536 := by
  have hb := bnd_lt hx.cdf hrlo hx.lt
  have hu := bndU_le hx.cdf hrlo hx.lt
  have := clz16_spec (r := bndU i.R x.cdf x.s - bndV i.R x.cdf x.s) (by omega) (by omega)
  exact this.2

theorem in_symbols {bs : List Bool} {i : Ideal} {xs : List Sym} (hx : ∀ x ∈ xs, x.Valid)
    (hrlo : 32768 ≤ i.R) (hrhi : i.R < 65536)
    (h1 : (i.symbols xs).A ≤ xval bs (15 + (i.symbols xs).n))
    (h2 : xval bs (15 + (i.symbols xs).n) < (i.symbols xs).A + (i.symbols xs).R) :
    i.A ≤ xval bs (15 + i.n) ∧ xval bs (15 + i.n) < i.A + i.R := by
  induction xs generalizing i with
  | nil => exact ⟨h1, h2⟩
  | cons x xs ih =>
    have hxv := hx x (by simp)
    have hr := ideal_range hxv hrlo hrhi
    have := ih (i := i.symbol x) (fun y hy => hx y (by simp [hy])) hr.1 hr.2 h1 h2
    have := in_step hxv hrlo this.1 this.2
    omega

/-- Decoding a whole sequence. -/
theorem drel_symbols {bs : List Bool} {d : Dec} {i : Ideal} (h : DRel bs d i) {xs : List Sym}
    (hx : ∀ x ∈ xs, x.Valid)
    (h1 : (i.symbols xs).A ≤ xval bs (15 + (i.symbols xs).n))
    (h2 : xval bs (15 + (i.symbols xs).n) < (i.symbols xs).A + (i.symbols xs).R) :
    (d.symbols (xs.map fun x => toSpec x.cdf)).1 = xs.map (·.s) ∧
    DRel bs (d.symbols (xs.map fun x => toSpec x.cdf)).2 (i.symbols xs) := by
  induction xs generalizing i d with
  | nil => exact ⟨rfl, h⟩
  | cons x xs ih =>
    have hxv := hx x (by simp)
    have hxs : ∀ y ∈ xs, y.Valid := fun y hy => hx y (by simp [hy])
    have hr := ideal_range hxv h.rlo h.rhi
    have hin := in_symbols (i := i.symbol x) hxs hr.1 hr.2 h1 h2
    have hst := in_step hxv h.rlo hin.1 hin.2
    obtain ⟨s1, s2⟩ := drel_step h hxv hst.1 hst.2
    obtain ⟨t1, t2⟩ := ih s2 hxs h1 h2
    simp only [List.map_cons, Dec.symbols]
    exact ⟨by rw [s1, t1], t2⟩

end Rav1e.Ec

import Mathlib.Data.List.Sort
import Mathlib.Data.List.GetD
import Mathlib.Algebra.Order.BigOperators.Group.List
import Mathlib.Algebra.BigOperators.Group.List.Basic
import Mathlib.Tactic.Ring
import Mathlib.Tactic.Linarith
/-
C42: the one-dimensional k-means clustering of `util/kmeans.rs`, used to choose segments.

The element type `T` is an integer type with the range `[tmin, tmax]`. `unwrap_unchecked` on a conversion that
does not fit and `get_unchecked` out of bounds are undefined behaviour in the code: the model gives `none`
there. The four parallel arrays `means`, `low`, `high`, `sum` are one list of clusters. Sums are unbounded
integers here and `i64` in the code: with 16-bit elements they fit as long as the slice has fewer than 2^47
elements.
-/
namespace Rav1e.Kmeans

/-- Entry `i` of `means`, `low`, `high` and `sum`, `util/kmeans.rs:20-28`. -/
structure Cluster where
  m : Int
  low : Nat
  high : Nat
  sum : Int
  deriving DecidableEq, Repr

/-- `data[..n].iter().rev().take_while(p)`, each element with the given sign added to the sum:
`util/kmeans.rs:79-82`, `96-99`. -/
def down (p : Int → Bool) (sgn : Int) (data : List Int) : Nat → Int → Nat × Int
  | 0, s => (0, s)
  | n + 1, s =>
    if p (data.getD n 0) then down p sgn data n (s + sgn * data.getD n 0) else (n + 1, s)

/-- `data[n..].iter().take_while(p)`, on the rest of the data: `util/kmeans.rs:83-86`, `92-95`. -/
def up (p : Int → Bool) (sgn : Int) : List Int → Nat → Int → Nat × Int
  | [], n, s => (n, s)
  | d :: ds, n, s => if p d then up p sgn ds (n + 1) (s + sgn * d) else (n, s)

/-- The first half of `scan`, `util/kmeans.rs:77-88`: the end of the lower cluster. -/
def scanHigh (data : List Int) (t : Int) (n : Nat) (s : Int) : Option (Nat × Int) :=
  if n ≤ data.length then
    let (n, s) := down (fun d => t < d) (-1) data n s
    some (up (fun d => d ≤ t) 1 (data.drop n) n s)
  else none

/-- The second half of `scan`, `util/kmeans.rs:90-101`: the start of the upper cluster. -/
def scanLow (data : List Int) (t : Int) (n : Nat) (s : Int) : Option (Nat × Int) :=
  if n ≤ data.length then
    let (n, s) := up (fun d => d < t) (-1) (data.drop n) n s
    some (down (fun d => t ≤ d) 1 data n s)
  else none

/-- A conversion to `T`. -/
def conv (tmin tmax v : Int) : Option Int := if tmin ≤ v ∧ v ≤ tmax then some v else none

/-- The loop over the thresholds, `util/kmeans.rs:33-43`: `c` is the lower cluster of the next threshold.
The shift right by one is a division that rounds down. -/
def pass (tmin tmax : Int) (data : List Int) (c : Cluster) : List Cluster → Option (List Cluster)
  | [] => some [c]
  | c' :: rest => do
    let t ← conv tmin tmax ((c'.m + c.m + 1) / 2)
    let (h, s) ← scanHigh data t c.high c.sum
    let (l, s') ← scanLow data t c'.low c'.sum
    let r ← pass tmin tmax data { c' with low := l, sum := s' } rest
    some ({ c with high := h, sum := s } :: r)

/-- The new mean of a cluster, `util/kmeans.rs:48-58`. The subtraction of the `usize` values panics below
zero; the division truncates towards zero. -/
def newMean (tmin tmax : Int) (c : Cluster) : Option Cluster :=
  if c.high < c.low then none
  else
    let count : Nat := c.high - c.low
    if count = 0 then some c
    else (conv tmin tmax ((c.sum + (count / 2 : Nat)).tdiv count)).map fun m => { c with m }

/-- `for _ in 0..limit`, `util/kmeans.rs:32-63`. -/
def iterate (tmin tmax : Int) (data : List Int) : Nat → List Cluster → Option (List Cluster)
  | 0, cs => some cs
  | n + 1, cs =>
    match cs with
    | [] => some []
    | c :: rest => do
      let cs1 ← pass tmin tmax data c rest
      let cs2 ← cs1.mapM (newMean tmin tmax)
      if cs2.map Cluster.m = (c :: rest).map Cluster.m then some cs2 else iterate tmin tmax data n cs2

/-- The clusters before the loop, `util/kmeans.rs:20-28`. -/
def start (data : List Int) (k : Nat) : List Cluster :=
  (List.range k).map fun i =>
    let l := i * (data.length - 1) / (k - 1)
    let m := data.getD l 0
    if i = k - 1 then { m, low := l, high := data.length, sum := m } else { m, low := l, high := l, sum := 0 }

/-- `kmeans::<T, K>`, `util/kmeans.rs:11-66`. Without data or with `K` one, an operation panics. The limit is
twice the number of bits of the length. -/
def kmeans (tmin tmax : Int) (k : Nat) (data : List Int) : Option (List Int) :=
  if data.length = 0 ∨ k ≤ 1 then none
  else (iterate tmin tmax data (2 * (Nat.log2 data.length + 1)) (start data k)).map fun cs => cs.map Cluster.m

/-! ## Rounding -/

theorem tdiv_le {x c u : Int} (hc : 0 < c) (h : x ≤ c * u) : x.tdiv c ≤ u := by
  rcases le_or_gt 0 x with hx | hx
  · rw [Int.tdiv_eq_ediv_of_nonneg hx]
    exact Int.ediv_le_of_le_mul hc (by rw [mul_comm]; exact h)
  · obtain ⟨y, rfl⟩ : ∃ y, x = -y := ⟨-x, by ring⟩
    rw [Int.neg_tdiv, Int.tdiv_eq_ediv_of_nonneg (by omega)]
    have : -u ≤ y / c := (Int.le_ediv_iff_mul_le hc).2 (by linarith [mul_comm c u])
    omega

theorem tdiv_le_of_lt {x c u : Int} (hc : 0 < c) (hu : 0 ≤ u) (h : x < c * (u + 1)) : x.tdiv c ≤ u := by
  rcases le_or_gt 0 x with hx | hx
  · rw [Int.tdiv_eq_ediv_of_nonneg hx]
    have : x / c < u + 1 := (Int.ediv_lt_iff_lt_mul hc).2 (by linarith [mul_comm c (u + 1)])
    omega
  · exact tdiv_le hc (by nlinarith)

theorem le_tdiv {x c u : Int} (hc : 0 < c) (h : c * u ≤ x) : u ≤ x.tdiv c := by
  have := tdiv_le (x := -x) (u := -u) hc (by linarith [mul_neg c u])
  rw [Int.neg_tdiv] at this
  omega

theorem lt_tdiv {x c u : Int} (hc : 0 < c) (hu : u < 0) (h : c * u < x) : u + 1 ≤ x.tdiv c := by
  have := tdiv_le_of_lt (x := -x) (u := -u - 1) hc (by omega) (by linarith [mul_neg c u, show c * (-u - 1 + 1) = -(c * u) by ring])
  rw [Int.neg_tdiv] at this
  omega

/-- The rounded mean of `c` numbers with sum `S`. -/
def rmean (S : Int) (c : Nat) : Int := (S + (c / 2 : Nat)).tdiv c

theorem rmean_le_nonneg {S u : Int} {c : Nat} (hc : 0 < c) (h : S ≤ c * u) (hu : 0 ≤ u) : rmean S c ≤ u := by
  apply tdiv_le_of_lt (by omega) hu
  have : (c : Int) * (u + 1) = c * u + c := by ring
  rw [this]
  have : c / 2 < c := Nat.div_lt_self hc (by omega)
  generalize (c : Int) * u = z at *
  omega

theorem rmean_le_succ {S u : Int} {c : Nat} (hc : 0 < c) (h : S ≤ c * u) : rmean S c ≤ u + 1 := by
  apply tdiv_le (by omega)
  have : (c : Int) * (u + 1) = c * u + c := by ring
  rw [this]
  generalize (c : Int) * u = z at *
  omega

theorem rmean_le_special {S u : Int} {c : Nat} (hc : 0 < c) (h : S ≤ c * u - (c - 1)) : rmean S c ≤ u := by
  apply tdiv_le (by omega)
  generalize (c : Int) * u = z at *
  omega

theorem le_rmean {S u : Int} {c : Nat} (hc : 0 < c) (h : c * u ≤ S) : u ≤ rmean S c := by
  apply le_tdiv (by omega)
  generalize (c : Int) * u = z at *
  omega

theorem succ_le_rmean {S u : Int} {c : Nat} (hc : 2 ≤ c) (hu : u < 0) (h : c * u ≤ S) : u + 1 ≤ rmean S c := by
  apply lt_tdiv (by omega) hu
  generalize (c : Int) * u = z at *
  omega

/-! ## Slices of the data -/

/-- The sum of the elements from `a` up to but not including `b`. -/
def slice (data : List Int) (a b : Nat) : List Int := (data.take b).drop a

/-- Sum of the first `n`. -/
def pre (data : List Int) (n : Nat) : Int := (data.take n).sum

theorem pre_succ {data : List Int} {n : Nat} (h : n < data.length) : pre data (n + 1) = pre data n + data[n] := by
  rw [pre, pre, List.take_succ_eq_append_getElem h, List.sum_append, List.sum_singleton]

theorem slice_sum {data : List Int} {a b : Nat} (h : a ≤ b) : (slice data a b).sum = pre data b - pre data a := by
  have h1 : (data.take b) = (data.take b).take a ++ (data.take b).drop a := (List.take_append_drop _ _).symm
  have h2 : (data.take b).take a = data.take a := by rw [List.take_take, Nat.min_eq_left h]
  have h3 : pre data b = pre data a + (slice data a b).sum := by
    unfold pre slice
    conv_lhs => rw [h1]
    rw [List.sum_append, h2]
  omega

theorem slice_length {data : List Int} {a b : Nat} (h : b ≤ data.length) : (slice data a b).length = b - a := by
  simp [slice, Nat.min_eq_left h]

theorem mem_slice {data : List Int} {a b : Nat} {d : Int} :
    d ∈ slice data a b ↔ ∃ k, a ≤ k ∧ k < b ∧ data[k]? = some d := by
  rw [slice, List.mem_iff_getElem?]
  constructor
  · rintro ⟨k, hk⟩
    rw [List.getElem?_drop, List.getElem?_take] at hk
    split_ifs at hk with h
    exact ⟨a + k, by omega, h, hk⟩
  · rintro ⟨k, h1, h2, h3⟩
    exact ⟨k - a, by rw [List.getElem?_drop, show a + (k - a) = k by omega, List.getElem?_take, if_pos h2]; exact h3⟩

theorem sum_le {l : List Int} {u : Int} (h : ∀ d ∈ l, d ≤ u) : l.sum ≤ l.length * u := by
  induction l with
  | nil => simp
  | cons d l ih =>
    have h1 := h d (by simp)
    have h2 := ih (fun x hx => h x (by simp [hx]))
    rw [List.sum_cons, List.length_cons]; push_cast; linarith [add_mul (l.length : Int) 1 u]

theorem le_sum {l : List Int} {u : Int} (h : ∀ d ∈ l, u ≤ d) : l.length * u ≤ l.sum := by
  induction l with
  | nil => simp
  | cons d l ih =>
    have h1 := h d (by simp)
    have h2 := ih (fun x hx => h x (by simp [hx]))
    rw [List.sum_cons, List.length_cons]; push_cast; linarith [add_mul (l.length : Int) 1 u]

/-! ## The scans find the cuts -/

/-- The first `n` elements satisfy `p`, the others do not. -/
structure Cut (data : List Int) (p : Int → Prop) (n : Nat) : Prop where
  le : n ≤ data.length
  before : ∀ k d, k < n → data[k]? = some d → p d
  after : ∀ k d, n ≤ k → data[k]? = some d → ¬ p d

theorem cut_mono {data : List Int} {p q : Int → Prop} {a b : Nat} (ha : Cut data p a) (hb : Cut data q b)
    (h : ∀ d, p d → q d) : a ≤ b := by
  by_contra hcon
  have hl := ha.le
  have hb' : b < data.length := by omega
  have h1 := ha.before b _ (by omega) (List.getElem?_eq_getElem hb')
  exact hb.after b _ le_rfl (List.getElem?_eq_getElem hb') (h _ h1)

/-- Sorted. -/
def Sorted (data : List Int) : Prop :=
  ∀ (i j : Nat) (a b : Int), i ≤ j → data[i]? = some a → data[j]? = some b → a ≤ b

theorem down_ok (p : Int → Bool) (sgn : Int) (data : List Int) (n : Nat) (s : Int) (hn : n ≤ data.length) :
    ∃ n', down p sgn data n s = (n', s + sgn * (pre data n - pre data n')) ∧ n' ≤ n ∧
      (∀ k d, n' ≤ k → k < n → data[k]? = some d → p d = true) ∧
      (n' = 0 ∨ ∃ d, data[n' - 1]? = some d ∧ p d = false) := by
  induction n generalizing s with
  | zero => exact ⟨0, by simp [down], le_rfl, by intros; omega, Or.inl rfl⟩
  | succ n ih =>
    have hl : n < data.length := by omega
    have hg : data.getD n 0 = data[n] := by rw [List.getD_eq_getElem?_getD, List.getElem?_eq_getElem hl]; rfl
    rw [down, hg]
    by_cases hp : p data[n] = true
    · rw [if_pos hp]
      obtain ⟨n', h1, h2, h3, h4⟩ := ih (s + sgn * data[n]) (by omega)
      refine ⟨n', ?_, by omega, ?_, h4⟩
      · rw [h1, pre_succ hl]; congr 1; ring
      · intro k d hk1 hk2 hk
        rcases Nat.lt_or_ge k n with h | h
        · exact h3 k d hk1 h hk
        · have : k = n := by omega
          subst this
          rw [List.getElem?_eq_getElem hl, Option.some.injEq] at hk
          subst hk; exact hp
    · rw [if_neg hp]
      refine ⟨n + 1, by simp, le_rfl, by intros; omega, Or.inr ⟨data[n], ?_, ?_⟩⟩
      · rw [Nat.add_sub_cancel]; exact List.getElem?_eq_getElem hl
      · simpa using hp

theorem up_ok (p : Int → Bool) (sgn : Int) (data : List Int) (l : List Int) (n : Nat) (s : Int)
    (hl : l = data.drop n) (hn : n ≤ data.length) :
    ∃ n', up p sgn l n s = (n', s + sgn * (pre data n' - pre data n)) ∧ n ≤ n' ∧ n' ≤ data.length ∧
      (∀ k d, n ≤ k → k < n' → data[k]? = some d → p d = true) ∧
      (n' = data.length ∨ ∃ d, data[n']? = some d ∧ p d = false) := by
  induction l generalizing n s with
  | nil =>
    have : data.length ≤ n := by
      by_contra h
      have := congrArg List.length hl
      rw [List.length_drop] at this; simp at this; omega
    exact ⟨n, by simp [up], le_rfl, hn, by intros; omega, Or.inl (by omega)⟩
  | cons d ds ih =>
    have hlt : n < data.length := by
      have := congrArg List.length hl
      rw [List.length_drop] at this; simp at this; omega
    rw [List.drop_eq_getElem_cons hlt, List.cons.injEq] at hl
    obtain ⟨h1, h2⟩ := hl
    rw [up]
    by_cases hp : p d = true
    · rw [if_pos hp]
      obtain ⟨n', e1, e2, e3, e4, e5⟩ := ih (n + 1) (s + sgn * d) h2 (by omega)
      refine ⟨n', ?_, by omega, e3, ?_, e5⟩
      · rw [e1, pre_succ hlt, ← h1]; congr 1; ring
      · intro k x hk1 hk2 hk
        rcases Nat.lt_or_ge n k with h | h
        · exact e4 k x (by omega) hk2 hk
        · have : k = n := by omega
          subst this
          rw [List.getElem?_eq_getElem hlt, Option.some.injEq] at hk
          subst hk; rw [← h1]; exact hp
    · rw [if_neg hp]
      refine ⟨n, by simp, le_rfl, by omega, by intros; omega, Or.inr ⟨d, ?_, by simpa using hp⟩⟩
      rw [h1]; exact List.getElem?_eq_getElem hlt

theorem scanHigh_ok {data : List Int} (hs : Sorted data) (t : Int) (n : Nat) (s : Int) (hn : n ≤ data.length) :
    ∃ h, scanHigh data t n s = some (h, s + (pre data h - pre data n)) ∧ Cut data (fun d => d ≤ t) h := by
  obtain ⟨n1, a1, a2, a3, a4⟩ := down_ok (fun d => decide (t < d)) (-1) data n s hn
  obtain ⟨n2, b1, b2, b3, b4, b5⟩ := up_ok (fun d => decide (d ≤ t)) 1 data (data.drop n1) n1
    (s + -1 * (pre data n - pre data n1)) rfl (by omega)
  refine ⟨n2, ?_, b3, ?_, ?_⟩
  · rw [scanHigh, if_pos hn, a1]
    simp only [Option.some.injEq]
    rw [b1]; congr 1; ring
  · intro k d hk hd
    rcases Nat.lt_or_ge k n1 with h | h
    · rcases a4 with h0 | ⟨e, he, hp⟩
      · omega
      · have := hs k (n1 - 1) d e (by omega) hd he
        simp at hp; omega
    · have := b4 k d h hk hd; simpa using this
  · intro k d hk hd
    rcases b5 with h0 | ⟨e, he, hp⟩
    · have := (List.getElem?_eq_some_iff.1 hd).1; omega
    · have := hs n2 k e d hk he hd
      simp at hp; omega

theorem scanLow_ok {data : List Int} (hs : Sorted data) (t : Int) (n : Nat) (s : Int) (hn : n ≤ data.length) :
    ∃ l, scanLow data t n s = some (l, s + (pre data n - pre data l)) ∧ Cut data (fun d => d < t) l := by
  obtain ⟨n1, b1, b2, b3, b4, b5⟩ := up_ok (fun d => decide (d < t)) (-1) data (data.drop n) n s rfl hn
  obtain ⟨n2, a1, a2, a3, a4⟩ := down_ok (fun d => decide (t ≤ d)) 1 data n1
    (s + -1 * (pre data n1 - pre data n)) b3
  refine ⟨n2, ?_, by omega, ?_, ?_⟩
  · rw [scanLow, if_pos hn, b1]
    simp only [Option.some.injEq]
    rw [a1]; congr 1; ring
  · intro k d hk hd
    rcases a4 with h0 | ⟨e, he, hp⟩
    · omega
    · have := hs k (n2 - 1) d e (by omega) hd he
      simp at hp; omega
  · intro k d hk hd
    rcases Nat.lt_or_ge k n1 with h | h
    · have := a3 k d hk h hd; simp at this; omega
    · rcases b5 with h0 | ⟨e, he, hp⟩
      · have := (List.getElem?_eq_some_iff.1 hd).1; omega
      · have := hs n1 k e d h he hd
        simp at hp; omega

/-! ## One pass -/

/-- The threshold between two means. -/
def th (a b : Int) : Int := (b + a + 1) / 2

theorem th_le {a b : Int} (h : a ≤ b) : a ≤ th a b ∧ th a b ≤ b := by unfold th; omega

structure Sums (data : List Int) (c : Cluster) : Prop where
  low : c.low ≤ data.length
  high : c.high ≤ data.length
  sum : c.sum = pre data c.high - pre data c.low

def LowOk (data : List Int) (c : Cluster) : Prop :=
  c.low = 0 ∨ ∃ t, t ≤ c.m ∧ Cut data (fun d => d < t) c.low

def HighOk (data : List Int) (c : Cluster) : Prop :=
  c.high = data.length ∨ ∃ t, c.m ≤ t ∧ Cut data (fun d => d ≤ t) c.high

/-- The clusters on both sides of a threshold. -/
def Meet (data : List Int) (c c' : Cluster) : Prop :=
  c.m ≤ c'.m ∧ Cut data (fun d => d ≤ th c.m c'.m) c.high ∧ Cut data (fun d => d < th c.m c'.m) c'.low

/-- The last cluster ends with the data. -/
def LastFull (data : List Int) (cs : List Cluster) : Prop := ∀ c ∈ cs.getLast?, c.high = data.length

structure Good (data : List Int) (c : Cluster) : Prop where
  sums : Sums data c
  low : LowOk data c
  high : HighOk data c

theorem pass_ok {tmin tmax : Int} {data : List Int} (hs : Sorted data) (rest : List Cluster) (c : Cluster)
    (hsum : ∀ x ∈ c :: rest, Sums data x) (hmean : ∀ x ∈ c :: rest, tmin ≤ x.m ∧ x.m ≤ tmax)
    (hsort : ((c :: rest).map Cluster.m).IsChain (· ≤ ·)) (hlow : LowOk data c)
    (hlast : LastFull data (c :: rest)) :
    ∃ r, pass tmin tmax data c rest = some r ∧ r.map Cluster.m = (c :: rest).map Cluster.m ∧
      (∀ x ∈ r, Good data x) ∧ r.IsChain (Meet data) ∧ LastFull data r ∧
      (∃ x r', r = x :: r' ∧ x.m = c.m ∧ x.low = c.low) := by
  induction rest generalizing c with
  | nil =>
    have hh : c.high = data.length := hlast c (by simp)
    exact ⟨[c], rfl, rfl, by
      intro x hx
      rw [List.mem_singleton] at hx
      subst hx
      exact ⟨hsum _ (by simp), hlow, Or.inl hh⟩, by simp, hlast, c, [], rfl, rfl, rfl⟩
  | cons c' rest ih =>
    have h1 := hsum c (by simp)
    have h2 := hsum c' (by simp)
    rw [List.map_cons, List.map_cons, List.isChain_cons_cons] at hsort
    obtain ⟨hle, hsort⟩ := hsort
    obtain ⟨ht1, ht2⟩ := th_le hle
    obtain ⟨hm1, hm2⟩ := hmean c (by simp)
    obtain ⟨hm1', hm2'⟩ := hmean c' (by simp)
    have hconv : conv tmin tmax ((c'.m + c.m + 1) / 2) = some (th c.m c'.m) := by
      rw [conv, if_pos]; · rfl
      unfold th at ht1 ht2; omega
    obtain ⟨h, hh, hcut⟩ := scanHigh_ok hs (th c.m c'.m) c.high c.sum h1.high
    obtain ⟨l, hl, hcut'⟩ := scanLow_ok hs (th c.m c'.m) c'.low c'.sum h2.low
    have hs' : ∀ x ∈ ({ c' with low := l, sum := c'.sum + (pre data c'.low - pre data l) } : Cluster) :: rest,
        Sums data x := by
      intro x hx
      rcases List.mem_cons.1 hx with rfl | hx
      · exact ⟨hcut'.le, h2.high, by show c'.sum + _ = _; rw [h2.sum]; ring⟩
      · exact hsum x (by simp [hx])
    obtain ⟨r, e1, e2, e3, e4, e5, x, r', e6, e7, e8⟩ := ih
      { c' with low := l, sum := c'.sum + (pre data c'.low - pre data l) } hs'
      (by
        intro x hx
        rcases List.mem_cons.1 hx with rfl | hx
        · exact ⟨hm1', hm2'⟩
        · exact hmean x (by simp [hx]))
      hsort (Or.inr ⟨_, ht2, hcut'⟩)
      (by
        intro x hx
        cases rest with
        | nil =>
          simp at hx; subst hx
          exact hlast c' (by simp)
        | cons y ys =>
          exact hlast x (by simpa using hx))
    refine ⟨{ c with high := h, sum := c.sum + (pre data h - pre data c.high) } :: r, ?_, ?_, ?_, ?_, ?_,
      _, r, rfl, rfl, rfl⟩
    · rw [pass, hconv]
      simp only [Option.bind_eq_bind, Option.bind_some]
      rw [hh]; simp only [Option.bind_some]
      rw [hl]; simp only [Option.bind_some]
      rw [e1]; rfl
    · rw [List.map_cons, e2]; rfl
    · intro y hy
      rcases List.mem_cons.1 hy with rfl | hy
      · exact ⟨⟨h1.low, hcut.le, by show c.sum + _ = _; rw [h1.sum]; ring⟩, hlow, Or.inr ⟨_, ht1, hcut⟩⟩
      · exact e3 y hy
    · rw [e6, List.isChain_cons_cons]
      refine ⟨⟨?_, ?_, ?_⟩, by rw [← e6]; exact e4⟩
      · rw [e7]; exact hle
      · rw [e7]; exact hcut
      · rw [e7, e8]; exact hcut'
    · intro y hy
      rw [e6] at hy e5
      exact e5 y (by simpa using hy)

/-! ## The new means -/

theorem low_le_high {data : List Int} {c : Cluster} (h : Good data c) : c.low ≤ c.high := by
  rcases h.low with h1 | ⟨t, h1, h2⟩
  · omega
  · rcases h.high with h3 | ⟨t', h3, h4⟩
    · have := h2.le; omega
    · exact cut_mono h2 h4 (fun d hd => by omega)

/-- The new mean of a cluster as a number. -/
def nm (c : Cluster) : Int := if c.high = c.low then c.m else rmean c.sum (c.high - c.low)

theorem sum_slice {data : List Int} {c : Cluster} (h : Good data c) : c.sum = (slice data c.low c.high).sum := by
  rw [slice_sum (low_le_high h), h.sums.sum]

/-- Bounds of the elements give bounds of the sum. -/
theorem sum_bound {data : List Int} {c : Cluster} (h : Good data c) :
    (∀ u, (∀ k d, c.low ≤ k → k < c.high → data[k]? = some d → d ≤ u) → c.sum ≤ ((c.high - c.low : Nat) : Int) * u) ∧
    (∀ u, (∀ k d, c.low ≤ k → k < c.high → data[k]? = some d → u ≤ d) → ((c.high - c.low : Nat) : Int) * u ≤ c.sum) := by
  have hlen := slice_length (a := c.low) h.sums.high
  constructor
  · intro u hu
    rw [sum_slice h, ← hlen]
    apply sum_le
    intro d hd
    obtain ⟨k, k1, k2, k3⟩ := mem_slice.1 hd
    exact hu k d k1 k2 k3
  · intro u hu
    rw [sum_slice h, ← hlen]
    apply le_sum
    intro d hd
    obtain ⟨k, k1, k2, k3⟩ := mem_slice.1 hd
    exact hu k d k1 k2 k3

/-- The upper end of the range of the means: the largest element, or one more if it is negative (the division
truncates towards zero). -/
def top (b : Int) : Int := if 0 ≤ b then b else b + 1

theorem nm_range {data : List Int} {c : Cluster} {a b : Int} (h : Good data c)
    (hd : ∀ d ∈ data, a ≤ d ∧ d ≤ b) (hm : a ≤ c.m ∧ c.m ≤ top b) : a ≤ nm c ∧ nm c ≤ top b := by
  unfold nm
  split_ifs with he
  · exact hm
  · have hle := low_le_high h
    obtain ⟨h1, h2⟩ := sum_bound h
    have hpos : 0 < c.high - c.low := by omega
    have ha := h2 a (fun k d _ _ hk => (hd d (List.mem_of_getElem? hk)).1)
    have hb := h1 b (fun k d _ _ hk => (hd d (List.mem_of_getElem? hk)).2)
    refine ⟨le_rmean hpos ha, ?_⟩
    unfold top
    split_ifs with h0
    · exact rmean_le_nonneg hpos hb h0
    · exact rmean_le_succ hpos hb

theorem nm_sorted {data : List Int} {c c' : Cluster} (h : Good data c) (h' : Good data c') (hm : Meet data c c') :
    nm c ≤ nm c' := by
  obtain ⟨hle, hcut, hcut'⟩ := hm
  obtain ⟨ht1, ht2⟩ := th_le hle
  generalize th c.m c'.m = t at *
  have hl := low_le_high h
  have hl' := low_le_high h'
  obtain ⟨ub, _⟩ := sum_bound h
  obtain ⟨_, lb⟩ := sum_bound h'
  -- the end of the lower cluster is not beyond the end of the upper one
  have hhigh : c.high ≤ c'.high := by
    rcases h'.high with h3 | ⟨t', h3, h4⟩
    · have := hcut.le; omega
    · exact cut_mono hcut h4 (fun d hd => by omega)
  have hub := ub t (fun k d _ hk hd => hcut.before k d hk hd)
  have hlb := lb t (fun k d hk _ hd => by have := hcut'.after k d hk hd; omega)
  unfold nm
  split_ifs with e e' e'
  · exact hle
  · have := le_rmean (c := c'.high - c'.low) (by omega) hlb
    omega
  · -- the upper cluster is empty: no element equals the threshold
    have hub' := ub (t - 1) (fun k d _ hk hd => by
      have := hcut'.before k d (by omega) hd; omega)
    have := rmean_le_succ (c := c.high - c.low) (by omega) hub'
    omega
  · have hpos : 0 < c.high - c.low := by omega
    have hpos' : 0 < c'.high - c'.low := by omega
    rcases le_or_gt 0 t with h0 | h0
    · exact le_trans (rmean_le_nonneg hpos hub h0) (le_rmean hpos' hlb)
    · by_cases h2 : 2 ≤ c'.high - c'.low
      · exact le_trans (rmean_le_succ hpos hub) (succ_le_rmean h2 h0 hlb)
      · -- the upper cluster has one element
        have hone : c'.high = c'.low + 1 := by omega
        have hlt : c'.low < data.length := by have := h'.sums.high; omega
        have hS' : c'.sum = data[c'.low] := by
          rw [h'.sums.sum, hone, pre_succ hlt]; ring
        have hge : t ≤ data[c'.low] := by
          have := hcut'.after c'.low _ le_rfl (List.getElem?_eq_getElem hlt); omega
        have hr' : rmean c'.sum (c'.high - c'.low) = data[c'.low] := by
          rw [hone, Nat.add_sub_cancel_left, hS']; simp [rmean]
        rw [hr']
        rcases eq_or_lt_of_le hge with heq | hgt
        · -- it equals the threshold, and is the only such element
          rw [← heq]
          apply rmean_le_special hpos
          rcases Nat.lt_or_ge c'.low c.high with hh | hh
          · have hch : c.high = c'.low + 1 := by omega
            rcases Nat.lt_or_ge c'.low c.low with hcl | hcl
            · omega
            · have hsl := slice_sum (data := data) hcl
              have hlen := slice_length (data := data) (a := c.low) (le_of_lt hlt)
              have hb := sum_le (l := slice data c.low c'.low) (u := t - 1) (by
                intro d hd
                obtain ⟨k, _, k2, k3⟩ := mem_slice.1 hd
                have := hcut'.before k d k2 k3; omega)
              rw [hlen, hsl] at hb
              have hS : c.sum = pre data c'.low + t - pre data c.low := by
                rw [h.sums.sum, hch, pre_succ hlt, ← heq]
              have hc : ((c.high - c.low : Nat) : Int) = ((c'.low - c.low : Nat) : Int) + 1 := by omega
              rw [hc, hS]
              have : (((c'.low - c.low : Nat) : Int) + 1) * t = ((c'.low - c.low : Nat) : Int) * (t - 1) + ((c'.low - c.low : Nat) : Int) + t := by ring
              linarith
          · have hub' := ub (t - 1) (fun k d _ hk hd => by
              have := hcut'.before k d (by omega) hd; omega)
            have : ((c.high - c.low : Nat) : Int) * (t - 1) = ((c.high - c.low : Nat) : Int) * t - ((c.high - c.low : Nat) : Int) := by ring
            linarith
        · have := rmean_le_succ hpos hub
          omega

/-! ## The loop -/

/-- What holds before each pass. -/
structure Inv (data : List Int) (a b : Int) (cs : List Cluster) : Prop where
  sums : ∀ c ∈ cs, Sums data c
  range : ∀ c ∈ cs, a ≤ c.m ∧ c.m ≤ top b
  sorted : (cs.map Cluster.m).IsChain (· ≤ ·)
  first : ∀ c ∈ cs.head?, c.low = 0
  last : LastFull data cs

theorem newMean_eq {tmin tmax : Int} {data : List Int} {c : Cluster} (h : Good data c)
    (hr : tmin ≤ nm c ∧ nm c ≤ tmax) : newMean tmin tmax c = some { c with m := nm c } := by
  have hle := low_le_high h
  unfold newMean
  rw [if_neg (by omega)]
  dsimp only
  unfold nm at *
  by_cases he : c.high = c.low
  · rw [if_pos (by omega), if_pos he]
  · rw [if_neg (by omega), if_neg he]
    rw [if_neg he] at hr
    unfold rmean at *
    rw [conv, if_pos hr]
    rfl

theorem mapM_newMean {tmin tmax : Int} {data : List Int} (l : List Cluster) (h : ∀ c ∈ l, Good data c)
    (hr : ∀ c ∈ l, tmin ≤ nm c ∧ nm c ≤ tmax) :
    l.mapM (newMean tmin tmax) = some (l.map fun c => { c with m := nm c }) := by
  induction l with
  | nil => rfl
  | cons c l ih =>
    rw [List.mapM_cons, newMean_eq (h c (by simp)) (hr c (by simp)), ih (fun x hx => h x (by simp [hx]))
      (fun x hx => hr x (by simp [hx]))]
    rfl

theorem iterate_ok {tmin tmax : Int} {data : List Int} (hs : Sorted data) {a b : Int}
    (hd : ∀ d ∈ data, a ≤ d ∧ d ≤ b) (ha : tmin ≤ a) (hb : top b ≤ tmax) (n : Nat) (cs : List Cluster)
    (hi : Inv data a b cs) :
    ∃ cs', iterate tmin tmax data n cs = some cs' ∧ Inv data a b cs' ∧ cs'.length = cs.length := by
  induction n generalizing cs with
  | zero => exact ⟨cs, rfl, hi, rfl⟩
  | succ n ih =>
    cases cs with
    | nil => exact ⟨[], rfl, hi, rfl⟩
    | cons c rest =>
      obtain ⟨r, e1, e2, e3, e4, e5, x, r', e6, e7, e8⟩ := pass_ok (tmin := tmin) (tmax := tmax) hs rest c hi.sums
        (fun x hx => by have := hi.range x hx; omega) hi.sorted (Or.inl (hi.first c (by simp))) hi.last
      have hmem : ∀ y ∈ r, a ≤ y.m ∧ y.m ≤ top b := by
        intro y hy
        have : y.m ∈ r.map Cluster.m := List.mem_map_of_mem hy
        rw [e2] at this
        obtain ⟨z, hz, hzy⟩ := List.mem_map.1 this
        rw [← hzy]; exact hi.range z hz
      have hnm : ∀ y ∈ r, a ≤ nm y ∧ nm y ≤ top b := fun y hy => nm_range (e3 y hy) hd (hmem y hy)
      have hm := mapM_newMean (tmin := tmin) (tmax := tmax) r e3 (fun y hy => by have := hnm y hy; omega)
      have hinv : Inv data a b (r.map fun c => { c with m := nm c }) := by
        refine ⟨?_, ?_, ?_, ?_, ?_⟩
        · intro y hy
          obtain ⟨z, hz, rfl⟩ := List.mem_map.1 hy
          exact ⟨(e3 z hz).sums.low, (e3 z hz).sums.high, (e3 z hz).sums.sum⟩
        · intro y hy
          obtain ⟨z, hz, rfl⟩ := List.mem_map.1 hy
          exact hnm z hz
        · rw [List.map_map]
          clear hm hnm hmem e5 e6 e2 e1
          induction r with
          | nil => simp
          | cons y ys ihy =>
            cases ys with
            | nil => simp
            | cons z zs =>
              rw [List.isChain_cons_cons] at e4
              rw [List.map_cons, List.map_cons, List.isChain_cons_cons]
              exact ⟨nm_sorted (e3 y (by simp)) (e3 z (by simp)) e4.1,
                ihy (fun w hw => e3 w (by simp [hw])) e4.2⟩
        · intro y hy
          rw [e6] at hy
          simp at hy
          subst hy
          show x.low = 0
          rw [e8]; exact hi.first c (by simp)
        · intro y hy
          rw [List.getLast?_map] at hy
          simp only [Option.mem_def, Option.map_eq_some_iff] at hy
          obtain ⟨z, hz, rfl⟩ := hy
          exact e5 z hz
      have hlen : r.length = (c :: rest).length := by
        have := congrArg List.length e2
        simpa using this
      rw [iterate, e1, Option.bind_eq_bind, Option.bind_some, hm, Option.bind_some]
      split_ifs
      · exact ⟨_, rfl, hinv, by rw [List.length_map]; exact hlen⟩
      · obtain ⟨cs', f1, f2, f3⟩ := ih _ hinv
        exact ⟨cs', f1, f2, by rw [f3, List.length_map]; exact hlen⟩

theorem sorted_of_pairwise {data : List Int} (h : data.Pairwise (· ≤ ·)) : Sorted data := by
  intro i j a b hij ha hb
  obtain ⟨h1, rfl⟩ := List.getElem?_eq_some_iff.1 ha
  obtain ⟨h2, rfl⟩ := List.getElem?_eq_some_iff.1 hb
  rcases eq_or_lt_of_le hij with rfl | h3
  · exact le_rfl
  · exact List.pairwise_iff_getElem.1 h i j h1 h2 h3

theorem start_ok {data : List Int} (hs : Sorted data) {k : Nat} (hk : 2 ≤ k) (hn : 0 < data.length) {a b : Int}
    (hd : ∀ d ∈ data, a ≤ d ∧ d ≤ b) : Inv data a b (start data k) ∧ (start data k).length = k := by
  have hidx : ∀ i, i < k → i * (data.length - 1) / (k - 1) < data.length := by
    intro i hi
    have h1 : i * (data.length - 1) / (k - 1) ≤ (k - 1) * (data.length - 1) / (k - 1) :=
      Nat.div_le_div_right (Nat.mul_le_mul_right _ (by omega))
    rw [Nat.mul_div_cancel_left _ (by omega)] at h1
    omega
  have hlasti : (k - 1) * (data.length - 1) / (k - 1) = data.length - 1 := Nat.mul_div_cancel_left _ (by omega)
  have hget : ∀ i, i < data.length → data[i]? = some (data.getD i 0) := by
    intro i hi
    rw [List.getD_eq_getElem?_getD, List.getElem?_eq_getElem hi]; rfl
  have htop : b ≤ top b := by unfold top; split_ifs <;> omega
  refine ⟨⟨?_, ?_, ?_, ?_, ?_⟩, by simp [start]⟩
  · intro c hc
    simp only [start, List.mem_map, List.mem_range] at hc
    obtain ⟨i, hi, rfl⟩ := hc
    have h1 := hidx i hi
    split_ifs with h
    · refine ⟨h1.le, le_rfl, ?_⟩
      subst h
      show data.getD _ 0 = pre data data.length - pre data _
      rw [hlasti]
      have h2 := pre_succ (data := data) (n := data.length - 1) (by omega)
      rw [show data.length - 1 + 1 = data.length by omega] at h2
      have h3 := hget (data.length - 1) (by omega)
      rw [List.getElem?_eq_getElem (by omega), Option.some.injEq] at h3
      rw [h2, h3]; ring
    · exact ⟨h1.le, h1.le, by simp⟩
  · intro c hc
    simp only [start, List.mem_map, List.mem_range] at hc
    obtain ⟨i, hi, rfl⟩ := hc
    have h1 := hd _ (List.mem_of_getElem? (hget _ (hidx i hi)))
    split_ifs <;> exact ⟨h1.1, le_trans h1.2 htop⟩
  · have hmap : (start data k).map Cluster.m =
        (List.range k).map fun i => data.getD (i * (data.length - 1) / (k - 1)) 0 := by
      rw [start, List.map_map]
      apply List.map_congr_left
      intro i _
      simp only [Function.comp]
      split_ifs <;> rfl
    rw [hmap]
    rw [List.isChain_iff_getElem]
    intro i hi
    rw [List.length_map, List.length_range] at hi
    rw [List.getElem_map, List.getElem_map, List.getElem_range, List.getElem_range]
    exact hs _ _ _ _ (Nat.div_le_div_right (Nat.mul_le_mul_right _ (by omega)))
      (hget _ (hidx i (by omega))) (hget _ (hidx (i + 1) (by omega)))
  · intro c hc
    rw [start, List.head?_map, List.head?_range] at hc
    rw [if_neg (by omega)] at hc
    simp at hc
    rw [← hc]
    split_ifs <;> simp
  · intro c hc
    rw [start, List.getLast?_map, List.getLast?_range] at hc
    rw [if_neg (by omega)] at hc
    simp at hc
    rw [← hc]

/-! ## C42 -/

/-- **C42**: on every sorted, non-empty slice of values of the type and for every number of clusters from two
on, the clustering ends without panic, without reading out of bounds and without an unchecked conversion out of
range, and returns that many centroids, in non-decreasing order, none below the smallest value and none above
the largest one (above the largest one plus one, if that is negative). -/
theorem kmeans_ok (tmin tmax : Int) (h0 : 0 ≤ tmax) (k : Nat) (hk : 2 ≤ k) (data : List Int)
    (hne : data ≠ []) (hs : data.Pairwise (· ≤ ·)) (hT : ∀ d ∈ data, tmin ≤ d ∧ d ≤ tmax) :
    ∃ means, kmeans tmin tmax k data = some means ∧ means.length = k ∧ means.Pairwise (· ≤ ·) ∧
      ∀ m ∈ means, (∃ d ∈ data, d ≤ m) ∧ (∃ d ∈ data, m ≤ if 0 ≤ d then d else d + 1) := by
  have hn : 0 < data.length := List.length_pos_iff.2 hne
  have hS := sorted_of_pairwise hs
  have hl : data.length - 1 < data.length := by omega
  have hd : ∀ d ∈ data, data[0] ≤ d ∧ d ≤ data[data.length - 1] := by
    intro d hd
    obtain ⟨i, hi⟩ := List.mem_iff_getElem?.1 hd
    have hil := (List.getElem?_eq_some_iff.1 hi).1
    exact ⟨hS 0 i _ _ (by omega) (List.getElem?_eq_getElem hn) hi,
      hS i (data.length - 1) _ _ (by omega) hi (List.getElem?_eq_getElem hl)⟩
  have hfirst := List.getElem_mem hn
  have hlast := List.getElem_mem hl
  obtain ⟨hi, hlen⟩ := start_ok hS hk hn hd
  obtain ⟨cs, e1, e2, e3⟩ := iterate_ok (tmin := tmin) (tmax := tmax) hS hd (hT _ hfirst).1
    (by unfold top; have := (hT _ hlast).2; split_ifs <;> omega) (2 * (Nat.log2 data.length + 1)) _ hi
  refine ⟨cs.map Cluster.m, ?_, ?_, ?_, ?_⟩
  · rw [kmeans, if_neg (by omega), e1]; rfl
  · rw [List.length_map, e3, hlen]
  · exact List.isChain_iff_pairwise.1 e2.sorted
  · intro m hm
    obtain ⟨c, hc, rfl⟩ := List.mem_map.1 hm
    have := e2.range c hc
    exact ⟨⟨_, hfirst, this.1⟩, ⟨_, hlast, this.2⟩⟩

example : kmeans (-32768) 32767 3 [1, 2, 3, 10, 11, 12, 20, 21, 22] = some [2, 11, 21] ∧
    kmeans (-32768) 32767 4 [1, 2, 3, 10, 11, 12, 20, 21, 22, 30, 31, 32] = some [2, 11, 21, 31] := by
  decide +kernel

/-- Finding: with negative values a centroid can lie above every value of the data (the division that rounds
the mean truncates towards zero). -/
theorem kmeans_above_data : kmeans (-32768) 32767 3 [-3, -3, -3, -3] = some [-2, -2, -2] := by decide +kernel

end Rav1e.Kmeans

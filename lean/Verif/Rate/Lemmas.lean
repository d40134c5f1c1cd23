import Verif.Rate.Model
import Mathlib.Algebra.BigOperators.Group.List.Basic
import Mathlib.Tactic.Ring
import Mathlib.Tactic.Linarith
/- Lemmas about the tables of counts, the ring buffer and the deserialiser. -/
namespace Rav1e.Rate
open Rav1e.Ivf (le unle)

theorem p31 : (2 : Int) ^ 31 = 2147483648 := by norm_num

theorem chk32_some {n : Int} (h1 : -2147483648 ≤ n) (h2 : n < 2147483648) : chk32 n = some n := by
  unfold chk32; rw [if_pos]; norm_num; omega

theorem clamp0_some {v hi : Int} (h : 0 ≤ hi) : clamp0 v hi = some (max 0 (min v hi)) := by
  unfold clamp0; rw [if_neg (by omega)]

/-- A table of `n` counts with entries in `[-F, 2^31)`. -/
structure Tab (F : Int) (l : List Int) : Prop where
  len : l.length = 5
  ent : ∀ v ∈ l, -F ≤ v ∧ v < 2147483648

theorem bump_tab {F : Int} {l : List Int} (h : Tab F l) (hF : F < 2147483647) {t : Nat} (ht : t ≤ 4) :
    ∃ l', bump l t (-1) = some l' ∧ Tab (F + 1) l' ∧ l'.sum = l.sum - 1 := by
  have hl : t < l.length := by rw [h.len]; omega
  have he := h.ent l[t] (List.getElem_mem hl)
  refine ⟨l.set t (l[t] + -1), ?_, ⟨by simpa using h.len, ?_⟩, ?_⟩
  · unfold bump
    rw [List.getElem?_eq_getElem hl, Option.bind_some, chk32_some (by omega) (by omega)]; rfl
  · intro v hv
    rcases List.mem_or_eq_of_mem_set hv with h' | rfl
    · have := h.ent v h'; omega
    · omega
  · have : l = l.take t ++ l[t] :: l.drop (t + 1) := by
      rw [List.getElem_cons_drop, List.take_append_drop]
    have e2 : l.set t (l[t] + -1) = l.take t ++ (l[t] + -1) :: l.drop (t + 1) := by
      rw [List.set_eq_take_append_cons_drop, if_pos hl]
    rw [e2]
    conv_rhs => rw [this]
    simp only [List.sum_append, List.sum_cons]
    ring

/-- How many frames of each type there are. -/
def counts (l : List Metrics) : List Int :=
  [(l.countP (·.fti = 0) : Int), (l.countP (·.fti = 1) : Int), (l.countP (·.fti = 2) : Int),
    (l.countP (·.fti = 3) : Int), (l.countP (·.fti = 4) : Int)]

/-- How many frames are shown. -/
def shownCount (l : List Metrics) : Int := (l.countP (·.shown) : Int)

theorem counts_sum {l : List Metrics} (h : ∀ m ∈ l, m.fti ≤ 4) : (counts l).sum = l.length := by
  induction l with
  | nil => rfl
  | cons m l ih =>
    have ih := ih fun x hx => h x (List.mem_cons_of_mem _ hx)
    have hm := h m (by simp)
    simp only [counts, List.sum_cons, List.sum_nil, List.countP_cons, List.length_cons] at ih ⊢
    have : m.fti = 0 ∨ m.fti = 1 ∨ m.fti = 2 ∨ m.fti = 3 ∨ m.fti = 4 := by omega
    rcases this with h | h | h | h | h <;> simp [h] <;> omega

theorem countP_le_length (l : List Metrics) (p : Metrics → Bool) : l.countP p ≤ l.length := List.countP_le_length

theorem bump_eq {l : List Int} {t : Nat} {v d : Int} (h : l[t]? = some v) (h1 : -2147483648 ≤ v + d)
    (h2 : v + d < 2147483648) : bump l t d = some (l.set t (v + d)) := by
  unfold bump; rw [h, Option.bind_some, chk32_some h1 h2]; rfl

theorem counts_get {l : List Metrics} {t : Nat} (ht : t ≤ 4) :
    (counts l)[t]? = some (l.countP (·.fti = t) : Int) := by
  have : t = 0 ∨ t = 1 ∨ t = 2 ∨ t = 3 ∨ t = 4 := by omega
  rcases this with rfl | rfl | rfl | rfl | rfl <;> rfl

theorem bump_counts_append {l : List Metrics} {m : Metrics} (hm : m.fti ≤ 4) (hl : (l.length : Int) < 2147483647) :
    bump (counts l) m.fti 1 = some (counts (l ++ [m])) := by
  have hc := countP_le_length l (fun x => decide (x.fti = m.fti))
  rw [bump_eq (counts_get hm) (by omega) (by omega)]
  have : m.fti = 0 ∨ m.fti = 1 ∨ m.fti = 2 ∨ m.fti = 3 ∨ m.fti = 4 := by omega
  rcases this with h | h | h | h | h <;> simp [counts, List.countP_append, h]

theorem bump_counts_cons {l : List Metrics} {m : Metrics} (hm : m.fti ≤ 4) (hl : (l.length : Int) < 2147483647) :
    bump (counts (m :: l)) m.fti (-1) = some (counts l) := by
  have hc := countP_le_length l (fun x => decide (x.fti = m.fti))
  have e : (m :: l).countP (fun x => decide (x.fti = m.fti)) = l.countP (fun x => decide (x.fti = m.fti)) + 1 := by
    rw [List.countP_cons_of_pos]; simp
  rw [bump_eq (counts_get hm) (by omega) (by omega), e]
  have : m.fti = 0 ∨ m.fti = 1 ∨ m.fti = 2 ∨ m.fti = 3 ∨ m.fti = 4 := by omega
  rcases this with h | h | h | h | h <;> simp [counts, h]

theorem shown_append (l : List Metrics) (m : Metrics) :
    shownCount (l ++ [m]) = if m.shown then shownCount l + 1 else shownCount l := by
  unfold shownCount; rw [List.countP_append]; cases h : m.shown <;> simp [h]

theorem shown_cons (l : List Metrics) (m : Metrics) :
    shownCount (m :: l) = if m.shown then shownCount l + 1 else shownCount l := by
  unfold shownCount; rw [List.countP_cons]; cases h : m.shown <;> simp

theorem shown_le (l : List Metrics) : shownCount l ≤ l.length := by
  unfold shownCount; have := countP_le_length l (·.shown); omega

theorem shown_nonneg (l : List Metrics) : 0 ≤ shownCount l := by unfold shownCount; omega

theorem counts_nil : counts [] = List.replicate 5 0 := rfl

/-! ## The ring -/

/-- The metrics in the window, oldest first. -/
def window (ring : List Metrics) (head n : Nat) : List Metrics :=
  (List.range n).map fun i => ring.getD ((head + i) % ring.length) Metrics.new

theorem window_length (ring : List Metrics) (head n : Nat) : (window ring head n).length = n := by simp [window]

theorem ring_index {head n len : Nat} (hh : head < len) (hn : n < len) :
    (if len ≤ head + n then head + n - len else head + n) = (head + n) % len := by
  split
  · rename_i h
    rw [Nat.mod_eq_sub_mod h, Nat.mod_eq_of_lt (by omega)]
  · rw [Nat.mod_eq_of_lt (by omega)]

theorem window_push {ring : List Metrics} {head n : Nat} (hh : head < ring.length) (hn : n < ring.length)
    (m : Metrics) :
    window (ring.set ((head + n) % ring.length) m) head (n + 1) = window ring head n ++ [m] := by
  have hp : 0 < ring.length := by omega
  unfold window
  rw [List.range_succ, List.map_append, List.length_set]
  congr 1
  · apply List.map_congr_left
    intro i hi
    rw [List.mem_range] at hi
    have hne : (head + n) % ring.length ≠ (head + i) % ring.length := by
      rw [← ring_index hh hn, ← ring_index hh (by omega)]
      split <;> split <;> omega
    simp only [List.getD_eq_getElem?_getD]
    rw [List.getElem?_set_ne hne]
  · simp only [List.map_cons, List.map_nil, List.cons.injEq, and_true, List.getD_eq_getElem?_getD]
    rw [List.getElem?_set_self (Nat.mod_lt _ hp)]; rfl

theorem window_pop {ring : List Metrics} {head n : Nat} (hh : head < ring.length) :
    window ring head (n + 1) =
      ring.getD head Metrics.new :: window ring (if ring.length ≤ head + 1 then 0 else head + 1) n := by
  unfold window
  rw [List.range_succ_eq_map, List.map_cons, List.map_map]
  congr 1
  · rw [Nat.add_zero, Nat.mod_eq_of_lt hh]
  · apply List.map_congr_left
    intro i _
    simp only [Function.comp]
    congr 1
    split
    · have : head + 1 = ring.length := by omega
      rw [show head + i.succ = ring.length + i by omega, Nat.add_mod_left, Nat.zero_add]
    · congr 1; omega

/-! ## The deserialiser -/

structure DesOk (d : Des) : Prop where
  len : d.buf.length = 68
  fill : d.fill ≤ 68

/-- What `buffer_fill` does: it takes bytes until `goal` of them are there. -/
theorem bufferFill_ok {goal : Nat} (hg : goal ≤ 68) (bs : List Nat) (d : Des) (h : DesOk d) :
    ∃ d', bufferFill goal bs d = some (d', bs.drop (goal - d.fill)) ∧ DesOk d' ∧
      d'.fill = d.fill + min (goal - d.fill) bs.length ∧ d'.pos = d.pos ∧
      d'.buf.take d'.fill = d.buf.take d.fill ++ bs.take (goal - d.fill) := by
  induction bs generalizing d with
  | nil => exact ⟨d, by simp [bufferFill], h, by simp, rfl, by simp⟩
  | cons b bs ih =>
    unfold bufferFill
    by_cases hf : d.fill < goal
    · rw [if_pos hf, if_pos (by rw [h.len]; omega)]
      have hd : DesOk { d with buf := d.buf.set d.fill b, fill := d.fill + 1 } :=
        ⟨by simpa using h.len, by simp only; omega⟩
      obtain ⟨d', e1, e2, e3, e4, e5⟩ := ih _ hd
      refine ⟨d', ?_, e2, ?_, e4, ?_⟩
      · rw [e1]
        rw [show goal - d.fill = (goal - (d.fill + 1)) + 1 by omega, List.drop_succ_cons]
      · rw [e3, List.length_cons]; dsimp only; omega
      · rw [e5, show goal - d.fill = (goal - (d.fill + 1)) + 1 by omega, List.take_succ_cons]
        have hlt : d.fill < d.buf.length := by rw [h.len]; omega
        have : (d.buf.set d.fill b).take (d.fill + 1) = d.buf.take d.fill ++ [b] := by
          rw [List.take_add_one, List.getElem?_set_self hlt, List.take_set_of_le (le_refl _)]
          rfl
        rw [this]; simp
    · rw [if_neg hf]
      refine ⟨d, ?_, h, ?_, rfl, ?_⟩
      · rw [show goal - d.fill = 0 by omega]; rfl
      · rw [show goal - d.fill = 0 by omega]; simp
      · rw [show goal - d.fill = 0 by omega]; simp

theorem unbufferVal_ok {n : Nat} {d : Des} (h : d.pos + n ≤ d.buf.length) :
    unbufferVal n d = some (wrapI 64 (unle ((d.buf.drop d.pos).take n)), { d with pos := d.pos + n }) := by
  unfold unbufferVal; rw [if_pos h]

theorem unbufferVal_ex {n : Nat} {d : Des} (h : d.pos + n ≤ d.buf.length) :
    ∃ v, unbufferVal n d = some (v, { d with pos := d.pos + n }) := ⟨_, unbufferVal_ok h⟩

theorem unbufferVals_ok (n k : Nat) (d : Des) (h : d.pos + n * k ≤ d.buf.length) :
    ∃ vs, unbufferVals n k d = some (vs, { d with pos := d.pos + n * k }) ∧ vs.length = k := by
  induction k generalizing d with
  | zero => exact ⟨[], by simp [unbufferVals], rfl⟩
  | succ k ih =>
    rw [Nat.mul_succ] at h
    obtain ⟨vs, e1, e2⟩ := ih { d with pos := d.pos + n } (by dsimp only; omega)
    refine ⟨wrapI 64 (unle ((d.buf.drop d.pos).take n)) :: vs, ?_, by rw [List.length_cons, e2]⟩
    unfold unbufferVals
    rw [unbufferVal_ok (by omega), Option.bind_eq_bind, Option.bind_some]
    dsimp only
    rw [e1]
    simp only [Option.bind_eq_bind, Option.bind_some]
    rw [Nat.mul_succ, show d.pos + n + n * k = d.pos + (n * k + n) by omega]

theorem parseMetrics_ok {d : Des} (h : DesOk d) (hp : d.pos = 0) :
    ∃ m p, parseMetrics d = some (m, { d with pos := p }) ∧ ∀ x, m = some x → x.fti ≤ 4 := by
  unfold parseMetrics
  rw [unbufferVal_ok (by rw [h.len]; omega), Option.bind_eq_bind, Option.bind_some]
  dsimp only
  split
  · exact ⟨none, _, rfl, by simp⟩
  · rename_i hf
    rw [unbufferVal_ok (by dsimp only; rw [h.len]; omega), Option.bind_some]
    refine ⟨_, _, rfl, ?_⟩
    intro x hx
    simp only [Option.some.injEq] at hx
    subst hx
    dsimp only
    omega

/-- What an accepted summary satisfies. -/
structure SumOk (s : Summary) : Prop where
  ntus : 1 ≤ s.ntus
  le : s.ntus ≤ s.nframes.sum
  lt : s.nframes.sum < 2147483648
  len : s.nframes.length = 5
  nonneg : ∀ n ∈ s.nframes, 0 ≤ n
  sums : ∀ n ∈ s.scaleSum, 0 ≤ n
  total : s.total = s.nframes.sum
  exp : s.exp.length = 4
  slen : s.scaleSum.length = 4

theorem badSummary_false {mg ver ntus : Int} {nf ss : List Int} (h : badSummary mg ver ntus nf ss = false) :
    1 ≤ ntus ∧ (∀ n ∈ nf, 0 ≤ n) ∧ nf.sum < 2147483648 ∧ ntus ≤ nf.sum ∧ ∀ n ∈ ss, 0 ≤ n := by
  unfold badSummary at h
  rw [p31] at h
  generalize (magic : Int) = a at h
  generalize (version : Int) = b at h
  simp only [Bool.or_eq_false_iff, decide_eq_false_iff_not, List.any_eq_false, decide_eq_true_eq] at h
  obtain ⟨⟨⟨⟨⟨⟨_, _⟩, h1⟩, h2⟩, h3⟩, h4⟩, h5⟩ := h
  exact ⟨by omega, fun n hn => by have := h2 n hn; omega, by omega, by omega, fun n hn => by have := h5 n hn; omega⟩

theorem parseSummary_ok {d : Des} (h : DesOk d) (hp : d.pos = 0) :
    ∃ s p, parseSummary d = some (s, { d with pos := p }) ∧ ∀ x, s = some x → SumOk x := by
  obtain ⟨v1, f1⟩ := unbufferVal_ex (n := 4) (d := d) (by rw [h.len]; omega)
  obtain ⟨v2, f2⟩ := unbufferVal_ex (n := 4) (d := { d with pos := d.pos + 4 }) (by dsimp only; rw [h.len]; omega)
  obtain ⟨v3, f3⟩ := unbufferVal_ex (n := 4) (d := { d with pos := d.pos + 4 + 4 }) (by dsimp only; rw [h.len]; omega)
  unfold parseSummary
  rw [f1]
  simp only [Option.bind_eq_bind, Option.bind_some]
  rw [f2]
  simp only [Option.bind_some]
  rw [f3]
  simp only [Option.bind_some]
  obtain ⟨nf, e1, l1⟩ := unbufferVals_ok 4 5 { d with pos := d.pos + 4 + 4 + 4 } (by dsimp only; rw [h.len]; omega)
  rw [e1]
  simp only [Option.bind_some]
  obtain ⟨ex, e2, l2⟩ := unbufferVals_ok 1 4 { d with pos := d.pos + 4 + 4 + 4 + 4 * 5 } (by dsimp only; rw [h.len]; omega)
  rw [e2]
  simp only [Option.bind_some]
  obtain ⟨ss, e3, l3⟩ := unbufferVals_ok 8 4 { d with pos := d.pos + 4 + 4 + 4 + 4 * 5 + 1 * 4 } (by dsimp only; rw [h.len]; omega)
  rw [e3]
  simp only [Option.bind_some]
  generalize wrapI 32 v3 = v3
  generalize hnf : nf.map (wrapI 32) = nf'
  have l1' : nf'.length = 5 := by rw [← hnf, List.length_map, l1]
  clear hnf e1 e2 e3
  generalize d.pos + 4 + 4 + 4 + 4 * 5 + 1 * 4 + 8 * 4 = pp
  split
  · exact ⟨none, _, rfl, by simp⟩
  · rename_i hc
    obtain ⟨c1, c2, c3, c4, c5⟩ := badSummary_false (by simpa using hc)
    refine ⟨_, _, rfl, ?_⟩
    intro x hx
    simp only [Option.some.injEq] at hx
    subst hx
    exact ⟨c1, c4, c3, l1', c2, c5, rfl, l2, l3⟩

end Rav1e.Rate

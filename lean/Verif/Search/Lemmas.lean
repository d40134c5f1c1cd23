import Verif.Search.Spec
import Mathlib.Tactic.Ring

/-!
# Motion search: lemmas
-/

namespace Rav1e.Search

open Rav1e.Seg (wrap16)
open Spec

theorem bitLen_size (n : Nat) : Obu.ilog n = Nat.size n := by
  unfold Obu.ilog Ec.bitLen
  split
  · subst n; simp
  · rename_i h
    have h1 : n < 2 ^ (n.log2 + 1) := Nat.lt_log2_self
    have h2 : 2 ^ n.log2 ≤ n := Nat.log2_self_le h
    apply le_antisymm
    · exact Nat.lt_size.mpr h2
    · exact Nat.size_le.mpr h1

theorem wrap_id {a : Int} (h1 : -32768 ≤ a) (h2 : a < 32768) : wrap16 a = a := by
  unfold wrap16; omega

theorem rate_eq (hp : Bool) {v p : MV} (h1 : -32768 ≤ v.row - p.row) (h2 : v.row - p.row < 32768)
    (h3 : -32768 ≤ v.col - p.col) (h4 : v.col - p.col < 32768) : mvRate v p hp = bitsOf hp v p := by
  unfold mvRate bitsOf diffToRate bits
  rw [wrap_id h1 h2, wrap_id h3 h4, bitLen_size, bitLen_size]

theorem cost_eq {c : Ctx} (ok : Ok c) (diff : MV → Nat) {v : MV} (hv : InRange c.lim v) : mvCost c diff v = cost c diff v := by
  obtain ⟨a1, a2, a3, a4⟩ := hv
  obtain ⟨_, _, _, _, _, _, _, _, p1, p2, p3, p4, _⟩ := ok
  unfold mvCost cost
  rw [rate_eq c.hp (by omega) (by omega) (by omega) (by omega), rate_eq c.hp (by omega) (by omega) (by omega) (by omega),
    Nat.mul_comm c.lambda]

theorem bits_le (hp : Bool) {d : Int} (h1 : -32768 ≤ d) (h2 : d < 32768) : bits hp d ≤ 32 := by
  unfold bits
  have : (if hp then d else d / 2).natAbs < 2 ^ 16 := by split <;> omega
  have := Nat.size_le.mpr this
  omega

theorem cost_lt {c : Ctx} (ok : Ok c) {diff : MV → Nat} (hd : Ok32 diff) {v : MV} (hv : InRange c.lim v) :
    cost c diff v < empty.cost := by
  obtain ⟨a1, a2, a3, a4⟩ := hv
  obtain ⟨_, _, _, _, _, _, _, _, p1, p2, p3, p4, hl⟩ := ok
  have e1 : bits c.hp (v.row - c.pmv0.row) ≤ 32 := bits_le _ (by omega) (by omega)
  have e2 : bits c.hp (v.col - c.pmv0.col) ≤ 32 := bits_le _ (by omega) (by omega)
  have e3 : min (bitsOf c.hp v c.pmv0) (bitsOf c.hp v c.pmv1 + 1) ≤ 64 := by
    refine le_trans (min_le_left _ _) ?_
    unfold bitsOf; omega
  have e4 := Nat.mul_le_mul hl.le e3
  have e5 := hd v
  unfold cost empty
  norm_num at e4 e5 ⊢
  omega

theorem rdAt_in {c : Ctx} {diff : MV → Nat} {v : MV} (hv : InRange c.lim v) : rdAt c diff v = ⟨v, mvCost c diff v, diff v⟩ := by
  obtain ⟨a1, a2, a3, a4⟩ := hv
  unfold rdAt
  rw [if_neg (by omega)]

theorem rdAt_out {c : Ctx} {diff : MV → Nat} {v : MV} (hv : ¬ InRange c.lim v) : (rdAt c diff v).cost = empty.cost := by
  unfold rdAt
  rw [if_pos (by unfold InRange at hv; omega)]

theorem rdAt_measured {c : Ctx} (ok : Ok c) {diff : MV → Nat} {v : MV} (hv : InRange c.lim v) : Measured c diff (rdAt c diff v) := by
  rw [rdAt_in hv]
  exact ⟨hv, cost_eq ok diff hv, rfl⟩

theorem rdAt_cost {c : Ctx} (ok : Ok c) {diff : MV → Nat} {v : MV} (hv : InRange c.lim v) : (rdAt c diff v).cost = cost c diff v := by
  rw [rdAt_in hv]
  exact cost_eq ok diff hv

theorem rdAt_mv (c : Ctx) (diff : MV → Nat) (v : MV) : (rdAt c diff v).mv = v := by
  unfold rdAt; split <;> rfl

theorem tryAll_cons (c : Ctx) (diff : MV → Nat) (b : Res) (v : MV) (L : List MV) :
    tryAll c diff b (v :: L) = tryAll c diff (if (rdAt c diff v).cost < b.cost then rdAt c diff v else b) L := rfl

/-- What the loop over candidates leaves. -/
theorem tryAll_spec {c : Ctx} (ok : Ok c) (diff : MV → Nat) : ∀ (L : List MV) (b : Res), b.cost ≤ empty.cost →
    let r := tryAll c diff b L
    (r = b ∨ (Measured c diff r ∧ r.mv ∈ L ∧ r.cost < b.cost)) ∧ r.cost ≤ b.cost ∧
      ∀ v ∈ L, InRange c.lim v → r.cost ≤ cost c diff v := by
  intro L
  induction L with
  | nil => intro b _; exact ⟨Or.inl rfl, le_refl _, by simp⟩
  | cons v L ih =>
    intro b hb
    rw [tryAll_cons]
    by_cases hlt : (rdAt c diff v).cost < b.cost
    · rw [if_pos hlt]
      obtain ⟨h1, h2, h3⟩ := ih (rdAt c diff v) (by omega)
      have hin : InRange c.lim v := by
        by_contra hn
        rw [rdAt_out hn] at hlt
        omega
      refine ⟨Or.inr ?_, by omega, ?_⟩
      · rcases h1 with h1 | ⟨h1, h4, h5⟩
        · rw [h1, rdAt_mv]
          exact ⟨rdAt_measured ok hin, List.mem_cons_self, hlt⟩
        · exact ⟨h1, List.mem_cons_of_mem _ h4, by omega⟩
      · intro w hw hr
        rcases List.mem_cons.mp hw with rfl | hw
        · exact le_trans h2 (le_of_eq (rdAt_cost ok hr))
        · exact h3 w hw hr
    · rw [if_neg hlt]
      obtain ⟨h1, h2, h3⟩ := ih b hb
      refine ⟨?_, h2, ?_⟩
      · rcases h1 with h1 | ⟨h1, h4, h5⟩
        · exact Or.inl h1
        · exact Or.inr ⟨h1, List.mem_cons_of_mem _ h4, h5⟩
      · intro w hw hr
        rcases List.mem_cons.mp hw with rfl | hw
        · rw [← rdAt_cost ok hr]; omega
        · exact h3 w hw hr

/-- A multiple of `m` stays one when `d`, a multiple too, is added modulo `2 ^ 16`. -/
theorem wrap_dvd {m a : Int} (hm : m ∣ 65536) (hm2 : m ∣ 32768) (ha : m ∣ a) : m ∣ wrap16 a := by
  unfold wrap16
  have h1 : m ∣ a + 2 ^ 15 := Int.dvd_add ha (by norm_num; exact hm2)
  have h2 : m ∣ (a + 2 ^ 15) % 2 ^ 16 := by
    rw [Int.emod_def]
    exact Int.dvd_sub h1 (Int.dvd_trans (by norm_num; exact hm) (Int.dvd_mul_right _ _))
  exact Int.dvd_sub h2 (by norm_num; exact hm2)

/-- Both components are multiples of `m`. -/
def Div (m : Int) (v : MV) : Prop := m ∣ v.row ∧ m ∣ v.col

theorem add_div {m : Int} (hm : m ∣ 32768) {a b : MV} (ha : Div m a) (hb : Div m b) : Div m (a.add b) :=
  have h6 : m ∣ 65536 := Int.dvd_trans hm (by norm_num)
  ⟨wrap_dvd h6 hm (Int.dvd_add ha.1 hb.1), wrap_dvd h6 hm (Int.dvd_add ha.2 hb.2)⟩

theorem pattern_div {m d : Int} (h : m ∣ d) : ∀ o ∈ diamondPattern d, Div m o := by
  intro o ho
  simp only [diamondPattern, List.mem_cons, List.not_mem_nil, or_false] at ho
  rcases ho with rfl | rfl | rfl | rfl
  · exact ⟨h, Int.dvd_zero _⟩
  · exact ⟨Int.dvd_zero _, h⟩
  · exact ⟨(Int.dvd_neg).mpr h, Int.dvd_zero _⟩
  · exact ⟨Int.dvd_zero _, (Int.dvd_neg).mpr h⟩

/-- The candidates of the diamond are the vectors `d` up, down, left and right. -/
theorem near_mem {c : Ctx} (ok : Ok c) {p v : MV} {d : Int} (hin : InRange c.lim p) (h0 : 0 ≤ d) (h16 : d ≤ 16)
    (hv : v = ⟨p.row + d, p.col⟩ ∨ v = ⟨p.row - d, p.col⟩ ∨ v = ⟨p.row, p.col + d⟩ ∨ v = ⟨p.row, p.col - d⟩) :
    v ∈ (diamondPattern d).map p.add := by
  obtain ⟨a1, a2, a3, a4⟩ := hin
  have x1 := ok.x1
  have x4 := ok.x4
  have y1 := ok.y1
  have y4 := ok.y4
  have w1 : wrap16 p.row = p.row := wrap_id (by omega) (by omega)
  have w2 : wrap16 p.col = p.col := wrap_id (by omega) (by omega)
  simp only [diamondPattern, List.map_cons, List.map_nil, List.mem_cons, List.not_mem_nil, or_false, MV.add, Int.add_zero, w1, w2]
  rcases hv with rfl | rfl | rfl | rfl
  · exact Or.inl (by rw [wrap_id (by omega) (by omega)])
  · exact Or.inr (Or.inr (Or.inl (by rw [wrap_id (by omega) (by omega), Int.sub_eq_add_neg])))
  · exact Or.inr (Or.inl (by rw [wrap_id (by omega) (by omega)]))
  · exact Or.inr (Or.inr (Or.inr (by rw [wrap_id (by omega) (by omega), Int.sub_eq_add_neg])))

/-- The diamond loop ends; what it returns is not worse, is a local minimum, and keeps multiples of `m`. -/
theorem diamond_spec {c : Ctx} (ok : Ok c) (diff : MV → Nat) (u m : Int) (fin : Nat) (hu : 0 ≤ u) (hm : m ∣ 32768)
    (hmf : m ∣ u * 2 ^ fin) (r : Nat) (cur : Res) (hr : fin ≤ r) (hsmall : u * 2 ^ r ≤ 16) (hg : cur.cost ≤ empty.cost)
    (hin : InRange c.lim cur.mv) (hdiv : Div m cur.mv) :
    ∃ q, diamondLoop c diff u fin r cur = some q ∧ (q = cur ∨ Measured c diff q) ∧ q.cost ≤ cur.cost ∧ Div m q.mv ∧
      InRange c.lim q.mv ∧ LocalMin c diff (u * 2 ^ fin) q := by
  have hmr : m ∣ u * 2 ^ r := by
    obtain ⟨k, rfl⟩ := Nat.exists_eq_add_of_le hr
    rw [pow_add, ← mul_assoc]
    exact Int.dvd_trans hmf (Int.dvd_mul_right _ _)
  have T := tryAll_spec ok diff ((diamondPattern (u * 2 ^ r)).map cur.mv.add) empty (le_refl _)
  rw [diamondLoop]
  generalize tryAll c diff empty ((diamondPattern (u * 2 ^ r)).map cur.mv.add) = best at T ⊢
  obtain ⟨t1, t2, t3⟩ := T
  by_cases hle : cur.cost ≤ best.cost
  · rw [if_pos hle]
    by_cases hf : r = fin
    · rw [if_pos hf]
      refine ⟨cur, rfl, Or.inl rfl, le_refl _, hdiv, hin, ?_⟩
      intro v hv hvr
      refine le_trans hle (t3 v ?_ hvr)
      subst hf
      exact near_mem ok hin (Int.mul_nonneg hu (by positivity)) hsmall hv
    · rw [if_neg hf, if_pos (by omega)]
      exact diamond_spec ok diff u m fin hu hm hmf (r - 1) cur (by omega)
        (le_trans (Int.mul_le_mul_of_nonneg_left (pow_le_pow_right₀ (by norm_num) (by omega)) hu) hsmall) hg hin hdiv
  · have hlt : best.cost < cur.cost := by omega
    rw [if_neg hle]
    rcases t1 with t1 | ⟨t1, t4, t5⟩
    · rw [t1] at hle; omega
    · have hdb : Div m best.mv := by
        obtain ⟨o, ho, e⟩ := List.mem_map.mp t4
        rw [← e]
        exact add_div hm hdiv (pattern_div hmr o ho)
      obtain ⟨q, q1, q2, q3, q4, q5, q6⟩ := diamond_spec ok diff u m fin hu hm hmf r best hr hsmall t5.le t1.1 hdb
      refine ⟨q, q1, Or.inr ?_, by omega, q4, q5, q6⟩
      rcases q2 with rfl | q2
      · exact t1
      · exact q2
termination_by (cur.cost, r)
decreasing_by
  · exact Prod.Lex.right _ (by omega)
  · exact Prod.Lex.left _ _ hlt

end Rav1e.Search

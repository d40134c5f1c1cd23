import Verif.Search.Lemmas

/-!
# Motion search: what each stage guarantees
-/

namespace Rav1e.Search

open Rav1e.Seg (wrap16)
open Spec

theorem zero_in {c : Ctx} (ok : Ok c) : InRange c.lim ⟨0, 0⟩ := by
  obtain ⟨_, _, _, _, _, _, _, _, _, _, _, _, _⟩ := ok
  exact ⟨by simp only; omega, by simp only; omega, by simp only; omega, by simp only; omega⟩

/-- Nothing found yet, or a measured vector. -/
def Start (c : Ctx) (diff : MV → Nat) (r : Res) : Prop := r = empty ∨ Measured c diff r

theorem Start.inRange {c : Ctx} (ok : Ok c) {diff : MV → Nat} {r : Res} (h : Start c diff r) : InRange c.lim r.mv := by
  rcases h with rfl | h
  · exact zero_in ok
  · exact h.1

theorem measured_lt {c : Ctx} (ok : Ok c) {diff : MV → Nat} (hd : Ok32 diff) {r : Res} (h : Measured c diff r) : r.cost < empty.cost := by
  rw [h.2.1]; exact cost_lt ok hd h.1

theorem Start.le {c : Ctx} (ok : Ok c) {diff : MV → Nat} (hd : Ok32 diff) {r : Res} (h : Start c diff r) : r.cost ≤ empty.cost := by
  rcases h with rfl | h
  · exact le_refl _
  · exact (measured_lt ok hd h).le

theorem tryAll_start {c : Ctx} (ok : Ok c) {diff : MV → Nat} (hd : Ok32 diff) {b : Res} (h : Start c diff b) (L : List MV) :
    Start c diff (tryAll c diff b L) ∧ (tryAll c diff b L).cost ≤ b.cost ∧
      (∀ v ∈ L, InRange c.lim v → (tryAll c diff b L).cost ≤ cost c diff v) ∧
      (∀ m, Div m b.mv → (∀ v ∈ L, Div m v) → Div m (tryAll c diff b L).mv) := by
  obtain ⟨h1, h2, h3⟩ := tryAll_spec ok diff L b (h.le ok hd)
  refine ⟨?_, h2, h3, ?_⟩
  · rcases h1 with h1 | h1
    · rw [h1]; exact h
    · exact Or.inr h1.1
  · intro m hb hL
    rcases h1 with h1 | ⟨_, h1, _⟩
    · rw [h1]; exact hb
    · exact hL _ h1

theorem checkFound_some {r : Res} (h : r.cost < empty.cost) : checkFound r = some r := if_neg (by omega)

theorem fullpel_spec {c : Ctx} (ok : Ok c) {diff : MV → Nat} (hd : Ok32 diff) {m : Int} (hm : m ∣ 8) {b : Res}
    (h : Start c diff b) (hb : Div m b.mv) :
    ∃ q, fullpelDiamond c diff b = some q ∧ Measured c diff q ∧ q.cost ≤ b.cost ∧ Div m q.mv ∧ LocalMin c diff 8 q := by
  obtain ⟨q, q1, q2, q3, q4, q5, q6⟩ := diamond_spec ok diff 8 m 0 (by norm_num) (Int.dvd_trans hm (by norm_num))
    (by simpa using hm) 1 b (by omega) (by norm_num) (h.le ok hd) (h.inRange ok) hb
  have hq : Measured c diff q := by
    rcases q2 with rfl | q2
    · rcases h with rfl | h
      · exfalso
        have hv : InRange c.lim ⟨8, 0⟩ := by
          obtain ⟨_, _, _, _, _, _, _, _, _, _, _, _, _⟩ := ok
          exact ⟨by simp only; omega, by simp only; omega, by simp only; omega, by simp only; omega⟩
        have e1 := q6 ⟨8, 0⟩ (Or.inl (by simp [empty])) hv
        have e2 := cost_lt ok hd hv
        omega
      · exact h
    · exact q2
  refine ⟨q, ?_, hq, q3, q4, by simpa using q6⟩
  unfold fullpelDiamond
  rw [q1]
  exact checkFound_some (measured_lt ok hd hq)

theorem div_zero (m : Int) : Div m ⟨0, 0⟩ := ⟨Int.dvd_zero _, Int.dvd_zero _⟩

theorem tryCands_spec {c : Ctx} (ok : Ok c) {diff : MV → Nat} (hd : Ok32 diff) {m : Int} (hm : m ∣ 8) (preds : List MV)
    (hp : ∀ v ∈ preds, Div m v) {best : Res} (h : Start c diff best) :
    ∃ q, tryCands c diff preds best = some q ∧ Measured c diff q ∧ q.cost ≤ best.cost ∧
      (∀ v ∈ preds, InRange c.lim v → q.cost ≤ cost c diff v) ∧
      (best = empty → Div m q.mv ∧ LocalMin c diff 8 q) := by
  obtain ⟨t1, _, t3, t4⟩ := tryAll_start ok hd (b := empty) (Or.inl rfl) preds
  obtain ⟨q, q1, q2, q3, q4, q5⟩ := fullpel_spec ok hd hm t1 (t4 m (div_zero m) hp)
  have hlt := measured_lt ok hd q2
  refine ⟨if q.cost < best.cost then q else best, ?_, ?_, ?_, ?_, ?_⟩
  · unfold tryCands bestPredictor
    rw [q1]; rfl
  · split
    · exact q2
    · rcases h with rfl | h
      · omega
      · exact h
  · split <;> omega
  · intro v hv hr
    have := t3 v hv hr
    split <;> omega
  · rintro rfl
    rw [if_pos hlt]
    exact ⟨q4, q5⟩

theorem hexTry_spec {c : Ctx} (ok : Ok c) (diff : MV → Nat) (p : MV) : ∀ (is : List Nat) (b : Nat × Res), Start c diff b.2 →
    b.2.cost ≤ empty.cost →
    Start c diff (is.foldl (fun b i =>
      let r := rdAt c diff (p.add (hexagon.getD i ⟨0, 0⟩))
      if r.cost < b.2.cost then (i, r) else b) b).2 := by
  intro is
  induction is with
  | nil => intro b hb _; exact hb
  | cons i is ih =>
    intro b hb hle
    rw [List.foldl_cons]
    by_cases hlt : (rdAt c diff (p.add (hexagon.getD i ⟨0, 0⟩))).cost < b.2.cost
    · simp only [hlt, if_true]
      refine ih _ ?_ (by simp only; omega)
      refine Or.inr (rdAt_measured ok ?_)
      by_contra hn
      rw [rdAt_out hn] at hlt
      omega
    · simp only [hlt, if_false]
      exact ih _ hb hle

theorem hexLoop_spec {c : Ctx} (ok : Ok c) {diff : MV → Nat} (hd : Ok32 diff) (cur best : Res) (idx : Nat)
    (h1 : Measured c diff cur) (h2 : Start c diff best) :
    Measured c diff (hexLoop c diff cur best idx) ∧ (hexLoop c diff cur best idx).cost ≤ cur.cost := by
  rw [hexLoop]
  split
  · rename_i hlt
    have hb : Measured c diff best := by
      rcases h2 with rfl | h2
      · have := measured_lt ok hd h1; omega
      · exact h2
    obtain ⟨a, b⟩ := hexLoop_spec ok hd best (hexTry c diff best.mv idx ([5, 6, 7].map fun k => (idx + k) % 6)).2
      (hexTry c diff best.mv idx ([5, 6, 7].map fun k => (idx + k) % 6)).1 hb
      (hexTry_spec ok diff best.mv _ (idx, empty) (Or.inl rfl) (le_refl _))
    exact ⟨a, le_trans b hlt.le⟩
  · exact ⟨h1, le_refl _⟩
termination_by cur.cost

theorem hexagon_spec {c : Ctx} (ok : Ok c) {diff : MV → Nat} (hd : Ok32 diff) {cur : Res} (h : Measured c diff cur) :
    ∃ q, hexagonSearch c diff cur = some q ∧ Measured c diff q ∧ q.cost ≤ cur.cost := by
  obtain ⟨a, b⟩ := hexLoop_spec ok hd cur (hexTry c diff cur.mv 0 (List.range 6)).2 (hexTry c diff cur.mv 0 (List.range 6)).1 h
    (hexTry_spec ok diff cur.mv _ (0, empty) (Or.inl rfl) (le_refl _))
  unfold hexagonSearch
  simp only
  generalize hexLoop c diff cur (hexTry c diff cur.mv 0 (List.range 6)).2 (hexTry c diff cur.mv 0 (List.range 6)).1 = k at a b ⊢
  obtain ⟨t1, _, _, _⟩ := tryAll_start ok hd (b := empty) (Or.inl rfl) (square.map k.mv.add)
  generalize tryAll c diff empty (square.map k.mv.add) = s at t1 ⊢
  have hk := measured_lt ok hd a
  by_cases hlt : s.cost < k.cost
  · rw [if_pos hlt]
    have hs : Measured c diff s := by
      rcases t1 with rfl | t1
      · omega
      · exact t1
    exact ⟨s, checkFound_some (measured_lt ok hd hs), hs, by omega⟩
  · rw [if_neg hlt]
    exact ⟨k, checkFound_some hk, a, b⟩

theorem uneven_spec {c : Ctx} (ok : Ok c) {diff : MV → Nat} (hd : Ok32 diff) {cur : Res} (h : Measured c diff cur) :
    ∃ q, unevenMultiHex c diff cur = some q ∧ Measured c diff q ∧ q.cost ≤ cur.cost := by
  have step : ∀ {r : Res} (L : List MV), Measured c diff r → Measured c diff (tryAll c diff r L) ∧ (tryAll c diff r L).cost ≤ r.cost := by
    intro r L hr
    obtain ⟨t1, t2, _, _⟩ := tryAll_start ok hd (b := r) (Or.inr hr) L
    refine ⟨?_, t2⟩
    rcases t1 with t1 | t1
    · have := measured_lt ok hd hr
      rw [t1] at t2
      omega
    · exact t1
  unfold unevenMultiHex
  rw [checkFound_some (measured_lt ok hd h)]
  obtain ⟨a1, b1⟩ := step (cross.map cur.mv.add) h
  simp only [Option.bind_eq_bind, Option.bind_some]
  generalize tryAll c diff cur (cross.map cur.mv.add) = r1 at a1 b1 ⊢
  obtain ⟨a2, b2⟩ := step (five.map r1.mv.add) a1
  generalize tryAll c diff r1 (five.map r1.mv.add) = r2 at a2 b2 ⊢
  obtain ⟨a3, b3⟩ := step (umh.map r2.mv.add) a2
  generalize tryAll c diff r2 (umh.map r2.mv.add) = r3 at a3 b3 ⊢
  obtain ⟨q, q1, q2, q3⟩ := hexagon_spec ok hd a3
  exact ⟨q, q1, q2, by omega⟩

/-- The pixels of `steps`. -/
theorem mem_steps {lo hi : Int} {step : Nat} (hs : 0 < step) (h : lo ≤ hi) (x : Int) :
    x ∈ steps lo hi step ↔ lo ≤ x ∧ x ≤ hi ∧ (step : Int) ∣ x - lo := by
  unfold steps
  rw [List.mem_map]
  constructor
  · rintro ⟨k, hk, rfl⟩
    have hk := List.mem_range.mp hk
    have h1 : k * step ≤ (hi - lo).toNat := (Nat.le_div_iff_mul_le hs).mp (by omega)
    refine ⟨by omega, by omega, ⟨k, by push_cast; ring⟩⟩
  · rintro ⟨h1, h2, ⟨k, hk⟩⟩
    have hk0 : 0 ≤ k := by
      by_contra hn
      have : (step : Int) * k < 0 := Int.mul_neg_of_pos_of_neg (by omega) (by omega)
      omega
    obtain ⟨n, rfl⟩ := Int.eq_ofNat_of_zero_le hk0
    refine ⟨n, List.mem_range.mpr ?_, ?_⟩
    · have : n * step ≤ (hi - lo).toNat := by
        have e : ((n * step : Nat) : Int) = x - lo := by rw [hk]; push_cast; ring
        omega
      have := (Nat.le_div_iff_mul_le hs).mpr this
      omega
    · rw [show ((n * step : Nat) : Int) = step * n by push_cast; ring]
      have hk' : x - lo = step * n := hk
      omega

/-- The grid of a full search. -/
def Grid (xlo xhi ylo yhi : Int) (step : Nat) (v : MV) : Prop :=
  ∃ y x : Int, v = ⟨8 * y, 8 * x⟩ ∧ (ylo ≤ y ∧ y ≤ yhi ∧ (step : Int) ∣ y - ylo) ∧ xlo ≤ x ∧ x ≤ xhi ∧ (step : Int) ∣ x - xlo

theorem full_spec {c : Ctx} (ok : Ok c) {diff : MV → Nat} (hd : Ok32 diff) (h0 : c.pmv0 = ⟨0, 0⟩) (h1 : c.pmv1 = ⟨0, 0⟩)
    {xlo xhi ylo yhi : Int} {step : Nat} (hs : 0 < step) (hx : xlo ≤ xhi) (hy : ylo ≤ yhi)
    (a1 : c.lim.xmin ≤ 8 * xlo) (a2 : 8 * xhi ≤ c.lim.xmax) (a3 : c.lim.ymin ≤ 8 * ylo) (a4 : 8 * yhi ≤ c.lim.ymax) :
    Start c diff (fullSearch c diff xlo xhi ylo yhi step) ∧
      ∀ v, Grid xlo xhi ylo yhi step v → (fullSearch c diff xlo xhi ylo yhi step).cost ≤ cost c diff v := by
  have hc : ({ c with pmv0 := ⟨0, 0⟩, pmv1 := ⟨0, 0⟩ } : Ctx) = c := by
    cases c; simp only at h0 h1; rw [h0, h1]
  have hmem : ∀ v, v ∈ ((steps ylo yhi step).flatMap fun y => (steps xlo xhi step).map fun x => (⟨8 * y, 8 * x⟩ : MV)) ↔
      Grid xlo xhi ylo yhi step v := by
    intro v
    simp only [List.mem_flatMap, List.mem_map, mem_steps hs hx, mem_steps hs hy]
    constructor
    · rintro ⟨y, b1, x, b2, rfl⟩; exact ⟨y, x, rfl, b1, b2⟩
    · rintro ⟨y, x, rfl, b1, b2⟩; exact ⟨y, b1, x, b2, rfl⟩
  have hin : ∀ v, Grid xlo xhi ylo yhi step v → InRange c.lim v := by
    rintro v ⟨y, x, rfl, b1, b2⟩
    exact ⟨by simp only; omega, by simp only; omega, by simp only; omega, by simp only; omega⟩
  have he : fullSearch c diff xlo xhi ylo yhi step =
      tryAll c diff empty ((steps ylo yhi step).flatMap fun y => (steps xlo xhi step).map fun x => (⟨8 * y, 8 * x⟩ : MV)) := by
    unfold fullSearch tryAll
    rw [hc]
    have : ∀ (L : List MV) (b : Res), (∀ v ∈ L, InRange c.lim v) →
        L.foldl (fun b v =>
          let cost := mvCost c diff v
          if cost < b.cost then (⟨v, cost, diff v⟩ : Res) else b) b =
        L.foldl (fun b v => if (rdAt c diff v).cost < b.cost then rdAt c diff v else b) b := by
      intro L
      induction L with
      | nil => intro b _; rfl
      | cons w L ih =>
        intro b hL
        rw [List.foldl_cons, List.foldl_cons, rdAt_in (hL w List.mem_cons_self)]
        exact ih _ fun v hv => hL v (List.mem_cons_of_mem _ hv)
    exact this _ _ fun v hv => hin v ((hmem v).mp hv)
  rw [he]
  obtain ⟨t1, _, t3, _⟩ := tryAll_start ok hd (b := empty) (Or.inl rfl)
    ((steps ylo yhi step).flatMap fun y => (steps xlo xhi step).map fun x => (⟨8 * y, 8 * x⟩ : MV))
  exact ⟨t1, fun v hv => t3 v ((hmem v).mpr hv) (hin v hv)⟩

/-- A full search returns whole pixels. -/
theorem full_div (c : Ctx) (diff : MV → Nat) (xlo xhi ylo yhi : Int) (step : Nat) : Div 8 (fullSearch c diff xlo xhi ylo yhi step).mv := by
  unfold fullSearch
  have key : ∀ (L : List MV) (b : Res), Div 8 b.mv → (∀ v ∈ L, Div 8 v) →
      Div 8 (L.foldl (fun b v =>
        let cost := mvCost { c with pmv0 := ⟨0, 0⟩, pmv1 := ⟨0, 0⟩ } diff v
        if cost < b.cost then (⟨v, cost, diff v⟩ : Res) else b) b).mv := by
    intro L
    induction L with
    | nil => intro b hb _; exact hb
    | cons w L ih =>
      intro b hb hL
      rw [List.foldl_cons]
      refine ih _ ?_ fun v hv => hL v (List.mem_cons_of_mem _ hv)
      simp only
      split
      · exact hL w List.mem_cons_self
      · exact hb
  refine key _ _ (div_zero 8) ?_
  intro v hv
  simp only [List.mem_flatMap, List.mem_map] at hv
  obtain ⟨y, _, x, _, rfl⟩ := hv
  exact ⟨Int.dvd_mul_right _ _, Int.dvd_mul_right _ _⟩

end Rav1e.Search

import Verif.Search.Stages

/-!
# Motion search: theorems
-/

namespace Rav1e.Search

open Spec

/-- **C70**, the limits: for a block inside the frame they satisfy what the theorems below ask of limits, at every resolution,
and allow only vectors a stream can have (`get_mv_range`). -/
theorem limits_ok (w h bx byy bw bh s : Nat) (hx : bx ≤ w) (hy : byy ≤ h) (hs : s ≤ 2) (p0 p1 : MV) (lambda : Nat) (hp : Bool)
    (h0 : -16384 < p0.row ∧ p0.row < 16384 ∧ -16384 < p0.col ∧ p0.col < 16384)
    (h1 : -16384 < p1.row ∧ p1.row < 16384 ∧ -16384 < p1.col ∧ p1.col < 16384) (hl : lambda < 2 ^ 32) :
    Ok ⟨(getMvRange w h bx byy bw bh).shr s, p0, p1, lambda, hp⟩ := by
  have e : ∀ s : Nat, s ≤ 2 → (2 : Int) ^ s = 1 ∨ (2 : Int) ^ s = 2 ∨ (2 : Int) ^ s = 4 := by
    intro s hs
    interval_cases s <;> simp
  refine ⟨?_, ?_, ?_, ?_, ?_, ?_, ?_, ?_, ⟨h0.1, h0.2.1⟩, h0.2.2, ⟨h1.1, h1.2.1⟩, h1.2.2, hl⟩ <;>
    simp only [getMvRange, Lim.shr] <;> rcases e s hs with e | e | e <;> rw [e] <;> omega

example : getMvRange 480 270 10 20 16 16 = ⟨-576, 15168, -896, 8128⟩ := by decide +kernel

/-- A stored vector becomes an allowed predictor. -/
theorem cand_in {c : Ctx} (ok : Ok c) (s : Nat) (v : MV) : InRange c.lim (cand c.lim s v) := by
  obtain ⟨_, _, _, _, _, _, _, _, _, _, _, _, _⟩ := ok
  have key : ∀ a lo hi : Int, lo ≤ 0 → 0 ≤ hi → lo ≤ a → a ≤ hi → lo ≤ a / 2 ^ s ∧ a / 2 ^ s ≤ hi := by
    intro a lo hi h1 h2 h3 h4
    have hp : (0 : Int) < 2 ^ s := by positivity
    have h1' : (1 : Int) ≤ 2 ^ s := hp
    constructor
    · rw [Int.le_ediv_iff_mul_le hp]
      nlinarith
    · rcases lt_or_ge a 0 with ha | ha
      · have := Int.ediv_neg_of_neg_of_pos ha hp; omega
      · exact le_trans (Int.ediv_le_self _ ha) h4
  obtain ⟨k1, k2⟩ := key (max c.lim.xmin (min (v.col.tdiv 8 * 8) c.lim.xmax)) c.lim.xmin c.lim.xmax (by omega) (by omega) (by omega) (by omega)
  obtain ⟨k3, k4⟩ := key (max c.lim.ymin (min (v.row.tdiv 8 * 8) c.lim.ymax)) c.lim.ymin c.lim.ymax (by omega) (by omega) (by omega) (by omega)
  exact ⟨k1, k2, k3, k4⟩

theorem div_one (v : MV) : Div 1 v := ⟨Int.one_dvd _, Int.one_dvd _⟩

/-- The search of the mode decision, with multiples of `m` kept. -/
theorem final_aux {c : Ctx} (ok : Ok c) {sadF satdF sadS : MV → Nat} (hF : Ok32 sadF) (hT : Ok32 satdF) (useSatd : Bool)
    (s : Subsets) (m n : Int) (hm : m ∣ 8) (hn : n ∣ 32768) (hnm : n ∣ m) (hnf : n ∣ 2 ^ (if c.hp then 0 else 1))
    (hdiv : ∀ v ∈ s.all, Div m v) :
    ∃ p q, fullPixelMe c sadF s false false 0 0 0 = some p ∧ estimateFinal c sadF satdF sadS useSatd s = some q ∧
      Measured c sadF p ∧ LocalMin c sadF 8 p ∧ (∀ v ∈ s.all, InRange c.lim v → p.cost ≤ cost c sadF v) ∧
      InRange c.lim q.mv ∧ q.cost ≤ cost c (if useSatd then satdF else sadF) p.mv ∧
      (Measured c sadS q ∨ (q.mv = p.mv ∧ Measured c (if useSatd then satdF else sadF) q)) ∧
      LocalMin c sadS (if c.hp then 1 else 2) q ∧ Div n q.mv := by
  obtain ⟨p, p1, p2, p3, p4, p5⟩ := tryCands_spec ok hF hm s.all hdiv (best := empty) (Or.inl rfl)
  obtain ⟨p5, p6⟩ := p5 rfl
  have hp : fullPixelMe c sadF s false false 0 0 0 = some p := by
    unfold fullPixelMe
    simpa using p1
  have hst : ∃ t : Res, (if useSatd then rdAt c satdF p.mv else p) = t ∧ t.mv = p.mv ∧
      Measured c (if useSatd then satdF else sadF) t ∧ t.cost < empty.cost := by
    cases useSatd
    · exact ⟨p, rfl, rfl, p2, measured_lt ok hF p2⟩
    · have := rdAt_measured ok (diff := satdF) p2.1
      exact ⟨_, rfl, rdAt_mv _ _ _, this, measured_lt ok hT this⟩
  obtain ⟨t, t1, t2, t3, t4⟩ := hst
  obtain ⟨q, q1, q2, q3, q4, q5, q6⟩ := diamond_spec ok sadS 1 n (if c.hp then 0 else 1) (by norm_num) hn (by rw [Int.one_mul]; exact hnf)
    2 t (by split <;> omega) (by norm_num) t4.le (t2 ▸ p2.1) (t2 ▸ ⟨Int.dvd_trans hnm p5.1, Int.dvd_trans hnm p5.2⟩)
  refine ⟨p, q, hp, ?_, p2, p6, p4, q5, ?_, ?_, ?_, q4⟩
  · unfold estimateFinal
    rw [hp]
    simp only [Option.bind_eq_bind, Option.bind_some, t1]
    unfold subpelDiamond
    rw [q1]
    exact checkFound_some (by omega)
  · rw [← t2, ← t3.2.1]; exact q3
  · rcases q2 with rfl | q2
    · exact Or.inr ⟨t2, t3⟩
    · exact Or.inl q2
  · have : (1 : Int) * 2 ^ (if c.hp then 0 else 1) = if c.hp then 1 else 2 := by cases c.hp <;> rfl
    rw [this] at q6
    exact q6

/-- **C70**, the search of the mode decision: whatever the pictures, the stored vectors and the predictions are, it ends without a
failed assertion.  The whole-pixel stage (`p`) returns an allowed vector with its cost, no predictor costs less and no vector a pixel
away does.  The result (`q`) is an allowed vector with the cost of one of its measures, not worse than `p`, and no vector a quarter (or
an eighth) of a pixel away costs less. -/
theorem final_search {c : Ctx} (ok : Ok c) {sadF satdF sadS : MV → Nat} (hF : Ok32 sadF) (hT : Ok32 satdF)
    (useSatd : Bool) (s : Subsets) :
    ∃ p q, fullPixelMe c sadF s false false 0 0 0 = some p ∧ estimateFinal c sadF satdF sadS useSatd s = some q ∧
      Measured c sadF p ∧ LocalMin c sadF 8 p ∧ (∀ v ∈ s.all, InRange c.lim v → p.cost ≤ cost c sadF v) ∧
      InRange c.lim q.mv ∧ q.cost ≤ cost c (if useSatd then satdF else sadF) p.mv ∧
      (Measured c sadS q ∨ (q.mv = p.mv ∧ Measured c (if useSatd then satdF else sadF) q)) ∧
      LocalMin c sadS (if c.hp then 1 else 2) q := by
  obtain ⟨p, q, h1, h2, h3, h4, h5, h6, h7, h8, h9, _⟩ := final_aux ok hF hT useSatd s 1 1 (by norm_num) (by norm_num) (by norm_num)
    (Int.one_dvd _) fun v _ => div_one v
  exact ⟨p, q, h1, h2, h3, h4, h5, h6, h7, h8, h9⟩

theorem tdiv8 (a : Int) : (0 ≤ a → 8 * a.tdiv 8 ≤ a ∧ 0 ≤ a.tdiv 8) ∧ (a ≤ 0 → a ≤ 8 * a.tdiv 8 ∧ a.tdiv 8 ≤ 0) := by
  constructor
  · intro h
    rw [Int.tdiv_eq_ediv_of_nonneg h]; omega
  · intro h
    obtain ⟨b, rfl⟩ : ∃ b, a = -b := ⟨-a, by omega⟩
    rw [Int.neg_tdiv, Int.tdiv_eq_ediv_of_nonneg (by omega)]; omega

/-- A stored vector that a stream can have becomes a predictor of whole pixels. -/
theorem cand_whole (w h bx byy bw bh : Nat) (hx : bx ≤ w) (hy : byy ≤ h) (v : MV) (h1 : -16384 < v.row ∧ v.row < 16384) (h2 : -16384 < v.col ∧ v.col < 16384) :
    Div 8 (cand ((getMvRange w h bx byy bw bh).shr 0) 0 v) := by
  unfold cand Div getMvRange Lim.shr
  simp only [pow_zero, Int.ediv_one]
  have k : ∀ a : Int, -16384 < a → a < 16384 → ∃ t, a.tdiv 8 * 8 = 8 * t ∧ -16384 < 8 * t ∧ 8 * t < 16384 := by
    intro a b1 b2
    have := tdiv8 a
    refine ⟨a.tdiv 8, by ring, ?_, ?_⟩ <;> omega
  obtain ⟨t1, e1, f1, g1⟩ := k v.row h1.1 h1.2
  obtain ⟨t2, e2, f2, g2⟩ := k v.col h2.1 h2.2
  rw [e1, e2]
  constructor <;> omega

/-- **C70**, precision: the encoder writes vectors in quarters of a pixel.  With the limits of any block and stored vectors a stream can
have, both components of the result are even, so no bit is lost, and the vector is one a stream can have. -/
theorem final_codable (w h bx byy bw bh : Nat) (hx : bx ≤ w) (hy : byy ≤ h) (p0 p1 : MV) (lambda : Nat) (hl : lambda < 2 ^ 32)
    (h0 : -16384 < p0.row ∧ p0.row < 16384 ∧ -16384 < p0.col ∧ p0.col < 16384)
    (h1 : -16384 < p1.row ∧ p1.row < 16384 ∧ -16384 < p1.col ∧ p1.col < 16384)
    {sadF satdF sadS : MV → Nat} (hF : Ok32 sadF) (hT : Ok32 satdF) (useSatd : Bool) (center : MV) (sb sc : List MV)
    (hst : ∀ v ∈ center :: (sb ++ sc), (-16384 < v.row ∧ v.row < 16384) ∧ -16384 < v.col ∧ v.col < 16384) :
    ∃ q, estimateFinal ⟨(getMvRange w h bx byy bw bh).shr 0, p0, p1, lambda, false⟩ sadF satdF sadS useSatd
        (subsets ((getMvRange w h bx byy bw bh).shr 0) 0 (some center) sb sc) = some q ∧
      2 ∣ q.mv.row ∧ 2 ∣ q.mv.col ∧ -16384 < q.mv.row ∧ q.mv.row < 16384 ∧ -16384 < q.mv.col ∧ q.mv.col < 16384 := by
  have ok := limits_ok w h bx byy bw bh 0 hx hy (by omega) p0 p1 lambda false h0 h1 hl
  have hc : ∀ v ∈ center :: (sb ++ sc), Div 8 (cand ((getMvRange w h bx byy bw bh).shr 0) 0 v) := fun v hv =>
    cand_whole w h bx byy bw bh hx hy v (hst v hv).1 (hst v hv).2
  have hdiv : ∀ v ∈ (subsets ((getMvRange w h bx byy bw bh).shr 0) 0 (some center) sb sc).all, Div 8 v := by
    intro v hv
    simp only [subsets, Subsets.all, Option.toList_some, List.mem_append, List.mem_map, List.mem_singleton] at hv
    rcases hv with (rfl | ⟨a, ha, rfl⟩ | rfl) | ⟨a, ha, rfl⟩
    · exact hc center List.mem_cons_self
    · exact hc a (List.mem_cons_of_mem _ (List.mem_append_left _ ha))
    · exact div_zero 8
    · exact hc a (List.mem_cons_of_mem _ (List.mem_append_right _ ha))
  obtain ⟨p, q, _, g2, _, _, _, g6, _, _, _, g10⟩ := final_aux ok hF hT useSatd _ 8 2 (by norm_num) (by norm_num) (by norm_num)
    (by simp) hdiv
  refine ⟨q, g2, g10.1, g10.2, ?_⟩
  obtain ⟨a1, a2, a3, a4⟩ := g6
  simp only [getMvRange, Lim.shr, pow_zero, Int.ediv_one] at a1 a2 a3 a4
  omega

/-- **C70**, a case `final_codable` excludes: the search at a quarter of the resolution can store `-16384`, which is one less than a
stream can have.  It becomes a predictor that is not even (`-16383`). -/
theorem stored_edge : (getMvRange 1024 16 900 0 16 16).shr 0 = ⟨-16383, 4096, -256, 640⟩ ∧
    InRange ((getMvRange 1024 16 900 0 16 16).shr 2) ⟨0, -4096⟩ ∧
    cand ((getMvRange 1024 16 900 0 16 16).shr 0) 0 ⟨0, -4096 * 2 ^ 2⟩ = ⟨0, -16383⟩ := by
  refine ⟨by decide +kernel, by unfold InRange; decide +kernel, by decide +kernel⟩

/-- **C70**, the extensive search of the first pass: it ends without a failed assertion in an allowed vector with its cost.  Unless it
stopped early because the difference is below the threshold, no predictor costs less, and with full search no vector of the searched
grid does. -/
theorem extensive_search {c : Ctx} (ok : Ok c) {sad : MV → Nat} (hd : Ok32 sad) (h0 : c.pmv0 = ⟨0, 0⟩) (h1 : c.pmv1 = ⟨0, 0⟩)
    (s : Subsets) (allowFull : Bool) (thresh scale ssdec : Nat) (hs : ssdec ≤ 2) :
    ∃ q, fullPixelMe c sad s true allowFull thresh scale ssdec = some q ∧ Measured c sad q ∧
      (∀ v ∈ s.median, InRange c.lim v → q.cost ≤ cost c sad v) ∧
      (q.sad < thresh ∨ ((∀ v ∈ s.all, InRange c.lim v → q.cost ≤ cost c sad v) ∧
        (allowFull = true → ∀ v, Grid (max (-(192 * scale / 2 ^ ssdec : Nat)) (c.lim.xmin.tdiv 8)) (min (192 * scale / 2 ^ ssdec : Nat) (c.lim.xmax.tdiv 8))
          (max (-(64 * scale / 2 ^ ssdec : Nat)) (c.lim.ymin.tdiv 8)) (min (64 * scale / 2 ^ ssdec : Nat) (c.lim.ymax.tdiv 8)) (4 / 2 ^ ssdec) v →
          q.cost ≤ cost c sad v))) := by
  have hm : ∃ b, tryMedian c sad s.median = some b ∧ Start c sad b ∧
      (s.median.isSome → Measured c sad b) ∧ ∀ v ∈ s.median, InRange c.lim v → b.cost ≤ cost c sad v := by
    cases hmed : s.median with
    | none => exact ⟨empty, rfl, Or.inl rfl, by simp, by simp⟩
    | some m =>
      obtain ⟨q, q1, q2, q3, q4, _⟩ := tryCands_spec ok hd (m := 1) (by norm_num) [m] (fun v _ => div_one v) (best := empty) (Or.inl rfl)
      refine ⟨q, q1, Or.inr q2, fun _ => q2, ?_⟩
      intro v hv hr
      simp only [Option.mem_def, Option.some.injEq] at hv
      exact q4 v (by simp [hv]) hr
  obtain ⟨b0, e0, s0, m0, l0⟩ := hm
  unfold fullPixelMe
  simp only [Bool.not_true, Bool.false_eq_true, if_false, e0, Option.bind_eq_bind, Option.bind_some]
  by_cases c0 : s.median.isSome ∧ b0.sad < thresh
  · rw [if_pos c0]
    exact ⟨b0, rfl, m0 c0.1, l0, Or.inl c0.2⟩
  rw [if_neg c0]
  obtain ⟨b1, e1, m1, k1, l1, _⟩ := tryCands_spec ok hd (m := 1) (by norm_num) s.b (fun v _ => div_one v) s0
  rw [e1]
  simp only [Option.bind_some]
  have l01 : ∀ v ∈ s.median, InRange c.lim v → b1.cost ≤ cost c sad v := fun v hv hr => le_trans k1 (l0 v hv hr)
  by_cases c1 : b1.sad < thresh
  · rw [if_pos c1]
    exact ⟨b1, rfl, m1, l01, Or.inl c1⟩
  rw [if_neg c1]
  obtain ⟨b2, e2, m2, k2, l2, _⟩ := tryCands_spec ok hd (m := 1) (by norm_num) s.c (fun v _ => div_one v) (Or.inr m1)
  rw [e2]
  simp only [Option.bind_some]
  have l012 : ∀ v ∈ s.median, InRange c.lim v → b2.cost ≤ cost c sad v := fun v hv hr => le_trans k2 (l01 v hv hr)
  have all2 : ∀ v ∈ s.all, InRange c.lim v → b2.cost ≤ cost c sad v := by
    intro v hv hr
    simp only [Subsets.all, List.mem_append, Option.mem_toList] at hv
    rcases hv with (hv | hv) | hv
    · exact l012 v hv hr
    · exact le_trans k2 (l1 v hv hr)
    · exact l2 v hv hr
  by_cases c2 : b2.sad < thresh
  · rw [if_pos c2]
    exact ⟨b2, rfl, m2, l012, Or.inl c2⟩
  rw [if_neg c2]
  obtain ⟨b3, e3, m3, k3⟩ := uneven_spec ok hd m2
  rw [e3]
  simp only [Option.bind_some]
  have all3 : ∀ v ∈ s.all, InRange c.lim v → b3.cost ≤ cost c sad v := fun v hv hr => le_trans k3 (all2 v hv hr)
  have med3 : ∀ v ∈ s.median, InRange c.lim v → b3.cost ≤ cost c sad v := fun v hv hr => le_trans k3 (l012 v hv hr)
  by_cases c3 : (!allowFull) = true ∨ b3.sad < thresh
  · rw [if_pos c3]
    refine ⟨b3, rfl, m3, med3, ?_⟩
    rcases c3 with c3 | c3
    · exact Or.inr ⟨all3, fun h => by simp [h] at c3⟩
    · exact Or.inl c3
  rw [if_neg c3]
  have hstep : 0 < 4 / 2 ^ ssdec := by interval_cases ssdec <;> decide
  obtain ⟨x1, x2, x3, x4, y1, y2, y3, y4, _, _, _, _, _⟩ := ok
  have d1 := tdiv8 c.lim.xmin
  have d2 := tdiv8 c.lim.xmax
  have d3 := tdiv8 c.lim.ymin
  have d4 := tdiv8 c.lim.ymax
  generalize 192 * scale / 2 ^ ssdec = rx
  generalize 64 * scale / 2 ^ ssdec = ry
  obtain ⟨f1, f2⟩ := full_spec ⟨x1, x2, x3, x4, y1, y2, y3, y4, by assumption, by assumption, by assumption, by assumption, by assumption⟩ hd h0 h1
    (xlo := max (-(rx : Int)) (c.lim.xmin.tdiv 8)) (xhi := min (rx : Int) (c.lim.xmax.tdiv 8))
    (ylo := max (-(ry : Int)) (c.lim.ymin.tdiv 8)) (yhi := min (ry : Int) (c.lim.ymax.tdiv 8))
    hstep (by omega) (by omega) (by omega) (by omega) (by omega) (by omega)
  refine ⟨_, rfl, ?_, ?_, Or.inr ⟨?_, ?_⟩⟩
  · split
    · rename_i hlt
      rcases f1 with f1 | f1
      · rw [f1] at hlt
        have := measured_lt ⟨x1, x2, x3, x4, y1, y2, y3, y4, by assumption, by assumption, by assumption, by assumption, by assumption⟩ hd m3
        omega
      · exact f1
    · exact m3
  · intro v hv hr
    have := med3 v hv hr
    split <;> omega
  · intro v hv hr
    have := all3 v hv hr
    split <;> omega
  · intro _ v hv
    have := f2 v hv
    split <;> omega

/-- **C70**, a defect: the "5x5 full search" of the extensive search moves in eighths of a pixel, but the block that is compared is read
at the whole pixel towards zero.  Here the stage returns 70 eighths (8.75 pixels) with the difference of the block at pixel 8. -/
theorem five_fractional :
    let c : Ctx := ⟨⟨-512, 512, -512, 512⟩, ⟨0, 0⟩, ⟨0, 0⟩, 1, false⟩
    let pic : Int → Int → Nat := fun y x => if y = 8 ∧ x = 0 then 0 else if y = 9 ∧ x = 0 then 100 else 1000
    let sad : MV → Nat := fun v => pic (v.row.tdiv 8) (v.col.tdiv 8)
    (tryAll c sad ⟨⟨72, 0⟩, mvCost c sad ⟨72, 0⟩, 100⟩ (five.map (MV.add ⟨72, 0⟩))).mv = ⟨70, 0⟩ ∧ sad ⟨70, 0⟩ = 0 ∧
      Ok c := by
  refine ⟨by decide +kernel, by decide +kernel, ?_⟩
  constructor <;> decide +kernel

/-- **C70**, a defect: the pattern of the uneven hexagons is not symmetric; it has `(3, -2)` twice and `(-3, -2)` not at all (column, row). -/
theorem umh_asymmetric : (⟨-2 * 8, 3 * 8⟩ : MV) ∈ umhPattern ∧ (⟨-2 * 8, -3 * 8⟩ : MV) ∉ umhPattern ∧ ¬ umhPattern.Nodup ∧
    ∃ v ∈ umhPattern, (⟨v.row, -v.col⟩ : MV) ∉ umhPattern := by decide +kernel

/-- The hypotheses of the theorems are met: a block of a frame of 1920x1080, differences of a real measure. -/
example : ∃ c : Ctx, Ok c ∧ Ok32 (fun v => (v.row * v.row + v.col).toNat % 1000) :=
  ⟨⟨(getMvRange 480 270 10 20 16 16).shr 0, ⟨8, -6⟩, ⟨0, 0⟩, 77, false⟩,
    limits_ok 480 270 10 20 16 16 0 (by decide) (by decide) (by decide) _ _ _ _ (by decide) (by decide) (by decide),
    fun v => lt_of_lt_of_le (Nat.mod_lt _ (by decide)) (by decide)⟩

end Rav1e.Search

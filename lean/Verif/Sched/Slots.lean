import Verif.Sched.PlanInv

/-!
# What the eight reference slots hold before each output position
-/

namespace Rav1e.Sched

theorem RefSet.at_refresh (s : RefSet) (f : Nat) (r : Ref) (i : Nat)
    (hs : s.length = 8) :
    (s.refresh f r).at i = if i < 8 ∧ f.testBit i then some r else s.at i := by
  unfold RefSet.refresh RefSet.at
  rw [List.getD_eq_getElem?_getD, List.getD_eq_getElem?_getD, List.getElem?_mapIdx]
  by_cases hi : i < 8
  · have : s[i]? = some s[i] := List.getElem?_eq_getElem (by omega)
    rw [this]
    simp only [Option.map_some, Option.getD_some]
    by_cases hb : f.testBit i <;> simp [hb, hi]
  · have : s[i]? = none := List.getElem?_eq_none (by omega)
    rw [this]; simp [hi]

theorem RefSet.length_refresh (s : RefSet) (f : Nat) (r : Ref) :
    (s.refresh f r).length = s.length := by
  unfold RefSet.refresh; simp

theorem RefSet.ext_at (s t : RefSet) (hs : s.length = 8) (ht : t.length = 8)
    (h : ∀ i, i < 8 → s.at i = t.at i) : s = t := by
  apply List.ext_getElem (by omega)
  intro i h1 h2
  have := h i (by omega)
  unfold RefSet.at at this
  rw [List.getD_eq_getElem?_getD, List.getD_eq_getElem?_getD,
    List.getElem?_eq_getElem h1, List.getElem?_eq_getElem h2] at this
  simpa using this

theorem testBit_255 (i : Nat) (h : i < 8) : Nat.testBit 255 i = true := by
  have : i = 0 ∨ i = 1 ∨ i = 2 ∨ i = 3 ∨ i = 4 ∨ i = 5 ∨ i = 6 ∨ i = 7 := by omega
  rcases this with h | h | h | h | h | h | h | h <;> subst h <;> decide

theorem testBit_one (k i : Nat) : Nat.testBit (1 <<< k) i = decide (i = k) := by
  rw [Nat.one_shiftLeft, Nat.testBit_two_pow]
  simp only [eq_comm]

theorem RefSet.refresh_all (s t : RefSet) (hs : s.length = 8) (ht : t.length = 8)
    (r : Ref) : s.refresh 255 r = t.refresh 255 r := by
  apply RefSet.ext_at _ _ (by rw [length_refresh, hs]) (by rw [length_refresh, ht])
  intro i hi
  rw [at_refresh _ _ _ _ hs, at_refresh _ _ _ _ ht, if_pos ⟨hi, testBit_255 i hi⟩,
    if_pos ⟨hi, testBit_255 i hi⟩]

section
variable (c : Cfg) (K : Nat → Bool) (lim : Option Nat) (pic : Nat → Pic)

/-- The slots before output `o`, when a frame made from input `n` leaves
`pic n` behind. -/
def slotsAt : Nat → RefSet
  | 0 => RefSet.empty
  | o + 1 =>
    match plan c K lim o with
    | some p =>
      if p.sef then slotsAt o
      else (slotsAt o).refresh p.refresh ⟨p.orderHint, o, pic p.input⟩
    | none => slotsAt o

theorem slotsAt_length (o : Nat) : (slotsAt c K lim pic o).length = 8 := by
  induction o with
  | zero => rfl
  | succ o ih =>
    rw [slotsAt]
    split
    · split
      · exact ih
      · rw [RefSet.length_refresh]; exact ih
    · exact ih

theorem slotsAt_step (o i : Nat) :
    (slotsAt c K lim pic (o + 1)).at i =
      match plan c K lim o with
      | some p => if p.sef = false ∧ i < 8 ∧ p.refresh.testBit i = true then
          some ⟨p.orderHint, o, pic p.input⟩ else (slotsAt c K lim pic o).at i
      | none => (slotsAt c K lim pic o).at i := by
  rw [slotsAt]
  cases hp : plan c K lim o with
  | none => rfl
  | some p =>
    simp only
    cases hs : p.sef with
    | true => simp
    | false =>
      simp only [Bool.false_eq_true, if_false]
      rw [RefSet.at_refresh _ _ _ _ (slotsAt_length c K lim pic o)]
      simp

/-- Every slot holds a frame of the current group of pictures, once there is one. -/
theorem slotsAt_held (hv : c.Valid) (o i : Nat) (hi : i < 8) :
    ∃ r p, (slotsAt c K lim pic (o + 1)).at i = some r ∧ r.outputFrameno ≤ o ∧
      plan c K lim r.outputFrameno = some p ∧ p.sef = false ∧
      r = ⟨p.orderHint, r.outputFrameno, pic p.input⟩ ∧
      sched c K lim r.outputFrameno = sched c K lim o := by
  induction o with
  | zero =>
    have h0 : sched c K lim 0 = (0, 0) := rfl
    rw [slotsAt_step, plan_key c K lim h0]
    simp only
    rw [if_pos ⟨rfl, hi, by simpa [newKeyFrame, FI.strip] using testBit_255 i hi⟩]
    exact ⟨_, _, rfl, Nat.le_refl _, plan_key c K lim h0, rfl, rfl, rfl⟩
  | succ o ih =>
    have keep : (slotsAt c K lim pic (o + 1 + 1)).at i =
        (slotsAt c K lim pic (o + 1)).at i → sched c K lim (o + 1) = sched c K lim o →
        ∃ r p, (slotsAt c K lim pic (o + 1 + 1)).at i = some r ∧ r.outputFrameno ≤ o + 1 ∧
      plan c K lim r.outputFrameno = some p ∧ p.sef = false ∧
      r = ⟨p.orderHint, r.outputFrameno, pic p.input⟩ ∧
      sched c K lim r.outputFrameno = sched c K lim (o + 1) := by
      intro h1 h2
      obtain ⟨r, p, a1, a2, a3, a4, a5, a6⟩ := ih
      exact ⟨r, p, h1.trans a1, by omega, a3, a4, a5, a6.trans h2.symm⟩
    rcases classify c K lim hv (o + 1) with ⟨gs, h1, -, -⟩ |
        ⟨hr, gs, go, j, idx, h1, -, -, -, h2, -⟩ | ⟨hr, gs, go, k, h1, -, -, -, h2, -⟩
    · rw [slotsAt_step, plan_key c K lim h1]
      simp only
      rw [if_pos ⟨rfl, hi, by simpa [newKeyFrame, FI.strip] using testBit_255 i hi⟩]
      exact ⟨_, _, rfl, Nat.le_refl _, plan_key c K lim h1, rfl, rfl, rfl⟩
    all_goals
      simp only [Nat.add_sub_cancel] at h2
      cases hp : plan c K lim (o + 1) with
      | none =>
        apply keep
        · rw [slotsAt_step, hp]
        · rw [h1, h2]
      | some p =>
        by_cases hb : p.sef = false ∧ i < 8 ∧ p.refresh.testBit i = true
        · refine ⟨⟨p.orderHint, o + 1, pic p.input⟩, p, ?_, Nat.le_refl _, hp, hb.1,
            rfl, rfl⟩
          rw [slotsAt_step, hp]; simp only; rw [if_pos hb]
        · apply keep
          · rw [slotsAt_step, hp]; simp only; rw [if_neg hb]
          · rw [h1, h2]

/-! ## Show-existing-frame shows the right frame -/

theorem sl_lt (j idx : Nat) : sl j idx < 8 := by
  unfold sl; split <;> omega

/-- The frame stored at position `idx` of a group stays in its slot until the
end of the group: no other position writes the same slot. -/
theorem slot_kept (hv : c.Valid) (hr : c.reorder = true) {o gs go j idx k : Nat}
    (h1 : sched c K lim o = (gs, go)) (ho : o = go + 6 * j + idx + 1) (hi : idx < 6)
    (hk : k ≠ sl j idx ∨ idx = 3 ∨ idx = 5) :
    (slotsAt c K lim pic (o + 1)).at k = (slotsAt c K lim pic o).at k := by
  rw [slotsAt_step, plan_R c K lim hv hr h1 ho hi]
  by_cases hlt : gs + 4 * j + off idx < nk c K lim gs
  · rw [if_pos hlt]
    simp only
    rw [if_neg]
    rintro ⟨a, b, d⟩
    simp only [stR] at a d
    rw [a] at d
    simp only [Bool.false_eq_true, if_false, testBit_one, decide_eq_true_eq] at d
    rcases hk with hk | hk | hk
    · exact hk d
    · subst hk; simp at a
    · subst hk; simp at a
  · rw [if_neg hlt]

theorem slot_written (hv : c.Valid) (hr : c.reorder = true) {o gs go j idx : Nat}
    (h1 : sched c K lim o = (gs, go)) (ho : o = go + 6 * j + idx + 1) (hi : idx < 6)
    (hk : idx ≠ 3 ∧ idx ≠ 5) (hlt : gs + 4 * j + off idx < nk c K lim gs) :
    (slotsAt c K lim pic (o + 1)).at (sl j idx) =
      some ⟨4 * j + off idx, o, pic (gs + 4 * j + off idx)⟩ := by
  rw [slotsAt_step, plan_R c K lim hv hr h1 ho hi, if_pos hlt]
  simp only
  rw [if_pos]
  · rfl
  · refine ⟨?_, sl_lt j idx, ?_⟩
    · simp [stR, hk.1, hk.2]
    · simp [stR, hk.1, hk.2]

theorem sched_back (hv : c.Valid) (hr : c.reorder = true) {o gs go j idx : Nat}
    (h1 : sched c K lim o = (gs, go)) (ho : o = go + 6 * j + idx + 1) (hi : idx < 6) :
    sched c K lim (o - 1) = (gs, go) := by
  rcases classify c K lim hv o with ⟨g, h, -, -⟩ |
        ⟨-, g, go', j', idx', h, -, -, -, h2, -⟩ | ⟨hr', -⟩
  · rw [h1] at h
    have := congrArg Prod.snd h
    simp only at this; omega
  · rw [h2, ← h, h1]
  · rw [hr] at hr'; cases hr'

/-- When a stored frame is to be shown, its slot holds exactly that frame, and
the frame is not a key frame. -/
theorem sef_right (hv : c.Valid) {o : Nat} {p : FI Unit}
    (hp : plan c K lim o = some p) (hs : p.sef = true) :
    ∃ o' q, (slotsAt c K lim pic o).at p.slot = some ⟨p.orderHint, o', pic p.input⟩ ∧
      plan c K lim o' = some q ∧ q.ftype = .inter ∧ q.input = p.input := by
  rcases classify c K lim hv o with ⟨g, h, -, -⟩ |
      ⟨hr, gs, go, j, idx, h1, h2, h3, h4, -, -⟩ | ⟨hr, gs, go, k, h1, h2, h3, h4, -, -⟩
  · rw [plan_key c K lim h] at hp
    cases hp; simp [FI.strip, newKeyFrame] at hs
  · rw [plan_R c K lim hv hr h1 h2 h3] at hp
    split at hp
    · rename_i hlt
      cases hp
      have hx : idx = 3 ∨ idx = 5 := by
        simpa [stR] using hs
      have b1 := sched_back c K lim hv hr h1 h2 h3
      rcases hx with rfl | rfl
      · have b2 := sched_back c K lim hv hr b1 (j := j) (idx := 2) (by omega) (by omega)
        have w := slot_written c K lim pic hv hr b2 (j := j) (idx := 1) (by omega)
          (by omega) (by omega) (by simpa [off] using hlt)
        have k1 := slot_kept c K lim pic hv hr b1 (j := j) (idx := 2) (k := sl j 1)
          (by omega) (by omega) (Or.inl (by simp [sl]))
        have e1 : o - 1 + 1 = o := by omega
        have e2 : o - 1 - 1 + 1 = o - 1 := by omega
        rw [e1] at k1
        rw [e2] at w
        refine ⟨o - 1 - 1, stR c gs j 1, ?_, ?_, rfl, rfl⟩
        · exact k1.trans w
        · rw [plan_R c K lim hv hr b2 (j := j) (idx := 1) (by omega) (by omega),
            if_pos (by simpa [off] using hlt)]
      · have b2 := sched_back c K lim hv hr b1 (j := j) (idx := 4) (by omega) (by omega)
        have b3 := sched_back c K lim hv hr b2 (j := j) (idx := 3) (by omega) (by omega)
        have b4 := sched_back c K lim hv hr b3 (j := j) (idx := 2) (by omega) (by omega)
        have b5 := sched_back c K lim hv hr b4 (j := j) (idx := 1) (by omega) (by omega)
        have w := slot_written c K lim pic hv hr b5 (j := j) (idx := 0) (by omega)
          (by omega) (by omega) (by simpa [off] using hlt)
        have k4 := slot_kept c K lim pic hv hr b1 (j := j) (idx := 4) (k := sl j 0)
          (by omega) (by omega) (Or.inl (by simp [sl]; omega))
        have k3 := slot_kept c K lim pic hv hr b2 (j := j) (idx := 3) (k := sl j 0)
          (by omega) (by omega) (Or.inr (Or.inl rfl))
        have k2 := slot_kept c K lim pic hv hr b3 (j := j) (idx := 2) (k := sl j 0)
          (by omega) (by omega) (Or.inl (by simp [sl]; omega))
        have k1 := slot_kept c K lim pic hv hr b4 (j := j) (idx := 1) (k := sl j 0)
          (by omega) (by omega) (Or.inl (by simp [sl]; omega))
        have e1 : o - 1 + 1 = o := by omega
        have e2 : o - 1 - 1 + 1 = o - 1 := by omega
        have e3 : o - 1 - 1 - 1 + 1 = o - 1 - 1 := by omega
        have e4 : o - 1 - 1 - 1 - 1 + 1 = o - 1 - 1 - 1 := by omega
        have e5 : o - 1 - 1 - 1 - 1 - 1 + 1 = o - 1 - 1 - 1 - 1 := by omega
        rw [e1] at k4; rw [e2] at k3; rw [e3] at k2; rw [e4] at k1; rw [e5] at w
        refine ⟨o - 1 - 1 - 1 - 1 - 1, stR c gs j 0, ?_, ?_, rfl, rfl⟩
        · exact k4.trans (k3.trans (k2.trans (k1.trans w)))
        · rw [plan_R c K lim hv hr b5 (j := j) (idx := 0) (by omega) (by omega),
            if_pos (by simpa [off] using hlt)]
    · cases hp
  · rw [plan_L c K lim hr h1 h2 h3, if_pos h4] at hp
    cases hp; simp [stL] at hs

/-! ## References and their distances -/

theorem refs_lt (hv : c.Valid) {o : Nat} {p : FI Unit}
    (hp : plan c K lim o = some p) :
    (∀ r ∈ p.refs, r < 6) ∧ p.refs.length = 7 ∧ p.refs.eraseDups.length ≤ 3 := by
  rcases classify c K lim hv o with ⟨g, h, -, -⟩ |
      ⟨hr, gs, go, j, idx, h1, h2, h3, h4, -, -⟩ | ⟨hr, gs, go, k, h1, h2, h3, h4, -, -⟩
  · rw [plan_key c K lim h] at hp
    cases hp
    simp only [FI.strip, newKeyFrame]
    refine ⟨?_, ?_, ?_⟩ <;> decide
  · rw [plan_R c K lim hv hr h1 h2 h3] at hp
    split at hp
    · cases hp
      simp only [stR]
      have e4 : (j % 4 + 3) % 4 = (j + 3) % 4 := by omega
      have e1 : (j % 4 + 1) % 4 = (j + 1) % 4 := by omega
      have : ∀ idx, idx < 6 → ∀ m, m < 4 → (∀ r ∈ rf m idx, r < 6) ∧
          (rf m idx).length = 7 ∧ (rf m idx).eraseDups.length ≤ 3 := by decide
      have hrf : rf j idx = rf (j % 4) idx := by
        unfold rf; split <;> simp only [e4, e1, Nat.mod_mod]
      rw [hrf]
      exact this idx h3 (j % 4) (by omega)
    · cases hp
  · rw [plan_L c K lim hr h1 h2 h3, if_pos h4] at hp
    cases hp
    simp only [stL]
    have e3 : ∀ m, (m + 3) % 4 = (m % 4 + 3) % 4 := by intro m; omega
    have e2 : ∀ m, (m + 2) % 4 = (m % 4 + 2) % 4 := by intro m; omega
    rw [e3 k, e2 k]
    have hm : k % 4 < 4 := by omega
    generalize k % 4 = m at hm
    have : m = 0 ∨ m = 1 ∨ m = 2 ∨ m = 3 := by omega
    rcases this with h | h | h | h <;> subst h <;> cases c.multiref <;> decide

/-- Order hint held by slot `i` before output `o`. -/
def hintAt (o i : Nat) : Nat :=
  match (slotsAt c K lim pic o).at i with
  | some r => r.orderHint
  | none => 0

theorem hintAt_step (o i : Nat) (hi : i < 8) :
    hintAt c K lim pic (o + 1) i =
      match plan c K lim o with
      | some p => if p.sef = false ∧ p.refresh.testBit i = true then p.orderHint
          else hintAt c K lim pic o i
      | none => hintAt c K lim pic o i := by
  unfold hintAt
  rw [slotsAt_step]
  cases hp : plan c K lim o with
  | none => rfl
  | some p =>
    simp only [hi, true_and]
    by_cases h : p.sef = false ∧ p.refresh.testBit i = true
    · rw [if_pos h, if_pos h]
    · rw [if_neg h, if_neg h]

theorem hintAt_key {o gs : Nat} (h : sched c K lim o = (gs, o)) (i : Nat) (hi : i < 8) :
    hintAt c K lim pic (o + 1) i = 0 := by
  rw [hintAt_step c K lim pic o i hi, plan_key c K lim h]
  simp [FI.strip, newKeyFrame, testBit_255 i hi]

theorem hintAt_R (hv : c.Valid) (hr : c.reorder = true) {o gs go j idx : Nat}
    (h1 : sched c K lim o = (gs, go)) (ho : o = go + 6 * j + idx + 1) (hi : idx < 6)
    (i : Nat) (hi8 : i < 8) :
    hintAt c K lim pic (o + 1) i =
      if gs + 4 * j + off idx < nk c K lim gs ∧ idx ≠ 3 ∧ idx ≠ 5 ∧ i = sl j idx
      then 4 * j + off idx else hintAt c K lim pic o i := by
  rw [hintAt_step c K lim pic o i hi8, plan_R c K lim hv hr h1 ho hi]
  by_cases hlt : gs + 4 * j + off idx < nk c K lim gs
  · rw [if_pos hlt]
    simp only [hlt, true_and]
    by_cases h3 : idx = 3
    · simp [stR, h3]
    · by_cases h5 : idx = 5
      · simp [stR, h5]
      · have e : (idx == 3 || idx == 5) = false := by simp [h3, h5]
        simp only [stR, e, Bool.false_eq_true, if_false, testBit_one, decide_eq_true_eq,
          true_and, ne_eq, h3, h5, not_false_eq_true]
  · rw [if_neg hlt]; simp [hlt]

/-- How far the hints in the slots lag behind, at position `idx` of group `j`
(entered, so its first frame is before the next key frame). -/
theorem hintsR (hv : c.Valid) (hr : c.reorder = true) (o : Nat) :
    ∀ gs go j idx, o = go + 6 * j + idx + 1 → idx < 6 →
      sched c K lim o = (gs, go) →
      (∀ k, k < 4 → hintAt c K lim pic o k ≤ 4 * j + 4 ∧
        4 * j ≤ hintAt c K lim pic o k + 4 * ((j + 4 - k) % 4) ∧
        (idx = 0 → hintAt c K lim pic o k ≤ 4 * j) ∧
        (idx ≠ 0 → gs + 4 * j + 4 < nk c K lim gs →
          4 * j + 4 ≤ hintAt c K lim pic o k + 4 * ((j + 5 - k) % 4))) ∧
      (∀ k, k = 4 ∨ k = 5 → hintAt c K lim pic o k ≤ 4 * j + 3 ∧
        4 * j ≤ hintAt c K lim pic o k + 4) ∧
      (2 ≤ idx → gs + 4 * j + 2 < nk c K lim gs → 4 * j ≤ hintAt c K lim pic o 4) ∧
      (3 ≤ idx → 4 * j ≤ hintAt c K lim pic o 5) := by
  induction o with
  | zero => intro gs go j idx h; omega
  | succ o ih =>
    intro gs go j idx ho hi hs
    have hb := sched_back c K lim hv hr hs ho hi
    simp only [Nat.add_sub_cancel] at hb
    -- the group has been entered
    have hent : gs + 4 * j + 1 < nk c K lim gs := by
      rcases classify c K lim hv (o + 1) with ⟨g, h, -, -⟩ |
          ⟨-, g, go', j', idx', h, h2, h3, h4, -, -⟩ | ⟨hr', -⟩
      · rw [hs] at h
        have := congrArg Prod.snd h
        simp only at this; omega
      · rw [hs] at h
        have e1 := congrArg Prod.fst h
        have e2 := congrArg Prod.snd h
        simp only at e1 e2
        subst e1 e2
        have : j' = j := by omega
        subst this; exact h4
      · rw [hr] at hr'; cases hr'
    by_cases h0 : 6 * j + idx = 0
    · -- right after the key frame
      have hgo : go = o := by omega
      have hj : j = 0 := by omega
      have hidx : idx = 0 := by omega
      subst hgo hj hidx
      refine ⟨fun k hk => ?_, fun k hk => ?_, by omega, by omega⟩
      · rw [hintAt_key c K lim pic hb k (by omega)]; omega
      · rw [hintAt_key c K lim pic hb k (by omega)]; omega
    · by_cases hi0 : idx = 0
      · -- first position of a later group
        subst hi0
        obtain ⟨j', rfl⟩ : ∃ j', j = j' + 1 := ⟨j - 1, by omega⟩
        have hpos : o = go + 6 * j' + 5 + 1 := by omega
        obtain ⟨a1, a2, a3, a4⟩ := ih gs go j' 5 hpos (by omega) hb
        have st := fun i hi8 => hintAt_R c K lim pic hv hr hb hpos (by omega) i hi8
        simp only [ne_eq, not_true, false_and, and_false, if_false] at st
        refine ⟨fun k hk => ?_, fun k hk => ?_, by omega, by omega⟩
        · rw [st k (by omega)]
          obtain ⟨b1, b2, b3, b4⟩ := a1 k hk
          have := b4 (by omega) (by omega)
          refine ⟨by omega, ?_, fun _ => by omega, by omega⟩
          have e : j' + 1 + 4 - k = j' + 5 - k := by omega
          rw [e]; omega
        · rw [st k (by omega)]
          have := (a2 k hk).1
          have h4 := a3 (by omega) (by omega)
          have h5 := a4 (by omega)
          rcases hk with rfl | rfl <;> omega
      · -- inside a group
        obtain ⟨i', rfl⟩ : ∃ i', idx = i' + 1 := ⟨idx - 1, by omega⟩
        have hpos : o = go + 6 * j + i' + 1 := by omega
        obtain ⟨a1, a2, a3, a4⟩ := ih gs go j i' hpos (by omega) hb
        have st := fun i hi8 => hintAt_R c K lim pic hv hr hb hpos (by omega) i hi8
        have hc : i' = 0 ∨ i' = 1 ∨ i' = 2 ∨ i' = 3 ∨ i' = 4 := by omega
        generalize hn : nk c K lim gs = n at *
        rcases hc with h | h | h | h | h <;> subst h <;>
          simp only [off, sl, ne_eq, not_true, false_and, and_false, if_false] at st
        · refine ⟨fun k hk => ?_, fun k hk => ?_, by omega, by omega⟩
          · rw [st k (by omega)]
            obtain ⟨b1, b2, b3, b4⟩ := a1 k hk
            have b3 := b3 rfl
            split
            · omega
            · rename_i hne
              refine ⟨by omega, by omega, by omega, fun _ hlt => ?_⟩
              have : k ≠ (j + 1) % 4 := by
                intro e; exact hne ⟨by omega, by omega, by omega, e⟩
              omega
          · rw [st k (by omega), if_neg (by omega)]
            exact a2 k hk
        · refine ⟨fun k hk => ?_, fun k hk => ?_, fun _ hlt => ?_, by omega⟩
          · rw [st k (by omega), if_neg (by omega)]
            obtain ⟨b1, b2, b3, b4⟩ := a1 k hk
            exact ⟨b1, b2, by omega, fun _ => b4 (by omega)⟩
          · rw [st k (by omega)]
            have := a2 k hk
            split <;> omega
          · rw [st 4 (by omega), if_pos (by omega)]; omega
        · refine ⟨fun k hk => ?_, fun k hk => ?_, fun _ hlt => ?_, fun _ => ?_⟩
          · rw [st k (by omega), if_neg (by omega)]
            obtain ⟨b1, b2, b3, b4⟩ := a1 k hk
            exact ⟨b1, b2, by omega, fun _ => b4 (by omega)⟩
          · rw [st k (by omega)]
            have := a2 k hk
            split <;> omega
          · rw [st 4 (by omega), if_neg (by omega)]; exact a3 (by omega) hlt
          · rw [st 5 (by omega), if_pos (by omega)]; omega
        · refine ⟨fun k hk => ?_, fun k hk => ?_, fun _ hlt => ?_, fun _ => ?_⟩
          · rw [st k (by omega)]
            obtain ⟨b1, b2, b3, b4⟩ := a1 k hk
            exact ⟨b1, b2, by omega, fun _ => b4 (by omega)⟩
          · rw [st k (by omega)]; exact a2 k hk
          · rw [st 4 (by omega)]; exact a3 (by omega) hlt
          · rw [st 5 (by omega)]; exact a4 (by omega)
        · refine ⟨fun k hk => ?_, fun k hk => ?_, fun _ hlt => ?_, fun _ => ?_⟩
          · rw [st k (by omega), if_neg (by omega)]
            obtain ⟨b1, b2, b3, b4⟩ := a1 k hk
            exact ⟨b1, b2, by omega, fun _ => b4 (by omega)⟩
          · rw [st k (by omega)]
            have := a2 k hk
            split <;> omega
          · rw [st 4 (by omega), if_neg (by omega)]; exact a3 (by omega) hlt
          · rw [st 5 (by omega)]
            have := a4 (by omega)
            split <;> omega

theorem hintAt_L (hr : c.reorder = false) {o gs go k : Nat}
    (h1 : sched c K lim o = (gs, go)) (ho : o = go + k) (hk : 0 < k)
    (hlt : gs + k < nk c K lim gs) (i : Nat) (hi8 : i < 8) :
    hintAt c K lim pic (o + 1) i =
      if (0 < c.switchInterval ∧ k % c.switchInterval = 0) ∨ i = k % 4
      then k else hintAt c K lim pic o i := by
  rw [hintAt_step c K lim pic o i hi8, plan_L c K lim hr h1 ho hk, if_pos hlt]
  simp only [stL, true_and]
  by_cases h : 0 < c.switchInterval ∧ k % c.switchInterval = 0
  · rw [if_pos h, if_pos (testBit_255 i hi8), if_pos (Or.inl h)]
  · rw [if_neg h]
    simp only [testBit_one, decide_eq_true_eq, h, false_or]

theorem hintsL (hv : c.Valid) (hr : c.reorder = false) (o : Nat) :
    ∀ gs go k, o = go + k → 0 < k → sched c K lim o = (gs, go) →
      ∀ i, i < 4 → hintAt c K lim pic o i < k ∧
        k ≤ hintAt c K lim pic o i + (k + 3 - i) % 4 + 1 := by
  induction o with
  | zero => intro gs go k h; omega
  | succ o ih =>
    intro gs go k ho hk hs i hi
    rcases classify c K lim hv (o + 1) with ⟨g, h, -, -⟩ | ⟨hr', -⟩ |
          ⟨-, g, go', k', h, h2, h3, h4, h5, -⟩
    · rw [hs] at h
      have := congrArg Prod.snd h
      simp only at this; omega
    · rw [hr] at hr'; cases hr'
    · simp only [Nat.add_sub_cancel] at h5
      have hsb : sched c K lim o = (gs, go) := by rw [h5, ← h, hs]
      have e1 := congrArg Prod.fst (hs.symm.trans h)
      have e2 := congrArg Prod.snd (hs.symm.trans h)
      simp only at e1 e2
      subst e1 e2
      have : k' = k := by omega
      subst this
      by_cases hk1 : k' = 1
      · have : go = o := by omega
        subst this
        rw [hintAt_key c K lim pic hsb i (by omega)]; omega
      · have hpos : o = go + (k' - 1) := by omega
        have a := ih gs go (k' - 1) hpos (by omega) hsb i hi
        rw [hintAt_L c K lim pic hr hsb hpos (by omega) (by omega) i (by omega)]
        split
        · omega
        · rename_i hne
          have : i ≠ (k' - 1) % 4 := fun e => hne (Or.inr e)
          omega

/-- Every reference of an inter frame is less than 17 frames away in display
order, within the group of pictures. -/
theorem ref_distance (hv : c.Valid) {o : Nat} {p : FI Unit}
    (hp : plan c K lim o = some p) (hk : p.ftype ≠ .key) (hs : p.sef = false) :
    ∀ r ∈ p.refs, hintAt c K lim pic o r ≤ p.orderHint + 16 ∧
      p.orderHint ≤ hintAt c K lim pic o r + 16 := by
  rcases classify c K lim hv o with ⟨g, h, -, -⟩ |
      ⟨hr, gs, go, j, idx, h1, h2, h3, h4, -, -⟩ | ⟨hr, gs, go, k, h1, h2, h3, h4, -, -⟩
  · rw [plan_key c K lim h] at hp
    cases hp; exact absurd rfl hk
  · rw [plan_R c K lim hv hr h1 h2 h3] at hp
    split at hp
    · cases hp
      intro r hr6
      have hlt : r < 6 := by
        have hp' : plan c K lim o = some (stR c gs j idx) := by
          rw [plan_R c K lim hv hr h1 h2 h3]; rw [if_pos]; assumption
        exact (refs_lt c K lim hv hp').1 r hr6
      obtain ⟨a1, a2, a3, a4⟩ := hintsR c K lim pic hv hr o gs go j idx h2 h3 h1
      have ho : off idx ≤ 4 := by unfold off; split <;> omega
      simp only [stR]
      by_cases h4 : r < 4
      · obtain ⟨b1, b2, -, -⟩ := a1 r h4
        omega
      · have := a2 r (by omega)
        omega
    · cases hp
  · have hp' := hp
    rw [plan_L c K lim hr h1 h2 h3, if_pos h4] at hp
    cases hp
    intro r hr6
    have hlt : r < 4 := by
      simp only [stL] at hr6
      split at hr6
      · simp only [List.mem_cons, List.not_mem_nil, or_false] at hr6; omega
      · have := (List.mem_replicate.1 hr6).2; omega
    have := hintsL c K lim pic hv hr o gs go k h2 h3 h1 r hlt
    simp only [stL]; omega

end
end Rav1e.Sched

import Verif.Sched.Plan

/-!
# Where each output position is in its group, and what has been shown before it
-/

namespace Rav1e.Sched

section
variable (c : Cfg) (K : Nat → Bool) (lim : Option Nat)

theorem dimsR (hr : c.reorder = true) :
    c.pd = 2 ∧ c.gil = 4 ∧ c.gol = 6 ∧ c.keyDist = 5 := by
  rcases c.dims with h | h
  · exact h.2
  · rw [hr] at h; cases h.1

theorem dimsL (hr : c.reorder = false) :
    c.pd = 0 ∧ c.gil = 1 ∧ c.gol = 1 ∧ c.keyDist = 2 := by
  rcases c.dims with h | h
  · rw [hr] at h; cases h.1
  · exact h.2

theorem plan_key {o gs : Nat} (h : sched c K lim o = (gs, o)) :
    plan c K lim o = some (newKeyFrame gs ([] : List Unit)).strip := by
  unfold plan; rw [h]; simp

theorem plan_R (hv : c.Valid) (hr : c.reorder = true) {o gs go j idx : Nat}
    (h : sched c K lim o = (gs, go)) (ho : o = go + 6 * j + idx + 1) (hi : idx < 6) :
    plan c K lim o =
      if gs + 4 * j + off idx < nk c K lim gs then some (stR c gs j idx) else none := by
  unfold plan; rw [h]
  have e : o - go = 6 * j + idx + 1 := by omega
  simp only [e]
  rw [if_neg (by omega)]
  exact inter_R c hv hr _ gs j idx _ hi _

theorem plan_L (hr : c.reorder = false) {o gs go k : Nat}
    (h : sched c K lim o = (gs, go)) (ho : o = go + k) (hk : 0 < k) :
    plan c K lim o =
      if gs + k < nk c K lim gs then some (stL c gs k) else none := by
  unfold plan; rw [h]
  have e : o - go = k := by omega
  simp only [e]
  rw [if_neg (by omega)]
  exact inter_L c hr _ gs k _ hk _

theorem inp_key {o gs : Nat} (h : sched c K lim o = (gs, o)) : inp c K lim o = gs := by
  unfold inp; rw [h]; simp [Cfg.inputFrameno]

theorem hintR (hr : c.reorder = true) (j idx : Nat) (hi : idx < 6) :
    c.idxInGroup (6 * j + idx + 1) = idx ∧
    c.orderHint (6 * j + idx + 1) idx = 4 * j + off idx := by
  obtain ⟨hpd, hgil, hgol, _⟩ := dimsR c hr
  constructor
  · unfold Cfg.idxInGroup; rw [hgol]; omega
  · unfold Cfg.orderHint; rw [hgol, hgil, hpd]
    have : (6 * j + idx + 1 - 1) / 6 = j := by omega
    rw [this]
    have : idx = 0 ∨ idx = 1 ∨ idx = 2 ∨ idx = 3 ∨ idx = 4 ∨ idx = 5 := by omega
    rcases this with h | h | h | h | h | h <;> subst h <;> rfl

theorem inputR (hr : c.reorder = true) (gs j idx : Nat) (hi : idx < 6) :
    c.inputFrameno (6 * j + idx + 1) gs = gs + 4 * j + off idx := by
  obtain ⟨h1, h2⟩ := hintR c hr j idx hi
  unfold Cfg.inputFrameno
  rw [if_neg (by omega), h1, h2]; omega

theorem inputL (hr : c.reorder = false) (gs k : Nat) :
    c.inputFrameno k gs = gs + k := by
  obtain ⟨hpd, hgil, hgol, _⟩ := dimsL c hr
  unfold Cfg.inputFrameno
  by_cases hk : k = 0
  · simp [hk]
  · rw [if_neg hk]
    unfold Cfg.orderHint Cfg.idxInGroup
    rw [hgol, hgil, hpd]; simp; omega

theorem inp_R (hr : c.reorder = true) {o gs go j idx : Nat}
    (h : sched c K lim o = (gs, go)) (ho : o = go + 6 * j + idx + 1) (hi : idx < 6) :
    inp c K lim o = gs + 4 * j + off idx := by
  unfold inp; rw [h]
  have e : o - go = 6 * j + idx + 1 := by omega
  simp only [e]
  exact inputR c hr gs j idx hi

theorem inp_L (hr : c.reorder = false) {o gs go k : Nat}
    (h : sched c K lim o = (gs, go)) (ho : o = go + k) :
    inp c K lim o = gs + k := by
  unfold inp; rw [h]
  have e : o - go = k := by omega
  simp only [e]
  exact inputL c hr gs k

/-! ## With reordering -/

/-- The last input placed before position `idx` of the group starting after `g`,
when the next key frame is `n`. -/
def lastR (g n : Nat) : Nat → Nat
  | 0 => min g (n - 1)
  | 1 => if g + 4 < n then g + 4 else g
  | 2 => if g + 2 < n then g + 2 else g
  | 3 => g + 1
  | 4 => if g + 2 < n then g + 2 else g + 1
  | _ => if g + 3 < n then g + 3 else if g + 2 < n then g + 2 else g + 1

/-- Position `o`, before it is decided what goes there. -/
structure PosR (o gs go j idx : Nat) : Prop where
  pos : o = go + 6 * j + idx + 1
  lt : idx < 6
  sch : sched c K lim (o - 1) = (gs, go)
  ent : idx ≠ 0 → gs + 4 * j + 1 < nk c K lim gs
  ent0 : gs + 4 * j < nk c K lim gs + 3
  shown : shownBefore c K lim o = min (nk c K lim gs) (gs + 4 * j + 1 + (idx - 2))
  prev : prevInp c K lim o = lastR (gs + 4 * j) (nk c K lim gs) idx

theorem newKeyAt_R (hr : c.reorder = true) {o gs go j idx : Nat}
    (ho : o = go + 6 * j + idx + 1) (hi : idx < 6) :
    newKeyAt c K lim gs go o ↔ idx = 0 ∧ nk c K lim gs ≤ gs + 4 * j + 1 := by
  obtain ⟨_, hgil, hgol, _⟩ := dimsR c hr
  unfold newKeyAt Cfg.idxInGroup
  rw [hgil, hgol]
  have e1 : (o - go - 1) % 6 = idx := by omega
  have e2 : (o - go - 1) / 6 = j := by omega
  rw [e1, e2]

theorem sched_pred {o : Nat} (h : 1 ≤ o) :
    sched c K lim o =
      if newKeyAt c K lim (sched c K lim (o - 1)).1 (sched c K lim (o - 1)).2 o then
        (nk c K lim (sched c K lim (o - 1)).1, o) else sched c K lim (o - 1) := by
  obtain ⟨k, rfl⟩ : ∃ k, o = k + 1 := ⟨o - 1, by omega⟩
  rw [sched]; rfl

/-- The next position. -/
theorem PosR.step (hv : c.Valid) (hr : c.reorder = true) {o gs go j idx : Nat}
    (p : PosR c K lim o gs go j idx) :
    ((idx = 0 ∧ nk c K lim gs ≤ gs + 4 * j + 1) ∧
      sched c K lim o = (nk c K lim gs, o) ∧
      PosR c K lim (o + 1) (nk c K lim gs) o 0 0) ∨
    (gs + 4 * j + 1 < nk c K lim gs ∧ sched c K lim o = (gs, go) ∧
      PosR c K lim (o + 1) gs go (if idx = 5 then j + 1 else j)
        (if idx = 5 then 0 else idx + 1)) := by
  obtain ⟨pos, lt, sch, ent, ent0, shown, prev⟩ := p
  have hnk := newKeyAt_R c K lim hr (gs := gs) pos lt
  have hs := sched_pred c K lim (o := o) (by omega)
  rw [sch] at hs
  simp only at hs
  have hgt := nk_gt c K lim gs
  by_cases hk : idx = 0 ∧ nk c K lim gs ≤ gs + 4 * j + 1
  · left
    rw [if_pos (hnk.2 hk)] at hs
    have hp := plan_key c K lim hs
    have hgt' := nk_gt c K lim (nk c K lim gs)
    refine ⟨hk, hs, ⟨by omega, by omega, ?_, by omega, by omega, ?_, ?_⟩⟩
    · simpa using hs
    · simp only [shownBefore, hp, shown, newKeyFrame, FI.strip, if_true]
      obtain ⟨rfl, h2⟩ := hk
      omega
    · simp only [prevInp, hp, Option.isSome_some, if_true, inp_key c K lim hs, lastR]
      omega
  · right
    have hge : gs + 4 * j + 1 < nk c K lim gs := by
      by_cases h0 : idx = 0
      · omega
      · exact ent h0
    rw [if_neg (by rw [hnk]; exact hk)] at hs
    have hp := plan_R c K lim hv hr hs pos lt
    have hin := inp_R c K lim hr hs pos lt
    refine ⟨hge, hs, ⟨by split <;> omega, by split <;> omega, ?_, ?_, ?_, ?_, ?_⟩⟩
    · simpa using hs
    · split <;> omega
    · split <;> omega
    · clear prev hin hnk hs
      simp only [shownBefore, hp, shown]
      clear hp shown sch
      generalize nk c K lim gs = n at *
      have : idx = 0 ∨ idx = 1 ∨ idx = 2 ∨ idx = 3 ∨ idx = 4 ∨ idx = 5 := by omega
      by_cases hlt : gs + 4 * j + off idx < n
      · rw [if_pos hlt]
        rcases this with h | h | h | h | h | h <;> subst h <;>
          simp [stR, off] at hlt ⊢ <;> omega
      · rw [if_neg hlt]
        rcases this with h | h | h | h | h | h <;> subst h <;>
          simp [off] at hlt ⊢ <;> omega
    · clear hnk hs shown
      simp only [prevInp, hp, hin, prev]
      clear hp prev sch hin
      generalize nk c K lim gs = n at *
      have : idx = 0 ∨ idx = 1 ∨ idx = 2 ∨ idx = 3 ∨ idx = 4 ∨ idx = 5 := by omega
      by_cases hlt : gs + 4 * j + off idx < n
      · rw [if_pos hlt]
        simp only [Option.isSome_some, if_true]
        rcases this with h | h | h | h | h | h <;> subst h <;>
          simp only [off, lastR, if_true, Nat.zero_add, Nat.reduceAdd, Nat.reduceEqDiff,
            if_false] at hlt ⊢ <;> (repeat' split) <;> omega
      · rw [if_neg hlt]
        rw [if_neg (by simp)]
        rcases this with h | h | h | h | h | h <;> subst h <;>
          simp only [off, lastR, if_true, Nat.zero_add, Nat.reduceAdd, Nat.reduceEqDiff,
            if_false] at hlt ⊢ <;> (repeat' split) <;> omega

theorem posR (hv : c.Valid) (hr : c.reorder = true) (o : Nat) :
    ∃ gs go j idx, PosR c K lim (o + 1) gs go j idx := by
  induction o with
  | zero =>
    have hs : sched c K lim 0 = (0, 0) := rfl
    have hp := plan_key c K lim hs
    have hgt := nk_gt c K lim 0
    refine ⟨0, 0, 0, 0, ⟨by omega, by omega, hs, by omega, by omega, ?_, ?_⟩⟩
    · simp only [shownBefore, hp, newKeyFrame, FI.strip, if_true]; omega
    · simp only [prevInp, hp, Option.isSome_some, if_true, inp_key c K lim hs, lastR]
      omega
  | succ o ih =>
    obtain ⟨gs, go, j, idx, p⟩ := ih
    rcases p.step c K lim hv hr with ⟨_, _, h⟩ | ⟨_, _, h⟩
    · exact ⟨_, _, _, _, h⟩
    · exact ⟨_, _, _, _, h⟩

/-! ## Without reordering -/

structure PosL (o gs go k : Nat) : Prop where
  pos : o = go + k
  lt : 0 < k
  sch : sched c K lim (o - 1) = (gs, go)
  ent : gs + k ≤ nk c K lim gs
  shown : shownBefore c K lim o = gs + k
  prev : prevInp c K lim o = gs + k - 1

theorem newKeyAt_L (hr : c.reorder = false) {o gs go k : Nat}
    (ho : o = go + k) (hk : 0 < k) :
    newKeyAt c K lim gs go o ↔ nk c K lim gs ≤ gs + k := by
  obtain ⟨_, hgil, hgol, _⟩ := dimsL c hr
  unfold newKeyAt Cfg.idxInGroup
  rw [hgil, hgol]
  have e2 : gs + 1 * ((o - go - 1) / 1) + 1 = gs + k := by
    rw [Nat.div_one]; omega
  rw [e2]; simp [Nat.mod_one]

theorem PosL.step (hr : c.reorder = false) {o gs go k : Nat}
    (p : PosL c K lim o gs go k) :
    (nk c K lim gs = gs + k ∧ sched c K lim o = (nk c K lim gs, o) ∧
      PosL c K lim (o + 1) (nk c K lim gs) o 1) ∨
    (gs + k < nk c K lim gs ∧ sched c K lim o = (gs, go) ∧
      PosL c K lim (o + 1) gs go (k + 1)) := by
  obtain ⟨pos, lt, sch, ent, shown, prev⟩ := p
  have hnk := newKeyAt_L c K lim hr (gs := gs) pos lt
  have hs := sched_pred c K lim (o := o) (by omega)
  rw [sch] at hs
  simp only at hs
  by_cases hk : nk c K lim gs ≤ gs + k
  · left
    rw [if_pos (hnk.2 hk)] at hs
    have hp := plan_key c K lim hs
    have hgt' := nk_gt c K lim (nk c K lim gs)
    refine ⟨by omega, hs, ⟨by omega, by omega, by simpa using hs, by omega, ?_, ?_⟩⟩
    · simp only [shownBefore, hp, shown, newKeyFrame, FI.strip, if_true]; omega
    · simp only [prevInp, hp, Option.isSome_some, if_true, inp_key c K lim hs]; omega
  · right
    rw [if_neg (by rw [hnk]; exact hk)] at hs
    have hp := plan_L c K lim hr hs pos lt
    have hin := inp_L c K lim hr hs pos
    rw [if_pos (by omega)] at hp
    refine ⟨by omega, hs, ⟨by omega, by omega, by simpa using hs, by omega, ?_, ?_⟩⟩
    · simp only [shownBefore, hp, shown, stL, if_true]; omega
    · simp only [prevInp, hp, Option.isSome_some, if_true, hin]; omega

theorem posL (hr : c.reorder = false) (o : Nat) :
    ∃ gs go k, PosL c K lim (o + 1) gs go k := by
  induction o with
  | zero =>
    have hs : sched c K lim 0 = (0, 0) := rfl
    have hp := plan_key c K lim hs
    have hgt := nk_gt c K lim 0
    refine ⟨0, 0, 1, ⟨by omega, by omega, hs, by omega, ?_, ?_⟩⟩
    · simp only [shownBefore, hp, newKeyFrame, FI.strip, if_true]
    · simp only [prevInp, hp, Option.isSome_some, if_true, inp_key c K lim hs]
  | succ o ih =>
    obtain ⟨gs, go, k, p⟩ := ih
    rcases p.step c K lim hr with ⟨_, _, h⟩ | ⟨_, _, h⟩
    · exact ⟨_, _, _, h⟩
    · exact ⟨_, _, _, h⟩

/-! ## Classification of a placed position -/

/-- Every output position is a key frame, or a position in a reordering group, or
a position in a group of pictures without reordering. -/
theorem classify (hv : c.Valid) (o : Nat) :
    (∃ gs, sched c K lim o = (gs, o) ∧ shownBefore c K lim o = gs ∧
      (gs = 0 ∧ o = 0 ∨ ∃ g', gs = nk c K lim g' ∧ 0 < o ∧
        (sched c K lim (o - 1)).1 = g')) ∨
    (c.reorder = true ∧ ∃ gs go j idx, sched c K lim o = (gs, go) ∧
      o = go + 6 * j + idx + 1 ∧ idx < 6 ∧ gs + 4 * j + 1 < nk c K lim gs ∧
      sched c K lim (o - 1) = (gs, go) ∧
      shownBefore c K lim o = min (nk c K lim gs) (gs + 4 * j + 1 + (idx - 2))) ∨
    (c.reorder = false ∧ ∃ gs go k, sched c K lim o = (gs, go) ∧
      o = go + k ∧ 0 < k ∧ gs + k < nk c K lim gs ∧
      sched c K lim (o - 1) = (gs, go) ∧ shownBefore c K lim o = gs + k) := by
  rcases Nat.eq_zero_or_pos o with h0 | h0
  · subst h0; left; exact ⟨0, rfl, rfl, Or.inl ⟨rfl, rfl⟩⟩
  · obtain ⟨o', rfl⟩ : ∃ k, o = k + 1 := ⟨o - 1, by omega⟩
    cases hr : c.reorder with
    | true =>
      obtain ⟨gs, go, j, idx, p⟩ := posR c K lim hv hr o'
      rcases p.step c K lim hv hr with ⟨h1, h2, h3⟩ | ⟨h1, h2, h3⟩
      · left
        refine ⟨_, h2, ?_, Or.inr ⟨gs, rfl, by omega, ?_⟩⟩
        · rw [p.shown]
          obtain ⟨rfl, h⟩ := h1; omega
        · rw [p.sch]
      · right; left
        exact ⟨rfl, gs, go, j, idx, h2, p.pos, p.lt, h1, p.sch, p.shown⟩
    | false =>
      obtain ⟨gs, go, k, p⟩ := posL c K lim hr o'
      rcases p.step c K lim hr with ⟨h1, h2, h3⟩ | ⟨h1, h2, h3⟩
      · left
        refine ⟨_, h2, ?_, Or.inr ⟨gs, rfl, by omega, ?_⟩⟩
        · rw [p.shown, h1]
        · rw [p.sch]
      · right; right
        exact ⟨rfl, gs, go, k, h2, p.pos, p.lt, h1, p.sch, p.shown⟩

theorem shownBefore_mono {a b : Nat} (h : a ≤ b) :
    shownBefore c K lim a ≤ shownBefore c K lim b := by
  induction b with
  | zero => have : a = 0 := by omega
            subst this; exact Nat.le_refl _
  | succ b ih =>
    by_cases hab : a = b + 1
    · subst hab; exact Nat.le_refl _
    · have := ih (by omega)
      simp only [shownBefore]; omega

/-- A frame placed at `o` was not shown before `o`; if it is shown there, it is
the next one due; and it belongs to the group of pictures `o` is in. -/
theorem plan_facts (hv : c.Valid) {o : Nat} {p : FI Unit}
    (h : plan c K lim o = some p) :
    p.input = inp c K lim o ∧ shownBefore c K lim o ≤ p.input ∧
    (p.shown = true → p.input = shownBefore c K lim o) ∧
    p.input < nk c K lim (sched c K lim o).1 ∧
    (p.ftype = .key ↔ (sched c K lim o).2 = o) ∧
    (p.ftype = .key → p.sef = false ∧ p.shown = true ∧ p.refresh = 255 ∧
      p.input = (sched c K lim o).1 ∧ p.orderHint = 0) ∧
    (p.sef = true → p.shown = true) ∧
    (sched c K lim o).1 ≤ p.input ∧ p.input = (sched c K lim o).1 + p.orderHint := by
  rcases classify c K lim hv o with ⟨gs, h1, h2, -⟩ | ⟨hr, gs, go, j, idx, h1, h2, h3, h4, -, h5⟩ |
      ⟨hr, gs, go, k, h1, h2, h3, h4, -, h5⟩
  · rw [plan_key c K lim h1] at h
    cases h
    have := nk_gt c K lim gs
    simp [inp_key c K lim h1, h1, newKeyFrame, FI.strip, h2, this]
  · rw [plan_R c K lim hv hr h1 h2 h3] at h
    split at h
    · cases h
      rename_i hlt
      rw [inp_R c K lim hr h1 h2 h3, h1, h5]
      refine ⟨rfl, ?_, ?_, hlt, ?_, ?_, ?_, ?_, ?_⟩
      · have : idx = 0 ∨ idx = 1 ∨ idx = 2 ∨ idx = 3 ∨ idx = 4 ∨ idx = 5 := by omega
        rcases this with h | h | h | h | h | h <;> subst h <;>
          simp only [stR, off] at * <;> omega
      · have : idx = 0 ∨ idx = 1 ∨ idx = 2 ∨ idx = 3 ∨ idx = 4 ∨ idx = 5 := by omega
        rcases this with h | h | h | h | h | h <;> subst h <;>
          simp [stR, off] at * <;> omega
      · simp [stR]; omega
      · simp [stR]
      · simp only [stR]
        have : idx = 0 ∨ idx = 1 ∨ idx = 2 ∨ idx = 3 ∨ idx = 4 ∨ idx = 5 := by omega
        rcases this with h | h | h | h | h | h <;> subst h <;> simp
      · simp only [stR]; omega
      · simp only [stR]; omega
    · cases h
  · rw [plan_L c K lim hr h1 h2 h3, if_pos h4] at h
    cases h
    rw [inp_L c K lim hr h1 h2, h1, h5]
    refine ⟨rfl, Nat.le_refl _, fun _ => rfl, h4, ?_, ?_, fun _ => rfl, ?_, rfl⟩
    · simp only [stL]; split <;> simp <;> omega
    · simp only [stL]; split <;> simp
    · simp only [stL]; omega

theorem sched_le (hv : c.Valid) (o : Nat) :
    (sched c K lim o).2 ≤ o ∧ o ≤ 7 * shownBefore c K lim o + 7 ∧
    (sched c K lim o).1 ≤ shownBefore c K lim o := by
  have key : ∀ o, (sched c K lim o).2 ≤ 7 * (sched c K lim o).1 := by
    intro o
    induction o with
    | zero => simp [sched]
    | succ o ih =>
      rcases classify c K lim hv (o + 1) with ⟨gs, h1, h2, h3⟩ |
          ⟨hr, gs, go, j, idx, h1, h2, h3, h4, h5, h6⟩ |
          ⟨hr, gs, go, k, h1, h2, h3, h4, h5, h6⟩
      · rw [h1]
        rcases h3 with ⟨_, h⟩ | ⟨g', e, _, hg⟩
        · omega
        · simp only [Nat.add_sub_cancel] at hg
          cases hr : c.reorder with
          | true =>
            obtain ⟨gs0, go0, j0, idx0, p⟩ := posR c K lim hv hr o
            rcases p.step c K lim hv hr with ⟨q1, q2, q3⟩ | ⟨q1, q2, q3⟩
            · have e1 := p.pos
              have e2 := p.ent0
              have e3 := p.sch
              simp only [Nat.add_sub_cancel] at e3
              rw [e3] at ih hg
              simp only at ih hg
              rw [h1] at q2
              have q2' := congrArg Prod.fst q2
              simp only at q2'
              show o + 1 ≤ 7 * gs
              have := nk_gt c K lim gs0
              by_cases hj : j0 = 0
              · omega
              · omega
            · rw [h1] at q2
              have q2' := congrArg Prod.snd q2
              simp only at q2'
              have e1 := p.pos
              omega
          | false =>
            obtain ⟨gs0, go0, k0, p⟩ := posL c K lim hr o
            rcases p.step c K lim hr with ⟨q1, q2, q3⟩ | ⟨q1, q2, q3⟩
            · have e1 := p.pos
              have e3 := p.sch
              simp only [Nat.add_sub_cancel] at e3
              rw [e3] at ih hg
              simp only at ih hg
              rw [h1] at q2
              have q2' := congrArg Prod.fst q2
              simp only at q2'
              show o + 1 ≤ 7 * gs
              have := nk_gt c K lim gs0
              omega
            · rw [h1] at q2
              have q2' := congrArg Prod.snd q2
              simp only at q2'
              have e1 := p.pos
              have := p.lt
              omega
      · rw [h1]
        simp only [Nat.add_sub_cancel] at h5
        rw [h5] at ih; exact ih
      · rw [h1]
        simp only [Nat.add_sub_cancel] at h5
        rw [h5] at ih; exact ih
  have hk := key o
  rcases classify c K lim hv o with ⟨gs, h1, h2, h3⟩ |
      ⟨hr, gs, go, j, idx, h1, h2, h3, h4, h5, h6⟩ |
      ⟨hr, gs, go, k, h1, h2, h3, h4, h5, h6⟩
  · rw [h1] at hk ⊢; simp only at hk ⊢; omega
  · rw [h1] at hk ⊢; simp only at hk ⊢; omega
  · rw [h1] at hk ⊢; simp only at hk ⊢; omega

end
end Rav1e.Sched

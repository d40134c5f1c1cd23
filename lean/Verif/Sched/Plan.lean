import Verif.Sched.Spec

/-!
# The schedule as a pure function

`sched`/`plan` describe, for every output position, which frame the encoder
places there, given complete knowledge of the key frame decisions (`K`) and of
the length of the video (`lim`).  `Inv.lean` proves that the incremental
machinery of the model, which only ever looks a few frames ahead, builds exactly
this schedule.
-/

namespace Rav1e.Sched

variable {M : Type}

theorem Cfg.dims (c : Cfg) :
    (c.reorder = true ∧ c.pd = 2 ∧ c.gil = 4 ∧ c.gol = 6 ∧ c.keyDist = 5) ∨
    (c.reorder = false ∧ c.pd = 0 ∧ c.gil = 1 ∧ c.gol = 1 ∧ c.keyDist = 2) := by
  unfold Cfg.keyDist Cfg.gol Cfg.gil Cfg.pd
  cases c.reorder <;> simp

/-! ## The next key frame -/

/-- First position `≥ x`, within `n` steps, where a key frame is due. -/
def nkAux (K : Nat → Bool) (lim : Option Nat) : Nat → Nat → Nat
  | 0, x => x
  | n + 1, x => if K x = true ∨ lim = some x then x else nkAux K lim n (x + 1)

/-- The end of the group of pictures starting at `gs`: the next forced or
detected key frame, the maximum interval, or the end of the video. -/
def nk (c : Cfg) (K : Nat → Bool) (lim : Option Nat) (gs : Nat) : Nat :=
  nkAux K lim (c.maxKey - 1) (gs + 1)

theorem nkAux_spec (K : Nat → Bool) (lim : Option Nat) (n x : Nat) :
    x ≤ nkAux K lim n x ∧ nkAux K lim n x ≤ x + n ∧
    (∀ y, x ≤ y → y < nkAux K lim n x → K y = false ∧ lim ≠ some y) ∧
    (nkAux K lim n x < x + n → K (nkAux K lim n x) = true ∨
      lim = some (nkAux K lim n x)) := by
  induction n generalizing x with
  | zero =>
    refine ⟨Nat.le_refl _, Nat.le_refl _, ?_, ?_⟩
    · intro y h1 h2; simp only [nkAux] at h2; omega
    · simp only [nkAux]; omega
  | succ n ih =>
    obtain ⟨h1, h2, h3, h4⟩ := ih (x + 1)
    unfold nkAux
    split
    · rename_i h
      refine ⟨by omega, by omega, by intros; omega, fun _ => h⟩
    · rename_i h
      refine ⟨by omega, by omega, ?_, ?_⟩
      · intro y hy1 hy2
        by_cases hxy : y = x
        · subst hxy
          constructor
          · cases hk : K y with
            | false => rfl
            | true => exact absurd (Or.inl hk) h
          · intro hl; exact h (Or.inr hl)
        · exact h3 y (by omega) hy2
      · intro hlt; exact h4 (by omega)

section
variable (c : Cfg) (K : Nat → Bool) (lim : Option Nat)

theorem nk_gt (gs : Nat) : gs < nk c K lim gs := (nkAux_spec K lim _ _).1

theorem nk_le (hm : 1 ≤ c.maxKey) (gs : Nat) : nk c K lim gs ≤ gs + c.maxKey := by
  have := (nkAux_spec K lim (c.maxKey - 1) (gs + 1)).2.1
  unfold nk; omega

theorem nk_before (gs y : Nat) (h1 : gs < y) (h2 : y < nk c K lim gs) :
    K y = false ∧ lim ≠ some y :=
  (nkAux_spec K lim (c.maxKey - 1) (gs + 1)).2.2.1 y h1 h2

theorem nk_is (hm : 1 ≤ c.maxKey) (gs : Nat) :
    K (nk c K lim gs) = true ∨ lim = some (nk c K lim gs) ∨
      nk c K lim gs = gs + c.maxKey := by
  have h := nkAux_spec K lim (c.maxKey - 1) (gs + 1)
  by_cases hlt : nkAux K lim (c.maxKey - 1) (gs + 1) < gs + 1 + (c.maxKey - 1)
  · rcases h.2.2.2 hlt with h | h
    · exact Or.inl h
    · exact Or.inr (Or.inl h)
  · right; right; unfold nk; omega

theorem nk_le_key (gs y : Nat) (h1 : gs < y) (hy : K y = true) :
    nk c K lim gs ≤ y := by
  apply Nat.le_of_not_lt
  intro h
  have := (nk_before c K lim gs y h1 h).1
  rw [hy] at this; cases this

theorem nk_le_lim (gs l : Nat) (h1 : gs < l) (hl : lim = some l) :
    nk c K lim gs ≤ l := by
  apply Nat.le_of_not_lt
  intro h
  exact (nk_before c K lim gs l h1 h).2 hl

/-! ## Group starts -/

/-- Is a new key frame due at output `o`, in the group of pictures that starts
at input `gs` and output `go`? -/
def newKeyAt (gs go o : Nat) : Prop :=
  c.idxInGroup (o - go) = 0 ∧ nk c K lim gs ≤ gs + c.gil * ((o - go - 1) / c.gol) + 1

instance (gs go o) : Decidable (newKeyAt c K lim gs go o) := by
  unfold newKeyAt; infer_instance

/-- First input and first output of the group of pictures output `o` is in. -/
def sched : Nat → Nat × Nat
  | 0 => (0, 0)
  | o + 1 =>
    let p := sched o
    if newKeyAt c K lim p.1 p.2 (o + 1) then (nk c K lim p.1, o + 1) else p

/-- The input frame output position `o` refers to. -/
def inp (o : Nat) : Nat :=
  c.inputFrameno (o - (sched c K lim o).2) (sched c K lim o).1

/-- Drop the fields that depend on more than the position. -/
def FI.strip (fi : FI M) : FI Unit :=
  { fi with t35 := [], recBuf := [], look := [], signBias := [] }

/-- What is placed at output `o`: nothing (a placeholder) or a frame. -/
def plan (o : Nat) : Option (FI Unit) :=
  let p := sched c K lim o
  if o - p.2 = 0 then some (newKeyFrame p.1 ([] : List Unit)).strip
  else (newInterFrame c (newKeyFrame 0 ([] : List Unit)) p.1 (o - p.2)
    (nk c K lim p.1) []).map FI.strip

/-- Number of frames shown before output `o`. -/
def shownBefore : Nat → Nat
  | 0 => 0
  | o + 1 => shownBefore o +
    (match plan c K lim o with | some p => if p.shown then 1 else 0 | none => 0)

/-- Input number of the last frame (not a placeholder) before output `o`. -/
def prevInp : Nat → Nat
  | 0 => 0
  | o + 1 => if (plan c K lim o).isSome then inp c K lim o else prevInp o

end

/-! ## Closed forms -/

theorem tz_succ (n : Nat) (h : 0 < n) (h2 : n % 2 = 0) :
    trailingZeros n = 1 + trailingZeros (n / 2) := by
  rw [trailingZeros]; rw [dif_neg (by omega), if_neg (by omega)]

theorem tz_odd (n : Nat) (h2 : n % 2 = 1) : trailingZeros n = 0 := by
  rw [trailingZeros]; rw [dif_neg (by omega), if_pos h2]

theorem or_four (p : Nat) : (p ||| 4) % 4 = p % 4 ∧ (p ||| 4) / 4 % 2 = 1 := by
  constructor
  · have : (p ||| 4) % 2 ^ 2 = (p % 2 ^ 2) ||| (4 % 2 ^ 2) := Nat.or_mod_two_pow
    simpa using this
  · have h : (p ||| 4).testBit 2 = true := by
      rw [Nat.testBit_or]; simp [show Nat.testBit 4 2 = true from by decide]
    rw [Nat.testBit_eq_decide_div_mod_eq] at h
    simpa using h

theorem posToLvl_two (p : Nat) :
    posToLvl p 2 = if p % 4 = 0 then 0 else if p % 2 = 0 then 1 else 2 := by
  obtain ⟨h1, h2⟩ := or_four p
  unfold posToLvl
  rw [show (1 <<< 2 : Nat) = 4 from rfl]
  generalize p ||| 4 = q at h1 h2
  by_cases ho : q % 2 = 1
  · rw [tz_odd q ho]; rw [if_neg (by omega), if_neg (by omega)]
  · rw [tz_succ q (by omega) (by omega)]
    by_cases ho2 : q / 2 % 2 = 1
    · rw [tz_odd _ ho2, if_neg (by omega), if_pos (by omega)]
    · rw [tz_succ _ (by omega) (by omega), tz_odd _ (by omega), if_pos (by omega)]

theorem posToLvl_zero (p : Nat) : posToLvl p 0 = 0 := by unfold posToLvl; omega

/-- Offset of the input frame at position `idx` of a reordering group. -/
def off : Nat → Nat
  | 0 => 4 | 1 => 2 | 2 => 1 | 3 => 2 | 4 => 3 | _ => 4

/-- Pyramid level at position `idx`. -/
def lv : Nat → Nat
  | 0 => 0 | 1 => 1 | 2 => 2 | 3 => 1 | 4 => 2 | _ => 0

/-- Slot at position `idx` of group `j`. -/
def sl (j : Nat) : Nat → Nat
  | 0 => (j + 1) % 4 | 1 => 4 | 2 => 5 | 3 => 4 | 4 => 5 | _ => (j + 1) % 4

/-- References at position `idx` of group `j` (those of show-existing frames
are never used). -/
def rf (j : Nat) : Nat → List Nat
  | 0 => [j % 4, (j + 3) % 4, j % 4, j % 4, j % 4, j % 4, j % 4]
  | 1 => [j % 4, j % 4, 4, j % 4, j % 4, j % 4, (j + 1) % 4]
  | 2 => [j % 4, j % 4, 5, j % 4, j % 4, j % 4, 4]
  | 3 => [j % 4, j % 4, 4, j % 4, j % 4, j % 4, (j + 1) % 4]
  | 4 => [4, 4, 5, 4, 4, 4, (j + 1) % 4]
  | _ => [j % 4, j % 4, j % 4, j % 4, j % 4, j % 4, (j + 3) % 4]

/-- The frame at position `idx` of reordering group `j`. -/
def stR (c : Cfg) (gs j idx : Nat) : FI Unit where
  input := gs + 4 * j + off idx
  orderHint := 4 * j + off idx
  ftype := .inter
  shown := decide (2 ≤ idx)
  sef := idx == 3 || idx == 5
  idx := idx
  level := lv idx
  slot := sl j idx
  refresh := if idx == 3 || idx == 5 then 0 else 1 <<< sl j idx
  refs := rf j idx
  signBias := []
  primary := if c.errorResilient then 7 else 2
  errorRes := c.errorResilient
  refSelect := idx != 0
  t35 := []
  recBuf := []
  look := []

/-- The `k`-th frame after a key frame without reordering. -/
def stL (c : Cfg) (gs k : Nat) : FI Unit where
  input := gs + k
  orderHint := k
  ftype := if 0 < c.switchInterval ∧ k % c.switchInterval = 0 then .switch else .inter
  shown := true
  sef := false
  idx := 0
  level := 0
  slot := k % 4
  refresh := if 0 < c.switchInterval ∧ k % c.switchInterval = 0 then 255
    else 1 <<< (k % 4)
  refs := if c.multiref then
      [(k + 3) % 4, (k + 2) % 4, (k + 3) % 4, (k + 3) % 4, (k + 3) % 4, (k + 3) % 4,
        (k + 3) % 4]
    else List.replicate 7 ((k + 3) % 4)
  signBias := []
  primary := if (0 < c.switchInterval ∧ k % c.switchInterval = 0) ∨
    c.errorResilient = true then 7 else 2
  errorRes := if 0 < c.switchInterval ∧ k % c.switchInterval = 0 then true
    else c.errorResilient
  refSelect := false
  t35 := []
  recBuf := []
  look := []

/-- Configurations accepted by `Config::validate` (`api/config/mod.rs:305-442`)
as far as the scheduler is concerned, with a positive maximum key frame
interval (see `zero_interval_hangs` for why that is needed). -/
structure Cfg.Valid (c : Cfg) : Prop where
  maxKey : 1 ≤ c.maxKey
  lookahead : 1 ≤ c.rdoLookahead
  switch : c.switchInterval ≠ 0 → c.lowLatency = true

theorem countOnes_vals : countOnes 1 = 1 ∧ countOnes 2 = 1 ∧ countOnes 3 = 2 ∧
    countOnes 4 = 1 := by
  refine ⟨?_, ?_, ?_, ?_⟩ <;> simp [countOnes]

theorem and_three (n : Nat) : n &&& 3 = n % 4 := Nat.and_two_pow_sub_one_eq_mod n 2

theorem refSlot_two (c : Cfg) (hpd : c.pd = 2) (oh : Nat) :
    refSlot c oh = if oh % 4 = 0 then oh / 4 % 4 else if oh % 2 = 0 then 4 else 5 := by
  unfold refSlot
  rw [hpd, posToLvl_two, Nat.shiftRight_eq_div_pow]
  by_cases h1 : oh % 4 = 0
  · simp [h1]
  · by_cases h2 : oh % 2 = 0 <;> simp [h1, h2]

theorem inter_R (c : Cfg) (hv : c.Valid) (hr : c.reorder = true) (prev : FI M)
    (gs j idx n : Nat) (hi : idx < 6) (t : List M) :
    (newInterFrame c prev gs (6 * j + idx + 1) n t).map FI.strip =
      if gs + 4 * j + off idx < n then some (stR c gs j idx) else none := by
  have hd : c.pd = 2 ∧ c.gil = 4 ∧ c.gol = 6 := by
    rcases c.dims with h | h
    · exact ⟨h.2.1, h.2.2.1, h.2.2.2.1⟩
    · rw [hr] at h; cases h.1
  obtain ⟨hpd, hgil, hgol⟩ := hd
  have hsw : c.switchInterval = 0 := by
    apply Classical.byContradiction
    intro h
    have := hv.switch h
    simp [Cfg.reorder, this] at hr
  have hmr : c.multiref = true := by simp [Cfg.multiref, hr]
  have hx : c.idxInGroup (6 * j + idx + 1) = idx := by
    unfold Cfg.idxInGroup; rw [hgol]; omega
  have hh : c.orderHint (6 * j + idx + 1) idx = 4 * j + off idx := by
    unfold Cfg.orderHint; rw [hgol, hgil, hpd]
    have : (6 * j + idx + 1 - 1) / 6 = j := by omega
    rw [this]
    have : idx = 0 ∨ idx = 1 ∨ idx = 2 ∨ idx = 3 ∨ idx = 4 ∨ idx = 5 := by omega
    rcases this with h | h | h | h | h | h <;> subst h <;> rfl
  have hin : c.inputFrameno (6 * j + idx + 1) gs = gs + 4 * j + off idx := by
    unfold Cfg.inputFrameno
    rw [if_neg (by omega), hx, hh]; omega
  unfold newInterFrame
  rw [hin]
  by_cases hlt : gs + 4 * j + off idx < n
  · rw [if_neg (by omega), if_pos hlt]
    simp only [hx, hh, hsw, Nat.lt_irrefl, false_and, if_false, Option.map_some]
    congr 1
    unfold FI.strip stR
    obtain ⟨o1, o2, o3, o4⟩ := countOnes_vals
    have hlv : c.level idx = lv idx := by
      have : idx = 0 ∨ idx = 1 ∨ idx = 2 ∨ idx = 3 ∨ idx = 4 ∨ idx = 5 := by omega
      rcases this with h | h | h | h | h | h <;> subst h <;>
        simp [Cfg.level, hr, hpd, lv, posToLvl_two]
    have hsl : c.slotIdx (lv idx) (4 * j + off idx) = sl j idx := by
      have : idx = 0 ∨ idx = 1 ∨ idx = 2 ∨ idx = 3 ∨ idx = 4 ∨ idx = 5 := by omega
      rcases this with h | h | h | h | h | h <;> subst h <;>
        simp [Cfg.slotIdx, lv, hpd, off, sl, and_three, Nat.shiftRight_eq_div_pow] <;>
        omega
    have hse : c.showExisting idx = (idx == 3 || idx == 5) := by
      have : idx = 0 ∨ idx = 1 ∨ idx = 2 ∨ idx = 3 ∨ idx = 4 ∨ idx = 5 := by omega
      rcases this with h | h | h | h | h | h <;> subst h <;>
        simp [Cfg.showExisting, Cfg.showFrame, hr, hpd, o1, o2, o3, o4]
    have hrf : refFrames c idx (lv idx) (sl j idx) (4 * j + off idx) = rf j idx := by
      have : idx = 0 ∨ idx = 1 ∨ idx = 2 ∨ idx = 3 ∨ idx = 4 ∨ idx = 5 := by omega
      rcases this with h | h | h | h | h | h <;> subst h <;>
        simp [refFrames, lv, hmr, off, sl, rf, refSlot_two c hpd, hgil,
          Nat.shiftRight_eq_div_pow, List.replicate] <;>
        (try constructor) <;> (repeat' split) <;> omega
    have hlv2 : ¬ 2 < lv idx := by
      have : idx = 0 ∨ idx = 1 ∨ idx = 2 ∨ idx = 3 ∨ idx = 4 ∨ idx = 5 := by omega
      rcases this with h | h | h | h | h | h <;> subst h <;> decide
    simp [hlv, hsl, hse, hrf, hmr, Cfg.showFrame, hpd, hlv2]
  · rw [if_pos (by omega), if_neg hlt]; rfl

theorem inter_L (c : Cfg) (hr : c.reorder = false) (prev : FI M)
    (gs k n : Nat) (hk : 0 < k) (t : List M) :
    (newInterFrame c prev gs k n t).map FI.strip =
      if gs + k < n then some (stL c gs k) else none := by
  have hd : c.pd = 0 ∧ c.gil = 1 ∧ c.gol = 1 := by
    rcases c.dims with h | h
    · rw [hr] at h; cases h.1
    · exact ⟨h.2.1, h.2.2.1, h.2.2.2.1⟩
  obtain ⟨hpd, hgil, hgol⟩ := hd
  have hx : c.idxInGroup k = 0 := by
    unfold Cfg.idxInGroup; rw [hgol]; omega
  have hh : c.orderHint k 0 = k := by
    unfold Cfg.orderHint; rw [hgol, hgil, hpd]; simp; omega
  have hin : c.inputFrameno k gs = gs + k := by
    unfold Cfg.inputFrameno
    rw [if_neg (by omega), hx, hh]
  unfold newInterFrame
  rw [hin]
  by_cases hlt : gs + k < n
  · rw [if_neg (by omega), if_pos hlt]
    simp only [hx, hh, Option.map_some]
    have hlv : c.level 0 = 0 := by simp [Cfg.level, hr]
    congr 1
    by_cases hsw : 0 < c.switchInterval ∧ k % c.switchInterval = 0
    · simp [FI.strip, stL, hlv, hsw, Cfg.slotIdx, hpd, and_three, Cfg.showExisting, hr,
        Cfg.showFrame, refFrames, List.replicate]
    · simp [FI.strip, stL, hlv, hsw, Cfg.slotIdx, hpd, and_three, Cfg.showExisting, hr,
        Cfg.showFrame, refFrames, List.replicate]
  · rw [if_pos (by omega), if_neg hlt]; rfl

end Rav1e.Sched

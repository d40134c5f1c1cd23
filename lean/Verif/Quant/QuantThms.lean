import Verif.Quant.Level
/-
C35: the end of block announced by the quantizer is exact, and a reconstructed coefficient differs from
the original by less than one quantizer step.
-/
namespace Rav1e.Quant

/-! ## Specification -/

/-- `eob` is one more than the place of the last non-zero level in the order `scan`, or zero. -/
structure EobExact (scan : List Nat) (levels : List Int) (eob : Nat) : Prop where
  le : eob ≤ scan.length
  zero : ∀ j p, eob ≤ j → scan[j]? = some p → levels[p]? = some 0
  last : 0 < eob → ∃ p v, scan[eob - 1]? = some p ∧ levels[p]? = some v ∧ v ≠ 0

/-- `dqDenom` of the AV1 specification (7.12.3). -/
def dqDenom : TxSize → Nat
  | .tx32x32 | .tx16x32 | .tx32x16 | .tx16x64 | .tx64x16 => 2
  | .tx64x64 | .tx32x64 | .tx64x32 => 4
  | _ => 1

/-- The dequantization of the AV1 specification (7.12.3), without the quantizer matrices (which the encoder
never enables) and before the clamp of the result: the product is reduced to 24 bits, divided by the
denominator, and gets the sign of the level. -/
def specDequant (tx : TxSize) (q : Nat) (level : Int) : Int :=
  let m : Nat := level.natAbs * q % 2 ^ 24 / dqDenom tx
  if level < 0 then -(m : Int) else m

theorem dqDenom_eq (tx : TxSize) : dqDenom tx = 2 ^ logTxScale tx := by cases tx <;> decide

/-! ## The loops -/

theorem lastPos_ok {w : Nat} (hw : w = 16 ∨ w = 32) (dz : Int) (is : List Nat) (cs : List Int)
    (hc : ∀ c ∈ cs, c.natAbs < lim w) :
    ∃ m, lastPos dz w is cs = some m ∧
      (∀ (j i : Nat) (c : Int), is[j]? = some i → cs[j]? = some c → dz ≤ c.natAbs → i ≤ m) ∧
      (m = 0 ∨ ∃ (j : Nat) (c : Int), is[j]? = some m ∧ cs[j]? = some c ∧ dz ≤ c.natAbs) := by
  induction is generalizing cs with
  | nil => exact ⟨0, by simp [lastPos], by simp, Or.inl rfl⟩
  | cons i is ih =>
    cases cs with
    | nil => exact ⟨0, by simp [lastPos], by simp, Or.inl rfl⟩
    | cons c cs =>
      obtain ⟨m, h1, h2, h3⟩ := ih cs (fun c hc' => hc c (by simp [hc']))
      have h0 := chkI_lim hw (hc c (by simp))
      refine ⟨max (if dz ≤ (c.natAbs : Int) then i else 0) m, ?_, ?_, ?_⟩
      · rw [lastPos, h0, h1]; rfl
      · intro j i' c' hi' hc' hd
        cases j with
        | zero =>
          simp only [List.getElem?_cons_zero, Option.some.injEq] at hi' hc'
          subst hi'; subst hc'
          rw [if_pos hd]; exact le_max_left _ _
        | succ j =>
          rw [List.getElem?_cons_succ] at hi' hc'
          exact le_trans (h2 j i' c' hi' hc' hd) (le_max_right _ _)
      · rcases le_total (if dz ≤ (c.natAbs : Int) then i else 0) m with hle | hle
        · rw [max_eq_right hle]
          rcases h3 with h3 | ⟨j, c', ha, hb, hd⟩
          · exact Or.inl h3
          · exact Or.inr ⟨j + 1, c', by simpa using ha, by simpa using hb, hd⟩
        · rw [max_eq_left hle]
          split_ifs with hd
          · exact Or.inr ⟨0, c, by simp, by simp, hd⟩
          · exact Or.inl rfl

theorem acLoop_ok {qc : QCtx} (ok : QcOk qc) {w : Nat} (hw : w = 16 ∨ w = 32) {coeffs : List Int}
    (hc : ∀ c ∈ coeffs, c.natAbs < lim w) (ps : List Nat) (hn : ps.Nodup) (mode : Nat) (q : List Int)
    (hp : ∀ p ∈ ps, p < coeffs.length ∧ p < q.length) :
    ∃ r, acLoop qc w coeffs mode q ps = some r ∧ r.length = q.length ∧
      (∀ p, p ∉ ps → r[p]? = q[p]?) ∧
      (∀ p ∈ ps, ∀ c, coeffs[p]? = some c → ∃ off, (off = qc.acOffset0 ∨ off = qc.acOffset1) ∧
        r[p]? = some (levelOf qc.logTxScale off qc.acQuant c)) := by
  induction ps generalizing mode q with
  | nil => exact ⟨q, rfl, rfl, fun _ _ => rfl, by simp⟩
  | cons p ps ih =>
    obtain ⟨hp1, hn⟩ := List.nodup_cons.1 hn
    obtain ⟨hpc, hpq⟩ := hp p (by simp)
    obtain ⟨mode', off, hs, ho⟩ := acStep_eq ok hw (mode := mode) (List.getElem?_eq_getElem hpc)
      (hc _ (List.getElem_mem hpc)) hpq
    obtain ⟨r, h1, h2, h3, h4⟩ := ih hn mode' (q.set p (levelOf qc.logTxScale off qc.acQuant coeffs[p]))
      (fun p' hp' => by rw [List.length_set]; exact hp p' (by simp [hp']))
    refine ⟨r, by rw [acLoop, hs]; exact h1, by rw [h2, List.length_set], ?_, ?_⟩
    · intro p' hp'
      rw [List.mem_cons, not_or] at hp'
      rw [h3 p' hp'.2, List.getElem?_set_ne (Ne.symm hp'.1)]
    · intro p' hp' c hc'
      rcases List.mem_cons.1 hp' with rfl | hp'
      · rw [List.getElem?_eq_getElem hpc, Option.some.injEq] at hc'
        subst hc'
        exact ⟨off, ho, by rw [h3 _ hp1, List.getElem?_set_self hpq]⟩
      · exact h4 p' hp' c hc'

theorem eobOf_append (q : List Int) (l : List Nat) (x : Nat) :
    eobOf q (l ++ [x]) = if q.getD x 0 ≠ 0 then l.length + 1 else eobOf q l := by
  simp [eobOf, List.zipIdx_append, List.foldl_append]

theorem eobOf_eq (q : List Int) (scan : List Nat) (e : Nat) (h0 : e ≤ scan.length)
    (h1 : ∀ j p, e ≤ j → scan[j]? = some p → q.getD p 0 = 0)
    (h2 : 0 < e → ∃ p, scan[e - 1]? = some p ∧ q.getD p 0 ≠ 0) : e = eobOf q scan := by
  induction scan using List.reverseRecOn with
  | nil => simp at h0; subst h0; rfl
  | append_singleton l x ih =>
    rw [eobOf_append]
    rw [List.length_append, List.length_singleton] at h0
    rcases Nat.lt_or_ge e (l.length + 1) with he | he
    · have hx : q.getD x 0 = 0 := h1 l.length x (by omega) (by simp)
      rw [if_neg (fun h => h hx)]
      apply ih (by omega)
      · intro j p hj hp
        have hjl := (List.getElem?_eq_some_iff.1 hp).1
        exact h1 j p hj (by rw [List.getElem?_append_left hjl]; exact hp)
      · intro hpos
        obtain ⟨p, hp, hq⟩ := h2 hpos
        exact ⟨p, by rwa [List.getElem?_append_left (by omega)] at hp, hq⟩
    · have hel : e = l.length + 1 := by omega
      subst hel
      obtain ⟨p, hp, hq⟩ := h2 (by omega)
      rw [show l.length + 1 - 1 = l.length by omega, List.getElem?_append_right (by omega)] at hp
      simp at hp
      subst hp
      rw [if_pos hq]

/-! ## The quantizer -/

/-- What the level at a position is. -/
def LevelAt (qc : QCtx) (p : Nat) (c l : Int) : Prop :=
  (p = 0 ∧ l = levelOf qc.logTxScale qc.dcOffset qc.dcQuant c) ∨
  (0 < p ∧ ∃ off, (off = qc.acOffset0 ∨ off = qc.acOffset1) ∧ l = levelOf qc.logTxScale off qc.acQuant c) ∨
  (0 < p ∧ l = 0 ∧ c.natAbs * 2 ^ qc.logTxScale < qc.acQuant)

theorem deadzone_ok {qc : QCtx} (ok : QcOk qc) {w : Nat} (hw : w = 16 ∨ w = 32) :
    ∃ dz : Nat, deadzone qc w = some (dz : Int) ∧
      ∀ x : Nat, dz ≤ x ↔ qc.acQuant ≤ x * 2 ^ qc.logTxScale + qc.acOffsetEob := by
  have h1 := ok.acOff1
  have h2 := ok.acOff01
  have h3 := ok.acOffE
  have h4 := ok.acHi
  refine ⟨((qc.acQuant - qc.acOffsetEob) + 2 ^ qc.logTxScale - 1) / 2 ^ qc.logTxScale, ?_, ?_⟩
  · unfold deadzone
    rw [if_pos (by omega), wrap_lim hw]
    rw [Int.natAbs_natCast]
    have : ((qc.acQuant - qc.acOffsetEob) + 2 ^ qc.logTxScale - 1) / 2 ^ qc.logTxScale < 32768 := by
      rcases pow_scale ok.scale with h | h | h <;> rw [h] <;> omega
    refine lt_of_lt_of_le this ?_
    rcases hw with rfl | rfl <;> decide
  · intro x
    rcases pow_scale ok.scale with h | h | h <;> rw [h] <;> omega

theorem quantizeWith_ok {qc : QCtx} (ok : QcOk qc) {w : Nat} (hw : w = 16 ∨ w = 32) {scan iscan : List Nat}
    {n : Nat} (hperm : scan.Perm (List.range n)) (h0 : scan[0]? = some 0) (hil : iscan.length = n)
    (hinv : ∀ i p, scan[i]? = some p ↔ i < n ∧ iscan[p]? = some i) {coeffs q : List Int}
    (hcl : n ≤ coeffs.length) (hql : n ≤ q.length) (hz : ∀ x ∈ q, x = 0)
    (hc : ∀ c ∈ coeffs, c.natAbs < lim w) :
    ∃ eob levels, quantizeWith qc w scan iscan coeffs q = some (eob, levels) ∧
      levels.length = q.length ∧ EobExact scan levels eob ∧
      (∀ p c, p < n → coeffs[p]? = some c → ∃ l, levels[p]? = some l ∧ LevelAt qc p c l) ∧
      (∀ p, n ≤ p → p < q.length → levels[p]? = some 0) := by
  have hlen : scan.length = n := by rw [hperm.length_eq, List.length_range]
  have hnd : scan.Nodup := hperm.nodup_iff.2 List.nodup_range
  have hmem : ∀ p, p ∈ scan ↔ p < n := fun p => by rw [hperm.mem_iff, List.mem_range]
  have hn0 : 0 < n := by rw [← hlen]; exact (List.getElem?_eq_some_iff.1 h0).1
  have hqz : ∀ p, p < q.length → q[p]? = some 0 := fun p hp => by
    rw [List.getElem?_eq_getElem hp, hz _ (List.getElem_mem hp)]
  have hc0 : coeffs[0]? = some (coeffs[0]'(by omega)) := List.getElem?_eq_getElem (by omega)
  generalize coeffs[0]'(by omega) = c0 at hc0
  have hc0l : c0.natAbs < lim w := hc _ (List.mem_of_getElem? hc0)
  have hd := dcLevel_eq ok hw hc0l
  generalize hdv : levelOf qc.logTxScale qc.dcOffset qc.dcQuant c0 = d at hd
  obtain ⟨dz, hdz, hdz2⟩ := deadzone_ok ok hw
  obtain ⟨m, hm, hm1, hm2⟩ := lastPos_ok hw dz iscan coeffs hc
  have hmn : m < n := by
    rcases hm2 with rfl | ⟨j, c, hj, _, _⟩
    · exact hn0
    · by_contra hcon
      have hjn : j < n := by rw [← hil]; exact (List.getElem?_eq_some_iff.1 hj).1
      obtain ⟨i, hi⟩ := List.mem_iff_getElem?.1 ((hmem j).2 hjn)
      obtain ⟨hi1, hi2⟩ := (hinv i j).1 hi
      rw [hi2, Option.some.injEq] at hj
      omega
  obtain ⟨eob, heob⟩ : ∃ e, e = if 0 < m then m + 1 else if d ≠ 0 then 1 else 0 := ⟨_, rfl⟩
  have heobn : eob ≤ n := by rw [heob]; split_ifs <;> omega
  -- the positions visited
  have hvis : ∀ p, p ∈ (scan.take eob).drop 1 ↔ ∃ j, 1 ≤ j ∧ j < eob ∧ scan[j]? = some p := by
    intro p
    rw [List.mem_iff_getElem?]
    constructor
    · rintro ⟨k, hk⟩
      rw [List.getElem?_drop, List.getElem?_take] at hk
      split_ifs at hk with h
      exact ⟨1 + k, by omega, h, hk⟩
    · rintro ⟨j, h1, h2, h3⟩
      refine ⟨j - 1, ?_⟩
      rw [List.getElem?_drop, show 1 + (j - 1) = j by omega, List.getElem?_take, if_pos h2]
      exact h3
  have hndv : ((scan.take eob).drop 1).Nodup := (hnd.sublist (List.take_sublist _ _)).sublist (List.drop_sublist _ _)
  obtain ⟨r, hr, hrl, hr1, hr2⟩ := acLoop_ok ok hw hc ((scan.take eob).drop 1) hndv 1 (q.set 0 d)
    (fun p hp => by
      obtain ⟨j, _, _, h3⟩ := (hvis p).1 hp
      have := (hmem p).1 (List.mem_of_getElem? h3)
      rw [List.length_set]; omega)
  rw [List.length_set] at hrl
  -- position 0 is not visited
  have h0v : 0 ∉ (scan.take eob).drop 1 := by
    intro h
    obtain ⟨j, h1, _, h3⟩ := (hvis 0).1 h
    have ha := ((hinv j 0).1 h3).2
    rw [((hinv 0 0).1 h0).2, Option.some.injEq] at ha
    omega
  have hr0 : r[0]? = some d := by
    rw [hr1 0 h0v, List.getElem?_set_self (by omega)]
  have hrz : ∀ p, p ∉ (scan.take eob).drop 1 → 0 < p → p < q.length → r[p]? = some 0 := by
    intro p hp hp0 hpq
    rw [hr1 p hp, List.getElem?_set_ne (by omega)]; exact hqz p hpq
  have hpos0 : ∀ j p, 1 ≤ j → scan[j]? = some p → 0 < p := by
    intro j p hj hjp
    rcases Nat.eq_zero_or_pos p with rfl | h
    · have ha := ((hinv j 0).1 hjp).2
      rw [((hinv 0 0).1 h0).2, Option.some.injEq] at ha
      omega
    · exact h
  -- a position not visited has a coefficient in the dead zone
  have hdead : ∀ j p c, 1 ≤ j → eob ≤ j → scan[j]? = some p → coeffs[p]? = some c → c.natAbs < dz := by
    intro j p c hj1 hj hjp hcp
    by_contra hcon
    have hle := hm1 p j c ((hinv j p).1 hjp).2 hcp (by omega)
    rw [heob] at hj
    split_ifs at hj <;> omega
  have hex : EobExact scan r eob := by
    refine ⟨by omega, ?_, ?_⟩
    · intro j p hj hjp
      have hpn := (hmem p).1 (List.mem_of_getElem? hjp)
      rcases Nat.eq_zero_or_pos j with rfl | hj1
      · rw [h0, Option.some.injEq] at hjp
        subst hjp
        have : d = 0 := by
          rw [heob] at hj
          split_ifs at hj with h1 h2
          · omega
          · omega
          · simpa using h2
        rw [hr0, this]
      · apply hrz p _ (hpos0 j p hj1 hjp) (by omega)
        intro hv
        obtain ⟨j', _, h2, h3⟩ := (hvis p).1 hv
        have h4 := ((hinv j p).1 hjp).2
        have h5 := ((hinv j' p).1 h3).2
        rw [h4, Option.some.injEq] at h5
        omega
    · intro hpos
      by_cases hm0 : 0 < m
      · have he : eob = m + 1 := by rw [heob, if_pos hm0]
        rcases hm2 with h | ⟨p, c, hp1, hp2, hp3⟩
        · omega
        · have hsm : scan[m]? = some p := (hinv m p).2 ⟨hmn, hp1⟩
          have hv : p ∈ (scan.take eob).drop 1 := (hvis p).2 ⟨m, by omega, by omega, hsm⟩
          obtain ⟨off, ho, hl⟩ := hr2 p hv c hp2
          refine ⟨p, _, by rw [he]; exact hsm, hl, ?_⟩
          have hx := (hdz2 c.natAbs).1 (by omega)
          have h1 := ok.acOff1
          have h2 := ok.acOff01
          have h3 := ok.acOffE
          intro hzero
          have hna := levelOf_natAbs (s := qc.logTxScale) (c := c) (show off < qc.acQuant by omega)
          rw [hzero] at hna
          have : 1 ≤ (c.natAbs * 2 ^ qc.logTxScale + off) / qc.acQuant := by
            rw [Nat.le_div_iff_mul_le (by omega)]; omega
          simp at hna
          omega
      · have hd0 : d ≠ 0 := by
          intro h
          rw [heob, if_neg hm0, if_neg (by simpa using h)] at hpos
          omega
        have he : eob = 1 := by rw [heob, if_neg hm0, if_pos hd0]
        exact ⟨0, d, by rw [he]; exact h0, hr0, hd0⟩
  refine ⟨eob, r, ?_, hrl, hex, ?_, ?_⟩
  · have heq : eob = eobOf r scan := by
      apply eobOf_eq r scan eob hex.le
      · intro j p hj hjp
        rw [List.getD_eq_getElem?_getD, hex.zero j p hj hjp]; rfl
      · intro hpos
        obtain ⟨p, v, h1, h2, h3⟩ := hex.last hpos
        exact ⟨p, h1, by rw [List.getD_eq_getElem?_getD, h2]; exact h3⟩
    unfold quantizeWith
    rw [hc0, Option.bind_eq_bind, Option.bind_some, hd, Option.bind_eq_bind, Option.bind_some]
    dsimp only
    rw [if_pos (show 0 < q.length by omega)]
    show ((some (q.set 0 d)).bind _) = _
    rw [Option.bind_some]
    rw [hdz, Option.bind_some, hm, Option.bind_some, ← heob, hr, Option.bind_eq_bind, Option.bind_some, if_pos heq]
  · intro p c hp hcp
    rcases Nat.eq_zero_or_pos p with rfl | hp0
    · rw [hc0, Option.some.injEq] at hcp
      subst hcp
      exact ⟨d, hr0, Or.inl ⟨rfl, hdv.symm⟩⟩
    · by_cases hv : p ∈ (scan.take eob).drop 1
      · obtain ⟨off, ho, hl⟩ := hr2 p hv c hcp
        exact ⟨_, hl, Or.inr (Or.inl ⟨hp0, off, ho, rfl⟩)⟩
      · refine ⟨0, hrz p hv hp0 (by omega), Or.inr (Or.inr ⟨hp0, rfl, ?_⟩)⟩
        obtain ⟨j, hj⟩ := List.mem_iff_getElem?.1 ((hmem p).2 hp)
        have hj1 : 1 ≤ j := by
          rcases Nat.eq_zero_or_pos j with rfl | h
          · rw [h0, Option.some.injEq] at hj; omega
          · exact h
        have hje : eob ≤ j := by
          by_contra hcon
          exact hv ((hvis p).2 ⟨j, hj1, by omega, hj⟩)
        have := hdead j p c hj1 hje hj hcp
        have := mt (hdz2 c.natAbs).2 (by omega)
        omega
  · intro p hp hpq
    apply hrz p _ (by omega) hpq
    intro hv
    obtain ⟨j, _, _, h3⟩ := (hvis p).1 hv
    have := (hmem p).1 (List.mem_of_getElem? h3)
    omega

/-! ## The reconstruction -/

theorem dequantLoop_ok {s dq aq w : Nat} (hs : s ≤ 2) (hw : w = 16 ∨ w = 32) (levels : List Int) (i : Nat)
    (h : ∀ j l, levels[j]? = some l → l.natAbs * (if i + j = 0 then dq else aq) < 2147483640 ∧
      l.natAbs * (if i + j = 0 then dq else aq) / 2 ^ s < lim w) :
    ∃ rs, dequantLoop s dq aq w i levels = some rs ∧ rs.length = levels.length ∧
      ∀ j l, levels[j]? = some l → rs[j]? = some (recOf s (if i + j = 0 then dq else aq) l) := by
  induction levels generalizing i with
  | nil => exact ⟨[], rfl, rfl, by simp⟩
  | cons l ls ih =>
    obtain ⟨rs, h1, h2, h3⟩ := ih (i + 1) (fun j l' hl' => by
      have := h (j + 1) l' (by simpa using hl')
      rwa [show i + (j + 1) = i + 1 + j by omega] at this)
    obtain ⟨ha, hb⟩ := h 0 l (by simp)
    rw [Nat.add_zero] at ha hb
    have hd := dequant1_eq hs hw ha hb
    refine ⟨recOf s (if i = 0 then dq else aq) l :: rs, ?_, by simp [h2], ?_⟩
    · rw [dequantLoop, hd, Option.bind_eq_bind, Option.bind_some, h1]
      rfl
    · intro j l' hl'
      cases j with
      | zero => simp at hl'; subst hl'; simp
      | succ j =>
        have := h3 j l' (by simpa using hl')
        rw [show i + 1 + j = i + (j + 1) by omega] at this
        simpa using this

theorem recOf_zero (s q : Nat) : recOf s q 0 = 0 := by simp [recOf]

/-- The magnitude of a level times the quantizer. -/
theorem level_mul_le {s off q : Nat} {c : Int} (hoff : off < q) :
    (levelOf s off q c).natAbs * q ≤ c.natAbs * 2 ^ s + off := by
  rw [levelOf_natAbs hoff]; exact Nat.div_mul_le_self _ _

theorem level_bounds {s off q w : Nat} {c : Int} (hs : s ≤ 2) (hoff : 2 * off < q) (hq : q < 32768) (hq4 : 4 ≤ q)
    (hroom : c.natAbs + q < lim w) :
    (levelOf s off q c).natAbs * q < 2147483640 ∧ (levelOf s off q c).natAbs * q / 2 ^ s < lim w := by
  have h := level_mul_le (s := s) (c := c) (show off < q by omega)
  have hl := lim_le w
  generalize (levelOf s off q c).natAbs * q = P at *
  rcases pow_scale hs with h' | h' | h' <;> rw [h'] at h ⊢ <;> omega

/-! ## C35 -/

/-- **C35 (end of block)**: for every quantizer index, bit depth, transform size and type, and every block of
coefficients, quantizing does not panic (not even its debug assertion), and the end of block it returns is
exactly one past the last non-zero level in the coding order of AV1. -/
theorem quantize_eob (qindex : Nat) (tx : TxSize) (ty : TxType) (hty : ty ≠ .whtWht) (intra : Bool) (bd : Nat)
    (dcd acd : Int) (w : Nat) (hw : w = 16 ∨ w = 32) (coeffs q : List Int)
    (hcl : codedW tx * codedH tx ≤ coeffs.length) (hql : codedW tx * codedH tx ≤ q.length)
    (hz : ∀ x ∈ q, x = 0) (hc : ∀ c ∈ coeffs, c.natAbs < lim w) :
    ∃ qc eob levels, QCtx.update qindex tx intra bd dcd acd = some qc ∧
      quantize qc w coeffs q tx ty = some (eob, levels) ∧ levels.length = q.length ∧
      EobExact ((specOrder tx ty).map (storage (codedH tx))) levels eob := by
  obtain ⟨qc, h1, ok, _, _, _⟩ := update_ok qindex tx intra bd dcd acd
  obtain ⟨scan, iscan, h2, h3, h4, h5, h6, h7⟩ := scan_permutation tx ty hty
  obtain ⟨eob, levels, ha, hb, hc, _⟩ := quantizeWith_ok ok hw h4 h5 h6 h7 hcl hql hz hc
  have hsp := scan_spec tx ty hty
  rw [h2, Option.some.injEq] at hsp
  refine ⟨qc, eob, levels, h1, ?_, hb, by rw [← hsp]; exact hc⟩
  unfold quantize
  rw [h2, Option.bind_eq_bind, Option.bind_some, h3, Option.bind_some]
  exact ha

/-- **C35 (error)**: if every coefficient lies at least one quantizer step inside the range of its type, the
reconstruction does not panic or wrap, and each reconstructed coefficient is off by less than one quantizer
step (of the DC or AC quantizer, at the scale of the transform size) and is zero or has the original's sign.
What the encoder reconstructs is what the AV1 decoding process computes. -/
theorem quantize_error (qindex : Nat) (tx : TxSize) (ty : TxType) (hty : ty ≠ .whtWht) (intra : Bool) (bd : Nat)
    (dcd acd : Int) (w : Nat) (hw : w = 16 ∨ w = 32) (coeffs q : List Int)
    (hcl : codedW tx * codedH tx ≤ coeffs.length) (hql : codedW tx * codedH tx ≤ q.length)
    (hz : ∀ x ∈ q, x = 0) (dq aq : Nat) (hdq : dcQ qindex dcd bd = some dq) (haq : acQ qindex acd bd = some aq)
    (hc : ∀ c ∈ coeffs, c.natAbs + max dq aq < lim w) :
    ∃ qc eob levels rs, QCtx.update qindex tx intra bd dcd acd = some qc ∧
      quantize qc w coeffs q tx ty = some (eob, levels) ∧
      dequantize qindex w levels tx bd dcd acd = some rs ∧
      ∀ p c, p < codedW tx * codedH tx → coeffs[p]? = some c →
        ∃ l r, levels[p]? = some l ∧ rs[p]? = some r ∧
          dqDenom tx * (c - r).natAbs < (if p = 0 then dq else aq) ∧ (r = 0 ∨ r.sign = c.sign) ∧
          (c.natAbs < 2 ^ 21 → r = specDequant tx (if p = 0 then dq else aq) l) := by
  obtain ⟨qc, h1, ok, hs, hqd, hqa⟩ := update_ok qindex tx intra bd dcd acd
  rw [hdq, Option.some.injEq] at hqd
  rw [haq, Option.some.injEq] at hqa
  subst hqd; subst hqa
  obtain ⟨scan, iscan, h2, h3, h4, h5, h6, h7⟩ := scan_permutation tx ty hty
  obtain ⟨eob, levels, ha, hb, _, hlv, hlz⟩ := quantizeWith_ok ok hw h4 h5 h6 h7 hcl hql hz
    (fun c hc' => by have := hc c hc'; omega)
  have hquant : quantize qc w coeffs q tx ty = some (eob, levels) := by
    unfold quantize
    rw [h2, Option.bind_eq_bind, Option.bind_some, h3, Option.bind_some]
    exact ha
  have hd := ok.dcOff
  have ho1 := ok.acOff1
  have ho01 := ok.acOff01
  have ho0 := ok.acOff0
  have hdhi := ok.dcHi
  have hahi := ok.acHi
  have hlim0 : 0 < lim w := by rcases hw with rfl | rfl <;> decide
  -- every level can be reconstructed
  have hlev : ∀ j l, levels[j]? = some l →
      l.natAbs * (if 0 + j = 0 then qc.dcQuant else qc.acQuant) < 2147483640 ∧
      l.natAbs * (if 0 + j = 0 then qc.dcQuant else qc.acQuant) / 2 ^ logTxScale tx < lim w := by
    intro j l hl
    have hjl := (List.getElem?_eq_some_iff.1 hl).1
    rcases Nat.lt_or_ge j (codedW tx * codedH tx) with hj | hj
    · have hcj : j < coeffs.length := by omega
      obtain ⟨l', hl', hat⟩ := hlv j _ hj (List.getElem?_eq_getElem hcj)
      have hroom := hc _ (List.getElem_mem hcj)
      rw [hl, Option.some.injEq] at hl'
      subst hl'
      rw [← hs]
      rcases hat with ⟨rfl, rfl⟩ | ⟨hj0, off, ho, rfl⟩ | ⟨_, rfl, _⟩
      · exact level_bounds ok.scale hd.1 hdhi (by have := ok.dcQ; omega) (by omega)
      · rw [if_neg (by omega)]
        exact level_bounds ok.scale (by omega) hahi (by have := ok.acQ; omega) (by omega)
      · simp [hlim0]
    · have := hlz j hj (by omega)
      rw [hl, Option.some.injEq] at this
      subst this
      simp [hlim0]
  obtain ⟨rs, hr1, hr2, hr3⟩ := dequantLoop_ok (logTxScale_le tx) hw levels 0 hlev
  refine ⟨qc, eob, levels, rs, h1, hquant, ?_, ?_⟩
  · unfold dequantize
    rw [hdq, Option.bind_eq_bind, Option.bind_some, haq, Option.bind_some]
    exact hr1
  · intro p c hp hcp
    obtain ⟨l, hl, hat⟩ := hlv p c hp hcp
    refine ⟨l, _, hl, hr3 p l hl, ?_, ?_, ?_⟩
    · rw [dqDenom_eq, ← hs, Nat.zero_add]
      rcases hat with ⟨rfl, rfl⟩ | ⟨hj0, off, ho, rfl⟩ | ⟨hj0, rfl, hsm⟩
      · exact (level_error ok.scale ok.dcQ hd.1 hd.2).1
      · rw [if_neg (by omega)]
        exact (level_error ok.scale ok.acQ (by omega) (fun h => by have := ho0 h; omega)).1
      · rw [if_neg (by omega), recOf_zero, sub_zero, Nat.mul_comm]; exact hsm
    · rw [← hs, Nat.zero_add]
      rcases hat with ⟨rfl, rfl⟩ | ⟨hj0, off, ho, rfl⟩ | ⟨hj0, rfl, hsm⟩
      · exact (level_error ok.scale ok.dcQ hd.1 hd.2).2
      · rw [if_neg (by omega)]
        exact (level_error ok.scale ok.acQ (by omega) (fun h => by have := ho0 h; omega)).2
      · left; exact recOf_zero _ _
    · intro hsmall
      rw [Nat.zero_add]
      have hb : l.natAbs * (if p = 0 then qc.dcQuant else qc.acQuant) < 2 ^ 24 := by
        rcases hat with ⟨rfl, rfl⟩ | ⟨hj0, off, ho, rfl⟩ | ⟨hj0, rfl, hsm⟩
        · have := level_mul_le (s := qc.logTxScale) (c := c) (show qc.dcOffset < qc.dcQuant by omega)
          rw [if_pos rfl]
          rcases pow_scale ok.scale with h' | h' | h' <;> rw [h'] at this <;> omega
        · have := level_mul_le (s := qc.logTxScale) (c := c) (show off < qc.acQuant by omega)
          rw [if_neg (by omega)]
          rcases pow_scale ok.scale with h' | h' | h' <;> rw [h'] at this <;> omega
        · simp
      unfold specDequant recOf
      rw [dqDenom_eq]
      generalize (if p = 0 then qc.dcQuant else qc.acQuant) = Q at *
      dsimp only
      rw [Nat.mod_eq_of_lt hb]
      symm
      apply sign_mul
      rintro rfl
      simp

/-! ## Witnesses -/

/-- A 4x4 block of 8-bit video. -/
example : (QCtx.update 100 .tx4x4 true 8 0 0).bind (fun qc => quantize qc 16
      [-700, 40, 0, 0, 300, 0, 120, 0, 0, 0, 0, 0, 0, 0, -30, 7] (List.replicate 16 0) .tx4x4 .dctDct) =
      some (9, [-7, 0, 0, 0, 3, 0, 1, 0, 0, 0, 0, 0, 0, 0, 0, 0]) := by
  decide +kernel

/-- Finding: the restriction of `quantize_error` is necessary. With 16-bit coefficients (8-bit video) the
encoder's reconstruction wraps: a DC coefficient of 32640 in a 16x16 block at quantizer index 250 becomes
level 30, which is reconstructed as -32596 (a decoder computes 32940 and clamps it to 32767). -/
theorem dequantize_wraps :
    (QCtx.update 250 .tx16x16 true 8 0 0).bind (fun qc => quantize qc 16
      (32640 :: List.replicate 255 0) (List.replicate 256 0) .tx16x16 .dctDct) =
        some (1, 30 :: List.replicate 255 0) ∧
    dequantize 250 16 (30 :: List.replicate 255 0) .tx16x16 8 0 0 = some (-32596 :: List.replicate 255 0) ∧
    specDequant .tx16x16 1098 30 = 32940 := by
  decide +kernel

end Rav1e.Quant

import Verif.Sched.Dec

/-!
# What has come out so far
-/

namespace Rav1e.Sched

open Spec

variable {F O M : Type}

section
variable (c : Cfg) (K : Nat → Bool) (lim : Option Nat)

/-! ## Hidden frames waiting for the next packet -/

/-- Hidden frames since the last shown one, before output `o`. -/
def hid : Nat → Nat
  | 0 => 0
  | o + 1 => match plan c K lim o with
    | none => hid o
    | some p => if p.shown then 0 else hid o + 1

theorem hid_R (hv : c.Valid) (hr : c.reorder = true) (o : Nat) :
    ∃ gs go j idx, PosR c K lim (o + 1) gs go j idx ∧
      hid c K lim (o + 1) ≤ if idx ≤ 2 then idx else 0 := by
  induction o with
  | zero =>
    have hs : sched c K lim 0 = (0, 0) := rfl
    obtain ⟨gs, go, j, idx, p⟩ := posR c K lim hv hr 0
    refine ⟨gs, go, j, idx, p, ?_⟩
    simp only [hid, plan_key c K lim hs, newKeyFrame, FI.strip, if_true]
    omega
  | succ o ih =>
    obtain ⟨gs, go, j, idx, p, hh⟩ := ih
    rcases p.step c K lim hv hr with ⟨_, h2, h⟩ | ⟨h1, h2, h⟩
    · refine ⟨_, _, _, _, h, ?_⟩
      rw [hid, plan_key c K lim h2]
      simp [newKeyFrame, FI.strip]
    · refine ⟨_, _, _, _, h, ?_⟩
      have hlt := p.lt
      rw [hid, plan_R c K lim hv hr h2 p.pos hlt]
      rcases (by omega : idx = 0 ∨ idx = 1 ∨ idx = 2 ∨ idx = 3 ∨ idx = 4 ∨ idx = 5) with
        e | e | e | e | e | e <;> subst e
      · by_cases hc : gs + 4 * j + off 0 < nk c K lim gs
        · rw [if_pos hc]; simp [stR] at hh ⊢; omega
        · rw [if_neg hc]; simp at hh ⊢; omega
      · by_cases hc : gs + 4 * j + off 1 < nk c K lim gs
        · rw [if_pos hc]; simp [stR] at hh ⊢; omega
        · rw [if_neg hc]; simp at hh ⊢; omega
      · rw [if_pos (by simp only [off]; omega)]
        simp [stR]
      · by_cases hc : gs + 4 * j + off 3 < nk c K lim gs
        · rw [if_pos hc]; simp [stR]
        · rw [if_neg hc]; simp at hh ⊢; omega
      · by_cases hc : gs + 4 * j + off 4 < nk c K lim gs
        · rw [if_pos hc]; simp [stR]
        · rw [if_neg hc]; simp at hh ⊢; omega
      · by_cases hc : gs + 4 * j + off 5 < nk c K lim gs
        · rw [if_pos hc]; simp [stR]
        · rw [if_neg hc]; simp at hh ⊢; omega

theorem hid_L (hr : c.reorder = false) (o : Nat) : hid c K lim o = 0 := by
  induction o with
  | zero => rfl
  | succ o ih =>
    rcases Nat.eq_zero_or_pos o with e | e
    · subst e
      have hs : sched c K lim 0 = (0, 0) := rfl
      simp only [hid, plan_key c K lim hs, newKeyFrame, FI.strip, if_true]
    · obtain ⟨o', rfl⟩ : ∃ k, o = k + 1 := ⟨o - 1, by omega⟩
      obtain ⟨gs, go, k, p⟩ := posL c K lim hr o'
      rcases p.step c K lim hr with ⟨_, h2, h⟩ | ⟨h1, h2, h⟩
      · rw [hid, plan_key c K lim h2]
        simp [newKeyFrame, FI.strip]
      · rw [hid, plan_L c K lim hr h2 p.pos p.lt, if_pos h1]
        simp [stL]

theorem hid_le (hv : c.Valid) (o : Nat) : hid c K lim o ≤ 2 := by
  rcases Nat.eq_zero_or_pos o with e | e
  · subst e; simp [hid]
  · obtain ⟨o', rfl⟩ : ∃ k, o = k + 1 := ⟨o - 1, by omega⟩
    cases hr : c.reorder with
    | true =>
      obtain ⟨gs, go, j, idx, p, h⟩ := hid_R c K lim hv hr o'
      split at h <;> omega
    | false => rw [hid_L c K lim hr]; omega

theorem hid_key (hv : c.Valid) {o : Nat} {p : FI Unit} (hp : plan c K lim o = some p)
    (hk : p.ftype = .key) : hid c K lim o = 0 := by
  rcases Nat.eq_zero_or_pos o with e | e
  · subst e; rfl
  · obtain ⟨o', rfl⟩ : ∃ k, o = k + 1 := ⟨o - 1, by omega⟩
    have hs := ((plan_facts c K lim hv hp).2.2.2.2.1.1 hk)
    cases hr : c.reorder with
    | true =>
      obtain ⟨gs, go, j, idx, p, h⟩ := hid_R c K lim hv hr o'
      rcases p.step c K lim hv hr with ⟨⟨h1, _⟩, _, _⟩ | ⟨_, h2, _⟩
      · subst h1; simpa using h
      · rw [h2] at hs
        have := p.pos
        simp only at hs
        omega
    | false => exact hid_L c K lim hr _

theorem hid_hole {a b : Nat} (h : a ≤ b)
    (hn : ∀ k, a ≤ k → k < b → plan c K lim k = none) :
    hid c K lim b = hid c K lim a := by
  induction b with
  | zero => have : a = 0 := by omega
            rw [this]
  | succ b ih =>
    rcases Nat.lt_or_ge b a with h' | h'
    · have : a = b + 1 := by omega
      rw [this]
    · rw [hid, hn b h' (by omega)]
      exact ih h' (fun k h1 h2 => hn k h1 (by omega))

/-! ## Metadata without reordering -/

theorem plan_low (hr : c.reorder = false) (o : Nat) : ∃ p, plan c K lim o = some p ∧ p.shown = true := by
  cases o with
  | zero => exact ⟨_, plan_key c K lim rfl, rfl⟩
  | succ o =>
    obtain ⟨gs, go, k, p⟩ := posL c K lim hr o
    rcases p.step c K lim hr with ⟨_, h2, h⟩ | ⟨h1, h2, h⟩
    · exact ⟨_, plan_key c K lim h2, rfl⟩
    · exact ⟨_, by rw [plan_L c K lim hr h2 p.pos p.lt, if_pos h1], rfl⟩

theorem shownBefore_low (hr : c.reorder = false) (o : Nat) : shownBefore c K lim o = o := by
  induction o with
  | zero => rfl
  | succ o ih =>
    obtain ⟨p, h1, h2⟩ := plan_low c K lim hr o
    simp [shownBefore, h1, h2, ih]

theorem t35Of_low (hv : c.Valid) (hr : c.reorder = false) (A : List (F × Option (Params O M))) {o : Nat} {p : FI Unit}
    (hp : plan c K lim o = some p) (hs : p.shown = true) : t35Of c K lim A o = t35At A p.input := by
  have hi := (plan_facts c K lim hv hp).2.2.1 hs
  unfold t35Of
  rw [hp]
  simp only [lookIn_low hr, shownBefore_low c K lim hr] at hi ⊢
  rw [if_pos ⟨hs, fun k hk => by omega⟩, hi]

theorem t35Of_append {a b : List (F × Option (Params O M))} {o : Nat} (h : lookIn c K lim o < a.length ∨ b = []) :
    t35Of c K lim (a ++ b) o = t35Of c K lim a o := by
  rcases h with h | h
  · have : t35At (a ++ b) (lookIn c K lim o) = t35At a (lookIn c K lim o) := by
      unfold t35At; rw [List.getElem?_append_left h]
    unfold t35Of
    cases plan c K lim o with
    | none => rfl
    | some p => simp only; rw [this]
  · rw [h, List.append_nil]

/-! ## Key frames by input number -/

theorem sinceKey_group (hv : c.Valid) {g : Nat} (hg : sinceKey K c.maxKey g = 0) (d : Nat)
    (hd : g + d < nk c K lim g) : sinceKey K c.maxKey (g + d) = d := by
  have hb := nk_le c K lim hv.maxKey g
  induction d with
  | zero => exact hg
  | succ d ih =>
    have h1 := ih (by omega)
    have hk := (nk_before c K lim g (g + d + 1) (by omega) hd).1
    rw [← Nat.add_assoc, sinceKey, h1, hk]
    have : (d + 1 == c.maxKey) = false := by
      simp only [beq_eq_false_iff_ne]; omega
    simp [this]

theorem sinceKey_next (hv : c.Valid) {g : Nat} (hg : sinceKey K c.maxKey g = 0)
    (hl : lim ≠ some (nk c K lim g)) : sinceKey K c.maxKey (nk c K lim g) = 0 := by
  have hgt := nk_gt c K lim g
  obtain ⟨d, hd⟩ : ∃ d, nk c K lim g = g + d + 1 := ⟨nk c K lim g - g - 1, by omega⟩
  have h1 := sinceKey_group c K lim hv hg d (by omega)
  have hb := nk_le c K lim hv.maxKey g
  rw [hd, sinceKey, h1]
  by_cases he : d + 1 = c.maxKey
  · simp [he]
  · rcases nk_is c K lim hv.maxKey g with h | h | h
    · rw [hd] at h; simp [h]
    · exact absurd h hl
    · omega

theorem sinceKey_sched (hv : c.Valid) (o : Nat)
    (hl : ∀ l, lim = some l → (sched c K lim o).1 < l) :
    sinceKey K c.maxKey (sched c K lim o).1 = 0 := by
  induction o with
  | zero => rfl
  | succ o ih =>
    rw [sched] at hl ⊢
    split
    · rename_i hk
      rw [if_pos hk] at hl
      have hgt := nk_gt c K lim (sched c K lim o).1
      apply sinceKey_next c K lim hv
      · exact ih (fun l h => by have := hl l h; simp only at this; omega)
      · intro h
        have := hl _ h
        simp only at this
        omega
    · rename_i hk
      rw [if_neg hk] at hl
      exact ih hl

/-- The frame for input `p.input` is a key frame exactly when one is due. -/
theorem key_iff (hv : c.Valid) {o : Nat} {p : FI Unit} (hp : plan c K lim o = some p)
    (hl : ∀ l, lim = some l → p.input < l) :
    p.ftype = .key ↔ sinceKey K c.maxKey p.input = 0 := by
  have hf := plan_facts c K lim hv hp
  have hs := sinceKey_sched c K lim hv o (fun l h => by have := hl l h; omega)
  have h1 := sinceKey_group c K lim hv hs p.orderHint (by omega)
  rw [← hf.2.2.2.2.2.2.2.2] at h1
  rw [h1]
  exact hint_pos c K lim hv hp

end

/-! ## The invariant -/

/-- Units that precede the displayed frame of a packet: metadata and hidden
frames. -/
def PreOk (pre : List (Obu M)) : Prop :=
  ∀ u ∈ pre, (∃ m, u = .t35 m) ∨
    ∃ h r rs pr src b, u = .frame .inter false h r rs pr src b

/-- The hidden frames coded since the last displayed one, before output `o`. -/
def pend (c : Cfg) (K : Nat → Bool) (lim : Option Nat) : Nat → List (Obu M)
  | 0 => []
  | o + 1 => match plan c K lim o with
    | none => pend c K lim o
    | some p => if p.shown then [] else pend c K lim o ++ unitsOf c K lim o p []

/-- What the packet for input `n` looks like. -/
def PkOk (c : Cfg) (K : Nat → Bool) (lim : Option Nat) (A : List (F × Option (Params O M)))
    (n : Nat) (pk : Packet F O M) : Prop :=
  ∃ o p t pre f, plan c K lim o = some p ∧ p.shown = true ∧ p.input = n ∧
    pk = ⟨.td :: pre ++ unitsOf c K lim o p t, some (.recon n), some f, n, p.ftype,
      userAt A n⟩ ∧
    qf A n = some f ∧ PreOk pre ∧ (p.ftype = .key → pre = []) ∧
    (c.reorder = false → pre = [] ∧ t = t35At A n) ∧
    pre = pend c K lim o ∧ t = t35Of c K lim A o

/-- The stream made of the packets. -/
def stream (pks : List (Packet F O M)) : List (Obu M) := pks.flatMap (·.data)

structure Hist (c : Cfg) (K : Nat → Bool) (lim : Option Nat)
    (A : List (F × Option (Params O M))) (s : St F O M) (pks : List (Packet F O M)) :
    Prop where
  len : pks.length = s.framesProcessed
  pk : ∀ n pk, pks[n]? = some pk → PkOk c K lim A n pk
  pend : s.packetData = .td :: pend c K lim s.outputFrameno
  dec : ∀ n, (n = 0 ∨ ∃ pk, pks[n]? = some pk ∧ pk.ftype = .key) →
    Conforms c.stillPicture Dec.init (stream (pks.drop n) ++ s.packetData) ∧
    Dec.run c.stillPicture Dec.init (stream (pks.drop n) ++ s.packetData) =
      ⟨decSlots c K lim s.outputFrameno,
        (List.range' n (s.framesProcessed - n)).map (fun i => some (.recon i))⟩

section
variable {c : Cfg} {K : Nat → Bool} {lim : Option Nat}
  {A : List (F × Option (Params O M))} {s s' : St F O M} {pks : List (Packet F O M)}

theorem Hist.zero : Hist c K lim A (init : St F O M) [] := by
  refine ⟨rfl, by simp, rfl, ?_⟩
  intro n hn
  rcases hn with rfl | ⟨pk, h, _⟩
  · simp only [init, stream, List.drop_nil, List.flatMap_nil, List.nil_append, decSlots_zero]
    exact ⟨⟨trivial, trivial⟩, rfl⟩
  · simp at h

theorem pend_hole {a b : Nat} (h : a ≤ b) (hn : ∀ k, a ≤ k → k < b → plan c K lim k = none) :
    (Sched.pend c K lim b : List (Obu M)) = Sched.pend c K lim a := by
  induction b with
  | zero => have : a = 0 := by omega
            rw [this]
  | succ b ih =>
    rcases Nat.lt_or_ge b a with h' | h'
    · have : a = b + 1 := by omega
      rw [this]
    · rw [Sched.pend, hn b h' (by omega)]
      exact ih h' (fun k h1 h2 => hn k h1 (by omega))

theorem Hist.same (h : Hist c K lim A s pks) (h1 : s'.packetData = s.packetData)
    (h2 : s'.framesProcessed = s.framesProcessed)
    (h3 : s.outputFrameno ≤ s'.outputFrameno)
    (h4 : ∀ k, s.outputFrameno ≤ k → k < s'.outputFrameno → plan c K lim k = none) :
    Hist c K lim A s' pks := by
  obtain ⟨a, b, d, e⟩ := h
  have e1 := pend_hole (M := M) h3 h4
  have e2 := decSlots_hole c K lim h3 h4
  refine ⟨by rw [h2]; exact a, b, ?_, ?_⟩
  · rw [h1, e1]; exact d
  · rw [h1, h2, e2]; exact e

theorem hid_pos_reorder (hr : c.reorder = false) (o : Nat) : hid c K lim o = 0 :=
  hid_L c K lim hr o

theorem hidden_inter (hv : c.Valid) {o : Nat} {p : FI Unit} (hp : plan c K lim o = some p)
    (hs : p.shown = false) : p.ftype = .inter ∧ p.sef = false := by
  rcases classify c K lim hv o with ⟨gs, h1, h2, -⟩ | ⟨hr, gs, go, j, idx, h1, h2, h3, h4, -, h5⟩ |
      ⟨hr, gs, go, k, h1, h2, h3, h4, -, h5⟩
  · rw [plan_key c K lim h1] at hp; cases hp; simp [FI.strip, newKeyFrame] at hs
  · rw [plan_R c K lim hv hr h1 h2 h3] at hp
    split at hp
    · cases hp
      simp only [stR, decide_eq_false_iff_not] at hs
      refine ⟨rfl, ?_⟩
      simp only [stR]
      rcases (by omega : idx = 0 ∨ idx = 1) with e | e <;> subst e <;> rfl
    · cases hp
  · rw [plan_L c K lim hr h1 h2 h3, if_pos h4] at hp
    cases hp
    simp [stL] at hs

/-- What is pending is made of hidden frames. -/
theorem pend_ok (hv : c.Valid) (o : Nat) : PreOk (Sched.pend c K lim o : List (Obu M)) ∧
    (hid c K lim o = 0 → (Sched.pend c K lim o : List (Obu M)) = []) := by
  induction o with
  | zero => exact ⟨by simp [PreOk, Sched.pend], fun _ => rfl⟩
  | succ o ih =>
    rw [Sched.pend, hid]
    cases hp : plan c K lim o with
    | none => exact ih
    | some p =>
      simp only
      cases hs : p.shown with
      | true => simp [PreOk]
      | false =>
        obtain ⟨hf, hsf⟩ := hidden_inter hv hp hs
        simp only [Bool.false_eq_true, if_false]
        refine ⟨?_, by omega⟩
        intro u hu
        rcases List.mem_append.1 hu with hu | hu
        · exact ih.1 u hu
        · unfold unitsOf at hu
          rw [hf, if_neg (by simp), List.map_nil, List.nil_append, List.nil_append] at hu
          right
          simp only [List.mem_singleton] at hu
          rw [hu]; unfold obuOf
          rw [hsf, if_neg (by simp), hs, hf]
          exact ⟨_, _, _, _, _, _, rfl⟩

theorem t35Of_hidden {o : Nat} {p : FI Unit} (hp : plan c K lim o = some p) (hs : p.shown = false) :
    t35Of c K lim A o = [] := by
  unfold t35Of; rw [hp]; simp [hs]

theorem Hist.hidden (h : Hist c K lim A s pks) (hv : c.Valid) {o : Nat} {p : FI Unit}
    {t : List M} (ht : t = t35Of c K lim A o) (hp : plan c K lim o = some p) (hs : p.shown = false)
    (ho : s.outputFrameno ≤ o)
    (hn : ∀ k, s.outputFrameno ≤ k → k < o → plan c K lim k = none)
    (h1 : s'.outputFrameno = o + 1) (h2 : s'.framesProcessed = s.framesProcessed)
    (h3 : s'.packetData = s.packetData ++ unitsOf c K lim o p t) :
    Hist c K lim A s' pks := by
  obtain ⟨a, b, d, e⟩ := h
  rw [t35Of_hidden hp hs] at ht
  subst ht
  refine ⟨by rw [h2]; exact a, b, ?_, ?_⟩
  · rw [h3, d, h1, Sched.pend, hp]
    simp only [hs, Bool.false_eq_true, if_false]
    rw [pend_hole ho hn]
    rfl
  · intro n hk
    obtain ⟨e1, e2⟩ := e n hk
    rw [← decSlots_hole c K lim ho hn] at e2
    obtain ⟨u1, u2⟩ := dec_units c K lim hv hp ([] : List M)
      ((List.range' n (s.framesProcessed - n)).map (fun i => some (Pic.recon i)))
    rw [h3, h1, h2, ← List.append_assoc]
    generalize stream (pks.drop n) ++ s.packetData = X at e1 e2 ⊢
    rw [conforms_append, run_append, e2]
    refine ⟨⟨e1, u1⟩, ?_⟩
    rw [u2, hs]
    rfl

theorem then_td (n : Bool) (d r : Dec) (Y : List (Obu M)) (h1 : Conforms n d Y)
    (h2 : Dec.run n d Y = r) :
    Conforms n d (Y ++ [.td]) ∧ Dec.run n d (Y ++ [.td]) = r := by
  rw [conforms_append, run_append, h2]
  exact ⟨⟨h1, trivial, trivial⟩, rfl⟩

theorem Hist.shown (h : Hist c K lim A s pks) (hv : c.Valid) {o : Nat} {p : FI Unit}
    {t : List M} {f : F} (hp : plan c K lim o = some p) (hs : p.shown = true)
    (hi : p.input = s.framesProcessed)
    (ho : s.outputFrameno ≤ o)
    (hn : ∀ k, s.outputFrameno ≤ k → k < o → plan c K lim k = none)
    (h1 : s'.outputFrameno = o + 1) (h2 : s'.framesProcessed = s.framesProcessed + 1)
    (h3 : s'.packetData = [.td]) (ht : t = t35Of c K lim A o)
    (hf : qf A p.input = some f) :
    Hist c K lim A s' (pks ++ [⟨s.packetData ++ unitsOf c K lim o p t,
        some (.recon p.input), some f, p.input, p.ftype, userAt A p.input⟩]) := by
  obtain ⟨a, b, d1, e⟩ := h
  have eh := hid_hole c K lim ho hn
  obtain ⟨d2, d3⟩ := pend_ok (M := M) (K := K) (lim := lim) hv s.outputFrameno
  have ep := pend_hole (M := M) ho hn
  generalize hpre : Sched.pend c K lim s.outputFrameno = pre at d1 d2 d3 ep
  have es := decSlots_hole c K lim ho hn
  have hkey : p.ftype = .key → pre = [] := by
    intro hk
    have := hid_key c K lim hv hp hk
    rw [eh] at this
    exact d3 this
  refine ⟨by simp [a, h2], ?_, by rw [h3, h1, Sched.pend, hp]; simp [hs], ?_⟩
  · intro n pk hpk
    rcases Nat.lt_or_ge n pks.length with hlt | hge
    · rw [List.getElem?_append_left hlt] at hpk
      exact b n pk hpk
    · rw [List.getElem?_append_right hge] at hpk
      have hn0 : n - pks.length = 0 := by
        rcases Nat.eq_zero_or_pos (n - pks.length) with z | z
        · exact z
        · rw [List.getElem?_eq_none (by simp only [List.length_singleton]; omega)] at hpk; cases hpk
      rw [hn0] at hpk
      simp only [List.getElem?_cons_zero, Option.some.injEq] at hpk
      have hnn : p.input = n := by omega
      refine ⟨o, p, t, pre, f, hp, hs, hnn, ?_, by rw [← hnn]; exact hf, d2, hkey, ?_, ep.symm, ht⟩
      · rw [← hpk, d1, hnn]
      · intro hr
        refine ⟨d3 (hid_L c K lim hr _), ?_⟩
        rw [ht, t35Of_low c K lim hv hr A hp hs, hnn]
  · intro n hk
    rw [h3, h1, h2]
    by_cases hlt : n = 0 ∨ n < pks.length
    · -- an earlier starting point
      have hk' : n = 0 ∨ ∃ pk, pks[n]? = some pk ∧ pk.ftype = .key := by
        rcases hk with hk | ⟨pk, hpk, hkk⟩
        · exact Or.inl hk
        · rcases hlt with hlt | hlt
          · exact Or.inl hlt
          · rw [List.getElem?_append_left hlt] at hpk
            exact Or.inr ⟨pk, hpk, hkk⟩
      obtain ⟨e1, e2⟩ := e n hk'
      rw [← es] at e2
      obtain ⟨u1, u2⟩ := dec_units c K lim hv hp t
        ((List.range' n (s.framesProcessed - n)).map (fun i => some (Pic.recon i)))
      have hle : n ≤ pks.length := by omega
      have hst : ∀ x : Packet F O M, stream ((pks ++ [x]).drop n) =
          stream (pks.drop n) ++ x.data := by
        intro x
        rw [List.drop_append_of_le_length hle]
        simp [stream]
      rw [hst]
      simp only
      rw [← List.append_assoc (stream (pks.drop n))]
      generalize stream (pks.drop n) ++ s.packetData = X at e1 e2 ⊢
      have hX : Dec.run c.stillPicture Dec.init (X ++ unitsOf c K lim o p t) = _ :=
        (run_append _ _ _ _).trans ((congrArg (fun d => Dec.run _ d _) e2).trans u2)
      apply then_td _ _ _ _ ((conforms_append _ _ _ _).2 ⟨e1, by rw [e2]; exact u1⟩)
      rw [hX, hs, if_pos rfl]
      have hr : List.range' n (s.framesProcessed + 1 - n) =
          List.range' n (s.framesProcessed - n) ++ [s.framesProcessed] := by
        rw [show s.framesProcessed + 1 - n = s.framesProcessed - n + 1 by omega,
          List.range'_concat, show n + 1 * (s.framesProcessed - n) = s.framesProcessed by omega]
      rw [hr, List.map_append, List.map_singleton, hi]
    · -- starting at this key frame
      rcases hk with hk | ⟨pk, hpk, hkk⟩
      · exact absurd (Or.inl hk) hlt
      · have hn0 : n = pks.length := by
          rw [List.getElem?_append_right (by omega)] at hpk
          rcases Nat.eq_zero_or_pos (n - pks.length) with z | z
          · omega
          · rw [List.getElem?_eq_none (by simp only [List.length_singleton]; omega)] at hpk; cases hpk
        subst hn0
        rw [List.getElem?_append_right (by omega)] at hpk
        simp only [Nat.sub_self, List.getElem?_cons_zero, Option.some.injEq] at hpk
        rw [← hpk] at hkk
        simp only at hkk
        rw [List.drop_left]
        have hpre' := hkey hkk
        obtain ⟨u1, u2⟩ := dec_key_fresh c K lim hv hp hkk t
        simp only [stream, List.flatMap_cons, List.flatMap_nil, List.append_nil]
        rw [d1, hpre']
        have hr1 : Dec.run c.stillPicture Dec.init (Obu.td :: [] ++ unitsOf c K lim o p t) =
          ⟨decSlots c K lim (o + 1), [some (.recon p.input)]⟩ := u2
        refine then_td _ _ _ _ ⟨trivial, u1⟩ (hr1.trans ?_)
        rw [a, hi, show s.framesProcessed + 1 - s.framesProcessed = 1 by omega]
        rfl

end
end Rav1e.Sched

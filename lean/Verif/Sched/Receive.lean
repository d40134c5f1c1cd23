import Verif.Sched.Send

/-!
# Receiving packets keeps the invariant
-/

namespace Rav1e.Sched

open BMap

variable {F O M : Type}

/-! ## `propagate` on a table -/

/-- The references of the subsequent frame `d` are replaced. -/
def withRefs (c : Cfg) (rb : RefSet) (d : FD F M) : FD F M :=
  { d with fi := { d.fi with
      recBuf := rb
      signBias := signBias c.stillPicture rb d.fi.refs d.fi.orderHint } }

/-- Only placeholders and show-existing frames lie in `[a, k)`. -/
def Reach (fd : Nat → Option (FD F M)) (a k : Nat) : Prop :=
  ∀ j, a ≤ j → j < k → ∀ e, fd j = some e → e.fi.sef = true ∧ e.fi.ftype ≠ .key

open Classical in
/-- The table after `propagate`. -/
noncomputable def propF (c : Cfg) (rb : RefSet) (a : Nat) (fd : Nat → Option (FD F M))
    (k : Nat) : Option (FD F M) :=
  (fd k).map fun d => if Reach fd a k ∧ d.fi.ftype ≠ .key then withRefs c rb d else d

theorem propF_stop (c : Cfg) (rb : RefSet) (a : Nat) (fd : Nat → Option (FD F M)) (k : Nat)
    (h : ¬ Reach fd a k) : propF c rb a fd k = fd k := by
  unfold propF
  cases hf : fd k with
  | none => rfl
  | some d => rw [Option.map_some, if_neg (fun hc => h hc.1)]

theorem propF_next (c : Cfg) (rb : RefSet) (a : Nat) (fd : Nat → Option (FD F M)) (k : Nat)
    (ha : ∀ e, fd a = some e → e.fi.sef = true ∧ e.fi.ftype ≠ .key) (hk : a + 1 ≤ k) :
    propF c rb (a + 1) fd k = propF c rb a fd k := by
  have : Reach fd (a + 1) k ↔ Reach fd a k := by
    constructor
    · intro h j h1 h2 e he
      by_cases hj : j = a
      · subst hj; exact ha e he
      · exact h j (by omega) h2 e he
    · intro h j h1 h2 e he; exact h j (by omega) h2 e he
  unfold propF
  rw [this]

theorem propagate_tab (c : Cfg) (rb : RefSet) (a n : Nat) (fd : Nat → Option (FD F M)) :
    propagate c rb (tab a n fd) = tab a n (propF c rb a fd) := by
  induction n generalizing a with
  | zero => rfl
  | succ n ih =>
    rw [tab_succ, tab_succ]
    have hself : propF c rb a fd a =
        (fd a).map fun d => if d.fi.ftype ≠ .key then withRefs c rb d else d := by
      unfold propF
      have : Reach fd a a := fun j h1 h2 => by omega
      simp only [this, true_and]
    cases hfa : fd a with
    | none =>
      rw [propagate, hself, hfa, ih]
      congr 1
      apply tab_congr
      intro k h1 h2
      exact propF_next c rb a fd k (by rw [hfa]; simp) h1
    | some d =>
      rw [propagate, hself, hfa]
      by_cases hk : d.fi.ftype = .key
      · rw [if_pos hk, Option.map_some, if_neg (by simpa using hk)]
        congr 1
        apply tab_congr
        intro k h1 h2
        rw [propF_stop]
        intro hr
        exact (hr a (Nat.le_refl _) (by omega) d hfa).2 hk
      · rw [if_neg hk, Option.map_some, if_pos hk]
        cases hs : d.fi.sef with
        | true =>
          simp only [if_true]
          rw [ih]
          congr 1
          · apply tab_congr
            intro k h1 h2
            apply propF_next c rb a fd k _ h1
            intro e he; rw [hfa] at he; cases he; exact ⟨hs, hk⟩
        | false =>
          simp only [Bool.false_eq_true, if_false]
          congr 1
          · apply tab_congr
            intro k h1 h2
            rw [propF_stop]
            intro hr
            have := (hr a (Nat.le_refl _) (by omega) d hfa).1
            rw [hs] at this; cases this

section
variable {c : Cfg} {cut K : Nat → Bool} {lim : Option Nat}
  {sent : List (F × Option (Params O M))} {s : St F O M} {qs ds : Nat}
  {fd : Nat → Option (FD F M)}

theorem shownBefore_hole {a b : Nat} (h : a ≤ b)
    (hn : ∀ k, a ≤ k → k < b → plan c K lim k = none) :
    shownBefore c K lim b = shownBefore c K lim a := by
  induction b with
  | zero => have : a = 0 := by omega
            subst this; rfl
  | succ b ih =>
    by_cases hab : a = b + 1
    · subst hab; rfl
    · rw [shownBefore, hn b (by omega) (by omega)]
      exact ih (by omega) (fun k x y => hn k x (by omega))

theorem Base.fd_none (h : Base c cut K lim sent s qs ds fd) {o : Nat}
    (h1 : ds ≤ o) (h2 : o < s.nextOutput) : fd o = none ↔ plan c K lim o = none := by
  have := h.planOk o h1 h2
  rw [← this]; cases fd o <;> simp

theorem Base.fd_some (h : Base c cut K lim sent s qs ds fd) {o : Nat} {d : FD F M}
    (h1 : ds ≤ o) (h2 : o < s.nextOutput) (hd : fd o = some d) :
    plan c K lim o = some d.fi.strip := by
  have := h.planOk o h1 h2
  rw [hd] at this; exact this.symm

/-- Skip placeholders. -/
theorem Base.skip (h : Base c cut K lim sent s qs ds fd) (o : Nat)
    (h1 : s.outputFrameno ≤ o) (h2 : o ≤ s.nextOutput)
    (hn : ∀ k, s.outputFrameno ≤ k → k < o → plan c K lim k = none) :
    Base c cut K lim sent { s with outputFrameno := o } qs ds fd :=
  { count := h.count, kagree := h.kagree, flush := h.flush, limS := h.limS,
    limN := h.limN, frameQ := h.frameQ, qsLe := h.qsLe, qsFp := h.qsFp, fpLe := h.fpLe,
    nlf := h.nlf, nlfLe := h.nlfLe, keys := h.keys, forcedK := h.forcedK,
    data := h.data, dsLe := Nat.le_trans h.dsLe h1, outLe := h2, planOk := h.planOk,
    src := h.src, gop := h.gop, gsLt := h.gsLt, shownLe := h.shownLe, shownNl := h.shownNl
    fp := by simp only; rw [shownBefore_hole h1 hn]; exact h.fp
    recs := by
      intro o' d x1 x2 hd hk hc
      apply h.recs o' d (Nat.le_trans h1 x1) x2 hd hk
      intro k y1 y2
      by_cases hko : o ≤ k
      · exact hc k hko y2
      · rintro ⟨p, hp, _⟩
        rw [hn k y1 (by omega)] at hp; cases hp
    looks := h.looks
    recsL := by
      rintro o' d x1 x2 hd hs hk ⟨k, y1, y2, y3⟩
      exact h.recsL o' d (Nat.le_trans h1 x1) x2 hd hs hk ⟨k, Nat.le_trans h1 y1, y2, y3⟩
    recKey := fun o' d x1 => h.recKey o' d (Nat.le_trans h1 x1)
    opq := h.opq
    t35d := fun o' d x1 => h.t35d o' d (Nat.le_trans h1 x1)
    t35q := h.t35q, t35gone := h.t35gone, lookLt := h.lookLt }

/-- A show-existing frame was emitted. -/
theorem Base.emitSef (h : Base c cut K lim sent s qs ds fd) (hv : c.Valid) {d : FD F M}
    (ho : s.outputFrameno < s.nextOutput) (hd : fd s.outputFrameno = some d)
    (hs : d.fi.sef = true) (pd : List (Obu M)) :
    Base c cut K lim sent { s with
      packetData := pd, outputFrameno := s.outputFrameno + 1
      framesProcessed := s.framesProcessed + 1 } qs ds fd := by
  have hp := h.fd_some h.dsLe ho hd
  obtain ⟨f1, f2, f3, f4, f5, f6, f7, f8, -⟩ := plan_facts c K lim hv hp
  have hsh : d.fi.strip.shown = true := f7 hs
  have hstep : shownBefore c K lim (s.outputFrameno + 1) =
      shownBefore c K lim s.outputFrameno + 1 := by
    rw [shownBefore, hp]; simp only [hsh, if_true]
  have hle := shownBefore_mono c K lim (show s.outputFrameno + 1 ≤ s.nextOutput from ho)
  have hfp := h.fp
  have hsl := h.shownLe
  have hnc : ¬ coded c K lim s.outputFrameno := by
    rintro ⟨p, hp', hs'⟩
    rw [hp] at hp'; cases hp'
    have : d.fi.sef = false := hs'
    rw [hs] at this; cases this
  exact
  { count := h.count, kagree := h.kagree, flush := h.flush, limS := h.limS,
    limN := h.limN, frameQ := h.frameQ, qsLe := h.qsLe
    qsFp := by have := h.qsFp; simp only; omega
    fpLe := by simp only; omega
    nlf := h.nlf, nlfLe := h.nlfLe, keys := h.keys, forcedK := h.forcedK,
    data := h.data, dsLe := Nat.le_trans h.dsLe (Nat.le_succ _), outLe := ho,
    planOk := h.planOk,
    src := h.src, gop := h.gop, gsLt := h.gsLt, shownLe := h.shownLe, shownNl := h.shownNl
    fp := by simp only; rw [hstep, hfp]
    recs := by
      intro o' d x1 x2 hd hk hc
      simp only at x1 hc
      apply h.recs o' d (by omega) x2 hd hk
      intro k y1 y2
      by_cases hko : k = s.outputFrameno
      · subst hko; exact hnc
      · exact hc k (by omega) y2
    looks := h.looks
    recsL := by
      rintro o' d x1 x2 hd hs hk ⟨k, y1, y2, y3⟩
      simp only at x1 y1
      exact h.recsL o' d (by omega) x2 hd hs hk ⟨k, by omega, y2, y3⟩
    recKey := fun o' d x1 => h.recKey o' d (by simp only at x1; omega)
    opq := fun n hn => h.opq n (by simp only at hn; omega)
    t35d := fun o' d x1 => h.t35d o' d (by simp only at x1; omega)
    t35q := h.t35q, t35gone := h.t35gone, lookLt := h.lookLt }

/-- Removing, propagating and reinserting, on tables. -/
theorem emit_data (o n : Nat) (ds : Nat) (fd : Nat → Option (FD F M)) (h1 : ds ≤ o)
    (h2 : o < n) (rb : RefSet) (v : Option (FD F M)) (c : Cfg) :
    BMap.insert
      (((tab ds (n - ds) fd).remove o).takeWhile (fun p => decide (p.1 ≤ o)) ++
        propagate c rb
          (((tab ds (n - ds) fd).remove o).dropWhile (fun p => decide (p.1 ≤ o)))) o v =
    tab ds (n - ds) (fun k => if k < o then fd k else if k = o then v
      else propF c rb (o + 1) fd k) := by
  have hsplit : tab ds (n - ds) fd =
      tab ds (o - ds) fd ++ (o, fd o) :: tab (o + 1) (n - (o + 1)) fd := by
    have e := tab_append ds (o - ds) (n - o) fd
    rw [show o - ds + (n - o) = n - ds by omega, show ds + (o - ds) = o by omega] at e
    rw [e, show n - o = (n - (o + 1)) + 1 by omega, tab_succ]
  have hrem : (tab ds (n - ds) fd).remove o =
      tab ds (o - ds) fd ++ tab (o + 1) (n - (o + 1)) fd := by
    rw [hsplit, remove_append, remove_cons_self, remove_none, remove_none]
    · intro p hp; have := mem_tab.1 hp; omega
    · intro p hp; have := mem_tab.1 hp; omega
  rw [hrem]
  obtain ⟨t1, t2⟩ := takeWhile_tab ds (o - ds) fd (tab (o + 1) (n - (o + 1)) fd)
    (fun k => decide (k ≤ o)) (by intro k a b; simp; omega)
    (by intro p hp; have := mem_tab.1 hp; simp; omega)
  rw [t1, t2, propagate_tab, insert_append]
  · have e := tab_append ds (o - ds) (n - o) (fun k => if k < o then fd k else if k = o then v
      else propF c rb (o + 1) fd k)
    rw [show o - ds + (n - o) = n - ds by omega, show ds + (o - ds) = o by omega] at e
    rw [e, show n - o = (n - (o + 1)) + 1 by omega, tab_succ]
    congr 1
    · apply tab_congr
      intro k a b
      rw [if_pos (by omega)]
    · congr 1
      · rw [if_neg (by omega), if_pos rfl]
      · apply tab_congr
        intro k a b
        rw [if_neg (by omega), if_neg (by omega)]
  · omega
  · intro p hp; have := mem_tab.1 hp; omega

theorem propF_some (c : Cfg) (rb : RefSet) (a : Nat) (fd : Nat → Option (FD F M)) (k : Nat)
    (d' : FD F M) (h : propF c rb a fd k = some d') :
    ∃ d, fd k = some d ∧ ((Reach fd a k ∧ d.fi.ftype ≠ .key ∧ d' = withRefs c rb d) ∨
      (¬ (Reach fd a k ∧ d.fi.ftype ≠ .key) ∧ d' = d)) := by
  unfold propF at h
  cases hf : fd k with
  | none => rw [hf] at h; cases h
  | some d =>
    refine ⟨d, rfl, ?_⟩
    rw [hf, Option.map_some] at h
    split at h
    · rename_i hc
      left; cases h; exact ⟨hc.1, hc.2, rfl⟩
    · rename_i hc
      right; cases h; exact ⟨hc, rfl⟩

/-- A frame was encoded. -/
theorem Base.emitNormal (h : Base c cut K lim sent s qs ds fd) (hv : c.Valid) {d : FD F M}
    (ho : s.outputFrameno < s.nextOutput) (hd : fd s.outputFrameno = some d)
    (hs : d.fi.sef = false) (pd : List (Obu M)) (m : BMap (Option (FD F M)))
    (rb : RefSet) (hrb : rb = d.fi.recBuf.refresh d.fi.refresh
      (d.fi.asRef s.outputFrameno (.recon d.fi.input)))
    (hm : m = tab ds (s.nextOutput - ds) (fun k => if k < s.outputFrameno then fd k
      else if k = s.outputFrameno then some ⟨{ d.fi with recBuf := rb }, d.src⟩
      else propF c rb (s.outputFrameno + 1) fd k)) :
    Base c cut K lim sent { s with
      packetData := pd, frameData := m, outputFrameno := s.outputFrameno + 1
      framesProcessed := s.framesProcessed + if d.fi.shown then 1 else 0 } qs ds
      (fun k => if k < s.outputFrameno then fd k
      else if k = s.outputFrameno then some ⟨{ d.fi with recBuf := rb }, d.src⟩
      else propF c rb (s.outputFrameno + 1) fd k) := by
  have hp := h.fd_some h.dsLe ho hd
  have hstep : shownBefore c K lim (s.outputFrameno + 1) =
      shownBefore c K lim s.outputFrameno + if d.fi.shown then 1 else 0 := by
    rw [shownBefore, hp]; rfl
  have hle := shownBefore_mono c K lim (show s.outputFrameno + 1 ≤ s.nextOutput from ho)
  have hfp := h.fp
  have hsl := h.shownLe
  have hdl := h.dsLe
  have hrb' : rb = slotsAt c K lim .recon (s.outputFrameno + 1) := by
    rw [slotsAt, hp]
    simp only [FI.strip, hs, Bool.false_eq_true, if_false]
    rw [hrb]
    by_cases hty : d.fi.ftype = .key
    · have h255 := ((plan_facts c K lim hv hp).2.2.2.2.2.1 hty).2.2.1
      have h255' : d.fi.refresh = 255 := h255
      rw [h255']
      exact RefSet.refresh_all _ _ (h.recKey _ d (Nat.le_refl _) ho hd hty)
        (slotsAt_length ..) _
    · rw [(h.recs _ d (Nat.le_refl _) ho hd hty (fun k a b => by omega)).1]; rfl
  -- every entry of the new table comes from one of the old table
  have hent : ∀ o d', ds ≤ o → o < s.nextOutput →
      (if o < s.outputFrameno then fd o
       else if o = s.outputFrameno then some ⟨{ d.fi with recBuf := rb }, d.src⟩
       else propF c rb (s.outputFrameno + 1) fd o) = some d' →
      ∃ e, fd o = some e ∧ d'.src = e.src ∧ d'.fi.strip = e.fi.strip ∧
        d'.fi.look = e.fi.look ∧ d'.fi.t35 = e.fi.t35 ∧
        (s.outputFrameno < o →
          (Reach fd (s.outputFrameno + 1) o ∧ e.fi.ftype ≠ .key ∧ d' = withRefs c rb e) ∨
          (¬ (Reach fd (s.outputFrameno + 1) o ∧ e.fi.ftype ≠ .key) ∧ d' = e)) := by
    intro o d' h1 h2 hd'
    by_cases ha : o < s.outputFrameno
    · rw [if_pos ha] at hd'
      exact ⟨d', hd', rfl, rfl, rfl, rfl, fun hc => by omega⟩
    · rw [if_neg ha] at hd'
      by_cases hb : o = s.outputFrameno
      · rw [if_pos hb] at hd'
        cases hd'
        subst hb
        exact ⟨d, hd, rfl, rfl, rfl, rfl, fun hc => by omega⟩
      · rw [if_neg hb] at hd'
        obtain ⟨e, he, hh⟩ := propF_some c rb _ fd o d' hd'
        refine ⟨e, he, ?_⟩
        rcases hh with ⟨x1, x2, x3⟩ | ⟨x1, x2⟩
        · subst x3; exact ⟨rfl, rfl, rfl, rfl, fun _ => Or.inl ⟨x1, x2, rfl⟩⟩
        · subst x2; exact ⟨rfl, rfl, rfl, rfl, fun _ => Or.inr ⟨x1, rfl⟩⟩
  exact
  { count := h.count, kagree := h.kagree, flush := h.flush, limS := h.limS,
    limN := h.limN, frameQ := h.frameQ, qsLe := h.qsLe
    qsFp := by have := h.qsFp; simp only; omega
    fpLe := by simp only; omega
    nlf := h.nlf, nlfLe := h.nlfLe, keys := h.keys, forcedK := h.forcedK,
    data := hm, dsLe := Nat.le_trans h.dsLe (Nat.le_succ _), outLe := ho,
    planOk := by
      intro o h1 h2
      simp only at h2 ⊢
      rw [← h.planOk o h1 h2]
      by_cases ha : o < s.outputFrameno
      · rw [if_pos ha]
      · rw [if_neg ha]
        by_cases hb : o = s.outputFrameno
        · rw [if_pos hb, hb, hd]; rfl
        · rw [if_neg hb]
          unfold propF
          cases fd o with
          | none => rfl
          | some e =>
            simp only [Option.map_some]
            split <;> rfl
    src := by
      intro o d' h1 h2 hd'
      obtain ⟨e, e1, e2, e3, -⟩ := hent o d' h1 h2 hd'
      have hi : d'.fi.input = e.fi.input := congrArg (FI.input (M := Unit)) e3
      rw [hi, e2]; exact h.src o e h1 h2 e1
    gop := h.gop, gsLt := h.gsLt, shownLe := h.shownLe, shownNl := h.shownNl
    fp := by simp only; rw [hstep, hfp]
    recs := by
      intro o d' x1 x2 hd' hk hc
      simp only at x1 x2 hc
      obtain ⟨e, e1, -, e3, -, -, e4⟩ := hent o d' (by omega) x2 hd'
      have hkey : d'.fi.ftype = e.fi.ftype := congrArg (FI.ftype (M := Unit)) e3
      have hreach : Reach fd (s.outputFrameno + 1) o := by
        intro j y1 y2 g hg
        have hpj := h.fd_some (by omega) (by omega) hg
        have hsef : g.fi.sef = true := by
          cases hgs : g.fi.sef with
          | true => rfl
          | false => exact absurd ⟨_, hpj, hgs⟩ (hc j y1 y2)
        refine ⟨hsef, fun hgk => ?_⟩
        have := ((plan_facts c K lim hv hpj).2.2.2.2.2.1 hgk).1
        have : g.fi.sef = false := this
        rw [hsef] at this; cases this
      rcases e4 (by omega) with ⟨-, -, rfl⟩ | ⟨z, -⟩
      · have hsl := slotsAt_keep c K lim .recon (s.outputFrameno + 1) o x1 hc
        simp only [withRefs]
        rw [hsl, ← hrb']; exact ⟨rfl, rfl⟩
      · exact absurd ⟨hreach, by rw [← hkey]; exact hk⟩ z
    looks := by
      intro o d' h1 h2 hd' hs'
      obtain ⟨e, e1, -, e3, e4, -⟩ := hent o d' h1 h2 hd'
      have hse : d'.fi.sef = e.fi.sef := congrArg (FI.sef (M := Unit)) e3
      rw [e4]; exact h.looks o e h1 h2 e1 (by rw [← hse]; exact hs')
    recsL := by
      rintro o d' x1 x2 hd' hs' hk ⟨k, y1, y2, y3⟩
      simp only at x1 x2 y1
      obtain ⟨e, e1, -, e3, -, -, e4⟩ := hent o d' (by omega) x2 hd'
      have hse : d'.fi.sef = e.fi.sef := congrArg (FI.sef (M := Unit)) e3
      have hkey : d'.fi.ftype = e.fi.ftype := congrArg (FI.ftype (M := Unit)) e3
      rcases e4 (by omega) with ⟨z, -, -⟩ | ⟨-, rfl⟩
      · exfalso
        obtain ⟨p, hp', hps⟩ := y3
        cases hfk : fd k with
        | none =>
          rw [(h.fd_none (by omega) (by omega)).1 hfk] at hp'; cases hp'
        | some g =>
          have := (z k y1 y2 g hfk).1
          rw [h.fd_some (by omega) (by omega) hfk] at hp'
          cases hp'
          have hps' : g.fi.sef = false := hps
          rw [this] at hps'; cases hps'
      · exact h.recsL o d' (by omega) x2 e1 hs' hk ⟨k, by omega, y2, y3⟩
    recKey := by
      intro o d' x1 x2 hd' hk
      simp only at x1 x2
      obtain ⟨e, e1, -, e3, -, -, e4⟩ := hent o d' (by omega) x2 hd'
      have hkey : d'.fi.ftype = e.fi.ftype := congrArg (FI.ftype (M := Unit)) e3
      rcases e4 (by omega) with ⟨-, z, -⟩ | ⟨-, rfl⟩
      · rw [hkey] at hk; exact absurd hk z
      · exact h.recKey o d' (by omega) x2 e1 hk
    opq := fun n hn => h.opq n (by simp only at hn; omega)
    t35d := by
      intro o d' x1 x2 hd'
      simp only at x1 x2
      obtain ⟨e, e1, -, e3, -, e5, -⟩ := hent o d' (by omega) x2 hd'
      rw [e5]; exact h.t35d o e (by omega) x2 e1
    t35q := h.t35q, t35gone := h.t35gone, lookLt := h.lookLt }

/-- Garbage collection after input `i` has been shown. -/
theorem Base.gc (h : Base c cut K lim sent s qs ds fd) (i : Nat)
    (hi : i + 1 = s.framesProcessed) (ho : ds < s.nextOutput) :
    ∃ qs' ds', Base c cut K lim sent (garbageCollect s i) qs' ds' fd := by
  unfold garbageCollect
  by_cases h0 : i = 0
  · rw [if_pos h0]; exact ⟨qs, ds, h⟩
  · rw [if_neg h0]
    have hqf := h.qsFp
    have hfl := h.fpLe
    have hdl := h.dsLe
    have hol := h.outLe
    have hqk : s.frameQ.firstKey.getD 0 = qs := by
      rw [h.frameQ]
      have e : sent.length - qs + (if s.isFlushing then 1 else 0) =
          (sent.length - qs - 1 + (if s.isFlushing then 1 else 0)) + 1 := by omega
      rw [e, firstKey_tab]; rfl
    have hq : (List.range' (s.frameQ.firstKey.getD 0) (i - s.frameQ.firstKey.getD 0)).foldl
        BMap.remove s.frameQ =
        tab i (sent.length - i + if s.isFlushing then 1 else 0) (qf sent) := by
      rw [hqk, h.frameQ, foldl_remove_tab _ _ _ _ (by omega)]
      congr 1 <;> omega
    have hbase : Base c cut K lim sent { s with
        frameQ := tab i (sent.length - i + if s.isFlushing then 1 else 0) (qf sent) } i ds fd :=
      { h with frameQ := rfl, qsLe := by omega, qsFp := by simp only; omega }
    simp only
    rw [hq]
    by_cases h2 : s.outputFrameno < 2
    · rw [if_pos h2]; exact ⟨i, ds, hbase⟩
    · rw [if_neg h2]
      have hdk : s.frameData.firstKey.getD 0 = ds := by
        rw [h.data]
        rw [show s.nextOutput - ds = (s.nextOutput - ds - 1) + 1 by omega, firstKey_tab]; rfl
      have hdat : (List.range' ds (s.outputFrameno - 1 - ds)).foldl BMap.remove s.frameData =
          tab (max ds (s.outputFrameno - 1))
            (s.nextOutput - max ds (s.outputFrameno - 1)) fd := by
        rw [h.data, foldl_remove_tab _ _ _ _ (by omega)]
        congr 1 <;> omega
      rw [hdk, hdat]
      refine ⟨i, max ds (s.outputFrameno - 1), ?_⟩
      exact
      { hbase with
        data := rfl
        dsLe := by simp only; omega
        planOk := fun o a => hbase.planOk o (by omega)
        src := fun o d a => hbase.src o d (by omega)
        gop := by
          intro o a b
          simp only at b ⊢
          rw [get_foldl_remove, get_foldl_remove, if_neg, if_neg]
          · exact h.gop o (by omega) b
          · rw [List.mem_range'_1]; omega
          · rw [List.mem_range'_1]; omega
        looks := fun o d a => hbase.looks o d (by omega) }

end
end Rav1e.Sched

import Verif.Rate.Safe
/-
C31: the bit reservoir.
-/
namespace Rav1e.Rate

/-! ## What does not touch the reservoir -/

/-- The reservoir, its parameters, and whether there is a summary are the same. -/
structure Same (r r' : Rc) : Prop where
  full : r'.fullness = r.fullness
  cap : r'.cap = r.cap
  bpt : r'.bitsPerTu = r.bitsPerTu
  tot : r'.nframesTotal = r.nframesTotal

theorem Same.refl (r : Rc) : Same r r := ⟨rfl, rfl, rfl, rfl⟩

theorem Same.trans {a b c : Rc} (h : Same a b) (k : Same b c) : Same a c :=
  ⟨k.full.trans h.full, k.cap.trans h.cap, k.bpt.trans h.bpt, k.tot.trans h.tot⟩

theorem push_same {bx : Int → Int} {r r' : Rc} {m : Metrics} (h : r.push bx m = some (some r')) : Same r r' := by
  unfold Rc.push at h
  split at h
  · simp at h
  · simp only [Option.bind_eq_bind] at h
    generalize (if r.ring.length ≤ r.head + r.nring then r.head + r.nring - r.ring.length else r.head + r.nring) = i
      at h
    split at h
    · obtain ⟨wf, -, h⟩ := Option.bind_eq_some_iff.1 h
      split at h
      · obtain ⟨wt, -, h⟩ := Option.bind_eq_some_iff.1 h
        simp only [Option.some.injEq] at h
        rw [← h]; exact ⟨rfl, rfl, rfl, rfl⟩
      · simp only [Option.bind_some, Option.some.injEq] at h
        rw [← h]; exact ⟨rfl, rfl, rfl, rfl⟩
    · simp at h

theorem feedLoop_same {bx : Int → Int} {l : Int} (n : Nat) {k : Int} {b : List Nat} {r r' : Rc} {k' : Int}
    {b' : List Nat} {ok : Bool} (h : r.feedLoop bx l n k b = some (r', k', b', ok)) : Same r r' := by
  induction n generalizing k b r with
  | zero =>
    unfold Rc.feedLoop at h
    split at h
    · simp only [Option.some.injEq, Prod.mk.injEq] at h; rw [← h.1]; exact Same.refl r
    · simp at h
  | succ n ih =>
    unfold Rc.feedLoop at h
    split at h
    · simp only [Option.some.injEq, Prod.mk.injEq] at h; rw [← h.1]; exact Same.refl r
    · simp only [Option.bind_eq_bind] at h
      obtain ⟨⟨d, b1⟩, -, h⟩ := Option.bind_eq_some_iff.1 h
      dsimp only at h
      split at h
      · simp only [Option.some.injEq, Prod.mk.injEq] at h; rw [← h.1]; exact ⟨rfl, rfl, rfl, rfl⟩
      · obtain ⟨⟨m, d1⟩, -, h⟩ := Option.bind_eq_some_iff.1 h
        cases m with
        | none => simp only [Option.some.injEq, Prod.mk.injEq] at h; rw [← h.1]; exact ⟨rfl, rfl, rfl, rfl⟩
        | some m =>
          dsimp only at h
          obtain ⟨p, hp, h⟩ := Option.bind_eq_some_iff.1 h
          cases p with
          | none => simp only [Option.some.injEq, Prod.mk.injEq] at h; rw [← h.1]; exact ⟨rfl, rfl, rfl, rfl⟩
          | some r2 =>
            have h2 := push_same hp
            dsimp only at h
            obtain ⟨w, -, h⟩ := Option.bind_eq_some_iff.1 h
            obtain ⟨dl, -, h⟩ := Option.bind_eq_some_iff.1 h
            obtain ⟨v, -, h⟩ := Option.bind_eq_some_iff.1 h
            obtain ⟨k1, -, h⟩ := Option.bind_eq_some_iff.1 h
            have h3 := ih h
            exact ⟨h3.full.trans h2.full, h3.cap.trans h2.cap, h3.bpt.trans h2.bpt, h3.tot.trans h2.tot⟩

theorem parseFrameData_same {bx : Int → Int} {r r' : Rc} {total : Nat} {buf : Option (List Nat)} {o : Option Nat}
    (h : r.parseFrameData bx total buf = some (r', o)) : Same r r' := by
  have key : ∀ (r1 : Rc) (c : Nat), Same r r1 →
      ((r1.ring[r1.head]?).bind fun c' => some (({ r1 with cur := c', ready2 := true } : Rc), some c)) = some (r', o) →
      Same r r' := by
    intro r1 c h1 h2
    obtain ⟨m, -, h2⟩ := Option.bind_eq_some_iff.1 h2
    simp only [Option.some.injEq, Prod.mk.injEq] at h2
    rw [← h2.1]; exact ⟨h1.full, h1.cap, h1.bpt, h1.tot⟩
  have fin : ∀ (r1 : Rc) (x : Option Nat), some (r1, x) = some (r', o) → Same r r1 → Same r r' := by
    intro r1 x h2 h1
    simp only [Option.some.injEq, Prod.mk.injEq] at h2
    rw [← h2.1]; exact h1
  unfold Rc.parseFrameData at h
  simp only [Option.bind_eq_bind] at h
  split at h
  · cases buf with
    | none =>
      dsimp only at h
      split at h
      · exact fin _ _ h (Same.refl r)
      · simp at h
    | some b =>
      dsimp only at h
      obtain ⟨⟨d, b1⟩, -, h⟩ := Option.bind_eq_some_iff.1 h
      dsimp only at h
      split at h
      · obtain ⟨⟨m, d1⟩, -, h⟩ := Option.bind_eq_some_iff.1 h
        cases m with
        | none => exact fin _ _ h ⟨rfl, rfl, rfl, rfl⟩
        | some m => exact fin _ _ h ⟨rfl, rfl, rfl, rfl⟩
      · exact fin _ _ h ⟨rfl, rfl, rfl, rfl⟩
  · obtain ⟨w, -, h⟩ := Option.bind_eq_some_iff.1 h
    obtain ⟨l, -, h⟩ := Option.bind_eq_some_iff.1 h
    obtain ⟨k, -, h⟩ := Option.bind_eq_some_iff.1 h
    cases buf with
    | none =>
      dsimp only at h
      split at h
      · exact key _ _ (Same.refl r) h
      · split at h
        · exact fin _ _ h (Same.refl r)
        · simp at h
    | some b =>
      dsimp only at h
      obtain ⟨⟨r1, k1, b1, ok⟩, h1, h⟩ := Option.bind_eq_some_iff.1 h
      have h1 := feedLoop_same _ h1
      dsimp only at h
      split at h
      · split at h
        · exact key _ _ h1 h
        · exact fin _ _ h h1
      · exact fin _ _ h h1

theorem tail_same {bx : Int → Int} {r r' : Rc} {total : Nat} {buf : Option (List Nat)} {c : Nat} {o : Option Nat}
    (h : r.twopassTail bx total buf c = some (r', o)) : Same r r' := by
  unfold Rc.twopassTail at h
  split at h
  · split at h
    · simp only [Option.some.injEq, Prod.mk.injEq] at h; rw [← h.1]; exact ⟨rfl, rfl, rfl, rfl⟩
    · split at h
      · exact parseFrameData_same h
      · simp only [Option.some.injEq, Prod.mk.injEq] at h; rw [← h.1]; exact Same.refl r
  · simp only [Option.some.injEq, Prod.mk.injEq] at h; rw [← h.1]; exact Same.refl r

theorem initSecond_same (r : Rc) : Same r r.initSecond := by
  unfold Rc.initSecond; split <;> exact ⟨rfl, rfl, rfl, rfl⟩

theorem sendPacket_same {bx : Int → Int} {r r' : Rc} {b : List Nat} {ok : Bool}
    (h : r.sendPacket bx b = some (r', ok)) : Same r r' := by
  have fin : ∀ (r1 : Rc) (x : Bool), some (r1, x) = some (r', ok) → Same r r1 → Same r r' := by
    intro r1 x h2 h1
    simp only [Option.some.injEq, Prod.mk.injEq] at h2
    rw [← h2.1]; exact h1
  unfold Rc.sendPacket at h
  simp only [Option.bind_eq_bind] at h
  split at h
  · exact fin _ _ h (Same.refl r)
  · obtain ⟨⟨d, b1⟩, -, h⟩ := Option.bind_eq_some_iff.1 h
    dsimp only at h
    obtain ⟨⟨m, d1⟩, -, h⟩ := Option.bind_eq_some_iff.1 h
    cases m with
    | none => exact fin _ _ h ⟨rfl, rfl, rfl, rfl⟩
    | some m =>
      dsimp only at h
      unfold Rc.accept at h
      simp only [Option.bind_eq_bind] at h
      split at h
      · exact fin _ _ h ⟨rfl, rfl, rfl, rfl⟩
      · obtain ⟨k, -, h⟩ := Option.bind_eq_some_iff.1 h
        split at h
        · obtain ⟨p, hp, h⟩ := Option.bind_eq_some_iff.1 h
          cases p with
          | none => exact fin _ _ h ⟨rfl, rfl, rfl, rfl⟩
          | some r2 =>
            have h2 := push_same hp
            dsimp only at h
            split at h
            · obtain ⟨c, -, h⟩ := Option.bind_eq_some_iff.1 h
              exact fin _ _ h ⟨h2.full, h2.cap, h2.bpt, h2.tot⟩
            · exact fin _ _ h ⟨h2.full, h2.cap, h2.bpt, h2.tot⟩
        · exact fin _ _ h ⟨rfl, rfl, rfl, rfl⟩

/-- Without data, or once there is a summary, `twopass_in` does not touch the reservoir. -/
theorem twopassIn_same {bx : Int → Int} {r r' : Rc} {buf : Option (List Nat)} {o : Option Nat}
    (hb : buf = none ∨ r.nframesTotal.headD 0 ≠ 0) (h : r.twopassIn bx buf = some (r', o)) : Same r r' := by
  have hi := initSecond_same r
  unfold Rc.twopassIn at h
  simp only [Option.bind_eq_bind] at h
  split at h
  · rename_i h0
    rw [hi.tot] at h0
    rcases hb with hb | hb
    · subst hb
      simp only [Option.some.injEq, Prod.mk.injEq] at h
      rw [← h.1]; exact ⟨hi.full, hi.cap, hi.bpt, hi.tot⟩
    · exact absurd h0 hb
  · exact hi.trans (tail_same h)

theorem advance_same {bx : Int → Int} {r r' : Rc} (h : r.advance bx = some r') : Same r r' := by
  unfold Rc.advance at h
  simp only [Option.bind_eq_bind] at h
  obtain ⟨_, -, h⟩ := Option.bind_eq_some_iff.1 h
  obtain ⟨_, -, h⟩ := Option.bind_eq_some_iff.1 h
  obtain ⟨_, -, h⟩ := Option.bind_eq_some_iff.1 h
  obtain ⟨_, -, h⟩ := Option.bind_eq_some_iff.1 h
  obtain ⟨r1, h1, h⟩ := Option.bind_eq_some_iff.1 h
  obtain ⟨⟨r2, o⟩, h2, h⟩ := Option.bind_eq_some_iff.1 h
  simp only [Option.some.injEq] at h
  subst h
  have s1 : Same r r1 := by
    unfold Rc.pop at h1
    split at h1
    · simp only [Option.some.injEq] at h1; rw [← h1]; exact ⟨rfl, rfl, rfl, rfl⟩
    · split at h1
      · simp at h1
      · simp only [Option.some.injEq] at h1; rw [← h1]; exact ⟨rfl, rfl, rfl, rfl⟩
  have s2 := twopassIn_same (Or.inl rfl) h2
  exact ⟨s2.full.trans s1.full, s2.cap.trans s1.cap, s2.bpt.trans s1.bpt, s2.tot.trans s1.tot⟩

/-- What a frame does to the reservoir. -/
theorem update_reservoir {bx : Int → Int} {r r' : Rc} {bits : Int} {fti : Nat} {shown : Bool} {ls : Int}
    (h : r.update bx bits fti shown ls = some r') :
    r'.fullness = min (r.fullness - (if fti ≠ 4 ∧ bits ≤ 0 then 0 else bits) + (if shown then r.bitsPerTu else 0))
      r.cap ∧ r'.cap = r.cap ∧ r'.bitsPerTu = r.bitsPerTu ∧ r'.nframesTotal = r.nframesTotal := by
  unfold Rc.update at h
  simp only [Option.bind_eq_bind] at h
  obtain ⟨r1, h1, h⟩ := Option.bind_eq_some_iff.1 h
  obtain ⟨r2, h2, h⟩ := Option.bind_eq_some_iff.1 h
  have s1 : Same r r1 := by
    unfold Rc.count at h1
    split at h1
    · split at h1
      · simp only [Option.some.injEq] at h1; rw [← h1]; exact ⟨rfl, rfl, rfl, rfl⟩
      · simp at h1
    · split at h1
      · simp only [Option.some.injEq] at h1; rw [← h1]; exact ⟨rfl, rfl, rfl, rfl⟩
      · simp only [Option.some.injEq] at h1; rw [← h1]; exact ⟨rfl, rfl, rfl, rfl⟩
  have s2 : Same r1 r2 := by
    unfold Rc.special at h2
    split at h2
    · exact advance_same h2
    · simp only [Option.some.injEq] at h2; rw [← h2]; exact Same.refl _
  have s3 : Same r2 (r2.record fti shown ls) := by
    unfold Rc.record; split <;> exact ⟨rfl, rfl, rfl, rfl⟩
  have s := (s1.trans s2).trans s3
  unfold Rc.settle at h
  obtain ⟨n, -, h⟩ := Option.map_eq_some_iff.1 h
  rw [← h]
  exact ⟨by dsimp only; rw [s.full, s.bpt, s.cap], s.cap, s.bpt, s.tot⟩

/-! ## Capacity -/

structure Cap (r : Rc) : Prop where
  bpt : 24 ≤ r.bitsPerTu
  full : r.fullness ≤ r.cap

theorem Same.keep {r r' : Rc} (h : Same r r') (k : Cap r) : Cap r' :=
  ⟨by rw [h.bpt]; exact k.bpt, by rw [h.full, h.cap]; exact k.full⟩

theorem parseSummary_ntus {d d' : Des} {s : Summary} (h : parseSummary d = some (some s, d')) : 1 ≤ s.ntus := by
  unfold parseSummary at h
  simp only [Option.bind_eq_bind] at h
  obtain ⟨_, -, h⟩ := Option.bind_eq_some_iff.1 h
  obtain ⟨_, -, h⟩ := Option.bind_eq_some_iff.1 h
  obtain ⟨_, -, h⟩ := Option.bind_eq_some_iff.1 h
  obtain ⟨_, -, h⟩ := Option.bind_eq_some_iff.1 h
  obtain ⟨_, -, h⟩ := Option.bind_eq_some_iff.1 h
  obtain ⟨_, -, h⟩ := Option.bind_eq_some_iff.1 h
  split at h
  · simp at h
  · rename_i hb
    simp only [Option.some.injEq, Prod.mk.injEq] at h
    rw [← h.1]
    exact (badSummary_false (by simpa using hb)).1

theorem setup_cap {r : Rc} (h : Cap r) {s : Summary} (hs : 1 ≤ s.ntus) : Cap (r.setupSecond s) := by
  have hb := h.bpt
  unfold Rc.setupSecond
  dsimp only
  split
  · refine ⟨hb, ?_⟩
    dsimp only
    have : 24 * 1 ≤ r.bitsPerTu * s.ntus := Int.mul_le_mul hb hs (by omega) (by omega)
    omega
  · exact ⟨hb, h.full⟩

theorem step_cap {bx : Int → Int} {r r' : Rc} (h : Cap r) {o : Op} (hs : step bx r o = some r') : Cap r' := by
  cases o with
  | feed b =>
    simp only [step, Option.map_eq_some_iff] at hs
    obtain ⟨⟨r1, o⟩, e, rfl⟩ := hs
    by_cases h0 : r.nframesTotal.headD 0 = 0
    · have hi := initSecond_same r
      unfold Rc.twopassIn at e
      simp only [Option.bind_eq_bind] at e
      rw [if_pos (by rw [hi.tot]; exact h0)] at e
      obtain ⟨⟨r2, x⟩, e2, e⟩ := Option.bind_eq_some_iff.1 e
      have h2 : Cap r2 := by
        have hc : Cap { r.initSecond with ready2 := false } := ⟨(hi.keep h).bpt, (hi.keep h).full⟩
        unfold Rc.parseSummaryIn at e2
        simp only [Option.bind_eq_bind] at e2
        obtain ⟨⟨d, b1⟩, -, e2⟩ := Option.bind_eq_some_iff.1 e2
        dsimp only at e2
        split at e2
        · obtain ⟨⟨s, d1⟩, es, e2⟩ := Option.bind_eq_some_iff.1 e2
          cases s with
          | none => simp only [Option.some.injEq, Prod.mk.injEq] at e2; rw [← e2.1]; exact ⟨hc.bpt, hc.full⟩
          | some s =>
            simp only [Option.some.injEq, Prod.mk.injEq] at e2
            rw [← e2.1]
            have := setup_cap (r := { r.initSecond with ready2 := false, des := d1 }) ⟨hc.bpt, hc.full⟩
              (parseSummary_ntus es)
            exact ⟨this.bpt, this.full⟩
        · simp only [Option.some.injEq, Prod.mk.injEq] at e2; rw [← e2.1]; exact ⟨hc.bpt, hc.full⟩
      cases x with
      | none => simp only [Option.some.injEq, Prod.mk.injEq] at e; rw [← e.1]; exact h2
      | some rest => exact (tail_same e).keep h2
    · exact (twopassIn_same (Or.inr h0) e).keep h
  | need =>
    simp only [step, Option.map_eq_some_iff] at hs
    obtain ⟨⟨r1, o⟩, e, rfl⟩ := hs
    exact (twopassIn_same (Or.inl rfl) e).keep h
  | send b =>
    simp only [step, Option.map_eq_some_iff] at hs
    obtain ⟨⟨r1, o⟩, e, rfl⟩ := hs
    exact (sendPacket_same e).keep h
  | required done =>
    simp only [step, Option.map_eq_some_iff] at hs
    obtain ⟨_, -, rfl⟩ := hs
    exact h
  | frame bits fti shown ls =>
    simp only [step] at hs
    split at hs
    · obtain ⟨h1, h2, h3, -⟩ := update_reservoir hs
      exact ⟨by rw [h3]; exact h.bpt, by rw [h1, h2]; exact Int.min_le_right _ _⟩
    · simp only [Option.some.injEq] at hs; rw [← hs]; exact h
  | out done =>
    simp only [step, Option.some.injEq] at hs
    rw [← hs]
    unfold Rc.twopassOut Rc.emitFrame
    dsimp only
    split
    · split
      · exact ⟨h.bpt, h.full⟩
      · split <;> exact ⟨h.bpt, h.full⟩
    · split <;> exact ⟨h.bpt, h.full⟩
  | receive done =>
    simp only [step, Option.map_eq_some_iff] at hs
    obtain ⟨⟨r1, o⟩, e, rfl⟩ := hs
    unfold Rc.receivePassData Rc.emitFrame at e
    dsimp only at e
    split at e
    · simp only [Option.some.injEq, Prod.mk.injEq] at e; rw [← e.1]; exact ⟨h.bpt, h.full⟩
    · split at e
      · simp only [Option.some.injEq, Prod.mk.injEq] at e; rw [← e.1]; exact h
      · split at e
        · rename_i heq
          simp only [Option.some.injEq, Prod.mk.injEq] at e
          split at heq
          · simp at heq
          · simp only [Prod.mk.injEq] at heq; rw [← e.1, ← heq.1]; exact ⟨h.bpt, h.full⟩
        · simp at e

theorem start_cap {c : Cfg} {slice : Option (List Nat)} {x : Option Summary} (hx : configured slice = some x)
    (emit : Bool) : Cap (Rc.start c x emit) := by
  have h0 : Cap (Rc.new c) := by
    have hb : 24 ≤ (Rc.new c).bitsPerTu := by unfold Rc.new; dsimp only; omega
    have hd : 12 ≤ (Rc.new c).delay := by unfold Rc.new; dsimp only; omega
    refine ⟨hb, ?_⟩
    have : 24 * 12 ≤ (Rc.new c).bitsPerTu * (Rc.new c).delay := Int.mul_le_mul hb hd (by omega) (by omega)
    show ((Rc.new c).bitsPerTu * (Rc.new c).delay + 1) / 2 ≤ (Rc.new c).bitsPerTu * (Rc.new c).delay
    omega
  have h1 : ∀ r : Rc, Cap r → Cap (if emit = true then r.initFirst else r) := by
    intro r hr; split <;> exact ⟨hr.bpt, hr.full⟩
  unfold Rc.start
  cases x with
  | none => exact h1 _ h0
  | some s =>
    refine h1 _ (setup_cap ((initSecond_same _).keep h0) ?_)
    cases slice with
    | none => simp [configured] at hx
    | some b =>
      unfold configured summaryFromSlice at hx
      simp only [Option.bind_eq_bind] at hx
      obtain ⟨_, -, hx⟩ := Option.bind_eq_some_iff.1 hx
      obtain ⟨⟨y, d⟩, e, hx⟩ := Option.bind_eq_some_iff.1 hx
      simp only [Option.some.injEq] at hx
      rw [hx] at e
      exact parseSummary_ntus e

/-- At every point of every history the reservoir holds at most its capacity. -/
theorem reservoir_bounded (bx : Int → Int) (c : Cfg) {slice : Option (List Nat)} {x : Option Summary}
    (hx : configured slice = some x) (emit : Bool) (ops : List Op) {r : Rc}
    (hr : run bx (Rc.start c x emit) ops = some r) : r.fullness ≤ r.cap := by
  have : ∀ (ops : List Op) (r0 r : Rc), Cap r0 → run bx r0 ops = some r → Cap r := by
    intro ops
    induction ops with
    | nil => intro r0 r h e; simp only [run, Option.some.injEq] at e; rw [← e]; exact h
    | cons o ops ih =>
      intro r0 r h e
      simp only [run] at e
      obtain ⟨r1, e1, e⟩ := Option.bind_eq_some_iff.1 e
      exact ih r1 r (step_cap h e1) e
  exact (this ops _ _ (start_cap hx emit) hr).full

/-! ## Exact level -/

/-- The frames that were encoded in a history (those for which the rate control was ready): their sizes, and
whether they end a temporal unit. -/
def encoded (bx : Int → Int) : Rc → List Op → List (Int × Bool)
  | _, [] => []
  | r, o :: os =>
    (match o with
      | .frame bits _ shown _ => if r.active && r.ready then [(bits, shown)] else []
      | _ => []) ++
    (match step bx r o with
      | some r' => encoded bx r' os
      | none => [])

/-- The sum of the budgets of the temporal units less the bits of the frames. -/
def balance (budget : Int) (fs : List (Int × Bool)) : Int :=
  (fs.map fun f => (if f.2 then budget else 0) - f.1).sum

theorem balance_append (b : Int) (xs ys : List (Int × Bool)) : balance b (xs ++ ys) = balance b xs + balance b ys := by
  simp [balance]

/-- The level after the frames `fs`, starting at `full`. -/
def Level (full cap budget : Int) (fs : List (Int × Bool)) (v : Int) : Prop :=
  (v ≤ full + balance budget fs ∧ ∀ xs ys, fs = xs ++ ys → xs ≠ [] → v ≤ cap + balance budget ys) ∧
    (v = full + balance budget fs ∨ ∃ xs ys, fs = xs ++ ys ∧ xs ≠ [] ∧ v = cap + balance budget ys)

theorem level_cons {full cap budget : Int} {f : Int × Bool} {fs : List (Int × Bool)} {v : Int}
    (h : Level (min (full - f.1 + (if f.2 then budget else 0)) cap) cap budget fs v) :
    Level full cap budget (f :: fs) v := by
  obtain ⟨⟨h1, h2⟩, h3⟩ := h
  have hb : balance budget (f :: fs) = (if f.2 then budget else 0) - f.1 + balance budget fs := by simp [balance]
  generalize hu : (if f.2 = true then budget else 0) = u at *
  refine ⟨⟨by omega, ?_⟩, ?_⟩
  · intro xs ys e hx
    cases xs with
    | nil => exact absurd rfl hx
    | cons x xs =>
      simp only [List.cons_append, List.cons.injEq] at e
      cases xs with
      | nil => simp only [List.nil_append] at e; rw [← e.2]; omega
      | cons y xs => exact h2 _ _ e.2 (by simp)
  · rcases h3 with h3 | ⟨xs, ys, e, hx, h3⟩
    · by_cases hm : full - f.1 + u ≤ cap
      · left; omega
      · right; exact ⟨[f], fs, rfl, by simp, by omega⟩
    · right; exact ⟨f :: xs, ys, by rw [e]; rfl, by simp, h3⟩

/-- The level after a call. -/
def levelAfter (r : Rc) : Op → Int
  | .frame bits _ shown _ =>
    if r.active && r.ready then min (r.fullness - bits + (if shown then r.bitsPerTu else 0)) r.cap else r.fullness
  | _ => r.fullness

theorem step_level {bx : Int → Int} {r r' : Rc} {o : Op} (ho : o.Valid)
    (hf : o.isFeed = false ∨ r.nframesTotal.headD 0 ≠ 0) (hs : step bx r o = some r') :
    r'.cap = r.cap ∧ r'.bitsPerTu = r.bitsPerTu ∧ r'.nframesTotal = r.nframesTotal ∧
    r'.fullness = levelAfter r o := by
  have fin : ∀ r', Same r r' → r'.cap = r.cap ∧ r'.bitsPerTu = r.bitsPerTu ∧ r'.nframesTotal = r.nframesTotal ∧
      r'.fullness = r.fullness := fun r' h => ⟨h.cap, h.bpt, h.tot, h.full⟩
  cases o with
  | feed b =>
    simp only [step, Option.map_eq_some_iff] at hs
    obtain ⟨⟨r1, o⟩, e, rfl⟩ := hs
    exact fin _ (twopassIn_same (Or.inr (by rcases hf with hf | hf; · simp [Op.isFeed] at hf
                                            · exact hf)) e)
  | need =>
    simp only [step, Option.map_eq_some_iff] at hs
    obtain ⟨⟨r1, o⟩, e, rfl⟩ := hs
    exact fin _ (twopassIn_same (Or.inl rfl) e)
  | send b =>
    simp only [step, Option.map_eq_some_iff] at hs
    obtain ⟨⟨r1, o⟩, e, rfl⟩ := hs
    exact fin _ (sendPacket_same e)
  | required done =>
    simp only [step, Option.map_eq_some_iff] at hs
    obtain ⟨_, -, rfl⟩ := hs
    exact fin _ (Same.refl r)
  | frame bits fti shown ls =>
    simp only [step] at hs
    simp only [levelAfter]
    split at hs
    · rename_i hr
      obtain ⟨h1, h2, h3, h4⟩ := update_reservoir hs
      have hb : ¬ (fti ≠ 4 ∧ bits ≤ 0) := by have := ho.1; omega
      rw [if_neg hb] at h1
      rw [if_pos hr]
      exact ⟨h2, h3, h4, h1⟩
    · rename_i hr
      simp only [Option.some.injEq] at hs; rw [← hs, if_neg hr]; exact ⟨rfl, rfl, rfl, rfl⟩
  | out done =>
    simp only [step, Option.some.injEq] at hs
    rw [← hs]
    apply fin
    unfold Rc.twopassOut Rc.emitFrame
    dsimp only
    split
    · split
      · exact ⟨rfl, rfl, rfl, rfl⟩
      · split <;> exact ⟨rfl, rfl, rfl, rfl⟩
    · split <;> exact ⟨rfl, rfl, rfl, rfl⟩
  | receive done =>
    simp only [step, Option.map_eq_some_iff] at hs
    obtain ⟨⟨r1, o⟩, e, rfl⟩ := hs
    apply fin
    unfold Rc.receivePassData Rc.emitFrame at e
    dsimp only at e
    split at e
    · simp only [Option.some.injEq, Prod.mk.injEq] at e; rw [← e.1]; exact ⟨rfl, rfl, rfl, rfl⟩
    · split at e
      · simp only [Option.some.injEq, Prod.mk.injEq] at e; rw [← e.1]; exact Same.refl r
      · split at e
        · rename_i heq
          simp only [Option.some.injEq, Prod.mk.injEq] at e
          split at heq
          · simp at heq
          · simp only [Prod.mk.injEq] at heq; rw [← e.1, ← heq.1]; exact ⟨rfl, rfl, rfl, rfl⟩
        · simp at e

/-- The level of the reservoir after any history (without another summary, which resets it): the least of what it
would be had it been full at the end of any one of the encoded frames, and of what it would be without a
capacity. So what is above the capacity is lost, and nothing else. -/
theorem reservoir_level (bx : Int → Int) (ops : List Op) {r r' : Rc} (hv : ∀ o ∈ ops, o.Valid)
    (hs : (∀ o ∈ ops, o.isFeed = false) ∨ r.nframesTotal.headD 0 ≠ 0) (hr : run bx r ops = some r') :
    Level r.fullness r.cap r.bitsPerTu (encoded bx r ops) r'.fullness := by
  induction ops generalizing r with
  | nil =>
    simp only [run, Option.some.injEq] at hr
    subst hr
    refine ⟨⟨by simp [encoded, balance], ?_⟩, Or.inl (by simp [encoded, balance])⟩
    intro xs ys e hx
    cases xs with
    | nil => exact absurd rfl hx
    | cons x xs => simp [encoded] at e
  | cons o ops ih =>
    simp only [run] at hr
    obtain ⟨r1, e1, hr⟩ := Option.bind_eq_some_iff.1 hr
    have hst := step_level (hv o List.mem_cons_self)
      (hs.imp (fun h => h o List.mem_cons_self) id) e1
    have hrec := ih (r := r1) (fun o ho => hv o (List.mem_cons_of_mem _ ho))
      (hs.imp (fun h o ho => h o (List.mem_cons_of_mem _ ho)) (fun h => by rw [hst.2.2.1]; exact h)) hr
    rw [hst.1, hst.2.1, hst.2.2.2] at hrec
    simp only [encoded, e1]
    cases o with
    | frame bits fti shown ls =>
      simp only [levelAfter] at hrec
      split at hrec
      · rename_i h; dsimp only; rw [if_pos h]; exact level_cons hrec
      · rename_i h; dsimp only; rw [if_neg h]; exact hrec
    | _ => exact hrec

/-- As long as the capacity is not reached, the level is what it was at the start, plus the budgets of the temporal
units, less the bits spent. -/
theorem reservoir_balance (bx : Int → Int) (ops : List Op) {r r' : Rc} (hv : ∀ o ∈ ops, o.Valid)
    (hs : (∀ o ∈ ops, o.isFeed = false) ∨ r.nframesTotal.headD 0 ≠ 0) (hr : run bx r ops = some r')
    (hc : ∀ xs ys, encoded bx r ops = xs ++ ys → r.fullness + balance r.bitsPerTu xs ≤ r.cap) :
    r'.fullness = r.fullness + balance r.bitsPerTu (encoded bx r ops) := by
  obtain ⟨⟨h1, -⟩, h2⟩ := reservoir_level bx ops hv hs hr
  rcases h2 with h2 | ⟨xs, ys, e, -, h2⟩
  · exact h2
  · have := hc xs ys e
    rw [e, balance_append] at h1 ⊢
    omega

/-- Three frames in single-pass mode: 39984 bits per temporal unit, a capacity of 12 units. -/
def exFrames : List Op :=
  [.frame 30000 0 true 0, .frame 100 1 true 0, .frame 50 2 false 0, .frame 24 4 true 0]

example : (encoded id (Rc.start (exCfg (some 12)) none false) exFrames) =
    [(30000, true), (100, true), (50, false), (24, true)] := by decide +kernel

example : (run id (Rc.start (exCfg (some 12)) none false) exFrames).map (fun r => (r.fullness, r.cap, r.bitsPerTu)) =
    some (239904 + 3 * 39984 - 30174, 479808, 39984) := by decide +kernel

/-- With many small frames the capacity is reached. -/
example : (run id (Rc.start (exCfg (some 12)) none false) (List.replicate 20 (.frame 8 1 true 0))).map
    (fun r => (r.fullness, r.cap)) = some (479808, 479808) := by decide +kernel

end Rav1e.Rate

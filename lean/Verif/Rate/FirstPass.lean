import Verif.Rate.Codec
/-
C29, first half: what the first pass emits.
-/
namespace Rav1e.Rate
open Rav1e.Ivf (le unle le_length unle_le)

/-- The bytes a call returns: `twopass_out`, or the payload of `rc_receive_pass_data`. -/
def output (bx : Int → Int) (r : Rc) : Op → List Nat
  | .out done => ((r.twopassOut bx done).2).getD []
  | .receive done =>
    match r.receivePassData bx done with
    | some (_, some (.frame b)) => b
    | some (_, some (.summary b)) => b
    | _ => []
  | _ => []

/-- All bytes that are returned in a history. -/
def outputs (bx : Int → Int) : Rc → List Op → List Nat
  | _, [] => []
  | r, o :: os =>
    output bx r o ++
    (match step bx r o with
      | some r' => outputs bx r' os
      | none => [])

/-- The metrics of the frame that a call encodes. -/
def frameOf (r : Rc) : Op → List Metrics
  | .frame _ fti shown ls => if r.active && r.ready then [{ logScale := ls, fti, shown }] else []
  | _ => []

/-- The metrics of the frames that are encoded in a history, in order. -/
def frames (bx : Int → Int) : Rc → List Op → List Metrics
  | _, [] => []
  | r, o :: os =>
    frameOf r o ++
    (match step bx r o with
      | some r' => frames bx r' os
      | none => [])

/-- The calls of a first pass while it runs. -/
def Op.InFirst : Op → Prop
  | .frame bits fti shown ls =>
    (Op.frame bits fti shown ls).Valid ∧ -2147483648 ≤ ls ∧ ls < 2147483648
  | .out done => done = false
  | .receive done => done = false
  | .required _ => True
  | _ => False

def sums (bx : Int → Int) (ms : List Metrics) : List Int := [0, 1, 2, 3].map (scaleOf bx ms)

theorem recs_append (a b : List Metrics) : recs (a ++ b) = recs a ++ recs b := by simp [recs]

theorem scaleOf_append (bx : Int → Int) (ms : List Metrics) (m : Metrics) (t : Nat) :
    scaleOf bx (ms ++ [m]) t = scaleOf bx ms t + if m.fti = t then bx m.logScale else 0 := by
  unfold scaleOf
  rw [List.filter_append, List.map_append, List.sum_append]
  by_cases h : m.fti = t
  · simp [h]
  · simp [h]

theorem bumpSum_sums (bx : Int → Int) (ms : List Metrics) {m : Metrics} (h : m.fti ≤ 4) :
    bumpSum (sums bx ms) m.fti (bx m.logScale) = sums bx (ms ++ [m]) := by
  have : m.fti = 0 ∨ m.fti = 1 ∨ m.fti = 2 ∨ m.fti = 3 ∨ m.fti = 4 := by omega
  unfold sums
  simp only [List.map_cons, List.map_nil, scaleOf_append]
  rcases this with e | e | e | e | e <;> rw [e] <;> simp [bumpSum]

theorem bufferVal_nat {n v : Nat} (h : v < 256 ^ n) : bufferVal (v : Int) n = le n v := by
  unfold bufferVal
  have : ((v : Int) % 256 ^ n).toNat = v := by
    have e : ((v : Int) % 256 ^ n) = ((v % 256 ^ n : Nat) : Int) := by push_cast; rfl
    rw [e, Nat.mod_eq_of_lt h]; rfl
  rw [this]

theorem emit_record {m : Metrics} (h : m.fti ≤ 4) :
    bufferVal ((if m.shown then 2 ^ 31 else 0) + m.fti) 4 ++ bufferVal m.logScale 4 = recordBytes m := by
  have h4 : (256 : Nat) ^ 4 = 4294967296 := by norm_num
  have hn : (2 : Nat) ^ 31 = 2147483648 := by norm_num
  have e : ((if m.shown = true then 2 ^ 31 else 0) + (m.fti : Int) : Int) =
      ((m.fti + (if m.shown = true then 2 ^ 31 else 0) : Nat) : Int) := by
    cases m.shown
    · simp
    · simp; omega
  unfold recordBytes
  rw [e, bufferVal_nat (by rw [h4]; split <;> omega)]
  rfl

structure First (bx : Int → Int) (exp : List Int) (ms : List Metrics) (out : List Nat) (r : Rc) : Prop where
  pass : r.pass = 1
  act : r.active = true
  nfr : r.nframes = counts ms
  enc : r.nencoded + r.nsef = ms.length
  ex : r.exp = exp
  ring : r.ring = []
  sr : r.pass1SummaryRetrieved = false
  fti : ∀ m ∈ ms, m.fti ≤ 4
  ret : r.pass1Retrieved = true → out = recs ms ∧ r.scaleSum = sums bx ms ∧ r.ntus = shownCount ms
  pend : r.pass1Retrieved = false → ∃ l, ms = l ++ [r.prev] ∧ out = recs l ∧ r.scaleSum = sums bx l ∧
    r.ntus = shownCount l

/-- Handing out a pending record. -/
theorem emit_first {bx : Int → Int} {exp : List Int} {ms : List Metrics} {out : List Nat} {r : Rc}
    (h : First bx exp ms out r) (hp : r.pass1Retrieved = false) (hl : ms.length < 2147483647) :
    ∃ r' b, r.emitFrame bx = (r', some b) ∧ First bx exp ms (out ++ b) r' := by
  obtain ⟨l, h1, h2, h3, h4⟩ := h.pend hp
  have hf : r.prev.fti ≤ 4 := h.fti _ (by rw [h1]; simp)
  have he := h.enc
  unfold Rc.emitFrame
  dsimp only
  rw [p31, if_neg (by omega), ← p31, emit_record hf]
  refine ⟨_, _, rfl, { h with ret := fun _ => ⟨?_, ?_, ?_⟩, pend := fun e => by simp at e }⟩
  · rw [h1, h2, recs_append]; simp [recs]
  · dsimp only; rw [h3, bumpSum_sums bx l hf, h1]
  · dsimp only; rw [h1, shown_append, h4]

theorem step_first {bx : Int → Int} {exp : List Int} {ms : List Metrics} {out : List Nat} {r : Rc}
    (h : First bx exp ms out r) {o : Op} (ho : o.InFirst) (hl : ms.length < 1073741824) :
    ∃ r', step bx r o = some r' ∧ First bx exp (ms ++ frameOf r o) (out ++ output bx r o) r' := by
  cases o with
  | feed b => exact ho.elim
  | need => exact ho.elim
  | send b => exact ho.elim
  | required done =>
    refine ⟨r, ?_, by simpa [frameOf, output] using h⟩
    simp only [step, Rc.dataRequired, Rc.framesNeeded]
    cases done with
    | true => rfl
    | false => rw [if_neg (by simp), if_neg (by simp [h.act]), if_pos h.ring]; rfl
  | frame bits fti shown ls =>
    obtain ⟨⟨hb, hf, h4⟩, hlo, hhi⟩ := ho
    simp only [step, output, frameOf, List.append_nil]
    by_cases hr : (r.active && r.ready) = true
    · rw [if_pos hr, if_pos hr]
      have hr2 : r.pass1Retrieved = true := by
        simp only [Bool.and_eq_true] at hr
        have := hr.2
        unfold Rc.ready at this
        rw [h.pass] at this
        simpa using this
      obtain ⟨o1, o2, o3⟩ := h.ret hr2
      have he := h.enc
      have hc := countP_le_length ms (fun x => decide (x.fti = fti))
      have hg : (counts ms)[fti]? = some (ms.countP (fun x => decide (x.fti = fti)) : Int) := counts_get hf
      have hset : (counts ms).set fti ((ms.countP (fun x => decide (x.fti = fti)) : Int) + 1) =
          counts (ms ++ [⟨ls, fti, shown⟩]) := by
        have a := bump_counts_append (l := ms) (m := ⟨ls, fti, shown⟩) hf (by omega)
        rw [bump_eq hg (by omega) (by omega)] at a
        exact Option.some.inj a
      have main : ∀ r1 : Rc, r1.pass = 1 → r1.active = true → r1.nframes = counts ms →
          r1.nencoded + r1.nsef = ms.length + 1 → r1.exp = exp → r1.ring = [] → r1.pass1SummaryRetrieved = false →
          r1.scaleSum = sums bx ms → r1.ntus = shownCount ms →
          ∃ r', ((r1.special bx).bind fun r => (r.record fti shown ls).settle
              (if fti ≠ 4 ∧ bits ≤ 0 then 0 else bits) fti shown) = some r' ∧
            First bx exp (ms ++ [⟨ls, fti, shown⟩]) out r' := by
        intro r1 p1 p2 p3 p4 p5 pr p6 p7 p8
        unfold Rc.special
        rw [if_neg (by omega), Option.bind_some]
        unfold Rc.record
        rw [if_pos (Or.inl p1)]
        unfold Rc.settle
        dsimp only
        rw [p3, hg, Option.map_some]
        refine ⟨_, rfl, ⟨p1, p2, ?_, ?_, p5, pr, p6, ?_, fun e => by simp at e, fun _ => ⟨ms, rfl, o1, p7, p8⟩⟩⟩
        · dsimp only; rw [p31, if_pos (by omega), hset]
        · dsimp only; rw [List.length_append]; push_cast; simpa using p4
        · intro m hm
          rcases List.mem_append.1 hm with hm | hm
          · exact h.fti m hm
          · simp at hm; rw [hm]; exact hf
      unfold Rc.update Rc.count
      simp only [Option.bind_eq_bind]
      by_cases e4 : fti = 4
      · rw [if_pos e4, if_pos (h4 e4), Option.bind_some]
        exact main _ h.pass h.act h.nfr (by dsimp only; omega) h.ex h.ring h.sr o2 o3
      · rw [if_neg e4, if_neg (by omega), Option.bind_some]
        exact main _ h.pass h.act h.nfr (by dsimp only; omega) h.ex h.ring h.sr o2 o3
    · rw [if_neg hr, if_neg hr, List.append_nil]; exact ⟨r, rfl, h⟩
  | out done =>
    have hd : done = false := ho
    subst hd
    simp only [step, frameOf, List.append_nil, output]
    cases hp : r.pass1Retrieved with
    | false =>
      obtain ⟨r', b, e, hf⟩ := emit_first h hp (by omega)
      have : r.twopassOut bx false = (r', some b) := by
        unfold Rc.twopassOut
        rw [if_pos (by simp [hp]), if_neg (by rw [h.pass]; simp), e]
      rw [this]
      exact ⟨r', rfl, hf⟩
    | true =>
      have : r.twopassOut bx false = (r, none) := by
        unfold Rc.twopassOut
        rw [if_neg (by simp [hp]), if_neg (by simp)]
      rw [this]
      exact ⟨r, rfl, by simpa using h⟩
  | receive done =>
    have hd : done = false := ho
    subst hd
    simp only [step, frameOf, List.append_nil, output]
    cases hp : r.pass1Retrieved with
    | false =>
      obtain ⟨r', b, e, hf⟩ := emit_first h hp (by omega)
      have : r.receivePassData bx false = some (r', some (.frame b)) := by
        unfold Rc.receivePassData
        rw [if_neg (by simp), if_neg (by simp [hp]), e]
      rw [this]
      exact ⟨r', rfl, hf⟩
    | true =>
      have : r.receivePassData bx false = some (r, none) := by
        unfold Rc.receivePassData
        rw [if_neg (by simp), if_pos hp]
      rw [this]
      exact ⟨r, rfl, by simpa using h⟩

theorem frameOf_length (r : Rc) (o : Op) : (frameOf r o).length ≤ 1 := by
  unfold frameOf; split
  · split <;> simp
  · simp

theorem run_first {bx : Int → Int} {exp : List Int} (ops : List Op) {ms : List Metrics} {out : List Nat} {r : Rc}
    (h : First bx exp ms out r) (ho : ∀ o ∈ ops, o.InFirst) (hl : ms.length + ops.length ≤ 1073741824) :
    ∃ r', run bx r ops = some r' ∧ First bx exp (ms ++ frames bx r ops) (out ++ outputs bx r ops) r' := by
  induction ops generalizing ms out r with
  | nil => exact ⟨r, rfl, by simpa [frames, outputs] using h⟩
  | cons o ops ih =>
    rw [List.length_cons] at hl
    obtain ⟨r1, e1, h1⟩ := step_first h (ho o List.mem_cons_self) (by omega)
    obtain ⟨r2, e2, h2⟩ := ih h1 (fun x hx => ho x (List.mem_cons_of_mem _ hx))
      (by rw [List.length_append]; have := frameOf_length r o; omega)
    refine ⟨r2, by rw [run, e1]; exact e2, ?_⟩
    rw [List.append_assoc, List.append_assoc] at h2
    rw [frames, outputs, e1]
    exact h2

theorem start_first (bx : Int → Int) {c : Cfg} (hb : 0 < c.bitrate) :
    First bx c.exp [] [] (Rc.start c none true) := by
  refine ⟨rfl, ?_, rfl, rfl, rfl, rfl, rfl, by simp, fun _ => ⟨rfl, rfl, rfl⟩, fun e => ?_⟩
  · simp [Rc.start, Rc.initFirst, Rc.new, hb]
  · simp [Rc.start, Rc.initFirst, Rc.new] at e

theorem emit_summary_eq {bx : Int → Int} {exp : List Int} {ms : List Metrics} {out : List Nat} {r : Rc}
    (h : First bx exp ms out r) (hr : r.pass1Retrieved = true) (hs : SOk bx exp ms) :
    r.emitSummary.2 = summaryBytes bx exp ms := by
  obtain ⟨-, o2, o3⟩ := h.ret hr
  have h4 : (256 : Nat) ^ 4 = 4294967296 := by norm_num
  have hlen := hs.len
  have hc : ∀ p : Metrics → Bool, ms.countP p ≤ ms.length := fun p => List.countP_le_length
  have e1 : bufferVal (magic : Int) 4 = le 4 0x50324156 := bufferVal_nat (by rw [h4]; decide)
  have e2 : bufferVal (version : Int) 4 = le 4 1 := bufferVal_nat (by rw [h4]; decide)
  have e3 : bufferVal r.ntus 4 = le 4 (ms.countP (·.shown)) := by
    rw [o3]; exact bufferVal_nat (by rw [h4]; have := hc (·.shown); omega)
  have e4 : r.nframes.flatMap (bufferVal · 4) = [0, 1, 2, 3, 4].flatMap (fun t => le 4 (typeCount ms t)) := by
    rw [h.nfr, ← counts_eq]
    have : ∀ t, bufferVal ((typeCount ms t : Nat) : Int) 4 = le 4 (typeCount ms t) := fun t =>
      bufferVal_nat (by rw [h4]; have := hc (fun x => decide (x.fti = t)); unfold typeCount; omega)
    simp only [List.map_cons, List.map_nil, List.flatMap_cons, List.flatMap_nil, this]
  have e5 : r.exp.flatMap (bufferVal · 1) = exp.flatMap (fun e => le 1 e.toNat) := by
    rw [h.ex]
    have hx := hs.ex
    clear hs h o3 e3 e4
    induction exp with
    | nil => rfl
    | cons e es ih =>
      have he := hx e List.mem_cons_self
      have ih := ih fun x hx' => hx x (List.mem_cons_of_mem _ hx')
      rw [List.flatMap_cons, List.flatMap_cons, ih]
      congr 1
      unfold bufferVal
      rw [pow_one, Int.emod_eq_of_lt he.1 he.2]
  have e6 : r.scaleSum.flatMap (bufferVal · 8) = [0, 1, 2, 3].flatMap (fun t => le 8 (scaleOf bx ms t).toNat) := by
    rw [o2]
    have h8 : (256 : Int) ^ 8 = 18446744073709551616 := by norm_num
    have : ∀ t, t < 4 → bufferVal (scaleOf bx ms t) 8 = le 8 (scaleOf bx ms t).toNat := fun t ht => by
      have := hs.sums t ht
      unfold bufferVal
      rw [Int.emod_eq_of_lt this.1 (by rw [h8]; omega)]
    unfold sums
    simp only [List.map_cons, List.map_nil, List.flatMap_cons, List.flatMap_nil]
    rw [this 0 (by omega), this 1 (by omega), this 2 (by omega), this 3 (by omega)]
  unfold Rc.emitSummary summaryBytes
  dsimp only
  rw [e1, e2, e3, e4, e5, e6]

/-- **C29**, first pass. In every history of a first pass (frames are encoded and data is retrieved in any order;
a frame is refused while a record is pending), the data returned so far is the records of the frames encoded so
far, in order, except for one record that may be pending, and this is what both calls return next, whether or not
the encoder is finished. When none is pending, both calls return the summary of
exactly these frames once the encoder is finished. -/
theorem first_pass (bx : Int → Int) {c : Cfg} (hb : 0 < c.bitrate) (ops : List Op) (ho : ∀ o ∈ ops, o.InFirst)
    (hl : ops.length ≤ 2 ^ 30) :
    ∃ r, run bx (Rc.start c none true) ops = some r ∧
      (r.pass1Retrieved = true → outputs bx (Rc.start c none true) ops = recs (frames bx (Rc.start c none true) ops)) ∧
      (r.pass1Retrieved = false → ∃ l m, frames bx (Rc.start c none true) ops = l ++ [m] ∧
        outputs bx (Rc.start c none true) ops = recs l ∧
        ∀ done, output bx r (.out done) = recordBytes m ∧ output bx r (.receive done) = recordBytes m) ∧
      (r.pass1Retrieved = true → SOk bx c.exp (frames bx (Rc.start c none true) ops) →
        (r.twopassOut bx true).2 = some (summaryBytes bx c.exp (frames bx (Rc.start c none true) ops)) ∧
        (r.receivePassData bx true).map (·.2) =
          some (some (.summary (summaryBytes bx c.exp (frames bx (Rc.start c none true) ops))))) := by
  obtain ⟨r, e, h⟩ := run_first ops (start_first bx hb) ho (by simpa using hl)
  simp only [List.nil_append] at h
  refine ⟨r, e, fun hr => (h.ret hr).1, fun hr => ?_, fun hr hs => ?_⟩
  · obtain ⟨l, h1, h2, -, -⟩ := h.pend hr
    refine ⟨l, r.prev, h1, h2, ?_⟩
    have hf : r.prev.fti ≤ 4 := h.fti _ (by rw [h1]; simp)
    have he := h.enc
    have hlen : (frames bx (Rc.start c none true) ops).length ≤ ops.length := by
      clear * -
      generalize Rc.start c none true = r
      induction ops generalizing r with
      | nil => simp [frames]
      | cons o ops ih =>
        rw [frames, List.length_append, List.length_cons]
        have := frameOf_length r o
        cases step bx r o with
        | none => simp; omega
        | some r' => have := ih r'; simp only; omega
    intro done
    have ee : r.emitFrame bx = ((r.emitFrame bx).1, some (recordBytes r.prev)) := by
      unfold Rc.emitFrame
      dsimp only
      rw [p31, if_neg (by omega), ← p31, emit_record hf]
    constructor
    · simp only [output, Rc.twopassOut]
      rw [if_pos (by simp [hr]), if_neg (by rw [h.pass]; simp), ee]
      rfl
    · simp only [output, Rc.receivePassData]
      rw [if_neg (by simp [hr]), if_neg (by simp [hr]), ee]
  · have es := emit_summary_eq h hr hs
    constructor
    · unfold Rc.twopassOut
      rw [if_neg (by simp [hr]), if_pos (by simp [h.sr])]
      exact congrArg some es
    · unfold Rc.receivePassData
      rw [if_pos (by simp [hr]), Option.map_some, es]

/-! A first pass of three frames; the second frame is refused at first, as a record is pending. -/

def exFirst : List Op :=
  [.frame 1000 0 true 5, .frame 800 1 true 7, .out false, .out false, .frame 800 1 false (-7), .receive false,
   .required false, .frame 24 4 true 0, .out false]

example : ∀ o ∈ exFirst, o.InFirst := by
  intro o ho
  simp only [exFirst, List.mem_cons, List.not_mem_nil, or_false] at ho
  rcases ho with rfl | rfl | rfl | rfl | rfl | rfl | rfl | rfl | rfl <;> simp [Op.InFirst, Op.Valid]

def exMetrics : List Metrics := [⟨5, 0, true⟩, ⟨-7, 1, false⟩, ⟨0, 4, true⟩]

example : frames (fun x => x.natAbs) (Rc.start (exCfg none) none true) exFirst = exMetrics ∧
    outputs (fun x => x.natAbs) (Rc.start (exCfg none) none true) exFirst =
      [0, 0, 0, 128, 5, 0, 0, 0, 1, 0, 0, 0, 249, 255, 255, 255, 4, 0, 0, 128, 0, 0, 0, 0] := by decide +kernel

theorem exMetrics_ok : SOk (fun x => x.natAbs) (exCfg none).exp exMetrics where
  all := by
    intro m hm
    simp only [exMetrics, List.mem_cons, List.not_mem_nil, or_false] at hm
    rcases hm with rfl | rfl | rfl <;> exact ⟨by decide, by decide, by decide⟩
  len := by decide
  shown := ⟨⟨5, 0, true⟩, by simp [exMetrics], rfl⟩
  elen := by decide
  ex := by decide
  sums := by
    intro t ht
    have : t = 0 ∨ t = 1 ∨ t = 2 ∨ t = 3 := by omega
    rcases this with rfl | rfl | rfl | rfl <;> decide

end Rav1e.Rate

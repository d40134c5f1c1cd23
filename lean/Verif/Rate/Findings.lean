import Verif.Rate.Safe
/-
What goes wrong with two-pass data.
-/
namespace Rav1e.Rate

/-- The state of an encoder without a finite buffer after some calls (a default if one of them panics). -/
def exState (ops : List Op) : Rc :=
  (run id (Rc.start (exCfg none) none false) ops).getD (Rc.start (exCfg none) none false)

/-- The two ways of passing data must not be mixed (the hypothesis of `twopass_never_panics`): a summary without key
frames is accepted but does not count as one, so a second one is parsed after records were sent. If it counts fewer
frames than are waiting, `clamp` is called with an upper bound below zero. -/
theorem mixing_panics : ∃ ops : List Op, (∀ o ∈ ops, o.Valid) ∧ 
    run id (Rc.start (exCfg (some 12)) none false) ops = none := by
  refine ⟨[.feed (exSummary 5 [0, 5, 0, 0, 0]), .send (exRecord 1), .send (exRecord 1),
    .feed (exSummary 1 [1, 0, 0, 0, 0])], fun o ho => ?_, ?_⟩
  · simp only [List.mem_cons, List.not_mem_nil, or_false] at ho
    rcases ho with rfl | rfl | rfl | rfl <;> trivial
  · decide +kernel

theorem bufferFill_full {goal : Nat} {d : Des} (h : goal ≤ d.fill) (b : List Nat) :
    bufferFill goal b d = some (d, b) := by
  cases b with
  | nil => rfl
  | cons x b => unfold bufferFill; rw [if_neg (by omega)]

/-- If the buffer of the parser holds a record that is not accepted, every call of `twopass_in` fails, whatever it
passes. -/
theorem stuck_record (bx : Int → Int) {r : Rc} (hp : ¬ r.pass < 2) (hi : 0 < r.nframesTotal.headD 0)
    (hr : r.ring = []) (hn : ¬ r.totalTotal ≤ r.nencoded + r.nsef) (hd : r.ready2 = false) (hf : r.des.fill = 8)
    {d : Des} (hm : parseMetrics { r.des with pos := 0 } = some (none, d)) (b : List Nat) :
    r.twopassIn bx (some b) = some ({ r with des := d }, none) := by
  unfold Rc.twopassIn
  dsimp only
  rw [initSecond_ge hp, if_neg (by omega)]
  unfold Rc.twopassTail
  rw [if_pos hi, if_neg hn, if_pos (by simp [hd])]
  unfold Rc.parseFrameData
  simp only [Option.bind_eq_bind]
  rw [if_pos hr, bufferFill_full (by rw [hf]; decide), Option.bind_some]
  dsimp only
  rw [if_pos (by rw [hf]; decide), hm, Option.bind_some]

/-- A rejected record stays in the buffer, so every later record is rejected as well, however valid. -/
theorem rejected_record_stays : ∃ r, run id (Rc.start (exCfg none) none false)
      [.feed (exSummary 3 [1, 2, 0, 0, 0]), .feed (exRecord 5)] = some r ∧
    ∀ b, (r.twopassIn id (some b)).map (·.2) = some none := by
  refine ⟨exState [.feed (exSummary 3 [1, 2, 0, 0, 0]), .feed (exRecord 5)], by decide +kernel, fun b => ?_⟩
  rw [stuck_record id (by decide +kernel) (by decide +kernel) (by decide +kernel) (by decide +kernel)
    (by decide +kernel) (by decide +kernel) (d := { (exState [.feed (exSummary 3 [1, 2, 0, 0, 0]), .feed (exRecord 5)]).des with pos := 4 }) (by decide +kernel) b]
  rfl

/-- The same records without the malformed one are accepted. -/
example : ((run id (Rc.start (exCfg none) none false) [.feed (exSummary 3 [1, 2, 0, 0, 0])]).bind
    fun r => (r.twopassIn id (some (exRecord 1))).map (·.2)) = some (some 8) := by decide +kernel

theorem stuck_summary (bx : Int → Int) {r : Rc} (hp : ¬ r.pass < 2) (hi : r.nframesTotal.headD 0 = 0)
    (hf : r.des.fill = 68) {d : Des} (hm : parseSummary { r.des with pos := 0 } = some (none, d)) (b : List Nat) :
    (r.twopassIn bx (some b)).map (·.2) = some none := by
  unfold Rc.twopassIn
  simp only [Option.bind_eq_bind]
  rw [initSecond_ge hp, if_pos hi]
  unfold Rc.parseSummaryIn
  simp only [Option.bind_eq_bind]
  rw [bufferFill_full (by rw [hf]; decide), Option.bind_some]
  dsimp only
  rw [if_pos (by rw [hf]; decide), hm]
  rfl

/-- A rejected summary stays in the buffer, too. -/
theorem rejected_summary_stays : ∃ r, run id (Rc.start (exCfg none) none false)
      [.feed (exSummary 0 [1, 2, 0, 0, 0])] = some r ∧
    ∀ b, (r.twopassIn id (some b)).map (·.2) = some none := by
  refine ⟨exState [.feed (exSummary 0 [1, 2, 0, 0, 0])], by decide +kernel, fun b => ?_⟩
  exact stuck_summary id (by decide +kernel) (by decide +kernel) (by decide +kernel)
    (d := { (exState [.feed (exSummary 0 [1, 2, 0, 0, 0])]).des with pos := 68 }) (by decide +kernel) b

/-- `twopass_bytes_needed`, which reads like a query, turns an encoder in single-pass mode into one that waits for
two-pass data: it is not ready for a frame any more. -/
theorem query_changes_mode (bx : Int → Int) : ∃ r, run bx (Rc.start (exCfg none) none false) [.need] = some r ∧
    (Rc.start (exCfg none) none false).ready = true ∧ r.ready = false :=
  ⟨_, rfl, rfl, rfl⟩

/-- A summary that ends early is completed with zeros and may be accepted: here 32 of the 68 bytes. -/
theorem truncated_summary_accepted :
    ∃ s, summaryFromSlice ((exSummary 3 [1, 2, 0, 0, 0]).take 32) = some (some s) ∧ s.exp = [0, 0, 0, 0] := by
  refine ⟨{ ntus := 3, nframes := [1, 2, 0, 0, 0], exp := [0, 0, 0, 0], scaleSum := [0, 0, 0, 0], total := 3 }, ?_,
    rfl⟩
  decide +kernel

/-- The window's sum of scales is not bounded by the checks: a whole-file summary with a scale sum of zero is
accepted, and after a record was used the sum is below zero. -/
theorem scale_sum_negative :
    ∃ r, run id (Rc.start (exCfg none) none false)
      [.feed (exSummary 3 [1, 2, 0, 0, 0]), .feed (exRecord 1), .frame 100 1 true 3] = some r ∧
    r.winSum = [0, -5, 0, 0] := by
  exact ⟨exState [.feed (exSummary 3 [1, 2, 0, 0, 0]), .feed (exRecord 1), .frame 100 1 true 3], by decide +kernel,
    by decide +kernel⟩

end Rav1e.Rate

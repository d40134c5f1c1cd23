import Verif.Chan.GopTheorems
import Verif.Chan.Findings

/-!
# Concrete schedules of the parallel channel: the hypotheses are met, and where it falls short
-/

namespace Rav1e.Chan.Gop

open Rav1e.Sched

/-- The threads in turn, from the `k`-th on: the first that can go on. -/
def pick (c : Cfg) (newGop : Nat → Bool) (cuts : Nat → Nat → Bool) (g : St Nat Nat Nat) (k : Nat) :
    Option (Ev Nat Nat Nat × St Nat Nat Nat) :=
  let evs := [.scene, .gather, .dispatch] ++ (List.range g.started).map .encode
  (evs.drop (k % evs.length) ++ evs.take (k % evs.length)).findSome?
    (fun e => (step c newGop cuts g e).map (fun x => (e, x.1)))

/-- Complete a sequence of application events to a schedule: each is made as soon as it is possible, otherwise some thread
goes on. -/
def fill (c : Cfg) (newGop : Nat → Bool) (cuts : Nat → Nat → Bool) :
    Nat → St Nat Nat Nat → List (Ev Nat Nat Nat) → List (Ev Nat Nat Nat)
  | 0, _, _ => []
  | _, _, [] => []
  | n + 1, g, e :: es =>
    match step c newGop cuts g e with
    | some (g', _) => e :: fill c newGop cuts n g' es
    | none =>
      match pick c newGop cuts g n with
      | some (e', g') => e' :: fill c newGop cuts n g' (e :: es)
      | none => []

/-- Sends `n` frames, drops the sender, receives one packet more than there are. -/
def exSchedule (c : Cfg) (newGop : Nat → Bool) (slots n : Nat) : List (Ev Nat Nat Nat) :=
  fill c newGop (fun _ _ => false) (30 * (n + 1)) (create slots)
    ((List.range n).map (fun i => .send (exFrame i)) ++ [.close] ++ List.replicate (n + 1) .recv)

/-- The detector finds a new scene before frames 3, 5 and 8. -/
def exNew : Nat → Bool := fun p => p == 3 || p == 5 || p == 8

def exQ : Cfg := { exR with lowLatency := true, rdoLookahead := 1 }

/-- All hypotheses hold for a run with 9 frames in three groups and two slots: the queues run full, the workers are
used again; 9 packets come out and then the end is reported.  The new scene before the last frame is not looked at. -/
example : exQ.stillPicture = false ∧ .hangUp ∉ exSchedule exQ exNew 2 9 ∧
    (exSchedule exQ exNew 2 9).countP Ev.isWork = 71 ∧
    (exec exQ exNew (fun _ _ => false) (create 2) (exSchedule exQ exNew 2 9)).any (fun x =>
      Spec.sentFrames (exSchedule exQ exNew 2 9) x.2 = (List.range 9).map exFrame ∧
      (Chan.Spec.received x.2).map (fun p => (p.input, p.ftype)) =
        [(0, .key), (1, .inter), (2, .inter), (3, .key), (4, .inter), (5, .key), (6, .inter), (7, .inter), (8, .inter)] ∧
      .ended ∈ x.2 ∧ x.1.started = 4 ∧ x.1.free = 2 ∧
      Chan.Spec.received x.2 = Spec.inParallel exQ (fun _ _ => false) [[0, 1, 2], [3, 4], [5, 6, 7, 8]]) = true := by
  decide +kernel

/-- The hypothesis of `parallel_no_deadlock` in the middle of that run. -/
example : (exec exQ exNew (fun _ _ => false) (create 2) ((exSchedule exQ exNew 2 9).take 40)).any (fun x =>
    x.1.finished = false ∧ x.1.sending = false ∧ x.1.started = 2) = true := by
  decide +kernel

/-! ## Shortcomings of the code -/

/-- **With one slot the threads block each other**, see `one_slot_never_ends`: here after 9 frames were sent and the sender
dropped, no thread can go on, there is no packet, and the application waits for ever. -/
theorem one_slot_blocks :
    (exec exQ exNew (fun _ _ => false) (create 1) (exSchedule exQ exNew 1 9)).any (fun x =>
      Spec.sentFrames (exSchedule exQ exNew 1 9) x.2 = (List.range 9).map exFrame ∧ x.1.sending = false ∧
      (pick exQ exNew (fun _ _ => false) x.1 0).isNone ∧ (step exQ exNew (fun _ _ => false) x.1 .recv).isNone ∧
      Chan.Spec.received x.2 = [] ∧ x.1.packets = []) = true := by
  decide +kernel

/-- **The parameters of a frame are dropped** (`_params`, `by_gop.rs:273`): frame 4 was sent with a forced key frame, every
frame with an opaque value. -/
theorem parameters_dropped :
    (exec exQ exNew (fun _ _ => false) (create 2) (exSchedule exQ exNew 2 9)).any (fun x =>
      (exFrame 4).2 = some ⟨true, some 104, [204]⟩ ∧
      (Chan.Spec.received x.2).map (fun p => (p.ftype, p.user)) =
        [(.key, none), (.inter, none), (.inter, none), (.key, none), (.inter, none), (.key, none), (.inter, none),
         (.inter, none), (.inter, none)]) = true := by
  decide +kernel

/-- **An item without a frame panics** the thread that groups the frames (`frame.unwrap()`, `by_gop.rs:275`); the frames after
it are refused and those in its lookahead are lost. -/
theorem empty_item_panics :
    (exec exQ exNew (fun _ _ => false) (create 2)
      [.send (exFrame 0), .send (none, none), .scene, .scene, .send (exFrame 1), .dispatch, .dispatch,
       .encode 0, .encode 0, .gather, .gather, .recv]).any (fun x =>
      x.1.scene.phase = .dead ∧
      x.2 = [.sent, .sent, .silent, .silent, .refused, .silent, .silent, .silent, .silent, .silent, .silent, .ended]) =
        true := by
  decide +kernel


end Rav1e.Chan.Gop

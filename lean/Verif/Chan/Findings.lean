import Verif.Chan.Theorems
import Verif.Sched.Findings

/-!
# Concrete schedules: the hypotheses are met, and where the channel falls short
-/

namespace Rav1e.Chan

open Rav1e.Sched

/-- Frame `i` with its parameters (see `exSend`). -/
def exFrame (i : Nat) : Input Nat Nat Nat := (some i, some ⟨i == 4, some (100 + i), [200 + i]⟩)

/-- Complete a sequence of application events to a schedule: before each of them the worker runs for `k` steps, or
until it blocks. -/
def fill (c : Cfg) (cut : Nat → Bool) : Nat → Nat → Ch Nat Nat Nat → List (Ev Nat Nat Nat) → List (Ev Nat Nat Nat)
  | 0, _, _, _ => []
  | _, _, _, [] => []
  | n + 1, 0, ch, e :: es => match step c cut ch e with
    | some (ch', _) => e :: fill c cut n (n % 3) ch' es
    | none => match work c cut ch with
      | some ch' => .work :: fill c cut n 0 ch' (e :: es)
      | none => []
  | n + 1, k + 1, ch, es => match work c cut ch with
    | some ch' => .work :: fill c cut n k ch' es
    | none => fill c cut n 0 ch es

/-- Sends `n` frames, drops the sender, receives one packet more than there are. -/
def exSchedule (c : Cfg) (n : Nat) : List (Ev Nat Nat Nat) :=
  fill c exCut (30 * (n + 1)) 2 create ((List.range n).map (fun i => .send (exFrame i)) ++ [.close] ++
    List.replicate (n + 1) .recv)

/-- All hypotheses hold for a run with 13 frames, key frames in the middle and reordering.  The worker blocks and so
does the application; 13 packets come out and then the end is reported. -/
example : exR.stillPicture = false ∧ .hangUp ∉ exSchedule exR 13 ∧
    (exSchedule exR 13).countP Ev.isWork = 45 ∧
    (exec exR exCut create (exSchedule exR 13)).any (fun (ch, os) =>
      Spec.sentFrames (exSchedule exR 13) os = (List.range 13).map exFrame ∧
      (Spec.received os).map (fun p => (p.input, p.user)) = (List.range 13).map (fun i => (i, some (100 + i))) ∧
      .ended ∈ os ∧ ch.worker = .done ∧
      Spec.accepted (exBatch 13) (outcomes exR exCut (exBatch 13)) = Spec.asFrames (Spec.sentFrames (exSchedule exR 13) os) ∧
      Spec.received os = Spec.packets (outcomes exR exCut (exBatch 13 ++ (List.replicate 40 true).map .receive))) = true := by
  decide +kernel

/-! ## Shortcomings of the code -/

/-- **Dropping the receiver early panics the worker**: `send_packet.send(p).unwrap()`, on a thread of the pool. -/
theorem hang_up_panics :
    ((exec exR exCut create (fill exR exCut 400 1 create
      ([.hangUp] ++ (List.range 13).map (fun i => .send (exFrame i)) ++ [.close] ++ List.replicate 40 .work))).map
        (fun x => x.1.worker)) = some .dead := by
  decide +kernel

/-- **The channel does not enforce a still picture**: the direct API refuses a second frame, the channel codes it, as an
inter frame. -/
theorem channel_still_picture_unchecked :
    ((exec exS exCut create (exSchedule exS 2)).map
      (fun x => (Spec.received x.2).map (fun p => p.ftype))) = some [.key, .inter] ∧
    outcomes exS exCut [exSend 0, exSend 1] = [.accepted, .enoughData] := by
  decide +kernel

/-- **An item without a frame is not a flush**: it is taken, and its parameters go to the next frame, here turning it
into a key frame and giving it two opaque values, of which the last one stays. -/
theorem empty_item_leaks_parameters :
    ((exec exR exCut create (fill exR exCut 400 1 create
      ([.send (exFrame 0), .send (none, some ⟨true, some 77, []⟩), .send (some 1, none), .send (exFrame 2), .close] ++
        List.replicate 4 .recv))).map
      (fun x => (Spec.received x.2).map (fun p => (p.input, p.ftype, p.user)))) =
    some [(0, .key, some 100), (1, .key, some 77), (2, .inter, some 102)] := by
  decide +kernel

end Rav1e.Chan

import Verif.Sched.Determinism

/-!
# The channel API

Model of `src/api/channel/mod.rs` (`new_channel_internal`) and `src/api/channel/data.rs`
(`FrameSender`, `PacketReceiver`) for single pass encoding: an application and a worker,
connected by a bounded queue of frames and an unbounded queue of packets, interleaved by an
arbitrary schedule.  Each call of the application and each turn of a loop of the worker is
one step.  A step that would block cannot be taken.

The queues of `crossbeam` are modelled by lists (first in, first out; a send fails when the
receiver is gone, a receive fails when the queue is empty and the sender is gone).
-/

namespace Rav1e.Chan

open Rav1e.Sched

/-- `FrameInput`, `channel/data.rs:208`. -/
abbrev Input (F O M : Type) := Option F × Option (Params O M)

/-- Where the worker closure `run` of `new_channel_internal` stands, `channel/mod.rs:307-357`. -/
inductive Worker (F O M : Type)
  /-- at the head of `for f in receive_frame.iter()`, 308 -/
  | idle
  /-- at the head of `while !inner.needs_more_fi_lookahead()`, 310, with this `f` -/
  | busy (f : Input F O M)
  /-- at the head of `loop`, 337 -/
  | draining
  /-- the closure has returned -/
  | done
  /-- the closure has panicked -/
  | dead
deriving Repr, DecidableEq

/-- The channel: both endpoints, both queues, and the encoder inside. -/
structure Ch (F O M : Type) where
  /-- `FrameSender::count`, `channel/data.rs:215` -/
  count : Nat
  /-- the `FrameSender` has not been dropped -/
  sending : Bool
  /-- the `PacketReceiver` has not been dropped -/
  listening : Bool
  frames : List (Input F O M)
  worker : Worker F O M
  inner : St F O M
  packets : List (Packet F O M)
deriving Repr, DecidableEq

/-- `new_channel_internal`, `channel/mod.rs:254-367`, without rate control passes. -/
def create {F O M : Type} : Ch F O M :=
  { count := 0, sending := true, listening := true, frames := [], worker := .idle,
    inner := Sched.init, packets := [] }

/-- The capacity of the frame queue, `channel/mod.rs:264-266`. -/
def capacity (c : Cfg) : Nat := c.rdoLookahead * 2

/-- What can happen next. -/
inductive Ev (F O M : Type)
  /-- the application calls `FrameSender::send` -/
  | send (f : Input F O M)
  /-- the application drops the `FrameSender` -/
  | close
  /-- the application calls `PacketReceiver::recv` -/
  | recv
  /-- the application drops the `PacketReceiver` -/
  | hangUp
  /-- the worker takes a step -/
  | work
deriving Repr, DecidableEq

/-- What the application sees of it. -/
inductive Out (F O M : Type)
  /-- `Ok(())` from `send` -/
  | sent
  /-- `SendError` -/
  | refused
  /-- `Ok(packet)` from `recv` -/
  | packet (p : Packet F O M)
  /-- `RecvError` -/
  | ended
  /-- nothing -/
  | silent
deriving Repr, DecidableEq

variable {F O M : Type}

/-- The worker's end of both queues is gone. -/
def Worker.gone : Worker F O M → Bool
  | .done => true
  | .dead => true
  | _ => false

/-- `send_packet.send(p).unwrap()`, `channel/mod.rs:318`, `343`: a panic when nobody listens. -/
def deliver (ch : Ch F O M) (p : Packet F O M) : Ch F O M :=
  if ch.listening then { ch with packets := ch.packets ++ [p] } else { ch with worker := .dead }

/-- One step of the worker, `channel/mod.rs:307-357`; `none` where it blocks or has ended.  `inner.send_frame`
(`internal.rs:338-419`, `Sched.sendInner`) is called directly, past the checks of `Context::send_frame`.  The
`is_flushing` flag of `Context` does not exist here; the field of the state is set along with the limit, as `Context`
does, and is not read by the functions called.  Single pass: the rate controller is always ready. -/
def work (c : Cfg) (cut : Nat → Bool) (ch : Ch F O M) : Option (Ch F O M) :=
  match ch.worker with
  | .idle =>
    match ch.frames with
    | f :: rest => some { ch with frames := rest, worker := .busy f }
    | [] =>
      if ch.sending then none
      else
        match sendInner c cut { ch.inner with limit := some ch.inner.frameCount, isFlushing := true } none none with
        | .ok s => some { ch with inner := s, worker := .draining }
        | .error _ => some { ch with worker := .dead }
  | .busy f =>
    if needsMoreFi c ch.inner then
      match sendInner c cut ch.inner f.1 f.2 with
      | .ok s => some { ch with inner := s, worker := .idle }
      | .error _ => some { ch with worker := .dead }
    else
      let (s, r) := receive c true ch.inner
      match r with
      | .packet p => some (deliver { ch with inner := s } p)
      | .encoded => some { ch with inner := s }
      | _ => some { ch with worker := .dead }
  | .draining =>
    let (s, r) := receive c true ch.inner
    match r with
    | .packet p => some (deliver { ch with inner := s } p)
    | .encoded => some { ch with inner := s }
    | .limitReached => some { ch with inner := s, worker := .done }
    | _ => some { ch with worker := .dead }
  | .done => none
  | .dead => none

/-- One step.  `send` is `FrameSender::send`, `channel/data.rs:250-262`, with the limit of `channel/mod.rs:295`; `recv` is
`PacketReceiver::recv`, `channel/data.rs:320-322`. -/
def step (c : Cfg) (cut : Nat → Bool) (ch : Ch F O M) : Ev F O M → Option (Ch F O M × Out F O M)
  | .send f =>
    if !ch.sending then none
    else if c.maxFrames ≤ ch.count then some (ch, .refused)
    else if ch.worker.gone then some (ch, .refused)
    else if ch.frames.length < capacity c then
      some ({ ch with frames := ch.frames ++ [f], count := ch.count + 1 }, .sent)
    else none
  | .close => if ch.sending then some ({ ch with sending := false }, .silent) else none
  | .recv =>
    if !ch.listening then none
    else
      match ch.packets with
      | p :: rest => some ({ ch with packets := rest }, .packet p)
      | [] => if ch.worker.gone then some (ch, .ended) else none
  | .hangUp => if ch.listening then some ({ ch with listening := false }, .silent) else none
  | .work => (work c cut ch).map (fun ch' => (ch', .silent))

/-- Follow a schedule; `none` if it asks for a step that cannot be taken. -/
def exec (c : Cfg) (cut : Nat → Bool) : Ch F O M → List (Ev F O M) → Option (Ch F O M × List (Out F O M))
  | ch, [] => some (ch, [])
  | ch, e :: es => do
    let (ch', o) ← step c cut ch e
    let (ch'', os) ← exec c cut ch' es
    return (ch'', o :: os)

/-! ## What the application sees -/

/-- The frames whose `send` succeeded. -/
def Spec.sentFrames : List (Ev F O M) → List (Out F O M) → List (Input F O M)
  | .send f :: es, .sent :: os => f :: Spec.sentFrames es os
  | _ :: es, _ :: os => Spec.sentFrames es os
  | _, _ => []

/-- The packets received. -/
def Spec.received : List (Out F O M) → List (Packet F O M) :=
  List.filterMap fun o => match o with | .packet p => some p | _ => none

/-- The frames as the direct API takes them: the frame itself is there. -/
def Spec.asFrames (l : List (Input F O M)) : List (F × Option (Params O M)) :=
  l.filterMap fun x => x.1.map fun f => (f, x.2)

end Rav1e.Chan

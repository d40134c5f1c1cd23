import Verif.Chan.Model

/-!
# The channel that codes groups of pictures in parallel

Model of `src/api/channel/by_gop.rs` (`new_by_gop_channel`): a thread that groups the frames, a thread that dispatches
the groups, a pool of encoding workers and a thread that puts the packets back in order, interleaved with each other and
with the application by an arbitrary schedule.  The encoding worker of a group runs the loop of the single channel
(`Chan.work`) and is modelled by it.

Every thread is assumed to run: that the thread pool has enough threads for all of them (`slots + 3`) is not modelled.
-/

namespace Rav1e.Chan.Gop

open Rav1e.Sched

/-- `SubGop`, `by_gop.rs:25-28`. -/
structure SubGop (F : Type) where
  frames : List F
  endGop : Bool
deriving Repr, DecidableEq

/-- Where the thread of `Config::scenechange` stands, `by_gop.rs:270-302`. -/
inductive Phase (F : Type)
  /-- at the head of `for f in r.iter()`, 272 -/
  | reading
  /-- in `send.send(..)` at 284, to go on reading -/
  | sendR (s : SubGop F)
  /-- at the head of `while lookahead.len() > lookahead_distance`, 290 -/
  | flushing
  /-- in `send.send(..)` at 293, to go on flushing -/
  | sendF (s : SubGop F)
  /-- in `send.send(..)` at 300 -/
  | sendL (s : SubGop F)
  | done
  /-- the thread has panicked -/
  | dead
deriving Repr, DecidableEq

/-- The variables of that thread: `lookahead` and the fields `frames` and `processed` of `SceneChange`, `by_gop.rs:39-45`. -/
structure Scene (F : Type) where
  phase : Phase F
  lookahead : List F
  frames : Nat
  processed : Nat
deriving Repr, DecidableEq

/-- Where the thread of `Config::encode` stands, `by_gop.rs:314-324`. -/
inductive Dispatch
  /-- in `get_worker()` at 315 or 321 -/
  | waiting
  /-- at the head of `for sb in r.iter()`, 316 -/
  | serving
  | done
deriving Repr, DecidableEq

/-- The whole channel. -/
structure St (F O M : Type) where
  /-- `FrameSender::count` -/
  count : Nat
  /-- the `FrameSender` has not been dropped -/
  sending : Bool
  /-- the `PacketReceiver` has not been dropped -/
  listening : Bool
  frames : List (Input F O M)
  scene : Scene F
  subs : List (SubGop F)
  dispatch : Dispatch
  /-- the number of workers in `recv_workers` -/
  free : Nat
  /-- `WorkerPoolSend::count`: the groups that have been given to a worker -/
  started : Nat
  /-- group `i`: its queue of frames, its worker and its queue of packets -/
  gops : Nat → Ch F O M
  /-- `last_idx`, `by_gop.rs:227` -/
  lastIdx : Nat
  /-- `packet_index`, `by_gop.rs:228` -/
  packetIndex : Nat
  /-- the thread of `reassemble` has returned -/
  finished : Bool
  packets : List (Packet F O M)

/-- `new_by_gop_channel`, `by_gop.rs:336-381`, and `workerpool`, 154-219: all workers are free. -/
def create {F O M : Type} (slots : Nat) : St F O M :=
  { count := 0, sending := true, listening := true, frames := [],
    scene := { phase := .reading, lookahead := [], frames := 0, processed := 0 },
    subs := [], dispatch := .waiting, free := slots, started := 0, gops := fun _ => Chan.create,
    lastIdx := 0, packetIndex := 0, finished := false, packets := [] }

/-- The capacity of the frame queue, `by_gop.rs:348-351`. -/
def capacity (c : Cfg) : Nat := c.rdoLookahead * 4

/-- `pyramid_size`, `by_gop.rs:264`. -/
def pyramid (c : Cfg) : Nat := c.keyDist

/-- `lookahead_distance`, `by_gop.rs:265`. -/
def distance (c : Cfg) : Nat := pyramid c + 1 + 1

/-- The capacity of the queue of sub-groups, `by_gop.rs:266`. -/
def subCapacity (c : Cfg) : Nat := distance c * 2

variable {F O M : Type}

/-- `SceneChange::split`, `by_gop.rs:81-107`, with the answer `newGop` of the detector to its n-th question as a function of n.
`last_keyframe` is only passed to the detector.  The result is the new thread state before the `send`, with the sub-group
split off (`split_off`, 283 and 292).  `none`: a slice or `split_off` out of range. -/
def split (c : Cfg) (newGop : Nat → Bool) (s : Scene F) : Option (Scene F × Option (SubGop F)) :=
  let processed := s.processed + 1
  if s.lookahead.length < s.frames then none
  else
    let cutAt (pos frames : Nat) (e : Bool) : Option (Scene F × Option (SubGop F)) :=
      if s.lookahead.length < pos then none
      else some ({ s with lookahead := s.lookahead.drop pos, frames := frames, processed := processed },
        some ⟨s.lookahead.take pos, e⟩)
    if pyramid c < s.frames then cutAt (pyramid c + 2) (s.frames - (pyramid c + 1)) (newGop processed)
    else if newGop processed then cutAt (s.frames + 1) 0 true
    else some ({ s with frames := s.frames + 1, processed := processed }, none)

/-- One step of the thread of `scenechange`, `by_gop.rs:270-302`; `none` where it blocks or has ended. -/
def sceneStep (c : Cfg) (newGop : Nat → Bool) (g : St F O M) : Option (St F O M) :=
  let s := g.scene
  /- the `send` of a sub-group, which blocks while the queue is full -/
  let emit (x : SubGop F) (p : Phase F) : Option (St F O M) :=
    if g.subs.length < subCapacity c then
      some { g with subs := g.subs ++ [x], scene := { s with phase := p } }
    else none
  match s.phase with
  | .reading =>
    match g.frames with
    | (some f, _) :: rest =>
      let s' := { s with lookahead := s.lookahead ++ [f] }
      if s'.lookahead.length < distance c then some { g with frames := rest, scene := s' }
      else
        match split c newGop s' with
        | none => some { g with frames := rest, scene := { s' with phase := .dead } }
        | some (s'', none) => some { g with frames := rest, scene := s'' }
        | some (s'', some x) => some { g with frames := rest, scene := { s'' with phase := .sendR x } }
    | (none, _) :: rest => some { g with frames := rest, scene := { s with phase := .dead } }
    | [] => if g.sending then none else some { g with scene := { s with phase := .flushing } }
  | .sendR x => emit x .reading
  | .flushing =>
    if distance c < s.lookahead.length then
      match split c newGop s with
      | none => some { g with scene := { s with phase := .dead } }
      | some (s', none) => some { g with scene := s' }
      | some (s', some x) => some { g with scene := { s' with phase := .sendF x } }
    else if s.lookahead.isEmpty then some { g with scene := { s with phase := .done } }
    else some { g with scene := { s with lookahead := [], phase := .sendL ⟨s.lookahead, true⟩ } }
  | .sendF x => emit x .flushing
  | .sendL x => emit x .done
  | .done => none
  | .dead => none

/-- Replace group `i`. -/
def setGop (g : St F O M) (i : Nat) (ch : Ch F O M) : St F O M :=
  { g with gops := fun j => if j = i then ch else g.gops j }

/-- `sg_send.send(sb)`, `by_gop.rs:318`: the frames of the sub-group go to the worker, without parameters, `by_gop.rs:174-188`
(the queue holds sub-groups; here it holds their frames). -/
def push (ch : Ch F O M) (fs : List F) : Ch F O M :=
  { ch with frames := ch.frames ++ fs.map (fun f => (some f, none)), count := ch.count + fs.length }

/-- Drop `sg_send`. -/
def closeGop (ch : Ch F O M) : Ch F O M := { ch with sending := false }

/-- The thread of `scenechange` is gone. -/
def Phase.gone : Phase F → Bool
  | .done => true
  | .dead => true
  | _ => false

/-- One step of the thread of `encode`, `by_gop.rs:314-324`, with `get_worker`, 122-137.  The old `sg_send` is dropped by the
assignment at 321, after `get_worker` has returned; the last one at the end of the closure. -/
def dispatchStep (g : St F O M) : Option (St F O M) :=
  match g.dispatch with
  | .waiting =>
    if g.free = 0 then none
    else
      let g' := if g.started = 0 then g else setGop g (g.started - 1) (closeGop (g.gops (g.started - 1)))
      some { setGop g' g.started Chan.create with free := g.free - 1, started := g.started + 1, dispatch := .serving }
  | .serving =>
    match g.subs with
    | x :: rest =>
      some { setGop g (g.started - 1) (push (g.gops (g.started - 1)) x.frames) with
        subs := rest, dispatch := if x.endGop then .waiting else .serving }
    | [] =>
      if g.scene.phase.gone then
        some { setGop g (g.started - 1) (closeGop (g.gops (g.started - 1))) with dispatch := .done }
      else none
  | .done => none

/-- One step of the worker of group `i`, `by_gop.rs:170-206`: the loop of the single channel; at its end the worker goes back
to the pool, 202.  The decisions of the key frame detector inside are `cuts i`; the configured detection mode is `None`,
`by_gop.rs:161`, but longest intervals still make key frames. -/
def encodeStep (c : Cfg) (cuts : Nat → Nat → Bool) (g : St F O M) (i : Nat) : Option (St F O M) :=
  if i < g.started then
    match work c (cuts i) (g.gops i) with
    | none => none
    | some ch =>
      some { setGop g i ch with free := match ch.worker with | .done => g.free + 1 | _ => g.free }
  else none

/-- One step of the thread of `reassemble`, `by_gop.rs:225-255`.  The groups arrive in the order of their indices, so that
`pending` never holds more than one, and the second loop, 242-252, finds nothing.  At the end `close` stops the workers, 254,
which are all free then. -/
def gatherStep (g : St F O M) : Option (St F O M) :=
  if g.finished then none
  else if g.lastIdx < g.started then
    let ch := g.gops g.lastIdx
    match ch.packets with
    | p :: rest =>
      let g' := { setGop g g.lastIdx { ch with packets := rest } with packetIndex := g.packetIndex + 1 }
      some (if g.listening then { g' with packets := g.packets ++ [{ p with input := g.packetIndex }] } else g')
    | [] => if ch.worker.gone then some { g with lastIdx := g.lastIdx + 1 } else none
  else if g.dispatch = .done then some { g with finished := true }
  else none

/-- What can happen next. -/
inductive Ev (F O M : Type)
  /-- the application calls `FrameSender::send` -/
  | send (f : Input F O M)
  /-- the application drops the `FrameSender` -/
  | close
  /-- the application calls `PacketReceiver::recv` -/
  | recv
  /-- the application drops the `PacketReceiver` -/
  | hangUp
  /-- a thread takes a step -/
  | scene | dispatch | encode (i : Nat) | gather
deriving Repr, DecidableEq

/-- One step.  `send`, `recv`: `channel/data.rs:250-262`, `320-322`, with the limit of `by_gop.rs:349`. -/
def step (c : Cfg) (newGop : Nat → Bool) (cuts : Nat → Nat → Bool) (g : St F O M) :
    Ev F O M → Option (St F O M × Out F O M)
  | .send f =>
    if !g.sending then none
    else if c.maxFrames ≤ g.count then some (g, .refused)
    else if g.scene.phase.gone then some (g, .refused)
    else if g.frames.length < capacity c then
      some ({ g with frames := g.frames ++ [f], count := g.count + 1 }, .sent)
    else none
  | .close => if g.sending then some ({ g with sending := false }, .silent) else none
  | .recv =>
    if !g.listening then none
    else
      match g.packets with
      | p :: rest => some ({ g with packets := rest }, .packet p)
      | [] => if g.finished then some (g, .ended) else none
  | .hangUp => if g.listening then some ({ g with listening := false }, .silent) else none
  | .scene => (sceneStep c newGop g).map (·, .silent)
  | .dispatch => (dispatchStep g).map (·, .silent)
  | .encode i => (encodeStep c cuts g i).map (·, .silent)
  | .gather => (gatherStep g).map (·, .silent)

/-- Follow a schedule; `none` if it asks for a step that cannot be taken. -/
def exec (c : Cfg) (newGop : Nat → Bool) (cuts : Nat → Nat → Bool) :
    St F O M → List (Ev F O M) → Option (St F O M × List (Out F O M))
  | g, [] => some (g, [])
  | g, e :: es => do
    let (g', o) ← step c newGop cuts g e
    let (g'', os) ← exec c newGop cuts g' es
    return (g'', o :: os)

/-! ## What the application sees -/

/-- The frames whose `send` succeeded. -/
def Spec.sentFrames : List (Ev F O M) → List (Out F O M) → List (Input F O M)
  | .send f :: es, .sent :: os => f :: Spec.sentFrames es os
  | _ :: es, _ :: os => Spec.sentFrames es os
  | _, _ => []

/-- Cut a list of frames in groups: a new group starts before frame `i` when `isCut i`. -/
def Spec.groups (isCut : Nat → Bool) : Nat → List F → List F → List (List F)
  | _, cur, [] => if cur.isEmpty then [] else [cur]
  | i, cur, f :: fs =>
    if !cur.isEmpty && isCut i then cur :: Spec.groups isCut (i + 1) [f] fs
    else Spec.groups isCut (i + 1) (cur ++ [f]) fs

/-- The packets of the direct API for these frames, sent without parameters, flushed and drained. -/
def Spec.direct (c : Cfg) (cut : Nat → Bool) (fs : List F) : List (Packet F O M) :=
  Sched.Spec.packets (outcomes c cut (fs.map (.send · none) ++ [.flush] ++
    List.replicate (3 * fs.length) (.receive true)))

/-- The packets of each group coded by itself, one group after the other, numbered through. -/
def Spec.inParallel (c : Cfg) (cuts : Nat → Nat → Bool) (gs : List (List F)) : List (Packet F O M) :=
  ((gs.zipIdx.map (fun x => Spec.direct c (cuts x.2) x.1)).flatten.zipIdx).map
    (fun x => { x.1 with input := x.2 })

end Rav1e.Chan.Gop

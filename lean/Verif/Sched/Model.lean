/-!
# The frame scheduler behind `Context::send_frame` / `Context::receive_packet`

Models `src/api/internal.rs` (`InterConfig`, `ContextInner`), the parts of
`src/encoder.rs` that choose a frame's type, slot, references and refresh
flags (`FrameInvariants::new_key_frame`, `new_inter_frame`,
`update_rec_buffer`), and the wrapper `src/api/context.rs:108-137`.

Conventions.

* `BTreeMap<u64, V>` is a list of pairs sorted by key (`BMap`).
* Everything the scheduler does not inspect is abstract: `F` is the type of
  source frames, `O` of opaque user data, `M` of one T.35 metadata block.
* A picture is identified by where it comes from: `Pic.orig n` is source frame
  `n` itself, `Pic.recon n` is the reconstruction of the coded frame made from
  source frame `n`.
* The scene-change detector is an oracle `cut : Nat → Bool`, asked at most once
  per frame number (`av_scenechange` is a separate crate).  Whether the rate
  controller is ready is an oracle argument of each `receive`.
* A Rust panic (`unwrap` on `None`, indexing a missing key, `assert!`) is the
  explicit outcome `Except.error Crash.panic`; a `while` loop that does not stop
  within the fuel given to it is `Except.error Crash.hang`.
* `u64` frame numbers are `Nat`.  `Context::send_frame` refuses to count beyond
  `i32::MAX - 1` frames, so none of the sums below can overflow and the
  `as u32` cast in `get_order_hint` is exact.
-/

namespace Rav1e.Sched

/-! ## Ordered maps -/

/-- `BTreeMap<u64, V>`: pairs in increasing key order. -/
abbrev BMap (V : Type) := List (Nat × V)

namespace BMap
variable {V : Type}

/-- `BTreeMap::get`. -/
def get : BMap V → Nat → Option V
  | [], _ => none
  | (k, v) :: m, i => if k = i then some v else get m i

/-- `BTreeMap::insert`: keeps keys sorted, replaces an existing value. -/
def insert : BMap V → Nat → V → BMap V
  | [], i, w => [(i, w)]
  | (k, v) :: m, i, w =>
    if i < k then (i, w) :: (k, v) :: m
    else if i = k then (i, w) :: m
    else (k, v) :: insert m i w

/-- `BTreeMap::remove`. -/
def remove (m : BMap V) (i : Nat) : BMap V := m.filter (fun p => p.1 != i)

/-- `map.keys().last()`. -/
def lastKey (m : BMap V) : Option Nat := m.getLast?.map Prod.fst

/-- `map.keys().next()`. -/
def firstKey (m : BMap V) : Option Nat := m.head?.map Prod.fst

end BMap

/-! ## Configuration -/

/-- The fields of `EncoderConfig` and `SpeedSettings` the scheduler reads. -/
structure Cfg where
  /-- `low_latency` -/
  lowLatency : Bool
  /-- `speed_settings.multiref` -/
  multirefSpeed : Bool
  /-- `switch_frame_interval` -/
  switchInterval : Nat
  /-- `max_key_frame_interval` -/
  maxKey : Nat
  /-- `speed_settings.rdo_lookahead_frames` -/
  rdoLookahead : Nat
  /-- `still_picture` -/
  stillPicture : Bool
  /-- `error_resilient` -/
  errorResilient : Bool
  /-- `temporal_rdo()` (`api/config/encoder.rs:216`) -/
  temporalRdo : Bool
  /-- `i32::MAX` in `Context::send_frame`; a field so that the behaviour at the
  limit can be exhibited on a short run -/
  maxFrames : Nat := 2147483647
deriving Repr, DecidableEq

namespace Cfg

/-- `InterConfig::new`, `internal.rs:61-91`: `reorder`. -/
def reorder (c : Cfg) : Bool := !c.lowLatency

/-- `InterConfig::new`: `multiref`. -/
def multiref (c : Cfg) : Bool := c.reorder || c.multirefSpeed

/-- `InterConfig::new`: `pyramid_depth`. -/
def pd (c : Cfg) : Nat := if c.reorder then 2 else 0

/-- `InterConfig::new`: `group_input_len`. -/
def gil (c : Cfg) : Nat := 1 <<< c.pd

/-- `InterConfig::new`: `group_output_len`. -/
def gol (c : Cfg) : Nat := c.gil + c.pd

/-- `keyframe_lookahead_distance`, `internal.rs:186-192` (with `max_reordering_latency`). -/
def keyDist (c : Cfg) : Nat := c.gil + 1

/-- `get_idx_in_group_output`, `internal.rs:96-103`. -/
def idxInGroup (c : Cfg) (o : Nat) : Nat := (o - 1) % c.gol

/-- `get_order_hint`, `internal.rs:108-127`. -/
def orderHint (c : Cfg) (o idx : Nat) : Nat :=
  c.gil * ((o - 1) / c.gol)
    + (if idx < c.pd then c.gil >>> idx else idx - c.pd + 1)

end Cfg

/-- `u64::trailing_zeros` for a non-zero argument. -/
def trailingZeros (n : Nat) : Nat :=
  if h : n = 0 then 0
  else if n % 2 = 1 then 0
  else 1 + trailingZeros (n / 2)
termination_by n
decreasing_by omega

/-- `u64::count_ones`. -/
def countOnes (n : Nat) : Nat :=
  if h : n = 0 then 0 else n % 2 + countOnes (n / 2)
termination_by n
decreasing_by omega

/-- `pos_to_lvl`, `encoder.rs:817-826`. -/
def posToLvl (pos d : Nat) : Nat := d - trailingZeros (pos ||| (1 <<< d))

namespace Cfg

/-- `get_level`, `internal.rs:130-144`. -/
def level (c : Cfg) (idx : Nat) : Nat :=
  if !c.reorder then 0
  else if idx < c.pd then idx
  else posToLvl (idx - c.pd + 1) c.pd

/-- `get_slot_idx`, `internal.rs:146-155`. -/
def slotIdx (c : Cfg) (level hint : Nat) : Nat :=
  if level = 0 then (hint >>> c.pd) &&& 3 else 3 + level

/-- `get_show_frame`, `internal.rs:157-159`. -/
def showFrame (c : Cfg) (idx : Nat) : Bool := decide (c.pd ≤ idx)

/-- `get_show_existing_frame`, `internal.rs:161-170`. -/
def showExisting (c : Cfg) (idx : Nat) : Bool :=
  c.reorder && c.showFrame idx && countOnes (idx - c.pd + 1) == 1 && idx != c.pd

/-- `get_input_frameno`, `internal.rs:172-184`. -/
def inputFrameno (c : Cfg) (o gopStart : Nat) : Nat :=
  if o = 0 then gopStart else gopStart + c.orderHint o (c.idxInGroup o)

end Cfg

/-! ## Frames, references, packets -/

/-- `FrameType` (`encoder.rs`); intra-only frames are never produced. -/
inductive FrameType
  | key | inter | switch
deriving Repr, DecidableEq

/-- Where the pixels of a picture come from. -/
inductive Pic
  /-- source frame `n`, as passed to `send_frame` -/
  | orig (n : Nat)
  /-- reconstruction of the coded frame made from source frame `n` -/
  | recon (n : Nat)
deriving Repr, DecidableEq

/-- `ReferenceFrame` (`encoder.rs:76-89`), reduced to the fields the scheduler
reads. -/
structure Ref where
  orderHint : Nat
  outputFrameno : Nat
  pic : Pic
deriving Repr, DecidableEq

/-- `ReferenceFramesSet::frames`: eight optional references. -/
abbrev RefSet := List (Option Ref)

/-- `ReferenceFramesSet::new`. -/
def RefSet.empty : RefSet := List.replicate 8 none

/-- `rec_buffer.frames[i]`. -/
def RefSet.at (s : RefSet) (i : Nat) : Option Ref := (s.getD i none)

/-- The loop `for i in 0..REF_FRAMES { if refresh_frame_flags & (1 << i) != 0 …`
of `update_rec_buffer` (`encoder.rs:3839-3844`) and of
`compute_lookahead_motion_vectors` (`internal.rs:746-751`, `828-833`). -/
def RefSet.refresh (s : RefSet) (flags : Nat) (r : Ref) : RefSet :=
  s.mapIdx fun i x => if flags.testBit i then some r else x

/-- `Sequence::get_relative_dist`, `encoder.rs:333-337`, with
`order_hint_bits_minus_1 = 5` (`encoder.rs:297`).  `diff & 31` and `diff & 32`
on a two's complement `i32` are `diff mod 32` and `32 · ((diff div 32) mod 2)`. -/
def relativeDist (a b : Nat) : Int :=
  let diff : Int := (a : Int) - b
  diff % 32 - 32 * (diff / 32 % 2)

/-- `FrameInvariants`, reduced to what scheduling and the frame header need. -/
structure FI (M : Type) where
  /-- `input_frameno` -/
  input : Nat
  /-- `order_hint` -/
  orderHint : Nat
  /-- `frame_type` -/
  ftype : FrameType
  /-- `show_frame` -/
  shown : Bool
  /-- `is_show_existing_frame()`, i.e. `coded_frame_data.is_none()` -/
  sef : Bool
  /-- `idx_in_group_output` -/
  idx : Nat
  /-- `pyramid_level` -/
  level : Nat
  /-- `frame_to_show_map_idx` -/
  slot : Nat
  /-- `refresh_frame_flags` -/
  refresh : Nat
  /-- `ref_frames` -/
  refs : List Nat
  /-- `ref_frame_sign_bias` -/
  signBias : List Bool
  /-- `primary_ref_frame` (7 is `PRIMARY_REF_NONE`) -/
  primary : Nat
  /-- `error_resilient` -/
  errorRes : Bool
  /-- `reference_mode == SELECT` -/
  refSelect : Bool
  /-- `t35_metadata` -/
  t35 : List M
  /-- `rec_buffer.frames` -/
  recBuf : RefSet
  /-- `coded_frame_data.lookahead_rec_buffer.frames` -/
  look : RefSet
deriving Repr, DecidableEq

/-- `FrameData`: the invariants and the source frame (`fs.input`). -/
structure FD (F M : Type) where
  fi : FI M
  src : F
deriving Repr, DecidableEq

/-- `set_ref_frame_sign_bias`, `encoder.rs:1197-1210`. -/
def signBias (stillPicture : Bool) (s : RefSet) (refs : List Nat) (hint : Nat) :
    List Bool :=
  refs.map fun r =>
    if stillPicture then false
    else match s.at r with
      | some x => decide (0 < relativeDist x.orderHint hint)
      | none => false

/-- What the tile data of a coded frame depends on besides the source: the
pictures and order hints the encoder predicted from, and the sign biases it
assumed. -/
structure Basis where
  refs : List (Option Ref)
  signBias : List Bool
deriving Repr, DecidableEq

/-- The bitstream units the scheduler emits, in abstract form.  `frame` is an
`OBU_FRAME` with the header fields listed; `src` names the source frame it
codes and `basis` what the encoder predicted from.  `order_hint` is written
modulo `2^6` (`header.rs:554-558`). -/
inductive Obu (M : Type)
  | td
  | seqHdr
  | t35 (m : M)
  | frame (ftype : FrameType) (shown : Bool) (hint : Nat) (refresh : Nat)
      (refs : List Nat) (primary : Nat) (src : Nat) (basis : Basis)
  | showExisting (slot : Nat)
deriving Repr, DecidableEq

/-- `Packet` (`api/util.rs`); `recPic` and `user` are its `rec` and `opaque`. -/
structure Packet (F O M : Type) where
  data : List (Obu M)
  recPic : Option Pic
  source : Option F
  input : Nat
  ftype : FrameType
  user : Option O
deriving Repr, DecidableEq

/-- `FrameParameters`. -/
structure Params (O M : Type) where
  /-- `frame_type_override == Key` -/
  forceKey : Bool
  /-- `opaque` -/
  user : Option O
  t35 : List M
deriving Repr, DecidableEq

/-- How the program can go wrong. -/
inductive Crash
  | panic | hang
deriving Repr, DecidableEq

/-! ## State -/

/-- `ContextInner` together with `Context::is_flushing`. -/
structure St (F O M : Type) where
  frameCount : Nat
  limit : Option Nat
  isFlushing : Bool
  outputFrameno : Nat
  framesProcessed : Nat
  frameQ : BMap (Option F)
  frameData : BMap (Option (FD F M))
  /-- `keyframes: BTreeSet<u64>`, increasing -/
  keyframes : List Nat
  keyframesForced : List Nat
  packetData : List (Obu M)
  gopOut : BMap Nat
  gopIn : BMap Nat
  nextLookahead : Nat
  nextOutput : Nat
  opaqueQ : BMap O
  t35Q : BMap (List M)
deriving Repr, DecidableEq

variable {F O M : Type}

/-- `ContextInner::new`, `internal.rs:264-335`. -/
def init : St F O M where
  frameCount := 0
  limit := none
  isFlushing := false
  outputFrameno := 0
  framesProcessed := 0
  frameQ := []
  frameData := []
  keyframes := [0]
  keyframesForced := []
  packetData := [.td]
  gopOut := []
  gopIn := []
  nextLookahead := 1
  nextOutput := 0
  opaqueQ := []
  t35Q := []

/-- `needs_more_frames`, `internal.rs:438-440`. -/
def needsMoreFrames (s : St F O M) (n : Nat) : Bool :=
  match s.limit with
  | some l => decide (n < l)
  | none => true

/-- `needs_more_frame_q_lookahead`, `internal.rs:423-428`. -/
def needsMoreFrameQ (c : Cfg) (s : St F O M) (i : Nat) : Bool :=
  let e := s.frameQ.lastKey.getD 0
  decide (e < i + c.keyDist + 1) && needsMoreFrames s e

/-- `get_rdo_lookahead_frames`, `internal.rs:442-454`. -/
def rdoLookahead (c : Cfg) (s : St F O M) : List (Nat × FD F M) :=
  (((s.frameData.dropWhile (fun p => decide (p.1 < s.outputFrameno))).filterMap
      (fun p => p.2.map fun d => (p.1, d))).filter
      (fun p => !p.2.fi.sef)).take (c.rdoLookahead + 1)

/-- `needs_more_fi_lookahead`, `internal.rs:432-436`. -/
def needsMoreFi (c : Cfg) (s : St F O M) : Bool :=
  decide ((rdoLookahead c s).length < c.rdoLookahead + 1)
    && needsMoreFrames s s.nextLookahead

/-- `next_keyframe_input_frameno(_, false)`, `internal.rs:456-473`. -/
def nextKeyframe (c : Cfg) (s : St F O M) (gopStart : Nat) : Nat :=
  let nextLimit :=
    match s.limit with
    | some l => min (gopStart + c.maxKey) l
    | none => gopStart + c.maxKey
  match s.keyframes.find? (fun k => decide (gopStart < k)) with
  | none => nextLimit
  | some k => min k nextLimit

/-- `FrameInvariants::new_key_frame` (`encoder.rs:949-960`) on top of
`FrameInvariants::new` (`encoder.rs:833-947`). -/
def newKeyFrame (gopStart : Nat) (t35 : List M) : FI M where
  input := gopStart
  orderHint := 0
  ftype := .key
  shown := true
  sef := false
  idx := 0
  level := 0
  slot := 0
  refresh := 255
  refs := List.replicate 7 0
  signBias := List.replicate 7 false
  primary := 7
  errorRes := false
  refSelect := false
  t35 := t35
  recBuf := RefSet.empty
  look := RefSet.empty

/-- The slot expression repeated in `new_inter_frame` (`encoder.rs:1068-1077`,
`1079-1088`): where the frame with order hint `oh` was stored. -/
def refSlot (c : Cfg) (oh : Nat) : Nat :=
  let lvl := posToLvl oh c.pd
  if lvl = 0 then (oh >>> c.pd) % 4 else 3 + lvl

/-- The reference list of `new_inter_frame`, `encoder.rs:1036-1092`.
`LAST2`, `LAST3`, `ALTREF` have indices 1, 2 and 6. -/
def refFrames (c : Cfg) (idx level slot hint : Nat) : List Nat :=
  let second := if idx = 0 then 1 else 6
  if level = 0 then
    let base := List.replicate 7 ((slot + 4 - 1) % 4)
    if c.multiref then base.set second ((slot + 4 - 2) % 4) else base
  else
    let base := List.replicate 7 (refSlot c (hint - c.gil >>> level))
    (base.set second (refSlot c (hint + c.gil >>> level))).set 2 slot

/-- `FrameInvariants::new_inter_frame`, `encoder.rs:964-1118`.  `showable_frame`
and the film-grain seed are left out. -/
def newInterFrame (c : Cfg) (prev : FI M) (gopStart o nextKey : Nat)
    (t35 : List M) : Option (FI M) :=
  let input := c.inputFrameno o gopStart
  if nextKey ≤ input then none
  else
    let idx := c.idxInGroup o
    let sef := c.showExisting idx
    let hint := c.orderHint o idx
    let level := c.level idx
    let ftype :=
      if 0 < c.switchInterval ∧ o % c.switchInterval = 0 ∧ level = 0 then
        FrameType.switch
      else .inter
    let errorRes := if ftype = .switch then true else c.errorResilient
    let slot := c.slotIdx level hint
    let shown := c.showFrame idx
    let refresh :=
      if ftype = .switch then 255 else if sef then 0 else 1 <<< slot
    let refs := refFrames c idx level slot hint
    some {
      input := input
      orderHint := hint
      ftype := ftype
      shown := shown
      sef := sef
      idx := idx
      level := level
      slot := slot
      refresh := refresh
      refs := refs
      signBias := signBias c.stillPicture prev.recBuf refs hint
      primary := if errorRes ∨ 2 < level then 7 else 2
      errorRes := errorRes
      refSelect := c.multiref && idx != 0
      t35 := if shown then t35 else []
      recBuf := prev.recBuf
      look := prev.look }

/-- `get_previous_fi`, `internal.rs:639-647` (`unwrap` is the caller's). -/
def previousFi (s : St F O M) (o : Nat) : Option (FI M) :=
  ((s.frameData.filter (fun p => decide (p.1 < o))).reverse.find?
    (fun p => p.2.isSome)).bind fun p => p.2.map (·.fi)

/-- `get_previous_coded_fi`, `internal.rs:649-659`. -/
def previousCodedFi (s : St F O M) (o : Nat) : Option (FI M) :=
  ((s.frameData.filter (fun p => decide (p.1 < o))).reverse.find?
    (fun p => match p.2 with | some d => !d.fi.sef | none => false)).bind
      fun p => p.2.map (·.fi)

/-- `.unwrap()` / `map[&k]`. -/
def orPanic {α : Type} : Option α → Except Crash α
  | some a => .ok a
  | none => .error .panic

/-- Whether `frame_q.get(&i)` is `Some(Some(_))`. -/
def hasFrame (s : St F O M) (i : Nat) : Bool :=
  match s.frameQ.get i with
  | some (some _) => true
  | _ => false

/-- The last part of `build_frame_properties`, `internal.rs:590-636`: the
frame exists, decide its type and create it.  `none` is `NeedMoreData`. -/
def buildTail (c : Cfg) (s : St F O M) (o input : Nat) (t35 : List M) :
    Except Crash (St F O M × Option (Option (FI M))) :=
  if !hasFrame s input then .ok (s, none)
  else do
    let s :=
      if s.keyframes.contains input then
        { s with gopOut := s.gopOut.insert o o, gopIn := s.gopIn.insert o input }
      else s
    let go ← orPanic (s.gopOut.get o)
    let gi ← orPanic (s.gopIn.get o)
    if o - go = 0 then
      .ok (s, some (some (newKeyFrame gi t35)))
    else do
      let prev ← orPanic (previousCodedFi s o)
      match newInterFrame c prev gi (o - go) (nextKeyframe c s gi) t35 with
      | none => .error .panic
      | some fi => .ok (s, some (some fi))

/-- `build_frame_properties`, `internal.rs:510-637`. -/
def buildFrame (c : Cfg) (s : St F O M) (o : Nat) :
    Except Crash (St F O M × Option (Option (FI M))) := do
  let (go, gi) ←
    if o = 0 then pure (0, 0)
    else do
      let go ← orPanic (s.gopOut.get (o - 1))
      let gi ← orPanic (s.gopIn.get (o - 1))
      pure (go, gi)
  let s := { s with gopOut := s.gopOut.insert o go, gopIn := s.gopIn.insert o gi }
  let inGop := o - go
  let input := c.inputFrameno inGop gi
  if needsMoreFrameQ c s input then .ok (s, none)
  else do
    let t35 := (s.t35Q.get input).getD []
    let s := { s with t35Q := s.t35Q.remove input }
    if 0 < inGop then do
      let nk := nextKeyframe c s gi
      let prev ← orPanic (previousFi s o)
      if nk ≤ input then
        if !c.reorder || ((inGop - 1) % c.gol == 0 && prev.input == nk - 1) then
          if !hasFrame s nk then .ok (s, none)
          else
            buildTail c
              { s with gopOut := s.gopOut.insert o o, gopIn := s.gopIn.insert o nk }
              o nk t35
        else do
          let pc ← orPanic (previousCodedFi s o)
          match newInterFrame c pc gi inGop nk t35 with
          | some _ => .error .panic
          | none => .ok (s, some none)
      else buildTail c s o input t35
    else buildTail c s o input t35

/-- `set_frame_properties`, `internal.rs:475-495`. -/
def setFrame (c : Cfg) (s : St F O M) (o : Nat) :
    Except Crash (St F O M × Bool) := do
  let (s, r) ← buildFrame c s o
  match r with
  | none => .ok (s, false)
  | some none => .ok ({ s with frameData := s.frameData.insert o none }, true)
  | some (some fi) =>
    match s.frameQ.get fi.input with
    | some (some f) =>
      .ok ({ s with frameData := s.frameData.insert o (some ⟨fi, f⟩) }, true)
    | _ => .error .panic

/-- The reference a frame leaves behind. -/
def FI.asRef (fi : FI M) (o : Nat) (p : Pic) : Ref := ⟨fi.orderHint, o, p⟩

/-- `compute_lookahead_motion_vectors`, `internal.rs:670-834`: its effect on
`rec_buffer` and `lookahead_rec_buffer`.  The motion search and the dry run of
the rate controller are left out. -/
def lookaheadMvs (s : St F O M) (o : Nat) : Except Crash (St F O M) := do
  match ← orPanic (s.frameData.get o) with
  | none => .ok s
  | some d =>
    if d.fi.sef then .ok s
    else
      let rec' := if s.outputFrameno = o then d.fi.recBuf else d.fi.look
      let look' :=
        d.fi.look.refresh d.fi.refresh (d.fi.asRef o (.orig d.fi.input))
      .ok { s with
        frameData := s.frameData.insert o
          (some { d with fi := { d.fi with recBuf := rec', look := look' } }) }

/-- `compute_frame_invariants`, `internal.rs:899-909`, as a loop with fuel. -/
def frameInvariants (c : Cfg) : Nat → St F O M → Except Crash (St F O M)
  | 0, _ => .error .hang
  | n + 1, s => do
    let (s, again) ← setFrame c s s.nextOutput
    if again then do
      let s ← lookaheadMvs s s.nextOutput
      frameInvariants c n { s with nextOutput := s.nextOutput + 1 }
    else .ok s

/-- `compute_keyframe_placement`, `internal.rs:880-896`. -/
def keyframePlacement (cut : Nat → Bool) (s : St F O M) : St F O M :=
  let n := s.nextLookahead
  { s with
    keyframes :=
      if s.keyframesForced.contains n || cut n then s.keyframes ++ [n]
      else s.keyframes
    nextLookahead := n + 1 }

/-- The `for … in std::iter::successors(…)` loop of `send_frame`,
`internal.rs:386-404`: one step per remaining frame while two or more are left. -/
def placementLoop (cut : Nat → Bool) : Nat → St F O M → St F O M
  | n + 2, s => placementLoop cut (n + 1) (keyframePlacement cut s)
  | _, s => s

/-- A fuel that always suffices for one call of `compute_frame_invariants`
(proved: `run_no_crash`). -/
def loopFuel (s : St F O M) : Nat := 8 * (s.frameCount + 2)

/-- `ContextInner::send_frame`, `internal.rs:338-419`.  Padding is left out.
`keyframes ++ [n]` in `keyframePlacement` is `BTreeSet::insert` because `n` is
larger than every element (`Base.keys`). -/
def sendInner (c : Cfg) (cut : Nat → Bool) (s : St F O M) (frame : Option F)
    (params : Option (Params O M)) : Except Crash (St F O M) :=
  let i := s.frameCount
  let s := { s with
    frameCount := if frame.isSome then i + 1 else i
    frameQ := s.frameQ.insert i frame }
  let s :=
    match params with
    | none => s
    | some p => { s with
        keyframesForced := if p.forceKey then i :: s.keyframesForced
          else s.keyframesForced
        opaqueQ := match p.user with
          | some op => s.opaqueQ.insert i op
          | none => s.opaqueQ
        t35Q := s.t35Q.insert i p.t35 }
  let s :=
    if !needsMoreFrameQ c s s.nextLookahead then
      let frames := (s.frameQ.dropWhile
        (fun p => decide (p.1 < s.nextLookahead - 1))).filterMap (·.2)
      if frame.isNone then placementLoop cut frames.length s
      else keyframePlacement cut s
    else s
  frameInvariants c (loopFuel s) s

/-- Outcome of one API call. -/
inductive Res (F O M : Type)
  /-- `Ok(())` from `send_frame` / `flush` -/
  | accepted
  | packet (p : Packet F O M)
  | enoughData | needMoreData | limitReached | encoded | notReady
  | crash (e : Crash)
deriving Repr, DecidableEq

/-- `Context::send_frame`, `context.rs:108-137`. -/
def send (c : Cfg) (cut : Nat → Bool) (s : St F O M) (frame : Option F)
    (params : Option (Params O M)) : St F O M × Res F O M :=
  let go (s' : St F O M) : St F O M × Res F O M :=
    match sendInner c cut s' frame params with
    | .ok s'' => (s'', .accepted)
    | .error e => (s', .crash e)
  match frame with
  | none =>
    if s.isFlushing then (s, .accepted)
    else go { s with limit := some s.frameCount, isFlushing := true }
  | some _ =>
    if s.isFlushing || (c.stillPicture && decide (0 < s.frameCount)) then
      (s, .enoughData)
    else if s.frameCount = c.maxFrames - 1 then
      go { s with limit := some s.frameCount, isFlushing := true }
    else go s

/-! ## Packets -/

/-- The assertions of `compute_block_importances`, `internal.rs:1075-1259`
(`ArrayVec::<_, 3>::push` panics on a fourth element).  The importances
themselves are left out, so this is the whole effect on the scheduler. -/
def importancesOk (c : Cfg) (s : St F O M) : Bool :=
  match s.frameData.get s.outputFrameno with
  | some (some d) =>
    if d.fi.sef then true
    else
      let fs := rdoLookahead c s
      (match fs with | (o, _) :: _ => o == s.outputFrameno | [] => false)
      && fs.tail.all fun (o, d) =>
        d.fi.ftype == .key ||
          (hasFrame s d.fi.input
            && decide (d.fi.refs.eraseDups.length ≤ 3)
            && d.fi.refs.all fun r =>
              match d.fi.recBuf.at r with
              | none => false
              | some x => x.outputFrameno != o &&
                match s.frameData.get x.outputFrameno with
                | none => true
                | some none => false
                | some (some d') => !d'.fi.sef)
  | _ => false

/-- `garbage_collect`, `internal.rs:1564-1582`. -/
def garbageCollect (s : St F O M) (input : Nat) : St F O M :=
  if input = 0 then s
  else
    let q0 := s.frameQ.firstKey.getD 0
    let s := { s with
      frameQ := (List.range' q0 (input - q0)).foldl BMap.remove s.frameQ }
    if s.outputFrameno < 2 then s
    else
      let d0 := s.frameData.firstKey.getD 0
      let ks := List.range' d0 (s.outputFrameno - 1 - d0)
      { s with
        frameData := ks.foldl BMap.remove s.frameData
        gopOut := ks.foldl BMap.remove s.gopOut
        gopIn := ks.foldl BMap.remove s.gopIn }

/-- `finalize_packet`, `internal.rs:1539-1561`, followed by the `if let Ok`
branch of `receive_packet`, `internal.rs:1531-1534`. -/
def finalize (s : St F O M) (recPic : Option Pic) (src : F) (input : Nat)
    (ftype : FrameType) : St F O M × Res F O M :=
  let data := s.packetData
  let s := { s with packetData := [.td], framesProcessed := s.framesProcessed + 1 }
  let s := garbageCollect s input
  let op := s.opaqueQ.get input
  ({ s with opaqueQ := s.opaqueQ.remove input },
    .packet ⟨data, recPic, some src, input, ftype, op⟩)

/-- The OBUs of `encode_show_existing_frame`, `encoder.rs:3693-3747`. -/
def sefObus (fi : FI M) : List (Obu M) :=
  (if fi.ftype = .key then [.seqHdr] else []) ++ fi.t35.map .t35
    ++ [.showExisting fi.slot]

/-- The OBUs of `encode_frame`, `encoder.rs:3768-3820`.  `write_key_frame_obus`
is reduced to the sequence header (it may also write HDR metadata). -/
def frameObus (fi : FI M) : List (Obu M) :=
  (if fi.ftype = .key then [.seqHdr] else []) ++ fi.t35.map .t35
    ++ [.frame fi.ftype fi.shown (fi.orderHint % 64) fi.refresh fi.refs fi.primary
          fi.input
          (if fi.ftype = .key then ⟨[], []⟩
           else ⟨fi.refs.map fi.recBuf.at, fi.signBias⟩)]

/-- The loop over subsequent frames in `encode_normal_packet`,
`internal.rs:1450-1471`: copy the reference buffers to every following frame up
to and including the next one that is neither a placeholder nor a
show-existing-frame, stopping before a key frame. -/
def propagate (c : Cfg) (rb : RefSet) :
    BMap (Option (FD F M)) → BMap (Option (FD F M))
  | [] => []
  | (k, none) :: m => (k, none) :: propagate c rb m
  | (k, some d) :: m =>
    if d.fi.ftype = .key then (k, some d) :: m
    else
      let d' := { d with fi := { d.fi with
        recBuf := rb
        signBias := signBias c.stillPicture rb d.fi.refs d.fi.orderHint } }
      if d.fi.sef then (k, some d') :: propagate c rb m
      else (k, some d') :: m

/-- `encode_show_existing_packet`, `internal.rs:1299-1332`.  The reconstruction
handed to the user is `rec_buffer.frames[frame_to_show_map_idx]`. -/
def encodeSef (s : St F O M) (d : FD F M) : St F O M × Res F O M :=
  let s := { s with
    packetData := s.packetData ++ sefObus d.fi
    outputFrameno := s.outputFrameno + 1 }
  finalize s ((d.fi.recBuf.at d.fi.slot).map (·.pic)) d.src d.fi.input d.fi.ftype

/-- `encode_normal_packet`, `internal.rs:1335-1495`. -/
def encodeNormal (c : Cfg) (s : St F O M) (cur : Nat) (d : FD F M) :
    St F O M × Res F O M :=
  let fi := { d.fi with
    recBuf := d.fi.recBuf.refresh d.fi.refresh
      (d.fi.asRef cur (.recon d.fi.input)) }
  let rest := s.frameData.remove cur
  let before := rest.takeWhile (fun p => decide (p.1 ≤ cur))
  let after := rest.dropWhile (fun p => decide (p.1 ≤ cur))
  let s := { s with
    packetData := s.packetData ++ frameObus d.fi
    frameData := BMap.insert (before ++ propagate c fi.recBuf after) cur
      (some ⟨fi, d.src⟩)
    outputFrameno := s.outputFrameno + 1 }
  if d.fi.shown then finalize s (some (.recon d.fi.input)) d.src d.fi.input d.fi.ftype
  else (s, .encoded)

/-- `encode_packet`, `internal.rs:1261-1296`. -/
def encodePacket (c : Cfg) (ready : Bool) (s : St F O M) (cur : Nat) :
    St F O M × Res F O M :=
  match s.frameData.get cur with
  | some (some d) =>
    if d.fi.sef then
      if !ready then (s, .notReady) else encodeSef s d
    else if hasFrame s d.fi.input then
      if !ready then (s, .notReady) else encodeNormal c s cur d
    else (s, .needMoreData)
  | _ => (s, .crash .panic)

/-- `done_processing`, `internal.rs:661-663`. -/
def doneProcessing (s : St F O M) : Bool :=
  match s.limit with
  | some l => s.framesProcessed == l
  | none => false

/-- `receive_packet`, `internal.rs:1498-1537`. -/
def receive (c : Cfg) (ready : Bool) (s : St F O M) : St F O M × Res F O M :=
  if doneProcessing s then (s, .limitReached)
  else if needsMoreFi c s then (s, .needMoreData)
  else
    match (s.frameData.dropWhile (fun p => decide (p.1 < s.outputFrameno))).find?
        (fun p => p.2.isSome) with
    | none => (s, .needMoreData)
    | some (o, d) =>
      let s := { s with outputFrameno := o }
      match d with
      | none => (s, .crash .panic)
      | some d =>
        if !needsMoreFrames s d.fi.input then (s, .limitReached)
        else if c.temporalRdo && !importancesOk c s then (s, .crash .panic)
        else encodePacket c ready s o

/-! ## Histories of API calls -/

/-- One call made by the application. -/
inductive Op (F O M : Type)
  | send (f : F) (params : Option (Params O M))
  | flush
  | receive (ready : Bool)
deriving Repr, DecidableEq

/-- Perform one call. -/
def step (c : Cfg) (cut : Nat → Bool) (s : St F O M) :
    Op F O M → St F O M × Res F O M
  | .send f p => send c cut s (some f) p
  | .flush => send c cut s none none
  | .receive r => receive c r s

/-- Perform a sequence of calls and collect the outcomes. -/
def run (c : Cfg) (cut : Nat → Bool) : St F O M → List (Op F O M) →
    St F O M × List (Res F O M)
  | s, [] => (s, [])
  | s, op :: ops =>
    let (s', r) := step c cut s op
    let (s'', rs) := run c cut s' ops
    (s'', r :: rs)

end Rav1e.Sched

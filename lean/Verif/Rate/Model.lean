import Verif.Misc.Ivf
/-
C29, C30, C31: the two-pass data and the bit reservoir of `rate.rs`.

Modelled: the deserialiser, the emission of first-pass data, the sliding window of the second pass, the
bookkeeping of `update_state` and the reservoir. Not modelled here: the choice of quantizers (`select_qi`), the
scale filters, the rate bias, and the logarithmic arithmetic; the log scale of a frame is an argument of
`update`, and `bx` stands for `bexp_q24`.

Arrays are lists of their length. `none` is a panic: an index out of bounds, a subtraction of an unsigned value
below zero, `clamp` with its bounds exchanged, or an overflow of an `i32` counter (of a sum of counters, only the
result is checked). The sums of scales are unbounded
integers here and `i64` in the code; see `Findings.lean`.
-/
namespace Rav1e.Rate
open Rav1e.Ivf (le unle)

/-- An operation on `i32`. -/
def chk32 (n : Int) : Option Int := if -2 ^ 31 ≤ n ∧ n < 2 ^ 31 then some n else none

/-- A cast to a signed integer of `w` bits. -/
def wrapI (w : Nat) (n : Int) : Int := (n + 2 ^ (w - 1)) % 2 ^ w - 2 ^ (w - 1)

/-- `TWOPASS_HEADER_SZ`, `rate.rs:44`: 16 + 4 * 13. -/
def headerSz : Nat := 68
/-- `TWOPASS_PACKET_SZ`, `rate.rs:46`. -/
def packetSz : Nat := 8
/-- `TWOPASS_MAGIC`, `rate.rs:39`. -/
def magic : Nat := 0x50324156
/-- `TWOPASS_VERSION`, `rate.rs:41`. -/
def version : Nat := 1

/-- `RCFrameMetrics`, `rate.rs:211-221`. -/
structure Metrics where
  logScale : Int
  fti : Nat
  shown : Bool
  deriving DecidableEq, Repr

/-- `RCFrameMetrics::new`, `rate.rs:224-226`. -/
def Metrics.new : Metrics := { logScale := 0, fti := 0, shown := false }

/-- `RCSummary`, `rate.rs:234-240`: five frame counts (the last is that of Show Existing Frames), four exponents
and four scale sums. -/
structure Summary where
  ntus : Int
  nframes : List Int
  exp : List Int
  scaleSum : List Int
  total : Int
  deriving DecidableEq, Repr

/-- `RCDeserialize`, `rate.rs:246-254`. -/
structure Des where
  pos : Nat
  fill : Nat
  buf : List Nat
  deriving DecidableEq, Repr

/-- `RCDeserialize::default`, `rate.rs:257-263`. -/
def Des.new : Des := { pos := 0, fill := 0, buf := List.replicate headerSz 0 }

/-- `buffer_fill`, `rate.rs:271-281`, on the bytes that are not yet consumed; gives those left over. -/
def bufferFill (goal : Nat) : List Nat → Des → Option (Des × List Nat)
  | [], d => some (d, [])
  | b :: bs, d =>
    if d.fill < goal then
      if d.fill < d.buf.length then bufferFill goal bs { d with buf := d.buf.set d.fill b, fill := d.fill + 1 }
      else none
    else some (d, b :: bs)

/-- `unbuffer_val`, `rate.rs:285-296`: little endian, as `i64`. -/
def unbufferVal (n : Nat) (d : Des) : Option (Int × Des) :=
  if d.pos + n ≤ d.buf.length then
    some (wrapI 64 (unle ((d.buf.drop d.pos).take n)), { d with pos := d.pos + n })
  else none

/-- Several values of the same size. -/
def unbufferVals (n : Nat) : Nat → Des → Option (List Int × Des)
  | 0, d => some ([], d)
  | k + 1, d => do
    let (v, d) ← unbufferVal n d
    let (vs, d) ← unbufferVals n k d
    some (v :: vs, d)

/-- `parse_metrics`, `rate.rs:299-310`; the inner `none` is `Err`. -/
def parseMetrics (d : Des) : Option (Option Metrics × Des) := do
  let (ft, d) ← unbufferVal 4 d
  let shown : Bool := decide (ft / 2 ^ 31 ≠ 0)
  let fti := (ft % 2 ^ 31).toNat
  if 4 < fti then some (none, d)
  else
    let (ls, d) ← unbufferVal 4 d
    some (some { logScale := wrapI 32 ls, fti, shown }, d)

/-- The checks of `parse_summary`, `rate.rs:315-320`, `327-346` and `356-358`. All counts are non-negative when
their sum is taken, so the sum overflows on the way if and only if the total does. -/
def badSummary (mg ver ntus : Int) (nframes ss : List Int) : Bool :=
  mg ≠ magic || ver ≠ version || ntus < 1 || nframes.any (· < 0) || 2 ^ 31 ≤ nframes.sum || nframes.sum < ntus ||
    ss.any (· < 0)

/-- `parse_summary`, `rate.rs:313-361`. Here all values are read before they are checked; in the code an error
ends the reads, which only leaves another read position behind (it is reset before the next parse). -/
def parseSummary (d : Des) : Option (Option Summary × Des) := do
  let (mg, d) ← unbufferVal 4 d
  let (ver, d) ← unbufferVal 4 d
  let (nt, d) ← unbufferVal 4 d
  let (nf, d) ← unbufferVals 4 5 d
  let (ex, d) ← unbufferVals 1 4 d
  let (ss, d) ← unbufferVals 8 4 d
  let ntus := wrapI 32 nt
  let nframes := nf.map (wrapI 32)
  if badSummary mg ver ntus nframes ss then some (none, d)
  else
    some (some { ntus, nframes, exp := ex, scaleSum := ss, total := nframes.sum }, d)

/-- `RateControlSummary::from_slice`, `api/config/rate.rs:36-41`. -/
def summaryFromSlice (bytes : List Nat) : Option (Option Summary) := do
  let (d, _) ← bufferFill headerSz bytes Des.new
  let (s, _) ← parseSummary d
  some s

/-- The fields of `RCState`, `rate.rs:364-484`, that the two-pass data and the reservoir depend on. `pass` is
`twopass_state`: 0 single, 1 first, 2 second, 3 second and first. -/
structure Rc where
  active : Bool
  delay : Int
  delaySet : Bool
  pass : Nat
  bitsPerTu : Int
  fullness : Int
  target : Int
  cap : Int
  exp : List Int
  nframes : List Int
  nencoded : Int
  nsef : Int
  pass1Retrieved : Bool
  pass1SummaryRetrieved : Bool
  ready2 : Bool
  prev : Metrics
  cur : Metrics
  ring : List Metrics
  nring : Nat
  head : Nat
  des : Des
  ntus : Int
  ntusTotal : Int
  ntusLeft : Int
  nframesTotal : List Int
  totalTotal : Int
  nframesLeft : List Int
  scaleSum : List Int
  winNtus : Int
  winNframes : List Int
  winSum : List Int
  deriving DecidableEq, Repr

/-- The parameters of `RCState::new` that are used here; see `Rc.new`. -/
structure Cfg where
  bitrate : Int
  rateNum : Int
  rateDen : Int
  maxKeyInterval : Int
  delay : Option Int
  exp : List Int
  deriving DecidableEq, Repr

/-- `RCState::new`, `rate.rs:583-702`. The exponents are chosen from the size and the rate; here they are four
given values. -/
def Rc.new (c : Cfg) : Rc :=
  let delay := max (match c.delay with | some d => d | none => min (c.maxKeyInterval * 3 / 2) 240) 12
  let bitsPerTu := max 40 (min (Int.tdiv (c.bitrate * c.rateDen) c.rateNum) 0x400000000000) - 16
  let mx := bitsPerTu * delay
  let target := (mx + 1) / 2
  { active := decide (0 < c.bitrate), delay, delaySet := c.delay.isSome, pass := 0, bitsPerTu,
    fullness := target, target, cap := mx, exp := c.exp, nframes := List.replicate 5 0, nencoded := 0, nsef := 0,
    pass1Retrieved := true, pass1SummaryRetrieved := false, ready2 := false, prev := Metrics.new,
    cur := Metrics.new, ring := [], nring := 0, head := 0, des := Des.new, ntus := 0, ntusTotal := 0,
    ntusLeft := 0, nframesTotal := List.replicate 5 0, totalTotal := 0, nframesLeft := List.replicate 5 0,
    scaleSum := List.replicate 4 0, winNtus := 0, winNframes := List.replicate 5 0,
    winSum := List.replicate 4 0 }

/-- `ready`, `rate.rs:1238-1245`. -/
def Rc.ready (r : Rc) : Bool :=
  if r.pass = 0 then true
  else if r.pass = 1 then r.pass1Retrieved
  else if r.pass = 2 then r.ready2
  else r.pass1Retrieved && r.ready2

/-- `init_first_pass`, `rate.rs:1268-1279`, without the quantizer. -/
def Rc.initFirst (r : Rc) : Rc := { r with pass := r.pass + 1 }

/-- `init_second_pass`, `rate.rs:1360-1383`. -/
def Rc.initSecond (r : Rc) : Rc :=
  if r.pass = 0 ∨ r.pass = 1 then
    { r with
      pass := r.pass + 2
      ring := if r.delaySet then r.ring ++ List.replicate (r.delay.toNat * 2 + 8 - r.ring.length) Metrics.new
              else r.ring }
  else r

/-- `setup_second_pass`, `rate.rs:1385-1403`. -/
def Rc.setupSecond (r : Rc) (s : Summary) : Rc :=
  let r := { r with ntusTotal := s.ntus, ntusLeft := s.ntus, nframesTotal := s.nframes, nframesLeft := s.nframes,
                    totalTotal := s.nframes.sum, exp := s.exp }
  if r.ring = [] then
    let mx := r.bitsPerTu * s.ntus
    { r with delay := s.ntus, winNframes := s.nframes, winSum := s.scaleSum, cap := mx, target := (mx + 1) / 2,
             fullness := (mx + 1) / 2 }
  else { r with delay := min r.delay s.ntus }

/-- The rate control part of `Config::new_inner`, `api/config/mod.rs:243-254`: a summary starts the second pass,
`emit` the first. -/
def Rc.start (c : Cfg) (summary : Option Summary) (emit : Bool) : Rc :=
  let r := Rc.new c
  let r := match summary with
    | some s => r.initSecond.setupSecond s
    | none => r
  if emit then r.initFirst else r

/-- `twopass_first_packet_size`, `rate.rs:1432-1443`. -/
def Rc.firstPacketSize (r : Rc) : Nat :=
  headerSz + (if r.ring = [] then 1 else r.delay.toNat) * packetSz

/-- `i32::clamp(0, hi)`. -/
def clamp0 (v hi : Int) : Option Int := if hi < 0 then none else some (max 0 (min v hi))

/-- `twopass_in_frames_needed`, `rate.rs:1447-1463`. -/
def Rc.framesNeeded (r : Rc) : Option Int :=
  if !r.active then some 0
  else if r.ring = [] then some (if r.ready2 then 0 else 1)
  else do
    let w ← chk32 r.winNframes.sum
    let l ← chk32 r.nframesLeft.sum
    let d ← chk32 (l - w)
    let v ← chk32 (r.delay - r.winNtus)
    clamp0 v d

/-- Add to an entry of a table of counts; a panic if there is no such entry. -/
def bump (l : List Int) (i : Nat) (d : Int) : Option (List Int) :=
  (l[i]?).bind fun v => (chk32 (v + d)).map fun v => l.set i v

/-- Add to an entry of a table of sums, for the four frame types that have one. -/
def bumpSum (l : List Int) (i : Nat) (d : Int) : List Int := if i < 4 then l.modify i (· + d) else l

/-- A metric enters the window: `rate.rs:1486-1505` and `1563-1583`. The inner `none` is the error for a full
buffer. -/
def Rc.push (bx : Int → Int) (r : Rc) (m : Metrics) : Option (Option Rc) :=
  if r.ring.length ≤ r.nring then some none
  else do
    let i := r.head + r.nring
    let i := if r.ring.length ≤ i then i - r.ring.length else i
    if i < r.ring.length then
      let wf ← bump r.winNframes m.fti 1
      let wt ← if m.shown then chk32 (r.winNtus + 1) else some r.winNtus
      some (some { r with
        nring := r.nring + 1, ring := r.ring.set i m, winNframes := wf
        winSum := bumpSum r.winSum m.fti (bx m.logScale), winNtus := wt })
    else none

/-- A parsed record is taken: `rate.rs:1477-1513`. -/
def Rc.accept (bx : Int → Int) (r : Rc) (m : Metrics) : Option (Rc × Bool) :=
  if r.ring = [] then some ({ r with cur := m, ready2 := true }, true)
  else do
    let k ← r.framesNeeded
    if 0 < k then
      match ← r.push bx m with
      | none => some (r, false)
      | some r =>
        if k = 1 then
          (r.ring[r.head]?).bind fun c => some ({ r with ready2 := true, cur := c }, true)
        else some (r, true)
    else some (r, false)

/-- `parse_frame_data_packet`, `rate.rs:1465-1516`; `true` is `Ok`. -/
def Rc.sendPacket (bx : Int → Int) (r : Rc) (buf : List Nat) : Option (Rc × Bool) := do
  if buf.length ≠ packetSz then some (r, false)
  else
    let (d, _) ← bufferFill packetSz buf r.des
    let (m, d) ← parseMetrics { d with pos := 0 }
    match m with
    | none => some ({ r with des := d }, false)
    | some m => Rc.accept bx { r with des := { d with fill := 0 } } m

/-- The loop of `twopass_parse_frame_data` with data, `rate.rs:1555-1599`: the number of frames needed at the end,
the bytes left over, and whether there was no error. The first argument bounds the number of rounds; `l` is
`cur_nframes_left`. -/
def Rc.feedLoop (bx : Int → Int) (l : Int) : Nat → Int → List Nat → Rc → Option (Rc × Int × List Nat × Bool)
  | n, k, buf, r =>
    if k ≤ 0 then some (r, k, buf, true)
    else match n with
    | 0 => none
    | n + 1 => do
      let (d, buf) ← bufferFill packetSz buf r.des
      let r := { r with des := d }
      if d.fill < packetSz then some (r, k, buf, true)
      else
        let (m, d) ← parseMetrics { d with pos := 0 }
        let r := { r with des := d }
        match m with
        | none => some (r, k, buf, false)
        | some m =>
          match ← r.push bx m with
          | none => some (r, k, buf, false)
          | some r =>
            let w ← chk32 r.winNframes.sum
            let dl ← chk32 (l - w)
            let v ← chk32 (r.delay - r.winNtus)
            let k ← clamp0 v dl
            feedLoop bx l n k buf { r with des := { r.des with fill := 0 } }

/-- `twopass_parse_frame_data`, `rate.rs:1525-1611`. `total` is the length of the buffer that was passed, `buf`
what is left of it. The result is the number of bytes consumed (or needed, without a buffer); the inner `none` is
`Err`. -/
def Rc.parseFrameData (bx : Int → Int) (r : Rc) (total : Nat) (buf : Option (List Nat)) :
    Option (Rc × Option Nat) :=
  if r.ring = [] then
    match buf with
    | some b => do
      let (d, b) ← bufferFill packetSz b r.des
      let r := { r with des := d }
      if packetSz ≤ d.fill then
        let (m, d) ← parseMetrics { d with pos := 0 }
        match m with
        | none => some ({ r with des := d }, none)
        | some m => some ({ r with cur := m, des := { d with fill := 0 }, ready2 := true }, some (total - b.length))
      else some (r, some (total - b.length))
    | none => if r.des.fill ≤ packetSz then some (r, some (packetSz - r.des.fill)) else none
  else do
    let w ← chk32 r.winNframes.sum
    let l ← chk32 r.nframesLeft.sum
    let k ← r.framesNeeded
    match buf with
    | some b =>
      let (r, k, b, ok) ← r.feedLoop bx l ((l - w).toNat + 1) k b
      if ok then
        if k ≤ 0 then (r.ring[r.head]?).bind fun c => some ({ r with cur := c, ready2 := true }, some (total - b.length))
        else some (r, some (total - b.length))
      else some (r, none)
    | none =>
      if k ≤ 0 then (r.ring[r.head]?).bind fun c => some ({ r with cur := c, ready2 := true }, some 0)
      else if r.des.fill ≤ packetSz * k.toNat then some (r, some (packetSz * k.toNat - r.des.fill))
      else none

/-- `twopass_parse_summary`, `rate.rs:1409-1426`: the bytes left over; the inner `none` is `Err`. -/
def Rc.parseSummaryIn (r : Rc) (buf : List Nat) : Option (Rc × Option (List Nat)) := do
  let (d, b) ← bufferFill headerSz buf r.des
  if headerSz ≤ d.fill then
    let (s, d) ← parseSummary { d with pos := 0 }
    match s with
    | none => some ({ r with des := d }, none)
    | some s =>
      let r := ({ r with des := d }).setupSecond s
      some ({ r with des := { r.des with fill := 0 } }, some b)
  else some ({ r with des := d }, some b)

/-- The second half of `twopass_in`, `rate.rs:1633-1644`. -/
def Rc.twopassTail (bx : Int → Int) (r : Rc) (total : Nat) (buf : Option (List Nat)) (consumed : Nat) :
    Option (Rc × Option Nat) :=
  if 0 < r.nframesTotal.headD 0 then
    if r.totalTotal ≤ r.nencoded + r.nsef then some ({ r with ready2 := false }, some consumed)
    else if !r.ready2 then r.parseFrameData bx total buf
    else some (r, some consumed)
  else some (r, some consumed)

/-- `twopass_in`, `rate.rs:1619-1645`. -/
def Rc.twopassIn (bx : Int → Int) (r : Rc) (buf : Option (List Nat)) : Option (Rc × Option Nat) :=
  let r := r.initSecond
  if r.nframesTotal.headD 0 = 0 then
    let r := { r with ready2 := false }
    match buf with
    | some b => do
      let (r, o) ← r.parseSummaryIn b
      match o with
      | none => some (r, none)
      | some rest => r.twopassTail bx b.length (some rest) (b.length - rest.length)
    | none => some (r, some r.firstPacketSize)
  else r.twopassTail bx (buf.getD []).length buf 0

/-- One less, if the frame is shown: `rate.rs:1138-1141`. -/
def dec (shown : Bool) (v : Int) : Option Int := if shown then chk32 (v - 1) else some v

/-- The oldest metric leaves the buffer: `rate.rs:1142-1151`. -/
def Rc.pop (r : Rc) : Option Rc :=
  if r.ring = [] then some r
  else if r.nring = 0 then none
  else some { r with nring := r.nring - 1, head := if r.ring.length ≤ r.head + 1 then 0 else r.head + 1 }

/-- The second-pass part of `update_state`, `rate.rs:1125-1157`. -/
def Rc.advance (bx : Int → Int) (r : Rc) : Option Rc := do
  let m := r.cur
  let left ← bump r.nframesLeft m.fti (-1)
  let wf ← bump r.winNframes m.fti (-1)
  let nl ← dec m.shown r.ntusLeft
  let wt ← dec m.shown r.winNtus
  let r ← ({ r with prev := m, nframesLeft := left, winNframes := wf,
                    winSum := bumpSum r.winSum m.fti (-bx m.logScale), ntusLeft := nl, winNtus := wt } : Rc).pop
  let (r, _) ← ({ r with ready2 := false }).twopassIn bx none
  some r

/-- Count the frame: `rate.rs:1097-1121`. `SEF_BITS` is `rate.rs:48`. -/
def Rc.count (r : Rc) (bits : Int) (fti : Nat) (shown : Bool) : Option Rc :=
  if fti = 4 then (if bits = 24 ∧ shown = true then some { r with nsef := r.nsef + 1 } else none)
  else if bits ≤ 0 then some r else some { r with nencoded := r.nencoded + 1 }

/-- The second pass of `update_state`, `rate.rs:1125-1157`. -/
def Rc.special (bx : Int → Int) (r : Rc) : Option Rc :=
  if r.pass = 2 ∨ r.pass = 3 then r.advance bx else some r

/-- The first pass of `update_state`, `rate.rs:1158-1164`. -/
def Rc.record (r : Rc) (fti : Nat) (shown : Bool) (ls : Int) : Rc :=
  if r.pass = 1 ∨ r.pass = 3 then { r with prev := { logScale := ls, fti, shown }, pass1Retrieved := false } else r

/-- The reservoir, `rate.rs:1206-1229`; `cap_overflow` is set, `cap_underflow` and `drop_frames` are not, `rate.rs:656-658`. -/
def Rc.settle (r : Rc) (bits : Int) (fti : Nat) (shown : Bool) : Option Rc :=
  (r.nframes[fti]?).map fun n =>
    { r with
      nframes := if n < 2 ^ 31 - 1 then r.nframes.set fti (n + 1) else r.nframes
      fullness := min (r.fullness - bits + (if shown then r.bitsPerTu else 0)) r.cap }

/-- `update_state`, `rate.rs:1072-1232`, for a frame that is not a trial and not droppable, with rate control
active: `bits` its size, `ls` its log scale in Q24. -/
def Rc.update (bx : Int → Int) (r : Rc) (bits : Int) (fti : Nat) (shown : Bool) (ls : Int) : Option Rc := do
  let r ← r.count bits fti shown
  let r ← r.special bx
  (r.record fti shown ls).settle (if fti ≠ 4 ∧ bits ≤ 0 then 0 else bits) fti shown

/-- `buffer_val`, `rate.rs:1247-1258`: the bytes written. -/
def bufferVal (v : Int) (n : Nat) : List Nat := le n (v % 256 ^ n).toNat

/-- `emit_frame_data`, `rate.rs:1294-1319`. -/
def Rc.emitFrame (bx : Int → Int) (r : Rc) : Rc × Option (List Nat) :=
  let r := { r with
    scaleSum := bumpSum r.scaleSum r.prev.fti (bx r.prev.logScale)
    ntus := if r.prev.shown then r.ntus + 1 else r.ntus }
  if 2 ^ 31 - 1 ≤ r.nencoded + r.nsef then (r, none)
  else
    ({ r with pass1Retrieved := true },
      some (bufferVal ((if r.prev.shown then 2 ^ 31 else 0) + r.prev.fti) 4 ++ bufferVal r.prev.logScale 4))

/-- `emit_summary`, `rate.rs:1322-1339`. -/
def Rc.emitSummary (r : Rc) : Rc × List Nat :=
  ({ r with pass1SummaryRetrieved := true },
    bufferVal magic 4 ++ bufferVal version 4 ++ bufferVal r.ntus 4 ++ r.nframes.flatMap (bufferVal · 4) ++
      r.exp.flatMap (bufferVal · 1) ++ r.scaleSum.flatMap (bufferVal · 8))

/-- `emit_placeholder_summary`, `rate.rs:1282-1291`. -/
def Rc.emitPlaceholder (r : Rc) : Rc × List Nat :=
  ({ r with pass1Retrieved := true }, bufferVal magic 4 ++ bufferVal version 4 ++ List.replicate (headerSz - 8) 0)

/-- `twopass_out`, `rate.rs:1342-1357`. -/
def Rc.twopassOut (bx : Int → Int) (r : Rc) (done : Bool) : Rc × Option (List Nat) :=
  if !r.pass1Retrieved then
    if r.pass ≠ 1 ∧ r.pass ≠ 3 then (r.emitPlaceholder.1, some r.emitPlaceholder.2) else r.emitFrame bx
  else if done && !r.pass1SummaryRetrieved then (r.emitSummary.1, some r.emitSummary.2)
  else (r, none)

/-- `RcData`, `api/context.rs:374-389`. -/
inductive RcData where
  | summary (b : List Nat)
  | frame (b : List Nat)
  deriving DecidableEq, Repr

/-- `rc_receive_pass_data`, `api/context.rs:411-426`; `none` is the `unreachable!`. -/
def Rc.receivePassData (bx : Int → Int) (r : Rc) (done : Bool) : Option (Rc × Option RcData) :=
  if done && r.pass1Retrieved then some (r.emitSummary.1, some (.summary r.emitSummary.2))
  else if r.pass1Retrieved then some (r, none)
  else match r.emitFrame bx with
    | (r, some b) => some (r, some (.frame b))
    | (_, none) => none

/-- `rc_second_pass_data_required`, `api/context.rs:431-437`. -/
def Rc.dataRequired (r : Rc) (done : Bool) : Option Nat :=
  if done then some 0 else r.framesNeeded.map Int.toNat

end Rav1e.Rate

import Verif.LoopSyn.Spec
import Verif.Lrf.Model
import Verif.Ec.Codes

/-!
# CDEF indices and loop restoration units in a tile: the code

`encode_tile` with its queue of superblocks, `check_lf_queue`, `write_lrf`, `write_cdef`, and the two recorders of a superblock.  What the blocks consist of and
what `rdo_loop_decision` decides is left open.  `none` is a panic.  Positions are those of superblocks in the tile, `x` first.
-/

namespace Rav1e.LoopSyn

open Av1Spec (Src)
open Ec (flatToks literal writeSignedSubexpWithRef)
open Lrf (Filter paramsS)
open Spec (Refs)

/-- An element of the coded stream. -/
abbrev Tok := Src × Nat

/-- A restoration plane of a tile: `RestorationPlaneConfig` (src/lrf.rs:1247-1261) and `TileRestorationUnits` (src/tiling/tile_restoration_state.rs:20-32). -/
structure Plane where
  lrfType : Nat
  hShift : Nat
  vShift : Nat
  sbCols : Nat
  sbRows : Nat
  /-- `units.x`, `units.y`, `units.cols`, `units.rows` -/
  ux : Nat
  uy : Nat
  cols : Nat
  rows : Nat
  deriving DecidableEq, Repr

/-- What is fixed for the tile: from `FrameInvariants`, `Sequence` and `TileStateMut`. -/
structure Cfg where
  /-- 1 for `Cs400`, 3 otherwise (src/encoder.rs:3475-3476) -/
  planes : Nat
  plane : Nat → Plane
  /-- `ts.sbo`, `ts.sb_width`, `ts.sb_height` -/
  gx : Nat
  gy : Nat
  sbW : Nat
  sbH : Nat
  /-- `fi.sb_width`, `fi.sb_height` -/
  frameSbW : Nat
  frameSbH : Nat
  enableCdef : Bool
  cdefBits : Nat
  enableRestoration : Bool
  allowIntrabc : Bool
  /-- `enable_delayed_loopfilter_rdo` -/
  delayed : Bool
  /-- the numbers of `lrf_switchable_cdf`, `lrf_wiener_cdf`, `lrf_sgrproj_cdf` -/
  switchable : Nat
  wiener : Nat
  sgrproj : Nat

/-! ### Units and superblocks -/

/-- `restoration_unit_index` (src/tiling/tile_restoration_state.rs:192-218). -/
def unitIndex (P : Plane) (x y : Nat) (stretch : Bool) : Option (Nat × Nat) :=
  if P.rows > 0 ∧ P.cols > 0 then
    let xStretch := decide (x < P.sbCols ∧ x >>> P.hShift ≥ P.cols)
    let yStretch := decide (y < P.sbRows ∧ y >>> P.vShift ≥ P.rows)
    if (xStretch || yStretch) && !stretch then none
    else
      let a := (x >>> P.hShift) - (if xStretch then 1 else 0)
      let b := (y >>> P.vShift) - (if yStretch then 1 else 0)
      if a < P.cols ∧ b < P.rows then some (a, b) else none
  else none

/-- `restoration_unit_countable` (src/tiling/tile_restoration_state.rs:234-236). -/
def countable (P : Plane) (a b : Nat) : Nat := b * P.cols + a

/-- `restoration_unit_last_sb_for_rdo` (src/tiling/tile_restoration_state.rs:238-262). -/
def lastSb (C : Cfg) (P : Plane) (x y : Nat) : Bool :=
  let hMask := (1 <<< P.hShift) - 1
  let vMask := (1 <<< P.vShift) - 1
  let xStretch := decide (x >>> P.hShift ≥ P.cols)
  let yStretch := decide (y >>> P.vShift ≥ P.rows)
  let lastX := (decide (x &&& hMask = hMask) && !xStretch) || decide (C.gx + x = C.frameSbW - 1)
  let lastY := (decide (y &&& vMask = vMask) && !yStretch) || decide (C.gy + y = C.frameSbH - 1)
  lastX && lastY

/-- `get_units_region` (src/tiling/tile_restoration_state.rs:359-392), without the debug assertions. -/
def unitsRegion (hShift vShift rsCols rsRows sbX sbY sbW sbH : Nat) : Nat × Nat × Nat × Nat :=
  let ux := sbX >>> hShift
  let uy := sbY >>> vShift
  let uc := (sbW + (1 <<< hShift) - 1) >>> hShift
  let ur := (sbH + (1 <<< vShift) - 1) >>> vShift
  let ux := min ux rsCols
  let uy := min uy rsRows
  (ux, uy, min uc (rsCols - ux), min ur (rsRows - uy))

/-! ### Syntax of units -/

/-- `WIENER_TAPS_MIN`, `WIENER_TAPS_MAX` (src/lrf.rs:39, 41). -/
def wienerMin : List Int := [-5, -23, -17]
@[inherit_doc wienerMin] def wienerMax : List Int := [10, 8, 46]

/-- `SGRPROJ_XQD_MIN`, `SGRPROJ_XQD_MAX` (src/lrf.rs:46, 48). -/
def sgrMin : List Int := [-96, -32]
@[inherit_doc sgrMin] def sgrMax : List Int := [31, 95]

/-- `wiener_ref` and `sgrproj_ref` of a new tile (src/tiling/tile_restoration_state.rs:186-187), `WIENER_TAPS_MID` and `SGRPROJ_XQD_MID`
(src/lrf.rs:40, 47). -/
def initRefs : Refs := ⟨fun _ i => ([3, -7, 15] : List Int).getD i 0, fun i => ([-32, 31] : List Int).getD i 0⟩

/-- A weight in `write_lrf` (src/context/frame_header.rs:208-230); `s` is `SGRPROJ_PARAMS_S[set][i]`. -/
def writeXqd (i s : Nat) (v : Int) (r : Refs) : Option (List Tok × Refs) :=
  if s > 0 then
    some (flatToks (writeSignedSubexpWithRef v (sgrMin.getD i 0) (sgrMax.getD i 0 + 1) 4 (r.sgr i)), r.setXqd i v)
  else if i = 0 then (if v = 0 then some ([], r.setXqd 0 0) else none)
  else some ([], r.setXqd 1 95)

/-- A coefficient in `write_lrf` (src/context/frame_header.rs:253-262). -/
def writeTap (pass i : Nat) (v : Int) (r : Refs) : List Tok × Refs :=
  (flatToks (writeSignedSubexpWithRef v (wienerMin.getD i 0) (wienerMax.getD i 0 + 1) (i + 1) (r.wiener pass i)), r.setTap pass i v)

/-- A pass in `write_lrf` (src/context/frame_header.rs:246-263). -/
def writePass (pli pass : Nat) (c : Int × Int × Int) (r : Refs) : Option (List Tok × Refs) := do
  let (s0, r) ← if pli = 0 then some (writeTap pass 0 c.1 r) else if c.1 = 0 then some ([], r) else none
  let (s1, r) := writeTap pass 1 c.2.1 r
  let (s2, r) := writeTap pass 2 c.2.2 r
  some (s0 ++ s1 ++ s2, r)

/-- The symbol for a self-guided filter and for a Wiener filter in a plane of this type (src/context/frame_header.rs:195-206 and 233-244). -/
def sgrSym (C : Cfg) (ty : Nat) : Option (List Tok) :=
  if ty = 3 then some [(.cdf C.sgrproj, 1)] else if ty = 1 then some [(.cdf C.switchable, 2)] else none
@[inherit_doc sgrSym] def wienerSym (C : Cfg) (ty : Nat) : Option (List Tok) :=
  if ty = 2 then some [(.cdf C.wiener, 1)] else if ty = 1 then some [(.cdf C.switchable, 1)] else none

/-- `write_lrf` for the filter of a unit (src/context/frame_header.rs:171-268): the elements, and the references afterwards. -/
def writeLrf (C : Cfg) (pli : Nat) (flt : Filter) (r : Refs) : Option (List Tok × Refs) :=
  let ty := (C.plane pli).lrfType
  match flt with
  | .none =>
    if ty = 2 then some ([(.cdf C.wiener, 0)], r)
    else if ty = 3 then some ([(.cdf C.sgrproj, 0)], r)
    else if ty = 1 then some ([(.cdf C.switchable, 0)], r)
    else if ty = 0 then some ([], r)
    else none
  | .sgrproj set x0 x1 => do
    let s ← sgrSym C ty
    let p ← paramsS[set]?
    let (s0, r) ← writeXqd 0 p.1 x0 r
    let (s1, r) ← writeXqd 1 p.2 x1 r
    some (s ++ flatToks (literal 4 set) ++ s0 ++ s1, r)
  | .wiener cv ch => do
    let s ← wienerSym C ty
    let (s0, r) ← writePass pli 0 cv r
    let (s1, r) ← writePass pli 1 ch r
    some (s ++ s0 ++ s1, r)

/-! ### The symbols of a superblock -/

/-- What is written for a block: the partition symbols since the block before, segment and `skip`, then the rest. -/
structure Bk where
  pre : List Tok
  skip : Bool
  post : List Tok
  deriving DecidableEq, Repr

/-- `cdef_coded` (src/context/block_unit.rs:229), `w_pre_cdef` and `w_post_cdef` (src/encoder.rs:3371-3372). -/
structure Recs where
  coded : Bool
  wPre : List Tok
  wPost : List Tok
  deriving DecidableEq, Repr

/-- `if cdef_coded { w_post_cdef } else { w_pre_cdef }` (src/encoder.rs:2604, 2613, 2686, 2779, 2861, 2985, 3122, 3131). -/
def Recs.write (r : Recs) (ts : List Tok) : Recs := if r.coded then { r with wPost := r.wPost ++ ts } else { r with wPre := r.wPre ++ ts }

/-- A block: `encode_block_pre_cdef` with the writer of `cdef_coded` before, `encode_block_post_cdef` with that of `cdef_coded` afterwards
(src/encoder.rs:1896-1930, 2600-2629, 3118-3147). -/
def encodeBk (C : Cfg) (r : Recs) (b : Bk) : Recs :=
  let r := r.write b.pre
  let r := if !b.skip && C.enableCdef then { r with coded := true } else r
  r.write b.post

/-- The blocks of a superblock, from `cdef_coded = false` and empty recorders (src/encoder.rs:3493-3502). -/
def encodeSb (C : Cfg) (bs : List Bk) : Recs := bs.foldl (encodeBk C) ⟨false, [], []⟩

/-! ### Decisions -/

/-- What `rdo_loop_decision` leaves, for every superblock it is called with: new filters for units, by plane and position in the area, and new CDEF indices, by
position of the superblock in the area. -/
structure Rdo where
  filter : Nat → Nat → Nat → Nat → Nat → Option Filter
  cdef : Nat → Nat → Nat → Nat → Option Nat

/-- What changes while superblocks are written: `last_lru_rdoed` and `last_lru_coded` by plane; the filters by plane, row and column of units in the tile;
`cdef_index` by row and column of superblocks; the references by plane; what has been written. -/
structure Lf where
  rdoed : Nat → Int
  coded : Nat → Int
  filters : Nat → Nat → Nat → Filter
  cdef : Nat → Nat → Nat
  refs : Nat → Refs
  out : List Tok

/-- The size of the area in superblocks, before it is trimmed: `sb_w` and `sb_h` (src/rdo.rs:2117-2132). -/
def areaW (C : Cfg) : Nat := (List.range C.planes).foldl (fun w p => if w < 1 <<< (C.plane p).hShift then 1 <<< (C.plane p).hShift else w) 1
@[inherit_doc areaW] def areaH (C : Cfg) : Nat :=
  (List.range C.planes).foldl (fun w p => if w < 1 <<< (C.plane p).vShift then 1 <<< (C.plane p).vShift else w) 1

/-- A unit of the area gets a new filter, if there is a unit that is not stretched (src/rdo.rs:2603-2611 and 2730-2740); `restoration_unit_mut` looks for the
unit as if stretched units counted. -/
def setFilter (C : Cfg) (R : Rdo) (bx by' p : Nat) (fs : Nat → Nat → Nat → Filter) (l : Nat × Nat) : Nat → Nat → Nat → Filter :=
  let P := C.plane p
  let x := bx + l.2 * (1 <<< P.hShift)
  let y := by' + l.1 * (1 <<< P.vShift)
  if (unitIndex P x y false).isSome then
    match R.filter bx by' p l.2 l.1, unitIndex P x y true with
    | some f, some (a, b) => fun q i j => if q = p ∧ i = b ∧ j = a then f else fs q i j
    | _, _ => fs
  else fs

/-- A superblock of the area gets a new CDEF index (src/rdo.rs:2374-2384 and 2537-2542). -/
def setCdef (R : Rdo) (bx by' : Nat) (cs : Nat → Nat → Nat) (l : Nat × Nat) : Nat → Nat → Nat :=
  match R.cdef bx by' l.2 l.1 with
  | some v => fun i j => if i = by' + l.1 ∧ j = bx + l.2 then v else cs i j
  | none => cs

/-- `for y in 0..n { for x in 0..m { } }`. -/
def pairs (n m : Nat) : List (Nat × Nat) := (List.range n).flatMap fun y => (List.range m).map fun x => (y, x)

/-- `rdo_loop_decision` (src/rdo.rs:2104-2747): the units of the area of each plane if restoration is on, the superblocks of the trimmed area if CDEF is on. -/
def rdoLoop (C : Cfg) (R : Rdo) (bx by' : Nat) (s : Lf) : Option Lf :=
  if C.enableCdef || C.enableRestoration then
    let sbW := min (areaW C) (C.sbW - bx)
    let sbH := min (areaH C) (C.sbH - by')
    some { s with
      filters := if C.enableRestoration then
          (List.range C.planes).foldl (fun fs p =>
            (pairs (areaH C / (1 <<< (C.plane p).vShift)) (areaW C / (1 <<< (C.plane p).hShift))).foldl (setFilter C R bx by' p) fs) s.filters
        else s.filters
      cdef := if C.enableCdef then (pairs sbH sbW).foldl (setCdef R bx by') s.cdef else s.cdef }
  else none

/-! ### The queue -/

/-- `SBSQueueEntry` (src/encoder.rs:3367-3373). -/
structure Entry where
  x : Nat
  y : Nat
  lru : Nat → Int
  recs : Recs

/-- "only RDO once for a given LRU" (src/encoder.rs:3401-3437). -/
def entryRdo (C : Cfg) (R : Rdo) (e : Entry) (s : Lf) : Option Lf :=
  if e.recs.coded || C.enableRestoration then
    let already := (List.range C.planes).any fun p => decide (e.lru p ≠ -1 ∧ e.lru p ≤ s.rdoed p)
    if !already then do
      let s ← rdoLoop C R e.x e.y s
      some { s with rdoed := fun p => if p < C.planes ∧ e.lru p ≠ -1 ∧ s.rdoed p < e.lru p then e.lru p else s.rdoed p }
    else some s
  else some s

/-- The unit of a plane is written with the first superblock of it (src/encoder.rs:3441-3448, src/context/frame_header.rs:171-177). -/
def entryLrf (C : Cfg) (e : Entry) (s : Lf) (p : Nat) : Option Lf :=
  if e.lru p ≠ -1 ∧ s.coded p < e.lru p then
    let s := { s with coded := fun q => if q = p then e.lru p else s.coded q }
    match unitIndex (C.plane p) e.x e.y true with
    | some (a, b) => do
      let (ts, r) ← writeLrf C p (s.filters p b a) (s.refs p)
      some { s with refs := fun q => if q = p then r else s.refs q, out := s.out ++ ts }
    | none => some s
  else some s

/-- The units of an entry (src/encoder.rs:3438-3449). -/
def entryUnits (C : Cfg) (e : Entry) (s : Lf) : Option Lf :=
  if !C.allowIntrabc && C.enableRestoration then (List.range C.planes).foldlM (entryLrf C e) s else some s

/-- An entry that is ready (src/encoder.rs:3400-3459). -/
def flush (C : Cfg) (R : Rdo) (e : Entry) (s : Lf) : Option Lf := do
  let s ← entryRdo C R e s
  let s ← entryUnits C e s
  let s := { s with out := s.out ++ e.recs.wPre }
  if e.recs.coded then some { s with out := s.out ++ flatToks (literal C.cdefBits (s.cdef e.y e.x)) ++ e.recs.wPost } else some s

/-- `check_lf_queue` (src/encoder.rs:3376-3465): the queue afterwards. -/
def checkQueue (C : Cfg) (R : Rdo) (ready : Nat → Int) : List Entry → Lf → Option (List Entry × Lf)
  | [], s => some ([], s)
  | e :: q, s =>
    if (List.range C.planes).any fun p => decide (e.lru p > ready p) then some (e :: q, s)
    else do
      let s ← flush C R e s
      checkQueue C R ready q s

/-- The state of `encode_tile`: the queue, `last_lru_ready`, and what is written. -/
structure Enc where
  queue : List Entry
  ready : Nat → Int
  lf : Lf

/-- `lru_index` of a superblock (src/encoder.rs:3547-3564). -/
def lruOf (C : Cfg) (x y p : Nat) : Int :=
  if p < C.planes then
    match unitIndex (C.plane p) x y false with
    | some (a, b) => countable (C.plane p) a b
    | none => -1
  else -1

/-- `last_lru_ready` and `check_queue` after a superblock (src/encoder.rs:3542-3565). -/
def readyStep (C : Cfg) (x y : Nat) (s : (Nat → Int) × Bool) (p : Nat) : (Nat → Int) × Bool :=
  match unitIndex (C.plane p) x y false with
  | some (a, b) =>
    if lastSb C (C.plane p) x y then (fun q => if q = p then (countable (C.plane p) a b : Int) else s.1 q, true) else s
  | none => (s.1, true)

/-- A superblock of the main loop (src/encoder.rs:3489-3582). -/
def encodeOne (C : Cfg) (R : Rdo) (sbs : Nat → Nat → List Bk) (x y : Nat) (s : Enc) : Option Enc := do
  let e : Entry := ⟨x, y, lruOf C x y, encodeSb C (sbs x y)⟩
  let (ready, check) := (List.range C.planes).foldl (readyStep C x y) (s.ready, false)
  let q := s.queue ++ [e]
  if check && !C.delayed then do
    let (q, lf) ← checkQueue C R ready q s.lf
    some ⟨q, ready, lf⟩
  else some ⟨q, ready, s.lf⟩

/-- The main loop (src/encoder.rs:3486-3584). -/
def encodeLoop (C : Cfg) (R : Rdo) (sbs : Nat → Nat → List Bk) (s : Enc) : Option Enc :=
  (List.range C.sbH).foldlM (fun s y => (List.range C.sbW).foldlM (fun s x => encodeOne C R sbs x y s) s) s

/-- What is left in the queue after the main loop (src/encoder.rs:3586-3660); temporary deblocking is not modelled. -/
def lastCheck (C : Cfg) (R : Rdo) (s : Enc) : Option (List Entry × Lf) := if C.delayed then checkQueue C R s.ready s.queue s.lf else some (s.queue, s.lf)

/-- `encode_tile` (src/encoder.rs:3468-3671), from any filters and CDEF indices: what is left when the queue has been written, and the assertion that it is
empty. -/
def encodeTile (C : Cfg) (R : Rdo) (sbs : Nat → Nat → List Bk) (filters : Nat → Nat → Nat → Filter) (cdef : Nat → Nat → Nat) : Option Lf := do
  let s ← encodeLoop C R sbs ⟨[], fun _ => -1, ⟨fun _ => -1, fun _ => -1, filters, cdef, fun _ => initRefs, []⟩⟩
  let (q, lf) ← lastCheck C R s
  if q.isEmpty then some lf else none

end Rav1e.LoopSyn

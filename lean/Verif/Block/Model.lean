import Verif.Block.Spec
import Verif.Mvref.Syntax

/-!
# Block syntax: the code

What `encode_partition_topdown` and `encode_partition_bottomup` write for the blocks of a tile, except for coefficients, transform sizes, CDEF indices and loop
restoration units: the list of symbols with their distributions.  `none` is a panic.  The distributions (`skip_cdfs`, `intra_inter_cdfs`, `comp_mode_cdf`, …)
have the names of the specification here.  Positions are relative to the tile, `x` first, in units of four luma pixels; a block size is given by its width
and height in these units, and only sizes with an aspect ratio of at most two occur.
-/

namespace Rav1e.Block

open Spec (Cdf Sym)
open Mvref (Mode Mv Cand)

/-- The fields of `Block` that are used (src/context/block_unit.rs:164-183): those that motion vector prediction uses, the intra mode, `skip` and
`segmentation_idx`.  `mode` is `blk.mode`, or `intraMode` if this is an intra mode. -/
structure EBlk where
  blk : Mvref.Block
  intraMode : Nat
  skip : Bool
  seg : Nat
  deriving DecidableEq, Repr

/-- `CFLParams` (src/context/partition_unit.rs:78-82), the signs by discriminant (src/context/partition_unit.rs:61-65). -/
structure Cfl where
  signU : Nat
  signV : Nat
  scaleU : Nat
  scaleV : Nat
  deriving DecidableEq, Repr

/-- What has been decided for a block: the arguments of `encode_block_pre_cdef` and `encode_block_post_cdef` (src/encoder.rs:1896-1900, 1937-1947).
`luma_mode` is `mode`, or `intraMode` if this is an intra mode; `chroma_mode` is `uvMode` then. -/
structure Choice where
  skip : Bool
  seg : Nat
  mode : Mode
  ref0 : Nat
  ref1 : Nat
  mv0 : Mv
  mv1 : Mv
  intraMode : Nat
  angleY : Int
  uvMode : Nat
  angleUV : Int
  cfl : Cfl
  deriving DecidableEq, Repr

/-- What is fixed for the tile: `TileBlocksMut` without the blocks (src/tiling/tile_blocks.rs:34-46), `SegmentationState`
(src/encoder.rs:551-557), and what is used of `FrameInvariants` and `Sequence`. -/
structure Cfg where
  x : Nat
  y : Nat
  cols : Nat
  rows : Nat
  frameCols : Nat
  frameRows : Nat
  hasInter : Bool
  segEnabled : Bool
  preskip : Bool
  lastActiveSegid : Nat
  multiref : Bool
  cs400 : Bool
  xdec : Nat
  ydec : Nat
  screenContent : Bool
  filterIntra : Bool
  signBias : Nat → Bool

/-! ### Segment, skip, `is_inter` -/

/-- `skip_context` (src/context/partition_unit.rs:471-475); `a` and `l` are `above_of(bo)` where `bo.y > 0` and `left_of(bo)` where `bo.x > 0`. -/
def skipContext (a l : Option EBlk) : Nat := (a.any (·.skip)).toNat + (l.any (·.skip)).toNat

/-- `write_skip` (src/context/partition_unit.rs:196-202). -/
def writeSkip (a l : Option EBlk) (skip : Bool) : List Sym := [(.skip (skipContext a l), skip.toNat)]

/-- `get_segment_pred` (src/context/partition_unit.rs:204-248). -/
def getSegmentPred (ul a l : Option EBlk) (last : Nat) : Nat × Nat :=
  let prevUl : Int := if a.isSome ∧ l.isSome then (ul.map fun b => (b.seg : Int)).getD (-1) else -1
  let prevU : Int := (a.map fun b => (b.seg : Int)).getD (-1)
  let prevL : Int := (l.map fun b => (b.seg : Int)).getD (-1)
  let cdfIndex :=
    if prevUl < 0 ∨ prevU < 0 ∨ prevL < 0 then 0
    else if prevUl = prevU ∧ prevUl = prevL then 2
    else if prevUl = prevU ∨ prevUl = prevL ∨ prevU = prevL then 1
    else 0
  let r :=
    if prevU = -1 then (if prevL = -1 then 0 else prevL)
    else if prevL = -1 then prevU
    else if prevUl = prevU then prevU else prevL
  (min r.toNat last, cdfIndex)

/-- `neg_interleave` (src/context/partition_unit.rs:359-386). -/
def negInterleave (x r max : Int) : Option Int :=
  if x < max then
    some (if r = 0 then x
      else if r ≥ max - 1 then -x + max - 1
      else
        let diff := x - r
        if 2 * r < max then
          if |diff| ≤ r then (if diff > 0 then diff * 2 - 1 else -diff * 2) else x
        else
          if |diff| < max - r then (if diff > 0 then diff * 2 - 1 else -diff * 2) else max - x - 1)
  else none

/-- `write_segmentation` (src/context/partition_unit.rs:388-410): the symbols, and `segmentation_idx` of the block afterwards. -/
def writeSegmentation (ul a l : Option EBlk) (skip : Bool) (seg last : Nat) : Option (List Sym × Nat) :=
  let (pred, cdfIndex) := getSegmentPred ul a l last
  if skip then some ([], pred)
  else do
    let codedId ← negInterleave seg pred (last + 1)
    some ([(.segmentId cdfIndex, codedId.toNat)], seg)

/-- `encode_block_pre_cdef` (src/encoder.rs:1896-1925); `update_map` is always set. -/
def encodePre (C : Cfg) (ul a l : Option EBlk) (ch : Choice) : Option (List Sym × Nat) := do
  let (s0, seg) ← if C.segEnabled && C.preskip then writeSegmentation ul a l false ch.seg C.lastActiveSegid else some ([], ch.seg)
  let s1 := writeSkip a l ch.skip
  let (s2, seg) ← if C.segEnabled && !C.preskip then writeSegmentation ul a l ch.skip seg C.lastActiveSegid else some ([], seg)
  some (s0 ++ s1 ++ s2, seg)

/-- `intra_inter_context` (src/context/block_unit.rs:410-440). -/
def intraInterContext (a l : Option EBlk) : Nat :=
  match a, l with
  | some a, some l =>
    let aboveIntra := !a.blk.isInter
    let leftIntra := !l.blk.isInter
    if aboveIntra && leftIntra then 3 else (aboveIntra || leftIntra).toNat
  | some a, none => if a.blk.isInter then 0 else 2
  | none, some l => if l.blk.isInter then 0 else 2
  | none, none => 0

/-! ### Reference frames -/

/-- `RefType::to_index` (src/partition.rs:49-61). -/
def toIndex (r : Nat) : Option Nat := if r = 8 ∨ r = 0 then none else some (r - 1)

/-- `Block::has_second_ref` (src/context/block_unit.rs:189-191). -/
def hasSecondRef (ref1 : Nat) : Bool := decide (ref1 ≠ 0 ∧ ref1 ≠ 8)

/-- `ref_counts[i] += 1`. -/
def bump (f : Nat → Nat) (i : Nat) : Nat → Nat := fun j => f j + if j = i then 1 else 0

/-- One neighbour in `fill_neighbours_ref_counts` (src/context/block_unit.rs:1449-1455 and 1459-1465). -/
def countOne (b : Option EBlk) (f : Nat → Nat) : Option (Nat → Nat) :=
  match b with
  | none => some f
  | some b =>
    if b.blk.isInter then do
      let f := bump f (← toIndex b.blk.ref0)
      if hasSecondRef b.blk.ref1 then do
        some (bump f (← toIndex b.blk.ref1))
      else some f
    else some f

/-- `fill_neighbours_ref_counts` (src/context/block_unit.rs:1445-1468). -/
def fillRefCounts (a l : Option EBlk) : Option (Nat → Nat) := do
  let f ← countOne a fun _ => 0
  countOne l f

/-- `ref_count_ctx` (src/context/block_unit.rs:1471-1479). -/
def refCountCtx (c0 c1 : Nat) : Nat := if c0 < c1 then 0 else if c0 = c1 then 1 else 2

/-- `get_ref_frame_ctx_b0` (src/context/frame_header.rs:49-62). -/
def ctxB0 (f : Nat → Nat) : Nat := refCountCtx (f 0 + f 1 + f 2 + f 3) (f 4 + f 5 + f 6)

/-- `get_pred_ctx_brfarf2_or_arf` (src/context/block_unit.rs:1482-1490). -/
def ctxBrfarf2 (f : Nat → Nat) : Nat := refCountCtx (f 4 + f 5) (f 6)

/-- `get_pred_ctx_ll2_or_l3gld` (src/context/block_unit.rs:1493-1502). -/
def ctxLl2 (f : Nat → Nat) : Nat := refCountCtx (f 0 + f 1) (f 2 + f 3)

/-- `get_pred_ctx_last_or_last2` (src/context/block_unit.rs:1505-1512). -/
def ctxLast (f : Nat → Nat) : Nat := refCountCtx (f 0) (f 1)

/-- `get_pred_ctx_last3_or_gold` (src/context/block_unit.rs:1515-1522). -/
def ctxLast3 (f : Nat → Nat) : Nat := refCountCtx (f 2) (f 3)

/-- `get_pred_ctx_brf_or_arf2` (src/context/block_unit.rs:1525-1532). -/
def ctxBrf (f : Nat → Nat) : Nat := refCountCtx (f 4) (f 5)

/-- `ref_frames` of a neighbour, `INTRA_FRAME` and `NONE_FRAME` without one (src/context/block_unit.rs:1537-1550). -/
def nbRefs (b : Option EBlk) : Nat × Nat := (b.map fun b => (b.blk.ref0, b.blk.ref1)).getD (0, 8)

/-- `RefType::is_bwd_ref` (src/partition.rs:65-67). -/
def isBwdRef (r : Nat) : Bool := decide (5 ≤ r)

/-- `get_comp_mode_ctx` (src/context/block_unit.rs:1534-1582). -/
def getCompModeCtx (a l : Option EBlk) : Nat :=
  let (left0, left1) := nbRefs l
  let (above0, above1) := nbRefs a
  let leftSingle := decide (left1 = 8)
  let aboveSingle := decide (above1 = 8)
  let leftIntra := decide (left0 = 0)
  let aboveIntra := decide (above0 = 0)
  let leftBackward := isBwdRef left0
  let aboveBackward := isBwdRef above0
  if l.isSome && a.isSome then
    if aboveSingle && leftSingle then (xor aboveBackward leftBackward).toNat
    else if aboveSingle then 2 + (aboveBackward || aboveIntra).toNat
    else if leftSingle then 2 + (leftBackward || leftIntra).toNat
    else 4
  else if a.isSome then (if aboveSingle then aboveBackward.toNat else 3)
  else if l.isSome then (if leftSingle then leftBackward.toNat else 3)
  else 1

/-- `is_samedir_ref_pair` (src/context/block_unit.rs:1585-1588). -/
def isSamedirRefPair (r0 r1 : Nat) : Bool := (isBwdRef r0 && decide (r0 ≠ 8)) == (isBwdRef r1 && decide (r1 ≠ 8))

/-- `get_comp_ref_type_ctx` (src/context/block_unit.rs:1584-1653). -/
def getCompRefTypeCtx (a l : Option EBlk) : Nat :=
  let (left0, left1) := nbRefs l
  let (above0, above1) := nbRefs a
  let leftSingle := decide (left1 = 8)
  let aboveSingle := decide (above1 = 8)
  let leftIntra := decide (left0 = 0)
  let aboveIntra := decide (above0 = 0)
  let aboveCompInter := a.isSome && !aboveIntra && !aboveSingle
  let leftCompInter := l.isSome && !leftIntra && !leftSingle
  let aboveUniComp := aboveCompInter && isSamedirRefPair above0 above1
  let leftUniComp := leftCompInter && isSamedirRefPair left0 left1
  if a.isSome && !aboveIntra && l.isSome && !leftIntra then
    let samedir := (isSamedirRefPair above0 left0).toNat
    if !aboveCompInter && !leftCompInter then 1 + 2 * samedir
    else if !aboveCompInter then (if !leftUniComp then 1 else 3 + samedir)
    else if !leftCompInter then (if !aboveUniComp then 1 else 3 + samedir)
    else if !aboveUniComp && !leftUniComp then 0
    else if !aboveUniComp || !leftUniComp then 2
    else 3 + (decide (above0 = 5) == decide (left0 = 5)).toNat
  else if a.isSome && l.isSome then
    if aboveCompInter then 1 + 2 * aboveUniComp.toNat
    else if leftCompInter then 1 + 2 * leftUniComp.toNat
    else 2
  else if aboveCompInter then 4 * aboveUniComp.toNat
  else if leftCompInter then 4 * leftUniComp.toNat
  else 2

/-- `write_ref_frames` (src/context/frame_header.rs:67-155). -/
def writeRefFrames (multiref : Bool) (w h ref0 ref1 : Nat) (a l : Option EBlk) (f : Nat → Nat) : Option (List Sym) := do
  let compMode := hasSecondRef ref1
  let s0 : List Sym ←
    if multiref && decide (min w h ≥ 2) then some [(.compMode (getCompModeCtx a l), compMode.toNat)]
    else if compMode then none else some []
  if compMode then
    let compref := decide (ref0 = 4 ∨ ref0 = 3)
    let compBwdref := decide (ref1 = 7)
    some (s0 ++ [(.compRefType (getCompRefTypeCtx a l), 1), (.compRef (ctxLl2 f) 0, compref.toNat)] ++
      (if !compref then [(.compRef (ctxLast f) 1, (decide (ref0 = 2)).toNat)] else [(.compRef (ctxLast3 f) 2, (decide (ref0 = 4)).toNat)]) ++
      [(.compBwdref (ctxBrfarf2 f) 0, compBwdref.toNat)] ++
      (if !compBwdref then [(.compBwdref (ctxBrf f) 1, (decide (ref1 = 6)).toNat)] else []))
  else
    let b0 := decide (ref0 ≠ 8) && isBwdRef ref0
    some (s0 ++ [(.singleRef (ctxB0 f) 0, b0.toNat)] ++
      if b0 then
        let b1 := decide (ref0 = 7)
        (.singleRef (ctxBrfarf2 f) 1, b1.toNat) :: if !b1 then [(.singleRef (ctxBrf f) 5, (decide (ref0 = 6)).toNat)] else []
      else
        let b2 := decide (ref0 = 3 ∨ ref0 = 4)
        (.singleRef (ctxLl2 f) 2, b2.toNat) ::
          if !b2 then [(.singleRef (ctxLast f) 3, (decide (ref0 ≠ 1)).toNat)] else [(.singleRef (ctxLast3 f) 4, (decide (ref0 ≠ 3)).toNat)])

/-! ### Intra modes -/

/-- The discriminant of a `BlockSize` (src/partition.rs:130-154), for an aspect ratio of at most two and 64x64 at most. -/
def bsizeIdx (w h : Nat) : Nat :=
  [(1, 1), (1, 2), (2, 1), (2, 2), (2, 4), (4, 2), (4, 4), (4, 8), (8, 4), (8, 8), (8, 16), (16, 8), (16, 16)].idxOf (w, h)

/-- `bsize >= BLOCK_8X8` (src/partition.rs:165-179). -/
def ge8x8 (w h : Nat) : Bool := decide (w ≥ 2 ∧ h ≥ 2)

/-- `size_group_lookup` (src/context/mod.rs:49-50). -/
def sizeGroupLookup : List Nat := [0, 0, 0, 1, 1, 1, 2, 2, 2, 3, 3, 3, 3, 3, 3, 3, 0, 0, 1, 1, 2, 2]

/-- `intra_mode_context` (src/context/block_unit.rs:703-704). -/
def intraModeContext : List Nat := [0, 1, 2, 3, 4, 4, 4, 4, 3, 0, 1, 2, 0]

/-- `intra_mode_context` of the mode of a neighbour, `DC_PRED` without one (src/context/block_unit.rs:705-716); inter modes are out of bounds. -/
def nbIntraCtx (b : Option EBlk) : Option Nat :=
  match b with
  | some b => if b.blk.isInter then none else intraModeContext[b.intraMode]?
  | none => intraModeContext[0]?

/-- `write_intra_mode_kf` and `write_intra_mode` (src/context/block_unit.rs:700-731). -/
def writeYMode (hasInter : Bool) (w h mode : Nat) (a l : Option EBlk) : Option (List Sym) :=
  if hasInter then do
    let g ← sizeGroupLookup[bsizeIdx w h]?
    some [(.yMode g, mode)]
  else do
    let ca ← nbIntraCtx a
    let cl ← nbIntraCtx l
    some [(.intraFrameYMode ca cl, mode)]

/-- `PredictionMode::is_directional` (src/predict.rs:262-264). -/
def isDirectional (m : Nat) : Bool := decide (1 ≤ m ∧ m ≤ 8)

/-- `write_angle_delta` under its condition (src/context/block_unit.rs:747-758, src/encoder.rs:2090-2092 and 2099-2101). -/
def writeAngle (w h mode : Nat) (angle : Int) : List Sym := if isDirectional mode && ge8x8 w h then [(.angleDelta (mode - 1), (angle + 3).toNat)] else []

/-- `has_chroma` (src/context/transform_unit.rs:108-121). -/
def hasChroma (C : Cfg) (x y w h : Nat) : Bool :=
  if C.cs400 then false
  else (decide (x &&& 1 = 1) || decide (w &&& 1 = 0) || decide (C.xdec = 0)) && (decide (y &&& 1 = 1) || decide (h &&& 1 = 0) || decide (C.ydec = 0))

/-- `BlockSize::cfl_allowed` (src/partition.rs:228-231). -/
def cflAllowed (w h : Nat) : Bool := decide (w ≤ 8 ∧ h ≤ 8)

/-- `CFLParams::index` (src/context/partition_unit.rs:113-116). -/
def cflIndex (sign scale : Nat) : Option Nat := if sign ≠ 0 ∧ scale ≠ 0 then some (scale - 1) else none

/-- `write_cfl_alphas` (src/context/partition_unit.rs:250-262), with `joint_sign` and `context` (src/context/partition_unit.rs:96-108). -/
def writeCflAlphas (c : Cfl) : Option (List Sym) :=
  if c.signU ≠ 0 ∨ c.signV ≠ 0 then do
    let u : List Sym ← if c.signU ≠ 0 then do some [(.cflAlpha ((c.signU - 1) * 3 + c.signV), ← cflIndex c.signU c.scaleU)] else some []
    let v : List Sym ← if c.signV ≠ 0 then do some [(.cflAlpha ((c.signV - 1) * 3 + c.signU), ← cflIndex c.signV c.scaleV)] else some []
    some ([(.cflAlphaSigns, c.signU * 3 + c.signV - 1)] ++ u ++ v)
  else none

/-- `CFLParams::alpha` (src/context/partition_unit.rs:118-120). -/
def cflAlpha (sign scale : Nat) : Int := if sign = 0 then 0 else if sign = 1 then -(scale : Int) else scale

/-- `write_intra_uv_mode` (src/context/block_unit.rs:734-745) and what follows where there is chroma (src/encoder.rs:2093-2102). -/
def writeUV (C : Cfg) (x y w h : Nat) (ch : Choice) : Option (List Sym) :=
  if hasChroma C x y w h then do
    let alphas ← if ch.uvMode = 13 then (if cflAllowed w h then writeCflAlphas ch.cfl else none) else some []
    some ((.uvMode (cflAllowed w h) ch.intraMode, ch.uvMode) :: alphas ++ writeAngle w h ch.uvMode ch.angleUV)
  else some []

/-- `write_use_palette_mode` with `enable` false, under its condition (src/context/block_unit.rs:770-793, src/encoder.rs:2104-2120). -/
def writePalette (C : Cfg) (x y w h : Nat) (ch : Choice) : List Sym :=
  if C.screenContent && ge8x8 w h && decide (4 * w ≤ 64) && decide (4 * h ≤ 64) then
    (if ch.intraMode = 0 then [(.hasPaletteY (Nat.log2 w + Nat.log2 h - 2) 0, 0)] else []) ++
      (if hasChroma C x y w h && decide (ch.uvMode = 0) then [(.hasPaletteUV 0, 0)] else [])
  else []

/-- `write_use_filter_intra` with `enable` false, under its condition (src/context/block_unit.rs:760-765, src/encoder.rs:2122-2128). -/
def writeFilterIntra (C : Cfg) (w h : Nat) (ch : Choice) : List Sym :=
  if C.filterIntra && decide (ch.intraMode = 0) && decide (4 * w ≤ 32) && decide (4 * h ≤ 32) then [(.useFilterIntra (bsizeIdx w h), 0)] else []

/-- The intra part of `encode_block_post_cdef` (src/encoder.rs:2082-2129). -/
def writeIntra (C : Cfg) (x y w h : Nat) (a l : Option EBlk) (ch : Choice) : Option (List Sym) := do
  let s0 ← writeYMode C.hasInter w h ch.intraMode a l
  let s1 ← writeUV C x y w h ch
  some (s0 ++ writeAngle w h ch.intraMode ch.angleY ++ s1 ++ writePalette C x y w h ch ++ writeFilterIntra C w h ch)

/-! ### Blocks -/

/-- A block that has been coded: where, how large, and what; for inter blocks also the candidates it was coded with.  This is not in the code: it is what
the theorems speak of. -/
structure Entry where
  x : Nat
  y : Nat
  w : Nat
  h : Nat
  ch : Choice
  stack : List Cand

/-- `BlockContext` (src/context/block_unit.rs:228-240), what is used here: the blocks, the partition contexts; and what has been coded. -/
structure State where
  data : Nat → Nat → EBlk
  aboveP : Nat → Nat
  leftP : Nat → Nat
  log : List Entry

/-- `blocks.above_of(bo)` where `bo.y > 0` (src/tiling/tile_blocks.rs:125-127). -/
def State.above (S : State) (x y : Nat) : Option EBlk := if y > 0 then some (S.data (y - 1) x) else none

/-- `blocks.left_of(bo)` where `bo.x > 0` (src/tiling/tile_blocks.rs:130-132). -/
def State.left (S : State) (x y : Nat) : Option EBlk := if x > 0 then some (S.data y (x - 1)) else none

/-- `blocks.above_left_of(bo)` where `bo.x > 0 && bo.y > 0` (src/tiling/tile_blocks.rs:135-137). -/
def State.aboveLeft (S : State) (x y : Nat) : Option EBlk := if x > 0 ∧ y > 0 then some (S.data (y - 1) (x - 1)) else none

/-- The arguments of `find_mvrefs` (src/encoder.rs:3024-3032). -/
def State.env (C : Cfg) (S : State) (x y w h : Nat) (ch : Choice) : Mvref.Env where
  t := ⟨C.x, C.y, C.cols, C.rows, C.frameCols, C.frameRows, fun r c => (S.data r c).blk⟩
  x := x
  y := y
  w := w
  h := h
  ref0 := ch.ref0
  ref1 := ch.ref1
  signBias := C.signBias
  isCompound := decide (ch.ref1 ≠ 8)

/-- What the `set_` functions have stored for a block when it is coded (src/encoder.rs:1900, 1968-1972, 3014, src/context/partition_unit.rs:394). -/
def blockOf (w h : Nat) (ch : Choice) : EBlk := ⟨⟨ch.mode, ch.ref0, ch.ref1, ch.mv0, ch.mv1, w, h⟩, ch.intraMode, ch.skip, ch.seg⟩

/-- `for_each` (src/tiling/tile_blocks.rs:206-224) over all fields. -/
def setBlock (C : Cfg) (data : Nat → Nat → EBlk) (x y w h : Nat) (b : EBlk) : Nat → Nat → EBlk := fun r c =>
  if y ≤ r ∧ r < y + h ∧ x ≤ c ∧ c < x + w ∧ r < C.rows ∧ c < C.cols then b else data r c

/-- `encode_block_post_cdef` up to the transform size (src/encoder.rs:1986-2129). -/
def encodePost (C : Cfg) (S : State) (x y w h : Nat) (ch : Choice) : Option (List Sym × List Cand) :=
  let a := S.above x y
  let l := S.left x y
  let inter := decide (ch.mode ≠ .intra)
  if C.hasInter && inter then do
    let f ← fillRefCounts a l
    let s1 ← writeRefFrames C.multiref w h ch.ref0 ch.ref1 a l f
    let (stack, ctx) ← (S.env C x y w h ch).findMvrefs
    let s2 ← Mvref.writeMotion ch.mode ch.mv0 ch.mv1 stack ctx .low
    some ((.isInter (intraInterContext a l), 1) :: s1 ++ s2.map (fun s => (.motion s.1, s.2)), stack)
  else if inter then none
  else do
    let s ← writeIntra C x y w h a l ch
    some ((if C.hasInter then [(.isInter (intraInterContext a l), 0)] else []) ++ s, [])

/-- `encode_block_pre_cdef` and `encode_block_post_cdef`. -/
def encodeBlock (C : Cfg) (S : State) (x y w h : Nat) (ch : Choice) : Option (List Sym × State) := do
  let (s0, seg) ← encodePre C (S.aboveLeft x y) (S.above x y) (S.left x y) ch
  let ch' := { ch with seg := seg }
  let (s1, stack) ← encodePost C S x y w h ch'
  some (s0 ++ s1, { S with data := setBlock C S.data x y w h (blockOf w h ch'), log := S.log ++ [⟨x, y, w, h, ch', stack⟩] })

/-! ### Partitions -/

/-- `partition_context_lookup` (src/context/partition_unit.rs:15-38), for the sizes of `bsizeIdx`. -/
def partitionContextLookup : List (Nat × Nat) :=
  [(31, 31), (31, 30), (30, 31), (30, 30), (30, 28), (28, 30), (28, 28), (28, 24), (24, 28), (24, 24), (24, 16), (16, 24), (16, 16)]

/-- `partition_plane_context` (src/context/partition_unit.rs:416-431), without the offset for the size: `bsl` is in the distribution. -/
def partitionPlaneContext (S : State) (x y n : Nat) : Nat :=
  let bsl := Nat.log2 n - 1
  let above := (S.aboveP (x >>> 1) >>> bsl) &&& 1
  let left := (S.leftP ((y % 16) >>> 1) >>> bsl) &&& 1
  left * 2 + above

/-- `PartitionType`, what is used of it (src/partition.rs:114-126). -/
def partIdx : Spec.Part → Nat
  | .none => 0
  | .horz => 1
  | .vert => 2
  | .split => 3

/-- `write_partition` (src/context/partition_unit.rs:267-357).  The distribution gathered from `PARTITION_VERT` and the like is that of `split_or_horz`, the
other one that of `split_or_vert`. -/
def writePartition (C : Cfg) (S : State) (x y n : Nat) (p : Spec.Part) : Option (List Sym) :=
  let hbs := n / 2
  let hasCols := decide (x + hbs < C.cols)
  let hasRows := decide (y + hbs < C.rows)
  let ctx := partitionPlaneContext S x y n
  if n < 2 then none
  else if !hasRows && !hasCols then some []
  else if hasRows && hasCols then some [(.partition (Nat.log2 n - 1) ctx, partIdx p)]
  else if !hasRows && hasCols then
    if (p = .split ∨ p = .horz) ∧ 2 < n then some [(.splitOrHorz (Nat.log2 n - 1) ctx, (decide (p = .split)).toNat)] else none
  else
    if (p = .split ∨ p = .vert) ∧ 2 < n then some [(.splitOrVert (Nat.log2 n - 1) ctx, (decide (p = .split)).toNat)] else none

/-- `update_partition_context` (src/context/partition_unit.rs:480-503); `w` and `h` are those of `subsize`. -/
def updatePartition (S : State) (x y n w h : Nat) : State :=
  let v := partitionContextLookup.getD (bsizeIdx w h) (0, 0)
  { S with
    aboveP := fun i => if x >>> 1 ≤ i ∧ i < (x + n) >>> 1 then v.1 else S.aboveP i
    leftP := fun i => if (y % 16) >>> 1 ≤ i ∧ i < (y % 16 + n) >>> 1 then v.2 else S.leftP i }

/-- A partition tree, with what has been decided for the blocks. -/
inductive Tree
  | none (a : Choice)
  | horz (a b : Choice)
  | vert (a b : Choice)
  | split (a b c d : Tree)

/-- How the root is partitioned. -/
def Tree.part : Tree → Spec.Part
  | .none _ => .none
  | .horz _ _ => .horz
  | .vert _ _ => .vert
  | .split _ _ _ _ => .split

/-- A square of which neither the lower half nor the right half begins in the tile is split (src/encoder.rs:2663-2664, 2742-2748 and 2955-2956). -/
def mayPartition (C : Cfg) (x y n : Nat) (p : Spec.Part) : Bool := decide (x + n / 2 < C.cols ∨ y + n / 2 < C.rows ∨ p = .split)

/-- A block that is not partitioned further: a call of `encode_partition_topdown` for a block that is not square, or for `PARTITION_NONE`
(src/encoder.rs:2924-2926 and 2990-3149). -/
def encodeLeaf (C : Cfg) (S : State) (x y w h : Nat) (ch : Choice) : Option (List Sym × State) :=
  if x ≥ C.cols ∨ y ≥ C.rows then some ([], S) else encodeBlock C S x y w h ch

/-- The partition of a square of `n` units is coded from 8x8 pixels on (src/encoder.rs:2777-2781, 2859-2862, 2984-2986). -/
def partSyntax (C : Cfg) (S : State) (x y n : Nat) (p : Spec.Part) : Option (List Sym) :=
  if n ≥ 2 then (if mayPartition C x y n p then writePartition C S x y n p else none) else some []

/-- `encode_partition_topdown` (src/encoder.rs:2917-3221) for a square of `n` units, with the decisions in the tree; `encode_partition_bottomup`
(src/encoder.rs:2634-2914) leaves the same. -/
def encodeTree (C : Cfg) : Nat → Nat → Nat → Tree → State → Option (List Sym × State)
  | n, x, y, t, S =>
    if x ≥ C.cols ∨ y ≥ C.rows then some ([], S)
    else do
      let s0 ← partSyntax C S x y n t.part
      match t with
      | .none a => do
        let (s1, S) ← encodeBlock C S x y n n a
        some (s0 ++ s1, if n ≥ 2 then updatePartition S x y n n n else S)
      | .horz a b => do
        let (s1, S) ← encodeLeaf C S x y n (n / 2) a
        let (s2, S) ← encodeLeaf C S x (y + n / 2) n (n / 2) b
        some (s0 ++ s1 ++ s2, updatePartition S x y n n (n / 2))
      | .vert a b => do
        let (s1, S) ← encodeLeaf C S x y (n / 2) n a
        let (s2, S) ← encodeLeaf C S (x + n / 2) y (n / 2) n b
        some (s0 ++ s1 ++ s2, updatePartition S x y n (n / 2) n)
      | .split a b c d => do
        let (s1, S) ← encodeTree C (n / 2) x y a S
        let (s2, S) ← encodeTree C (n / 2) (x + n / 2) y b S
        let (s3, S) ← encodeTree C (n / 2) x (y + n / 2) c S
        let (s4, S) ← encodeTree C (n / 2) (x + n / 2) (y + n / 2) d S
        some (s0 ++ s1 ++ s2 ++ s3 ++ s4, if n = 2 then updatePartition S x y n (n / 2) (n / 2) else S)

/-- The superblocks of a row (src/encoder.rs:3489-3583). -/
def encodeRow (C : Cfg) (t : Nat → Nat → Tree) (y : Nat) : Nat → Nat → State → Option (List Sym × State)
  | 0, _, S => some ([], S)
  | k + 1, j, S => do
    let (s, S) ← encodeTree C 16 (16 * j) y (t y (16 * j)) S
    let (s', S) ← encodeRow C t y k (j + 1) S
    some (s ++ s', S)

/-- The rows of superblocks (src/encoder.rs:3486-3584), with `reset_left_contexts` (src/context/block_unit.rs:394-401). -/
def encodeRows (C : Cfg) (t : Nat → Nat → Tree) : Nat → Nat → State → Option (List Sym × State)
  | 0, _, S => some ([], S)
  | k + 1, i, S => do
    let (s, S) ← encodeRow C t (16 * i) ((C.cols + 15) / 16) 0 { S with leftP := fun _ => 0 }
    let (s', S) ← encodeRows C t k (i + 1) S
    some (s ++ s', S)

/-- `encode_tile` (src/encoder.rs:3468-3584), from the contexts of `BlockContext::new` (src/context/block_unit.rs:243-261); the blocks may have any contents. -/
def encodeTile (C : Cfg) (t : Nat → Nat → Tree) (data : Nat → Nat → EBlk) : Option (List Sym × State) :=
  encodeRows C t ((C.rows + 15) / 16) 0 ⟨data, fun _ => 0, fun _ => 0, []⟩

end Rav1e.Block

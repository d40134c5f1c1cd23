import Mathlib.Init

/-!
# Motion vector prediction: the code

`find_mvrefs` of `src/context/block_unit.rs` and what it calls, function by function.  `none` is a panic: an index out of bounds, a failed `assert!` or
`debug_assert!`, a full `ArrayVec`, an overflow of `i16`.  `usize` is `Nat` (no subtraction here goes below zero), `isize` is `Int`, weights are
`Nat`: `weight_lt` shows that they stay far below `u32::MAX`.
-/

namespace Rav1e.Mvref

/-- `MotionVector { row: i16, col: i16 }` (src/mc.rs:29-32). -/
abbrev Mv := Int × Int

/-- `PredictionMode` (src/predict.rs:75-113); the intra modes are one here. -/
inductive Mode
  | intra
  | nearestmv | near0mv | near1mv | near2mv | globalmv | newmv
  | nearest_nearestmv | near_near0mv | near_near1mv | near_near2mv | nearest_newmv | new_nearestmv
  | near_new0mv | near_new1mv | near_new2mv | new_near0mv | new_near1mv | new_near2mv | global_globalmv | new_newmv
  deriving DecidableEq, Repr

/-- `PredictionMode::has_newmv` (src/predict.rs:173-184). -/
def Mode.hasNewmv (m : Mode) : Bool :=
  m == .newmv || m == .new_newmv || m == .nearest_newmv || m == .new_nearestmv || m == .near_new0mv || m == .near_new1mv || m == .near_new2mv ||
    m == .new_near0mv || m == .new_near1mv || m == .new_near2mv

/-- The fields of `Block` that are used (src/context/block_unit.rs:164-183).  `RefType` (src/partition.rs:28-38) is its discriminant:
`INTRA_FRAME` = 0, `NONE_FRAME` = 8. -/
structure Block where
  mode : Mode
  ref0 : Nat
  ref1 : Nat
  mv0 : Mv
  mv1 : Mv
  n4w : Nat
  n4h : Nat
  deriving DecidableEq, Repr

/-- `Block::is_inter` (src/context/block_unit.rs:186-188): `mode >= NEARESTMV`. -/
def Block.isInter (b : Block) : Bool := b.mode != .intra

/-- `TileBlocksMut` (src/tiling/tile_blocks.rs:34-46): the place and size of the tile, the size of the frame, and the blocks. -/
structure Tile where
  x : Nat
  y : Nat
  cols : Nat
  rows : Nat
  frameCols : Nat
  frameRows : Nat
  data : Nat → Nat → Block

/-- `Index<TileBlockOffset>` (src/tiling/tile_blocks.rs:147-168). -/
def Tile.at (t : Tile) (x y : Nat) : Option Block := if y < t.rows ∧ x < t.cols then some (t.data y x) else none

/-- `with_offset` (src/context/block_unit.rs:90-97), then indexing. -/
def Tile.atOffset (t : Tile) (x y : Nat) (colOffset rowOffset : Int) : Option Block :=
  if 0 ≤ (x : Int) + colOffset ∧ 0 ≤ (y : Int) + rowOffset then t.at ((x : Int) + colOffset).toNat ((y : Int) + rowOffset).toNat else none

/-- `CandidateMV` (src/context/block_unit.rs:614-618). -/
structure Cand where
  this : Mv
  comp : Mv
  weight : Nat
  deriving DecidableEq, Repr

/-- `ArrayVec::<CandidateMV, 9>::push`. -/
def push (s : List Cand) (c : Cand) : Option (List Cand) := if s.length < 9 then some (s ++ [c]) else none

/-- `find_valid_row_offs` and `find_valid_col_offs` (src/context/block_unit.rs:795-811). -/
def findValidOffs (offset : Int) (mi n : Nat) : Int := min (max offset (-(mi : Int))) ((n - mi - 1 : Nat) : Int)

/-- `find_matching_mv` (src/context/block_unit.rs:813-822). -/
def findMatchingMv (mv : Mv) (s : List Cand) : Bool := s.any fun c => decide (mv.1 = c.this.1 ∧ mv.2 = c.this.2)

/-- `find_matching_mv_and_update_weight` (src/context/block_unit.rs:824-834): the stack afterwards, and whether there was a match. -/
def matchMv (mv : Mv) (weight : Nat) : List Cand → List Cand × Bool
  | [] => ([], false)
  | c :: s =>
    if mv.1 = c.this.1 ∧ mv.2 = c.this.2 then ({ c with weight := c.weight + weight } :: s, true)
    else
      let r := matchMv mv weight s
      (c :: r.1, r.2)

/-- `find_matching_comp_mv_and_update_weight` (src/context/block_unit.rs:836-851). -/
def matchCompMv (mv0 mv1 : Mv) (weight : Nat) : List Cand → List Cand × Bool
  | [] => ([], false)
  | c :: s =>
    if mv0.1 = c.this.1 ∧ mv0.2 = c.this.2 ∧ mv1.1 = c.comp.1 ∧ mv1.2 = c.comp.2 then ({ c with weight := c.weight + weight } :: s, true)
    else
      let r := matchCompMv mv0 mv1 weight s
      (c :: r.1, r.2)

/-- The stack and `newmv_count`, which the scans update. -/
structure Scan where
  stack : List Cand
  newmv : Nat
  deriving DecidableEq, Repr

/-- The body of the loop of `add_ref_mv_candidate` (src/context/block_unit.rs:887-906), for `blk.mv[i]`. -/
def addSingle (blk : Block) (mv : Mv) (weight : Nat) (s : Scan) : Option Scan := do
  let r := matchMv mv weight s.stack
  let stack ← if !r.2 && decide (r.1.length < 8) then push r.1 ⟨mv, (0, 0), weight⟩ else some r.1
  return ⟨stack, if blk.mode.hasNewmv then s.newmv + 1 else s.newmv⟩

/-- `add_ref_mv_candidate` (src/context/block_unit.rs:853-911), with `MAX_REF_MV_STACK_SIZE` = 8. -/
def addRefMvCandidate (ref0 ref1 : Nat) (blk : Block) (weight : Nat) (isCompound : Bool) (s : Scan) : Option (Scan × Bool) :=
  if !blk.isInter then some (s, false)
  else if isCompound then
    if blk.ref0 = ref0 ∧ blk.ref1 = ref1 then do
      let r := matchCompMv blk.mv0 blk.mv1 weight s.stack
      let stack ← if !r.2 && decide (r.1.length < 8) then push r.1 ⟨blk.mv0, blk.mv1, weight⟩ else some r.1
      return (⟨stack, if blk.mode.hasNewmv then s.newmv + 1 else s.newmv⟩, true)
    else some (s, false)
  else do
    let (s, found) ← if blk.ref0 = ref0 then (addSingle blk blk.mv0 weight s).map (·, true) else some (s, false)
    if blk.ref1 = ref0 then (addSingle blk blk.mv1 weight s).map (·, true) else some (s, found)

/-- What the scans need to know: the blocks, the position and size of the block, the references. -/
structure Env where
  t : Tile
  x : Nat
  y : Nat
  w : Nat
  h : Nat
  ref0 : Nat
  ref1 : Nat
  signBias : Nat → Bool
  isCompound : Bool

/-- The length of a step in `scan_row_mbmi` and `scan_col_mbmi` (src/context/block_unit.rs:1000-1006 and 1065-1071); `target` is the size of the block,
`n4` that of the neighbour. -/
def stepLen (target n4 : Nat) (offset : Int) : Nat :=
  let len := min target n4
  if target ≥ 16 then max 4 len
  else if offset.natAbs > 1 then max len 2
  else len

/-- The loop of `scan_row_mbmi` (src/context/block_unit.rs:996-1028): the stack, `processed_rows` and `found_match`. -/
def Env.rowLoop (e : Env) (rowOffset colOffset maxRowOffs : Int) (endMi : Nat) : Nat → Nat → Scan → Int → Bool → Option (Scan × Int × Bool)
  | 0, i, s, processed, found => if i < endMi then none else some (s, processed, found)
  | fuel + 1, i, s, processed, found =>
    if i < endMi then do
      let cand ← e.t.atOffset e.x e.y (colOffset + i) rowOffset
      let len := stepLen e.w cand.n4w rowOffset
      let inc : Int := min (-maxRowOffs + rowOffset + 1) cand.n4h
      let wide := decide (e.w ≥ 2) && decide (e.w ≤ cand.n4w)
      if wide && decide (inc < 0) then none
      else do
        let weight := if wide then max 2 inc.toNat else 2
        let processed := if wide then inc - rowOffset - 1 else processed
        let (s, m) ← addRefMvCandidate e.ref0 e.ref1 cand (len * weight) e.isCompound s
        e.rowLoop rowOffset colOffset maxRowOffs endMi fuel (i + len) s processed (found || m)
    else some (s, processed, found)

/-- `scan_row_mbmi` (src/context/block_unit.rs:967-1031). -/
def Env.scanRow (e : Env) (rowOffset maxRowOffs : Int) (s : Scan) (processed : Int) : Option (Scan × Int × Bool) :=
  let endMi := min (min e.w (e.t.cols - e.x)) 16
  let colOffset : Int := if rowOffset.natAbs > 1 then (if e.x % 2 ≠ 0 ∧ e.w < 2 then 0 else 1) else 0
  e.rowLoop rowOffset colOffset maxRowOffs endMi endMi 0 s processed false

/-- The loop of `scan_col_mbmi` (src/context/block_unit.rs:1062-1094). -/
def Env.colLoop (e : Env) (rowOffset colOffset maxColOffs : Int) (endMi : Nat) : Nat → Nat → Scan → Int → Bool → Option (Scan × Int × Bool)
  | 0, i, s, processed, found => if i < endMi then none else some (s, processed, found)
  | fuel + 1, i, s, processed, found =>
    if i < endMi then do
      let cand ← e.t.atOffset e.x e.y colOffset (rowOffset + i)
      let len := stepLen e.h cand.n4h colOffset
      let inc : Int := min (-maxColOffs + colOffset + 1) cand.n4w
      let tall := decide (e.h ≥ 2) && decide (e.h ≤ cand.n4h)
      if tall && decide (inc < 0) then none
      else do
        let weight := if tall then max 2 inc.toNat else 2
        let processed := if tall then inc - colOffset - 1 else processed
        let (s, m) ← addRefMvCandidate e.ref0 e.ref1 cand (len * weight) e.isCompound s
        e.colLoop rowOffset colOffset maxColOffs endMi fuel (i + len) s processed (found || m)
    else some (s, processed, found)

/-- `scan_col_mbmi` (src/context/block_unit.rs:1033-1097). -/
def Env.scanCol (e : Env) (colOffset maxColOffs : Int) (s : Scan) (processed : Int) : Option (Scan × Int × Bool) :=
  let endMi := min (min e.h (e.t.rows - e.y)) 16
  let rowOffset : Int := if colOffset.natAbs > 1 then (if e.y % 2 ≠ 0 ∧ e.h < 2 then 0 else 1) else 0
  e.colLoop rowOffset colOffset maxColOffs endMi endMi 0 s processed false

/-- `with_offset` (src/context/block_unit.rs:90-97), then `scan_blk_mbmi` (src/context/block_unit.rs:1099-1118). -/
def Env.scanBlk (e : Env) (colOffset rowOffset : Int) (s : Scan) : Option (Scan × Bool) :=
  if 0 ≤ (e.x : Int) + colOffset ∧ 0 ≤ (e.y : Int) + rowOffset then
    let x := ((e.x : Int) + colOffset).toNat
    let y := ((e.y : Int) + rowOffset).toNat
    if x ≥ e.t.cols ∨ y ≥ e.t.rows then some (s, false)
    else do
      let blk ← e.t.at x y
      addRefMvCandidate e.ref0 e.ref1 blk (2 * 2) e.isCompound s
  else none

/-- The loop of `has_tr` (src/partition.rs:917-927). -/
def hasTrLoop (maskRow maskCol : Nat) : Nat → Nat → Bool → Bool
  | 0, _, has => has
  | fuel + 1, bs, has =>
    if bs < 16 then
      if maskCol &&& bs ≠ 0 then
        if maskCol &&& (2 * bs) ≠ 0 ∧ maskRow &&& (2 * bs) ≠ 0 then false
        else hasTrLoop maskRow maskCol fuel (bs <<< 1) has
      else has
    else has

/-- `has_tr` (src/partition.rs:900-955). -/
def hasTr (x y w h : Nat) : Bool :=
  let maskRow := y &&& 15
  let maskCol := x &&& 15
  let bs := max w h
  if bs > 16 then false
  else
    let has := !(decide (maskRow &&& bs ≠ 0) && decide (maskCol &&& bs ≠ 0))
    let has := hasTrLoop maskRow maskCol 5 bs has
    let has := if w < h ∧ x &&& w = 0 then true else has
    if w > h ∧ y &&& h ≠ 0 then false else has

/-- `add_offset` (src/context/block_unit.rs:1120-1124), with `REF_CAT_LEVEL` = 640. -/
def addOffset (s : List Cand) : List Cand := s.map fun c => { c with weight := c.weight + 640 }

/-- `max_row_offs` and `max_col_offs` (src/context/block_unit.rs:1151-1173); `pos` is the row or column, `size` the height or width, `n` the rows or
columns of the tile. -/
def maxOffs (pos size n : Nat) (adj : Bool) : Int :=
  if pos > 0 then
    let offs : Int := -2 * 3 + adj.toNat
    let offs : Int := if size < 2 then -2 * 2 + adj.toNat else offs
    findValidOffs offs pos n
  else 0

/-- The scans of the nearest blocks (src/context/block_unit.rs:1175-1220): the stack, `processed_rows`, `processed_cols`, `row_match`, `col_match`. -/
def Env.nearest (e : Env) (maxRow maxCol : Int) : Option (Scan × Int × Int × Bool × Bool) := do
  let s : Scan := ⟨[], 0⟩
  let (s, processedRows, rowMatch) ← if maxRow.natAbs ≥ 1 then e.scanRow (-1) maxRow s 0 else some (s, 0, false)
  let (s, processedCols, colMatch) ← if maxCol.natAbs ≥ 1 then e.scanCol (-1) maxCol s 0 else some (s, 0, false)
  let (s, found) ← if hasTr e.x e.y e.w e.h ∧ e.y > 0 then e.scanBlk e.w (-1) s else some (s, false)
  return (s, processedRows, processedCols, rowMatch || found, colMatch)

/-- A turn of the loop over the outer rows and columns (src/context/block_unit.rs:1236-1272). -/
def Env.outerStep (e : Env) (maxRow maxCol : Int) (rowAdj colAdj : Bool) (idx : Nat) (s : Scan) (processedRows processedCols : Int)
    (rowMatch colMatch : Bool) : Option (Scan × Int × Int × Bool × Bool) := do
  let rowOffset : Int := -2 * (idx : Int) + 1 + rowAdj.toNat
  let colOffset : Int := -2 * (idx : Int) + 1 + colAdj.toNat
  let (s, processedRows, found) ←
    if rowOffset.natAbs ≤ maxRow.natAbs ∧ (rowOffset.natAbs : Int) > processedRows then e.scanRow rowOffset maxRow s processedRows
    else some (s, processedRows, false)
  let rowMatch := rowMatch || found
  let (s, processedCols, found) ←
    if colOffset.natAbs ≤ maxCol.natAbs ∧ (colOffset.natAbs : Int) > processedCols then e.scanCol colOffset maxCol s processedCols
    else some (s, processedCols, false)
  return (s, processedRows, processedCols, rowMatch, colMatch || found)

/-- The scans of the second outer area (src/context/block_unit.rs:1222-1272). -/
def Env.outer (e : Env) (maxRow maxCol : Int) (rowAdj colAdj : Bool) (stack : List Cand) (processedRows processedCols : Int) (rowMatch colMatch : Bool) :
    Option (Scan × Bool × Bool) := do
  let s : Scan := ⟨stack, 0⟩
  let (s, found) ← if e.x > 0 ∧ e.y > 0 then e.scanBlk (-1) (-1) s else some (s, false)
  let rowMatch := rowMatch || found
  let (s, processedRows, processedCols, rowMatch, colMatch) ←
    e.outerStep maxRow maxCol rowAdj colAdj 2 s processedRows processedCols rowMatch colMatch
  let (s, _, _, rowMatch, colMatch) ← e.outerStep maxRow maxCol rowAdj colAdj 3 s processedRows processedCols rowMatch colMatch
  return (s, rowMatch, colMatch)

/-- `mode_context` (src/context/block_unit.rs:1274-1285), after the assertion. -/
def modeContext (nearestMatch totalMatch newmvCount : Nat) : Option Nat :=
  if totalMatch ≥ nearestMatch then
    some (match nearestMatch with
      | 0 => min totalMatch 1 + (totalMatch <<< 4)
      | 1 => 3 - min newmvCount 1 + ((2 + totalMatch) <<< 4)
      | _ => 5 - min newmvCount 1 + (5 <<< 4))
  else none

/-- `-x` for `i16`. -/
def negI16 (x : Int) : Option Int := if x = -32768 then none else some (-x)

/-- `RefType::to_index` (src/partition.rs:49-59), then the entry of `ref_frame_sign_bias`. -/
def Env.bias (e : Env) (ref : Nat) : Option Bool := if ref = 0 ∨ ref ≥ 8 then none else some (e.signBias (ref - 1))

/-- Turning a vector around (src/context/block_unit.rs:930-935 and 949-954). -/
def Env.turned (e : Env) (candRef ref : Nat) (mv : Mv) : Option Mv := do
  let a ← e.bias candRef
  let b ← e.bias ref
  if a != b then
    let r ← negI16 mv.1
    let c ← negI16 mv.2
    return (r, c)
  else return mv

/-- `mv_stack`, `ref_id_mvs`, `ref_id_count`, `ref_diff_mvs` and `ref_diff_count`: arrays and counts are lists here. -/
structure Extra where
  stack : List Cand
  id0 : List Mv
  id1 : List Mv
  diff0 : List Mv
  diff1 : List Mv
  deriving DecidableEq, Repr

/-- The body of the inner loop for compound blocks (src/context/block_unit.rs:924-939): the lists of `list`. -/
def Env.addExtraList (e : Env) (candRef ref : Nat) (mv : Mv) (ids diffs : List Mv) : Option (List Mv × List Mv) :=
  if candRef = ref ∧ ids.length < 2 then some (ids ++ [mv], diffs)
  else if diffs.length < 2 then do
    let mv ← e.turned candRef ref mv
    return (ids, diffs ++ [mv])
  else some (ids, diffs)

/-- The body of the outer loops of `add_extra_mv_candidate` (src/context/block_unit.rs:913-965), for one entry of `cand_list`. -/
def Env.addExtraOne (e : Env) (candRef : Nat) (mv : Mv) (s : Extra) : Option Extra :=
  if candRef ≠ 0 ∧ candRef ≠ 8 then
    if e.isCompound then do
      let (id0, diff0) ← e.addExtraList candRef e.ref0 mv s.id0 s.diff0
      let (id1, diff1) ← e.addExtraList candRef e.ref1 mv s.id1 s.diff1
      return { s with id0 := id0, diff0 := diff0, id1 := id1, diff1 := diff1 }
    else do
      let mv ← e.turned candRef e.ref0 mv
      if findMatchingMv mv s.stack then return s
      else
        let stack ← push s.stack ⟨mv, (0, 0), 2⟩
        return { s with stack := stack }
  else some s

/-- The body of the loop over the passes (src/context/block_unit.rs:1306-1330). -/
def Env.extraLoop (e : Env) (pass num4x4 : Nat) : Nat → Nat → Extra → Option Extra
  | 0, idx, s => if idx < num4x4 ∧ s.stack.length < 2 then none else some s
  | fuel + 1, idx, s =>
    if idx < num4x4 ∧ s.stack.length < 2 then do
      let blk ← if pass = 0 then e.t.atOffset e.x e.y idx (-1) else e.t.atOffset e.x e.y (-1) idx
      let s ← e.addExtraOne blk.ref0 blk.mv0 s
      let s ← e.addExtraOne blk.ref1 blk.mv1 s
      e.extraLoop pass num4x4 fuel (idx + if pass = 0 then blk.n4w else blk.n4h) s
    else some s

/-- `combined_mvs[0][list]` and `combined_mvs[1][list]` (src/context/block_unit.rs:1333-1347). -/
def combinedMvs (ids diffs : List Mv) : Mv × Mv :=
  match ids with
  | a :: b :: _ => (a, b)
  | [a] => (a, diffs.headD (0, 0))
  | [] => (diffs.headD (0, 0), diffs.tail.headD (0, 0))

/-- The entries from the combined vectors (src/context/block_unit.rs:1332-1385). -/
def Env.finishExtra (e : Env) (s : Extra) : Option (List Cand) :=
  if e.isCompound then do
    let c0 := combinedMvs s.id0 s.diff0
    let c1 := combinedMvs s.id1 s.diff1
    let stack ← match s.stack with
      | [q] =>
        if c0.1.1 = q.this.1 ∧ c0.1.2 = q.this.2 ∧ c1.1.1 = q.comp.1 ∧ c1.1.2 = q.comp.2 then push [q] ⟨c0.2, c1.2, 2⟩
        else push [q] ⟨c0.1, c1.1, 2⟩
      | stack => (push stack ⟨c0.1, c1.1, 2⟩).bind fun stack => push stack ⟨c0.2, c1.2, 2⟩
    if stack.length = 2 then some stack else none
  else some s.stack

/-- The extra search (src/context/block_unit.rs:1292-1386). -/
def Env.extraSearch (e : Env) (stack : List Cand) : Option (List Cand) := do
  let w4 := min (min e.w 16) (e.t.cols - e.x)
  let h4 := min (min e.h 16) (e.t.rows - e.y)
  let num4x4 := min w4 h4
  let s : Extra := ⟨stack, [], [], [], []⟩
  let s ← if e.y > 0 then e.extraLoop 0 num4x4 num4x4 0 s else some s
  let s ← if e.x > 0 then e.extraLoop 1 num4x4 num4x4 0 s else some s
  e.finishExtra s

/-- `isize::clamp(..) as i16`; `clamp` asserts that its bounds are in order. -/
def clampI16 (v lo hi : Int) : Option Int := if lo ≤ hi then some (((max lo (min v hi)) + 32768) % 65536 - 32768) else none

/-- The clamping of the stack (src/context/block_unit.rs:1390-1415). -/
def Env.clampCand (e : Env) (c : Cand) : Option Cand := do
  let x : Int := e.t.x + e.x
  let y : Int := e.t.y + e.y
  let blkW : Int := 4 * e.w
  let blkH : Int := 4 * e.h
  let borderW : Int := 128 + blkW * 8
  let borderH : Int := 128 + blkH * 8
  let mvxMin : Int := -x * (8 * 4) - borderW
  let mvxMax : Int := ((e.t.frameCols - (e.t.x + e.x) : Nat) - (4 * e.w / 4 : Nat)) * (8 * 4) + borderW
  let mvyMin : Int := -y * (8 * 4) - borderH
  let mvyMax : Int := ((e.t.frameRows - (e.t.y + e.y) : Nat) - (4 * e.h / 4 : Nat)) * (8 * 4) + borderH
  let r0 ← clampI16 c.this.1 mvyMin mvyMax
  let c0 ← clampI16 c.this.2 mvxMin mvxMax
  let r1 ← clampI16 c.comp.1 mvyMin mvyMax
  let c1 ← clampI16 c.comp.2 mvxMin mvxMax
  return ⟨(r0, c0), (r1, c1), c.weight⟩

/-- `setup_mvref_list` (src/context/block_unit.rs:1127-1418): the stack and the mode context.  `sort_by` is a stable sort. -/
def Env.setupMvrefList (e : Env) : Option (List Cand × Nat) := do
  let rowAdj := decide (e.h < 2) && decide (e.y % 2 ≠ 0)
  let colAdj := decide (e.w < 2) && decide (e.x % 2 ≠ 0)
  let maxRow := maxOffs e.y e.h e.t.rows rowAdj
  let maxCol := maxOffs e.x e.w e.t.cols colAdj
  let (s, processedRows, processedCols, rowMatch, colMatch) ← e.nearest maxRow maxCol
  let nearestMatch := rowMatch.toNat + colMatch.toNat
  let newmvCount := s.newmv
  let (s, rowMatch, colMatch) ← e.outer maxRow maxCol rowAdj colAdj (addOffset s.stack) processedRows processedCols rowMatch colMatch
  let totalMatch := rowMatch.toNat + colMatch.toNat
  let ctx ← modeContext nearestMatch totalMatch newmvCount
  let stack := s.stack.mergeSort fun a b => decide (b.weight ≤ a.weight)
  let stack ← if stack.length < 2 then e.extraSearch stack else some stack
  let stack ← stack.mapM e.clampCand
  return (stack, ctx)

/-- `find_mvrefs` (src/context/block_unit.rs:1423-1442). -/
def Env.findMvrefs (e : Env) : Option (List Cand × Nat) :=
  if e.ref0 = 8 then none
  else if e.ref0 = 0 then some ([], 0)
  else e.setupMvrefList

end Rav1e.Mvref

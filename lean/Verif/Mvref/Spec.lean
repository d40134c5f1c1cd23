import Mathlib.Init

/-!
# Motion vector prediction, as the decoder does it

Transcribed from the AV1 specification: section 7.10.2 (motion vector prediction processes) and, for what has been decoded when a block is read,
sections 5.11.2 to 5.11.5.  Superblocks have 64x64 pixels; positions and sizes are in units of four luma pixels.  The frames of this encoder have
no global motion (`gm_type` is `IDENTITY`, so `GlobalMvs` are zero), no motion field (`use_ref_frame_mvs` = 0), and motion vectors of quarter pixel
precision (`allow_high_precision_mv` = 0, `force_integer_mv` = 0), all of which the frame header says.
-/

namespace Rav1e.Mvref.Spec

/-- A motion vector: row and column, in eighths of a pixel. -/
abbrev Mv := Int × Int

/-- `YMode`; the intra modes are not told apart here. -/
inductive YMode
  | intra
  | nearestmv | nearmv | globalmv | newmv
  | nearest_nearestmv | near_nearmv | nearest_newmv | new_nearestmv | near_newmv | new_nearmv | global_globalmv | new_newmv
  deriving DecidableEq, Repr

/-- What a block says about itself: `YMode`, `RefFrame` (`INTRA_FRAME` = 0, `NONE` = -1) and `Mv`. -/
structure Info where
  mode : YMode
  ref0 : Int
  ref1 : Int
  mv0 : Mv
  mv1 : Mv
  deriving DecidableEq, Repr

/-- A block: where it is, how large it is, and what it says. -/
structure Blk where
  row : Nat
  col : Nat
  bw4 : Nat
  bh4 : Nat
  info : Info
  deriving DecidableEq, Repr

/-- `is_inter`. -/
def Info.isInter (b : Info) : Bool := b.mode != .intra

/-- `has_newmv( mode )`. -/
def Info.hasNewmv (b : Info) : Bool :=
  decide (b.mode = .newmv ∨ b.mode = .new_newmv ∨ b.mode = .near_newmv ∨ b.mode = .new_nearmv ∨ b.mode = .nearest_newmv ∨ b.mode = .new_nearestmv)

/-! ### What has been decoded -/

/-- `MiSizes`, `YModes`, `RefFrames`, `IsInters` and `Mvs`; `none` where nothing has been written for this frame. -/
abbrev Frame := Nat → Nat → Option Blk

/-- A position in a block. -/
def Blk.Covers (b : Blk) (r c : Nat) : Prop := b.row ≤ r ∧ r < b.row + b.bh4 ∧ b.col ≤ c ∧ c < b.col + b.bw4

instance (b : Blk) (r c : Nat) : Decidable (b.Covers r c) := by unfold Blk.Covers; infer_instance

/-- The end of `decode_block`. -/
def Frame.store (d : Frame) (b : Blk) : Frame := fun r c => if b.Covers r c then some b else d r c

/-- The frame size (`MiRows`, `MiCols`) and the tile (`MiRowStart`, `MiRowEnd`, `MiColStart`, `MiColEnd`). -/
structure Geo where
  miRows : Nat
  miCols : Nat
  rowStart : Nat
  rowEnd : Nat
  colStart : Nat
  colEnd : Nat

/-- A partition tree: `PARTITION_NONE`, `PARTITION_HORZ`, `PARTITION_VERT` and `PARTITION_SPLIT`. -/
inductive Tree
  | none (a : Info)
  | horz (a b : Info)
  | vert (a b : Info)
  | split (a b c d : Tree)

/-- `decode_partition( r, c, bSize )` for a square of `n` units: the blocks in the order in which they are decoded. -/
def Geo.partition (g : Geo) : Nat → Nat → Nat → Tree → List Blk
  | n, r, c, t =>
    if r ≥ g.miRows ∨ c ≥ g.miCols then []
    else match t with
      | .none a => [⟨r, c, n, n, a⟩]
      | .horz a b => ⟨r, c, n, n / 2, a⟩ :: if r + n / 2 < g.miRows then [⟨r + n / 2, c, n, n / 2, b⟩] else []
      | .vert a b => ⟨r, c, n / 2, n, a⟩ :: if c + n / 2 < g.miCols then [⟨r, c + n / 2, n / 2, n, b⟩] else []
      | .split t0 t1 t2 t3 =>
        g.partition (n / 2) r c t0 ++ g.partition (n / 2) r (c + n / 2) t1 ++ g.partition (n / 2) (r + n / 2) c t2 ++
          g.partition (n / 2) (r + n / 2) (c + n / 2) t3

/-- The trees that exist: no square of 4x4 pixels is split. -/
def Tree.Ok : Nat → Tree → Prop
  | _, .none _ => True
  | n, .horz _ _ => 2 ≤ n
  | n, .vert _ _ => 2 ≤ n
  | n, .split a b c d => 2 ≤ n ∧ a.Ok (n / 2) ∧ b.Ok (n / 2) ∧ c.Ok (n / 2) ∧ d.Ok (n / 2)

/-- `decode_tile`: the superblocks row by row; `t r c` is the tree of the superblock at `r`, `c`. -/
def Geo.tile (g : Geo) (t : Nat → Nat → Tree) : List Blk :=
  (List.range ((g.rowEnd - g.rowStart + 15) / 16)).flatMap fun i =>
    (List.range ((g.colEnd - g.colStart + 15) / 16)).flatMap fun j =>
      g.partition 16 (g.rowStart + 16 * i) (g.colStart + 16 * j) (t (g.rowStart + 16 * i) (g.colStart + 16 * j))

/-- What has been written after these blocks of the tile; what other tiles of the frame have written does not matter, see `isInside`. -/
def decoded (l : List Blk) : Frame := l.foldl Frame.store fun _ _ => none

/-! ### The motion vector stack (7.10.2) -/

/-- The block for which motion vectors are predicted, and what the process may look at. -/
structure Input where
  g : Geo
  d : Frame
  miRow : Nat
  miCol : Nat
  bw4 : Nat
  bh4 : Nat
  ref0 : Int
  ref1 : Int
  signBias : Int → Bool

/-- `isCompound`. -/
def Input.isCompound (p : Input) : Bool := decide (p.ref1 > 0)

/-- `is_inside( candR, candC )`. -/
def Geo.isInside (g : Geo) (r c : Int) : Bool :=
  decide ((g.colStart : Int) ≤ c) && decide (c < g.colEnd) && decide ((g.rowStart : Int) ≤ r) && decide (r < g.rowEnd)

/-- `RefStackMv[ idx ]` with `WeightStack[ idx ]`; without compound prediction `mv1` is not used and zero. -/
structure Entry where
  mv0 : Mv
  mv1 : Mv
  weight : Nat
  deriving DecidableEq, Repr

/-- `RefStackMv`, `WeightStack` and `NumMvFound` as a list, `NewMvCount` and `FoundMatch`. -/
structure St where
  stack : List Entry
  newMvCount : Nat
  foundMatch : Bool
  deriving DecidableEq, Repr

/-- The search of the stack in 7.10.2.8 and 7.10.2.9: the first entry with these motion vectors gets the weight. -/
def addWeight (mv0 mv1 : Mv) (weight : Nat) : List Entry → Option (List Entry)
  | [] => none
  | e :: l => if e.mv0 = mv0 ∧ e.mv1 = mv1 then some ({ e with weight := e.weight + weight } :: l) else (addWeight mv0 mv1 weight l).map (e :: ·)

/-- The search stack process (7.10.2.8) and the compound search stack process (7.10.2.9); `MAX_REF_MV_STACK_SIZE` = 8. -/
def searchStack (b : Info) (mv0 mv1 : Mv) (weight : Nat) (s : St) : St where
  newMvCount := s.newMvCount + if b.hasNewmv then 1 else 0
  foundMatch := true
  stack := match addWeight mv0 mv1 weight s.stack with
    | some l => l
    | none => if s.stack.length < 8 then s.stack ++ [⟨mv0, mv1, weight⟩] else s.stack

/-- The lower mv precision process (7.10.2.10), for a component. -/
def lowerComp (v : Int) : Int := if v % 2 ≠ 0 then v + (if v > 0 then -1 else 1) else v

/-- The lower mv precision process. -/
def lower (v : Mv) : Mv := (lowerComp v.1, lowerComp v.2)

/-- The add reference motion vector process (7.10.2.7). -/
def Input.addRef (p : Input) (b : Info) (weight : Nat) (s : St) : St :=
  if b.isInter = false then s
  else if p.isCompound = false then
    let s := if b.ref0 = p.ref0 then searchStack b (lower b.mv0) (0, 0) weight s else s
    if b.ref1 = p.ref0 then searchStack b (lower b.mv1) (0, 0) weight s else s
  else if b.ref0 = p.ref0 ∧ b.ref1 = p.ref1 then searchStack b (lower b.mv0) (lower b.mv1) weight s
  else s

/-- The loop of the scan row process; `none` when the process would look at something that has not been written. -/
def Input.rowLoop (p : Input) (deltaRow deltaCol : Int) (end4 : Nat) : Nat → Nat → St → Option St
  | 0, i, s => if i < end4 then none else some s
  | fuel + 1, i, s =>
    if i < end4 then
      let mvRow := (p.miRow : Int) + deltaRow
      let mvCol := (p.miCol : Int) + deltaCol + i
      if p.g.isInside mvRow mvCol = false then some s
      else do
        let b ← p.d mvRow.toNat mvCol.toNat
        let len := min p.bw4 b.bw4
        let len := if deltaRow.natAbs > 1 then max 2 len else len
        let len := if p.bw4 ≥ 16 then max 4 len else len
        p.rowLoop deltaRow deltaCol end4 fuel (i + len) (p.addRef b.info (len * 2) s)
    else some s

/-- The scan row process (7.10.2.2). -/
def Input.scanRow (p : Input) (deltaRow : Int) (s : St) : Option St :=
  let end4 := min (min p.bw4 (p.g.miCols - p.miCol)) 16
  if deltaRow.natAbs > 1 then
    p.rowLoop (deltaRow + (p.miRow % 2 : Nat)) (1 - (p.miCol % 2 : Nat)) end4 end4 0 s
  else p.rowLoop deltaRow 0 end4 end4 0 s

/-- The loop of the scan column process. -/
def Input.colLoop (p : Input) (deltaRow deltaCol : Int) (end4 : Nat) : Nat → Nat → St → Option St
  | 0, i, s => if i < end4 then none else some s
  | fuel + 1, i, s =>
    if i < end4 then
      let mvRow := (p.miRow : Int) + deltaRow + i
      let mvCol := (p.miCol : Int) + deltaCol
      if p.g.isInside mvRow mvCol = false then some s
      else do
        let b ← p.d mvRow.toNat mvCol.toNat
        let len := min p.bh4 b.bh4
        let len := if deltaCol.natAbs > 1 then max 2 len else len
        let len := if p.bh4 ≥ 16 then max 4 len else len
        p.colLoop deltaRow deltaCol end4 fuel (i + len) (p.addRef b.info (len * 2) s)
    else some s

/-- The scan column process (7.10.2.3). -/
def Input.scanCol (p : Input) (deltaCol : Int) (s : St) : Option St :=
  let end4 := min (min p.bh4 (p.g.miRows - p.miRow)) 16
  if deltaCol.natAbs > 1 then
    p.colLoop (1 - (p.miRow % 2 : Nat)) (deltaCol + (p.miCol % 2 : Nat)) end4 end4 0 s
  else p.colLoop 0 deltaCol end4 end4 0 s

/-- The scan point process (7.10.2.4): a position counts if it is inside the tile and has been written. -/
def Input.scanPoint (p : Input) (deltaRow deltaCol : Int) (s : St) : St :=
  let mvRow := (p.miRow : Int) + deltaRow
  let mvCol := (p.miCol : Int) + deltaCol
  if p.g.isInside mvRow mvCol then
    match p.d mvRow.toNat mvCol.toNat with
    | some b => p.addRef b.info 4 s
    | none => s
  else s

/-- The inner loop of the sorting process (7.10.2.11) on the entries that are not yet in place: the new entries and `newEnd`.  `a` is the entry at
`idx - 1`. -/
def sortPass (a : Entry) (idx newEnd : Nat) : List Entry → List Entry × Nat
  | [] => ([a], newEnd)
  | b :: l =>
    if a.weight < b.weight then
      let q := sortPass a (idx + 1) idx l
      (b :: q.1, q.2)
    else
      let q := sortPass b (idx + 1) newEnd l
      (a :: q.1, q.2)

/-- The sorting process; positions count from its `start`. -/
def sort : Nat → List Entry → List Entry
  | 0, l => l
  | _ + 1, [] => []
  | fuel + 1, a :: l =>
    let q := sortPass a 1 0 l
    sort fuel (q.1.take q.2) ++ q.1.drop q.2

/-- `RefStackMv` with `RefIdMvs` and `RefDiffMvs` of both lists, whose lengths are `RefIdCount` and `RefDiffCount`. -/
structure Extra where
  stack : List Entry
  id0 : List Mv
  id1 : List Mv
  diff0 : List Mv
  diff1 : List Mv
  deriving DecidableEq, Repr

/-- A candidate turned around if the two references lie on different sides. -/
def Input.turned (p : Input) (candRef ref : Int) (mv : Mv) : Mv := if p.signBias candRef ≠ p.signBias ref then (-mv.1, -mv.2) else mv

/-- The add extra motion vector candidate process (7.10.2.13), for one entry of `candList`. -/
def Input.addExtra (p : Input) (candRef : Int) (mv : Mv) (e : Extra) : Extra :=
  if candRef > 0 then
    if p.isCompound then
      let e := if candRef = p.ref0 ∧ e.id0.length < 2 then { e with id0 := e.id0 ++ [mv] }
        else if e.diff0.length < 2 then { e with diff0 := e.diff0 ++ [p.turned candRef p.ref0 mv] } else e
      if candRef = p.ref1 ∧ e.id1.length < 2 then { e with id1 := e.id1 ++ [mv] }
      else if e.diff1.length < 2 then { e with diff1 := e.diff1 ++ [p.turned candRef p.ref1 mv] } else e
    else
      let mv := p.turned candRef p.ref0 mv
      if e.stack.any (fun q => decide (q.mv0 = mv)) then e else { e with stack := e.stack ++ [⟨mv, (0, 0), 2⟩] }
  else e

/-- A pass of the extra search process: above (`pass` = 0) or to the left. -/
def Input.extraLoop (p : Input) (pass num4x4 : Nat) : Nat → Nat → Extra → Option Extra
  | 0, idx, e => if idx < num4x4 ∧ e.stack.length < 2 then none else some e
  | fuel + 1, idx, e =>
    if idx < num4x4 ∧ e.stack.length < 2 then
      let mvRow : Int := if pass = 0 then (p.miRow : Int) - 1 else p.miRow + idx
      let mvCol : Int := if pass = 0 then (p.miCol : Int) + idx else (p.miCol : Int) - 1
      if p.g.isInside mvRow mvCol = false then some e
      else do
        let b ← p.d mvRow.toNat mvCol.toNat
        let e := p.addExtra b.info.ref1 b.info.mv1 (p.addExtra b.info.ref0 b.info.mv0 e)
        p.extraLoop pass num4x4 fuel (idx + if pass = 0 then b.bw4 else b.bh4) e
    else some e

/-- `combinedMvs[ idx ][ list ]`: the first two of `RefIdMvs`, `RefDiffMvs` and `GlobalMvs`. -/
def combined (ids diffs : List Mv) : Mv × Mv :=
  match ids ++ diffs ++ [(0, 0), (0, 0)] with
  | a :: b :: _ => (a, b)
  | _ => ((0, 0), (0, 0))

/-- The extra search process (7.10.2.12). -/
def Input.extraSearch (p : Input) (stack : List Entry) : Option (List Entry) := do
  let w4 := min (min 16 p.bw4) (p.g.miCols - p.miCol)
  let h4 := min (min 16 p.bh4) (p.g.miRows - p.miRow)
  let num4x4 := min w4 h4
  let e ← p.extraLoop 0 num4x4 num4x4 0 ⟨stack, [], [], [], []⟩
  let e ← p.extraLoop 1 num4x4 num4x4 0 e
  if p.isCompound then
    let c0 := combined e.id0 e.diff0
    let c1 := combined e.id1 e.diff1
    match e.stack with
    | [q] => some (if c0.1 = q.mv0 ∧ c1.1 = q.mv1 then [q, ⟨c0.2, c1.2, 2⟩] else [q, ⟨c0.1, c1.1, 2⟩])
    | _ => some [⟨c0.1, c1.1, 2⟩, ⟨c0.2, c1.2, 2⟩]
  else some e.stack

/-- `Clip3`. -/
def clip3 (lo hi x : Int) : Int := if x < lo then lo else if x > hi then hi else x

/-- `clamp_mv_row` (7.10.2.14) with `border` = `MV_BORDER + bh4 * 4 * 8`. -/
def Input.clampRow (p : Input) (v : Int) : Int :=
  let border : Int := 128 + p.bh4 * 4 * 8
  clip3 (-((p.miRow : Int) * 4 * 8) - border) (((p.g.miRows : Int) - p.bh4 - p.miRow) * 4 * 8 + border) v

/-- `clamp_mv_col`. -/
def Input.clampCol (p : Input) (v : Int) : Int :=
  let border : Int := 128 + p.bw4 * 4 * 8
  clip3 (-((p.miCol : Int) * 4 * 8) - border) (((p.g.miCols : Int) - p.bw4 - p.miCol) * 4 * 8 + border) v

/-- The clamping in the context and clamping process (7.10.2.14). -/
def Input.clampEntry (p : Input) (e : Entry) : Entry :=
  { e with mv0 := (p.clampRow e.mv0.1, p.clampCol e.mv0.2), mv1 := if p.isCompound then (p.clampRow e.mv1.1, p.clampCol e.mv1.2) else e.mv1 }

/-- `DrlCtxStack`. -/
def drlCtx : List Entry → List Nat
  | a :: b :: l => (if a.weight < 640 then 2 else if b.weight < 640 then 1 else 0) :: drlCtx (b :: l)
  | [_] => [0]
  | [] => []

/-- What the process gives: the stack (`NumMvFound`, `RefStackMv`, `WeightStack`), `NewMvContext`, `RefMvContext` and `DrlCtxStack`. -/
structure Result where
  stack : List Entry
  newMvContext : Nat
  refMvContext : Nat
  drl : List Nat
  deriving DecidableEq, Repr

/-- `NewMvContext` and `RefMvContext` (7.10.2.14). -/
def contexts (closeMatches totalMatches numNew : Nat) : Nat × Nat :=
  if closeMatches = 0 then (min totalMatches 1, totalMatches)
  else if closeMatches = 1 then (3 - min numNew 1, 2 + totalMatches)
  else (5 - min numNew 1, 5)

/-- The first half of the motion vector prediction process (7.10.2), up to `numNearest`: the stack, `foundAboveMatch` and `foundLeftMatch`. -/
def Input.nearest (p : Input) : Option (St × Bool × Bool) := do
  let s ← p.scanRow (-1) ⟨[], 0, false⟩
  let foundAbove := s.foundMatch
  let s ← p.scanCol (-1) { s with foundMatch := false }
  let foundLeft := s.foundMatch
  let s : St := { s with foundMatch := false }
  let s := if max p.bw4 p.bh4 ≤ 16 then p.scanPoint (-1) p.bw4 s else s
  return (s, foundAbove || s.foundMatch, foundLeft)

/-- The second half: the point above and to the left, then the rows and columns further away. -/
def Input.outer (p : Input) (s : St) (foundAbove foundLeft : Bool) : Option (St × Bool × Bool) := do
  let s := p.scanPoint (-1) (-1) { s with foundMatch := false }
  let foundAbove := foundAbove || s.foundMatch
  let s ← p.scanRow (-3) { s with foundMatch := false }
  let foundAbove := foundAbove || s.foundMatch
  let s ← p.scanCol (-3) { s with foundMatch := false }
  let foundLeft := foundLeft || s.foundMatch
  let s ← if p.bh4 > 1 then p.scanRow (-5) { s with foundMatch := false } else some { s with foundMatch := false }
  let foundAbove := foundAbove || s.foundMatch
  let s ← if p.bw4 > 1 then p.scanCol (-5) { s with foundMatch := false } else some { s with foundMatch := false }
  return (s, foundAbove, foundLeft || s.foundMatch)

/-- The motion vector prediction process (7.10.2), `REF_CAT_LEVEL` = 640. -/
def Input.findMvStack (p : Input) : Option Result := do
  let (s, foundAbove, foundLeft) ← p.nearest
  let closeMatches := foundAbove.toNat + foundLeft.toNat
  let numNearest := s.stack.length
  let numNew := s.newMvCount
  let stack : List Entry := s.stack.map fun e => { e with weight := e.weight + 640 }
  let (s, foundAbove, foundLeft) ← p.outer { s with stack := stack } foundAbove foundLeft
  let totalMatches := foundAbove.toNat + foundLeft.toNat
  let stack := sort numNearest (s.stack.take numNearest) ++ sort (s.stack.length - numNearest) (s.stack.drop numNearest)
  let stack ← if stack.length < 2 then p.extraSearch stack else some stack
  let ctx := contexts closeMatches totalMatches numNew
  return { stack := stack.map p.clampEntry, newMvContext := ctx.1, refMvContext := ctx.2, drl := drlCtx stack }

end Rav1e.Mvref.Spec

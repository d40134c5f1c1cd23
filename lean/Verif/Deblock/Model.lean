import Verif.Coef.Model

/-!
# The deblocking filter

Model of `src/deblock.rs` from `deblock_size` to `deblock_filter_frame`, as `encode_tile_group` uses it
(`src/encoder.rs:3280-3293`): one region that covers the frame, so `rect.x = rect.y = 0`.

A plane is a function from row and column to the value of the pixel.  Rows and columns are counted from the top left
pixel of the picture and may be negative: the planes have padding.  The `i32` values are integers, and the conversion of
results to the pixel type (`T::cast_from`) is not written; `Deblock.deblockPlane_range` proves that every value fits.
`none` is a panic.

The adjustments of the level by block and by reference (`block_deltas_enabled`, `deltas_enabled`) and the sharpness are
off: `DeblockState::default` (`src/encoder.rs:534-548`) sets them so and no other code changes them.
-/

namespace Rav1e.Deblock
open Rav1e.Quant (TxSize)
open Rav1e.Coef (BlockSize codedSize)

/-- Pixels by row and column. -/
abbrev Plane := Int → Int → Int

/-- The fields of `Block` that the filter reads, `context/block_unit.rs:165-183`; `n4_w` and `n4_h` are those of the
block size (`TileBlocksMut::set_block_size`, `tiling/tile_blocks.rs:233-242`). `intra` is
`ref_frames[0] == INTRA_FRAME`. -/
structure Block where
  bsize : BlockSize
  txsize : TxSize
  skip : Bool
  intra : Bool
deriving DecidableEq, Repr

/-- What `deblock_plane` is given besides the plane, `deblock.rs:1294-1297`: `DeblockState::levels`, the number of the
plane and its decimation, the blocks of the frame, the size of the frame in luma pixels, the bit depth. -/
structure Params where
  levels : Nat → Nat
  pli : Nat
  xdec : Nat
  ydec : Nat
  blk : Nat → Nat → Block
  cols : Nat
  rows : Nat
  cropW : Nat
  cropH : Nat
  bd : Nat

/-- `blocks[y][x]`: panics outside of the frame. -/
def blockAt (g : Params) (y x : Nat) : Option Block :=
  if y < g.rows ∧ x < g.cols then some (g.blk y x) else none

/-! ## Level and size of the filter -/

/-- `deblock_adjusted_level`, `deblock.rs:23-69`, without the adjustments. -/
def adjustedLevel (g : Params) (vertical : Bool) : Nat :=
  g.levels (if g.pli = 0 then (if vertical then 0 else 1) else g.pli + 1)

/-- `deblock_level`, `deblock.rs:133-143`. -/
def level (g : Params) (vertical : Bool) : Nat :=
  if adjustedLevel g vertical = 0 then adjustedLevel g vertical else adjustedLevel g vertical

/-- `deblock_left`, `deblock.rs:72-81`. -/
def deblockLeft (g : Params) (y x : Nat) : Option Block := blockAt g (y ||| g.ydec) ((x ||| g.xdec) - (1 <<< g.xdec))

/-- `deblock_up`, `deblock.rs:84-92`. -/
def deblockUp (g : Params) (y x : Nat) : Option Block := blockAt g ((y ||| g.ydec) - (1 <<< g.ydec)) (x ||| g.xdec)

/-- `max_txsize_rect_lookup`, `context/transform_unit.rs:60-83`. -/
def maxTxRect : BlockSize → TxSize
  | .b4x4 => .tx4x4 | .b4x8 => .tx4x8 | .b8x4 => .tx8x4 | .b8x8 => .tx8x8 | .b8x16 => .tx8x16 | .b16x8 => .tx16x8
  | .b16x16 => .tx16x16 | .b16x32 => .tx16x32 | .b32x16 => .tx32x16 | .b32x32 => .tx32x32 | .b32x64 => .tx32x64
  | .b64x32 => .tx64x32 | .b64x64 => .tx64x64 | .b64x128 => .tx64x64 | .b128x64 => .tx64x64 | .b128x128 => .tx64x64
  | .b4x16 => .tx4x16 | .b16x4 => .tx16x4 | .b8x32 => .tx8x32 | .b32x8 => .tx32x8 | .b16x64 => .tx16x64
  | .b64x16 => .tx64x16

/-- `BlockSize::largest_chroma_tx_size`, `partition.rs:385-393`. -/
def largestChromaTx (b : BlockSize) (xdec ydec : Nat) : Option TxSize :=
  (b.subsampled xdec ydec).map (fun s => codedSize (maxTxRect s))

/-- `TxSize::width_mi`, `transform/mod.rs:175-177`. -/
def widthMi (t : TxSize) : Nat := t.width >>> 2
/-- `TxSize::height_mi`, `transform/mod.rs:190-192`. -/
def heightMi (t : TxSize) : Nat := t.height >>> 2

/-- The transform size of a block in the plane, `deblock.rs:1104-1108`, `1200-1204` and `111-118`. -/
def txOf (g : Params) (b : Block) : Option TxSize :=
  if g.pli = 0 then some b.txsize else largestChromaTx b.bsize g.xdec g.ydec

/-- `deblock_size`, `deblock.rs:95-129`. -/
def deblockSize (g : Params) (block prev : Block) (vertical blockEdge : Bool) : Option Nat :=
  if !(blockEdge || !block.skip || !prev.skip || block.intra || prev.intra) then some 0
  else do
    let txsize ← txOf g block
    let prevTx ← txOf g prev
    let txN := if vertical then max (widthMi txsize) 1 else max (heightMi txsize) 1
    let prevN := if vertical then max (widthMi prevTx) 1 else max (heightMi prevTx) 1
    some (min (if g.pli = 0 then 14 else 6) (min txN prevN <<< 2))

/-! ## The filters -/

/-- `v_frame::math::clamp`. -/
def clamp (x lo hi : Int) : Int := if x < lo then lo else if hi < x then hi else x

/-- `filter_narrow2_4`, `deblock.rs:147-175`. -/
def filterNarrow2 (p1 p0 q0 q1 : Int) (shift : Nat) : List Int :=
  let lo : Int := -128 * 2 ^ shift
  let hi : Int := 128 * 2 ^ shift - 1
  let filter0 := clamp (p1 - q1) lo hi
  let filter1 := clamp (filter0 + 3 * (q0 - p0) + 4) lo hi >>> 3
  let filter2 := clamp (filter0 + 3 * (q0 - p0) + 3) lo hi >>> 3
  [p1, clamp (p0 + filter2) 0 (256 * 2 ^ shift - 1), clamp (q0 - filter1) 0 (256 * 2 ^ shift - 1), q1]

/-- `filter_narrow4_4`, `deblock.rs:198-224`. -/
def filterNarrow4 (p1 p0 q0 q1 : Int) (shift : Nat) : List Int :=
  let lo : Int := -128 * 2 ^ shift
  let hi : Int := 128 * 2 ^ shift - 1
  let top : Int := 256 * 2 ^ shift - 1
  let filter1 := clamp (3 * (q0 - p0) + 4) lo hi >>> 3
  let filter2 := clamp (3 * (q0 - p0) + 3) lo hi >>> 3
  let filter3 := (filter1 + 1) >>> 1
  [clamp (p1 + filter3) 0 top, clamp (p0 + filter2) 0 top, clamp (q0 - filter1) 0 top, clamp (q1 - filter3) 0 top]

/-- `filter_wide6_4`, `deblock.rs:248-257`. -/
def filterWide6 (p2 p1 p0 q0 q1 q2 : Int) : List Int :=
  [(p2*3 + p1*2 + p0*2 + q0 + 4) >>> 3,
   (p2 + p1*2 + p0*2 + q0*2 + q1 + 4) >>> 3,
   (p1 + p0*2 + q0*2 + q1*2 + q2 + 4) >>> 3,
   (p0 + q0*2 + q1*2 + q2*3 + 4) >>> 3]

/-- `filter_wide8_6`, `deblock.rs:262-273`. -/
def filterWide8 (p3 p2 p1 p0 q0 q1 q2 q3 : Int) : List Int :=
  [(p3*3 + p2*2 + p1 + p0 + q0 + 4) >>> 3,
   (p3*2 + p2 + p1*2 + p0 + q0 + q1 + 4) >>> 3,
   (p3 + p2 + p1 + p0*2 + q0 + q1 + q2 + 4) >>> 3,
   (p2 + p1 + p0 + q0*2 + q1 + q2 + q3 + 4) >>> 3,
   (p1 + p0 + q0 + q1*2 + q2 + q3*2 + 4) >>> 3,
   (p0 + q0 + q1 + q2*2 + q3*3 + 4) >>> 3]

/-- `filter_wide14_12`, `deblock.rs:288-306`. -/
def filterWide14 (p6 p5 p4 p3 p2 p1 p0 q0 q1 q2 q3 q4 q5 q6 : Int) : List Int :=
  [(p6*7 + p5*2 + p4*2 + p3 + p2 + p1 + p0 + q0 + 8) >>> 4,
   (p6*5 + p5*2 + p4*2 + p3*2 + p2 + p1 + p0 + q0 + q1 + 8) >>> 4,
   (p6*4 + p5 + p4*2 + p3*2 + p2*2 + p1 + p0 + q0 + q1 + q2 + 8) >>> 4,
   (p6*3 + p5 + p4 + p3*2 + p2*2 + p1*2 + p0 + q0 + q1 + q2 + q3 + 8) >>> 4,
   (p6*2 + p5 + p4 + p3 + p2*2 + p1*2 + p0*2 + q0 + q1 + q2 + q3 + q4 + 8) >>> 4,
   (p6 + p5 + p4 + p3 + p2 + p1*2 + p0*2 + q0*2 + q1 + q2 + q3 + q4 + q5 + 8) >>> 4,
   (p5 + p4 + p3 + p2 + p1 + p0*2 + q0*2 + q1*2 + q2 + q3 + q4 + q5 + q6 + 8) >>> 4,
   (p4 + p3 + p2 + p1 + p0 + q0*2 + q1*2 + q2*2 + q3 + q4 + q5 + q6*2 + 8) >>> 4,
   (p3 + p2 + p1 + p0 + q0 + q1*2 + q2*2 + q3*2 + q4 + q5 + q6*3 + 8) >>> 4,
   (p2 + p1 + p0 + q0 + q1 + q2*2 + q3*2 + q4*2 + q5 + q6*4 + 8) >>> 4,
   (p1 + p0 + q0 + q1 + q2 + q3*2 + q4*2 + q5*2 + q6*5 + 8) >>> 4,
   (p0 + q0 + q1 + q2 + q3 + q4*2 + q5*2 + q6*7 + 8) >>> 4]

/-! ## The thresholds -/

/-- `limit_to_level`, `deblock.rs:339-341`. -/
def limitToLevel (limit : Int) (shift : Nat) : Int := (limit + 2 ^ shift - 1) >>> shift
/-- `blimit_to_level`, `deblock.rs:349-351`; the division of `i32` rounds to zero. -/
def blimitToLevel (blimit : Int) (shift : Nat) : Int := (((blimit + 2 ^ shift - 1) >>> shift) - 2).tdiv 3
/-- `thresh_to_level`, `deblock.rs:359-361`. -/
def threshToLevel (thresh : Int) (shift : Nat) : Int := ((thresh + 2 ^ shift - 1) >>> shift) * 16

/-- `(a - b).abs()`. -/
def dist (a b : Int) : Int := (a - b).natAbs

/-- `nhev4`, `deblock.rs:364-366`. -/
def nhev4 (p1 p0 q0 q1 : Int) (shift : Nat) : Nat :=
  (threshToLevel (max (dist p1 p0) (dist q1 q0)) shift).toNat

/-- `mask4`, `deblock.rs:369-374`. -/
def mask4 (p1 p0 q0 q1 : Int) (shift : Nat) : Nat :=
  (max (limitToLevel (max (dist p1 p0) (dist q1 q0)) shift)
    (blimitToLevel (dist p0 q0 * 2 + (dist p1 q1).tdiv 2) shift)).toNat

/-- `mask6`, `deblock.rs:475-488`. -/
def mask6 (p2 p1 p0 q0 q1 q2 : Int) (shift : Nat) : Nat :=
  (max (limitToLevel (max (dist p2 p1) (max (dist p1 p0) (max (dist q2 q1) (dist q1 q0)))) shift)
    (blimitToLevel (dist p0 q0 * 2 + (dist p1 q1).tdiv 2) shift)).toNat

/-- `flat6`, `deblock.rs:491-496`. -/
def flat6 (p2 p1 p0 q0 q1 q2 : Int) : Nat :=
  (max (dist p1 p0) (max (dist q1 q0) (max (dist p2 p0) (dist q2 q0)))).toNat

/-- `mask8`, `deblock.rs:628-651`. -/
def mask8 (p3 p2 p1 p0 q0 q1 q2 q3 : Int) (shift : Nat) : Nat :=
  (max (limitToLevel (max (dist p3 p2) (max (dist p2 p1) (max (dist p1 p0) (max (dist q3 q2)
      (max (dist q2 q1) (dist q1 q0)))))) shift)
    (blimitToLevel (dist p0 q0 * 2 + (dist p1 q1).tdiv 2) shift)).toNat

/-- `flat8`, `deblock.rs:654-667`. -/
def flat8 (p3 p2 p1 p0 q0 q1 q2 q3 : Int) : Nat :=
  (max (dist p1 p0) (max (dist q1 q0) (max (dist p2 p0) (max (dist q2 q0) (max (dist p3 p0) (dist q3 q0)))))).toNat

/-- `flat14_outer`, `deblock.rs:830-843`. -/
def flat14Outer (p6 p5 p4 p0 q0 q4 q5 q6 : Int) : Nat :=
  (max (dist p4 p0) (max (dist q4 q0) (max (dist p5 p0) (max (dist q5 q0) (max (dist p6 p0) (dist q6 q0)))))).toNat

/-! ## The filter of one line of pixels across an edge -/

/-- `deblock_size4_inner`, `deblock.rs:377-390`. -/
def size4Inner (p1 p0 q0 q1 : Int) (level bd : Nat) : Option (List Int) :=
  if mask4 p1 p0 q0 q1 (bd - 8) ≤ level then
    some (if nhev4 p1 p0 q0 q1 (bd - 8) ≤ level then filterNarrow4 p1 p0 q0 q1 (bd - 8)
      else filterNarrow2 p1 p0 q0 q1 (bd - 8))
  else none

/-- `deblock_size6_inner`, `deblock.rs:499-515`. -/
def size6Inner (p2 p1 p0 q0 q1 q2 : Int) (level bd : Nat) : Option (List Int) :=
  if mask6 p2 p1 p0 q0 q1 q2 (bd - 8) ≤ level then
    some (if flat6 p2 p1 p0 q0 q1 q2 ≤ 1 <<< (bd - 8) then filterWide6 p2 p1 p0 q0 q1 q2
      else if nhev4 p1 p0 q0 q1 (bd - 8) ≤ level then filterNarrow4 p1 p0 q0 q1 (bd - 8)
      else filterNarrow2 p1 p0 q0 q1 (bd - 8))
  else none

/-- `deblock_size8_inner`, `deblock.rs:670-686`, with `filter_narrow4_6` and `filter_narrow2_6`,
`deblock.rs:228-233, 179-184`. -/
def size8Inner (p3 p2 p1 p0 q0 q1 q2 q3 : Int) (level bd : Nat) : Option (List Int) :=
  if mask8 p3 p2 p1 p0 q0 q1 q2 q3 (bd - 8) ≤ level then
    some (if flat8 p3 p2 p1 p0 q0 q1 q2 q3 ≤ 1 <<< (bd - 8) then filterWide8 p3 p2 p1 p0 q0 q1 q2 q3
      else if nhev4 p1 p0 q0 q1 (bd - 8) ≤ level then [p2] ++ filterNarrow4 p1 p0 q0 q1 (bd - 8) ++ [q2]
      else [p2] ++ filterNarrow2 p1 p0 q0 q1 (bd - 8) ++ [q2])
  else none

/-- `deblock_size14_inner`, `deblock.rs:846-875`, with `filter_wide8_12`, `filter_narrow4_12` and `filter_narrow2_12`,
`deblock.rs:277-283, 237-243, 188-194`. -/
def size14Inner (p6 p5 p4 p3 p2 p1 p0 q0 q1 q2 q3 q4 q5 q6 : Int) (level bd : Nat) : Option (List Int) :=
  if mask8 p3 p2 p1 p0 q0 q1 q2 q3 (bd - 8) ≤ level then
    some (if flat8 p3 p2 p1 p0 q0 q1 q2 q3 ≤ 1 <<< (bd - 8) then
        (if flat14Outer p6 p5 p4 p0 q0 q4 q5 q6 ≤ 1 <<< (bd - 8) then
          filterWide14 p6 p5 p4 p3 p2 p1 p0 q0 q1 q2 q3 q4 q5 q6
        else [p5, p4, p3] ++ filterWide8 p3 p2 p1 p0 q0 q1 q2 q3 ++ [q3, q4, q5])
      else if nhev4 p1 p0 q0 q1 (bd - 8) ≤ level then
        [p5, p4, p3, p2] ++ filterNarrow4 p1 p0 q0 q1 (bd - 8) ++ [q2, q3, q4, q5]
      else [p5, p4, p3, p2] ++ filterNarrow2 p1 p0 q0 q1 (bd - 8) ++ [q2, q3, q4, q5])
  else none

/-- The values of a line and the `match filter_size`, `deblock.rs:1125-1139`, with the reads of `deblock_v_size4`
(`deblock.rs:393-403`), `deblock_v_size6` (`518-529`), `deblock_v_size8` (`689-708`), `deblock_v_size14` (`878-903`);
`v j` is the pixel at index `j` of the line. The outer `none` is `unreachable!()`. -/
def inner (size : Nat) (v : Nat → Int) (level bd : Nat) : Option (Option (List Int)) :=
  match size with
  | 4 => some (size4Inner (v 0) (v 1) (v 2) (v 3) level bd)
  | 6 => some (size6Inner (v 0) (v 1) (v 2) (v 3) (v 4) (v 5) level bd)
  | 8 => some (size8Inner (v 0) (v 1) (v 2) (v 3) (v 4) (v 5) (v 6) (v 7) level bd)
  | 14 => some (size14Inner (v 0) (v 1) (v 2) (v 3) (v 4) (v 5) (v 6) (v 7) (v 8) (v 9) (v 10) (v 11) (v 12) (v 13)
      level bd)
  | _ => none

/-- The index of the first pixel that is written, `deblock.rs:400, 526, 705, 900` and `413, 545, 726, 927`. -/
def outAt (size : Nat) : Int := if size = 4 then 0 else 1

/-- `copy_horizontal`, `deblock.rs:309-316`. -/
def copyHorizontal (p : Plane) (x y : Int) (src : List Int) : Plane :=
  fun r c => if r = y ∧ x ≤ c ∧ c < x + src.length then src.getD (c - x).toNat 0 else p r c

/-- `copy_vertical`, `deblock.rs:319-326`. -/
def copyVertical (p : Plane) (x y : Int) (src : List Int) : Plane :=
  fun r c => if c = x ∧ y ≤ r ∧ r < y + src.length then src.getD (r - y).toNat 0 else p r c

/-- One pass of the loop of `deblock_v_size4` and its kin, on row `y` of the region at `(x0, y0)`. -/
def vLine (size level bd : Nat) (x0 y0 : Int) (p : Plane) (y : Nat) : Option Plane :=
  (inner size (fun j => p (y0 + y) (x0 + j)) level bd).map (fun o =>
    match o with
    | some data => copyHorizontal p (x0 + outAt size) (y0 + y) data
    | none => p)

/-- One pass of the loop of `deblock_h_size4` (`deblock.rs:406-416`) and its kin (`532-548`, `711-729`, `906-930`), on
column `x` of the region at `(x0, y0)`. -/
def hLine (size level bd : Nat) (x0 y0 : Int) (p : Plane) (x : Nat) : Option Plane :=
  (inner size (fun j => p (y0 + j) (x0 + x)) level bd).map (fun o =>
    match o with
    | some data => copyVertical p (x0 + x) (y0 + outAt size) data
    | none => p)

/-! ## Edges -/

/-- The end of `filter_v_edge`, `deblock.rs:1115-1141`. -/
def vApply (g : Params) (x y size : Nat) (p : Plane) : Option Plane :=
  if 0 < size then
    if 0 < level g true then
      [0, 1, 2, 3].foldlM (vLine size (level g true) g.bd (((x >>> g.xdec <<< 2 : Nat) : Int) - (size >>> 1 : Nat))
        ((y >>> g.ydec <<< 2 : Nat) : Int)) p
    else some p
  else some p

/-- `filter_v_edge`, `deblock.rs:1099-1143`. -/
def filterVEdge (g : Params) (y : Nat) (p : Plane) (x : Nat) : Option Plane := do
  let block ← blockAt g y x
  let tx ← txOf g block
  if (x >>> g.xdec) &&& (widthMi tx - 1) = 0 then do
    let prev ← deblockLeft g y x
    let size ← deblockSize g block prev true (x &&& (block.bsize.widthMi - 1) == 0)
    vApply g x y size p
  else some p

/-- The end of `filter_h_edge`, `deblock.rs:1211-1237`. -/
def hApply (g : Params) (x y size : Nat) (p : Plane) : Option Plane :=
  if 0 < size then
    if 0 < level g false then
      [0, 1, 2, 3].foldlM (hLine size (level g false) g.bd ((x >>> g.xdec <<< 2 : Nat) : Int)
        (((y >>> g.ydec <<< 2 : Nat) : Int) - (size >>> 1 : Nat))) p
    else some p
  else some p

/-- `filter_h_edge`, `deblock.rs:1195-1239`. -/
def filterHEdge (g : Params) (y : Nat) (p : Plane) (x : Nat) : Option Plane := do
  let block ← blockAt g y x
  let tx ← txOf g block
  if (y >>> g.ydec) &&& (heightMi tx - 1) = 0 then do
    let prev ← deblockUp g y x
    let size ← deblockSize g block prev false (y &&& (block.bsize.heightMi - 1) == 0)
    hApply g x y size p
  else some p

/-! ## Planes -/

/-- `(a..b).step_by(s)`. -/
def stepBy (a b s : Nat) : List Nat := (List.range ((b - a + (s - 1)) / s)).map (fun i => a + i * s)

/-- The bounds of the loops, `deblock.rs:1322-1333`; `n` is `blocks.cols()` or `blocks.rows()`. -/
def bound (n crop dec : Nat) : Nat := (min n ((crop + 4 - 1) >>> 2) + (1 <<< dec >>> 1)) >>> dec <<< dec

/-- `deblock.rs:1338-1365`: the vertical edges of the first two rows of blocks. -/
def firstRows (g : Params) (cols rows : Nat) (p : Plane) : Option Plane :=
  if 0 < rows then do
    let p ← (stepBy (1 <<< g.xdec) cols (1 <<< g.xdec)).foldlM (filterVEdge g 0) p
    if 1 <<< g.ydec < rows then
      (stepBy (1 <<< g.xdec) cols (1 <<< g.xdec)).foldlM (filterVEdge g (1 <<< g.ydec)) p
    else some p
  else some p

/-- The body of the loop over the columns, `deblock.rs:1386-1408`. -/
def pairStep (g : Params) (y : Nat) (p : Plane) (x : Nat) : Option Plane := do
  let p ← filterVEdge g y p x
  filterHEdge g (y - (1 <<< g.ydec)) p (x - (2 <<< g.xdec))

/-- The body of the loop over the rows, `deblock.rs:1370-1440`. -/
def rowStep (g : Params) (cols : Nat) (p : Plane) (y : Nat) : Option Plane := do
  let p ← (if 1 <<< g.xdec < cols then [1 <<< g.xdec] else []).foldlM (filterVEdge g y) p
  let p ← (stepBy (2 <<< g.xdec) cols (1 <<< g.xdec)).foldlM (pairStep g y) p
  let p ← (if 2 <<< g.xdec ≤ cols then [cols - (2 <<< g.xdec)] else []).foldlM
    (filterHEdge g (y - (1 <<< g.ydec))) p
  (if 1 <<< g.xdec ≤ cols then [cols - (1 <<< g.xdec)] else []).foldlM (filterHEdge g (y - (1 <<< g.ydec))) p

/-- `deblock.rs:1444-1457`: the last row of horizontal edges. -/
def lastRow (g : Params) (cols rows : Nat) (p : Plane) : Option Plane :=
  if 1 <<< g.ydec < rows then
    (stepBy 0 cols (1 <<< g.xdec)).foldlM (filterHEdge g (rows - (1 <<< g.ydec))) p
  else some p

/-- The loops of `deblock_plane`, `deblock.rs:1322-1457`. -/
def edges (g : Params) (p : Plane) : Option Plane := do
  let p ← firstRows g (bound g.cols g.cropW g.xdec) (bound g.rows g.cropH g.ydec) p
  let p ← (stepBy (2 <<< g.ydec) (bound g.rows g.cropH g.ydec) (1 <<< g.ydec)).foldlM
    (rowStep g (bound g.cols g.cropW g.xdec)) p
  lastRow g (bound g.cols g.cropW g.xdec) (bound g.rows g.cropH g.ydec) p

/-- `deblock_plane`, `deblock.rs:1294-1458`. -/
def deblockPlane (g : Params) (p : Plane) : Option Plane :=
  if ¬(g.xdec ≤ 1 ∧ g.ydec ≤ 1) then none
  else match g.pli with
    | 0 => if g.levels 0 = 0 ∧ g.levels 1 = 0 then some p else edges g p
    | 1 => if g.levels 2 = 0 then some p else edges g p
    | 2 => if g.levels 3 = 0 then some p else edges g p
    | _ => some p

/-- The deblocking of a frame: `encode_tile_group`, `encoder.rs:3280-3293`, and `deblock_filter_frame`,
`deblock.rs:1544-1551`.  `g pli` are the parameters of plane `pli`; the planes are filtered independently of one another
(`par_iter_mut`). -/
def deblockFrame (levels : Nat → Nat) (g : Nat → Params) (planes : Nat) (f : Nat → Plane) : Nat → Option Plane :=
  fun pli =>
    if levels 0 ≠ 0 ∨ levels 1 ≠ 0 then
      if pli < planes then deblockPlane (g pli) (f pli) else some (f pli)
    else some (f pli)

end Rav1e.Deblock

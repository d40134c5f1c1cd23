/-!
# Tiles: model of `tiling/tiler.rs` and of the tile loop in `Sequence::new`

All quantities are `usize` in the code; validated frames are at most 65535 pixels wide
and high, so nothing overflows and `Nat` is exact.  The only floating point expression,
the rate limit of Annex A, enters through its result `rateLog2`: every theorem
quantifies over it.
-/

namespace Rav1e.Tile

/-- `align_power_of_two` (`v_frame/src/math.rs`, trait `Fixed`):
`(self + (1 << n) - 1) & !((1 << n) - 1)`. -/
def alignPow2 (x n : Nat) : Nat := (x + 2 ^ n - 1) / 2 ^ n * 2 ^ n

/-- `align_power_of_two_and_shift`: `(self + (1 << n) - 1) >> n`. -/
def alignShift (x n : Nat) : Nat := (x + 2 ^ n - 1) / 2 ^ n

/-- `usize::div_ceil`. -/
def divCeil (x n : Nat) : Nat := (x + n - 1) / n

/-- `usize::min`/`max` bound by `clamp(lo, hi)`, which panics when `lo > hi`. -/
def clamp (x lo hi : Nat) : Option Nat := if hi < lo then none else some (min (max x lo) hi)

/-- The loop of `tile_log2`, `tiling/tiler.rs:156-162`; `checked_shl` gives up at 64. -/
def tileLog2From (blk target : Nat) : Nat → Nat → Option Nat
  | 0, _ => none
  | fuel + 1, k => if blk * 2 ^ k % 2 ^ 64 < target then tileLog2From blk target fuel (k + 1)
      else some k

/-- `TilingInfo::tile_log2`, `tiling/tiler.rs:156-162`. -/
def tileLog2 (blk target : Nat) : Option Nat := tileLog2From blk target 64 0

/-- `TilingInfo`, `tiling/tiler.rs:35-50`. -/
structure TilingInfo where
  frameWidth : Nat
  frameHeight : Nat
  tileWidthSb : Nat
  tileHeightSb : Nat
  cols : Nat
  rows : Nat
  tileColsLog2 : Nat
  tileRowsLog2 : Nat
  minTileColsLog2 : Nat
  maxTileColsLog2 : Nat
  minTileRowsLog2 : Nat
  maxTileRowsLog2 : Nat
  sbSizeLog2 : Nat
  minTilesLog2 : Nat
deriving Repr, DecidableEq

/-- `MAX_TILE_WIDTH`, `MAX_TILE_AREA`, `MAX_TILE_COLS`, `MAX_TILE_ROWS`,
`tiling/tiler.rs:21-24`. -/
def maxTileWidth : Nat := 4096
def maxTileArea : Nat := 4096 * 2304
def maxTileCols : Nat := 64
def maxTileRows : Nat := 64

/-- `TilingInfo::from_target_tiles`, `tiling/tiler.rs:56-150`.  `none` is a panic
(`clamp` with crossed bounds, failed `assert!`, `unwrap` of `None`).  `rateLog2` is
`((w * h) as f64 * frame_rate / MAX_TILE_RATE).ceil().log2().ceil() as usize`
(lines 88-93), the only use of `frame_rate`. -/
def fromTargetTiles (sbLog2 width height rateLog2 colsLog2 rowsLog2 : Nat) (is422 : Bool) :
    Option TilingInfo := do
  let frameWidth := alignPow2 width 3
  let frameHeight := alignPow2 height 3
  let frameWidthSb := alignShift frameWidth sbLog2
  let frameHeightSb := alignShift frameHeight sbLog2
  let sbCols := alignShift frameWidth sbLog2
  let sbRows := alignShift frameHeight sbLog2
  let maxTileWidthSb := maxTileWidth / 2 ^ sbLog2
  let maxTileAreaSb := maxTileArea / 2 ^ (2 * sbLog2)
  let minTileColsLog2 ← tileLog2 maxTileWidthSb sbCols
  let maxTileColsLog2 ← tileLog2 1 (min sbCols maxTileCols)
  let maxTileRowsLog2 ← tileLog2 1 (min sbRows maxTileRows)
  let area ← tileLog2 maxTileAreaSb (sbCols * sbRows)
  let minTilesLog2 := max minTileColsLog2 area
  let minTilesRatelimitLog2 := max minTilesLog2 rateLog2
  let tileColsLog2 ← clamp colsLog2 minTileColsLog2 maxTileColsLog2
  let tileWidthSbPre := alignShift sbCols tileColsLog2
  let tileWidthSb := if is422 then (tileWidthSbPre + 1) / 2 * 2 else tileWidthSbPre
  let cols := divCeil frameWidthSb tileWidthSb
  let tileColsLog2 ← tileLog2 1 cols
  if tileColsLog2 < minTileColsLog2 then none
  let minTileRowsLog2 := minTilesLog2 - tileColsLog2
  let minTileRowsRatelimitLog2 := minTilesRatelimitLog2 - tileColsLog2
  let tileRowsLog2 ← clamp (max rowsLog2 minTileRowsLog2) minTileRowsRatelimitLog2 maxTileRowsLog2
  let tileHeightSb := alignShift sbRows tileRowsLog2
  let rows := divCeil frameHeightSb tileHeightSb
  some {
    frameWidth, frameHeight, tileWidthSb, tileHeightSb, cols, rows, tileColsLog2, tileRowsLog2,
    minTileColsLog2, maxTileColsLog2, minTileRowsLog2, maxTileRowsLog2, sbSizeLog2 := sbLog2,
    minTilesLog2 }

/-- The `while` loop of `Sequence::new`, `encoder.rs:248-277`, with the current exponents
and the tiling of the previous round.  `fuel` only bounds the recursion; see
`tileLoop_fuel`. -/
def tileLoop (build : Nat → Nat → Option TilingInfo) (tiles : Nat) :
    Nat → Nat → Nat → TilingInfo → Option TilingInfo
  | 0, _, _, _ => none
  | fuel + 1, r, c, ti =>
    if r < ti.maxTileRowsLog2 ∨ c < ti.maxTileColsLog2 then do
      let ti ← build c r
      if tiles ≤ ti.rows * ti.cols then some ti
      else if (ti.tileWidthSb ≤ ti.tileHeightSb ∧ ti.tileRowsLog2 < ti.maxTileRowsLog2) ∨
          ti.maxTileColsLog2 ≤ c then tileLoop build tiles fuel (r + 1) c ti
      else tileLoop build tiles fuel r (c + 1) ti
    else some ti

/-- The tiling chosen by `Sequence::new`, `encoder.rs:235-277`: superblocks are 64x64,
`tile_cols` and `tile_rows` first, then overridden by `tiles`. -/
def sequenceTiling (width height rateLog2 tileCols tileRows tiles : Nat) (is422 : Bool) :
    Option TilingInfo := do
  let c ← tileLog2 1 tileCols
  let r ← tileLog2 1 tileRows
  let build := fun c r => fromTargetTiles 6 width height rateLog2 c r is422
  let ti ← build c r
  if 0 < tiles then tileLoop build tiles 64 0 0 ti else some ti

/-- A half open rectangle. -/
structure Rect where
  x : Nat
  y : Nat
  w : Nat
  h : Nat
deriving Repr, DecidableEq

/-- Pixel (or block) `(px, py)` lies in the rectangle. -/
def Rect.Has (r : Rect) (px py : Nat) : Prop :=
  r.x ≤ px ∧ px < r.x + r.w ∧ r.y ≤ py ∧ py < r.y + r.h

instance (r : Rect) (px py : Nat) : Decidable (r.Has px py) := by
  unfold Rect.Has; infer_instance

/-- The luma rectangle of tile `i`: superblock offset and the `width` and `height` handed to
`TileStateMut::new` by `TileContextIterMut::next`, `tiling/tiler.rs:200-234`. -/
def tileRect (ti : TilingInfo) (i : Nat) : Rect :=
  let sx := i % ti.cols * ti.tileWidthSb
  let sy := i / ti.cols * ti.tileHeightSb
  let x := sx * 2 ^ ti.sbSizeLog2
  let y := sy * 2 ^ ti.sbSizeLog2
  { x, y
    w := min (ti.tileWidthSb * 2 ^ ti.sbSizeLog2) (ti.frameWidth - x)
    h := min (ti.tileHeightSb * 2 ^ ti.sbSizeLog2) (ti.frameHeight - y) }

/-- The rectangle of the reconstruction the tile may write: the tile rounded up to whole
superblocks, `tiling/tile_state.rs:141-149` (`luma_rect`), decimated for the chroma planes by
`TileRect::decimated`, `tiling/tile.rs:29-36`. -/
def recRect (ti : TilingInfo) (xdec ydec i : Nat) : Rect :=
  let r := tileRect ti i
  { x := r.x / 2 ^ xdec
    y := r.y / 2 ^ ydec
    w := alignPow2 r.w ti.sbSizeLog2 / 2 ^ xdec
    h := alignPow2 r.h ti.sbSizeLog2 / 2 ^ ydec }

/-- The 4x4 blocks handed to tile `i` (`TileBlocksMut`), `tiling/tiler.rs:235-248`;
`fbCols` and `fbRows` are the dimensions of `FrameBlocks`. -/
def blockRect (ti : TilingInfo) (fbCols fbRows i : Nat) : Rect :=
  let tw := ti.tileWidthSb * 2 ^ (ti.sbSizeLog2 - 2)
  let th := ti.tileHeightSb * 2 ^ (ti.sbSizeLog2 - 2)
  let x := i % ti.cols * tw
  let y := i / ti.cols * th
  { x, y, w := min tw (fbCols - x), h := min th (fbRows - y) }

/-- The motion statistics handed to tile `i` (`TileMEStatsMut::new`),
`tiling/tile_state.rs:176-187`. -/
def meRect (ti : TilingInfo) (i : Nat) : Rect :=
  let r := tileRect ti i
  { x := i % ti.cols * ti.tileWidthSb * 2 ^ (ti.sbSizeLog2 - 2)
    y := i / ti.cols * ti.tileHeightSb * 2 ^ (ti.sbSizeLog2 - 2)
    w := r.w / 4
    h := r.h / 4 }

end Rav1e.Tile

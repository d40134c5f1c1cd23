/-!
# Tiles: what a decoder derives (AV1 specification 5.9.15, 5.9.16, 6.8.14, Annex A)
-/

namespace Rav1e.Tile.Spec

/-- `tile_log2(blkSize, target)` (5.9.16): the smallest `k` with `blkSize << k >= target`
(no argument in `tile_info` needs more than 64). -/
def tileLog2 (blk target : Nat) : Nat :=
  ((List.range 64).find? fun k => decide (target ≤ blk * 2 ^ k)).getD 64

/-- `MiCols`/`MiRows` of `compute_image_size()` (5.9.8). -/
def mi (size : Nat) : Nat := 2 * ((size + 7) / 8)

/-- `sbCols`/`sbRows` for 64x64 superblocks. -/
def sbs (size : Nat) : Nat := (mi size + 15) / 16

def maxTileWidthSb : Nat := 4096 / 64
def maxTileAreaSb : Nat := 4096 * 2304 / 4096

def minLog2TileCols (w : Nat) : Nat := tileLog2 maxTileWidthSb (sbs w)
def maxLog2TileCols (w : Nat) : Nat := tileLog2 1 (min (sbs w) 64)
def maxLog2TileRows (h : Nat) : Nat := tileLog2 1 (min (sbs h) 64)
def minLog2Tiles (w h : Nat) : Nat :=
  max (minLog2TileCols w) (tileLog2 maxTileAreaSb (sbs h * sbs w))

/-- `for (startSb = 0; startSb < sb; i++) { starts[i] = startSb; startSb += size }`. -/
def startsFrom (sb size : Nat) : Nat → Nat → List Nat
  | 0, _ => []
  | fuel + 1, s => if s < sb then s :: startsFrom sb size fuel (s + size) else []

/-- The tile starts of `uniform_tile_spacing_flag = 1`:
`size = (sb + (1 << log2) - 1) >> log2`. -/
def uniformStarts (sb log2 : Nat) : List Nat :=
  startsFrom sb ((sb + 2 ^ log2 - 1) / 2 ^ log2) sb 0

/-- The largest tile height in superblocks that `uniform_tile_spacing_flag = 0` can express
(5.9.15): `maxTileHeightSb = Max(maxTileAreaSb / widestTileSb, 1)` with
`maxTileAreaSb = (sbRows * sbCols) >> (minLog2Tiles + 1)` when `minLog2Tiles > 0` and
`sbRows * sbCols` otherwise. -/
def maxTileHeightSb (w h widest : Nat) : Nat :=
  let area := if 0 < minLog2Tiles w h then sbs h * sbs w / 2 ^ (minLog2Tiles w h + 1)
    else sbs h * sbs w
  max (area / widest) 1

/-- The number of bits of the tile count the display rate forces (Annex A): the smallest `k`
such that `2 ^ k` tiles of the maximal rate `4096 * 2176 * 60 * 1.1` pixels per second make up
`area` pixels `den / num` times per second.  Exact arithmetic in place of `f64`. -/
def rateLog2 (w h num den : Nat) : Nat :=
  let area := 4 * mi w * (4 * mi h)
  let limit := 4096 * 2176 * 66 * num
  tileLog2 1 ((area * den + limit - 1) / limit)

end Rav1e.Tile.Spec

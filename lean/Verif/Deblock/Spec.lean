/-!
# The loop filter of a decoder

The loop filter process of the AV1 specification (section 7.14), for a frame whose header says
`delta_lf_present = 0` and `loop_filter_delta_enabled = 0`, with no loop filter feature in the segmentation: then the
filter level of a block is the one of the frame header.

The sizes of blocks and transforms are given in pixels: `Block_Width`, `Block_Height`, `Tx_Width`, `Tx_Height` of the
sizes that the decoder has stored.
-/

namespace Rav1e.Deblock.Spec

/-- The state of the decoder that the process reads, for one plane. -/
structure Dec where
  plane : Nat
  subX : Nat
  subY : Nat
  bitDepth : Nat
  frameWidth : Nat
  frameHeight : Nat
  miRows : Nat
  miCols : Nat
  /-- `loop_filter_level[ ]` -/
  lfLevel : Nat → Nat
  /-- `loop_filter_sharpness` -/
  sharpness : Nat
  /-- width and height of `MiSizes[ row ][ col ]` -/
  blockW : Nat → Nat → Nat
  blockH : Nat → Nat → Nat
  /-- width and height of `LoopfilterTxSizes[ 0 ][ row ][ col ]` -/
  lumaTxW : Nat → Nat → Nat
  lumaTxH : Nat → Nat → Nat
  /-- `Skips[ row ][ col ]` -/
  skip : Nat → Nat → Bool
  /-- `RefFrames[ row ][ col ][ 0 ] <= INTRA_FRAME` -/
  isIntra : Nat → Nat → Bool

/-- A line of samples across an edge: `q_i` is at `i`, `p_i` at `-1 - i`. -/
abbrev Line := Int → Int

def p (l : Line) (i : Int) : Int := l (-1 - i)
def q (l : Line) (i : Int) : Int := l i

def clip3 (lo hi x : Int) : Int := if x < lo then lo else if x > hi then hi else x
def round2 (x : Int) (n : Nat) : Int := if n = 0 then x else (x + 2 ^ (n - 1)) / 2 ^ n
def absDiff (a b : Int) : Int := if a < b then b - a else a - b

/-! ## Sizes (7.14.2, 5.11.38, 5.11.37) -/

/-- Width of `get_plane_residual_size( MiSizes[ row ][ col ], plane )`. -/
def Dec.planeW (d : Dec) (row col : Nat) : Nat :=
  if d.plane = 0 ∨ d.subX = 0 then d.blockW row col else max 4 (d.blockW row col / 2)
/-- Height of the same. -/
def Dec.planeH (d : Dec) (row col : Nat) : Nat :=
  if d.plane = 0 ∨ d.subY = 0 then d.blockH row col else max 4 (d.blockH row col / 2)

/-- Width of `LoopfilterTxSizes[ plane ][ row >> subY ][ col >> subX ]`; `row` and `col` are those of the block that
codes chroma. The transform of a chroma block is as large as the block, but not larger than 32. -/
def Dec.txW (d : Dec) (row col : Nat) : Nat :=
  if d.plane = 0 then d.lumaTxW row col else min 32 (d.planeW row col)
/-- Height of the same. -/
def Dec.txH (d : Dec) (row col : Nat) : Nat :=
  if d.plane = 0 then d.lumaTxH row col else min 32 (d.planeH row col)

/-! ## Level and limits (7.14.4, 7.14.5) -/

def Dec.lvl (d : Dec) (pass : Nat) : Nat := d.lfLevel (if d.plane = 0 then pass else d.plane + 1)

def Dec.limit (d : Dec) (lvl : Nat) : Int :=
  let shift := if d.sharpness > 4 then 2 else if d.sharpness > 0 then 1 else 0
  if d.sharpness > 0 then clip3 1 (9 - d.sharpness) (lvl / 2 ^ shift : Nat) else max 1 ((lvl / 2 ^ shift : Nat) : Int)
def Dec.blimit (d : Dec) (lvl : Nat) : Int := 2 * (lvl + 2) + d.limit lvl
def thresh (lvl : Nat) : Int := (lvl / 16 : Nat)

/-! ## Masks (7.14.6.2) -/

def hevMask (l : Line) (thresh : Int) (bitDepth : Nat) : Bool :=
  absDiff (p l 1) (p l 0) > thresh * 2 ^ (bitDepth - 8) || absDiff (q l 1) (q l 0) > thresh * 2 ^ (bitDepth - 8)

/-- `filterLen`: 4, 6, 8 or 16. -/
def filterLen (plane filterSize : Nat) : Nat :=
  if filterSize = 4 then 4 else if plane ≠ 0 then 6 else if filterSize = 8 then 8 else 16

def filterMask (l : Line) (filterLen : Nat) (limit blimit : Int) (bitDepth : Nat) : Bool :=
  let lim := limit * 2 ^ (bitDepth - 8)
  let blim := blimit * 2 ^ (bitDepth - 8)
  absDiff (p l 1) (p l 0) ≤ lim && absDiff (q l 1) (q l 0) ≤ lim &&
  absDiff (p l 0) (q l 0) * 2 + absDiff (p l 1) (q l 1) / 2 ≤ blim &&
  (filterLen < 6 || (absDiff (p l 2) (p l 1) ≤ lim && absDiff (q l 2) (q l 1) ≤ lim)) &&
  (filterLen < 8 || (absDiff (p l 3) (p l 2) ≤ lim && absDiff (q l 3) (q l 2) ≤ lim))

def flatMask (l : Line) (filterLen bitDepth : Nat) : Bool :=
  let one : Int := 2 ^ (bitDepth - 8)
  absDiff (p l 1) (p l 0) ≤ one && absDiff (q l 1) (q l 0) ≤ one &&
  absDiff (p l 2) (p l 0) ≤ one && absDiff (q l 2) (q l 0) ≤ one &&
  (filterLen < 8 || (absDiff (p l 3) (p l 0) ≤ one && absDiff (q l 3) (q l 0) ≤ one))

def flatMask2 (l : Line) (bitDepth : Nat) : Bool :=
  let one : Int := 2 ^ (bitDepth - 8)
  absDiff (p l 6) (p l 0) ≤ one && absDiff (q l 6) (q l 0) ≤ one &&
  absDiff (p l 5) (p l 0) ≤ one && absDiff (q l 5) (q l 0) ≤ one &&
  absDiff (p l 4) (p l 0) ≤ one && absDiff (q l 4) (q l 0) ≤ one

/-! ## Filters (7.14.6.3, 7.14.6.4) -/

def filter4Clamp (x : Int) (bitDepth : Nat) : Int := clip3 (-2 ^ (bitDepth - 1)) (2 ^ (bitDepth - 1) - 1) x

/-- The narrow filter. -/
def narrow (l : Line) (hev : Bool) (bitDepth : Nat) : Line :=
  let off : Int := 0x80 * 2 ^ (bitDepth - 8)
  let ps1 := p l 1 - off
  let ps0 := p l 0 - off
  let qs0 := q l 0 - off
  let qs1 := q l 1 - off
  let f := if hev then filter4Clamp (ps1 - qs1) bitDepth else 0
  let f := filter4Clamp (f + 3 * (qs0 - ps0)) bitDepth
  let filter1 := filter4Clamp (f + 4) bitDepth / 8
  let filter2 := filter4Clamp (f + 3) bitDepth / 8
  let f3 := round2 filter1 1
  fun k =>
    if k = 0 then filter4Clamp (qs0 - filter1) bitDepth + off
    else if k = -1 then filter4Clamp (ps0 + filter2) bitDepth + off
    else if k = 1 ∧ hev = false then filter4Clamp (qs1 - f3) bitDepth + off
    else if k = -2 ∧ hev = false then filter4Clamp (ps1 + f3) bitDepth + off
    else l k

/-- The wide filter: `n` samples on each side become averages of `2 * n + 1` samples, the middle ones counted twice. -/
def wide (l : Line) (plane log2Size : Nat) : Line :=
  let n : Nat := if log2Size = 4 then 6 else if plane = 0 then 3 else 2
  let n2 : Int := if log2Size = 3 ∧ plane = 0 then 0 else 1
  fun k =>
    if -(n : Int) ≤ k ∧ k < n then
      round2 ((((List.range (2 * n + 1)).map (fun (i : Nat) =>
        let j : Int := i - n
        (if absDiff j 0 ≤ n2 then 2 else 1) * l (clip3 (-(n + 1)) n (k + j)))).sum)) log2Size
    else l k

/-- The sample filtering process (7.14.6.1). -/
def sampleFilter (plane filterSize : Nat) (limit blimit thresh : Int) (bitDepth : Nat) (l : Line) : Line :=
  let len := filterLen plane filterSize
  if !filterMask l len limit blimit bitDepth then l
  else if filterSize = 4 || !flatMask l len bitDepth then narrow l (hevMask l thresh bitDepth) bitDepth
  else if filterSize = 8 || !flatMask2 l bitDepth then wide l plane 3
  else wide l plane 4

/-! ## Edges and planes (7.14.1, 7.14.2, 7.14.3) -/

/-- A frame of samples by row and column. -/
abbrev Samples := Int → Int → Int

/-- Filters the samples on the line through `(x, y)`: a row in pass 0, a column in pass 1. -/
def onLine (pass : Nat) (x y : Int) (f : Line → Line) (s : Samples) : Samples :=
  fun r c =>
    if pass = 0 then (if r = y then f (fun k => s y (x + k)) (c - x) else s r c)
    else (if c = x then f (fun k => s (y + k) x) (r - y) else s r c)

/-- The filter size process. -/
def Dec.filterSize (d : Dec) (pass row col prevRow prevCol : Nat) : Nat :=
  let base := if pass = 0 then min (d.txW row col) (d.txW prevRow prevCol) else min (d.txH row col) (d.txH prevRow prevCol)
  if d.plane = 0 then min 16 base else min 8 base

/-- The edge loop filter process; `row0` and `col0` are its inputs. -/
def Dec.edge (d : Dec) (pass row0 col0 : Nat) (s : Samples) : Samples :=
  let subX := if d.plane = 0 then 0 else d.subX
  let subY := if d.plane = 0 then 0 else d.subY
  let dx := if pass = 0 then 1 else 0
  let dy := if pass = 0 then 0 else 1
  let x := col0 * 4
  let y := row0 * 4
  let row := row0 ||| subY
  let col := col0 ||| subX
  let onScreen := decide (x < d.frameWidth) && decide (y < d.frameHeight) && !(pass == 0 && x == 0) && !(pass == 1 && y == 0)
  let xP := x >>> subX
  let yP := y >>> subY
  let prevRow := row - (dy <<< subY)
  let prevCol := col - (dx <<< subX)
  let isBlockEdge := if pass = 0 then xP % d.planeW row col == 0 else yP % d.planeH row col == 0
  let isTxEdge := if pass = 0 then xP % d.txW row col == 0 else yP % d.txH row col == 0
  let applyFilter := isTxEdge && (isBlockEdge || !d.skip row col || d.isIntra row col)
  let size := d.filterSize pass row col prevRow prevCol
  let lvl := d.lvl pass
  if onScreen && applyFilter && decide (lvl > 0) then
    (List.range 4).foldl (fun s i => onLine pass ((xP + dy * i : Nat) : Int) ((yP + dx * i : Nat) : Int)
      (sampleFilter d.plane size (d.limit lvl) (d.blimit lvl) (thresh lvl) d.bitDepth) s) s
  else s

/-- One pass over a plane: all rows, all columns. -/
def Dec.onePass (d : Dec) (pass : Nat) (s : Samples) : Samples :=
  let rowStep := if d.plane = 0 then 1 else 1 <<< d.subY
  let colStep := if d.plane = 0 then 1 else 1 <<< d.subX
  (List.range d.miRows).foldl (fun s row =>
    if row % rowStep = 0 then
      (List.range d.miCols).foldl (fun s col => if col % colStep = 0 then d.edge pass row col s else s) s
    else s) s

/-- The loop filter process for one plane: the vertical edges of the whole plane, then the horizontal ones. -/
def Dec.loopFilter (d : Dec) (s : Samples) : Samples :=
  if d.plane = 0 ∨ d.lfLevel (1 + d.plane) ≠ 0 then d.onePass 1 (d.onePass 0 s) else s

/-- The place of the process in the decoding of a frame (7.4): it is left out when both luma levels are zero. -/
def loopFilterFrame (lfLevel : Nat → Nat) (d : Nat → Dec) (f : Nat → Samples) : Nat → Samples :=
  fun plane => if lfLevel 0 ≠ 0 ∨ lfLevel 1 ≠ 0 then (d plane).loopFilter (f plane) else f plane

end Rav1e.Deblock.Spec

/-!
# Intra prediction in the encoder

`predict_intra` and the Rust prediction functions of `predict.rs`, `get_intra_edges` of `partition.rs` and the availability tables of
`recon_intra.rs`.  Sums are integers (`edges_range` and the theorems bound the pixels, so no `u32` or `i32` sum leaves its type).  A Rust
panic, a read or write out of bounds and a read of memory that has not been initialised are all `none`.  A loop whose iterations write
different elements and read none of them is written as one update.
-/

namespace Rav1e.Intra

/-- The intra modes of `PredictionMode`, `predict.rs:74-90`. -/
inductive Mode
  | dc | v | h | d45 | d135 | d113 | d157 | d203 | d67 | smooth | smoothV | smoothH | paeth | cfl
  deriving DecidableEq, Repr

/-- `IntraParam`, `predict.rs:521-527`. -/
inductive Param
  | angleDelta (d : Int)
  | alpha (a : Int)
  | none

/-- `intra_mode_to_angle`, `predict.rs:138-150`. -/
def modeAngle : Mode → Int
  | .v => 90 | .h => 180 | .d45 => 45 | .d135 => 135 | .d113 => 113 | .d157 => 157 | .d203 => 203 | .d67 => 67
  | _ => 0

/-- `is_directional`, `predict.rs:262-264`. -/
def Mode.directional : Mode → Bool
  | .v | .h | .d45 | .d135 | .d113 | .d157 | .d203 | .d67 => true
  | _ => false

/-- The region of a plane that one tile may touch: `PlaneRegion`, `tiling/plane_region.rs:115-121`.  `px r c` is `dst[r][c]`. -/
structure Region where
  px : Nat → Nat → Nat
  rectX : Nat
  rectY : Nat
  rectW : Nat
  rectH : Nat
  planeW : Nat
  planeH : Nat
  xdec : Nat
  ydec : Nat

/-- `dst[r][c]`; an index outside of the rectangle panics. -/
def Region.get (p : Region) (r c : Nat) : Option Nat := if r < p.rectH ∧ c < p.rectW then some (p.px r c) else none

/-- `rect_w` and `rect_h`, `partition.rs:705-708`. -/
def Region.w (p : Region) : Nat := min p.rectW (p.planeW - p.rectX)
@[inherit_doc Region.w] def Region.h (p : Region) : Nat := min p.rectH (p.planeH - p.rectY)

/-- A slice. -/
structure Arr where
  len : Nat
  at_ : Nat → Nat

/-- `a[i]`. -/
def Arr.get (a : Arr) (i : Nat) : Option Nat := if i < a.len then some (a.at_ i) else none

/-- `a[i as usize]` for an `isize`. -/
def Arr.getI (a : Arr) (i : Int) : Option Nat := if 0 ≤ i then a.get i.toNat else none

/-- Half of `edge_buf`: `2 * MAX_TX_SIZE` elements that may be uninitialised. -/
abbrev Buf := Nat → Option Nat

/-- `for k in lo..hi { buf[k].write(f(k)) }` on a buffer of `2 * MAX_TX_SIZE` elements. -/
def put (buf : Buf) (lo hi : Nat) (f : Nat → Option Nat) : Option Buf :=
  if hi ≤ 128 ∧ ∀ k < hi, lo ≤ k → (f k).isSome then some (fun k => if lo ≤ k ∧ k < hi then f k else buf k) else none

/-- `slice_assume_init_mut(&buf[lo..hi])`. -/
def slice (buf : Buf) (lo hi : Nat) : Option Arr :=
  if lo ≤ hi ∧ hi ≤ 128 ∧ ∀ k < hi, lo ≤ k → (buf k).isSome then some ⟨hi - lo, fun k => (buf (lo + k)).getD 0⟩ else none

/-- `a - b` in `usize`. -/
def sub? (a b : Nat) : Option Nat := if b ≤ a then some (a - b) else none

/-! ### Availability -/

/-- `supersample_chroma_bsize`, `partition.rs:559-598`: width and height. -/
def supersample (w h ssx ssy : Nat) : Nat × Nat :=
  match w, h, ssx, ssy with
  | 4, 4, 1, 1 => (8, 8) | 4, 4, 1, 0 => (8, 4) | 4, 4, 0, 1 => (4, 8)
  | 4, 8, 1, 1 => (8, 8) | 4, 8, 1, 0 => (8, 8) | 4, 8, 0, 1 => (4, 8)
  | 8, 4, 1, 1 => (8, 8) | 8, 4, 1, 0 => (8, 4) | 8, 4, 0, 1 => (8, 8)
  | 4, 16, 1, 1 => (8, 16) | 4, 16, 1, 0 => (8, 16) | 4, 16, 0, 1 => (4, 16)
  | 16, 4, 1, 1 => (16, 8) | 16, 4, 1, 0 => (16, 4) | 16, 4, 0, 1 => (16, 8)
  | w, h, _, _ => (w, h)

/-- `has_tr_4x4`, `recon_intra.rs:30-40`. -/
def hasTr4x4 : List Nat := [
  255, 255, 255, 255, 85, 85, 85, 85, 119, 119, 119, 119, 85, 85, 85, 85,
  127, 127, 127, 127, 85, 85, 85, 85, 119, 119, 119, 119, 85, 85, 85, 85,
  255, 127, 255, 127, 85, 85, 85, 85, 119, 119, 119, 119, 85, 85, 85, 85,
  127, 127, 127, 127, 85, 85, 85, 85, 119, 119, 119, 119, 85, 85, 85, 85,
  255, 255, 255, 127, 85, 85, 85, 85, 119, 119, 119, 119, 85, 85, 85, 85,
  127, 127, 127, 127, 85, 85, 85, 85, 119, 119, 119, 119, 85, 85, 85, 85,
  255, 127, 255, 127, 85, 85, 85, 85, 119, 119, 119, 119, 85, 85, 85, 85,
  127, 127, 127, 127, 85, 85, 85, 85, 119, 119, 119, 119, 85, 85, 85, 85]

/-- `has_tr_4x8`, `recon_intra.rs:42-48`. -/
def hasTr4x8 : List Nat := [
  255, 255, 255, 255, 119, 119, 119, 119, 127, 127, 127, 127, 119, 119, 119,
  119, 255, 127, 255, 127, 119, 119, 119, 119, 127, 127, 127, 127, 119, 119,
  119, 119, 255, 255, 255, 127, 119, 119, 119, 119, 127, 127, 127, 127, 119,
  119, 119, 119, 255, 127, 255, 127, 119, 119, 119, 119, 127, 127, 127, 127,
  119, 119, 119, 119]

/-- `has_tr_8x4`, `recon_intra.rs:50-56`. -/
def hasTr8x4 : List Nat := [
  255, 255, 0, 0, 85, 85, 0, 0, 119, 119, 0, 0, 85, 85, 0, 0,
  127, 127, 0, 0, 85, 85, 0, 0, 119, 119, 0, 0, 85, 85, 0, 0,
  255, 127, 0, 0, 85, 85, 0, 0, 119, 119, 0, 0, 85, 85, 0, 0,
  127, 127, 0, 0, 85, 85, 0, 0, 119, 119, 0, 0, 85, 85, 0, 0]

/-- `has_tr_8x8`, `recon_intra.rs:58-62`. -/
def hasTr8x8 : List Nat := [
  255, 255, 85, 85, 119, 119, 85, 85, 127, 127, 85, 85, 119, 119, 85, 85,
  255, 127, 85, 85, 119, 119, 85, 85, 127, 127, 85, 85, 119, 119, 85, 85]

/-- `has_tr_tables` and the tables in it, `recon_intra.rs:30-116`, for the block of the given width and height. -/
def hasTrTable : Nat → Nat → List Nat
  | 4, 4 => hasTr4x4
  | 4, 8 => hasTr4x8
  | 8, 4 => hasTr8x4
  | 8, 8 => hasTr8x8
  | 8, 16 => [255, 255, 119, 119, 127, 127, 119, 119, 255, 127, 119, 119, 127, 127, 119, 119]
  | 16, 8 => [255, 0, 85, 0, 119, 0, 85, 0, 127, 0, 85, 0, 119, 0, 85, 0]
  | 16, 16 => [255, 85, 119, 85, 127, 85, 119, 85]
  | 16, 32 => [255, 119, 127, 119]
  | 32, 16 => [15, 5, 7, 5]
  | 32, 32 => [95, 87]
  | 32, 64 => [127]
  | 64, 32 => [19]
  | 64, 64 => [7]
  | 64, 128 => [3]
  | 128, 64 => [1]
  | 128, 128 => [1]
  | 4, 16 => [255, 255, 255, 255, 127, 127, 127, 127, 255, 127, 255, 127, 127, 127, 127, 127,
      255, 255, 255, 127, 127, 127, 127, 127, 255, 127, 255, 127, 127, 127, 127, 127]
  | 16, 4 => [255, 0, 0, 0, 85, 0, 0, 0, 119, 0, 0, 0, 85, 0, 0, 0, 127, 0, 0, 0, 85, 0, 0, 0, 119, 0, 0, 0, 85, 0, 0, 0]
  | 8, 32 => [255, 255, 127, 127, 255, 127, 127, 127]
  | 32, 8 => [15, 0, 5, 0, 7, 0, 5, 0]
  | 16, 64 => [255, 127]
  | 64, 16 => [3, 1]
  | _, _ => []

/-- `has_bl_4x4`, `recon_intra.rs:245-253`. -/
def hasBl4x4 : List Nat := [
  84, 85, 85, 85, 16, 17, 17, 17, 84, 85, 85, 85, 0, 1, 1, 1, 84, 85, 85, 85,
  16, 17, 17, 17, 84, 85, 85, 85, 0, 0, 1, 0, 84, 85, 85, 85, 16, 17, 17, 17,
  84, 85, 85, 85, 0, 1, 1, 1, 84, 85, 85, 85, 16, 17, 17, 17, 84, 85, 85, 85,
  0, 0, 0, 0, 84, 85, 85, 85, 16, 17, 17, 17, 84, 85, 85, 85, 0, 1, 1, 1, 84,
  85, 85, 85, 16, 17, 17, 17, 84, 85, 85, 85, 0, 0, 1, 0, 84, 85, 85, 85, 16,
  17, 17, 17, 84, 85, 85, 85, 0, 1, 1, 1, 84, 85, 85, 85, 16, 17, 17, 17, 84,
  85, 85, 85, 0, 0, 0, 0]

/-- `has_bl_4x8`, `recon_intra.rs:254-258`. -/
def hasBl4x8 : List Nat := [
  16, 17, 17, 17, 0, 1, 1, 1, 16, 17, 17, 17, 0, 0, 1, 0, 16, 17, 17, 17, 0,
  1, 1, 1, 16, 17, 17, 17, 0, 0, 0, 0, 16, 17, 17, 17, 0, 1, 1, 1, 16, 17, 17,
  17, 0, 0, 1, 0, 16, 17, 17, 17, 0, 1, 1, 1, 16, 17, 17, 17, 0, 0, 0, 0]

/-- `has_bl_8x4`, `recon_intra.rs:259-264`. -/
def hasBl8x4 : List Nat := [
  254, 255, 84, 85, 254, 255, 16, 17, 254, 255, 84, 85, 254, 255, 0, 1, 254,
  255, 84, 85, 254, 255, 16, 17, 254, 255, 84, 85, 254, 255, 0, 0, 254, 255,
  84, 85, 254, 255, 16, 17, 254, 255, 84, 85, 254, 255, 0, 1, 254, 255, 84,
  85, 254, 255, 16, 17, 254, 255, 84, 85, 254, 255, 0, 0]

/-- `has_bl_8x8`, `recon_intra.rs:265-268`. -/
def hasBl8x8 : List Nat := [
  84, 85, 16, 17, 84, 85, 0, 1, 84, 85, 16, 17, 84, 85, 0, 0, 84, 85, 16, 17,
  84, 85, 0, 1, 84, 85, 16, 17, 84, 85, 0, 0]

/-- `has_bl_tables` and the tables in it, `recon_intra.rs:245-319`, for the block of the given width and height. -/
def hasBlTable : Nat → Nat → List Nat
  | 4, 4 => hasBl4x4
  | 4, 8 => hasBl4x8
  | 8, 4 => hasBl8x4
  | 8, 8 => hasBl8x8
  | 8, 16 => [16, 17, 0, 1, 16, 17, 0, 0, 16, 17, 0, 1, 16, 17, 0, 0]
  | 16, 8 => [254, 84, 254, 16, 254, 84, 254, 0, 254, 84, 254, 16, 254, 84, 254, 0]
  | 16, 16 => [84, 16, 84, 0, 84, 16, 84, 0]
  | 16, 32 => [16, 0, 16, 0]
  | 32, 16 => [78, 14, 78, 14]
  | 32, 32 => [4, 4]
  | 32, 64 => [0]
  | 64, 32 => [34]
  | 64, 64 => [0]
  | 64, 128 => [0]
  | 128, 64 => [0]
  | 128, 128 => [0]
  | 4, 16 => [0, 1, 1, 1, 0, 0, 1, 0, 0, 1, 1, 1, 0, 0, 0, 0, 0, 1, 1, 1, 0, 0, 1, 0, 0, 1, 1, 1, 0, 0, 0, 0]
  | 16, 4 => [254, 254, 254, 84, 254, 254, 254, 16, 254, 254, 254, 84, 254, 254, 254, 0,
      254, 254, 254, 84, 254, 254, 254, 16, 254, 254, 254, 84, 254, 254, 254, 0]
  | 8, 32 => [0, 1, 0, 0, 0, 1, 0, 0]
  | 32, 8 => [238, 78, 238, 14, 238, 78, 238, 14]
  | 16, 64 => [0, 0]
  | 64, 16 => [42, 42]
  | _, _ => []

/-- `((table[idx / 8] >> (idx % 8)) & 1) != 0`, `recon_intra.rs:235-239`. -/
def tableBit (t : List Nat) (idx : Nat) : Option Bool := (t[idx / 8]?).map fun b => (b >>> (idx % 8)) % 2 != 0

/-- `has_top_right`, `recon_intra.rs:174-241`.  `bw`, `bh` is the block, `miCol`, `miRow` its offset in the tile in units of 4 luma pixels,
`txw` the width of the transform, `rowOff`, `colOff` its offset in the block in units of 4 pixels of the plane.  Blocks of more than 64
pixels, which the encoder does not use, take the branch of `recon_intra.rs:193-205`. -/
def hasTopRight (bw bh miCol miRow : Nat) (topAvail rightAvail : Bool) (txw rowOff colOff ssx ssy : Nat) : Option Bool :=
  if !topAvail || !rightAvail then some false
  else
    let bwUnit := max ((bw / 4) >>> ssx) 1
    let count := txw / 4
    if rowOff > 0 then
      if bw > 64 then
        if rowOff = 16 >>> ssy ∧ colOff + count = 16 >>> ssx then some false
        else some (decide (colOff % (16 >>> ssx) + count < 16 >>> ssx))
      else some (decide (colOff + count < bwUnit))
    else if colOff + count < bwUnit then some true
    else
      let wl := Nat.log2 bw - 2
      let hl := Nat.log2 bh - 2
      let blkRow := (miRow % 16) >>> hl
      let blkCol := (miCol % 16) >>> wl
      if blkRow = 0 then some true
      else if 16 ≤ (blkCol + 1) <<< wl then some false
      else tableBit (hasTrTable bw bh) ((blkRow <<< (5 - wl)) + blkCol)

/-- `has_bottom_left`, `recon_intra.rs:374-450`. -/
def hasBottomLeft (bw bh miCol miRow : Nat) (bottomAvail leftAvail : Bool) (txh rowOff colOff ssx ssy : Nat) : Option Bool :=
  if !bottomAvail || !leftAvail then some false
  else if bw > 64 ∧ colOff > 0 ∧ colOff % (16 >>> ssx) = 0 then
    some (decide (rowOff % (16 >>> ssy) + txh / 4 < min ((bh / 4) >>> ssy) (16 >>> ssy)))
  else if colOff > 0 then some false
  else
    let bhUnit := max ((bh / 4) >>> ssy) 1
    let count := txh / 4
    if rowOff + count < bhUnit then some true
    else
      let wl := Nat.log2 bw - 2
      let hl := Nat.log2 bh - 2
      let blkRow := (miRow % 16) >>> hl
      let blkCol := (miCol % 16) >>> wl
      if blkCol = 0 then some (decide ((blkRow <<< hl >>> ssy) + rowOff + count < 16 >>> ssy))
      else if 16 ≤ (blkRow + 1) <<< hl then some false
      else tableBit (hasBlTable bw bh) ((blkRow <<< (5 - wl)) + blkCol)

/-! ### Edges -/

/-- The transform block that is predicted: its position in the region (`po`), its size, the block it is part of (`partition_bo`,
`partition_size`) and its number in it (`bx`, `by`); the arguments of `get_intra_edges`, `partition.rs:639-652`. -/
structure Site where
  x : Nat
  y : Nat
  w : Nat
  h : Nat
  boX : Nat
  boY : Nat
  bw : Nat
  bh : Nat
  bx : Nat
  by_ : Nat

/-- What `get_intra_edges` returns. -/
structure Edges where
  left : Arr
  topLeft : Nat
  above : Arr

/-- `128u16 << (bit_depth - 8)`, `partition.rs:658`. -/
def base (bd : Nat) : Nat := 128 <<< (bd - 8)

/-- The pixels left of the block, `partition.rs:710-735`, from bottom to top and right aligned. -/
def edgeLeft (p : Region) (s : Site) (bd : Nat) : Option Buf :=
  if s.x ≠ 0 then
    (if s.y + s.h > p.h then sub? p.h s.y else some s.h).bind fun txh =>
    (put (fun _ => none) (128 - txh) 128 (fun k => p.get (s.y + (127 - k)) (s.x - 1))).bind fun b =>
    if txh < s.h then (p.get (s.y + txh - 1) (s.x - 1)).bind fun v => put b (128 - s.h) (128 - txh) (fun _ => some v)
    else some b
  else
    (if s.y ≠ 0 then p.get (s.y - 1) 0 else some (base bd + 1)).bind fun v => put (fun _ => none) (128 - s.h) 128 (fun _ => some v)

/-- The pixels above the block, `partition.rs:737-764`. -/
def edgeAbove (p : Region) (s : Site) (bd : Nat) : Option Buf :=
  if s.y ≠ 0 then
    (if s.x + s.w > p.w then sub? p.w s.x else some s.w).bind fun txw =>
    (put (fun _ => none) 0 txw (fun k => p.get (s.y - 1) (s.x + k))).bind fun b =>
    if txw < s.w then (p.get (s.y - 1) (s.x + txw - 1)).bind fun v => put b txw s.w (fun _ => some v)
    else some b
  else
    (if s.x ≠ 0 then p.get 0 (s.x - 1) else some (base bd - 1)).bind fun v => put (fun _ => none) 0 s.w (fun _ => some v)

/-- `bx4` and `by4`, `partition.rs:766-767`. -/
def Site.bx4 (s : Site) : Nat := s.bx * (s.w >>> 2)
@[inherit_doc Site.bx4] def Site.by4 (s : Site) : Nat := s.by_ * (s.h >>> 2)

/-- `have_top` and `have_left`, `partition.rs:769-780`. -/
def Site.haveTop (s : Site) (ydec : Nat) : Bool := s.by4 != 0 || (if ydec ≠ 0 then decide (s.boY > 1) else decide (s.boY > 0))
@[inherit_doc Site.haveTop] def Site.haveLeft (s : Site) (xdec : Nat) : Bool :=
  s.bx4 != 0 || (if xdec ≠ 0 then decide (s.boX > 1) else decide (s.boX > 0))

/-- The flag of `partition.rs:785-803`: `has_top_right` for the transform block. -/
def Site.topRight (s : Site) (p : Region) : Option Bool :=
  let z := supersample s.bw s.bh p.xdec p.ydec
  hasTopRight z.1 z.2 s.boX s.boY (s.haveTop p.ydec) (decide (s.x + s.w < p.w)) s.w s.by4 s.bx4 p.xdec p.ydec

/-- The flag of `partition.rs:785-786` and `837-848`: `has_bottom_left` for the transform block. -/
def Site.bottomLeft (s : Site) (p : Region) : Option Bool :=
  let z := supersample s.bw s.bh p.xdec p.ydec
  hasBottomLeft z.1 z.2 s.boX s.boY (decide (s.y + s.h < p.h)) (s.haveLeft p.xdec) s.h s.by4 s.bx4 p.xdec p.ydec

/-- The pixels above and to the right, `partition.rs:788-828`. -/
def edgeTopRight (p : Region) (s : Site) (b : Buf) : Option Buf :=
  (if s.y ≠ 0 then s.topRight p else some false).bind fun flag =>
  (if flag then (sub? p.w (s.x + s.w)).map (min s.w) else some 0).bind fun num =>
  (put b s.w (s.w + num) (fun k => p.get (s.y - 1) (s.x + k))).bind fun b =>
  if num < s.h then put b (s.w + num) (s.w + s.h) (fun _ => b (s.w + num - 1)) else some b

/-- The pixels to the left and below, `partition.rs:833-869`. -/
def edgeBottomLeft (p : Region) (s : Site) (b : Buf) : Option Buf :=
  (if s.x ≠ 0 then s.bottomLeft p else some false).bind fun flag =>
  (if flag then (sub? p.h (s.y + s.h)).map (min s.h) else some 0).bind fun num =>
  (put b (128 - s.h - num) (128 - s.h) (fun k => p.get (s.y + (127 - k)) (s.x - 1))).bind fun b =>
  if num < s.w then put b (128 - s.h - s.w) (128 - s.h - num) (fun _ => b (128 - s.h - num)) else some b

/-- The corner, `partition.rs:876-892`. -/
def corner (p : Region) (s : Site) (bd : Nat) : Option Nat :=
  if s.x = 0 ∧ s.y = 0 then some (base bd)
  else if s.y = 0 then p.get 0 (s.x - 1)
  else if s.x = 0 then p.get (s.y - 1) 0
  else p.get (s.y - 1) (s.x - 1)

/-- The mode without `PAETH_PRED` where an edge is missing, `partition.rs:676-684` and `predict.rs:229-238`. -/
def paethMode (m : Mode) (x y : Nat) : Mode :=
  match m with
  | .paeth => if x = 0 ∧ y = 0 then .dc else if x = 0 then .v else if y = 0 then .h else .paeth
  | m => m

/-- `p_angle`, `partition.rs:686-690`. -/
def edgeAngle (m : Mode) (q : Param) : Int := modeAngle m + (match q with | .angleDelta d => d * 3 | _ => 0)

/-- `get_intra_edges`, `partition.rs:639-898`, for `opt_mode = Some(m)`. -/
def intraEdges (p : Region) (s : Site) (bd : Nat) (m : Mode) (edgeFilter : Bool) (q : Param) : Option Edges :=
  let m := paethMode m s.x s.y
  let a := edgeAngle m q
  let dcOrCfl := m = .dc ∨ m = .cfl
  let needsLeft := (¬ dcOrCfl ∨ s.x ≠ 0) ∨ (a > 90 ∧ a ≠ 180)
  let needsTopLeft := m = .paeth ∨ (m.directional ∧ a ≠ 90 ∧ a ≠ 180)
  let needsTop := (¬ dcOrCfl ∨ s.y ≠ 0) ∨ (a ≠ 90 ∧ a < 180)
  let needsTopRight := m.directional ∧ a < 90
  let needsBottomLeft := m.directional ∧ a > 180
  let filterCorner := edgeFilter ∧ a > 90 ∧ a < 180
  (if needsLeft then edgeLeft p s bd else some (fun _ => none)).bind fun left =>
  (if needsTop then edgeAbove p s bd else some (fun _ => none)).bind fun above =>
  (if needsTopRight then edgeTopRight p s above else some above).bind fun above =>
  (slice above 0 ((if needsTop then s.w else 0) + (if needsTopRight then s.h else 0))).bind fun above =>
  (if needsBottomLeft then edgeBottomLeft p s left else some left).bind fun left =>
  (slice left (128 - ((if needsLeft then s.h else 0) + (if needsBottomLeft then s.w else 0))) 128).bind fun left =>
  (if needsTopLeft then
    (corner p s bd).bind fun t =>
    if filterCorner ∧ 24 ≤ s.w + s.h then
      (sub? left.len 1).bind fun k => (left.get k).bind fun l => (above.get 0).bind fun a => some ((l * 5 + t * 6 + a * 5 + (1 <<< 3)) >>> 4)
    else some t
  else some (base bd)).bind fun t =>
  some ⟨left, t, above⟩

/-! ### Prediction -/

/-- The pixels of the block, or a panic. -/
abbrev Pred := Nat → Nat → Option Nat

/-- The sum of the first `n` elements. -/
def Arr.sum (a : Arr) (n : Nat) : Option Nat := if n ≤ a.len then some (((List.range n).map a.at_).sum) else none

/-- `pred_dc`, `predict.rs:786-802`. -/
def predDc (above left : Arr) (w h : Nat) : Pred := fun _ _ =>
  (left.sum h).bind fun l => (above.sum w).map fun a => (l + a + ((w + h) >>> 1)) / (w + h)

/-- `pred_dc_128`, `predict.rs:804-812`. -/
def predDc128 (bd : Nat) : Pred := fun _ _ => some (128 <<< (bd - 8))

/-- `pred_dc_left`, `predict.rs:814-826`. -/
def predDcLeft (left : Arr) (h : Nat) : Pred := fun _ _ => (left.sum left.len).map fun l => (l + (h >>> 1)) / h

/-- `pred_dc_top`, `predict.rs:828-840`. -/
def predDcTop (above : Arr) (w : Nat) : Pred := fun _ _ => (above.sum w).map fun a => (a + (w >>> 1)) / w

/-- `pred_h`, `predict.rs:842-849`. -/
def predH (left : Arr) (h : Nat) : Pred := fun r _ => if h ≤ left.len then left.get (h - 1 - r) else none

/-- `pred_v`, `predict.rs:851-858`. -/
def predV (above : Arr) (w : Nat) : Pred := fun _ c => if w ≤ above.len then above.get c else none

/-- `pred_paeth`, `predict.rs:860-887`. -/
def predPaeth (above left : Arr) (topLeft h : Nat) : Pred := fun r c =>
  (left.get (h - 1 - r)).bind fun (l : Nat) => (above.get c).map fun (t : Nat) =>
    let b : Int := (t : Int) + l - topLeft
    let pl := (b - l).natAbs
    let pt := (b - t).natAbs
    let ptl := (b - topLeft).natAbs
    if pl ≤ pt ∧ pl ≤ ptl then l else if pt ≤ ptl then t else topLeft

/-- `sm_weight_arrays`, `predict.rs:604-623`. -/
def smWeightArrays : List Nat := [
  0, 0,
  255, 128,
  255, 149, 85, 64,
  255, 197, 146, 105, 73, 50, 37, 32,
  255, 225, 196, 170, 145, 123, 102, 84, 68, 54, 43, 33, 26, 20, 17, 16,
  255, 240, 225, 210, 196, 182, 169, 157, 145, 133, 122, 111, 101, 92, 83, 74,
  66, 59, 52, 45, 39, 34, 29, 25, 21, 17, 14, 12, 10, 9, 8, 8,
  255, 248, 240, 233, 225, 218, 210, 203, 196, 189, 182, 176, 169, 163, 156,
  150, 144, 138, 133, 127, 121, 116, 111, 106, 101, 96, 91, 86, 82, 77, 73, 69,
  65, 61, 57, 54, 50, 47, 44, 41, 38, 35, 32, 29, 27, 25, 22, 20, 18, 16, 15,
  13, 12, 10, 9, 8, 7, 6, 6, 5, 5, 4, 4, 4]

/-- `sm_weight_arrays[n..][i]`. -/
def smWeight (n i : Nat) : Option Nat := smWeightArrays[n + i]?

/-- The assertions on the weights of one side, `predict.rs:901-905`. -/
def smOk (n : Nat) : Bool :=
  match smWeight n 0, smWeight n (n - 1) with
  | some a, some b => decide (a < 256) && decide (b ≤ 256) && decide (256 - b < 256)
  | _, _ => false

/-- `pred_smooth`, `predict.rs:889-940`. -/
def predSmooth (above left : Arr) (w h : Nat) : Pred := fun r c =>
  if smOk w && smOk h then
    (left.get 0).bind fun below => (above.get (w - 1)).bind fun right =>
    (above.get c).bind fun a => (left.get (h - 1 - r)).bind fun l =>
    (smWeight h r).bind fun wh => (smWeight w c).bind fun ww =>
    if wh ≤ 256 ∧ ww ≤ 256 then
      some ((wh * a + (256 - wh) * below + ww * l + (256 - ww) * right + (1 <<< 8)) >>> 9)
    else none
  else none

/-- `pred_smooth_h`, `predict.rs:942-979`. -/
def predSmoothH (above left : Arr) (w h : Nat) : Pred := fun r c =>
  if smOk w then
    (above.get (w - 1)).bind fun right => (left.get (h - 1 - r)).bind fun l => (smWeight w c).bind fun ww =>
    if ww ≤ 256 then some ((ww * l + (256 - ww) * right + (1 <<< 7)) >>> 8) else none
  else none

/-- `pred_smooth_v`, `predict.rs:981-1018`. -/
def predSmoothV (above left : Arr) (h : Nat) : Pred := fun r c =>
  if smOk h then
    (left.get 0).bind fun below => (above.get c).bind fun a => (smWeight h r).bind fun wh =>
    if wh ≤ 256 then some ((wh * a + (256 - wh) * below + (1 <<< 7)) >>> 8) else none
  else none

/-- `get_scaled_luma_q0`, `predict.rs:626-634`. -/
def scaledLuma (alpha ac : Int) : Int :=
  let q6 := alpha * ac
  let a := ((q6.natAbs + 32) >>> 6 : Nat)
  if q6 < 0 then -(a : Int) else a

/-- `pred_cfl_inner`, `predict.rs:1065-1088`, after the block has been filled with the prediction `dc`; `ac` is the slice of coefficients. -/
def predCflInner (dc : Pred) (ac : List Int) (alpha : Int) (w bd : Nat) : Pred := fun r c =>
  if alpha = 0 then dc r c
  else (dc 0 0).bind fun avg => (ac[r * w + c]?).map fun l =>
    (max 0 (min ((avg : Int) + scaledLuma alpha l) ((1 <<< bd : Nat) - 1))).toNat

/-- `select_ief_strength`, `predict.rs:1125-1186`. -/
def iefStrength (w h : Nat) (smooth : Bool) (delta : Int) : Nat :=
  let wh := w + h
  let d := delta.natAbs
  if smooth then
    if wh ≤ 8 then (if 64 ≤ d then 2 else if 40 ≤ d then 1 else 0)
    else if wh ≤ 16 then (if 48 ≤ d then 2 else if 20 ≤ d then 1 else 0)
    else if wh ≤ 24 then (if 4 ≤ d then 3 else 0)
    else 3
  else
    if wh ≤ 8 then (if 56 ≤ d then 1 else 0)
    else if wh ≤ 16 then (if 40 ≤ d then 1 else 0)
    else if wh ≤ 24 then (if 32 ≤ d then 3 else if 16 ≤ d then 2 else if 8 ≤ d then 1 else 0)
    else if wh ≤ 32 then (if 32 ≤ d then 3 else if 4 ≤ d then 2 else 1)
    else 3

/-- `select_ief_upsample`, `predict.rs:1188-1201`. -/
def iefUpsample (w h : Nat) (smooth : Bool) (delta : Int) : Bool :=
  let wh := w + h
  let d := delta.natAbs
  if d = 0 ∨ 40 ≤ d then false else if smooth then decide (wh ≤ 8) else decide (wh ≤ 16)

/-- `INTRA_EDGE_KERNEL`, `predict.rs:1206-1207`. -/
def edgeKernel : List (List Nat) := [[0, 4, 8, 4, 0], [0, 5, 6, 5, 0], [2, 4, 4, 4, 2]]

/-- `filter_edge`, `predict.rs:1203-1232`. -/
def filterEdge (size strength : Nat) (e : Arr) : Option Arr :=
  if strength = 0 then some e
  else if e.len ≤ 257 ∧ size ≤ e.len then
    (edgeKernel[strength - 1]?).map fun kernel =>
      ⟨e.len, fun i => if 1 ≤ i ∧ i < size then
        (((List.range 5).map fun j => kernel.getD j 0 * e.at_ (min (i + j - 2) (size - 1))).sum + 8) >>> 4 else e.at_ i⟩
  else none

/-- `dup` in `upsample_edge`, `predict.rs:1243-1247`. -/
def dup (size : Nat) (e : Arr) (k : Nat) : Nat := if k = 0 then e.at_ 0 else if k ≤ size + 1 then e.at_ (k - 1) else e.at_ size

/-- `upsample_edge`, `predict.rs:1234-1266`. -/
def upsampleEdge (size : Nat) (e : Arr) (bd : Nat) : Option Arr :=
  if size + 3 ≤ 64 ∧ size < e.len ∧ 2 * size < e.len then
    some ⟨e.len, fun k =>
      if k = 0 ∨ 2 * size < k then e.at_ k
      else if k % 2 = 1 then
        let i := k / 2
        let s : Int := -(dup size e i : Int) + 9 * dup size e (i + 1) + 9 * dup size e (i + 2) - dup size e (i + 3)
        (max 0 (min ((s + 8).tdiv 16) ((1 <<< bd : Nat) - 1))).toNat
      else dup size e (k / 2 + 1)⟩
  else none

/-- `dr_intra_derivative`, `predict.rs:1268-1299`. -/
def derivative : Nat → Nat
  | 3 => 1023 | 6 => 547 | 9 => 372 | 14 => 273 | 17 => 215 | 20 => 178 | 23 => 151 | 26 => 132 | 29 => 116 | 32 => 102
  | 36 => 90 | 39 => 80 | 42 => 71 | 45 => 64 | 48 => 57 | 51 => 51 | 54 => 45 | 58 => 40 | 61 => 35 | 64 => 31 | 67 => 27
  | 70 => 23 | 73 => 19 | 76 => 15 | 81 => 11 | 84 => 7 | 87 => 3 | _ => 0

/-- The two edges after the filters of `pred_directional`, `predict.rs:1318-1399`: index 0 is the corner.  `smooth` is
`ief_params.use_smooth_filter()`; `posX`, `posY` is the position of the block in the plane. -/
def filteredEdges (above left : Arr) (topLeft angle w h bd posX posY planeW planeH : Nat) (smooth : Bool) :
    Option ((Arr × Bool) × (Arr × Bool)) :=
  let n := (w + h) * 2
  let aboveLen := min above.len n
  let leftLen := min left.len n
  let turned := angle ≠ 90 ∧ angle ≠ 180
  let af : Arr := ⟨n + 1, fun i => if i = 0 then (if turned then topLeft else 0) else if i ≤ aboveLen then above.at_ (i - 1) else 0⟩
  let lf : Arr := ⟨n + 1, fun i => if i = 0 then (if turned then topLeft else 0) else if i ≤ leftLen then left.at_ (left.len - i) else 0⟩
  (if turned then
    (sub? planeW posX).bind fun restX => filterEdge (min w restX + (if angle < 90 then h else 0) + 1) (iefStrength w h smooth ((angle : Int) - 90)) af
   else some af).bind fun af =>
  (if turned then
    (sub? planeH posY).bind fun restY => filterEdge (min h restY + (if angle > 180 then w else 0) + 1) (iefStrength w h smooth ((angle : Int) - 180)) lf
   else some lf).bind fun lf =>
  let ua := iefUpsample w h smooth ((angle : Int) - 90)
  (if ua then upsampleEdge (w + (if angle < 90 then h else 0)) af bd else some af).bind fun af =>
  let ul := iefUpsample w h smooth ((angle : Int) - 180)
  (if ul then upsampleEdge (h + (if angle > 180 then w else 0)) lf bd else some lf).bind fun lf =>
  some ((af, ua), (lf, ul))

/-- `round_shift(a * (32 - shift) + b * shift, 5).clamp(0, sample_max)`, `predict.rs:1435-1440`. -/
def blend (a b shift bd : Nat) : Nat := min ((a * (32 - shift) + b * shift + 16) >>> 5) ((1 <<< bd) - 1)

/-- `pred_directional` below 90 degrees, `predict.rs:1424-1443`. -/
def predZ1 (above : Arr) (dx w h bd ua off : Nat) : Pred := fun i j =>
  let idx := (i + 1) * dx
  let b := (idx >>> (6 - ua)) + (j <<< ua)
  let shift := (idx <<< ua) >>> 1 % 32
  let maxBase := (h + w - 1) <<< ua
  if b < maxBase then
    (above.get (b + off)).bind fun x => (above.get (b + 1 + off)).map fun y => blend x y shift bd
  else (above.get (maxBase + off)).map fun c => min c ((1 <<< bd) - 1)

/-- `pred_directional` between 90 and 180 degrees, `predict.rs:1444-1487`; `left` is ordered from bottom to top. -/
def predZ2 (above left : Arr) (topLeft : Nat) (filter : Bool) (dx dy bd ua ul offA offL : Nat) : Pred := fun i j =>
  let idx : Int := (j <<< 6 : Nat) - ((i + 1) * dx : Nat)
  let b := idx >>> (6 - ua)
  if -((1 <<< ua : Nat) : Int) ≤ b then
    let shift := ((idx * 2 ^ ua) >>> 1 % 32).toNat
    (if !filter && decide (b < 0) then some topLeft else above.getI (b + offA)).bind fun x =>
    (above.getI (b + 1 + offA)).map fun y => blend x y shift bd
  else
    let idx : Int := (i <<< 6 : Nat) - ((j + 1) * dy : Nat)
    let b := idx >>> (6 - ul)
    let shift := ((idx * 2 ^ ul) >>> 1 % 32).toNat
    (sub? left.len 1).bind fun l =>
    (if !filter && decide (b < 0) then some topLeft
     else if b + offL = -2 then left.get 0
     else if 0 ≤ b + offL then left.getI ((l : Int) - (b + offL)) else none).bind fun x =>
    (if b + offL = -2 then left.get 1
     else if 0 ≤ b + offL + 1 then left.getI ((l : Int) - (b + offL + 1)) else none).map fun y => blend x y shift bd

/-- `pred_directional` above 180 degrees, `predict.rs:1488-1504`; `left` is ordered from bottom to top. -/
def predZ3 (left : Arr) (dy bd ul off : Nat) : Pred := fun i j =>
  let idx := (j + 1) * dy
  let b := (idx >>> (6 - ul)) + (i <<< ul)
  let shift := (idx <<< ul) >>> 1 % 32
  (sub? left.len 1).bind fun l =>
  (left.get (l - (b + off))).bind fun x => (left.get (l - (b + off + 1))).map fun y => blend x y shift bd

/-- `pred_directional`, `predict.rs:1301-1505`.  `ief` is `use_smooth_filter()` of `ief_params`. -/
def predDirectional (above left : Arr) (topLeft angle w h bd posX posY planeW planeH : Nat) (ief : Option Bool) : Option Pred :=
  let dx := if angle < 90 then derivative angle else if 90 < angle ∧ angle < 180 then derivative (180 - angle) else 0
  let dy := if 90 < angle ∧ angle < 180 then derivative (angle - 90) else if 180 < angle then derivative (270 - angle) else 0
  match ief with
  | some smooth =>
    (filteredEdges above left topLeft angle w h bd posX posY planeW planeH smooth).map fun e =>
    let af := e.1.1
    let lf : Arr := ⟨e.2.1.len, fun k => e.2.1.at_ (e.2.1.len - 1 - k)⟩
    let ua := e.1.2.toNat
    let ul := e.2.2.toNat
    if angle < 90 then predZ1 af dx w h bd ua (1 <<< ua)
    else if 90 < angle ∧ angle < 180 then predZ2 af lf topLeft true dx dy bd ua ul (1 <<< ua) (1 <<< ul)
    else predZ3 lf dy bd ul (1 <<< ul)
  | none =>
    some (if angle < 90 then predZ1 above dx w h bd 0 0
    else if 90 < angle ∧ angle < 180 then predZ2 above left topLeft false dx dy bd 0 0 0 0
    else predZ3 left dy bd 0 0)

/-- The last `n` elements, `&left[left.len().saturating_sub(n)..]`, `predict.rs:719-721`. -/
def Arr.last (a : Arr) (n : Nat) : Arr := ⟨a.len - (a.len - n), fun k => a.at_ (a.len - n + k)⟩

/-- `PredictionVariant::new` and the choice of `pred_dc*`, `predict.rs:128-135`, `723-730`. -/
def predDcAny (above left : Arr) (x y w h bd : Nat) : Pred :=
  if x = 0 ∧ y = 0 then predDc128 bd
  else if y = 0 then predDcLeft left h
  else if x = 0 then predDcTop above w
  else predDc above left w h

/-- `predict_intra` and `dispatch_predict_intra`, `predict.rs:205-249` and `705-784`: the value of every pixel of the block.
`x`, `y` is the position in the tile, `posX`, `posY` the position in the plane. -/
def predictIntra (e : Edges) (m : Mode) (x y w h bd : Nat) (ac : List Int) (q : Param) (ief : Option Bool)
    (posX posY planeW planeH : Nat) : Option Pred :=
  let alpha := match q with | .alpha a => a | _ => 0
  let m := paethMode m x y
  let m := if m = .cfl ∧ alpha = 0 then .dc else m
  let angle := match m with | .cfl => alpha | m => modeAngle m + (match q with | .angleDelta d => d * 3 | _ => 0)
  let left := e.left.last h
  match m with
  | .dc => some (predDcAny e.above left x y w h bd)
  | .smooth => some (predSmooth e.above left w h)
  | .smoothV => some (predSmoothV e.above left h)
  | .smoothH => some (predSmoothH e.above left w h)
  | .paeth => some (predPaeth e.above left e.topLeft h)
  | .cfl => some (predCflInner (predDcAny e.above left x y w h bd) ac angle w bd)
  | .v => if angle = 90 then some (predV e.above w) else
      predDirectional e.above (e.left.last (w + h)) e.topLeft angle.toNat w h bd posX posY planeW planeH ief
  | .h => if angle = 180 then some (predH left h) else
      predDirectional e.above (e.left.last (w + h)) e.topLeft angle.toNat w h bd posX posY planeW planeH ief
  | _ => predDirectional e.above (e.left.last (w + h)) e.topLeft angle.toNat w h bd posX posY planeW planeH ief

/-- The pixels of one plane of the tile after the loops over the block: `T::cast_from` keeps the `tb` low bits. -/
def writeBlock (px : Nat → Nat → Nat) (x y w h tb : Nat) (f : Pred) : Option (Nat → Nat → Nat) :=
  if ∀ r < h, ∀ c < w, (f r c).isSome then
    some (fun r c => if y ≤ r ∧ r < y + h ∧ x ≤ c ∧ c < x + w then (f (r - y) (c - x)).getD 0 % 2 ^ tb else px r c)
  else none

/-- What `encode_tx_block` does to predict an intra block, `encoder.rs:1472-1503`. -/
def predictTx (p : Region) (s : Site) (bd tb : Nat) (m : Mode) (edgeFilter : Bool) (q : Param) (ac : List Int) (smooth : Bool) :
    Option (Nat → Nat → Nat) :=
  (intraEdges p s bd m edgeFilter q).bind fun e =>
  (predictIntra e m s.x s.y s.w s.h bd ac q (if m.directional && edgeFilter then some smooth else none)
    (p.rectX + s.x) (p.rectY + s.y) p.planeW p.planeH).bind fun f =>
  writeBlock p.px s.x s.y s.w s.h tb f

/-! ### Chroma from luma -/

/-- `max_luma_w` and `max_luma_h` of `luma_ac`, `predict.rs:672-684`: `n` is a side of the luma block, `clipped` its part inside the frame
and `t` the logarithm of the side of the luma transform. -/
def maxLuma (n clipped t : Nat) : Nat := if n > 8 then ((clipped + (1 <<< t) - 1) >>> t) <<< t else n

/-- The block that `luma_ac` and `pred_cfl_ac` read: the tile-relative position `boX`, `boY` of the luma block in units of four pixels, its
size `bw`, `bh` in pixels, the logarithms of the size of its transforms and the size of the frame `fi.w_in_b`, `fi.h_in_b`. -/
structure LumaBlock where
  boX : Nat
  boY : Nat
  bw : Nat
  bh : Nat
  txW : Nat
  txH : Nat
  wInB : Nat
  hInB : Nat

/-- A side of `plane_bsize` for the sizes a block can have with this chroma sampling, `partition.rs:337-377`: half of the luma side, at least 4. -/
def planeSide (n dec : Nat) : Nat := max 4 (n >>> dec)

/-- `bo`, `predict.rs:657-662`; `is_sub8x8` and `sub8x8_offset`, `partition.rs:401-413`. -/
def sub8 (bo n dec : Nat) : Option Nat := if dec ≠ 0 ∧ n = 4 then sub? bo 1 else some bo

/-- `max_luma_x` and `max_luma_y` of `pred_cfl_ac`, `predict.rs:1024-1027`, for `w_pad` or `h_pad` of `luma_ac`, `predict.rs:686-687`. -/
def maxLumaAt (n clipped t dec : Nat) : Option Nat :=
  (sub? n (maxLuma n clipped t)).bind fun d =>
  (sub? (planeSide n dec) ((d >>> (2 + dec)) * 4)).map fun v => max (v <<< dec) 8 - (1 <<< dec)

/-- `sample` of `pred_cfl_ac`, `predict.rs:1036-1050`; a sum that is not an `i16` panics. -/
def cflSample (p : Region) (x0 y0 maxX maxY xdec ydec r c : Nat) : Option Int :=
  let y := y0 + min (r <<< ydec) maxY
  let x := x0 + min (c <<< xdec) maxX
  (p.get y x).bind fun a =>
  (if xdec ≠ 0 then p.get y (x + 1) else some 0).bind fun b =>
  (if ydec ≠ 0 then (p.get (y + 1) x).bind fun c => (p.get (y + 1) (x + 1)).map fun d => c + d else some 0).bind fun c =>
  let v := (a + b + c) <<< (3 - xdec - ydec)
  if v < 2 ^ 15 then some (v : Int) else none

/-- `luma_ac` and `pred_cfl_ac`, `predict.rs:644-698` and `1020-1063`: `p` is the luma plane of the tile, `xdec`, `ydec` the decimation of the
chroma planes. -/
def lumaAc (p : Region) (b : LumaBlock) (xdec ydec : Nat) : Option (List Int) :=
  let w := planeSide b.bw xdec
  let h := planeSide b.bh ydec
  (sub8 b.boX b.bw xdec).bind fun boX =>
  (sub8 b.boY b.bh ydec).bind fun boY =>
  (sub? b.wInB (p.rectX / 4 + boX)).bind fun restX =>
  (sub? b.hInB (p.rectY / 4 + boY)).bind fun restY =>
  (maxLumaAt b.bw (min (restX <<< 2) b.bw) b.txW xdec).bind fun maxX =>
  (maxLumaAt b.bh (min (restY <<< 2) b.bh) b.txH ydec).bind fun maxY =>
  let sample := fun k => cflSample p (boX * 4) (boY * 4) maxX maxY xdec ydec (k / w) (k % w)
  if ∀ k < w * h, (sample k).isSome then
    let at_ := fun k => (sample k).getD 0
    let shift := w.log2 + h.log2
    let average := (((List.range (w * h)).map at_).sum + (1 <<< (shift - 1) : Nat)) >>> shift
    some ((List.range (w * h)).map fun k => at_ k - average)
  else none

end Rav1e.Intra

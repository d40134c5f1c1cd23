/-!
# CDEF, the constrained directional enhancement filter

Model of `src/cdef.rs`: the direction search, the filter of one block with its padding, and the loops over the
superblocks and blocks of a frame as `encode_tile_group` calls them (`src/encoder.rs:3295-3322`: one tile that covers the
frame, with the deblocked frame as input).  The Rust functions are modelled; the assembly versions are not.

Planes are memory: a function from addresses, relative to the pixel in the top left corner, to values; everything
outside of the picture is arbitrary.  Results are lists of writes.  `i32` values are integers (`Cdef.filter_no_overflow`
and `Cdef.findDir_no_overflow` prove that they fit); `none` is a panic.
-/

namespace Rav1e.Cdef

/-- The pixels of a plane by address. -/
abbrev Mem := Int → Int

/-- `CDEF_VERY_LARGE`, `cdef.rs:30`. -/
def veryLarge : Int := 0x8000

/-- `CDEF_HAVE_LEFT` to `CDEF_HAVE_BOTTOM`, `cdef.rs:32-37`, as a set of flags. -/
structure Edges where
  left : Bool
  right : Bool
  top : Bool
  bottom : Bool
deriving Repr, DecidableEq

/-- `CDEF_HAVE_ALL`, `cdef.rs:36-37`. -/
def Edges.all : Edges := ⟨true, true, true, true⟩

/-- `v_frame::math::msb`: the position of the highest bit of a positive number. -/
def msb (x : Int) : Int := (x.toNat.log2 : Int)

/-! ## Direction search -/

/-- `CDEF_DIV_TABLE`, `cdef.rs:54`. -/
def divTable : List Int := [0, 840, 420, 280, 210, 168, 140, 120, 105]

def div (i : Nat) : Int := divTable.getD i 0

/-- The loops `for i in 0..8 { for j in 0..8 {`, `cdef.rs:90-91`. -/
def pairs : List (Nat × Nat) := (List.range 8).flatMap (fun i => (List.range 8).map (fun j => (i, j)))

/-- The second indices of `partial`, `cdef.rs:97-104`. -/
def lineIdx (i j : Nat) : List Nat :=
  [i + j, i + j / 2, i, 3 + i - j / 2, 7 + i - j, 3 - i / 2 + j, j, i / 2 + j]

/-- `partial[d][k] += x`. -/
def addPartial (p : Nat → Nat → Int) (d k : Nat) (x : Int) : Nat → Nat → Int :=
  fun d' k' => if d' = d ∧ k' = k then p d' k' + x else p d' k'

/-- The body of the inner loop, `cdef.rs:92-104`. -/
def addPixel (img : Nat → Nat → Int) (shift : Nat) (p : Nat → Nat → Int) (ij : Nat × Nat) : Nat → Nat → Int :=
  let x := (img ij.1 ij.2 >>> shift) - 128
  (lineIdx ij.1 ij.2).zipIdx.foldl (fun p kd => addPartial p kd.2 kd.1 x) p

/-- The partial sums, `cdef.rs:89-106`. -/
def partials (img : Nat → Nat → Int) (shift : Nat) : Nat → Nat → Int :=
  pairs.foldl (addPixel img shift) (fun _ _ => 0)

/-- The costs, `cdef.rs:107-133`. -/
def costs (p : Nat → Nat → Int) : List Int :=
  let sq (d k : Nat) : Int := p d k * p d k
  let straight (d : Nat) : Int := (List.range 8).foldl (fun c i => c + sq d i) 0 * div 8
  let diagonal (d : Nat) : Int :=
    (List.range 7).foldl (fun c i => c + (sq d i + sq d (14 - i)) * div (i + 1)) 0 + sq d 7 * div 8
  let odd (d : Nat) : Int :=
    (List.range 3).foldl (fun c j => c + (sq d j + sq d (10 - j)) * div (2 * j + 2))
      ((List.range 5).foldl (fun c j => c + sq d (3 + j)) 0 * div 8)
  [diagonal 0, odd 1, straight 2, odd 3, diagonal 4, odd 5, straight 6, odd 7]

/-- `first_max_element`, `cdef.rs:67-75`: the element with the largest pair of value and negated index; of two such
`max_by_key` takes the later one. -/
def firstMax (l : List Int) : Option (Nat × Int) :=
  l.zipIdx.foldl (fun b x =>
    match b with
    | none => some (x.2, x.1)
    | some (i, v) => if v < x.1 ∨ v = x.1 ∧ (-i : Int) ≤ (-x.2 : Int) then some (x.2, x.1) else some (i, v)) none

/-- `cdef_find_dir`, `cdef.rs:84-143`: the direction and the variance. -/
def findDir (img : Nat → Nat → Int) (shift : Nat) : Option (Nat × Int) := do
  let cost := costs (partials img shift)
  let (best, bestCost) ← firstMax cost
  let other ← cost[(best + 4) % 8]?
  return (best, (bestCost - other) >>> 10)

/-! ## The filter -/

/-- `constrain`, `cdef.rs:146-159`. -/
def constrain (diff threshold damping : Int) : Int :=
  if threshold ≠ 0 then
    let shift := max 0 (damping - msb threshold)
    let magnitude := min (max (threshold - ((diff.natAbs : Int) >>> shift.toNat)) 0) diff.natAbs
    if diff < 0 then -magnitude else magnitude
  else 0

/-- Write `v` at address `a`. -/
def poke (m : Mem) (a v : Int) : Mem := fun b => if b = a then v else m b

/-- `pad_into_tmp16`, `cdef.rs:161-194`: copies the pixels there are.  `dst` is the address of the padding in the upper left
corner, `src` the address of the block. -/
def padIntoTmp (tmp : Mem) (dst dstStride : Int) (m : Mem) (src srcStride : Int) (bw bh : Nat) (e : Edges) : Mem :=
  let w := bw + (if e.left then 2 else 0) + (if e.right then 2 else 0)
  let h := bh + (if e.top then 2 else 0) + (if e.bottom then 2 else 0)
  let dstCol := if e.left then dst else dst + 2
  let srcCol := if e.left then src - 2 else src
  let dstPtr := if e.top then dstCol else dstCol + 2 * dstStride
  let srcPtr := if e.top then srcCol + -2 * srcStride else srcCol
  (List.range h).foldl (fun t (y : Nat) => (List.range w).foldl
    (fun t (x : Nat) => poke t (dstPtr + y * dstStride + x) (m (srcPtr + y * srcStride + x))) t) tmp

/-- `cdef_directions`, `cdef.rs:242-251`. -/
def directions (istride : Int) : List (List Int) :=
  [[-1 * istride + 1, -2 * istride + 2], [0 * istride + 1, -1 * istride + 2], [0 * istride + 1, 0 * istride + 2],
   [0 * istride + 1, 1 * istride + 2], [1 * istride + 1, 2 * istride + 2], [1 * istride + 0, 2 * istride + 1],
   [1 * istride + 0, 2 * istride + 0], [1 * istride + 0, 2 * istride - 1]]

/-- The running sum, maximum and minimum. -/
structure Acc where
  sum : Int
  max : Int
  min : Int
deriving Repr, DecidableEq

/-- `for p_elem in p.iter()`, `cdef.rs:270-276`, and `for s_elem in s.iter()`, 285-291, for one element. -/
def tap (x strength damping weight : Int) (a : Acc) (p : Int) : Acc :=
  { sum := a.sum + weight * constrain (p - x) strength damping
    max := if p ≠ veryLarge then Max.max p a.max else a.max
    min := Min.min p a.min }

/-- One pixel of `cdef_filter_block` with all edges, `cdef.rs:235-294`. -/
def filterPixel (m : Mem) (ptr istride pri sec : Int) (dir : Nat) (damping : Int) (coeffShift : Nat) : Option Int := do
  let odd := ((pri >>> coeffShift) % 2).toNat
  let priTaps ← [[(4 : Int), 2], [3, 3]][odd]?
  let secTaps ← [[(2 : Int), 1], [2, 1]][odd]?
  let x := m ptr
  let dirs := directions istride
  let d0 ← dirs[dir]?
  let d1 ← dirs[(dir + 2) % 8]?
  let d2 ← dirs[(dir + 6) % 8]?
  let acc ← (List.range 2).foldlM (fun (a : Acc) k => do
    let o0 ← d0[k]?
    let o1 ← d1[k]?
    let o2 ← d2[k]?
    let priTap ← priTaps[k]?
    let secTap ← secTaps[k]?
    let a := [m (ptr + o0), m (ptr + -o0)].foldl (tap x pri damping priTap) a
    return [m (ptr + o1), m (ptr + -o1), m (ptr + o2), m (ptr + -o2)].foldl (tap x sec damping secTap) a)
    (⟨0, x, x⟩ : Acc)
  let v := x + ((8 + acc.sum - (if acc.sum < 0 then 1 else 0)) >>> 4)
  return min (max v acc.min) acc.max

/-- `cdef_filter_block`, `cdef.rs:198-298`: the value of the pixel at row `i`, column `j` of the block, whose top left corner is
at address `input`. -/
def filterBlock (m : Mem) (input istride pri sec : Int) (dir : Nat) (damping : Int) (bitDepth xdec ydec : Nat) (e : Edges)
    (i j : Nat) : Option Int :=
  let coeffShift := bitDepth - 8
  if e ≠ .all then
    let tmpstride : Int := (2 + (8 >>> xdec) + 2 : Nat)
    let tmp := padIntoTmp (fun _ => veryLarge) 0 tmpstride m input istride (8 >>> xdec) (8 >>> ydec) e
    filterPixel tmp (2 * tmpstride + 2 + (i * tmpstride + j)) tmpstride pri sec dir damping coeffShift
  else filterPixel m (input + (i * istride + j)) istride pri sec dir damping coeffShift

/-- `adjust_strength`, `cdef.rs:315-322`. -/
def adjustStrength (strength var : Int) : Int :=
  let i := if var >>> 6 ≠ 0 then min (msb (var >>> 6)) 12 else 0
  if var ≠ 0 then (strength * (4 + i) + 8) >>> 4 else 0

/-! ## Frames -/

/-- The input frame: `planes[p].cfg` with `width` and `height` of the luma plane, and the strides. -/
structure Frame where
  width : Nat
  height : Nat
  xdec : Nat
  ydec : Nat
  stride : Nat → Int
  mem : Nat → Mem

/-- `planes[p].cfg.xdec`. -/
def Frame.xd (f : Frame) (p : Nat) : Nat := if p = 0 then 0 else f.xdec
/-- `planes[p].cfg.ydec`. -/
def Frame.yd (f : Frame) (p : Nat) : Nat := if p = 0 then 0 else f.ydec
/-- `planes[p].cfg.width`; the luma width is a multiple of 8 (`v_frame` aligns it). -/
def Frame.w (f : Frame) (p : Nat) : Int := ((f.width >>> f.xd p : Nat) : Int)
/-- `planes[p].cfg.height`. -/
def Frame.h (f : Frame) (p : Nat) : Int := ((f.height >>> f.yd p : Nat) : Int)

/-- The fields of `FrameInvariants` that are used. -/
structure Params where
  bitDepth : Nat
  /-- `chroma_sampling == Cs400` -/
  mono : Bool
  damping : Nat
  yStrengths : List Nat
  uvStrengths : List Nat

/-- `TileBlocks`, of the whole frame. -/
structure Blocks where
  cols : Nat
  rows : Nat
  skip : Nat → Nat → Bool
  cdefIndex : Nat → Nat → Nat

/-- `blocks[bo].skip`; a block out of range panics. -/
def Blocks.skipAt (b : Blocks) (y x : Nat) : Option Bool :=
  if x < b.cols ∧ y < b.rows then some (b.skip y x) else none

/-- All four 4x4 blocks of an 8x8 block are skipped, `cdef.rs:352-355` and `462-465`. -/
def Blocks.skip8 (b : Blocks) (y x : Nat) : Option Bool := do
  let s0 ← b.skipAt y x
  let s1 ← b.skipAt y (x + 1)
  let s2 ← b.skipAt (y + 1) x
  let s3 ← b.skipAt (y + 1) (x + 1)
  return s0 && s1 && s2 && s3

/-- `cdef_analyze_superblock`, `cdef.rs:340-375`, for block `(bx, by)` of superblock `(sbx, sby)`. -/
def analyze (c : Params) (f : Frame) (b : Blocks) (sbx sby bx byy : Nat) : Option (Nat × Int) := do
  let x := 16 * sbx + 2 * bx
  let y := 16 * sby + 2 * byy
  if x < b.cols ∧ y < b.rows then
    let skip ← b.skip8 y x
    if !skip then
      let base : Int := (64 * sby + 8 * byy) * f.stride 0 + (64 * sbx + 8 * bx)
      findDir (fun i j => f.mem 0 (base + i * f.stride 0 + j)) (c.bitDepth - 8)
    else return (0, 0)
  else return (0, 0)

/-- A pixel written to plane `p`, row `y`, column `x`. -/
structure Write where
  p : Nat
  y : Int
  x : Int
  v : Int
deriving Repr, DecidableEq

/-- `[7, 0, 2, 4, 5, 6, 6, 6]`, `cdef.rs:509`. -/
def uvDir : List Nat := [7, 0, 2, 4, 5, 6, 6, 6]

/-- `local_dir`, `cdef.rs:494-516`. -/
def planeDir (f : Frame) (dir : Nat) (priY priUv : Int) (p : Nat) : Option Nat :=
  if p = 0 then some (if priY ≠ 0 then dir else 0)
  else if priUv ≠ 0 then (if f.xd p ≠ f.yd p then uvDir[dir]? else some dir) else some 0

/-- `sec += 1` when it is 3, `cdef.rs:417-422`. -/
def secStrength (s : Nat) : Int := if s % 4 = 3 then s % 4 + 1 else s % 4

/-- Run through `l`, collecting what is written; a panic ends it. -/
def collect {α : Type} (l : List α) (f : α → Option (List Write)) : Option (List Write) :=
  l.foldlM (fun acc a => (f a).map (acc ++ ·)) []

/-- The body of `for p in 0..planes`, `cdef.rs:468-566`: `pri`, `sec` are the strengths for the plane as coded. -/
def filterPlane (c : Params) (f : Frame) (sbx sby bx byy : Nat) (skip : Bool) (dir : Nat) (var : Int) (e : Edges)
    (priY secY priUv secUv : Int) (p : Nat) : Option (List Write) := do
  let xsize := 8 >>> f.xd p
  let ysize := 8 >>> f.yd p
  let poX : Int := (((64 * sbx : Nat) : Int) >>> f.xd p) + (bx * xsize : Nat)
  let poY : Int := (((64 * sby : Nat) : Int) >>> f.yd p) + (byy * ysize : Nat)
  let input := poY * f.stride p + poX
  let outX : Int := ((16 * sbx + 2 * bx : Nat) : Int) >>> f.xd p <<< 2
  let outY : Int := ((16 * sby + 2 * byy : Nat) : Int) >>> f.yd p <<< 2
  if !skip then
    let coeffShift := c.bitDepth - 8
    let pri := if p = 0 then adjustStrength (priY <<< coeffShift) var else priUv <<< coeffShift
    let sec := if p = 0 then secY <<< coeffShift else secUv <<< coeffShift
    let damping : Int := if p = 0 then c.damping + coeffShift else c.damping + coeffShift - 1
    let d ← planeDir f dir priY priUv p
    if poX + xsize + (if e.right then 2 else 0) ≤ f.w p ∧ 0 ≤ poX - (if e.left then 2 else 0) ∧
        poY + ysize + (if e.bottom then 2 else 0) ≤ f.h p ∧ 0 ≤ poY - (if e.top then 2 else 0) then
      collect (List.range ysize) (fun i => collect (List.range xsize) (fun j =>
        (filterBlock (f.mem p) input (f.stride p) pri sec d damping c.bitDepth (f.xd p) (f.yd p) e i j).map
          (fun v => [⟨p, outY + i, outX + j, v⟩])))
    else none
  else
    collect (List.range ysize) (fun i => collect (List.range xsize) (fun j =>
      some [⟨p, outY + i, outX + j, f.mem p (input + i * f.stride p + j)⟩]))

/-- The body of `for bx in 0..8`, `cdef.rs:456-567`, on the flags and the writes so far. -/
def blockStep (c : Params) (f : Frame) (b : Blocks) (sbx sby yStr uvStr byy : Nat) (a : Edges × List Write) (bx : Nat) :
    Option (Edges × List Write) := do
  let e := if (f.width - 64 * sbx) >>> 3 ≤ bx + 1 then { a.1 with right := false } else a.1
  let x := 16 * sbx + 2 * bx
  let y := 16 * sby + 2 * byy
  let planes := if c.mono then 1 else 3
  let ws ← if x < b.cols ∧ y < b.rows then do
      let skip ← b.skip8 y x
      let d ← analyze c f b sbx sby bx byy
      collect (List.range planes) (filterPlane c f sbx sby bx byy skip d.1 d.2 e (yStr / 4 : Nat) (secStrength yStr)
        (uvStr / 4 : Nat) (secStrength uvStr))
    else some []
  return ({ e with left := true }, a.2 ++ ws)

/-- The body of `for by in 0..8`, `cdef.rs:449-569`. -/
def rowStep (c : Params) (f : Frame) (b : Blocks) (sbx sby yStr uvStr : Nat) (a : Edges × List Write) (byy : Nat) :
    Option (Edges × List Write) := do
  let e := if (f.height - 64 * sby) >>> 3 ≤ byy + 1 then { a.1 with bottom := false } else a.1
  let e := { e with left := decide (0 < sbx), right := true }
  let r ← (List.range 8).foldlM (blockStep c f b sbx sby yStr uvStr byy) (e, a.2)
  return ({ r.1 with top := true }, r.2)

/-- `cdef_filter_superblock`, `cdef.rs:401-572`, with the loops over `by` and `bx` and the flags they keep.  The tile covers the
frame: `tile_rect.x = tile_rect.y = 0`. -/
def filterSuperblock (c : Params) (f : Frame) (b : Blocks) (sbx sby index : Nat) : Option (List Write) := do
  let yStr ← c.yStrengths[index]?
  let uvStr ← c.uvStrengths[index]?
  let r ← (List.range 8).foldlM (rowStep c f b sbx sby yStr uvStr) (⟨false, false, decide (0 < sby), true⟩, [])
  return r.2

/-- `cdef_filter_tile`, `cdef.rs:597-625`; `get_cdef`, `tiling/tile_blocks.rs:139-142`. -/
def filterTile (c : Params) (f : Frame) (b : Blocks) : Option (List Write) :=
  collect (List.range ((f.height + 63) / 64)) (fun fby => collect (List.range ((f.width + 63) / 64)) (fun fbx =>
    if 16 * fbx < b.cols ∧ 16 * fby < b.rows then
      filterSuperblock c f b fbx fby (b.cdefIndex (16 * fby) (16 * fbx))
    else none))

/-- The frame after the writes: `out` before them. -/
def apply (out : Nat → Int → Int → Int) (ws : List Write) : Nat → Int → Int → Int :=
  ws.foldl (fun o w => fun p y x => if p = w.p ∧ y = w.y ∧ x = w.x then w.v else o p y x) out

end Rav1e.Cdef

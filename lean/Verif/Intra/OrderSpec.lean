import Verif.Intra.Spec

/-!
# The order in which a decoder reads blocks

What is needed here of the AV1 specification to know, when an intra block is predicted, which of its neighbours have been decoded: sections
5.11.2 to 5.11.5 (superblocks, partitions, blocks) and 5.11.34 to 5.11.36 (residual, transform blocks), with `clear_block_decoded_flags` of
5.11.3, for one plane.  Superblocks have 64x64 pixels.  Positions are in units of four luma pixels (`MiRow`, `MiCol`) or four pixels of the plane.
-/

namespace Rav1e.Intra.Spec

/-- The frame (`MiRows`, `MiCols`), the tile (`MiRowStart`, `MiRowEnd`, `MiColStart`, `MiColEnd`) and the sampling of the plane. -/
structure Geo where
  miRows : Nat
  miCols : Nat
  rowStart : Nat
  rowEnd : Nat
  colStart : Nat
  colEnd : Nat
  subX : Nat
  subY : Nat

/-- A block: its position and size in luma units and the size of its transform blocks in this plane, in units of four pixels. -/
structure Blk where
  row : Nat
  col : Nat
  bw4 : Nat
  bh4 : Nat
  tw : Nat
  th : Nat
  deriving DecidableEq, Repr

/-- A transform block that is decoded: the block it is part of, its offset in it in units of four pixels of the plane, and the flags that
`transform_block` gives to the intra prediction process. -/
structure Event where
  blk : Blk
  x : Nat
  y : Nat
  aboveRt : Bool
  belowLft : Bool
  deriving DecidableEq, Repr

/-- `BlockDecoded` for the plane, and the transform blocks decoded so far. -/
structure State where
  decoded : Int → Int → Bool
  events : List Event

/-- `clear_block_decoded_flags( r, c, 16 )`. -/
def Geo.clear (g : Geo) (r c : Nat) : Int → Int → Bool := fun y x =>
  let sbWidth4 := (g.colEnd - c) >>> g.subX
  let sbHeight4 := (g.rowEnd - r) >>> g.subY
  if y = ((16 >>> g.subY : Nat) : Int) ∧ x = -1 then false
  else if y < 0 ∧ x < sbWidth4 then true
  else if x < 0 ∧ y < sbHeight4 then true
  else false

/-- `transform_block`, for the block `b` and the transform block at offset `x`, `y` in it. -/
def Geo.transformBlock (g : Geo) (b : Blk) (y x : Nat) (s : State) : State :=
  let startX := (b.col >>> g.subX) + x
  let startY := (b.row >>> g.subY) + y
  let maxX := (g.miCols * 4) >>> g.subX
  let maxY := (g.miRows * 4) >>> g.subY
  if startX * 4 ≥ maxX ∨ startY * 4 ≥ maxY then s
  else
    let subBlockMiRow := (startY <<< g.subY) % 16
    let subBlockMiCol := (startX <<< g.subX) % 16
    let r : Int := ((subBlockMiRow >>> g.subY : Nat) : Int)
    let c : Int := ((subBlockMiCol >>> g.subX : Nat) : Int)
    { decoded := fun i j => if r ≤ i ∧ i < r + b.th ∧ c ≤ j ∧ j < c + b.tw then true else s.decoded i j
      events := s.events ++ [⟨b, x, y, s.decoded (r - 1) (c + b.tw), s.decoded (r + b.th) (c - 1)⟩] }

/-- `HasChroma`; for the luma plane, where nothing is subsampled, this is true. -/
def Geo.has (g : Geo) (b : Blk) : Bool :=
  (decide (b.row % 2 = 1) || decide (b.bh4 % 2 = 0) || decide (g.subY = 0)) && (decide (b.col % 2 = 1) || decide (b.bw4 % 2 = 0) || decide (g.subX = 0))

/-- The size of a block in the plane, in units of four pixels: `get_plane_residual_size`. -/
def Geo.planeW (g : Geo) (b : Blk) : Nat := max 1 (b.bw4 >>> g.subX)
@[inherit_doc Geo.planeW] def Geo.planeH (g : Geo) (b : Blk) : Nat := max 1 (b.bh4 >>> g.subY)

/-- `residual`, for a block of at most 64x64 pixels. -/
def Geo.residual (g : Geo) (b : Blk) (s : State) : State :=
  if g.has b then
    (List.range (g.planeH b / b.th)).foldl (fun s i =>
      (List.range (g.planeW b / b.tw)).foldl (fun s j => g.transformBlock b (i * b.th) (j * b.tw) s) s) s
  else s

/-- A partition tree: `PARTITION_NONE`, `PARTITION_HORZ`, `PARTITION_VERT` and `PARTITION_SPLIT`; each block with the size of its transforms. -/
inductive Tree
  | none (tw th : Nat)
  | horz (tw th tw' th' : Nat)
  | vert (tw th tw' th' : Nat)
  | split (a b c d : Tree)

/-- `decode_partition( r, c, bSize )` for a square of `n` units. -/
def Geo.partition (g : Geo) : Nat → Nat → Nat → Tree → State → State
  | n, r, c, t, s =>
    if r ≥ g.miRows ∨ c ≥ g.miCols then s
    else match t with
      | .none tw th => g.residual ⟨r, c, n, n, tw, th⟩ s
      | .horz tw th tw' th' =>
        let s := g.residual ⟨r, c, n, n / 2, tw, th⟩ s
        if r + n / 2 < g.miRows then g.residual ⟨r + n / 2, c, n, n / 2, tw', th'⟩ s else s
      | .vert tw th tw' th' =>
        let s := g.residual ⟨r, c, n / 2, n, tw, th⟩ s
        if c + n / 2 < g.miCols then g.residual ⟨r, c + n / 2, n / 2, n, tw', th'⟩ s else s
      | .split t0 t1 t2 t3 =>
        let s := g.partition (n / 2) r c t0 s
        let s := g.partition (n / 2) r (c + n / 2) t1 s
        let s := g.partition (n / 2) (r + n / 2) c t2 s
        g.partition (n / 2) (r + n / 2) (c + n / 2) t3 s

/-- A superblock of `decode_tile`: the transform blocks of the plane in the order in which they are decoded. -/
def Geo.superblock (g : Geo) (r c : Nat) (t : Tree) : List Event := (g.partition 16 r c t ⟨g.clear r c, []⟩).events

/-- Transforms fit the block in the plane. -/
def Geo.Fits (g : Geo) (bw4 bh4 tw th : Nat) : Prop := tw ∣ max 1 (bw4 >>> g.subX) ∧ th ∣ max 1 (bh4 >>> g.subY)

/-- The trees that exist: no square of 4x4 pixels is split, transforms fit the blocks, and in 4:2:2 no block is split vertically, because its
chroma would have no block size. -/
def Geo.Ok (g : Geo) : Nat → Tree → Prop
  | n, .none tw th => g.Fits n n tw th
  | n, .horz tw th tw' th' => 2 ≤ n ∧ g.Fits n (n / 2) tw th ∧ g.Fits n (n / 2) tw' th'
  | n, .vert tw th tw' th' => 2 ≤ n ∧ (g.subX = 1 → g.subY = 1) ∧ g.Fits (n / 2) n tw th ∧ g.Fits (n / 2) n tw' th'
  | n, .split a b c d => 2 ≤ n ∧ g.Ok (n / 2) a ∧ g.Ok (n / 2) b ∧ g.Ok (n / 2) c ∧ g.Ok (n / 2) d

/-- `is_inside( candR, candC )`. -/
def Geo.isInside (g : Geo) (r c : Int) : Bool :=
  decide ((g.colStart : Int) ≤ c) && decide (c < g.colEnd) && decide ((g.rowStart : Int) ≤ r) && decide (r < g.rowEnd)

/-- `AvailL` and `AvailLChroma` of `decode_block` (5.11.5); nothing is subsampled in the luma plane. -/
def Geo.availL (g : Geo) (b : Blk) : Bool := g.isInside b.row (b.col - if g.subX = 1 ∧ b.bw4 = 1 then 2 else 1)
/-- `AvailU` and `AvailUChroma`. -/
def Geo.availU (g : Geo) (b : Blk) : Bool := g.isInside (b.row - if g.subY = 1 ∧ b.bh4 = 1 then 2 else 1) b.col

/-- The arguments with which `transform_block` (5.11.35) calls the intra prediction process. -/
def Geo.input (g : Geo) (e : Event) (cur : Int → Int → Int) (bitDepth : Nat) : Input where
  cur := cur
  x := ((((e.blk.col >>> g.subX) + e.x) * 4 : Nat) : Int)
  y := ((((e.blk.row >>> g.subY) + e.y) * 4 : Nat) : Int)
  w := e.blk.tw * 4
  h := e.blk.th * 4
  maxX := (((g.miCols * 4) >>> g.subX : Nat) : Int) - 1
  maxY := (((g.miRows * 4) >>> g.subY : Nat) : Int) - 1
  haveLeft := g.availL e.blk || decide (e.x > 0)
  haveAbove := g.availU e.blk || decide (e.y > 0)
  haveAboveRt := e.aboveRt
  haveBelowLft := e.belowLft
  bitDepth := bitDepth

/-! ### The intra filter type process (7.11.2.8) -/

/-- `YMode` and `UVMode` as far as they matter here. -/
inductive StoredMode
  | smooth | smoothV | smoothH | other
  deriving DecidableEq, Repr

/-- What `decode_block` stores for a block. -/
structure Stored where
  row : Nat
  col : Nat
  bw4 : Nat
  bh4 : Nat
  yMode : StoredMode
  uvMode : StoredMode
  isInter : Bool
  deriving DecidableEq, Repr

/-- `YModes`, `UVModes` and `RefFrames[ ][ ][ 0 ] > INTRA_FRAME`. -/
structure Modes where
  y : Int → Int → StoredMode
  uv : Int → Int → StoredMode
  inter : Int → Int → Bool

/-- A position in a block. -/
def Stored.Covers (b : Stored) (r c : Int) : Prop := (b.row : Int) ≤ r ∧ r < b.row + b.bh4 ∧ (b.col : Int) ≤ c ∧ c < b.col + b.bw4

instance (b : Stored) (r c : Int) : Decidable (b.Covers r c) := by unfold Stored.Covers; infer_instance

/-- The end of `decode_block` (5.11.5); `UVMode` exists for intra blocks with chroma (5.11.7, 5.11.22). -/
def Geo.store (g : Geo) (m : Modes) (b : Stored) : Modes where
  y := fun r c => if b.Covers r c then b.yMode else m.y r c
  uv := fun r c => if b.Covers r c ∧ b.isInter = false ∧ g.has ⟨b.row, b.col, b.bw4, b.bh4, 0, 0⟩ = true then b.uvMode else m.uv r c
  inter := fun r c => if b.Covers r c then b.isInter else m.inter r c

/-- `is_smooth( row, col, plane )`. -/
def Modes.isSmooth (m : Modes) (plane : Nat) (r c : Int) : Bool :=
  if plane = 0 then m.y r c != .other
  else if m.inter r c then false
  else m.uv r c != .other

/-- `get_filter_type( plane )`. -/
def Geo.filterType (g : Geo) (m : Modes) (plane : Nat) (b : Blk) : Bool :=
  let p : Geo := { g with subX := if plane = 0 then 0 else g.subX, subY := if plane = 0 then 0 else g.subY }
  let aboveSmooth :=
    if p.availU b then
      let r : Int := (b.row : Int) - 1
      let c : Int := b.col
      let c := if plane > 0 ∧ g.subX = 1 ∧ b.col % 2 = 0 then c + 1 else c
      let r := if plane > 0 ∧ g.subY = 1 ∧ b.row % 2 = 1 then r - 1 else r
      m.isSmooth plane r c
    else false
  let leftSmooth :=
    if p.availL b then
      let r : Int := b.row
      let c : Int := (b.col : Int) - 1
      let c := if plane > 0 ∧ g.subX = 1 ∧ b.col % 2 = 1 then c - 1 else c
      let r := if plane > 0 ∧ g.subY = 1 ∧ b.row % 2 = 0 then r + 1 else r
      m.isSmooth plane r c
    else false
  aboveSmooth || leftSmooth

end Rav1e.Intra.Spec

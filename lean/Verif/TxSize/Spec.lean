import Verif.Mvref.Spec

/-!
# Transform sizes, as the decoder reads them

Transcribed from the AV1 specification: `read_block_tx_size` (5.11.15), `read_var_tx_size` (5.11.17), `read_tx_size` (5.11.16), the tables `Max_Tx_Size_Rect`,
`Max_Tx_Depth` and `Split_Tx_Size` (9.3), and the choice of contexts for `tx_depth` and `txfm_split` (8.3.2).  A coded symbol is a value together with the
distribution it was coded with: a decoder that uses another one does not get the value.  What the headers of this encoder always say is taken as given: no
lossless segments, no blocks larger than 64x64.  The syntax elements that come between those of `read_block_tx_size` neither read nor write what is read here,
and are left out.
-/

namespace Rav1e.TxSize.Spec

open Mvref.Spec (Geo)

/-- A transform size: width and height, in pixels. -/
abbrev Tx := Nat × Nat

/-- The distributions: `tx_depth` has one for each maximal size (0 for `Tx8x8Cdf`, 1 for `Tx16x16Cdf`, 2 for `Tx32x32Cdf`, 3 for `Tx64x64Cdf`). -/
inductive Cdf
  | txDepth (size ctx : Nat)
  | txfmSplit (ctx : Nat)
  deriving DecidableEq, Repr

/-- The number of values. -/
def Cdf.size : Cdf → Nat
  | .txDepth k _ => if k = 0 then 2 else 3
  | .txfmSplit _ => 2

/-- A coded symbol. -/
abbrev Sym := Cdf × Nat

/-- Reading a symbol. -/
def read (c : Cdf) : List Sym → Option (Nat × List Sym)
  | [] => none
  | s :: l => if s.1 = c ∧ s.2 < c.size then some (s.2, l) else none

/-- What has been read of a block before `read_block_tx_size`: place and size in units of 4 pixels, `is_inter` and `skip`. -/
structure Hdr where
  row : Nat
  col : Nat
  bw4 : Nat
  bh4 : Nat
  inter : Bool
  skip : Bool
  deriving DecidableEq, Repr

/-- A position in a rectangle of `w` by `h` units. -/
def Inside (row col w h r c : Nat) : Prop := row ≤ r ∧ r < row + h ∧ col ≤ c ∧ c < col + w

instance (row col w h r c : Nat) : Decidable (Inside row col w h r c) := by unfold Inside; infer_instance

/-- `MiSizes`, `IsInters` and `Skips` (`none` where nothing has been written in this tile), `InterTxSizes`, and `TxSize`. -/
structure Dec where
  blk : Nat → Nat → Option Hdr
  itx : Nat → Nat → Tx
  txSize : Tx

/-- Writing a transform size for every unit of a rectangle. -/
def Dec.fill (D : Dec) (row col w h : Nat) (t : Tx) : Dec :=
  { D with itx := fun r c => if Inside row col w h r c then t else D.itx r c, txSize := t }

/-- The end of `decode_block`. -/
def Dec.store (D : Dec) (b : Hdr) : Dec := { D with blk := fun r c => if Inside b.row b.col b.bw4 b.bh4 r c then some b else D.blk r c }

/-- `Max_Tx_Size_Rect`. -/
def maxRect (b : Hdr) : Tx := (min 64 (4 * b.bw4), min 64 (4 * b.bh4))

/-- `Split_Tx_Size`: the longer side is halved, or both. -/
def split (t : Tx) : Tx :=
  if t = (4, 4) then (4, 4) else if t.1 < t.2 then (t.1, t.2 / 2) else if t.2 < t.1 then (t.1 / 2, t.2) else (t.1 / 2, t.2 / 2)

/-- `Max_Tx_Depth`, for the sizes of blocks up to 64x64. -/
def maxDepth (b : Hdr) : Nat :=
  match b.bw4, b.bh4 with
  | 1, 1 => 0
  | 1, 2 => 1 | 2, 1 => 1 | 2, 2 => 1
  | 2, 4 => 2 | 4, 2 => 2 | 4, 4 => 2 | 1, 4 => 2 | 4, 1 => 2
  | 4, 8 => 3 | 8, 4 => 3 | 8, 8 => 3 | 2, 8 => 3 | 8, 2 => 3
  | _, _ => 4

/-- `find_tx_size( size, size )`: the number of the square transform. -/
def squareIdx (size : Nat) : Nat := Nat.log2 size - 2

/-- `get_above_tx_width( row, col )`. -/
def aboveWidth (g : Geo) (D : Dec) (b : Hdr) (row col : Nat) : Option Nat :=
  if row = b.row then
    if row ≤ g.rowStart then some 64
    else do
      let a ← D.blk (row - 1) col
      some (if a.skip && a.inter then 4 * a.bw4 else (D.itx (row - 1) col).1)
  else some (D.itx (row - 1) col).1

/-- `get_left_tx_height( row, col )`. -/
def leftHeight (g : Geo) (D : Dec) (b : Hdr) (row col : Nat) : Option Nat :=
  if col = b.col then
    if col ≤ g.colStart then some 64
    else do
      let a ← D.blk row (col - 1)
      some (if a.skip && a.inter then 4 * a.bh4 else (D.itx row (col - 1)).2)
  else some (D.itx row (col - 1)).2

/-- `aboveW` in the choice of the context for `tx_depth`. -/
def depthAbove (g : Geo) (D : Dec) (b : Hdr) : Option Nat :=
  if b.row ≤ g.rowStart then some 0
  else (D.blk (b.row - 1) b.col).bind fun a => if a.inter then some (4 * a.bw4) else aboveWidth g D b b.row b.col

/-- `leftH` in the choice of the context for `tx_depth`. -/
def depthLeft (g : Geo) (D : Dec) (b : Hdr) : Option Nat :=
  if b.col ≤ g.colStart then some 0
  else (D.blk b.row (b.col - 1)).bind fun a => if a.inter then some (4 * a.bh4) else leftHeight g D b b.row b.col

/-- The context for `tx_depth`. -/
def depthCtx (g : Geo) (D : Dec) (b : Hdr) : Option Nat := do
  let aboveW ← depthAbove g D b
  let leftH ← depthLeft g D b
  some ((if aboveW ≥ (maxRect b).1 then 1 else 0) + (if leftH ≥ (maxRect b).2 then 1 else 0))

/-- The distribution for `tx_depth`. -/
def depthCdf (b : Hdr) : Nat := if maxDepth b > 3 then 3 else if maxDepth b = 3 then 2 else if maxDepth b = 2 then 1 else 0

/-- `read_tx_size( allowSelect )`: the value of `TxSize`. -/
def readTxSize (g : Geo) (select : Bool) (D : Dec) (b : Hdr) (allowSelect : Bool) (s : List Sym) : Option (Tx × List Sym) :=
  if (b.bw4, b.bh4) ≠ (1, 1) ∧ allowSelect = true ∧ select = true then do
    let ctx ← depthCtx g D b
    let (d, s) ← read (.txDepth (depthCdf b) ctx) s
    some (Nat.repeat split d (maxRect b), s)
  else some (maxRect b, s)

/-- The context for `txfm_split`. -/
def splitCtx (g : Geo) (D : Dec) (b : Hdr) (row col : Nat) (t : Tx) : Option Nat := do
  let a ← aboveWidth g D b row col
  let l ← leftHeight g D b row col
  let m := squareIdx (min 64 (max (4 * b.bw4) (4 * b.bh4)))
  some ((if squareIdx (max t.1 t.2) ≠ m then 3 else 0) + (4 - m) * 6 + (if a < t.1 then 1 else 0) + (if l < t.2 then 1 else 0))

/-- The places, relative to a transform of size `t`, of the transforms of size `split t` in it. -/
def parts (t : Tx) : List (Nat × Nat) :=
  (List.range (t.2 / (split t).2)).flatMap fun i =>
    (List.range (t.1 / (split t).1)).map fun j => (i * ((split t).2 / 4), j * ((split t).1 / 4))

/-- `read_var_tx_size( row, col, txSz, depth )`; the first argument is `MAX_VARTX_DEPTH - depth`. -/
def readVar (g : Geo) (b : Hdr) : Nat → Dec → Nat → Nat → Tx → List Sym → Option (Dec × List Sym)
  | 0, D, row, col, t, s => if row ≥ g.miRows ∨ col ≥ g.miCols then some (D, s) else some (D.fill row col (t.1 / 4) (t.2 / 4) t, s)
  | k + 1, D, row, col, t, s =>
    if row ≥ g.miRows ∨ col ≥ g.miCols then some (D, s)
    else do
      let (v, s) ← if t = (4, 4) then some (0, s) else do
        let ctx ← splitCtx g D b row col t
        read (.txfmSplit ctx) s
      if v = 1 then (parts t).foldlM (fun a p => readVar g b k a.1 (row + p.1) (col + p.2) (split t) a.2) (D, s)
      else some (D.fill row col (t.1 / 4) (t.2 / 4) t, s)

/-- `read_block_tx_size`; `select` is `TxMode == TX_MODE_SELECT`. -/
def readBlockTx (g : Geo) (select : Bool) (D : Dec) (b : Hdr) (s : List Sym) : Option (Dec × List Sym) :=
  if select = true ∧ (b.bw4, b.bh4) ≠ (1, 1) ∧ b.inter = true ∧ b.skip = false then
    readVar g b 2 D b.row b.col (maxRect b) s
  else do
    let (t, s) ← readTxSize g select D b (!b.skip || !b.inter) s
    some (D.fill b.row b.col b.bw4 b.bh4 t, s)

/-- The blocks of a tile, in the order in which they are decoded: the value of `TxSize` for each, and the arrays at the end. -/
def readTile (g : Geo) (select : Bool) : List Hdr → Dec → List Sym → Option (List Tx × Dec × List Sym)
  | [], D, s => some ([], D, s)
  | b :: l, D, s => do
    let (D, s) ← readBlockTx g select D b s
    let (ts, D', s) ← readTile g select l (D.store b) s
    some (D.txSize :: ts, D', s)

/-- Nothing has been decoded. -/
def start : Dec := ⟨fun _ _ => none, fun _ _ => (0, 0), (0, 0)⟩

end Rav1e.TxSize.Spec

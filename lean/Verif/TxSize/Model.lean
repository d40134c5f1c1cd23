import Verif.TxSize.Spec

/-!
# Transform sizes, as the encoder writes them

Block sizes are pairs of width and height in units of 4 pixels, transform sizes pairs of width and height in pixels.
-/

namespace Rav1e.TxSize

open Spec (Tx Sym Cdf)

/-- `Block` (src/context/block_unit.rs:165-183): what is looked at here.  `n4_w`, `n4_h` and `bsize` are set together (src/tiling/tile_blocks.rs:233-242). -/
structure EBlk where
  w4 : Nat
  h4 : Nat
  inter : Bool
  skip : Bool
  deriving DecidableEq, Repr

/-- `BlockContext` (src/context/block_unit.rs:228-240): what is looked at here, with places relative to the tile. -/
structure State where
  above : Nat → Nat
  left : Nat → Nat
  data : Nat → Nat → EBlk

/-- The tile (`rows` and `cols` of src/tiling/tile_blocks.rs:34-46) and the settings of the frame: whether it is a key frame, `rdo_tx_decision` and
`enable_inter_txfm_split`. -/
structure Cfg where
  rows : Nat
  cols : Nat
  key : Bool
  rdo : Bool
  split : Bool

/-- `tx_mode_select` (src/encoder.rs:953-956, 984). -/
def Cfg.select (C : Cfg) : Bool := if C.key then C.rdo else C.split

/-- `max_txsize_rect_lookup` (src/context/transform_unit.rs:60-83). -/
def maxTx : Nat × Nat → Tx
  | (1, 1) => (4, 4)
  | (1, 2) => (4, 8) | (2, 1) => (8, 4) | (2, 2) => (8, 8)
  | (2, 4) => (8, 16) | (4, 2) => (16, 8) | (4, 4) => (16, 16)
  | (4, 8) => (16, 32) | (8, 4) => (32, 16) | (8, 8) => (32, 32)
  | (8, 16) => (32, 64) | (16, 8) => (64, 32) | (16, 16) => (64, 64)
  | (1, 4) => (4, 16) | (4, 1) => (16, 4)
  | (2, 8) => (8, 32) | (8, 2) => (32, 8)
  | (4, 16) => (16, 64) | (16, 4) => (64, 16)
  | _ => (64, 64)

/-- `sub_tx_size_map` (src/context/transform_unit.rs:85-105). -/
def subTx : Tx → Tx
  | (4, 4) => (4, 4) | (8, 8) => (4, 4) | (16, 16) => (8, 8) | (32, 32) => (16, 16) | (64, 64) => (32, 32)
  | (4, 8) => (4, 4) | (8, 4) => (4, 4)
  | (8, 16) => (8, 8) | (16, 8) => (8, 8)
  | (16, 32) => (16, 16) | (32, 16) => (16, 16)
  | (32, 64) => (32, 32) | (64, 32) => (32, 32)
  | (4, 16) => (4, 8) | (16, 4) => (8, 4)
  | (8, 32) => (8, 16) | (32, 8) => (16, 8)
  | (16, 64) => (16, 32) | (64, 16) => (32, 16)
  | t => t

/-- `TxSize::sqr_up` as a number (src/transform/mod.rs:231-239). -/
def sqrUp : Tx → Nat
  | (4, 4) => 0
  | (8, 8) => 1 | (4, 8) => 1 | (8, 4) => 1
  | (16, 16) => 2 | (8, 16) => 2 | (16, 8) => 2 | (4, 16) => 2 | (16, 4) => 2
  | (32, 32) => 3 | (16, 32) => 3 | (32, 16) => 3 | (8, 32) => 3 | (32, 8) => 3
  | _ => 4

/-- The sizes among which `rdo_tx_size_type` chooses (src/rdo.rs:725-797): which one depends on costs that are not modelled.  The loop ends when the size
no longer changes; the list then repeats it. -/
def rdoSizes (C : Cfg) (bs : Nat × Nat) (inter skip : Bool) : List Tx :=
  let t := maxTx bs
  let t := if C.split && inter && !skip then subTx t else t
  if C.select && C.rdo && !inter then [t, subTx t, subTx (subTx t)] else [t]

/-- `TileBlocksMut::for_each` (src/tiling/tile_blocks.rs:206-224) as used by `set_skip`, `set_block_size` and `set_mode`
(src/encoder.rs:1900, 1968-1969). -/
def State.store (C : Cfg) (S : State) (x y : Nat) (b : EBlk) : State :=
  { S with data := fun r c => if y ≤ r ∧ r < y + b.h4 ∧ x ≤ c ∧ c < x + b.w4 ∧ r < C.rows ∧ c < C.cols then b else S.data r c }

/-- `update_tx_size_context` (src/context/block_unit.rs:362-386). -/
def State.update (S : State) (x y w4 h4 : Nat) (t : Tx) (skip : Bool) : State :=
  let t := if skip then (w4 * 4, h4 * 4) else t
  { S with above := fun i => if x ≤ i ∧ i < x + w4 then t.1 else S.above i,
           left := fun i => if y % 16 ≤ i ∧ i < y % 16 + h4 then t.2 else S.left i }

/-- `reset_left_tx_context` (src/context/block_unit.rs:388-392). -/
def State.resetLeft (S : State) : State := { S with left := fun _ => 0 }

/-- `get_tx_size_context` (src/context/transform_unit.rs:576-609). -/
def State.sizeCtx (S : State) (x y : Nat) (bs : Nat × Nat) : Nat :=
  let m := maxTx bs
  let hasAbove : Bool := 0 < y
  let hasLeft : Bool := 0 < x
  let above : Bool := S.above x ≥ m.1
  let left : Bool := S.left (y % 16) ≥ m.2
  let above : Bool := if hasAbove && (S.data (y - 1) x).inter then (S.data (y - 1) x).w4 * 4 ≥ m.1 else above
  let left : Bool := if hasLeft && (S.data y (x - 1)).inter then (S.data y (x - 1)).h4 * 4 ≥ m.2 else left
  if hasAbove && hasLeft then above.toNat + left.toNat
  else if hasAbove then above.toNat
  else if hasLeft then left.toNat
  else 0

/-- `tx_size_to_depth` (src/context/transform_unit.rs:615-624); the first argument bounds the loop, which runs at most `MAX_TX_DEPTH` times. -/
def toDepth : Nat → Tx → Tx → Nat
  | 0, _, _ => 0
  | n + 1, t, c => if t = c then 0 else toDepth n t (subTx c) + 1

/-- `bsize_to_tx_size_cat` before the subtraction (src/context/transform_unit.rs:635-646); the first argument bounds the loop. -/
def toCat : Nat → Tx → Nat
  | 0, _ => 0
  | n + 1, t => if t = (4, 4) then 0 else toCat n (subTx t) + 1

/-- `write_tx_size_intra` (src/context/transform_unit.rs:611-667). -/
def writeIntra (S : State) (x y : Nat) (bs : Nat × Nat) (t : Tx) : List Sym :=
  let ctx := S.sizeCtx x y bs
  let depth := toDepth 3 t (maxTx bs)
  let cat := toCat 5 (maxTx bs) - 1
  if cat > 0 then [(.txDepth (cat - 1 + 1) ctx, depth)] else [(.txDepth 0 ctx, depth)]

/-- `get_above_tx_width` (src/context/transform_unit.rs:671-686). -/
def State.aboveWidth (S : State) (x y : Nat) (first : Bool) : Nat :=
  if first && (y == 0) then 64
  else if first && ((S.data (y - 1) x).skip && (S.data (y - 1) x).inter) then (S.data (y - 1) x).w4 * 4
  else S.above x

/-- `get_left_tx_height` (src/context/transform_unit.rs:688-703). -/
def State.leftHeight (S : State) (x y : Nat) (first : Bool) : Nat :=
  if first && (x == 0) then 64
  else if first && ((S.data y (x - 1)).skip && (S.data y (x - 1)).inter) then (S.data y (x - 1)).h4 * 4
  else S.left (y % 16)

/-- `txfm_partition_context` (src/context/transform_unit.rs:705-725).  `BlockSize::tx_size` (src/partition.rs:306-328) is the same table as
`max_txsize_rect_lookup`. -/
def State.splitCtx (S : State) (x y : Nat) (bs : Nat × Nat) (t : Tx) (tbx tby : Nat) : Nat :=
  let above := if S.aboveWidth x y (tby == 0) < t.1 then 1 else 0
  let left := if S.leftHeight x y (tbx == 0) < t.2 then 1 else 0
  let m := sqrUp (maxTx bs)
  let category := (if sqrUp t ≠ m then 1 else 0) + (5 - 1 - m) * 2
  category * 3 + above + left

/-- `write_tx_size_inter` with `txfm_split == false` (src/context/transform_unit.rs:727-748). -/
def writeUnsplit (C : Cfg) (S : State) (x y : Nat) (bs : Nat × Nat) (t : Tx) (tbx tby depth : Nat) : List Sym × State :=
  if x ≥ C.cols ∨ y ≥ C.rows then ([], S)
  else
    (if t ≠ (4, 4) ∧ depth < 2 then [(.txfmSplit (S.splitCtx x y bs t tbx tby), 0)] else [],
      S.update x y (t.1 / 4) (t.2 / 4) t false)

/-- `write_tx_size_inter` (src/context/transform_unit.rs:727-773). -/
def writeInter (C : Cfg) (S : State) (x y : Nat) (bs : Nat × Nat) (t : Tx) (split : Bool) : List Sym × State :=
  if split then
    if x ≥ C.cols ∨ y ≥ C.rows then ([], S)
    else
      let head : List Sym := if t ≠ (4, 4) then [(.txfmSplit (S.splitCtx x y bs t 0 0), 1)] else []
      let u := subTx t
      let places := (List.range (bs.2 / (u.2 / 4))).flatMap fun i => (List.range (bs.1 / (u.1 / 4))).map fun j => (j, i)
      places.foldl (fun a p =>
        let r := writeUnsplit C a.2 (x + p.1 * (u.1 / 4)) (y + p.2 * (u.2 / 4)) bs u p.1 p.2 1
        (a.1 ++ r.1, r.2)) (head, S)
  else writeUnsplit C S x y bs t 0 0 0

/-- `<` of src/partition.rs:165-179. -/
def smaller (a b : Nat × Nat) : Bool := a.1 ≤ b.1 && a.2 ≤ b.2 && (a != b)

/-- The part of `encode_block_post_cdef` that is about transform sizes (src/encoder.rs:1968-1970, 2131-2168), for a block at `x`, `y` of the tile for which the
size `t` was chosen. -/
def encodeTx (C : Cfg) (S : State) (x y : Nat) (b : EBlk) (t : Tx) : List Sym × State :=
  let S := S.store C x y b
  if C.select then
    if (b.w4, b.h4) ≠ (1, 1) ∧ (!b.inter || !b.skip) = true then
      if !b.inter then (writeIntra S x y (b.w4, b.h4) t, S.update x y b.w4 b.h4 t false)
      else writeInter C S x y (b.w4, b.h4) (maxTx (b.w4, b.h4)) (C.split && smaller (t.1 / 4, t.2 / 4) (b.w4, b.h4))
    else ([], S.update x y b.w4 b.h4 t (b.inter && b.skip))
  else ([], S)

/-- A block given to `encode_block_post_cdef` (src/encoder.rs:1937-1946): its place in the frame, its size, `is_inter`, `skip`, and the transform size that was chosen. -/
structure Coded where
  row : Nat
  col : Nat
  bw4 : Nat
  bh4 : Nat
  inter : Bool
  skip : Bool
  tx : Tx
  deriving DecidableEq, Repr

/-- The blocks of a row of superblocks, in the order in which `encode_partition_topdown` and `encode_partition_bottomup` code them
(src/encoder.rs:2917-3221, 2634-2915). -/
def encodeRow (C : Cfg) (row0 col0 : Nat) : List Coded → State → List Sym × State
  | [], S => ([], S)
  | e :: l, S =>
    let r := encodeTx C S (e.col - col0) (e.row - row0) ⟨e.bw4, e.bh4, e.inter, e.skip⟩ e.tx
    let q := encodeRow C row0 col0 l r.2
    (r.1 ++ q.1, q.2)

/-- `encode_tile` (src/encoder.rs:3485-3520): the left contexts are reset at the start of every row of superblocks. -/
def encodeRows (C : Cfg) (row0 col0 : Nat) : List (List Coded) → State → List Sym × State
  | [], S => ([], S)
  | l :: ls, S =>
    let r := encodeRow C row0 col0 l S.resetLeft
    let q := encodeRows C row0 col0 ls r.2
    (r.1 ++ q.1, q.2)

/-- `BlockContext::new` (src/context/block_unit.rs:243-261). -/
def init : State := ⟨fun _ => 0, fun _ => 0, fun _ _ => ⟨16, 16, false, false⟩⟩

end Rav1e.TxSize

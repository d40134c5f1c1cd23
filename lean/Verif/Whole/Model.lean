import Verif.Block.Model
import Verif.Resid.Model
import Verif.Whole.Spec

/-!
# A tile, as the encoder writes it

`encode_partition_topdown` and `encode_partition_bottomup` with everything that `encode_block_pre_cdef` and `encode_block_post_cdef` write for a block: the
symbols of `Block`, then those of `TxSize`, then those of `Resid`.  CDEF indices and restoration units are in `LoopSyn`, and are left out here.
-/

namespace Rav1e.Whole

open Spec (Tok)
open Coef (BlockSize)

/-- The settings of the tile for its blocks, whether it is in a key frame, `rdo_tx_decision`, `enable_inter_txfm_split` and `use_reduced_tx_set`. -/
structure Cfg extends Block.Cfg where
  key : Bool
  rdo : Bool
  split : Bool
  reduced : Bool

/-- The same tile for transform sizes and coefficients. -/
def Cfg.resid (C : Cfg) : Resid.Cfg where
  rows := C.rows
  cols := C.cols
  key := C.key
  rdo := C.rdo
  split := C.split
  row0 := C.y
  col0 := C.x
  wInB := C.frameCols
  hInB := C.frameRows
  xdec := C.xdec
  ydec := C.ydec
  mono := C.cs400
  reduced := C.reduced

/-- What else has been decided for a block: `tx_size`, `tx_type` (src/encoder.rs:1943-1944), and what `encode_tx_block` gets from the quantizer for the
transform block of a plane at a place of the tile: the coefficients and their number. -/
structure Extra where
  tx : Quant.TxSize
  ty : Quant.TxType
  q : Nat → Nat → Nat → List Int × Nat

/-- `BlockSize::from_width_and_height` (src/partition.rs:190-217), for the sizes of `Block.bsizeIdx`; width and height in units of 4 pixels. -/
def bsOf (w h : Nat) : BlockSize :=
  [BlockSize.b4x4, .b4x8, .b8x4, .b8x8, .b8x16, .b16x8, .b16x16, .b16x32, .b32x16, .b32x32, .b32x64, .b64x32, .b64x64].getD (Block.bsizeIdx w h) .b4x4

/-- `PredictionMode as usize` (src/predict.rs:76-111) of an inter mode. -/
def modeIdx (m : Mvref.Mode) : Nat :=
  14 + [Mvref.Mode.nearestmv, .near0mv, .near1mv, .near2mv, .globalmv, .newmv, .nearest_nearestmv, .near_near0mv, .near_near1mv, .near_near2mv,
    .nearest_newmv, .new_nearestmv, .near_new0mv, .near_new1mv, .near_new2mv, .new_near0mv, .new_near1mv, .new_near2mv, .global_globalmv, .new_newmv].idxOf m

/-- The arguments of `encode_block_post_cdef` (src/encoder.rs:1937-1946) that matter for transforms.  `chroma_mode` is only used for intra blocks. -/
def codedOf (C : Cfg) (X : Extra) (x y w h : Nat) (ch : Block.Choice) : Resid.Coded where
  row := C.y + y
  col := C.x + x
  bs := bsOf w h
  mode := if ch.mode = .intra then ch.intraMode else modeIdx ch.mode
  uvMode := ch.uvMode
  skip := ch.skip
  tx := X.tx
  ty := X.ty
  q := X.q

/-- `BlockContext` (src/context/block_unit.rs:228-240). -/
structure State where
  blk : Block.State
  size : TxSize.State
  cx : Coef.Cx

/-- `encode_block_pre_cdef` and `encode_block_post_cdef` (src/encoder.rs:1896-2240): modes, then transform sizes, then coefficients.  That the contexts of
coefficients are reset before anything is written (src/encoder.rs:1958-1967) makes no difference: modes and transform sizes do not depend on them. -/
def encodeBlock (C : Cfg) (X : Nat → Nat → Extra) (S : State) (x y w h : Nat) (ch : Block.Choice) : Option (List Tok × State) := do
  let (s0, blk) ← Block.encodeBlock C.toCfg S.blk x y w h ch
  let e := codedOf C (X x y) x y w h ch
  let r := TxSize.encodeTx C.resid.toCfg S.size x y ⟨w, h, e.inter, e.skip⟩ (e.tx.width, e.tx.height)
  let jobs ← Resid.encodeBlock C.resid e
  let (s2, cx) ← Resid.runJobs jobs S.cx
  some (s0.map .mode ++ r.1.map .size ++ s2.map .coef, ⟨blk, r.2, cx⟩)

/-- `Block.encodeLeaf` (src/encoder.rs:2924-2926 and 2990-3149). -/
def encodeLeaf (C : Cfg) (X : Nat → Nat → Extra) (S : State) (x y w h : Nat) (ch : Block.Choice) : Option (List Tok × State) :=
  if x ≥ C.cols ∨ y ≥ C.rows then some ([], S) else encodeBlock C X S x y w h ch

/-- `update_partition_context` (src/context/partition_unit.rs:480-503). -/
def State.update (S : State) (x y n w h : Nat) : State := { S with blk := Block.updatePartition S.blk x y n w h }

/-- `encode_partition_topdown` (src/encoder.rs:2917-3221) for a square of `n` units, with the decisions in the tree and in `X`;
`encode_partition_bottomup` (src/encoder.rs:2634-2914) leaves the same. -/
def encodeTree (C : Cfg) (X : Nat → Nat → Extra) : Nat → Nat → Nat → Block.Tree → State → Option (List Tok × State)
  | n, x, y, t, S =>
    if x ≥ C.cols ∨ y ≥ C.rows then some ([], S)
    else do
      let s0 ← Block.partSyntax C.toCfg S.blk x y n t.part
      match t with
      | .none a => do
        let (s1, S) ← encodeBlock C X S x y n n a
        some (s0.map .mode ++ s1, if n ≥ 2 then S.update x y n n n else S)
      | .horz a b => do
        let (s1, S) ← encodeLeaf C X S x y n (n / 2) a
        let (s2, S) ← encodeLeaf C X S x (y + n / 2) n (n / 2) b
        some (s0.map .mode ++ s1 ++ s2, S.update x y n n (n / 2))
      | .vert a b => do
        let (s1, S) ← encodeLeaf C X S x y (n / 2) n a
        let (s2, S) ← encodeLeaf C X S (x + n / 2) y (n / 2) n b
        some (s0.map .mode ++ s1 ++ s2, S.update x y n (n / 2) n)
      | .split a b c d => do
        let (s1, S) ← encodeTree C X (n / 2) x y a S
        let (s2, S) ← encodeTree C X (n / 2) (x + n / 2) y b S
        let (s3, S) ← encodeTree C X (n / 2) x (y + n / 2) c S
        let (s4, S) ← encodeTree C X (n / 2) (x + n / 2) (y + n / 2) d S
        some (s0.map .mode ++ s1 ++ s2 ++ s3 ++ s4, if n = 2 then S.update x y n (n / 2) (n / 2) else S)

/-- The superblocks of a row (src/encoder.rs:3489-3583). -/
def encodeRow (C : Cfg) (X : Nat → Nat → Extra) (t : Nat → Nat → Block.Tree) (y : Nat) : Nat → Nat → State → Option (List Tok × State)
  | 0, _, S => some ([], S)
  | k + 1, j, S => do
    let (s, S) ← encodeTree C X 16 (16 * j) y (t y (16 * j)) S
    let (s', S) ← encodeRow C X t y k (j + 1) S
    some (s ++ s', S)

/-- `reset_left_contexts` (src/context/block_unit.rs:394-401). -/
def State.resetLeft (C : Cfg) (S : State) : State :=
  ⟨{ S.blk with leftP := fun _ => 0 }, S.size.resetLeft, Coef.resetLeft S.cx (if C.cs400 then 1 else 3)⟩

/-- The rows of superblocks (src/encoder.rs:3486-3584). -/
def encodeRows (C : Cfg) (X : Nat → Nat → Extra) (t : Nat → Nat → Block.Tree) : Nat → Nat → State → Option (List Tok × State)
  | 0, _, S => some ([], S)
  | k + 1, i, S => do
    let (s, S) ← encodeRow C X t (16 * i) ((C.cols + 15) / 16) 0 (S.resetLeft C)
    let (s', S) ← encodeRows C X t k (i + 1) S
    some (s ++ s', S)

/-- `encode_tile` (src/encoder.rs:3468-3584), from the contexts of `BlockContext::new` (src/context/block_unit.rs:243-261); the blocks may have any contents. -/
def encodeTile (C : Cfg) (X : Nat → Nat → Extra) (t : Nat → Nat → Block.Tree) (data : Nat → Nat → Block.EBlk) : Option (List Tok × State) :=
  encodeRows C X t ((C.rows + 15) / 16) 0 ⟨⟨data, fun _ => 0, fun _ => 0, []⟩, TxSize.init, Coef.Cx.new⟩

end Rav1e.Whole

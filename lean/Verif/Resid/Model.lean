import Verif.Coef.Model
import Verif.TxSize.Model

/-!
# The residual of a tile, as the encoder writes it

`write_tx_blocks`, `write_tx_tree` and `encode_tx_block` of `src/encoder.rs`, as far as they decide which transform blocks are coded, where, with which size and
which type, and the order in which `encode_tile` does it.  What is coded for a transform block is `Coef.writeCoeffs`.  The quantized coefficients are whatever
the transform and the quantizer return: they are given with the block.  Prediction, reconstruction and distortion are left out: they write nothing.
-/

namespace Rav1e.Resid

open Coef (BlockSize Arg Job Cx)
open Quant (TxType)

/-- The tile, its place in the frame (`tile_rect` and `to_frame_block_offset`, src/tiling/tile_state.rs:208-214), the size of the frame in units of 4 pixels
(`w_in_b`, `h_in_b`), the subsampling of the chroma planes, whether there are none, `use_reduced_tx_set`, and the settings of the frame. -/
structure Cfg extends TxSize.Cfg where
  row0 : Nat
  col0 : Nat
  wInB : Nat
  hInB : Nat
  xdec : Nat
  ydec : Nat
  mono : Bool
  reduced : Bool

/-- A block given to `encode_block_post_cdef` (src/encoder.rs:1937-1946): its place in the frame, its size, prediction modes (`PredictionMode as usize`), `skip`,
transform size and type, and what `encode_tx_block` gets from the quantizer for the transform block of a plane at a place of the tile: the coefficients and their number. -/
structure Coded where
  row : Nat
  col : Nat
  bs : BlockSize
  mode : Nat
  uvMode : Nat
  skip : Bool
  tx : Quant.TxSize
  ty : TxType
  q : Nat → Nat → Nat → List Int × Nat

/-- `!luma_mode.is_intra()` (src/predict.rs:252-254). -/
def Coded.inter (e : Coded) : Bool := 14 ≤ e.mode

/-- `RAV1E_TX_TYPES` (src/transform/mod.rs:28-44). -/
def rav1eTypes : List TxType := [.dctDct, .adstDct, .dctAdst, .adstAdst, .idtx, .vDct, .hDct]

/-- The types among which `rdo_tx_size_type` chooses for a size (src/rdo.rs:725-797), and `rdo_tx_type_decision`, which leaves out the types that are not in
the set (src/rdo.rs:1733-1736): which one depends on costs that are not modelled. -/
def rdoTypes (C : Cfg) (tx : Quant.TxSize) (inter skip : Bool) : List TxType :=
  let set := Coef.getTxSet tx inter C.reduced
  if 0 < set.idx ∧ C.rdo = true ∧ inter = false ∧ skip = false then
    rav1eTypes.filter fun ty => (Coef.txUsed.getD set.idx []).getD ty.idx 0 ≠ 0
  else [.dctDct]

/-- `TxSize::width_mi` (src/transform/mod.rs:175-177). -/
def widthMi (t : Quant.TxSize) : Nat := t.width >>> 2

/-- `TxSize::height_mi` (src/transform/mod.rs:190-192). -/
def heightMi (t : Quant.TxSize) : Nat := t.height >>> 2

/-- `max_txsize_rect_lookup` (src/context/transform_unit.rs:60-83). -/
def maxTx : BlockSize → Quant.TxSize
  | .b4x4 => .tx4x4
  | .b4x8 => .tx4x8 | .b8x4 => .tx8x4 | .b8x8 => .tx8x8
  | .b8x16 => .tx8x16 | .b16x8 => .tx16x8 | .b16x16 => .tx16x16
  | .b16x32 => .tx16x32 | .b32x16 => .tx32x16 | .b32x32 => .tx32x32
  | .b32x64 => .tx32x64 | .b64x32 => .tx64x32 | .b64x64 => .tx64x64
  | .b64x128 => .tx64x64 | .b128x64 => .tx64x64 | .b128x128 => .tx64x64
  | .b4x16 => .tx4x16 | .b16x4 => .tx16x4
  | .b8x32 => .tx8x32 | .b32x8 => .tx32x8
  | .b16x64 => .tx16x64 | .b64x16 => .tx64x16

/-- `largest_chroma_tx_size` (src/partition.rs:385-393); `none` is the panic of `expect`. -/
def largestChroma (bs : BlockSize) (xdec ydec : Nat) : Option Quant.TxSize := (bs.subsampled xdec ydec).map fun p => Coef.codedSize (maxTx p)

/-- `intra_mode_to_tx_type_context` (src/context/transform_unit.rs:162-176). -/
def modeType : List TxType :=
  [.dctDct, .adstDct, .dctAdst, .dctDct, .adstAdst, .adstDct, .dctAdst, .dctAdst, .adstDct, .adstAdst, .adstDct, .dctAdst, .adstAdst]

/-- `uv2y` (src/context/transform_unit.rs:178-193). -/
def uv2y : List Nat := [0, 1, 2, 3, 4, 5, 6, 7, 8, 9, 10, 11, 12, 0]

/-- `uv_intra_mode_to_tx_type_context` (src/context/transform_unit.rs:195-197); `none` is the panic of an index. -/
def uvIntraType (mode : Nat) : Option TxType := uv2y[mode]?.bind fun m => modeType[m]?

/-- `TxType::uv_inter` (src/transform/mod.rs:81-96). -/
def uvInter (ty : TxType) (uv : Quant.TxSize) : TxType :=
  if Coef.sqrUp uv = .tx32x32 then (if ty = .idtx then .idtx else .dctDct)
  else if Coef.sqr uv = .tx16x16 then (if ty = .vAdst ∨ ty = .hAdst ∨ ty = .vFlipadst ∨ ty = .hFlipadst then .dctDct else ty)
  else ty

/-- A call of `encode_tx_block` (src/encoder.rs:1404-1432): plane, `tx_bo`, `mode`, `tx_size`, `tx_type`.  `bx`, `by`,
`tile_partition_bo` and `po` are for the prediction. -/
structure Site where
  plane : Nat
  x : Nat
  y : Nat
  mode : Nat
  tx : Quant.TxSize
  ty : TxType

/-- `ts.input.planes[p].cfg` (src/encoder.rs:1433). -/
def Cfg.dec (C : Cfg) (plane : Nat) : Nat × Nat := if plane = 0 then (0, 0) else (C.xdec, C.ydec)

/-- What `encode_tx_block` gives to `write_coeffs_lv_map` (src/encoder.rs:1433-1587), if it calls it; `none` is the panic of `subsampled_size`.  `frame_bo` is
the place in the frame. -/
def encodeTxBlock (C : Cfg) (e : Coded) (s : Site) : Option (List Arg) :=
  if s.x ≥ C.cols ∨ s.y ≥ C.rows then some []
  else
    let d := C.dec s.plane
    (e.bs.subsampled d.1 d.2).bind fun pb =>
      if e.skip then some []
      else
        let r := e.q s.plane s.x s.y
        some [{ plane := s.plane, x := s.x, y := s.y, coeffs := r.1, eob := r.2, mode := s.mode, tx := s.tx, ty := s.ty, pb := pb, xdec := d.1, ydec := d.2,
                reduced := C.reduced, clippedW := Coef.clipped C.wInB (C.col0 + s.x) d.1 s.tx.width,
                clippedH := Coef.clipped C.hInB (C.row0 + s.y) d.2 s.tx.height }]

/-- A loop whose body may panic: what it writes. -/
def calls {ι : Type} (f : ι → Option (List Arg)) : List ι → Option (List Arg)
  | [] => some []
  | i :: l => (f i).bind fun a => (calls f l).map (a ++ ·)

/-- `for by in 0..h { for bx in 0..w {` as pairs of `bx` and `by`. -/
def grid (w h : Nat) : List (Nat × Nat) := (List.range h).flatMap fun j => (List.range w).map fun i => (i, j)

/-- The transform blocks of the luma plane (src/encoder.rs:2278-2315, 2441-2481).  The test that both loops make before they call `encode_tx_block` is the one
that it makes itself. -/
def luma (C : Cfg) (e : Coded) (x y : Nat) : Option (List Arg) :=
  calls (fun p => encodeTxBlock C e ⟨0, x + p.1 * widthMi e.tx, y + p.2 * heightMi e.tx, e.mode, e.tx, e.ty⟩)
    (grid (e.bs.widthMi / widthMi e.tx) (e.bs.heightMi / heightMi e.tx))

/-- `bw_uv` and `bh_uv` (src/encoder.rs:2334-2343, 2502-2511), for luma transforms that cover `w` by `h` units. -/
def uvCount (C : Cfg) (w h : Nat) (uv : Quant.TxSize) : Nat × Nat :=
  let r := (w >>> C.xdec, h >>> C.ydec)
  let r := if r.1 = 0 ∨ r.2 = 0 then (1, 1) else r
  (r.1 / widthMi uv, r.2 / heightMi uv)

/-- Subtraction of `usize`: `none` is the overflow. -/
def usub (a b : Nat) : Option Nat := if b ≤ a then some (a - b) else none

/-- The loops over the chroma planes (src/encoder.rs:2358-2404, 2520-2566), for luma transforms that cover `w` by `h` units. -/
def chroma (C : Cfg) (e : Coded) (x y w h mode : Nat) (uv : Quant.TxSize) (ty : TxType) : Option (List Arg) :=
  calls (fun pl => calls (fun p =>
      (usub (x + ((p.1 * widthMi uv) <<< C.xdec)) ((if w = 1 then 1 else 0) * C.xdec)).bind fun tx =>
        (usub (y + ((p.2 * heightMi uv) <<< C.ydec)) ((if h = 1 then 1 else 0) * C.ydec)).bind fun ty' =>
          encodeTxBlock C e ⟨pl, tx, ty', mode, uv, ty⟩)
    (grid (uvCount C w h uv).1 (uvCount C w h uv).2)) [1, 2]

/-- `write_tx_blocks` (src/encoder.rs:2243-2407). -/
def writeTxBlocks (C : Cfg) (e : Coded) (x y : Nat) : Option (List Arg) :=
  (luma C e x y).bind fun l =>
    if Coef.hasChroma x y e.bs C.xdec C.ydec C.mono then
      (largestChroma e.bs C.xdec C.ydec).bind fun uv =>
        (if uv.width ≥ 32 ∨ uv.height ≥ 32 then some .dctDct else uvIntraType e.uvMode).bind fun ty =>
          (chroma C e x y (e.bs.widthMi / widthMi e.tx * widthMi e.tx) (e.bs.heightMi / heightMi e.tx * heightMi e.tx) e.uvMode uv ty).map (l ++ ·)
    else some l

/-- `partition_has_coeff` after the luma plane (src/encoder.rs:2479): `write_coeffs_lv_map` returns whether there is a coefficient
(src/context/block_unit.rs:1823-1828, 1858). -/
def hasCoeff (l : List Arg) : Bool := l.any fun a => a.eob ≠ 0

/-- `write_tx_tree` (src/encoder.rs:2409-2569). -/
def writeTxTree (C : Cfg) (e : Coded) (x y : Nat) : Option (List Arg) :=
  if e.skip then some []
  else
    (luma C e x y).bind fun l =>
      if Coef.hasChroma x y e.bs C.xdec C.ydec C.mono then
        (largestChroma e.bs C.xdec C.ydec).bind fun uv =>
          (chroma C e x y (widthMi (maxTx e.bs)) (heightMi (maxTx e.bs)) e.mode uv (if hasCoeff l then uvInter e.ty uv else .dctDct)).map (l ++ ·)
      else some l

/-- The part of `encode_block_post_cdef` that is about coefficients (src/encoder.rs:1958-1967, 2198-2236): what it does to the contexts of coefficients. -/
def encodeBlock (C : Cfg) (e : Coded) : Option (List Job) :=
  let x := e.col - C.col0
  let y := e.row - C.row0
  (if e.inter then writeTxTree C e x y else writeTxBlocks C e x y).map fun l =>
    (if e.skip then [Job.skip x y e.bs C.xdec C.ydec C.mono] else []) ++ l.map Job.coeffs

/-- The blocks of a row of superblocks, in the order in which `encode_partition_topdown` and `encode_partition_bottomup` give them to `encode_block_post_cdef`
(src/encoder.rs:2917-3221, 2634-2915). -/
def encodeRow (C : Cfg) : List Coded → Option (List Job)
  | [] => some []
  | e :: l => (encodeBlock C e).bind fun a => (encodeRow C l).map (a ++ ·)

/-- `encode_tile` (src/encoder.rs:3485-3520): the left contexts are reset at the start of every row of superblocks. -/
def encodeRows (C : Cfg) : List (List Coded) → Option (List Job)
  | [] => some []
  | l :: ls => (encodeRow C l).bind fun a => (encodeRows C ls).map (Job.row (if C.mono then 1 else 3) :: a ++ ·)

/-- `Coef.encodeJobs`, with the contexts afterwards (src/encoder.rs:1958-1967, 2198-2236). -/
def runJobs : List Job → Cx → Option (Coef.Toks × Cx)
  | [], s => some ([], s)
  | .coeffs a :: js, s => (Coef.writeCoeffs a s).bind fun r => (runJobs js r.2).map fun q => (r.1 ++ q.1, q.2)
  | .skip x y b xdec ydec mono :: js, s => (Coef.resetSkip s x y b xdec ydec mono).bind fun s => runJobs js s
  | .row planes :: js, s => runJobs js (Coef.resetLeft s planes)
  | .other t :: js, s => (runJobs js s).map fun q => (t ++ q.1, q.2)

/-- What is written for the residual of a tile. -/
def encodeTile (C : Cfg) (rows : List (List Coded)) : Option Coef.Toks := (encodeRows C rows).bind fun l => Coef.encodeJobs l Cx.new

end Rav1e.Resid

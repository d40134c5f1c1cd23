import Verif.Coef.Spec
import Verif.TxSize.Spec

/-!
# The residual of a tile, as the decoder reads it

Transcribed from the AV1 specification: `residual` (5.11.34), `transform_block` (5.11.35), `transform_tree` (5.11.36), `get_tx_size` (5.11.37),
`get_plane_residual_size` (5.11.38), `compute_tx_type` (5.11.40), the parts of `coeffs` (5.11.39) and `transform_type` (5.11.47) that fill `TxTypes`, and
`decode_block` (5.11.5) and `decode_tile` (5.11.2) as far as they call them.  `coeffs` itself is `Av1Spec.Coef.rdCoeffs`.  Blocks are at most 64x64, so that
there is one chunk; no segment is lossless, and quantizer indices are positive.  The syntax elements read between the residuals of two blocks neither read
nor write what is read here, and are left out.
-/

namespace Rav1e.Resid.Spec

open Av1Spec (Rd)
open Av1Spec.Coef (Ctx Out rdCoeffs)
open Mvref.Spec (Geo)
open TxSize.Spec (Tx Inside)

/-- The tile, and what the sequence and frame headers say. -/
structure Frame where
  g : Geo
  subX : Nat
  subY : Nat
  mono : Bool
  reduced : Bool

/-- What has been read of a block before `residual`: place and size in units of 4 pixels, `is_inter`, `skip`, `TxSize`, `YMode` and `UVMode`. -/
structure Hdr where
  row : Nat
  col : Nat
  bw4 : Nat
  bh4 : Nat
  inter : Bool
  skip : Bool
  tx : Tx
  yMode : Nat
  uvMode : Nat

/-- `HasChroma`. -/
def Frame.hasChroma (f : Frame) (h : Hdr) : Bool :=
  if f.subY = 1 ∧ h.row % 2 = 0 ∧ h.bh4 % 2 = 1 then false
  else if f.subX = 1 ∧ h.col % 2 = 0 ∧ h.bw4 % 2 = 1 then false
  else !f.mono

/-- `subX` of a plane. -/
def Frame.subXOf (f : Frame) (plane : Nat) : Nat := if 0 < plane then f.subX else 0

/-- `subY` of a plane. -/
def Frame.subYOf (f : Frame) (plane : Nat) : Nat := if 0 < plane then f.subY else 0

/-- The width of `get_plane_residual_size( MiSize, plane )`, in units of 4 pixels: `Subsampled_Size` halves sides longer than 4 pixels. -/
def Frame.num4x4W (f : Frame) (h : Hdr) (plane : Nat) : Nat := max 1 (h.bw4 >>> f.subXOf plane)

/-- The height. -/
def Frame.num4x4H (f : Frame) (h : Hdr) (plane : Nat) : Nat := max 1 (h.bh4 >>> f.subYOf plane)

/-- `get_tx_size( plane, TxSize )`. -/
def Frame.txSize (f : Frame) (h : Hdr) (plane : Nat) : Tx :=
  if plane = 0 then h.tx
  else
    let uvTx : Tx := (min 64 (4 * f.num4x4W h plane), min 64 (4 * f.num4x4H h plane))
    if uvTx.1 = 64 ∨ uvTx.2 = 64 then
      if uvTx.1 = 16 then (16, 32) else if uvTx.2 = 16 then (32, 16) else (32, 32)
    else uvTx

/-- A call of `transform_block`: plane, `startX`, `startY`, `txSz`. -/
structure Place where
  plane : Nat
  x : Nat
  y : Nat
  tx : Tx
  deriving DecidableEq, Repr

/-- `maxX`, `maxY` in `transform_block`. -/
def Frame.inFrame (f : Frame) (p : Place) : Bool := p.x < (f.g.miCols * 4) >>> f.subXOf p.plane && p.y < (f.g.miRows * 4) >>> f.subYOf p.plane

/-- `transform_tree( startX, startY, w, h )`, with `InterTxSizes`; the first argument bounds the depth (two sides between 4 and 64 are halved at most eight
times). -/
def Frame.transformTree (f : Frame) (itx : Nat → Nat → Tx) : Nat → Nat → Nat → Nat → Nat → List Place
  | 0, _, _, _, _ => []
  | n + 1, x, y, w, h =>
    if x ≥ f.g.miCols * 4 ∨ y ≥ f.g.miRows * 4 then []
    else
      let luma := itx (y / 4) (x / 4)
      if w ≤ luma.1 ∧ h ≤ luma.2 then [⟨0, x, y, (w, h)⟩]
      else if w > h then
        f.transformTree itx n x y (w / 2) h ++ f.transformTree itx n (x + w / 2) y (w / 2) h
      else if w < h then
        f.transformTree itx n x y w (h / 2) ++ f.transformTree itx n x (y + h / 2) w (h / 2)
      else
        f.transformTree itx n x y (w / 2) (h / 2) ++ f.transformTree itx n (x + w / 2) y (w / 2) (h / 2) ++
          f.transformTree itx n x (y + h / 2) (w / 2) (h / 2) ++ f.transformTree itx n (x + w / 2) (y + h / 2) (w / 2) (h / 2)

/-- The numbers below `n` in steps of `step`. -/
def steps (n step : Nat) : List Nat := (List.range n).filter fun k => k % step = 0

/-- The loop over a plane in `residual`. -/
def Frame.planePlaces (f : Frame) (itx : Nat → Nat → Tx) (h : Hdr) (plane : Nat) : List Place :=
  if h.inter = true ∧ plane = 0 then f.transformTree itx 9 (h.col * 4) (h.row * 4) (h.bw4 * 4) (h.bh4 * 4)
  else
    let t := f.txSize h plane
    let baseX := (h.col >>> f.subXOf plane) * 4
    let baseY := (h.row >>> f.subYOf plane) * 4
    ((steps (f.num4x4H h plane) (t.2 >>> 2)).flatMap fun y => (steps (f.num4x4W h plane) (t.1 >>> 2)).map fun x =>
      (⟨plane, baseX + 4 * x, baseY + 4 * y, t⟩ : Place)).filter f.inFrame

/-- `residual`: the transform blocks of all planes. -/
def Frame.places (f : Frame) (itx : Nat → Nat → Tx) (h : Hdr) : List Place :=
  (List.range (1 + 2 * (f.hasChroma h).toNat)).flatMap (f.planePlaces itx h)

/-- `Mode_To_Txfm`, for the intra modes in their order and `UV_CFL_PRED`: `DCT_DCT` is 0, `ADST_DCT` 1, `DCT_ADST` 2, `ADST_ADST` 3. -/
def modeToTxfm : List Nat := [0, 1, 2, 0, 3, 1, 2, 2, 1, 3, 1, 2, 3, 0]

instance (t : Av1Spec.Coef.Tx) (i r : Bool) (ty : Nat) : Decidable (Av1Spec.Coef.inSet t i r ty) := by unfold Av1Spec.Coef.inSet; infer_instance

/-- A transform size by the logarithms of its sides. -/
def logs (t : Tx) : Av1Spec.Coef.Tx := ⟨t.1.log2, t.2.log2⟩

/-- `compute_tx_type( plane, txSz, blockX, blockY )` for a chroma plane. -/
def Frame.chromaType (f : Frame) (h : Hdr) (p : Place) (types : Nat → Nat → Nat) : Nat :=
  let ty := if h.inter then types (max h.row ((p.y / 4) <<< f.subY)) (max h.col ((p.x / 4) <<< f.subX)) else modeToTxfm.getD h.uvMode 0
  if Av1Spec.Coef.inSet (logs p.tx) h.inter f.reduced ty then ty else 0

/-- What `coeffs` looks at for a transform block.  `maxX4` and `maxY4` are the sizes of the plane in units of 4 pixels. -/
def Frame.blk (f : Frame) (h : Hdr) (p : Place) (types : Nat → Nat → Nat) : Av1Spec.Coef.Blk where
  plane := p.plane
  tx := logs p.tx
  x4 := p.x / 4 - f.g.colStart >>> f.subXOf p.plane
  y4 := p.y / 4 % (16 >>> f.subYOf p.plane)
  cols := (f.g.miCols + f.subXOf p.plane) >>> f.subXOf p.plane - p.x / 4
  rows := (f.g.miRows + f.subYOf p.plane) >>> f.subYOf p.plane - p.y / 4
  bw := 4 * f.num4x4W h p.plane
  bh := 4 * f.num4x4H h p.plane
  isInter := h.inter
  reduced := f.reduced
  intraDir := h.yMode
  chromaType := f.chromaType h p types

/-- The contexts of `coeffs`, and `TxTypes`. -/
structure Dec where
  ctx : Ctx
  types : Nat → Nat → Nat

/-- `TxTypes` after a transform block. -/
def setTypes (p : Place) (ty : Nat) (types : Nat → Nat → Nat) : Nat → Nat → Nat :=
  if p.plane = 0 then fun r c => if Inside (p.y / 4) (p.x / 4) (p.tx.1 / 4) (p.tx.2 / 4) r c then ty else types r c else types

/-- A transform block and what has been read for it. -/
structure Txb where
  place : Place
  out : Out

section
variable (num : Av1Spec.Coef.Cdf → Nat)

/-- The coefficients of a list of transform blocks. -/
def Frame.readTxbs (f : Frame) (h : Hdr) : List Place → Dec → Rd (List Txb × Dec)
  | [], D => .ret ([], D)
  | p :: ps, D =>
    (rdCoeffs num (f.blk h p D.types) D.ctx).bind fun r =>
      (f.readTxbs h ps ⟨r.2, setTypes p r.1.type D.types⟩).bind fun q => .ret (⟨p, r.1⟩ :: q.1, q.2)

/-- The residual of a block, after `reset_block_context` if it is skipped. -/
def Frame.readBlock (f : Frame) (itx : Nat → Nat → Tx) (h : Hdr) (D : Dec) : Rd (List Txb × Dec) :=
  if h.skip then
    .ret ([], { D with ctx := D.ctx.resetBlock ⟨h.col - f.g.colStart, h.row % 16, h.bw4, h.bh4, f.subX, f.subY, f.mono⟩ })
  else f.readTxbs num h (f.places itx h) D

/-- The blocks of a row of superblocks. -/
def Frame.readRow (f : Frame) (itx : Nat → Nat → Tx) : List Hdr → Dec → Rd (List Txb × Dec)
  | [], D => .ret ([], D)
  | h :: l, D => (f.readBlock num itx h D).bind fun r => (f.readRow itx l r.2).bind fun q => .ret (r.1 ++ q.1, q.2)

/-- The rows of superblocks of a tile: the left contexts are cleared before each. -/
def Frame.readRows (f : Frame) (itx : Nat → Nat → Tx) : List (List Hdr) → Dec → Rd (List Txb)
  | [], _ => .ret []
  | l :: ls, D =>
    (f.readRow num itx l { D with ctx := D.ctx.clearLeft }).bind fun r => (f.readRows itx ls r.2).bind fun q => .ret (r.1 ++ q)

/-- The residual of a tile. -/
def Frame.readTile (f : Frame) (itx : Nat → Nat → Tx) (rows : List (List Hdr)) (types : Nat → Nat → Nat) : Rd (List Txb) :=
  f.readRows num itx rows ⟨.start, types⟩

end

end Rav1e.Resid.Spec

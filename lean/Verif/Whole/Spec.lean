import Verif.Block.Spec
import Verif.Resid.Spec

/-!
# A tile, as the decoder reads it

Transcribed from the AV1 specification: `decode_block` (5.11.5), `decode_partition` (5.11.4) and `decode_tile` (5.11.2), which interleave the syntax of
`Block.Spec` (modes, references, motion vectors, partitions), of `TxSize.Spec` (transform sizes) and of `Resid.Spec` (coefficients).  There is one list of coded
symbols, and what is read of it decides how the rest is read: the modes decide which transform sizes are coded, and both decide where the transform blocks are.
`read_cdef`, `read_lr` and `read_delta_qindex` are left out: the first two are in `LoopSyn.Spec`, the last reads nothing in the streams of this encoder.
-/

namespace Rav1e.Whole.Spec

open Block.Spec (Blk Part readPartition)
open TxSize.Spec (Tx)
open Resid.Spec (Txb)

/-- A coded symbol: its value together with the distribution that it was coded with. -/
inductive Tok
  | mode (s : Block.Spec.Sym)
  | size (s : TxSize.Spec.Sym)
  | coef (s : Av1Spec.Src × Nat)

/-- The symbols of one kind at the start. -/
def takeKind {α : Type} (pick : Tok → Option α) : List Tok → List α × List Tok
  | [] => ([], [])
  | t :: l => match pick t with
    | some a => (a :: (takeKind pick l).1, (takeKind pick l).2)
    | none => ([], t :: l)

/-- A decoder of one kind of symbols reads those at the start; it fails if it needs more of them than there are. -/
def on {α β : Type} (pick : Tok → Option α) (put : α → Tok) (r : List α → Option (β × List α)) (s : List Tok) : Option (β × List Tok) :=
  (r (takeKind pick s).1).map fun q => (q.1, q.2.map put ++ (takeKind pick s).2)

/-- Symbols of `Block.Spec`. -/
def Tok.mode? : Tok → Option Block.Spec.Sym
  | .mode s => some s
  | _ => none

/-- Symbols of `TxSize.Spec`. -/
def Tok.size? : Tok → Option TxSize.Spec.Sym
  | .size s => some s
  | _ => none

/-- Symbols of `Resid.Spec`. -/
def Tok.coef? : Tok → Option (Av1Spec.Src × Nat)
  | .coef s => some s
  | _ => none

/-- What the sequence header and the frame header say: `reduced_tx_set`, and whether `TxMode` is `TX_MODE_SELECT`. -/
structure Par extends Block.Spec.Par where
  reducedTxSet : Bool
  txModeSelect : Bool

/-- What matters for coefficients. -/
def Par.frame (p : Par) : Resid.Spec.Frame := ⟨p.g, p.subX.toNat, p.subY.toNat, p.monochrome, p.reducedTxSet⟩

/-- A decoded block: its modes, `TxSize`, and its transform blocks. -/
structure Out where
  blk : Blk
  txSize : Tx
  txbs : List Txb

/-- What has been decoded, and the arrays and contexts for transform sizes and coefficients. -/
structure St where
  out : List Out
  size : TxSize.Spec.Dec
  resid : Resid.Spec.Dec

/-- The blocks that have been decoded. -/
def St.blocks (D : St) : List Blk := D.out.map (·.blk)

/-- `is_inter`. -/
def inter (b : Blk) : Bool := decide (b.hdr.info.mode ≠ .intra)

/-- What `read_block_tx_size` looks at. -/
def sizeHdr (b : Blk) : TxSize.Spec.Hdr := ⟨b.row, b.col, b.bw4, b.bh4, inter b, b.hdr.skip⟩

/-- What `residual` looks at. -/
def residHdr (b : Blk) (t : Tx) : Resid.Spec.Hdr := ⟨b.row, b.col, b.bw4, b.bh4, inter b, b.hdr.skip, t, b.hdr.yMode, b.hdr.uvMode⟩

section
variable (num : Av1Spec.Coef.Cdf → Nat) (p : Par)

/-- `decode_block( r, c, subSize )`: `intra_frame_mode_info` or `inter_frame_mode_info`, `read_block_tx_size`, `reset_block_context` if the block is skipped,
`residual`. -/
def readBlock (D : St) (row col bw4 bh4 : Nat) (s : List Tok) : Option (St × List Tok) := do
  let (b, s) ← on Tok.mode? .mode (Block.Spec.readBlock p.toPar D.blocks row col bw4 bh4) s
  let (size, s) ← on Tok.size? .size (TxSize.Spec.readBlockTx p.g p.txModeSelect D.size (sizeHdr b)) s
  let ((txbs, resid), s) ← on Tok.coef? .coef (p.frame.readBlock num size.itx (residHdr b size.txSize) D.resid).onToks s
  some (⟨D.out ++ [⟨b, size.txSize, txbs⟩], size.store (sizeHdr b), resid⟩, s)

/-- `decode_partition( r, c, bSize )` for a square of 2 ^ `k` units. -/
def readTree : Nat → Nat → Nat → St → List Tok → Option (St × List Tok)
  | 0, r, c, D, s =>
    if r ≥ p.g.miRows ∨ c ≥ p.g.miCols then some (D, s)
    else readBlock num p D r c 1 1 s
  | k + 1, r, c, D, s =>
    if r ≥ p.g.miRows ∨ c ≥ p.g.miCols then some (D, s)
    else do
      let (t, s) ← on Tok.mode? .mode (readPartition p.toPar D.blocks (2 ^ (k + 1)) r c) s
      match t with
      | .none => readBlock num p D r c (2 ^ (k + 1)) (2 ^ (k + 1)) s
      | .horz => do
        let (D, s) ← readBlock num p D r c (2 ^ (k + 1)) (2 ^ k) s
        if r + 2 ^ k < p.g.miRows then readBlock num p D (r + 2 ^ k) c (2 ^ (k + 1)) (2 ^ k) s else some (D, s)
      | .vert => do
        let (D, s) ← readBlock num p D r c (2 ^ k) (2 ^ (k + 1)) s
        if c + 2 ^ k < p.g.miCols then readBlock num p D r (c + 2 ^ k) (2 ^ k) (2 ^ (k + 1)) s else some (D, s)
      | .split => do
        let (D, s) ← readTree k r c D s
        let (D, s) ← readTree k r (c + 2 ^ k) D s
        let (D, s) ← readTree k (r + 2 ^ k) c D s
        readTree k (r + 2 ^ k) (c + 2 ^ k) D s

/-- `decode_tile`: the superblocks of a row. -/
def readRow (r : Nat) : Nat → Nat → St → List Tok → Option (St × List Tok)
  | 0, _, D, s => some (D, s)
  | k + 1, j, D, s => do
    let (D, s) ← readTree num p 4 r (p.g.colStart + 16 * j) D s
    readRow r k (j + 1) D s

/-- `decode_tile`: the rows of superblocks; `clear_left_context` before each. -/
def readRows : Nat → Nat → St → List Tok → Option (St × List Tok)
  | 0, _, D, s => some (D, s)
  | k + 1, i, D, s => do
    let (D, s) ← readRow num p (p.g.rowStart + 16 * i) ((p.g.colEnd - p.g.colStart + 15) / 16) 0
      { D with resid := { D.resid with ctx := D.resid.ctx.clearLeft } } s
    readRows k (i + 1) D s

/-- `decode_tile`, after `clear_above_context`; `types` is what `TxTypes` happens to contain. -/
def readTile (types : Nat → Nat → Nat) (s : List Tok) : Option (List Out × List Tok) :=
  (readRows num p ((p.g.rowEnd - p.g.rowStart + 15) / 16) 0 ⟨[], TxSize.Spec.start, ⟨.start, types⟩⟩ s).map fun q => (q.1.out, q.2)

end

end Rav1e.Whole.Spec

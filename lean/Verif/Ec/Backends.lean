import Verif.Ec.Model
/-
Model of the three `Writer` backends of `/repo/src/ec.rs` (counting, recording, encoding),
with their checkpoints, replay and the bit-cost queries `tell`, `tell_frac` and `symbol_bits`.
-/
namespace Rav1e.Ec

/-- `OD_BITRES`: src/ec.rs:25. -/
def OD_BITRES : Nat := 3

/-- `WriterCheckpoint`: src/ec.rs:154-165. -/
structure Ckpt where
  streamSize : Nat
  backendVar : Nat
  rng : Nat
  cnt : Int
deriving DecidableEq, Repr

/-- `StorageBackend` together with the generic fields of `WriterBase` that the shared `Writer`
implementation reads.  src/ec.rs:104-113 (trait) and 116-129 (fields). -/
class Backend (W : Type) where
  new : W
  store : W → Nat → Nat → Nat → W
  streamBits : W → Nat
  checkpoint : W → Ckpt
  rollback : W → Ckpt → W
  rng : W → Nat
  cnt : W → Int
  fake : W → Nat
  addFake : W → Nat → W

/-- `WriterBase<WriterCounter>`: src/ec.rs:132-135 with the generic fields. -/
structure Counter where
  rng : Nat
  cnt : Int
  fake : Nat
  bits : Nat
deriving DecidableEq, Repr

/-- src/ec.rs:168-173 (constructor), 193-222 (backend). -/
instance : Backend Counter where
  new := { rng := 0x8000, cnt := -9, fake := 0, bits := 0 }
  store w fl fh nms :=
    let r := (lrCompute w.rng fl fh nms).2
    let d := clz16 r
    { w with bits := w.bits + d, rng := (r <<< d) % 65536 }
  streamBits w := w.bits
  checkpoint w := { streamSize := w.bits, backendVar := 0, rng := w.rng, cnt := w.cnt }
  rollback w c := { w with rng := c.rng, bits := c.streamSize }
  rng w := w.rng
  cnt w := w.cnt
  fake w := w.fake
  addFake w b := { w with fake := w.fake + b }

/-- `WriterBase<WriterRecorder>`: src/ec.rs:138-143 with the generic fields. -/
structure Recorder where
  rng : Nat
  cnt : Int
  fake : Nat
  bits : Nat
  storage : List (Nat × Nat × Nat)
deriving DecidableEq, Repr

/-- src/ec.rs:176-181 (constructor), 228-258 (backend).  `Vec::truncate` is `List.take`. -/
instance : Backend Recorder where
  new := { rng := 0x8000, cnt := -9, fake := 0, bits := 0, storage := [] }
  store w fl fh nms :=
    let r := (lrCompute w.rng fl fh nms).2
    let d := clz16 r
    { w with bits := w.bits + d, rng := (r <<< d) % 65536, storage := w.storage ++ [(fl, fh, nms)] }
  streamBits w := w.bits
  checkpoint w :=
    { streamSize := w.bits, backendVar := w.storage.length, rng := w.rng, cnt := w.cnt }
  rollback w c :=
    { w with rng := c.rng, cnt := c.cnt, bits := c.streamSize,
             storage := w.storage.take c.backendVar }
  rng w := w.rng
  cnt w := w.cnt
  fake w := w.fake
  addFake w b := { w with fake := w.fake + b }

/-- `WriterBase<WriterEncoder>`: the encoder of `Verif.Ec.Model` plus `fake_bits_frac`. -/
structure Encoder where
  enc : Enc
  fake : Nat
deriving DecidableEq, Repr

/-- src/ec.rs:184-189 (constructor), 264-308 (backend).  The `as usize`/`as ec_window` casts of
`low` are the identity on values below `2^32`. -/
instance : Backend Encoder where
  new := { enc := Enc.new, fake := 0 }
  store w fl fh nms := { w with enc := w.enc.store fl fh nms }
  streamBits w := w.enc.precarry.length * 8
  checkpoint w :=
    { streamSize := w.enc.precarry.length, backendVar := w.enc.low, rng := w.enc.rng,
      cnt := w.enc.cnt }
  rollback w c :=
    { w with enc := { rng := c.rng, cnt := c.cnt, low := c.backendVar,
                      precarry := w.enc.precarry.take c.streamSize } }
  rng w := w.enc.rng
  cnt w := w.enc.cnt
  fake w := w.fake
  addFake w b := { w with fake := w.fake + b }

open Backend

/-- One iteration of the loop of `frac_compute`: src/ec.rs:372-377. -/
def fracStep (p : Nat × Nat) : Nat × Nat :=
  let rng := (p.1 * p.1) >>> 15
  let b := rng >>> 16
  (rng >>> b, (p.2 <<< 1) ||| b)

/-- The fractional part `l` of `frac_compute` after the `OD_BITRES` iterations. -/
def fracL (rng : Nat) : Nat := (fracStep (fracStep (fracStep (rng, 0)))).2

/-- `frac_compute`: src/ec.rs:357-379.  An `Int` so that the model shows when the Rust `u32`
subtraction would underflow. -/
def fracCompute (nbits : Nat) (rng : Nat) : Int := (nbits <<< OD_BITRES : Nat) - (fracL rng : Int)

/-- `Writer::tell`: src/ec.rs:782-787. -/
def tell {W} [Backend W] (w : W) : Nat :=
  ((streamBits w : Int) + cnt w + 10).toNat + (fake w >>> 8)

/-- `Writer::tell_frac`: src/ec.rs:796-798. -/
def tellFrac {W} [Backend W] (w : W) : Int := fracCompute (tell w) (rng w) + fake w

/-- `Writer::symbol` on any backend: src/ec.rs:520-537. -/
def wsymbol {W} [Backend W] (w : W) (x : Sym) : W := store w x.triple.1 x.triple.2.1 x.triple.2.2

/-- A sequence of `symbol` calls. -/
def wsymbols {W} [Backend W] (w : W) (xs : List Sym) : W := xs.foldl wsymbol w

/-- `WriterBase<WriterRecorder>::replay`: src/ec.rs:418-426.  Returns the cleared recorder and the
destination. -/
def Recorder.replay {W} [Backend W] (r : Recorder) (dest : W) : Recorder × W :=
  ({ r with rng := 0x8000, cnt := -9, storage := [], bits := 0 },
    r.storage.foldl (fun d t => store d t.1 t.2.1 t.2.2) dest)

/-- `Writer::symbol_bits`: src/ec.rs:572-605.  `r` is a `u32`, so `leading_zeros() - 16` is
`clz16` for `r < 65536`. -/
def symbolBits {W} [Backend W] (w : W) (x : Sym) : Int :=
  let rg := rng w >>> 8
  let fh := x.cdf.getD x.s 0 >>> EC_PROB_SHIFT
  let r :=
    if x.s > 0 then
      let fl := x.cdf.getD (x.s - 1) 0 >>> EC_PROB_SHIFT
      ((rg * fl) >>> (7 - EC_PROB_SHIFT)) - ((rg * fh) >>> (7 - EC_PROB_SHIFT)) + EC_MIN_PROB
    else
      rng w - ((rg * fh) >>> (7 - EC_PROB_SHIFT)) - (x.cdf.length - x.s - 1) * EC_MIN_PROB
  let pre := fracCompute (cnt w + 9).toNat (rng w)
  let d := clz16 r
  let c := cnt w
  let sh := c + (d : Int)
  let (bits, sh) : Int × Int :=
    if sh ≥ 0 then
      if sh ≥ 8 then (16, c + 16 - 8 + d - 24) else (8, c + 16 + d - 24)
    else (0, sh)
  fracCompute (bits + sh + 9).toNat (r <<< d) - pre

/-- The operations a caller performs on one writer: write a symbol, save a checkpoint, or roll
back to the `i`-th checkpoint saved so far. -/
inductive Op where
  | sym (x : Sym)
  | save
  | restore (i : Nat)
deriving DecidableEq, Repr

/-- Running operations on a writer, with the list of checkpoints taken so far (oldest first).
A `restore` of a checkpoint that does not exist cannot be expressed in Rust; the model leaves
the state unchanged. -/
def runOps {W} [Backend W] : W → List Ckpt → List Op → W
  | w, _, [] => w
  | w, cs, .sym x :: ops => runOps (wsymbol w x) cs ops
  | w, cs, .save :: ops => runOps w (cs ++ [checkpoint w]) ops
  | w, cs, .restore i :: ops =>
    match cs[i]? with
    | some c => runOps (rollback w c) cs ops
    | none => runOps w cs ops

end Rav1e.Ec

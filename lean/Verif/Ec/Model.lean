/-
Model of the range coder of `/repo/src/ec.rs`.

Unsigned machine integers are `Nat`, the signed 16-bit `cnt` is an `Int`.
Truncating casts and shifts are written as `%`.  The sums and differences that
Rust evaluates with overflow checks (debug) or wrap-around (release) are plain
`Nat` operations here; `Verif.Ec.Theorems` proves that they stay in range.
-/
namespace Rav1e.Ec

/-- `EC_PROB_SHIFT`, `EC_MIN_PROB`: src/ec.rs:26-27. -/
def EC_PROB_SHIFT : Nat := 6
def EC_MIN_PROB : Nat := 4

/-- `u16::leading_zeros`, used at src/ec.rs:197, 232, 269. -/
def clz16 (r : Nat) : Nat := if r = 0 then 16 else 15 - r.log2

/-- The second coordinate of `lr_compute` before subtraction: the scaled
cumulative frequency `((r >> 8) * (f >> 6) >> 1) + 4 * k`.  src/ec.rs:337-339, 343-344. -/
def scaled (rng f k : Nat) : Nat :=
  (((rng >>> 8) * (f >>> EC_PROB_SHIFT)) >>> (7 - EC_PROB_SHIFT)) + EC_MIN_PROB * k

/-- `u` of `lr_compute`. src/ec.rs:337-342. -/
def lrU (rng fl nms : Nat) : Nat := if fl ≥ 32768 then rng else scaled rng fl nms

/-- `v` of `lr_compute`. src/ec.rs:343-344. -/
def lrV (rng fh nms : Nat) : Nat := scaled rng fh (nms - 1)

/-- `WriterBase::lr_compute`. src/ec.rs:334-346.  The second component carries the
`as u16` cast. -/
def lrCompute (rng fl fh nms : Nat) : Nat × Nat :=
  (rng - lrU rng fl nms, (lrU rng fl nms - lrV rng fh nms) % 65536)

/-- `WriterBase<WriterEncoder>`: src/ec.rs:116-151 (struct fields `rng`, `cnt`,
`s.low`, `s.precarry`).  `fake_bits_frac` is modelled separately in `Tell`. -/
structure Enc where
  rng : Nat
  cnt : Int
  low : Nat
  precarry : List Nat
deriving DecidableEq, Repr

/-- `WriterEncoder::new`: src/ec.rs:184-189 and 317-319. -/
def Enc.new : Enc := { rng := 0x8000, cnt := -9, low := 0, precarry := [] }

/-- `StorageBackend::store` for the encoder: src/ec.rs:265-288.
`low` is a `u32` (`ec_window`), so its left shift truncates to 32 bits; `rng` is a `u16`. -/
def Enc.store (e : Enc) (fl fh nms : Nat) : Enc :=
  let l := (lrCompute e.rng fl fh nms).1
  let r := (lrCompute e.rng fl fh nms).2
  let low := l + e.low
  let c := e.cnt
  let d := clz16 r
  let s := c + (d : Int)
  if s ≥ 0 then
    let c := (c + 16).toNat
    if s ≥ 8 then
      let p1 := (low >>> c) % 65536
      let low := low % 2 ^ c
      let c := c - 8
      let p2 := (low >>> c) % 65536
      let low := low % 2 ^ c
      { rng := (r <<< d) % 65536, cnt := (c : Int) + d - 24,
        low := (low <<< d) % 2 ^ 32, precarry := e.precarry ++ [p1, p2] }
    else
      let p1 := (low >>> c) % 65536
      let low := low % 2 ^ c
      { rng := (r <<< d) % 65536, cnt := (c : Int) + d - 24,
        low := (low <<< d) % 2 ^ 32, precarry := e.precarry ++ [p1] }
  else
    { rng := (r <<< d) % 65536, cnt := s, low := (low <<< d) % 2 ^ 32,
      precarry := e.precarry }

/-- A symbol together with the CDF it is coded with, in rav1e's inverse
representation: `cdf[i] = 32768 * P(X > i)`, the last element is the adaptation
counter. -/
structure Sym where
  s : Nat
  cdf : List Nat
deriving DecidableEq, Repr

/-- The `(fl, fh, nms)` triple computed by `Writer::symbol`: src/ec.rs:520-537.
Indexing is `get_unchecked` in Rust; `Sym.Valid` requires `s < cdf.len()`. -/
def Sym.triple (x : Sym) : Nat × Nat × Nat :=
  (if x.s > 0 then x.cdf.getD (x.s - 1) 0 else 32768, x.cdf.getD x.s 0, x.cdf.length - x.s)

/-- `Writer::symbol` on the encoder: src/ec.rs:520-537. -/
def Enc.symbol (e : Enc) (x : Sym) : Enc := e.store x.triple.1 x.triple.2.1 x.triple.2.2

/-- Encoding a sequence of symbols. -/
def Enc.symbols (e : Enc) (xs : List Sym) : Enc := xs.foldl Enc.symbol e

/-- The flush value `e` of `done`: `((l + m) & !m) | (m + 1)` with `m = 0x3FFF`.
src/ec.rs:440-441. -/
def doneE (l : Nat) : Nat := ((l + 0x3FFF) / 0x4000 * 0x4000) ||| 0x4000

/-- The digit-emitting loop of `done`: src/ec.rs:445-459, unrolled as in the Rust
`loop` (test at the end). `sh` is `c + 16`, `s` the number of bits still to emit. -/
def doneLoop : (fuel : Nat) → (e : Nat) → (sh : Nat) → (s : Int) → List Nat
  | 0, _, _, _ => []
  | fuel + 1, e, sh, s =>
    ((e >>> sh) % 65536) ::
      (if s - 8 ≤ 0 then [] else doneLoop fuel (e % 2 ^ sh) (sh - 8) (s - 8))

/-- All digits after `done`'s first part: src/ec.rs:434-459.  `s = 10 + cnt` is at most 9
in every reachable state, so the loop runs at most twice; the fuel 3 is never exhausted
(`Verif.Ec.Theorems.done_digits_fuel`). -/
def Enc.doneDigits (e : Enc) : List Nat :=
  if 10 + e.cnt > 0 then
    e.precarry ++ doneLoop 3 (doneE e.low) ((e.cnt + 16).toNat) (10 + e.cnt)
  else e.precarry

/-- The carry propagation loop, from the last digit to the first: src/ec.rs:461-470.
Returns the output bytes and the final carry (`c` is a `u16`). -/
def carry : List Nat → List Nat × Nat
  | [] => ([], 0)
  | p :: ps =>
    let (out, c) := carry ps
    let c := (c + p) % 65536
    ((c % 256) :: out, c >>> 8)

/-- `WriterBase<WriterEncoder>::done`: src/ec.rs:434-473. -/
def Enc.done (e : Enc) : List Nat := (carry e.doneDigits).1

/-- A whole tile: fresh encoder, all symbols, `done`. -/
def encodeTile (xs : List Sym) : List Nat := (Enc.new.symbols xs).done

/-- `update_cdf`: src/ec.rs:935-955.  `cdf` has `N` entries, the last one being the
counter; `val` is the coded symbol. -/
def updateCdf (cdf : List Nat) (val : Nat) : List Nat :=
  match cdf.getLast? with
  | none => cdf
  | some count =>
    let rate := 3 + min (cdf.length >>> 1) 2 + (count >>> 4)
    (cdf.dropLast.mapIdx fun i v =>
        if i < 15 then
          (if i ≥ val then v - (v >>> rate) else v + ((32768 - v) >>> rate))
        else v)
      ++ [count + (1 - (count >>> 5))]

end Rav1e.Ec

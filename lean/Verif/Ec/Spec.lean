/-
The AV1 symbol decoder, transcribed from section 8.2 of the AV1 bitstream
specification.  Nothing in this file refers to the rav1e model.
-/
namespace Av1Spec

/-- Bits of a byte, most significant first (spec 4.10.2, `f(n)` reads the most
significant bit first). -/
def byteBits (b : Nat) : List Bool :=
  [b.testBit 7, b.testBit 6, b.testBit 5, b.testBit 4, b.testBit 3, b.testBit 2, b.testBit 1,
   b.testBit 0]

/-- The bits of a byte string. -/
def bits (bs : List Nat) : List Bool := (bs.map byteBits).flatten

/-- Value of a bit string, most significant bit first: the result of `f(n)`. -/
def bitsVal (bs : List Bool) : Nat := bs.foldl (fun a b => 2 * a + b.toNat) 0

/-- The state of the symbol decoder: remaining bits, `SymbolValue`, `SymbolRange`,
`SymbolMaxBits`. -/
structure Dec where
  rest : List Bool
  value : Nat
  range : Nat
  maxBits : Int
deriving DecidableEq, Repr

/-- 8.2.2 `init_symbol( sz )` on the `sz` bytes `bs`. -/
def Dec.init (bs : List Nat) : Dec :=
  let sz := bs.length
  let numBits := min (sz * 8) 15
  let buf := bitsVal ((bits bs).take numBits)
  let paddedBuf := buf <<< (15 - numBits)
  { rest := (bits bs).drop numBits
    value := ((1 <<< 15) - 1) ^^^ paddedBuf
    range := 1 <<< 15
    maxBits := 8 * (sz : Int) - 15 }

/-- The loop of 8.2.6 (symbol decoding process).  The list is `cdf[symbol ..]`, `n` is the
number of symbols `N`.  The last CDF entry is 32768, for which `cur = 0`, so the loop
always ends inside the list; the empty case is unreachable for well-formed input. -/
def decodeLoop (range value n : Nat) : List Nat → (symbol prev : Nat) → Nat × Nat × Nat
  | [], symbol, prev => (symbol, prev, 0)
  | c :: cs, symbol, prev =>
    let f := (1 <<< 15) - c
    let cur := (((range >>> 8) * (f >>> 6)) >>> (7 - 6)) + 4 * (n - symbol - 1)
    if value < cur then decodeLoop range value n cs (symbol + 1) cur else (symbol, prev, cur)

/-- 8.2.6: decode one symbol.  `cdf` is in the specification's format: `N` cumulative
values, the last being 32768, followed by the counter. -/
def Dec.symbol (d : Dec) (cdf : List Nat) : Nat × Dec :=
  let n := cdf.length - 1
  let (symbol, prev, cur) := decodeLoop d.range d.value n (cdf.take n) 0 d.range
  let range := prev - cur
  let value := d.value - cur
  -- renormalization
  let nbits := 15 - range.log2
  let range := range <<< nbits
  let numBits := min nbits d.maxBits.toNat
  let newData := bitsVal (d.rest.take numBits)
  let paddedData := newData <<< (nbits - numBits)
  (symbol, { rest := d.rest.drop numBits
             value := paddedData ^^^ (((value + 1) <<< nbits) - 1)
             range := range
             maxBits := d.maxBits - nbits })

/-- Decode a sequence of symbols with the given CDFs. -/
def Dec.symbols : Dec → List (List Nat) → List Nat × Dec
  | d, [] => ([], d)
  | d, c :: cs =>
    let (s, d') := d.symbol c
    let (ss, d'') := d'.symbols cs
    (s :: ss, d'')

/-- The symbol adaptation process at the end of 8.2.6.  `cdf` has `N + 1` entries. -/
def adapt (cdf : List Nat) (symbol : Nat) : List Nat :=
  let n := cdf.length - 1
  let count := cdf.getD n 0
  let rate := 3 + (if count > 15 then 1 else 0) + (if count > 31 then 1 else 0) + min n.log2 2
  (cdf.mapIdx fun i c =>
    if i < n - 1 then
      let tmp := if symbol ≤ i then 32768 else 0
      if tmp < c then c - ((c - tmp) >>> rate) else c + ((tmp - c) >>> rate)
    else if i = n then c + (if c < 32 then 1 else 0)
    else c)

end Av1Spec

namespace Av1Spec

/-- 8.2.4 (exit process for symbol decoder): the conformance requirements on the padding.
`SymbolMaxBits >= -14`; the bit at `trailingPosition = position - Min(15, SymbolMaxBits + 15)`
is 1 and all bits after it up to the end of the `sz` bytes are 0. -/
def ExitOk (bs : List Nat) (d : Dec) : Prop :=
  -14 ≤ d.maxBits ∧
  let position : Int := (bits bs).length - d.rest.length
  let trailing : Int := position - min 15 (d.maxBits + 15)
  0 ≤ trailing ∧ (bits bs)[trailing.toNat]? = some true ∧
    ∀ j : Nat, trailing < j → j < (bits bs).length → (bits bs)[j]? = some false

/-- Decoding with adaptation: an array of CDFs, and for every step a rule choosing which CDF
is used as a function of everything decoded so far (this is how the AV1 syntax selects
contexts).  Decodes `m` symbols. -/
def decodeAdaptive (pick : List Nat → Nat) : Nat → Dec → List (List Nat) → List Nat → List Nat
  | 0, _, _, hist => hist
  | m + 1, d, cdfs, hist =>
    let i := pick hist
    let c := cdfs.getD i []
    let (s, d') := d.symbol c
    decodeAdaptive pick m d' (cdfs.set i (adapt c s)) (hist ++ [s])

end Av1Spec

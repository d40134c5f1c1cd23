import Mathlib.Init

/-!
# Binary logarithm and exponential in fixed point: the code

`src/util/logexp.rs`, function by function.  Integers of the code are `Int` here, and `none` is an overflow: a panic with overflow checks, a wrapped value
without them.
-/

namespace Rav1e.LogExp

/-- The result of an addition, subtraction or multiplication of `i64`. -/
def i64 (v : Int) : Option Int := if -2 ^ 63 ≤ v ∧ v < 2 ^ 63 then some v else none

/-- The result of an addition of `i32`. -/
def i32 (v : Int) : Option Int := if -2 ^ 31 ≤ v ∧ v < 2 ^ 31 then some v else none

/-- `v as i64` of a wider integer; `v << k` of `i64` drops the upper bits. -/
def wrap64 (v : Int) : Int := (v + 2 ^ 63) % 2 ^ 64 - 2 ^ 63

/-- `v as i32`. -/
def wrap32 (v : Int) : Int := (v + 2 ^ 31) % 2 ^ 32 - 2 ^ 31

/-- `q57` (src/util/logexp.rs:11-14), where its assertion holds. -/
def q57 (v : Int) : Option Int := if -64 ≤ v ∧ v ≤ 63 then some (v * 2 ^ 57) else none

/-- `ATANH_LOG2` (src/util/logexp.rs:17-29). -/
def atanhLog2 : List Int :=
  [0x32B803473F7AD0F4, 0x2F2A71BD4E25E916, 0x2E68B244BB93BA06, 0x2E39FB9198CE62E4, 0x2E2E683F68565C8F, 0x2E2B850BE2077FC1, 0x2E2ACC58FE7B78DB,
    0x2E2A9E2DE52FD5F2, 0x2E2A92A338D53EEC, 0x2E2A8FC08F5E19B6, 0x2E2A8F07E51A485E, 0x2E2A8ED9BA8AF388, 0x2E2A8ECE2FE7384A, 0x2E2A8ECB4D3E4B1A,
    0x2E2A8ECA94940FE8, 0x2E2A8ECA6669811D, 0x2E2A8ECA5ADEDD6A, 0x2E2A8ECA57FC347E, 0x2E2A8ECA57438A43, 0x2E2A8ECA57155FB4, 0x2E2A8ECA5709D510,
    0x2E2A8ECA5706F267, 0x2E2A8ECA570639BD, 0x2E2A8ECA57060B92, 0x2E2A8ECA57060008, 0x2E2A8ECA5705FD25, 0x2E2A8ECA5705FC6C, 0x2E2A8ECA5705FC3E,
    0x2E2A8ECA5705FC33, 0x2E2A8ECA5705FC30, 0x2E2A8ECA5705FC2F, 0x2E2A8ECA5705FC2F]

/-- `ATANH_LOG2[i]`, for `i` in bounds. -/
def tbl (i : Nat) : Int := atanhLog2.getD i 0

/-- `(v + mask) ^ mask`, where `mask` is -1 if `neg`, otherwise 0. -/
def flip (neg : Bool) (v : Int) : Int := if neg then Int.not (v + -1) else v

/-- The body of the loops of `bexp64` up to `i = 31` (src/util/logexp.rs:61-63, 72-74, 83-85); `dbl` tells whether `z` is doubled. -/
def expStep (s : Int × Int) (id : Nat × Bool) : Option (Int × Int) := do
  let (w, z) := s
  let neg := decide (z < 0)
  let w ← i64 (w + flip neg (w >>> (id.1 + 1)))
  let z ← i64 (z - flip neg (tbl id.1))
  let z ← if id.2 then i64 (z * 2) else some z
  some (w, z)

/-- The values of `i` in these loops, and whether `z` is doubled: iterations 4 and 13 come twice (src/util/logexp.rs:59-87). -/
def expSteps : List (Nat × Bool) :=
  [(0, true), (1, true), (2, true), (3, false), (3, true), (4, true), (5, true), (6, true), (7, true), (8, true), (9, true), (10, true), (11, true),
    (12, false)] ++ (List.range' 12 20).map (·, true)

/-- The body of the loops of `bexp64` from `i = 32` on (src/util/logexp.rs:100-102, 111-113), which leave `w` as it is. -/
def lowStep (w : Int) (s : Int × Int) (id : Nat × Bool) : Option (Int × Int) := do
  let (wlo, z) := s
  let neg := decide (z < 0)
  let wlo ← i32 (wlo + wrap32 (flip neg (w >>> id.1)))
  let z ← i64 (z - flip neg (tbl 31))
  let z ← if id.2 then i64 (z * 2) else some z
  some (wlo, z)

/-- The values of `i` in these loops: iteration 40 comes twice (src/util/logexp.rs:99-115). -/
def lowSteps : List (Nat × Bool) := (List.range' 32 7).map (·, true) ++ [(39, false)] ++ (List.range' 39 22).map (·, true)

/-- `w` after the loops of `bexp64` (src/util/logexp.rs:46-120), for the fraction `z` in Q57. -/
def expFrac (ipart : Int) (z : Int) : Option Int :=
  if z ≠ 0 then do
    let (w, z) ← expSteps.foldlM expStep (0x26A3D0E401DD846D, wrap64 (z * 2 ^ 5))
    let wlo ← if ipart > 30 then (lowSteps.foldlM (lowStep w) (0, z)).map (·.1) else some 0
    i64 (wrap64 (w * 2) + wlo)
  else some (2 ^ 62)

/-- `bexp64` (src/util/logexp.rs:34-125). -/
def bexp64 (logq57 : Int) : Option Int :=
  let ipart := logq57 >>> 57
  if ipart < 0 then some 0
  else if ipart ≥ 63 then some 0x7FFFFFFFFFFFFFFF
  else do
    let z ← i64 (logq57 - (← q57 ipart))
    let w ← expFrac ipart z
    if ipart < 62 then do
      let w ← i64 ((w >>> (61 - ipart).toNat) + 1)
      some (w >>> 1)
    else some w

/-- The body of the loops of `blog64` and `blog32` (src/util/logexp.rs:156-161, 206-210); from `i = 31` on the last entry of the table is used. -/
def logStep (s : Int × Int × Int) (i : Nat) : Option (Int × Int × Int) := do
  let (x, y, z) := s
  let neg := decide (y < 0)
  let z ← i64 (z + flip neg (tbl (min i 31) >>> i))
  let u := x >>> (i + 1)
  let x ← i64 (x - flip neg (y >>> (i + 1)))
  let y ← i64 (y - flip neg u)
  some (x, y, z)

/-- The values of `i` in the loops of `blog64`, with its `bounds` (src/util/logexp.rs:150-171). -/
def logSteps : List Nat := List.range' 0 4 ++ List.range' 3 10 ++ List.range' 12 28 ++ List.range' 39 23

/-- The values of `i` in the loops of `blog32`, with its `bounds` (src/util/logexp.rs:200-220). -/
def logSteps32 : List Nat := List.range' 0 4 ++ List.range' 3 10 ++ List.range' 12 18

/-- The iterations for `w` in Q61 (src/util/logexp.rs:140-171 and 191-220): the fraction of the logarithm in Q61. -/
def logFrac (steps : List Nat) (w : Int) : Option Int := do
  let x ← i64 (w + 2 ^ 61)
  let y ← i64 (w - 2 ^ 61)
  let r ← steps.foldlM logStep (x, y, 0)
  some r.2.2

/-- `w & (w - 1) == 0`, for a positive `w`. -/
def isPow2 (w : Int) : Bool := w.toNat &&& (w.toNat - 1) == 0

/-- `blog64` (src/util/logexp.rs:130-174); `63 - leading_zeros` of a positive number is `Nat.log2`. -/
def blog64 (n : Int) : Option Int :=
  if n ≤ 0 then some (-1)
  else
    let ipart := Nat.log2 n.toNat
    let w := if ipart > 61 then n >>> (ipart - 61) else wrap64 (n * 2 ^ (61 - ipart))
    if isPow2 w then q57 ipart
    else do
      let z ← logFrac logSteps w
      let z ← i64 (z + 8)
      i64 ((← q57 ipart) + z >>> 4)

/-- `blog32` (src/util/logexp.rs:180-224), for `n : u32`, of which `ipart` is at most 31. -/
def blog32 (n : Nat) : Option Int :=
  if n = 0 then some (-1)
  else
    let ipart := Nat.log2 n
    let w := wrap64 ((n : Int) * 2 ^ (61 - ipart))
    if isPow2 w then some ((ipart : Int) * 2 ^ 24)
    else do
      let z ← logFrac logSteps32 w
      let z ← i64 (z + 2 ^ 36)
      i32 ((ipart : Int) * 2 ^ 24 + wrap32 (z >>> 37))

/-- `q57_to_q24` (src/util/logexp.rs:227-229). -/
def q57ToQ24 (v : Int) : Option Int := do
  let r ← i64 ((v >>> 32) + 1)
  some (wrap32 (r >>> 1))

/-- `q24_to_q57` (src/util/logexp.rs:232-234). -/
def q24ToQ57 (v : Int) : Int := wrap64 (v * 2 ^ 33)

/-- `bexp_q24` (src/util/logexp.rs:241-249). -/
def bexpQ24 (logScale : Int) : Option Int :=
  if logScale < 23 * 2 ^ 24 then do
    let l ← i64 (wrap64 (logScale * 2 ^ 33) + (← q57 24))
    let ret ← bexp64 l
    some (if ret < 2 ^ 47 - 1 then ret else 2 ^ 47 - 1)
  else some (2 ^ 47 - 1)

/-- The arguments of the test of the code (src/util/logexp.rs:294-303). -/
example : blog64 1793 = some 0x159dc71e24d32daf ∧ bexp64 0x159dc71e24d32daf = some 1793 ∧ blog64 0x678dde6e5fd29f05 = some 0x7d6373ad151ca685 := by
  decide +kernel

end Rav1e.LogExp

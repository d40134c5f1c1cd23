import Verif.Quant.Model
/-
C59: the inverse transforms of a decoder: section 7.13 of the AV1 specification, step by step.
-/
namespace Rav1e.Itx

/-- `Round2` of section 4.7 of the specification. -/
def round2 (x : Int) (n : Nat) : Int := if n = 0 then x else (x + 2 ^ (n - 1)) / 2 ^ n

/-- `Clip3` to a signed integer of `r` bits. -/
def clipR (r : Nat) (x : Int) : Int := if x < -2 ^ (r - 1) then -2 ^ (r - 1) else if 2 ^ (r - 1) - 1 < x then 2 ^ (r - 1) - 1 else x

/-- `x` is representable by a signed integer of `r` bits. -/
def InR (r : Nat) (x : Int) : Prop := -2 ^ (r - 1) ≤ x ∧ x ≤ 2 ^ (r - 1) - 1

/-- `Cos128_Lookup` of section 7.13.2.1. -/
def cos128Lookup : List Int :=
  [4096, 4095, 4091, 4085, 4076, 4065, 4052, 4036, 4017, 3996, 3973, 3948, 3920, 3889, 3857, 3822, 3784, 3745, 3703, 3659, 3612, 3564, 3513, 3461,
    3406, 3349, 3290, 3229, 3166, 3102, 3035, 2967, 2896, 2824, 2751, 2675, 2598, 2520, 2440, 2359, 2276, 2191, 2106, 2019, 1931, 1842, 1751, 1660,
    1567, 1474, 1380, 1285, 1189, 1092, 995, 897, 799, 700, 601, 501, 401, 301, 201, 101, 0]

/-- The function `cos128` of section 7.13.2.1. -/
def cos128 (angle : Int) : Int :=
  let a := (angle % 256).toNat
  if a ≤ 64 then cos128Lookup.getD a 0
  else if a ≤ 128 then -cos128Lookup.getD (128 - a) 0
  else if a ≤ 192 then -cos128Lookup.getD (a - 128) 0
  else cos128Lookup.getD (256 - a) 0

/-- The function `sin128` of section 7.13.2.1. -/
def sin128 (angle : Int) : Int := cos128 (angle - 64)

/-- The function `brev` of section 7.13.2.1: the lowest `n` bits of `x` in reverse order. -/
def brev : Nat → Nat → Nat
  | 0, _ => 0
  | n + 1, x => x % 2 * 2 ^ n + brev n (x / 2)

/-- The array `T` with another entry. -/
def upd (T : Nat → Int) (a : Nat) (v : Int) : Nat → Int := fun k => if k = a then v else T k

/-- Butterfly rotations and Hadamard rotations, section 7.13.2.1; the last argument says whether the results are swapped. -/
inductive Step
  | B (a b : Nat) (angle : Int) (flip : Bool)
  | H (a b : Nat) (flip : Bool)

/-- The effect of `B( a, b, angle, flip )` and `H( a, b, flip, r )`. -/
def Step.apply (r : Nat) (T : Nat → Int) : Step → Nat → Int
  | B a b angle false => upd (upd T a (round2 (T a * cos128 angle - T b * sin128 angle) 12)) b (round2 (T a * sin128 angle + T b * cos128 angle) 12)
  | B a b angle true => upd (upd T a (round2 (T a * sin128 angle + T b * cos128 angle) 12)) b (round2 (T a * cos128 angle - T b * sin128 angle) 12)
  | H a b false => upd (upd T a (clipR r (T a + T b))) b (clipR r (T a - T b))
  | H a b true => upd (upd T b (clipR r (T b + T a))) a (clipR r (T b - T a))

/-- A sequence of steps. -/
def apply (r : Nat) (l : List Step) (T : Nat → Int) : Nat → Int := l.foldl (Step.apply r) T

/-- The requirement of bitstream conformance of section 7.13.2.1 on a sequence of steps: what the rotations store is representable by `r` bits. -/
def Conforms (r : Nat) : List Step → (Nat → Int) → Prop
  | [], _ => True
  | s :: l, T => (∀ a b angle flip, s = .B a b angle flip → InR r (s.apply r T a) ∧ InR r (s.apply r T b)) ∧ Conforms r l (s.apply r T)

/-- `f 0, ..., f (n - 1)`. -/
def loop (n : Nat) (f : Nat → List Step) : List Step := (List.range n).flatMap f

/-- The steps 2 to 31 of the inverse DCT process, section 7.13.2.3. -/
def dctSteps (n : Nat) : List Step :=
  (if n = 6 then loop 16 fun i => [.B (32 + i) (63 - i) (63 - 4 * brev 4 i) false] else []) ++
  (if 5 ≤ n then loop 8 fun i => [.B (16 + i) (31 - i) (6 + brev 3 (7 - i) * 8) false] else []) ++
  (if n = 6 then loop 16 fun i => [.H (32 + i * 2) (33 + i * 2) (i % 2 = 1)] else []) ++
  (if 4 ≤ n then loop 4 fun i => [.B (8 + i) (15 - i) (12 + brev 2 (3 - i) * 16) false] else []) ++
  (if 5 ≤ n then loop 8 fun i => [.H (16 + 2 * i) (17 + 2 * i) (i % 2 = 1)] else []) ++
  (if n = 6 then loop 4 fun i => loop 2 fun j => [.B (62 - i * 4 - j) (33 + i * 4 + j) (60 - 16 * brev 2 i + 64 * j) true] else []) ++
  (if 3 ≤ n then loop 2 fun i => [.B (4 + i) (7 - i) (56 - 32 * i) false] else []) ++
  (if 4 ≤ n then loop 4 fun i => [.H (8 + 2 * i) (9 + 2 * i) (i % 2 = 1)] else []) ++
  (if 5 ≤ n then loop 2 fun i => loop 2 fun j => [.B (30 - 4 * i - j) (17 + 4 * i + j) (24 + j * 64 + (1 - i) * 32) true] else []) ++
  (if n = 6 then loop 8 fun i => loop 2 fun j => [.H (32 + i * 4 + j) (35 + i * 4 - j) (i % 2 = 1)] else []) ++
  (loop 2 fun i => [.B (2 * i) (2 * i + 1) (32 + 16 * i) (i = 0)]) ++
  (if 3 ≤ n then loop 2 fun i => [.H (4 + 2 * i) (5 + 2 * i) (i = 1)] else []) ++
  (if 4 ≤ n then loop 2 fun i => [.B (14 - i) (9 + i) (48 + 64 * i) true] else []) ++
  (if 5 ≤ n then loop 4 fun i => loop 2 fun j => [.H (16 + 4 * i + j) (19 + 4 * i - j) (i % 2 = 1)] else []) ++
  (if n = 6 then loop 2 fun i => loop 4 fun j => [.B (61 - i * 8 - j) (34 + i * 8 + j) (56 - i * 32 + j / 2 * 64) true] else []) ++
  (loop 2 fun i => [.H i (3 - i) false]) ++
  (if 3 ≤ n then [.B 6 5 32 true] else []) ++
  (if 4 ≤ n then loop 2 fun i => loop 2 fun j => [.H (8 + 4 * i + j) (11 + 4 * i - j) (i = 1)] else []) ++
  (if 5 ≤ n then loop 4 fun i => [.B (29 - i) (18 + i) (48 + i / 2 * 64) true] else []) ++
  (if n = 6 then loop 4 fun i => loop 4 fun j => [.H (32 + 8 * i + j) (39 + 8 * i - j) (i % 2 = 1)] else []) ++
  (if 3 ≤ n then loop 4 fun i => [.H i (7 - i) false] else []) ++
  (if 4 ≤ n then loop 2 fun i => [.B (13 - i) (10 + i) 32 true] else []) ++
  (if 5 ≤ n then loop 2 fun i => loop 4 fun j => [.H (16 + i * 8 + j) (23 + i * 8 - j) (i = 1)] else []) ++
  (if n = 6 then loop 8 fun i => [.B (59 - i) (36 + i) (if i < 4 then 48 else 112) true] else []) ++
  (if 4 ≤ n then loop 8 fun i => [.H i (15 - i) false] else []) ++
  (if 5 ≤ n then loop 4 fun i => [.B (27 - i) (20 + i) 32 true] else []) ++
  (if n = 6 then loop 8 fun i => [.H (32 + i) (47 - i) false, .H (48 + i) (63 - i) true] else []) ++
  (if 5 ≤ n then loop 16 fun i => [.H i (31 - i) false] else []) ++
  (if n = 6 then loop 8 fun i => [.B (55 - i) (40 + i) 32 true] else []) ++
  (if n = 6 then loop 32 fun i => [.H i (63 - i) false] else [])

/-- The inverse DCT array permutation process, section 7.13.2.2. -/
def dctPerm (n : Nat) (T : Nat → Int) : Nat → Int := fun i => T (brev n i)

/-- The inverse DCT process, section 7.13.2.3, of `2 ^ n` values with intermediate values of `r` bits. -/
def dct (r n : Nat) (T : Nat → Int) : Nat → Int := apply r (dctSteps n) (dctPerm n T)

/-- The inverse ADST input array permutation process, section 7.13.2.4. -/
def adstIn (n : Nat) (T : Nat → Int) : Nat → Int := fun i => T (if i % 2 = 1 then i - 1 else 2 ^ n - i - 1)

/-- The index in the inverse ADST output array permutation process, section 7.13.2.5. -/
def adstIdx (n i : Nat) : Nat :=
  let a := i / 8 % 2
  let b := (i / 4 + i / 8) % 2
  let c := (i / 2 + i / 4) % 2
  let d := (i + i / 2) % 2
  (d * 8 + c * 4 + b * 2 + a) / 2 ^ (4 - n)

/-- The inverse ADST output array permutation process, section 7.13.2.5. -/
def adstOut (n : Nat) (T : Nat → Int) : Nat → Int := fun i => if i % 2 = 1 then -T (adstIdx n i) else T (adstIdx n i)

/-- The steps 2 to 6 of the inverse ADST8 process, section 7.13.2.7. -/
def adst8Steps : List Step :=
  (loop 4 fun i => [.B (2 * i) (2 * i + 1) (60 - 16 * i) true]) ++
  (loop 4 fun i => [.H i (4 + i) false]) ++
  (loop 2 fun i => [.B (4 + 3 * i) (5 + i) (48 - 32 * i) true]) ++
  (loop 2 fun i => loop 2 fun j => [.H (4 * j + i) (2 + 4 * j + i) false]) ++
  (loop 2 fun i => [.B (2 + 4 * i) (3 + 4 * i) 32 true])

/-- The steps 2 to 8 of the inverse ADST16 process, section 7.13.2.8. -/
def adst16Steps : List Step :=
  (loop 8 fun i => [.B (2 * i) (2 * i + 1) (62 - 8 * i) true]) ++
  (loop 8 fun i => [.H i (8 + i) false]) ++
  (loop 2 fun i => [.B (8 + 2 * i) (9 + 2 * i) (56 - 32 * i) true, .B (13 + 2 * i) (12 + 2 * i) (8 + 32 * i) true]) ++
  (loop 4 fun i => loop 2 fun j => [.H (8 * j + i) (4 + 8 * j + i) false]) ++
  (loop 2 fun i => loop 2 fun j => [.B (4 + 8 * j + 3 * i) (5 + 8 * j + i) (48 - 32 * i) true]) ++
  (loop 2 fun i => loop 4 fun j => [.H (4 * j + i) (2 + 4 * j + i) false]) ++
  (loop 4 fun i => [.B (2 + 4 * i) (3 + 4 * i) 32 true])

/-- The steps of the inverse ADST of `2 ^ n` values, `n` is 3 or 4. -/
def adstSteps (n : Nat) : List Step := if n = 3 then adst8Steps else adst16Steps

/-- The inverse ADST4 process, section 7.13.2.6. -/
def adst4 (T : Nat → Int) : Nat → Int :=
  let s0 := 1321 * T 0
  let s1 := 2482 * T 0
  let s2 := 3344 * T 1
  let s3 := 3803 * T 2
  let s4 := 1321 * T 2
  let s5 := 2482 * T 3
  let s6 := 3803 * T 3
  let a7 := T 0 - T 2
  let b7 := a7 + T 3
  let s0 := s0 + s3
  let s1 := s1 - s4
  let s3 := s2
  let s2 := 3344 * b7
  let s0 := s0 + s5
  let s1 := s1 - s6
  let x0 := s0 + s3
  let x1 := s1 + s3
  let x2 := s2
  let x3 := s0 + s1
  let x3 := x3 - s3
  fun i => round2 (if i = 0 then x0 else if i = 1 then x1 else if i = 2 then x2 else x3) 12

/-- The inverse ADST process, section 7.13.2.9. -/
def adst (r n : Nat) (T : Nat → Int) : Nat → Int :=
  if n = 2 then adst4 T else adstOut n (apply r (adstSteps n) (adstIn n T))

/-- The inverse identity transform process, section 7.13.2.15. -/
def identity (n : Nat) (T : Nat → Int) : Nat → Int := fun i =>
  if n = 2 then round2 (T i * 5793) 12 else if n = 3 then T i * 2 else if n = 4 then round2 (T i * 11586) 12 else T i * 4

/-- The values stored in the variables `s` and `x` of the inverse ADST4 process. -/
def adst4Values (T : Nat → Int) : List Int :=
  let s0 := 1321 * T 0 + 3803 * T 2 + 2482 * T 3
  let s1 := 2482 * T 0 - 1321 * T 2 - 3803 * T 3
  [1321 * T 0, 2482 * T 0, 3344 * T 1, 3803 * T 2, 1321 * T 2, 2482 * T 3, 3803 * T 3, 1321 * T 0 + 3803 * T 2, 2482 * T 0 - 1321 * T 2,
    3344 * (T 0 - T 2 + T 3), s0, s1, s0 + 3344 * T 1, s1 + 3344 * T 1, s0 + s1, s0 + s1 - 3344 * T 1]

/-! ### Two dimensions -/

open Rav1e.Quant (TxSize TxType)

/-- The three kinds of one-dimensional transforms (without the lossless one). -/
inductive Proc
  | dct | adst | identity

/-- A one-dimensional transform of `2 ^ n` values. -/
def Proc.apply (p : Proc) (r n : Nat) (T : Nat → Int) : Nat → Int :=
  match p with
  | dct => Itx.dct r n T
  | adst => Itx.adst r n T
  | identity => Itx.identity n T

/-- The requirement of bitstream conformance on a one-dimensional transform: the values that it stores are representable by `r` bits,
the intermediate values of the ADST4 by `r + 12` bits. -/
def Proc.Conforms (p : Proc) (r n : Nat) (T : Nat → Int) : Prop :=
  match p with
  | dct => Itx.Conforms r (dctSteps n) (dctPerm n T)
  | adst => if n = 2 then (∀ v ∈ adst4Values T, InR (r + 12) v) ∧ ∀ i < 4, InR r (adst4 T i) else Itx.Conforms r (adstSteps n) (adstIn n T)
  | identity => n = 2 ∨ n = 4 → ∀ i < 2 ^ n, InR r (Itx.identity n T i)

/-- The row transform of a transform type, section 7.13.3. -/
def rowProc : TxType → Proc
  | .dctDct | .adstDct | .flipadstDct | .hDct => .dct
  | .dctAdst | .adstAdst | .flipadstAdst | .dctFlipadst | .adstFlipadst | .flipadstFlipadst | .hAdst | .hFlipadst => .adst
  | _ => .identity

/-- The column transform of a transform type, section 7.13.3. -/
def colProc : TxType → Proc
  | .dctDct | .dctAdst | .dctFlipadst | .vDct => .dct
  | .adstDct | .adstAdst | .adstFlipadst | .flipadstDct | .flipadstAdst | .flipadstFlipadst | .vAdst | .vFlipadst => .adst
  | _ => .identity

/-- `flipUD` of section 7.12.3. -/
def flipUD : TxType → Bool
  | .flipadstDct | .flipadstAdst | .vFlipadst | .flipadstFlipadst => true
  | _ => false

/-- `flipLR` of section 7.12.3. -/
def flipLR : TxType → Bool
  | .dctFlipadst | .adstFlipadst | .hFlipadst | .flipadstFlipadst => true
  | _ => false

/-- `Transform_Row_Shift` of section 7.13.3. -/
def transformRowShift : TxSize → Nat
  | .tx4x4 | .tx4x8 | .tx8x4 => 0
  | .tx8x8 | .tx8x16 | .tx16x8 | .tx16x32 | .tx32x16 | .tx32x64 | .tx64x32 | .tx4x16 | .tx16x4 => 1
  | .tx16x16 | .tx32x32 | .tx64x64 | .tx8x32 | .tx32x8 | .tx16x64 | .tx64x16 => 2

/-- The array `T` before the transform of row `i`, section 7.13.3. -/
def rowT (bd : Nat) (tx : TxSize) (residual : Nat → Nat → Int) (i : Nat) : Nat → Int := fun j =>
  if j < tx.width then
    let t := if i < 32 ∧ j < 32 then residual i j else 0
    let t := if tx.widthLog2 = tx.heightLog2 + 1 ∨ tx.heightLog2 = tx.widthLog2 + 1 then round2 (t * 2896) 12 else t
    clipR (bd + 8) t
  else 0

/-- The residual after the row transforms, section 7.13.3. -/
def afterRows (bd : Nat) (tx : TxSize) (ty : TxType) (residual : Nat → Nat → Int) (i j : Nat) : Int :=
  round2 ((rowProc ty).apply (bd + 8) tx.widthLog2 (rowT bd tx residual i) j) (transformRowShift tx)

/-- The array `T` before the transform of column `j`, section 7.13.3. -/
def colT (bd : Nat) (tx : TxSize) (ty : TxType) (residual : Nat → Nat → Int) (j : Nat) : Nat → Int := fun i =>
  if i < tx.height then clipR (max (bd + 6) 16) (afterRows bd tx ty residual i j) else 0

/-- The 2D inverse transform process, section 7.13.3 (not lossless). -/
def inverse2D (bd : Nat) (tx : TxSize) (ty : TxType) (residual : Nat → Nat → Int) (i j : Nat) : Int :=
  round2 ((colProc ty).apply (max (bd + 6) 16) tx.heightLog2 (colT bd tx ty residual j) i) 4

/-- The end of the reconstruction process, section 7.12.3: the residual is added to the prediction, mirrored if the type says so. -/
def reconstruct (bd : Nat) (tx : TxSize) (ty : TxType) (residual : Nat → Nat → Int) (pred : Nat → Nat → Int) (y x : Nat) : Int :=
  let i := if flipUD ty then tx.height - 1 - y else y
  let j := if flipLR ty then tx.width - 1 - x else x
  max 0 (min (pred y x + inverse2D bd tx ty residual i j) (2 ^ bd - 1))

end Rav1e.Itx

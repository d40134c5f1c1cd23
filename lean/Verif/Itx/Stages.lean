import Verif.Transform.Wht
/-
C59: the one-dimensional inverse transforms of `transform/inverse.rs`. Every array literal of the code is a list of `Term`s, made
mechanically from the text of the code; the functions run these lists over any kind of values (`Ops`), here over 32-bit integers.
-/
namespace Rav1e.Itx

/-- `COSPI_INV`, `transform/inverse.rs:55-62`. -/
def cospiInv : List Int :=
  [4096, 4095, 4091, 4085, 4076, 4065, 4052, 4036, 4017, 3996, 3973, 3948, 3920, 3889, 3857, 3822, 3784, 3745, 3703, 3659, 3612, 3564, 3513, 3461,
    3406, 3349, 3290, 3229, 3166, 3102, 3035, 2967, 2896, 2824, 2751, 2675, 2598, 2520, 2440, 2359, 2276, 2191, 2106, 2019, 1931, 1842, 1751, 1660,
    1567, 1474, 1380, 1285, 1189, 1092, 995, 897, 799, 700, 601, 501, 401, 301, 201, 101]

/-- `COSPI_INV[i]`; every index in the code is a literal below 64. -/
def cospi (i : Nat) : Int := cospiInv.getD i 0

/-- The expressions in the array literals of `transform/inverse.rs:71-1589`; indices are those of the array `stg` before. -/
inductive Term
  /-- `stg[i]` -/
  | cp (i : Nat)
  /-- `half_btf(c0, stg[i], c1, stg[j], INV_COS_BIT)` -/
  | btf (c0 : Int) (i : Nat) (c1 : Int) (j : Nat)
  /-- `clamp_value(stg[i] + stg[j], range)` -/
  | add (i j : Nat)
  /-- `clamp_value(stg[i] - stg[j], range)` -/
  | sub (i j : Nat)
  /-- `clamp_value(-stg[i] + stg[j], range)` -/
  | nadd (i j : Nat)
  /-- `-stg[i]` -/
  | neg (i : Nat)

/-- The operations in the array literals. `bad` is an index out of bounds. -/
structure Ops (α : Type) where
  btf : Int → α → Int → α → α
  add : α → α → α
  sub : α → α → α
  nadd : α → α → α
  neg : α → α
  bad : α

variable {α : Type}

/-- The value of an expression. -/
def Term.eval (o : Ops α) (stg : List α) : Term → α
  | cp i => stg.getD i o.bad
  | btf c0 i c1 j => o.btf c0 (stg.getD i o.bad) c1 (stg.getD j o.bad)
  | add i j => o.add (stg.getD i o.bad) (stg.getD j o.bad)
  | sub i j => o.sub (stg.getD i o.bad) (stg.getD j o.bad)
  | nadd i j => o.nadd (stg.getD i o.bad) (stg.getD j o.bad)
  | neg i => o.neg (stg.getD i o.bad)

/-- An array literal. -/
def stage (o : Ops α) (stg : List α) (s : List Term) : List α := s.map (Term.eval o stg)

/-- A sequence of array literals, each made from the one before. -/
def run (o : Ops α) (stages : List (List Term)) (input : List α) : List α := stages.foldl (stage o) input

/-- The arrays `stg1` to `stg2` of `av1_idct4`, `transform/inverse.rs:76-84`, each made from the one before. -/
def idct4Stages : List (List Term) :=
  [[.cp 0, .cp 2, .cp 1, .cp 3],
   [.btf (cospi 32) 0 (cospi 32) 1, .btf (cospi 32) 0 (-cospi 32) 1, .btf (cospi 48) 2 (-cospi 16) 3, .btf (cospi 16) 2 (cospi 48) 3]]

/-- `output` of `av1_idct4`, `transform/inverse.rs:87-90`. -/
def idct4Output : List Term :=
  [.add 0 3, .add 1 2, .sub 1 2, .sub 0 3]

/-- `temp_in` of `av1_idct8`, `transform/inverse.rs:165-165`. -/
def idct8Even : List Term :=
  [.cp 0, .cp 2, .cp 4, .cp 6]

/-- The arrays `stg1` to `stg4` of `av1_idct8`, `transform/inverse.rs:172-196`, each made from the one before. -/
def idct8Stages : List (List Term) :=
  [[.cp 1, .cp 5, .cp 3, .cp 7],
   [.btf (cospi 56) 0 (-cospi 8) 3, .btf (cospi 24) 1 (-cospi 40) 2, .btf (cospi 40) 1 (cospi 24) 2, .btf (cospi 8) 0 (cospi 56) 3],
   [.add 0 1, .sub 0 1, .nadd 2 3, .add 2 3],
   [.cp 0, .btf (-cospi 32) 1 (cospi 32) 2, .btf (cospi 32) 1 (cospi 32) 2, .cp 3]]

/-- `output` of `av1_idct8`, `transform/inverse.rs:199-206`: `temp_out` followed by `stg4`. -/
def idct8Output : List Term :=
  [.add 0 7, .add 1 6, .add 2 5, .add 3 4, .sub 3 4, .sub 2 5, .sub 1 6, .sub 0 7]

/-- `temp_in` of `av1_idct16`, `transform/inverse.rs:311-314`. -/
def idct16Even : List Term :=
  [.cp 0, .cp 2, .cp 4, .cp 6, .cp 8, .cp 10, .cp 12, .cp 14]

/-- The arrays `stg1` to `stg6` of `av1_idct16`, `transform/inverse.rs:319-382`, each made from the one before. -/
def idct16Stages : List (List Term) :=
  [[.cp 1, .cp 9, .cp 5, .cp 13, .cp 3, .cp 11, .cp 7, .cp 15],
   [.btf (cospi 60) 0 (-cospi 4) 7, .btf (cospi 28) 1 (-cospi 36) 6, .btf (cospi 44) 2 (-cospi 20) 5, .btf (cospi 12) 3 (-cospi 52) 4,
    .btf (cospi 52) 3 (cospi 12) 4, .btf (cospi 20) 2 (cospi 44) 5, .btf (cospi 36) 1 (cospi 28) 6, .btf (cospi 4) 0 (cospi 60) 7],
   [.add 0 1, .sub 0 1, .nadd 2 3, .add 2 3, .add 4 5, .sub 4 5, .nadd 6 7, .add 6 7],
   [.cp 0, .btf (-cospi 16) 1 (cospi 48) 6, .btf (-cospi 48) 2 (-cospi 16) 5, .cp 3, .cp 4, .btf (-cospi 16) 2 (cospi 48) 5,
    .btf (cospi 48) 1 (cospi 16) 6, .cp 7],
   [.add 0 3, .add 1 2, .sub 1 2, .sub 0 3, .nadd 4 7, .nadd 5 6, .add 5 6, .add 4 7],
   [.cp 0, .cp 1, .btf (-cospi 32) 2 (cospi 32) 5, .btf (-cospi 32) 3 (cospi 32) 4, .btf (cospi 32) 3 (cospi 32) 4,
    .btf (cospi 32) 2 (cospi 32) 5, .cp 6, .cp 7]]

/-- `output` of `av1_idct16`, `transform/inverse.rs:385-400`: `temp_out` followed by `stg6`. -/
def idct16Output : List Term :=
  [.add 0 15, .add 1 14, .add 2 13, .add 3 12, .add 4 11, .add 5 10, .add 6 9, .add 7 8, .sub 7 8, .sub 6 9, .sub 5 10, .sub 4 11, .sub 3 12,
    .sub 2 13, .sub 1 14, .sub 0 15]

/-- The arrays `stg1` to `stg8` of `av1_idct32`, `transform/inverse.rs:591-849`, each made from the one before. -/
def idct32Stages : List (List Term) :=
  [[.cp 0, .cp 16, .cp 8, .cp 24, .cp 4, .cp 20, .cp 12, .cp 28, .cp 2, .cp 18, .cp 10, .cp 26, .cp 6, .cp 22, .cp 14, .cp 30, .cp 1, .cp 17,
    .cp 9, .cp 25, .cp 5, .cp 21, .cp 13, .cp 29, .cp 3, .cp 19, .cp 11, .cp 27, .cp 7, .cp 23, .cp 15, .cp 31],
   [.cp 0, .cp 1, .cp 2, .cp 3, .cp 4, .cp 5, .cp 6, .cp 7, .cp 8, .cp 9, .cp 10, .cp 11, .cp 12, .cp 13, .cp 14, .cp 15,
    .btf (cospi 62) 16 (-cospi 2) 31, .btf (cospi 30) 17 (-cospi 34) 30, .btf (cospi 46) 18 (-cospi 18) 29, .btf (cospi 14) 19 (-cospi 50) 28,
    .btf (cospi 54) 20 (-cospi 10) 27, .btf (cospi 22) 21 (-cospi 42) 26, .btf (cospi 38) 22 (-cospi 26) 25, .btf (cospi 6) 23 (-cospi 58) 24,
    .btf (cospi 58) 23 (cospi 6) 24, .btf (cospi 26) 22 (cospi 38) 25, .btf (cospi 42) 21 (cospi 22) 26, .btf (cospi 10) 20 (cospi 54) 27,
    .btf (cospi 50) 19 (cospi 14) 28, .btf (cospi 18) 18 (cospi 46) 29, .btf (cospi 34) 17 (cospi 30) 30, .btf (cospi 2) 16 (cospi 62) 31],
   [.cp 0, .cp 1, .cp 2, .cp 3, .cp 4, .cp 5, .cp 6, .cp 7, .btf (cospi 60) 8 (-cospi 4) 15, .btf (cospi 28) 9 (-cospi 36) 14,
    .btf (cospi 44) 10 (-cospi 20) 13, .btf (cospi 12) 11 (-cospi 52) 12, .btf (cospi 52) 11 (cospi 12) 12, .btf (cospi 20) 10 (cospi 44) 13,
    .btf (cospi 36) 9 (cospi 28) 14, .btf (cospi 4) 8 (cospi 60) 15, .add 16 17, .sub 16 17, .nadd 18 19, .add 18 19, .add 20 21, .sub 20 21,
    .nadd 22 23, .add 22 23, .add 24 25, .sub 24 25, .nadd 26 27, .add 26 27, .add 28 29, .sub 28 29, .nadd 30 31, .add 30 31],
   [.cp 0, .cp 1, .cp 2, .cp 3, .btf (cospi 56) 4 (-cospi 8) 7, .btf (cospi 24) 5 (-cospi 40) 6, .btf (cospi 40) 5 (cospi 24) 6,
    .btf (cospi 8) 4 (cospi 56) 7, .add 8 9, .sub 8 9, .nadd 10 11, .add 10 11, .add 12 13, .sub 12 13, .nadd 14 15, .add 14 15, .cp 16,
    .btf (-cospi 8) 17 (cospi 56) 30, .btf (-cospi 56) 18 (-cospi 8) 29, .cp 19, .cp 20, .btf (-cospi 40) 21 (cospi 24) 26,
    .btf (-cospi 24) 22 (-cospi 40) 25, .cp 23, .cp 24, .btf (-cospi 40) 22 (cospi 24) 25, .btf (cospi 24) 21 (cospi 40) 26, .cp 27, .cp 28,
    .btf (-cospi 8) 18 (cospi 56) 29, .btf (cospi 56) 17 (cospi 8) 30, .cp 31],
   [.btf (cospi 32) 0 (cospi 32) 1, .btf (cospi 32) 0 (-cospi 32) 1, .btf (cospi 48) 2 (-cospi 16) 3, .btf (cospi 16) 2 (cospi 48) 3, .add 4 5,
    .sub 4 5, .nadd 6 7, .add 6 7, .cp 8, .btf (-cospi 16) 9 (cospi 48) 14, .btf (-cospi 48) 10 (-cospi 16) 13, .cp 11, .cp 12,
    .btf (-cospi 16) 10 (cospi 48) 13, .btf (cospi 48) 9 (cospi 16) 14, .cp 15, .add 16 19, .add 17 18, .sub 17 18, .sub 16 19, .nadd 20 23,
    .nadd 21 22, .add 21 22, .add 20 23, .add 24 27, .add 25 26, .sub 25 26, .sub 24 27, .nadd 28 31, .nadd 29 30, .add 29 30, .add 28 31],
   [.add 0 3, .add 1 2, .sub 1 2, .sub 0 3, .cp 4, .btf (-cospi 32) 5 (cospi 32) 6, .btf (cospi 32) 5 (cospi 32) 6, .cp 7, .add 8 11,
    .add 9 10, .sub 9 10, .sub 8 11, .nadd 12 15, .nadd 13 14, .add 13 14, .add 12 15, .cp 16, .cp 17, .btf (-cospi 16) 18 (cospi 48) 29,
    .btf (-cospi 16) 19 (cospi 48) 28, .btf (-cospi 48) 20 (-cospi 16) 27, .btf (-cospi 48) 21 (-cospi 16) 26, .cp 22, .cp 23, .cp 24, .cp 25,
    .btf (-cospi 16) 21 (cospi 48) 26, .btf (-cospi 16) 20 (cospi 48) 27, .btf (cospi 48) 19 (cospi 16) 28, .btf (cospi 48) 18 (cospi 16) 29,
    .cp 30, .cp 31],
   [.add 0 7, .add 1 6, .add 2 5, .add 3 4, .sub 3 4, .sub 2 5, .sub 1 6, .sub 0 7, .cp 8, .cp 9, .btf (-cospi 32) 10 (cospi 32) 13,
    .btf (-cospi 32) 11 (cospi 32) 12, .btf (cospi 32) 11 (cospi 32) 12, .btf (cospi 32) 10 (cospi 32) 13, .cp 14, .cp 15, .add 16 23,
    .add 17 22, .add 18 21, .add 19 20, .sub 19 20, .sub 18 21, .sub 17 22, .sub 16 23, .nadd 24 31, .nadd 25 30, .nadd 26 29, .nadd 27 28,
    .add 27 28, .add 26 29, .add 25 30, .add 24 31],
   [.add 0 15, .add 1 14, .add 2 13, .add 3 12, .add 4 11, .add 5 10, .add 6 9, .add 7 8, .sub 7 8, .sub 6 9, .sub 5 10, .sub 4 11, .sub 3 12,
    .sub 2 13, .sub 1 14, .sub 0 15, .cp 16, .cp 17, .cp 18, .cp 19, .btf (-cospi 32) 20 (cospi 32) 27, .btf (-cospi 32) 21 (cospi 32) 26,
    .btf (-cospi 32) 22 (cospi 32) 25, .btf (-cospi 32) 23 (cospi 32) 24, .btf (cospi 32) 23 (cospi 32) 24, .btf (cospi 32) 22 (cospi 32) 25,
    .btf (cospi 32) 21 (cospi 32) 26, .btf (cospi 32) 20 (cospi 32) 27, .cp 28, .cp 29, .cp 30, .cp 31]]

/-- `output` of `av1_idct32`, `transform/inverse.rs:852-883`. -/
def idct32Output : List Term :=
  [.add 0 31, .add 1 30, .add 2 29, .add 3 28, .add 4 27, .add 5 26, .add 6 25, .add 7 24, .add 8 23, .add 9 22, .add 10 21, .add 11 20,
    .add 12 19, .add 13 18, .add 14 17, .add 15 16, .sub 15 16, .sub 14 17, .sub 13 18, .sub 12 19, .sub 11 20, .sub 10 21, .sub 9 22,
    .sub 8 23, .sub 7 24, .sub 6 25, .sub 5 26, .sub 4 27, .sub 3 28, .sub 2 29, .sub 1 30, .sub 0 31]

/-- The arrays `stg1` to `stg10` of `av1_idct64`, `transform/inverse.rs:898-1522`, each made from the one before. -/
def idct64Stages : List (List Term) :=
  [[.cp 0, .cp 32, .cp 16, .cp 48, .cp 8, .cp 40, .cp 24, .cp 56, .cp 4, .cp 36, .cp 20, .cp 52, .cp 12, .cp 44, .cp 28, .cp 60, .cp 2, .cp 34,
    .cp 18, .cp 50, .cp 10, .cp 42, .cp 26, .cp 58, .cp 6, .cp 38, .cp 22, .cp 54, .cp 14, .cp 46, .cp 30, .cp 62, .cp 1, .cp 33, .cp 17,
    .cp 49, .cp 9, .cp 41, .cp 25, .cp 57, .cp 5, .cp 37, .cp 21, .cp 53, .cp 13, .cp 45, .cp 29, .cp 61, .cp 3, .cp 35, .cp 19, .cp 51,
    .cp 11, .cp 43, .cp 27, .cp 59, .cp 7, .cp 39, .cp 23, .cp 55, .cp 15, .cp 47, .cp 31, .cp 63],
   [.cp 0, .cp 1, .cp 2, .cp 3, .cp 4, .cp 5, .cp 6, .cp 7, .cp 8, .cp 9, .cp 10, .cp 11, .cp 12, .cp 13, .cp 14, .cp 15, .cp 16, .cp 17,
    .cp 18, .cp 19, .cp 20, .cp 21, .cp 22, .cp 23, .cp 24, .cp 25, .cp 26, .cp 27, .cp 28, .cp 29, .cp 30, .cp 31,
    .btf (cospi 63) 32 (-cospi 1) 63, .btf (cospi 31) 33 (-cospi 33) 62, .btf (cospi 47) 34 (-cospi 17) 61, .btf (cospi 15) 35 (-cospi 49) 60,
    .btf (cospi 55) 36 (-cospi 9) 59, .btf (cospi 23) 37 (-cospi 41) 58, .btf (cospi 39) 38 (-cospi 25) 57, .btf (cospi 7) 39 (-cospi 57) 56,
    .btf (cospi 59) 40 (-cospi 5) 55, .btf (cospi 27) 41 (-cospi 37) 54, .btf (cospi 43) 42 (-cospi 21) 53, .btf (cospi 11) 43 (-cospi 53) 52,
    .btf (cospi 51) 44 (-cospi 13) 51, .btf (cospi 19) 45 (-cospi 45) 50, .btf (cospi 35) 46 (-cospi 29) 49, .btf (cospi 3) 47 (-cospi 61) 48,
    .btf (cospi 61) 47 (cospi 3) 48, .btf (cospi 29) 46 (cospi 35) 49, .btf (cospi 45) 45 (cospi 19) 50, .btf (cospi 13) 44 (cospi 51) 51,
    .btf (cospi 53) 43 (cospi 11) 52, .btf (cospi 21) 42 (cospi 43) 53, .btf (cospi 37) 41 (cospi 27) 54, .btf (cospi 5) 40 (cospi 59) 55,
    .btf (cospi 57) 39 (cospi 7) 56, .btf (cospi 25) 38 (cospi 39) 57, .btf (cospi 41) 37 (cospi 23) 58, .btf (cospi 9) 36 (cospi 55) 59,
    .btf (cospi 49) 35 (cospi 15) 60, .btf (cospi 17) 34 (cospi 47) 61, .btf (cospi 33) 33 (cospi 31) 62, .btf (cospi 1) 32 (cospi 63) 63],
   [.cp 0, .cp 1, .cp 2, .cp 3, .cp 4, .cp 5, .cp 6, .cp 7, .cp 8, .cp 9, .cp 10, .cp 11, .cp 12, .cp 13, .cp 14, .cp 15,
    .btf (cospi 62) 16 (-cospi 2) 31, .btf (cospi 30) 17 (-cospi 34) 30, .btf (cospi 46) 18 (-cospi 18) 29, .btf (cospi 14) 19 (-cospi 50) 28,
    .btf (cospi 54) 20 (-cospi 10) 27, .btf (cospi 22) 21 (-cospi 42) 26, .btf (cospi 38) 22 (-cospi 26) 25, .btf (cospi 6) 23 (-cospi 58) 24,
    .btf (cospi 58) 23 (cospi 6) 24, .btf (cospi 26) 22 (cospi 38) 25, .btf (cospi 42) 21 (cospi 22) 26, .btf (cospi 10) 20 (cospi 54) 27,
    .btf (cospi 50) 19 (cospi 14) 28, .btf (cospi 18) 18 (cospi 46) 29, .btf (cospi 34) 17 (cospi 30) 30, .btf (cospi 2) 16 (cospi 62) 31,
    .add 32 33, .sub 32 33, .nadd 34 35, .add 34 35, .add 36 37, .sub 36 37, .nadd 38 39, .add 38 39, .add 40 41, .sub 40 41, .nadd 42 43,
    .add 42 43, .add 44 45, .sub 44 45, .nadd 46 47, .add 46 47, .add 48 49, .sub 48 49, .nadd 50 51, .add 50 51, .add 52 53, .sub 52 53,
    .nadd 54 55, .add 54 55, .add 56 57, .sub 56 57, .nadd 58 59, .add 58 59, .add 60 61, .sub 60 61, .nadd 62 63, .add 62 63],
   [.cp 0, .cp 1, .cp 2, .cp 3, .cp 4, .cp 5, .cp 6, .cp 7, .btf (cospi 60) 8 (-cospi 4) 15, .btf (cospi 28) 9 (-cospi 36) 14,
    .btf (cospi 44) 10 (-cospi 20) 13, .btf (cospi 12) 11 (-cospi 52) 12, .btf (cospi 52) 11 (cospi 12) 12, .btf (cospi 20) 10 (cospi 44) 13,
    .btf (cospi 36) 9 (cospi 28) 14, .btf (cospi 4) 8 (cospi 60) 15, .add 16 17, .sub 16 17, .nadd 18 19, .add 18 19, .add 20 21, .sub 20 21,
    .nadd 22 23, .add 22 23, .add 24 25, .sub 24 25, .nadd 26 27, .add 26 27, .add 28 29, .sub 28 29, .nadd 30 31, .add 30 31, .cp 32,
    .btf (-cospi 4) 33 (cospi 60) 62, .btf (-cospi 60) 34 (-cospi 4) 61, .cp 35, .cp 36, .btf (-cospi 36) 37 (cospi 28) 58,
    .btf (-cospi 28) 38 (-cospi 36) 57, .cp 39, .cp 40, .btf (-cospi 20) 41 (cospi 44) 54, .btf (-cospi 44) 42 (-cospi 20) 53, .cp 43, .cp 44,
    .btf (-cospi 52) 45 (cospi 12) 50, .btf (-cospi 12) 46 (-cospi 52) 49, .cp 47, .cp 48, .btf (-cospi 52) 46 (cospi 12) 49,
    .btf (cospi 12) 45 (cospi 52) 50, .cp 51, .cp 52, .btf (-cospi 20) 42 (cospi 44) 53, .btf (cospi 44) 41 (cospi 20) 54, .cp 55, .cp 56,
    .btf (-cospi 36) 38 (cospi 28) 57, .btf (cospi 28) 37 (cospi 36) 58, .cp 59, .cp 60, .btf (-cospi 4) 34 (cospi 60) 61,
    .btf (cospi 60) 33 (cospi 4) 62, .cp 63],
   [.cp 0, .cp 1, .cp 2, .cp 3, .btf (cospi 56) 4 (-cospi 8) 7, .btf (cospi 24) 5 (-cospi 40) 6, .btf (cospi 40) 5 (cospi 24) 6,
    .btf (cospi 8) 4 (cospi 56) 7, .add 8 9, .sub 8 9, .nadd 10 11, .add 10 11, .add 12 13, .sub 12 13, .nadd 14 15, .add 14 15, .cp 16,
    .btf (-cospi 8) 17 (cospi 56) 30, .btf (-cospi 56) 18 (-cospi 8) 29, .cp 19, .cp 20, .btf (-cospi 40) 21 (cospi 24) 26,
    .btf (-cospi 24) 22 (-cospi 40) 25, .cp 23, .cp 24, .btf (-cospi 40) 22 (cospi 24) 25, .btf (cospi 24) 21 (cospi 40) 26, .cp 27, .cp 28,
    .btf (-cospi 8) 18 (cospi 56) 29, .btf (cospi 56) 17 (cospi 8) 30, .cp 31, .add 32 35, .add 33 34, .sub 33 34, .sub 32 35, .nadd 36 39,
    .nadd 37 38, .add 37 38, .add 36 39, .add 40 43, .add 41 42, .sub 41 42, .sub 40 43, .nadd 44 47, .nadd 45 46, .add 45 46, .add 44 47,
    .add 48 51, .add 49 50, .sub 49 50, .sub 48 51, .nadd 52 55, .nadd 53 54, .add 53 54, .add 52 55, .add 56 59, .add 57 58, .sub 57 58,
    .sub 56 59, .nadd 60 63, .nadd 61 62, .add 61 62, .add 60 63],
   [.btf (cospi 32) 0 (cospi 32) 1, .btf (cospi 32) 0 (-cospi 32) 1, .btf (cospi 48) 2 (-cospi 16) 3, .btf (cospi 16) 2 (cospi 48) 3, .add 4 5,
    .sub 4 5, .nadd 6 7, .add 6 7, .cp 8, .btf (-cospi 16) 9 (cospi 48) 14, .btf (-cospi 48) 10 (-cospi 16) 13, .cp 11, .cp 12,
    .btf (-cospi 16) 10 (cospi 48) 13, .btf (cospi 48) 9 (cospi 16) 14, .cp 15, .add 16 19, .add 17 18, .sub 17 18, .sub 16 19, .nadd 20 23,
    .nadd 21 22, .add 21 22, .add 20 23, .add 24 27, .add 25 26, .sub 25 26, .sub 24 27, .nadd 28 31, .nadd 29 30, .add 29 30, .add 28 31,
    .cp 32, .cp 33, .btf (-cospi 8) 34 (cospi 56) 61, .btf (-cospi 8) 35 (cospi 56) 60, .btf (-cospi 56) 36 (-cospi 8) 59,
    .btf (-cospi 56) 37 (-cospi 8) 58, .cp 38, .cp 39, .cp 40, .cp 41, .btf (-cospi 40) 42 (cospi 24) 53, .btf (-cospi 40) 43 (cospi 24) 52,
    .btf (-cospi 24) 44 (-cospi 40) 51, .btf (-cospi 24) 45 (-cospi 40) 50, .cp 46, .cp 47, .cp 48, .cp 49, .btf (-cospi 40) 45 (cospi 24) 50,
    .btf (-cospi 40) 44 (cospi 24) 51, .btf (cospi 24) 43 (cospi 40) 52, .btf (cospi 24) 42 (cospi 40) 53, .cp 54, .cp 55, .cp 56, .cp 57,
    .btf (-cospi 8) 37 (cospi 56) 58, .btf (-cospi 8) 36 (cospi 56) 59, .btf (cospi 56) 35 (cospi 8) 60, .btf (cospi 56) 34 (cospi 8) 61,
    .cp 62, .cp 63],
   [.add 0 3, .add 1 2, .sub 1 2, .sub 0 3, .cp 4, .btf (-cospi 32) 5 (cospi 32) 6, .btf (cospi 32) 5 (cospi 32) 6, .cp 7, .add 8 11,
    .add 9 10, .sub 9 10, .sub 8 11, .nadd 12 15, .nadd 13 14, .add 13 14, .add 12 15, .cp 16, .cp 17, .btf (-cospi 16) 18 (cospi 48) 29,
    .btf (-cospi 16) 19 (cospi 48) 28, .btf (-cospi 48) 20 (-cospi 16) 27, .btf (-cospi 48) 21 (-cospi 16) 26, .cp 22, .cp 23, .cp 24, .cp 25,
    .btf (-cospi 16) 21 (cospi 48) 26, .btf (-cospi 16) 20 (cospi 48) 27, .btf (cospi 48) 19 (cospi 16) 28, .btf (cospi 48) 18 (cospi 16) 29,
    .cp 30, .cp 31, .add 32 39, .add 33 38, .add 34 37, .add 35 36, .sub 35 36, .sub 34 37, .sub 33 38, .sub 32 39, .nadd 40 47, .nadd 41 46,
    .nadd 42 45, .nadd 43 44, .add 43 44, .add 42 45, .add 41 46, .add 40 47, .add 48 55, .add 49 54, .add 50 53, .add 51 52, .sub 51 52,
    .sub 50 53, .sub 49 54, .sub 48 55, .nadd 56 63, .nadd 57 62, .nadd 58 61, .nadd 59 60, .add 59 60, .add 58 61, .add 57 62, .add 56 63],
   [.add 0 7, .add 1 6, .add 2 5, .add 3 4, .sub 3 4, .sub 2 5, .sub 1 6, .sub 0 7, .cp 8, .cp 9, .btf (-cospi 32) 10 (cospi 32) 13,
    .btf (-cospi 32) 11 (cospi 32) 12, .btf (cospi 32) 11 (cospi 32) 12, .btf (cospi 32) 10 (cospi 32) 13, .cp 14, .cp 15, .add 16 23,
    .add 17 22, .add 18 21, .add 19 20, .sub 19 20, .sub 18 21, .sub 17 22, .sub 16 23, .nadd 24 31, .nadd 25 30, .nadd 26 29, .nadd 27 28,
    .add 27 28, .add 26 29, .add 25 30, .add 24 31, .cp 32, .cp 33, .cp 34, .cp 35, .btf (-cospi 16) 36 (cospi 48) 59,
    .btf (-cospi 16) 37 (cospi 48) 58, .btf (-cospi 16) 38 (cospi 48) 57, .btf (-cospi 16) 39 (cospi 48) 56,
    .btf (-cospi 48) 40 (-cospi 16) 55, .btf (-cospi 48) 41 (-cospi 16) 54, .btf (-cospi 48) 42 (-cospi 16) 53,
    .btf (-cospi 48) 43 (-cospi 16) 52, .cp 44, .cp 45, .cp 46, .cp 47, .cp 48, .cp 49, .cp 50, .cp 51, .btf (-cospi 16) 43 (cospi 48) 52,
    .btf (-cospi 16) 42 (cospi 48) 53, .btf (-cospi 16) 41 (cospi 48) 54, .btf (-cospi 16) 40 (cospi 48) 55, .btf (cospi 48) 39 (cospi 16) 56,
    .btf (cospi 48) 38 (cospi 16) 57, .btf (cospi 48) 37 (cospi 16) 58, .btf (cospi 48) 36 (cospi 16) 59, .cp 60, .cp 61, .cp 62, .cp 63],
   [.add 0 15, .add 1 14, .add 2 13, .add 3 12, .add 4 11, .add 5 10, .add 6 9, .add 7 8, .sub 7 8, .sub 6 9, .sub 5 10, .sub 4 11, .sub 3 12,
    .sub 2 13, .sub 1 14, .sub 0 15, .cp 16, .cp 17, .cp 18, .cp 19, .btf (-cospi 32) 20 (cospi 32) 27, .btf (-cospi 32) 21 (cospi 32) 26,
    .btf (-cospi 32) 22 (cospi 32) 25, .btf (-cospi 32) 23 (cospi 32) 24, .btf (cospi 32) 23 (cospi 32) 24, .btf (cospi 32) 22 (cospi 32) 25,
    .btf (cospi 32) 21 (cospi 32) 26, .btf (cospi 32) 20 (cospi 32) 27, .cp 28, .cp 29, .cp 30, .cp 31, .add 32 47, .add 33 46, .add 34 45,
    .add 35 44, .add 36 43, .add 37 42, .add 38 41, .add 39 40, .sub 39 40, .sub 38 41, .sub 37 42, .sub 36 43, .sub 35 44, .sub 34 45,
    .sub 33 46, .sub 32 47, .nadd 48 63, .nadd 49 62, .nadd 50 61, .nadd 51 60, .nadd 52 59, .nadd 53 58, .nadd 54 57, .nadd 55 56, .add 55 56,
    .add 54 57, .add 53 58, .add 52 59, .add 51 60, .add 50 61, .add 49 62, .add 48 63],
   [.add 0 31, .add 1 30, .add 2 29, .add 3 28, .add 4 27, .add 5 26, .add 6 25, .add 7 24, .add 8 23, .add 9 22, .add 10 21, .add 11 20,
    .add 12 19, .add 13 18, .add 14 17, .add 15 16, .sub 15 16, .sub 14 17, .sub 13 18, .sub 12 19, .sub 11 20, .sub 10 21, .sub 9 22,
    .sub 8 23, .sub 7 24, .sub 6 25, .sub 5 26, .sub 4 27, .sub 3 28, .sub 2 29, .sub 1 30, .sub 0 31, .cp 32, .cp 33, .cp 34, .cp 35, .cp 36,
    .cp 37, .cp 38, .cp 39, .btf (-cospi 32) 40 (cospi 32) 55, .btf (-cospi 32) 41 (cospi 32) 54, .btf (-cospi 32) 42 (cospi 32) 53,
    .btf (-cospi 32) 43 (cospi 32) 52, .btf (-cospi 32) 44 (cospi 32) 51, .btf (-cospi 32) 45 (cospi 32) 50, .btf (-cospi 32) 46 (cospi 32) 49,
    .btf (-cospi 32) 47 (cospi 32) 48, .btf (cospi 32) 47 (cospi 32) 48, .btf (cospi 32) 46 (cospi 32) 49, .btf (cospi 32) 45 (cospi 32) 50,
    .btf (cospi 32) 44 (cospi 32) 51, .btf (cospi 32) 43 (cospi 32) 52, .btf (cospi 32) 42 (cospi 32) 53, .btf (cospi 32) 41 (cospi 32) 54,
    .btf (cospi 32) 40 (cospi 32) 55, .cp 56, .cp 57, .cp 58, .cp 59, .cp 60, .cp 61, .cp 62, .cp 63]]

/-- `output` of `av1_idct64`, `transform/inverse.rs:1525-1588`. -/
def idct64Output : List Term :=
  [.add 0 63, .add 1 62, .add 2 61, .add 3 60, .add 4 59, .add 5 58, .add 6 57, .add 7 56, .add 8 55, .add 9 54, .add 10 53, .add 11 52,
    .add 12 51, .add 13 50, .add 14 49, .add 15 48, .add 16 47, .add 17 46, .add 18 45, .add 19 44, .add 20 43, .add 21 42, .add 22 41,
    .add 23 40, .add 24 39, .add 25 38, .add 26 37, .add 27 36, .add 28 35, .add 29 34, .add 30 33, .add 31 32, .sub 31 32, .sub 30 33,
    .sub 29 34, .sub 28 35, .sub 27 36, .sub 26 37, .sub 25 38, .sub 24 39, .sub 23 40, .sub 22 41, .sub 21 42, .sub 20 43, .sub 19 44,
    .sub 18 45, .sub 17 46, .sub 16 47, .sub 15 48, .sub 14 49, .sub 13 50, .sub 12 51, .sub 11 52, .sub 10 53, .sub 9 54, .sub 8 55,
    .sub 7 56, .sub 6 57, .sub 5 58, .sub 4 59, .sub 3 60, .sub 2 61, .sub 1 62, .sub 0 63]

/-- The arrays `stg1` to `stg6` of `av1_iadst8`, `transform/inverse.rs:223-286`, each made from the one before. -/
def iadst8Stages : List (List Term) :=
  [[.cp 7, .cp 0, .cp 5, .cp 2, .cp 3, .cp 4, .cp 1, .cp 6],
   [.btf (cospi 4) 0 (cospi 60) 1, .btf (cospi 60) 0 (-cospi 4) 1, .btf (cospi 20) 2 (cospi 44) 3, .btf (cospi 44) 2 (-cospi 20) 3,
    .btf (cospi 36) 4 (cospi 28) 5, .btf (cospi 28) 4 (-cospi 36) 5, .btf (cospi 52) 6 (cospi 12) 7, .btf (cospi 12) 6 (-cospi 52) 7],
   [.add 0 4, .add 1 5, .add 2 6, .add 3 7, .sub 0 4, .sub 1 5, .sub 2 6, .sub 3 7],
   [.cp 0, .cp 1, .cp 2, .cp 3, .btf (cospi 16) 4 (cospi 48) 5, .btf (cospi 48) 4 (-cospi 16) 5, .btf (-cospi 48) 6 (cospi 16) 7,
    .btf (cospi 16) 6 (cospi 48) 7],
   [.add 0 2, .add 1 3, .sub 0 2, .sub 1 3, .add 4 6, .add 5 7, .sub 4 6, .sub 5 7],
   [.cp 0, .cp 1, .btf (cospi 32) 2 (cospi 32) 3, .btf (cospi 32) 2 (-cospi 32) 3, .cp 4, .cp 5, .btf (cospi 32) 6 (cospi 32) 7,
    .btf (cospi 32) 6 (-cospi 32) 7]]

/-- `output` of `av1_iadst8`, `transform/inverse.rs:289-296`. -/
def iadst8Output : List Term :=
  [.cp 0, .neg 4, .cp 6, .neg 2, .cp 3, .neg 7, .cp 5, .neg 1]

/-- The arrays `stg1` to `stg8` of `av1_iadst16`, `transform/inverse.rs:414-558`, each made from the one before. -/
def iadst16Stages : List (List Term) :=
  [[.cp 15, .cp 0, .cp 13, .cp 2, .cp 11, .cp 4, .cp 9, .cp 6, .cp 7, .cp 8, .cp 5, .cp 10, .cp 3, .cp 12, .cp 1, .cp 14],
   [.btf (cospi 2) 0 (cospi 62) 1, .btf (cospi 62) 0 (-cospi 2) 1, .btf (cospi 10) 2 (cospi 54) 3, .btf (cospi 54) 2 (-cospi 10) 3,
    .btf (cospi 18) 4 (cospi 46) 5, .btf (cospi 46) 4 (-cospi 18) 5, .btf (cospi 26) 6 (cospi 38) 7, .btf (cospi 38) 6 (-cospi 26) 7,
    .btf (cospi 34) 8 (cospi 30) 9, .btf (cospi 30) 8 (-cospi 34) 9, .btf (cospi 42) 10 (cospi 22) 11, .btf (cospi 22) 10 (-cospi 42) 11,
    .btf (cospi 50) 12 (cospi 14) 13, .btf (cospi 14) 12 (-cospi 50) 13, .btf (cospi 58) 14 (cospi 6) 15, .btf (cospi 6) 14 (-cospi 58) 15],
   [.add 0 8, .add 1 9, .add 2 10, .add 3 11, .add 4 12, .add 5 13, .add 6 14, .add 7 15, .sub 0 8, .sub 1 9, .sub 2 10, .sub 3 11, .sub 4 12,
    .sub 5 13, .sub 6 14, .sub 7 15],
   [.cp 0, .cp 1, .cp 2, .cp 3, .cp 4, .cp 5, .cp 6, .cp 7, .btf (cospi 8) 8 (cospi 56) 9, .btf (cospi 56) 8 (-cospi 8) 9,
    .btf (cospi 40) 10 (cospi 24) 11, .btf (cospi 24) 10 (-cospi 40) 11, .btf (-cospi 56) 12 (cospi 8) 13, .btf (cospi 8) 12 (cospi 56) 13,
    .btf (-cospi 24) 14 (cospi 40) 15, .btf (cospi 40) 14 (cospi 24) 15],
   [.add 0 4, .add 1 5, .add 2 6, .add 3 7, .sub 0 4, .sub 1 5, .sub 2 6, .sub 3 7, .add 8 12, .add 9 13, .add 10 14, .add 11 15, .sub 8 12,
    .sub 9 13, .sub 10 14, .sub 11 15],
   [.cp 0, .cp 1, .cp 2, .cp 3, .btf (cospi 16) 4 (cospi 48) 5, .btf (cospi 48) 4 (-cospi 16) 5, .btf (-cospi 48) 6 (cospi 16) 7,
    .btf (cospi 16) 6 (cospi 48) 7, .cp 8, .cp 9, .cp 10, .cp 11, .btf (cospi 16) 12 (cospi 48) 13, .btf (cospi 48) 12 (-cospi 16) 13,
    .btf (-cospi 48) 14 (cospi 16) 15, .btf (cospi 16) 14 (cospi 48) 15],
   [.add 0 2, .add 1 3, .sub 0 2, .sub 1 3, .add 4 6, .add 5 7, .sub 4 6, .sub 5 7, .add 8 10, .add 9 11, .sub 8 10, .sub 9 11, .add 12 14,
    .add 13 15, .sub 12 14, .sub 13 15],
   [.cp 0, .cp 1, .btf (cospi 32) 2 (cospi 32) 3, .btf (cospi 32) 2 (-cospi 32) 3, .cp 4, .cp 5, .btf (cospi 32) 6 (cospi 32) 7,
    .btf (cospi 32) 6 (-cospi 32) 7, .cp 8, .cp 9, .btf (cospi 32) 10 (cospi 32) 11, .btf (cospi 32) 10 (-cospi 32) 11, .cp 12, .cp 13,
    .btf (cospi 32) 14 (cospi 32) 15, .btf (cospi 32) 14 (-cospi 32) 15]]

/-- `output` of `av1_iadst16`, `transform/inverse.rs:561-576`. -/
def iadst16Output : List Term :=
  [.cp 0, .neg 8, .cp 12, .neg 4, .cp 6, .neg 14, .cp 10, .neg 2, .cp 3, .neg 11, .cp 15, .neg 7, .cp 5, .neg 13, .cp 9, .neg 1]

/-- `av1_idct4`, `transform/inverse.rs:71-91`. -/
def idct4 (o : Ops α) (input : List α) : List α := stage o (run o idct4Stages input) idct4Output

/-- `av1_idct8`, `transform/inverse.rs:160-207`. -/
def idct8 (o : Ops α) (input : List α) : List α := stage o (idct4 o (stage o input idct8Even) ++ run o idct8Stages input) idct8Output

/-- `av1_idct16`, `transform/inverse.rs:306-401`. -/
def idct16 (o : Ops α) (input : List α) : List α := stage o (idct8 o (stage o input idct16Even) ++ run o idct16Stages input) idct16Output

/-- `av1_idct32`, `transform/inverse.rs:586-884`. -/
def idct32 (o : Ops α) (input : List α) : List α := stage o (run o idct32Stages input) idct32Output

/-- `av1_idct64`, `transform/inverse.rs:893-1589`. -/
def idct64 (o : Ops α) (input : List α) : List α := stage o (run o idct64Stages input) idct64Output

/-- `av1_iadst8`, `transform/inverse.rs:218-297`. -/
def iadst8 (o : Ops α) (input : List α) : List α := stage o (run o iadst8Stages input) iadst8Output

/-- `av1_iadst16`, `transform/inverse.rs:409-577`. -/
def iadst16 (o : Ops α) (input : List α) : List α := stage o (run o iadst16Stages input) iadst16Output

end Rav1e.Itx

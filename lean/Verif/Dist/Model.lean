/-!
# The psychovisual distortion: the code

`cdef_dist_kernel`, `apply_ssim_boost` and the activity mask.  A region of a plane is a function of row and column.  Sums and products are checked against the
type they have in the code, `none` is a panic; conversions with `as` wrap around as in the code.
-/

namespace Rav1e.Dist

/-- A sum, product or difference of type `u32` (`bits = 32`), `u64` and so on: it panics if it does not fit. -/
def chk (bits n : Nat) : Option Nat := if n < 2 ^ bits then some n else none

/-- The same for `i32`. -/
def chkI (n : Int) : Option Int := if -2 ^ 31 ≤ n ∧ n < 2 ^ 31 then some n else none

/-- A difference of unsigned numbers. -/
def sub (a b : Nat) : Option Nat := if b ≤ a then some (a - b) else none

/-! ### The boost (src/activity.rs) -/

/-- `C1`, `C2`, `C3` (src/activity.rs:173-175). -/
def c1 : Nat := 3355
@[inherit_doc c1] def c2 : Nat := 16128
@[inherit_doc c1] def c3 : Nat := 12338

/-- `RATIO` (src/activity.rs:176-177). -/
def ratio : Nat := (((c1 <<< (14 + 1)) / c3) + 1) >>> 1

/-- `mult16_16_q15` (src/activity.rs:125-128). -/
def mult (a b : Int) : Option Int := (chkI (a * b)).map fun v : Int => v >>> (15 : Nat)

/-- The approximation of the reciprocal square root (src/activity.rs:130-144), with its debug assertions. -/
def rsqrtNorm (t : Nat) : Option Nat := do
  let n : Int := t - 32768
  if n < -16384 then none
  let a ← mult n 6711
  let b ← mult n (-13490 + a)
  let r := 23557 + b
  if 16384 ≤ r ∧ r < 32768 then some r.toNat else none

/-- `ssim_boost_rsqrt` (src/activity.rs:109-145): `norm` and `shift`.  `ilog2` panics for zero. -/
def rsqrt (x : Nat) : Option (Nat × Nat) := do
  if x = 0 then none
  let k := Nat.log2 x >>> 1
  let s : Int := 2 * k - (16 - 2)
  let t := (if s > 0 then x >>> s.toNat else x <<< (-s).toNat) % 2 ^ 16
  let shift := ((14 : Int) + ((s + 16) >>> (1 : Nat))).toNat % 2 ^ 8
  let norm ← rsqrtNorm t
  some (norm, shift)

/-- `apply_ssim_boost` (src/activity.rs:159-186), before the conversion to `u32`. -/
def boost64 (input svar dvar bitDepth : Nat) : Option Nat := do
  let coeffShift ← sub bitDepth 8
  let svar := svar >>> (2 * coeffShift)
  let dvar := dvar >>> (2 * coeffShift)
  let p ← chk 64 (svar * dvar)
  let x ← chk 64 (c1 * c1 + p)
  let (norm, shift) ← rsqrt x
  let z ← chk 64 (svar + dvar + c2)
  let a ← chk 64 (ratio * z)
  let a ← chk 64 (a * norm)
  let v ← chk 64 (input * (a >>> 14))
  some (v >>> shift)

/-- `apply_ssim_boost` (src/activity.rs:159-186). -/
def applySsimBoost (input svar dvar bitDepth : Nat) : Option Nat := (boost64 input svar dvar bitDepth).map (· % 2 ^ 32)

/-- `ssim_boost` (src/activity.rs:147-155); `DistortionScale::default()` is `1 << 14` (src/rdo.rs:639-644). -/
def ssimBoost (svar dvar bitDepth : Nat) : Option Nat := applySsimBoost (1 <<< 14) svar dvar bitDepth

/-! ### Sums of pixels -/

/-- A sum of type `u32`, `u64`, … over a list. -/
def sumChk (bits : Nat) : List Nat → Option Nat
  | l => l.foldlM (fun s v => chk bits (s + v)) 0

/-- The pixels of a region of `w` columns and `h` rows, row by row. -/
def pixels (w h : Nat) (f : Nat → Nat → Nat) : List Nat := (List.range h).flatMap fun y => (List.range w).map fun x => f y x

/-- `variance_8x8` (src/activity.rs:69-99): sums of columns of type `u16` and `u32`, then sums of type `u64`, saturated to `u32`. -/
def variance8x8 (f : Nat → Nat → Nat) : Option Nat := do
  let cols ← (List.range 8).mapM fun x => sumChk 16 ((List.range 8).map fun y => f y x)
  let cols2 ← (List.range 8).mapM fun x => sumChk 32 ((List.range 8).map fun y => f y x * f y x)
  let s ← sumChk 64 cols
  let s2 ← sumChk 64 cols2
  let sq ← chk 64 (s * s)
  let r ← chk 64 (sq + 32)
  let v ← sub s2 (r >>> 6)
  some (min v (2 ^ 32 - 1))

/-- An activity scale: `ActivityMask::from_plane` and `fill_scales` for one block of 8x8 pixels (src/activity.rs:39-64). -/
def activityScale (f : Nat → Nat → Nat) (bitDepth : Nat) : Option Nat := do
  let v ← variance8x8 f
  ssimBoost v v bitDepth

/-! ### The kernel (src/dist.rs) -/

/-- `AREA_DIVISORS` (src/dist.rs:290-297). -/
def areaDivisors : List Nat :=
  [16384, 8192, 5461, 4096, 3277, 2731, 2341, 2048, 1820, 1638, 1489, 1365,
   1260, 1170, 1092, 1024, 964, 910, 862, 819, 780, 745, 712, 683,
   655, 630, 607, 585, 565, 546, 529, 512, 496, 482, 468, 455,
   443, 431, 420, 410, 400, 390, 381, 372, 364, 356, 349, 341,
   334, 328, 321, 315, 309, 303, 298, 293, 287, 282, 278, 273,
   269, 264, 260, 256]

/-- The variance of a plane in `cdef_dist_kernel` from its sums (src/dist.rs:353-368): of `w * h` pixels, scaled to 8x8. -/
def scaledVar (s s2 div : Nat) : Option Nat := do
  let a ← chk 64 (s * s)
  let a ← chk 64 (a * div)
  let a ← chk 64 (a + (1 <<< 14 >>> 1))
  let v := s2 - (a >>> 14) % 2 ^ 32
  let b ← chk 64 (v * div)
  let b ← chk 64 (b + (1 <<< 8 >>> 1))
  some ((b >>> 8) % 2 ^ 32)

/-- The arguments of `apply_ssim_boost` in `cdef_dist_kernel` (src/dist.rs:302-368). -/
def kernelArgs (src dst : Nat → Nat → Nat) (w h : Nat) : Option (Nat × Nat × Nat) := do
  let s ← sumChk 32 (pixels w h src)
  let d ← sumChk 32 (pixels w h dst)
  let s2 ← sumChk 32 (pixels w h fun y x => src y x * src y x)
  let d2 ← sumChk 32 (pixels w h fun y x => dst y x * dst y x)
  let sd ← sumChk 32 (pixels w h fun y x => src y x * dst y x)
  let a ← chk 32 (d2 + s2)
  let b ← chk 32 (2 * sd)
  let sse ← sub a b
  let i ← sub (w * h) 1
  let div ← areaDivisors[i]?
  let svar ← scaledVar s s2 div
  let dvar ← scaledVar d d2 div
  some (sse, svar, dvar)

/-- `cdef_dist_kernel` (src/dist.rs:302-371), before the conversion to `u32` in `apply_ssim_boost`. -/
def kernel64 (src dst : Nat → Nat → Nat) (w h bitDepth : Nat) : Option Nat := do
  let (sse, svar, dvar) ← kernelArgs src dst w h
  boost64 sse svar dvar bitDepth

/-- `cdef_dist_kernel` (src/dist.rs:302-371). -/
def distKernel (src dst : Nat → Nat → Nat) (w h bitDepth : Nat) : Option Nat := do
  let (sse, svar, dvar) ← kernelArgs src dst w h
  applySsimBoost sse svar dvar bitDepth

end Rav1e.Dist

/-!
# Loop restoration

Model of `src/lrf.rs`: the self-guided filter with its integral images, the Wiener filter, and the loops over planes,
stripes and restoration units of `lrf_filter_frame`.  The Rust functions are modelled; the assembly versions are not.

A plane is a function of row and column; outside of the picture its values are arbitrary.  The two integral images are
memory: functions of the index in the buffer.  `u32` and `i32` arithmetic that is not explicitly wrapping is checked: `none`
is a panic (an overflow, a failed assertion, an index out of range).
-/

namespace Rav1e.Lrf

/-- The pixels of a plane by row and column. -/
abbrev Plane := Int → Int → Nat

/-- A `u32` result of an addition or multiplication. -/
def u32 (x : Nat) : Option Nat := if x < 2 ^ 32 then some x else none
/-- An `i32` result. -/
def i32 (x : Int) : Option Int := if -(2 ^ 31) ≤ x ∧ x < 2 ^ 31 then some x else none

/-- `v_frame::math::clamp`. -/
def clamp (x lo hi : Int) : Int := if x < lo then lo else if hi < x then hi else x

/-! ## Constants -/

/-- `SGRPROJ_PARAMS_S`, `lrf.rs:56-73`. -/
def paramsS : List (Nat × Nat) :=
  [(140, 3236), (112, 2158), (93, 1618), (80, 1438), (70, 1295), (58, 1177), (47, 1079), (37, 996), (30, 925), (25, 863),
   (0, 2589), (0, 1618), (0, 1177), (0, 925), (56, 0), (22, 0)]

/-- `STRIPE_IMAGE_MAX`, `lrf.rs:100-101`. -/
def stripeImageMax : Nat := 384
/-- `STRIPE_IMAGE_STRIDE`, `lrf.rs:102`. -/
def stripeStride : Nat := 392
/-- `STRIPE_IMAGE_SIZE`, `lrf.rs:103-104`. -/
def stripeSize : Nat := 392 * 72
/-- `IMAGE_WIDTH_MAX`, `lrf.rs:106-107`. -/
def imageWidthMax : Nat := 384

/-! ## Sums over boxes -/

/-- `sgrproj_sum_finish`, `lrf.rs:345-362`. -/
def sumFinish (bd ssq sum n oneOverN s : Nat) : Option (Nat × Nat) := do
  let t ← u32 (ssq + (1 <<< (2 * (bd - 8)) >>> 1))
  let scaledSsq := t >>> (2 * (bd - 8))
  let t ← u32 (sum + (1 <<< (bd - 8) >>> 1))
  let scaledSum := t >>> (bd - 8)
  let m ← u32 (scaledSsq * n)
  let q ← u32 (scaledSum * scaledSum)
  let p := m - q
  let t ← u32 (p * s)
  let t ← u32 (t + (1 <<< 20 >>> 1))
  let z := t >>> 20
  let a := if 255 ≤ z then 256 else if z = 0 then 1 else (z <<< 8 + z / 2) / (z + 1)
  let t ← u32 (((1 <<< 8) - a) * sum)
  let b ← u32 (t * oneOverN)
  let t ← u32 (b + (1 <<< 12 >>> 1))
  some (a, t >>> 12)

/-- `get_integral_square`, `lrf.rs:367-379`: wrapping arithmetic. -/
def integralSquare (iimg : Nat → Nat) (stride x y size : Nat) : Nat :=
  let topLeft := iimg (y * stride + x)
  let topRight := iimg (y * stride + x + size)
  let bottomLeft := iimg ((y + size) * stride + x)
  let bottomRight := iimg ((y + size) * stride + x + size)
  let t := (topLeft + bottomRight) % 2 ^ 32
  let t := (t + (2 ^ 32 - bottomLeft)) % 2 ^ 32
  (t + (2 ^ 32 - topRight)) % 2 ^ 32

/-- An element of `af` and of `bf`. -/
abbrev Row := Nat → Nat × Nat

/-- `af[x] = v.0; bf[x] = v.1`. -/
def setAb (ab : Row) (x : Nat) (v : Nat × Nat) : Row := fun x' => if x' = x then v else ab x'

/-- One pass of the loop of `sgrproj_box_ab_internal`, `lrf.rs:189-199`. -/
def abStep (bd r : Nat) (iimg iimgSq : Nat → Nat) (stride y s : Nat) (ab : Row) (x : Nat) : Option Row := do
  let d := r * 2 + 1
  let sum := integralSquare iimg stride x y d
  let ssq := integralSquare iimgSq stride x y d
  let v ← sumFinish bd ssq sum (d * d) (if r = 1 then 455 else 164) s
  some (setAb ab x v)

/-- `sgrproj_box_ab_internal`, `lrf.rs:176-200`; `len` is the length of the two images.  `af` and `bf` have
`IMAGE_WIDTH_MAX + 2` elements (`lrf.rs:636-645`). -/
def boxAb (bd r : Nat) (ab : Row) (iimg iimgSq : Nat → Nat) (len stride y w s : Nat) : Option Row :=
  if len > (y + (r * 2 + 1)) * stride + w + 1 + (r * 2 + 1) ∧ imageWidthMax + 2 > w + 1 then
    (List.range (w + 2)).foldlM (abStep bd r iimg iimgSq stride y s) ab
  else none

/-! ## Filtered rows -/

/-- `sgrproj_box_f_r0_internal`, `lrf.rs:250-257`, one element: `v` is the pixel. -/
def f0 (v : Nat) : Option Nat := some (v <<< 4)

/-- `sgrproj_box_f_r1_internal`, `lrf.rs:267-291`, one element. -/
def f1 (a0 a1 a2 : Row) (v x : Nat) : Option Nat := do
  let a ← u32 (3 * ((a0 x).1 + (a2 x).1 + (a0 (x + 2)).1 + (a2 (x + 2)).1)
    + 4 * ((a1 x).1 + (a0 (x + 1)).1 + (a1 (x + 1)).1 + (a2 (x + 1)).1 + (a1 (x + 2)).1))
  let b ← u32 (3 * ((a0 x).2 + (a2 x).2 + (a0 (x + 2)).2 + (a2 (x + 2)).2)
    + 4 * ((a1 x).2 + (a0 (x + 1)).2 + (a1 (x + 1)).2 + (a2 (x + 1)).2 + (a1 (x + 2)).2))
  let t ← u32 (a * v)
  let v ← u32 (t + b)
  let t ← u32 (v + (1 <<< 9 >>> 1))
  some (t >>> 9)

/-- `sgrproj_box_f_r2_internal`, `lrf.rs:301-341`, one element of the even row. -/
def f2even (a0 a1 : Row) (v x : Nat) : Option Nat := do
  let a ← u32 (5 * ((a0 x).1 + (a0 (x + 2)).1) + 6 * (a0 (x + 1)).1)
  let b ← u32 (5 * ((a0 x).2 + (a0 (x + 2)).2) + 6 * (a0 (x + 1)).2)
  let ao ← u32 (5 * ((a1 x).1 + (a1 (x + 2)).1) + 6 * (a1 (x + 1)).1)
  let bo ← u32 (5 * ((a1 x).2 + (a1 (x + 2)).2) + 6 * (a1 (x + 1)).2)
  let t ← u32 ((a + ao) * v)
  let t ← u32 (t + b + bo)
  let t ← u32 (t + (1 <<< 9 >>> 1))
  some (t >>> 9)

/-- `sgrproj_box_f_r2_internal`, `lrf.rs:301-341`, one element of the odd row. -/
def f2odd (a1 : Row) (v x : Nat) : Option Nat := do
  let ao ← u32 (5 * ((a1 x).1 + (a1 (x + 2)).1) + 6 * (a1 (x + 1)).1)
  let bo ← u32 (5 * ((a1 x).2 + (a1 (x + 2)).2) + 6 * (a1 (x + 1)).2)
  let t ← u32 (ao * v)
  let t ← u32 (t + bo)
  let t ← u32 (t + (1 <<< 8 >>> 1))
  some (t >>> 8)

/-! ## The integral images -/

/-- The rectangle that is filtered and the planes it is read from. -/
structure Stripe where
  /-- the output of CDEF and of the deblocking filter -/
  cdeffed : Plane
  deblocked : Plane
  /-- the top left corner, `cdeffed.x` and `cdeffed.y` -/
  x : Nat
  y : Nat
  /-- `stripe_w` and `stripe_h` -/
  w : Nat
  h : Nat
  /-- `crop_w` and `crop_h` of the plane; relative to the corner they are arguments of `setup_integral_image` -/
  cropW : Nat
  cropH : Nat

/-- `VertPaddedIter`, `lrf.rs:381-467`: the row `i` that it returns, as the plane and the row of the plane, with
`stripe_h` as in the call `lrf.rs:554-561`. -/
def vertPadded (t : Stripe) (i : Nat) : Plane × Int :=
  let stripeEnd : Int := ((t.h + t.h % 2 : Nat) : Int) + t.y
  let crop : Int := ((t.cropH - t.y : Nat) : Int) + t.y
  let y : Int := (t.y : Int) - 4 + i
  let croppedY := clamp y 0 (crop - 1)
  let ly := clamp croppedY ((t.y : Int) - 2) (stripeEnd + 1)
  (if (t.y : Int) ≤ ly ∧ ly < stripeEnd then t.cdeffed else t.deblocked, ly)

/-- The number of rows that it returns, `lrf.rs:434`. -/
def paddedRows (t : Stripe) : Nat := 4 + (t.h + t.h % 2) + 2

/-- `left_uniques`, `lrf.rs:545`. -/
def leftUniques (t : Stripe) : Nat := if t.x = 0 then 0 else 4
/-- `right_uniques`, `lrf.rs:546`. -/
def rightUniques (t : Stripe) : Nat := min 3 (t.cropW - t.x - t.w)

/-- `HorzPaddedIter`, `lrf.rs:481-517`, on row `i` as in `lrf.rs:562-569`: the element `j` that it returns. -/
def padded (t : Stripe) (i j : Nat) : Nat :=
  let row := vertPadded t i
  let start : Int := if t.x = 0 then -4 else 0
  let x := clamp (start + j) 0 (((leftUniques t + t.w + rightUniques t : Nat) : Int) - 1)
  row.1 row.2 ((t.x : Int) - leftUniques t + x)

/-- `buf[i] = v`. -/
def setAt (buf : Nat → Nat) (i v : Nat) : Nat → Nat := fun j => if j = i then v else buf j

/-- One element of the first row, `lrf.rs:577-588`, of an image of the values `px`. -/
def firstStep (px : Nat → Nat) (st : (Nat → Nat) × Nat) (k : Nat) : (Nat → Nat) × Nat :=
  let sum := (st.2 + px k) % 2 ^ 32
  (setAt st.1 k sum, sum)

/-- One element of a later row, which starts at `base`, `lrf.rs:604-620`. -/
def nextStep (px : Nat → Nat) (stride base : Nat) (st : (Nat → Nat) × Nat) (k : Nat) : (Nat → Nat) × Nat :=
  let sum := (st.2 + px k) % 2 ^ 32
  (setAt st.1 (base + k) ((sum + st.1 (base - stride + k)) % 2 ^ 32), sum)

/-- One pass of `for row in rows_iter`, `lrf.rs:593-626`: row `i + 1`; `split_at_mut` panics if there is no room. -/
def imageRow (px : Nat → Nat → Nat) (rowLen size stride : Nat) (buf : Nat → Nat) (i : Nat) : Option (Nat → Nat) :=
  if stride ≤ size - i * stride then
    some ((List.range (min rowLen (min stride (size - (i + 1) * stride)))).foldl
      (nextStep (px (i + 1)) stride ((i + 1) * stride)) (buf, 0)).1
  else none

/-- `setup_integral_image`, `lrf.rs:530-627`, for one of the two images: `px i j` is the value at row `i` and column `j`
of the padded rectangle. -/
def image (px : Nat → Nat → Nat) (rows rowLen size stride : Nat) (buf : Nat → Nat) : Option (Nat → Nat) :=
  (List.range (rows - 1)).foldlM (imageRow px rowLen size stride)
    ((List.range (min rowLen size)).foldl (firstStep (px 0)) (buf, 0)).1

/-- The two images. -/
structure Images where
  sum : Nat → Nat
  sq : Nat → Nat

/-- `setup_integral_image`, `lrf.rs:530-627`; the heights and widths left, `lrf.rs:1553` and `546`, must not be negative. -/
def setupImages (t : Stripe) (size stride : Nat) (buf : Images) : Option Images :=
  if t.cropW - t.x < t.w ∨ t.cropH < t.y then none
  else do
    let s ← image (padded t) (paddedRows t) (4 + t.w + 3) size stride buf.sum
    let q ← image (fun i j => padded t i j * padded t i j) (paddedRows t) (4 + t.w + 3) size stride buf.sq
    some ⟨s, q⟩

/-! ## The self-guided filter -/

/-- `a_r2`, `b_r2`, `a_r1`, `b_r1`. -/
structure Rows where
  r2 : Nat → Row
  r1 : Nat → Row

/-- `a_r2[k] = v`. -/
def setRow (f : Nat → Row) (k : Nat) (v : Row) : Nat → Row := fun k' => if k' = k then v else f k'

/-- `fn_ab_r2`: `sgrproj_box_ab_r2`, `lrf.rs:223-240`. -/
def abR2 (bd : Nat) (im : Images) (size stride y w s : Nat) (ab : Row) : Option Row :=
  boxAb bd 2 ab im.sum im.sq size stride y w s

/-- `fn_ab_r1`: `sgrproj_box_ab_r1`, `lrf.rs:203-220`, on the images from `integral_image_offset` on. -/
def abR1 (bd : Nat) (im : Images) (size stride y w s : Nat) (ab : Row) : Option Row :=
  boxAb bd 1 ab (fun i => im.sum (stride + 1 + i)) (fun i => im.sq (stride + 1 + i)) (size - (stride + 1)) stride y w s

/-- Row `y` of the boxes of radius 2 goes to element `k` of `a_r2` and `b_r2`, `lrf.rs:671-683` and `715-726`. -/
def updR2 (bd : Nat) (im : Images) (size stride w s2 y k : Nat) (st : Rows) : Option Rows :=
  if 0 < s2 then (abR2 bd im size stride y w s2 (st.r2 k)).map (fun v => { st with r2 := setRow st.r2 k v }) else some st

/-- Row `y` of the boxes of radius 1 goes to element `k` of `a_r1` and `b_r1`, `lrf.rs:684-708` and `753-765`. -/
def updR1 (bd : Nat) (im : Images) (size stride w s1 y k : Nat) (st : Rows) : Option Rows :=
  if 0 < s1 then (abR1 bd im size stride y w s1 (st.r1 k)).map (fun v => { st with r1 := setRow st.r1 k v }) else some st

/-- The intermediate arrays are primed, `lrf.rs:664-708`. -/
def prime (bd : Nat) (im : Images) (size stride w s2 s1 : Nat) (st : Rows) : Option Rows := do
  let st ← updR2 bd im size stride w s2 0 0 st
  let st ← updR1 bd im size stride w s1 0 0 st
  updR1 bd im size stride w s1 1 1 st

/-- `apply_filter`, `lrf.rs:797-815`, one element: `u` is the pixel. -/
def applyFilter (bd : Nat) (w0 w1 : Int) (u f2 f1 : Nat) : Option Nat := do
  let w2 : Int := 1 <<< 7 - w0 - w1
  let u : Int := (u : Int) <<< 4
  let a ← i32 (w0 * f2)
  let b ← i32 (w1 * u)
  let ab ← i32 (a + b)
  let c ← i32 (w2 * f1)
  let v ← i32 (ab + c)
  let t ← i32 (v + (1 <<< 11 >>> 1))
  some (clamp (t >>> 11) 0 (1 <<< bd - 1)).toNat

/-- The pixels that are written: row and column in the stripe, value. -/
abbrev Writes := List (Nat × Nat × Nat)

/-- The pixel of `cdeffed` at row `y` and column `x` of the stripe. -/
def Stripe.px (t : Stripe) (y x : Nat) : Nat := t.cdeffed (t.y + y) (t.x + x)

/-- The element `x` of `f_r2_ab[dy]`, `lrf.rs:715-750`: without the filter of radius 2 both rows have the even row. -/
def f2 (t : Stripe) (s2 : Nat) (st : Rows) (y dy x : Nat) : Option Nat :=
  if 0 < s2 then
    if dy = 0 then f2even (st.r2 (y / 2 % 2)) (st.r2 ((y / 2 + 1) % 2)) (t.px y x) x
    else f2odd (st.r2 ((y / 2 + 1) % 2)) (t.px (y + 1) x) x
  else f0 (t.px y x)

/-- The element `x` of `f_r1` for row `y`, `lrf.rs:753-787`. -/
def fr1 (t : Stripe) (s1 : Nat) (st : Rows) (y x : Nat) : Option Nat :=
  if 0 < s1 then f1 (st.r1 (y % 3)) (st.r1 ((y + 1) % 3)) (st.r1 ((y + 2) % 3)) (t.px y x) x
  else f0 (t.px y x)

/-- One pixel of row `y + dy`. -/
def pixelStep (bd : Nat) (t : Stripe) (w0 w1 : Int) (s2 s1 : Nat) (st : Rows) (y dy : Nat) (ws : Writes) (x : Nat) :
    Option Writes := do
  let a ← f2 t s2 st y dy x
  let b ← fr1 t s1 st (y + dy) x
  let v ← applyFilter bd w0 w1 (t.px (y + dy) x) a b
  some (ws ++ [(y + dy, x, v)])

/-- One pass of `for dy in 0..(2.min(stripe_h - y))`, `lrf.rs:751-828`. -/
def rowStep (bd : Nat) (t : Stripe) (im : Images) (size stride : Nat) (w0 w1 : Int) (s2 s1 y : Nat) (a : Rows × Writes)
    (dy : Nat) : Option (Rows × Writes) := do
  let st ← updR1 bd im size stride t.w s1 (y + dy + 2) ((y + dy + 2) % 3) a.1
  let ws ← (List.range t.w).foldlM (pixelStep bd t w0 w1 s2 s1 st y dy) a.2
  some (st, ws)

/-- One pass of `for y in (0..stripe_h).step_by(2)`, `lrf.rs:713-829`: `k` is `y / 2`.  Both rows of `f_r2_ab` are
computed at once, `lrf.rs:729-738`, also if only one is used. -/
def pairStep (bd : Nat) (t : Stripe) (im : Images) (size stride : Nat) (w0 w1 : Int) (s2 s1 : Nat) (a : Rows × Writes)
    (k : Nat) : Option (Rows × Writes) := do
  let y := 2 * k
  let st ← updR2 bd im size stride t.w s2 (y + 2) ((y / 2 + 1) % 2) a.1
  let _ ← (List.range t.w).foldlM (fun (_ : Nat) x => f2 t s2 st y 1 x) 0
  (List.range (min 2 (t.h - y))).foldlM (rowStep bd t im size stride w0 w1 s2 s1 y) (st, a.2)

/-- `sgrproj_stripe_filter`, `lrf.rs:630-830`. -/
def sgrStripe (bd : Nat) (t : Stripe) (im : Images) (size stride set : Nat) (w0 w1 : Int) : Option Writes := do
  let s ← paramsS[set]?
  if bd = 8 ∨ bd = 10 ∨ bd = 12 then do
    let st ← prime bd im size stride t.w s.1 s.2 ⟨fun _ _ => (0, 0), fun _ _ => (0, 0)⟩
    let r ← (List.range ((t.h + 1) / 2)).foldlM (pairStep bd t im size stride w0 w1 s.1 s.2) (st, [])
    some r.2
  else none

/-- The plane after the writes to the stripe. -/
def write (t : Stripe) (out : Plane) (ws : Writes) : Plane :=
  ws.foldl (fun o w => fun r c => if r = ((t.y + w.1 : Nat) : Int) ∧ c = ((t.x + w.2.1 : Nat) : Int) then w.2.2 else o r c) out

/-! ## The Wiener filter -/

/-- `vfilter`, `hfilter`, `lrf.rs:1118-1135`. -/
def taps (c : Int × Int × Int) : List Int :=
  [c.1, c.2.1, c.2.2, 128 - 2 * (c.1 + c.2.1 + c.2.2), c.2.2, c.2.1, c.1]

/-- The plane and row that row `yi` is read from, `lrf.rs:1157-1169`. -/
def wienerRow (t : Stripe) (yi : Int) : Plane × Int :=
  let ly := clamp yi 0 ((t.cropH : Int) - 1)
  if yi < t.y then (t.deblocked, max ly ((t.y : Int) - 2))
  else if yi < (t.y : Int) + t.h then (t.cdeffed, ly)
  else (t.deblocked, min ly ((t.y : Int) + t.h + 1))

/-- `acc` for column `xi` of a row, `lrf.rs:1156-1187`: the taps left of the row take its first pixel, those right of it its
last. -/
def wienerAcc (hf : List Int) (src : Int → Nat) (cropW : Nat) (xi : Int) : Int :=
  let n := min 7 ((cropW : Int) + 3 - xi)
  ((List.range 7).map (fun (i : Nat) =>
    hf.getD i 0 * (if (i : Int) < 3 - xi then (src 0 : Int) else if (i : Int) < n then (src (xi - 3 + i) : Int)
      else (src ((cropW : Int) - 1) : Int)))).sum

/-- An element of `work`, `lrf.rs:1189-1190`. -/
def wienerWork (bd : Nat) (t : Stripe) (hf : List Int) (xi yi : Int) : Int :=
  let roundH := if bd = 12 then 5 else 3
  let offset : Int := 1 <<< (bd + 7 - roundH - 1)
  let limit : Int := 1 <<< (bd + 1 + 7 - roundH) - 1
  let row := wienerRow t yi
  clamp ((wienerAcc hf (row.1 row.2) t.cropW xi + (1 <<< roundH >>> 1)) >>> roundH) (-offset) (limit - offset)

/-- A pixel, `lrf.rs:1193-1206`: `wi` is the row in the stripe. -/
def wienerPixel (bd : Nat) (t : Stripe) (vf hf : List Int) (xi : Int) (wi : Nat) : Nat :=
  let roundV := if bd = 12 then 9 else 11
  let acc := ((List.range 7).map (fun (i : Nat) => vf.getD i 0 * wienerWork bd t hf xi ((t.y : Int) + wi + i - 3))).sum
  (clamp ((acc + (1 <<< roundV >>> 1)) >>> roundV) 0 (1 <<< bd - 1)).toNat

/-- `wiener_stripe_filter`, `lrf.rs:1099-1207`, for `stripe_y ≥ 0`, the only case there is (`lrf.rs:1510-1519`). -/
def wienerStripe (bd : Nat) (t : Stripe) (cv ch : Int × Int × Int) : Writes :=
  let endI := if t.cropH < t.h + t.y then t.cropH - t.y else t.h
  (List.range t.w).flatMap (fun x => (List.range endI).map (fun wi =>
    (wi, x, wienerPixel bd t (taps cv) (taps ch) ((t.x + x : Nat) : Int) wi)))

/-! ## Frames -/

/-- `RestorationFilter`, `lrf.rs:124-136`. -/
inductive Filter where
  | none
  | wiener (cv ch : Int × Int × Int)
  | sgrproj (set : Nat) (xqd0 xqd1 : Int)
deriving Repr, DecidableEq

/-- What is used of a `RestorationPlane`, its `PlaneConfig` and `FrameInvariants`. -/
structure Params where
  /-- `fi.width`, `fi.height` -/
  width : Nat
  height : Nat
  xdec : Nat
  ydec : Nat
  bd : Nat
  /-- `fi.sequence.enable_cdef` -/
  enableCdef : Bool
  unitSize : Nat
  stripeHeight : Nat
  cols : Nat
  rows : Nat
  /-- `units[y][x].filter` -/
  unit : Nat → Nat → Filter

/-- `crop_w`, `lrf.rs:1506`. -/
def Params.cropW (g : Params) : Nat := (g.width + (1 <<< g.xdec >>> 1)) >>> g.xdec
/-- `crop_h`, `lrf.rs:1507`. -/
def Params.cropH (g : Params) : Nat := (g.height + (1 <<< g.ydec >>> 1)) >>> g.ydec

/-- `stripe_start_y` and `stripe_size`, `lrf.rs:1510-1519`; a negative size panics. -/
def stripeAt (g : Params) (si : Nat) : Option (Nat × Nat) :=
  if si = 0 then some (0, (64 - 8) >>> g.ydec)
  else
    let start := (si * 64 - 8) >>> g.ydec
    if start ≤ g.cropH then some (start, min (64 >>> g.ydec) (g.cropH - start)) else none

/-- `restoration_unit_by_stripe`, `lrf.rs:1295-1312`; indices out of range panic. -/
def unitByStripe (g : Params) (si rux : Nat) : Option Filter :=
  if 0 < g.cols ∧ 0 < g.rows ∧ 0 < g.unitSize then
    some (g.unit (min (si * g.stripeHeight / g.unitSize) (g.rows - 1)) (min rux (g.cols - 1)))
  else none

/-- The body of the loop over the units of a stripe, `lrf.rs:1522-1583`. `buf` are the integral images of the last unit. -/
def unitStep (g : Params) (cdeffed deblocked : Plane) (si y h : Nat) (st : Images × Plane) (rux : Nat) :
    Option (Images × Plane) := do
  let x := rux * g.unitSize
  if rux = g.cols - 1 ∧ g.cropW < x then none
  else do
    let t : Stripe := { cdeffed := cdeffed, deblocked := deblocked, x := x, y := y, w := (if rux = g.cols - 1 then g.cropW - x else g.unitSize), h := h, cropW := g.cropW, cropH := g.cropH }
    let f ← unitByStripe g si rux
    match f with
    | .none => some st
    | .wiener cv ch => some (st.1, write t st.2 (wienerStripe g.bd t cv ch))
    | .sgrproj set w0 w1 =>
      if !g.enableCdef then some st
      else do
        let im ← setupImages t stripeSize stripeStride st.1
        let ws ← sgrStripe g.bd t im stripeSize stripeStride set w0 w1
        some (im, write t st.2 ws)

/-- The body of the loop over the stripes, `lrf.rs:1509-1584`. -/
def stripeStep (g : Params) (cdeffed deblocked : Plane) (st : Images × Plane) (si : Nat) : Option (Images × Plane) := do
  let s ← stripeAt g si
  (List.range g.cols).foldlM (unitStep g cdeffed deblocked si s.1 s.2) st

/-- `lrf_filter_frame`, `lrf.rs:1482-1585`, for one plane: `cdeffed` is the plane before, the result the plane after.  The
buffer of the integral images is shared by all planes, so `buf` is arbitrary. -/
def filterPlane (g : Params) (cdeffed deblocked : Plane) (buf : Images) : Option Plane := do
  let r ← (List.range ((g.height + 7) / 64 + 1)).foldlM (stripeStep g cdeffed deblocked) (buf, cdeffed)
  some r.2

end Rav1e.Lrf

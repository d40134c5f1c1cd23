import Verif.Lrf.Theorems
import Verif.Hdr.BuildThms
import Verif.Hdr.Examples

/-!
# The restoration units of a frame

`RestorationState::new` and the weights that `sgrproj_solve` returns: the hypotheses of `filterPlane_eq_decoder` on the units
hold for every frame.
-/

namespace Rav1e.Lrf
open Rav1e.Hdr (Seq Chroma lrUnits)

/-! ## Unit sizes -/

/-- `stripe_uv_decimate`, `lrf.rs:1324`, and `stripe_height`, `lrf.rs:1275`, of a plane. -/
def stripeHeightOf (s : Seq) (chroma : Bool) : Nat :=
  if chroma && decide (0 < s.chroma.xdec ∧ 0 < s.chroma.ydec) then 32 else 64

/-- The decimation of a plane. -/
def planeXdec (s : Seq) (chroma : Bool) : Nat := if chroma then s.chroma.xdec else 0
def planeYdec (s : Seq) (chroma : Bool) : Nat := if chroma then s.chroma.ydec else 0

/-- The unit size of a plane, `lrf.rs:1321-1427`. -/
def unitSizeOf (s : Seq) (width height baseQ : Nat) (chroma : Bool) : Nat :=
  if chroma then (lrUnits s width height baseQ).2 else (lrUnits s width height baseQ).1

/-- The parameters of a plane, `lrf.rs:1431-1477`: `y_cols` and `y_rows` are `uv_cols` and `uv_rows` without decimation. -/
def planeParams (s : Seq) (width height baseQ : Nat) (chroma : Bool) (unit : Nat → Nat → Filter) : Params :=
  let u := unitSizeOf s width height baseQ chroma
  let xdec := planeXdec s chroma
  let ydec := planeYdec s chroma
  { width := width, height := height, xdec := xdec, ydec := ydec, bd := s.bitDepth, enableCdef := s.cdef, unitSize := u,
    stripeHeight := stripeHeightOf s chroma,
    cols := max ((((width + (1 <<< xdec >>> 1)) >>> xdec) + (u >>> 1)) / u) 1,
    rows := max ((((height + (1 <<< ydec >>> 1)) >>> ydec) + (u >>> 1)) / u) 1,
    unit := unit }

/-- The decoder of a plane, from the sequence header, the frame header and the units read. -/
def planeDec (s : Seq) (width height unitSize : Nat) (chroma : Bool) (unit : Nat → Nat → Spec.Unit) (cdef curr : Plane) :
    Spec.Dec where
  subX := planeXdec s chroma
  subY := planeYdec s chroma
  bitDepth := s.bitDepth
  frameWidth := width
  frameHeight := height
  unitSize := unitSize
  lrUnit := unit
  cdef := cdef
  curr := curr

/-- **The units of every frame are the decoder's units**: whatever the size, the quantizer, the tiles and the subsampling, a
plane of `RestorationState::new` has the rows and columns of units of AV1 7.17, and stripes that do not cross units. -/
theorem setup_same (s : Seq) (width height baseQ : Nat) (chroma : Bool) (unit : Nat → Nat → Filter) (cdef curr : Plane)
    (hw : 0 < width) (hh : 0 < height) (hbd : s.bitDepth = 8 ∨ s.bitDepth = 10 ∨ s.bitDepth = 12)
    (htw : 0 < s.tiling.tileWidthSb) (h422 : s.chroma = .cs422 → s.tiling.tileWidthSb % 2 = 0)
    (hok : ∀ r c, (unit r c).Ok s.cdef) :
    Same (planeParams s width height baseQ chroma unit)
      (planeDec s width height (unitSizeOf s width height baseQ chroma) chroma (fun r c => (unit r c).toSpec) cdef curr) := by
  obtain ⟨a, b, he, ha, ha', hb⟩ := Hdr.lrUnits_ok s width height baseQ htw h422
  have hxd : planeXdec s chroma ≤ 1 := by
    unfold planeXdec Hdr.Chroma.xdec; split <;> [split; skip] <;> omega
  have hyd : planeYdec s chroma ≤ 1 := by
    unfold planeYdec Hdr.Chroma.ydec; split <;> [split; skip] <;> omega
  have hst : stripeHeightOf s chroma = 64 >>> planeYdec s chroma := by
    unfold stripeHeightOf planeYdec
    cases chroma with
    | false => rfl
    | true => cases s.chroma <;> rfl
  have hu : unitSizeOf s width height baseQ chroma = 32 ∧ planeYdec s chroma = 1 ∨
      unitSizeOf s width height baseQ chroma = 64 ∨ unitSizeOf s width height baseQ chroma = 128 ∨
      unitSizeOf s width height baseQ chroma = 256 := by
    unfold unitSizeOf planeYdec
    rw [he]
    have h3 : a = 6 ∨ a = 7 ∨ a = 8 := by omega
    cases chroma with
    | false => rcases h3 with rfl | rfl | rfl <;> simp
    | true =>
      rcases hb with rfl | ⟨hc, hb⟩
      · rcases h3 with rfl | rfl | rfl <;> simp
      · rw [hc]
        rcases h3 with rfl | rfl | rfl
        · obtain rfl : b = 5 := by omega
          left; exact ⟨rfl, rfl⟩
        · obtain rfl : b = 6 := by omega
          right; left; rfl
        · obtain rfl : b = 7 := by omega
          right; right; left; rfl
  have hcount : ∀ n dec, dec ≤ 1 → max ((((n + (1 <<< dec >>> 1)) >>> dec) + (unitSizeOf s width height baseQ chroma >>> 1)) /
      unitSizeOf s width height baseQ chroma) 1 = max ((Spec.round2 n dec + unitSizeOf s width height baseQ chroma / 2) /
        unitSizeOf s width height baseQ chroma) 1 := by
    intro n dec hd
    unfold Spec.round2
    rcases (show dec = 0 ∨ dec = 1 by omega) with h | h <;> rw [h]
    · rw [Nat.shiftRight_eq_div_pow (unitSizeOf s width height baseQ chroma)]; rfl
    · rw [Nat.shiftRight_eq_div_pow (unitSizeOf s width height baseQ chroma), Nat.shiftRight_eq_div_pow (n + _)]; rfl
  refine ⟨rfl, rfl, hxd, hyd, hbd, rfl, rfl, rfl, hw, hh, rfl, ?_, ?_, hst, ?_, hcount _ _ hxd, hcount _ _ hyd, fun _ _ => rfl, hok⟩
  · show 0 < unitSizeOf s width height baseQ chroma; omega
  · show unitSizeOf s width height baseQ chroma ≤ 256; omega
  · show unitSizeOf s width height baseQ chroma % stripeHeightOf s chroma = 0
    rw [hst]
    rcases hu with ⟨h, h'⟩ | h | h | h
    · rw [h, h']; rfl
    all_goals
      rw [h]
      rcases (show planeYdec s chroma = 0 ∨ planeYdec s chroma = 1 by omega) with h | h <;> rw [h] <;> rfl

/-- **Loop restoration of every plane of every frame leaves the decoder's plane.** -/
theorem restore_eq_decoder (s : Seq) (width height baseQ : Nat) (chroma : Bool) (unit : Nat → Nat → Filter)
    (cdef curr : Plane) (buf : Images)
    (hw : 0 < width) (hh : 0 < height) (hbd : s.bitDepth = 8 ∨ s.bitDepth = 10 ∨ s.bitDepth = 12)
    (htw : 0 < s.tiling.tileWidthSb) (h422 : s.chroma = .cs422 → s.tiling.tileWidthSb % 2 = 0)
    (hok : ∀ r c, (unit r c).Ok s.cdef)
    (hpx : ∀ y x, cdef y x < 2 ^ s.bitDepth ∧ curr y x < 2 ^ s.bitDepth) :
    ∃ out, filterPlane (planeParams s width height baseQ chroma unit) cdef curr buf = some out ∧
      ∀ y x : Nat, y < (planeParams s width height baseQ chroma unit).cropH →
        x < (planeParams s width height baseQ chroma unit).cropW →
        out y x = (planeDec s width height (unitSizeOf s width height baseQ chroma) chroma (fun r c => (unit r c).toSpec)
          cdef curr).lrFrame y x :=
  filterPlane_eq_decoder (setup_same s width height baseQ chroma unit cdef curr hw hh hbd htw h422 hok)
    ⟨rfl, rfl, fun y x _ _ => hpx y x, fun y x => Nat.lt_of_lt_of_le (hpx y x).1 (by
      rcases hbd with h | h | h <;> rw [h] <;> decide)⟩ buf

/-- A sequence that meets the hypotheses: 4:2:0, several tiles, chroma units of 32 pixels. -/
example : ∃ s, Hdr.exSeq = some s ∧ s.bitDepth = 8 ∧ 0 < s.tiling.tileWidthSb ∧ s.chroma ≠ .cs422 ∧ s.cdef = true ∧
    1 < s.tiling.cols ∧ lrUnits s s.maxWidth s.maxHeight 100 = (64, 32) := by
  refine ⟨_, rfl, ?_⟩
  decide +kernel

/-! ## Weights -/

/-- `SGRPROJ_ALL_SETS` and `SGRPROJ_REDUCED_SETS`, `lrf.rs:77-86`, chosen by `get_sgr_sets`, `lrf.rs:88-93`. -/
def sgrSets (full : Bool) : List Nat :=
  if full then [0, 1, 2, 3, 4, 5, 6, 7, 8, 9, 10, 11, 12, 13, 14, 15] else [1, 3, 5, 7, 9, 11, 13, 15]

/-- Wrapping of a 32-bit sum in a release build. -/
def wrap32 (x : Int) : Int := (x + 2147483648) % 4294967296 - 2147483648

/-- The end of `sgrproj_solve`, `lrf.rs:1059-1095`.  `q0` and `q1` are the rounded quotients of the least-squares problem, any
32-bit integers: zero if a determinant is zero, saturated if the quotient is huge or not a number. -/
def solve (set : Nat) (q0 q1 : Int) : Option Filter := do
  let s ← paramsS[set]?
  let q : Int × Int := if s.1 = 0 then (0, q1) else if s.2 = 0 then (q0, 0) else (q0, q1)
  let xqd0 := clamp q.1 (-96) 31
  let xqd1 := clamp (wrap32 (128 - xqd0 - q.2)) (-32) 95
  some (.sgrproj set xqd0 xqd1)

theorem clamp_range {x lo hi : Int} (h : lo ≤ hi) : lo ≤ clamp x lo hi ∧ clamp x lo hi ≤ hi := by
  unfold clamp; split <;> [skip; split] <;> omega

/-- **Every filter that the search tries can be written and is read back**: whatever the floating-point solution is, the
weights are in the range of the bit stream, and a weight that is not coded because its radius is zero has the value that
the decoder infers (AV1 5.11.58: zero for the first weight, the clipped rest of 128 for the second). -/
theorem solve_ok (full : Bool) (set : Nat) (hset : set ∈ sgrSets full) (q0 q1 : Int) :
    ∃ w0 w1, solve set q0 q1 = some (.sgrproj set w0 w1) ∧ (Filter.sgrproj set w0 w1).Ok true ∧
      ((paramsS.getD set (0, 0)).1 = 0 → w0 = 0) ∧
      ((paramsS.getD set (0, 0)).2 = 0 → w1 = max (-32) (min 95 (128 - w0))) := by
  have h16 : set < 16 := by
    unfold sgrSets at hset
    cases full <;> simp at hset <;> omega
  have hlen : set < paramsS.length := h16
  have hg : paramsS[set]? = some (paramsS.getD set (0, 0)) := by
    rw [List.getD_eq_getElem?_getD, List.getElem?_eq_getElem hlen]; rfl
  refine ⟨_, _, by unfold solve; rw [hg]; rfl, ?_, ?_, ?_⟩
  · refine ⟨rfl, h16, clamp_range (by decide), clamp_range (by decide), fun h => ?_⟩
    rw [if_pos h]; rfl
  · intro h; rw [if_pos h]; rfl
  · intro h
    have h1 : (paramsS.getD set (0, 0)).1 ≠ 0 := by
      intro h1
      have : ∀ k < 16, (paramsS.getD k (0, 0)).1 = 0 → (paramsS.getD k (0, 0)).2 ≠ 0 := by decide
      exact this set h16 h1 h
    rw [if_neg h1, if_pos h]
    have hr := @clamp_range q0 (-96) 31 (by decide)
    show clamp (wrap32 (128 - clamp q0 (-96) 31 - 0)) (-32) 95 = _
    generalize clamp q0 (-96) 31 = w at hr
    unfold clamp wrap32
    split <;> [skip; split] <;> omega

/-- A solution that saturates: the sum wraps, the weights are still in range. -/
example : solve 0 (-2147483648) (-2147483648) = some (.sgrproj 0 (-96) (-32)) := by decide

end Rav1e.Lrf

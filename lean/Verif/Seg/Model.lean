import Verif.Quant.Model
import Verif.LogExp.Model
import Verif.Misc.Kmeans
import Verif.Dist.Model

/-!
# Segments: the code

`segmentation_optimize`, `update_threshold`, `select_segment`, `get_qidx`, and the normalisation of the scores that they start from.  `none` is a panic.
-/

namespace Rav1e.Seg

open Rav1e.Dist (chk chkI)
open Rav1e.LogExp (i64 blog64 bexp64)
open Rav1e.Quant (Search acQ selectAcQi)

/-! ### Logarithms of scores -/

/-- The polynomial of `blog32_q11` (src/util/logexp.rs:280-284). -/
def blogFrac (n : Int) : Option Int := do
  let a ← chkI (n * -1402)
  let b ← chkI (n * (a >>> (15 : Nat) + 2546))
  let c ← chkI (n * (b >>> (15 : Nat) - 5216))
  let d ← chkI (n * (c >>> (15 : Nat) + 15745))
  some (d >>> (15 : Nat) - 6797)

/-- `blog32_q11` (src/util/logexp.rs:269-286); `32 - leading_zeros` of a positive number is its binary logarithm plus one. -/
def blog32Q11 (w : Nat) : Option Int :=
  if w = 0 then some (-1)
  else do
    let ipart := Nat.log2 w + 1
    let m := if ipart > 16 then w >>> (ipart - 16) else (w <<< (16 - ipart)) % 2 ^ 32
    let f ← blogFrac ((m : Int) - 32768 - 16384)
    some ((ipart : Int) * 2 ^ 11 + f >>> (3 : Nat))

/-- `as i16`. -/
def wrap16 (v : Int) : Int := (v + 2 ^ 15) % 2 ^ 16 - 2 ^ 15

/-- `as i8`. -/
def wrap8 (v : Int) : Int := (v + 2 ^ 7) % 2 ^ 8 - 2 ^ 7

/-- `DistortionScale::blog16` (src/rdo.rs:596-601). -/
def blog16 (s : Nat) : Option Int := (blog32Q11 s).map fun v => wrap16 (v - 14 * 2 ^ 11)

/-! ### Scales -/

/-- `DistortionScale::new` (src/rdo.rs:578-583).  The shift drops bits above 64. -/
def scaleNew (num den : Nat) : Option Nat :=
  if den = 0 then none
  else
    let raw := min (num * 2 ^ 14 % 2 ^ 64 + den / 2) (2 ^ 64 - 1) / den
    some (if raw ≤ 2 ^ 28 - 1 then raw else 2 ^ 28 - 1)

/-- The product of two scales (src/rdo.rs:618-630). -/
def scaleMul (a b : Nat) : Option Nat := do
  let v ← chk 64 (a * b)
  let v ← chk 64 (v + 2 ^ 13)
  some (max 1 (min (v >>> 14) (2 ^ 28 - 1)))

/-- `DistortionScale::inv_mean` (src/rdo.rs:585-594).  The sum is of type `i64`, the division truncates; an empty slice panics. -/
def invMean (l : List Nat) : Option Nat := do
  let logs ← l.mapM blog32Q11
  if l.length = 0 then none
  let v : Int := 14 * 2 ^ 11 - logs.sum.tdiv l.length
  let x ← i64 ((v + 14 * 2 ^ 11) * 2 ^ 46)
  let e ← bexp64 x
  some (max 1 (min e (2 ^ 28 - 1))).toNat

/-- The scores of a frame, from `compute_spatiotemporal_scores` (src/encoder.rs:744-765) or `compute_temporal_scores` (src/encoder.rs:770-777): scales, normalised. -/
def normalise (l : List Nat) : Option (List Nat) := do
  let m ← invMean l
  l.mapM fun s => scaleMul s m

/-! ### Choice of the segments -/

/-- The variance of the spacing (src/segmentation.rs:96-103); the numbers are small, `i64` and `u64` do not overflow. -/
def spacing (c : List Int) : Option Nat :=
  let delta := (c.drop 1).zipWith (fun a b => b - a) c
  if delta.length = 0 then none
  else
    let mean := delta.sum.tdiv delta.length
    some (delta.map fun d => (d - mean) ^ 2).sum.toNat

/-- `rposition` of the minimum (src/segmentation.rs:107-109). -/
def lastMin (v : List Nat) : Option Nat := do
  let m ← v.min?
  some (v.length - 1 - v.reverse.findIdx (· == m))

/-- The centroids (src/segmentation.rs:84-109): the clustering for 8 to 3 clusters whose spacing has the least variance. -/
def centroids (scores : List Nat) : Option (List Int) := do
  let logs ← scores.mapM blog16
  let l := logs.mergeSort fun a b => decide (a ≤ b)
  let c ← [8, 7, 6, 5, 4, 3].mapM fun k => Kmeans.kmeans (-32768) 32767 k l
  let v ← c.mapM spacing
  let p ← lastMin v
  c[p]?

/-- The quantizer index of a centroid (src/segmentation.rs:125-134). -/
def deltaOf (bs : Search) (base bd : Nat) (l s : Int) : Option Int := do
  let x ← i64 (l - s * 2 ^ (57 - 11 - 1))
  let q ← bexp64 x
  let i ← selectAcQi bs q bd
  some ((max i 1 : Nat) - base)

/-- `compute_delta` (src/segmentation.rs:111-136). -/
def computeDelta (bs : Search) (base bd : Nat) (c : List Int) : Option (List Int) := do
  let q ← acQ base 0 bd
  let l ← blog64 q
  c.reverse.mapM (deltaOf bs base bd l)

/-- `SegmentationState` (src/encoder.rs:550-562): the feature for quantizers, the only one in use. -/
structure State where
  updateData : Bool := false
  preskip : Bool := false
  lastActive : Nat := 0
  features : List Bool := List.replicate 8 false
  data : List Int := List.replicate 8 0
  threshold : List Nat := List.replicate 7 0
  minSeg : Nat := 0
  maxSeg : Nat := 0
  deriving DecidableEq, Repr

/-- `update_threshold` (src/encoder.rs:566-581). -/
def updateThreshold (S : State) (base bd : Nat) : Option State := do
  let q0 ← acQ base 0 bd
  let q ← (S.data.take (S.maxSeg + 1)).mapM fun d => acQ base (wrap8 d) bd
  let t ← ((q.drop 1).zip q).mapM fun p => scaleNew (q0 ^ 2) (p.1 * p.2)
  some { S with threshold := t.take 7 ++ List.replicate (7 - t.length) 0 }

/-- `segmentation_optimize_inner` (src/segmentation.rs:77-160). -/
def optimizeInner (bs : Search) (S : State) (base bd : Nat) (scores : List Nat) (lower : Int) : Option State := do
  let c ← centroids scores
  let delta ← computeDelta bs base bd c
  if delta.length = 0 then none
  let n := delta.length
  updateThreshold { S with
    minSeg := 0
    maxSeg := n - 1
    features := List.replicate (min n 8) true ++ S.features.drop n
    data := (delta.take 8).map (max · lower) ++ S.data.drop n } base bd

/-- The last index of a segment with a feature (src/segmentation.rs:62-72). -/
def lastTrue (l : List Bool) : Nat := ((List.range l.length).filter fun i => l.getD i false).getLastD 0

/-- `segmentation_optimize` (src/segmentation.rs:23-74); `fresh`: no primary reference frame. -/
def optimize (bs : Search) (S : State) (fresh : Bool) (base bd : Nat) (scores : List Nat) : Option State :=
  let lower : Int := 1 - base
  let S := { S with updateData := fresh }
  if fresh then do
    let S ← optimizeInner bs S base bd scores lower
    some { S with preskip := false, lastActive := lastTrue S.features }
  else
    match (List.range 8).find? fun i => S.features.getD i false && decide (lower ≤ S.data.getD i 0) with
    | none => none
    | some i => updateThreshold { S with minSeg := i } base bd

/-! ### Use of the segments -/

/-- `SegmentationLevel`, without `Disabled` (src/api/config/speedsettings.rs). -/
inductive Level | simple | complex | full
  deriving DecidableEq, Repr

/-- The result of `partition_point`: whatever search is used, it ends at a place where the test holds before and fails behind. -/
def IsPoint (t : List Nat) (s r : Nat) : Prop := r ≤ t.length ∧ (0 < r → s < t.getD (r - 1) 0) ∧ (r < t.length → ¬s < t.getD r 0)

/-- `select_segment` (src/segmentation.rs:163-190) for a block that is not skipped, as first and last segment; `r` is what `segment_idx_from_distortion`
(src/segmentation.rs:192-196) returns. -/
def selectSegment (S : State) (level : Level) (r : Nat) : Nat × Nat :=
  if level = .full then (S.minSeg, S.maxSeg)
  else
    let sidx := max r S.minSeg
    if level = .complex then (sidx, min S.maxSeg (min (sidx + 1) 255)) else (sidx, sidx)

/-- `get_qidx` (src/encoder.rs:1383-1394). -/
def getQidx (S : State) (base sidx : Nat) : Nat :=
  if S.features.getD sidx false then (max 0 (min ((base : Int) + S.data.getD sidx 0) 255)).toNat else base

end Rav1e.Seg

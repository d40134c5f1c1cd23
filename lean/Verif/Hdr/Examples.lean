import Verif.Hdr.Stream
import Verif.Sched.Findings

/-!
# Concrete headers: the hypotheses are met
-/

namespace Rav1e.Hdr

open Av1Spec

/-- 352x288, 4:2:0, 8 bits, with reordering, segmentation, all filters and two tile columns. -/
def exE : EncCfg where
  sched := Sched.exR
  width := 352
  height := 288
  renderWidth := 352
  renderHeight := 288
  bitDepth := 8
  chroma := .cs420
  chromaPos := 0
  fullRange := false
  color := some ⟨1, 1, 1⟩
  timeNum := 1
  timeDen := 30
  enableTiming := true
  levelIdx := some 5
  tileCols := 2
  tileRows := 0
  tiles := 0
  rateLog2 := 0
  filmGrain := true
  cdef := true
  lrf := true
  reducedTx := false
  segmentation := true
  rdoTx := true
  interTxSplit := true

/-- A film grain table. -/
def exGrain : Grain where
  seed := 7391
  pointsY := [(0, 20), (128, 40), (255, 60)]
  pointsCb := [(0, 10)]
  pointsCr := [(255, 10)]
  scalingShift := 10
  arLag := 3
  arY := List.replicate 24 (-3)
  arCb := List.replicate 25 4
  arCr := List.replicate 25 (-128)
  arShift := 7
  cbMult := 128
  cbLumaMult := 192
  cbOffset := 256
  crMult := 128
  crLumaMult := 192
  crOffset := 256
  overlap := true
  cfl := false
  scaleShift := 0

/-- The decisions for frame `o`. -/
def exLate (o : Nat) : Late where
  acQi := [100, 102, 102]
  dcQi := [98, 101, 101]
  cdefY := (2, 1)
  cdefUv := (3, 0)
  levels := [12, 13, 8, 8]
  segQis := [80, 100, 130]
  grain := if o % 2 = 0 then some exGrain else none
  lrQ := 100
  lrTypes := [3, 1, 2]
  ctxTileId := 1
  tileSizeBytes := 2

def exSeq : Option Seq := newSequence exE

theorem exE_ok : EncOk exE where
  size := ⟨by decide, by decide, by decide, by decide⟩
  render := by decide
  depth := by decide
  level := by intro l h; cases h; decide
  pos := by decide
  color := by intro d h; cases h; decide
  srgb := by intro d h; cases h; decide
  time := by decide
  timing := by decide

theorem exGrain_good (c : Chroma) (h : c ≠ .cs400) : GrainGood c exGrain where
  fits := by constructor <;> decide
  coeffs := by decide
  chroma := by
    rintro (h' | h' | h')
    · exact absurd h' h
    · cases h'
    · cases h'.2

theorem exLate_ok (s : Seq) (hc : s.chroma ≠ .cs400) (ht : 2 ≤ s.tiling.cols * s.tiling.rows) (o : Nat) :
    LateOk s (exLate o) where
  ac := by simp [exLate]
  dc := by simp [exLate]
  base := by simp [exLate]
  near := by
    intro q h
    simp [exLate] at h ⊢
    omega
  cdef := by simp [exLate]
  levels := by simp [exLate]
  segs := by simp [exLate]
  lr := by
    intro i
    match i with
    | 0 | 1 | 2 => simp [exLate]
    | _ + 3 => simp [exLate]
  tile := by show 1 < _; omega
  bytes := by simp [exLate]
  grain := by
    intro g h
    unfold exLate at h
    dsimp only at h
    split at h
    · cases h; exact exGrain_good _ hc
    · cases h

/-- Frame type (none: shown again) and length of the headers of the first `n` positions, when
frame 4 is a forced key frame. -/
def exHeaders (n : Nat) : Option (List (Option FrameType × Nat)) :=
  match newSequence exE with
  | none => none
  | some s =>
    match encodeHeaders exE s (List.replicate 8 none)
        (planned exE.sched (fun i => i == 4) none exLate n) with
    | .ok out => some (out.map fun o =>
        (match o.1 with | .coded fi => some fi.frameType | .existing _ => none, o.2.length))
    | .error _ => none

/-- All the hypotheses of `scheduled_headers_round_trip` hold, for any forced key frames and any end
of the video.  Here, with segmentation, the headers of the first 14 positions are all written. -/
example : ∃ s, newSequence exE = some s ∧ EncOk exE ∧ (∀ o, LateOk s (exLate o)) ∧
    exE.chroma ≠ .cs422 ∧ exE.sched.stillPicture = false :=
  ⟨_, rfl, exE_ok, exLate_ok _ (by decide) (by decide), by decide, by decide⟩

example : exHeaders 14 = some [(some .key, 964), (some .inter, 925), (some .inter, 163), (none, 4),
    (some .inter, 163), (some .key, 203), (some .inter, 925), (some .inter, 164),
    (some .inter, 925), (none, 4), (some .inter, 925), (none, 4)] := by decide +kernel

end Rav1e.Hdr

import Verif.Config.Thms
import Verif.Hdr.Examples

/-!
# Configuration: concrete cases, and what `validate` lets through
-/

namespace Rav1e.Conf
open Hdr

/-- A configuration with a bit rate and a reservoir of 60 frames around the encoder settings `exE`. -/
def exC : Config where
  enc := exE
  sarNum := 1
  sarDen := 1
  delay := some 60
  bitrate := 500000
  emit := true
  summary := none

/-- The hypotheses of `accepted_fits` and `accepted_starts` are met by it. -/
example : validate exC = some none ∧ Typed exC ∧ exC.enc.bitDepth = 8 ∧
    exC.enc.rateLog2 ≤ Tile.Spec.minLog2TileCols exC.enc.width + Tile.Spec.maxLog2TileRows exC.enc.height :=
  ⟨by decide +kernel, ⟨by intro d h; cases h; decide, by decide⟩, rfl, by decide⟩

/-- It starts an encoder. -/
example : ∃ s r, newInner 8 exC [] = some (.ok (adjusted exE, s, r)) := by
  obtain ⟨s, r, h, -⟩ := accepted_starts (c := exC) (pixelBits := 8) (by decide +kernel)
    ⟨by intro d h; cases h; decide, by decide⟩ (Or.inl rfl) (by decide) (by decide) []
  exact ⟨s, r, h⟩

/-- Each rejection is reachable: one setting out of range, and the error names it. -/
example :
    validate { exC with enc := { exE with width := 15 } } = some (some .width) ∧
    validate { exC with enc := { exE with height := 65536 } } = some (some .height) ∧
    validate { exC with sarNum := 0 } = some (some .aspectNum) ∧
    validate { exC with sarDen := 0 } = some (some .aspectDen) ∧
    validate { exC with enc := { exE with renderWidth := 0 } } = some (some .renderWidth) ∧
    validate { exC with enc := { exE with renderHeight := 65536 } } = some (some .renderHeight) ∧
    validate { exC with enc := { exE with sched := { exE.sched with rdoLookahead := 0 } } }
      = some (some .lookahead) ∧
    validate { exC with enc := { exE with sched := { exE.sched with maxKey := 715827883 } } }
      = some (some .maxKey) ∧
    validate { exC with enc := { exE with tileCols := 3 } } = some (some .tileCols) ∧
    validate { exC with enc := { exE with tileRows := 2 ^ 63 + 1 } } = some (some .tileRows) ∧
    validate { exC with enc := { exE with timeNum := 0 } } = some (some .rateNum) ∧
    validate { exC with enc := { exE with timeDen := 4294967296 } } = some (some .rateDen) ∧
    validate { exC with delay := some 11 } = some (some .delay) ∧
    validate { exC with enc := { exE with sched := { exE.sched with switchInterval := 5, lowLatency := false } } }
      = some (some .switch) ∧
    validate { exC with enc := { exE with levelIdx := some 2 } } = some (some .levelUndefined) ∧
    validate { exC with enc := { exE with levelIdx := some 0, width := 2049, height := 16 } }
      = some (some .levelExceeded) ∧
    validate { exC with bitrate := 0 } = some (some .bitrate) := by
  decide +kernel

/-! ## Findings -/

/-- The levels of Annex A (section A.3) of the AV1 specification: index, MaxPicSize, MaxHSize, MaxVSize and
MaxDisplayRate. -/
def annexA : List (Nat × Nat × Nat × Nat × Nat) :=
  [(0, 147456, 2048, 1152, 4423680), (1, 278784, 2816, 1584, 8363520),
   (4, 665856, 4352, 2448, 19975680), (5, 1065024, 5504, 3096, 31950720),
   (8, 2359296, 6144, 3456, 70778880), (9, 2359296, 6144, 3456, 141557760),
   (12, 8912896, 8192, 4352, 267386880), (13, 8912896, 8192, 4352, 534773760),
   (14, 8912896, 8192, 4352, 1069547520), (15, 8912896, 8192, 4352, 1069547520),
   (16, 35651584, 16384, 8704, 1069547520), (17, 35651584, 16384, 8704, 2139095040),
   (18, 35651584, 16384, 8704, 4278190080), (19, 35651584, 16384, 8704, 4278190080)]

/-- The tables of the code are those of Annex A, except for the picture size of level 4.1. -/
theorem level_tables :
    (List.range 31).filter (fun l => levelDefined.getD l false) = annexA.map (·.1) ∧
    ∀ r ∈ annexA, (levelMaxPic.getD r.1 0 = r.2.1 ∨ r.1 = 9) ∧ levelMaxH.getD r.1 0 = r.2.2.1 ∧
      levelMaxV.getD r.1 0 = r.2.2.2.1 ∧ levelMaxRate.getD r.1 0 = r.2.2.2.2 := by
  decide +kernel

/-- An accepted picture has at most the size, width and height of its level in Annex A, if it is not level 4.1. -/
theorem accepted_level_partial {c : Config} (h : validate c = some none) {l p w v r : Nat}
    (hl : c.enc.levelIdx = some l) (ha : (l, p, w, v, r) ∈ annexA) (h9 : l ≠ 9) :
    c.enc.width * c.enc.height ≤ p ∧ c.enc.width ≤ w ∧ c.enc.height ≤ v := by
  have a := (accepted_iff c).1 h
  have t := level_tables.2 _ ha
  have hlt : l < 31 := by
    have : ∀ r ∈ annexA, r.1 < 31 := by decide +kernel
    exact this _ ha
  rcases a.level l hl with h31 | ⟨-, f⟩
  · omega
  · obtain ⟨t1, t2, t3, -⟩ := t
    have f1 := f.pic; have f2 := f.h; have f3 := f.v
    dsimp only at t1 t2 t3
    rw [t2] at f2; rw [t3] at f3
    rcases t1 with t1 | t1
    · rw [t1] at f1; exact ⟨f1, f2, f3⟩
    · omega

/-- It applies to the example. -/
example : (5, 1065024, 5504, 3096, 31950720) ∈ annexA ∧ exC.enc.levelIdx = some 5 := ⟨by decide +kernel, rfl⟩

/-- Annex A, level 4.1: at most 2359296 pixels per picture. -/
def specMaxPic41 : Nat := 2359296

/-- The table has one digit too many for level 4.1: a picture of 6144x3456 pixels is accepted although the level
allows only 2359296 pixels. -/
theorem level41_too_large :
    let c := { exC with enc := { exE with levelIdx := some 9, width := 6144, height := 3456 } }
    validate c = some none ∧ specMaxPic41 < c.enc.width * c.enc.height := by
  decide +kernel

/-- The display rate is compared with the time base upside down: 120 pictures of 512x288 per second (time base
1/120) are accepted at level 2.0, which allows 4423680 pixels per second; and one such picture every 120 seconds
(time base 120/1) is rejected. -/
theorem level_rate_inverted :
    let fast := { exC with enc := { exE with levelIdx := some 0, width := 512, height := 288, timeNum := 1, timeDen := 120 } }
    let slow := { exC with enc := { exE with levelIdx := some 0, width := 512, height := 288, timeNum := 120, timeDen := 1 } }
    validate fast = some none ∧ 4423680 * fast.enc.timeNum < fast.enc.width * fast.enc.height * fast.enc.timeDen ∧
    validate slow = some (some .levelExceeded) ∧
    slow.enc.width * slow.enc.height * slow.enc.timeDen ≤ 4423680 * slow.enc.timeNum := by
  decide +kernel

/-- `validate` does not look at the bit depth: with 9 bits per sample the configuration is accepted, and the
encoder starts and writes a sequence header, which a decoder reads as 10 bits. -/
theorem depth_not_validated :
    let c := { exC with enc := { exE with bitDepth := 9 } }
    validate c = some none ∧
    ((newInner 16 c []).bind fun r => match r with
      | .ok (_, s, _) => (writeSequenceHeaderObu s s.maxWidth s.maxHeight).bind fun bits =>
        (Av1Spec.sequenceHeader bits).map (·.1.bitDepth)
      | .error _ => none) = some 10 := by
  decide +kernel

/-- A frame whose rate needs more tiles than it has superblocks: accepted, and the start of the encoder panics. -/
theorem accepted_then_panics :
    let e : EncCfg := { exE with width := 64, height := 64, levelIdx := none, timeNum := 1, timeDen := 2 ^ 30 }
    let c := { exC with enc := { e with rateLog2 := Tile.Spec.rateLog2 64 64 1 (2 ^ 30) } }
    validate c = some none ∧ newInner 8 c [] = none := by
  decide +kernel

end Rav1e.Conf

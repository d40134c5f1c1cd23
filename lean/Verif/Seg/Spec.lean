import Mathlib.Init

/-!
# Segments: specification
-/

namespace Rav1e.Seg.Spec

/-- `get_qidx(1, segmentId)` of section 7.12.2 of the AV1 specification: the quantizer index of a segment with the feature `SEG_LVL_ALT_Q`. -/
def qidx (base delta : Int) : Int := if base + delta < 0 then 0 else if 255 < base + delta then 255 else base + delta

/-- A segment is coded lossless if its quantizer index is zero (and no plane has a delta; section 7.12.2). -/
def Lossy (base delta : Int) : Prop := qidx base delta ≠ 0

/-- `feature_value` of `SEG_LVL_ALT_Q` has 8 bits and a sign (section 5.9.14). -/
def Codable (delta : Int) : Prop := -255 ≤ delta ∧ delta ≤ 255

end Rav1e.Seg.Spec

import Verif.Hdr.Examples

/-!
# Headers a decoder misreads

The condition `GrainGood.chroma` is needed.
-/

namespace Rav1e.Hdr

open Av1Spec

/-- A film grain table with chroma points and no luma points, as the `--film-grain-table` option or
`film_grain_params` may hold. -/
def chromaGrain : Grain := { exGrain with pointsY := [] }

/-- The header of the first frame of a 4:2:0 video with the table `g`, and what is meant by it. -/
def grainHeader (g : Grain) : Option (List Bool × Header) :=
  match newSequence exE with
  | none => none
  | some s =>
    match buildFi exE s (Sched.newKeyFrame 0 ([] : List Unit)) { exLate 0 with grain := some g }
        (List.replicate 8 none) with
    | none => none
    | some fi => (writeFrameHeader fi).map fun bits => (bits, .coded fi.hdr)

/-- How many bits of the header a decoder leaves unread, when 64 more bits follow. -/
def grainUnread (g : Grain) : Option Nat :=
  match newSequence exE, grainHeader g with
  | some s, some (bits, _) =>
    (frameHeader ⟨s.hdr 352 288, fun _ => none⟩ (bits ++ List.replicate 64 false)).map
      fun x => x.2.length - 64
  | _, _ => none

/-- `write_frame_header_obu` writes chroma coefficients and multipliers whenever the table has chroma
points (`header.rs:899-931`), also when it did not write the points themselves
(`header.rs:864-880`: 4:2:0 without luma points).  A decoder has no chroma points then and
does not expect them: it stops reading the header far too early and takes the rest for tile data. -/
theorem film_grain_chroma_desync : grainUnread chromaGrain = some 434 := by decide +kernel

/-- With luma points the same table is read to the end. -/
example : grainUnread exGrain = some 0 := by decide +kernel

end Rav1e.Hdr

import Verif.Obu.Packets
import Verif.Hdr.Examples

/-!
# Concrete packets: the hypotheses are met
-/

namespace Rav1e.Obu

open Rav1e.Hdr Av1Spec

/-- Content light level and mastering display. -/
def exHdr10 : Hdr10 where
  cll := some ⟨1000, 400⟩
  mdcv := some ⟨[(8500, 39850), (6550, 2300), (35400, 14600)], (15635, 16450), 256000, 1⟩

theorem exHdr10_ok : exHdr10.Ok where
  cll := by intro c h; cases h; decide
  mdcv := by intro c h; cases h; decide

/-- Frame `o`: two tiles, and a message on every third frame. -/
def exItem (o : Nat) (p : Sched.FI _root_.Unit) : Item where
  x := { p with t35 := if o % 3 = 0 then [⟨255, 38, [1, 2, 3]⟩, ⟨181, 0, [o]⟩] else [], recBuf := [],
                look := [], signBias := [] }
  l := exLate o
  tiles := [[255], List.replicate (o % 7 + 1) 128]

def exItems (n : Nat) : List Item :=
  (List.range n).filterMap fun o => (Sched.plan exE.sched (fun i => i == 4) none o).map (exItem o)

def exS : Seq := (newSequence exE).get (by decide)

theorem exPackets : ∃ s, newSequence exE = some s ∧ EncOk exE ∧ exE.chroma ≠ .cs422 ∧
    exE.sched.stillPicture = false ∧ (∀ n, ∀ i ∈ exItems n, LateOk s i.late ∧ i.Ok s) ∧
    ∀ n, (exItems n).map (·.x.strip) =
      (List.range n).filterMap (Sched.plan exE.sched (fun i => i == 4) none) := by
  have hmem : ∀ n, ∀ i ∈ exItems n, ∃ o p, i = exItem o p := by
    intro n i hi
    simp only [exItems, List.mem_filterMap, Option.map_eq_some_iff] at hi
    obtain ⟨o, _, p, _, rfl⟩ := hi
    exact ⟨o, p, rfl⟩
  refine ⟨exS, rfl, exE_ok, by decide, by decide, ?_, ?_⟩
  · intro n i hi
    obtain ⟨o, p, rfl⟩ := hmem n i hi
    have l := exLate_ok exS (by decide) (by decide) o
    refine ⟨⟨l.ac, l.dc, l.base, l.near, l.cdef, l.levels, l.segs, l.lr,
      (by decide : 0 < exS.tiling.cols * exS.tiling.rows), (by decide : 1 ≤ 1 ∧ 1 ≤ 4),
      l.grain⟩, ⟨?_, ?_, ?_⟩⟩
    · show 2 = _; decide
    · intro t ht
      simp only [exItem, List.mem_cons, List.not_mem_nil, or_false] at ht
      rcases ht with rfl | rfl
      · decide
      · constructor
        · simp
        · rw [List.length_replicate]; omega
    · intro t ht
      simp only [exItem] at ht
      split at ht
      · simp only [List.mem_cons, List.not_mem_nil, or_false] at ht
        rcases ht with rfl | rfl
        · decide
        · exact (by decide : 181 < 256 ∧ 0 < 256)
      · cases ht
  · intro n
    rw [exItems, List.map_filterMap]
    congr 1
    funext o
    cases h : Sched.plan exE.sched (fun i => i == 4) none o with
    | none => rfl
    | some p =>
      have : p = p.strip := by
        unfold Sched.plan at h
        dsimp only at h
        split at h
        · cases h; rfl
        · simp only [Option.map_eq_some_iff] at h
          obtain ⟨y, _, rfl⟩ := h
          rfl
      simp only [Option.map_some, Option.some.injEq]
      rw [this]
      rfl

/-- The number of units and of bytes of the packets of the first `n` positions. -/
def exOut (n : Nat) : Option (List (Nat × Nat)) :=
  match newSequence exE with
  | none => none
  | some s =>
    match encodePackets exE s exHdr10 (List.replicate 8 none) [] temporalDelimiter (exItems n) with
    | .ok out => some (out.map fun p => (p.1.length, p.2.length))
    | .error _ => none

example : exOut 14 = some [(6, 204), (4, 171), (1, 5), (1, 34), (4, 94), (5, 294), (1, 5), (3, 144),
    (1, 5)] := by decide +kernel

end Rav1e.Obu

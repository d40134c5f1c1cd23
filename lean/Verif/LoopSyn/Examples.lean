import Verif.LoopSyn.Setup

/-!
# CDEF indices and loop restoration units: examples

The hypotheses of the theorems are met in a frame with luma units of 2x2 superblocks, chroma units of 4x4, and units that are stretched over the right and the
lower edge; filters of each kind are chosen.
-/

namespace Rav1e.LoopSyn

open Lrf (Filter)
open Spec (Syn)
open Hdr (Seq)

/-- 4:2:0, 352x288, one tile of 6x5 superblocks. -/
def exSeq : Option Seq := Hdr.newSequence { Hdr.exE with tileCols := 0 }

def exChoice : Choice := ⟨2, false, 0, 1, 2⟩

/-- A tile of the first frame of a sequence, with this quantizer. -/
def exCfg (s : Option Seq) (q i : Nat) : Option Cfg := s.map fun s => tileCfg s s.maxWidth s.maxHeight q exChoice i

/-- Luma units are 128x128, chroma units are 128x128 in a chroma plane; the last unit of each row and column is stretched. -/
example : (exCfg exSeq 180 0).map (fun C => (C.sbW, C.sbH, [0, 1, 2].map C.plane)) =
    some (6, 5, [⟨1, 1, 1, 6, 5, 0, 0, 3, 2⟩, ⟨1, 2, 2, 6, 5, 0, 0, 1, 1⟩, ⟨1, 2, 2, 6, 5, 0, 0, 1, 1⟩]) := by decide +kernel

/-- In the second of two tiles the units do not start at zero. -/
example : (exCfg Hdr.exSeq 100 1).map (fun C => (C.gx, C.sbW, C.sbH, C.plane 1)) = some (3, 3, 5, ⟨1, 0, 0, 6, 5, 3, 0, 3, 5⟩) := by decide +kernel

/-- The tilings are those of `tile_units_ok`. -/
example : ∃ s, exSeq = some s ∧ s.restoration = true ∧ s.cdef = true ∧
    Tile.sequenceTiling s.maxWidth s.maxHeight 0 0 0 0 (decide (s.chroma = .cs422)) = some s.tiling ∧ 0 < s.tiling.rows * s.tiling.cols := by
  refine ⟨_, rfl, ?_⟩
  decide +kernel

/-- Two blocks in each superblock: the first is skipped, the second in every third superblock. -/
def exBlocks (x y : Nat) : List Bk :=
  [⟨[(.cdf 7, 1)], true, [(.cdf 8, x)]⟩, ⟨[(.cdf 7, if (x + y) % 3 = 0 then 1 else 0)], decide ((x + y) % 3 = 0), [(.cdf 8, y), (.flat, 1)]⟩]

/-- A block syntax that reads such superblocks and adds up what it reads. -/
def exSyn (_ _ : Nat) (b : Nat) : Syn Nat :=
  .read (.cdf 7) fun v => .cdef (decide (v = 1)) <| .read (.cdf 8) fun u =>
    .read (.cdf 7) fun w => .cdef (decide (w = 1)) <| .read (.cdf 8) fun t => .read .flat fun z => .done (b + v + u + w + t + z)

/-- Filters of each kind. -/
def exRdo : Rdo where
  filter := fun bx by' p lx _ =>
    if p = 2 then none
    else if (bx + lx) % 2 = 0 ∧ by' = 0 then some (.sgrproj 3 (-40) 70)
    else if p = 0 then some (.wiener (1, -7, 20) (0, 3, 40))
    else some (.sgrproj 11 0 (-5))
  cdef := fun bx by' lx ly => if (bx + ly) % 5 = 4 then none else some ((bx + by' + lx) % 4)

theorem exRdo_ok (s : Seq) (w h q i : Nat) : RdoOk (tileCfg s w h q exChoice i) exRdo where
  filter := by
    intro bx by' p lx ly flt _ hf
    have hty : ((tileCfg s w h q exChoice i).plane p).lrfType = 1 := rfl
    rw [hty]
    unfold exRdo at hf
    dsimp only at hf
    split_ifs at hf with h1 h2 h3
    · obtain rfl := (Option.some.inj hf); exact ⟨.inl rfl, by decide⟩
    · obtain rfl := (Option.some.inj hf); subst h3; decide
    · obtain rfl := (Option.some.inj hf); exact ⟨.inl rfl, by decide⟩
  cdef := by
    intro bx by' lx ly v hv
    unfold exRdo at hv
    dsimp only at hv
    split_ifs at hv
    obtain rfl := (Option.some.inj hv)
    exact Nat.mod_lt _ (by decide)

/-- The block syntax reads the tile. -/
example : ((exCfg exSeq 180 0).bind fun C => acceptsTile C exSyn exBlocks 0) = some 205 := by decide +kernel

/-- The filters and the CDEF indices at the end, and the length of what is written. -/
example : ((exCfg exSeq 180 0).bind fun C => (encodeTile C exRdo exBlocks (fun _ _ _ => .none) (fun _ _ => 0)).map fun s =>
    ([s.out.length, s.cdef 0 1, s.cdef 4 5], [s.filters 0 0 0, s.filters 0 0 1, s.filters 1 0 0, s.filters 2 0 0])) =
    some ([329, 1, 1], [.sgrproj 3 (-40) 70, .wiener (1, -7, 20) (0, 3, 40), .sgrproj 3 (-40) 70, .none]) := by decide +kernel

/-- The theorem applies: what has just been computed is read back. -/
example : ∃ s, exSeq = some s ∧ ∃ lf D, encodeTile (tileCfg s s.maxWidth s.maxHeight 180 exChoice 0) exRdo exBlocks (fun _ _ _ => .none) (fun _ _ => 0) = some lf ∧
    (Spec.readTile (frameOf s s.maxWidth s.maxHeight 180 exChoice) exSyn 0 0 5 6 (.init 0)).onToks lf.out = some (D, []) ∧ D.blocks = 205 := by
  refine ⟨_, rfl, ?_⟩
  have K := sequence_units_ok (s := (Hdr.newSequence { Hdr.exE with tileCols := 0 }).get rfl) (w := 352) (h := 288) (rate := 0) (tc := 0) (tr := 0) (tiles := 0)
    ⟨by decide, by decide, by decide, by decide⟩ (by decide +kernel) 180 exChoice (i := 0) (by decide +kernel)
  obtain ⟨lf, D, h1, h2, h3, _⟩ := side_information_roundtrip K (exRdo_ok _ _ _ _ _) exBlocks exSyn (b := 0) (b' := 205) (by decide +kernel)
    (filters := fun _ _ _ => .none) (fun _ _ _ _ _ _ => trivial) (cdef := fun _ _ => 0) (fun _ _ _ _ => Nat.two_pow_pos _)
  have h4 := h2 []
  rw [List.append_nil] at h4
  exact ⟨lf, D, h1, h4, h3⟩

end Rav1e.LoopSyn

import Verif.Tile.Theorems

/-! # Tiles: where the code departs from what it promises -/

namespace Rav1e.Tile

/-- **Finding** (C18, C28): `from_target_tiles` clamps the row exponent between the number of
rows the rate limit asks for and the number the frame can have; when the bounds cross,
`usize::clamp` panics.  `Config::validate` accepts any time base with numerator and denominator
up to `u32::MAX`, so a 64x64 video with time base `1 / 2 ^ 30` makes `new_context` panic. -/
theorem rate_limit_panics :
    Spec.rateLog2 64 64 1 (2 ^ 30) = 13 ∧
    ∀ c r is422, fromTargetTiles 6 64 64 (Spec.rateLog2 64 64 1 (2 ^ 30)) c r is422 = none := by
  have h1 : Spec.rateLog2 64 64 1 (2 ^ 30) = 13 := by decide +kernel
  refine ⟨h1, fun c r is422 => ?_⟩
  rcases fromTargetTiles_eq (w := 64) (h := 64) (by omega) (by omega) (by omega) (by omega)
    (Spec.rateLog2 64 64 1 (2 ^ 30)) c r is422 with ⟨_, h⟩ | ⟨h, _⟩
  · exact h
  · have h2 := (widthFacts (w := 64) (by omega) (by omega) c is422).c2
    have h3 : Spec.maxLog2TileCols 64 = 0 := by decide +kernel
    have h4 : Spec.maxLog2TileRows 64 = 0 := by decide +kernel
    have h5 : Spec.minLog2Tiles 64 64 = 0 := by decide +kernel
    rw [h1, h5, h4] at h
    omega

/-- In general `from_target_tiles` panics exactly when the rate limit needs more rows than the
frame can have. -/
theorem panics_iff {w h rate : Nat} (hs : Size w h) (c r : Nat) (is422 : Bool) :
    fromTargetTiles 6 w h rate c r is422 = none ↔
      Spec.maxLog2TileRows h < rate - (widthPart w c is422).2.2 := by
  have h1 := (widthFacts hs.w1 hs.w2 c is422).c1
  have h2 := minTiles_le hs
  rcases fromTargetTiles_eq hs.w1 hs.w2 hs.h1 hs.h2 rate c r is422 with ⟨hlt, h'⟩ | ⟨hle, t, h', _⟩
  · exact ⟨fun _ => by omega, fun _ => h'⟩
  · rw [h']; exact ⟨fun h => by simp at h, fun h => by omega⟩

/-- **Finding** (C27): the area limit of 4096x2304 pixels per tile is not met: the exponents
satisfy the decoder's bounds, but rounding the tile size up to whole superblocks exceeds the
limit, for instance for 4160x4480. -/
theorem tile_area_can_exceed_limit :
    ∃ ti, sequenceTiling 4160 4480 0 1 1 0 false = some ti ∧
      4096 * 2304 < (tileRect ti 0).w * (tileRect ti 0).h :=
  ⟨_, rfl, by decide +kernel⟩

/-- **Finding** (C14, C27): in 4:2:2 tiles are spaced explicitly (`uniform_tile_spacing_flag = 0`)
and their height must be coded with `ns(maxTileHeightSb)`, where `maxTileHeightSb` comes from
half the minimal tile area.  For 4224x2560 the encoder picks a height of 40 superblocks while the
syntax can express at most 19. -/
theorem tile_height_not_codable_422 :
    ∃ ti, sequenceTiling 4224 2560 0 1 1 0 true = some ti ∧ ti.tileHeightSb = 40 ∧
      Spec.maxTileHeightSb 4224 2560 ti.tileWidthSb = 19 :=
  ⟨_, rfl, by decide +kernel, by decide +kernel⟩

/-- In 4:2:2 the explicit heights are codable when a single tile would do. -/
theorem tile_height_codable_422_partial {w h rate tc tr tiles : Nat} {is422 : Bool}
    {ti : TilingInfo} (hs : Size w h)
    (ht : sequenceTiling w h rate tc tr tiles is422 = some ti)
    (h0 : Spec.minLog2Tiles w h = 0) (hw : ti.tileWidthSb ≤ Spec.sbs w) :
    ti.tileHeightSb ≤ Spec.maxTileHeightSb w h ti.tileWidthSb := by
  obtain ⟨c, r, hb⟩ := sequenceTiling_from ht
  have F := fromTargetTiles_facts hs hb
  have h1 : ti.tileHeightSb ≤ Spec.sbs h := by
    rw [F.th, ceil_le (Nat.two_pow_pos _)]
    exact Nat.le_mul_of_pos_right _ (Nat.two_pow_pos _)
  unfold Spec.maxTileHeightSb
  rw [if_neg (by omega)]
  refine le_trans ?_ (Nat.le_max_left _ _)
  rw [Nat.le_div_iff_mul_le F.tw]
  exact Nat.mul_le_mul h1 hw

example : ∃ ti, sequenceTiling 1920 1080 0 2 2 0 true = some ti ∧
    Spec.minLog2Tiles 1920 1080 = 0 ∧ ti.tileWidthSb = 16 ∧ Spec.sbs 1920 = 30 :=
  ⟨_, rfl, by decide +kernel, by decide +kernel, by decide +kernel⟩

/-- **Finding** (C27): the option `tiles` asks for at least that many tiles, rounded up.  The loop
of `Sequence::new` leaves before building the tiling of its last increment: a 128x64 video with
`tiles = 2` gets one tile although two are possible. -/
theorem tiles_option_not_reached :
    (∃ ti, sequenceTiling 128 64 0 0 0 2 false = some ti ∧ ti.rows * ti.cols = 1) ∧
    (∃ ti, sequenceTiling 128 64 0 2 0 0 false = some ti ∧ ti.rows * ti.cols = 2) :=
  ⟨⟨_, rfl, by decide +kernel⟩, ⟨_, rfl, by decide +kernel⟩⟩

end Rav1e.Tile

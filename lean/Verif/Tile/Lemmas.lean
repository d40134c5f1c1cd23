import Verif.Tile.Model
import Verif.Tile.Spec
import Mathlib.Tactic.Linarith
import Mathlib.Tactic.Ring
import Mathlib.Tactic.IntervalCases

/-! # Tiles: arithmetic -/

namespace Rav1e.Tile

theorem tileLog2From_spec {blk target n : Nat} (hn : blk * 2 ^ n < 2 ^ 64)
    (ht : target ≤ blk * 2 ^ n) : ∀ (fuel k : Nat), k ≤ n → n < k + fuel →
    (∀ j, j < k → blk * 2 ^ j < target) →
    ∃ m, tileLog2From blk target fuel k = some m ∧ k ≤ m ∧ m ≤ n ∧ target ≤ blk * 2 ^ m ∧
      ∀ j, j < m → blk * 2 ^ j < target
  | 0, k, h1, h2, _ => by omega
  | fuel + 1, k, h1, h2, hj => by
    have hle : blk * 2 ^ k ≤ blk * 2 ^ n :=
      Nat.mul_le_mul_left _ (Nat.pow_le_pow_right (by omega) h1)
    unfold tileLog2From
    rw [Nat.mod_eq_of_lt (by omega)]
    by_cases h : blk * 2 ^ k < target
    · rw [if_pos h]
      have hk : k < n := by
        rcases Nat.lt_or_ge k n with h' | h'
        · exact h'
        · have : k = n := by omega
          subst this; omega
      obtain ⟨m, a, b, c, d, e⟩ := tileLog2From_spec hn ht fuel (k + 1) (by omega) (by omega)
        (fun j h' => by
          rcases Nat.lt_or_ge j k with h'' | h''
          · exact hj j h''
          · have : j = k := by omega
            subst this; exact h)
      exact ⟨m, a, by omega, c, d, e⟩
    · rw [if_neg h]
      exact ⟨k, rfl, le_refl k, h1, by omega, hj⟩

theorem spec_tileLog2 {blk target m : Nat} (hm : m < 64) (h : target ≤ blk * 2 ^ m)
    (hj : ∀ j, j < m → blk * 2 ^ j < target) : Spec.tileLog2 blk target = m := by
  have : (List.range 64).find? (fun k => decide (target ≤ blk * 2 ^ k)) = some m := by
    rw [List.find?_range_eq_some]
    refine ⟨by simpa using h, by simpa using hm, fun j h' => ?_⟩
    have := hj j h'
    simp; omega
  rw [Spec.tileLog2, this]; rfl

/-- `tile_log2` is the decoder's function. -/
theorem tileLog2_spec {blk target : Nat} (n : Nat) (hn : blk * 2 ^ n < 2 ^ 64) (h64 : n < 64)
    (ht : target ≤ blk * 2 ^ n) :
    ∃ m, tileLog2 blk target = some m ∧ Spec.tileLog2 blk target = m ∧ m ≤ n ∧
      target ≤ blk * 2 ^ m ∧ ∀ j, j < m → blk * 2 ^ j < target := by
  obtain ⟨m, a, _, c, d, e⟩ := tileLog2From_spec hn ht 64 0 (by omega) (by omega)
    (fun j h => absurd h (by omega))
  exact ⟨m, a, spec_tileLog2 (by omega) d e, c, d, e⟩

theorem ceil_le {x n k : Nat} (hn : 0 < n) : (x + n - 1) / n ≤ k ↔ x ≤ k * n := by
  rw [Nat.div_le_iff_le_mul hn]
  omega

theorem le_ceil_mul {x n : Nat} (hn : 0 < n) : x ≤ (x + n - 1) / n * n :=
  (ceil_le hn).1 (le_refl _)

theorem ceil_pred_mul {x n : Nat} (hn : 0 < n) (hx : 0 < x) : ((x + n - 1) / n - 1) * n < x := by
  have h1 : 0 < (x + n - 1) / n := Nat.div_pos (by omega) hn
  rcases Nat.lt_or_ge (((x + n - 1) / n - 1) * n) x with h | h
  · exact h
  · have := (ceil_le (x := x) hn).2 h
    omega

theorem ceil_pos {x n : Nat} (hn : 0 < n) (hx : 0 < x) : 0 < (x + n - 1) / n :=
  Nat.div_pos (by omega) hn

/-- Uniform spacing: the number of tiles is above half of `2 ^ cl` and at most `2 ^ cl`. -/
theorem uniform_count {c cl : Nat} (hc : 0 < c) (hcl : ∀ j, j < cl → 2 ^ j < c) :
    let tw := (c + 2 ^ cl - 1) / 2 ^ cl
    let n := (c + tw - 1) / tw
    0 < tw ∧ n ≤ 2 ^ cl ∧ ∀ j, j < cl → 2 ^ j < n := by
  intro tw n
  have hp : 0 < 2 ^ cl := Nat.two_pow_pos cl
  have htw : 0 < tw := ceil_pos hp hc
  have h1 : c ≤ tw * 2 ^ cl := le_ceil_mul hp
  have h2 : (tw - 1) * 2 ^ cl < c := ceil_pred_mul hp hc
  refine ⟨htw, (ceil_le htw).2 (by rw [Nat.mul_comm]; exact h1), fun j hj => ?_⟩
  by_contra hcon
  have hcon : n ≤ 2 ^ j := by omega
  have h3 : c ≤ 2 ^ j * tw := (ceil_le htw).1 hcon
  have h4 := hcl j hj
  have hpow : 2 * 2 ^ j ≤ 2 ^ cl := by
    calc 2 * 2 ^ j = 2 ^ (j + 1) := by ring
      _ ≤ 2 ^ cl := Nat.pow_le_pow_right (by omega) hj
  rcases Nat.lt_or_ge tw 2 with h | h
  · have : tw = 1 := by omega
    rw [this] at h3; omega
  · obtain ⟨t, ht⟩ : ∃ t, tw = t + 2 := ⟨tw - 2, by omega⟩
    rw [ht] at h2 h3
    have e : t + 2 - 1 = t + 1 := by omega
    rw [e] at h2
    have h5 : (t + 1) * (2 * 2 ^ j) ≤ (t + 1) * 2 ^ cl := Nat.mul_le_mul_left _ hpow
    nlinarith [Nat.two_pow_pos j]

/-- Superblock counts. -/
theorem sbs_eq (w : Nat) : alignShift (alignPow2 w 3) 6 = Spec.sbs w := by
  unfold alignShift alignPow2 Spec.sbs Spec.mi
  norm_num
  omega

theorem sbs_pos {w : Nat} (h : 1 ≤ w) : 1 ≤ Spec.sbs w := by
  unfold Spec.sbs Spec.mi; omega

theorem sbs_le {w : Nat} (h : w ≤ 65535) : Spec.sbs w ≤ 1024 := by
  unfold Spec.sbs Spec.mi; omega

theorem log2_lt {n cl : Nat} (hn : n ≤ 2 ^ cl) (h64 : cl < 64) :
    ∃ m, tileLog2 1 n = some m ∧ Spec.tileLog2 1 n = m ∧ m ≤ cl ∧ n ≤ 2 ^ m ∧
      ∀ j, j < m → 2 ^ j < n := by
  have h1 : 1 * 2 ^ cl < 2 ^ 64 := by
    rw [Nat.one_mul]; exact Nat.pow_lt_pow_right (by omega) h64
  simpa using tileLog2_spec cl h1 h64 (by simpa using hn)

/-- Everything `from_target_tiles` computes, in terms of the decoder's quantities. -/
structure Facts (w h rate rReq : Nat) (is422 : Bool) (ti : TilingInfo) : Prop where
  fw : ti.frameWidth = alignPow2 w 3
  fh : ti.frameHeight = alignPow2 h 3
  sb : ti.sbSizeLog2 = 6
  minC : ti.minTileColsLog2 = Spec.minLog2TileCols w
  maxC : ti.maxTileColsLog2 = Spec.maxLog2TileCols w
  maxR : ti.maxTileRowsLog2 = Spec.maxLog2TileRows h
  minT : ti.minTilesLog2 = Spec.minLog2Tiles w h
  minR : ti.minTileRowsLog2 = Spec.minLog2Tiles w h - ti.tileColsLog2
  tw : 0 < ti.tileWidthSb
  tw64 : ti.tileWidthSb ≤ 64
  th : ti.tileHeightSb = (Spec.sbs h + 2 ^ ti.tileRowsLog2 - 1) / 2 ^ ti.tileRowsLog2
  thp : 0 < ti.tileHeightSb
  cols : ti.cols = (Spec.sbs w + ti.tileWidthSb - 1) / ti.tileWidthSb
  rows : ti.rows = (Spec.sbs h + ti.tileHeightSb - 1) / ti.tileHeightSb
  c1 : Spec.minLog2TileCols w ≤ ti.tileColsLog2
  c2 : ti.tileColsLog2 ≤ Spec.maxLog2TileCols w
  c3 : ti.cols ≤ 2 ^ ti.tileColsLog2
  c4 : ∀ j, j < ti.tileColsLog2 → 2 ^ j < ti.cols
  c64 : ti.tileColsLog2 ≤ 6
  r1 : Spec.minLog2Tiles w h - ti.tileColsLog2 ≤ ti.tileRowsLog2
  r1' : rate - ti.tileColsLog2 ≤ ti.tileRowsLog2
  r2 : ti.tileRowsLog2 ≤ Spec.maxLog2TileRows h
  r3 : ti.rows ≤ 2 ^ ti.tileRowsLog2
  r4 : ∀ j, j < ti.tileRowsLog2 → 2 ^ j < ti.rows
  r64 : ti.tileRowsLog2 ≤ 6
  rreq : ti.tileRowsLog2 = min (max (max rReq (Spec.minLog2Tiles w h - ti.tileColsLog2))
    (rate - ti.tileColsLog2)) (Spec.maxLog2TileRows h)
  uni : is422 = false →
    ti.tileWidthSb = (Spec.sbs w + 2 ^ ti.tileColsLog2 - 1) / 2 ^ ti.tileColsLog2
  even : is422 = true → ti.tileWidthSb % 2 = 0

/-- The tile width and column exponent before the row computation. -/
def widthPart (w c : Nat) (is422 : Bool) : Nat × Nat × Nat :=
  let cl := min (max c (Spec.minLog2TileCols w)) (Spec.maxLog2TileCols w)
  let pre := alignShift (Spec.sbs w) cl
  let tw := if is422 then (pre + 1) / 2 * 2 else pre
  (tw, divCeil (Spec.sbs w) tw, Spec.tileLog2 1 (divCeil (Spec.sbs w) tw))

structure LimFacts (w : Nat) : Prop where
  min : tileLog2 64 (Spec.sbs w) = some (Spec.minLog2TileCols w)
  max : tileLog2 1 (Nat.min (Spec.sbs w) 64) = some (Spec.maxLog2TileCols w)
  le : Spec.minLog2TileCols w ≤ Spec.maxLog2TileCols w
  le4 : Spec.minLog2TileCols w ≤ 4
  le6 : Spec.maxLog2TileCols w ≤ 6
  m1 : Spec.sbs w ≤ 64 * 2 ^ Spec.minLog2TileCols w
  m2 : ∀ j, j < Spec.minLog2TileCols w → 64 * 2 ^ j < Spec.sbs w
  x2 : ∀ j, j < Spec.maxLog2TileCols w → 2 ^ j < Nat.min (Spec.sbs w) 64
  x1 : Nat.min (Spec.sbs w) 64 ≤ 2 ^ Spec.maxLog2TileCols w

theorem limFacts {w : Nat} (h1 : 1 ≤ w) (h2 : w ≤ 65535) : LimFacts w := by
  have hs := sbs_le h2
  have hp := sbs_pos h1
  obtain ⟨m, a, b, c, d, e⟩ := tileLog2_spec (blk := 64) (target := Spec.sbs w) 4 (by norm_num)
    (by norm_num) (by norm_num; omega)
  obtain ⟨m', a', b', c', d', e'⟩ := log2_lt (n := Nat.min (Spec.sbs w) 64) (cl := 6)
    (by norm_num) (by norm_num)
  have em : Spec.minLog2TileCols w = m := b
  have ex : Spec.maxLog2TileCols w = m' := b'
  refine ⟨by rw [em]; exact a, by rw [ex]; exact a', ?_, by omega, by omega, by rw [em]; exact d,
    by rw [em]; exact e, by rw [ex]; exact e', by rw [ex]; exact d'⟩
  rw [em, ex]
  by_contra hcon
  have h3 := e m' (by omega)
  have h4 : Nat.min (Spec.sbs w) 64 ≤ 2 ^ m' := d'
  have h5 : (64 : Nat) ≤ 2 ^ m' := by
    have : Nat.min (Spec.sbs w) 64 = 64 := by
      apply Nat.min_eq_right
      have := Nat.two_pow_pos m'
      omega
    omega
  have h6 : 6 ≤ m' := by
    by_contra hh
    have : 2 ^ m' ≤ 2 ^ 5 := Nat.pow_le_pow_right (by omega) (by omega)
    omega
  omega

structure WidthFacts (w : Nat) (is422 : Bool) (tw cols cl : Nat) : Prop where
  twp : 0 < tw
  tw64 : tw ≤ 64
  hcols : cols = (Spec.sbs w + tw - 1) / tw
  log : tileLog2 1 cols = some cl
  c1 : Spec.minLog2TileCols w ≤ cl
  c2 : cl ≤ Spec.maxLog2TileCols w
  c3 : cols ≤ 2 ^ cl
  c4 : ∀ j, j < cl → 2 ^ j < cols
  uni : is422 = false → tw = (Spec.sbs w + 2 ^ cl - 1) / 2 ^ cl
  even : is422 = true → tw % 2 = 0

theorem widthFacts {w : Nat} (h1 : 1 ≤ w) (h2 : w ≤ 65535) (c : Nat) (is422 : Bool) :
    WidthFacts w is422 (widthPart w c is422).1 (widthPart w c is422).2.1
      (widthPart w c is422).2.2 := by
  have L := limFacts h1 h2
  have hp := sbs_pos h1
  generalize hcl : min (max c (Spec.minLog2TileCols w)) (Spec.maxLog2TileCols w) = cl
  have hcl1 : Spec.minLog2TileCols w ≤ cl := by have := L.le; omega
  have hcl2 : cl ≤ Spec.maxLog2TileCols w := by omega
  have hlt : ∀ j, j < cl → 2 ^ j < Spec.sbs w := fun j hj =>
    lt_of_lt_of_le (L.x2 j (by omega)) (Nat.min_le_left _ _)
  obtain ⟨u1, u2, u3⟩ := uniform_count hp hlt
  have hpre : (Spec.sbs w + 2 ^ cl - 1) / 2 ^ cl ≤ 64 := by
    rw [ceil_le (Nat.two_pow_pos cl)]
    refine le_trans L.m1 (Nat.mul_le_mul_left _ (Nat.pow_le_pow_right (by omega) hcl1))
  generalize hpr : (Spec.sbs w + 2 ^ cl - 1) / 2 ^ cl = pre at *
  have hL6 := L.le6
  -- the width after rounding
  generalize htw : (if is422 then (pre + 1) / 2 * 2 else pre) = tw
  have htw1 : pre ≤ tw := by subst htw; split <;> omega
  have htw2 : tw ≤ 64 := by subst htw; split <;> omega
  have htwp : 0 < tw := by omega
  have hcols : (Spec.sbs w + tw - 1) / tw ≤ 2 ^ cl := by
    rw [ceil_le htwp]
    have := (ceil_le u1).1 u2
    exact le_trans this (Nat.mul_le_mul_left _ htw1)
  obtain ⟨m, a, b, d, e, f⟩ := log2_lt hcols (by omega)
  have hw : widthPart w c is422 = (tw, (Spec.sbs w + tw - 1) / tw, m) := by
    unfold widthPart
    simp only [hcl, alignShift, hpr, htw, divCeil, b]
  rw [hw]
  refine ⟨htwp, htw2, rfl, a, ?_, by dsimp only; omega, e, f, ?_, ?_⟩
  · by_contra hcon
    have hcon : m < Spec.minLog2TileCols w := by simpa using hcon
    have h3 := L.m2 m hcon
    have h4 := (ceil_le (x := Spec.sbs w) htwp).1 e
    have : 2 ^ m * tw ≤ 2 ^ m * 64 := Nat.mul_le_mul_left _ htw2
    omega
  · intro hf
    subst hf
    have : tw = pre := by simpa using htw.symm
    subst this
    -- the exponent is unchanged
    have : m = cl := by
      by_contra hne
      have hlt : m < cl := by omega
      have := u3 m hlt
      omega
    dsimp only
    rw [this, hpr]
  · intro hf
    subst hf
    have : tw = (pre + 1) / 2 * 2 := by simpa using htw.symm
    dsimp only
    omega

theorem area_log {w h : Nat} (hw2 : w ≤ 65535) (hh2 : h ≤ 65535) :
    ∃ a, tileLog2 2304 (Spec.sbs w * Spec.sbs h) = some a ∧
      Spec.tileLog2 2304 (Spec.sbs h * Spec.sbs w) = a ∧ a ≤ 9 ∧
      Spec.sbs w * Spec.sbs h ≤ 2304 * 2 ^ a ∧
      ∀ j, j < a → 2304 * 2 ^ j < Spec.sbs w * Spec.sbs h := by
  have h1 := sbs_le hw2
  have h2 := sbs_le hh2
  have h3 : Spec.sbs w * Spec.sbs h ≤ 1024 * 1024 := Nat.mul_le_mul h1 h2
  obtain ⟨m, a, b, c, d, e⟩ := tileLog2_spec (blk := 2304) (target := Spec.sbs w * Spec.sbs h) 9
    (by norm_num) (by norm_num) (by norm_num; omega)
  exact ⟨m, a, by rw [Nat.mul_comm]; exact b, c, d, e⟩

/-- `from_target_tiles` in two cases. -/
theorem fromTargetTiles_eq {w h : Nat} (hw1 : 1 ≤ w) (hw2 : w ≤ 65535) (hh1 : 1 ≤ h)
    (hh2 : h ≤ 65535) (rate c r : Nat) (is422 : Bool) :
    (Spec.maxLog2TileRows h < max (Spec.minLog2Tiles w h) rate - (widthPart w c is422).2.2 ∧
      fromTargetTiles 6 w h rate c r is422 = none) ∨
    (max (Spec.minLog2Tiles w h) rate - (widthPart w c is422).2.2 ≤ Spec.maxLog2TileRows h ∧
      ∃ ti, fromTargetTiles 6 w h rate c r is422 = some ti ∧ Facts w h rate r is422 ti ∧
        ti.tileWidthSb = (widthPart w c is422).1 ∧ ti.cols = (widthPart w c is422).2.1 ∧
        ti.tileColsLog2 = (widthPart w c is422).2.2) := by
  have L := limFacts hw1 hw2
  have LH := limFacts hh1 hh2
  have W := widthFacts hw1 hw2 c is422
  obtain ⟨a, a1, a2, a3, a4, a5⟩ := area_log hw2 hh2
  have hT : Spec.minLog2Tiles w h = max (Spec.minLog2TileCols w) a := by
    unfold Spec.minLog2Tiles
    have : Spec.maxTileAreaSb = 2304 := by decide
    rw [this, a2]
  have hmr : Spec.maxLog2TileRows h = Spec.maxLog2TileCols h := rfl
  generalize hcl : min (max c (Spec.minLog2TileCols w)) (Spec.maxLog2TileCols w) = cl
  have hclamp : clamp c (Spec.minLog2TileCols w) (Spec.maxLog2TileCols w) = some cl := by
    unfold clamp
    rw [if_neg (by have := L.le; omega), hcl]
  have hwp : ∃ tw cols m, widthPart w c is422 = (tw, cols, m) := ⟨_, _, _, rfl⟩
  obtain ⟨tw, cols, m, hwp⟩ := hwp
  have hwp' := hwp
  unfold widthPart at hwp'
  simp only [hcl, Prod.mk.injEq] at hwp'
  obtain ⟨e1, e2, e3⟩ := hwp'
  rw [hwp] at W ⊢
  rw [e1] at e2
  dsimp only at W ⊢
  have hlog : tileLog2 1 (divCeil (Spec.sbs w) tw) = some m := by rw [e2]; exact W.log
  have e64 : maxTileWidth / 2 ^ 6 = 64 := by decide
  have e2304 : maxTileArea / 2 ^ (2 * 6) = 2304 := by decide
  have hmax : tileLog2 1 (min (Spec.sbs w) maxTileCols) = some (Spec.maxLog2TileCols w) := L.max
  have hmaxr : tileLog2 1 (min (Spec.sbs h) maxTileRows) = some (Spec.maxLog2TileRows h) := LH.max
  have hnot : ¬ (m < Spec.minLog2TileCols w) := by have := W.c1; omega
  have key : fromTargetTiles 6 w h rate c r is422 =
      (clamp (max r (Spec.minLog2Tiles w h - m)) (max (Spec.minLog2Tiles w h) rate - m)
        (Spec.maxLog2TileRows h)).bind fun rl =>
      some {
        frameWidth := alignPow2 w 3
        frameHeight := alignPow2 h 3
        tileWidthSb := tw
        tileHeightSb := alignShift (Spec.sbs h) rl
        cols := cols
        rows := divCeil (Spec.sbs h) (alignShift (Spec.sbs h) rl)
        tileColsLog2 := m
        tileRowsLog2 := rl
        minTileColsLog2 := Spec.minLog2TileCols w
        maxTileColsLog2 := Spec.maxLog2TileCols w
        minTileRowsLog2 := Spec.minLog2Tiles w h - m
        maxTileRowsLog2 := Spec.maxLog2TileRows h
        sbSizeLog2 := 6
        minTilesLog2 := Spec.minLog2Tiles w h } := by
    unfold fromTargetTiles
    simp only [sbs_eq, e64, e2304, L.min, hmax, hmaxr, a1, ← hT, hclamp, Option.bind_eq_bind,
      Option.bind_some, e1, W.log, hnot, if_false, e2]
  by_cases hcase : Spec.maxLog2TileRows h < max (Spec.minLog2Tiles w h) rate - m
  · left
    refine ⟨hcase, ?_⟩
    rw [key]
    unfold clamp
    rw [if_pos hcase]; rfl
  · right
    refine ⟨by omega, ?_⟩
    rw [key]
    unfold clamp
    rw [if_neg hcase, Option.bind_some]
    generalize hrl : min (max (max r (Spec.minLog2Tiles w h - m))
      (max (Spec.minLog2Tiles w h) rate - m)) (Spec.maxLog2TileRows h) = rl
    refine ⟨_, rfl, ?_, rfl, rfl, rfl⟩
    have hrl2 : rl ≤ Spec.maxLog2TileRows h := by omega
    have hlt : ∀ j, j < rl → 2 ^ j < Spec.sbs h := fun j hj =>
      lt_of_lt_of_le (LH.x2 j (by omega)) (Nat.min_le_left _ _)
    obtain ⟨u1, u2, u3⟩ := uniform_count (sbs_pos hh1) hlt
    have l6 := L.le6
    have lh6 := LH.le6
    have wc2 := W.c2
    exact {
      fw := rfl
      fh := rfl
      sb := rfl
      minC := rfl
      maxC := rfl
      maxR := rfl
      minT := rfl
      minR := rfl
      tw := W.twp
      tw64 := W.tw64
      th := rfl
      thp := u1
      cols := W.hcols
      rows := rfl
      c1 := W.c1
      c2 := W.c2
      c3 := W.c3
      c4 := W.c4
      c64 := by dsimp only; omega
      r1 := by dsimp only; omega
      r1' := by dsimp only; omega
      r2 := hrl2
      r3 := u2
      r4 := u3
      r64 := by dsimp only; omega
      rreq := by dsimp only; omega
      uni := W.uni
      even := W.even }

end Rav1e.Tile

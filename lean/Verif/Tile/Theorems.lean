import Verif.Tile.Lemmas

/-! # Tiles: property theorems (C26, C27) -/

namespace Rav1e.Tile

/-- One dimension: half open intervals `[i T, i T + min T (W - i T))`. -/
theorem cover1 {T W n p : Nat} (hT : 0 < T) (hn : W ≤ n * T) (hp : p < W) :
    p / T < n ∧ p / T * T ≤ p ∧ p < p / T * T + min T (W - p / T * T) := by
  have h1 := Nat.div_add_mod p T
  have h2 := Nat.mod_lt p hT
  rw [Nat.mul_comm] at h1
  refine ⟨?_, by omega, by omega⟩
  rw [Nat.div_lt_iff_lt_mul hT]; omega

theorem unique1 {T x i p : Nat} (h1 : i * T ≤ p) (h2 : p < i * T + x) (hx : x ≤ T) :
    i = p / T := by
  have hT : 0 < T := by omega
  have h3 : i ≤ p / T := (Nat.le_div_iff_mul_le hT).2 h1
  have h4 : p / T < i + 1 := (Nat.div_lt_iff_lt_mul hT).2 (by rw [Nat.add_mul]; omega)
  omega

/-- The frame is covered by the columns (rows) of tiles and the last one is not empty. -/
theorem span {W sb T n : Nat} (hT : 0 < T) (hW : 0 < W) (hsb : sb = (W + 63) / 64)
    (hn : n = (sb + T - 1) / T) : W ≤ n * (T * 64) ∧ 0 < n ∧ (n - 1) * (T * 64) < W := by
  have hs : 0 < sb := by omega
  have h1 : sb ≤ n * T := by rw [hn]; exact le_ceil_mul hT
  have h2 : (n - 1) * T < sb := by rw [hn]; exact ceil_pred_mul hT hs
  refine ⟨?_, by rw [hn]; exact ceil_pos hT hs, ?_⟩
  · have e : n * (T * 64) = n * T * 64 := by ring
    rw [e]; omega
  · have e : (n - 1) * (T * 64) = (n - 1) * T * 64 := by ring
    rw [e]; omega

theorem frame_sb (w : Nat) : Spec.sbs w = (alignPow2 w 3 + 63) / 64 := by
  unfold alignPow2 Spec.sbs Spec.mi; norm_num; omega

theorem frame_mi (w : Nat) : alignPow2 w 3 = 4 * Spec.mi w := by
  unfold alignPow2 Spec.mi; norm_num; omega

section
variable {w h rate r : Nat} {is422 : Bool} {ti : TilingInfo}

theorem Facts.spanX (F : Facts w h rate r is422 ti) (hw : 1 ≤ w) :
    ti.frameWidth ≤ ti.cols * (ti.tileWidthSb * 64) ∧ 0 < ti.cols ∧
      (ti.cols - 1) * (ti.tileWidthSb * 64) < ti.frameWidth := by
  refine span F.tw ?_ (by rw [F.fw]; exact frame_sb w) F.cols
  rw [F.fw, frame_mi]; unfold Spec.mi; omega

theorem Facts.spanY (F : Facts w h rate r is422 ti) (hh : 1 ≤ h) :
    ti.frameHeight ≤ ti.rows * (ti.tileHeightSb * 64) ∧ 0 < ti.rows ∧
      (ti.rows - 1) * (ti.tileHeightSb * 64) < ti.frameHeight := by
  refine span F.thp ?_ (by rw [F.fh]; exact frame_sb h) F.rows
  rw [F.fh, frame_mi]; unfold Spec.mi; omega

theorem Facts.rect (F : Facts w h rate r is422 ti) (i : Nat) : tileRect ti i =
    { x := i % ti.cols * (ti.tileWidthSb * 64)
      y := i / ti.cols * (ti.tileHeightSb * 64)
      w := min (ti.tileWidthSb * 64) (ti.frameWidth - i % ti.cols * (ti.tileWidthSb * 64))
      h := min (ti.tileHeightSb * 64)
        (ti.frameHeight - i / ti.cols * (ti.tileHeightSb * 64)) } := by
  unfold tileRect
  rw [F.sb]
  norm_num [Nat.mul_assoc]

/-- Row and column of a tile number. -/
theorem index_split {cols rows i : Nat} (hi : i < rows * cols) :
    i % cols < cols ∧ i / cols < rows := by
  have hc : 0 < cols := by
    rcases Nat.eq_zero_or_pos cols with h0 | h0
    · subst h0; simp at hi
    · exact h0
  exact ⟨Nat.mod_lt _ hc, (Nat.div_lt_iff_lt_mul hc).2 hi⟩

theorem index_join {cols rows x y : Nat} (hx : x < cols) (hy : y < rows) :
    y * cols + x < rows * cols ∧ (y * cols + x) % cols = x ∧ (y * cols + x) / cols = y := by
  refine ⟨?_, by rw [Nat.mul_comm, Nat.mul_add_mod, Nat.mod_eq_of_lt hx], ?_⟩
  · have : (y + 1) * cols ≤ rows * cols := Nat.mul_le_mul_right _ hy
    rw [Nat.add_mul] at this; omega
  · rw [Nat.mul_comm, Nat.mul_add_div (by omega), Nat.div_eq_of_lt hx]; rfl

theorem index_inj {cols i j : Nat} (h1 : i % cols = j % cols) (h2 : i / cols = j / cols) :
    i = j := by
  rw [← Nat.div_add_mod i cols, ← Nat.div_add_mod j cols, h1, h2]

theorem Facts.cover (F : Facts w h rate r is422 ti) (hw : 1 ≤ w) (hh : 1 ≤ h) {px py : Nat}
    (hx : px < ti.frameWidth) (hy : py < ti.frameHeight) :
    ∃ i, i < ti.rows * ti.cols ∧ (tileRect ti i).Has px py ∧
      ∀ j, j < ti.rows * ti.cols → (tileRect ti j).Has px py → j = i := by
  have hT : 0 < ti.tileWidthSb * 64 := by have := F.tw; omega
  have hU : 0 < ti.tileHeightSb * 64 := by have := F.thp; omega
  obtain ⟨a1, a2, a3⟩ := cover1 hT (F.spanX hw).1 hx
  obtain ⟨b1, b2, b3⟩ := cover1 hU (F.spanY hh).1 hy
  obtain ⟨c1, c2, c3⟩ := index_join a1 b1
  refine ⟨_, c1, ?_, fun j _ hj' => ?_⟩
  · rw [F.rect, c2, c3]; exact ⟨a2, a3, b2, b3⟩
  · rw [F.rect] at hj'
    obtain ⟨d1, d2, d3, d4⟩ := hj'
    apply index_inj
    · rw [c2]; exact unique1 d1 d2 (by dsimp only; omega)
    · rw [c3]; exact unique1 d3 d4 (by dsimp only; omega)

end

/-- The frames the encoder accepts. -/
structure Size (w h : Nat) : Prop where
  w1 : 1 ≤ w
  w2 : w ≤ 65535
  h1 : 1 ≤ h
  h2 : h ≤ 65535

/-- Every tiling in use comes from `from_target_tiles`. -/
theorem tileLoop_from {build : Nat → Nat → Option TilingInfo} {tiles : Nat} :
    ∀ (fuel r c : Nat) (ti ti' : TilingInfo), tileLoop build tiles fuel r c ti = some ti' →
      ti' = ti ∨ ∃ c' r', build c' r' = some ti'
  | 0, _, _, _, _, h => by simp [tileLoop] at h
  | fuel + 1, r, c, ti, ti', h => by
    unfold tileLoop at h
    split at h
    · rcases hb : build c r with _ | t
      · rw [hb] at h; simp at h
      · rw [hb] at h
        simp only [Option.bind_eq_bind, Option.bind_some] at h
        split at h
        · right; exact ⟨c, r, by rw [hb]; exact h⟩
        · split at h
          · rcases tileLoop_from fuel _ _ _ _ h with rfl | h'
            · exact .inr ⟨c, r, hb⟩
            · exact .inr h'
          · rcases tileLoop_from fuel _ _ _ _ h with rfl | h'
            · exact .inr ⟨c, r, hb⟩
            · exact .inr h'
    · left; simpa using h.symm

theorem sequenceTiling_from {w h rate tc tr tiles : Nat} {is422 : Bool} {ti : TilingInfo}
    (ht : sequenceTiling w h rate tc tr tiles is422 = some ti) :
    ∃ c r, fromTargetTiles 6 w h rate c r is422 = some ti := by
  unfold sequenceTiling at ht
  simp only [Option.bind_eq_bind] at ht
  rcases hc : tileLog2 1 tc with _ | c
  · rw [hc] at ht; simp at ht
  rcases hr : tileLog2 1 tr with _ | r
  · rw [hc, hr] at ht; simp at ht
  rw [hc, hr] at ht
  simp only [Option.bind_some] at ht
  rcases hb : fromTargetTiles 6 w h rate c r is422 with _ | t
  · rw [hb] at ht; simp at ht
  rw [hb] at ht
  simp only [Option.bind_some] at ht
  split at ht
  · rcases tileLoop_from _ _ _ _ _ ht with rfl | ⟨c', r', h'⟩
    · exact ⟨c, r, hb⟩
    · exact ⟨c', r', h'⟩
  · rw [← hb.trans ht]; exact ⟨c, r, by rw [hb]⟩

theorem fromTargetTiles_facts {w h rate c r : Nat} {is422 : Bool} {ti : TilingInfo}
    (hs : Size w h) (ht : fromTargetTiles 6 w h rate c r is422 = some ti) :
    Facts w h rate r is422 ti := by
  rcases fromTargetTiles_eq hs.w1 hs.w2 hs.h1 hs.h2 rate c r is422 with ⟨_, h'⟩ | ⟨_, t, h', F, _⟩
  · rw [ht] at h'; exact absurd h' (by simp)
  · rw [ht] at h'
    simp only [Option.some.injEq] at h'
    subst h'; exact F

/-- **C26**: for every frame size, every requested tile counts and every rate limit, each
pixel of the frame padded to a multiple of 8 belongs to exactly one tile. -/
theorem tiles_cover_pixels {w h rate tc tr tiles : Nat} {is422 : Bool} {ti : TilingInfo}
    (hs : Size w h) (ht : sequenceTiling w h rate tc tr tiles is422 = some ti) {px py : Nat}
    (hx : px < (w + 7) / 8 * 8) (hy : py < (h + 7) / 8 * 8) :
    ∃ i, i < ti.rows * ti.cols ∧ (tileRect ti i).Has px py ∧
      ∀ j, j < ti.rows * ti.cols → (tileRect ti j).Has px py → j = i := by
  obtain ⟨c, r, h1⟩ := sequenceTiling_from ht
  have F := fromTargetTiles_facts hs h1
  exact F.cover hs.w1 hs.h1 (by rw [F.fw]; exact hx) (by rw [F.fh]; exact hy)

/-- **C26**: no tile reaches outside the padded frame. -/
theorem tiles_inside {w h rate tc tr tiles : Nat} {is422 : Bool} {ti : TilingInfo}
    (hs : Size w h) (ht : sequenceTiling w h rate tc tr tiles is422 = some ti) {i px py : Nat}
    (hp : (tileRect ti i).Has px py) :
    px < (w + 7) / 8 * 8 ∧ py < (h + 7) / 8 * 8 := by
  obtain ⟨c, r, h1⟩ := sequenceTiling_from ht
  have F := fromTargetTiles_facts hs h1
  rw [F.rect] at hp
  obtain ⟨a, b, d, e⟩ := hp
  have e1 : ti.frameWidth = (w + 7) / 8 * 8 := F.fw
  have e2 : ti.frameHeight = (h + 7) / 8 * 8 := F.fh
  dsimp only at a b d e
  constructor <;> omega

/-- **C26**: no tile is empty. -/
theorem tiles_nonempty {w h rate tc tr tiles : Nat} {is422 : Bool} {ti : TilingInfo}
    (hs : Size w h) (ht : sequenceTiling w h rate tc tr tiles is422 = some ti) {i : Nat}
    (hi : i < ti.rows * ti.cols) : 0 < (tileRect ti i).w ∧ 0 < (tileRect ti i).h := by
  obtain ⟨c, r, h1⟩ := sequenceTiling_from ht
  have F := fromTargetTiles_facts hs h1
  obtain ⟨i1, i2⟩ := index_split hi
  have hX := (F.spanX hs.w1).2.2
  have hY := (F.spanY hs.h1).2.2
  have htw := F.tw
  have hth := F.thp
  rw [F.rect]
  dsimp only
  have m1 : i % ti.cols * (ti.tileWidthSb * 64) ≤ (ti.cols - 1) * (ti.tileWidthSb * 64) :=
    Nat.mul_le_mul_right _ (by omega)
  have m2 : i / ti.cols * (ti.tileHeightSb * 64) ≤ (ti.rows - 1) * (ti.tileHeightSb * 64) :=
    Nat.mul_le_mul_right _ (by omega)
  constructor <;> omega

/-- Interval `i` of length at most `T` starting at `i T`. -/
theorem disjoint1 {T a b i j p : Nat} (ha : a ≤ T) (hb : b ≤ T) (h1 : i * T ≤ p)
    (h2 : p < i * T + a) (h3 : j * T ≤ p) (h4 : p < j * T + b) : i = j :=
  (unique1 h1 h2 ha).trans (unique1 h3 h4 hb).symm

theorem round_le {T x : Nat} (hx : x ≤ T * 64) : alignPow2 x 6 ≤ T * 64 := by
  unfold alignPow2; norm_num; omega

theorem dec_mul {i T d : Nat} (hd : d ≤ 6) :
    i * (T * 64) / 2 ^ d = i * (T * 64 / 2 ^ d) ∧ 2 ^ d ∣ T * 64 := by
  have hdv : 2 ^ d ∣ T * 64 :=
    Dvd.dvd.mul_left (by rw [show (64 : Nat) = 2 ^ 6 by norm_num]; exact Nat.pow_dvd_pow 2 hd) _
  exact ⟨Nat.mul_div_assoc _ hdv, hdv⟩

/-- **C26**: the regions of the reconstruction that two tiles may write to (tiles rounded up to
whole superblocks, luma or subsampled chroma) never overlap. -/
theorem tile_writes_disjoint {w h rate tc tr tiles : Nat} {is422 : Bool} {ti : TilingInfo}
    (hs : Size w h) (ht : sequenceTiling w h rate tc tr tiles is422 = some ti)
    {xdec ydec : Nat} (hxd : xdec ≤ 1) (hyd : ydec ≤ 1) {i j px py : Nat}
    (h1 : (recRect ti xdec ydec i).Has px py)
    (h2 : (recRect ti xdec ydec j).Has px py) : i = j := by
  obtain ⟨c, r, hb⟩ := sequenceTiling_from ht
  have F := fromTargetTiles_facts hs hb
  unfold recRect at h1 h2
  rw [F.sb, F.rect] at h1 h2
  obtain ⟨a1, a2, a3, a4⟩ := h1
  obtain ⟨b1, b2, b3, b4⟩ := h2
  dsimp only at a1 a2 a3 a4 b1 b2 b3 b4
  rw [(dec_mul (by omega)).1] at a1 a2 a3 a4 b1 b2 b3 b4
  have le1 : ∀ x T d, alignPow2 (min (T * 64) x) 6 / 2 ^ d ≤ T * 64 / 2 ^ d := fun x T d =>
    Nat.div_le_div_right (round_le (Nat.min_le_left _ _))
  apply index_inj
  · exact disjoint1 (le1 _ _ _) (le1 _ _ _) a1 a2 b1 b2
  · exact disjoint1 (le1 _ _ _) (le1 _ _ _) a3 a4 b3 b4

/-- **C26**: each 4x4 block of the frame is handed to exactly one tile, and the block view of
a tile stays inside the frame's block array. -/
theorem tiles_cover_blocks {w h rate tc tr tiles : Nat} {is422 : Bool} {ti : TilingInfo}
    (hs : Size w h) (ht : sequenceTiling w h rate tc tr tiles is422 = some ti) {bx by' : Nat}
    (hx : bx < Spec.mi w) (hy : by' < Spec.mi h) :
    ∃ i, i < ti.rows * ti.cols ∧ (blockRect ti (Spec.mi w) (Spec.mi h) i).Has bx by' ∧
      ∀ j, j < ti.rows * ti.cols →
        (blockRect ti (Spec.mi w) (Spec.mi h) j).Has bx by' → j = i := by
  obtain ⟨c, r, hb⟩ := sequenceTiling_from ht
  have F := fromTargetTiles_facts hs hb
  have hT : 0 < ti.tileWidthSb * 16 := by have := F.tw; omega
  have hU : 0 < ti.tileHeightSb * 16 := by have := F.thp; omega
  have e1 : ti.frameWidth = 4 * Spec.mi w := by rw [F.fw, frame_mi]
  have e2 : ti.frameHeight = 4 * Spec.mi h := by rw [F.fh, frame_mi]
  have s1 : Spec.mi w ≤ ti.cols * (ti.tileWidthSb * 16) := by
    have := (F.spanX hs.w1).1
    have e : ti.cols * (ti.tileWidthSb * 64) = ti.cols * (ti.tileWidthSb * 16) * 4 := by ring
    omega
  have s2 : Spec.mi h ≤ ti.rows * (ti.tileHeightSb * 16) := by
    have := (F.spanY hs.h1).1
    have e : ti.rows * (ti.tileHeightSb * 64) = ti.rows * (ti.tileHeightSb * 16) * 4 := by ring
    omega
  obtain ⟨a1, a2, a3⟩ := cover1 hT s1 hx
  obtain ⟨b1, b2, b3⟩ := cover1 hU s2 hy
  obtain ⟨c1, c2, c3⟩ := index_join a1 b1
  refine ⟨_, c1, ?_, fun j _ hj' => ?_⟩
  · unfold blockRect; rw [F.sb, c2, c3]; exact ⟨a2, a3, b2, b3⟩
  · unfold blockRect at hj'
    rw [F.sb] at hj'
    obtain ⟨d1, d2, d3, d4⟩ := hj'
    apply index_inj
    · rw [c2]; exact unique1 d1 d2 (Nat.min_le_left _ _)
    · rw [c3]; exact unique1 d3 d4 (Nat.min_le_left _ _)

/-- **C26**: the block view, the motion statistics view and the pixel rectangle of a tile
describe the same area, and the `assert!`s of `TileMEStats::new`
(`tiling/tile_motion_stats.rs:65-66`) hold. -/
theorem tile_views_agree {w h rate tc tr tiles : Nat} {is422 : Bool} {ti : TilingInfo}
    (hs : Size w h) (ht : sequenceTiling w h rate tc tr tiles is422 = some ti) {i : Nat}
    (hi : i < ti.rows * ti.cols) :
    meRect ti i = blockRect ti (Spec.mi w) (Spec.mi h) i ∧
    (tileRect ti i).x = 4 * (meRect ti i).x ∧ (tileRect ti i).y = 4 * (meRect ti i).y ∧
    (tileRect ti i).w = 4 * (meRect ti i).w ∧ (tileRect ti i).h = 4 * (meRect ti i).h ∧
    (meRect ti i).x + (meRect ti i).w ≤ Spec.mi w ∧
    (meRect ti i).y + (meRect ti i).h ≤ Spec.mi h := by
  obtain ⟨c, r, hb⟩ := sequenceTiling_from ht
  have F := fromTargetTiles_facts hs hb
  have e1 : ti.frameWidth = 4 * Spec.mi w := by rw [F.fw, frame_mi]
  have e2 : ti.frameHeight = 4 * Spec.mi h := by rw [F.fh, frame_mi]
  obtain ⟨n1, n2⟩ := tiles_nonempty hs ht hi
  have x1 : i % ti.cols * ti.tileWidthSb * 2 ^ (6 - 2) =
      i % ti.cols * (ti.tileWidthSb * 16) := by norm_num [Nat.mul_assoc]
  have x2 : i / ti.cols * ti.tileHeightSb * 2 ^ (6 - 2) =
      i / ti.cols * (ti.tileHeightSb * 16) := by norm_num [Nat.mul_assoc]
  have y1 : i % ti.cols * (ti.tileWidthSb * 64) = 4 * (i % ti.cols * (ti.tileWidthSb * 16)) := by
    ring
  have y2 : i / ti.cols * (ti.tileHeightSb * 64) =
      4 * (i / ti.cols * (ti.tileHeightSb * 16)) := by ring
  unfold meRect blockRect
  rw [F.rect] at n1 n2 ⊢
  rw [F.sb]
  dsimp only at n1 n2 ⊢
  rw [x1, x2]
  rw [y1, e1] at n1 ⊢
  rw [y2, e2] at n2 ⊢
  norm_num
  generalize i % ti.cols * (ti.tileWidthSb * 16) = X at *
  generalize i / ti.cols * (ti.tileHeightSb * 16) = Y at *
  refine ⟨⟨?_, ?_⟩, ?_, ?_, ?_, ?_⟩ <;> omega

/-! ## C27: limits and agreement with the decoder -/

theorem startsFrom_eq {sb size : Nat} (hs : 0 < size) : ∀ (fuel n s : Nat),
    n ≤ fuel → sb ≤ s + n * size → (0 < n → s + (n - 1) * size < sb) →
    Spec.startsFrom sb size fuel s = (List.range n).map fun i => s + i * size
  | 0, n, s, h1, _, _ => by
    have : n = 0 := by omega
    subst this; simp [Spec.startsFrom]
  | fuel + 1, 0, s, _, h2, _ => by
    rw [Spec.startsFrom, if_neg (by omega)]; rfl
  | fuel + 1, n + 1, s, h1, h2, h3 => by
    have h4 := h3 (by omega)
    rw [Nat.add_sub_cancel] at h4
    rw [Spec.startsFrom, if_pos (by omega), startsFrom_eq hs fuel n (s + size) (by omega)
      (by rw [Nat.add_mul] at h2; omega) ?_, List.range_succ_eq_map]
    · simp only [List.map_cons, Nat.zero_mul, Nat.add_zero, List.map_map, List.cons.injEq,
        true_and]
      apply List.map_congr_left
      intro i _
      simp only [Function.comp, Nat.succ_eq_add_one, Nat.add_mul]; omega
    · intro hn
      obtain ⟨m, rfl⟩ : ∃ m, n = m + 1 := ⟨n - 1, by omega⟩
      rw [Nat.add_mul] at h4
      simp only [Nat.add_sub_cancel]; omega

theorem uniformStarts_eq {sb l T : Nat} (hs : 0 < sb)
    (hT : T = (sb + 2 ^ l - 1) / 2 ^ l) :
    Spec.uniformStarts sb l = (List.range ((sb + T - 1) / T)).map fun i => i * T := by
  have hp : 0 < T := by rw [hT]; exact ceil_pos (Nat.two_pow_pos l) hs
  unfold Spec.uniformStarts
  rw [← hT, startsFrom_eq hp sb ((sb + T - 1) / T) 0]
  · simp
  · rw [ceil_le hp]; exact Nat.le_mul_of_pos_right _ hp
  · rw [Nat.zero_add]; exact le_ceil_mul hp
  · intro _; rw [Nat.zero_add]; exact ceil_pred_mul hp hs

/-- **C27**: the tile exponents are in the ranges a decoder derives from the frame size, so the
`increment_tile_cols_log2`/`increment_tile_rows_log2` coding of `tile_info()` can express
them. -/
theorem tile_exponents_codable {w h rate tc tr tiles : Nat} {is422 : Bool} {ti : TilingInfo}
    (hs : Size w h) (ht : sequenceTiling w h rate tc tr tiles is422 = some ti) :
    Spec.minLog2TileCols w ≤ ti.tileColsLog2 ∧ ti.tileColsLog2 ≤ Spec.maxLog2TileCols w ∧
    Spec.minLog2Tiles w h - ti.tileColsLog2 ≤ ti.tileRowsLog2 ∧
    ti.tileRowsLog2 ≤ Spec.maxLog2TileRows h ∧
    ti.minTileColsLog2 = Spec.minLog2TileCols w ∧ ti.maxTileColsLog2 = Spec.maxLog2TileCols w ∧
    ti.minTileRowsLog2 = Spec.minLog2Tiles w h - ti.tileColsLog2 ∧
    ti.maxTileRowsLog2 = Spec.maxLog2TileRows h := by
  obtain ⟨c, r, hb⟩ := sequenceTiling_from ht
  have F := fromTargetTiles_facts hs hb
  exact ⟨F.c1, F.c2, F.r1, F.r2, F.minC, F.maxC, F.minR, F.maxR⟩

/-- **C27**: outside 4:2:2, where tiles are spaced uniformly, the tile starts a decoder derives
from the exponents are the ones the encoder used. -/
theorem decoder_tiles_agree {w h rate tc tr tiles : Nat} {ti : TilingInfo}
    (hs : Size w h) (ht : sequenceTiling w h rate tc tr tiles false = some ti) :
    Spec.uniformStarts (Spec.sbs w) ti.tileColsLog2 =
      (List.range ti.cols).map (fun i => i * ti.tileWidthSb) ∧
    Spec.uniformStarts (Spec.sbs h) ti.tileRowsLog2 =
      (List.range ti.rows).map (fun i => i * ti.tileHeightSb) := by
  obtain ⟨c, r, hb⟩ := sequenceTiling_from ht
  have F := fromTargetTiles_facts hs hb
  exact ⟨by rw [F.cols]; exact uniformStarts_eq (sbs_pos hs.w1) (F.uni rfl),
    by rw [F.rows]; exact uniformStarts_eq (sbs_pos hs.h1) F.th⟩

/-- **C27**: the decoder's `TileColsLog2`, recomputed from the number of tiles, is the
encoder's, in 4:2:2 too (it sets the number of bits of tile numbers). -/
theorem decoder_log2_agree {w h rate tc tr tiles : Nat} {is422 : Bool} {ti : TilingInfo}
    (hs : Size w h) (ht : sequenceTiling w h rate tc tr tiles is422 = some ti) :
    Spec.tileLog2 1 ti.cols = ti.tileColsLog2 ∧ Spec.tileLog2 1 ti.rows = ti.tileRowsLog2 := by
  obtain ⟨c, r, hb⟩ := sequenceTiling_from ht
  have F := fromTargetTiles_facts hs hb
  have h1 := F.c64
  have h2 := F.r64
  constructor
  · refine spec_tileLog2 (by omega) (by rw [Nat.one_mul]; exact F.c3) fun j hj => ?_
    have := F.c4 j hj; omega
  · refine spec_tileLog2 (by omega) (by rw [Nat.one_mul]; exact F.r3) fun j hj => ?_
    have := F.r4 j hj; omega

/-- **C27**: at most 64 by 64 tiles, none wider than 4096 pixels. -/
theorem tile_limits {w h rate tc tr tiles : Nat} {is422 : Bool} {ti : TilingInfo}
    (hs : Size w h) (ht : sequenceTiling w h rate tc tr tiles is422 = some ti) :
    1 ≤ ti.cols ∧ ti.cols ≤ 64 ∧ 1 ≤ ti.rows ∧ ti.rows ≤ 64 ∧ ti.tileWidthSb * 64 ≤ 4096 ∧
      (∀ i, (tileRect ti i).w ≤ 4096) := by
  obtain ⟨c, r, hb⟩ := sequenceTiling_from ht
  have F := fromTargetTiles_facts hs hb
  have p6 : (64 : Nat) = 2 ^ 6 := by norm_num
  have h1 := F.tw64
  refine ⟨(F.spanX hs.w1).2.1, ?_, (F.spanY hs.h1).2.1, ?_, by omega, fun i => ?_⟩
  · rw [p6]; exact le_trans F.c3 (Nat.pow_le_pow_right (by omega) F.c64)
  · rw [p6]; exact le_trans F.r3 (Nat.pow_le_pow_right (by omega) F.r64)
  · rw [F.rect]; dsimp only; omega

/-- Product bound behind the tile area limit. -/
theorem area_core {a b m n l k : Nat} (h1 : a * 2 ^ l < m ∨ a = 0) (h2 : b * 2 ^ k < n ∨ b = 0)
    {t : Nat} (h3 : m * n ≤ 2304 * 2 ^ t) (h4 : t ≤ l + k) : a * b < 2304 := by
  rcases h1 with h1 | h1
  · rcases h2 with h2 | h2
    · have e1 : a * 2 ^ l * (b * 2 ^ k) < m * n := Nat.mul_lt_mul'' h1 h2
      have e2 : 2 ^ t ≤ 2 ^ (l + k) := Nat.pow_le_pow_right (by omega) h4
      have e3 : a * b * 2 ^ (l + k) < 2304 * 2 ^ (l + k) := by
        calc a * b * 2 ^ (l + k) = a * 2 ^ l * (b * 2 ^ k) := by rw [pow_add]; ring
          _ < m * n := e1
          _ ≤ 2304 * 2 ^ t := h3
          _ ≤ 2304 * 2 ^ (l + k) := Nat.mul_le_mul_left _ e2
      exact Nat.lt_of_mul_lt_mul_right e3
    · subst h2; omega
  · subst h1; omega

theorem area_min {w h : Nat} (hs : Size w h) :
    Spec.sbs w * Spec.sbs h ≤ 2304 * 2 ^ Spec.minLog2Tiles w h := by
  obtain ⟨a, a1, a2, a3, a4, a5⟩ := area_log hs.w2 hs.h2
  have hT : a ≤ Spec.minLog2Tiles w h := by
    unfold Spec.minLog2Tiles
    have : Spec.maxTileAreaSb = 2304 := by decide
    rw [this, a2]; exact Nat.le_max_right _ _
  refine le_trans ?_ (Nat.mul_le_mul_left _ (Nat.pow_le_pow_right (by omega) hT))
  assumption

/-- **C27** (the area limit): in uniformly spaced tilings a tile is within one superblock row
and column of the limit of 4096x2304 pixels.  Missing: the limit itself, which
`tile_area_can_exceed_limit` refutes. -/
theorem tile_area_partial {w h rate tc tr tiles : Nat} {ti : TilingInfo}
    (hs : Size w h) (ht : sequenceTiling w h rate tc tr tiles false = some ti) :
    (ti.tileWidthSb - 1) * (ti.tileHeightSb - 1) < 2304 := by
  obtain ⟨c, r, hb⟩ := sequenceTiling_from ht
  have F := fromTargetTiles_facts hs hb
  refine area_core (m := Spec.sbs w) (n := Spec.sbs h) (l := ti.tileColsLog2)
    (k := ti.tileRowsLog2) (.inl ?_) (.inl ?_) (area_min hs) (by have := F.r1; omega)
  · rw [F.uni rfl]; exact ceil_pred_mul (Nat.two_pow_pos _) (sbs_pos hs.w1)
  · rw [F.th]; exact ceil_pred_mul (Nat.two_pow_pos _) (sbs_pos hs.h1)

/-- **C27** (the area limit): when the superblocks divide evenly among the tiles no tile
exceeds 4096x2304 pixels. -/
theorem tile_area_even_partial {w h rate tc tr tiles : Nat} {ti : TilingInfo}
    (hs : Size w h) (ht : sequenceTiling w h rate tc tr tiles false = some ti)
    (h1 : 2 ^ ti.tileColsLog2 ∣ Spec.sbs w) (h2 : 2 ^ ti.tileRowsLog2 ∣ Spec.sbs h) :
    ti.tileWidthSb * 64 * (ti.tileHeightSb * 64) ≤ 4096 * 2304 := by
  obtain ⟨c, r, hb⟩ := sequenceTiling_from ht
  have F := fromTargetTiles_facts hs hb
  obtain ⟨a, ha⟩ := h1
  obtain ⟨b, hb⟩ := h2
  have div : ∀ {x k a : Nat}, x = 2 ^ k * a → (x + 2 ^ k - 1) / 2 ^ k = a := by
    intro x k a hx
    have hp := Nat.two_pow_pos k
    rw [hx, Nat.add_sub_assoc hp, Nat.mul_add_div hp, Nat.div_eq_of_lt (by omega)]; rfl
  have e1 : ti.tileWidthSb = a := by rw [F.uni rfl]; exact div ha
  have e2 : ti.tileHeightSb = b := by rw [F.th]; exact div hb
  have hm := area_min hs
  have hr := F.r1
  rw [ha, hb] at hm
  have hpw : 2 ^ Spec.minLog2Tiles w h ≤ 2 ^ (ti.tileColsLog2 + ti.tileRowsLog2) :=
    Nat.pow_le_pow_right (by omega) (by omega)
  have : a * b * 2 ^ (ti.tileColsLog2 + ti.tileRowsLog2) ≤
      2304 * 2 ^ (ti.tileColsLog2 + ti.tileRowsLog2) := by
    calc _ = 2 ^ ti.tileColsLog2 * a * (2 ^ ti.tileRowsLog2 * b) := by rw [pow_add]; ring
      _ ≤ _ := hm
      _ ≤ _ := Nat.mul_le_mul_left _ hpw
  have := Nat.le_of_mul_le_mul_right this (Nat.two_pow_pos _)
  rw [e1, e2]
  nlinarith

/-! ## The search for a tiling ends and does not panic -/

/-- The frame's own limits never cross. -/
theorem minTiles_le {w h : Nat} (hs : Size w h) :
    Spec.minLog2Tiles w h ≤ Spec.minLog2TileCols w + Spec.maxLog2TileRows h := by
  obtain ⟨a, a1, a2, a3, a4, a5⟩ := area_log hs.w2 hs.h2
  have L := limFacts hs.w1 hs.w2
  have LH := limFacts hs.h1 hs.h2
  have hT : Spec.minLog2Tiles w h = max (Spec.minLog2TileCols w) a := by
    unfold Spec.minLog2Tiles
    have : Spec.maxTileAreaSb = 2304 := by decide
    rw [this, a2]
  rw [hT]
  refine Nat.max_le.2 ⟨by omega, ?_⟩
  by_contra hcon
  have hm := L.m1
  have hx := LH.x1
  have hle := sbs_le hs.h2
  have hA := a5 (Spec.minLog2TileCols w + Spec.maxLog2TileRows h) (by omega)
  rw [pow_add] at hA
  have hx' : min (Spec.sbs h) 64 ≤ 2 ^ Spec.maxLog2TileRows h := hx
  generalize 2 ^ Spec.minLog2TileCols w = P at *
  generalize 2 ^ Spec.maxLog2TileRows h = Q at *
  have hq : Spec.sbs h ≤ 36 * Q := by
    rcases Nat.le_total (Spec.sbs h) 64 with h' | h'
    · rw [Nat.min_def, if_pos h'] at hx'; omega
    · rw [Nat.min_def] at hx'; split at hx' <;> omega
  have := Nat.mul_le_mul hm hq
  have e : 64 * P * (36 * Q) = 2304 * (P * Q) := by ring
  omega

/-- `from_target_tiles` succeeds whenever the rate limit does not ask for more tile rows than
the frame can have. -/
theorem fromTargetTiles_ok {w h rate : Nat} (hs : Size w h)
    (hr : rate ≤ Spec.minLog2TileCols w + Spec.maxLog2TileRows h) (c r : Nat) (is422 : Bool) :
    ∃ ti, fromTargetTiles 6 w h rate c r is422 = some ti ∧ Facts w h rate r is422 ti := by
  rcases fromTargetTiles_eq hs.w1 hs.w2 hs.h1 hs.h2 rate c r is422 with ⟨hlt, _⟩ | ⟨_, t, h', F, _⟩
  · have h1 := (widthFacts hs.w1 hs.w2 c is422).c1
    have h2 := minTiles_le hs
    omega
  · exact ⟨t, h', F⟩

/-- The loop of `Sequence::new` ends. -/
theorem tileLoop_fuel {w h rate tiles : Nat} {is422 : Bool} (hs : Size w h)
    (hr : rate ≤ Spec.minLog2TileCols w + Spec.maxLog2TileRows h) :
    ∀ (fuel r c : Nat) (ti : TilingInfo), ti.maxTileRowsLog2 = Spec.maxLog2TileRows h →
      ti.maxTileColsLog2 = Spec.maxLog2TileCols w → r ≤ Spec.maxLog2TileRows h →
      c ≤ Spec.maxLog2TileCols w →
      Spec.maxLog2TileRows h + Spec.maxLog2TileCols w < fuel + r + c →
      tileLoop (fun c r => fromTargetTiles 6 w h rate c r is422) tiles fuel r c ti ≠ none
  | 0, r, c, ti, _, _, h1, h2, h3 => by omega
  | fuel + 1, r, c, ti, hR, hC, h1, h2, h3 => by
    obtain ⟨t, ht, F⟩ := fromTargetTiles_ok hs hr c r is422
    unfold tileLoop
    simp only [ht, Option.bind_eq_bind, Option.bind_some, hR, hC, F.maxR, F.maxC]
    have hF := F.rreq
    split
    · split
      · simp
      · split
        · refine tileLoop_fuel hs hr fuel (r + 1) c t F.maxR F.maxC ?_ h2 (by omega)
          omega
        · exact tileLoop_fuel hs hr fuel r (c + 1) t F.maxR F.maxC h1 (by omega) (by omega)
    · simp

/-- **C27**, **C18**: choosing a tiling neither panics nor loops, for every frame size and every
requested number of tiles, provided the rate limit of Annex A can be met with the tile rows and
columns of the frame.  `rate_limit_panics` shows that the condition cannot be dropped. -/
theorem tiling_exists {w h rate tc tr : Nat} (hs : Size w h)
    (hr : rate ≤ Spec.minLog2TileCols w + Spec.maxLog2TileRows h) (htc : tc ≤ 2 ^ 63)
    (htr : tr ≤ 2 ^ 63) (tiles : Nat) (is422 : Bool) :
    ∃ ti, sequenceTiling w h rate tc tr tiles is422 = some ti := by
  obtain ⟨c, hc, _⟩ := log2_lt (n := tc) (cl := 63) htc (by norm_num)
  obtain ⟨r, hr', _⟩ := log2_lt (n := tr) (cl := 63) htr (by norm_num)
  obtain ⟨t, ht, F⟩ := fromTargetTiles_ok hs hr c r is422
  unfold sequenceTiling
  simp only [Option.bind_eq_bind, hc, hr', Option.bind_some, ht]
  split
  · have l1 := (limFacts hs.w1 hs.w2).le6
    have l2 : Spec.maxLog2TileRows h ≤ 6 := (limFacts hs.h1 hs.h2).le6
    have := tileLoop_fuel (tiles := tiles) (is422 := is422) hs hr 64 0 0 t F.maxR F.maxC
      (by omega) (by omega) (by omega)
    exact Option.ne_none_iff_exists'.1 this
  · exact ⟨t, rfl⟩

/-! ## Concrete cases -/

/-- 1920x1080 in four tiles (2 by 2): the hypotheses of the theorems above hold and the
tiling is not trivial. -/
example : Size 1920 1080 ∧ ∃ ti, sequenceTiling 1920 1080 0 2 2 0 false = some ti ∧
    ti.rows = 2 ∧ ti.cols = 2 ∧ tileRect ti 3 = ⟨960, 576, 960, 504⟩ ∧
    recRect ti 1 1 3 = ⟨480, 288, 480, 256⟩ ∧ blockRect ti 480 270 3 = ⟨240, 144, 240, 126⟩ :=
  ⟨⟨by decide, by decide, by decide, by decide⟩, _, rfl, by decide +kernel, by decide +kernel,
    by decide +kernel, by decide +kernel, by decide +kernel⟩

/-- 8K, where the limits force two columns; 4:2:2 keeps tile widths even. -/
example : ∃ ti, sequenceTiling 7680 4320 2 1 1 0 true = some ti ∧ ti.cols = 2 ∧ ti.rows = 2 ∧
    ti.tileWidthSb = 60 :=
  ⟨_, rfl, by decide +kernel, by decide +kernel, by decide +kernel⟩

/-- The area hypotheses of `tile_area_even_partial`. -/
example : ∃ ti, sequenceTiling 8192 4352 0 1 1 0 false = some ti ∧
    2 ^ ti.tileColsLog2 ∣ Spec.sbs 8192 ∧ 2 ^ ti.tileRowsLog2 ∣ Spec.sbs 4352 ∧
    ti.tileWidthSb = 64 ∧ ti.tileHeightSb = 34 :=
  ⟨_, rfl, by decide +kernel, by decide +kernel, by decide +kernel, by decide +kernel⟩

example : 4 ≤ Spec.minLog2TileCols 7680 + Spec.maxLog2TileRows 4320 := by decide +kernel

end Rav1e.Tile

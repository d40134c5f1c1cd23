import Verif.LoopSyn.Theorems
import Verif.Lrf.Setup
import Verif.Tile.Theorems

/-!
# CDEF indices and loop restoration units: the tiles of a frame

The restoration units that `RestorationState::new` and `TileRestorationPlaneMut::new` set up: the hypotheses on the geometry of `side_information_roundtrip` hold
for every tile of every frame.
-/

namespace Rav1e.LoopSyn

open Hdr (Seq lrUnits)
open Lrf (unitSizeOf planeXdec planeYdec planeParams)
open Lrf.Spec (round2)
open Spec (Frame countUnits)
open Tile (Facts TilingInfo tileRect alignShift alignPow2)

/-! ### The setup -/

/-- What is chosen for the frame apart from its geometry. -/
structure Choice where
  cdefBits : Nat
  delayed : Bool
  switchable : Nat
  wiener : Nat
  sgrproj : Nat

/-- `RestorationPlaneConfig` of `RestorationState::new` (src/lrf.rs:1428-1477) with `TileRestorationStateMut::new` and `get_units_region`
(src/tiling/tile_restoration_state.rs:177-190, 326-392): a plane of tile `i`. -/
def planeOf (s : Seq) (width height baseQ i : Nat) (chroma : Bool) : Plane :=
  let u := unitSizeOf s width height baseQ chroma
  let P := planeParams s width height baseQ chroma fun _ _ => .none
  let hShift := Nat.log2 u - (6 - planeXdec s chroma)
  let vShift := Nat.log2 u - (6 - planeYdec s chroma)
  let r := unitsRegion hShift vShift P.cols P.rows (i % s.tiling.cols * s.tiling.tileWidthSb) (i / s.tiling.cols * s.tiling.tileHeightSb)
    (alignShift (tileRect s.tiling i).w 6) (alignShift (tileRect s.tiling i).h 6)
  { lrfType := 1, hShift, vShift, sbCols := alignShift width 6, sbRows := alignShift height 6,
    ux := r.1, uy := r.2.1, cols := r.2.2.1, rows := r.2.2.2 }

/-- Tile `i` of a frame: `TileStateMut::new` (src/tiling/tile_state.rs:127-193), `FrameInvariants::new` (src/encoder.rs:862-863), the planes in `encode_tile`
(src/encoder.rs:3475-3476).  `allow_intrabc` is always false in rav1e. -/
def tileCfg (s : Seq) (width height baseQ : Nat) (ch : Choice) (i : Nat) : Cfg where
  planes := if s.chroma = .cs400 then 1 else 3
  plane := fun p => planeOf s width height baseQ i (decide (p ≠ 0))
  gx := i % s.tiling.cols * s.tiling.tileWidthSb
  gy := i / s.tiling.cols * s.tiling.tileHeightSb
  sbW := alignShift (tileRect s.tiling i).w 6
  sbH := alignShift (tileRect s.tiling i).h 6
  frameSbW := alignShift width 6
  frameSbH := alignShift height 6
  enableCdef := s.cdef
  cdefBits := ch.cdefBits
  enableRestoration := s.restoration
  allowIntrabc := false
  delayed := ch.delayed
  switchable := ch.switchable
  wiener := ch.wiener
  sgrproj := ch.sgrproj

/-- What the headers of the frame tell the decoder. -/
def frameOf (s : Seq) (width height baseQ : Nat) (ch : Choice) : Frame where
  numPlanes := if s.chroma = .cs400 then 1 else 3
  width := width
  height := height
  subX := fun p => planeXdec s (decide (p ≠ 0))
  subY := fun p => planeYdec s (decide (p ≠ 0))
  enableCdef := s.cdef
  cdefBits := ch.cdefBits
  allowIntrabc := false
  lrType := fun _ => if s.restoration then .switchable else .none
  unitSize := fun p => unitSizeOf s width height baseQ (decide (p ≠ 0))
  restorationType := ch.switchable
  useWiener := ch.wiener
  useSgrproj := ch.sgrproj

/-! ### Units and tiles -/

theorem trailing_dvd (n : Nat) (h : 0 < n) : 2 ^ Sched.trailingZeros n ∣ n := by
  induction n using Nat.strongRecOn with
  | _ n ih =>
    unfold Sched.trailingZeros
    rw [dif_neg (by omega)]
    split
    · exact one_dvd _
    · obtain ⟨k, hk⟩ := ih (n / 2) (by omega) (by omega)
      refine ⟨k, ?_⟩
      rw [Nat.add_comm, Nat.pow_succ, Nat.mul_right_comm, ← hk]
      omega

/-- With several tiles, units are not wider or higher than what divides the tiles. -/
theorem lrUnits_le (s : Seq) (w h q : Nat) (ht : 1 < s.tiling.cols ∨ 1 < s.tiling.rows) :
    (lrUnits s w h q).1 ≤ 2 ^ (6 + min (Sched.trailingZeros s.tiling.tileWidthSb) (Sched.trailingZeros s.tiling.tileHeightSb)) ∧
    (lrUnits s w h q).2 ≤ 2 ^ (6 - s.chroma.xdec + Sched.trailingZeros s.tiling.tileWidthSb) ∧
    (lrUnits s w h q).2 ≤ 2 ^ (6 - s.chroma.ydec + Sched.trailingZeros s.tiling.tileHeightSb) := by
  unfold lrUnits
  dsimp only
  generalize (if s.restoration = true then _ else _ : Nat × Nat) = sh
  rw [if_pos ht]
  dsimp only
  by_cases hd : s.chroma.ydec = 0 ∧ min (2 ^ (8 - sh.1)) (2 ^ (6 + min (Sched.trailingZeros s.tiling.tileWidthSb) (Sched.trailingZeros s.tiling.tileHeightSb))) ≠
      min (2 ^ (8 - sh.2)) (min (2 ^ (6 - s.chroma.xdec + Sched.trailingZeros s.tiling.tileWidthSb)) (2 ^ (6 - s.chroma.ydec + Sched.trailingZeros s.tiling.tileHeightSb)))
  · rw [if_pos hd]
    refine ⟨?_, ?_, ?_⟩
    · exact le_trans (min_le_right _ _) (min_le_right _ _)
    · exact le_trans (min_le_left _ _) (le_trans (min_le_right _ _) (min_le_left _ _))
    · exact le_trans (min_le_left _ _) (le_trans (min_le_right _ _) (min_le_right _ _))
  · rw [if_neg hd]
    exact ⟨min_le_right _ _, le_trans (min_le_right _ _) (min_le_left _ _), le_trans (min_le_right _ _) (min_le_right _ _)⟩

theorem pow_le_exp {a b : Nat} (h : 2 ^ a ≤ 2 ^ b) : a ≤ b := (Nat.pow_le_pow_iff_right (by decide)).1 h

/-- The unit size of a plane is the superblock size times a power of two, and with several tiles this power divides the tile size. -/
theorem plane_units {s : Seq} {w h rate r : Nat} (F : Facts w h rate r (decide (s.chroma = .cs422)) s.tiling) (q : Nat) (c : Bool) :
    ∃ e, unitSizeOf s w h q c = 2 ^ e ∧ 6 - planeXdec s c ≤ e ∧ 6 - planeYdec s c ≤ e ∧
      ((1 < s.tiling.cols ∨ 1 < s.tiling.rows) →
        2 ^ (e - (6 - planeXdec s c)) ∣ s.tiling.tileWidthSb ∧ 2 ^ (e - (6 - planeYdec s c)) ∣ s.tiling.tileHeightSb) := by
  obtain ⟨a, b, he, ha, ha', hb⟩ := Hdr.lrUnits_ok s w h q F.tw (fun hc => F.even (by rw [hc]; rfl))
  have hle := lrUnits_le s w h q
  rw [he] at hle
  unfold unitSizeOf planeXdec planeYdec
  rw [he]
  have dv : ∀ {n k : Nat}, 0 < n → k ≤ Sched.trailingZeros n → 2 ^ k ∣ n := fun hn hk => dvd_trans (pow_dvd_pow 2 hk) (trailing_dvd _ hn)
  cases c with
  | false =>
    refine ⟨a, rfl, ha, ha, fun ht => ?_⟩
    have := pow_le_exp (hle ht).1
    exact ⟨dv F.tw (by simp only [Bool.false_eq_true, if_false]; omega), dv F.thp (by simp only [Bool.false_eq_true, if_false]; omega)⟩
  | true =>
    have hx : s.chroma.xdec ≤ 1 := by unfold Hdr.Chroma.xdec; split <;> omega
    have hb' : 6 - s.chroma.xdec ≤ b ∧ 6 - s.chroma.ydec ≤ b := by
      rcases hb with rfl | ⟨hc, hb⟩
      · omega
      · rw [hc]; simp only [Hdr.Chroma.xdec, Hdr.Chroma.ydec]; omega
    refine ⟨b, rfl, hb'.1, hb'.2, fun ht => ?_⟩
    have h1 := pow_le_exp (hle ht).2.1
    have h2 := pow_le_exp (hle ht).2.2
    exact ⟨dv F.tw (by simp only [if_true]; omega), dv F.thp (by simp only [if_true]; omega)⟩

/-- A row or column of tiles: `n` tiles of `t` superblocks in a frame of `v` pixels, `z` after rounding up to 8. -/
theorem tile_span {v z n t k : Nat} (hz : z = alignPow2 v 3) (hn : 0 < n) (ht : 0 < t) (h1 : z ≤ n * (t * 64)) (h2 : (n - 1) * (t * 64) < z) (hk : k < n) :
    0 < alignShift (min (t * 64) (z - k * (t * 64))) 6 ∧
    (k + 1 = n ∧ k * t + alignShift (min (t * 64) (z - k * (t * 64))) 6 = alignShift v 6 ∨
      k + 1 < n ∧ alignShift (min (t * 64) (z - k * (t * 64))) 6 = t) := by
  have hz' : z = (v + 7) / 8 * 8 := by
    rw [hz]; unfold alignPow2; norm_num
  have e1 : alignShift v 6 = (v + 63) / 64 := by unfold alignShift; norm_num
  have e2 : ∀ n, alignShift n 6 = (n + 63) / 64 := by intro n; unfold alignShift; norm_num
  rw [e1, e2]
  have e3 : k * (t * 64) = k * t * 64 := by ring
  rcases (show k + 1 = n ∨ k + 1 < n by omega) with h | h
  · obtain rfl : k = n - 1 := by omega
    have e4 : n * (t * 64) = (n - 1) * (t * 64) + t * 64 := by
      conv_lhs => rw [show n = (n - 1) + 1 by omega, Nat.add_mul, Nat.one_mul]
    have e5 : (n - 1) * (t * 64) = (n - 1) * t * 64 := e3
    rw [e4, e5] at h1
    rw [e5] at h2 ⊢
    generalize (n - 1) * t = g at h1 h2 ⊢
    rw [min_eq_right (by omega)]
    exact ⟨by omega, .inl ⟨by omega, by omega⟩⟩
  · have h3 : (k + 1) * (t * 64) ≤ (n - 1) * (t * 64) := Nat.mul_le_mul_right _ (by omega)
    rw [Nat.add_mul, Nat.one_mul] at h3
    rw [min_eq_left (by omega)]
    exact ⟨by omega, .inr ⟨h, by omega⟩⟩

theorem count_eq {s : Seq} (w h q : Nat) (c : Bool) (hx : planeXdec s c ≤ 1) (hy : planeYdec s c ≤ 1) :
    (planeParams s w h q c fun _ _ => .none).cols = countUnits (unitSizeOf s w h q c) (round2 w (planeXdec s c)) ∧
    (planeParams s w h q c fun _ _ => .none).rows = countUnits (unitSizeOf s w h q c) (round2 h (planeYdec s c)) := by
  have hcount : ∀ n dec, dec ≤ 1 → max ((((n + (1 <<< dec >>> 1)) >>> dec) + (unitSizeOf s w h q c >>> 1)) /
      unitSizeOf s w h q c) 1 = countUnits (unitSizeOf s w h q c) (round2 n dec) := by
    intro n dec hd
    unfold countUnits round2
    rcases (show dec = 0 ∨ dec = 1 by omega) with h | h <;> rw [h]
    · rw [Nat.shiftRight_eq_div_pow (unitSizeOf s w _ q c)]; rfl
    · rw [Nat.shiftRight_eq_div_pow (unitSizeOf s w _ q c), Nat.shiftRight_eq_div_pow (n + _)]; rfl
  exact ⟨hcount _ _ hx, hcount _ _ hy⟩

theorem dec_le (s : Seq) (c : Bool) : planeXdec s c ≤ 1 ∧ planeYdec s c ≤ 1 := by
  unfold planeXdec planeYdec Hdr.Chroma.xdec Hdr.Chroma.ydec
  cases c <;> cases s.chroma <;> simp

/-- **C65: the geometry is right in every tile of every frame.**  Whatever the size, the quantizer, the subsampling and the tiling, the restoration units that the
encoder sets up for a tile meet the hypotheses of `side_information_roundtrip`: they are the units that the decoder counts, they begin and end with the tile, and
the chroma units hold whole luma units. -/
theorem tile_units_ok {s : Seq} {w h rate r : Nat} (hw : 1 ≤ w) (hh : 1 ≤ h) (F : Facts w h rate r (decide (s.chroma = .cs422)) s.tiling)
    (q : Nat) (ch : Choice) {i : Nat} (hi : i < s.tiling.rows * s.tiling.cols) : CfgOk (tileCfg s w h q ch i) (frameOf s w h q ch) := by
  obtain ⟨hi1, hi2⟩ := Tile.index_split hi
  obtain ⟨x1, x2, x3⟩ := F.spanX hw
  obtain ⟨y1, y2, y3⟩ := F.spanY hh
  obtain ⟨bx, cx⟩ := tile_span F.fw x2 F.tw x1 x3 hi1
  obtain ⟨by', cy⟩ := tile_span F.fh y2 F.thp y1 y3 hi2
  have hrect := F.rect i
  have hrw : (tileRect s.tiling i).w = min (s.tiling.tileWidthSb * 64) (s.tiling.frameWidth - i % s.tiling.cols * (s.tiling.tileWidthSb * 64)) := by rw [hrect]
  have hrh : (tileRect s.tiling i).h = min (s.tiling.tileHeightSb * 64) (s.tiling.frameHeight - i / s.tiling.cols * (s.tiling.tileHeightSb * 64)) := by rw [hrect]
  rw [← hrw] at bx cx
  rw [← hrh] at by' cy
  have hsh : ∀ c, ∃ e, unitSizeOf s w h q c = 2 ^ e ∧ 6 - planeXdec s c ≤ e ∧ 6 - planeYdec s c ≤ e ∧
      (planeOf s w h q i c).hShift = e - (6 - planeXdec s c) ∧ (planeOf s w h q i c).vShift = e - (6 - planeYdec s c) ∧
      ((1 < s.tiling.cols ∨ 1 < s.tiling.rows) →
        2 ^ (e - (6 - planeXdec s c)) ∣ s.tiling.tileWidthSb ∧ 2 ^ (e - (6 - planeYdec s c)) ∣ s.tiling.tileHeightSb) := by
    intro c
    obtain ⟨e, e1, e2, e3, e4⟩ := plane_units F q c
    refine ⟨e, e1, e2, e3, ?_, ?_, e4⟩
    · simp only [planeOf, e1, Nat.log2_two_pow]
    · simp only [planeOf, e1, Nat.log2_two_pow]
  have hsz : ∀ {d e : Nat}, d ≤ 1 → 6 - d ≤ e → 2 ^ e = (64 >>> d) * 2 ^ (e - (6 - d)) := by
    intro d e hd he
    have : 64 >>> d = 2 ^ (6 - d) := by rcases (show d = 0 ∨ d = 1 by omega) with rfl | rfl <;> rfl
    rw [this, ← Nat.pow_add]
    congr 1
    omega
  have hpl : ∀ p, PlaneOk (tileCfg s w h q ch i) (frameOf s w h q ch) p := by
    intro p
    obtain ⟨e, e1, e2, e3, e4, e5, e6⟩ := hsh (decide (p ≠ 0))
    obtain ⟨d1, d2⟩ := dec_le s (decide (p ≠ 0))
    obtain ⟨n1, n2⟩ := count_eq (s := s) w h q (decide (p ≠ 0)) d1 d2
    refine ⟨d1, d2, ?_, ?_, ?_, ?_, ?_, ?_, ?_⟩
    · show unitSizeOf s w h q (decide (p ≠ 0)) = (64 >>> planeXdec s (decide (p ≠ 0))) * 2 ^ (planeOf s w h q i (decide (p ≠ 0))).hShift
      rw [e1, e4]; exact hsz d1 e2
    · show unitSizeOf s w h q (decide (p ≠ 0)) = (64 >>> planeYdec s (decide (p ≠ 0))) * 2 ^ (planeOf s w h q i (decide (p ≠ 0))).vShift
      rw [e1, e5]; exact hsz d2 e3
    · show i % s.tiling.cols * s.tiling.tileWidthSb % 2 ^ (planeOf s w h q i (decide (p ≠ 0))).hShift = 0
      rw [e4]
      rcases Nat.lt_or_ge 1 s.tiling.cols with hc | hc
      · exact Nat.mod_eq_zero_of_dvd (Dvd.dvd.mul_left (e6 (.inl hc)).1 _)
      · rw [show i % s.tiling.cols = 0 by omega, Nat.zero_mul, Nat.zero_mod]
    · show i / s.tiling.cols * s.tiling.tileHeightSb % 2 ^ (planeOf s w h q i (decide (p ≠ 0))).vShift = 0
      rw [e5]
      rcases Nat.lt_or_ge 1 s.tiling.rows with hc | hc
      · exact Nat.mod_eq_zero_of_dvd (Dvd.dvd.mul_left (e6 (.inr hc)).2 _)
      · rw [show i / s.tiling.cols = 0 from Nat.lt_one_iff.1 (Nat.lt_of_lt_of_le hi2 hc), Nat.zero_mul, Nat.zero_mod]
    · show _ = unitsRegion _ _ (countUnits (unitSizeOf s w h q (decide (p ≠ 0))) (round2 w (planeXdec s (decide (p ≠ 0)))))
        (countUnits (unitSizeOf s w h q (decide (p ≠ 0))) (round2 h (planeYdec s (decide (p ≠ 0))))) _ _ _ _
      rw [← n1, ← n2]
      rfl
    · show alignShift (tileRect s.tiling i).w 6 % 2 ^ (planeOf s w h q i (decide (p ≠ 0))).hShift = 0 ∨
        i % s.tiling.cols * s.tiling.tileWidthSb + alignShift (tileRect s.tiling i).w 6 = alignShift w 6
      rcases cx with ⟨_, cx⟩ | ⟨c1, c2⟩
      · exact .inr cx
      · left
        rw [c2, e4]
        exact Nat.mod_eq_zero_of_dvd (e6 (.inl (by omega))).1
    · show alignShift (tileRect s.tiling i).h 6 % 2 ^ (planeOf s w h q i (decide (p ≠ 0))).vShift = 0 ∨
        i / s.tiling.cols * s.tiling.tileHeightSb + alignShift (tileRect s.tiling i).h 6 = alignShift h 6
      rcases cy with ⟨_, cy⟩ | ⟨c1, c2⟩
      · exact .inr cy
      · left
        rw [c2, e5]
        exact Nat.mod_eq_zero_of_dvd (e6 (.inr (Nat.lt_of_le_of_lt (Nat.le_add_left 1 _) c1))).2
  have hnest : ∀ p, (planeOf s w h q i false).hShift ≤ (planeOf s w h q i (decide (p ≠ 0))).hShift ∧
      (planeOf s w h q i false).vShift ≤ (planeOf s w h q i (decide (p ≠ 0))).vShift := by
    intro p
    by_cases hp : p = 0
    · subst hp; exact ⟨le_refl _, le_refl _⟩
    · rw [decide_eq_true hp]
      obtain ⟨a, b, he, ha, ha', hb⟩ := Hdr.lrUnits_ok s w h q F.tw (fun hc => F.even (by rw [hc]; rfl))
      simp only [planeOf, unitSizeOf, he, planeXdec, planeYdec, Bool.false_eq_true, if_false, if_true, Nat.log2_two_pow]
      rcases hb with rfl | ⟨hc, hb⟩
      · omega
      · rw [hc]; simp only [Hdr.Chroma.xdec, Hdr.Chroma.ydec]; omega
  refine ⟨rfl, ?_, fun p _ => hpl p, fun p _ => (hnest p).1, fun p _ => (hnest p).2, ?_, bx, by', rfl, rfl, ⟨rfl, rfl⟩, ?_, ?_⟩
  · show 0 < if s.chroma = .cs400 then 1 else 3
    split <;> omega
  · intro p _ t _ hp ht
    show (planeOf s w h q i (decide (p ≠ 0))).hShift = (planeOf s w h q i (decide (t ≠ 0))).hShift ∧ _ ∧ (planeOf s w h q i (decide (p ≠ 0))).cols =
      (planeOf s w h q i (decide (t ≠ 0))).cols ∧ _
    simp only [tileCfg]
    rw [decide_eq_true hp, decide_eq_true ht]
    exact ⟨rfl, rfl, rfl, rfl⟩
  · intro hr p _
    replace hr : s.restoration = true := hr
    exact ⟨by simp only [frameOf, hr, if_true]; rfl, rfl, rfl, rfl, by show 1 ≤ 1 ∧ 1 ≤ 3; omega⟩
  · intro hr p _
    replace hr : s.restoration = false := hr
    simp only [frameOf, hr, Bool.false_eq_true, if_false]

/-- The tilings of `Sequence::new` are of this kind. -/
theorem sequence_units_ok {s : Seq} {w h rate tc tr tiles : Nat} (hs : Tile.Size w h)
    (ht : Tile.sequenceTiling w h rate tc tr tiles (decide (s.chroma = .cs422)) = some s.tiling)
    (q : Nat) (ch : Choice) {i : Nat} (hi : i < s.tiling.rows * s.tiling.cols) : CfgOk (tileCfg s w h q ch i) (frameOf s w h q ch) :=
  tile_units_ok hs.w1 hs.h1 (Tile.fromTargetTiles_facts hs (Tile.sequenceTiling_from ht).choose_spec.choose_spec) q ch hi

end Rav1e.LoopSyn

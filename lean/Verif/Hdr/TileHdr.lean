import Verif.Hdr.Frame
import Verif.Tile.Theorems

/-!
# Frame header: tile information
-/

namespace Rav1e.Hdr
open Av1Spec
open Rav1e.Tile (TilingInfo sequenceTiling Facts)

/-- The tiling comes from `Sequence::new` for these dimensions, and in 4:2:2, where tiles may need
explicit sizes, the tile height can be expressed (see `Tile.tile_height_not_codable_422` for tilings
where it cannot). -/
structure TileOk (fi : Fi) : Prop where
  sbw : fi.sbWidth = Tile.Spec.sbs fi.width
  sbh : fi.sbHeight = Tile.Spec.sbs fi.height
  no128 : fi.seq.use128 = false
  size : Tile.Size fi.width fi.height
  tiling : ∃ rate tc tr tiles : Nat, sequenceTiling fi.width fi.height rate tc tr tiles
    (fi.seq.chroma == .cs422) = some fi.seq.tiling
  rows : fi.seq.chroma = .cs422 → fi.seq.tiling.tileHeightSb ≤ Tile.Spec.maxTileHeightSb fi.width
    fi.height (min fi.seq.tiling.tileWidthSb (Tile.Spec.sbs fi.width))

/-- The expected tile information. -/
def Fi.tileHdr (fi : Fi) : TileHdr where
  colStarts := (List.range fi.seq.tiling.cols).map (· * fi.seq.tiling.tileWidthSb)
  rowStarts := (List.range fi.seq.tiling.rows).map (· * fi.seq.tiling.tileHeightSb)
  colsLog2 := fi.seq.tiling.tileColsLog2
  rowsLog2 := fi.seq.tiling.tileRowsLog2
  ctxTileId := if 0 < fi.seq.tiling.tileColsLog2 + fi.seq.tiling.tileRowsLog2 then fi.ctxTileId else 0
  sizeBytes := if 0 < fi.seq.tiling.tileColsLog2 + fi.seq.tiling.tileRowsLog2 then fi.tileSizeBytes
    else 0

theorem forW_map {α β : Type} (xs : List α) (f : α → β) (g : β → W) :
    forW (xs.map f) g = forW xs fun x => g (f x) := by
  induction xs with
  | nil => rfl
  | cons x xs ih => simp only [List.map_cons, forW, ih]

theorem forW_range_succ (n : Nat) (w : W) :
    forW (List.range (n + 1)) (fun _ => w) = (w ⊹ forW (List.range n) fun _ => w) := by
  rw [List.range_succ_eq_map]
  simp only [forW, forW_map]

theorem codes_increments : ∀ (d fuel m : Nat), d ≤ fuel →
    Codes (forW (List.range d) (fun _ => bit true) ⊹ (if d < fuel then bit false else W.nil))
      (increments fuel m) (m + d)
  | 0, 0, m, _ => by
    simp only [Nat.lt_irrefl, if_false]
    exact Codes.pure _
  | 0, fuel + 1, m, _ => by
    simp only [Nat.zero_lt_succ, if_true]
    show Codes (W.nil ⊹ bit false) _ _
    rw [nil_app]
    unfold increments
    rw [← app_nil (bit false)]
    refine Codes.bind (codes_bit _) ?_
    exact Codes.pure _
  | d + 1, 0, m, h => by omega
  | d + 1, fuel + 1, m, h => by
    rw [forW_range_succ, app_assoc]
    have hc : (d + 1 < fuel + 1) = (d < fuel) := by simp
    simp only [hc]
    unfold increments
    refine Codes.bind (codes_bit _) ?_
    rw [if_pos rfl]
    have := codes_increments d fuel (m + 1) (by omega)
    rwa [show m + 1 + d = m + (d + 1) by omega] at this

/-- Increments as the writer counts them. -/
theorem codes_increments' {lo k hi : Nat} (h1 : lo ≤ k) (h2 : k ≤ hi) :
    Codes (forW (List.range (k - lo)) (fun _ => bit true) ⊹ (if k < hi then bit false else W.nil))
      (increments (hi - lo) lo) k := by
  have := codes_increments (k - lo) (hi - lo) lo (by omega)
  have hc : (k - lo < hi - lo) = (k < hi) := by apply propext; omega
  simp only [hc] at this
  rwa [show lo + (k - lo) = k by omega] at this

/-- The sizes of consecutive tiles. -/
def tileSizes (size total : Nat) : (n sofar : Nat) → List Nat
  | 0, _ => []
  | n + 1, sofar =>
    min size (total - sofar) :: tileSizes size total n (sofar + min size (total - sofar))

theorem codes_tileSizes {limit size total : Nat} (hs : 0 < size) (hl : size ≤ limit) :
    ∀ (n fuel sofar : Nat), total - sofar ≤ fuel → total ≤ sofar + n * size →
      (0 < n → sofar + (n - 1) * size < total) →
      Codes (writeTileSizes limit size total n sofar) (explicitSizes limit total fuel sofar)
        (tileSizes size total n sofar)
  | 0, fuel, sofar, _, h2, _ => by
    unfold writeTileSizes tileSizes
    cases fuel with
    | zero => exact Codes.pure _
    | succ fuel =>
      unfold explicitSizes
      rw [if_neg (by omega)]; exact Codes.pure _
  | n + 1, 0, sofar, h1, h2, h3 => by
    have := h3 (by omega)
    have : (n + 1 - 1) * size ≥ 0 := Nat.zero_le _
    omega
  | n + 1, fuel + 1, sofar, h1, h2, h3 => by
    have h3' := h3 (by omega)
    simp only [Nat.add_sub_cancel] at h3'
    have hlt : sofar < total := by
      have : 0 ≤ n * size := Nat.zero_le _
      omega
    unfold writeTileSizes explicitSizes tileSizes
    rw [if_pos hlt]
    refine Codes.assert fun hp => ?_
    have e : min limit (total - sofar) = min (total - sofar) limit := by omega
    rw [e]
    refine Codes.bind (codes_quni (by omega)) ?_
    have e2 : min size (total - sofar) - 1 + 1 = min size (total - sofar) := by omega
    rw [e2]
    rw [Nat.add_mul, Nat.one_mul] at h2
    refine Codes.last (codes_tileSizes hs hl n fuel _ (by omega) ?_ ?_)
    · by_cases hm : size ≤ total - sofar
      · rw [Nat.min_eq_left hm]; omega
      · rw [Nat.min_eq_right (by omega)]
        have : 0 ≤ n * size := Nat.zero_le _
        omega
    · intro hn
      have hm : size ≤ total - sofar := by
        have : 1 * size ≤ n * size := Nat.mul_le_mul_right _ hn
        omega
      rw [Nat.min_eq_left hm]
      have e3 : n * size = (n - 1) * size + size := by
        obtain ⟨m, rfl⟩ : ∃ m, n = m + 1 := ⟨n - 1, by omega⟩
        rw [Nat.add_sub_cancel, Nat.add_mul, Nat.one_mul]
      omega

theorem tileSizes_length (size total : Nat) : ∀ (n sofar : Nat),
    (tileSizes size total n sofar).length = n
  | 0, _ => rfl
  | n + 1, sofar => by
    unfold tileSizes
    rw [List.length_cons, tileSizes_length size total n]

theorem startsOf_tileSizes {size total : Nat} : ∀ (n sofar : Nat),
    (0 < n → sofar + (n - 1) * size < total) →
    startsOf sofar (tileSizes size total n sofar) = (List.range n).map fun i => sofar + i * size
  | 0, _, _ => rfl
  | n + 1, sofar, h3 => by
    have h3' := h3 (by omega)
    simp only [Nat.add_sub_cancel] at h3'
    unfold tileSizes startsOf
    rw [List.range_succ_eq_map, List.map_cons, List.map_map]
    rw [Nat.zero_mul, Nat.add_zero]
    congr 1
    by_cases hn : n = 0
    · subst hn; rfl
    · have e : n * size = (n - 1) * size + size := by
        obtain ⟨m, rfl⟩ : ∃ m, n = m + 1 := ⟨n - 1, by omega⟩
        rw [Nat.add_sub_cancel, Nat.add_mul, Nat.one_mul]
      have hm : size ≤ total - sofar := by
        have : 0 ≤ (n - 1) * size := Nat.zero_le _
        omega
      rw [Nat.min_eq_left hm, startsOf_tileSizes n (sofar + size) (fun _ => by omega)]
      apply List.map_congr_left
      intro i _
      simp only [Function.comp_apply, Nat.succ_eq_add_one, Nat.add_mul, Nat.one_mul]
      omega

theorem widestTile_eq (size total : Nat) : ∀ (n sofar acc : Nat),
    widestTile size total n sofar acc = (tileSizes size total n sofar).foldl max acc
  | 0, _, _ => rfl
  | n + 1, sofar, acc => by
    unfold widestTile tileSizes
    rw [List.foldl_cons, widestTile_eq size total n]

/-- The widest tile is the first. -/
theorem widest_first {size total : Nat} (n : Nat) (hn : 0 < n) :
    widestTile size total n 0 0 = min size total := by
  have hle : ∀ (n sofar acc : Nat), min size total ≤ acc →
      widestTile size total n sofar acc = acc := by
    intro n
    induction n with
    | zero => intro _ _ _; rfl
    | succ n ih =>
      intro sofar acc h
      unfold widestTile
      have e : max acc (min size (total - sofar)) = acc := by omega
      simp only [e]
      exact ih _ _ h
  obtain ⟨m, rfl⟩ : ∃ m, n = m + 1 := ⟨n - 1, by omega⟩
  unfold widestTile
  simp only [Nat.sub_zero, Nat.zero_add, Nat.zero_max]
  exact hle _ _ _ le_rfl

theorem ceil_bounds {sb size : Nat} (hs : 0 < size) (hb : 0 < sb) :
    sb ≤ 0 + (sb + size - 1) / size * size ∧
      (0 < (sb + size - 1) / size → 0 + ((sb + size - 1) / size - 1) * size < sb) := by
  have h1 := Nat.div_add_mod (sb + size - 1) size
  have h2 := Nat.mod_lt (sb + size - 1) hs
  rw [Nat.mul_comm] at h1
  generalize (sb + size - 1) / size = q at *
  generalize (sb + size - 1) % size = r at *
  constructor
  · omega
  · intro hq
    obtain ⟨m, rfl⟩ : ∃ m, q = m + 1 := ⟨q - 1, by omega⟩
    rw [Nat.add_sub_cancel]
    rw [Nat.add_mul, Nat.one_mul] at h1
    omega

theorem codes_tileInfo (fi : Fi) (ok : TileOk fi) {w h : Nat} :
    Codes (writeTileInfo fi) (tileInfo (fi.seq.hdr w h) fi.width fi.height) fi.tileHdr := by
  obtain ⟨rate, tc, tr, tiles, ht⟩ := ok.tiling
  have hlog := Tile.decoder_log2_agree ok.size ht
  obtain ⟨c, r, hb⟩ := Tile.sequenceTiling_from ht
  have F := Tile.fromTargetTiles_facts ok.size hb
  unfold writeTileInfo tileInfo
  generalize hti : fi.seq.tiling = ti at *
  dsimp only
  refine Codes.reject ok.no128 ?_
  have hsw := Tile.sbs_pos ok.size.w1
  have hsh := Tile.sbs_pos ok.size.h1
  have hlast : ∀ (cols rows : List Nat),
      cols = (List.range ti.cols).map (· * ti.tileWidthSb) →
      rows = (List.range ti.rows).map (· * ti.tileHeightSb) →
      Codes (if 0 < ti.tileColsLog2 + ti.tileRowsLog2 then
          lit (ti.tileColsLog2 + ti.tileRowsLog2) fi.ctxTileId ⊹
          assertW (1 ≤ fi.tileSizeBytes) ⊹ lit 2 (fi.tileSizeBytes - 1)
         else W.nil)
        (if 0 < ti.tileColsLog2 ∨ 0 < ti.tileRowsLog2 then do
          let id ← Parser.f (ti.tileColsLog2 + ti.tileRowsLog2)
          let bytes ← Parser.f 2
          pure ⟨cols, rows, ti.tileColsLog2, ti.tileRowsLog2, id, bytes + 1⟩
        else pure ⟨cols, rows, ti.tileColsLog2, ti.tileRowsLog2, 0, 0⟩) fi.tileHdr := by
    intro cols rows hc hr
    refine Codes.ite (by omega) (fun hp => ?_) (fun hp => ?_)
    · refine Codes.bind (codes_lit _ _) (Codes.assert fun h1 => ?_)
      refine Codes.map (codes_lit _ _) ?_
      simp [Fi.tileHdr, hti, hp, hc, hr, Nat.sub_add_cancel h1]
    · refine Codes.eq (Codes.pure _) ?_
      simp [Fi.tileHdr, hti, hp, hc, hr]
  by_cases hu : Tile.alignShift fi.sbWidth ti.tileColsLog2 = ti.tileWidthSb ∧
      Tile.alignShift fi.sbHeight ti.tileRowsLog2 = ti.tileHeightSb
  · rw [if_pos hu]
    simp only [app_assoc]
    refine Codes.assert fun _ => Codes.assert fun _ => ?_
    refine Codes.bind (codes_bit _) ?_
    rw [if_pos rfl]
    have ec : Tile.Spec.uniformStarts (Tile.Spec.sbs fi.width) ti.tileColsLog2 =
        (List.range ti.cols).map (· * ti.tileWidthSb) := by
      rw [F.cols]
      refine Tile.uniformStarts_eq hsw ?_
      have := hu.1
      rw [ok.sbw] at this
      exact this.symm
    have er : Tile.Spec.uniformStarts (Tile.Spec.sbs fi.height) ti.tileRowsLog2 =
        (List.range ti.rows).map (· * ti.tileHeightSb) := by
      rw [F.rows]; exact Tile.uniformStarts_eq hsh F.th
    rw [bind_assoc, ← app_assoc (forW _ _), F.minC, F.maxC]
    refine Codes.bind (codes_increments' F.c1 F.c2) ?_
    rw [bind_assoc, ← app_assoc (forW _ _), F.minR, F.maxR]
    refine Codes.bind (codes_increments' F.r1 F.r2) ?_
    refine Codes.pure_bind ?_
    exact hlast _ _ ec er
  · rw [if_neg hu]
    have h422 : fi.seq.chroma = .cs422 := by
      by_contra hn
      refine hu ⟨?_, ?_⟩
      · rw [ok.sbw]
        have : (fi.seq.chroma == .cs422) = false := by simp [hn]
        exact (F.uni this).symm
      · rw [ok.sbh]; exact F.th.symm
    simp only [app_assoc]
    refine Codes.assert fun _ => Codes.bind (codes_bit _) ?_
    rw [ok.no128, ok.sbw, ok.sbh]
    simp only [Bool.false_eq_true, if_false]
    obtain ⟨bc1, bc2⟩ := ceil_bounds F.tw hsw
    obtain ⟨br1, br2⟩ := ceil_bounds F.thp hsh
    rw [← F.cols] at bc1 bc2
    rw [← F.rows] at br1 br2
    have hcp : 0 < ti.cols := by
      rcases Nat.eq_zero_or_pos ti.cols with h0 | h0
      · rw [h0] at bc1; omega
      · exact h0
    rw [bind_assoc]
    refine Codes.bind (codes_tileSizes F.tw F.tw64 _ _ _ (by omega) bc1 bc2) ?_
    have hwid : Av1Spec.widest (tileSizes ti.tileWidthSb (Tile.Spec.sbs fi.width) ti.cols 0) =
        min ti.tileWidthSb (Tile.Spec.sbs fi.width) := by
      unfold Av1Spec.widest
      rw [← widestTile_eq, widest_first _ hcp]
    rw [bind_assoc, hwid]
    have hmax : max ((if 0 < ti.minTilesLog2 then
        Tile.Spec.sbs fi.height * Tile.Spec.sbs fi.width / 2 ^ (ti.minTilesLog2 + 1)
        else Tile.Spec.sbs fi.height * Tile.Spec.sbs fi.width) /
        widestTile ti.tileWidthSb (Tile.Spec.sbs fi.width) ti.cols 0 0) 1 =
        Tile.Spec.maxTileHeightSb fi.width fi.height
          (min ti.tileWidthSb (Tile.Spec.sbs fi.width)) := by
      rw [widest_first _ hcp, F.minT]; rfl
    rw [hmax]
    refine Codes.bind (codes_tileSizes F.thp (hti ▸ ok.rows h422) _ _ _ (by omega) br1 br2) ?_
    refine Codes.pure_bind ?_
    dsimp only
    rw [tileSizes_length, tileSizes_length, hlog.1, hlog.2]
    refine hlast _ _ ?_ ?_
    · rw [startsOf_tileSizes _ _ bc2]; simp
    · rw [startsOf_tileSizes _ _ br2]; simp

end Rav1e.Hdr

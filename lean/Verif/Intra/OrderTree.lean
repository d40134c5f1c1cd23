import Verif.Intra.OrderBlock
import Verif.Intra.Model

/-!
# Which neighbours are decoded: a superblock
-/

namespace Rav1e.Intra

open Spec (Geo Blk Event State Tree)

section
variable {D D1 D2 : Int → Int → Bool} {FH FW Y X H W h w : Nat} {tr bl tr' bl' : Bool}

theorem Pre.congr (P : Pre D FH FW Y X H W tr bl) (h1 : X + W < FW → tr = tr') (h2 : Y + H < FH → bl = bl') : Pre D FH FW Y X H W tr' bl' :=
  ⟨P.above, P.left, fun h => (P.tr h).trans (h1 h), fun h => (P.bl h).trans (h2 h), P.later⟩

theorem Pre.top (P : Pre D FH FW Y X (h + H) W tr bl) (hH : 0 < H) : Pre D FH FW Y X h W tr true := by
  obtain ⟨a, l, t, b, z⟩ := P
  refine ⟨a, fun y h1 h2 h3 => l y h1 (by omega) h3, t, fun hF => l _ (by omega) (by omega) (by omega), fun y x h1 h2 h3 h4 => z y x h1 (by omega) h3 h4⟩

theorem Pre.bottom (P : Pre D FH FW Y X (h + H) W tr bl) (Q : Post D D1 FH FW Y X h W) (hF : Y + h < FH) (hh : 0 < h) : Pre D1 FH FW (Y + h) X H W false bl := by
  obtain ⟨a, l, t, b, z⟩ := P
  refine ⟨fun x h1 h2 h3 => Q.inside _ _ (by omega) (by omega) (by omega) (by omega) (by omega) (by omega), fun y h1 h2 h3 => ?_, fun _ => ?_, fun hb => ?_, fun y x h1 h2 h3 h4 => ?_⟩
  · rw [Q.outside _ _ (by omega)]; exact l _ (by omega) (by omega) (by omega)
  · rw [Q.outside _ _ (by omega)]; exact z _ _ (by omega) (by omega) (by omega) (by omega)
  · rw [Q.outside _ _ (by omega), ← b (by omega)]; congr 1; omega
  · rw [Q.outside _ _ (by omega)]; exact z _ _ (by omega) (by omega) (by omega) (by omega)

theorem Pre.first (P : Pre D FH FW Y X H (w + W) tr bl) (hW : 0 < W) : Pre D FH FW Y X H w true bl := by
  obtain ⟨a, l, t, b, z⟩ := P
  refine ⟨fun x h1 h2 h3 => a x h1 (by omega) h3, l, fun hF => a _ (by omega) (by omega) (by omega), b, fun y x h1 h2 h3 h4 => z y x h1 h2 h3 (by omega)⟩

theorem Pre.second (P : Pre D FH FW Y X H (w + W) tr bl) (Q : Post D D1 FH FW Y X H w) (hF : X + w < FW) (hw : 0 < w) : Pre D1 FH FW Y (X + w) H W tr false := by
  obtain ⟨a, l, t, b, z⟩ := P
  refine ⟨fun x h1 h2 h3 => ?_, fun y h1 h2 h3 => Q.inside _ _ (by omega) (by omega) (by omega) (by omega) (by omega) (by omega), fun ht => ?_, fun _ => ?_, fun y x h1 h2 h3 h4 => ?_⟩
  · rw [Q.outside _ _ (by omega)]; exact a _ (by omega) (by omega) (by omega)
  · rw [Q.outside _ _ (by omega), ← t (by omega)]; congr 1; omega
  · rw [Q.outside _ _ (by omega)]; exact z _ _ (by omega) (by omega) (by omega) (by omega)
  · rw [Q.outside _ _ (by omega)]; exact z _ _ (by omega) (by omega) (by omega) (by omega)

theorem Post.vcomp (Q : Post D D1 FH FW Y X h W) (R : Post D1 D2 FH FW (Y + h) X H W) : Post D D2 FH FW Y X (h + H) W := by
  refine ⟨fun y x hn => ?_, fun y x h1 h2 h3 h4 h5 h6 => ?_⟩
  · rw [R.outside _ _ (by omega), Q.outside _ _ (by omega)]
  · by_cases hy : y < Y + h
    · rw [R.outside _ _ (by omega)]; exact Q.inside _ _ h1 hy h3 h4 h5 h6
    · exact R.inside _ _ (by omega) (by omega) h3 h4 h5 h6

theorem Post.hcomp (Q : Post D D1 FH FW Y X H w) (R : Post D1 D2 FH FW Y (X + w) H W) : Post D D2 FH FW Y X H (w + W) := by
  refine ⟨fun y x hn => ?_, fun y x h1 h2 h3 h4 h5 h6 => ?_⟩
  · rw [R.outside _ _ (by omega), Q.outside _ _ (by omega)]
  · by_cases hx : x < X + w
    · rw [R.outside _ _ (by omega)]; exact Q.inside _ _ h1 h2 h3 hx h5 h6
    · exact R.inside _ _ h1 h2 (by omega) (by omega) h5 h6

theorem Post.out (hF : FH ≤ Y ∨ FW ≤ X) : Post D D FH FW Y X H W :=
  ⟨fun _ _ _ => rfl, fun y x h1 h2 h3 h4 h5 h6 => by omega⟩
end

/-- The end of `has_top_right`: the last transform of the first row of a block. -/
def fTR (bw bh miRow miCol : Nat) : Option Bool := hasTopRight bw bh miCol miRow true true bw 0 0 0 0

/-- The end of `has_bottom_left`: the last transform of the first column of a block. -/
def fBL (bw bh miRow miCol ssy : Nat) : Option Bool := hasBottomLeft bw bh miCol miRow true true (max ((bh / 4) >>> ssy) 1 * 4) 0 0 0 ssy

/-! The tables of the encoder know the order of the squares. -/
set_option synthInstance.maxHeartbeats 400000 in
set_option synthInstance.maxSize 1024 in
theorem split_tr : ∀ n ∈ [2, 4, 8, 16], ∀ r < 16, ∀ c < 16, r % n = 0 → c % n = 0 →
    fTR (4 * (n / 2)) (4 * (n / 2)) r c = some true ∧ fTR (4 * (n / 2)) (4 * (n / 2)) r (c + n / 2) = fTR (4 * n) (4 * n) r c ∧
    fTR (4 * (n / 2)) (4 * (n / 2)) (r + n / 2) c = some true ∧ fTR (4 * (n / 2)) (4 * (n / 2)) (r + n / 2) (c + n / 2) = some false := by
  decide +kernel

set_option synthInstance.maxHeartbeats 400000 in
set_option synthInstance.maxSize 1024 in
theorem half_tr : ∀ n ∈ [2, 4, 8, 16], ∀ r < 16, ∀ c < 16, r % n = 0 → c % n = 0 →
    fTR (4 * n) (4 * (n / 2)) r c = fTR (4 * n) (4 * n) r c ∧ fTR (4 * n) (4 * (n / 2)) (r + n / 2) c = some false ∧
    fTR (4 * (n / 2)) (4 * n) r c = some true ∧ fTR (4 * (n / 2)) (4 * n) r (c + n / 2) = fTR (4 * n) (4 * n) r c := by
  decide +kernel

set_option synthInstance.maxHeartbeats 400000 in
set_option synthInstance.maxSize 1024 in
theorem small_tr : ∀ r < 16, ∀ c < 16, r % 2 = 0 → c % 2 = 0 →
    fTR 8 8 (r + 1) (c + 1) = fTR 8 8 r c ∧ fTR 8 8 (r + 1) c = fTR 8 8 r c ∧ fTR 8 8 r (c + 1) = fTR 8 8 r c ∧
    fTR 8 4 r (c + 1) = fTR 8 4 r c ∧ fTR 8 4 (r + 1) (c + 1) = fTR 8 4 (r + 1) c := by
  decide +kernel

set_option synthInstance.maxHeartbeats 400000 in
set_option synthInstance.maxSize 1024 in
theorem split_bl : ∀ ssy ∈ [0, 1], ∀ n ∈ [2, 4, 8, 16], ssy = 0 ∨ n ≠ 2 → ∀ r < 16, ∀ c < 16, r % n = 0 → c % n = 0 →
    fBL (4 * (n / 2)) (4 * (n / 2)) r c ssy = some true ∧ fBL (4 * (n / 2)) (4 * (n / 2)) r (c + n / 2) ssy = some false ∧
    fBL (4 * (n / 2)) (4 * (n / 2)) (r + n / 2) c ssy = fBL (4 * n) (4 * n) r c ssy ∧
    fBL (4 * (n / 2)) (4 * (n / 2)) (r + n / 2) (c + n / 2) ssy = some false := by
  decide +kernel

set_option synthInstance.maxHeartbeats 400000 in
set_option synthInstance.maxSize 1024 in
theorem half_bl : ∀ ssy ∈ [0, 1], ∀ n ∈ [2, 4, 8, 16], ssy = 0 ∨ n ≠ 2 → ∀ r < 16, ∀ c < 16, r % n = 0 → c % n = 0 →
    fBL (4 * n) (4 * (n / 2)) r c ssy = some true ∧ fBL (4 * n) (4 * (n / 2)) (r + n / 2) c ssy = fBL (4 * n) (4 * n) r c ssy ∧
    fBL (4 * (n / 2)) (4 * n) r c ssy = fBL (4 * n) (4 * n) r c ssy ∧ fBL (4 * (n / 2)) (4 * n) r (c + n / 2) ssy = some false := by
  decide +kernel

set_option synthInstance.maxHeartbeats 400000 in
set_option synthInstance.maxSize 1024 in
theorem small_bl : ∀ r < 16, ∀ c < 16, r % 2 = 0 → c % 2 = 0 →
    fBL 8 8 (r + 1) (c + 1) 1 = fBL 8 8 r c 1 ∧ fBL 8 8 (r + 1) c 1 = fBL 8 8 r c 1 ∧ fBL 8 8 r (c + 1) 1 = fBL 8 8 r c 1 ∧
    fBL 8 4 r (c + 1) 0 = fBL 8 4 r c 0 ∧ fBL 8 4 (r + 1) (c + 1) 0 = fBL 8 4 (r + 1) c 0 := by
  decide +kernel

/-- The end of the tile in the plane, relative to the superblock. -/
def th (g : Geo) (r0 : Nat) : Nat := (g.rowEnd - r0) >>> g.subY
@[inherit_doc th] def tw (g : Geo) (c0 : Nat) : Nat := (g.colEnd - c0) >>> g.subX

/-- Where blocks start, in one direction: at a multiple of their size. -/
def Aligned (sub x b W : Nat) : Prop := W ∣ x >>> sub ∧ W ∣ 16 >>> sub ∧ (sub = 1 → b = 1 ∨ x % 2 = 0)

theorem aligned {m k x b : Nat} (hm : m ∈ [1, 2, 4, 8, 16]) (hk : k = 0 ∨ k = 1) (h1 : m = 1 → k = 0) (hx : x % m = 0) : Aligned k x b (m >>> k) := by
  simp only [List.mem_cons, List.not_mem_nil, or_false] at hm
  unfold Aligned
  rcases hk with rfl | rfl <;> rcases hm with rfl | rfl | rfl | rfl | rfl <;> simp only [Nat.shiftRight_eq_div_pow] <;> omega

/-- What the encoder takes for the flags of a transform block is what the decoder knows. -/
structure Ev (g : Geo) (r0 c0 : Nat) (e : Event) : Prop where
  row : r0 ≤ e.blk.row ∧ e.blk.row < r0 + 16
  col : c0 ≤ e.blk.col ∧ e.blk.col < c0 + 16
  has : g.has e.blk = true
  fits : g.Fits e.blk.bw4 e.blk.bh4 e.blk.tw e.blk.th
  alignX : Aligned g.subX (e.blk.col - c0) e.blk.bw4 (g.planeW e.blk)
  alignY : Aligned g.subY (e.blk.row - r0) e.blk.bh4 (g.planeH e.blk)
  tw : 0 < e.blk.tw ∧ e.blk.tw ∣ e.x
  th : 0 < e.blk.th ∧ e.blk.th ∣ e.y
  sbX : (e.blk.col - c0) >>> g.subX + e.x + e.blk.tw ≤ 16 >>> g.subX
  sbY : (e.blk.row - r0) >>> g.subY + e.y + e.blk.th ≤ 16 >>> g.subY
  inX : (e.blk.col - c0) >>> g.subX + e.x < fw g c0
  inY : (e.blk.row - r0) >>> g.subY + e.y < fh g r0
  aboveRt : (e.blk.col - c0) >>> g.subX + e.x + e.blk.tw < fw g c0 →
    hasTopRight (supersample (4 * e.blk.bw4) (4 * e.blk.bh4) g.subX g.subY).1 (supersample (4 * e.blk.bw4) (4 * e.blk.bh4) g.subX g.subY).2
      e.blk.col e.blk.row true (decide ((e.blk.col - c0) >>> g.subX + e.x + e.blk.tw < Intra.tw g c0)) (4 * e.blk.tw) e.y e.x g.subX g.subY = some e.aboveRt
  belowLft : (e.blk.row - r0) >>> g.subY + e.y + e.blk.th < fh g r0 →
    hasBottomLeft (supersample (4 * e.blk.bw4) (4 * e.blk.bh4) g.subX g.subY).1 (supersample (4 * e.blk.bw4) (4 * e.blk.bh4) g.subX g.subY).2
      e.blk.col e.blk.row (decide ((e.blk.row - r0) >>> g.subY + e.y + e.blk.th < Intra.th g r0)) true (4 * e.blk.th) e.y e.x g.subX g.subY = some e.belowLft

theorem hasTopRight_eq {bw bh mc mr tx y x ssx ssy W : Nat} (hb : bw ≤ 64 ∧ 4 ≤ bw) (hW : max ((bw / 4) >>> ssx) 1 = W) (htx : 4 * tx / 4 = tx) (ra : Bool) :
    hasTopRight bw bh mc mr true ra (4 * tx) y x ssx ssy =
      if ra = false then some false else if x + tx < W then some true else if y = 0 then fTR bw bh mr mc else some false := by
  unfold fTR hasTopRight
  cases ra
  · simp
  · simp only [Bool.not_true, Bool.or_self, Bool.false_eq_true, if_false, htx, hW, if_neg (show ¬ bw > 64 by omega), Nat.lt_irrefl,
      Nat.zero_add, Nat.shiftRight_zero, gt_iff_lt, Bool.true_eq_false]
    by_cases hy : 0 < y
    · rw [if_pos hy]
      by_cases hx : x + tx < W
      · rw [if_pos hx]; simp [hx]
      · rw [if_neg hx, if_neg (by omega)]; simp [hx]
    · rw [if_neg hy]
      by_cases hx : x + tx < W
      · rw [if_pos hx, if_pos hx]
      · rw [if_neg hx, if_neg hx, if_pos (show y = 0 by omega), if_neg (show ¬ bw / 4 < max (bw / 4) 1 by omega)]

theorem hasBottomLeft_eq {bw bh mc mr tx y x ssx ssy H : Nat} (hb : bw ≤ 64) (hH : max ((bh / 4) >>> ssy) 1 = H) (htx : 4 * tx / 4 = tx) (hfit : y + tx ≤ H) (ba : Bool) :
    hasBottomLeft bw bh mc mr ba true (4 * tx) y x ssx ssy =
      if ba = false then some false else if 0 < x then some false else if y + tx < H then some true else fBL bw bh mr mc ssy := by
  unfold fBL hasBottomLeft
  cases ba
  · simp
  · simp only [Bool.not_true, Bool.or_self, Bool.false_eq_true, if_false, htx, hH, if_neg (show ¬ (bw > 64 ∧ 0 < x ∧ x % (16 >>> ssx) = 0) by omega), Nat.lt_irrefl,
      Nat.zero_add, gt_iff_lt, Bool.true_eq_false, and_false, false_and]
    by_cases hx : 0 < x
    · rw [if_pos hx, if_pos hx]
    · rw [if_neg hx, if_neg hx]
      by_cases hy : y + tx < H
      · rw [if_pos hy, if_pos hy]
      · rw [if_neg hy, if_neg hy, Nat.mul_div_cancel _ (by decide : 0 < 4), if_neg (Nat.lt_irrefl H)]
        have e : y + tx = H := by omega
        simp only [Nat.add_zero, Nat.add_assoc, e]

theorem in_tile {sub e0 m s0 v : Nat} (hs : sub = 0 ∨ sub = 1) (h : e0 = m ∨ s0 + 16 ≤ e0) (hv : v < (m - s0) >>> sub) (hl : v < 16 >>> sub) :
    v < (e0 - s0) >>> sub := by
  rcases h with rfl | h
  · exact hv
  · rcases hs with rfl | rfl <;> simp only [Nat.shiftRight_eq_div_pow] at hl ⊢ <;> omega

/-- A block with its flags. -/
theorem blk_ok {g : Geo} {r0 c0 : Nat} (S : Sb g r0 c0) {b : Blk} {zw zh : Nat} (hr : r0 ≤ b.row ∧ b.row < r0 + 16) (hc : c0 ≤ b.col ∧ b.col < c0 + 16) (hh : g.has b = true)
    (hz : supersample (4 * b.bw4) (4 * b.bh4) g.subX g.subY = (4 * zw, 4 * zh)) (hzw : 1 ≤ zw ∧ zw ≤ 16) (pw : max (zw >>> g.subX) 1 = g.planeW b) (ph : max (zh >>> g.subY) 1 = g.planeH b)
    (hy : ((b.row - r0) >>> g.subY) + g.planeH b ≤ 16 >>> g.subY) (hx : ((b.col - c0) >>> g.subX) + g.planeW b ≤ 16 >>> g.subX)
    (hax : Aligned g.subX (b.col - c0) b.bw4 (g.planeW b)) (hay : Aligned g.subY (b.row - r0) b.bh4 (g.planeH b))
    (hf : g.Fits b.bw4 b.bh4 b.tw b.th) {s : State} {v w : Bool} (hv : fTR (4 * zw) (4 * zh) b.row b.col = some v) (hw : fBL (4 * zw) (4 * zh) b.row b.col g.subY = some w)
    (P : Pre s.decoded (fh g r0) (fw g c0) ((b.row - r0) >>> g.subY) ((b.col - c0) >>> g.subX) (g.planeH b) (g.planeW b)
      (v && decide (((b.col - c0) >>> g.subX) + g.planeW b < tw g c0)) (w && decide (((b.row - r0) >>> g.subY) + g.planeH b < th g r0))) :
    Post s.decoded (g.residual b s).decoded (fh g r0) (fw g c0) ((b.row - r0) >>> g.subY) ((b.col - c0) >>> g.subX) (g.planeH b) (g.planeW b) ∧
    ∀ e ∈ (g.residual b s).events, e ∈ s.events ∨ Ev g r0 c0 e := by
  obtain ⟨Q, E⟩ := residual_ok S hr.1 hc.1 hh hy hx hf P
  refine ⟨Q, fun e he => ?_⟩
  rcases E e he with h | F
  · exact Or.inl h
  · right
    have hf' := hf
    obtain ⟨f1, f2⟩ := hf
    have pw0 : 0 < g.planeW b := by unfold Spec.Geo.planeW; omega
    have ph0 : 0 < g.planeH b := by unfold Spec.Geo.planeH; omega
    have hb := F.blk
    refine ⟨by rw [hb]; exact hr, by rw [hb]; exact hc, by rw [hb]; exact hh, by rw [hb]; exact hf', by rw [hb]; exact hax, by rw [hb]; exact hay, by rw [hb]; exact ⟨Nat.pos_of_dvd_of_pos f1 pw0, F.x.1⟩, by rw [hb]; exact ⟨Nat.pos_of_dvd_of_pos f2 ph0, F.y.1⟩,
      by rw [hb]; have := F.x.2; omega, by rw [hb]; have := F.y.2; omega, by rw [hb]; exact F.inX, by rw [hb]; exact F.inY, fun hF => ?_, fun hF => ?_⟩
    · rw [hb] at hF ⊢
      rw [hz, F.aboveRt hF]
      simp only
      rw [hasTopRight_eq (W := g.planeW b) (by omega) (by rw [Nat.mul_div_cancel_left _ (by decide)]; exact pw) (Nat.mul_div_cancel_left _ (by decide))]
      by_cases hx1 : e.x + b.tw < g.planeW b
      · rw [if_pos hx1, if_pos hx1]
        have : ((b.col - c0) >>> g.subX) + e.x + b.tw < tw g c0 := in_tile S.subX S.colTile hF (by omega)
        rw [if_neg (by simp [this])]
      · rw [if_neg hx1, if_neg hx1]
        have e1 : ((b.col - c0) >>> g.subX) + e.x + b.tw = ((b.col - c0) >>> g.subX) + g.planeW b := by have := F.x.2; omega
        rw [e1, hv]
        by_cases hra : ((b.col - c0) >>> g.subX) + g.planeW b < tw g c0 <;> by_cases hy0 : e.y = 0 <;> simp [hra, hy0]
    · rw [hb] at hF ⊢
      rw [hz, F.belowLft hF]
      simp only
      rw [hasBottomLeft_eq (H := g.planeH b) (by omega) (by rw [Nat.mul_div_cancel_left _ (by decide)]; exact ph) (Nat.mul_div_cancel_left _ (by decide)) F.y.2]
      by_cases hx0 : 0 < e.x
      · rw [if_pos hx0, if_pos hx0]; split <;> rfl
      · rw [if_neg hx0, if_neg hx0]
        by_cases hy1 : e.y + b.th < g.planeH b
        · rw [if_pos hy1, if_pos hy1]
          have : ((b.row - r0) >>> g.subY) + e.y + b.th < th g r0 := in_tile S.subY S.rowTile hF (by omega)
          rw [if_neg (by simp [this])]
        · rw [if_neg hy1, if_neg hy1]
          have e1 : ((b.row - r0) >>> g.subY) + e.y + b.th = ((b.row - r0) >>> g.subY) + g.planeH b := by have := F.y.2; omega
          rw [e1, hw]
          by_cases hba : ((b.row - r0) >>> g.subY) + g.planeH b < th g r0 <;> simp [hba]

theorem fTR_add {bw bh r0 c0 rr cc : Nat} (h1 : r0 % 16 = 0) (h2 : c0 % 16 = 0) : fTR bw bh (r0 + rr) (c0 + cc) = fTR bw bh rr cc := by
  unfold fTR hasTopRight
  simp only
  rw [show (r0 + rr) % 16 = rr % 16 by omega, show (c0 + cc) % 16 = cc % 16 by omega]

theorem fBL_add {bw bh r0 c0 rr cc ssy : Nat} (h1 : r0 % 16 = 0) (h2 : c0 % 16 = 0) : fBL bw bh (r0 + rr) (c0 + cc) ssy = fBL bw bh rr cc ssy := by
  unfold fBL hasBottomLeft
  simp only
  rw [show (r0 + rr) % 16 = rr % 16 by omega, show (c0 + cc) % 16 = cc % 16 by omega]

section
variable {g : Geo} {r0 c0 : Nat}

/-- `blk_ok` with positions relative to the superblock. -/
theorem blk_rel (S : Sb g r0 c0) {rr cc bw4 bh4 tx ty zw zh H W : Nat} (hr : rr < 16) (hc : cc < 16) (hh : g.has ⟨r0 + rr, c0 + cc, bw4, bh4, tx, ty⟩ = true)
    (hz : supersample (4 * bw4) (4 * bh4) g.subX g.subY = (4 * zw, 4 * zh)) (hzw : 1 ≤ zw ∧ zw ≤ 16) (pw : max (zw >>> g.subX) 1 = W) (pW : max 1 (bw4 >>> g.subX) = W)
    (ph : max (zh >>> g.subY) 1 = H) (pH : max 1 (bh4 >>> g.subY) = H)
    (hy : rr >>> g.subY + H ≤ 16 >>> g.subY) (hx : cc >>> g.subX + W ≤ 16 >>> g.subX) (hax : Aligned g.subX cc bw4 W) (hay : Aligned g.subY rr bh4 H)
    (hf : g.Fits bw4 bh4 tx ty) {s : State} {v w : Bool} (hv : fTR (4 * zw) (4 * zh) rr cc = some v) (hw : fBL (4 * zw) (4 * zh) rr cc g.subY = some w)
    (P : Pre s.decoded (fh g r0) (fw g c0) (rr >>> g.subY) (cc >>> g.subX) H W
      (v && decide (cc >>> g.subX + W < tw g c0)) (w && decide (rr >>> g.subY + H < th g r0))) :
    Post s.decoded (g.residual ⟨r0 + rr, c0 + cc, bw4, bh4, tx, ty⟩ s).decoded (fh g r0) (fw g c0) (rr >>> g.subY) (cc >>> g.subX) H W ∧
    ∀ e ∈ (g.residual ⟨r0 + rr, c0 + cc, bw4, bh4, tx, ty⟩ s).events, e ∈ s.events ∨ Ev g r0 c0 e := by
  have e1 : r0 + rr - r0 = rr := Nat.add_sub_cancel_left ..
  have e2 : c0 + cc - c0 = cc := Nat.add_sub_cancel_left ..
  have eW : g.planeW ⟨r0 + rr, c0 + cc, bw4, bh4, tx, ty⟩ = W := pW
  have eH : g.planeH ⟨r0 + rr, c0 + cc, bw4, bh4, tx, ty⟩ = H := pH
  have := blk_ok S (b := ⟨r0 + rr, c0 + cc, bw4, bh4, tx, ty⟩) (zw := zw) (zh := zh) (s := s) (v := v) (w := w) ⟨by simp, by simp; omega⟩ ⟨by simp, by simp; omega⟩ hh hz hzw
    (by rw [eW]; exact pw) (by rw [eH]; exact ph) (by simp only [e1, eH]; exact hy) (by simp only [e2, eW]; exact hx) (by simp only [e2, eW]; exact hax) (by simp only [e1, eH]; exact hay) hf
    (by simp only; rw [fTR_add S.row0 S.col0]; exact hv) (by simp only; rw [fBL_add S.row0 S.col0]; exact hw) (by simp only [e1, e2, eW, eH]; exact P)
  simp only [e1, e2, eW, eH] at this
  exact this

theorem halves {sub n rr : Nat} (hs : sub = 0 ∨ sub = 1) (hn : n ∈ [2, 4, 8, 16]) (h2 : sub = 0 ∨ n ≠ 2) (hr : rr % n = 0) (hl : rr < 16) :
    n >>> sub = (n / 2) >>> sub + (n / 2) >>> sub ∧ (rr + n / 2) >>> sub = rr >>> sub + (n / 2) >>> sub ∧ 0 < (n / 2) >>> sub ∧
    rr >>> sub + ((n / 2) >>> sub + (n / 2) >>> sub) ≤ 16 >>> sub ∧ rr % (n / 2) = 0 ∧ (rr + n / 2) % (n / 2) = 0 ∧ rr + n / 2 < 16 ∧
    (n / 2 = 1 → sub = 0) := by
  simp only [List.mem_cons, List.not_mem_nil, or_false] at hn
  rcases hs with rfl | rfl <;> rcases hn with rfl | rfl | rfl | rfl <;> simp only [Nat.shiftRight_eq_div_pow] <;>
    refine ⟨?_, ?_, ?_, ?_, ?_, ?_, ?_, ?_⟩ <;> first | trivial | omega

theorem row_in (S : Sb g r0 c0) {rr : Nat} : r0 + rr < g.miRows ↔ rr >>> g.subY < fh g r0 := by
  obtain ⟨h1, h2, h3, h4, -, h5, h6, h7, h8, h9, h10, h11, h12⟩ := S
  unfold fh
  rcases h4 with h | h <;> rw [h] <;> simp only [Nat.shiftRight_eq_div_pow] <;> omega

theorem col_in (S : Sb g r0 c0) {cc : Nat} : c0 + cc < g.miCols ↔ cc >>> g.subX < fw g c0 := by
  obtain ⟨h1, h2, h3, h4, -, h5, h6, h7, h8, h9, h10, h11, h12⟩ := S
  unfold fw
  rcases h3 with h | h <;> rw [h] <;> simp only [Nat.shiftRight_eq_div_pow] <;> omega

/-- The decoded cells around a square, and what the encoder's tables say about it. -/
def Around (g : Geo) (r0 c0 n rr cc : Nat) (D : Int → Int → Bool) : Prop :=
  ∃ v w, fTR (4 * n) (4 * n) rr cc = some v ∧ fBL (4 * n) (4 * n) rr cc g.subY = some w ∧
    Pre D (fh g r0) (fw g c0) (rr >>> g.subY) (cc >>> g.subX) (n >>> g.subY) (n >>> g.subX)
      (v && decide (cc >>> g.subX + n >>> g.subX < tw g c0)) (w && decide (rr >>> g.subY + n >>> g.subY < th g r0))

/-- What decoding a square does. -/
def Done (g : Geo) (r0 c0 n rr cc : Nat) (s s' : State) : Prop :=
  Post s.decoded s'.decoded (fh g r0) (fw g c0) (rr >>> g.subY) (cc >>> g.subX) (n >>> g.subY) (n >>> g.subX) ∧
  ∀ e ∈ s'.events, e ∈ s.events ∨ Ev g r0 c0 e

theorem none_ok (S : Sb g r0 c0) {n rr cc tx ty : Nat} {s : State} (hn : n ∈ [1, 2, 4, 8, 16]) (h1 : n = 1 → g.subX = 0) (hr : rr % n = 0) (hc : cc % n = 0)
    (lr : rr < 16) (lc : cc < 16) (hf : g.Fits n n tx ty) (A : Around g r0 c0 n rr cc s.decoded) :
    Done g r0 c0 n rr cc s (g.residual ⟨r0 + rr, c0 + cc, n, n, tx, ty⟩ s) := by
  obtain ⟨v, w, hv, hw, P⟩ := A
  have hs := S.sampling
  have x01 := S.subX
  have y01 := S.subY
  have hsz : supersample (4 * n) (4 * n) g.subX g.subY = (4 * n, 4 * n) := by
    simp only [List.mem_cons, List.not_mem_nil, or_false] at hn
    rcases hn with rfl | rfl | rfl | rfl | rfl
    · have a := h1 rfl
      have b : g.subY = 0 := by omega
      rw [a, b]; rfl
    all_goals rcases x01 with a | a <;> rcases y01 with b | b <;> rw [a, b] <;> rfl
  have hg : n >>> g.subX ≠ 0 ∧ n >>> g.subY ≠ 0 ∧ rr >>> g.subY + n >>> g.subY ≤ 16 >>> g.subY ∧ cc >>> g.subX + n >>> g.subX ≤ 16 >>> g.subX := by
    simp only [List.mem_cons, List.not_mem_nil, or_false] at hn
    rcases hn with rfl | rfl | rfl | rfl | rfl
    · have a := h1 rfl
      have b : g.subY = 0 := by omega
      rw [a, b]
      simp only [Nat.shiftRight_zero]
      omega
    all_goals rcases x01 with a | a <;> rcases y01 with b | b <;> rw [a, b] <;> simp only [Nat.shiftRight_eq_div_pow] <;> omega
  have a1 : max (n >>> g.subX) 1 = n >>> g.subX := Nat.max_eq_left (Nat.pos_of_ne_zero hg.1)
  have a2 : max (n >>> g.subY) 1 = n >>> g.subY := Nat.max_eq_left (Nat.pos_of_ne_zero hg.2.1)
  refine blk_rel S lr lc ?_ hsz ?_ a1 (by rw [Nat.max_comm]; exact a1) a2 (by rw [Nat.max_comm]; exact a2) hg.2.2.1 hg.2.2.2 (aligned hn x01 h1 hc) (aligned hn y01 (fun h => by have := h1 h; omega) hr) hf hv hw P
  · unfold Spec.Geo.has
    simp only [List.mem_cons, List.not_mem_nil, or_false] at hn
    rcases hn with rfl | rfl | rfl | rfl | rfl
    · have a := h1 rfl
      have b : g.subY = 0 := by omega
      simp [a, b]
    all_goals simp
  · simp only [List.mem_cons, List.not_mem_nil, or_false] at hn; omega

theorem has_even {r c bw4 bh4 tx ty : Nat} (h1 : bh4 % 2 = 0 ∨ g.subY = 0) (h2 : bw4 % 2 = 0 ∨ g.subX = 0) : g.has ⟨r, c, bw4, bh4, tx, ty⟩ = true := by
  unfold Spec.Geo.has
  rcases h1 with h1 | h1 <;> rcases h2 with h2 | h2 <;> simp [h1, h2]

theorem max_pos {a : Nat} (h : 0 < a) : max a 1 = a ∧ max 1 a = a := by omega

theorem half_list {n : Nat} (hn : n ∈ [2, 4, 8, 16]) : n / 2 ∈ [1, 2, 4, 8, 16] ∧ 1 ≤ n ∧ n ≤ 16 ∧ 1 ≤ n / 2 ∧ n / 2 ≤ 16 ∧ n % 2 = 0 ∧ (n ≠ 2 → n / 2 % 2 = 0) := by
  simp only [List.mem_cons, List.not_mem_nil, or_false] at hn ⊢
  rcases hn with rfl | rfl | rfl | rfl <;> simp

theorem two_list {n : Nat} (hn : n ∈ [2, 4, 8, 16]) : n ∈ [1, 2, 4, 8, 16] := by
  simp only [List.mem_cons, List.not_mem_nil, or_false] at hn ⊢; omega

theorem sub_mem {k : Nat} (h : k = 0 ∨ k = 1) : k ∈ [0, 1] := by rcases h with rfl | rfl <;> decide

theorem shift_pos {n k : Nat} (hk : k = 0 ∨ k = 1) (hn : n ∈ [2, 4, 8, 16]) : 0 < n >>> k := by
  simp only [List.mem_cons, List.not_mem_nil, or_false] at hn
  rcases hk with rfl | rfl <;> rcases hn with rfl | rfl | rfl | rfl <;> decide

theorem shift_fit {n rr k : Nat} (hk : k = 0 ∨ k = 1) (hn : n ∈ [2, 4, 8, 16]) (hr : rr % n = 0) (hl : rr < 16) : rr >>> k + n >>> k ≤ 16 >>> k := by
  simp only [List.mem_cons, List.not_mem_nil, or_false] at hn
  rcases hk with rfl | rfl <;> rcases hn with rfl | rfl | rfl | rfl <;> simp only [Nat.shiftRight_eq_div_pow] <;> omega

theorem ss_half : ∀ n ∈ [2, 4, 8, 16], ∀ sx ∈ [0, 1], ∀ sy ∈ [0, 1], (sy = 0 ∨ n ≠ 2 → supersample (4 * n) (4 * (n / 2)) sx sy = (4 * n, 4 * (n / 2))) ∧
    (sx = 0 ∨ n ≠ 2 → supersample (4 * (n / 2)) (4 * n) sx sy = (4 * (n / 2), 4 * n)) := by
  decide

theorem horz_ok (S : Sb g r0 c0) {n rr cc tx ty tx' ty' : Nat} {s : State} (hn : n ∈ [2, 4, 8, 16]) (h1 : g.subY = 0 ∨ n ≠ 2) (hr : rr % n = 0) (hc : cc % n = 0)
    (lr : rr < 16) (lc : cc < 16) (hf : g.Fits n (n / 2) tx ty) (hf' : g.Fits n (n / 2) tx' ty') (A : Around g r0 c0 n rr cc s.decoded) :
    Done g r0 c0 n rr cc s (let s := g.residual ⟨r0 + rr, c0 + cc, n, n / 2, tx, ty⟩ s
      if r0 + rr + n / 2 < g.miRows then g.residual ⟨r0 + rr + n / 2, c0 + cc, n, n / 2, tx', ty'⟩ s else s) := by
  obtain ⟨v, w, hv, hw, P⟩ := A
  obtain ⟨k1, k2, k3, k4, k6, k7, k5, k8⟩ := halves S.subY hn h1 hr lr
  obtain ⟨l1, l2, l3, l4, l5, l6, l7⟩ := half_list hn
  have sx := sub_mem S.subX
  have sy := sub_mem S.subY
  have t := half_tr n hn rr lr cc lc hr hc
  have b := half_bl g.subY sy n hn h1 rr lr cc lc hr hc
  have ss := (ss_half n hn g.subX sx g.subY sy).1 h1
  have mW := max_pos (shift_pos S.subX hn)
  have mH := max_pos k3
  have fX := shift_fit S.subX hn hc lc
  have hev : n / 2 % 2 = 0 ∨ g.subY = 0 := by rcases h1 with h | h; exact Or.inr h; exact Or.inl (l7 h)
  rw [k1] at P
  unfold Done
  rw [k1]
  have P1 : Pre s.decoded (fh g r0) (fw g c0) (rr >>> g.subY) (cc >>> g.subX) ((n / 2) >>> g.subY) (n >>> g.subX)
      (v && decide (cc >>> g.subX + n >>> g.subX < tw g c0)) (true && decide (rr >>> g.subY + (n / 2) >>> g.subY < th g r0)) :=
    (P.top k3).congr (fun _ => rfl) fun hF => by
      have := in_tile S.subY S.rowTile hF (by omega)
      simp [th, this]
  obtain ⟨Q1, E1⟩ := blk_rel S (zw := n) (zh := n / 2) lr lc (has_even hev (Or.inl l6)) ss ⟨l2, l3⟩ mW.1 mW.2 mH.1 mH.2 (by omega) fX (aligned (two_list hn) S.subX (by intro h; subst h; simp at hn) hc) (aligned l1 S.subY k8 k6) hf (t.1.trans hv) b.1 P1
  simp only
  generalize g.residual ⟨r0 + rr, c0 + cc, n, n / 2, tx, ty⟩ s = s1 at Q1 E1
  by_cases hF : r0 + rr + n / 2 < g.miRows
  · rw [if_pos hF]
    rw [Nat.add_assoc] at hF ⊢
    have hF' := (row_in S).mp hF
    rw [k2] at hF'
    have P2 : Pre s1.decoded (fh g r0) (fw g c0) ((rr + n / 2) >>> g.subY) (cc >>> g.subX) ((n / 2) >>> g.subY) (n >>> g.subX)
        (false && decide (cc >>> g.subX + n >>> g.subX < tw g c0)) (w && decide ((rr + n / 2) >>> g.subY + (n / 2) >>> g.subY < th g r0)) := by
      rw [k2, Nat.add_assoc]
      exact P.bottom Q1 hF' k3
    obtain ⟨Q2, E2⟩ := blk_rel S (zw := n) (zh := n / 2) k5 lc (has_even hev (Or.inl l6)) ss ⟨l2, l3⟩ mW.1 mW.2 mH.1 mH.2 (by rw [k2]; omega) fX (aligned (two_list hn) S.subX (by intro h; subst h; simp at hn) hc) (aligned l1 S.subY k8 k7) hf' t.2.1 (b.2.1.trans hw) P2
    rw [k2] at Q2
    refine ⟨Q1.vcomp Q2, fun e he => ?_⟩
    rcases E2 e he with h | h
    · exact E1 e h
    · exact Or.inr h
  · rw [if_neg hF]
    have hF' : fh g r0 ≤ rr >>> g.subY + (n / 2) >>> g.subY := by
      rw [Nat.add_assoc, row_in S, k2] at hF; omega
    exact ⟨Q1.vcomp (Post.out (Or.inl hF')), E1⟩

theorem vert_ok (S : Sb g r0 c0) {n rr cc tx ty tx' ty' : Nat} {s : State} (hn : n ∈ [2, 4, 8, 16]) (h1 : g.subX = 0 ∨ n ≠ 2) (hr : rr % n = 0) (hc : cc % n = 0)
    (lr : rr < 16) (lc : cc < 16) (hf : g.Fits (n / 2) n tx ty) (hf' : g.Fits (n / 2) n tx' ty') (A : Around g r0 c0 n rr cc s.decoded) :
    Done g r0 c0 n rr cc s (let s := g.residual ⟨r0 + rr, c0 + cc, n / 2, n, tx, ty⟩ s
      if c0 + cc + n / 2 < g.miCols then g.residual ⟨r0 + rr, c0 + cc + n / 2, n / 2, n, tx', ty'⟩ s else s) := by
  obtain ⟨v, w, hv, hw, P⟩ := A
  obtain ⟨k1, k2, k3, k4, k6, k7, k5, k8⟩ := halves S.subX hn h1 hc lc
  obtain ⟨l1, l2, l3, l4, l5, l6, l7⟩ := half_list hn
  have sx := sub_mem S.subX
  have sy := sub_mem S.subY
  have h1y : g.subY = 0 ∨ n ≠ 2 := by
    have := S.sampling
    have := S.subY
    omega
  have t := half_tr n hn rr lr cc lc hr hc
  have b := half_bl g.subY sy n hn h1y rr lr cc lc hr hc
  have ss := (ss_half n hn g.subX sx g.subY sy).2 h1
  have mH := max_pos (shift_pos S.subY hn)
  have mW := max_pos k3
  have fY := shift_fit S.subY hn hr lr
  have hev : n / 2 % 2 = 0 ∨ g.subX = 0 := by rcases h1 with h | h; exact Or.inr h; exact Or.inl (l7 h)
  rw [k1] at P
  unfold Done
  rw [k1]
  have P1 : Pre s.decoded (fh g r0) (fw g c0) (rr >>> g.subY) (cc >>> g.subX) (n >>> g.subY) ((n / 2) >>> g.subX)
      (true && decide (cc >>> g.subX + (n / 2) >>> g.subX < tw g c0)) (w && decide (rr >>> g.subY + n >>> g.subY < th g r0)) :=
    (P.first k3).congr (fun hF => by
      have := in_tile S.subX S.colTile hF (by omega)
      simp [tw, this]) fun _ => rfl
  obtain ⟨Q1, E1⟩ := blk_rel S (zw := n / 2) (zh := n) lr lc (has_even (Or.inl l6) hev) ss ⟨l4, l5⟩ mW.1 mW.2 mH.1 mH.2 fY (by omega) (aligned l1 S.subX k8 k6) (aligned (two_list hn) S.subY (by intro h; subst h; simp at hn) hr) hf t.2.2.1 (b.2.2.1.trans hw) P1
  simp only
  generalize g.residual ⟨r0 + rr, c0 + cc, n / 2, n, tx, ty⟩ s = s1 at Q1 E1
  by_cases hF : c0 + cc + n / 2 < g.miCols
  · rw [if_pos hF]
    rw [Nat.add_assoc] at hF ⊢
    have hF' := (col_in S).mp hF
    rw [k2] at hF'
    have P2 : Pre s1.decoded (fh g r0) (fw g c0) (rr >>> g.subY) ((cc + n / 2) >>> g.subX) (n >>> g.subY) ((n / 2) >>> g.subX)
        (v && decide ((cc + n / 2) >>> g.subX + (n / 2) >>> g.subX < tw g c0)) (false && decide (rr >>> g.subY + n >>> g.subY < th g r0)) := by
      rw [k2, Nat.add_assoc]
      exact P.second Q1 hF' k3
    obtain ⟨Q2, E2⟩ := blk_rel S (zw := n / 2) (zh := n) lr k5 (has_even (Or.inl l6) hev) ss ⟨l4, l5⟩ mW.1 mW.2 mH.1 mH.2 fY (by rw [k2]; omega) (aligned l1 S.subX k8 k7) (aligned (two_list hn) S.subY (by intro h; subst h; simp at hn) hr) hf' (t.2.2.2.trans hv) b.2.2.2 P2
    rw [k2] at Q2
    refine ⟨Q1.hcomp Q2, fun e he => ?_⟩
    rcases E2 e he with h | h
    · exact E1 e h
    · exact Or.inr h
  · rw [if_neg hF]
    have hF' : fw g c0 ≤ cc >>> g.subX + (n / 2) >>> g.subX := by
      rw [Nat.add_assoc, col_in S, k2] at hF; omega
    exact ⟨Q1.hcomp (Post.out (Or.inr hF')), E1⟩

/-- Four squares in order. -/
theorem quad_ok (S : Sb g r0 c0) {n rr cc : Nat} {s s1 s2 s3 s4 : State} (hn : n ∈ [2, 4, 8, 16]) (h1 : g.subX = 0 ∨ n ≠ 2) (hr : rr % n = 0) (hc : cc % n = 0)
    (lr : rr < 16) (lc : cc < 16)
    (d1 : Around g r0 c0 (n / 2) rr cc s.decoded → Done g r0 c0 (n / 2) rr cc s s1)
    (d2 : ((cc + n / 2) >>> g.subX < fw g c0 → Around g r0 c0 (n / 2) rr (cc + n / 2) s1.decoded) → Done g r0 c0 (n / 2) rr (cc + n / 2) s1 s2)
    (d3 : ((rr + n / 2) >>> g.subY < fh g r0 → Around g r0 c0 (n / 2) (rr + n / 2) cc s2.decoded) → Done g r0 c0 (n / 2) (rr + n / 2) cc s2 s3)
    (d4 : ((rr + n / 2) >>> g.subY < fh g r0 → (cc + n / 2) >>> g.subX < fw g c0 → Around g r0 c0 (n / 2) (rr + n / 2) (cc + n / 2) s3.decoded) →
      Done g r0 c0 (n / 2) (rr + n / 2) (cc + n / 2) s3 s4)
    (A : Around g r0 c0 n rr cc s.decoded) : Done g r0 c0 n rr cc s s4 := by
  obtain ⟨v, w, hv, hw, P⟩ := A
  have h1y : g.subY = 0 ∨ n ≠ 2 := by
    have := S.sampling
    have := S.subY
    omega
  obtain ⟨x1, x2, x3, x4, -, -, x5, -⟩ := halves S.subX hn h1 hc lc
  obtain ⟨y1, y2, y3, y4, -, -, y5, -⟩ := halves S.subY hn h1y hr lr
  have sy := sub_mem S.subY
  obtain ⟨t1, t2, t3, t4⟩ := split_tr n hn rr lr cc lc hr hc
  obtain ⟨b1, b2, b3, b4⟩ := split_bl g.subY sy n hn h1y rr lr cc lc hr hc
  rw [x1, y1] at P
  have inX : cc >>> g.subX + (n / 2) >>> g.subX < fw g c0 → cc >>> g.subX + (n / 2) >>> g.subX < tw g c0 := fun hF => in_tile S.subX S.colTile hF (by omega)
  have inY : rr >>> g.subY + (n / 2) >>> g.subY < fh g r0 → rr >>> g.subY + (n / 2) >>> g.subY < th g r0 := fun hF => in_tile S.subY S.rowTile hF (by omega)
  have top := P.top y3
  obtain ⟨Q1, E1⟩ := d1 ⟨true, true, t1, b1, (top.first x3).congr (fun hF => by simp [inX hF]) fun hF => by simp [inY hF]⟩
  obtain ⟨Q2, E2⟩ := d2 fun hF => by
    rw [x2] at hF
    refine ⟨v, false, t2.trans hv, b2, ?_⟩
    rw [x2, Nat.add_assoc]
    exact (top.second Q1 hF x3).congr (fun _ => rfl) fun _ => rfl
  rw [x2] at Q2
  have Q12 := Q1.hcomp Q2
  obtain ⟨Q3, E3⟩ := d3 fun hF => by
    rw [y2] at hF
    refine ⟨true, w, t3, b3.trans hw, ?_⟩
    rw [y2, Nat.add_assoc]
    exact ((P.bottom Q12 hF y3).first x3).congr (fun hF => by simp [inX hF]) fun _ => rfl
  obtain ⟨Q4, E4⟩ := d4 fun hF hF' => by
    rw [y2] at hF
    rw [x2] at hF'
    rw [y2] at Q3
    refine ⟨false, false, t4, b4, ?_⟩
    rw [y2, x2]
    exact ((P.bottom Q12 hF y3).second Q3 hF' x3).congr (fun _ => rfl) fun _ => rfl
  rw [y2] at Q3
  rw [y2, x2] at Q4
  unfold Done
  rw [x1, y1]
  refine ⟨Q12.vcomp (Q3.hcomp Q4), fun e he => ?_⟩
  rcases E4 e he with h | h
  · rcases E3 e h with h | h
    · rcases E2 e h with h | h
      · exact E1 e h
      · exact Or.inr h
    · exact Or.inr h
  · exact Or.inr h

theorem residual_skip {b : Blk} {s : State} (h : g.has b = false) : g.residual b s = s := by
  unfold Spec.Geo.residual; rw [h]; rfl

/-- In 4:2:0 an 8x8 square has one chroma block, coded with the last of its blocks. -/
theorem last_ok (S : Sb g r0 c0) {rr cc dy dx bw4 bh4 tx ty : Nat} {s : State} (hX : g.subX = 1) (hY : g.subY = 1) (hr : rr % 2 = 0) (hc : cc % 2 = 0)
    (lr : rr < 16) (lc : cc < 16) (hdy : dy ≤ 1) (hdx : dx ≤ 1) (hb : bh4 = 2 ∧ bw4 = 1 ∧ dx = 1 ∧ dy = 0 ∨ bh4 = 1 ∧ bw4 = 2 ∧ dy = 1 ∧ dx = 0 ∨ bh4 = 1 ∧ bw4 = 1 ∧ dy = 1 ∧ dx = 1)
    (ht : fTR 8 8 (rr + dy) (cc + dx) = fTR 8 8 rr cc) (hbl : fBL 8 8 (rr + dy) (cc + dx) 1 = fBL 8 8 rr cc 1)
    (hf : g.Fits bw4 bh4 tx ty) (A : Around g r0 c0 2 rr cc s.decoded) :
    Done g r0 c0 2 rr cc s (g.residual ⟨r0 + (rr + dy), c0 + (cc + dx), bw4, bh4, tx, ty⟩ s) := by
  obtain ⟨v, w, hv, hw, P⟩ := A
  have r16 := S.row0
  have c16 := S.col0
  have ey : (rr + dy) >>> g.subY = rr >>> g.subY := by rw [hY]; simp only [Nat.shiftRight_eq_div_pow]; omega
  have ex : (cc + dx) >>> g.subX = cc >>> g.subX := by rw [hX]; simp only [Nat.shiftRight_eq_div_pow]; omega
  have hh : g.has ⟨r0 + (rr + dy), c0 + (cc + dx), bw4, bh4, tx, ty⟩ = true := by
    unfold Spec.Geo.has
    simp only [hX, hY, Bool.and_eq_true, Bool.or_eq_true, decide_eq_true_eq]
    omega
  have hz : supersample (4 * bw4) (4 * bh4) g.subX g.subY = (4 * 2, 4 * 2) := by
    rw [hX, hY]
    rcases hb with ⟨rfl, rfl, -⟩ | ⟨rfl, rfl, -⟩ | ⟨rfl, rfl, -⟩ <;> rfl
  have pW : max 1 (bw4 >>> g.subX) = 2 >>> g.subX := by
    rw [hX]
    rcases hb with ⟨rfl, rfl, -⟩ | ⟨rfl, rfl, -⟩ | ⟨rfl, rfl, -⟩ <;> rfl
  have pH : max 1 (bh4 >>> g.subY) = 2 >>> g.subY := by
    rw [hY]
    rcases hb with ⟨rfl, rfl, -⟩ | ⟨rfl, rfl, -⟩ | ⟨rfl, rfl, -⟩ <;> rfl
  have := blk_rel S (rr := rr + dy) (cc := cc + dx) (zw := 2) (zh := 2) (s := s) (v := v) (w := w) (H := 2 >>> g.subY) (W := 2 >>> g.subX) (by omega) (by omega) hh hz (by decide)
    (by rw [hX]; rfl) pW (by rw [hY]; rfl) pH
    (by rw [ey, hY]; simp only [Nat.shiftRight_eq_div_pow]; omega) (by rw [ex, hX]; simp only [Nat.shiftRight_eq_div_pow]; omega)
    (by rw [hX]; exact ⟨Nat.one_dvd _, by decide, fun _ => by omega⟩) (by rw [hY]; exact ⟨Nat.one_dvd _, by decide, fun _ => by omega⟩) hf
    (ht.trans hv) (by rw [hY] at hw ⊢; exact hbl.trans hw) (by rw [ey, ex]; exact P)
  rw [ey, ex] at this
  exact this

/-- In 4:2:2 the chroma of four 4x4 blocks is coded with the two on the right. -/
theorem pair_ok (S : Sb g r0 c0) {rr cc tx ty tx' ty' : Nat} {s : State} (hX : g.subX = 1) (hY : g.subY = 0) (hr : rr % 2 = 0) (hc : cc % 2 = 0)
    (lr : rr < 16) (lc : cc < 16) (hin : r0 + rr < g.miRows)
    (hf : g.Fits 1 1 tx ty) (hf' : g.Fits 1 1 tx' ty') (A : Around g r0 c0 2 rr cc s.decoded) :
    Done g r0 c0 2 rr cc s (g.residual ⟨r0 + (rr + 1), c0 + (cc + 1), 1, 1, tx', ty'⟩ (g.residual ⟨r0 + rr, c0 + (cc + 1), 1, 1, tx, ty⟩ s)) := by
  obtain ⟨v, w, hv, hw, P⟩ := A
  have r16 := S.row0
  have c16 := S.col0
  have hF : r0 + (rr + 1) < g.miRows := by have := S.rows; omega
  have hF' := (row_in S).mp hF
  have ex : (cc + 1) >>> g.subX = cc >>> g.subX := by rw [hX]; simp only [Nat.shiftRight_eq_div_pow]; omega
  have hh : ∀ r a b, g.has ⟨r, c0 + (cc + 1), 1, 1, a, b⟩ = true := by
    intro r a b
    unfold Spec.Geo.has
    simp only [hX, hY, Bool.and_eq_true, Bool.or_eq_true, decide_eq_true_eq]
    exact ⟨Or.inr trivial, Or.inl (Or.inl (by omega))⟩
  have hz : supersample (4 * 1) (4 * 1) g.subX g.subY = (4 * 2, 4 * 1) := by rw [hX, hY]; rfl
  have t := half_tr 2 (by decide) rr lr cc lc hr hc
  have b := half_bl 0 (by decide) 2 (by decide) (Or.inl rfl) rr lr cc lc hr hc
  obtain ⟨-, -, -, t4, t5⟩ := small_tr rr lr cc lc hr hc
  obtain ⟨-, -, -, b4, b5⟩ := small_bl rr lr cc lc hr hc
  unfold Done
  rw [hY] at P hw hF' ⊢
  rw [show 2 >>> 0 = 1 + 1 from rfl] at P ⊢
  rw [Nat.shiftRight_zero] at hF'
  rw [Nat.shiftRight_zero] at P ⊢
  have eX : 2 >>> g.subX = 1 := by rw [hX]; rfl
  have gX : cc >>> g.subX + 1 ≤ 16 >>> g.subX := by rw [hX]; simp only [Nat.shiftRight_eq_div_pow]; omega
  rw [eX] at P ⊢
  have P1 : Pre s.decoded (fh g r0) (fw g c0) rr (cc >>> g.subX) 1 1
      (v && decide (cc >>> g.subX + 1 < tw g c0)) (true && decide (rr + 1 < th g r0)) :=
    (P.top (by decide)).congr (fun _ => rfl) fun hF => by
      have := in_tile S.subY S.rowTile hF (by rw [hY, Nat.shiftRight_zero]; omega)
      simp [th, this]
  have B := blk_rel S (rr := rr) (cc := cc + 1) (zw := 2) (zh := 1) (H := 1) (W := 1) (s := s) (v := v) (w := true) lr (by omega) (hh _ tx ty) hz (by decide)
    (by rw [hX]; rfl) (by rw [hX]; rfl) (by rw [hY]; rfl) (by rw [hY]; rfl) (by rw [hY]; simp only [Nat.shiftRight_zero]; omega) (by rw [ex]; exact gX) ⟨Nat.one_dvd _, Nat.one_dvd _, fun _ => Or.inl rfl⟩ ⟨Nat.one_dvd _, Nat.one_dvd _, fun _ => Or.inl rfl⟩ hf
    (t4.trans (t.1.trans hv)) (by rw [hY]; exact b4.trans b.1) (by rw [ex, hY]; exact P1)
  obtain ⟨Q1, E1⟩ := B
  generalize g.residual ⟨r0 + rr, c0 + (cc + 1), 1, 1, tx, ty⟩ s = s1 at Q1 E1
  rw [ex, hY, Nat.shiftRight_zero] at Q1
  have P2 : Pre s1.decoded (fh g r0) (fw g c0) (rr + 1) (cc >>> g.subX) 1 1
      (false && decide (cc >>> g.subX + 1 < tw g c0)) (w && decide (rr + 1 + 1 < th g r0)) := P.bottom Q1 hF' (by decide)
  have B := blk_rel S (rr := rr + 1) (cc := cc + 1) (zw := 2) (zh := 1) (H := 1) (W := 1) (s := s1) (v := false) (w := w) (by omega) (by omega) (hh _ tx' ty') hz (by decide)
    (by rw [hX]; rfl) (by rw [hX]; rfl) (by rw [hY]; rfl) (by rw [hY]; rfl) (by rw [hY]; simp only [Nat.shiftRight_zero]; omega) (by rw [ex]; exact gX) ⟨Nat.one_dvd _, Nat.one_dvd _, fun _ => Or.inl rfl⟩ ⟨Nat.one_dvd _, Nat.one_dvd _, fun _ => Or.inl rfl⟩ hf'
    (t5.trans t.2.1) (by rw [hY]; exact b5.trans (b.2.1.trans hw)) (by rw [ex, hY]; exact P2)
  obtain ⟨Q2, E2⟩ := B
  rw [ex, hY, Nat.shiftRight_zero] at Q2
  refine ⟨Q1.vcomp Q2, fun e he => ?_⟩
  rcases E2 e he with h | h
  · exact E1 e h
  · exact Or.inr h

theorem one_none {t : Spec.Tree} (h : g.Ok 1 t) : ∃ a b, t = .none a b ∧ g.Fits 1 1 a b := by
  cases t with
  | none a b => exact ⟨a, b, rfl, h⟩
  | horz => exact absurd h.1 (by decide)
  | vert => exact absurd h.1 (by decide)
  | split => exact absurd h.1 (by decide)

/-- Everything below a square of the partition tree. -/
theorem partition_ok (S : Sb g r0 c0) (t : Spec.Tree) : ∀ {n rr cc : Nat} {s : State}, n ∈ [1, 2, 4, 8, 16] → (n = 1 → g.subX = 0) → rr % n = 0 → cc % n = 0 →
    rr < 16 → cc < 16 → g.Ok n t → (rr >>> g.subY < fh g r0 → cc >>> g.subX < fw g c0 → Around g r0 c0 n rr cc s.decoded) →
    Done g r0 c0 n rr cc s (g.partition n (r0 + rr) (c0 + cc) t s) := by
  induction t with
  | none tx ty =>
    intro n rr cc s hn h1 hr hc lr lc ho A
    unfold Spec.Geo.partition
    by_cases hout : r0 + rr ≥ g.miRows ∨ c0 + cc ≥ g.miCols
    · rw [if_pos hout]
      exact ⟨Post.out (by rw [← Nat.not_lt, ← Nat.not_lt, ← row_in S, ← col_in S]; omega), fun _ h => Or.inl h⟩
    · rw [if_neg hout]
      exact none_ok S hn h1 hr hc lr lc ho (A ((row_in S).mp (by omega)) ((col_in S).mp (by omega)))
  | horz tx ty tx' ty' =>
    intro n rr cc s hn h1 hr hc lr lc ho A
    unfold Spec.Geo.partition
    by_cases hout : r0 + rr ≥ g.miRows ∨ c0 + cc ≥ g.miCols
    · rw [if_pos hout]
      exact ⟨Post.out (by rw [← Nat.not_lt, ← Nat.not_lt, ← row_in S, ← col_in S]; omega), fun _ h => Or.inl h⟩
    · rw [if_neg hout]
      have A := A ((row_in S).mp (by omega)) ((col_in S).mp (by omega))
      obtain ⟨o1, o2, o3⟩ := ho
      have hn' : n ∈ [2, 4, 8, 16] := by simp only [List.mem_cons, List.not_mem_nil, or_false] at hn ⊢; omega
      by_cases h : g.subY = 0 ∨ n ≠ 2
      · exact horz_ok S hn' h hr hc lr lc o2 o3 A
      · have hY : g.subY = 1 := by have := S.subY; omega
        have hX := S.sampling hY
        obtain rfl : n = 2 := by omega
        have hin : r0 + rr + 2 / 2 < g.miRows := by have := S.rows; have := S.row0; omega
        simp only
        rw [if_pos hin, residual_skip (b := ⟨r0 + rr, c0 + cc, 2, 2 / 2, tx, ty⟩) (by
          unfold Spec.Geo.has
          have := S.row0
          simp only [hX, hY]
          rw [decide_eq_false (show ¬ (r0 + rr) % 2 = 1 by omega)]
          rfl)]
        exact last_ok S (dy := 1) (dx := 0) hX hY hr hc lr lc (by decide) (by decide) (Or.inr (Or.inl ⟨rfl, rfl, rfl, rfl⟩)) (small_tr rr lr cc lc hr hc).2.1
          (small_bl rr lr cc lc hr hc).2.1 o3 A
  | vert tx ty tx' ty' =>
    intro n rr cc s hn h1 hr hc lr lc ho A
    unfold Spec.Geo.partition
    by_cases hout : r0 + rr ≥ g.miRows ∨ c0 + cc ≥ g.miCols
    · rw [if_pos hout]
      exact ⟨Post.out (by rw [← Nat.not_lt, ← Nat.not_lt, ← row_in S, ← col_in S]; omega), fun _ h => Or.inl h⟩
    · rw [if_neg hout]
      have A := A ((row_in S).mp (by omega)) ((col_in S).mp (by omega))
      obtain ⟨o1, o4, o2, o3⟩ := ho
      have hn' : n ∈ [2, 4, 8, 16] := by simp only [List.mem_cons, List.not_mem_nil, or_false] at hn ⊢; omega
      by_cases h : g.subX = 0 ∨ n ≠ 2
      · exact vert_ok S hn' h hr hc lr lc o2 o3 A
      · have hX : g.subX = 1 := by have := S.subX; omega
        have hY := o4 hX
        obtain rfl : n = 2 := by omega
        have hin : c0 + cc + 2 / 2 < g.miCols := by have := S.cols; have := S.col0; omega
        simp only
        rw [if_pos hin, residual_skip (b := ⟨r0 + rr, c0 + cc, 2 / 2, 2, tx, ty⟩) (by
          unfold Spec.Geo.has
          have := S.col0
          simp only [hX, hY]
          rw [decide_eq_false (show ¬ (c0 + cc) % 2 = 1 by omega)]
          simp)]
        exact last_ok S (dy := 0) (dx := 1) hX hY hr hc lr lc (by decide) (by decide) (Or.inl ⟨rfl, rfl, rfl, rfl⟩) (small_tr rr lr cc lc hr hc).2.2.1
          (small_bl rr lr cc lc hr hc).2.2.1 o3 A
  | split ta tb tc td iha ihb ihc ihd =>
    intro n rr cc s hn h1 hr hc lr lc ho A
    unfold Spec.Geo.partition
    by_cases hout : r0 + rr ≥ g.miRows ∨ c0 + cc ≥ g.miCols
    · rw [if_pos hout]
      exact ⟨Post.out (by rw [← Nat.not_lt, ← Nat.not_lt, ← row_in S, ← col_in S]; omega), fun _ h => Or.inl h⟩
    · rw [if_neg hout]
      have A := A ((row_in S).mp (by omega)) ((col_in S).mp (by omega))
      obtain ⟨o1, oa, ob, oc, od⟩ := ho
      have hn' : n ∈ [2, 4, 8, 16] := by simp only [List.mem_cons, List.not_mem_nil, or_false] at hn ⊢; omega
      simp only
      by_cases h : g.subX = 0 ∨ n ≠ 2
      · have h1y : g.subY = 0 ∨ n ≠ 2 := by
          have := S.sampling
          have := S.subY
          omega
        obtain ⟨-, -, -, -, x1, x2, x3, x4⟩ := halves S.subX hn' h hc lc
        obtain ⟨-, -, -, -, y1, y2, y3, -⟩ := halves S.subY hn' h1y hr lr
        have hl := (half_list hn').1
        rw [Nat.add_assoc r0, Nat.add_assoc c0]
        refine quad_ok S hn' h hr hc lr lc (fun A => iha hl x4 y1 x1 lr lc oa fun _ _ => A) (fun A => ihb hl x4 y1 x2 lr x3 ob fun _ h => A h)
          (fun A => ihc hl x4 y2 x1 y3 lc oc fun h _ => A h) (fun A => ihd hl x4 y2 x2 y3 x3 od A) A
      · have hX : g.subX = 1 := by have := S.subX; omega
        obtain rfl : n = 2 := by omega
        obtain ⟨a1, a2, rfl, -⟩ := one_none oa
        obtain ⟨b1, b2, rfl, fb⟩ := one_none ob
        obtain ⟨c1, c2, rfl, -⟩ := one_none oc
        obtain ⟨d1, d2, rfl, fd⟩ := one_none od
        have r16 := S.row0
        have c16 := S.col0
        have rE := S.rows
        have cE := S.cols
        have sk : ∀ r a b s, g.residual ⟨r, c0 + cc, 1, 1, a, b⟩ s = s := fun r a b s => residual_skip (by
          unfold Spec.Geo.has
          simp only [hX]
          rw [decide_eq_false (show ¬ (c0 + cc) % 2 = 1 by omega)]
          simp)
        simp only [show 2 / 2 = 1 from rfl, Spec.Geo.partition]
        rw [if_neg (by omega), if_neg (by omega), if_neg (by omega), if_neg (by omega), sk, sk]
        rcases S.subY with hY | hY
        · exact pair_ok S hX hY hr hc lr lc (by omega) fb fd A
        · rw [residual_skip (b := ⟨r0 + rr, c0 + cc + 1, 1, 1, b1, b2⟩) (by
            unfold Spec.Geo.has
            simp only [hX, hY]
            rw [decide_eq_false (show ¬ (r0 + rr) % 2 = 1 by omega)]
            simp)]
          exact last_ok S (dy := 1) (dx := 1) hX hY hr hc lr lc (by decide) (by decide) (Or.inr (Or.inr ⟨rfl, rfl, rfl, rfl⟩)) (small_tr rr lr cc lc hr hc).1
            (small_bl rr lr cc lc hr hc).1 fd A

/-- The flags of every transform block of a superblock. -/
theorem superblock_ok (S : Sb g r0 c0) {t : Spec.Tree} (ho : g.Ok 16 t) : ∀ e ∈ g.superblock r0 c0 t, Ev g r0 c0 e := by
  intro e he
  have := (partition_ok S t (n := 16) (rr := 0) (cc := 0) (s := ⟨g.clear r0 c0, []⟩) (by decide) (by intro h; cases h) rfl rfl (by decide) (by decide) ho ?_).2 e he
  · rcases this with h | h
    · cases h
    · exact h
  · intro hy hx
    refine ⟨true, false, by decide +kernel, by rcases S.subY with h | h <;> rw [h] <;> decide +kernel, ?_⟩
    simp only [Nat.zero_shiftRight, Nat.zero_add, Bool.true_and, Bool.false_and]
    have hX := S.subX
    have hY := S.subY
    have iX : ∀ v, v < fw g c0 → v < 16 >>> g.subX → v < tw g c0 := fun v a b => in_tile hX S.colTile a b
    have iY : ∀ v, v < fh g r0 → v < 16 >>> g.subY → v < th g r0 := fun v a b => in_tile hY S.rowTile a b
    generalize hA : 16 >>> g.subX = A at *
    generalize hB : 16 >>> g.subY = B at *
    have hc : g.clear r0 c0 = fun y x => if y = (B : Int) ∧ x = -1 then false else if y < 0 ∧ x < (tw g c0 : Int) then true
        else if x < 0 ∧ y < (th g r0 : Int) then true else false := by
      unfold Spec.Geo.clear; rw [hB]; rfl
    rw [hc]
    refine ⟨fun x a b c => ?_, fun y a b c => ?_, fun a => ?_, fun a => ?_, fun y x a b c d => ?_⟩
    · have := iX x.toNat (by omega) (by omega)
      rw [if_neg (by omega), if_pos (by omega)]
    · have := iY y.toNat (by omega) (by omega)
      rw [if_neg (by omega), if_neg (by omega), if_pos (by omega)]
    · rw [if_neg (by omega)]
      by_cases h : A < tw g c0
      · rw [if_pos (by omega)]; simp [h]
      · rw [if_neg (by omega), if_neg (by omega)]; simp [h]
    · rw [if_pos (by omega)]
    · rw [if_neg (by omega), if_neg (by omega), if_neg (by omega)]

end

end Rav1e.Intra

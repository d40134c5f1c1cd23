import Verif.Visible.Theorems

/-!
# The weights of squared errors
-/

namespace Rav1e.Visible

/-- `w_in_imp_b` or `h_in_imp_b` (src/encoder.rs:714-716) with `w_in_b` (src/encoder.rs:852-853). -/
def impLen (size : Nat) : Nat := 2 * ((size + 7) / 8) / 2

/-- `frame_block_offset` of a region that begins at `p` (src/tiling/plane_region.rs:350-362, 386-388), one coordinate; `none`: a failed assertion. -/
def frameBlock (p dec : Nat) : Option Nat := if p % (4 / 2 ^ dec) = 0 then some (p / 2 ^ (2 - dec)) else none

/-- `distortion_scale` (src/rdo.rs:443-459) of the region that begins at (`px`, `py`), with temporal RDO.  The assertion on the size holds: `sse_wxh` passes 4 or 8
pixels by 4 or 8 (src/rdo.rs:187-190). -/
def scaleAt (F : Frame) (scales : List Nat) (xdec ydec px py : Nat) : Option Nat :=
  (frameBlock px xdec).bind fun bx => (frameBlock py ydec).bind fun bry => scales[bry / 2 * impLen F.width + bx / 2]?

/-- The weights in `sse_wxh` (src/rdo.rs:192-219) of a rectangle.  The buffer with its stride is a list of rows, see `buffer_fits`. -/
def weights (F : Frame) (scales : List Nat) (xdec ydec : Nat) (r : Rect) : Option (List (List Nat)) :=
  (List.range ((r.h + 3) / 4)).mapM fun by' => (List.range ((r.w + 3) / 4)).mapM fun bx => scaleAt F scales xdec ydec (r.x + bx * 4) (r.y + by' * 4)

theorem mapM_some {α β : Type} {f : α → Option β} {g : α → β} : ∀ {l : List α}, (∀ x ∈ l, f x = some (g x)) → l.mapM f = some (l.map g)
  | [], _ => rfl
  | a :: l, h => by
    rw [List.mapM_cons, h a List.mem_cons_self, mapM_some fun x hx => h x (List.mem_cons_of_mem _ hx)]
    rfl

theorem frameBlock_eq {p dec : Nat} (hp : p % 4 = 0) (hd : dec ≤ 1) : ∃ b, frameBlock p dec = some b ∧ b / 2 = 2 ^ dec * p / 8 := by
  rcases (show dec = 0 ∨ dec = 1 by omega) with rfl | rfl
  · refine ⟨p / 4, ?_, by omega⟩
    unfold frameBlock
    rw [if_pos (by simpa using hp), show 2 ^ (2 - 0) = 4 by norm_num]
  · refine ⟨p / 2, ?_, by omega⟩
    unfold frameBlock
    rw [if_pos (show p % (4 / 2 ^ 1) = 0 by norm_num; omega), show 2 ^ (2 - 1) = 2 by norm_num]

/-- The weight of a 4x4 square. -/
theorem scaleAt_eq {F : Frame} {scales : List Nat} {xdec ydec px py : Nat} (hx : xdec ≤ 1) (hy : ydec ≤ 1) (hpx : px % 4 = 0) (hpy : py % 4 = 0)
    (hl : scales.length = impLen F.width * impLen F.height) (bx : 2 ^ xdec * px < F.width) (hby : 2 ^ ydec * py < F.height) :
    scaleAt F scales xdec ydec px py = some (Spec.weightOf F scales (2 ^ xdec * px) (2 ^ ydec * py)) := by
  obtain ⟨u, eu, hu⟩ := frameBlock_eq hpx hx
  obtain ⟨v, ev, hv⟩ := frameBlock_eq hpy hy
  unfold scaleAt
  rw [eu, ev, Option.bind_some, Option.bind_some, hu, hv]
  unfold Spec.weightOf
  have iw : impLen F.width = (F.width + 7) / 8 := by unfold impLen; omega
  have ih : impLen F.height = (F.height + 7) / 8 := by unfold impLen; omega
  rw [iw, ih] at hl
  rw [iw]
  generalize 2 ^ xdec * px = X at *
  generalize 2 ^ ydec * py = Y at *
  have h1 : X / 8 < (F.width + 7) / 8 := by omega
  have h2 : Y / 8 + 1 ≤ (F.height + 7) / 8 := by omega
  generalize (F.width + 7) / 8 = W at *
  generalize (F.height + 7) / 8 = H at *
  have h3 : (Y / 8 + 1) * W ≤ H * W := Nat.mul_le_mul_right _ h2
  have hlt : Y / 8 * W + X / 8 < scales.length := by
    rw [hl, Nat.mul_comm W H]
    rw [Nat.add_mul, Nat.one_mul] at h3
    omega
  rw [List.getElem?_eq_getElem hlt, List.getD_eq_getElem?_getD, List.getElem?_eq_getElem hlt]
  rfl

/-- A rectangle that begins at a multiple of 4 and lies in the picture has its weights in place. -/
theorem weights_rect {F : Frame} {scales : List Nat} {xdec ydec : Nat} {r : Rect} (hx : xdec ≤ 1) (hy : ydec ≤ 1) (hrx : r.x % 4 = 0) (hry : r.y % 4 = 0)
    (hl : scales.length = impLen F.width * impLen F.height) (bw : ∀ i, i < r.w → 2 ^ xdec * (r.x + i) < F.width) (bh : ∀ i, i < r.h → 2 ^ ydec * (r.y + i) < F.height) :
    ∃ rows, weights F scales xdec ydec r = some rows ∧ ∀ i j, i < r.h → j < r.w →
      (rows.getD (i / 4) []).getD (j / 4) 0 = Spec.weightOf F scales (2 ^ xdec * (r.x + j)) (2 ^ ydec * (r.y + i)) := by
  refine ⟨_, mapM_some fun by' hb => mapM_some fun bx hbx =>
    scaleAt_eq hx hy (by omega) (by omega) hl (bw _ (by have := List.mem_range.mp hbx; omega)) (bh _ (by have := List.mem_range.mp hb; omega)), ?_⟩
  intro i j hi hj
  have l1 : i / 4 < (r.h + 3) / 4 := by omega
  have l2 : j / 4 < (r.w + 3) / 4 := by omega
  simp only [List.getD_eq_getElem?_getD, List.getElem?_map, List.getElem?_range l1, List.getElem?_range l2, Option.map_some, Option.getD_some]
  have e : ∀ dec p k : Nat, dec ≤ 1 → p % 4 = 0 → 2 ^ dec * (p + k / 4 * 4) / 8 = 2 ^ dec * (p + k) / 8 := by
    intro dec p k hd hp
    rcases (show dec = 0 ∨ dec = 1 by omega) with rfl | rfl
    · omega
    · omega
  unfold Spec.weightOf
  rw [e xdec r.x j hx hrx, e ydec r.y i hy hry]

/-- **C74**, luma: every pixel that is compared has the weight of its place. -/
theorem luma_weights (F : Frame) (B : Blk) (scales : List Nat) (hl : scales.length = impLen F.width * impLen F.height) (r : Rect) (hr : lumaRect F B = some r) :
    ∃ rows, weights F scales 0 0 r = some rows ∧ ∀ i j, i < r.h → j < r.w →
      (rows.getD (i / 4) []).getD (j / 4) 0 = Spec.weightOf F scales (r.x + j) (r.y + i) := by
  have V := luma_exact F B
  rw [hr] at V
  have a : r.x % 4 = 0 ∧ r.y % 4 = 0 ∧ 0 < r.w ∧ 0 < r.h := by
    unfold lumaRect at hr
    split at hr
    · cases hr
    · cases hr; dsimp only; omega
  have vis : ∀ i j, i < r.w → j < r.h → r.x + i < F.width ∧ r.y + j < F.height := by
    intro i j hi hj
    obtain ⟨_, _, _, _, h1, h2⟩ := (V (r.x + i) (r.y + j)).mp ⟨r, rfl, by omega, by omega, by omega, by omega⟩
    exact ⟨h1, h2⟩
  obtain ⟨rows, e, h⟩ := weights_rect (xdec := 0) (ydec := 0) (by omega) (by omega) a.1 a.2.1 hl
    (by intro i hi; have := (vis i 0 hi a.2.2.2).1; omega) (by intro i hi; have := (vis 0 i a.2.2.1 hi).2; omega)
  refine ⟨rows, e, ?_⟩
  intro i j hi hj
  have := h i j hi hj
  simpa using this

/-- **C74**, chroma: every pixel that is compared has the weight of its place in luma. -/
theorem chroma_weights (F : Frame) (B : Blk) (ok : BlkOk F B) (scales : List Nat) (hl : scales.length = impLen F.width * impLen F.height) (r : Rect)
    (hr : chromaRect F B = some r) :
    ∃ rows, weights F scales F.xdec F.ydec r = some rows ∧ ∀ i j, i < r.h → j < r.w →
      (rows.getD (i / 4) []).getD (j / 4) 0 = Spec.weightOf F scales (2 ^ F.xdec * (r.x + j)) (2 ^ F.ydec * (r.y + i)) := by
  have V := chroma_sound F B ok
  rw [hr] at V
  have a : r.x % 4 = 0 ∧ r.y % 4 = 0 := by
    unfold chromaRect at hr
    split at hr
    · cases hr
    · split at hr
      · cases hr; dsimp only; omega
      · cases hr
  have vis : ∀ i j, i < r.w → j < r.h → 2 ^ F.xdec * (r.x + i) < F.width ∧ 2 ^ F.ydec * (r.y + j) < F.height := by
    intro i j hi hj
    obtain ⟨_, _, _, _, _, h1, h2⟩ := V (r.x + i) (r.y + j) ⟨r, rfl, by omega, by omega, by omega, by omega⟩
    exact ⟨h1, h2⟩
  by_cases h0 : r.w = 0 ∨ r.h = 0
  · exfalso
    unfold chromaRect at hr
    split at hr
    · cases hr
    · rename_i hv
      split at hr
      · cases hr
        dsimp only at h0
        have pos : ∀ b v d, 0 < v → d ≤ 1 → 0 < chromaLen b v d := by
          intro b v d h1 h2
          unfold chromaLen
          rcases (show d = 0 ∨ d = 1 by omega) with rfl | rfl <;> split <;> omega
        have := pos (4 * B.w) _ F.xdec (show 0 < clip F.width (4 * B.w) (4 * B.x) by omega) ok.xdec
        have := pos (4 * B.h) _ F.ydec (show 0 < clip F.height (4 * B.h) (4 * B.y) by omega) ok.ydec
        omega
      · cases hr
  · exact weights_rect ok.xdec ok.ydec a.1 a.2 hl (fun i hi => (vis i 0 hi (by omega)).1) (fun i hi => (vis 0 i (by omega) hi).2)

/-- The kernels of `cdef_dist_wxh` (src/rdo.rs:151-155) along one coordinate of `n` pixels: where each begins and how long it is. -/
def kernels (n : Nat) : List (Nat × Nat) := (List.range ((n + 7) / 8)).map fun k => (8 * k, min (n - 8 * k) 8)

/-- **C74**, the psychovisual distortion: the kernels cover every pixel of the rectangle exactly once and nothing else, and the weight that is taken for a kernel (src/rdo.rs:167-169) is
that of the place of each of its pixels. -/
theorem psychovisual_weights (F : Frame) (B : Blk) (ok : BlkOk F B) (scales : List Nat) (hl : scales.length = impLen F.width * impLen F.height) (r : Rect)
    (hr : lumaRect F B = some r) (i j : Nat) (hi : i < r.w) (hj : j < r.h) :
    (∃! k, k ∈ kernels r.w ∧ k.1 ≤ i ∧ i < k.1 + k.2) ∧ (∃! k, k ∈ kernels r.h ∧ k.1 ≤ j ∧ j < k.1 + k.2) ∧
    (∀ k ∈ kernels r.w, k.1 + k.2 ≤ r.w) ∧ (∀ k ∈ kernels r.h, k.1 + k.2 ≤ r.h) ∧
    ∀ kx ∈ kernels r.w, ∀ ky ∈ kernels r.h, kx.1 ≤ i → i < kx.1 + kx.2 → ky.1 ≤ j → j < ky.1 + ky.2 →
      scaleAt F scales 0 0 (r.x + kx.1) (r.y + ky.1) = some (Spec.weightOf F scales (r.x + i) (r.y + j)) := by
  have cover : ∀ n p : Nat, p < n → ∃! k, k ∈ kernels n ∧ k.1 ≤ p ∧ p < k.1 + k.2 := by
    intro n p hp
    refine ⟨(8 * (p / 8), min (n - 8 * (p / 8)) 8), ⟨List.mem_map.mpr ⟨p / 8, List.mem_range.mpr (by omega), rfl⟩, by dsimp only; omega, by dsimp only; omega⟩, ?_⟩
    rintro ⟨k1, k2⟩ ⟨hk, h1, h2⟩
    obtain ⟨q, _, e⟩ := List.mem_map.mp hk
    cases e
    dsimp only at h1 h2
    have : q = p / 8 := by omega
    rw [this]
  have inside : ∀ n : Nat, ∀ k ∈ kernels n, k.1 + k.2 ≤ n := by
    intro n k hk
    obtain ⟨q, hq, rfl⟩ := List.mem_map.mp hk
    have := List.mem_range.mp hq
    dsimp only; omega
  refine ⟨cover _ _ hi, cover _ _ hj, inside _, inside _, ?_⟩
  intro kx hx ky hy x1 x2 y1 y2
  obtain ⟨p, _, rfl⟩ := List.mem_map.mp hx
  obtain ⟨q, _, rfl⟩ := List.mem_map.mp hy
  dsimp only at x1 x2 y1 y2 ⊢
  have ew := even_of ok.w ok.x
  have eh := even_of ok.h ok.y
  have V := luma_exact F B (r.x + i) (r.y + j)
  rw [hr] at V
  obtain ⟨_, _, _, _, v1, v2⟩ := V.mp ⟨r, rfl, by omega, by omega, by omega, by omega⟩
  have g : r.x = 4 * B.x ∧ r.y = 4 * B.y ∧ r.w ≤ 4 * B.w ∧ r.h ≤ 4 * B.h := by
    unfold lumaRect at hr
    rw [clip_eq, clip_eq] at hr
    split at hr
    · cases hr
    · cases hr; dsimp only; omega
  rw [scaleAt_eq (by omega) (by omega) (by omega) (by omega) hl (by rw [pow_zero, Nat.one_mul]; omega) (by rw [pow_zero, Nat.one_mul]; omega)]
  unfold Spec.weightOf
  rw [pow_zero, Nat.one_mul, Nat.one_mul, show (r.x + 8 * p) / 8 = (r.x + i) / 8 by omega, show (r.y + 8 * q) / 8 = (r.y + j) / 8 by omega]

/-- `buf_stride` of `sse_wxh` (src/rdo.rs:205). -/
def bufStride (w : Nat) : Nat := Nat.nextPowerOfTwo ((w + 3) / 4)

/-- **C74**, the buffer: for sizes up to 128 it holds all weights (src/rdo.rs:202-209), and no two squares share a place (src/rdo.rs:217), so that it is a list of rows. -/
theorem buffer_fits (w h : Nat) (hw : w ≤ 128) (hh : h ≤ 128) :
    bufStride w * ((h + 3) / 4) ≤ 128 / 4 * 128 / 4 ∧ ∀ y x, y < (h + 3) / 4 → x < (w + 3) / 4 →
      y * bufStride w + x < bufStride w * ((h + 3) / 4) ∧ (y * bufStride w + x) / bufStride w = y ∧ (y * bufStride w + x) % bufStride w = x := by
  have e : ∀ n, n < 33 → n ≤ Nat.nextPowerOfTwo n ∧ Nat.nextPowerOfTwo n ≤ 32 := by decide +kernel
  obtain ⟨e1, e2⟩ := e ((w + 3) / 4) (by omega)
  unfold bufStride
  generalize Nat.nextPowerOfTwo ((w + 3) / 4) = s at *
  refine ⟨?_, ?_⟩
  · have : s * ((h + 3) / 4) ≤ 32 * 32 := Nat.mul_le_mul e2 (by omega)
    omega
  · intro y x hy hx
    have hs : x < s := by omega
    refine ⟨?_, ?_, ?_⟩
    · have : (y + 1) * s ≤ (h + 3) / 4 * s := Nat.mul_le_mul_right _ hy
      rw [Nat.add_mul, Nat.one_mul] at this
      rw [Nat.mul_comm s]
      omega
    · rw [Nat.mul_comm, Nat.mul_add_div (by omega), Nat.div_eq_of_lt hs, Nat.add_zero]
    · rw [Nat.mul_comm, Nat.mul_add_mod, Nat.mod_eq_of_lt hs]

/-- The hypotheses are met: chroma at the edge of a picture of 18x10 pixels, with 3x2 weights. -/
example : let F : Frame := ⟨18, 10, 1, 1, false⟩; let B : Blk := ⟨2, 2, 2, 2⟩
    chromaRect F B = some ⟨4, 4, 4, 1⟩ ∧ weights F [10, 11, 12, 20, 21, 22] 1 1 ⟨4, 4, 4, 1⟩ = some [[21]] ∧ [10, 11, 12, 20, 21, 22].length = impLen F.width * impLen F.height := by
  decide +kernel

end Rav1e.Visible

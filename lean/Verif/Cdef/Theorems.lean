import Verif.Cdef.Filter

/-!
# C52: CDEF leaves the frame that a decoder computes
-/

namespace Rav1e.Cdef

/-- The state of the decoder after it has read the headers and the blocks of a frame, and reconstructed and deblocked it. -/
structure Same (c : Params) (f : Frame) (b : Blocks) (s : Spec.Params) : Prop where
  bitDepth : s.bitDepth = c.bitDepth
  depths : c.bitDepth = 8 ∨ c.bitDepth = 10 ∨ c.bitDepth = 12
  numPlanes : s.numPlanes = if c.mono then 1 else 3
  subX : s.subX = f.xdec
  subY : s.subY = f.ydec
  sampling : (f.xdec, f.ydec) ∈ [(0, 0), (1, 0), (1, 1)]
  width : f.width % 8 = 0
  height : f.height % 8 = 0
  cols : b.cols = f.width / 4
  rows : b.rows = f.height / 4
  miCols : s.miCols = f.width / 4
  miRows : s.miRows = f.height / 4
  damping : s.damping = c.damping
  dampings : c.damping ≤ 6
  yStrengths : c.yStrengths.length = 8 ∧ ∀ x ∈ c.yStrengths, x < 64
  uvStrengths : c.uvStrengths.length = 8 ∧ ∀ x ∈ c.uvStrengths, x < 64
  /-- 5.9.19: six bits, a secondary strength of 3 stands for 4 -/
  yStrength : ∀ i x, c.yStrengths[i]? = some x → s.yPri i = x / 4 ∧ s.ySec i = if x % 4 = 3 then 4 else x % 4
  uvStrength : ∀ i x, c.uvStrengths[i]? = some x → s.uvPri i = x / 4 ∧ s.uvSec i = if x % 4 = 3 then 4 else x % 4
  skips : ∀ r q, r < b.rows → q < b.cols → s.skips r q = b.skip r q
  indices : ∀ r q, b.cdefIndex r q < 8
  /-- The index of a block is that of its 64x64 area; when no index has been coded, all blocks there are skipped. -/
  index : ∀ r q, r < b.rows → q < b.cols → s.cdefIdx r q = b.cdefIndex (16 * (r / 16)) (16 * (q / 16)) ∨
    (s.cdefIdx r q = -1 ∧ ∀ r' q', r' < b.rows → q' < b.cols → r' / 16 = r / 16 → q' / 16 = q / 16 → b.skip r' q' = true)
  cur : ∀ p y x, 0 ≤ y → y < f.h p → 0 ≤ x → x < f.w p → s.cur p y x = f.mem p (y * f.stride p + x)
  range : ∀ p y x, 0 ≤ y → y < f.h p → 0 ≤ x → x < f.w p → 0 ≤ f.mem p (y * f.stride p + x) ∧
    f.mem p (y * f.stride p + x) < 2 ^ c.bitDepth

/-! ## Results that are written -/

/-- The result is a list of writes, all of them right, and they cover `C`. -/
def Res (s : Spec.Params) (o : Option (List Write)) (C : Nat → Int → Int → Prop) : Prop :=
  ∃ ws, o = some ws ∧ (∀ w ∈ ws, w.v = Spec.cdefFrame s w.p w.y w.x) ∧
    ∀ p y x, C p y x → ∃ w ∈ ws, w.p = p ∧ w.y = y ∧ w.x = x

theorem collect_aux {α : Type} (s : Spec.Params) (l : List α) (f : α → Option (List Write)) (C : α → Nat → Int → Int → Prop)
    (h : ∀ a ∈ l, Res s (f a) (C a)) (acc : List Write) (hacc : ∀ w ∈ acc, w.v = Spec.cdefFrame s w.p w.y w.x) :
    ∃ ws, l.foldlM (fun acc a => (f a).map (acc ++ ·)) acc = some ws ∧ (∀ w ∈ ws, w.v = Spec.cdefFrame s w.p w.y w.x) ∧
      (∀ w ∈ acc, w ∈ ws) ∧ ∀ p y x, (∃ a ∈ l, C a p y x) → ∃ w ∈ ws, w.p = p ∧ w.y = y ∧ w.x = x := by
  induction l generalizing acc with
  | nil => exact ⟨acc, rfl, hacc, fun w h => h, by rintro p y x ⟨a, ha, _⟩; simp at ha⟩
  | cons a l ih =>
    obtain ⟨ws, h1, h2, h3⟩ := h a (by simp)
    obtain ⟨ws', g1, g2, g3, g4⟩ := ih (fun a ha => h a (by simp [ha])) (acc ++ ws) (by
      intro w hw; rcases List.mem_append.1 hw with hw | hw
      · exact hacc w hw
      · exact h2 w hw)
    refine ⟨ws', by rw [List.foldlM_cons, h1]; exact g1, g2, fun w hw => g3 w (by simp [hw]), ?_⟩
    rintro p y x ⟨a', ha', hC⟩
    rcases List.mem_cons.1 ha' with rfl | ha'
    · obtain ⟨w, hw, hh⟩ := h3 p y x hC
      exact ⟨w, g3 w (by simp [hw]), hh⟩
    · exact g4 p y x ⟨a', ha', hC⟩

theorem collect_res {α : Type} {s : Spec.Params} {l : List α} {f : α → Option (List Write)} {C : α → Nat → Int → Int → Prop}
    (h : ∀ a ∈ l, Res s (f a) (C a)) : Res s (collect l f) (fun p y x => ∃ a ∈ l, C a p y x) := by
  obtain ⟨ws, h1, h2, _, h4⟩ := collect_aux s l f C h [] (by simp)
  exact ⟨ws, h1, h2, h4⟩

theorem Res.mono {s : Spec.Params} {o : Option (List Write)} {C C' : Nat → Int → Int → Prop} (h : Res s o C)
    (hC : ∀ p y x, C' p y x → C p y x) : Res s o C' := by
  obtain ⟨ws, h1, h2, h3⟩ := h
  exact ⟨ws, h1, h2, fun p y x hp => h3 p y x (hC p y x hp)⟩

theorem apply_eq (s : Spec.Params) (ws : List Write) (out : Nat → Int → Int → Int) (p : Nat) (y x : Int)
    (h : ∀ w ∈ ws, w.v = Spec.cdefFrame s w.p w.y w.x)
    (hc : (∃ w ∈ ws, w.p = p ∧ w.y = y ∧ w.x = x) ∨ out p y x = Spec.cdefFrame s p y x) :
    apply out ws p y x = Spec.cdefFrame s p y x := by
  unfold apply
  induction ws generalizing out with
  | nil =>
    rcases hc with ⟨w, hw, _⟩ | h
    · simp at hw
    · exact h
  | cons w ws ih =>
    rw [List.foldl_cons]
    apply ih _ (fun w hw => h w (by simp [hw]))
    by_cases hw : p = w.p ∧ y = w.y ∧ x = w.x
    · right
      obtain ⟨rfl, rfl, rfl⟩ := hw
      simp [h w (by simp)]
    · rcases hc with ⟨w', hw', h'⟩ | h'
      · rcases List.mem_cons.1 hw' with rfl | hw'
        · exact absurd ⟨h'.1.symm, h'.2.1.symm, h'.2.2.symm⟩ hw
        · exact Or.inl ⟨w', hw', h'⟩
      · right
        simp only [if_neg hw]
        exact h'

/-! ## Blocks -/

theorem yDir_lt (px : Nat → Nat → Int) : Spec.yDir px < 8 := by
  unfold Spec.yDir
  cases h : (List.range 8).find? (fun d => (List.range 8).all (fun d' => decide (Spec.cost px d' ≤ Spec.cost px d))) with
  | none => simp
  | some d => simpa using List.mem_range.1 (List.mem_of_find?_eq_some h)

theorem shl_eq (x : Int) (n : Nat) : x <<< n = x * 2 ^ n := by
  rw [Int.shiftLeft_eq]

theorem shr_nat (x n : Nat) : x >>> n = x / 2 ^ n := Nat.shiftRight_eq_div_pow x n

/-- The edges of block `(bx, by)` of superblock `(sbx, sby)`. -/
def edgesOf (f : Frame) (sbx sby bx byy : Nat) : Edges :=
  ⟨decide (0 < 8 * sbx + bx), decide (8 * (8 * sbx + bx) + 8 < f.width), decide (0 < 8 * sby + byy),
    decide (8 * (8 * sby + byy) + 8 < f.height)⟩

/-- The pixels of the block in plane `p`. -/
def inBlock (f : Frame) (sbx sby bx byy : Nat) (p : Nat) (y x : Int) : Prop :=
  y * 2 ^ f.yd p / 8 = (8 * sby + byy : Nat) ∧ x * 2 ^ f.xd p / 8 = (8 * sbx + bx : Nat)

theorem geometry {d : Nat} (hd : d ≤ 1) (q b : Nat) : (((64 * q : Nat) : Int) >>> d) + (b * (8 >>> d) : Nat) = ((8 * q + b) * (8 >>> d) : Nat) ∧
    (((16 * q + 2 * b : Nat) : Int) >>> d <<< 2) = ((8 * q + b) * (8 >>> d) : Nat) := by
  rw [shl_eq, shr_eq, shr_eq]
  interval_cases d <;> simp <;> omega

theorem block_iff {d : Nat} (hd : d ≤ 1) (q : Nat) (y : Int) : y * 2 ^ d / 8 = (q : Int) ↔ ∃ i : Nat, i < 8 >>> d ∧ y = ((q * (8 >>> d) : Nat) : Int) + i := by
  constructor
  · intro h
    refine ⟨(y - ((q * (8 >>> d) : Nat) : Int)).toNat, ?_⟩
    interval_cases d <;> simp at h ⊢ <;> omega
  · rintro ⟨i, h1, rfl⟩
    interval_cases d <;> simp at h1 ⊢ <;> omega

theorem Same.xd {c : Params} {f : Frame} {b : Blocks} {s : Spec.Params} (h : Same c f b s) (p : Nat) : f.xd p ≤ 1 ∧ f.yd p ≤ 1 := by
  have := h.sampling
  unfold Frame.xd Frame.yd
  simp at this
  split <;> omega

theorem Same.size {c : Params} {f : Frame} {b : Blocks} {s : Spec.Params} (h : Same c f b s) (p : Nat) :
    f.w p = (f.width / 8 * (8 >>> f.xd p) : Nat) ∧ f.h p = (f.height / 8 * (8 >>> f.yd p) : Nat) := by
  obtain ⟨h1, h2⟩ := h.xd p
  have h3 := h.width
  have h4 := h.height
  unfold Frame.w Frame.h
  generalize f.xd p = d at *
  generalize f.yd p = e at *
  constructor
  · interval_cases d <;> simp [shr_nat] <;> omega
  · interval_cases e <;> simp [shr_nat] <;> omega

/-- The pixels that are available are those of the picture. -/
theorem Same.available {c : Params} {f : Frame} {b : Blocks} {s : Spec.Params} (h : Same c f b s) (p : Nat) (y x : Int) :
    Spec.available s p y x = true ↔ 0 ≤ y ∧ y < f.h p ∧ 0 ≤ x ∧ x < f.w p := by
  obtain ⟨h1, h2⟩ := h.xd p
  obtain ⟨h3, h4⟩ := h.size p
  have h5 := h.width
  have h6 := h.height
  unfold Spec.available
  have hx : (if p = 0 then 0 else s.subX) = f.xd p := by unfold Frame.xd; rw [h.subX]
  have hy : (if p = 0 then 0 else s.subY) = f.yd p := by unfold Frame.yd; rw [h.subY]
  simp only [hx, hy, h.miRows, h.miCols, h3, h4, decide_eq_true_eq]
  generalize f.xd p = d at *
  generalize f.yd p = e at *
  clear hx hy h3 h4
  interval_cases d <;> interval_cases e <;> simp <;> omega

/-- The pixels around a pixel of a block. -/
theorem Same.look {c : Params} {f : Frame} {b : Blocks} {s : Spec.Params} (h : Same c f b s) {sbx sby bx byy : Nat} {p i j : Nat}
    (hx : 8 * (8 * sbx + bx) < f.width) (hy : 8 * (8 * sby + byy) < f.height)
    (hi : i < 8 >>> f.yd p) (hj : j < 8 >>> f.xd p) (dy dx : Int) (hdy : |dy| ≤ 2) (hdx : |dx| ≤ 2) :
    look s p (((8 * sby + byy) * (8 >>> f.yd p) : Nat) + i) (((8 * sbx + bx) * (8 >>> f.xd p) : Nat) + j) dy dx =
      if there (edgesOf f sbx sby bx byy) (8 >>> f.xd p) (8 >>> f.yd p) (i + dy) (j + dx) then
        some (f.mem p ((((8 * sby + byy) * (8 >>> f.yd p) : Nat) * f.stride p + ((8 * sbx + bx) * (8 >>> f.xd p) : Nat)) +
          ((i + dy) * f.stride p + (j + dx)))) else none := by
  obtain ⟨h1, h2⟩ := h.xd p
  obtain ⟨h3, h4⟩ := h.size p
  have h5 := h.width
  have h6 := h.height
  rw [abs_le] at hdy hdx
  unfold Cdef.look
  have hiff : Spec.available s p ((((8 * sby + byy) * (8 >>> f.yd p) : Nat) : Int) + i + dy)
      ((((8 * sbx + bx) * (8 >>> f.xd p) : Nat) : Int) + j + dx) = true ↔
      there (edgesOf f sbx sby bx byy) (8 >>> f.xd p) (8 >>> f.yd p) (i + dy) (j + dx) := by
    rw [h.available, h3, h4]
    unfold there edgesOf
    simp only [decide_eq_true_eq]
    generalize f.xd p = d at *
    generalize f.yd p = e at *
    generalize 8 * sbx + bx = BX at *
    generalize 8 * sby + byy = BY at *
    clear h3 h4
    have hand : ∀ {a b c d a' b' c' d' : Prop}, (a ∧ b ↔ a' ∧ b') → (c ∧ d ↔ c' ∧ d') → (a ∧ b ∧ c ∧ d ↔ a' ∧ b' ∧ c' ∧ d') := by
      intros; tauto
    apply hand
    · interval_cases e <;> simp at hi ⊢ <;> omega
    · interval_cases d <;> simp at hj ⊢ <;> omega
  by_cases ha : Spec.available s p ((((8 * sby + byy) * (8 >>> f.yd p) : Nat) : Int) + i + dy)
      ((((8 * sbx + bx) * (8 >>> f.xd p) : Nat) : Int) + j + dx) = true
  · rw [if_pos ha, if_pos (hiff.1 ha)]
    obtain ⟨a1, a2, a3, a4⟩ := (h.available _ _ _).1 ha
    rw [h.cur p _ _ a1 a2 a3 a4]
    congr 2; ring
  · rw [if_neg ha, if_neg (fun hc => ha (hiff.2 hc))]

/-- A pixel of a block in the output of the decoder. -/
theorem Same.cdefFrame {c : Params} {f : Frame} {b : Blocks} {s : Spec.Params} (h : Same c f b s) {BX BY : Nat} {p i j : Nat}
    (hi : i < 8 >>> f.yd p) (hj : j < 8 >>> f.xd p) :
    (((BY * (8 >>> f.yd p) : Nat) + i : Int) * 2 ^ (if p = 0 then 0 else s.subY) / 8 * 2).toNat = 2 * BY ∧
    (((BX * (8 >>> f.xd p) : Nat) + j : Int) * 2 ^ (if p = 0 then 0 else s.subX) / 8 * 2).toNat = 2 * BX := by
  obtain ⟨h1, h2⟩ := h.xd p
  have hx : (if p = 0 then 0 else s.subX) = f.xd p := by unfold Frame.xd; rw [h.subX]
  have hy : (if p = 0 then 0 else s.subY) = f.yd p := by unfold Frame.yd; rw [h.subY]
  rw [hx, hy, (block_iff h2 BY _).2 ⟨i, hi, rfl⟩, (block_iff h1 BX _).2 ⟨j, hj, rfl⟩]
  omega

theorem Same.skip8 {c : Params} {f : Frame} {b : Blocks} {s : Spec.Params} (h : Same c f b s) {BX BY : Nat}
    (hx : 8 * BX < f.width) (hy : 8 * BY < f.height) :
    b.skip8 (2 * BY) (2 * BX) = some (s.skips (2 * BY) (2 * BX) && s.skips (2 * BY + 1) (2 * BX) &&
      s.skips (2 * BY) (2 * BX + 1) && s.skips (2 * BY + 1) (2 * BX + 1)) := by
  have h1 := h.width
  have h2 := h.height
  have h3 := h.cols
  have h4 := h.rows
  have c0 : 2 * BX < b.cols := by omega
  have c1 : 2 * BX + 1 < b.cols := by omega
  have r0 : 2 * BY < b.rows := by omega
  have r1 : 2 * BY + 1 < b.rows := by omega
  unfold Blocks.skip8 Blocks.skipAt
  rw [h.skips _ _ r0 c0, h.skips _ _ r1 c0, h.skips _ _ r0 c1, h.skips _ _ r1 c1]
  simp only [c0, c1, r0, r1, and_self, if_true, Option.bind_eq_bind, Option.bind_some, Option.pure_def, Option.some.injEq]
  generalize b.skip (2 * BY) (2 * BX) = s0
  generalize b.skip (2 * BY + 1) (2 * BX) = s1
  generalize b.skip (2 * BY) (2 * BX + 1) = s2
  generalize b.skip (2 * BY + 1) (2 * BX + 1) = s3
  revert s0 s1 s2 s3; decide

theorem secStrength_eq (x : Nat) : secStrength x = ((if x % 4 = 3 then 4 else x % 4 : Nat) : Int) := by
  unfold secStrength; split <;> omega

theorem secStrength_le (x : Nat) : 0 ≤ secStrength x ∧ secStrength x ≤ 4 := by
  unfold secStrength; split <;> omega

theorem adjust_eq (str var : Int) : adjustStrength str var = if var ≠ 0 then
    (str * (4 + (if var / 64 ≠ 0 then min (Spec.floorLog2 (var / 64) : Int) 12 else 0)) + 8) / 16 else 0 := by
  unfold adjustStrength msb Spec.floorLog2
  simp only [shr_eq]
  norm_num

theorem adjust_bound {str var : Int} (h : 0 ≤ str) (h' : str ≤ 240) : 0 ≤ adjustStrength str var ∧ adjustStrength str var ≤ 240 := by
  rw [adjust_eq]
  split
  · have : ∃ i : Int, 0 ≤ i ∧ i ≤ 12 ∧ (if var / 64 ≠ 0 then min (Spec.floorLog2 (var / 64) : Int) 12 else 0) = i := by
      refine ⟨_, ?_, ?_, rfl⟩ <;> split <;> omega
    obtain ⟨i, h1, h2, h3⟩ := this
    rw [h3]
    have h4 : 0 ≤ str * (4 + i) := mul_nonneg h (by omega)
    have h5 : str * (4 + i) ≤ 240 * 16 := mul_le_mul h' (by omega) (by omega) (by norm_num)
    omega
  · omega

theorem uvDir_spec {d : Nat} (hd : d < 8) : uvDir[d]? = some (Spec.uvDir 1 0 d) ∧ Spec.uvDir 1 0 d < 8 := by
  interval_cases d <;> decide

theorem cost_congr {px px' : Nat → Nat → Int} (h : ∀ i j, i < 8 → j < 8 → px i j = px' i j) (d : Nat) : Spec.cost px d = Spec.cost px' d := by
  unfold Spec.cost
  have : ∀ k, ((Spec.onLine d k).map (fun ij => px ij.1 ij.2)) = ((Spec.onLine d k).map (fun ij => px' ij.1 ij.2)) := by
    intro k
    apply List.map_congr_left
    intro ij hij
    exact h _ _ (onLine_lt hij).1 (onLine_lt hij).2
  simp only [this]

theorem search_congr {px px' : Nat → Nat → Int} (h : ∀ i j, i < 8 → j < 8 → px i j = px' i j) :
    Spec.yDir px = Spec.yDir px' ∧ Spec.variance px = Spec.variance px' := by
  have hc : Spec.cost px = Spec.cost px' := funext (cost_congr h)
  have hy : Spec.yDir px = Spec.yDir px' := by unfold Spec.yDir; rw [hc]
  exact ⟨hy, by unfold Spec.variance; rw [hc, hy]⟩

theorem Same.analyze {c : Params} {f : Frame} {b : Blocks} {s : Spec.Params} (h : Same c f b s) {sbx sby bx byy : Nat}
    (hx : 8 * (8 * sbx + bx) < f.width) (hy : 8 * (8 * sby + byy) < f.height)
    (hskip : b.skip8 (16 * sby + 2 * byy) (16 * sbx + 2 * bx) = some false) :
    analyze c f b sbx sby bx byy = some (Spec.yDir (Spec.pixels s (2 * (8 * sby + byy)) (2 * (8 * sbx + bx))),
      Spec.variance (Spec.pixels s (2 * (8 * sby + byy)) (2 * (8 * sbx + bx)))) := by
  have h1 := h.width
  have h2 := h.height
  have h3 := h.cols
  have h4 := h.rows
  unfold Cdef.analyze
  simp only [hskip]
  rw [if_pos (by omega)]
  simp only [Option.bind_eq_bind, Option.bind_some, Bool.not_false, if_true]
  rw [findDir_eq]
  have hpx : ∀ i j, i < 8 → j < 8 → (fun (i j : Nat) => (fun (i j : Nat) => f.mem 0 ((64 * (sby : Int) + 8 * byy) * f.stride 0 + (64 * sbx + 8 * bx) + i * f.stride 0 + j)) i j /
      2 ^ (c.bitDepth - 8) - 128) i j = Spec.pixels s (2 * (8 * sby + byy)) (2 * (8 * sbx + bx)) i j := by
    intro i j hi hj
    simp only [Spec.pixels, h.bitDepth]
    rw [h.cur 0 _ _ (by omega) (by simp [Frame.h, Frame.yd]; omega) (by omega) (by simp [Frame.w, Frame.xd]; omega)]
    congr 3
    push_cast; ring
  obtain ⟨e1, e2⟩ := search_congr hpx
  rw [e1, e2]

theorem filterPlane_res {c : Params} {f : Frame} {b : Blocks} {s : Spec.Params} (h : Same c f b s) {sbx sby bx byy : Nat}
    (hbx : bx < 8) (hby : byy < 8) (hx : 8 * (8 * sbx + bx) < f.width) (hy : 8 * (8 * sby + byy) < f.height) {yStr uvStr : Nat}
    (hys : c.yStrengths[b.cdefIndex (16 * sby) (16 * sbx)]? = some yStr)
    (huvs : c.uvStrengths[b.cdefIndex (16 * sby) (16 * sbx)]? = some uvStr) {skip : Bool}
    (hskip : b.skip8 (16 * sby + 2 * byy) (16 * sbx + 2 * bx) = some skip) {dir : Nat} {var : Int}
    (han : analyze c f b sbx sby bx byy = some (dir, var)) {p : Nat} (hp : p < if c.mono then 1 else 3) :
    Res s (filterPlane c f sbx sby bx byy skip dir var (edgesOf f sbx sby bx byy) (yStr / 4 : Nat) (secStrength yStr)
      (uvStr / 4 : Nat) (secStrength uvStr) p) (fun p' y x => p' = p ∧ inBlock f sbx sby bx byy p y x) := by
  obtain ⟨d1, d2⟩ := h.xd p
  obtain ⟨sw, sh⟩ := h.size p
  have hw8 := h.width
  have hh8 := h.height
  have eX : 16 * sbx + 2 * bx = 2 * (8 * sbx + bx) := by omega
  have eY : 16 * sby + 2 * byy = 2 * (8 * sby + byy) := by omega
  have bX : 2 * (8 * sbx + bx) / 16 = sbx := by omega
  have bY : 2 * (8 * sby + byy) / 16 = sby := by omega
  have cX : 2 * (8 * sbx + bx) < b.cols := by have := h.cols; omega
  have cY : 2 * (8 * sby + byy) < b.rows := by have := h.rows; omega
  have hidx := h.index _ _ cY cX
  rw [bX, bY] at hidx
  obtain ⟨gx1, gx2⟩ := geometry d1 sbx bx
  obtain ⟨gy1, gy2⟩ := geometry d2 sby byy
  have hsk := h.skip8 hx hy
  have hlook := fun i j hi hj => @Same.look c f b s h sbx sby bx byy p i j hx hy hi hj
  have hframe := fun i j hi hj => @Same.cdefFrame c f b s h (8 * sbx + bx) (8 * sby + byy) p i j hi hj
  have hblk : ∀ y x, inBlock f sbx sby bx byy p y x ↔ ∃ i, i < 8 >>> f.yd p ∧ ∃ j, j < 8 >>> f.xd p ∧
      y = (((8 * sby + byy) * (8 >>> f.yd p) : Nat) : Int) + (i : Nat) ∧ x = (((8 * sbx + bx) * (8 >>> f.xd p) : Nat) : Int) + (j : Nat) := by
    intro y x
    unfold inBlock
    rw [block_iff d2, block_iff d1]
    constructor
    · rintro ⟨⟨i, h1, h2⟩, j, h3, h4⟩; exact ⟨i, h1, j, h3, h2, h4⟩
    · rintro ⟨i, h1, j, h3, h2, h4⟩; exact ⟨⟨i, h1, h2⟩, j, h3, h4⟩
  have hin : ∀ i j : Nat, i < 8 >>> f.yd p → j < 8 >>> f.xd p → 
      0 ≤ (((8 * sby + byy) * (8 >>> f.yd p) : Nat) : Int) + i ∧ (((8 * sby + byy) * (8 >>> f.yd p) : Nat) : Int) + i < f.h p ∧
      0 ≤ (((8 * sbx + bx) * (8 >>> f.xd p) : Nat) : Int) + j ∧ (((8 * sbx + bx) * (8 >>> f.xd p) : Nat) : Int) + j < f.w p := by
    intro i j hi hj
    rw [sw, sh]
    have h1 : (8 * sby + byy + 1) * (8 >>> f.yd p) ≤ f.height / 8 * (8 >>> f.yd p) := Nat.mul_le_mul_right _ (by omega)
    have h2 : (8 * sbx + bx + 1) * (8 >>> f.xd p) ≤ f.width / 8 * (8 >>> f.xd p) := Nat.mul_le_mul_right _ (by omega)
    rw [Nat.add_mul] at h1 h2
    omega
  have two : ∀ (v : Nat → Nat → Option Int),
      (∀ i j, i < 8 >>> f.yd p → j < 8 >>> f.xd p → v i j = some (Spec.cdefFrame s p
        ((((8 * sby + byy) * (8 >>> f.yd p) : Nat) : Int) + i) ((((8 * sbx + bx) * (8 >>> f.xd p) : Nat) : Int) + j))) →
      Res s (collect (List.range (8 >>> f.yd p)) (fun i => collect (List.range (8 >>> f.xd p)) (fun j =>
        (v i j).map (fun v => [Write.mk p ((((8 * sby + byy) * (8 >>> f.yd p) : Nat) : Int) + i)
          ((((8 * sbx + bx) * (8 >>> f.xd p) : Nat) : Int) + j) v]))))
        (fun p' y x => p' = p ∧ inBlock f sbx sby bx byy p y x) := by
    intro v hv
    refine Res.mono (collect_res (C := fun (i : Nat) p' y x => ∃ a ∈ List.range (8 >>> f.xd p), p' = p ∧
      y = (((8 * sby + byy) * (8 >>> f.yd p) : Nat) : Int) + i ∧ x = (((8 * sbx + bx) * (8 >>> f.xd p) : Nat) : Int) + (a : Nat)) ?_) ?_
    · intro i hi
      refine collect_res ?_
      intro j hj
      refine ⟨_, by rw [hv i j (List.mem_range.1 hi) (List.mem_range.1 hj)]; rfl, ?_, ?_⟩
      · intro w hw
        rw [List.mem_singleton] at hw
        subst hw
        rfl
      · rintro p' y x ⟨rfl, rfl, rfl⟩
        exact ⟨_, List.mem_singleton.2 rfl, rfl, rfl, rfl⟩
    · rintro p' y x ⟨rfl, hb⟩
      obtain ⟨i, hi, j, hj, h1, h2⟩ := (hblk y x).1 hb
      exact ⟨i, List.mem_range.2 hi, j, List.mem_range.2 hj, rfl, h1, h2⟩
  have hbase : ∀ i j : Nat, i < 8 >>> f.yd p → j < 8 >>> f.xd p → s.cur p
        ((((8 * sby + byy) * (8 >>> f.yd p) : Nat) : Int) + i) ((((8 * sbx + bx) * (8 >>> f.xd p) : Nat) : Int) + j) =
      f.mem p ((((8 * sby + byy) * (8 >>> f.yd p) : Nat) : Int) * f.stride p + (((8 * sbx + bx) * (8 >>> f.xd p) : Nat) : Int) +
        (i * f.stride p + j)) := by
    intro i j hi hj
    obtain ⟨a1, a2, a3, a4⟩ := hin i j hi hj
    rw [h.cur p _ _ a1 a2 a3 a4]
    congr 1; ring
  rw [eX, eY, hsk, Option.some.injEq] at hskip
  unfold filterPlane
  simp only [gx1, gx2, gy1, gy2]
  cases skip with
  | true =>
    simp only [Bool.not_true, Bool.false_eq_true, if_false]
    refine two (fun i j => some (f.mem p _)) ?_
    intro i j hi hj
    obtain ⟨f1, f2⟩ := hframe i j hi hj
    unfold Spec.cdefFrame
    simp only [f1, f2, hskip, or_true, if_true, hbase i j hi hj]
    congr 2; ring
  | false =>
    simp only [Bool.not_false, if_true]
    have hidx : s.cdefIdx (2 * (8 * sby + byy)) (2 * (8 * sbx + bx)) = b.cdefIndex (16 * sby) (16 * sbx) := by
      rcases hidx with hi | ⟨_, hs⟩
      · exact hi
      · exfalso
        have c1 : 2 * (8 * sbx + bx) + 1 < b.cols := by have := h.cols; omega
        have r1 : 2 * (8 * sby + byy) + 1 < b.rows := by have := h.rows; omega
        rw [h.skips _ _ cY cX, h.skips _ _ r1 cX, h.skips _ _ cY c1, h.skips _ _ r1 c1,
          hs _ _ cY cX (by omega) (by omega), hs _ _ r1 cX (by omega) (by omega), hs _ _ cY c1 (by omega) (by omega),
          hs _ _ r1 c1 (by omega) (by omega)] at hskip
        simp at hskip
    have hreg : (((8 * sbx + bx) * (8 >>> f.xd p) : Nat) : Int) + ((8 >>> f.xd p : Nat) : Int) +
          (if (edgesOf f sbx sby bx byy).right = true then 2 else 0) ≤ f.w p ∧
        (0 : Int) ≤ (((8 * sbx + bx) * (8 >>> f.xd p) : Nat) : Int) - (if (edgesOf f sbx sby bx byy).left = true then 2 else 0) ∧
        (((8 * sby + byy) * (8 >>> f.yd p) : Nat) : Int) + ((8 >>> f.yd p : Nat) : Int) +
          (if (edgesOf f sbx sby bx byy).bottom = true then 2 else 0) ≤ f.h p ∧
        (0 : Int) ≤ (((8 * sby + byy) * (8 >>> f.yd p) : Nat) : Int) - (if (edgesOf f sbx sby bx byy).top = true then 2 else 0) := by
      rw [sw, sh]
      unfold edgesOf
      simp only [decide_eq_true_eq]
      generalize f.xd p = d at d1 ⊢
      generalize f.yd p = e at d2 ⊢
      refine ⟨?_, ?_, ?_, ?_⟩
      · interval_cases d <;> simp <;> split <;> omega
      · interval_cases d <;> simp <;> split <;> omega
      · interval_cases e <;> simp <;> split <;> omega
      · interval_cases e <;> simp <;> split <;> omega
    rw [h.analyze hx hy (by rw [eX, eY, hsk, hskip]), Option.some.injEq, Prod.mk.injEq] at han
    obtain ⟨hdir, hvar⟩ := han
    have hdir8 : dir < 8 := by rw [← hdir]; exact yDir_lt _
    obtain ⟨y1, y2⟩ := h.yStrength _ _ hys
    obtain ⟨u1, u2⟩ := h.uvStrength _ _ huvs
    have y64 := h.yStrengths.2 _ (List.mem_of_getElem? hys)
    have u64 := h.uvStrengths.2 _ (List.mem_of_getElem? huvs)
    have hscale : (2 : Int) ^ (c.bitDepth - 8) = 1 ∨ (2 : Int) ^ (c.bitDepth - 8) = 4 ∨ (2 : Int) ^ (c.bitDepth - 8) = 16 := by
      rcases h.depths with hb | hb | hb <;> rw [hb] <;> norm_num
    have hbits : c.bitDepth - 8 ≤ 4 := by rcases h.depths with hb | hb | hb <;> omega
    have hmax : (2 : Int) ^ c.bitDepth ≤ 4096 := by rcases h.depths with hb | hb | hb <;> rw [hb] <;> norm_num
    have hdamp := h.dampings
    have hsec := secStrength_le yStr
    have hsec' := secStrength_le uvStr
    have hcond : ¬ (s.cdefIdx (2 * (8 * sby + byy)) (2 * (8 * sbx + bx)) = -1 ∨ (s.skips (2 * (8 * sby + byy)) (2 * (8 * sbx + bx)) &&
      s.skips (2 * (8 * sby + byy) + 1) (2 * (8 * sbx + bx)) && s.skips (2 * (8 * sby + byy)) (2 * (8 * sbx + bx) + 1) &&
      s.skips (2 * (8 * sby + byy) + 1) (2 * (8 * sbx + bx) + 1)) = true) := by
      rw [hskip, hidx]; simp
    -- one block with given parameters
    have blk : ∀ (pri sec damping : Int) (d : Nat), d < 8 → 0 ≤ pri → pri < 1024 → 0 ≤ sec → sec < 1024 → damping ≤ 10 →
        ∀ i j, i < 8 >>> f.yd p → j < 8 >>> f.xd p →
        filterBlock (f.mem p) ((((8 * sby + byy) * (8 >>> f.yd p) : Nat) : Int) * f.stride p + (((8 * sbx + bx) * (8 >>> f.xd p) : Nat) : Int))
          (f.stride p) pri sec d damping c.bitDepth (f.xd p) (f.yd p) (edgesOf f sbx sby bx byy) i j =
        some (Spec.filter s p ((((8 * sby + byy) * (8 >>> f.yd p) : Nat) : Int) + i) ((((8 * sbx + bx) * (8 >>> f.xd p) : Nat) : Int) + j)
          pri sec damping d) := by
      intro pri sec damping d hd hp1 hp2 hs1 hs2 hdm i j hi hj
      rw [filterBlock_eq (look s p _ _) hd hi hj (hlook i j hi hj) _ hp1 hp2 hs1 hs2 hdm, filter_eq_combine, hbase i j hi hj,
        ← h.bitDepth, combine_perm (taps_perm s p _ _ pri sec d hd)]
      intro dy dx v hv
      unfold Cdef.look at hv
      split at hv
      · rename_i ha
        obtain ⟨a1, a2, a3, a4⟩ := (h.available _ _ _).1 ha
        rw [h.cur p _ _ a1 a2 a3 a4, Option.some.injEq] at hv
        have := h.range p _ _ a1 a2 a3 a4
        omega
      · simp at hv
    have frame : ∀ i j, i < 8 >>> f.yd p → j < 8 >>> f.xd p → Spec.cdefFrame s p
        ((((8 * sby + byy) * (8 >>> f.yd p) : Nat) : Int) + i) ((((8 * sbx + bx) * (8 >>> f.xd p) : Nat) : Int) + j) =
        if p = 0 then
          Spec.filter s p ((((8 * sby + byy) * (8 >>> f.yd p) : Nat) : Int) + i) ((((8 * sbx + bx) * (8 >>> f.xd p) : Nat) : Int) + j)
            (adjustStrength (((yStr / 4 : Nat) : Int) * 2 ^ (c.bitDepth - 8)) var) (secStrength yStr * 2 ^ (c.bitDepth - 8))
            (c.damping + (c.bitDepth - 8 : Nat)) (if yStr / 4 = 0 then 0 else dir)
        else
          Spec.filter s p ((((8 * sby + byy) * (8 >>> f.yd p) : Nat) : Int) + i) ((((8 * sbx + bx) * (8 >>> f.xd p) : Nat) : Int) + j)
            (((uvStr / 4 : Nat) : Int) * 2 ^ (c.bitDepth - 8)) (secStrength uvStr * 2 ^ (c.bitDepth - 8))
            (c.damping + (c.bitDepth - 8 : Nat) - 1) (if uvStr / 4 = 0 then 0 else Spec.uvDir f.xdec f.ydec dir) := by
      intro i j hi hj
      obtain ⟨f1, f2⟩ := hframe i j hi hj
      have hz : ∀ n : Nat, ((n : Int) * 2 ^ (c.bitDepth - 8) = 0) ↔ n = 0 := by
        intro n
        rcases hscale with hsc | hsc | hsc <;> rw [hsc] <;> omega
      unfold Spec.cdefFrame
      simp only [f1, f2]
      rw [if_neg hcond]
      simp only [hidx, Int.toNat_natCast, y1, y2, u1, u2, h.bitDepth, h.damping, hvar, hdir, ← secStrength_eq, hz, h.subX, h.subY,
        adjust_eq]
    by_cases hp0 : p = 0
    · simp only [planeDir, if_pos hp0, Option.bind_eq_bind, Option.bind_some, if_pos hreg, shl_eq]
      refine two (fun i j => filterBlock _ _ _ _ _ _ _ _ _ _ _ i j) ?_
      intro i j hi hj
      have hpri : 0 ≤ ((yStr / 4 : Nat) : Int) * 2 ^ (c.bitDepth - 8) ∧ ((yStr / 4 : Nat) : Int) * 2 ^ (c.bitDepth - 8) ≤ 240 := by
        rcases hscale with hsc | hsc | hsc <;> rw [hsc] <;> omega
      have hadj := adjust_bound (var := var) hpri.1 hpri.2
      rw [blk _ _ _ _ _ hadj.1 (by omega) (by rcases hscale with hsc | hsc | hsc <;> rw [hsc] <;> omega)
        (by rcases hscale with hsc | hsc | hsc <;> rw [hsc] <;> omega) (by omega) i j hi hj, frame i j hi hj, if_pos hp0]
      · congr 2
        by_cases hz : yStr / 4 = 0
        · simp [hz]
        · rw [if_pos (by omega), if_neg hz]
      · split <;> omega
    · have hd : ∃ d, d = (if uvStr / 4 = 0 then 0 else Spec.uvDir f.xdec f.ydec dir) ∧ d < 8 ∧
          planeDir f dir (yStr / 4 : Nat) (uvStr / 4 : Nat) p = some d := by
        refine ⟨_, rfl, ?_⟩
        obtain ⟨v1, v2⟩ := uvDir_spec hdir8
        have hsm := h.sampling
        unfold planeDir Frame.xd Frame.yd
        rw [if_neg hp0, if_neg hp0, if_neg hp0]
        by_cases hz : uvStr / 4 = 0
        · simp [hz]
        · rw [if_neg hz, if_pos (by omega)]
          simp at hsm
          rcases hsm with ⟨e1, e2⟩ | ⟨e1, e2⟩ | ⟨e1, e2⟩ <;> rw [e1, e2]
          · simp [Spec.uvDir, hdir8]
          · exact ⟨v2, by simpa using v1⟩
          · simp [Spec.uvDir, hdir8]
      obtain ⟨d, hd1, hd2, hd3⟩ := hd
      simp only [hd3, if_neg hp0, Option.bind_eq_bind, Option.bind_some, if_pos hreg, shl_eq]
      refine two (fun i j => filterBlock _ _ _ _ _ _ _ _ _ _ _ i j) ?_
      intro i j hi hj
      rw [blk _ _ _ _ hd2 (by rcases hscale with hsc | hsc | hsc <;> rw [hsc] <;> omega)
        (by rcases hscale with hsc | hsc | hsc <;> rw [hsc] <;> omega) (by rcases hscale with hsc | hsc | hsc <;> rw [hsc] <;> omega)
        (by rcases hscale with hsc | hsc | hsc <;> rw [hsc] <;> omega) (by omega) i j hi hj, frame i j hi hj, if_neg hp0, hd1]

/-! ## Superblocks -/

theorem foldlM_range {σ : Type} (n : Nat) (f : σ → Nat → Option σ) (P : Nat → σ → Prop) (s0 : σ) (h0 : P 0 s0)
    (hs : ∀ k s, k < n → P k s → ∃ s', f s k = some s' ∧ P (k + 1) s') : ∃ s', (List.range n).foldlM f s0 = some s' ∧ P n s' := by
  induction n with
  | zero => exact ⟨s0, rfl, h0⟩
  | succ n ih =>
    obtain ⟨s1, h1, h2⟩ := ih (fun k s hk => hs k s (by omega))
    obtain ⟨s2, h3, h4⟩ := hs n s1 (by omega) h2
    refine ⟨s2, ?_, h4⟩
    rw [List.range_succ, List.foldlM_append, h1]
    simp [h3]

/-- All writes so far are right. -/
def Good (s : Spec.Params) (ws : List Write) : Prop := ∀ w ∈ ws, w.v = Spec.cdefFrame s w.p w.y w.x

/-- Every pixel of block `(bx, by)` has been written. -/
def Done (c : Params) (f : Frame) (ws : List Write) (sbx sby bx byy : Nat) : Prop :=
  8 * (8 * sbx + bx) < f.width → 8 * (8 * sby + byy) < f.height → ∀ p y x, (p < if c.mono then 1 else 3) →
    inBlock f sbx sby bx byy p y x → ∃ w ∈ ws, w.p = p ∧ w.y = y ∧ w.x = x

theorem Done.mono {c : Params} {f : Frame} {ws ws' : List Write} {sbx sby bx byy : Nat} (h : Done c f ws sbx sby bx byy)
    (hw : ∀ w ∈ ws, w ∈ ws') : Done c f ws' sbx sby bx byy := by
  intro h1 h2 p y x h3 h4
  obtain ⟨w, h5, h6⟩ := h h1 h2 p y x h3 h4
  exact ⟨w, hw w h5, h6⟩

theorem blockStep_res {c : Params} {f : Frame} {b : Blocks} {s : Spec.Params} (h : Same c f b s) {sbx sby byy k : Nat}
    (hbyy : byy < 8) (hk : k < 8) {yStr uvStr : Nat}
    (hys : c.yStrengths[b.cdefIndex (16 * sby) (16 * sbx)]? = some yStr)
    (huvs : c.uvStrengths[b.cdefIndex (16 * sby) (16 * sbx)]? = some uvStr) {e : Edges} {wk : List Write}
    (i1 : e.left = decide (0 < 8 * sbx + k)) (i2 : 8 * (8 * sbx + k) < f.width → e.right = true)
    (i3 : e.top = decide (0 < 8 * sby + byy))
    (i4 : 8 * (8 * sby + byy) < f.height → e.bottom = decide (8 * (8 * sby + byy) + 8 < f.height)) :
    ∃ ws, blockStep c f b sbx sby yStr uvStr byy (e, wk) k = some (⟨true, e.right && decide (8 * (8 * sbx + k) + 8 < f.width), e.top, e.bottom⟩, wk ++ ws) ∧
      Good s ws ∧ Done c f ws sbx sby k byy := by
  have hw8 := h.width
  have hh8 := h.height
  have hcols := h.cols
  have hrows := h.rows
  have he : (if (f.width - 64 * sbx) / 2 ^ 3 ≤ k + 1 then { e with right := false } else e) =
      ⟨e.left, e.right && decide (8 * (8 * sbx + k) + 8 < f.width), e.top, e.bottom⟩ := by
    obtain ⟨l, r, t, bt⟩ := e
    split
    · rename_i hle
      have : decide (8 * (8 * sbx + k) + 8 < f.width) = false := by simp; omega
      simp [this]
    · rename_i hle
      have : decide (8 * (8 * sbx + k) + 8 < f.width) = true := by simp; omega
      simp [this]
  unfold blockStep
  simp only [shr_nat, he]
  by_cases hin : 16 * sbx + 2 * k < b.cols ∧ 16 * sby + 2 * byy < b.rows
  · have hbx : 8 * (8 * sbx + k) < f.width := by omega
    have hby : 8 * (8 * sby + byy) < f.height := by omega
    have he' : (⟨e.left, e.right && decide (8 * (8 * sbx + k) + 8 < f.width), e.top, e.bottom⟩ : Edges) = edgesOf f sbx sby k byy := by
      rw [i1, i2 hbx, i3, i4 hby]
      simp [edgesOf]
    rw [if_pos hin, he']
    have eX : 16 * sbx + 2 * k = 2 * (8 * sbx + k) := by omega
    have eY : 16 * sby + 2 * byy = 2 * (8 * sby + byy) := by omega
    have hsk := h.skip8 hbx hby
    rw [← eX, ← eY] at hsk
    obtain ⟨skip, hskip⟩ : ∃ q, b.skip8 (16 * sby + 2 * byy) (16 * sbx + 2 * k) = some q := ⟨_, hsk⟩
    obtain ⟨⟨dir, var⟩, han⟩ : ∃ q, analyze c f b sbx sby k byy = some q := by
      cases hq : skip with
      | false => exact ⟨_, h.analyze hbx hby (by rw [hskip, hq])⟩
      | true =>
        refine ⟨(0, 0), ?_⟩
        unfold analyze
        simp only [if_pos hin, hskip, hq]
        rfl
    simp only [hskip, han, Option.bind_eq_bind, Option.bind_some]
    obtain ⟨ws, g1, g2, g3⟩ := collect_res (s := s) (l := List.range (if c.mono = true then 1 else 3))
      (fun p hp => filterPlane_res h hk hbyy hbx hby hys huvs hskip han (List.mem_range.1 hp))
    refine ⟨ws, ?_, g2, ?_⟩
    · rw [g1]
      simp
    · intro _ _ p y x hp hb
      exact g3 p y x ⟨p, List.mem_range.2 hp, rfl, hb⟩
  · rw [if_neg hin]
    exact ⟨[], rfl, by simp [Good], fun h1 h2 => absurd ⟨by omega, by omega⟩ hin⟩

theorem Good.append {s : Spec.Params} {a b : List Write} (ha : Good s a) (hb : Good s b) : Good s (a ++ b) := by
  intro w hw
  rcases List.mem_append.1 hw with hw | hw
  · exact ha w hw
  · exact hb w hw

theorem rowStep_res {c : Params} {f : Frame} {b : Blocks} {s : Spec.Params} (h : Same c f b s) {sbx sby byy : Nat}
    (hbyy : byy < 8) {yStr uvStr : Nat}
    (hys : c.yStrengths[b.cdefIndex (16 * sby) (16 * sbx)]? = some yStr)
    (huvs : c.uvStrengths[b.cdefIndex (16 * sby) (16 * sbx)]? = some uvStr) {e : Edges} {wk : List Write}
    (i3 : e.top = decide (0 < 8 * sby + byy)) (i4 : 8 * (8 * sby + byy) < f.height → e.bottom = true) :
    ∃ e' ws, rowStep c f b sbx sby yStr uvStr (e, wk) byy = some (e', wk ++ ws) ∧ e'.top = true ∧
      (e'.bottom = (e.bottom && decide (8 * (8 * sby + byy) + 8 < f.height))) ∧
      Good s ws ∧ ∀ bx, bx < 8 → Done c f ws sbx sby bx byy := by
  have hh8 := h.height
  have he : (if (f.height - 64 * sby) / 2 ^ 3 ≤ byy + 1 then { e with bottom := false } else e) =
      ⟨e.left, e.right, e.top, e.bottom && decide (8 * (8 * sby + byy) + 8 < f.height)⟩ := by
    obtain ⟨l, r, t, bt⟩ := e
    split
    · rename_i hle
      have : decide (8 * (8 * sby + byy) + 8 < f.height) = false := by simp; omega
      simp [this]
    · rename_i hle
      have : decide (8 * (8 * sby + byy) + 8 < f.height) = true := by simp; omega
      simp [this]
  unfold rowStep
  simp only [shr_nat, he]
  obtain ⟨r, h1, h2⟩ := foldlM_range (σ := Edges × List Write) 8 (blockStep c f b sbx sby yStr uvStr byy)
    (fun k a => a.1.left = decide (0 < 8 * sbx + k) ∧ (8 * (8 * sbx + k) < f.width → a.1.right = true) ∧
      a.1.top = e.top ∧ a.1.bottom = (e.bottom && decide (8 * (8 * sby + byy) + 8 < f.height)) ∧
      ∃ ws, a.2 = wk ++ ws ∧ Good s ws ∧ ∀ bx, bx < k → Done c f ws sbx sby bx byy)
    (⟨decide (0 < sbx), true, e.top, e.bottom && decide (8 * (8 * sby + byy) + 8 < f.height)⟩, wk)
    ⟨by simp, by simp, rfl, rfl, [], by simp, by simp [Good], by intro bx hbx; omega⟩ (by
      rintro k ⟨ek, wk'⟩ hk ⟨j1, j2, j3, j4, ws, j5, j6, j7⟩
      simp only at j1 j2 j3 j4 j5 j6 j7
      obtain ⟨ws', g1, g2, g3⟩ := blockStep_res (wk := wk') h hbyy hk hys huvs j1 j2 (by rw [j3, i3]) (by
        intro hy; rw [j4, i4 hy]; simp)
      refine ⟨_, g1, ?_, ?_, j3, j4, ws ++ ws', ?_, j6.append g2, ?_⟩
      · simp
      · intro hlt
        simp only [j2 (by omega), Bool.true_and, decide_eq_true_eq]
        omega
      · rw [j5, List.append_assoc]
      · intro bx hbx
        rcases Nat.lt_succ_iff_lt_or_eq.1 hbx with hbx | rfl
        · exact (j7 bx hbx).mono (fun w hw => by simp [hw])
        · exact g3.mono (fun w hw => by simp [hw]))
  obtain ⟨j1, j2, j3, j4, ws, j5, j6, j7⟩ := h2
  refine ⟨{ r.1 with top := true }, ws, by rw [h1]; simp [j5], rfl, j4, j6, j7⟩

theorem filterSuperblock_res {c : Params} {f : Frame} {b : Blocks} {s : Spec.Params} (h : Same c f b s) (sbx sby : Nat) :
    ∃ ws, filterSuperblock c f b sbx sby (b.cdefIndex (16 * sby) (16 * sbx)) = some ws ∧ Good s ws ∧
      ∀ bx byy, bx < 8 → byy < 8 → Done c f ws sbx sby bx byy := by
  obtain ⟨yStr, hys⟩ : ∃ y, c.yStrengths[b.cdefIndex (16 * sby) (16 * sbx)]? = some y :=
    ⟨_, List.getElem?_eq_getElem (by rw [h.yStrengths.1]; exact h.indices _ _)⟩
  obtain ⟨uvStr, huvs⟩ : ∃ y, c.uvStrengths[b.cdefIndex (16 * sby) (16 * sbx)]? = some y :=
    ⟨_, List.getElem?_eq_getElem (by rw [h.uvStrengths.1]; exact h.indices _ _)⟩
  unfold filterSuperblock
  simp only [hys, huvs, Option.bind_eq_bind, Option.bind_some]
  obtain ⟨r, h1, h2⟩ := foldlM_range (σ := Edges × List Write) 8 (rowStep c f b sbx sby yStr uvStr)
    (fun k a => a.1.top = decide (0 < 8 * sby + k) ∧ (8 * (8 * sby + k) < f.height → a.1.bottom = true) ∧ Good s a.2 ∧
      ∀ bx byy, bx < 8 → byy < k → Done c f a.2 sbx sby bx byy)
    (⟨false, false, decide (0 < sby), true⟩, [])
    ⟨by simp, by simp, by simp [Good], by intro _ byy _ h; omega⟩ (by
      rintro k ⟨ek, wk⟩ hk ⟨j1, j2, j3, j4⟩
      simp only at j1 j2 j3 j4
      obtain ⟨e', ws, g1, g2, g3, g4, g5⟩ := rowStep_res (wk := wk) h hk hys huvs j1 j2
      refine ⟨_, g1, ?_, ?_, j3.append g4, ?_⟩
      · rw [g2]; simp
      · intro hlt
        simp only [g3, j2 (by omega), Bool.true_and, decide_eq_true_eq]
        omega
      · intro bx byy hbx hbyy
        rcases Nat.lt_succ_iff_lt_or_eq.1 hbyy with hbyy | rfl
        · exact (j4 bx byy hbx hbyy).mono (fun w hw => by simp [hw])
        · exact (g5 bx hbx).mono (fun w hw => by simp [hw]))
  exact ⟨r.2, by rw [h1]; rfl, h2.2.2.1, h2.2.2.2⟩

/-- **C52**: CDEF does not panic, and leaves the frame that a decoder computes, in every pixel of every plane. -/
theorem filterTile_eq_decoder {c : Params} {f : Frame} {b : Blocks} {s : Spec.Params} (h : Same c f b s)
    (out : Nat → Int → Int → Int) : ∃ ws, filterTile c f b = some ws ∧ ∀ p y x, p < s.numPlanes → 0 ≤ y → y < f.h p → 0 ≤ x →
      x < f.w p → apply out ws p y x = Spec.cdefFrame s p y x := by
  have hw8 := h.width
  have hh8 := h.height
  have hres : Res s (filterTile c f b) (fun p y x => ∃ fby ∈ List.range ((f.height + 63) / 64), ∃ fbx ∈ List.range ((f.width + 63) / 64),
      ∃ bx byy, bx < 8 ∧ byy < 8 ∧ 8 * (8 * fbx + bx) < f.width ∧ 8 * (8 * fby + byy) < f.height ∧ (p < if c.mono then 1 else 3) ∧
        inBlock f fbx fby bx byy p y x) := by
    unfold filterTile
    refine collect_res ?_
    intro fby hfby
    refine collect_res ?_
    intro fbx hfbx
    rw [List.mem_range] at hfby hfbx
    have h1 := h.cols
    have h2 := h.rows
    rw [if_pos (by omega)]
    obtain ⟨ws, g1, g2, g3⟩ := filterSuperblock_res h fbx fby
    refine ⟨ws, g1, g2, ?_⟩
    rintro p y x ⟨bx, byy, k1, k2, k3, k4, k5, k6⟩
    exact g3 bx byy k1 k2 k3 k4 p y x k5 k6
  obtain ⟨ws, g1, g2, g3⟩ := hres
  refine ⟨ws, g1, ?_⟩
  intro p y x hp hy0 hy1 hx0 hx1
  obtain ⟨d1, d2⟩ := h.xd p
  obtain ⟨sw, sh⟩ := h.size p
  apply apply_eq s ws out p y x g2
  left
  apply g3
  have hX : ∃ BX : Nat, x * 2 ^ f.xd p / 8 = BX ∧ BX < f.width / 8 := by
    refine ⟨(x * 2 ^ f.xd p / 8).toNat, ?_⟩
    rw [sw] at hx1
    generalize f.xd p = d at *
    interval_cases d <;> simp at hx1 ⊢ <;> omega
  have hY : ∃ BY : Nat, y * 2 ^ f.yd p / 8 = BY ∧ BY < f.height / 8 := by
    refine ⟨(y * 2 ^ f.yd p / 8).toNat, ?_⟩
    rw [sh] at hy1
    generalize f.yd p = d at *
    interval_cases d <;> simp at hy1 ⊢ <;> omega
  obtain ⟨BX, x1, x2⟩ := hX
  obtain ⟨BY, y1, y2⟩ := hY
  refine ⟨BY / 8, List.mem_range.2 (by omega), BX / 8, List.mem_range.2 (by omega), BX % 8, BY % 8, by omega, by omega, by omega,
    by omega, by rw [← h.numPlanes]; exact hp, ?_, ?_⟩
  · rw [y1]; congr 1; omega
  · rw [x1]; congr 1; omega

/-! ## Ranges -/

theorem foldl_max_lt {l : List Int} {x n : Int} (hx : x < n) (h : ∀ v ∈ l, v < n) : l.foldl max x < n := by
  induction l generalizing x with
  | nil => exact hx
  | cons a l ih => exact ih (max_lt hx (h a (by simp))) (fun v hv => h v (by simp [hv]))

theorem foldl_min_ge {l : List Int} {x n : Int} (hx : n ≤ x) (h : ∀ v ∈ l, n ≤ v) : n ≤ l.foldl min x := by
  induction l generalizing x with
  | nil => exact hx
  | cons a l ih => exact ih (le_min hx (h a (by simp))) (fun v hv => h v (by simp [hv]))

theorem combine_range {x damping n : Int} {ts : List Spec.Tap} (hx : 0 ≤ x ∧ x < n) (h : ∀ t ∈ ts, 0 ≤ t.v ∧ t.v < n) :
    0 ≤ combine x damping ts ∧ combine x damping ts < n := by
  have h1 : (ts.map Spec.Tap.v).foldl max x < n := foldl_max_lt hx.2 (by
    intro v hv; obtain ⟨t, ht, rfl⟩ := List.mem_map.1 hv; exact (h t ht).2)
  have h2 : 0 ≤ (ts.map Spec.Tap.v).foldl min x := foldl_min_ge hx.1 (by
    intro v hv; obtain ⟨t, ht, rfl⟩ := List.mem_map.1 hv; exact (h t ht).1)
  have h3 := foldl_max_le (ts.map Spec.Tap.v) x
  have h4 := foldl_min_le (ts.map Spec.Tap.v) x
  unfold combine
  simp only
  generalize (ts.map Spec.Tap.v).foldl max x = hi at *
  generalize (ts.map Spec.Tap.v).foldl min x = lo at *
  generalize x + _ = v
  omega

/-- **C38**, for CDEF: pixels stay in the range of the bit depth. -/
theorem filterTile_range {c : Params} {f : Frame} {b : Blocks} {s : Spec.Params} (h : Same c f b s) (out : Nat → Int → Int → Int) :
    ∃ ws, filterTile c f b = some ws ∧ ∀ p y x, p < s.numPlanes → 0 ≤ y → y < f.h p → 0 ≤ x → x < f.w p →
      0 ≤ apply out ws p y x ∧ apply out ws p y x < 2 ^ c.bitDepth := by
  obtain ⟨ws, h1, h2⟩ := filterTile_eq_decoder h out
  refine ⟨ws, h1, ?_⟩
  intro p y x hp hy0 hy1 hx0 hx1
  rw [h2 p y x hp hy0 hy1 hx0 hx1]
  have hcur : 0 ≤ s.cur p y x ∧ s.cur p y x < 2 ^ c.bitDepth := by
    rw [h.cur p y x hy0 hy1 hx0 hx1]; exact h.range p y x hy0 hy1 hx0 hx1
  have hf : ∀ pri sec damping dir, 0 ≤ Spec.filter s p y x pri sec damping dir ∧ Spec.filter s p y x pri sec damping dir < 2 ^ c.bitDepth := by
    intro pri sec damping dir
    rw [filter_eq_combine]
    apply combine_range hcur
    intro t ht
    unfold Spec.taps at ht
    simp only [List.mem_flatMap, List.mem_filterMap] at ht
    obtain ⟨k, _, sign, _, q, _, hq⟩ := ht
    split at hq
    · rename_i ha
      obtain ⟨a1, a2, a3, a4⟩ := (h.available _ _ _).1 ha
      rw [Option.some.injEq] at hq
      subst hq
      simp only [h.cur p _ _ a1 a2 a3 a4]
      exact h.range p _ _ a1 a2 a3 a4
    · simp at hq
  have hcases : Spec.cdefFrame s p y x = s.cur p y x ∨ ∃ pri sec damping dir, Spec.cdefFrame s p y x = Spec.filter s p y x pri sec damping dir := by
    unfold Spec.cdefFrame
    dsimp only
    split_ifs
    all_goals first | exact Or.inl rfl | exact Or.inr ⟨_, _, _, _, rfl⟩
  rcases hcases with hc | ⟨pri, sec, damping, dir, hc⟩ <;> rw [hc]
  · exact hcur
  · exact hf _ _ _ _

/-- **C52**: nothing overflows in the filter: a tap adds at most its weight times its strength, so that the sum of the taps is at
most `12 * (240 + 64)`. -/
theorem filter_no_overflow (diff threshold damping : Int) (h : 0 ≤ threshold) : |constrain diff threshold damping| ≤ threshold := by
  unfold constrain
  split
  · rename_i hne
    simp only [shr_eq]
    have h0 : 0 ≤ ((diff.natAbs : Nat) : Int) / 2 ^ (max 0 (damping - msb threshold)).toNat :=
      Int.ediv_nonneg (by omega) (by positivity)
    generalize ((diff.natAbs : Nat) : Int) / 2 ^ (max 0 (damping - msb threshold)).toNat = q at *
    rw [abs_le]
    split <;> omega
  · simpa using h

/-! ## A case that meets the hypotheses -/

namespace Example

def c : Params := ⟨10, false, 4, [0x3f, 0, 0, 0, 0, 0, 0, 0], [0x26, 0, 0, 0, 0, 0, 0, 0]⟩
def f : Frame := ⟨16, 8, 1, 0, fun _ => 32, fun p a => (a * 9 + a * a * 7 % 64 + p) % 1024⟩
def b : Blocks := ⟨4, 2, fun _ x => decide (2 ≤ x), fun _ _ => 0⟩
def s : Spec.Params := ⟨10, 3, 1, 0, 2, 4, 4, fun i => c.yStrengths.getD i 0 / 4, fun i => if c.yStrengths.getD i 0 % 4 = 3 then 4 else
  c.yStrengths.getD i 0 % 4, fun i => c.uvStrengths.getD i 0 / 4, fun i => if c.uvStrengths.getD i 0 % 4 = 3 then 4 else
  c.uvStrengths.getD i 0 % 4, b.skip, fun _ _ => 0, fun p y x => f.mem p (y * 32 + x)⟩

/-- A frame of 16x8 in 4:2:2, whose right half is skipped. -/
example : Same c f b s where
  bitDepth := rfl
  depths := by decide
  numPlanes := rfl
  subX := rfl
  subY := rfl
  sampling := by decide
  width := rfl
  height := rfl
  cols := rfl
  rows := rfl
  miCols := rfl
  miRows := rfl
  damping := rfl
  dampings := by decide
  yStrengths := by decide
  uvStrengths := by decide
  yStrength := by intro i x hx; simp [s, List.getD, hx]
  uvStrength := by intro i x hx; simp [s, List.getD, hx]
  skips := fun _ _ _ _ => rfl
  indices := fun _ _ => by simp [b]
  index := fun _ _ _ _ => Or.inl rfl
  cur := fun _ _ _ _ _ _ _ => rfl
  range := fun p y x _ _ _ _ => by
    simp only [f, c]
    omega

/-- The filter changes pixels of the left half only. -/
example : Spec.cdefFrame s 0 3 3 ≠ s.cur 0 3 3 ∧ Spec.cdefFrame s 1 3 2 ≠ s.cur 1 3 2 ∧ Spec.cdefFrame s 0 3 12 = s.cur 0 3 12 := by
  decide +kernel

example : (filterTile c f b).map List.length = some 256 := by decide +kernel

end Example

end Rav1e.Cdef

import Verif.Deblock.Kernel

/-!
# One edge

The code filters an edge of four pixels as the edge loop filter process of the specification does, when the decoder has
the same data about the blocks.
-/

namespace Rav1e.Deblock
open Rav1e.Quant (TxSize)
open Rav1e.Coef (BlockSize codedSize)

/-- The decoder has stored what the encoder has, and the blocks are those of a partition of the frame. -/
structure Same (g : Params) (d : Spec.Dec) : Prop where
  /-- `g` is for one of the planes of the frame -/
  plane : d.plane = g.pli
  pli : g.pli ≤ 2
  xdec : g.xdec = if g.pli = 0 then 0 else d.subX
  ydec : g.ydec = if g.pli = 0 then 0 else d.subY
  subX : d.subX ≤ 1
  subY : d.subY ≤ 1
  depth : d.bitDepth = g.bd
  bd : g.bd = 8 ∨ g.bd = 10 ∨ g.bd = 12
  width : d.frameWidth = g.cropW
  height : d.frameHeight = g.cropH
  miCols : d.miCols = g.cols
  miRows : d.miRows = g.rows
  /-- `MiCols` and `MiRows` are even -/
  evenC : g.cols % 2 = 0
  evenR : g.rows % 2 = 0
  /-- the frame header -/
  lfLevel : d.lfLevel = g.levels
  sharpness : d.sharpness = 0
  /-- the blocks -/
  blockW : ∀ r c, r < g.rows → c < g.cols → d.blockW r c = 2 ^ (g.blk r c).bsize.widthLog2
  blockH : ∀ r c, r < g.rows → c < g.cols → d.blockH r c = 2 ^ (g.blk r c).bsize.heightLog2
  lumaTxW : ∀ r c, r < g.rows → c < g.cols → d.lumaTxW r c = (g.blk r c).txsize.width
  lumaTxH : ∀ r c, r < g.rows → c < g.cols → d.lumaTxH r c = (g.blk r c).txsize.height
  skip : ∀ r c, r < g.rows → c < g.cols → d.skip r c = (g.blk r c).skip
  isIntra : ∀ r c, r < g.rows → c < g.cols → d.isIntra r c = (g.blk r c).intra
  /-- a block starts at a multiple of its size and all its positions have its data -/
  uniform : ∀ r c r' c', r < g.rows → c < g.cols → r' < g.rows → c' < g.cols →
    r / (g.blk r c).bsize.heightMi = r' / (g.blk r c).bsize.heightMi →
    c / (g.blk r c).bsize.widthMi = c' / (g.blk r c).bsize.widthMi → g.blk r' c' = g.blk r c
  /-- the blocks in an aligned area of 8x8 luma pixels have one size -/
  same8 : ∀ r c, r < g.rows → c < g.cols → (g.blk (2 * (r / 2)) (2 * (c / 2))).bsize = (g.blk r c).bsize
  /-- the sizes are possible with this chroma subsampling -/
  valid : g.pli ≠ 0 → ∀ r c, r < g.rows → c < g.cols → (g.blk r c).bsize.subsampled g.xdec g.ydec ≠ none

/-! ## Lines -/

theorem vLine_eq {bd : Nat} (hbd : bd = 8 ∨ bd = 10 ∨ bd = 12) (plane fs L : Nat) (hfs : fs = 4 ∨ fs = 8 ∨ (fs = 16 ∧ plane = 0))
    (X Y : Int) (p : Plane) (y : Nat) :
    vLine (codeSize plane fs) L bd (X - (codeSize plane fs >>> 1 : Nat)) Y p y =
      some (Spec.onLine 0 X (Y + y) (Spec.sampleFilter plane fs L (3 * L + 4) (Spec.thresh L) bd) p) := by
  obtain ⟨o, h1, h2⟩ := inner_eq hbd plane fs L (fun k => p (Y + y) (X + k)) hfs
  unfold vLine
  have e : (fun j : Nat => p (Y + y) (X - (codeSize plane fs >>> 1 : Nat) + j)) =
      (fun j : Nat => (fun k => p (Y + y) (X + k)) ((j : Int) - (codeSize plane fs >>> 1 : Nat))) := by
    funext j
    show p _ _ = p _ _
    congr 1; omega
  rw [e, h1]
  simp only [Option.map_some]
  congr 1
  funext r c
  unfold Spec.onLine
  rw [if_pos rfl, ← h2]
  cases o with
  | none =>
    simp only [after]
    split
    · rename_i h; subst h; congr 1; omega
    · rfl
  | some data =>
    simp only [after, put, copyHorizontal]
    generalize outAt (codeSize plane fs) = a
    by_cases hr : r = Y + y
    · subst hr
      simp only [true_and, if_true]
      by_cases hc : X - (codeSize plane fs >>> 1 : Nat) + a ≤ c ∧ c < X - (codeSize plane fs >>> 1 : Nat) + a + data.length
      · rw [if_pos hc, if_pos (by omega)]; congr 1; omega
      · rw [if_neg hc, if_neg (by omega)]; congr 1; omega
    · rw [if_neg (fun h => hr h.1), if_neg hr]

theorem hLine_eq {bd : Nat} (hbd : bd = 8 ∨ bd = 10 ∨ bd = 12) (plane fs L : Nat) (hfs : fs = 4 ∨ fs = 8 ∨ (fs = 16 ∧ plane = 0))
    (X Y : Int) (p : Plane) (x : Nat) :
    hLine (codeSize plane fs) L bd X (Y - (codeSize plane fs >>> 1 : Nat)) p x =
      some (Spec.onLine 1 (X + x) Y (Spec.sampleFilter plane fs L (3 * L + 4) (Spec.thresh L) bd) p) := by
  obtain ⟨o, h1, h2⟩ := inner_eq hbd plane fs L (fun k => p (Y + k) (X + x)) hfs
  unfold hLine
  have e : (fun j : Nat => p (Y - (codeSize plane fs >>> 1 : Nat) + j) (X + x)) =
      (fun j : Nat => (fun k => p (Y + k) (X + x)) ((j : Int) - (codeSize plane fs >>> 1 : Nat))) := by
    funext j
    show p _ _ = p _ _
    congr 1; omega
  rw [e, h1]
  simp only [Option.map_some]
  congr 1
  funext r c
  unfold Spec.onLine
  rw [if_neg (by omega), ← h2]
  cases o with
  | none =>
    simp only [after]
    split
    · rename_i h; subst h; congr 1; omega
    · rfl
  | some data =>
    simp only [after, put, copyVertical]
    generalize outAt (codeSize plane fs) = a
    by_cases hr : c = X + x
    · subst hr
      simp only [true_and, if_true]
      by_cases hc : Y - (codeSize plane fs >>> 1 : Nat) + a ≤ r ∧ r < Y - (codeSize plane fs >>> 1 : Nat) + a + data.length
      · rw [if_pos hc, if_pos (by omega)]; congr 1; omega
      · rw [if_neg hc, if_neg (by omega)]; congr 1; omega
    · rw [if_neg (fun h => hr h.1), if_neg hr]

/-! ## Sizes -/

theorem widthMi_pow (b : BlockSize) : b.widthMi = 2 ^ (b.widthLog2 - 2) := by cases b <;> rfl
theorem heightMi_pow (b : BlockSize) : b.heightMi = 2 ^ (b.heightLog2 - 2) := by cases b <;> rfl
theorem txWidthMi_pow (t : TxSize) : widthMi t = 2 ^ (t.widthLog2 - 2) := by cases t <;> rfl
theorem txHeightMi_pow (t : TxSize) : heightMi t = 2 ^ (t.heightLog2 - 2) := by cases t <;> rfl

theorem and_pred_eq (x n : Nat) : x &&& (2 ^ n - 1) = x % 2 ^ n := Nat.and_two_pow_sub_one_eq_mod x n

theorem widthMi_four (b : BlockSize) : 2 ^ b.widthLog2 = 4 * b.widthMi ∧ 0 < b.widthMi ∧ (b.widthMi = 1 ∨ b.widthMi % 2 = 0) := by
  cases b <;> decide
theorem heightMi_four (b : BlockSize) : 2 ^ b.heightLog2 = 4 * b.heightMi ∧ 0 < b.heightMi ∧ (b.heightMi = 1 ∨ b.heightMi % 2 = 0) := by
  cases b <;> decide
theorem txWidthMi_four (t : TxSize) : t.width = 4 * widthMi t ∧ 0 < widthMi t ∧
    (t.width = 4 ∨ t.width = 8 ∨ t.width = 16 ∨ t.width = 32 ∨ t.width = 64) := by
  cases t <;> decide
theorem txHeightMi_four (t : TxSize) : t.height = 4 * heightMi t ∧ 0 < heightMi t ∧
    (t.height = 4 ∨ t.height = 8 ∨ t.height = 16 ∨ t.height = 32 ∨ t.height = 64) := by
  cases t <;> decide

/-- The size of the chroma transform: that of the chroma block, but not more than 32. -/
theorem chroma_tx (b : BlockSize) (xdec ydec : Nat) (hx : xdec ≤ 1) (hy : ydec ≤ 1)
    (hv : b.subsampled xdec ydec ≠ none) :
    ∃ t, largestChromaTx b xdec ydec = some t ∧
      t.width = min 32 (if xdec = 0 then 4 * b.widthMi else max 4 (4 * b.widthMi / 2)) ∧
      t.height = min 32 (if ydec = 0 then 4 * b.heightMi else max 4 (4 * b.heightMi / 2)) ∧
      (xdec = 1 → 32 < (if ydec = 0 then 4 * b.heightMi else max 4 (4 * b.heightMi / 2)) → b.widthMi ≠ 1) ∧
      (ydec = 1 → 32 < (if xdec = 0 then 4 * b.widthMi else max 4 (4 * b.widthMi / 2)) → b.heightMi ≠ 1) := by
  have hx' : xdec = 0 ∨ xdec = 1 := by omega
  have hy' : ydec = 0 ∨ ydec = 1 := by omega
  rcases hx' with rfl | rfl <;> rcases hy' with rfl | rfl <;> cases b <;>
    first
    | exact absurd rfl hv
    | exact ⟨_, rfl, by decide⟩

theorem Same.xdec_le {g : Params} {d : Spec.Dec} (h : Same g d) : g.xdec ≤ 1 := by
  have := h.xdec; have := h.subX; split at * <;> omega
theorem Same.ydec_le {g : Params} {d : Spec.Dec} (h : Same g d) : g.ydec ≤ 1 := by
  have := h.ydec; have := h.subY; split at * <;> omega

/-- `a ||| dec` for `a` a multiple of the step. -/
theorem or_dec (a dec : Nat) (hd : dec ≤ 1) (ha : a % (1 <<< dec) = 0) : a ||| dec = a + dec := by
  have hd' : dec = 0 ∨ dec = 1 := by omega
  rcases hd' with rfl | rfl
  · simp
  · have ha : a % 2 = 0 := ha
    have e : a = 2 * (a / 2) := by omega
    rw [e]
    have := Nat.two_pow_add_eq_or_of_lt (i := 1) (b := 1) (by omega) (a / 2)
    simpa using this.symm

theorem Same.planeW_eq {g : Params} {d : Spec.Dec} (h : Same g d) (r c : Nat) (hr : r < g.rows) (hc : c < g.cols) :
    d.planeW r c = if g.xdec = 0 then 4 * (g.blk r c).bsize.widthMi else max 4 (4 * (g.blk r c).bsize.widthMi / 2) := by
  unfold Spec.Dec.planeW
  rw [h.blockW r c hr hc, (widthMi_four _).1, h.plane, h.xdec]
  have := h.subX
  by_cases hp : g.pli = 0
  · simp [hp]
  · simp [hp]

theorem Same.planeH_eq {g : Params} {d : Spec.Dec} (h : Same g d) (r c : Nat) (hr : r < g.rows) (hc : c < g.cols) :
    d.planeH r c = if g.ydec = 0 then 4 * (g.blk r c).bsize.heightMi else max 4 (4 * (g.blk r c).bsize.heightMi / 2) := by
  unfold Spec.Dec.planeH
  rw [h.blockH r c hr hc, (heightMi_four _).1, h.plane, h.ydec]
  have := h.subY
  by_cases hp : g.pli = 0
  · simp [hp]
  · simp [hp]

/-- The transform size in the plane. -/
theorem Same.tx {g : Params} {d : Spec.Dec} (h : Same g d) (r c : Nat) (hr : r < g.rows) (hc : c < g.cols) :
    ∃ t, txOf g (g.blk r c) = some t ∧ t.width = d.txW r c ∧ t.height = d.txH r c := by
  unfold txOf Spec.Dec.txW Spec.Dec.txH
  rw [h.plane, h.planeW_eq r c hr hc, h.planeH_eq r c hr hc, h.lumaTxW r c hr hc, h.lumaTxH r c hr hc]
  by_cases hp : g.pli = 0
  · simp [hp]
  · simp only [hp, if_false]
    obtain ⟨t, h1, h2, h3, _⟩ := chroma_tx (g.blk r c).bsize g.xdec g.ydec h.xdec_le h.ydec_le (h.valid hp r c hr hc)
    exact ⟨t, h1, h2, h3⟩

/-- What is needed of a position for the filter to work on its left or upper edge. -/
structure At (g : Params) (y x : Nat) : Prop where
  mx : x % (1 <<< g.xdec) = 0
  my : y % (1 <<< g.ydec) = 0
  xc : x < g.cols
  yr : y < g.rows

theorem dec_lt (a dec n : Nat) (hd : dec ≤ 1) (ha : a % (1 <<< dec) = 0) (hn : n % 2 = 0) (h : a < n) : a + dec < n := by
  have hd' : dec = 0 ∨ dec = 1 := by omega
  rcases hd' with rfl | rfl
  · exact h
  · have ha : a % 2 = 0 := ha
    omega

theorem At.col {g : Params} {d : Spec.Dec} {y x : Nat} (h : Same g d) (a : At g y x) : x + g.xdec < g.cols :=
  dec_lt _ _ _ h.xdec_le a.mx h.evenC a.xc
theorem At.row {g : Params} {d : Spec.Dec} {y x : Nat} (h : Same g d) (a : At g y x) : y + g.ydec < g.rows :=
  dec_lt _ _ _ h.ydec_le a.my h.evenR a.yr

theorem half_dec (a dec : Nat) (hd : dec ≤ 1) (ha : a % (1 <<< dec) = 0) : 2 * ((a + dec) / 2) = 2 * (a / 2) := by
  have hd' : dec = 0 ∨ dec = 1 := by omega
  rcases hd' with rfl | rfl
  · rfl
  · have ha : a % 2 = 0 := ha
    omega

/-- The block that the code reads and the block that the specification reads have one size. -/
theorem At.bsize {g : Params} {d : Spec.Dec} {y x : Nat} (h : Same g d) (a : At g y x) :
    (g.blk (y + g.ydec) (x + g.xdec)).bsize = (g.blk y x).bsize := by
  have h1 := h.same8 _ _ (a.row h) (a.col h)
  have h2 := h.same8 _ _ a.yr a.xc
  rw [half_dec _ _ h.ydec_le a.my, half_dec _ _ h.xdec_le a.mx] at h1
  rw [← h1, h2]

theorem At.tx {g : Params} {d : Spec.Dec} {y x : Nat} (h : Same g d) (a : At g y x) :
    txOf g (g.blk y x) = txOf g (g.blk (y + g.ydec) (x + g.xdec)) := by
  unfold txOf
  rw [a.bsize h]
  by_cases hp : g.pli = 0
  · have e1 := h.xdec
    have e2 := h.ydec
    simp only [hp, if_true] at e1 e2 ⊢
    rw [e1, e2]; rfl
  · simp only [hp, if_false]

/-- `x` in pixels of the plane. -/
theorem px (x dec : Nat) (hd : dec ≤ 1) (hx : x % (1 <<< dec) = 0) : (x * 4) >>> dec = 4 * (x >>> dec) := by
  have hd' : dec = 0 ∨ dec = 1 := by omega
  rcases hd' with rfl | rfl
  · simp; omega
  · have hx : x % 2 = 0 := hx
    simp [Nat.shiftRight_eq_div_pow]; omega

theorem mul4_mod (a b : Nat) : 4 * a % (4 * b) = 4 * (a % b) := Nat.mul_mod_mul_left 4 a b

/-- The two tests for an edge of the transform. -/
theorem tx_edge (x dec : Nat) (hd : dec ≤ 1) (hx : x % (1 <<< dec) = 0) (wl wm w : Nat) (hwm : wm = 2 ^ wl)
    (hw : w = 4 * wm) : ((x >>> dec) &&& (wm - 1) = 0) ↔ (x * 4) >>> dec % w = 0 := by
  rw [px x dec hd hx, hw, mul4_mod, hwm, and_pred_eq]
  omega

/-- The two tests for an edge of the block. -/
theorem block_edge (x dec : Nat) (hd : dec ≤ 1) (hx : x % (1 <<< dec) = 0) (wl wm : Nat) (hwm : wm = 2 ^ wl)
    (he : wm = 1 ∨ wm % 2 = 0) :
    (x &&& (wm - 1) = 0) ↔ (x * 4) >>> dec % (if dec = 0 then 4 * wm else max 4 (4 * wm / 2)) = 0 := by
  rw [px x dec hd hx]
  have e0 : x &&& (wm - 1) = x % wm := by rw [hwm]; exact and_pred_eq x wl
  rw [e0]
  have hd' : dec = 0 ∨ dec = 1 := by omega
  rcases hd' with e | e
  · subst e
    simp only [if_true, mul4_mod]
    simp
  · subst e
    have hx : x % 2 = 0 := hx
    simp only [Nat.one_ne_zero, if_false]
    rcases he with e | e
    · rw [e]; simp; omega
    · have hw : wm = 2 * (wm / 2) := by omega
      have e1 : max 4 (4 * wm / 2) = 4 * (wm / 2) := by
        have : wm ≠ 0 := by rw [hwm]; exact Nat.ne_of_gt (Nat.two_pow_pos wl)
        omega
      rw [e1, mul4_mod, show x >>> 1 = x / 2 from rfl]
      have e2 : x % wm = 2 * (x / 2 % (wm / 2)) := by
        rw [← Nat.mul_mod_mul_left 2, ← hw]; congr 1; omega
      omega

/-- The size of the filter. -/
theorem codeSize_eq (plane w w' m m' : Nat) (hw : w = 4 * m)
    (hv : w = 4 ∨ w = 8 ∨ w = 16 ∨ w = 32 ∨ w = 64) (hw' : w' = 4 * m')
    (hv' : w' = 4 ∨ w' = 8 ∨ w' = 16 ∨ w' = 32 ∨ w' = 64) :
    min (if plane = 0 then 14 else 6) (min (max m 1) (max m' 1) <<< 2) =
      codeSize plane (if plane = 0 then min 16 (min w w') else min 8 (min w w')) ∧
    ((if plane = 0 then min 16 (min w w') else min 8 (min w w')) = 4 ∨
      (if plane = 0 then min 16 (min w w') else min 8 (min w w')) = 8 ∨
      ((if plane = 0 then min 16 (min w w') else min 8 (min w w')) = 16 ∧ plane = 0)) := by
  unfold codeSize
  rw [Nat.shiftLeft_eq]
  split <;> omega

theorem codeSize_pos (plane fs : Nat) (h : fs = 4 ∨ fs = 8 ∨ (fs = 16 ∧ plane = 0)) : 0 < codeSize plane fs := by
  unfold codeSize; split <;> omega

/-- Two positions left of one another in one block. -/
theorem div_left (x dec wm : Nat) (hd : dec ≤ 1) (hx : x % (1 <<< dec) = 0) (he : wm = 1 ∨ wm % 2 = 0) (hpos : 0 < wm)
    (h0 : x % wm ≠ 0) : x / wm = (x + dec) / wm ∧ x / wm = (x + dec - 1 <<< dec) / wm := by
  have hw : wm ≠ 1 := by intro e; rw [e] at h0; omega
  have h1 := Nat.div_add_mod x wm
  have h2 := Nat.mod_lt x hpos
  have hd' : dec = 0 ∨ dec = 1 := by omega
  rcases hd' with rfl | rfl
  · refine ⟨rfl, ?_⟩
    symm
    apply Nat.div_eq_of_lt_le
    · rw [Nat.mul_comm]; simp; omega
    · rw [Nat.mul_comm, Nat.mul_add]; simp; omega
  · have hx : x % 2 = 0 := hx
    have hev : wm % 2 = 0 := by omega
    have hm : (wm * (x / wm)) % 2 = 0 := by rw [Nat.mul_mod, hev]; simp
    generalize x / wm = q at *
    generalize x % wm = r at *
    constructor
    · symm; apply Nat.div_eq_of_lt_le
      · rw [Nat.mul_comm]; omega
      · rw [Nat.mul_comm, Nat.mul_add]; omega
    · symm; apply Nat.div_eq_of_lt_le
      · rw [Nat.mul_comm]; simp; omega
      · rw [Nat.mul_comm, Nat.mul_add]; simp; omega

/-- A position and the next one in one block. -/
theorem div_next (y dec hm : Nat) (hd : dec ≤ 1) (hy : y % (1 <<< dec) = 0) (he : hm = 1 ∨ hm % 2 = 0) (hp : 0 < hm)
    (h1 : dec = 1 → hm ≠ 1) : y / hm = (y + dec) / hm := by
  have hd' : dec = 0 ∨ dec = 1 := by omega
  rcases hd' with rfl | rfl
  · rfl
  · have hy : y % 2 = 0 := hy
    have hev : hm % 2 = 0 := by have := h1 rfl; omega
    have h3 := Nat.div_add_mod y hm
    have h2 := Nat.mod_lt y hp
    have hm2 : (hm * (y / hm)) % 2 = 0 := by rw [Nat.mul_mod, hev]; simp
    generalize y / hm = q at *
    generalize y % hm = r at *
    symm; apply Nat.div_eq_of_lt_le
    · rw [Nat.mul_comm]; omega
    · rw [Nat.mul_comm, Nat.mul_add]; omega

theorem foldlM4 {α : Type} (f : α → Nat → Option α) (f' : α → Nat → α) (h : ∀ p y, f p y = some (f' p y)) (p : α) :
    [0, 1, 2, 3].foldlM f p = some ((List.range 4).foldl f' p) := by
  simp [List.foldlM, h, List.range_succ]

theorem Same.lvl {g : Params} {d : Spec.Dec} (h : Same g d) (v : Bool) : level g v = d.lvl (if v then 0 else 1) := by
  unfold level adjustedLevel Spec.Dec.lvl
  rw [h.lfLevel, h.plane, ite_self]

/-- A vertical edge. -/
theorem filterVEdge_eq {g : Params} {d : Spec.Dec} (h : Same g d) {y x : Nat} (a : At g y x) (hx : 0 < x)
    (hw : 4 * x < g.cropW) (hh : 4 * y < g.cropH) (p : Plane) :
    filterVEdge g y p x = some (d.edge 0 y x p) := by
  have eX : (if d.plane = 0 then 0 else d.subX) = g.xdec := by rw [h.plane, h.xdec]
  have eY : (if d.plane = 0 then 0 else d.subY) = g.ydec := by rw [h.plane, h.ydec]
  have hcol := a.col h
  have hrow := a.row h
  have hd := h.xdec_le
  have hdy := h.ydec_le
  -- the transform of the block, and the previous block
  obtain ⟨t, ht, htw, hth⟩ := h.tx _ _ hrow hcol
  obtain ⟨t', ht', htw', hth'⟩ := h.tx (y + g.ydec) (x + g.xdec - 1 <<< g.xdec) hrow
    (Nat.lt_of_le_of_lt (Nat.sub_le _ _) hcol)
  have tw := txWidthMi_four t
  have tw' := txWidthMi_four t'
  have bw := widthMi_four (g.blk y x).bsize
  have te := tx_edge x g.xdec hd a.mx (t.widthLog2 - 2) (widthMi t) t.width (txWidthMi_pow t) tw.1
  have be := block_edge x g.xdec hd a.mx _ _ (widthMi_pow (g.blk y x).bsize) bw.2.2
  have pw := h.planeW_eq _ _ hrow hcol
  rw [a.bsize h] at pw
  have hpc : x + g.xdec - 1 <<< g.xdec < g.cols := Nat.lt_of_le_of_lt (Nat.sub_le _ _) hcol
  have lv := h.lvl true
  -- the code
  unfold filterVEdge
  simp only [blockAt, deblockLeft, a.yr, a.xc, and_self, if_true, Option.bind_eq_bind, Option.bind_some, a.tx h, ht,
    or_dec y g.ydec hdy a.my, or_dec x g.xdec hd a.mx, hrow, hpc]
  -- the specification
  unfold Spec.Dec.edge
  simp only [eX, eY, or_dec y g.ydec hdy a.my, or_dec x g.xdec hd a.mx, if_true, Nat.zero_shiftLeft, Nat.sub_zero]
  have on : (decide (x * 4 < d.frameWidth) && decide (y * 4 < d.frameHeight) && !(0 == 0 && x * 4 == 0) &&
      !(0 == 1 && y * 4 == 0)) = true := by
    simp [h.width, h.height]; omega
  rw [on]
  by_cases hte : (x >>> g.xdec) &&& (widthMi t - 1) = 0
  · rw [if_pos hte]
    have e1 : ((x * 4) >>> g.xdec % d.txW (y + g.ydec) (x + g.xdec) == 0) = true := by
      rw [← htw]; simp [te.1 hte]
    -- the condition of the filter
    have key : ((x &&& ((g.blk y x).bsize.widthMi - 1) == 0) || !(g.blk y x).skip ||
        !(g.blk (y + g.ydec) (x + g.xdec - 1 <<< g.xdec)).skip || (g.blk y x).intra ||
        (g.blk (y + g.ydec) (x + g.xdec - 1 <<< g.xdec)).intra) =
        (((x * 4) >>> g.xdec % d.planeW (y + g.ydec) (x + g.xdec) == 0) || !d.skip (y + g.ydec) (x + g.xdec) ||
          d.isIntra (y + g.ydec) (x + g.xdec)) := by
      rw [pw, h.skip _ _ hrow hcol, h.isIntra _ _ hrow hcol]
      by_cases hbe : x &&& ((g.blk y x).bsize.widthMi - 1) = 0
      · have := be.1 hbe
        simp [hbe, this]
      · have hbe' := fun e => hbe (be.2 e)
        have hmod : x % (g.blk y x).bsize.widthMi ≠ 0 := by
          rw [widthMi_pow, ← and_pred_eq, ← widthMi_pow]; exact hbe
        have dl := div_left x g.xdec _ hd a.mx bw.2.2 bw.2.1 hmod
        have bh := heightMi_four (g.blk y x).bsize
        have dn : y / (g.blk y x).bsize.heightMi = (y + g.ydec) / (g.blk y x).bsize.heightMi := by
          apply div_next y g.ydec _ hdy a.my bh.2.2 bh.2.1
          intro e
          have hp : g.pli ≠ 0 := by
            intro e0
            have := h.ydec
            rw [if_pos e0] at this; omega
          obtain ⟨t2, k1, k2, _, _, k5⟩ := chroma_tx (g.blk y x).bsize g.xdec g.ydec hd hdy (h.valid hp _ _ a.yr a.xc)
          apply k5 e
          -- the transform is smaller than the block
          have e2 : t2 = t := by
            have := a.tx h
            rw [ht] at this
            unfold txOf at this
            rw [if_neg hp, k1] at this
            exact Option.some.inj this
          rw [e2] at k2
          apply Classical.byContradiction
          intro hn
          have e3 : t.width = (if g.xdec = 0 then 4 * (g.blk y x).bsize.widthMi else
              max 4 (4 * (g.blk y x).bsize.widthMi / 2)) := by omega
          exact hbe' (by rw [← e3]; exact te.1 hte)
        have u1 := h.uniform y x (y + g.ydec) (x + g.xdec) a.yr a.xc hrow hcol dn dl.1
        have u2 := h.uniform y x (y + g.ydec) (x + g.xdec - 1 <<< g.xdec) a.yr a.xc hrow hpc dn dl.2
        rw [u1, u2]
        have f1 : (x &&& ((g.blk y x).bsize.widthMi - 1) == 0) = false := by simpa using hbe
        have f2 : ((x * 4) >>> g.xdec % (if g.xdec = 0 then 4 * (g.blk y x).bsize.widthMi else
              max 4 (4 * (g.blk y x).bsize.widthMi / 2)) == 0) = false := by simpa using hbe'
        rw [f1, f2]
        cases (g.blk y x).skip <;> cases (g.blk y x).intra <;> rfl
    unfold deblockSize
    rw [key, e1]
    cases hap : (((x * 4) >>> g.xdec % d.planeW (y + g.ydec) (x + g.xdec) == 0) || !d.skip (y + g.ydec) (x + g.xdec) ||
          d.isIntra (y + g.ydec) (x + g.xdec))
    · simp [vApply]
    · have cs := codeSize_eq g.pli t.width t'.width (widthMi t) (widthMi t') tw.1 tw.2.2 tw'.1 tw'.2.2
      have fs : d.filterSize 0 (y + g.ydec) (x + g.xdec) (y + g.ydec) (x + g.xdec - 1 <<< g.xdec) =
          (if g.pli = 0 then min 16 (min t.width t'.width) else min 8 (min t.width t'.width)) := by
        unfold Spec.Dec.filterSize
        rw [h.plane, htw, htw']; simp
      rw [← fs] at cs
      simp only [a.tx h, ht, ht', Option.bind_eq_bind, Option.bind_some, if_true, Bool.not_true, Bool.false_eq_true,
        if_false, Bool.and_self, Bool.true_and, decide_eq_true_eq, gt_iff_lt]
      rw [cs.1]
      unfold vApply
      rw [if_pos (codeSize_pos _ _ cs.2), lv]
      simp only [if_true]
      by_cases hl : 0 < d.lvl 0
      · rw [if_pos hl, if_pos hl]
        have lim := limits_sharp0 d h.sharpness (d.lvl 0) hl
        rw [foldlM4 _ _ (vLine_eq h.bd g.pli _ _ cs.2 _ _)]
        rw [lim.1, lim.2, h.plane, h.depth]
        congr 1
        congr 1
        funext s i
        congr 1
        · rw [px x g.xdec hd a.mx, Nat.shiftLeft_eq]; omega
        · rw [px y g.ydec hdy a.my, Nat.shiftLeft_eq]; push_cast; omega
      · rw [if_neg hl, if_neg hl]
  · rw [if_neg hte]
    have : ((x * 4) >>> g.xdec % d.txW (y + g.ydec) (x + g.xdec) == 0) = false := by
      rw [← htw]; simp; intro e; exact hte (te.2 e)
    rw [this]
    simp

/-- A horizontal edge. -/
theorem filterHEdge_eq {g : Params} {d : Spec.Dec} (h : Same g d) {y x : Nat} (a : At g y x) (hy : 0 < y)
    (hw : 4 * x < g.cropW) (hh : 4 * y < g.cropH) (p : Plane) :
    filterHEdge g y p x = some (d.edge 1 y x p) := by
  have eX : (if d.plane = 0 then 0 else d.subX) = g.xdec := by rw [h.plane, h.xdec]
  have eY : (if d.plane = 0 then 0 else d.subY) = g.ydec := by rw [h.plane, h.ydec]
  have hcol := a.col h
  have hrow := a.row h
  have hd := h.xdec_le
  have hdy := h.ydec_le
  -- the transform of the block, and the previous block
  obtain ⟨t, ht, htw, hth⟩ := h.tx _ _ hrow hcol
  obtain ⟨t', ht', htw', hth'⟩ := h.tx (y + g.ydec - 1 <<< g.ydec) (x + g.xdec)
    (Nat.lt_of_le_of_lt (Nat.sub_le _ _) hrow) hcol
  have tw := txHeightMi_four t
  have tw' := txHeightMi_four t'
  have bw := heightMi_four (g.blk y x).bsize
  have te := tx_edge y g.ydec hdy a.my (t.heightLog2 - 2) (heightMi t) t.height (txHeightMi_pow t) tw.1
  have be := block_edge y g.ydec hdy a.my _ _ (heightMi_pow (g.blk y x).bsize) bw.2.2
  have pw := h.planeH_eq _ _ hrow hcol
  rw [a.bsize h] at pw
  have hpc : y + g.ydec - 1 <<< g.ydec < g.rows := Nat.lt_of_le_of_lt (Nat.sub_le _ _) hrow
  have lv := h.lvl false
  -- the code
  unfold filterHEdge
  simp only [blockAt, deblockUp, a.yr, a.xc, and_self, if_true, Option.bind_eq_bind, Option.bind_some, a.tx h, ht,
    or_dec y g.ydec hdy a.my, or_dec x g.xdec hd a.mx, hcol, hpc]
  -- the specification
  unfold Spec.Dec.edge
  simp only [eX, eY, or_dec y g.ydec hdy a.my, or_dec x g.xdec hd a.mx, Nat.one_ne_zero, if_false,
    Nat.zero_shiftLeft, Nat.sub_zero]
  have on : (decide (x * 4 < d.frameWidth) && decide (y * 4 < d.frameHeight) && !(1 == 0 && x * 4 == 0) &&
      !(1 == 1 && y * 4 == 0)) = true := by
    simp [h.width, h.height]; omega
  rw [on]
  by_cases hte : (y >>> g.ydec) &&& (heightMi t - 1) = 0
  · rw [if_pos hte]
    have e1 : ((y * 4) >>> g.ydec % d.txH (y + g.ydec) (x + g.xdec) == 0) = true := by
      rw [← hth]; simp [te.1 hte]
    -- the condition of the filter
    have key : ((y &&& ((g.blk y x).bsize.heightMi - 1) == 0) || !(g.blk y x).skip ||
        !(g.blk (y + g.ydec - 1 <<< g.ydec) (x + g.xdec)).skip || (g.blk y x).intra ||
        (g.blk (y + g.ydec - 1 <<< g.ydec) (x + g.xdec)).intra) =
        (((y * 4) >>> g.ydec % d.planeH (y + g.ydec) (x + g.xdec) == 0) || !d.skip (y + g.ydec) (x + g.xdec) ||
          d.isIntra (y + g.ydec) (x + g.xdec)) := by
      rw [pw, h.skip _ _ hrow hcol, h.isIntra _ _ hrow hcol]
      by_cases hbe : y &&& ((g.blk y x).bsize.heightMi - 1) = 0
      · have := be.1 hbe
        simp [hbe, this]
      · have hbe' := fun e => hbe (be.2 e)
        have hmod : y % (g.blk y x).bsize.heightMi ≠ 0 := by
          rw [heightMi_pow, ← and_pred_eq, ← heightMi_pow]; exact hbe
        have dl := div_left y g.ydec _ hdy a.my bw.2.2 bw.2.1 hmod
        have bh := widthMi_four (g.blk y x).bsize
        have dn : x / (g.blk y x).bsize.widthMi = (x + g.xdec) / (g.blk y x).bsize.widthMi := by
          apply div_next x g.xdec _ hd a.mx bh.2.2 bh.2.1
          intro e
          have hp : g.pli ≠ 0 := by
            intro e0
            have := h.xdec
            rw [if_pos e0] at this; omega
          obtain ⟨t2, k1, _, k2, k5, _⟩ := chroma_tx (g.blk y x).bsize g.xdec g.ydec hd hdy (h.valid hp _ _ a.yr a.xc)
          apply k5 e
          -- the transform is smaller than the block
          have e2 : t2 = t := by
            have := a.tx h
            rw [ht] at this
            unfold txOf at this
            rw [if_neg hp, k1] at this
            exact Option.some.inj this
          rw [e2] at k2
          apply Classical.byContradiction
          intro hn
          have e3 : t.height = (if g.ydec = 0 then 4 * (g.blk y x).bsize.heightMi else
              max 4 (4 * (g.blk y x).bsize.heightMi / 2)) := by omega
          exact hbe' (by rw [← e3]; exact te.1 hte)
        have u1 := h.uniform y x (y + g.ydec) (x + g.xdec) a.yr a.xc hrow hcol dl.1 dn
        have u2 := h.uniform y x (y + g.ydec - 1 <<< g.ydec) (x + g.xdec) a.yr a.xc hpc hcol dl.2 dn
        rw [u1, u2]
        have f1 : (y &&& ((g.blk y x).bsize.heightMi - 1) == 0) = false := by simpa using hbe
        have f2 : ((y * 4) >>> g.ydec % (if g.ydec = 0 then 4 * (g.blk y x).bsize.heightMi else
              max 4 (4 * (g.blk y x).bsize.heightMi / 2)) == 0) = false := by simpa using hbe'
        rw [f1, f2]
        cases (g.blk y x).skip <;> cases (g.blk y x).intra <;> rfl
    unfold deblockSize
    rw [key, e1]
    cases hap : (((y * 4) >>> g.ydec % d.planeH (y + g.ydec) (x + g.xdec) == 0) || !d.skip (y + g.ydec) (x + g.xdec) ||
          d.isIntra (y + g.ydec) (x + g.xdec))
    · simp [hApply]
    · have cs := codeSize_eq g.pli t.height t'.height (heightMi t) (heightMi t') tw.1 tw.2.2 tw'.1 tw'.2.2
      have fs : d.filterSize 1 (y + g.ydec) (x + g.xdec) (y + g.ydec - 1 <<< g.ydec) (x + g.xdec) =
          (if g.pli = 0 then min 16 (min t.height t'.height) else min 8 (min t.height t'.height)) := by
        unfold Spec.Dec.filterSize
        rw [h.plane, hth, hth']; simp
      rw [← fs] at cs
      simp only [a.tx h, ht, ht', Option.bind_eq_bind, Option.bind_some, Bool.not_true, Bool.false_eq_true,
        if_false, Bool.and_self, Bool.true_and, decide_eq_true_eq, gt_iff_lt]
      rw [cs.1]
      unfold hApply
      rw [if_pos (codeSize_pos _ _ cs.2), lv]
      simp only [if_false, Bool.false_eq_true]
      by_cases hl : 0 < d.lvl 1
      · rw [if_pos hl, if_pos hl]
        have lim := limits_sharp0 d h.sharpness (d.lvl 1) hl
        rw [foldlM4 _ _ (hLine_eq h.bd g.pli _ _ cs.2 _ _)]
        rw [lim.1, lim.2, h.plane, h.depth]
        congr 1
        congr 1
        funext s i
        congr 1
        · rw [px x g.xdec hd a.mx, Nat.shiftLeft_eq]; omega
        · rw [px y g.ydec hdy a.my, Nat.shiftLeft_eq]; push_cast; omega
      · rw [if_neg hl, if_neg hl]
  · rw [if_neg hte]
    have : ((y * 4) >>> g.ydec % d.txH (y + g.ydec) (x + g.xdec) == 0) = false := by
      rw [← hth]; simp; intro e; exact hte (te.2 e)
    rw [this]
    simp

end Rav1e.Deblock

import Verif.Deblock.Order

/-!
# C53: the deblocking of the encoder is the deblocking of a decoder

`deblockPlane_eq_decoder` and `deblockFrame_eq_decoder`: for every frame size, bit depth, chroma subsampling, choice of
blocks, transforms, levels and samples, `deblock_plane` finishes without a panic, and leaves the samples that the loop
filter process of the AV1 specification (7.14, written down in `Verif/Deblock/Spec.lean`) leaves.  The code filters the
edges in another order than the specification, with other formulas for the masks and the narrow filters, and with the
transform of chroma recomputed from the block size.

The hypothesis `Same g d` says what the two sides have in common: the frame header, the blocks, and three facts of every
partition (a block lies at a multiple of its size; the blocks in an aligned 8x8 area have one size; the sizes are possible
with the chroma subsampling).

`deblockPlane_range` (C38): samples of the bit depth stay samples of the bit depth.
-/

namespace Rav1e.Deblock

theorem edge_level0 (d : Spec.Dec) (pass row col : Nat) (h : d.lvl pass = 0) (p : Plane) : d.edge pass row col p = p := by
  unfold Spec.Dec.edge
  simp only [h, Nat.lt_irrefl, decide_false, gt_iff_lt, Bool.and_false, Bool.false_eq_true, if_false]

theorem pass_level0 (d : Spec.Dec) (pass : Nat) (h : d.lvl pass = 0) (p : Plane) : d.onePass pass p = p := by
  unfold Spec.Dec.onePass
  simp only
  generalize (if d.plane = 0 then 1 else 1 <<< d.subY) = rs
  generalize (if d.plane = 0 then 1 else 1 <<< d.subX) = cs
  apply foldl_noop
  intro r _ q
  split
  · apply foldl_noop
    intro c _ q
    split
    · exact edge_level0 d pass r c h q
    · rfl
  · rfl

/-- **C53** (one plane). -/
theorem deblockPlane_eq_decoder {g : Params} {d : Spec.Dec} (h : Same g d) (p : Plane) :
    deblockPlane g p = some (d.loopFilter p) := by
  have hx := h.xdec_le
  have hy := h.ydec_le
  have hp := h.pli
  unfold deblockPlane
  rw [if_neg (by omega)]
  unfold Spec.Dec.loopFilter
  rw [h.plane, h.lfLevel]
  have : g.pli = 0 ∨ g.pli = 1 ∨ g.pli = 2 := by omega
  rcases this with e | e | e
  · rw [e, if_pos (Or.inl rfl)]
    show (if g.levels 0 = 0 ∧ g.levels 1 = 0 then some p else edges g p) = _
    split
    · rename_i hl
      have l0 : d.lvl 0 = 0 := by unfold Spec.Dec.lvl; rw [h.plane, e, h.lfLevel]; exact hl.1
      have l1 : d.lvl 1 = 0 := by unfold Spec.Dec.lvl; rw [h.plane, e, h.lfLevel]; exact hl.2
      rw [pass_level0 d 0 l0, pass_level0 d 1 l1]
    · exact edges_eq h p
  · rw [e]
    show (if g.levels 2 = 0 then some p else edges g p) = _
    split
    · rename_i hl
      rw [if_neg]
      simpa using hl
    · rename_i hl
      rw [if_pos (Or.inr hl)]
      exact edges_eq h p
  · rw [e]
    show (if g.levels 3 = 0 then some p else edges g p) = _
    split
    · rename_i hl
      rw [if_neg]
      simpa using hl
    · rename_i hl
      rw [if_pos (Or.inr hl)]
      exact edges_eq h p

/-- **C53** (a frame). `g` and `d` are the data of the planes; a monochrome frame has one plane. -/
theorem deblockFrame_eq_decoder {levels : Nat → Nat} {g : Nat → Params} {d : Nat → Spec.Dec} {planes : Nat}
    (h : ∀ pli, pli < planes → Same (g pli) (d pli)) (f : Nat → Plane) (pli : Nat) (hp : pli < planes) :
    deblockFrame levels g planes f pli = some (Spec.loopFilterFrame levels d f pli) := by
  unfold deblockFrame Spec.loopFilterFrame
  rw [if_pos hp]
  split
  · exact deblockPlane_eq_decoder (h pli hp) (f pli)
  · rfl

/-! ## The range of the samples -/

/-- A line of samples of `bd` bits. -/
def InRange (bd : Nat) (l : Int → Int) : Prop := ∀ k, 0 ≤ l k ∧ l k < 2 ^ bd

theorem narrow_range {bd : Nat} (hbd : bd = 8 ∨ bd = 10 ∨ bd = 12) {l : Spec.Line} (h : InRange bd l) (hev : Bool) :
    InRange bd (Spec.narrow l hev bd) := by
  have c : ∀ x, 0 ≤ Spec.filter4Clamp x bd + 0x80 * 2 ^ (bd - 8) ∧ Spec.filter4Clamp x bd + 0x80 * 2 ^ (bd - 8) < 2 ^ bd := by
    intro x
    unfold Spec.filter4Clamp Spec.clip3
    rcases hbd with rfl | rfl | rfl
    all_goals
      norm_num
      split <;> [skip; split] <;> omega
  intro k
  unfold Spec.narrow
  split
  · exact c _
  · split
    · exact c _
    · split
      · exact c _
      · split
        · exact c _
        · exact h k

theorem sum_bound (B : Int) (f w : Nat → Int) (h : ∀ i, 0 ≤ f i ∧ f i ≤ w i * B) (l : List Nat) :
    0 ≤ (l.map f).sum ∧ (l.map f).sum ≤ (l.map w).sum * B := by
  induction l with
  | nil => simp
  | cons a l ih =>
    have := h a
    rw [List.map_cons, List.map_cons, List.sum_cons, List.sum_cons, Int.add_mul]
    omega

/-- The weights of the wide filters sum up to a power of two. -/
theorem wide_weights (plane n : Nat) (hn : n = 3 ∨ n = 4) :
    ((List.range (2 * (if n = 4 then 6 else if plane = 0 then 3 else 2) + 1)).map (fun (i : Nat) =>
      (if Spec.absDiff ((i : Int) - ((if n = 4 then 6 else if plane = 0 then 3 else 2 : Nat) : Int)) 0 ≤
        (if n = 3 ∧ plane = 0 then 0 else 1) then (2 : Int) else 1))).sum = 2 ^ n := by
  rcases hn with rfl | rfl <;> by_cases hp : plane = 0 <;> simp only [hp, and_self, and_false, if_true, if_false] <;> decide

theorem wide_range {bd : Nat} {l : Spec.Line} (h : InRange bd l) (plane n : Nat) (hn : n = 3 ∨ n = 4) :
    InRange bd (Spec.wide l plane n) := by
  intro k
  unfold Spec.wide
  have W := wide_weights plane n hn
  simp only
  generalize (if n = 4 then 6 else if plane = 0 then 3 else 2 : Nat) = m at *
  generalize (if n = 3 ∧ plane = 0 then 0 else 1 : Int) = n2 at *
  by_cases hk : -(m : Int) ≤ k ∧ k < m
  · rw [if_pos hk]
    have hM := h 0
    generalize hM' : (2 : Int) ^ bd = M at *
    have S := sum_bound (M - 1)
      (fun (i : Nat) => (if Spec.absDiff ((i : Int) - m) 0 ≤ n2 then (2 : Int) else 1) * l (Spec.clip3 (-(m + 1)) m (k + ((i : Int) - m))))
      (fun (i : Nat) => (if Spec.absDiff ((i : Int) - m) 0 ≤ n2 then (2 : Int) else 1)) (by
        intro i
        have a := h (Spec.clip3 (-(m + 1)) m (k + ((i : Int) - m)))
        rw [hM'] at a
        split <;> omega) (List.range (2 * m + 1))
    rw [W] at S
    generalize List.sum (List.map (β := Int) _ _) = z at *
    unfold Spec.round2
    rcases hn with rfl | rfl
    · rw [if_neg (by omega)]
      norm_num at *
      omega
    · rw [if_neg (by omega)]
      norm_num at *
      omega
  · rw [if_neg hk]
    exact h k

theorem sampleFilter_range {bd : Nat} (hbd : bd = 8 ∨ bd = 10 ∨ bd = 12) {l : Spec.Line} (h : InRange bd l) (plane fs : Nat)
    (limit blimit thresh : Int) : InRange bd (Spec.sampleFilter plane fs limit blimit thresh bd l) := by
  unfold Spec.sampleFilter
  simp only
  split
  · exact h
  · split
    · exact narrow_range hbd h _
    · split
      · exact wide_range h _ _ (Or.inl rfl)
      · exact wide_range h _ _ (Or.inr rfl)

/-- A plane of samples of `bd` bits. -/
def PlaneInRange (bd : Nat) (p : Plane) : Prop := ∀ r c, 0 ≤ p r c ∧ p r c < 2 ^ bd

theorem foldl_range {bd : Nat} (l : List Nat) (f : Plane → Nat → Plane) (hf : ∀ i p, PlaneInRange bd p → PlaneInRange bd (f p i))
    {p : Plane} (h : PlaneInRange bd p) : PlaneInRange bd (l.foldl f p) := by
  induction l generalizing p with
  | nil => exact h
  | cons a l ih => exact ih (hf a p h)

theorem ite_range {bd : Nat} (b : Bool) {p q : Plane} (hp : PlaneInRange bd p) (hq : PlaneInRange bd q) :
    PlaneInRange bd (if b = true then p else q) := by
  cases b
  · exact hq
  · exact hp

theorem edge_range {d : Spec.Dec} (hbd : d.bitDepth = 8 ∨ d.bitDepth = 10 ∨ d.bitDepth = 12) (pass row col : Nat) {p : Plane}
    (h : PlaneInRange d.bitDepth p) : PlaneInRange d.bitDepth (d.edge pass row col p) := by
  have line : ∀ (x y : Int) (fs : Nat) (a b c : Int) (q : Plane), PlaneInRange d.bitDepth q →
      PlaneInRange d.bitDepth (Spec.onLine pass x y (Spec.sampleFilter d.plane fs a b c d.bitDepth) q) := by
    intro x y fs a b c q hq r c
    unfold Spec.onLine
    split
    · split
      · exact sampleFilter_range hbd (l := fun k => q y (x + k)) (fun k => hq _ _) _ _ _ _ _ _
      · exact hq _ _
    · split
      · exact sampleFilter_range hbd (l := fun k => q (y + k) x) (fun k => hq _ _) _ _ _ _ _ _
      · exact hq _ _
  unfold Spec.Dec.edge
  simp only
  apply ite_range _ _ h
  apply foldl_range _ _ _ h
  intro i q hq
  exact line _ _ _ _ _ _ _ hq

theorem pass_range {d : Spec.Dec} (hbd : d.bitDepth = 8 ∨ d.bitDepth = 10 ∨ d.bitDepth = 12) (pass : Nat) {p : Plane}
    (h : PlaneInRange d.bitDepth p) : PlaneInRange d.bitDepth (d.onePass pass p) := by
  unfold Spec.Dec.onePass
  simp only
  generalize (if d.plane = 0 then 1 else 1 <<< d.subY) = rs
  generalize (if d.plane = 0 then 1 else 1 <<< d.subX) = cs
  apply foldl_range _ _ _ h
  intro r q hq
  split
  · apply foldl_range _ _ _ hq
    intro c q hq
    split
    · exact edge_range hbd _ _ _ hq
    · exact hq
  · exact hq

/-- **C38** (deblocking): from samples of the bit depth the filter makes samples of the bit depth. -/
theorem deblockPlane_range {g : Params} {d : Spec.Dec} (h : Same g d) {p q : Plane} (hp : PlaneInRange g.bd p)
    (hq : deblockPlane g p = some q) : PlaneInRange g.bd q := by
  rw [deblockPlane_eq_decoder h] at hq
  have hq := Option.some.inj hq
  subst hq
  have hbd : d.bitDepth = 8 ∨ d.bitDepth = 10 ∨ d.bitDepth = 12 := by rw [h.depth]; exact h.bd
  rw [← h.depth] at hp ⊢
  unfold Spec.Dec.loopFilter
  split
  · exact pass_range hbd 1 (pass_range hbd 0 hp)
  · exact hp

/-! ## A frame that meets the hypotheses -/

namespace Example

/-- 16x16 pixels: a block of 8x16 on the left, one of 8x8 and four of 4x4 on the right. -/
def blk (r c : Nat) : Block :=
  if c < 2 then { bsize := .b8x16, txsize := .tx8x16, skip := true, intra := false }
  else if r < 2 then { bsize := .b8x8, txsize := .tx8x8, skip := false, intra := true }
  else { bsize := .b4x4, txsize := .tx4x4, skip := r == 3, intra := false }

def levels (i : Nat) : Nat := if i = 0 then 20 else if i = 1 then 12 else 8

/-- Plane `pli` of a 4:2:0 frame of 14x16 pixels. -/
def g (pli : Nat) : Params :=
  { levels := levels, pli := pli, xdec := if pli = 0 then 0 else 1, ydec := if pli = 0 then 0 else 1, blk := blk,
    cols := 4, rows := 4, cropW := 14, cropH := 16, bd := 8 }

def d (pli : Nat) : Spec.Dec :=
  { plane := pli, subX := 1, subY := 1, bitDepth := 8, frameWidth := 14, frameHeight := 16, miCols := 4, miRows := 4,
    lfLevel := levels, sharpness := 0, blockW := fun r c => 2 ^ (blk r c).bsize.widthLog2,
    blockH := fun r c => 2 ^ (blk r c).bsize.heightLog2, lumaTxW := fun r c => (blk r c).txsize.width,
    lumaTxH := fun r c => (blk r c).txsize.height, skip := fun r c => (blk r c).skip, isIntra := fun r c => (blk r c).intra }

theorem uniform4 : ∀ r < 4, ∀ c < 4, ∀ r' < 4, ∀ c' < 4,
    (r / (blk r c).bsize.heightMi = r' / (blk r c).bsize.heightMi ∧
      c / (blk r c).bsize.widthMi = c' / (blk r c).bsize.widthMi) → blk r' c' = blk r c := by
  intro r hr c hc
  rcases (by omega : r = 0 ∨ r = 1 ∨ r = 2 ∨ r = 3) with rfl | rfl | rfl | rfl <;>
    rcases (by omega : c = 0 ∨ c = 1 ∨ c = 2 ∨ c = 3) with rfl | rfl | rfl | rfl <;> decide

theorem same (pli : Nat) (h : pli ≤ 2) : Same (g pli) (d pli) where
  plane := rfl
  pli := h
  xdec := rfl
  ydec := rfl
  subX := Nat.le_refl 1
  subY := Nat.le_refl 1
  depth := rfl
  bd := Or.inl rfl
  width := rfl
  height := rfl
  miCols := rfl
  miRows := rfl
  evenC := (rfl : 4 % 2 = 0)
  evenR := (rfl : 4 % 2 = 0)
  lfLevel := rfl
  sharpness := rfl
  blockW := fun _ _ _ _ => rfl
  blockH := fun _ _ _ _ => rfl
  lumaTxW := fun _ _ _ _ => rfl
  lumaTxH := fun _ _ _ _ => rfl
  skip := fun _ _ _ _ => rfl
  isIntra := fun _ _ _ _ => rfl
  uniform := fun r c r' c' hr hc hr' hc' e1 e2 =>
    uniform4 r hr c hc r' hr' c' hc' ⟨e1, e2⟩
  same8 := fun r c hr hc =>
    (by decide : ∀ r < 4, ∀ c < 4, (blk (2 * (r / 2)) (2 * (c / 2))).bsize = (blk r c).bsize) r hr c hc
  valid := fun hp r c hr hc => by
    have e : (g pli).xdec = 1 ∧ (g pli).ydec = 1 := by simp [g]; exact hp
    rw [e.1, e.2]
    exact (by decide : ∀ r < 4, ∀ c < 4, (blk r c).bsize.subsampled 1 1 ≠ none) r hr c hc

/-- A plane with a small step between the blocks on the left and on the right. -/
def step : Plane := fun _ c => if c < 8 then 100 else 106

/-- The theorem applies to each plane of this frame. -/
example (pli : Nat) (h : pli < 3) (f : Nat → Plane) : deblockFrame levels g 3 f pli = some (Spec.loopFilterFrame levels d f pli) :=
  deblockFrame_eq_decoder (fun pli h => same pli (by omega)) f pli h

example : PlaneInRange 8 step := by intro r c; unfold step; split <;> decide

/-- The filter changes the samples at the edge, -/
example : (deblockPlane (g 0) step).map (fun q => [q 0 5, q 0 6, q 0 7, q 0 8, q 0 9, q 0 10]) =
    some [101, 102, 102, 104, 105, 105] := by decide +kernel

/-- and would not without the level. -/
example : (deblockPlane { g 0 with levels := fun _ => 0 } step).map (fun q => [q 0 7, q 0 8]) = some [100, 106] := by
  decide +kernel

end Example

end Rav1e.Deblock

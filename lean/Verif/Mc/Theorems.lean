import Verif.Mc.Ref

/-!
# Inter prediction: theorems

`compensate_eq_decoder` (C56): for every inter block, plane, motion and set of reference pictures, the encoder's prediction of
the block is the decoder's, pixel by pixel, and no other pixel changes.
-/

namespace Rav1e.Mc

open Spec (round2 clip3)

/-- The motion as the decoder reads it: `NONE_FRAME` is -1. -/
def Motion.coded (m : Motion) : Spec.Blk :=
  ⟨⟨m.a.ref, m.a.mv.row, m.a.mv.col⟩, ⟨if m.b.ref = 8 then -1 else m.b.ref, m.b.mv.row, m.b.mv.col⟩⟩

/-- The motion of an inter block: one or two reference frames. -/
def Motion.Inter (m : Motion) : Prop := 1 ≤ m.a.ref ∧ m.a.ref ≤ 7 ∧ m.b.ref ≤ 8

/-- The encoder and the decoder have the same frame header and the same reference pictures, which have the size of the frame. -/
structure Agree (e : Env) (d : Spec.Dec) : Prop where
  depth : e.bd = d.bitDepth
  depths : d.bitDepth = 8 ∨ d.bitDepth = 10 ∨ d.bitDepth = 12
  subX : d.subX = 0 ∨ d.subX = 1
  subY : d.subY = 0 ∨ d.subY = 1
  width : 0 < d.frameWidth
  height : 0 < d.frameHeight
  filter : e.mode = d.filter
  /-- Regular, smooth or bilinear. `sharp_differs` is about the remaining filter. -/
  filters : d.filter = 0 ∨ d.filter = 1 ∨ d.filter = 3
  refs : ∀ r : Nat, 1 ≤ r → r ≤ 7 → ∃ p, e.refPlane r = some p ∧ Padded d (d.ref r) p ∧ (d.ref r).width = d.frameWidth ∧
    (d.ref r).height = d.frameHeight ∧ ∀ y x, (d.ref r).px y x < 2 ^ d.bitDepth

section
variable {e : Env} {d : Spec.Dec}

theorem frac_lt (v : Int) (n : Nat) : (v * 2 ^ n % 16).toNat < 16 := by
  generalize v * 2 ^ n = x
  omega

theorem Agree.last (A : Agree e d) {R : Spec.RefPic} (hw : R.width = d.frameWidth) (hh : R.height = d.frameHeight) :
    0 ≤ d.lastX R ∧ 0 ≤ d.lastY R := by
  have h1 := A.width; have h2 := A.height
  unfold Spec.Dec.lastX Spec.Dec.lastY
  rw [hw, hh]
  constructor
  · rcases A.subX with h | h <;> rw [h] <;> norm_num <;> omega
  · rcases A.subY with h | h <;> rw [h] <;> norm_num <;> omega

theorem window_range (A : Agree e d) {R : Spec.RefPic} (h : ∀ y x, R.px y x < 2 ^ d.bitDepth) (x y : Nat) (mv : Mv) (i j : Nat) :
    0 ≤ window d R x y mv i j ∧ window d R x y mv i j < 2 ^ e.bd := by
  unfold window Spec.Dec.refPx
  rw [A.depth]
  refine ⟨by omega, ?_⟩
  exact_mod_cast h _ _

theorem round0_eq (A : Agree e d) : d.interRound0 = 7 - intermediateBits e.bd := by
  unfold Spec.Dec.interRound0 intermediateBits
  rw [A.depth]
  split <;> rfl

/-- A block of one motion. -/
theorem predictInter_ok (A : Agree e d) {m : Motion} (hm : m.Inter) {pox poy w h : Nat}
    (hw : w ∈ [2, 4, 8, 16, 32, 64]) (hh : h ∈ [2, 4, 8, 16, 32, 64]) (hw' : w ≤ 64 / 2 ^ d.subX) (hh' : h ≤ 64 / 2 ^ d.subY)
    (htw : pox + w ≤ e.tileW) (hth : poy + h ≤ e.tileH) (tmp1 tmp2 : Nat → Int) (rec : Rec) :
    ∃ rec', predictInter e pox poy w h m tmp1 tmp2 rec = some rec' ∧
      (∀ r < h, ∀ c < w, rec' (e.tileY + poy + r, e.tileX + pox + c) =
        d.predictInter m.coded (e.tileX + pox) (e.tileY + poy) w h r c) ∧
      ∀ k, (∀ r < h, ∀ c < w, k ≠ (e.tileY + poy + r, e.tileX + pox + c)) → rec' k = rec k := by
  have hw7 : w ∈ [2, 4, 8, 16, 32, 64, 128] := by simp only [List.mem_cons, List.not_mem_nil, or_false] at hw ⊢; omega
  have hev : h % 2 = 0 ∧ h ≤ 128 := by simp only [List.mem_cons, List.not_mem_nil, or_false] at hh; omega
  have hmode : e.mode < 4 := by have := A.filter; have := A.filters; omega
  have hsharp : e.mode ≠ 2 ∨ (4 < w ∧ 4 < h) := by have := A.filter; have := A.filters; omega
  have hbd : e.bd = 8 ∨ e.bd = 10 ∨ e.bd = 12 := by rw [A.depth]; exact A.depths
  have hok : ∀ r < h, ∀ c < w, e.inTile (e.pos pox poy r c) = true := by
    intro r hr c hc
    simp only [Env.inTile, Env.pos, Bool.and_eq_true]
    refine ⟨⟨⟨?_, ?_⟩, ?_⟩, ?_⟩ <;> refine decide_eq_true ?_ <;> omega
  have hi : ∀ r < h, ∀ c < w, ∀ r' < h, ∀ c' < w, e.pos pox poy r c = e.pos pox poy r' c' → r = r' ∧ c = c' := by
    intro r _ c _ r' _ c' _ he
    simp only [Env.pos, Prod.mk.injEq] at he
    omega
  have clip : ∀ v, clip3 0 (2 ^ e.bd - 1) v = d.clip1 v := fun v => by rw [A.depth]; rfl
  obtain ⟨pa, ha1, ha2, ha3, ha4, ha5⟩ := A.refs m.a.ref hm.1 hm.2.1
  have la := A.last ha3 ha4
  unfold predictInter
  by_cases hc : m.b.ref ≠ 0 ∧ m.b.ref ≠ 8
  · rw [if_pos hc]
    obtain ⟨pb, hb1, hb2, hb3, hb4, hb5⟩ := A.refs m.b.ref (by omega) (by have := hm.2.2; omega)
    have lb := A.last hb3 hb4
    obtain ⟨t1, h1, v1⟩ := prep8tap_ok (gives_window ha2 la.1 la.2 (e.tileX + pox) (e.tileY + poy) m.a.mv hw' hh') hw7 hev.1
      hev.2 hmode hsharp (frac_lt m.a.mv.col (1 - pa.xdec)) (frac_lt m.a.mv.row (1 - pa.ydec)) hbd
      (window_range A ha5 (e.tileX + pox) (e.tileY + poy) m.a.mv) tmp1
    obtain ⟨t2, h2, v2⟩ := prep8tap_ok (gives_window hb2 lb.1 lb.2 (e.tileX + pox) (e.tileY + poy) m.b.mv hw' hh') hw7 hev.1
      hev.2 hmode hsharp (frac_lt m.b.mv.col (1 - pb.xdec)) (frac_lt m.b.mv.row (1 - pb.ydec)) hbd
      (window_range A hb5 (e.tileX + pox) (e.tileY + poy) m.b.mv) tmp2
    obtain ⟨rec', h3, v3, u3⟩ := mcAvg_ok (ok := e.inTile) (pos := e.pos pox poy) hw7 hev.1 v1 v2 hok hi rec
    refine ⟨rec', ?_, fun r hr c hc' => ?_, u3⟩
    · unfold predictCompound prepRef
      rw [ha1, hb1]
      refine Option.bind_eq_some_iff.mpr ⟨t1, h1, ?_⟩
      exact Option.bind_eq_some_iff.mpr ⟨t2, h2, h3⟩
    · rw [show (e.tileY + poy + r, e.tileX + pox + c) = e.pos pox poy r c from rfl, v3 r hr c hc', clip]
      unfold Spec.Dec.predictInter Motion.coded
      simp only
      rw [if_neg hc.2, if_pos (by omega), onePred_eq A.subX A.subY A.width A.height ha3 ha4,
        onePred_eq A.subX A.subY A.width A.height hb3 hb4, round0_eq A, ha2.xdec, ha2.ydec, hb2.xdec, hb2.ydec, A.filter]
      congr 2
      unfold Spec.Dec.interPostRound intermediateBits
      rw [A.depth]
      split <;> rfl
  · rw [if_neg hc]
    obtain ⟨rec', h1, v1, u1⟩ := put8tap_ok (ok := e.inTile) (pos := e.pos pox poy)
      (gives_window ha2 la.1 la.2 (e.tileX + pox) (e.tileY + poy) m.a.mv hw' hh') hw7 hev.1
      hev.2 hmode hsharp (frac_lt m.a.mv.col (1 - pa.xdec)) (frac_lt m.a.mv.row (1 - pa.ydec)) hbd
      (window_range A ha5 (e.tileX + pox) (e.tileY + poy) m.a.mv) hok hi rec
    refine ⟨rec', ?_, fun r hr c hc' => ?_, u1⟩
    · unfold predictSingle
      rw [ha1]
      exact h1
    · rw [show (e.tileY + poy + r, e.tileX + pox + c) = e.pos pox poy r c from rfl, v1 r hr c hc', clip]
      unfold Spec.Dec.predictInter Motion.coded
      simp only
      rw [if_neg (by split <;> omega), onePred_eq A.subX A.subY A.width A.height ha3 ha4, round0_eq A, ha2.xdec, ha2.ydec, A.filter]
      have : d.interRound1 false = 7 + intermediateBits e.bd := by
        unfold Spec.Dec.interRound1 intermediateBits
        rw [A.depth]
        by_cases h12 : d.bitDepth = 12 <;> simp [h12]
      rw [this]

end

/-- An inter block of the tile whose corner is at `(row0, col0)`, in units of 4x4 luma pixels, and its surroundings. -/
structure Placed (e : Env) (d : Spec.Dec) (blocks : Nat → Nat → Blk) (p subX subY row0 col0 box boy bw bh : Nat) (m : Motion) :
    Prop where
  planeX : d.subX = if p = 0 then 0 else subX
  planeY : d.subY = if p = 0 then 0 else subY
  sampling : (subX, subY) ∈ [(0, 0), (1, 0), (1, 1)]
  /-- the sizes that the partitions NONE, HORZ, VERT and SPLIT give -/
  size : (bw, bh) ∈ [(4, 4), (4, 8), (8, 4), (8, 8), (8, 16), (16, 8), (16, 16), (16, 32), (32, 16), (32, 32), (32, 64), (64, 32),
    (64, 64)]
  alignX : box % (bw / 4) = 0
  alignY : boy % (bh / 4) = 0
  /-- the block has chroma if a chroma plane is predicted -/
  chroma : p ≠ 0 → hasChroma box boy (bw / 4) (bh / 4) subX subY false = true
  /-- below 8x8 only in 4:2:0, `encoder.rs:2666-2673` -/
  sub8 : p ≠ 0 → bw < 8 ∨ bh < 8 → subX = 1 ∧ subY = 1
  /-- no PARTITION_VERT in 4:2:2, `encoder.rs:2745` -/
  s422 : p ≠ 0 → subX = 1 → subY = 0 → bh ≤ bw
  /-- tiles begin at superblocks -/
  rowEven : row0 % 2 = 0
  colEven : col0 % 2 = 0
  tileX : e.tileX = col0 / 2 ^ d.subX * 4
  tileY : e.tileY = row0 / 2 ^ d.subY * 4
  /-- the region of the tile is rounded up to superblocks, `tiling/tile_state.rs:141-149` -/
  insideX : box / 2 ^ d.subX * 4 + Spec.Dec.planeSide bw d.subX ≤ e.tileW
  insideY : boy / 2 ^ d.subY * 4 + Spec.Dec.planeSide bh d.subY ≤ e.tileH
  inter : m.Inter
  own : ∀ r < bh / 4, ∀ c < bw / 4, d.blk (row0 + boy + r) (col0 + box + c) = m.coded
  /-- the blocks before this one in the same 8x8 pixels -/
  others : ∀ r c, r / 2 = boy / 2 → c / 2 = box / 2 → r < boy ∨ c < box →
    d.blk (row0 + r) (col0 + c) = (blocks r c).motion.coded ∧
    ((blocks r c).intra = true ∧ (blocks r c).motion.a.ref = 0 ∨ (blocks r c).intra = false ∧ (blocks r c).motion.Inter)
  above : bw = 8 → bh = 4 → blocks (boy - 1) (box + 1) = blocks (boy - 1) box
  left : bw = 4 → bh = 8 → blocks (boy + 1) (box - 1) = blocks boy (box - 1)

section
variable {e : Env} {d : Spec.Dec} {blocks : Nat → Nat → Blk} {p subX subY row0 col0 box boy bw bh : Nat} {m : Motion}

/-- The pixels of a block of `h` rows and `w` columns at `(y, x)` are `v`, the others are those of `old`. -/
def Wrote (old new : Rec) (y x h w : Nat) (v : Nat → Nat → Int) : Prop :=
  (∀ i < h, ∀ j < w, new (y + i, x + j) = v i j) ∧ ∀ k, (∀ i < h, ∀ j < w, k ≠ (y + i, x + j)) → new k = old k

/-- Two blocks one below the other. -/
theorem Wrote.vert {a b c : Rec} {y x h1 h2 w : Nat} {v1 v2 : Nat → Nat → Int} (h : Wrote a b y x h1 w v1)
    (h' : Wrote b c (y + h1) x h2 w v2) :
    Wrote a c y x (h1 + h2) w (fun i j => if i < h1 then v1 i j else v2 (i - h1) j) := by
  constructor
  · intro i hi j hj
    by_cases hlt : i < h1
    · rw [h'.2 _ (fun i' _ j' _ he => by simp only [Prod.mk.injEq] at he; omega), h.1 i hlt j hj]
      simp only [hlt, if_true]
    · have := h'.1 (i - h1) (by omega) j hj
      rw [show y + h1 + (i - h1) = y + i by omega] at this
      rw [this]
      simp only [hlt, if_false]
  · intro k hk
    rw [h'.2 k (fun i hi j hj => by
      have := hk (h1 + i) (by omega) j hj
      rwa [← Nat.add_assoc] at this), h.2 k (fun i hi j hj => hk i (by omega) j hj)]

/-- Two blocks side by side. -/
theorem Wrote.horz {a b c : Rec} {y x h w1 w2 : Nat} {v1 v2 : Nat → Nat → Int} (g : Wrote a b y x h w1 v1)
    (g' : Wrote b c y (x + w1) h w2 v2) :
    Wrote a c y x h (w1 + w2) (fun i j => if j < w1 then v1 i j else v2 i (j - w1)) := by
  constructor
  · intro i hi j hj
    by_cases hlt : j < w1
    · rw [g'.2 _ (fun i' _ j' _ he => by simp only [Prod.mk.injEq] at he; omega), g.1 i hi j hlt]
      simp only [hlt, if_true]
    · have := g'.1 i hi (j - w1) (by omega)
      rw [show x + w1 + (j - w1) = x + j by omega] at this
      rw [this]
      simp only [hlt, if_false]
  · intro k hk
    rw [g'.2 k (fun i hi j hj => by
      have := hk i hi (w1 + j) (by omega)
      rwa [← Nat.add_assoc] at this), g.2 k (fun i hi j hj => hk i hi j (by omega))]

theorem Wrote.congr {a b : Rec} {y x h w : Nat} {v v' : Nat → Nat → Int} (g : Wrote a b y x h w v)
    (e : ∀ i < h, ∀ j < w, v i j = v' i j) : Wrote a b y x h w v' :=
  ⟨fun i hi j hj => by rw [g.1 i hi j hj, e i hi j hj], g.2⟩

theorem one_ok (A : Agree e d) (hm : m.Inter) {pox poy w h : Nat}
    (hw : w ∈ [2, 4, 8, 16, 32, 64]) (hh : h ∈ [2, 4, 8, 16, 32, 64]) (hw' : w ≤ 64 / 2 ^ d.subX) (hh' : h ≤ 64 / 2 ^ d.subY)
    (htw : pox + w ≤ e.tileW) (hth : poy + h ≤ e.tileH) (tmp1 tmp2 : Nat → Int) (rec : Rec) :
    ∃ rec', predictInter e pox poy w h m tmp1 tmp2 rec = some rec' ∧
      Wrote rec rec' (e.tileY + poy) (e.tileX + pox) h w (d.predictInter m.coded (e.tileX + pox) (e.tileY + poy) w h) := by
  obtain ⟨rec', h1, h2, h3⟩ := predictInter_ok A hm hw hh hw' hh' htw hth tmp1 tmp2 rec
  exact ⟨rec', h1, h2, h3⟩

/-- The size of the block in a plane. -/
theorem subsampled_ok (hs : (subX, subY) ∈ [(0, 0), (1, 0), (1, 1)])
    (hz : (bw, bh) ∈ [(4, 4), (4, 8), (8, 4), (8, 8), (8, 16), (16, 8), (16, 16), (16, 32), (32, 16), (32, 32), (32, 64), (64, 32),
      (64, 64)]) (h8 : bw < 8 ∨ bh < 8 → subX = 1 ∧ subY = 1) (h422 : subX = 1 → subY = 0 → bh ≤ bw) :
    subsampledSize bw bh subX subY = some (Spec.Dec.planeSide bw subX, Spec.Dec.planeSide bh subY) := by
  have : ∀ s ∈ [(0, 0), (1, 0), (1, 1)], ∀ z ∈ [(4, 4), (4, 8), (8, 4), (8, 8), (8, 16), (16, 8), (16, 16), (16, 32), (32, 16),
      (32, 32), (32, 64), (64, 32), (64, 64)], (z.1 < 8 ∨ z.2 < 8 → s.1 = 1 ∧ s.2 = 1) → (s.1 = 1 → s.2 = 0 → z.2 ≤ z.1) →
      subsampledSize z.1 z.2 s.1 s.2 = some (Spec.Dec.planeSide z.1 s.1, Spec.Dec.planeSide z.2 s.2) := by decide
  exact this _ hs _ hz h8 h422

theorem side_mem {w sub : Nat} (hw : w ∈ [4, 8, 16, 32, 64]) (hs : sub = 0 ∨ sub = 1) :
    Spec.Dec.planeSide w sub ∈ [2, 4, 8, 16, 32, 64] ∧ Spec.Dec.planeSide w sub ≤ 64 / 2 ^ sub := by
  simp only [List.mem_cons, List.not_mem_nil, or_false] at hw
  rcases hs with rfl | rfl <;> rcases hw with rfl | rfl | rfl | rfl | rfl <;> decide

theorem Placed.sides (P : Placed e d blocks p subX subY row0 col0 box boy bw bh m) :
    bw ∈ [4, 8, 16, 32, 64] ∧ bh ∈ [4, 8, 16, 32, 64] := by
  have h := P.size
  simp only [List.mem_cons, List.not_mem_nil, or_false, Prod.mk.injEq] at h ⊢
  omega

/-- The corner of the block in the plane. -/
theorem Placed.corner (A : Agree e d) (P : Placed e d blocks p subX subY row0 col0 box boy bw bh m) :
    e.tileX + box / 2 ^ d.subX * 4 = (col0 + box) / 2 ^ d.subX * 4 ∧ e.tileY + boy / 2 ^ d.subY * 4 = (row0 + boy) / 2 ^ d.subY * 4 := by
  have h1 := P.rowEven; have h2 := P.colEven
  rw [P.tileX, P.tileY]
  constructor
  · rcases A.subX with h | h <;> rw [h] <;> norm_num <;> omega
  · rcases A.subY with h | h <;> rw [h] <;> norm_num <;> omega

/-- A block of a single motion: every side is at least 4 pixels long in the plane. -/
theorem big_pixel (A : Agree e d) (P : Placed e d blocks p subX subY row0 col0 box boy bw bh m)
    (hw : 4 * 2 ^ d.subX ≤ bw) (hh : 4 * 2 ^ d.subY ≤ bh) {i j : Nat} (hi : i < Spec.Dec.planeSide bh d.subY)
    (hj : j < Spec.Dec.planeSide bw d.subX) :
    d.pixel (row0 + boy) (col0 + box) bw bh i j =
      d.predictInter m.coded (e.tileX + box / 2 ^ d.subX * 4) (e.tileY + boy / 2 ^ d.subY * 4) (Spec.Dec.planeSide bw d.subX)
        (Spec.Dec.planeSide bh d.subY) i j := by
  have hb := P.sides
  simp only [List.mem_cons, List.not_mem_nil, or_false] at hb
  have sw : Spec.Dec.planeSide bw d.subX = bw / 2 ^ d.subX := by
    unfold Spec.Dec.planeSide
    rcases A.subX with h | h <;> rw [h] at hw ⊢ <;> norm_num at hw ⊢ <;> omega
  have sh : Spec.Dec.planeSide bh d.subY = bh / 2 ^ d.subY := by
    unfold Spec.Dec.planeSide
    rcases A.subY with h | h <;> rw [h] at hh ⊢ <;> norm_num at hh ⊢ <;> omega
  have own := P.own 0 (by omega) 0 (by omega)
  simp only [Nat.add_zero] at own
  rw [sh] at hi
  rw [sw] at hj
  have cx : (col0 + box) / 2 ^ d.subX * 2 ^ d.subX = col0 + box := by
    have := P.alignX; have := P.colEven
    rcases A.subX with h | h <;> rw [h] at hw ⊢ <;> norm_num at hw ⊢
    have : box % 2 = 0 := by rcases hb.1 with rfl | rfl | rfl | rfl | rfl <;> omega
    omega
  have cy : (row0 + boy) / 2 ^ d.subY * 2 ^ d.subY = row0 + boy := by
    have := P.alignY; have := P.rowEven
    rcases A.subY with h | h <;> rw [h] at hh ⊢ <;> norm_num at hh ⊢
    have : boy % 2 = 0 := by rcases hb.2 with rfl | rfl | rfl | rfl | rfl <;> omega
    omega
  unfold Spec.Dec.pixel
  simp only [cx, cy, sw, sh, Nat.div_eq_of_lt hi, Nat.div_eq_of_lt hj, Nat.mod_eq_of_lt hi, Nat.mod_eq_of_lt hj, Nat.add_zero,
    Nat.zero_mul, own, (P.corner A).1, (P.corner A).2, ite_self]

theorem coded_intra {b : Motion} : b.coded.a.refFrame = 0 ↔ b.a.ref = 0 := by
  unfold Motion.coded
  simp only
  omega

theorem any2 (f : Nat → Bool) : (List.range 2).any f = (f 0 || f 1) := by
  rw [show List.range 2 = [0, 1] by decide]
  simp

/-- A block that is predicted as a whole because of its size. -/
theorem Placed.big (A : Agree e d) (P : Placed e d blocks p subX subY row0 col0 box boy bw bh m)
    (h : ¬ (p ≠ 0 ∧ ltBlock8x8 bw bh = true)) : 4 * 2 ^ d.subX ≤ bw ∧ 4 * 2 ^ d.subY ≤ bh := by
  have hb := P.sides
  simp only [List.mem_cons, List.not_mem_nil, or_false] at hb
  by_cases hp : p = 0
  · have px := P.planeX; have py := P.planeY
    rw [if_pos hp] at px py
    rw [px, py]
    norm_num
    omega
  · have h8 : ltBlock8x8 bw bh = false := by
      rcases hl : ltBlock8x8 bw bh with _ | _
      · rfl
      · exact absurd ⟨hp, hl⟩ h
    have hz := P.size
    simp only [List.mem_cons, List.not_mem_nil, or_false, Prod.mk.injEq] at hz
    have : ¬ (bw ≤ 8 ∧ bh ≤ 8 ∧ (bw < 8 ∨ bh < 8)) := by
      intro hc
      unfold ltBlock8x8 at h8
      simp at h8
      omega
    have h2 : 8 ≤ bw ∧ 8 ≤ bh := by omega
    constructor
    · rcases A.subX with h | h <;> rw [h] <;> norm_num <;> omega
    · rcases A.subY with h | h <;> rw [h] <;> norm_num <;> omega

/-- The three blocks below 8x8 in 4:2:0. -/
theorem Placed.small (P : Placed e d blocks p subX subY row0 col0 box boy bw bh m) (hp : p ≠ 0) (h8 : ltBlock8x8 bw bh = true) :
    d.subX = 1 ∧ d.subY = 1 ∧ subX = 1 ∧ subY = 1 ∧ ((bw = 4 ∧ bh = 4 ∧ box % 2 = 1 ∧ boy % 2 = 1) ∨
      (bw = 4 ∧ bh = 8 ∧ box % 2 = 1 ∧ boy % 2 = 0) ∨ (bw = 8 ∧ bh = 4 ∧ box % 2 = 0 ∧ boy % 2 = 1)) := by
  have h : bw ≤ 8 ∧ bh ≤ 8 ∧ (bw < 8 ∨ bh < 8) := by
    unfold ltBlock8x8 at h8
    simpa [and_assoc] using h8
  obtain ⟨sx, sy⟩ := P.sub8 hp h.2.2
  have px := P.planeX; have py := P.planeY
  rw [if_neg hp] at px py
  have hc := P.chroma hp
  have ax := P.alignX; have ay := P.alignY
  refine ⟨by omega, by omega, sx, sy, ?_⟩
  have hz := P.size
  simp only [List.mem_cons, List.not_mem_nil, or_false, Prod.mk.injEq] at hz
  subst sx sy
  have : (bw = 4 ∧ bh = 4) ∨ (bw = 4 ∧ bh = 8) ∨ (bw = 8 ∧ bh = 4) := by omega
  rcases this with ⟨rfl, rfl⟩ | ⟨rfl, rfl⟩ | ⟨rfl, rfl⟩ <;> simp [hasChroma] at hc <;> omega

theorem someUseIntra_ok (P : Placed e d blocks p subX subY row0 col0 box boy bw bh m) (hp : p ≠ 0) (h8 : ltBlock8x8 bw bh = true) :
    someUseIntra blocks box boy bw bh = some (d.someUseIntra (row0 + boy) (col0 + box) bw bh) := by
  obtain ⟨sx, sy, _, _, hz⟩ := P.small hp h8
  have hown : m.coded.a.refFrame ≠ 0 := by
    rw [Ne, coded_intra]
    have := P.inter.1
    omega
  have oth : ∀ r c, r / 2 = boy / 2 → c / 2 = box / 2 → r < boy ∨ c < box →
      decide ((d.blk (row0 + r) (col0 + c)).a.refFrame = 0) = (blocks r c).intra := by
    intro r c h1 h2 h3
    obtain ⟨hb, hi⟩ := P.others r c h1 h2 h3
    rw [hb, decide_eq_decide.mpr coded_intra]
    rcases hi with ⟨h, h'⟩ | ⟨h, h'⟩
    · exact (decide_eq_true h').trans h.symm
    · exact (decide_eq_false (by have := h'.1; omega)).trans h.symm
  have re := P.rowEven; have ce := P.colEven
  unfold Spec.Dec.someUseIntra
  rw [sx, sy]
  rcases hz with ⟨rfl, rfl, hx, hy⟩ | ⟨rfl, rfl, hx, hy⟩ | ⟨rfl, rfl, hx, hy⟩
  · rw [show Spec.Dec.planeSide 4 1 / 4 * 2 ^ 1 = 2 by decide, show (row0 + boy) / 2 ^ 1 * 2 ^ 1 = row0 + (boy - 1) by omega,
      show (col0 + box) / 2 ^ 1 * 2 ^ 1 = col0 + (box - 1) by omega]
    simp only [any2, Nat.add_assoc, Nat.add_zero, show boy - 1 + 1 = boy by omega, show box - 1 + 1 = box by omega]
    have o0 := P.own 0 (by omega) 0 (by omega)
    simp only [Nat.add_zero] at o0
    rw [oth (boy - 1) (box - 1) (by omega) (by omega) (by omega), oth (boy - 1) box (by omega) (by omega) (by omega),
      oth boy (box - 1) (by omega) (by omega) (by omega), o0, decide_eq_false hown]
    unfold someUseIntra
    simp only [show 1 ≤ box by omega, show 1 ≤ boy by omega]
    cases (blocks boy (box - 1)).intra <;> cases (blocks (boy - 1) box).intra <;> cases (blocks (boy - 1) (box - 1)).intra <;> simp
  · rw [show Spec.Dec.planeSide 8 1 / 4 * 2 ^ 1 = 2 by decide, show Spec.Dec.planeSide 4 1 / 4 * 2 ^ 1 = 2 by decide,
      show (row0 + boy) / 2 ^ 1 * 2 ^ 1 = row0 + boy by omega,
      show (col0 + box) / 2 ^ 1 * 2 ^ 1 = col0 + (box - 1) by omega]
    have o0 := P.own 0 (by omega) 0 (by omega)
    have o1 := P.own 1 (by omega) 0 (by omega)
    have wl := P.left rfl rfl
    simp only [any2, Nat.add_assoc, Nat.add_zero, show box - 1 + 1 = box by omega] at o0 o1 ⊢
    rw [oth boy (box - 1) (by omega) (by omega) (by omega), oth (boy + 1) (box - 1) (by omega) (by omega) (by omega),
      decide_eq_false (by rw [o0]; exact hown), decide_eq_false (by rw [o1]; exact hown), wl]
    unfold someUseIntra
    simp only [show 1 ≤ box by omega]
    cases (blocks boy (box - 1)).intra <;> simp
  · rw [show Spec.Dec.planeSide 8 1 / 4 * 2 ^ 1 = 2 by decide, show Spec.Dec.planeSide 4 1 / 4 * 2 ^ 1 = 2 by decide,
      show (row0 + boy) / 2 ^ 1 * 2 ^ 1 = row0 + (boy - 1) by omega,
      show (col0 + box) / 2 ^ 1 * 2 ^ 1 = col0 + box by omega]
    have o0 := P.own 0 (by omega) 0 (by omega)
    have o1 := P.own 0 (by omega) 1 (by omega)
    have wl := P.above rfl rfl
    simp only [any2, Nat.add_assoc, Nat.add_zero, show boy - 1 + 1 = boy by omega] at o0 o1 ⊢
    rw [oth (boy - 1) box (by omega) (by omega) (by omega), oth (boy - 1) (box + 1) (by omega) (by omega) (by omega),
      decide_eq_false (by rw [o0]; exact hown), decide_eq_false (by rw [o1]; exact hown), wl]
    unfold someUseIntra
    simp only [show 1 ≤ boy by omega]
    cases (blocks (boy - 1) box).intra <;> simp

/-- If none of the blocks is intra, the neighbours have motion. -/
theorem neighbour (P : Placed e d blocks p subX subY row0 col0 box boy bw bh m) (hp : p ≠ 0) (h8 : ltBlock8x8 bw bh = true)
    (hi : d.someUseIntra (row0 + boy) (col0 + box) bw bh = false) {r c : Nat} (h1 : r / 2 = boy / 2) (h2 : c / 2 = box / 2)
    (h3 : r < boy ∨ c < box) :
    (blocks r c).motion.Inter ∧ d.blk (row0 + r) (col0 + c) = (blocks r c).motion.coded := by
  obtain ⟨sx, sy, _, _, hz⟩ := P.small hp h8
  obtain ⟨hb, hc⟩ := P.others r c h1 h2 h3
  have re := P.rowEven; have ce := P.colEven
  rcases hc with ⟨_, h0⟩ | ⟨_, h0⟩
  · exfalso
    have sides : Spec.Dec.planeSide bh 1 / 4 * 2 ^ 1 = 2 ∧ Spec.Dec.planeSide bw 1 / 4 * 2 ^ 1 = 2 := by
      rcases hz with ⟨rfl, rfl, _⟩ | ⟨rfl, rfl, _⟩ | ⟨rfl, rfl, _⟩ <;> decide
    unfold Spec.Dec.someUseIntra at hi
    rw [sx, sy, sides.1, sides.2] at hi
    have : (List.range 2).any (fun r => (List.range 2).any (fun c => decide
        ((d.blk ((row0 + boy) / 2 ^ 1 * 2 ^ 1 + r) ((col0 + box) / 2 ^ 1 * 2 ^ 1 + c)).a.refFrame = 0))) = true := by
      refine List.any_eq_true.mpr ⟨r % 2, List.mem_range.mpr (by omega), ?_⟩
      refine List.any_eq_true.mpr ⟨c % 2, List.mem_range.mpr (by omega), ?_⟩
      rw [show (row0 + boy) / 2 ^ 1 * 2 ^ 1 + r % 2 = row0 + r by omega,
        show (col0 + box) / 2 ^ 1 * 2 ^ 1 + c % 2 = col0 + c by omega, hb]
      exact decide_eq_true (coded_intra.mpr h0)
    rw [this] at hi
    exact absurd hi (by decide)
  · exact ⟨h0, hb⟩

theorem motionAt_ok {dx dy : Nat} (hx : dx ≤ box) (hy : dy ≤ boy) :
    motionAt blocks box boy dx dy = some (blocks (boy - dy) (box - dx)).motion := by
  unfold motionAt
  rw [if_pos ⟨hx, hy⟩]

/-- Inter prediction of a plane of a block is the decoder's and touches no other pixel. -/
theorem compensate_eq_decoder (A : Agree e d) (P : Placed e d blocks p subX subY row0 col0 box boy bw bh m) (tmp1 tmp2 : Nat → Int)
    (rec : Rec) :
    ∃ rec', compensatePlane e blocks p subX subY box boy bw bh m tmp1 tmp2 rec = some rec' ∧
      Wrote rec rec' ((row0 + boy) / 2 ^ d.subY * 4) ((col0 + box) / 2 ^ d.subX * 4) (Spec.Dec.planeSide bh d.subY)
        (Spec.Dec.planeSide bw d.subX) (fun i j => d.pixel (row0 + boy) (col0 + box) bw bh i j) := by
  have hb := P.sides
  have hsx := side_mem hb.1 A.subX
  have hsy := side_mem hb.2 A.subY
  have hcor := P.corner A
  rw [← hcor.1, ← hcor.2]
  have shx : ∀ n : Nat, (box >>> n) <<< 2 = box / 2 ^ n * 4 := fun n => by rw [Nat.shiftRight_eq_div_pow, Nat.shiftLeft_eq]
  have shy : ∀ n : Nat, (boy >>> n) <<< 2 = boy / 2 ^ n * 4 := fun n => by rw [Nat.shiftRight_eq_div_pow, Nat.shiftLeft_eq]
  have hsize : (if p = 0 then some (bw, bh) else subsampledSize bw bh subX subY) =
      some (Spec.Dec.planeSide bw d.subX, Spec.Dec.planeSide bh d.subY) := by
    by_cases hp : p = 0
    · rw [if_pos hp, P.planeX, P.planeY, if_pos hp, if_pos hp]
      simp only [List.mem_cons, List.not_mem_nil, or_false] at hb
      unfold Spec.Dec.planeSide
      rw [Nat.pow_zero, Nat.div_one, Nat.div_one, Nat.max_eq_right (by omega), Nat.max_eq_right (by omega)]
    · rw [if_neg hp, P.planeX, P.planeY, if_neg hp, if_neg hp]
      exact subsampled_ok P.sampling P.size (P.sub8 hp) (P.s422 hp)
  by_cases hbig : ¬ (p ≠ 0 ∧ ltBlock8x8 bw bh = true)
  · have hwh : 4 * 2 ^ d.subX ≤ bw ∧ 4 * 2 ^ d.subY ≤ bh := P.big A hbig
    obtain ⟨rec', h1, h2⟩ := one_ok A P.inter hsx.1 hsy.1 hsx.2 hsy.2 P.insideX P.insideY tmp1 tmp2 rec
    refine ⟨rec', ?_, h2.congr (fun i hi j hj => (big_pixel A P hwh.1 hwh.2 hi hj).symm)⟩
    unfold compensatePlane
    refine Option.bind_eq_some_iff.mpr ⟨_, hsize, ?_⟩
    simp only [shx, shy, ← P.planeX, ← P.planeY]
    rw [if_neg hbig]
    exact h1
  · have hsm : p ≠ 0 ∧ ltBlock8x8 bw bh = true := not_not.mp hbig
    obtain ⟨sx, sy, ux, uy, hz⟩ := P.small hsm.1 hsm.2
    have hint := someUseIntra_ok P hsm.1 hsm.2
    have own := P.own 0 (by simp only [List.mem_cons, List.not_mem_nil, or_false] at hb; omega) 0
      (by simp only [List.mem_cons, List.not_mem_nil, or_false] at hb; omega)
    simp only [Nat.add_zero] at own
    have inX := P.insideX
    have inY := P.insideY
    have sides : Spec.Dec.planeSide bw 1 = 4 ∧ Spec.Dec.planeSide bh 1 = 4 := by
      rcases hz with ⟨rfl, rfl, _⟩ | ⟨rfl, rfl, _⟩ | ⟨rfl, rfl, _⟩ <;> decide
    have re := P.rowEven; have ce := P.colEven
    rcases hintra : d.someUseIntra (row0 + boy) (col0 + box) bw bh with _ | _
    · rw [sx] at inX
      rw [sy] at inY
      rw [sides.1] at inX
      rw [sides.2] at inY
      have n2 : (2 : Nat) ∈ [2, 4, 8, 16, 32, 64] := by decide
      have n4 : (4 : Nat) ∈ [2, 4, 8, 16, 32, 64] := by decide
      have le2x : 2 ≤ 64 / 2 ^ d.subX := by rw [sx]; decide
      have le2y : 2 ≤ 64 / 2 ^ d.subY := by rw [sy]; decide
      have le4x : 4 ≤ 64 / 2 ^ d.subX := by rw [sx]; decide
      have le4y : 4 ≤ 64 / 2 ^ d.subY := by rw [sy]; decide
      have nb : ∀ r c, r / 2 = boy / 2 → c / 2 = box / 2 → r < boy ∨ c < box →
          (blocks r c).motion.Inter ∧ d.blk (row0 + r) (col0 + c) = (blocks r c).motion.coded :=
        fun r c h1 h2 h3 => neighbour P hsm.1 hsm.2 hintra h1 h2 h3
      rcases hz with ⟨rfl, rfl, hx, hy⟩ | ⟨rfl, rfl, hx, hy⟩ | ⟨rfl, rfl, hx, hy⟩
      · obtain ⟨i0, b0⟩ := nb (boy - 1) (box - 1) (by omega) (by omega) (by omega)
        obtain ⟨i1, b1⟩ := nb (boy - 1) box (by omega) (by omega) (by omega)
        obtain ⟨i2, b2⟩ := nb boy (box - 1) (by omega) (by omega) (by omega)
        obtain ⟨r0, f0, w0⟩ := one_ok A i0 (pox := box / 2 ^ 1 * 4) (poy := boy / 2 ^ 1 * 4) n2 n2 le2x le2y (by omega) (by omega)
          tmp1 tmp2 rec
        obtain ⟨r1, f1, w1⟩ := one_ok A i1 (pox := box / 2 ^ 1 * 4 + 2) (poy := boy / 2 ^ 1 * 4) n2 n2 le2x le2y (by omega)
          (by omega) tmp1 tmp2 r0
        obtain ⟨r2, f2, w2⟩ := one_ok A i2 (pox := box / 2 ^ 1 * 4) (poy := boy / 2 ^ 1 * 4 + 2) n2 n2 le2x le2y (by omega)
          (by omega) tmp1 tmp2 r1
        obtain ⟨r3, f3, w3⟩ := one_ok A P.inter (pox := box / 2 ^ 1 * 4 + 2) (poy := boy / 2 ^ 1 * 4 + 2) n2 n2 le2x le2y
          (by omega) (by omega) tmp1 tmp2 r2
        refine ⟨r3, ?_, ?_⟩
        · unfold compensatePlane
          refine Option.bind_eq_some_iff.mpr ⟨_, hsize, ?_⟩
          simp only [shx, shy, ← P.planeX, ← P.planeY]
          rw [if_pos hsm, sx, sy]
          refine Option.bind_eq_some_iff.mpr ⟨_, hint, ?_⟩
          rw [hintra, if_neg (by decide), if_pos ⟨ux, uy⟩]
          simp only [and_self, if_true]
          refine Option.bind_eq_some_iff.mpr ⟨_, motionAt_ok (by omega) (by omega), ?_⟩
          refine Option.bind_eq_some_iff.mpr ⟨_, motionAt_ok (by omega) (by omega), ?_⟩
          refine Option.bind_eq_some_iff.mpr ⟨_, motionAt_ok (by omega) (by omega), ?_⟩
          refine Option.bind_eq_some_iff.mpr ⟨r0, f0, ?_⟩
          refine Option.bind_eq_some_iff.mpr ⟨r1, f1, ?_⟩
          exact Option.bind_eq_some_iff.mpr ⟨r2, f2, f3⟩
        · rw [sx, sy, show Spec.Dec.planeSide 4 1 = 4 by decide]
          simp only [← Nat.add_assoc] at w1 w2 w3
          have pix : ∀ i j, d.pixel (row0 + boy) (col0 + box) 4 4 i j = d.predictInter
              (d.blk (row0 + (boy - 1) + i / 2) (col0 + (box - 1) + j / 2)) (e.tileX + box / 2 ^ 1 * 4 + j / 2 * 2)
              (e.tileY + boy / 2 ^ 1 * 4 + i / 2 * 2) 2 2 (i % 2) (j % 2) := by
            intro i j
            unfold Spec.Dec.pixel
            rw [hintra, sx, sy, if_neg (by decide)]
            rw [sx, sy] at hcor
            rw [hcor.1, hcor.2]
            simp only [show (row0 + boy) / 2 ^ 1 * 2 ^ 1 = row0 + (boy - 1) by omega,
              show (col0 + box) / 2 ^ 1 * 2 ^ 1 = col0 + (box - 1) by omega, show 4 / 2 ^ 1 = 2 by decide]
          refine (Wrote.vert (h1 := 2) (h2 := 2) (Wrote.horz (w1 := 2) (w2 := 2) w0 w1)
            (Wrote.horz (w1 := 2) (w2 := 2) w2 w3)).congr (fun i hi j hj => ?_)
          rw [pix]
          have ey : row0 + (boy - 1) + 1 = row0 + boy := by omega
          have ex : col0 + (box - 1) + 1 = col0 + box := by omega
          by_cases hi2 : i < 2 <;> by_cases hj2 : j < 2
          · simp only [hi2, hj2, if_true, Nat.div_eq_of_lt hi2, Nat.div_eq_of_lt hj2, Nat.mod_eq_of_lt hi2, Nat.mod_eq_of_lt hj2,
              Nat.zero_mul, Nat.add_zero, b0]
          · simp only [hi2, hj2, if_true, if_false, Nat.div_eq_of_lt hi2, Nat.mod_eq_of_lt hi2, show j / 2 = 1 by omega,
              show j % 2 = j - 2 by omega, Nat.zero_mul, Nat.one_mul, Nat.add_zero, ex, b1]
          · simp only [hi2, hj2, if_true, if_false, Nat.div_eq_of_lt hj2, Nat.mod_eq_of_lt hj2, show i / 2 = 1 by omega,
              show i % 2 = i - 2 by omega, Nat.zero_mul, Nat.one_mul, Nat.add_zero, ey, b2]
          · simp only [hi2, hj2, if_false, show j / 2 = 1 by omega, show j % 2 = j - 2 by omega, show i / 2 = 1 by omega,
              show i % 2 = i - 2 by omega, Nat.one_mul, ex, ey, own]
      · obtain ⟨i0, b0⟩ := nb boy (box - 1) (by omega) (by omega) (by omega)
        obtain ⟨r0, f0, w0⟩ := one_ok A i0 (pox := box / 2 ^ 1 * 4) (poy := boy / 2 ^ 1 * 4) n2 n4 le2x le4y (by omega) (by omega)
          tmp1 tmp2 rec
        obtain ⟨r1, f1, w1⟩ := one_ok A P.inter (pox := box / 2 ^ 1 * 4 + 2) (poy := boy / 2 ^ 1 * 4) n2 n4 le2x le4y (by omega)
          (by omega) tmp1 tmp2 r0
        refine ⟨r1, ?_, ?_⟩
        · unfold compensatePlane
          refine Option.bind_eq_some_iff.mpr ⟨_, hsize, ?_⟩
          simp only [shx, shy, ← P.planeX, ← P.planeY]
          rw [if_pos hsm, sx, sy]
          refine Option.bind_eq_some_iff.mpr ⟨_, hint, ?_⟩
          rw [hintra, if_neg (by decide), if_pos ⟨ux, uy⟩, if_neg (by omega), if_neg (by omega), if_pos (by simp)]
          refine Option.bind_eq_some_iff.mpr ⟨_, motionAt_ok (by omega) (by omega), ?_⟩
          exact Option.bind_eq_some_iff.mpr ⟨r0, f0, f1⟩
        · rw [sx, sy, show Spec.Dec.planeSide 4 1 = 4 by decide, show Spec.Dec.planeSide 8 1 = 4 by decide]
          simp only [← Nat.add_assoc] at w1
          have pix : ∀ i j, d.pixel (row0 + boy) (col0 + box) 4 8 i j = d.predictInter
              (d.blk (row0 + boy + i / 4) (col0 + (box - 1) + j / 2)) (e.tileX + box / 2 ^ 1 * 4 + j / 2 * 2)
              (e.tileY + boy / 2 ^ 1 * 4 + i / 4 * 4) 2 4 (i % 4) (j % 2) := by
            intro i j
            unfold Spec.Dec.pixel
            rw [hintra, sx, sy, if_neg (by decide)]
            rw [sx, sy] at hcor
            rw [hcor.1, hcor.2]
            simp only [show (row0 + boy) / 2 ^ 1 * 2 ^ 1 = row0 + boy by omega,
              show (col0 + box) / 2 ^ 1 * 2 ^ 1 = col0 + (box - 1) by omega, show 4 / 2 ^ 1 = 2 by decide, show 8 / 2 ^ 1 = 4 by decide]
          refine (Wrote.horz (w1 := 2) (w2 := 2) w0 w1).congr (fun i hi j hj => ?_)
          rw [pix]
          have ex : col0 + (box - 1) + 1 = col0 + box := by omega
          by_cases hj2 : j < 2
          · simp only [hj2, if_true, Nat.div_eq_of_lt hi, Nat.div_eq_of_lt hj2, Nat.mod_eq_of_lt hi, Nat.mod_eq_of_lt hj2,
              Nat.zero_mul, Nat.add_zero, b0]
          · simp only [hj2, if_false, Nat.div_eq_of_lt hi, Nat.mod_eq_of_lt hi, show j / 2 = 1 by omega,
              show j % 2 = j - 2 by omega, Nat.zero_mul, Nat.one_mul, Nat.add_zero, ex, own]
      · obtain ⟨i0, b0⟩ := nb (boy - 1) box (by omega) (by omega) (by omega)
        obtain ⟨r0, f0, w0⟩ := one_ok A i0 (pox := box / 2 ^ 1 * 4) (poy := boy / 2 ^ 1 * 4) n4 n2 le4x le2y (by omega) (by omega)
          tmp1 tmp2 rec
        obtain ⟨r1, f1, w1⟩ := one_ok A P.inter (pox := box / 2 ^ 1 * 4) (poy := boy / 2 ^ 1 * 4 + 2) n4 n2 le4x le2y (by omega)
          (by omega) tmp1 tmp2 r0
        refine ⟨r1, ?_, ?_⟩
        · unfold compensatePlane
          refine Option.bind_eq_some_iff.mpr ⟨_, hsize, ?_⟩
          simp only [shx, shy, ← P.planeX, ← P.planeY]
          rw [if_pos hsm, sx, sy]
          refine Option.bind_eq_some_iff.mpr ⟨_, hint, ?_⟩
          rw [hintra, if_neg (by decide), if_pos ⟨ux, uy⟩, if_neg (by omega), if_pos (by simp)]
          refine Option.bind_eq_some_iff.mpr ⟨_, motionAt_ok (by omega) (by omega), ?_⟩
          exact Option.bind_eq_some_iff.mpr ⟨r0, f0, f1⟩
        · rw [sx, sy, show Spec.Dec.planeSide 4 1 = 4 by decide, show Spec.Dec.planeSide 8 1 = 4 by decide]
          simp only [← Nat.add_assoc] at w1
          have pix : ∀ i j, d.pixel (row0 + boy) (col0 + box) 8 4 i j = d.predictInter
              (d.blk (row0 + (boy - 1) + i / 2) (col0 + box + j / 4)) (e.tileX + box / 2 ^ 1 * 4 + j / 4 * 4)
              (e.tileY + boy / 2 ^ 1 * 4 + i / 2 * 2) 4 2 (i % 2) (j % 4) := by
            intro i j
            unfold Spec.Dec.pixel
            rw [hintra, sx, sy, if_neg (by decide)]
            rw [sx, sy] at hcor
            rw [hcor.1, hcor.2]
            simp only [show (row0 + boy) / 2 ^ 1 * 2 ^ 1 = row0 + (boy - 1) by omega,
              show (col0 + box) / 2 ^ 1 * 2 ^ 1 = col0 + box by omega, show 4 / 2 ^ 1 = 2 by decide, show 8 / 2 ^ 1 = 4 by decide]
          refine (Wrote.vert (h1 := 2) (h2 := 2) w0 w1).congr (fun i hi j hj => ?_)
          rw [pix]
          have ey : row0 + (boy - 1) + 1 = row0 + boy := by omega
          by_cases hi2 : i < 2
          · simp only [hi2, if_true, Nat.div_eq_of_lt hi2, Nat.div_eq_of_lt hj, Nat.mod_eq_of_lt hi2, Nat.mod_eq_of_lt hj,
              Nat.zero_mul, Nat.add_zero, b0]
          · simp only [hi2, if_false, Nat.div_eq_of_lt hj, Nat.mod_eq_of_lt hj, show i / 2 = 1 by omega,
              show i % 2 = i - 2 by omega, Nat.zero_mul, Nat.one_mul, Nat.add_zero, ey, own]
    · obtain ⟨rec', h1, h2⟩ := one_ok A P.inter hsx.1 hsy.1 hsx.2 hsy.2 P.insideX P.insideY tmp1 tmp2 rec
      refine ⟨rec', ?_, h2.congr (fun i hi j hj => ?_)⟩
      · unfold compensatePlane
        refine Option.bind_eq_some_iff.mpr ⟨_, hsize, ?_⟩
        simp only [shx, shy, ← P.planeX, ← P.planeY]
        rw [if_pos hsm]
        refine Option.bind_eq_some_iff.mpr ⟨_, hint, ?_⟩
        rw [hintra, if_pos rfl]
        exact h1
      · unfold Spec.Dec.pixel
        rw [hintra, if_pos rfl, own, hcor.1, hcor.2]

theorem predictInter_range (d : Spec.Dec) (b : Spec.Blk) (x y w h r c : Nat) :
    0 ≤ d.predictInter b x y w h r c ∧ d.predictInter b x y w h r c < 2 ^ d.bitDepth := by
  have h1 : (1 : Int) ≤ 2 ^ d.bitDepth := one_le_pow₀ (by norm_num)
  have key : ∀ v, 0 ≤ d.clip1 v ∧ d.clip1 v < 2 ^ d.bitDepth := by
    intro v
    unfold Spec.Dec.clip1 clip3
    generalize (2 : Int) ^ d.bitDepth = M at *
    split_ifs <;> omega
  unfold Spec.Dec.predictInter
  split <;> exact key _

/-- Prediction keeps the pixels of the frame in the range of the bit depth. -/
theorem compensate_range (A : Agree e d) (P : Placed e d blocks p subX subY row0 col0 box boy bw bh m) (tmp1 tmp2 : Nat → Int)
    {rec rec' : Rec} (hr : ∀ k, 0 ≤ rec k ∧ rec k < 2 ^ e.bd)
    (h : compensatePlane e blocks p subX subY box boy bw bh m tmp1 tmp2 rec = some rec') (k : Nat × Nat) :
    0 ≤ rec' k ∧ rec' k < 2 ^ e.bd := by
  obtain ⟨rec2, h1, h2, h3⟩ := compensate_eq_decoder A P tmp1 tmp2 rec
  obtain rfl : rec2 = rec' := by rw [h1] at h; exact Option.some.inj h
  by_cases hk : ∃ i < Spec.Dec.planeSide bh d.subY, ∃ j < Spec.Dec.planeSide bw d.subX,
      k = ((row0 + boy) / 2 ^ d.subY * 4 + i, (col0 + box) / 2 ^ d.subX * 4 + j)
  · obtain ⟨i, hi, j, hj, rfl⟩ := hk
    rw [h2 i hi j hj, A.depth]
    unfold Spec.Dec.pixel
    simp only
    split <;> exact predictInter_range _ _ _ _ _ _ _ _
  · rw [h3 k (fun i hi j hj he => hk ⟨i, hi, j, hj, he⟩)]
    exact hr k

/-- What other blocks left in the buffers of compound prediction has no effect. -/
theorem compensate_scratch (A : Agree e d) (P : Placed e d blocks p subX subY row0 col0 box boy bw bh m)
    (tmp1 tmp2 tmp1' tmp2' : Nat → Int) (rec : Rec) :
    compensatePlane e blocks p subX subY box boy bw bh m tmp1 tmp2 rec =
      compensatePlane e blocks p subX subY box boy bw bh m tmp1' tmp2' rec := by
  obtain ⟨r1, h1, h2, h3⟩ := compensate_eq_decoder A P tmp1 tmp2 rec
  obtain ⟨r2, g1, g2, g3⟩ := compensate_eq_decoder A P tmp1' tmp2' rec
  rw [h1, g1]
  congr 1
  funext k
  by_cases hk : ∃ i < Spec.Dec.planeSide bh d.subY, ∃ j < Spec.Dec.planeSide bw d.subX,
      k = ((row0 + boy) / 2 ^ d.subY * 4 + i, (col0 + box) / 2 ^ d.subX * 4 + j)
  · obtain ⟨i, hi, j, hj, rfl⟩ := hk
    rw [h2 i hi j hj, g2 i hi j hj]
  · rw [h3 k (fun i hi j hj he => hk ⟨i, hi, j, hj, he⟩), g3 k (fun i hi j hj he => hk ⟨i, hi, j, hj, he⟩)]

end

/-- `get_filter` is not the decoder's choice for sharp filters and sides of at most 4 pixels: it takes the smooth filter. No
frame is coded with sharp filters: `default_filter` is always regular, `encoder.rs:934`. -/
theorem sharp_differs : getFilter 2 4 4 = some ([0, 0, 20, 60, 42, 6, 0, 0] : List Int) ∧
    (List.range 8).map (Spec.subpel (Spec.interpFilter 2 4) 4) = [0, 0, -12, 110, 38, -8, 0, 0] := by decide +kernel

/-! ## A case -/

/-- A plane with borders of `b` pixels around a picture of `w` by `h` pixels. -/
def bordered (d : Spec.Dec) (R : Spec.RefPic) (w h b : Nat) : Plane :=
  ⟨b, b, w + 2 * b, h + 2 * b, w, h, d.subX, d.subY,
    fun k => (d.refPx R ((k / (w + 2 * b) : Nat) - b : Int) ((k % (w + 2 * b) : Nat) - b : Int)).toNat⟩

theorem bordered_padded {d : Spec.Dec} {R : Spec.RefPic} {w h b : Nat} (hw : d.lastX R ≤ w) (hh : d.lastY R ≤ h)
    (hx : 64 / 2 ^ d.subX + 6 < b) (hy : 64 / 2 ^ d.subY + 6 < b) : Padded d R (bordered d R w h b) := by
  refine ⟨rfl, rfl, ?_, hw, hh, by simp only [bordered]; omega, by simp only [bordered]; omega, by simp only [bordered]; omega,
    by simp only [bordered]; omega⟩
  intro x y h1 h2 h3 h4
  simp only [bordered] at h1 h2 h3 h4 ⊢
  have hlt : (x + b).toNat < w + 2 * b := by omega
  rw [Nat.mul_comm, Nat.mul_add_div (by omega), Nat.mul_add_mod, Nat.div_eq_of_lt hlt, Nat.mod_eq_of_lt hlt, Nat.add_zero]
  rw [show (((y + b).toNat : Nat) : Int) - b = y by omega, show (((x + b).toNat : Nat) : Int) - b = x by omega]
  unfold Spec.Dec.refPx
  omega

/-- The chroma of a 10-bit frame of 16x16 pixels: four blocks of 4x4, the last one compound. -/
def caseMotion (r c : Nat) : Motion :=
  if r = 1 ∧ c = 1 then ⟨⟨1, ⟨-37, 300⟩⟩, ⟨4, ⟨5, -9⟩⟩⟩ else ⟨⟨1 + r, ⟨3 * r, 7 - 9 * c⟩⟩, ⟨8, ⟨0, 0⟩⟩⟩
def caseDec : Spec.Dec where
  bitDepth := 10
  subX := 1
  subY := 1
  frameWidth := 16
  frameHeight := 16
  filter := 0
  ref := fun _ => ⟨16, 16, fun y x => (37 * y + 11 * x) % 1024⟩
  blk := fun r c => (caseMotion r c).coded
def caseEnv : Env := ⟨fun r => some (bordered caseDec (caseDec.ref r) 8 8 44), 0, 10, 0, 0, 32, 32⟩
def caseBlocks (r c : Nat) : Blk := ⟨false, caseMotion r c⟩

theorem case_agree : Agree caseEnv caseDec := by
  refine ⟨rfl, by decide, by decide, by decide, by decide, by decide, rfl, by decide, fun r _ _ => ⟨_, rfl, ?_, rfl, rfl, ?_⟩⟩
  · exact bordered_padded (show caseDec.lastX (caseDec.ref 1) ≤ 8 by decide) (show caseDec.lastY (caseDec.ref 1) ≤ 8 by decide)
      (by decide) (by decide)
  · intro y x
    exact Nat.mod_lt _ (by decide)

theorem case_placed : Placed caseEnv caseDec caseBlocks 1 1 1 0 0 1 1 4 4 (caseMotion 1 1) := by
  refine ⟨rfl, rfl, by decide, by decide, by decide, by decide, by decide, by decide, by decide, by decide, by decide, by decide,
    by decide, by decide, by decide, ⟨by decide, by decide, by decide⟩, ?_, ?_, fun h => absurd h (by decide),
    fun _ h => absurd h (by decide)⟩
  · intro r hr c hc
    obtain rfl : r = 0 := by omega
    obtain rfl : c = 0 := by omega
    rfl
  · intro r c hr hc h
    refine ⟨by simp only [Nat.zero_add]; rfl, Or.inr ⟨rfl, ?_⟩⟩
    have : r < 2 := by omega
    have : c < 2 := by omega
    simp only [caseBlocks, caseMotion, Motion.Inter]
    rw [if_neg (by omega)]
    simp only
    omega

example (rec : Rec) : ∃ rec', compensatePlane caseEnv caseBlocks 1 1 1 1 1 4 4 (caseMotion 1 1) (fun _ => 0) (fun _ => 0) rec =
    some rec' ∧ Wrote rec rec' 0 0 4 4 (fun i j => caseDec.pixel 1 1 4 4 i j) := by
  have h := compensate_eq_decoder case_agree case_placed (fun _ => 0) (fun _ => 0) rec
  exact h

/-- The four corners of the block come from four different motions. -/
example : [caseDec.pixel 1 1 4 4 0 0, caseDec.pixel 1 1 4 4 0 3, caseDec.pixel 1 1 4 4 3 0, caseDec.pixel 1 1 4 4 3 3] =
    [4, 31, 122, 125] := by decide +kernel

end Rav1e.Mc

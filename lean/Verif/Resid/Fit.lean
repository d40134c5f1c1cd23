import Verif.Resid.Tables

/-!
# Every transform block is coded as the decoder will read it
-/

namespace Rav1e.Resid

open Coef (BlockSize Arg Job Cx Fits outOf)
open Quant (TxType EobExact specOrder storage codedW codedH)
open TxSize (Shape)
open Spec (Frame Hdr Place)
open Mvref (GeoOk)

/-- The encoder and the decoder work on the same tile of the same frame, no wider than a tile can be. -/
structure Cor (f : Frame) (C : Cfg) : Prop where
  geo : GeoOk f.g
  rows : C.rows = f.g.rowEnd - f.g.rowStart
  cols : C.cols = f.g.colEnd - f.g.colStart
  row0 : C.row0 = f.g.rowStart
  col0 : C.col0 = f.g.colStart
  wInB : C.wInB = f.g.miCols
  hInB : C.hInB = f.g.miRows
  subX : f.subX = C.xdec
  subY : f.subY = C.ydec
  mono : f.mono = C.mono
  reduced : f.reduced = C.reduced
  dec : (C.xdec, C.ydec) ∈ decs
  width : f.g.colEnd - f.g.colStart ≤ 1024

/-- What the decoder knows of a block. -/
def Coded.hdr (e : Coded) : Hdr := ⟨e.row, e.col, e.bs.widthMi, e.bs.heightMi, e.inter, e.skip, px e.tx, e.mode, e.uvMode⟩

/-- The same block as in `TxSize`. -/
def Coded.base (e : Coded) : TxSize.Coded := ⟨e.row, e.col, e.bs.widthMi, e.bs.heightMi, e.inter, e.skip, px e.tx⟩

/-- The decisions of the encoder for a block that its settings allow: transform size and type, an intra mode for luma unless it is an inter block, one for chroma,
and in 4:2:2 no block that is higher than wide. -/
structure Chosen (C : Cfg) (e : Coded) : Prop where
  tx : TxSize.Chosen C.toCfg e.base
  ty : e.ty ∈ rdoTypes C e.tx e.inter e.skip
  mode : e.inter = false → e.mode < 13
  uvMode : e.inter = false → e.uvMode < 14
  vert : C.xdec = 1 → C.ydec = 0 → e.bs.heightMi ≤ e.bs.widthMi

/-- The place of a block in the tile. -/
structure Placed (g : Mvref.Spec.Geo) (e : Coded) : Prop where
  rowLo : g.rowStart ≤ e.row
  rowHi : e.row < g.rowEnd
  colLo : g.colStart ≤ e.col
  colHi : e.col < g.colEnd
  rowMod : e.row % e.bs.heightMi = 0
  colMod : e.col % e.bs.widthMi = 0
  shape : e.bs ∈ shapes

/-- The quantized coefficients of a transform block: as many as are coded, as small as the quantizer makes them (C24), and `eob` is where they end (C25). -/
structure CoefOk (a : Arg) : Prop where
  length : a.coeffs.length = codedW a.tx * codedH a.tx
  small : ∀ v ∈ a.coeffs, v.natAbs < 2 ^ 20
  eob : EobExact ((specOrder a.tx a.ty).map (storage (codedH a.tx))) a.coeffs a.eob

theorem trio_of {C : Cfg} {e : Coded} (H : Chosen C e) : px e.tx ∈ trio e.bs := by
  have := H.tx.1
  unfold TxSize.rdoSizes Coded.base at this
  dsimp only at this
  unfold trio
  dsimp only
  split_ifs at this <;> simp only [List.mem_cons, List.not_mem_nil, or_false] at this ⊢
  · rename_i h1 h2; simp only [Bool.and_eq_true, Bool.not_eq_true'] at h1 h2; rw [h2.1.2] at h1; exact absurd h1.2 (by decide)
  · exact this
  · exact Or.inr (Or.inl this)
  · exact Or.inl this

variable {f : Frame} {C : Cfg} {e : Coded}

/-- The end of the tile and the end of the frame are the same for the places of a block. -/
theorem edge {n m w p z : Nat} (hw : w ∈ [1, 2, 4, 8, 16]) (hm : n ≤ m) (he : n = m ∨ n % 16 = 0) (hi : p < n) (hp : p % w = 0)
    (hz : z < p + w) : (z < n ↔ z < m) := by
  rcases he with rfl | he
  · exact Iff.rfl
  · have : p + w ≤ n := by
      simp only [List.mem_cons, List.not_mem_nil, or_false] at hw
      rcases hw with rfl | rfl | rfl | rfl | rfl <;> omega
    omega

theorem room {w p : Nat} (hw : w ∈ [1, 2, 4, 8, 16]) (hp : p % w = 0) : p % 16 + w ≤ 16 := by
  simp only [List.mem_cons, List.not_mem_nil, or_false] at hw
  rcases hw with rfl | rfl | rfl | rfl | rfl <;> omega

theorem room1024 {w p s n : Nat} (hw : w ∈ [1, 2, 4, 8, 16]) (hp : p % w = 0) (hs : s % 16 = 0) (hi : p < n) (hn : n - s ≤ 1024) :
    p + w ≤ s + 1024 := by
  simp only [List.mem_cons, List.not_mem_nil, or_false] at hw
  rcases hw with rfl | rfl | rfl | rfl | rfl <;> omega

theorem cell {i n t W : Nat} (hi : i < n) (hW : W = n * t) : i * t + t ≤ W := by
  subst hW
  calc i * t + t = (i + 1) * t := by ring
    _ ≤ n * t := Nat.mul_le_mul_right _ hi

/-- Where the pixels of a transform block are in its plane of the frame: `Area::BlockRect` (src/tiling/plane_region.rs:91-96), from the start of the tile, which is
at `col0`, `row0`. -/
def placeOf (C : Cfg) (a : Arg) : Place := ⟨a.plane, ((C.col0 + a.x) >>> a.xdec) * 4, ((C.row0 + a.y) >>> a.ydec) * 4, px a.tx⟩

/-- The transform block `i`, `j` of the luma plane. -/
def lumaPlace (e : Coded) (p : Nat × Nat) : Place := ⟨0, e.col * 4 + 4 * (p.1 * widthMi e.tx), e.row * 4 + 4 * (p.2 * heightMi e.tx), px e.tx⟩

theorem luma_fits (O : Cor f C) (P : Placed f.g e) (H : Chosen C e) {p : Nat × Nat} (h1 : p.1 < e.bs.widthMi / widthMi e.tx)
    (h2 : p.2 < e.bs.heightMi / heightMi e.tx) :
    let r := encodeTxBlock C e ⟨0, e.col - C.col0 + p.1 * widthMi e.tx, e.row - C.row0 + p.2 * heightMi e.tx, e.mode, e.tx, e.ty⟩
    (e.skip = true → r = some []) ∧ (f.inFrame (lumaPlace e p) = false → r = some []) ∧
    (e.skip = false → f.inFrame (lumaPlace e p) = true → ∃ a, r = some [a] ∧ a.plane = 0 ∧ a.ty = e.ty ∧ placeOf C a = lumaPlace e p ∧
      (CoefOk a → ∀ types, Fits (if C.mono then 1 else 3) a (f.blk e.hdr (lumaPlace e p) types))) := by
  intro r
  obtain ⟨-, -, -, mw, mh, lw, lh, -⟩ := maxFacts P.shape
  have L := lumaFacts P.shape (trio_of H)
  have c1 := cell h1 L.w
  have c2 := cell h2 L.h
  have ex := edge (z := e.col + p.1 * widthMi e.tx) mw O.geo.colLe O.geo.colEnd P.colHi P.colMod (by have := L.twPos; omega)
  have ey := edge (z := e.row + p.2 * heightMi e.tx) mh O.geo.rowLe O.geo.rowEnd P.rowHi P.rowMod (by have := L.thPos; omega)
  have rx := room1024 mw P.colMod O.geo.col0 P.colHi O.width
  have ry := room mh P.rowMod
  have := P.colLo
  have := P.rowLo
  have := O.cols
  have := O.rows
  have := O.row0
  have := O.col0
  have g1 := O.geo.row0
  have g2 := O.geo.cols
  have g3 := O.geo.rows
  generalize hX : p.1 * widthMi e.tx = X at *
  generalize hY : p.2 * heightMi e.tx = Y at *
  have hin : f.inFrame (lumaPlace e p) = decide (¬ (e.col - C.col0 + X ≥ C.cols ∨ e.row - C.row0 + Y ≥ C.rows)) := by
    unfold Spec.Frame.inFrame lumaPlace
    simp only [Spec.Frame.subXOf, Spec.Frame.subYOf, Nat.lt_irrefl, if_false, Nat.shiftRight_zero]
    rw [← Bool.decide_and]
    refine decide_eq_decide.2 ?_
    rw [hX, hY]
    omega
  have hr : r = if e.col - C.col0 + X ≥ C.cols ∨ e.row - C.row0 + Y ≥ C.rows then some [] else if e.skip then some [] else
      some [{ plane := 0, x := e.col - C.col0 + X, y := e.row - C.row0 + Y, coeffs := (e.q 0 (e.col - C.col0 + X) (e.row - C.row0 + Y)).1,
              eob := (e.q 0 (e.col - C.col0 + X) (e.row - C.row0 + Y)).2, mode := e.mode, tx := e.tx, ty := e.ty, pb := e.bs, xdec := 0, ydec := 0,
              reduced := C.reduced, clippedW := Coef.clipped C.wInB (C.col0 + (e.col - C.col0 + X)) 0 e.tx.width,
              clippedH := Coef.clipped C.hInB (C.row0 + (e.row - C.row0 + Y)) 0 e.tx.height }] := by
    show encodeTxBlock C e _ = _
    rw [hX, hY]
    rfl
  refine ⟨fun hs => ?_, fun h => ?_, fun hs h => ?_⟩
  · rw [hr, hs]; split_ifs <;> first | rfl | contradiction
  · rw [hin] at h; rw [hr, if_pos (not_not.1 (of_decide_eq_false h))]
  · rw [hin] at h
    have h := of_decide_eq_true h
    rw [hr, if_neg h, hs]
    refine ⟨_, rfl, rfl, rfl, ?_, fun K types => ?_⟩
    · simp only [placeOf, lumaPlace, Nat.shiftRight_zero, Place.mk.injEq, and_true, true_and, hX, hY]; omega
    obtain ⟨t1, t2, t3⟩ := types_inSet H.ty
    exact {
      plane := rfl
      planes := by show 0 < if C.mono then 1 else 3; split_ifs <;> omega
      tx := logs_px e.tx
      x4 := by
        show (lumaPlace e p).x / 4 - f.g.colStart >>> 0 = (e.col - C.col0 + X) >>> 0
        simp only [lumaPlace, hX, Nat.shiftRight_zero]; omega
      y4 := by
        show (lumaPlace e p).y / 4 % (16 >>> 0) = ((e.row - C.row0 + Y) % 16) >>> 0
        simp only [lumaPlace, hY, Nat.shiftRight_zero]; omega
      roomX := by
        show (lumaPlace e p).x / 4 - f.g.colStart >>> 0 + widthMi e.tx ≤ 1024
        simp only [lumaPlace, hX, Nat.shiftRight_zero]; omega
      roomY := by
        show (lumaPlace e p).y / 4 % (16 >>> 0) + heightMi e.tx ≤ 16
        simp only [lumaPlace, hY, Nat.shiftRight_zero]; omega
      bw := by
        show 4 * max 1 (e.bs.widthMi >>> 0) = 2 ^ e.bs.widthLog2
        have := L.twPos
        rw [lw, Nat.shiftRight_zero]; omega
      bh := by
        show 4 * max 1 (e.bs.heightMi >>> 0) = 2 ^ e.bs.heightLog2
        have := L.thPos
        rw [lh, Nat.shiftRight_zero]; omega
      clippedW := by
        show Coef.clipped C.wInB (C.col0 + (e.col - C.col0 + X)) 0 e.tx.width = min (4 * ((f.g.miCols + 0) >>> 0 - (lumaPlace e p).x / 4)) e.tx.width
        rw [Coef.clipped_eq _ _ _ _ (by omega) (by rw [O.wInB]; exact g2) (by omega), O.wInB]
        simp only [lumaPlace, hX, Nat.shiftRight_zero]
        congr 2; omega
      clippedH := by
        show Coef.clipped C.hInB (C.row0 + (e.row - C.row0 + Y)) 0 e.tx.height = min (4 * ((f.g.miRows + 0) >>> 0 - (lumaPlace e p).y / 4)) e.tx.height
        rw [Coef.clipped_eq _ _ _ _ (by omega) (by rw [O.hInB]; exact g3) (by omega), O.hInB]
        simp only [lumaPlace, hY, Nat.shiftRight_zero]
        congr 2; omega
      inSet := by
        show Av1Spec.Coef.inSet (Spec.logs (px e.tx)) e.inter f.reduced e.ty.idx
        rw [logs_px, O.reduced]; exact t1
      chroma := fun h => absurd h (Nat.lt_irrefl _)
      isInter := fun _ => rfl
      reduced := O.reduced
      mode := fun _ hi => ⟨rfl, H.mode hi⟩
      notWht := t2
      size := L.size
      length := K.length
      small := K.small
      eob := K.eob }

/-- The transform block `i`, `j` of a chroma plane. -/
def chromaPlace (f : Frame) (e : Coded) (uv : Quant.TxSize) (plane : Nat) (p : Nat × Nat) : Place :=
  ⟨plane, (e.col >>> f.subX) * 4 + 4 * (p.1 * widthMi uv), (e.row >>> f.subY) * 4 + 4 * (p.2 * heightMi uv), px uv⟩

/-- The place of a chroma transform block in the tile, along one axis. -/
theorem axis {d z z0 X W : Nat} (hd : d = 0 ∨ d = 1) (hz : z0 ≤ z) (h0 : z0 % 2 = 0) (hW : W = 1 ∨ W % 2 = 0) (hm : W % 2 = 0 → z % 2 = 0)
    (hc : d = 1 → W = 1 → z % 2 = 1) :
    ∃ x, usub (z - z0 + X <<< d) ((if W = 1 then 1 else 0) * d) = some x ∧ x >>> d = z >>> d - z0 >>> d + X ∧ (d = 1 → x % 2 = 0) ∧
      (z0 + x) >>> d = z >>> d + X ∧ z0 + x ≤ z + X <<< d := by
  unfold usub
  rcases hd with rfl | rfl
  · refine ⟨z - z0 + X, by simp, ?_⟩
    simp only [Nat.shiftRight_zero, Nat.shiftLeft_zero]
    exact ⟨trivial, fun h => absurd h (by decide), by omega, by omega⟩
  · simp only [Nat.shiftLeft_eq, Nat.shiftRight_eq_div_pow, Nat.mul_one, Nat.pow_one]
    by_cases h : W = 1
    · have := hc rfl h
      rw [if_pos h, if_pos (by omega)]
      exact ⟨_, rfl, by omega⟩
    · have := hm (by omega)
      rw [if_neg h, if_pos (by omega)]
      exact ⟨_, rfl, by omega⟩

theorem axis_lt {d z z0 x X W Q t : Nat} (hd : d = 0 ∨ d = 1) (h0 : W ≠ 0) (h : z0 + x ≤ z + X <<< d) (hQ : max 1 (W >>> d) = Q) (hX : X + t ≤ Q)
    (ht : 0 < t) : z0 + x < z + W := by
  rcases hd with rfl | rfl
  · simp only [Nat.shiftRight_zero, Nat.shiftLeft_zero] at *; omega
  · simp only [Nat.shiftLeft_eq, Nat.shiftRight_eq_div_pow, Nat.pow_one] at *; omega

theorem half {d z n : Nat} (hd : d = 0 ∨ d = 1) (hz : d = 1 → z % 2 = 0) (hn : n % 2 = 0) : ((z >>> d) * 4 < (n * 4) >>> d) ↔ z < n := by
  rcases hd with rfl | rfl
  · simp only [Nat.shiftRight_zero]; omega
  · have := hz rfl
    simp only [Nat.shiftRight_eq_div_pow, Nat.pow_one]; omega

theorem even_up {d n : Nat} (hd : d = 0 ∨ d = 1) (hn : n % 2 = 0) : (n + d) >>> d = n >>> d := by
  rcases hd with rfl | rfl
  · rfl
  · simp only [Nat.shiftRight_eq_div_pow, Nat.pow_one]; omega

theorem mod_half {d z y : Nat} (hd : d = 0 ∨ d = 1) (hz : z % 16 = 0) : (z + y) >>> d % (16 >>> d) = (y % 16) >>> d := by
  rcases hd with rfl | rfl
  · simp only [Nat.shiftRight_zero]; omega
  · simp only [Nat.shiftRight_eq_div_pow, Nat.pow_one, show 16 / 2 = 8 from rfl]; omega

theorem roomC {d z z0 X W Q t : Nat} (hd : d = 0 ∨ d = 1) (hQ : max 1 (W >>> d) = Q) (hX : X + t ≤ Q) (h : z + W ≤ z0 + 1024) (h1 : 1 ≤ W)
    (h0 : z0 % 16 = 0) (hz : z0 ≤ z) : z >>> d + X - z0 >>> d + t ≤ 1024 := by
  rcases hd with rfl | rfl
  · simp only [Nat.shiftRight_zero] at *; omega
  · simp only [Nat.shiftRight_eq_div_pow, Nat.pow_one] at *; omega

theorem roomD {d z X W Q t : Nat} (hd : d = 0 ∨ d = 1) (hQ : max 1 (W >>> d) = Q) (hX : X + t ≤ Q) (h : z % 16 + W ≤ 16) (h1 : 1 ≤ W) :
    (z >>> d + X) % (16 >>> d) + t ≤ 16 := by
  rcases hd with rfl | rfl
  · simp only [Nat.shiftRight_zero] at *; omega
  · simp only [Nat.shiftRight_eq_div_pow, Nat.pow_one, show 16 / 2 = 8 from rfl] at *; omega

theorem inside_iff {a x n b y m : Nat} : (a + x < n ∧ b + y < m) ↔ ¬ (x ≥ n - a ∨ y ≥ m - b) := by omega

theorem x4_eq {a b c : Nat} (h : c ≤ a) : (a + b) * 4 / 4 - c = a - c + b := by omega

theorem even_add {a b : Nat} (h : a % 16 = 0) (h' : b % 2 = 0) : (a + b) % 2 = 0 := by omega

theorem chroma_fits (O : Cor f C) (P : Placed f.g e) {pb : BlockSize} (hpb : e.bs.subsampled C.xdec C.ydec = some pb)
    (F : ChromaFacts e.bs (C.xdec, C.ydec) pb n) (hc : Coef.hasChroma (e.col - C.col0) (e.row - C.row0) e.bs C.xdec C.ydec C.mono = true)
    {uv : Quant.TxSize} (huv : uv = Coef.codedSize (maxTx pb)) {pl : Nat} (hpl : pl = 1 ∨ pl = 2) {ty : TxType} {mode : Nat}
    {p : Nat × Nat} (h1 : p.1 < pb.widthMi / widthMi uv) (h2 : p.2 < pb.heightMi / heightMi uv) :
    let r := (usub (e.col - C.col0 + ((p.1 * widthMi uv) <<< C.xdec)) ((if e.bs.widthMi = 1 then 1 else 0) * C.xdec)).bind fun tx =>
        (usub (e.row - C.row0 + ((p.2 * heightMi uv) <<< C.ydec)) ((if e.bs.heightMi = 1 then 1 else 0) * C.ydec)).bind fun ty' =>
          encodeTxBlock C e ⟨pl, tx, ty', mode, uv, ty⟩
    (e.skip = true → r = some []) ∧ (f.inFrame (chromaPlace f e uv pl p) = false → r = some []) ∧
    (e.skip = false → f.inFrame (chromaPlace f e uv pl p) = true → ∃ a, r = some [a] ∧ placeOf C a = chromaPlace f e uv pl p ∧
      (CoefOk a → ty ≠ .whtWht → Av1Spec.Coef.inSet (Coef.txOf uv) e.inter C.reduced ty.idx →
        ∀ types, f.chromaType e.hdr (chromaPlace f e uv pl p) types = ty.idx →
        Fits (if C.mono then 1 else 3) a (f.blk e.hdr (chromaPlace f e uv pl p) types))) := by
  intro r
  obtain ⟨-, -, -, mw, mh, lw, lh, -⟩ := maxFacts P.shape
  have L := F.facts
  rw [← huv] at L
  have c1 := cell h1 L.w
  have c2 := cell h2 L.h
  have hd1 : C.xdec = 0 ∨ C.xdec = 1 := by have := O.dec; simp [decs] at this; omega
  have hd2 : C.ydec = 0 ∨ C.ydec = 1 := by have := O.dec; simp [decs] at this; omega
  have hmono : C.mono = false := by
    cases h : C.mono with
    | false => rfl
    | true => rw [h] at hc; exact absurd hc (by simp [Coef.hasChroma])
  have hch : (C.xdec = 1 → e.bs.widthMi = 1 → (e.col - C.col0) % 2 = 1) ∧ (C.ydec = 1 → e.bs.heightMi = 1 → (e.row - C.row0) % 2 = 1) := by
    rw [hmono] at hc
    simp only [Coef.hasChroma, Bool.false_eq_true, if_false, Bool.and_eq_true, Bool.or_eq_true, beq_iff_eq] at hc
    constructor <;> intro a b <;> omega
  have := P.colLo
  have := P.rowLo
  have := O.row0
  have := O.col0
  have g0 := O.geo.col0
  have g1 := O.geo.row0
  have g2 := O.geo.cols
  have g3 := O.geo.rows
  have ow : e.bs.widthMi = 1 ∨ e.bs.widthMi % 2 = 0 := by
    simp only [List.mem_cons, List.not_mem_nil, or_false] at mw; omega
  have oh : e.bs.heightMi = 1 ∨ e.bs.heightMi % 2 = 0 := by
    simp only [List.mem_cons, List.not_mem_nil, or_false] at mh; omega
  have zw : e.bs.widthMi % 2 = 0 → e.col % 2 = 0 := fun h => by
    have := P.colMod
    exact Nat.mod_eq_zero_of_dvd ((Nat.dvd_of_mod_eq_zero h).trans (Nat.dvd_of_mod_eq_zero this))
  have zh : e.bs.heightMi % 2 = 0 → e.row % 2 = 0 := fun h => by
    have := P.rowMod
    exact Nat.mod_eq_zero_of_dvd ((Nat.dvd_of_mod_eq_zero h).trans (Nat.dvd_of_mod_eq_zero this))
  obtain ⟨x, ux, x1, x2, x3, x4⟩ := axis (X := p.1 * widthMi uv) hd1 (z := e.col) (z0 := C.col0) (by omega) (by omega) ow zw (fun a b => by have := hch.1 a b; omega)
  obtain ⟨y, uy, y1, y2, y3, y4⟩ := axis (X := p.2 * heightMi uv) hd2 (z := e.row) (z0 := C.row0) (by omega) (by omega) oh zh (fun a b => by have := hch.2 a b; omega)
  have bx : C.col0 + x < e.col + e.bs.widthMi := axis_lt hd1 (by simp at mw; omega) x4 F.pw c1 L.twPos
  have by' : C.row0 + y < e.row + e.bs.heightMi := axis_lt hd2 (by simp at mh; omega) y4 F.ph c2 L.thPos
  have ex := edge (z := C.col0 + x) mw O.geo.colLe O.geo.colEnd P.colHi P.colMod bx
  have ey := edge (z := C.row0 + y) mh O.geo.rowLe O.geo.rowEnd P.rowHi P.rowMod by'
  have hp1 : 0 < pl := by rcases hpl with h | h <;> rw [h] <;> decide
  have ec0 : C.col0 % 16 = 0 := by rw [O.col0]; exact g0
  have er0 : C.row0 % 16 = 0 := by rw [O.row0]; exact g1
  have pw1 : 1 ≤ e.bs.widthMi := by clear * - mw; simp at mw; omega
  have ph1 : 1 ≤ e.bs.heightMi := by clear * - mh; simp at mh; omega
  have q1 : f.subXOf pl = C.xdec := by rw [Spec.Frame.subXOf, if_pos hp1, O.subX]
  have q2 : f.subYOf pl = C.ydec := by rw [Spec.Frame.subYOf, if_pos hp1, O.subY]
  have px1 : (chromaPlace f e uv pl p).x = ((C.col0 + x) >>> C.xdec) * 4 := by rw [x3]; simp only [chromaPlace, O.subX]; ring
  have py1 : (chromaPlace f e uv pl p).y = ((C.row0 + y) >>> C.ydec) * 4 := by rw [y3]; simp only [chromaPlace, O.subY]; ring
  have hin : f.inFrame (chromaPlace f e uv pl p) = decide (¬ (x ≥ C.cols ∨ y ≥ C.rows)) := by
    unfold Spec.Frame.inFrame
    rw [px1, py1]
    show (decide (_ < (f.g.miCols * 4) >>> f.subXOf pl) && decide (_ < (f.g.miRows * 4) >>> f.subYOf pl)) = _
    rw [q1, q2, ← Bool.decide_and]
    refine decide_eq_decide.2 ?_
    rw [half hd1 (fun h => even_add ec0 (x2 h)) g2, half hd2 (fun h => even_add er0 (y2 h)) g3, ← ex, ← ey, O.cols, O.rows, O.col0, O.row0]
    exact inside_iff
  have hr : r = encodeTxBlock C e ⟨pl, x, y, mode, uv, ty⟩ := by
    show Option.bind _ _ = _
    rw [ux, Option.bind_some, uy, Option.bind_some]
  have hp0 : pl ≠ 0 := Nat.ne_of_gt hp1
  have hr2 : encodeTxBlock C e ⟨pl, x, y, mode, uv, ty⟩ = if x ≥ C.cols ∨ y ≥ C.rows then some [] else if e.skip then some [] else
      some [{ plane := pl, x := x, y := y, coeffs := (e.q pl x y).1, eob := (e.q pl x y).2, mode := mode, tx := uv, ty := ty, pb := pb, xdec := C.xdec,
              ydec := C.ydec, reduced := C.reduced, clippedW := Coef.clipped C.wInB (C.col0 + x) C.xdec uv.width,
              clippedH := Coef.clipped C.hInB (C.row0 + y) C.ydec uv.height }] := by
    unfold encodeTxBlock
    simp only [Cfg.dec, if_neg hp0, hpb, Option.bind_some]
  rw [hr2] at hr
  refine ⟨fun hs => ?_, fun h => ?_, fun hs h => ?_⟩
  · rw [hr, hs]; split_ifs <;> first | rfl | contradiction
  · rw [hin] at h; rw [hr, if_pos (not_not.1 (of_decide_eq_false h))]
  · rw [hin] at h
    have h := of_decide_eq_true h
    rw [hr, if_neg h, hs]
    refine ⟨_, rfl, ?_, fun K t1 t2 types ht => ?_⟩
    · simp only [placeOf]
      rw [← px1, ← py1]
      rfl
    have rx := room1024 mw P.colMod O.geo.col0 P.colHi O.width
    have ry := room mh P.rowMod
    exact {
      plane := rfl
      planes := by show pl < if C.mono then 1 else 3; rw [hmono]; rcases hpl with h | h <;> rw [h] <;> decide
      tx := logs_px uv
      x4 := by
        show (chromaPlace f e uv pl p).x / 4 - f.g.colStart >>> f.subXOf pl = x >>> C.xdec
        rw [px1, q1, x1, x3, O.col0]; exact x4_eq (by rw [Nat.shiftRight_eq_div_pow, Nat.shiftRight_eq_div_pow]; exact Nat.div_le_div_right P.colLo)
      y4 := by
        show (chromaPlace f e uv pl p).y / 4 % (16 >>> f.subYOf pl) = (y % 16) >>> C.ydec
        rw [py1, q2, Nat.mul_div_cancel _ (by decide), O.row0]
        exact mod_half hd2 g1
      roomX := by
        show (chromaPlace f e uv pl p).x / 4 - f.g.colStart >>> f.subXOf pl + widthMi uv ≤ 1024
        rw [px1, q1, x3, Nat.mul_div_cancel _ (by decide)]
        exact roomC hd1 F.pw c1 rx pw1 g0 P.colLo
      roomY := by
        show (chromaPlace f e uv pl p).y / 4 % (16 >>> f.subYOf pl) + heightMi uv ≤ 16
        rw [py1, q2, y3, Nat.mul_div_cancel _ (by decide)]
        exact roomD hd2 F.ph c2 ry ph1
      bw := by
        show 4 * max 1 (e.bs.widthMi >>> f.subXOf pl) = 2 ^ pb.widthLog2
        rw [q1, F.lw, ← F.pw]
      bh := by
        show 4 * max 1 (e.bs.heightMi >>> f.subYOf pl) = 2 ^ pb.heightLog2
        rw [q2, F.lh, ← F.ph]
      clippedW := by
        show Coef.clipped C.wInB (C.col0 + x) C.xdec uv.width =
          min (4 * ((f.g.miCols + f.subXOf pl) >>> f.subXOf pl - (chromaPlace f e uv pl p).x / 4)) uv.width
        rw [Coef.clipped_eq _ _ _ _ (hd1.elim (fun h => by rw [h]; decide) fun h => by rw [h]) (by rw [O.wInB]; exact g2) (fun h => even_add ec0 (x2 h)), O.wInB, px1, q1, Nat.mul_div_cancel _ (by decide),
          even_up hd1 g2]
      clippedH := by
        show Coef.clipped C.hInB (C.row0 + y) C.ydec uv.height =
          min (4 * ((f.g.miRows + f.subYOf pl) >>> f.subYOf pl - (chromaPlace f e uv pl p).y / 4)) uv.height
        rw [Coef.clipped_eq _ _ _ _ (hd2.elim (fun h => by rw [h]; decide) fun h => by rw [h]) (by rw [O.hInB]; exact g3) (fun h => even_add er0 (y2 h)), O.hInB, py1, q2, Nat.mul_div_cancel _ (by decide),
          even_up hd2 g3]
      inSet := by
        show Av1Spec.Coef.inSet (Spec.logs (px uv)) e.inter f.reduced ty.idx
        rw [logs_px, O.reduced]; exact t2
      chroma := fun _ => ht
      isInter := fun h => absurd h hp0
      reduced := O.reduced
      mode := fun h => absurd h hp0
      notWht := t1
      size := L.size
      length := K.length
      small := K.small
      eob := K.eob }

end Rav1e.Resid

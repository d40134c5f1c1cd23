/-!
# Inter prediction in the encoder

`mc.rs` (the Rust functions), the inter prediction of `predict.rs` and `motion_compensate` in `encoder.rs`.  `i32` values are
integers (`runFilter_le` bounds the sums), `i16` values wrap.  A Rust panic and a read or write out of bounds is `none`.
-/

namespace Rav1e.Mc

/-- `SUBPEL_FILTERS`, `mc.rs:110-219`. -/
def subpelFilters : List (List (List Int)) := [
  [[0, 0, 0, 128, 0, 0, 0, 0],
   [0, 2, -6, 126, 8, -2, 0, 0],
   [0, 2, -10, 122, 18, -4, 0, 0],
   [0, 2, -12, 116, 28, -8, 2, 0],
   [0, 2, -14, 110, 38, -10, 2, 0],
   [0, 2, -14, 102, 48, -12, 2, 0],
   [0, 2, -16, 94, 58, -12, 2, 0],
   [0, 2, -14, 84, 66, -12, 2, 0],
   [0, 2, -14, 76, 76, -14, 2, 0],
   [0, 2, -12, 66, 84, -14, 2, 0],
   [0, 2, -12, 58, 94, -16, 2, 0],
   [0, 2, -12, 48, 102, -14, 2, 0],
   [0, 2, -10, 38, 110, -14, 2, 0],
   [0, 2, -8, 28, 116, -12, 2, 0],
   [0, 0, -4, 18, 122, -10, 2, 0],
   [0, 0, -2, 8, 126, -6, 2, 0]],
  [[0, 0, 0, 128, 0, 0, 0, 0],
   [0, 2, 28, 62, 34, 2, 0, 0],
   [0, 0, 26, 62, 36, 4, 0, 0],
   [0, 0, 22, 62, 40, 4, 0, 0],
   [0, 0, 20, 60, 42, 6, 0, 0],
   [0, 0, 18, 58, 44, 8, 0, 0],
   [0, 0, 16, 56, 46, 10, 0, 0],
   [0, -2, 16, 54, 48, 12, 0, 0],
   [0, -2, 14, 52, 52, 14, -2, 0],
   [0, 0, 12, 48, 54, 16, -2, 0],
   [0, 0, 10, 46, 56, 16, 0, 0],
   [0, 0, 8, 44, 58, 18, 0, 0],
   [0, 0, 6, 42, 60, 20, 0, 0],
   [0, 0, 4, 40, 62, 22, 0, 0],
   [0, 0, 4, 36, 62, 26, 0, 0],
   [0, 0, 2, 34, 62, 28, 2, 0]],
  [[0, 0, 0, 128, 0, 0, 0, 0],
   [-2, 2, -6, 126, 8, -2, 2, 0],
   [-2, 6, -12, 124, 16, -6, 4, -2],
   [-2, 8, -18, 120, 26, -10, 6, -2],
   [-4, 10, -22, 116, 38, -14, 6, -2],
   [-4, 10, -22, 108, 48, -18, 8, -2],
   [-4, 10, -24, 100, 60, -20, 8, -2],
   [-4, 10, -24, 90, 70, -22, 10, -2],
   [-4, 12, -24, 80, 80, -24, 12, -4],
   [-2, 10, -22, 70, 90, -24, 10, -4],
   [-2, 8, -20, 60, 100, -24, 10, -4],
   [-2, 8, -18, 48, 108, -22, 10, -4],
   [-2, 6, -14, 38, 116, -22, 10, -4],
   [-2, 6, -10, 26, 120, -18, 8, -2],
   [-2, 4, -6, 16, 124, -12, 6, -2],
   [0, 2, -2, 8, 126, -6, 2, -2]],
  [[0, 0, 0, 128, 0, 0, 0, 0],
   [0, 0, 0, 120, 8, 0, 0, 0],
   [0, 0, 0, 112, 16, 0, 0, 0],
   [0, 0, 0, 104, 24, 0, 0, 0],
   [0, 0, 0, 96, 32, 0, 0, 0],
   [0, 0, 0, 88, 40, 0, 0, 0],
   [0, 0, 0, 80, 48, 0, 0, 0],
   [0, 0, 0, 72, 56, 0, 0, 0],
   [0, 0, 0, 64, 64, 0, 0, 0],
   [0, 0, 0, 56, 72, 0, 0, 0],
   [0, 0, 0, 48, 80, 0, 0, 0],
   [0, 0, 0, 40, 88, 0, 0, 0],
   [0, 0, 0, 32, 96, 0, 0, 0],
   [0, 0, 0, 24, 104, 0, 0, 0],
   [0, 0, 0, 16, 112, 0, 0, 0],
   [0, 0, 0, 8, 120, 0, 0, 0]],
  [[0, 0, 0, 128, 0, 0, 0, 0],
   [0, 0, -4, 126, 8, -2, 0, 0],
   [0, 0, -8, 122, 18, -4, 0, 0],
   [0, 0, -10, 116, 28, -6, 0, 0],
   [0, 0, -12, 110, 38, -8, 0, 0],
   [0, 0, -12, 102, 48, -10, 0, 0],
   [0, 0, -14, 94, 58, -10, 0, 0],
   [0, 0, -12, 84, 66, -10, 0, 0],
   [0, 0, -12, 76, 76, -12, 0, 0],
   [0, 0, -10, 66, 84, -12, 0, 0],
   [0, 0, -10, 58, 94, -14, 0, 0],
   [0, 0, -10, 48, 102, -12, 0, 0],
   [0, 0, -8, 38, 110, -12, 0, 0],
   [0, 0, -6, 28, 116, -10, 0, 0],
   [0, 0, -4, 18, 122, -8, 0, 0],
   [0, 0, -2, 8, 126, -4, 0, 0]],
  [[0, 0, 0, 128, 0, 0, 0, 0],
   [0, 0, 30, 62, 34, 2, 0, 0],
   [0, 0, 26, 62, 36, 4, 0, 0],
   [0, 0, 22, 62, 40, 4, 0, 0],
   [0, 0, 20, 60, 42, 6, 0, 0],
   [0, 0, 18, 58, 44, 8, 0, 0],
   [0, 0, 16, 56, 46, 10, 0, 0],
   [0, 0, 14, 54, 48, 12, 0, 0],
   [0, 0, 12, 52, 52, 12, 0, 0],
   [0, 0, 12, 48, 54, 14, 0, 0],
   [0, 0, 10, 46, 56, 16, 0, 0],
   [0, 0, 8, 44, 58, 18, 0, 0],
   [0, 0, 6, 42, 60, 20, 0, 0],
   [0, 0, 4, 40, 62, 22, 0, 0],
   [0, 0, 4, 36, 62, 26, 0, 0],
   [0, 0, 2, 34, 62, 30, 0, 0]]]

/-- `get_filter`, `mc.rs:238-247`; `mode` is `mode as usize`: 0 regular, 1 smooth, 2 sharp, 3 bilinear. -/
def getFilter (mode frac length : Nat) : Option (List Int) := do
  let idx := if mode = 3 ∨ 4 < length then mode else min mode 1 + 4
  let rows ← subpelFilters[idx]?
  rows[frac]?

/-- `run_filter`, `mc.rs:225-236`: `px i` is the pixel at `src + i * stride`. -/
def runFilter (px : Nat → Option Int) (filter : List Int) : Option Int :=
  (List.range 8).foldlM (fun sum i => (px i).map (fun p => sum + filter.getD i 0 * p)) 0

/-- `round_shift` of `v_frame::math`, used throughout `mc.rs`. -/
def roundShift (v : Int) (bit : Nat) : Int := (v + ((1 <<< bit >>> 1 : Nat) : Int)) >>> bit

/-- `v as i16`. -/
def i16 (v : Int) : Int := (v + 32768) % 65536 - 32768

/-- `.clamp(0, max_sample_val)`, `mc.rs:287`. -/
def clampPx (bd : Nat) (v : Int) : Int := max 0 (min v ((1 <<< bd : Nat) - 1 : Int))

/-! ## Planes -/

/-- A plane of a reference frame with its borders: `Plane` and `PlaneConfig` of `v_frame`, which is not part of the
repository. -/
structure Plane where
  xorigin : Nat
  yorigin : Nat
  stride : Nat
  allocHeight : Nat
  width : Nat
  height : Nat
  xdec : Nat
  ydec : Nat
  data : Nat → Nat

/-- The pixel at column `x` and row `y`, from the top left corner of the picture, as `PlaneSlice` and `run_filter`
(`mc.rs:225-236`) read it; outside of the allocated rows and columns there is none. -/
def Plane.get (p : Plane) (x y : Int) : Option Int :=
  if 0 ≤ x + p.xorigin ∧ x + p.xorigin < p.stride ∧ 0 ≤ y + p.yorigin ∧ y + p.yorigin < p.allocHeight then
    some (p.data ((y + p.yorigin).toNat * p.stride + (x + p.xorigin).toNat))
  else none

/-- `rec_plane.slice(qo).clamp()`, `predict.rs:296`: the corner is moved into the plane. -/
def Plane.clampX (p : Plane) (x : Int) : Int := max (-(p.xorigin : Int)) (min x p.width)
def Plane.clampY (p : Plane) (y : Int) : Int := max (-(p.yorigin : Int)) (min y p.height)

/-! ## Buffers -/

/-- `buf[k] = v`, in bounds if `ok k`. -/
def setK {κ : Type} [DecidableEq κ] (ok : κ → Bool) (buf : κ → Int) (k : κ) (v : Int) : Option (κ → Int) :=
  if ok k then some (fun k' => if k' = k then v else buf k') else none

/-- Two nested loops that write `val r c` to the element `idx r c`. -/
def fill {κ : Type} [DecidableEq κ] (ok : κ → Bool) (idx : Nat → Nat → κ) (val : Nat → Nat → Option Int) (rows cols : Nat)
    (buf : κ → Int) : Option (κ → Int) :=
  (List.range rows).foldlM (fun b r =>
    (List.range cols).foldlM (fun b c => (val r c).bind (fun v => setK ok b (idx r c) v)) b) buf

/-! ## Interpolation -/

/-- The block that is interpolated: `src` starts at column `x` and row `y` of `plane`. -/
structure Src where
  plane : Plane
  x : Int
  y : Int

/-- `src.go_left(dx).go_up(dy)[r][c]`. -/
def Src.px (s : Src) (dx dy : Int) (r c : Nat) : Option Int := s.plane.get (s.x - dx + c) (s.y - dy + r)

/-- `intermediate_bits`, `mc.rs:263` and `372`. -/
def intermediateBits (bd : Nat) : Nat := 4 - if bd = 12 then 2 else 0

/-- The asserts `mc.rs:256-257`, `366-367` and `459-460`. -/
def sizesOk (w h : Nat) : Bool := h % 2 = 0 && [2, 4, 8, 16, 32, 64, 128].contains w

/-- The elements of `intermediate` for one group of 8 columns, `mc.rs:316-328` and `418-430`. -/
def fillIntermediate (s : Src) (xf : List Int) (bd cg w h : Nat) (buf : Nat → Int) : Option (Nat → Int) :=
  fill (fun k => decide (k < 8 * (128 + 7))) (fun r j => 8 * r + j)
    (fun r j => (runFilter (fun i => s.px 3 3 r (cg + j + i)) xf).map (fun v => i16 (roundShift v (7 - intermediateBits bd))))
    (h + 7) (min 8 (w - cg)) buf

/-- `intermediate[8 * r + c - cg..]` as the source of `run_filter` with stride 8, `mc.rs:337-343` and `437-443`. -/
def fromIntermediate (buf : Nat → Int) (r j i : Nat) : Option Int :=
  if 8 * r + j + 8 * i < 8 * (128 + 7) then some (buf (8 * r + j + 8 * i)) else none

/-- `put_8tap`, `mc.rs:250-353`: `dst` is addressed by row and column of the block, in bounds if `ok`. -/
def put8tap {κ : Type} [DecidableEq κ] (ok : κ → Bool) (pos : Nat → Nat → κ) (s : Src) (w h colFrac rowFrac modeX modeY bd : Nat)
    (dst : κ → Int) : Option (κ → Int) := do
  let yf ← getFilter modeY rowFrac h
  let xf ← getFilter modeX colFrac w
  let ib := intermediateBits bd
  if sizesOk w h then
    if colFrac = 0 ∧ rowFrac = 0 then
      fill ok pos (fun r c => s.px 0 0 r c) h w dst
    else if colFrac = 0 then
      fill ok pos (fun r c => (runFilter (fun i => s.px 0 3 (r + i) c) yf).map
        (fun v => clampPx bd (roundShift v 7))) h w dst
    else if rowFrac = 0 then
      fill ok pos (fun r c => (runFilter (fun i => s.px 3 0 r (c + i)) xf).map
        (fun v => clampPx bd (roundShift (roundShift v (7 - ib)) ib))) h w dst
    else do
      let r ← (List.range ((w + 7) / 8)).foldlM (fun (st : (Nat → Int) × (κ → Int)) g => do
        let cg := 8 * g
        let buf ← fillIntermediate s xf bd cg w h st.1
        let dst ← fill ok (fun r j => pos r (cg + j)) (fun r j => (runFilter (fromIntermediate buf r j) yf).map
          (fun v => clampPx bd (roundShift v (7 + ib)))) h (min 8 (w - cg)) st.2
        some (buf, dst)) (fun _ => 0, dst)
      some r.2
  else none

/-- `prep_bias`, `mc.rs:357` and `373`. -/
def prepBias (bd : Nat) : Int := if bd = 8 then 0 else 8192

/-- `prep_8tap`, `mc.rs:360-451`: `tmp` has the `1 << 14` elements of `InterCompoundBuffers`, `predict.rs:433-442`. -/
def prep8tap (s : Src) (w h colFrac rowFrac modeX modeY bd : Nat) (tmp : Nat → Int) : Option (Nat → Int) := do
  let yf ← getFilter modeY rowFrac h
  let xf ← getFilter modeX colFrac w
  let ib := intermediateBits bd
  let ok := fun k => decide (k < 1 <<< 14)
  let pos := fun r c => r * w + c
  if sizesOk w h then
    if colFrac = 0 ∧ rowFrac = 0 then
      fill ok pos (fun r c => (s.px 0 0 r c).map (fun v => i16 (i16 (v * 2 ^ ib) - prepBias bd))) h w tmp
    else if colFrac = 0 then
      fill ok pos (fun r c => (runFilter (fun i => s.px 0 3 (r + i) c) yf).map
        (fun v => i16 (roundShift v (7 - ib) - prepBias bd))) h w tmp
    else if rowFrac = 0 then
      fill ok pos (fun r c => (runFilter (fun i => s.px 3 0 r (c + i)) xf).map
        (fun v => i16 (roundShift v (7 - ib) - prepBias bd))) h w tmp
    else do
      let r ← (List.range ((w + 7) / 8)).foldlM (fun (st : (Nat → Int) × (Nat → Int)) g => do
        let cg := 8 * g
        let buf ← fillIntermediate s xf bd cg w h st.1
        let tmp ← fill ok (fun r j => pos r (cg + j)) (fun r j => (runFilter (fromIntermediate buf r j) yf).map
          (fun v => i16 (roundShift v 7 - prepBias bd))) h (min 8 (w - cg)) st.2
        some (buf, tmp)) (fun _ => 0, tmp)
      some r.2
  else none

/-- `mc_avg`, `mc.rs:454-479`. -/
def mcAvg {κ : Type} [DecidableEq κ] (ok : κ → Bool) (pos : Nat → Nat → κ) (tmp1 tmp2 : Nat → Int) (w h bd : Nat)
    (dst : κ → Int) : Option (κ → Int) :=
  if sizesOk w h then
    fill ok pos (fun r c => some (clampPx bd (roundShift (tmp1 (r * w + c) + tmp2 (r * w + c) + prepBias bd * 2)
      (intermediateBits bd + 1)))) h w dst
  else none

/-! ## Prediction of a block -/

/-- `MotionVector`. -/
structure Mv where
  row : Int
  col : Int

/-- `get_mv_params`, `predict.rs:284-297`: the fractions and the slice. -/
def mvParams (p : Plane) (pox poy : Int) (mv : Mv) : Nat × Nat × Src :=
  let rowOffset := mv.row >>> (3 + p.ydec)
  let colOffset := mv.col >>> (3 + p.xdec)
  let rowFrac := (mv.row * 2 ^ (1 - p.ydec)) % 16
  let colFrac := (mv.col * 2 ^ (1 - p.xdec)) % 16
  (rowFrac.toNat, colFrac.toNat, ⟨p, p.clampX (pox + colOffset - 3) + 3, p.clampY (poy + rowOffset - 3) + 3⟩)

/-- A reference of a block: `RefType` (0 is `INTRA_FRAME`, 8 is `NONE_FRAME`) and motion vector. -/
structure RefMv where
  ref : Nat
  mv : Mv

/-- `ref_frames` and `mvs`. -/
structure Motion where
  a : RefMv
  b : RefMv

/-- What inter prediction of a plane uses of the frame and the tile. -/
structure Env where
  /-- the plane of the picture in the slot of a reference: `fi.rec_buffer.frames[fi.ref_frames[r]]` -/
  refPlane : Nat → Option Plane
  /-- `fi.default_filter`, `fi.sequence.bit_depth` -/
  mode : Nat
  bd : Nat
  /-- `tile_rect`, decimated -/
  tileX : Nat
  tileY : Nat
  tileW : Nat
  tileH : Nat

/-- The pixels of the reconstruction by row and column of the frame. -/
abbrev Rec := Nat × Nat → Int

/-- Is a position in the tile?  `subregion_mut` and its rows, `tiling/plane_region.rs:473-520`. -/
def Env.inTile (e : Env) (k : Nat × Nat) : Bool :=
  e.tileY ≤ k.1 && k.1 < e.tileY + e.tileH && e.tileX ≤ k.2 && k.2 < e.tileX + e.tileW

/-- The position of a pixel of the block at `(pox, poy)` of the tile, `tiling/tile.rs:39-46`. -/
def Env.pos (e : Env) (pox poy r c : Nat) : Nat × Nat := (e.tileY + poy + r, e.tileX + pox + c)

/-- `predict_inter_single`, `predict.rs:304-332`. -/
def predictSingle (e : Env) (pox poy w h : Nat) (m : RefMv) (rec : Rec) : Option Rec :=
  match e.refPlane m.ref with
  | none => some rec
  | some p =>
    let q := mvParams p ((e.tileX + pox : Nat) : Int) ((e.tileY + poy : Nat) : Int) m.mv
    put8tap e.inTile (e.pos pox poy) q.2.2 w h q.2.1 q.1 e.mode e.mode e.bd rec

/-- One pass of `for i in 0..2`, `predict.rs:350-372`: the buffer keeps its contents if there is no picture. -/
def prepRef (e : Env) (pox poy w h : Nat) (m : RefMv) (tmp : Nat → Int) : Option (Nat → Int) :=
  match e.refPlane m.ref with
  | none => some tmp
  | some p =>
    let q := mvParams p ((e.tileX + pox : Nat) : Int) ((e.tileY + poy : Nat) : Int) m.mv
    prep8tap q.2.2 w h q.2.1 q.1 e.mode e.mode e.bd tmp

/-- `predict_inter_compound`, `predict.rs:339-382`; the buffers are shared by all blocks, so their contents are arbitrary. -/
def predictCompound (e : Env) (pox poy w h : Nat) (m : Motion) (tmp1 tmp2 : Nat → Int) (rec : Rec) : Option Rec := do
  let t1 ← prepRef e pox poy w h m.a tmp1
  let t2 ← prepRef e pox poy w h m.b tmp2
  mcAvg e.inTile (e.pos pox poy) t1 t2 w h e.bd rec

/-- `predict_inter`, `predict.rs:386-421`. -/
def predictInter (e : Env) (pox poy w h : Nat) (m : Motion) (tmp1 tmp2 : Nat → Int) (rec : Rec) : Option Rec :=
  if m.b.ref ≠ 0 ∧ m.b.ref ≠ 8 then predictCompound e pox poy w h m tmp1 tmp2 rec
  else predictSingle e pox poy w h m.a rec

/-! ## Motion compensation of a block -/

/-- What `motion_compensate` reads of `cw.bc.blocks`. -/
structure Blk where
  /-- `mode.is_intra()` -/
  intra : Bool
  motion : Motion

/-- `has_chroma`, `context/transform_unit.rs:108-121`, with sizes in units of 4 pixels. -/
def hasChroma (box boy bw bh subX subY : Nat) (mono : Bool) : Bool :=
  if mono then false
  else (box % 2 = 1 || bw % 2 = 0 || subX = 0) && (boy % 2 = 1 || bh % 2 = 0 || subY = 0)

/-- `subsampled_size`, `partition.rs:337-379`, as widths and heights. -/
def subsampledSize (bw bh xdec ydec : Nat) : Option (Nat × Nat) :=
  if xdec = 0 ∧ ydec = 0 then some (bw, bh)
  else if xdec = 1 ∧ ydec = 0 then
    [((4, 4), (4, 4)), ((8, 4), (4, 4)), ((8, 8), (4, 8)), ((16, 4), (8, 4)), ((16, 8), (8, 8)), ((16, 16), (8, 16)),
     ((32, 8), (16, 8)), ((32, 16), (16, 16)), ((32, 32), (16, 32)), ((64, 16), (32, 16)), ((64, 32), (32, 32)),
     ((64, 64), (32, 64)), ((128, 64), (64, 64)), ((128, 128), (64, 128))].lookup (bw, bh)
  else if xdec = 1 ∧ ydec = 1 then
    [((4, 4), (4, 4)), ((4, 8), (4, 4)), ((8, 4), (4, 4)), ((8, 8), (4, 4)), ((4, 16), (4, 8)), ((8, 16), (4, 8)),
     ((8, 32), (4, 16)), ((16, 4), (8, 4)), ((16, 8), (8, 4)), ((16, 16), (8, 8)), ((16, 32), (8, 16)), ((16, 64), (8, 32)),
     ((32, 8), (16, 4)), ((32, 16), (16, 8)), ((32, 32), (16, 16)), ((32, 64), (16, 32)), ((64, 16), (32, 8)),
     ((64, 32), (32, 16)), ((64, 64), (32, 32)), ((64, 128), (32, 64)), ((128, 64), (64, 32)),
     ((128, 128), (64, 64))].lookup (bw, bh)
  else none

/-- `bsize < BlockSize::BLOCK_8X8`, `partition.rs:165-179`: neither side is longer, one is shorter. -/
def ltBlock8x8 (bw bh : Nat) : Bool := bw ≤ 8 && bh ≤ 8 && (bw < 8 || bh < 8)

/-- `some_use_intra`, `encoder.rs:1709-1723`; `blocks row col` in the tile.  Offsets left of or above the tile panic. -/
def someUseIntra (blocks : Nat → Nat → Blk) (box boy bw bh : Nat) : Option Bool := do
  let at_ := fun (dx dy : Nat) => if dx ≤ box ∧ dy ≤ boy then some (blocks (boy - dy) (box - dx)).intra else none
  let a' := if (bw = 4 ∧ bh = 4) ∨ (bw = 4 ∧ bh = 8) then at_ 1 0 else some false
  let a ← a'
  let b' := if (!a ∧ bw = 4 ∧ bh = 4) ∨ (bw = 8 ∧ bh = 4) then at_ 0 1 else some false
  let b ← b'
  let c' := if !(a || b) ∧ bw = 4 ∧ bh = 4 then at_ 1 1 else some false
  let c ← c'
  some (a || b || c)

/-- The motion of a neighbour, `encoder.rs:1742-1749`. -/
def motionAt (blocks : Nat → Nat → Blk) (box boy dx dy : Nat) : Option Motion :=
  if dx ≤ box ∧ dy ≤ boy then some (blocks (boy - dy) (box - dx)).motion else none

/-- The body of the loop over the planes of `motion_compensate`, `encoder.rs:1696-1877`, for plane `p`: `(box, boy)` is the
block in the tile in units of 4 pixels, `(bw, bh)` its size and `m` its motion. `subX` and `subY` are `u_xdec` and `u_ydec`. -/
def compensatePlane (e : Env) (blocks : Nat → Nat → Blk) (p subX subY box boy bw bh : Nat) (m : Motion)
    (tmp1 tmp2 : Nat → Int) (rec : Rec) : Option Rec := do
  let size' := if p = 0 then some (bw, bh) else subsampledSize bw bh subX subY
  let size ← size'
  let xdec := if p = 0 then 0 else subX
  let ydec := if p = 0 then 0 else subY
  let pox := (box >>> xdec) <<< 2
  let poy := (boy >>> ydec) <<< 2
  if p ≠ 0 ∧ ltBlock8x8 bw bh then do
    let intra ← someUseIntra blocks box boy bw bh
    if intra then predictInter e pox poy size.1 size.2 m tmp1 tmp2 rec
    else if subX = 1 ∧ subY = 1 then
      if bw = 4 ∧ bh = 4 then do
        let m0 ← motionAt blocks box boy 1 1
        let m1 ← motionAt blocks box boy 0 1
        let m2 ← motionAt blocks box boy 1 0
        let rec ← predictInter e pox poy 2 2 m0 tmp1 tmp2 rec
        let rec ← predictInter e (pox + 2) poy 2 2 m1 tmp1 tmp2 rec
        let rec ← predictInter e pox (poy + 2) 2 2 m2 tmp1 tmp2 rec
        predictInter e (pox + 2) (poy + 2) 2 2 m tmp1 tmp2 rec
      else if bw = 8 ∧ bh = 4 then do
        let m1 ← motionAt blocks box boy 0 1
        let rec ← predictInter e pox poy 4 2 m1 tmp1 tmp2 rec
        predictInter e pox (poy + 2) 4 2 m tmp1 tmp2 rec
      else if bw = 4 ∧ bh = 8 then do
        let m2 ← motionAt blocks box boy 1 0
        let rec ← predictInter e pox poy 2 4 m2 tmp1 tmp2 rec
        predictInter e (pox + 2) poy 2 4 m tmp1 tmp2 rec
      else some rec
    else none
  else predictInter e pox poy size.1 size.2 m tmp1 tmp2 rec

end Rav1e.Mc

import Verif.Hdr.Bits
import Verif.Tile.Model

/-!
# Headers: model of `header.rs`

Arrays are lists; the theorems require the lengths of the Rust types.  `none` is a panic.
Not modelled (the code says `unimplemented!()` and no configuration reaches it): OBU extensions,
frame ids, decoder model information, super-resolution, unshown key frames, short signaling of
references, global motion other than the identity.
-/

namespace Rav1e.Hdr
open Rav1e.Tile (TilingInfo)

/-- `ChromaSampling` (`v_frame`). -/
inductive Chroma where
  | cs420 | cs422 | cs444 | cs400
deriving Repr, DecidableEq

/-- `ColorDescription`, `api/color.rs:192-199`: the three code points. -/
structure ColorDesc where
  primaries : Nat
  transfer : Nat
  matrix : Nat
deriving Repr, DecidableEq

/-- `ColorDescription::is_srgb_triple`, `api/color.rs:202-206`: BT709 = 1, SRGB = 13,
Identity = 0. -/
def ColorDesc.srgb (c : ColorDesc) : Bool :=
  c.primaries == 1 && c.transfer == 13 && c.matrix == 0

/-- `Sequence`, `encoder.rs:118-199`: the fields that reach the bitstream. -/
structure Seq where
  profile : Nat
  bitDepth : Nat
  chroma : Chroma
  chromaPos : Nat
  fullRange : Bool
  color : Option ColorDesc
  maxWidth : Nat
  maxHeight : Nat
  frameIds : Bool
  use128 : Bool
  orderHintBitsM1 : Nat
  forceSct : Nat
  forceImv : Nat
  still : Bool
  reduced : Bool
  filterIntra : Bool
  intraEdge : Bool
  interintra : Bool
  masked : Bool
  dualFilter : Bool
  orderHint : Bool
  jntComp : Bool
  refFrameMvs : Bool
  warped : Bool
  superres : Bool
  cdef : Bool
  restoration : Bool
  opCntM1 : Nat
  opIdc : Nat
  decModel : Bool
  levelIdx : Nat
  tier : Nat
  filmGrain : Bool
  timing : Bool
  timeNum : Nat
  timeDen : Nat
  tiling : TilingInfo
deriving Repr, DecidableEq

/-- `log_in_base_2`, `context/mod.rs:163-165`. -/
def logBase2 (n : Nat) : Nat := n.log2

/-- `write_max_frame_size`, `header.rs:947-963`, from the dimensions of the frame. -/
def writeMaxFrameSize (width height : Nat) : W :=
  let w := width - 1
  let h := height - 1
  let wb := logBase2 w + 1
  let hb := logBase2 h + 1
  assertW (wb ≤ 16) ⊹ assertW (hb ≤ 16) ⊹
  lit 4 (wb - 1) ⊹ lit 4 (hb - 1) ⊹ lit wb w ⊹ lit hb h

/-- `write_sequence_header`, `header.rs:327-402`. -/
def writeSequenceHeader (s : Seq) (width height : Nat) : W :=
  writeMaxFrameSize width height ⊹
  (if s.reduced then assertW (s.frameIds = false) else bit s.frameIds) ⊹
  -- frame id lengths: not modelled, the flag is a constant
  assertW (s.frameIds = false) ⊹
  bit s.use128 ⊹ bit s.filterIntra ⊹ bit s.intraEdge ⊹
  (if s.reduced then
    assertW (s.interintra = false) ⊹ assertW (s.masked = false) ⊹ assertW (s.warped = false) ⊹
    assertW (s.dualFilter = false) ⊹ assertW (s.orderHint = false) ⊹ assertW (s.jntComp = false) ⊹
    assertW (s.refFrameMvs = false) ⊹ assertW (s.forceSct = 2) ⊹ assertW (s.forceImv = 2)
  else
    bit s.interintra ⊹ bit s.masked ⊹ bit s.warped ⊹ bit s.dualFilter ⊹ bit s.orderHint ⊹
    (if s.orderHint then bit s.jntComp ⊹ bit s.refFrameMvs else W.nil) ⊹
    (if s.forceSct = 2 then bit true else bit false ⊹ bit (s.forceSct != 0)) ⊹
    (if 0 < s.forceSct then
      (if s.forceImv = 2 then bit true else bit false ⊹ bit (s.forceImv != 0))
     else assertW (s.forceImv = 2)) ⊹
    (if s.orderHint then lit 3 s.orderHintBitsM1 else W.nil)) ⊹
  bit s.superres ⊹ bit s.cdef ⊹ bit s.restoration

/-- `write_color_config`, `header.rs:405-459`. -/
def writeColorConfig (s : Seq) : W :=
  let high := decide (8 < s.bitDepth)
  let mono := s.chroma == .cs400
  let srgb := match s.color with | some c => c.srgb | none => false
  bit high ⊹
  (if s.profile = 2 ∧ high then bit (s.bitDepth == 12) else W.nil) ⊹
  (if s.profile = 1 then assertW (mono = false) else bit mono) ⊹
  bit s.color.isSome ⊹
  (match s.color with
    | some c => lit 8 c.primaries ⊹ lit 8 c.transfer ⊹ lit 8 c.matrix
    | none => W.nil) ⊹
  (if mono || !srgb then bit s.fullRange else W.nil) ⊹
  (if mono then W.nil
   else
    (if srgb then assertW (s.fullRange = true) ⊹ assertW (s.chroma = .cs444)
     else
      (if s.profile = 0 then assertW (s.chroma = .cs420)
       else if s.profile = 1 then assertW (s.chroma = .cs444)
       else if s.bitDepth = 12 then
        bit (s.chroma != .cs444) ⊹ (if s.chroma ≠ .cs444 then bit (s.chroma == .cs420) else W.nil)
       else assertW (s.chroma = .cs422)) ⊹
      (if s.chroma = .cs420 then lit 2 s.chromaPos else W.nil)) ⊹
    bit true)

/-- `write_sequence_header_obu`, `header.rs:278-325` (the payload without trailing bits). -/
def writeSequenceHeaderObu (s : Seq) (width height : Nat) : W :=
  assertW (s.reduced = true → s.still = true) ⊹
  lit 3 s.profile ⊹ bit s.still ⊹ bit s.reduced ⊹
  assertW (s.levelIdx ≤ 31) ⊹
  (if s.reduced then
    assertW (s.timing = false) ⊹ assertW (s.decModel = false) ⊹ assertW (s.opCntM1 = 0) ⊹
    assertW (s.opIdc = 0) ⊹ lit 5 s.levelIdx ⊹ assertW (s.tier = 0)
  else
    bit s.timing ⊹
    (if s.timing then
      lit 32 s.timeNum ⊹ lit 32 s.timeDen ⊹ bit true ⊹ bit true ⊹ bit false
     else W.nil) ⊹
    bit false ⊹ lit 5 0 ⊹ lit 12 0 ⊹ lit 5 s.levelIdx ⊹
    (if 7 < s.levelIdx then lit 1 0 else W.nil)) ⊹
  writeSequenceHeader s width height ⊹
  writeColorConfig s ⊹
  bit s.filmGrain

/-- `FrameType`, `api/util.rs:104-113`. -/
inductive FrameType where
  | key | inter | intraOnly | switch
deriving Repr, DecidableEq

def FrameType.code : FrameType → Nat
  | .key => 0
  | .inter => 1
  | .intraOnly => 2
  | .switch => 3

/-- `DeblockState`, `encoder.rs:522-532`. -/
structure Deblock where
  levels : List Nat
  sharpness : Nat
  deltasEnabled : Bool
  deltaUpdates : Bool
  refDeltas : List Int
  modeDeltas : List Int
  blockDeltas : Bool
  blockDeltaShift : Nat
  blockDeltaMulti : Bool
deriving Repr, DecidableEq

/-- `SegmentationState`, `encoder.rs:551-562`: what reaches the header. -/
structure Segm where
  enabled : Bool
  updateData : Bool
  updateMap : Bool
  features : List (List Bool)
  data : List (List Int)
deriving Repr, DecidableEq

/-- `ReferenceFrame`, `encoder.rs:76-89`, with the deblocking state kept next to it in
`ReferenceFramesSet`, `encoder.rs:92-95`. -/
structure RefFrame where
  orderHint : Nat
  width : Nat
  height : Nat
  renderWidth : Nat
  renderHeight : Nat
  segm : Segm
deriving Repr, DecidableEq

/-- `GrainTableSegment` of the crate `av1-grain`. -/
structure Grain where
  seed : Nat
  pointsY : List (Nat × Nat)
  pointsCb : List (Nat × Nat)
  pointsCr : List (Nat × Nat)
  scalingShift : Nat
  arLag : Nat
  arY : List Int
  arCb : List Int
  arCr : List Int
  arShift : Nat
  cbMult : Nat
  cbLumaMult : Nat
  cbOffset : Nat
  crMult : Nat
  crLumaMult : Nat
  crOffset : Nat
  overlap : Bool
  cfl : Bool
  scaleShift : Nat
deriving Repr, DecidableEq

/-- `RestorationPlaneConfig`: type and unit size. -/
structure LrPlane where
  type : Nat
  unitSize : Nat
deriving Repr, DecidableEq

/-- The parts of `FrameInvariants` (`encoder.rs:603-677`) and `FrameState` that reach the
frame header.  `refMode` is `reference_mode != SINGLE`; `grain` is `fi.film_grain_params()`. -/
structure Fi where
  seq : Seq
  width : Nat
  height : Nat
  renderWidth : Nat
  renderHeight : Nat
  sizeOverride : Bool
  renderDifferent : Bool
  sbWidth : Nat
  sbHeight : Nat
  sef : Bool
  orderHint : Nat
  showFrame : Bool
  showable : Bool
  errRes : Bool
  intraOnly : Bool
  allowHp : Bool
  frameType : FrameType
  showIdx : Nat
  reducedTx : Bool
  compound : Bool
  gmIdentity : Bool
  disableCdfUpdate : Bool
  allowSct : Nat
  forceImv : Nat
  primaryRef : Nat
  refresh : Nat
  allowIntrabc : Bool
  useRefMvs : Bool
  filterSwitchable : Bool
  motionSwitchable : Bool
  disableEndUpdate : Bool
  allowWarped : Bool
  cdefDamping : Nat
  cdefBits : Nat
  cdefY : List Nat
  cdefUv : List Nat
  deltaQ : Bool
  refFrames : List Nat
  recFrames : List (Option RefFrame)
  recDeblock : List Deblock
  baseQ : Nat
  dcDelta : List Int
  acDelta : List Int
  txSelect : Bool
  filter : Nat
  enableSegm : Bool
  grain : Option Grain
  ctxTileId : Nat
  tileSizeBytes : Nat
  deblock : Deblock
  segm : Segm
  lr : List LrPlane
  allowedRefs : List Nat
deriving Repr, DecidableEq

/-- Array access: panics outside. -/
def withAt {α : Type} (xs : List α) (i : Nat) (k : α → W) : W :=
  match xs[i]? with
  | some x => k x
  | none => none

/-- `PRIMARY_REF_NONE`, `ALL_REF_FRAMES_MASK`, `header.rs:30-31`. -/
def primaryNone : Nat := 7
def allRefs : Nat := 255

/-- `write_frame_size`, `header.rs:965-984`. -/
def writeFrameSize (fi : Fi) : W :=
  (if fi.sizeOverride then
    let w := fi.width - 1
    let h := fi.height - 1
    let wb := logBase2 w + 1
    let hb := logBase2 h + 1
    assertW (wb ≤ 16) ⊹ assertW (hb ≤ 16) ⊹ lit wb w ⊹ lit hb h
   else W.nil) ⊹ assertW (fi.seq.superres = false)

/-- `write_render_size`, `header.rs:986-995`. -/
def writeRenderSize (fi : Fi) : W :=
  bit fi.renderDifferent ⊹
  (if fi.renderDifferent then lit 16 (fi.renderWidth - 1) ⊹ lit 16 (fi.renderHeight - 1) else W.nil)

/-- The loop of `write_frame_size_with_refs`, `header.rs:997-1025`, over the references still to
be tried. -/
def writeFrameSizeWithRefs (fi : Fi) : List Nat → W
  | [] => writeFrameSize fi ⊹ writeRenderSize fi
  | r :: rs => withAt fi.recFrames r fun slot =>
    match slot with
    | some rec =>
      if rec.width = fi.width ∧ rec.height = fi.height ∧ rec.renderWidth = fi.renderWidth ∧
          rec.renderHeight = fi.renderHeight then
        bit true ⊹ assertW (fi.seq.superres = false)
      else bit false ⊹ writeFrameSizeWithRefs fi rs
    | none => bit false ⊹ writeFrameSizeWithRefs fi rs

/-- The column (row) widths of the explicit tile syntax, `header.rs:698-708` and `718-725`: `limit`
bounds each size, `size` is the regular one.  `this_sb_width - 1` underflows on an empty tile. -/
def writeTileSizes (limit size total : Nat) : (tiles sofar : Nat) → W
  | 0, _ => W.nil
  | n + 1, sofar =>
    let this := min size (total - sofar)
    assertW (0 < this) ⊹ quni (min limit (total - sofar)) (this - 1) ⊹
      writeTileSizes limit size total n (sofar + this)

/-- The widest tile found by the same loop, `header.rs:699, 707`. -/
def widestTile (size total : Nat) : (tiles sofar widest : Nat) → Nat
  | 0, _, widest => widest
  | n + 1, sofar, widest =>
    let this := min size (total - sofar)
    widestTile size total n (sofar + this) (max widest this)

/-- The tile information, `header.rs:662-736`.  The subtractions of `usize` and the division panic
like in the code. -/
def writeTileInfo (fi : Fi) : W :=
  let ti := fi.seq.tiling
  (if Tile.alignShift fi.sbWidth ti.tileColsLog2 = ti.tileWidthSb ∧
      Tile.alignShift fi.sbHeight ti.tileRowsLog2 = ti.tileHeightSb then
    assertW (ti.minTileColsLog2 ≤ ti.tileColsLog2) ⊹ assertW (ti.minTileRowsLog2 ≤ ti.tileRowsLog2) ⊹
    bit true ⊹
    forW (List.range (ti.tileColsLog2 - ti.minTileColsLog2)) (fun _ => bit true) ⊹
    (if ti.tileColsLog2 < ti.maxTileColsLog2 then bit false else W.nil) ⊹
    forW (List.range (ti.tileRowsLog2 - ti.minTileRowsLog2)) (fun _ => bit true) ⊹
    (if ti.tileRowsLog2 < ti.maxTileRowsLog2 then bit false else W.nil)
   else
    let maxWidth := Tile.maxTileWidth / 2 ^ (if fi.seq.use128 then 7 else 6)
    let widest := widestTile ti.tileWidthSb fi.sbWidth ti.cols 0 0
    let area := if 0 < ti.minTilesLog2 then fi.sbHeight * fi.sbWidth / 2 ^ (ti.minTilesLog2 + 1)
      else fi.sbHeight * fi.sbWidth
    let maxHeight := max (area / widest) 1
    assertW (0 < widest) ⊹ bit false ⊹
    writeTileSizes maxWidth ti.tileWidthSb fi.sbWidth ti.cols 0 ⊹
    writeTileSizes maxHeight ti.tileHeightSb fi.sbHeight ti.rows 0) ⊹
  (if 0 < ti.tileColsLog2 + ti.tileRowsLog2 then
    lit (ti.tileColsLog2 + ti.tileRowsLog2) fi.ctxTileId ⊹
    assertW (1 ≤ fi.tileSizeBytes) ⊹ lit 2 (fi.tileSizeBytes - 1)
   else W.nil)

/-- `write_delta_q`, `header.rs:1201-1208`. -/
def writeDeltaQ (d : Int) : W :=
  bit (d != 0) ⊹ (if d ≠ 0 then assertW (-63 ≤ d ∧ d ≤ 63) ⊹ slit 7 d else W.nil)

/-- The quantizer, `header.rs:738-754`. -/
def writeQuant (fi : Fi) : W :=
  withAt fi.dcDelta 0 fun d0 => withAt fi.dcDelta 1 fun d1 => withAt fi.dcDelta 2 fun d2 =>
  withAt fi.acDelta 0 fun a0 => withAt fi.acDelta 1 fun a1 => withAt fi.acDelta 2 fun a2 =>
  assertW (0 < fi.baseQ) ⊹ lit 8 fi.baseQ ⊹ writeDeltaQ d0 ⊹
  (if fi.seq.chroma ≠ .cs400 then
    let diff := d1 != d2 || a1 != a2
    assertW (a0 = 0) ⊹ bit diff ⊹ writeDeltaQ d1 ⊹ writeDeltaQ a1 ⊹
    (if diff then writeDeltaQ d2 ⊹ writeDeltaQ a2 else W.nil)
   else W.nil) ⊹
  bit false

/-- `seg_feature_bits`, `seg_feature_is_signed`, `context/transform_unit.rs:264-268`. -/
def segFeature : List (Nat × Bool) :=
  [(8, true), (6, true), (6, true), (6, true), (6, true), (3, false), (0, false), (0, false)]

/-- One feature of one segment, `header.rs:1184-1193`.  A negative value for an unsigned feature
is an error of `write_var`. -/
def writeSegFeature (x : (Nat × Bool) × Bool × Int) : W :=
  let ((bits, signed), feature, data) := x
  bit feature ⊹
  (if feature then
    (if signed then slit (bits + 1) data else assertW (0 ≤ data) ⊹ lit bits data.toNat)
   else W.nil)

/-- `write_segment_data`, `header.rs:1164-1199`. -/
def writeSegm (fi : Fi) : W :=
  let s := fi.segm
  assertW (fi.enableSegm = s.enabled) ⊹ bit fi.enableSegm ⊹
  (if s.enabled then
    (if fi.primaryRef = primaryNone then
      assertW (s.updateMap = true) ⊹ assertW (s.updateData = true)
     else
      bit s.updateMap ⊹ (if s.updateMap then bit false else W.nil) ⊹ bit s.updateData) ⊹
    (if s.updateData then
      forW (s.features.zip s.data) fun (f, d) => forW (segFeature.zip (f.zip d)) writeSegFeature
     else W.nil)
   else W.nil)

/-- `write_deblock_filter_a`, `header.rs:1027-1040`. -/
def writeDeblockA (fi : Fi) : W :=
  if fi.deltaQ then
    (if !fi.allowIntrabc then bit fi.deblock.blockDeltas else W.nil) ⊹
    (if fi.deblock.blockDeltas then
      lit 2 fi.deblock.blockDeltaShift ⊹ bit fi.deblock.blockDeltaMulti else W.nil)
  else W.nil

/-- One delta: written when it differs from the previous value, `header.rs:1073-1079` and `1088-1094`. -/
def writeDelta (x : Int × Int) : W :=
  let (new, old) := x
  bit (new != old) ⊹ (if new ≠ old then slit 7 new else W.nil)

/-- `write_deblock_filter_b`, `header.rs:1042-1098`. -/
def writeDeblockB (fi : Fi) : W :=
  let d := fi.deblock
  withAt d.levels 0 fun l0 => withAt d.levels 1 fun l1 =>
  withAt d.levels 2 fun l2 => withAt d.levels 3 fun l3 =>
  assertW (l0 < 64) ⊹ lit 6 l0 ⊹ assertW (l1 < 64) ⊹ lit 6 l1 ⊹
  (if fi.seq.chroma ≠ .cs400 ∧ (0 < l0 ∨ 0 < l1) then
    assertW (l2 < 64) ⊹ lit 6 l2 ⊹ assertW (l3 < 64) ⊹ lit 6 l3 else W.nil) ⊹
  lit 3 d.sharpness ⊹ bit d.deltasEnabled ⊹
  (if d.deltasEnabled then
    bit d.deltaUpdates ⊹
    (if d.deltaUpdates then
      (if fi.primaryRef = primaryNone then
        forW (d.refDeltas.zip [1, 0, 0, 0, 0, -1, -1, -1]) writeDelta ⊹
        forW (d.modeDeltas.zip [0, 0]) writeDelta
       else withAt fi.refFrames fi.primaryRef fun r => withAt fi.recDeblock r fun prev =>
        forW (d.refDeltas.zip prev.refDeltas) writeDelta ⊹
        forW (d.modeDeltas.zip prev.modeDeltas) writeDelta)
     else W.nil)
   else W.nil)

/-- `write_frame_cdef`, `header.rs:1100-1119`. -/
def writeCdef (fi : Fi) : W :=
  if fi.seq.cdef && !fi.allowIntrabc then
    assertW (3 ≤ fi.cdefDamping) ⊹ assertW (fi.cdefDamping ≤ 6) ⊹ lit 2 (fi.cdefDamping - 3) ⊹
    assertW (fi.cdefBits < 4) ⊹ lit 2 fi.cdefBits ⊹
    forW (List.range (2 ^ fi.cdefBits)) fun i =>
      withAt fi.cdefY i fun y => withAt fi.cdefUv i fun uv =>
      assertW (y < 64) ⊹ assertW (uv < 64) ⊹ lit 6 y ⊹
      (if fi.seq.chroma ≠ .cs400 then lit 6 uv else W.nil)
  else W.nil

/-- `write_frame_lrf`, `header.rs:1121-1162`. -/
def writeLrf (fi : Fi) : W :=
  if fi.seq.restoration && !fi.allowIntrabc then
    withAt fi.lr 0 fun p0 => withAt fi.lr 1 fun p1 => withAt fi.lr 2 fun p2 =>
    let mono := fi.seq.chroma == .cs400
    let useChroma := !mono && (p1.type != 0 || p2.type != 0)
    let use := p0.type != 0 || useChroma
    lit 2 p0.type ⊹ (if mono then W.nil else lit 2 p1.type ⊹ lit 2 p2.type) ⊹
    (if use then
      (if fi.seq.use128 then W.nil else lit 1 (decide (64 < p0.unitSize)).toNat) ⊹
      (if 64 < p0.unitSize then lit 1 (decide (128 < p0.unitSize)).toNat else W.nil) ⊹
      (if useChroma && fi.seq.chroma == .cs420 then lit 1 (decide (p1.unitSize < p0.unitSize)).toNat
       else W.nil)
     else W.nil)
  else W.nil

/-- `Sequence::get_relative_dist`, `encoder.rs:333-337`, in `i32` arithmetic. -/
def relDist (s : Seq) (a b : Nat) : Int :=
  let diff : Int := a - b
  let m : Int := 2 ^ s.orderHintBitsM1
  diff % m - m * (diff / m % 2)

/-- First loop of `get_skip_mode_allowed`, `encoder.rs:352-373`: the hints of the nearest forward
reference and of a backward one. -/
def skipScan (fi : Fi) : List Nat → Option Nat × Option Nat → Option (Option Nat × Option Nat)
  | [], acc => some acc
  | i :: is, (fwd, bwd) =>
    match fi.refFrames[i]? with
    | none => none
    | some r => match fi.recFrames[r]? with
      | none => none
      | some none => skipScan fi is (fwd, bwd)
      | some (some rec) =>
        let h := rec.orderHint
        if relDist fi.seq h fi.orderHint < 0 then
          let better := match fwd with | none => true | some f => decide (0 < relDist fi.seq h f)
          skipScan fi is (if better then some h else fwd, bwd)
        else if 0 < relDist fi.seq h fi.orderHint then
          let better := match bwd with | none => true | some b => decide (0 < relDist fi.seq h b)
          skipScan fi is (fwd, if better then some h else bwd)
        else skipScan fi is (fwd, bwd)

/-- Second loop, `encoder.rs:382-395`. -/
def skipScan2 (fi : Fi) (fwd : Nat) : List Nat → Option Nat → Option (Option Nat)
  | [], acc => some acc
  | i :: is, snd =>
    match fi.refFrames[i]? with
    | none => none
    | some r => match fi.recFrames[r]? with
      | none => none
      | some none => skipScan2 fi fwd is snd
      | some (some rec) =>
        let h := rec.orderHint
        let better := decide (relDist fi.seq h fwd < 0) &&
          match snd with | none => true | some s => decide (0 < relDist fi.seq h s)
        skipScan2 fi fwd is (if better then some h else snd)

/-- `Sequence::get_skip_mode_allowed`, `encoder.rs:339-400`. -/
def skipModeAllowed (fi : Fi) (referenceSelect : Bool) : Option Bool :=
  if fi.intraOnly || !referenceSelect || !fi.seq.orderHint then some false
  else match skipScan fi fi.allowedRefs (none, none) with
    | none => none
    | some (none, _) => some false
    | some (some _, some _) => some true
    | some (some f, none) => match skipScan2 fi f fi.allowedRefs none with
      | none => none
      | some s => some s.isSome

/-- The film grain parameters, `header.rs:839-931`. -/
def writeGrain (fi : Fi) (g : Grain) : W :=
  let mono := fi.seq.chroma == .cs400
  let cfl := if mono then false else g.cfl
  let point := fun (p : Nat × Nat) => lit 8 p.1 ⊹ lit 8 p.2
  -- `(x as i16 + 128) as u8`
  let coeff := fun (x : Int) => lit 8 ((x + 128) % 256).toNat
  let coeffs := fun (xs : List Int) n => forW (List.range n) fun i => withAt xs i coeff
  let numLuma := 2 * g.arLag * (g.arLag + 1)
  let numChroma := if g.pointsY ≠ [] then numLuma + 1 else numLuma
  bit true ⊹ lit 16 g.seed ⊹
  (if fi.frameType = .inter then bit true else W.nil) ⊹
  lit 4 g.pointsY.length ⊹ forW g.pointsY point ⊹
  (if mono then W.nil else bit g.cfl) ⊹
  (if mono || cfl || (fi.seq.chroma == .cs420 && g.pointsY.isEmpty) then W.nil
   else
    lit 4 g.pointsCb.length ⊹ forW g.pointsCb point ⊹
    lit 4 g.pointsCr.length ⊹ forW g.pointsCr point) ⊹
  assertW (8 ≤ g.scalingShift) ⊹ lit 2 (g.scalingShift - 8) ⊹ lit 2 g.arLag ⊹
  (if g.pointsY ≠ [] then coeffs g.arY numLuma else W.nil) ⊹
  (if cfl || !g.pointsCb.isEmpty then coeffs g.arCb numChroma else W.nil) ⊹
  (if cfl || !g.pointsCr.isEmpty then coeffs g.arCr numChroma else W.nil) ⊹
  assertW (6 ≤ g.arShift) ⊹ lit 2 (g.arShift - 6) ⊹ lit 2 g.scaleShift ⊹
  (if g.pointsCb ≠ [] then lit 8 g.cbMult ⊹ lit 8 g.cbLumaMult ⊹ lit 9 g.cbOffset else W.nil) ⊹
  (if g.pointsCr ≠ [] then lit 8 g.crMult ⊹ lit 8 g.crLumaMult ⊹ lit 9 g.crOffset else W.nil) ⊹
  bit g.overlap ⊹ bit (!fi.seq.fullRange)

/-- First part of `write_frame_header_obu` for a coded frame, `header.rs:466-602`: type, flags,
order hint, refresh flags. -/
def writeFrameStart (fi : Fi) : W :=
  let s := fi.seq
  (if s.reduced then
    assertW (fi.sef = false) ⊹ assertW (fi.frameType = .key) ⊹ assertW (fi.showFrame = true) ⊹ assertW (fi.showable = false)
   else
    assertW (fi.sef = false) ⊹ bit fi.sef ⊹ lit 2 fi.frameType.code ⊹ bit fi.showFrame ⊹
    (if fi.showFrame then W.nil else bit fi.showable) ⊹
    (if fi.errRes then assertW (fi.primaryRef = primaryNone) else W.nil) ⊹
    (if fi.frameType = .switch then assertW (fi.errRes = true)
     else if fi.frameType = .key ∧ fi.showFrame then W.nil else bit fi.errRes)) ⊹
  bit fi.disableCdfUpdate ⊹
  (if s.forceSct = 2 then bit (fi.allowSct != 0) else assertW (fi.allowSct = s.forceSct)) ⊹
  (if 0 < fi.allowSct then
    (if s.forceImv = 2 then bit (fi.forceImv != 0) else assertW (fi.forceImv = s.forceImv))
   else W.nil) ⊹
  assertW (fi.forceImv = (decide (fi.frameType = .key) || fi.intraOnly).toNat) ⊹
  assertW (s.frameIds = false) ⊹
  (if fi.frameType ≠ .switch ∧ s.reduced = false then bit fi.sizeOverride else W.nil) ⊹
  (if s.orderHint then lit (s.orderHintBitsM1 + 1) (fi.orderHint % 2 ^ (s.orderHintBitsM1 + 1))
   else W.nil) ⊹
  (if !fi.errRes && !fi.intraOnly then lit 3 fi.primaryRef else W.nil) ⊹
  assertW (s.decModel = false) ⊹
  (if fi.frameType = .key then
    -- unshown key frames are unimplemented
    assertW (fi.showFrame = true) ⊹ assertW (fi.refresh = allRefs)
   else if fi.frameType = .switch then assertW (fi.refresh = allRefs)
   else assertW (fi.intraOnly = true → fi.refresh ≠ allRefs) ⊹ lit 8 fi.refresh) ⊹
  (if (!fi.intraOnly || fi.refresh != allRefs) && (fi.errRes && s.orderHint) then
    forW fi.recFrames fun r => match r with
      | some rec => lit (s.orderHintBitsM1 + 1) (rec.orderHint % 2 ^ (s.orderHintBitsM1 + 1))
      | none => lit (s.orderHintBitsM1 + 1) 0
   else W.nil)

/-- Sizes and references, `header.rs:604-660`. -/
def writeSizeRefs (fi : Fi) : W :=
  let s := fi.seq
  (if fi.intraOnly then
    writeFrameSize fi ⊹ writeRenderSize fi ⊹
    (if fi.allowSct ≠ 0 then bit fi.allowIntrabc else W.nil)
   else W.nil) ⊹
  (if fi.frameType = .key ∨ fi.intraOnly then W.nil
   else
    (if s.orderHint then bit false else W.nil) ⊹
    forW fi.refFrames (lit 3) ⊹
    (if !fi.errRes && fi.sizeOverride then writeFrameSizeWithRefs fi fi.refFrames
     else writeFrameSize fi ⊹ writeRenderSize fi) ⊹
    (if fi.forceImv = 0 then bit fi.allowHp else W.nil) ⊹
    bit fi.filterSwitchable ⊹ (if fi.filterSwitchable then W.nil else lit 2 fi.filter) ⊹
    bit fi.motionSwitchable ⊹
    (if !fi.errRes && s.refFrameMvs then bit fi.useRefMvs else W.nil)) ⊹
  (if s.reduced || fi.disableCdfUpdate then assertW (fi.disableEndUpdate = true)
   else bit fi.disableEndUpdate)

/-- Transform mode, reference mode, skip mode, warping, transform set, global motion,
`header.rs:776-837`. -/
def writeModes (fi : Fi) : W :=
  let select := !fi.intraOnly && fi.compound
  bit fi.txSelect ⊹
  (if fi.intraOnly then W.nil else bit fi.compound) ⊹
  (match skipModeAllowed fi select with
    | none => none
    | some true => bit false
    | some false => W.nil) ⊹
  (if fi.intraOnly || fi.errRes || !fi.seq.warped then W.nil else bit fi.allowWarped) ⊹
  bit fi.reducedTx ⊹
  (if fi.intraOnly then W.nil
   else assertW (fi.gmIdentity = true) ⊹ forW (List.range 7) fun _ => bit false)

/-- `header.rs:839-840, 932-936`. -/
def writeGrainOpt (fi : Fi) : W :=
  if fi.seq.filmGrain then
    match fi.grain with
    | some g => writeGrain fi g
    | none => bit false
  else W.nil

/-- `write_frame_header_obu` of a coded frame before `byte_align`, `header.rs:462-944`. -/
def writeFrameHeader (fi : Fi) : W :=
  writeFrameStart fi ⊹ writeSizeRefs fi ⊹ writeTileInfo fi ⊹ writeQuant fi ⊹ writeSegm fi ⊹
  bit false ⊹ writeDeblockA fi ⊹ writeDeblockB fi ⊹ writeCdef fi ⊹ writeLrf fi ⊹ writeModes fi ⊹
  writeGrainOpt fi

/-- `write_frame_header_obu` of a show-existing frame, `header.rs:472-490`, up to the trailing
bit. -/
def writeShowExisting (s : Seq) (sef : Bool) (idx : Nat) : W :=
  assertW (s.reduced = false) ⊹ assertW (sef = true) ⊹ bit sef ⊹ lit 3 idx

end Rav1e.Hdr

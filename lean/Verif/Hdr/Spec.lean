import Verif.Hdr.Bits
import Verif.Tile.Spec

/-!
# Headers: what a decoder parses (AV1 specification 5.5, 5.9)

A transcription of the syntax tables, with the decoder's own state: the sequence header it parsed
earlier and its eight reference slots.  Nothing here refers to the rav1e model.  Syntax that is
`unsupported` is rejected: frame ids, decoder model information, display delays, 128x128
superblocks, super-resolution, short reference signaling, quantizer matrices, coded global motion,
reuse of film grain parameters.
-/

namespace Av1Spec
open Av1Spec.Parser
open Rav1e.Tile.Spec (minLog2TileCols maxLog2TileCols maxLog2TileRows minLog2Tiles uniformStarts
  maxTileHeightSb maxTileWidthSb sbs tileLog2)

/-- `if (c) p`, with the value the specification gives the element otherwise. -/
def Parser.opt {α : Type} (c : Bool) (p : Parser α) (d : α) : Parser α := if c then p else pure d

/-- Give up if `c` holds. -/
def Parser.rejectIf (c : Bool) : Parser Unit := if c then unsupported else pure ()

/-! ## Sequence header -/

structure SeqHdr where
  profile : Nat
  still : Bool
  reduced : Bool
  /-- `num_units_in_display_tick`, `time_scale`, `num_ticks_per_picture_minus_1` if present -/
  timing : Option (Nat × Nat × Option Nat)
  /-- `operating_point_idc`, `seq_level_idx`, `seq_tier` of each operating point -/
  ops : List (Nat × Nat × Nat)
  widthBits : Nat
  heightBits : Nat
  maxWidth : Nat
  maxHeight : Nat
  use128 : Bool
  filterIntra : Bool
  intraEdge : Bool
  interintra : Bool
  masked : Bool
  warped : Bool
  dualFilter : Bool
  orderHint : Bool
  jntComp : Bool
  refFrameMvs : Bool
  forceSct : Nat
  forceImv : Nat
  /-- `OrderHintBits` -/
  orderHintBits : Nat
  superres : Bool
  cdef : Bool
  restoration : Bool
  bitDepth : Nat
  mono : Bool
  primaries : Nat
  transfer : Nat
  matrix : Nat
  fullRange : Bool
  subX : Bool
  subY : Bool
  chromaPos : Nat
  separateUv : Bool
  filmGrain : Bool
deriving Repr, DecidableEq

/-- The leading zeros of `uvlc()` (4.10.3); the parser gives up after `fuel` of them. -/
def uvlcZeros : (fuel : Nat) → Parser Nat
  | 0 => unsupported
  | n + 1 => do
    let b ← flag
    (if b then pure 0 else do
      let k ← uvlcZeros n
      pure (k + 1))

/-- `uvlc()` (4.10.3). -/
def uvlc : Parser Nat := do
  let z ← uvlcZeros 32
  let v ← f z
  pure (v + 2 ^ z - 1)

/-- `timing_info()` (5.5.3). -/
def timingInfo : Parser (Nat × Nat × Option Nat) := do
  let num ← f 32
  let scale ← f 32
  let equal ← flag
  let ticks ← opt equal (do let t ← uvlc; pure (some t)) none
  pure (num, scale, ticks)

/-- One operating point of 5.5.1 without decoder model and display delay. -/
def operatingPoint : Parser (Nat × Nat × Nat) := do
  let idc ← f 12
  let level ← f 5
  let tier ← opt (decide (7 < level)) (f 1) 0
  pure (idc, level, tier)

/-- The first part of `sequence_header_obu()` (5.5.1) after `reduced_still_picture_header`. -/
def seqOps (reduced : Bool) : Parser (Option (Nat × Nat × Option Nat) × List (Nat × Nat × Nat)) :=
  if reduced then do
    let level ← f 5
    pure (none, [(0, level, 0)])
  else do
    let present ← flag
    let timing ← opt present (do
      let t ← timingInfo
      let model ← flag
      rejectIf model
      pure (some t)) none
    let delay ← flag
    rejectIf delay
    let cnt ← f 5
    let ops ← times (cnt + 1) operatingPoint
    pure (timing, ops)

structure SeqTools where
  interintra : Bool
  masked : Bool
  warped : Bool
  dualFilter : Bool
  orderHint : Bool
  jntComp : Bool
  refFrameMvs : Bool
  forceSct : Nat
  forceImv : Nat
  orderHintBits : Nat
deriving Repr, DecidableEq

/-- The inter tools of 5.5.1; `SELECT_SCREEN_CONTENT_TOOLS` and `SELECT_INTEGER_MV` are 2. -/
def seqTools (reduced : Bool) : Parser SeqTools :=
  if reduced then
    pure ⟨false, false, false, false, false, false, false, 2, 2, 0⟩
  else do
    let interintra ← flag
    let masked ← flag
    let warped ← flag
    let dual ← flag
    let oh ← flag
    let jnt ← opt oh flag false
    let mvs ← opt oh flag false
    let chooseSct ← flag
    let sct ← opt (!chooseSct) (f 1) 2
    let chooseImv ← opt (decide (0 < sct)) flag true
    let imv ← opt (!chooseImv) (f 1) 2
    let bits ← opt oh (do let b ← f 3; pure (b + 1)) 0
    pure ⟨interintra, masked, warped, dual, oh, jnt, mvs, sct, imv, bits⟩

structure Color where
  bitDepth : Nat
  mono : Bool
  primaries : Nat
  transfer : Nat
  matrix : Nat
  fullRange : Bool
  subX : Bool
  subY : Bool
  chromaPos : Nat
  separateUv : Bool
deriving Repr, DecidableEq

/-- `BitDepth` of 5.5.2. -/
def bitDepthOf (profile : Nat) (high twelve : Bool) : Nat :=
  if profile = 2 ∧ high then (if twelve then 12 else 10) else if high then 10 else 8

/-- The subsampling of 5.5.2 for pictures with chroma that are not sRGB. -/
def subsampling (profile bitDepth : Nat) : Parser (Bool × Bool) :=
  if profile = 0 then pure (true, true)
  else if profile = 1 then pure (false, false)
  else if bitDepth = 12 then do
    let x ← flag
    let y ← opt x flag false
    pure (x, y)
  else pure (true, false)

/-- The end of `color_config()` (5.5.2).  `CP_BT_709 = 1`, `TC_SRGB = 13`, `MC_IDENTITY = 0`. -/
def colorTail (profile bd : Nat) (mono : Bool) (cp tc mc : Nat) : Parser Color :=
  if mono then do
    let range ← flag
    pure ⟨bd, true, cp, tc, mc, range, true, true, 0, false⟩
  else if cp = 1 ∧ tc = 13 ∧ mc = 0 then do
    let sep ← flag
    pure ⟨bd, false, cp, tc, mc, true, false, false, 0, sep⟩
  else do
    let range ← flag
    let (x, y) ← subsampling profile bd
    let pos ← opt (x && y) (f 2) 0
    let sep ← flag
    pure ⟨bd, false, cp, tc, mc, range, x, y, pos, sep⟩

/-- `color_config()` (5.5.2) after the bit depth; the unspecified colour code is 2. -/
def colorRest (profile bd : Nat) : Parser Color := do
  let mono ← opt (decide (profile ≠ 1)) flag false
  let desc ← flag
  let cp ← opt desc (f 8) 2
  let tc ← opt desc (f 8) 2
  let mc ← opt desc (f 8) 2
  colorTail profile bd mono cp tc mc

/-- `color_config()` (5.5.2). -/
def colorConfig (profile : Nat) : Parser Color := do
  let high ← flag
  let twelve ← opt (decide (profile = 2) && high) flag false
  colorRest profile (bitDepthOf profile high twelve)

/-- `sequence_header_obu()` (5.5.1). -/
def sequenceHeader : Parser SeqHdr := do
  let profile ← f 3
  let still ← flag
  let reduced ← flag
  let (timing, ops) ← seqOps reduced
  let wb ← f 4
  let hb ← f 4
  let w ← f (wb + 1)
  let h ← f (hb + 1)
  let ids ← opt (!reduced) flag false
  rejectIf ids
  let use128 ← flag
  let filterIntra ← flag
  let intraEdge ← flag
  let t ← seqTools reduced
  let superres ← flag
  let cdef ← flag
  let restoration ← flag
  let c ← colorConfig profile
  let grain ← flag
  pure { profile, still, reduced, timing, ops, widthBits := wb + 1, heightBits := hb + 1,
         maxWidth := w + 1, maxHeight := h + 1, use128, filterIntra, intraEdge,
         interintra := t.interintra, masked := t.masked, warped := t.warped,
         dualFilter := t.dualFilter, orderHint := t.orderHint, jntComp := t.jntComp,
         refFrameMvs := t.refFrameMvs, forceSct := t.forceSct, forceImv := t.forceImv,
         orderHintBits := t.orderHintBits, superres, cdef, restoration,
         bitDepth := c.bitDepth, mono := c.mono, primaries := c.primaries,
         transfer := c.transfer, matrix := c.matrix, fullRange := c.fullRange,
         subX := c.subX, subY := c.subY, chromaPos := c.chromaPos, separateUv := c.separateUv,
         filmGrain := grain }

/-! ## Frame header -/

/-- `FeatureEnabled` and `FeatureData`. -/
structure SegData where
  enabled : List (List Bool)
  data : List (List Int)
deriving Repr, DecidableEq

/-- What a reference slot keeps of a frame (7.20). -/
structure Slot where
  orderHint : Nat
  width : Nat
  height : Nat
  renderWidth : Nat
  renderHeight : Nat
  refDeltas : List Int
  modeDeltas : List Int
  seg : SegData
deriving Repr, DecidableEq

/-- The state of a decoder before a frame header. -/
structure Ctx where
  seq : SeqHdr
  slots : Nat → Option Slot

/-- A slot the frame needs; a decoder cannot use an empty one. -/
def Ctx.slot (c : Ctx) (i : Nat) : Parser Slot := match c.slots i with
  | some s => pure s
  | none => unsupported

inductive FType where
  | key | inter | intraOnly | switch
deriving Repr, DecidableEq

def FType.ofCode : Nat → FType
  | 0 => .key
  | 1 => .inter
  | 2 => .intraOnly
  | _ => .switch

/-- `FrameIsIntra`. -/
def FType.intra : FType → Bool
  | .key => true
  | .intraOnly => true
  | _ => false

structure Start where
  type : FType
  showFrame : Bool
  showable : Bool
  errRes : Bool
  disableCdfUpdate : Bool
  allowSct : Bool
  forceImv : Bool
  sizeOverride : Bool
  orderHint : Nat
  primaryRef : Nat
  refresh : Nat
deriving Repr, DecidableEq

/-- Type and visibility, 5.9.2 after `show_existing_frame`. -/
def frameKind (s : SeqHdr) : Parser (FType × Bool × Bool × Bool) :=
  if s.reduced then pure (.key, true, false, true)
  else do
    let code ← f 2
    let type := FType.ofCode code
    let shown ← flag
    let showable ← opt (!shown) flag (decide (type ≠ .key))
    let err ← opt (!(decide (type = .switch) || (decide (type = .key) && shown))) flag true
    pure (type, shown, showable, err)

/-- 5.9.2 up to the frame size.  `ref_order_hint[i]` different from the decoder's own value tells
it that a reference is missing: such a header is rejected here. -/
def frameStart (c : Ctx) : Parser Start := do
  let s := c.seq
  let (type, shown, showable, err) ← frameKind s
  let noCdf ← flag
  let sct ← opt (decide (s.forceSct = 2)) (f 1) s.forceSct
  let imv ← opt (decide (0 < sct)) (opt (decide (s.forceImv = 2)) (f 1) s.forceImv) 0
  let imv := if type.intra then 1 else imv
  let override ← opt (!(decide (type = .switch) || s.reduced)) flag (decide (type = .switch))
  let hint ← f s.orderHintBits
  let primary ← opt (!(type.intra || err)) (f 3) 7
  let refresh ← opt (!(decide (type = .switch) || (decide (type = .key) && shown))) (f 8) 255
  let _ ← opt ((!type.intra || decide (refresh ≠ 255)) && (err && s.orderHint))
    (each (fun i => do
      let h ← f s.orderHintBits
      let slot ← c.slot i
      rejectIf (decide (h ≠ slot.orderHint))) (List.range 8)) []
  pure ⟨type, shown, showable, err, noCdf, decide (0 < sct), decide (0 < imv), override, hint,
    primary, refresh⟩

structure Size where
  width : Nat
  height : Nat
  renderWidth : Nat
  renderHeight : Nat
deriving Repr, DecidableEq

/-- `frame_size()` (5.9.5) without super-resolution. -/
def frameSize (s : SeqHdr) (override : Bool) : Parser (Nat × Nat) := do
  let w ← opt override (do let v ← f s.widthBits; pure (v + 1)) s.maxWidth
  let h ← opt override (do let v ← f s.heightBits; pure (v + 1)) s.maxHeight
  rejectIf s.superres
  pure (w, h)

/-- `render_size()` (5.9.6). -/
def renderSize (w h : Nat) : Parser Size := do
  let different ← flag
  (if different then do
    let rw ← f 16
    let rh ← f 16
    pure ⟨w, h, rw + 1, rh + 1⟩
  else pure ⟨w, h, w, h⟩)

/-- `frame_size()` then `render_size()`. -/
def fullSize (s : SeqHdr) (override : Bool) : Parser Size := do
  let (w, h) ← frameSize s override
  renderSize w h

/-- `frame_size_with_refs()` (5.9.7). -/
def sizeWithRefs (c : Ctx) (override : Bool) : List Nat → Parser Size
  | [] => fullSize c.seq override
  | r :: rs => do
    let found ← flag
    (if found then do
      rejectIf c.seq.superres
      let slot ← c.slot r
      pure ⟨slot.width, slot.height, slot.renderWidth, slot.renderHeight⟩
    else sizeWithRefs c override rs)

structure Refs where
  size : Size
  intrabc : Bool
  refIdx : List Nat
  allowHp : Bool
  /-- 4 is `SWITCHABLE` -/
  filter : Nat
  motionSwitchable : Bool
  useRefMvs : Bool
  disableEndUpdate : Bool
deriving Repr, DecidableEq

/-- The middle of 5.9.2: sizes and references. -/
def frameRefs (c : Ctx) (st : Start) : Parser Refs :=
  let s := c.seq
  let endUpdate := opt (!(s.reduced || st.disableCdfUpdate)) flag true
  if st.type.intra then do
    let size ← fullSize s st.sizeOverride
    let intrabc ← opt st.allowSct flag false
    let noEnd ← endUpdate
    pure ⟨size, intrabc, [], false, 0, false, false, noEnd⟩
  else do
    let short ← opt s.orderHint flag false
    rejectIf short
    let idx ← times 7 (f 3)
    let size ← (if st.sizeOverride && !st.errRes then sizeWithRefs c st.sizeOverride idx
      else fullSize s st.sizeOverride)
    let hp ← opt (!st.forceImv) flag false
    let switchable ← flag
    let filter ← opt (!switchable) (f 2) 4
    let motion ← flag
    let mvs ← opt (!(st.errRes || !s.refFrameMvs)) flag false
    let noEnd ← endUpdate
    pure ⟨size, false, idx, hp, filter, motion, mvs, noEnd⟩

structure TileHdr where
  colStarts : List Nat
  rowStarts : List Nat
  colsLog2 : Nat
  rowsLog2 : Nat
  ctxTileId : Nat
  sizeBytes : Nat
deriving Repr, DecidableEq

/-- `increment_tile_cols_log2`: at most `fuel = max - min` ones. -/
def increments : (fuel : Nat) → Nat → Parser Nat
  | 0, k => pure k
  | n + 1, k => do
    let b ← flag
    (if b then increments n (k + 1) else pure k)

/-- The explicit sizes of 5.9.15; `fuel` is the number of superblocks. -/
def explicitSizes (maxSize total : Nat) : (fuel start : Nat) → Parser (List Nat)
  | 0, _ => pure []
  | n + 1, start =>
    if start < total then do
      let m ← ns (min (total - start) maxSize)
      let rest ← explicitSizes maxSize total n (start + (m + 1))
      pure ((m + 1) :: rest)
    else pure []

/-- Start positions from sizes. -/
def startsOf (start : Nat) : List Nat → List Nat
  | [] => []
  | n :: ns => start :: startsOf (start + n) ns

/-- The largest size. -/
def widest (sizes : List Nat) : Nat := sizes.foldl max 0

/-- `tile_info()` (5.9.15) for 64x64 superblocks. -/
def tileInfo (s : SeqHdr) (w h : Nat) : Parser TileHdr := do
  rejectIf s.use128
  let uniform ← flag
  let (cols, rows, cl, rl) ← (if uniform then do
    let cl ← increments (maxLog2TileCols w - minLog2TileCols w) (minLog2TileCols w)
    let minRows := minLog2Tiles w h - cl
    let rl ← increments (maxLog2TileRows h - minRows) minRows
    pure (uniformStarts (sbs w) cl, uniformStarts (sbs h) rl, cl, rl)
  else do
    let ws ← explicitSizes maxTileWidthSb (sbs w) (sbs w) 0
    let hs ← explicitSizes (maxTileHeightSb w h (widest ws)) (sbs h) (sbs h) 0
    pure (startsOf 0 ws, startsOf 0 hs, tileLog2 1 ws.length, tileLog2 1 hs.length))
  (if 0 < cl ∨ 0 < rl then do
    let id ← f (cl + rl)
    let bytes ← f 2
    pure ⟨cols, rows, cl, rl, id, bytes + 1⟩
  else pure ⟨cols, rows, cl, rl, 0, 0⟩)

structure Quant where
  base : Nat
  yDc : Int
  uDc : Int
  uAc : Int
  vDc : Int
  vAc : Int
deriving Repr, DecidableEq

/-- `read_delta_q()` (5.9.13). -/
def deltaQ : Parser Int := do
  let coded ← flag
  opt coded (su 7) 0

/-- `quantization_params()` (5.9.12). -/
def quantParams (s : SeqHdr) : Parser Quant := do
  let base ← f 8
  let yDc ← deltaQ
  let (uDc, uAc, vDc, vAc) ← opt (!s.mono) (do
    let diff ← opt s.separateUv flag false
    let uDc ← deltaQ
    let uAc ← deltaQ
    (if diff then do
      let vDc ← deltaQ
      let vAc ← deltaQ
      pure (uDc, uAc, vDc, vAc)
    else pure (uDc, uAc, uDc, uAc))) (0, 0, 0, 0)
  let qm ← flag
  rejectIf qm
  pure ⟨base, yDc, uDc, uAc, vDc, vAc⟩

structure Seg where
  enabled : Bool
  updateMap : Bool
  temporal : Bool
  updateData : Bool
  features : SegData
deriving Repr, DecidableEq

/-- `Segmentation_Feature_Bits`, `_Signed`, `_Max` (5.9.14). -/
def featureTable : List (Nat × Bool × Nat) :=
  [(8, true, 255), (6, true, 63), (6, true, 63), (6, true, 63), (6, true, 63), (3, false, 7),
   (0, false, 0), (0, false, 0)]

/-- `Clip3`. -/
def clip3 (lo hi x : Int) : Int := if x < lo then lo else if hi < x then hi else x

/-- One feature of one segment. -/
def segFeature (x : Nat × Bool × Nat) : Parser (Bool × Int) := do
  let (bits, signed, limit) := x
  let on ← flag
  (if on then
    (if signed then do
      let v ← su (1 + bits)
      pure (true, clip3 (-limit) limit v)
    else do
      let v ← f bits
      pure (true, clip3 0 limit v))
  else pure (false, 0))

/-- No feature enabled. -/
def SegData.cleared : SegData :=
  ⟨List.replicate 8 (List.replicate 8 false), List.replicate 8 (List.replicate 8 0)⟩

/-- `segmentation_params()` (5.9.14); `prev` is what `load_previous()` or
`setup_past_independence()` set up. -/
def segParams (primaryRef : Nat) (prev : SegData) : Parser Seg := do
  let enabled ← flag
  (if enabled then do
    let (map, temporal, data) ← (if primaryRef = 7 then pure (true, false, true) else do
      let map ← flag
      let temporal ← opt map flag false
      let data ← flag
      pure (map, temporal, data))
    let feats ← opt data (do
      let rows ← times 8 (each segFeature featureTable)
      pure ⟨rows.map (·.map (·.1)), rows.map (·.map (·.2))⟩) prev
    pure ⟨true, map, temporal, data, feats⟩
  else pure ⟨false, false, false, false, SegData.cleared⟩)

/-- `delta_q_params()` and `delta_lf_params()` (5.9.17, 5.9.18): `delta_q_res`, `delta_lf_res` and
`delta_lf_multi` when present. -/
def deltaParams (base : Nat) (intrabc : Bool) : Parser (Option Nat × Option (Nat × Bool)) := do
  let present ← opt (decide (0 < base)) flag false
  (if present then do
    let res ← f 2
    let lf ← opt (!intrabc) flag false
    let lfp ← opt lf (do
      let r ← f 2
      let m ← flag
      pure (some (r, m))) none
    pure (some res, lfp)
  else pure (none, none))

/-- `get_qidx(1, segmentId)` (7.12.2). -/
def qidx (q : Quant) (seg : Seg) (i : Nat) : Int :=
  if seg.enabled && ((seg.features.enabled.getD i []).getD 0 false) then
    clip3 0 255 (q.base + (seg.features.data.getD i []).getD 0 0)
  else q.base

/-- `CodedLossless` (5.9.2). -/
def codedLossless (q : Quant) (seg : Seg) : Bool :=
  (List.range 8).all fun i => decide (qidx q seg i = 0) && decide (q.yDc = 0) &&
    decide (q.uDc = 0) && decide (q.uAc = 0) && decide (q.vDc = 0) && decide (q.vAc = 0)

structure Lf where
  level0 : Nat
  level1 : Nat
  levelU : Nat
  levelV : Nat
  sharpness : Nat
  deltaEnabled : Bool
  refDeltas : List Int
  modeDeltas : List Int
deriving Repr, DecidableEq

/-- `update_ref_delta` / `update_mode_delta` with the value to keep. -/
def lfDelta (old : Int) : Parser Int := do
  let u ← flag
  opt u (su 7) old

/-- `setup_past_independence()` (7.20 / 5.9.2): the default loop filter deltas. -/
def defaultRefDeltas : List Int := [1, 0, 0, 0, -1, 0, -1, -1]
def defaultModeDeltas : List Int := [0, 0]

/-- `loop_filter_params()` (5.9.11). -/
def loopFilter (s : SeqHdr) (off : Bool) (refDeltas modeDeltas : List Int) : Parser Lf :=
  if off then pure ⟨0, 0, 0, 0, 0, true, defaultRefDeltas, defaultModeDeltas⟩
  else do
    let l0 ← f 6
    let l1 ← f 6
    let (lu, lv) ← opt (!s.mono && (decide (l0 ≠ 0) || decide (l1 ≠ 0))) (do
      let u ← f 6
      let v ← f 6
      pure (u, v)) (0, 0)
    let sharp ← f 3
    let enabled ← flag
    let update ← opt enabled flag false
    let (rd, md) ← opt update (do
      let r ← each lfDelta refDeltas
      let m ← each lfDelta modeDeltas
      pure (r, m)) (refDeltas, modeDeltas)
    pure ⟨l0, l1, lu, lv, sharp, enabled, rd, md⟩

structure Cdef where
  damping : Nat
  bits : Nat
  /-- primary and secondary strengths -/
  y : List (Nat × Nat)
  uv : List (Nat × Nat)
deriving Repr, DecidableEq

/-- A primary and a secondary strength; the coded secondary strength 3 means 4. -/
def cdefStrength : Parser (Nat × Nat) := do
  let p ← f 4
  let s ← f 2
  pure (p, if s = 3 then s + 1 else s)

/-- `cdef_params()` (5.9.19). -/
def cdefParams (s : SeqHdr) (off : Bool) : Parser Cdef :=
  if off || !s.cdef then pure ⟨3, 0, [(0, 0)], [(0, 0)]⟩
  else do
    let d ← f 2
    let bits ← f 2
    let strengths ← times (2 ^ bits) (do
      let y ← cdefStrength
      let uv ← opt (!s.mono) cdefStrength (0, 0)
      pure (y, uv))
    pure ⟨d + 3, bits, strengths.map (·.1), strengths.map (·.2)⟩

/-- Restoration types after `Remap_Lr_Type`. -/
inductive LrType where
  | off | switchable | wiener | sgrproj
deriving Repr, DecidableEq

/-- `Remap_Lr_Type`. -/
def LrType.ofCode : Nat → LrType
  | 0 => .off
  | 1 => .switchable
  | 2 => .wiener
  | _ => .sgrproj

structure Lr where
  types : List LrType
  /-- `LoopRestorationSize[0]` and `[1]`, when some plane is restored -/
  sizes : Option (Nat × Nat)
deriving Repr, DecidableEq

/-- `lr_params()` (5.9.20) for 64x64 superblocks. -/
def lrParams (s : SeqHdr) (off : Bool) : Parser Lr :=
  let planes := if s.mono then 1 else 3
  if off || !s.restoration then pure ⟨List.replicate planes .off, none⟩
  else do
    let types ← times planes (do let c ← f 2; pure (LrType.ofCode c))
    let usesLr := types.any fun t => decide (t ≠ .off)
    let usesChroma := types.tail.any fun t => decide (t ≠ .off)
    (if usesLr then do
      rejectIf s.use128
      let shift ← f 1
      let extra ← opt (decide (shift ≠ 0)) (f 1) 0
      let uv ← opt (s.subX && s.subY && usesChroma) (f 1) 0
      let y := 256 / 2 ^ (2 - (shift + extra))
      pure ⟨types, some (y, y / 2 ^ uv)⟩
    else pure ⟨types, none⟩)

/-- `get_relative_dist(a, b)` (7.9.3) with `OrderHintBits > 0`: `(diff & (m - 1)) - (diff & m)`. -/
def relativeDist (bits a b : Nat) : Int :=
  let diff : Int := (a : Int) - b
  let m : Int := 2 ^ (bits - 1)
  diff % m - (if diff / m % 2 = 1 then m else 0)

/-- The nearest forward and backward hints of `skip_mode_params()` (5.9.22). -/
def skipNearest (bits cur : Nat) : List Nat → Option Nat × Option Nat → Option Nat × Option Nat
  | [], acc => acc
  | h :: hs, (fwd, bwd) =>
    if relativeDist bits h cur < 0 then
      skipNearest bits cur hs
        (match fwd with
          | none => some h
          | some g => if 0 < relativeDist bits h g then some h else some g, bwd)
    else if 0 < relativeDist bits h cur then
      skipNearest bits cur hs
        (fwd, match bwd with
          | none => some h
          | some g => if relativeDist bits h g < 0 then some h else some g)
    else skipNearest bits cur hs (fwd, bwd)

/-- `skipModeAllowed` of 5.9.22 from the hints of the seven references. -/
def skipAllowed (bits cur : Nat) (hints : List Nat) : Bool :=
  match skipNearest bits cur hints (none, none) with
  | (none, _) => false
  | (some _, some _) => true
  | (some fwd, none) => hints.any fun h => decide (relativeDist bits h fwd < 0)

structure Modes where
  txSelect : Bool
  refSelect : Bool
  skipMode : Bool
  warped : Bool
  reducedTx : Bool
deriving Repr, DecidableEq

/-- 5.9.2 from `read_tx_mode()` to `global_motion_params()`. -/
def frameModes (c : Ctx) (st : Start) (refIdx : List Nat) (lossless : Bool) : Parser Modes := do
  let tx ← opt (!lossless) flag false
  let sel ← opt (!st.type.intra) flag false
  let allowed ← opt (!st.type.intra && sel && c.seq.orderHint) (do
    let hints ← each (fun r => do let slot ← c.slot r; pure slot.orderHint) refIdx
    pure (skipAllowed c.seq.orderHintBits st.orderHint hints)) false
  let skip ← opt allowed flag false
  let warped ← opt (!(st.type.intra || st.errRes || !c.seq.warped)) flag false
  let red ← flag
  let gm ← opt (!st.type.intra) (times 7 flag) []
  rejectIf (gm.any id)
  pure ⟨tx, sel, skip, warped, red⟩

structure FilmGrain where
  seed : Nat
  pointsY : List (Nat × Nat)
  cfl : Bool
  pointsCb : List (Nat × Nat)
  pointsCr : List (Nat × Nat)
  /-- `grain_scaling_minus_8 + 8` -/
  scalingShift : Nat
  arLag : Nat
  /-- `ar_coeffs_y_plus_128 - 128` and so on -/
  arY : List Int
  arCb : List Int
  arCr : List Int
  /-- `ar_coeff_shift_minus_6 + 6` -/
  arShift : Nat
  scaleShift : Nat
  cbMult : Nat
  cbLumaMult : Nat
  cbOffset : Nat
  crMult : Nat
  crLumaMult : Nat
  crOffset : Nat
  overlap : Bool
  clip : Bool
deriving Repr, DecidableEq

/-- `point_value`, `point_scaling`. -/
def grainPoints : Parser (List (Nat × Nat)) := do
  let n ← f 4
  times n (do
    let a ← f 8
    let b ← f 8
    pure (a, b))

/-- `ar_coeffs_..._plus_128`. -/
def grainCoeffs (n : Nat) : Parser (List Int) :=
  times n (do let v ← f 8; pure ((v : Int) - 128))

/-- `mult`, `luma_mult`, `offset` of a chroma plane. -/
def grainMults : Parser (Nat × Nat × Nat) := do
  let m ← f 8
  let l ← f 8
  let o ← f 9
  pure (m, l, o)

/-- `film_grain_params()` (5.9.30) after `apply_grain`. -/
def grainBody (s : SeqHdr) (type : FType) : Parser FilmGrain := do
  let seed ← f 16
  let update ← opt (decide (type = .inter)) flag true
  rejectIf (!update)
  let py ← grainPoints
  let cfl ← opt (!s.mono) flag false
  let (pcb, pcr) ← (if s.mono || cfl || (s.subX && s.subY && py.isEmpty) then pure ([], []) else do
    let a ← grainPoints
    let b ← grainPoints
    pure (a, b))
  let scaling ← f 2
  let lag ← f 2
  let numLuma := 2 * lag * (lag + 1)
  let numChroma := if py.isEmpty then numLuma else numLuma + 1
  let arY ← opt (!py.isEmpty) (grainCoeffs numLuma) []
  let arCb ← opt (cfl || !pcb.isEmpty) (grainCoeffs numChroma) []
  let arCr ← opt (cfl || !pcr.isEmpty) (grainCoeffs numChroma) []
  let arShift ← f 2
  let scaleShift ← f 2
  let (cm, cl, co) ← opt (!pcb.isEmpty) grainMults (0, 0, 0)
  let (rm, rl, ro) ← opt (!pcr.isEmpty) grainMults (0, 0, 0)
  let overlap ← flag
  let clip ← flag
  pure { seed, pointsY := py, cfl, pointsCb := pcb, pointsCr := pcr, scalingShift := scaling + 8,
         arLag := lag, arY, arCb, arCr, arShift := arShift + 6, scaleShift, cbMult := cm,
         cbLumaMult := cl, cbOffset := co, crMult := rm, crLumaMult := rl, crOffset := ro,
         overlap, clip }

/-- `film_grain_params()` (5.9.30). -/
def filmGrain (s : SeqHdr) (st : Start) : Parser (Option FilmGrain) :=
  if !s.filmGrain || (!st.showFrame && !st.showable) then pure none
  else do
    let apply ← flag
    (if apply then do
      let g ← grainBody s st.type
      pure (some g)
    else pure none)

structure FrameHdr where
  start : Start
  refs : Refs
  tiles : TileHdr
  quant : Quant
  seg : Seg
  delta : Option Nat × Option (Nat × Bool)
  lf : Lf
  cdef : Cdef
  lr : Lr
  modes : Modes
  grain : Option FilmGrain
deriving Repr, DecidableEq

/-- What `setup_past_independence()` or `load_previous()` provides. -/
def previous (c : Ctx) (st : Start) (refIdx : List Nat) : Parser (List Int × List Int × SegData) :=
  if st.primaryRef = 7 then pure (defaultRefDeltas, defaultModeDeltas, SegData.cleared)
  else match refIdx[st.primaryRef]? with
    | none => unsupported
    | some r => do
      let slot ← c.slot r
      pure (slot.refDeltas, slot.modeDeltas, slot.seg)

/-- `uncompressed_header()` (5.9.2) of a frame that is coded, after `show_existing_frame`. -/
def codedHeader (c : Ctx) : Parser FrameHdr := do
  let start ← frameStart c
  let refs ← frameRefs c start
  let (rd, md, sd) ← previous c start refs.refIdx
  let tiles ← tileInfo c.seq refs.size.width refs.size.height
  let quant ← quantParams c.seq
  let seg ← segParams start.primaryRef sd
  let delta ← deltaParams quant.base refs.intrabc
  let lossless := codedLossless quant seg
  let off := lossless || refs.intrabc
  let lf ← loopFilter c.seq off rd md
  let cdef ← cdefParams c.seq off
  let lr ← lrParams c.seq off
  let modes ← frameModes c start refs.refIdx lossless
  let grain ← filmGrain c.seq start
  pure ⟨start, refs, tiles, quant, seg, delta, lf, cdef, lr, modes, grain⟩

inductive Header where
  /-- `show_existing_frame` with `frame_to_show_map_idx` -/
  | existing (idx : Nat)
  | coded (h : FrameHdr)
deriving Repr, DecidableEq

/-- `uncompressed_header()` (5.9.2). -/
def frameHeader (c : Ctx) : Parser Header := do
  let existing ← opt (!c.seq.reduced) flag false
  (if existing then do
    let idx ← f 3
    pure (.existing idx)
  else do
    let h ← codedHeader c
    pure (.coded h))

/-- The reference frame update process (7.20), for the state the headers depend on. -/
def Ctx.update (c : Ctx) (h : FrameHdr) : Ctx where
  seq := c.seq
  slots := fun i =>
    if h.start.refresh.testBit i then
      some ⟨h.start.orderHint, h.refs.size.width, h.refs.size.height, h.refs.size.renderWidth,
        h.refs.size.renderHeight, h.lf.refDeltas, h.lf.modeDeltas, h.seg.features⟩
    else c.slots i

/-- The frame headers of a stream, each with the bits left for what follows it in its OBU.  Showing
an existing frame leaves the references alone: the decoder would reload them (7.21) only for a key
frame, which this encoder never shows that way (C22). -/
def frameHeaders (c : Ctx) : List (List Bool) → Option (List (Header × List Bool))
  | [] => some []
  | bits :: more => match frameHeader c bits with
    | none => none
    | some (h, rest) =>
      let c' := match h with
        | .coded f => c.update f
        | .existing _ => c
      match frameHeaders c' more with
      | none => none
      | some hs => some ((h, rest) :: hs)

end Av1Spec

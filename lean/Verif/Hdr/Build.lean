import Verif.Hdr.Theorems
import Verif.Sched.Model

/-!
# Headers: how the encoder fills in what it writes

Models `Sequence::new`, the header related part of `FrameInvariants::new`, `new_key_frame` and
`new_inter_frame` (the scheduling part is `Sched.newKeyFrame` and `Sched.newInterFrame`),
`set_quantizers`, `segmentation_optimize`, `RestorationState::new` and `update_rec_buffer`.
-/

namespace Rav1e.Hdr
open Av1Spec

/-- The parts of `EncoderConfig` and `SpeedSettings` that reach the headers
(`api/config/encoder.rs:37-117`). -/
structure EncCfg where
  sched : Sched.Cfg
  width : Nat
  height : Nat
  /-- `render_size()`, `api/config/encoder.rs:204-212` -/
  renderWidth : Nat
  renderHeight : Nat
  bitDepth : Nat
  chroma : Chroma
  chromaPos : Nat
  fullRange : Bool
  color : Option ColorDesc
  timeNum : Nat
  timeDen : Nat
  enableTiming : Bool
  levelIdx : Option Nat
  tileCols : Nat
  tileRows : Nat
  tiles : Nat
  /-- the rate limit of `from_target_tiles`, see `Tile.fromTargetTiles` -/
  rateLog2 : Nat
  /-- `film_grain_params` is present and not empty -/
  filmGrain : Bool
  cdef : Bool
  lrf : Bool
  reducedTx : Bool
  segmentation : Bool
  rdoTx : Bool
  interTxSplit : Bool
deriving Repr, DecidableEq

/-- `Sequence::new`, `encoder.rs:205-331`. -/
def newSequence (e : EncCfg) : Option Seq :=
  if 65535 < e.width ∨ 65535 < e.height then none
  else match Tile.sequenceTiling e.width e.height e.rateLog2 e.tileCols e.tileRows e.tiles
      (e.chroma == .cs422) with
  | none => none
  | some tiling =>
    let big := decide (32 ≤ e.width ∧ 32 ≤ e.height)
    some {
      profile := if e.bitDepth = 12 ∨ e.chroma = .cs422 then 2
        else (e.chroma == .cs444).toNat
      bitDepth := e.bitDepth
      chroma := e.chroma
      chromaPos := e.chromaPos
      fullRange := e.fullRange
      color := e.color
      maxWidth := e.width
      maxHeight := e.height
      frameIds := false
      use128 := false
      orderHintBitsM1 := 5
      forceSct := if e.sched.stillPicture then 2 else 0
      forceImv := 2
      still := e.sched.stillPicture
      reduced := e.sched.stillPicture
      filterIntra := false
      intraEdge := true
      interintra := false
      masked := false
      dualFilter := false
      orderHint := !e.sched.stillPicture
      jntComp := false
      refFrameMvs := false
      warped := false
      superres := false
      cdef := e.cdef && big
      restoration := e.lrf && big
      opCntM1 := 0
      opIdc := 0
      decModel := false
      levelIdx := e.levelIdx.getD 31
      tier := 0
      filmGrain := e.filmGrain
      timing := e.enableTiming
      timeNum := e.timeNum
      timeDen := e.timeDen
      tiling }

/-- What is decided for a frame while it is coded. -/
structure Late where
  /-- `qps.ac_qi`, `qps.dc_qi` of `set_quantizers` -/
  acQi : List Nat
  dcQi : List Nat
  /-- results of `poly2` in `pick_strength_from_q`: primary and secondary strengths -/
  cdefY : Nat × Nat
  cdefUv : Nat × Nat
  /-- deblocking levels found by `deblock_filter_optimize` -/
  levels : List Nat
  /-- `select_ac_qi` of the segment targets, in `segmentation_optimize_inner` -/
  segQis : List Nat
  /-- `fi.film_grain_params()` -/
  grain : Option Grain
  /-- `base_q_idx` when `FrameState::new_with_frame` was called (`api/internal.rs:216, 490`): before
  `set_quantizers` -/
  lrQ : Nat
  /-- restoration types of the planes -/
  lrTypes : List Nat
  ctxTileId : Nat
  tileSizeBytes : Nat
deriving Repr, DecidableEq

/-- `as i8`. -/
def asI8 (x : Int) : Int := (x + 128) % 256 - 128

/-- `SegmentationState::default()`, `encoder.rs:550-562`. -/
def Segm.default : Segm :=
  ⟨false, false, false, List.replicate 8 (List.replicate 8 false), List.replicate 8 (List.replicate 8 0)⟩

/-- `get_initial_segmentation`, `encoder.rs:3749-3762`. -/
def initialSegm (primary : Nat) (refs : List Nat) (rec : List (Option RefFrame)) : Segm :=
  if primary = 7 then Segm.default
  else match refs[primary]? with
    | none => Segm.default
    | some r => match rec[r]? with
      | some (some f) => f.segm
      | _ => Segm.default

/-- The update of the segmentation data, `segmentation.rs:149-158`. -/
def setSegm (base : Int) : List Nat → List (List Bool) → List (List Int) →
    List (List Bool) × List (List Int)
  | q :: qs, f :: fs, d :: ds =>
    let (fs', ds') := setSegm base qs fs ds
    (f.set 0 true :: fs', d.set 0 (max (max (q : Int) 1 - base) (1 - base)) :: ds')
  | _, fs, ds => (fs, ds)

/-- `encode_frame`, `encoder.rs:3776-3779`, with `segmentation_optimize`,
`segmentation.rs:23-74`: the part of the state that reaches the header.  `none` is the failed
`assert_ne!`. -/
def frameSegm (enable : Bool) (baseQ primary : Nat) (refs : List Nat)
    (rec : List (Option RefFrame)) (qis : List Nat) : Option Segm :=
  if enable then
    let s := initialSegm primary refs rec
    if primary = 7 then
      let (f, d) := setSegm baseQ qis s.features s.data
      some ⟨true, true, true, f, d⟩
    else if (s.features.zip s.data).any fun x =>
        x.1.getD 0 false && decide (1 - (baseQ : Int) ≤ x.2.getD 0 0) then
      some ⟨true, false, true, s.features, s.data⟩
    else none
  else some Segm.default

/-- `planes[1].cfg.xdec`, `ydec` of a frame (crate `v_frame`). -/
def Chroma.xdec : Chroma → Nat
  | .cs420 | .cs422 => 1
  | _ => 0

def Chroma.ydec : Chroma → Nat
  | .cs420 => 1
  | _ => 0

/-- The unit sizes of `RestorationState::new`, `lrf.rs:1321-1427`. -/
def lrUnits (s : Seq) (width height baseQ : Nat) : Nat × Nat :=
  let xdec := s.chroma.xdec
  let ydec := s.chroma.ydec
  let decimate := decide (0 < xdec ∧ 0 < ydec)
  let sbLog2 := 6
  let (yShift, uvShift) :=
    if s.restoration then
      let base := if 200 < baseQ then 0 else if 160 < baseQ then 1 else 2
      let chroma :=
        if decimate then
          if base = 2 then 1
          else
            let unit := 2 ^ (8 - base)
            let unshifted := decide ((width / 2 ^ xdec - 1) % unit ≤ unit / 2 ∨
              (height / 2 ^ ydec - 1) % unit ≤ unit / 2)
            let shifted := decide ((width / 2 ^ xdec - 1) % (unit / 2) ≤ unit / 4 ∨
              (height / 2 ^ ydec - 1) % (unit / 2) ≤ unit / 4)
            (unshifted && !shifted).toNat
        else 0
      (base, base + chroma)
    else (2, 2 + decimate.toNat)
  let y := 2 ^ (8 - yShift)
  let uv := 2 ^ (8 - uvShift)
  let (y, uv) :=
    if 1 < s.tiling.cols ∨ 1 < s.tiling.rows then
      let th := Sched.trailingZeros s.tiling.tileWidthSb
      let tv := Sched.trailingZeros s.tiling.tileHeightSb
      (min y (2 ^ (sbLog2 + min th tv)),
       min uv (min (2 ^ (sbLog2 - xdec + th)) (2 ^ (sbLog2 - ydec + tv))))
    else (y, uv)
  if ydec = 0 ∧ y ≠ uv then (min uv y, min uv y) else (y, uv)

/-- `allowed_ref_frames`, `api/internal.rs:194-203`, as indices. -/
def allowedRefs (c : Sched.Cfg) : List Nat :=
  if c.reorder then List.range 7 else if c.multiref then [0, 1, 2, 3] else [0]

def ftype : Sched.FrameType → FrameType
  | .key => .key
  | .inter => .inter
  | .switch => .switch

/-- `FrameInvariants` and `FrameState` when the header is written: `FrameInvariants::new`
(`encoder.rs:833-947`), `new_key_frame` (`949-960`), `new_inter_frame` (`964-1118`),
`set_quantizers` (`1244-1263`), `pick_strength_from_q` (`1220-1242`), `encode_frame`
(`3776-3779`).  `x` holds what the scheduler decides and `rec` is `rec_buffer`. -/
def buildFi {M : Type} (e : EncCfg) (s : Seq) (x : Sched.FI M) (l : Late)
    (rec : List (Option RefFrame)) : Option Fi :=
  let key := decide (x.ftype = .key)
  let base := l.acQi.getD 0 0
  let diff := decide (e.renderWidth ≠ e.width ∨ e.renderHeight ≠ e.height)
  let resized := decide (e.width ≠ s.maxWidth ∨ e.height ≠ s.maxHeight)
  let (yu, uvu) := lrUnits s e.width e.height l.lrQ
  match frameSegm e.segmentation base x.primary x.refs rec l.segQis with
  | none => none
  | some segm => some {
    seq := s
    width := e.width
    height := e.height
    renderWidth := e.renderWidth
    renderHeight := e.renderHeight
    sizeOverride := match x.ftype with
      | .key => resized
      | .switch => true
      | .inter => if s.reduced then false else if !x.errorRes && diff then true else resized
    renderDifferent := diff
    sbWidth := Tile.alignShift e.width 6
    sbHeight := Tile.alignShift e.height 6
    sef := x.sef
    orderHint := x.orderHint
    showFrame := x.shown
    showable := !s.reduced
    errRes := x.errorRes
    intraOnly := key
    allowHp := false
    frameType := ftype x.ftype
    showIdx := x.slot
    reducedTx := e.reducedTx
    compound := x.refSelect
    gmIdentity := true
    disableCdfUpdate := false
    allowSct := s.forceSct
    forceImv := key.toNat
    primaryRef := x.primary
    refresh := x.refresh
    allowIntrabc := false
    useRefMvs := false
    filterSwitchable := false
    motionSwitchable := false
    disableEndUpdate := s.reduced
    allowWarped := false
    cdefDamping := 3 + base / 64
    cdefBits := 0
    cdefY := [l.cdefY.1 * 4 + l.cdefY.2, 4, 9, 13, 22, 31, 43, 55]
    cdefUv := [l.cdefUv.1 * 4 + l.cdefUv.2, 4, 9, 13, 22, 31, 43, 55]
    deltaQ := false
    refFrames := x.refs
    recFrames := rec
    recDeblock := []
    baseQ := base
    dcDelta := l.dcQi.map fun (q : Nat) => asI8 ((q : Int) - base)
    acDelta := l.acQi.map fun (q : Nat) => asI8 ((q : Int) - base)
    txSelect := if key then e.rdoTx else e.interTxSplit
    filter := 0
    enableSegm := e.segmentation
    grain := l.grain
    ctxTileId := l.ctxTileId
    tileSizeBytes := l.tileSizeBytes
    deblock := { levels := l.levels, sharpness := 0, deltasEnabled := false, deltaUpdates := false,
                 refDeltas := [1, 0, 0, 0, 0, -1, -1, -1], modeDeltas := [0, 0],
                 blockDeltas := false, blockDeltaShift := 0, blockDeltaMulti := false }
    segm
    lr := [⟨l.lrTypes.getD 0 0, yu⟩, ⟨l.lrTypes.getD 1 0, uvu⟩, ⟨l.lrTypes.getD 2 0, uvu⟩]
    allowedRefs := allowedRefs e.sched }

/-- `update_rec_buffer`, `encoder.rs:3822-3845`. -/
def updateRec (fi : Fi) : List (Option RefFrame) :=
  fi.recFrames.mapIdx fun i old =>
    if fi.refresh.testBit i then
      some ⟨fi.orderHint, fi.width, fi.height, fi.renderWidth, fi.renderHeight, fi.segm⟩
    else old

end Rav1e.Hdr

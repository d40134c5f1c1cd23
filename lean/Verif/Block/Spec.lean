import Verif.Mvref.SynSpec

/-!
# Block syntax, as the decoder reads it

Transcribed from the AV1 specification: `decode_partition` (5.11.4), `decode_block` (5.11.5), `intra_frame_mode_info` (5.11.7), `read_segment_id` (5.11.9),
`inter_segment_id` (5.11.19), `inter_frame_mode_info` (5.11.18), `read_is_inter` (5.11.20), `intra_block_mode_info` (5.11.22), `read_ref_frames` (5.11.25),
`intra_angle_info` (5.11.42, 5.11.43), `read_cfl_alphas` (5.11.45), `palette_mode_info` (5.11.46), `filter_intra_mode_info` (5.11.24), and the choice of
contexts for these syntax elements (8.3.2).  A coded symbol is a value together with the distribution it was coded with: a decoder that uses another one does
not get the value.  What the headers of this encoder always say is taken as given: 64x64 superblocks, no lossless segments, no segmentation feature other
than `SEG_LVL_ALT_Q`, no `segmentation_temporal_update`, no `skip_mode`, no intra block copy, no `delta_q`, no interintra, no `is_motion_mode_switchable`,
no switchable interpolation filter, no masked or distance weighted compound prediction.  `none` stands for syntax that these headers allow but this encoder
does not use (unidirectional compound references, palettes, recursive intra prediction).
-/

namespace Rav1e.Block.Spec

open Mvref.Spec (Geo Info Mv YMode)

/-- The distributions, with their contexts. -/
inductive Cdf
  | partition (bsl ctx : Nat) | splitOrHorz (bsl ctx : Nat) | splitOrVert (bsl ctx : Nat)
  | skip (ctx : Nat) | segmentId (ctx : Nat) | isInter (ctx : Nat)
  | compMode (ctx : Nat) | compRefType (ctx : Nat) | compRef (ctx n : Nat) | compBwdref (ctx n : Nat) | singleRef (ctx n : Nat)
  | intraFrameYMode (above left : Nat) | yMode (ctx : Nat) | angleDelta (mode : Nat) | uvMode (cflAllowed : Bool) (yMode : Nat)
  | cflAlphaSigns | cflAlpha (ctx : Nat) | hasPaletteY (bsizeCtx ctx : Nat) | hasPaletteUV (ctx : Nat) | useFilterIntra (miSize : Nat)
  | motion (c : Mvref.Spec.Cdf)
  deriving DecidableEq, Repr

/-- The number of values. -/
def Cdf.size : Cdf → Nat
  | .partition bsl _ => if bsl = 0 then 4 else 10
  | .segmentId _ => 8
  | .intraFrameYMode _ _ => 13
  | .yMode _ => 13
  | .angleDelta _ => 7
  | .uvMode cfl _ => if cfl then 14 else 13
  | .cflAlphaSigns => 8
  | .cflAlpha _ => 16
  | .motion c => c.size
  | _ => 2

/-- A coded symbol. -/
abbrev Sym := Cdf × Nat

/-- Reading a symbol. -/
def read (c : Cdf) : List Sym → Option (Nat × List Sym)
  | [] => none
  | s :: l => if s.1 = c ∧ s.2 < c.size then some (s.2, l) else none

/-- What is read for a block.  `yMode` to `cflV` are for intra blocks, `info` has the mode and the vectors of inter blocks. -/
structure Hdr where
  skip : Bool
  segmentId : Nat
  info : Info
  yMode : Nat
  angleY : Int
  uvMode : Nat
  angleUV : Int
  cflU : Int
  cflV : Int
  deriving DecidableEq, Repr

/-- A block. -/
structure Blk where
  row : Nat
  col : Nat
  bw4 : Nat
  bh4 : Nat
  hdr : Hdr
  deriving DecidableEq, Repr

/-- What of a block is used to predict motion vectors. -/
def Blk.motion (b : Blk) : Mvref.Spec.Blk := ⟨b.row, b.col, b.bw4, b.bh4, b.hdr.info⟩

/-- A position in a block. -/
def Blk.Covers (b : Blk) (r c : Nat) : Prop := b.row ≤ r ∧ r < b.row + b.bh4 ∧ b.col ≤ c ∧ c < b.col + b.bw4

instance (b : Blk) (r c : Nat) : Decidable (b.Covers r c) := by unfold Blk.Covers; infer_instance

/-- The arrays written at the end of `decode_block`, after these blocks. -/
def decoded (l : List Blk) : Nat → Nat → Option Blk :=
  l.foldl (fun d b r c => if b.Covers r c then some b else d r c) fun _ _ => none

/-- What the sequence header and the frame header say; `g` is the tile. -/
structure Par where
  g : Geo
  frameIsIntra : Bool
  segmentationEnabled : Bool
  segIdPreSkip : Bool
  lastActiveSegId : Nat
  referenceSelect : Bool
  monochrome : Bool
  subX : Bool
  subY : Bool
  allowScreenContentTools : Bool
  enableFilterIntra : Bool
  signBias : Int → Bool

/-- The block at `r`, `c` if this is in the tile (`AvailU`, `AvailL`); it has to be decoded. -/
def Par.look (p : Par) (d : Nat → Nat → Option Blk) (r c : Int) : Option (Option Blk) :=
  if p.g.isInside r c then (d r.toNat c.toNat).map some else some none

/-! ### Segment, skip, `is_inter` -/

/-- The context of `skip`. -/
def skipCtx (a l : Option Blk) : Nat := (if a.any (·.hdr.skip) then 1 else 0) + (if l.any (·.hdr.skip) then 1 else 0)

/-- `prevU`, `prevL` or `prevUL`. -/
def prevSeg (b : Option Blk) : Int := (b.map fun b => (b.hdr.segmentId : Int)).getD (-1)

/-- `pred` in `read_segment_id`. -/
def segPred (prevUL prevU prevL : Int) : Int :=
  if prevU = -1 then (if prevL = -1 then 0 else prevL) else if prevL = -1 then prevU else if prevUL = prevU then prevU else prevL

/-- The context of `segment_id`. -/
def segCtx (prevUL prevU prevL : Int) : Nat :=
  if prevUL < 0 then 0
  else if prevUL = prevU ∧ prevUL = prevL then 2
  else if prevUL = prevU ∨ prevUL = prevL ∨ prevU = prevL then 1
  else 0

/-- `neg_deinterleave( diff, ref, max )`. -/
def negDeinterleave (diff ref max : Int) : Int :=
  if ref = 0 then diff
  else if ref ≥ max - 1 then max - diff - 1
  else if 2 * ref < max then
    if diff ≤ 2 * ref then (if diff % 2 = 1 then ref + (diff + 1) / 2 else ref - diff / 2) else diff
  else
    if diff ≤ 2 * (max - ref - 1) then (if diff % 2 = 1 then ref + (diff + 1) / 2 else ref - diff / 2) else max - (diff + 1)

/-- `read_segment_id( )`; `skip` is 0 when it has not been read yet. -/
def readSegmentId (last : Nat) (skip : Bool) (ul a l : Option Blk) (s : List Sym) : Option (Nat × List Sym) :=
  let prevU := prevSeg a
  let prevL := prevSeg l
  let prevUL := if a.isSome ∧ l.isSome then prevSeg ul else -1
  let pred := segPred prevUL prevU prevL
  if skip then some (pred.toNat, s)
  else do
    let (v, s) ← read (.segmentId (segCtx prevUL prevU prevL)) s
    some ((max 0 (min (last : Int) (negDeinterleave v pred (last + 1)))).toNat, s)

/-- `intra_segment_id` or `inter_segment_id( 1 )`, `skip`, and `intra_segment_id` or `inter_segment_id( 0 )`. -/
def readSkip (p : Par) (ul a l : Option Blk) (s : List Sym) : Option ((Nat × Bool) × List Sym) := do
  let (seg, s) ← if p.segmentationEnabled ∧ p.segIdPreSkip then readSegmentId p.lastActiveSegId false ul a l s else some (0, s)
  let (skip, s) ← read (.skip (skipCtx a l)) s
  let (seg, s) ← if p.segmentationEnabled ∧ ¬ p.segIdPreSkip then readSegmentId p.lastActiveSegId (skip == 1) ul a l s else some (seg, s)
  some ((seg, skip == 1), s)

/-- `AboveRefFrame` or `LeftRefFrame`. -/
def refs (b : Option Blk) : Int × Int := (b.map fun b => (b.hdr.info.ref0, b.hdr.info.ref1)).getD (0, -1)

/-- `AboveIntra` or `LeftIntra`. -/
def intra (b : Option Blk) : Bool := decide ((refs b).1 ≤ 0)

/-- `AboveSingle` or `LeftSingle`. -/
def single (b : Option Blk) : Bool := decide ((refs b).2 ≤ 0)

/-- The context of `is_inter`. -/
def isInterCtx (a l : Option Blk) : Nat :=
  if a.isSome ∧ l.isSome then (if intra l ∧ intra a then 3 else if intra l ∨ intra a then 1 else 0)
  else if a.isSome ∨ l.isSome then 2 * (if a.isSome then (intra a).toNat else (intra l).toNat)
  else 0

/-! ### Reference frames -/

/-- `check_backward( refFrame )`. -/
def checkBackward (r : Int) : Bool := decide (5 ≤ r ∧ r ≤ 7)

/-- The context of `comp_mode`. -/
def compModeCtx (a l : Option Blk) : Nat :=
  if a.isSome ∧ l.isSome then
    if single a ∧ single l then (xor (checkBackward (refs a).1) (checkBackward (refs l).1)).toNat
    else if single a then 2 + (checkBackward (refs a).1 || intra a).toNat
    else if single l then 2 + (checkBackward (refs l).1 || intra l).toNat
    else 4
  else if a.isSome then (if single a then (checkBackward (refs a).1).toNat else 3)
  else if l.isSome then (if single l then (checkBackward (refs l).1).toNat else 3)
  else 1

/-- `is_samedir_ref_pair( ref0, ref1 )`. -/
def samedir (r0 r1 : Int) : Bool := decide (5 ≤ r0) == decide (5 ≤ r1)

/-- The context of `comp_ref_type`. -/
def compRefTypeCtx (a l : Option Blk) : Nat :=
  let aboveCompInter := a.isSome && !intra a && !single a
  let leftCompInter := l.isSome && !intra l && !single l
  let aboveUniComp := aboveCompInter && samedir (refs a).1 (refs a).2
  let leftUniComp := leftCompInter && samedir (refs l).1 (refs l).2
  if a.isSome ∧ ¬ intra a ∧ l.isSome ∧ ¬ intra l then
    let same := (samedir (refs a).1 (refs l).1).toNat
    if ¬ aboveCompInter ∧ ¬ leftCompInter then 1 + 2 * same
    else if ¬ aboveCompInter then (if ¬ leftUniComp then 1 else 3 + same)
    else if ¬ leftCompInter then (if ¬ aboveUniComp then 1 else 3 + same)
    else if ¬ aboveUniComp ∧ ¬ leftUniComp then 0
    else if ¬ aboveUniComp ∨ ¬ leftUniComp then 2
    else 3 + (decide ((refs a).1 = 5) == decide ((refs l).1 = 5)).toNat
  else if a.isSome ∧ l.isSome then
    if aboveCompInter then 1 + 2 * aboveUniComp.toNat
    else if leftCompInter then 1 + 2 * leftUniComp.toNat
    else 2
  else if aboveCompInter then 4 * aboveUniComp.toNat
  else if leftCompInter then 4 * leftUniComp.toNat
  else 2

/-- `count_refs( frameType )`. -/
def countRefs (a l : Option Blk) (f : Int) : Nat :=
  (if a.isSome then (if (refs a).1 = f then 1 else 0) + (if (refs a).2 = f then 1 else 0) else 0) +
    (if l.isSome then (if (refs l).1 = f then 1 else 0) + (if (refs l).2 = f then 1 else 0) else 0)

/-- `ref_count_ctx( counts0, counts1 )`. -/
def refCountCtx (c0 c1 : Nat) : Nat := if c0 < c1 then 0 else if c0 = c1 then 1 else 2

/-- The context of `single_ref_p1`. -/
def ctxP1 (a l : Option Blk) : Nat :=
  refCountCtx (countRefs a l 1 + countRefs a l 2 + countRefs a l 3 + countRefs a l 4) (countRefs a l 5 + countRefs a l 6 + countRefs a l 7)

/-- The context of `single_ref_p2` and `comp_bwdref`. -/
def ctxP2 (a l : Option Blk) : Nat := refCountCtx (countRefs a l 5 + countRefs a l 6) (countRefs a l 7)

/-- The context of `single_ref_p3` and `comp_ref`. -/
def ctxP3 (a l : Option Blk) : Nat := refCountCtx (countRefs a l 1 + countRefs a l 2) (countRefs a l 3 + countRefs a l 4)

/-- The context of `single_ref_p4` and `comp_ref_p1`. -/
def ctxP4 (a l : Option Blk) : Nat := refCountCtx (countRefs a l 1) (countRefs a l 2)

/-- The context of `single_ref_p5` and `comp_ref_p2`. -/
def ctxP5 (a l : Option Blk) : Nat := refCountCtx (countRefs a l 3) (countRefs a l 4)

/-- The context of `single_ref_p6` and `comp_bwdref_p1`. -/
def ctxP6 (a l : Option Blk) : Nat := refCountCtx (countRefs a l 5) (countRefs a l 6)

/-- `read_ref_frames( )`: `RefFrame`. -/
def readRefFrames (referenceSelect : Bool) (bw4 bh4 : Nat) (a l : Option Blk) (s : List Sym) : Option ((Int × Int) × List Sym) := do
  let (compMode, s) ← if referenceSelect ∧ min bw4 bh4 ≥ 2 then read (.compMode (compModeCtx a l)) s else some (0, s)
  if compMode = 1 then do
    let (compRefType, s) ← read (.compRefType (compRefTypeCtx a l)) s
    if compRefType = 0 then none
    else do
      let (compRef, s) ← read (.compRef (ctxP3 a l) 0) s
      let (ref0, s) ←
        if compRef = 0 then do
          let (p1, s) ← read (.compRef (ctxP4 a l) 1) s
          some (if p1 = 1 then (2 : Int) else 1, s)
        else do
          let (p2, s) ← read (.compRef (ctxP5 a l) 2) s
          some (if p2 = 1 then (4 : Int) else 3, s)
      let (compBwdref, s) ← read (.compBwdref (ctxP2 a l) 0) s
      let (ref1, s) ←
        if compBwdref = 0 then do
          let (p1, s) ← read (.compBwdref (ctxP6 a l) 1) s
          some (if p1 = 1 then (6 : Int) else 5, s)
        else some (7, s)
      some ((ref0, ref1), s)
  else do
    let (p1, s) ← read (.singleRef (ctxP1 a l) 0) s
    if p1 = 1 then do
      let (p2, s) ← read (.singleRef (ctxP2 a l) 1) s
      if p2 = 0 then do
        let (p6, s) ← read (.singleRef (ctxP6 a l) 5) s
        some ((if p6 = 1 then 6 else 5, -1), s)
      else some ((7, -1), s)
    else do
      let (p3, s) ← read (.singleRef (ctxP3 a l) 2) s
      if p3 = 1 then do
        let (p5, s) ← read (.singleRef (ctxP5 a l) 4) s
        some ((if p5 = 1 then 4 else 3, -1), s)
      else do
        let (p4, s) ← read (.singleRef (ctxP4 a l) 3) s
        some ((if p4 = 1 then 2 else 1, -1), s)

/-! ### Intra modes -/

/-- The block sizes with an aspect ratio of at most two, in the order of `BLOCK_4X4`, `BLOCK_4X8`, … `BLOCK_64X64`: `MiSize`. -/
def miSize (bw4 bh4 : Nat) : Nat :=
  [(1, 1), (1, 2), (2, 1), (2, 2), (2, 4), (4, 2), (4, 4), (4, 8), (8, 4), (8, 8), (8, 16), (16, 8), (16, 16)].idxOf (bw4, bh4)

/-- `Size_Group`. -/
def sizeGroup : List Nat := [0, 0, 0, 1, 1, 1, 2, 2, 2, 3, 3, 3, 3]

/-- `Intra_Mode_Context`. -/
def intraModeContext : List Nat := [0, 1, 2, 3, 4, 4, 4, 4, 3, 0, 1, 2, 0]

/-- `YMode` of a neighbour, `DC_PRED` = 0 without one. -/
def nbMode (b : Option Blk) : Nat := (b.map (·.hdr.yMode)).getD 0

/-- `is_directional_mode( mode )`: `V_PRED` to `D67_PRED`. -/
def isDirectional (m : Nat) : Bool := decide (1 ≤ m ∧ m ≤ 8)

/-- `intra_angle_info_y( )` and `intra_angle_info_uv( )`. -/
def readAngle (bw4 bh4 mode : Nat) (s : List Sym) : Option (Int × List Sym) :=
  if miSize bw4 bh4 ≥ 3 ∧ isDirectional mode then do
    let (v, s) ← read (.angleDelta (mode - 1)) s
    some ((v : Int) - 3, s)
  else some (0, s)

/-- `HasChroma`. -/
def hasChroma (p : Par) (row col bw4 bh4 : Nat) : Bool :=
  if p.subY ∧ row % 2 = 0 ∧ bh4 % 2 = 1 then false
  else if p.subX ∧ col % 2 = 0 ∧ bw4 % 2 = 1 then false
  else !p.monochrome

/-- `read_cfl_alphas( )`. -/
def readCflAlphas (s : List Sym) : Option ((Int × Int) × List Sym) := do
  let (signs, s) ← read .cflAlphaSigns s
  let signU := (signs + 1) / 3
  let signV := (signs + 1) % 3
  let (u, s) ←
    if signU ≠ 0 then do
      let (v, s) ← read (.cflAlpha ((signU - 1) * 3 + signV)) s
      some (if signU = 1 then -(1 + (v : Int)) else 1 + (v : Int), s)
    else some ((0 : Int), s)
  let (v, s) ←
    if signV ≠ 0 then do
      let (v, s) ← read (.cflAlpha ((signV - 1) * 3 + signU)) s
      some (if signV = 1 then -(1 + (v : Int)) else 1 + (v : Int), s)
    else some ((0 : Int), s)
  some ((u, v), s)

/-- `uv_mode`, `read_cfl_alphas( )` and `intra_angle_info_uv( )` where there is chroma. -/
def readUV (p : Par) (row col bw4 bh4 yMode : Nat) (s : List Sym) : Option ((Nat × Int × Int × Int) × List Sym) :=
  if hasChroma p row col bw4 bh4 then do
    let (uvMode, s) ← read (.uvMode (decide (max (4 * bw4) (4 * bh4) ≤ 32)) yMode) s
    let ((u, v), s) ← if uvMode = 13 then readCflAlphas s else some ((0, 0), s)
    let (angle, s) ← readAngle bw4 bh4 uvMode s
    some ((uvMode, angle, u, v), s)
  else some ((0, 0, 0, 0), s)

/-- `palette_mode_info( )`; no block of the tile has a palette. -/
def readPalette (p : Par) (row col bw4 bh4 yMode uvMode : Nat) (s : List Sym) : Option (Unit × List Sym) :=
  if miSize bw4 bh4 ≥ 3 ∧ 4 * bw4 ≤ 64 ∧ 4 * bh4 ≤ 64 ∧ p.allowScreenContentTools then do
    let (y, s) ← if yMode = 0 then read (.hasPaletteY (Nat.log2 bw4 + Nat.log2 bh4 - 2) 0) s else some (0, s)
    let (uv, s) ← if hasChroma p row col bw4 bh4 ∧ uvMode = 0 then read (.hasPaletteUV 0) s else some (0, s)
    if y = 0 ∧ uv = 0 then some ((), s) else none
  else some ((), s)

/-- `filter_intra_mode_info( )`. -/
def readFilterIntra (p : Par) (bw4 bh4 yMode : Nat) (s : List Sym) : Option (Unit × List Sym) :=
  if p.enableFilterIntra ∧ yMode = 0 ∧ max (4 * bw4) (4 * bh4) ≤ 32 then do
    let (v, s) ← read (.useFilterIntra (miSize bw4 bh4)) s
    if v = 0 then some ((), s) else none
  else some ((), s)

/-- `YMode`. -/
def readIntraYMode (p : Par) (bw4 bh4 : Nat) (a l : Option Blk) (s : List Sym) : Option (Nat × List Sym) := do
  if p.frameIsIntra then do
    let ca ← intraModeContext[nbMode a]?
    let cl ← intraModeContext[nbMode l]?
    read (.intraFrameYMode ca cl) s
  else do
    let c ← sizeGroup[miSize bw4 bh4]?
    read (.yMode c) s

/-- The end of `intra_frame_mode_info( )`, and `intra_block_mode_info( )`. -/
def readIntra (p : Par) (row col bw4 bh4 : Nat) (a l : Option Blk) (s : List Sym) : Option ((Nat × Int × Nat × Int × Int × Int) × List Sym) := do
  let (yMode, s) ← readIntraYMode p bw4 bh4 a l s
  let (angleY, s) ← readAngle bw4 bh4 yMode s
  let ((uvMode, angleUV, u, v), s) ← readUV p row col bw4 bh4 yMode s
  let (_, s) ← readPalette p row col bw4 bh4 yMode uvMode s
  let (_, s) ← readFilterIntra p bw4 bh4 yMode s
  some ((yMode, angleY, uvMode, angleUV, u, v), s)

/-! ### Blocks -/

/-- The symbols of the motion syntax that come next. -/
def motionPart : List Sym → List Mvref.Spec.Sym
  | (.motion c, v) :: s => (c, v) :: motionPart s
  | _ => []

@[inherit_doc motionPart] def motionRest : List Sym → List Sym
  | (.motion _, _) :: s => motionRest s
  | s => s

/-- The mode and the vectors of an inter block, as in `Rav1e.Mvref.Spec`. -/
def readMotion (p : Par) (pre : List Blk) (row col bw4 bh4 : Nat) (ref0 ref1 : Int) (s : List Sym) : Option (Info × List Sym) := do
  let out ← (Mvref.Spec.Input.mk p.g (Mvref.Spec.decoded (pre.map Blk.motion)) row col bw4 bh4 ref0 ref1 p.signBias).findMvStack
  let ((m, mv0, mv1), q) ← Mvref.Spec.readMotion (decide (ref1 > 0)) out (motionPart s)
  some (⟨m, ref0, ref1, mv0, mv1.getD (0, 0)⟩, q.map (fun x => (.motion x.1, x.2)) ++ motionRest s)

/-- `Info` of an intra block. -/
def intraInfo : Info := ⟨.intra, 0, -1, (0, 0), (0, 0)⟩

/-- `intra_frame_mode_info( )` or `inter_frame_mode_info( )`, after the blocks `pre`. -/
def readBlock (p : Par) (pre : List Blk) (row col bw4 bh4 : Nat) (s : List Sym) : Option (Blk × List Sym) := do
  let d := decoded pre
  let a ← p.look d ((row : Int) - 1) col
  let l ← p.look d row ((col : Int) - 1)
  let ul ← p.look d ((row : Int) - 1) ((col : Int) - 1)
  let ((seg, skip), s) ← readSkip p ul a l s
  let (isInter, s) ← if p.frameIsIntra then some (0, s) else read (.isInter (isInterCtx a l)) s
  if isInter = 1 then do
    let ((ref0, ref1), s) ← readRefFrames p.referenceSelect bw4 bh4 a l s
    let (info, s) ← readMotion p pre row col bw4 bh4 ref0 ref1 s
    some (⟨row, col, bw4, bh4, ⟨skip, seg, info, 0, 0, 0, 0, 0, 0⟩⟩, s)
  else do
    let ((yMode, angleY, uvMode, angleUV, u, v), s) ← readIntra p row col bw4 bh4 a l s
    some (⟨row, col, bw4, bh4, ⟨skip, seg, intraInfo, yMode, angleY, uvMode, angleUV, u, v⟩⟩, s)

/-! ### Partitions -/

/-- `PARTITION_NONE`, `PARTITION_HORZ`, `PARTITION_VERT`, `PARTITION_SPLIT`. -/
inductive Part
  | none | horz | vert | split
  deriving DecidableEq, Repr

/-- The partition types this encoder uses. -/
def partOf : Nat → Option Part
  | 0 => some .none
  | 1 => some .horz
  | 2 => some .vert
  | 3 => some .split
  | _ => Option.none

/-- The context of `partition`, `split_or_horz` and `split_or_vert` for a square of `n` units. -/
def partitionCtx (n : Nat) (a l : Option Blk) : Nat :=
  (if l.any fun b => decide (Nat.log2 b.bh4 < Nat.log2 n) then 2 else 0) + (if a.any fun b => decide (Nat.log2 b.bw4 < Nat.log2 n) then 1 else 0)

/-- `partition` in `decode_partition( r, c, bSize )` for squares from 8x8 pixels on; the distributions are those for the width of the square. -/
def readPartition (p : Par) (pre : List Blk) (n r c : Nat) (s : List Sym) : Option (Part × List Sym) := do
  let d := decoded pre
  let a ← p.look d ((r : Int) - 1) c
  let l ← p.look d r ((c : Int) - 1)
  let hasRows := decide (r + n / 2 < p.g.miRows)
  let hasCols := decide (c + n / 2 < p.g.miCols)
  if hasRows ∧ hasCols then do
    let (v, s) ← read (.partition (Nat.log2 n - 1) (partitionCtx n a l)) s
    let t ← partOf v
    some (t, s)
  else if hasCols then do
    let (v, s) ← read (.splitOrHorz (Nat.log2 n - 1) (partitionCtx n a l)) s
    some (if v = 1 then .split else .horz, s)
  else if hasRows then do
    let (v, s) ← read (.splitOrVert (Nat.log2 n - 1) (partitionCtx n a l)) s
    some (if v = 1 then .split else .vert, s)
  else some (.split, s)

/-- `decode_partition( r, c, bSize )` for a square of 2 ^ `k` units, after the blocks `pre`: `pre` with its blocks. One of 4x4 pixels is a block. -/
def readTree (p : Par) : Nat → Nat → Nat → List Blk → List Sym → Option (List Blk × List Sym)
  | 0, r, c, pre, s =>
    if r ≥ p.g.miRows ∨ c ≥ p.g.miCols then some (pre, s)
    else do
      let (b, s) ← readBlock p pre r c 1 1 s
      some (pre ++ [b], s)
  | k + 1, r, c, pre, s =>
    if r ≥ p.g.miRows ∨ c ≥ p.g.miCols then some (pre, s)
    else do
      let (t, s) ← readPartition p pre (2 ^ (k + 1)) r c s
      match t with
      | .none => do
        let (b, s) ← readBlock p pre r c (2 ^ (k + 1)) (2 ^ (k + 1)) s
        some (pre ++ [b], s)
      | .horz => do
        let (b, s) ← readBlock p pre r c (2 ^ (k + 1)) (2 ^ k) s
        if r + 2 ^ k < p.g.miRows then do
          let (b', s) ← readBlock p (pre ++ [b]) (r + 2 ^ k) c (2 ^ (k + 1)) (2 ^ k) s
          some (pre ++ [b] ++ [b'], s)
        else some (pre ++ [b], s)
      | .vert => do
        let (b, s) ← readBlock p pre r c (2 ^ k) (2 ^ (k + 1)) s
        if c + 2 ^ k < p.g.miCols then do
          let (b', s) ← readBlock p (pre ++ [b]) r (c + 2 ^ k) (2 ^ k) (2 ^ (k + 1)) s
          some (pre ++ [b] ++ [b'], s)
        else some (pre ++ [b], s)
      | .split => do
        let (pre, s) ← readTree p k r c pre s
        let (pre, s) ← readTree p k r (c + 2 ^ k) pre s
        let (pre, s) ← readTree p k (r + 2 ^ k) c pre s
        readTree p k (r + 2 ^ k) (c + 2 ^ k) pre s

/-- `decode_tile`: the superblocks of a row. -/
def readRow (p : Par) (r : Nat) : Nat → Nat → List Blk → List Sym → Option (List Blk × List Sym)
  | 0, _, pre, s => some (pre, s)
  | k + 1, j, pre, s => do
    let (pre, s) ← readTree p 4 r (p.g.colStart + 16 * j) pre s
    readRow p r k (j + 1) pre s

/-- `decode_tile`: the rows of superblocks. -/
def readRows (p : Par) : Nat → Nat → List Blk → List Sym → Option (List Blk × List Sym)
  | 0, _, pre, s => some (pre, s)
  | k + 1, i, pre, s => do
    let (pre, s) ← readRow p (p.g.rowStart + 16 * i) ((p.g.colEnd - p.g.colStart + 15) / 16) 0 pre s
    readRows p k (i + 1) pre s

/-- `decode_tile`: the blocks of the tile. -/
def readTile (p : Par) (s : List Sym) : Option (List Blk × List Sym) := readRows p ((p.g.rowEnd - p.g.rowStart + 15) / 16) 0 [] s

end Rav1e.Block.Spec

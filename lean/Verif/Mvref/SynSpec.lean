import Verif.Mvref.Spec

/-!
# Motion syntax, as the decoder reads it

Transcribed from the AV1 specification: the part of `inter_block_mode_info` (5.11.23) after `read_ref_frames` that gives the mode and the motion vectors,
`assign_mv` (5.11.26), `read_mv` (5.11.31), `read_mv_component` (5.11.32), `get_mode` (5.11.30), and the choice of contexts for these syntax elements (8.3.2).
A coded symbol is a value together with the distribution it was coded with: a decoder that uses another one does not get the value.
-/

namespace Rav1e.Mvref.Spec

/-- The distributions, with their contexts. -/
inductive Cdf
  | newMv (ctx : Nat) | zeroMv (ctx : Nat) | refMv (ctx : Nat) | compoundMode (ctx : Nat) | drlMode (ctx : Nat)
  | mvJoint | mvSign (comp : Nat) | mvClass (comp : Nat) | mvClass0Bit (comp : Nat) | mvClass0Fr (comp bit : Nat) | mvClass0Hp (comp : Nat)
  | mvBit (comp i : Nat) | mvFr (comp : Nat) | mvHp (comp : Nat)
  deriving DecidableEq, Repr

/-- The number of values. -/
def Cdf.size : Cdf → Nat
  | .compoundMode _ => 8
  | .mvJoint => 4
  | .mvClass _ => 11
  | .mvClass0Fr _ _ => 4
  | .mvFr _ => 4
  | _ => 2

/-- A coded symbol. -/
abbrev Sym := Cdf × Nat

/-- Reading a symbol. -/
def read (c : Cdf) : List Sym → Option (Nat × List Sym)
  | [] => none
  | s :: l => if s.1 = c ∧ s.2 < c.size then some (s.2, l) else none

/-- The loop over `mv_bit` in `read_mv_component`. -/
def readBits (comp mvClass : Nat) : Nat → Nat → Nat → List Sym → Option (Nat × List Sym)
  | 0, _, d, l => some (d, l)
  | fuel + 1, i, d, l =>
    if i < mvClass then do
      let (mvBit, l) ← read (.mvBit comp i) l
      readBits comp mvClass fuel (i + 1) (d ||| (mvBit <<< i)) l
    else some (d, l)

/-- The magnitude in `read_mv_component( comp )`, after `mv_class`; `CLASS0_SIZE` = 2. -/
def readMag (forceInteger highPrecision : Bool) (comp mvClass : Nat) (l : List Sym) : Option (Nat × List Sym) :=
  if mvClass = 0 then do
    let (bit, l) ← read (.mvClass0Bit comp) l
    let (fr, l) ← if forceInteger then some (3, l) else read (.mvClass0Fr comp bit) l
    let (hp, l) ← if highPrecision then read (.mvClass0Hp comp) l else some (1, l)
    some (((bit <<< 3) ||| (fr <<< 1) ||| hp) + 1, l)
  else do
    let (d, l) ← readBits comp mvClass mvClass 0 0 l
    let (fr, l) ← if forceInteger then some (3, l) else read (.mvFr comp) l
    let (hp, l) ← if highPrecision then read (.mvHp comp) l else some (1, l)
    some ((2 <<< (mvClass + 2)) + (((d <<< 3) ||| (fr <<< 1) ||| hp) + 1), l)

/-- `read_mv_component( comp )`. -/
def readMvComponent (forceInteger highPrecision : Bool) (comp : Nat) (l : List Sym) : Option (Int × List Sym) := do
  let (sign, l) ← read (.mvSign comp) l
  let (mvClass, l) ← read (.mvClass comp) l
  let (mag, l) ← readMag forceInteger highPrecision comp mvClass l
  some (if sign = 1 then -(mag : Int) else (mag : Int), l)

/-- `read_mv( ref )`, from `PredMv[ ref ]`. -/
def readMv (forceInteger highPrecision : Bool) (pred : Mv) (l : List Sym) : Option (Mv × List Sym) := do
  let (joint, l) ← read .mvJoint l
  let (r, l) ← if joint = 2 ∨ joint = 3 then readMvComponent forceInteger highPrecision 0 l else some (0, l)
  let (c, l) ← if joint = 1 ∨ joint = 3 then readMvComponent forceInteger highPrecision 1 l else some (0, l)
  some ((pred.1 + r, pred.2 + c), l)

/-- `Compound_Mode_Ctx_Map`. -/
def compoundModeCtxMap : List (List Nat) := [[0, 1, 1, 1, 1], [1, 2, 3, 4, 4], [4, 4, 5, 6, 7]]

/-- The context of `compound_mode`. -/
def compoundModeCtx (newMvContext refMvContext : Nat) : Nat := (compoundModeCtxMap.getD (refMvContext >>> 1) []).getD (min newMvContext 4) 0

/-- `NEAREST_NEARESTMV + compound_mode`. -/
def compoundOf : Nat → Option YMode
  | 0 => some .nearest_nearestmv
  | 1 => some .near_nearmv
  | 2 => some .nearest_newmv
  | 3 => some .new_nearestmv
  | 4 => some .near_newmv
  | 5 => some .new_nearmv
  | 6 => some .global_globalmv
  | 7 => some .new_newmv
  | _ => none

/-- `YMode` (5.11.23); `ZeroMvContext` is 0 because there is no motion field. -/
def readYMode (compound : Bool) (out : Result) (l : List Sym) : Option (YMode × List Sym) :=
  if compound then do
    let (v, l) ← read (.compoundMode (compoundModeCtx out.newMvContext out.refMvContext)) l
    let m ← compoundOf v
    some (m, l)
  else do
    let (newMv, l) ← read (.newMv out.newMvContext) l
    if newMv = 0 then some (.newmv, l)
    else do
      let (zeroMv, l) ← read (.zeroMv 0) l
      if zeroMv = 0 then some (.globalmv, l)
      else do
        let (refMv, l) ← read (.refMv out.refMvContext) l
        some (if refMv = 0 then .nearestmv else .nearmv, l)

/-- `has_nearmv( )`. -/
def YMode.hasNearmv (m : YMode) : Bool := decide (m = .nearmv ∨ m = .near_nearmv ∨ m = .near_newmv ∨ m = .new_nearmv)

/-- The loops over `drl_mode`: `idx` takes two values from the first one on; `cur` is `RefMvIdx`. -/
def readDrl (out : Result) : Nat → Nat → Nat → List Sym → Option (Nat × List Sym)
  | 0, _, cur, l => some (cur, l)
  | fuel + 1, idx, cur, l =>
    if out.stack.length > idx + 1 then do
      let ctx ← out.drl[idx]?
      let (drlMode, l) ← read (.drlMode ctx) l
      if drlMode = 0 then some (idx, l) else readDrl out fuel (idx + 1) (idx + 1) l
    else readDrl out fuel (idx + 1) cur l

/-- `RefMvIdx`. -/
def readRefMvIdx (out : Result) (m : YMode) (l : List Sym) : Option (Nat × List Sym) :=
  if m = .newmv ∨ m = .new_newmv then readDrl out 2 0 0 l
  else if m.hasNearmv then readDrl out 2 1 1 l
  else some (0, l)

/-- `get_mode( refList )`. -/
def getMode (m : YMode) (refList : Nat) : YMode :=
  if refList = 0 then
    match m with
    | .new_newmv => .newmv
    | .new_nearestmv => .newmv
    | .new_nearmv => .newmv
    | .nearest_nearestmv => .nearestmv
    | .nearest_newmv => .nearestmv
    | .near_nearmv => .nearmv
    | .near_newmv => .nearmv
    | .global_globalmv => .globalmv
    | m => m
  else
    match m with
    | .new_newmv => .newmv
    | .nearest_newmv => .newmv
    | .near_newmv => .newmv
    | .nearest_nearestmv => .nearestmv
    | .new_nearestmv => .nearestmv
    | .near_nearmv => .nearmv
    | .new_nearmv => .nearmv
    | _ => .globalmv

/-- `RefStackMv[ pos ][ i ]`; the first two are `GlobalMvs` where nothing was found (7.10.2.12). -/
def refStackMv (out : Result) (pos i : Nat) : Option Mv :=
  match out.stack[pos]? with
  | some q => some (if i = 0 then q.mv0 else q.mv1)
  | none => if pos < 2 then some (0, 0) else none

/-- `assign_mv`, for one `i`. -/
def assignMv (out : Result) (m : YMode) (refMvIdx i : Nat) (l : List Sym) : Option (Mv × List Sym) :=
  let compMode := getMode m i
  if compMode = .globalmv then some ((0, 0), l)
  else do
    let pos := if compMode = .nearestmv then 0 else refMvIdx
    let pos := if compMode = .newmv ∧ out.stack.length ≤ 1 then 0 else pos
    let pred ← refStackMv out pos i
    if compMode = .newmv then readMv false false pred l else some (pred, l)

/-- The mode and the motion vectors of a block; without compound prediction there is no second vector. -/
def readMotion (compound : Bool) (out : Result) (l : List Sym) : Option ((YMode × Mv × Option Mv) × List Sym) := do
  let (m, l) ← readYMode compound out l
  let (idx, l) ← readRefMvIdx out m l
  let (mv0, l) ← assignMv out m idx 0 l
  if compound then do
    let (mv1, l) ← assignMv out m idx 1 l
    some ((m, mv0, some mv1), l)
  else some ((m, mv0, none), l)

end Rav1e.Mvref.Spec

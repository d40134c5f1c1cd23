import Verif.Mvref.SynSpec
import Verif.Mvref.Theorems
import Mathlib.Data.Nat.Log

/-!
# Motion syntax: the code

What `encode_block_post_cdef` writes for the motion of an inter block, function by function: the list of symbols with their distributions.  `none` is a
panic.  `newmv_cdf[ctx]`, `zeromv_cdf`, `refmv_cdf`, `compound_mode_cdf`, `drl_cdfs` and the distributions of `nmv_context` have the names of the
specification here.
-/

namespace Rav1e.Mvref

open Spec (Cdf Sym Entry Blk Geo Tree Input)

/-- `MvSubpelPrecision` (src/partition.rs:542-546). -/
inductive Precision
  | none | low | high
  deriving DecidableEq, Repr

/-- `mv_class_base` (src/context/mod.rs:154-160). -/
def mvClassBase (c : Nat) : Nat := if c ≠ 0 then 2 <<< (c + 2) else 0

/-- `get_mv_class` (src/context/mod.rs:169-178); `log_in_base_2` (src/context/mod.rs:163-165) is `Nat.log2`. -/
def getMvClass (z : Nat) : Nat × Nat :=
  let c := if z ≥ 2 * 4096 then 10 else Nat.log2 (z >>> 3)
  (c, z - mvClassBase c)

/-- `encode_mv_component` (src/context/mod.rs:185-245). -/
def encodeMvComponent (comp : Int) (axis : Nat) (prec : Precision) : Option (List Sym) :=
  if comp ≠ 0 ∧ -16384 ≤ comp ∧ comp ≤ 16384 then
    let sign := if comp < 0 then 1 else 0
    let mag := comp.natAbs
    let (mvClass, offset) := getMvClass (mag - 1)
    let d := offset >>> 3
    let fr := (offset >>> 1) &&& 3
    let hp := offset &&& 1
    let bits : List Sym := if mvClass = 0 then [(.mvClass0Bit axis, d)]
      else (List.range (mvClass + 1 - 1)).map fun i => (.mvBit axis i, (d >>> i) &&& 1)
    let frac : List Sym := if prec ≠ .none then [(if mvClass = 0 then .mvClass0Fr axis d else .mvFr axis, fr)] else []
    let high : List Sym := if prec = .high then [(if mvClass = 0 then .mvClass0Hp axis else .mvHp axis, hp)] else []
    some ([(.mvSign axis, sign), (.mvClass axis, mvClass)] ++ bits ++ frac ++ high)
  else none

/-- `av1_get_mv_joint` (src/context/mod.rs:135-142), with the values of `MvJointType` (src/partition.rs:552-557). -/
def mvJoint (d : Mv) : Nat := if d.1 = 0 then (if d.2 = 0 then 0 else 1) else (if d.2 = 0 then 2 else 3)

/-- `MotionVector::is_valid` (src/mc.rs:46-50). -/
def isValid (v : Mv) : Bool := decide (-16384 < v.1 ∧ v.1 < 16384 ∧ -16384 < v.2 ∧ v.2 < 16384)

/-- `a - b` for `i16`. -/
def subI16 (a b : Int) : Option Int := if -32768 ≤ a - b ∧ a - b ≤ 32767 then some (a - b) else none

/-- `write_mv` (src/context/block_unit.rs:1725-1745). -/
def writeMv (mv ref : Mv) (prec : Precision) : Option (List Sym) :=
  if isValid mv then do
    let r ← subI16 mv.1 ref.1
    let c ← subI16 mv.2 ref.2
    let j := mvJoint (r, c)
    let a ← if j = 2 ∨ j = 3 then encodeMvComponent r 0 prec else some []
    let b ← if j = 1 ∨ j = 3 then encodeMvComponent c 1 prec else some []
    some ((.mvJoint, j) :: a ++ b)
  else none

/-- `PredictionMode::is_compound` (src/predict.rs:154-156). -/
def Mode.isCompound (m : Mode) : Bool :=
  match m with
  | .intra | .nearestmv | .near0mv | .near1mv | .near2mv | .globalmv | .newmv => false
  | _ => true

/-- `PredictionMode::has_nearmv` (src/predict.rs:158-171). -/
def Mode.hasNearmv (m : Mode) : Bool :=
  match m with
  | .near0mv | .near1mv | .near2mv | .near_near0mv | .near_near1mv | .near_near2mv | .near_new0mv | .near_new1mv | .near_new2mv
  | .new_near0mv | .new_near1mv | .new_near2mv => true
  | _ => false

/-- `PredictionMode::ref_mv_idx` (src/predict.rs:186-200). -/
def Mode.refMvIdx (m : Mode) : Nat :=
  match m with
  | .near0mv | .near_near0mv => 1
  | .near1mv | .near_near1mv => 2
  | .near2mv | .near_near2mv => 3
  | _ => 1

/-- `write_compound_mode` (src/context/block_unit.rs:1660-1693). -/
def writeCompoundMode (m : Mode) (ctx : Nat) : Option (List Sym) := do
  let newmv := ctx &&& 7
  let refmv := (ctx >>> 4) &&& 15
  let c := if refmv < 2 then min newmv 1 else if refmv < 4 then min (newmv + 1) 4 else min (max newmv 1 + 3) 7
  let v ← match m with
    | .nearest_nearestmv => some 0
    | .near_near0mv | .near_near1mv | .near_near2mv => some 1
    | .nearest_newmv => some 2
    | .new_nearestmv => some 3
    | .near_new0mv | .near_new1mv | .near_new2mv => some 4
    | .new_near0mv | .new_near1mv | .new_near2mv => some 5
    | .global_globalmv => some 6
    | .new_newmv => some 7
    | _ => none
  some [(.compoundMode c, v)]

/-- `write_inter_mode` (src/context/block_unit.rs:1695-1712). -/
def writeInterMode (m : Mode) (ctx : Nat) : List Sym :=
  (.newMv (ctx &&& 7), (decide (m ≠ .newmv)).toNat) ::
    if m ≠ .newmv then
      (.zeroMv ((ctx >>> 3) &&& 1), (decide (m ≠ .globalmv)).toNat) ::
        if m ≠ .globalmv then [(.refMv ((ctx >>> 4) &&& 15), (decide (m ≠ .nearestmv)).toNat)] else []
    else []

/-- The loops that write `drl_mode` (src/encoder.rs:2009-2020 and 2054-2065), with `write_drl_mode` (src/context/block_unit.rs:1715-1720). -/
def writeDrl (stack : List Cand) (refMvIdx : Nat) : Nat → Nat → List Sym
  | 0, _ => []
  | fuel + 1, idx =>
    match stack[idx]?, stack[idx + 1]? with
    | some a, some b =>
      (.drlMode (drlModeCtx a b), (decide (refMvIdx > idx)).toNat) :: if refMvIdx > idx then writeDrl stack refMvIdx fuel (idx + 1) else []
    | _, _ => writeDrl stack refMvIdx fuel (idx + 1)

/-- `ref_mvs` (src/encoder.rs:2022-2026). -/
def refMvs (stack : List Cand) : Mv × Mv :=
  match stack with
  | [] => ((0, 0), (0, 0))
  | q :: _ => (q.this, q.comp)

/-- The assertions on the vectors (src/encoder.rs:2066-2081). -/
def checkMvs (m : Mode) (mv0 : Mv) (stack : List Cand) : Option Unit :=
  if m.hasNearmv then
    if stack.length > 1 then
      match stack[m.refMvIdx]? with
      | some q => if q.this = mv0 then some () else none
      | none => none
    else if mv0 = (0, 0) then some () else none
  else if m = .nearestmv then
    match stack with
    | [] => if mv0 = (0, 0) then some () else none
    | q :: _ => if mv0 = q.this then some () else none
  else some ()

/-- The motion of an inter block (src/encoder.rs:1994-2081). -/
def writeMotion (m : Mode) (mv0 mv1 : Mv) (stack : List Cand) (ctx : Nat) (prec : Precision) : Option (List Sym) := do
  let mode ← if m.isCompound then writeCompoundMode m ctx else some (writeInterMode m ctx)
  let drl0 ← if m = .newmv ∨ m = .new_newmv then
      (if m = .new_newmv ∧ stack.length < 2 then none else some (writeDrl stack 0 2 0))
    else some []
  let new0 ← if m = .newmv ∨ m = .new_newmv ∨ m = .new_nearestmv then writeMv mv0 (refMvs stack).1 prec else some []
  let new1 ← if m = .new_newmv ∨ m = .nearest_newmv then writeMv mv1 (refMvs stack).2 prec else some []
  let drl1 ← if m.hasNearmv then
      (if m ≠ .near0mv ∧ ¬ stack.length > m.refMvIdx then none else some (writeDrl stack m.refMvIdx 2 1))
    else some []
  checkMvs m mv0 stack
  some (mode ++ drl0 ++ new0 ++ new1 ++ drl1)

/-- The vectors that go with a mode in the mode decision (src/rdo.rs:1281-1317); `me` is what motion estimation found. -/
def rdoMvs (m : Mode) (me0 me1 : Mv) (stack : List Cand) : Option (Mv × Mv) :=
  match m with
  | .newmv | .new_newmv => some (me0, me1)
  | .nearestmv | .nearest_nearestmv =>
    match stack with
    | q :: _ => some (q.this, q.comp)
    | [] => some ((0, 0), (0, 0))
  | .near0mv | .near_near0mv =>
    match stack[1]? with
    | some q => some (q.this, q.comp)
    | none => some ((0, 0), (0, 0))
  | .near1mv | .near2mv | .near_near1mv | .near_near2mv => stack[m.refMvIdx]?.map fun q => (q.this, q.comp)
  | .nearest_newmv => stack[0]?.map fun q => (q.this, me1)
  | .new_nearestmv => stack[0]?.map fun q => (me0, q.comp)
  | .globalmv | .global_globalmv => some ((0, 0), (0, 0))
  | _ => none

/-- Whether the first vector of a candidate is this one (src/encoder.rs:3037-3038). -/
def isThis (q : Cand) (mv : Mv) : Bool := decide (q.this = mv)

/-- Whether the second vector of a candidate is this one (src/encoder.rs:3039-3040). -/
def isComp (q : Cand) (mv : Mv) : Bool := decide (q.comp = mv)

/-- The new mode for two references (src/encoder.rs:3036-3077). -/
def remapCompound (mv0 mv1 : Mv) (stack : List Cand) : Option Mode := do
  let q0 ← stack[0]?
  let q1 ← stack[1]?
  let match4 := (stack[2]?.map fun q => isThis q mv0).getD false
  let match5 := (stack[2]?.map fun q => isComp q mv1).getD false
  let match6 := (stack[3]?.map fun q => isThis q mv0).getD false
  let match7 := (stack[3]?.map fun q => isComp q mv1).getD false
  let m : Mode :=
    if isThis q0 mv0 && isComp q0 mv1 then .nearest_nearestmv
    else if isThis q1 mv0 && isComp q1 mv1 then .near_near0mv
    else if match4 && match5 then .near_near1mv
    else if match6 && match7 then .near_near2mv
    else if isThis q0 mv0 then .nearest_newmv
    else if isComp q0 mv1 then .new_nearestmv
    else .new_newmv
  some (if m ≠ .nearest_nearestmv ∧ mv0 = (0, 0) ∧ mv1 = (0, 0) then .global_globalmv else m)

/-- The new mode for one reference (src/encoder.rs:3078-3106): the last of the first four candidates that is the vector. -/
def remapSingle (mv0 : Mv) (stack : List Cand) : Mode :=
  let m := ((stack.take 4).zip [Mode.nearestmv, .near0mv, .near1mv, .near2mv]).foldl (fun m x => if isThis x.1 mv0 then x.2 else m) .newmv
  if m = .newmv ∧ mv0 = (0, 0) then
    if stack = [] then .nearestmv else if stack.length = 1 then .near0mv else .globalmv
  else m

/-- The mode with which `encode_partition_topdown` codes a block (src/encoder.rs:3034-3106): what the mode decision chose is fitted to the stack. -/
def remap (m : Mode) (isCompound : Bool) (mv0 mv1 : Mv) (stack : List Cand) : Option Mode :=
  if isCompound && decide (m ≠ .global_globalmv) then remapCompound mv0 mv1 stack
  else if !isCompound && decide (m ≠ .globalmv) then some (remapSingle mv0 stack)
  else some m

end Rav1e.Mvref

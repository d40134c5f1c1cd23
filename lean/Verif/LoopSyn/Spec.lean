import Verif.Ec.SpecReader
import Verif.Lrf.Spec

/-!
# CDEF indices and loop restoration units in a tile, as the decoder reads them

Transcribed from the AV1 specification: the loops of `decode_tile` (5.11.2) with `clear_cdef` (5.11.55) and `clear_lr` (the references at the start of a tile,
5.11.1), `read_cdef` (5.11.56), `read_lr` (5.11.57) and `read_lr_unit` (5.11.58).  The rest of the block syntax is left open: a program that reads any elements
and says where `read_cdef` is called and what `skip` is there.  What the headers of this encoder always say is taken as given: 64x64 superblocks, no
superresolution, no lossless frames.
-/

namespace Rav1e.LoopSyn.Spec

open Av1Spec
open Lrf.Spec (sgrParams round2)

/-- `FrameRestorationType`. -/
inductive LrType
  | none | wiener | sgrproj | switchable
  deriving DecidableEq, Repr

/-- `Remap_Lr_Type[ lr_type ]`. -/
def remapLrType : Nat → LrType
  | 1 => .switchable
  | 2 => .wiener
  | 3 => .sgrproj
  | _ => .none

/-- What the headers say. -/
structure Frame where
  numPlanes : Nat
  width : Nat
  height : Nat
  /-- `subX`, `subY` of a plane -/
  subX : Nat → Nat
  subY : Nat → Nat
  enableCdef : Bool
  cdefBits : Nat
  allowIntrabc : Bool
  lrType : Nat → LrType
  /-- `LoopRestorationSize` -/
  unitSize : Nat → Nat
  /-- the numbers of the distributions of `restoration_type`, `use_wiener`, `use_sgrproj` -/
  restorationType : Nat
  useWiener : Nat
  useSgrproj : Nat

/-- `RefLrWiener[ plane ][ pass ][ i ]` and `RefSgrXqd[ plane ][ i ]` of a plane. -/
structure Refs where
  wiener : Nat → Nat → Int
  sgr : Nat → Int

/-- At the start of a tile: `Wiener_Taps_Mid`, `Sgrproj_Xqd_Mid`. -/
def Refs.init : Refs := ⟨fun _ i => [3, -7, 15].getD i 0, fun i => [-32, 31].getD i 0⟩

/-! ### Units -/

/-- `Wiener_Taps_Min`, `Wiener_Taps_Max`, `Wiener_Taps_K`. -/
def tapMin (j : Nat) : Int := [-5, -23, -17].getD j 0
@[inherit_doc tapMin] def tapMax (j : Nat) : Int := [10, 8, 46].getD j 0
@[inherit_doc tapMin] def tapK (j : Nat) : Nat := [1, 2, 3].getD j 0

/-- `Sgrproj_Xqd_Min`, `Sgrproj_Xqd_Max`. -/
def xqdMin (i : Nat) : Int := [-96, -32].getD i 0
@[inherit_doc xqdMin] def xqdMax (i : Nat) : Int := [31, 95].getD i 0

/-- `RefLrWiener[ plane ][ pass ][ j ] = v`. -/
def Refs.setTap (r : Refs) (pass j : Nat) (v : Int) : Refs :=
  { r with wiener := fun q i => if q = pass ∧ i = j then v else r.wiener q i }

/-- `RefSgrXqd[ plane ][ i ] = v`. -/
def Refs.setXqd (r : Refs) (i : Nat) (v : Int) : Refs := { r with sgr := fun k => if k = i then v else r.sgr k }

/-- A Wiener coefficient. -/
def rdTap (pass j : Nat) (r : Refs) : Rd (Int × Refs) :=
  (rdSignedSubexpWithRef (tapMin j) (tapMax j + 1) (tapK j) (r.wiener pass j)).bind fun v => .ret (v, r.setTap pass j v)

/-- The coefficients of a pass. -/
def rdPass (plane pass : Nat) (r : Refs) : Rd ((Int × Int × Int) × Refs) :=
  (if plane = 0 then rdTap pass 0 r else .ret (0, r)).bind fun (a, r) =>
    (rdTap pass 1 r).bind fun (b, r) => (rdTap pass 2 r).bind fun (c, r) => .ret ((a, b, c), r)

/-- A weight: it is coded if its radius is not zero. -/
def rdXqd (i radius : Nat) (r : Refs) : Rd (Int × Refs) :=
  (if radius ≠ 0 then rdSignedSubexpWithRef (xqdMin i) (xqdMax i + 1) 4 (r.sgr i)
   else .ret (if i = 1 then max (xqdMin i) (min (xqdMax i) (2 ^ 7 - r.sgr 0)) else 0)).bind fun v => .ret (v, r.setXqd i v)

/-- `restoration_type`. -/
def rdType (f : Frame) (plane : Nat) : Rd Nat :=
  match f.lrType plane with
  | .wiener => (rdSym f.useWiener).bind fun v => .ret (if v = 1 then 1 else 0)
  | .sgrproj => (rdSym f.useSgrproj).bind fun v => .ret (if v = 1 then 2 else 0)
  | _ => rdSym f.restorationType

/-- `read_lr_unit( plane, unitRow, unitCol )`. -/
def rdUnit (f : Frame) (plane : Nat) (r : Refs) : Rd (Lrf.Spec.Unit × Refs) :=
  (rdType f plane).bind fun t =>
    if t = 1 then
      (rdPass plane 0 r).bind fun (v, r) => (rdPass plane 1 r).bind fun (h, r) => .ret (.wiener v h, r)
    else if t = 2 then
      (rdLit 4).bind fun set =>
        (rdXqd 0 (sgrParams.getD set ((0, 0), (0, 0))).1.1 r).bind fun (a, r) =>
          (rdXqd 1 (sgrParams.getD set ((0, 0), (0, 0))).2.1 r).bind fun (b, r) => .ret (.sgrproj set a b, r)
    else .ret (.none, r)

/-! ### Where they are read -/

/-- `for ( i = start; i < start + n; i++ )`. -/
def loop {σ : Type} (g : Nat → σ → Rd σ) : Nat → Nat → σ → Rd σ
  | 0, _, s => .ret s
  | n + 1, i, s => (g i s).bind (loop g n (i + 1))

/-- What has been read of a tile, `S` for the rest. -/
structure State (S : Type) where
  /-- `LrType`, `LrWiener`, `LrSgrSet`, `LrSgrXqd` of a plane, a row and a column of units -/
  lr : Nat → Nat → Nat → Option Lrf.Spec.Unit
  /-- `cdef_idx[ r ][ c ]`, for the row and the column of a superblock -/
  cdef : Nat → Nat → Int
  refs : Nat → Refs
  blocks : S

/-- `count_units_in_frame( unitSize, frameSize )`. -/
def countUnits (unitSize frameSize : Nat) : Nat := max ((frameSize + unitSize / 2) / unitSize) 1

/-- A unit is read and stored. -/
def storeUnit {S : Type} (f : Frame) (plane row col : Nat) (s : State S) : Rd (State S) :=
  (rdUnit f plane (s.refs plane)).bind fun (u, r) =>
    .ret { s with
      lr := fun p i j => if p = plane ∧ i = row ∧ j = col then some u else s.lr p i j
      refs := fun p => if p = plane then r else s.refs p }

/-- `read_lr( r, c, BLOCK_64X64 )`, for one plane. -/
def readLrPlane {S : Type} (f : Frame) (r c plane : Nat) (s : State S) : Rd (State S) :=
  if f.lrType plane = .none then .ret s
  else
    let unitSize := f.unitSize plane
    let unitRows := countUnits unitSize (round2 f.height (f.subY plane))
    let unitCols := countUnits unitSize (round2 f.width (f.subX plane))
    let unitRowStart := (r * (4 >>> f.subY plane) + unitSize - 1) / unitSize
    let unitRowEnd := min (((r + 16) * (4 >>> f.subY plane) + unitSize - 1) / unitSize) unitRows
    let unitColStart := (c * (4 >>> f.subX plane) + unitSize - 1) / unitSize
    let unitColEnd := min (((c + 16) * (4 >>> f.subX plane) + unitSize - 1) / unitSize) unitCols
    loop (fun row s => loop (fun col s => storeUnit f plane row col s) (unitColEnd - unitColStart) unitColStart s)
      (unitRowEnd - unitRowStart) unitRowStart s

/-- `read_lr( r, c, BLOCK_64X64 )`. -/
def readLr {S : Type} (f : Frame) (r c : Nat) (s : State S) : Rd (State S) :=
  if f.allowIntrabc then .ret s else loop (fun plane s => readLrPlane f r c plane s) f.numPlanes 0 s

/-- The block syntax of a superblock apart from CDEF indices: it reads elements, and calls `read_cdef( )` at a block with this `skip`. -/
inductive Syn (S : Type) where
  | done (s : S)
  | read (src : Src) (k : Nat → Syn S)
  | cdef (skip : Bool) (k : Syn S)

/-- `read_cdef( )`: `idx` is `cdef_idx` of the superblock. -/
def readCdef (f : Frame) (skip : Bool) (idx : Int) : Rd Int :=
  if skip ∨ ¬f.enableCdef ∨ f.allowIntrabc then .ret idx
  else if idx = -1 then (rdLit f.cdefBits).bind fun v => .ret v
  else .ret idx

/-- The block syntax with the CDEF index. -/
def Syn.rd {S : Type} (f : Frame) : Syn S → Int → Rd (Int × S)
  | .done s, idx => .ret (idx, s)
  | .read src k, idx => .read src fun v => (k v).rd f idx
  | .cdef skip k, idx => (readCdef f skip idx).bind fun idx => k.rd f idx

/-- A superblock at `MiRow`, `MiCol`: `clear_cdef( r, c )`, `read_lr( r, c, sbSize )`, `decode_partition( r, c, sbSize )`. -/
def readSb {S : Type} (f : Frame) (sb : Nat → Nat → S → Syn S) (r c : Nat) (s : State S) : Rd (State S) :=
  (readLr f r c s).bind fun s => ((sb r c s.blocks).rd f (-1)).bind fun (idx, b) =>
    .ret { s with cdef := fun i j => if i = r / 16 ∧ j = c / 16 then idx else s.cdef i j, blocks := b }

/-- `decode_tile( )` from `MiRowStart` and `MiColStart`, with `n` rows of `m` superblocks. -/
def readTile {S : Type} (f : Frame) (sb : Nat → Nat → S → Syn S) (rowStart colStart n m : Nat) (s : State S) : Rd (State S) :=
  loop (fun i s => loop (fun j s => readSb f sb (rowStart + 16 * i) (colStart + 16 * j) s) m 0 s) n 0 s

/-- Nothing is read yet; `b` is what the block syntax starts from. -/
def State.init {S : Type} (b : S) : State S := ⟨fun _ _ _ => none, fun _ _ => -1, fun _ => .init, b⟩

end Rav1e.LoopSyn.Spec

import Verif.Ec.Adapt
import Verif.Ec.SpecReader
/-
Model of the variable-length codes of `/repo/src/ec.rs`, as the bits they emit, and of a writer
that mixes adaptive symbols with flat bits.
-/
namespace Rav1e.Ec
open Av1Spec (Src)

/-- `Writer::literal(bits, s)`: src/ec.rs:506-510; also `BitWriter::write_var`. Most significant bit
first. -/
def literal : (bits : Nat) → (s : Nat) → List Nat
  | 0, _ => []
  | bits + 1, s => ((s >>> bits) % 2) :: literal bits s

/-- `32 - n.leading_zeros()` of a `u32` (or 16 and `u16`): the bit length. -/
def bitLen (n : Nat) : Nat := if n = 0 then 0 else n.log2 + 1

/-- `Writer::write_golomb`: src/ec.rs:609-620. -/
def writeGolomb (level : Nat) : List Nat :=
  let x := level + 1
  let length := bitLen x
  List.replicate (length - 1) 0 ++ literal length x

/-- `Writer::write_quniform`: src/ec.rs:624-635; `BCodeWriter::write_quniform`: 861-874. -/
def writeQuniform (n v : Nat) : List Nat :=
  if n > 1 then
    let l := bitLen n
    let m := 2 ^ l - n
    if v < m then literal (l - 1) v
    else literal (l - 1) (m + ((v - m) >>> 1)) ++ literal 1 ((v - m) &&& 1)
  else []

/-- `Writer::count_quniform`: src/ec.rs:639-650. -/
def countQuniform (n v : Nat) : Nat :=
  if n > 1 then
    let l := bitLen n
    let m := 2 ^ l - n
    ((l - 1) <<< 3) + (if v ≥ m then 1 <<< 3 else 0)
  else 0

/-- `if i != 0 { k + i - 1 } else { k }`: src/ec.rs:660, 689, 882. -/
def subexpB (k i : Nat) : Nat := if i ≠ 0 then k + i - 1 else k

/-- The loop of `Writer::write_subexp`: src/ec.rs:656-677 and of `BCodeWriter::write_subexpfin`:
875-897, from iteration `i` with offset `mk`. -/
def subexpLoop (n k v i mk : Nat) : List Nat :=
  let b := subexpB k i
  let a := 1 <<< b
  if n ≤ mk + 3 * a then writeQuniform (n - mk) (v - mk)
  else if v ≥ mk + a then 1 :: subexpLoop n k v (i + 1) (mk + a)
  else 0 :: literal b (v - mk)
termination_by n - mk
decreasing_by
  have : 0 < 1 <<< subexpB k i := by rw [Nat.one_shiftLeft]; exact Nat.two_pow_pos _
  omega

/-- `Writer::write_subexp`. -/
def writeSubexp (n k v : Nat) : List Nat := subexpLoop n k v 0 0

/-- The loop of `Writer::count_subexp`: src/ec.rs:684-707. -/
def countSubexpLoop (n k v i mk : Nat) : Nat :=
  let b := subexpB k i
  let a := 1 <<< b
  if n ≤ mk + 3 * a then countQuniform (n - mk) (v - mk)
  else (1 <<< 3) +
    if v ≥ mk + a then countSubexpLoop n k v (i + 1) (mk + a) else b <<< 3
termination_by n - mk
decreasing_by
  have : 0 < 1 <<< subexpB k i := by rw [Nat.one_shiftLeft]; exact Nat.two_pow_pos _
  omega

/-- `Writer::count_subexp`. -/
def countSubexp (n k v : Nat) : Nat := countSubexpLoop n k v 0 0

/-- `recenter`: src/ec.rs:381-389; `recenter_nonneg`: 842-851. -/
def recenter (r v : Nat) : Nat :=
  if v > (r <<< 1) then v else if v ≥ r then (v - r) <<< 1 else ((r - v) <<< 1) - 1

/-- The recentred value: `write_unsigned_subexp_with_ref`: src/ec.rs:715-721;
`recenter_finite_nonneg`: 852-860. -/
def recenterFinite (n r v : Nat) : Nat :=
  if (r <<< 1) ≤ n then recenter r v else recenter (n - 1 - r) (n - 1 - v)

/-- `write_unsigned_subexp_with_ref`: src/ec.rs:715-721; `write_refsubexpfin`: 898-906 (there with
`n` first). -/
def writeUnsignedSubexpWithRef (v n k r : Nat) : List Nat := writeSubexp n k (recenterFinite n r v)

/-- `count_unsigned_subexp_with_ref`: src/ec.rs:730-738. -/
def countUnsignedSubexpWithRef (v n k r : Nat) : Nat := countSubexp n k (recenterFinite n r v)

/-- `write_signed_subexp_with_ref`: src/ec.rs:746-755. -/
def writeSignedSubexpWithRef (v low high : Int) (k : Nat) (r : Int) : List Nat :=
  writeUnsignedSubexpWithRef (v - low).toNat (high - low).toNat k (r - low).toNat

/-- `count_signed_subexp_with_ref`: src/ec.rs:764-773. -/
def countSignedSubexpWithRef (v low high : Int) (k : Nat) (r : Int) : Nat :=
  countUnsignedSubexpWithRef (v - low).toNat (high - low).toNat k (r - low).toNat

/-- `write_s_refsubexpfin`: src/ec.rs:907-917. -/
def writeSRefSubexpFin (n k : Nat) (r v : Int) : List Nat :=
  writeUnsignedSubexpWithRef (v + ((n : Int) - 1)).toNat ((n <<< 1) - 1) k (r + ((n : Int) - 1)).toNat

/-- A flat bit as an element of the coded stream: `Writer::bit` is `symbol(bit, &[16384, 0])`,
src/ec.rs:485-496. -/
def flatToks (bs : List Nat) : List (Src × Nat) := bs.map fun b => (.flat, b)

/-- A writer in the middle of a tile: elements are coded in order, adaptive ones with
`symbol_with_update` on the CDF array, flat ones with `bit`.  Gives the symbols handed to the range
coder. -/
def toSyms : List (List Nat) → List (Src × Nat) → List Sym
  | _, [] => []
  | cdfs, (.flat, b) :: ts => ⟨b, [16384, 0]⟩ :: toSyms cdfs ts
  | cdfs, (.cdf i, s) :: ts =>
    let c := cdfs.getD i []
    ⟨s, c⟩ :: toSyms (cdfs.set i (updateCdf c s)) ts

end Rav1e.Ec

import Verif.Ec.Spec
/-
Syntax readers in the style of the AV1 specification: a reader is a program that repeatedly asks
for the next element, either a symbol coded with one of the adaptive CDFs or a flat bit (`L(1)`
inside tile data, `f(1)` in headers), and finally returns a value.
Nothing in this file refers to the rav1e model.
-/
namespace Av1Spec

/-- Where the next element comes from. -/
inductive Src where
  | cdf (i : Nat)
  | flat
deriving DecidableEq, Repr

/-- Reader programs. -/
inductive Rd (α : Type) where
  | ret (a : α)
  | read (src : Src) (k : Nat → Rd α)

namespace Rd

def bind {α β} : Rd α → (α → Rd β) → Rd β
  | ret a, f => f a
  | read s k, f => read s fun x => (k x).bind f

instance : Monad Rd where
  pure := ret
  bind := bind

/-- Run on tile data with the symbol decoder of 8.2, adapting the CDFs (8.2.6). A flat bit is
`read_bool`: a symbol with CDF `{1 << 14, 1 << 15, 0}` that is not kept (8.2.5, `read_literal`). -/
def onDec {α} : Rd α → List (List Nat) → Dec → α × List (List Nat) × Dec
  | ret a, cdfs, d => (a, cdfs, d)
  | read .flat k, cdfs, d =>
    let (s, d') := d.symbol [1 <<< 14, 1 <<< 15, 0]
    (k s).onDec cdfs d'
  | read (.cdf i) k, cdfs, d =>
    let c := cdfs.getD i []
    let (s, d') := d.symbol c
    (k s).onDec (cdfs.set i (adapt c s)) d'

/-- Run on plain bits (headers): only flat reads make sense. -/
def onBits {α} : Rd α → List Bool → Option (α × List Bool)
  | ret a, bs => some (a, bs)
  | read .flat k, b :: bs => (k b.toNat).onBits bs
  | read .flat _, [] => none
  | read (.cdf _) _, _ => none

/-- Run on a list of already separated elements. -/
def onToks {α} : Rd α → List (Src × Nat) → Option (α × List (Src × Nat))
  | ret a, ts => some (a, ts)
  | read _ _, [] => none
  | read src k, (src', s) :: ts => if src = src' then (k s).onToks ts else none

end Rd

/-- `L(1)` / `f(1)`. -/
def rdBit : Rd Nat := .read .flat .ret

/-- `S()` with the CDF number `i`. -/
def rdSym (i : Nat) : Rd Nat := .read (.cdf i) .ret

/-- `L(n)` (8.2.5 `read_literal`) and `f(n)` (4.10.2): `x = 2 * x + bit`, most significant first. -/
def rdLit (n : Nat) (x : Nat := 0) : Rd Nat :=
  match n with
  | 0 => .ret x
  | n + 1 => rdBit.bind fun b => rdLit n (2 * x + b)

/-- `NS(n)` (4.10.10) and `ns(n)` (4.10.7). -/
def rdNS (n : Nat) : Rd Nat :=
  let w := n.log2 + 1
  let m := (1 <<< w) - n
  (rdLit (w - 1)).bind fun v =>
    if v < m then .ret v else rdBit.bind fun e => .ret ((v <<< 1) - m + e)

/-- The unary prefix of the Golomb code in `coeffs( )` (5.11.39): counts `golomb_length_bit`s up
to and including the first 1.  Conformance requires that to happen within 20 bits (the
specification's limit), here the argument `fuel`; running out is reported as 0. -/
def rdGolombLen : (fuel : Nat) → (length : Nat) → Rd Nat
  | 0, _ => .ret 0
  | fuel + 1, length => rdBit.bind fun b =>
    if b = 1 then .ret (length + 1) else rdGolombLen fuel (length + 1)

/-- `golomb` part of `coeffs( )` (5.11.39): the value `x - 1`. -/
def rdGolomb : Rd Nat :=
  (rdGolombLen 20 0).bind fun length => (rdLit (length - 1) 1).bind fun x => .ret (x - 1)

/-- `inverse_recenter( r, v )` (5.9.29). -/
def inverseRecenter (r v : Nat) : Nat :=
  if v > 2 * r then v else if v % 2 = 1 then r - ((v + 1) >>> 1) else r + (v >>> 1)

/-- `b2 = i ? k + i - 1 : k` of `decode_subexp`. -/
def subexpB2 (k i : Nat) : Nat := if i = 0 then k else k + i - 1

/-- `decode_subexp( numSyms )` (5.9.28) and `decode_subexp_bool( numSyms, k )` (5.11.58). -/
def rdSubexp (numSyms k i mk : Nat) : Rd Nat :=
  let b2 := subexpB2 k i
  let a := 1 <<< b2
  if numSyms ≤ mk + 3 * a then (rdNS (numSyms - mk)).bind fun v => .ret (v + mk)
  else rdBit.bind fun more =>
    if more ≠ 0 then rdSubexp numSyms k (i + 1) (mk + a)
    else (rdLit b2).bind fun v => .ret (v + mk)
termination_by numSyms - mk
decreasing_by
  have : 0 < 1 <<< subexpB2 k i := by rw [Nat.one_shiftLeft]; exact Nat.two_pow_pos _
  omega

/-- `decode_unsigned_subexp_with_ref(_bool)` (5.9.27, 5.11.58). -/
def rdUnsignedSubexpWithRef (mx k r : Nat) : Rd Nat :=
  (rdSubexp mx k 0 0).bind fun v =>
    .ret (if (r <<< 1) ≤ mx then inverseRecenter r v
          else mx - 1 - inverseRecenter (mx - 1 - r) v)

/-- `decode_signed_subexp_with_ref(_bool)` (5.9.26, 5.11.58). -/
def rdSignedSubexpWithRef (low high : Int) (k : Nat) (r : Int) : Rd Int :=
  (rdUnsignedSubexpWithRef (high - low).toNat k (r - low).toNat).bind fun x => .ret (x + low)

end Av1Spec

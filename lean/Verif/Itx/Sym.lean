import Verif.Itx.Stages
import Verif.Itx.Spec
/-
C59: both programs on symbolic values. A tree stands for the value of an entry of an array as a function of the inputs.
-/
namespace Rav1e.Itx

/-- The value of an entry as a function of the inputs. -/
inductive E
  | inp (k : Nat)
  | btf (c0 : Int) (a : E) (c1 : Int) (b : E)
  | add (a b : E)
  | sub (a b : E)
  | nadd (a b : E)
  | neg (a : E)
  | bad

/-- The operations of the code. -/
def symOps : Ops E := ⟨.btf, .add, .sub, .nadd, .neg, .bad⟩

/-- The inputs. -/
def inputs : List E := (List.range 64).map .inp

/-- A step of the specification. -/
def Step.sym (T : List E) : Step → List E
  | B a b angle false =>
    (T.set a (.btf (cos128 angle) (T.getD a .bad) (-sin128 angle) (T.getD b .bad))).set b (.btf (sin128 angle) (T.getD a .bad) (cos128 angle) (T.getD b .bad))
  | B a b angle true =>
    (T.set a (.btf (sin128 angle) (T.getD a .bad) (cos128 angle) (T.getD b .bad))).set b (.btf (cos128 angle) (T.getD a .bad) (-sin128 angle) (T.getD b .bad))
  | H a b false => (T.set a (.add (T.getD a .bad) (T.getD b .bad))).set b (.sub (T.getD a .bad) (T.getD b .bad))
  | H a b true => (T.set b (.add (T.getD b .bad) (T.getD a .bad))).set a (.sub (T.getD b .bad) (T.getD a .bad))

/-- Steps of the specification. -/
def symSteps (l : List Step) (T : List E) : List E := l.foldl Step.sym T

/-- Two values that are equal for all inputs. -/
def eqv : E → E → Bool
  | .inp k, .inp l => k == l
  | .btf c0 a c1 b, .btf d0 x d1 y => (c0 == d0 && c1 == d1 && eqv a x && eqv b y) || (c0 == d1 && c1 == d0 && eqv a y && eqv b x)
  | .add a b, .add x y => (eqv a x && eqv b y) || (eqv a y && eqv b x)
  | .sub a b, .sub x y => eqv a x && eqv b y
  | .nadd a b, .sub x y => eqv a y && eqv b x
  | .neg a, .neg b => eqv a b
  | _, _ => false

def eqvs : List E → List E → Bool
  | [], [] => true
  | a :: l, b :: m => eqv a b && eqvs l m
  | _, _ => false

/-- The rotations are of inputs and clipped values, with factors below 4096. -/
def clipped : E → Bool
  | .inp _ | .add _ _ | .sub _ _ | .nadd _ _ => true
  | _ => false

def safe : E → Bool
  | .inp k => decide (k < 64)
  | .btf c0 a c1 b => clipped a && clipped b && decide (-4096 < c0) && decide (c0 < 4096) && decide (-4096 < c1) && decide (c1 < 4096) && safe a && safe b
  | .add a b | .sub a b | .nadd a b => safe a && safe b
  | .neg a => safe a
  | .bad => false

/-- The entries a step touches are two of the first `n`. -/
def Step.within (n : Nat) : Step → Bool
  | .B a b _ _ | .H a b _ => decide (a < n) && decide (b < n) && decide (a ≠ b)

/-- So they are for all steps. -/
def within (n : Nat) (l : List Step) : Bool := l.all (Step.within n)

def dctSym (n : Nat) : List E := symSteps (dctSteps n) ((List.range (2 ^ n)).map fun i => .inp (brev n i))

def adstSym (n : Nat) : List E := symSteps (adstSteps n) ((List.range (2 ^ n)).map fun i => .inp (if i % 2 = 1 then i - 1 else 2 ^ n - i - 1))

def adstOutSym (n : Nat) : List E :=
  (List.range (2 ^ n)).map fun i => if i % 2 = 1 then .neg ((adstSym n).getD (adstIdx n i) .bad) else (adstSym n).getD (adstIdx n i) .bad

theorem dct4_sym : (eqvs (idct4 symOps inputs) (dctSym 2) && (idct4 symOps inputs).all safe && within 4 (dctSteps 2)) = true := by decide +kernel
theorem dct8_sym : (eqvs (idct8 symOps inputs) (dctSym 3) && (idct8 symOps inputs).all safe && within 8 (dctSteps 3)) = true := by decide +kernel
theorem dct16_sym : (eqvs (idct16 symOps inputs) (dctSym 4) && (idct16 symOps inputs).all safe && within 16 (dctSteps 4)) = true := by decide +kernel
theorem dct32_sym : (eqvs (idct32 symOps inputs) (dctSym 5) && (idct32 symOps inputs).all safe && within 32 (dctSteps 5)) = true := by decide +kernel
theorem dct64_sym : (eqvs (idct64 symOps inputs) (dctSym 6) && (idct64 symOps inputs).all safe && within 64 (dctSteps 6)) = true := by decide +kernel
theorem adst8_sym : (eqvs (iadst8 symOps inputs) (adstOutSym 3) && (iadst8 symOps inputs).all safe && within 8 (adstSteps 3)) = true := by decide +kernel
theorem adst16_sym : (eqvs (iadst16 symOps inputs) (adstOutSym 4) && (iadst16 symOps inputs).all safe && within 16 (adstSteps 4)) = true := by decide +kernel

end Rav1e.Itx

import Verif.Seg.Model

/-!
# The polynomial on the first half of its domain
-/

namespace Rav1e.Seg

/-- The polynomial is defined and within one unit of the logarithm of `m`, in powers of two with integer exponents. -/
def okAt (m : Nat) : Bool := match blogFrac ((m : Int) - 32768 - 16384) with
  | some f => (fun V => Nat.ble (2 ^ (V - 1)) (m ^ 2048) && Nat.ble (m ^ 2048) (2 ^ (V + 1))) ((16 * 2 ^ 11 + f >>> (3 : Nat) : Int).toNat)
  | none => false

theorem table1 : ∀ a < 64, ∀ b < 256, okAt (32768 + 256 * a + b) = true := by decide +kernel

end Rav1e.Seg

/-!
# Search of the factors of prediction from luma: what is found

What a decoder reads is in `Verif.Block.Spec` (`readCflAlphas`).
-/

namespace Rav1e.CflSearch

/-- The cost falls strictly on the way to the factor `m` from either side, among the factors a stream can have. -/
def Spec.FallsTo (cost : Int → Nat) (m : Int) : Prop :=
  -16 ≤ m ∧ m ≤ 16 ∧ ∀ y z : Int, -16 ≤ y → y ≤ 16 → (y < z ∧ z ≤ m) ∨ (m ≤ z ∧ z < y) → cost z < cost y

end Rav1e.CflSearch

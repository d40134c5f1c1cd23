import Verif.Seg.Table1

/-!
# The polynomial on the second half of its domain
-/

namespace Rav1e.Seg

theorem table2: ∀ a < 64, ∀ b < 256, okAt (49152 + 256 * a + b) = true := by decide +kernel

end Rav1e.Seg

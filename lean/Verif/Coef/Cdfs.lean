import Verif.Coef.Reads

/-!
# The CDFs of the coefficients are kept apart
-/

namespace Rav1e.Coef

/-- The indices that the specification uses for each CDF. -/
def Valid : Av1Spec.Coef.Cdf → Prop
  | .txbSkip t c => t < 5 ∧ c < 13
  | .eobPt m p c => m < 7 ∧ p < 2 ∧ c < 2
  | .eobExtra t p i => t < 5 ∧ p < 2 ∧ i < 9
  | .coeffBaseEob t p c => t < 5 ∧ p < 2 ∧ c < 4
  | .coeffBase t p c => t < 5 ∧ p < 2 ∧ c < 42
  | .coeffBr t p c => t < 5 ∧ p < 2 ∧ c < 21
  | .dcSign p c => p < 2 ∧ c < 3
  | .intraTx s q d => (s = 1 ∨ s = 2) ∧ q < 4 ∧ d < 13
  | .interTx s q => (s = 1 ∨ s = 2 ∨ s = 3) ∧ q < 4

/-- The field, without the names. -/
def first : Av1Spec.Coef.Cdf → Nat
  | .txbSkip _ _ => 209
  | .eobPt m _ _ => [993, 1049, 1061, 1126, 1137, 1141, 1157].getD m 0
  | .eobExtra _ _ _ => 34
  | .coeffBaseEob _ _ _ => 304
  | .coeffBase _ _ _ => 354
  | .coeffBr _ _ _ => 774
  | .dcSign _ _ => 25
  | .intraTx s _ _ => if s = 1 then 1065 else 997
  | .interTx s _ => if s = 1 then 1226 else if s = 2 then 1161 else 300

theorem firsts : (∀ m < 7, firstCdf (eobField m) Cdf.fields = [993, 1049, 1061, 1126, 1137, 1141, 1157].getD m 0) ∧
    firstCdf "txb_skip_cdf" Cdf.fields = 209 ∧ firstCdf "eob_extra_cdf" Cdf.fields = 34 ∧
    firstCdf "coeff_base_eob_cdf" Cdf.fields = 304 ∧ firstCdf "coeff_base_cdf" Cdf.fields = 354 ∧
    firstCdf "coeff_br_cdf" Cdf.fields = 774 ∧ firstCdf "dc_sign_cdf" Cdf.fields = 25 ∧
    firstCdf "intra_tx_1_cdf" Cdf.fields = 1065 ∧ firstCdf "intra_tx_2_cdf" Cdf.fields = 997 ∧
    firstCdf "inter_tx_1_cdf" Cdf.fields = 1226 ∧ firstCdf "inter_tx_2_cdf" Cdf.fields = 1161 ∧
    firstCdf "inter_tx_3_cdf" Cdf.fields = 300 := by decide +kernel

theorem num_eq {c : Av1Spec.Coef.Cdf} (h : Valid c) : num c = first c + (place c).2 := by
  obtain ⟨h0, h1, h2, h3, h4, h5, h6, h7, h8, h9, h10, h11⟩ := firsts
  unfold num cdfNo
  congr 1
  cases c with
  | eobPt m p k => exact h0 m h.1
  | txbSkip t k => exact h1
  | eobExtra t p i => exact h2
  | coeffBaseEob t p i => exact h3
  | coeffBase t p i => exact h4
  | coeffBr t p i => exact h5
  | dcSign p i => exact h6
  | intraTx s q d =>
    unfold place first
    dsimp only
    split_ifs <;> assumption
  | interTx s q =>
    unfold place first
    dsimp only
    split_ifs <;> assumption

/-- The encoder keeps a separate CDF for each one of the specification. -/
theorem num_injective {c d : Av1Spec.Coef.Cdf} (hc : Valid c) (hd : Valid d) (h : num c = num d) : c = d := by
  have h7 : ∀ m < 7, m = 0 ∨ m = 1 ∨ m = 2 ∨ m = 3 ∨ m = 4 ∨ m = 5 ∨ m = 6 := by omega
  rw [num_eq hc, num_eq hd] at h
  cases c <;> simp only [Valid] at hc <;>
    (try (rcases h7 _ hc.1 with rfl | rfl | rfl | rfl | rfl | rfl | rfl)) <;>
    (try (rcases hc.1 with rfl | rfl | rfl)) <;>
    cases d <;> simp only [Valid] at hd <;>
    (try (rcases h7 _ hd.1 with rfl | rfl | rfl | rfl | rfl | rfl | rfl)) <;>
    (try (rcases hd.1 with rfl | rfl | rfl)) <;>
    simp [first, place] at h <;> first | omega | (simp; omega)

end Rav1e.Coef

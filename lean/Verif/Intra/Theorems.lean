import Verif.Intra.Block

/-!
# C57: intra prediction is what a decoder computes
-/

namespace Rav1e.Intra

variable {p : Region} {s : Site} {S : Spec.Input}

/-- Writing a block whose pixels are all known. -/
theorem writeBlock_ok {px : Nat → Nat → Nat} {x y w h tb bd : Nat} {f : Pred} {g : Nat → Nat → Int} (hb : bd ≤ tb)
    (hf : ∀ r < h, ∀ c < w, Good bd (f r c) (g r c)) :
    ∃ px', writeBlock px x y w h tb f = some px' ∧
      (∀ r < h, ∀ c < w, (px' (y + r) (x + c) : Int) = g r c) ∧
      (∀ r c, ¬ (y ≤ r ∧ r < y + h ∧ x ≤ c ∧ c < x + w) → px' r c = px r c) ∧
      (∀ r < h, ∀ c < w, px' (y + r) (x + c) < 2 ^ bd) := by
  unfold writeBlock
  rw [if_pos (fun r hr c hc => (hf r hr c hc).isSome)]
  have hlt : 2 ^ bd ≤ 2 ^ tb := Nat.pow_le_pow_right (by decide) hb
  refine ⟨_, rfl, fun r hr c hc => ?_, fun r c hn => if_neg hn, fun r hr c hc => ?_⟩
  · obtain ⟨e1, e2⟩ := (hf r hr c hc).getD
    rw [if_pos ⟨by omega, by omega, by omega, by omega⟩, Nat.add_sub_cancel_left, Nat.add_sub_cancel_left, Nat.mod_eq_of_lt (by omega)]
    exact e1
  · obtain ⟨e1, e2⟩ := (hf r hr c hc).getD
    rw [if_pos ⟨by omega, by omega, by omega, by omega⟩, Nat.add_sub_cancel_left, Nat.add_sub_cancel_left, Nat.mod_eq_of_lt (by omega)]
    exact e2

/-- **C57.** For every mode of the bitstream, every angle, every size of a transform block, every position in the frame and in the tile and
every content of the frame, the encoder predicts a block without panicking, the pixels of the block become what the intra prediction
process of the specification computes, no other pixel changes, and the new pixels are in range. -/
theorem predictTx_eq_decoder (A : Agree p s S) {m : Mode} {q : Param} (hq : Allowed m q) (hm : m ≠ .cfl) (ef sm : Bool) (ac : List Int) {tb : Nat}
    (hb : S.bitDepth ≤ tb) :
    ∃ px', predictTx p s S.bitDepth tb m ef q ac sm = some px' ∧
      (∀ r < s.h, ∀ c < s.w, (px' (s.y + r) (s.x + c) : Int) = S.pred m.spec q.delta ef sm r c) ∧
      (∀ r c, ¬ (s.y ≤ r ∧ r < s.y + s.h ∧ s.x ≤ c ∧ c < s.x + s.w) → px' r c = p.px r c) ∧
      (∀ r < s.h, ∀ c < s.w, px' (s.y + r) (s.x + c) < 2 ^ S.bitDepth) := by
  obtain ⟨f, h1, h2⟩ := predict_ok A hq hm ef sm ac
  obtain ⟨e, he, hf⟩ := Option.bind_eq_some_iff.mp h1
  unfold predictTx
  rw [he, Option.bind_some]
  rw [hf, Option.bind_some]
  exact writeBlock_ok hb h2

/-- A plane of 64x64 pixels. -/
def exRegion : Region := ⟨fun r c => (r * 7 + c * 3) % 256, 0, 0, 64, 64, 64, 64, 0, 0⟩

/-- An 8x8 block in it. -/
def exSite : Site := ⟨8, 16, 8, 8, 2, 4, 8, 8, 0, 0⟩

/-- What a decoder knows about this block: its upper right neighbour has been decoded, its lower left neighbour has not. -/
def exInput : Spec.Input := ⟨fun r c => (((r.toNat * 7 + c.toNat * 3) % 256 : Nat) : Int), 8, 16, 8, 8, 63, 63, true, true, true, false, 8⟩

theorem exAgree : Agree exRegion exSite exInput where
  cur := fun r c => by simp [exInput, exRegion]
  range := fun r c => Nat.mod_lt _ (by decide)
  x := rfl
  y := rfl
  w := rfl
  h := rfl
  maxX := rfl
  maxY := rfl
  haveLeft := rfl
  haveAbove := rfl
  bitDepth := Or.inl rfl
  sizeW := by decide
  sizeH := by decide
  insideX := by decide
  insideY := by decide
  alignX := by decide
  alignY := by decide
  endX := Or.inl rfl
  endY := Or.inl rfl
  topRight := fun _ _ => by decide +kernel
  bottomLeft := fun _ _ => by decide +kernel

/-- The hypotheses of `predictTx_eq_decoder` are met by a directional block whose edge is filtered. -/
example : ∃ px', predictTx exRegion exSite 8 8 .d67 true (.angleDelta 2) [] false = some px' ∧
      (∀ r < 8, ∀ c < 8, (px' (16 + r) (8 + c) : Int) = exInput.pred .d67 2 true false r c) := by
  obtain ⟨px', h1, h2, -⟩ := predictTx_eq_decoder exAgree (m := .d67) (q := .angleDelta 2) ⟨by decide, by decide, by decide⟩ (by decide) true false []
    (tb := 8) (by decide)
  exact ⟨px', h1, h2⟩

/-- The prediction is not a constant one. -/
example : (predictTx exRegion exSite 8 8 .d67 true (.angleDelta 2) [] false).map (fun px => (px 16 8, px 16 15, px 23 8, px 23 15)) =
    some (130, 151, 137, 158) := by decide +kernel

end Rav1e.Intra

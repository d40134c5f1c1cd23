import Verif.Intra.Zones

/-!
# `pred_directional`
-/

namespace Rav1e.Intra

variable {p : Region} {s : Site} {S : Spec.Input}

/-- The angles that are not multiples of 90 degrees. -/
def angles : List Nat := [36, 39, 42, 45, 48, 51, 54, 58, 61, 64, 67, 70, 73, 76, 81, 84, 87, 93, 96, 99, 104, 107, 110, 113, 116, 119, 122,
  126, 129, 132, 135, 138, 141, 144, 148, 151, 154, 157, 160, 163, 166, 171, 174, 177, 183, 186, 189, 194, 197, 200, 203, 206, 209, 212]

theorem angle1 : ∀ a ∈ angles, a < 90 → (derivative a : Int) = Spec.drIntraDerivative a := by decide +kernel

theorem angle2 : ∀ a ∈ angles, 90 < a → a < 180 → (derivative (180 - a) : Int) = Spec.drIntraDerivative (180 - (a : Int)) ∧
    (derivative (a - 90) : Int) = Spec.drIntraDerivative ((a : Int) - 90) ∧ 0 < derivative (180 - a) ∧ 0 < derivative (a - 90) ∧
    derivative (180 - a) * derivative (a - 90) ≤ 4096 := by decide +kernel

theorem angle3 : ∀ a ∈ angles, 180 < a → (derivative (270 - a) : Int) = Spec.drIntraDerivative (270 - (a : Int)) ∧ derivative (270 - a) ≤ 63 := by
  decide +kernel

theorem angle_turned : ∀ a ∈ angles, a ≠ 90 ∧ a ≠ 180 := by decide +kernel

theorem round2_4 (v : Int) : Spec.round2 v 4 = (v + 8) / 16 := by
  unfold Spec.round2
  rw [if_neg (by decide), Int.shiftRight_eq_div_pow]
  rfl

/-- A missing row above is flat, and the corner is off by at most one. -/
theorem flatA (A : Agree p s S) (h : S.haveAbove = false) (a : Int) (ef : Bool) : ∃ v : Int, (∀ k : Nat, S.aboveRow k = v) ∧
    v ≤ cornerOf S a ef + 1 ∧ cornerOf S a ef ≤ v + 1 := by
  have hy := A.insideY
  have h2 := A.hLe
  have e1 := A.maxY
  have e2 := A.y
  refine ⟨S.aboveRow 0, fun k => ?_, ?_⟩
  · rw [aboveRow_none h (show (0 : Int) ≤ k by omega), aboveRow_none h (show (0 : Int) ≤ 0 by omega)]
  · have a0 : S.aboveRow 0 = _ := aboveRow_none h (by omega)
    unfold cornerOf
    rw [a0]
    by_cases hL : S.haveLeft = true
    · have el : S.leftCol 0 = S.cur S.y (S.x - 1) := by
        unfold Spec.Input.leftCol
        have hh := side_pos A.sizeH
        have := A.h
        rw [if_neg (by decide), hL, if_neg (by simp), if_pos (by omega), show min S.maxY (S.y + 0) = S.y by omega]
      rw [hL, el, aboveRow_corner' h hL]
      simp only [if_true]
      rw [round2_4]
      split <;> omega
    · rw [Bool.not_eq_true] at hL
      rw [show S.leftCol 0 = _ from leftCol_none hL (by omega), hL, h, aboveRow_corner'' h hL]
      simp only [Bool.false_eq_true, if_false]
      rw [round2_4]
      split <;> omega

/-- The same for a missing column to the left. -/
theorem flatL (A : Agree p s S) (h : S.haveLeft = false) (a : Int) (ef : Bool) : ∃ v : Int, (∀ k : Nat, S.leftCol k = v) ∧
    v ≤ cornerOf S a ef + 1 ∧ cornerOf S a ef ≤ v + 1 := by
  have hx := A.insideX
  have h2 := A.wLe
  have e1 := A.maxX
  have e2 := A.x
  refine ⟨S.leftCol 0, fun k => ?_, ?_⟩
  · rw [leftCol_none h (show (0 : Int) ≤ k by omega), leftCol_none h (show (0 : Int) ≤ 0 by omega)]
  · have a0 : S.leftCol 0 = _ := leftCol_none h (by omega)
    unfold cornerOf
    rw [a0]
    by_cases hA : S.haveAbove = true
    · have el : S.aboveRow 0 = S.cur (S.y - 1) S.x := by
        unfold Spec.Input.aboveRow
        have hw := side_pos A.sizeW
        have := A.w
        rw [if_neg (by decide), hA, if_neg (by simp), if_pos (by omega), show min S.maxX (S.x + 0) = S.x by omega]
      rw [hA, el, aboveRow_corner hA h]
      simp only [if_true]
      rw [round2_4]
      split <;> omega
    · rw [Bool.not_eq_true] at hA
      rw [show S.aboveRow 0 = _ from aboveRow_none hA (by omega), h, hA, aboveRow_corner'' hA h]
      simp only [Bool.false_eq_true, if_false]
      rw [round2_4]
      split <;> omega

/-- The two edges after the filters. -/
theorem filteredEdges_ok (A : Agree p s S) {above left : Arr} {t angle : Nat} (sm : Bool) (ha : angle ≠ 90 ∧ angle ≠ 180)
    (hA : IsA above S (s.w + if angle < 90 then s.h else 0)) (hL : IsL left S (s.h + if angle > 180 then s.w else 0))
    (ht : (t : Int) = cornerOf S angle true) (ht' : t < 2 ^ S.bitDepth) :
    ∃ af lf ua ul, filteredEdges above left t angle s.w s.h S.bitDepth (p.rectX + s.x) (p.rectY + s.y) p.planeW p.planeH sm =
        some ((af, ua), (lf, ul)) ∧
      (S.filtered angle true sm).1.2 = ua.toNat ∧ (S.filtered angle true sm).2.2 = ul.toNat ∧
      af.len = (s.w + s.h) * 2 + 1 ∧ lf.len = (s.w + s.h) * 2 + 1 ∧
      IsU af (S.filtered angle true sm).1.1 (s.w + if angle < 90 then s.h else 0) ua.toNat S.bitDepth ∧
      IsU lf (S.filtered angle true sm).2.1 (s.h + if angle > 180 then s.w else 0) ul.toNat S.bitDepth := by
  have hw := side_pos A.sizeW
  have hh := side_pos A.sizeH
  have hx := A.insideX
  have hy := A.insideY
  have hwl := A.wLe
  have hhl := A.hLe
  have ex := A.x
  have ey := A.y
  have emx := A.maxX
  have emy := A.maxY
  have hlA : min above.len ((s.w + s.h) * 2) = s.w + if angle < 90 then s.h else 0 := by
    rw [hA.len]; split <;> omega
  have hlL : min left.len ((s.w + s.h) * 2) = s.h + if angle > 180 then s.w else 0 := by
    rw [hL.len]; split <;> omega
  unfold filteredEdges
  simp only
  simp only [hlA, hlL, if_pos ha]
  have eA : IsE ⟨(s.w + s.h) * 2 + 1, fun i => if i = 0 then t else
      if i ≤ s.w + (if angle < 90 then s.h else 0) then above.at_ (i - 1) else 0⟩
      (fun i => if i = -1 then cornerOf S angle true else S.aboveRow i) (s.w + if angle < 90 then s.h else 0) S.bitDepth := by
    intro k hk
    simp only
    by_cases h0 : k = 0
    · subst h0
      rw [if_pos rfl, if_pos (by omega)]
      exact ⟨ht, ht'⟩
    · rw [if_neg h0, if_pos hk, if_neg (by omega), show (k : Int) - 1 = ((k - 1 : Nat) : Int) by omega]
      exact ⟨hA.eq _ (by omega), hA.lt _ (by omega)⟩
  have eL : IsE ⟨(s.w + s.h) * 2 + 1, fun i => if i = 0 then t else
      if i ≤ s.h + (if angle > 180 then s.w else 0) then left.at_ (left.len - i) else 0⟩
      (fun i => if i = -1 then cornerOf S angle true else S.leftCol i) (s.h + if angle > 180 then s.w else 0) S.bitDepth := by
    intro k hk
    simp only
    by_cases h0 : k = 0
    · subst h0
      rw [if_pos rfl, if_pos (by omega)]
      exact ⟨ht, ht'⟩
    · rw [if_neg h0, if_pos hk, if_neg (by omega), show (k : Int) - 1 = ((k - 1 : Nat) : Int) by omega, hL.len]
      rw [show (s.h + if angle > 180 then s.w else 0) - k = (s.h + if angle > 180 then s.w else 0) - 1 - (k - 1) by omega]
      exact ⟨hL.eq _ (by omega), hL.lt _ (by omega)⟩
  have sX : sub? p.planeW (p.rectX + s.x) = some (p.planeW - (p.rectX + s.x)) := by unfold sub?; rw [if_pos (by omega)]
  have sY : sub? p.planeH (p.rectY + s.y) = some (p.planeH - (p.rectY + s.y)) := by unfold sub?; rw [if_pos (by omega)]
  rw [sX, sY, Option.bind_some, Option.bind_some]
  have kA := side_ok (w := s.w) (h := s.h) (sm := sm) (d := (angle : Int) - 90) (have_ := S.haveAbove)
    (sz := min s.w (p.planeW - (p.rectX + s.x)) + (if angle < 90 then s.h else 0) + 1) (c := above.at_ 0)
    eA (by omega) (by omega) rfl (by split <;> omega) (by omega) (by
      intro hf
      obtain ⟨v, hv, hv1, hv2⟩ := flatA A hf angle true
      have h0 := hA.eq 0 (by omega)
      rw [hv 0] at h0
      refine ⟨fun k hk hk1 => ?_, ?_⟩
      · show (if k = 0 then _ else if k ≤ _ then above.at_ (k - 1) else 0) = _
        rw [if_neg (by omega), if_pos hk]
        have := hA.eq (k - 1) (by omega)
        rw [hv] at this
        omega
      · simp only [if_true]
        omega)
  have kL := side_ok (w := s.w) (h := s.h) (sm := sm) (d := (angle : Int) - 180) (have_ := S.haveLeft)
    (sz := min s.h (p.planeH - (p.rectY + s.y)) + (if angle > 180 then s.w else 0) + 1) (c := left.at_ (left.len - 1))
    eL (by omega) (by omega) rfl (by split <;> omega) (by omega) (by
      intro hf
      obtain ⟨v, hv, hv1, hv2⟩ := flatL A hf angle true
      have h0 := hL.eq 0 (by omega)
      rw [hv 0, Nat.sub_zero, ← hL.len] at h0
      refine ⟨fun k hk hk1 => ?_, ?_⟩
      · show (if k = 0 then _ else if k ≤ _ then left.at_ (left.len - k) else 0) = _
        rw [if_neg (by omega), if_pos hk]
        have := hL.eq (k - 1) (by omega)
        rw [hv, ← hL.len, show left.len - 1 - (k - 1) = left.len - k by omega] at this
        omega
      · simp only [if_true]
        omega)
  obtain ⟨fa, af, k1, k2, k3, k4⟩ := kA
  obtain ⟨fl, lf, j1, j2, j3, j4⟩ := kL
  rw [k1, j1, Option.bind_some, Option.bind_some, k2, j2, Option.bind_some, Option.bind_some]
  have szA : min (S.w : Int) (S.maxX - S.x + 1) + ((if (angle : Int) < 90 then S.h else 0 : Nat) : Int) + 1 =
      ((min s.w (p.planeW - (p.rectX + s.x)) + (if angle < 90 then s.h else 0) + 1 : Nat) : Int) := by
    rw [A.w, A.h]; split <;> split <;> omega
  have szL : min (S.h : Int) (S.maxY - S.y + 1) + ((if (angle : Int) > 180 then S.w else 0 : Nat) : Int) + 1 =
      ((min s.h (p.planeH - (p.rectY + s.y)) + (if angle > 180 then s.w else 0) + 1 : Nat) : Int) := by
    rw [A.w, A.h]; split <;> split <;> omega
  have nA : (S.w : Int) + ((if (angle : Int) < 90 then S.h else 0 : Nat) : Int) = ((s.w + (if angle < 90 then s.h else 0) : Nat) : Int) := by
    rw [A.w, A.h]; split <;> split <;> omega
  have nL : (S.h : Int) + ((if (angle : Int) > 180 then S.w else 0 : Nat) : Int) = ((s.h + (if angle > 180 then s.w else 0) : Nat) : Int) := by
    rw [A.w, A.h]; split <;> split <;> omega
  have ht1 : ((angle : Int) ≠ 90 ∧ (angle : Int) ≠ 180) = True := by
    rw [eq_iff_iff]; exact ⟨fun _ => trivial, fun _ => ⟨by omega, by omega⟩⟩
  have hc : (if 90 < (angle : Int) ∧ (angle : Int) < 180 ∧ S.w + S.h ≥ 24 then
      Spec.round2 (5 * S.leftCol 0 + 6 * S.aboveRow (-1) + 5 * S.aboveRow 0) 4 else S.aboveRow (-1)) = cornerOf S angle true := by
    simp [cornerOf]
  refine ⟨af, lf, _, _, rfl, ?_, ?_, k3, j3, ?_, ?_⟩
  · rw [upsample_eq, ← A.w, ← A.h]; rfl
  · rw [upsample_eq, ← A.w, ← A.h]; rfl
  · unfold Spec.Input.filtered
    simp only [Bool.not_true, Bool.false_eq_true, if_false]
    simp only [ht1, true_and]
    simp only [hc, szA, nA]
    rw [upsample_eq]
    rw [show S.w + S.h = s.w + s.h by rw [A.w, A.h]]
    exact k4
  · unfold Spec.Input.filtered
    simp only [Bool.not_true, Bool.false_eq_true, if_false]
    simp only [ht1, true_and]
    simp only [hc, szL, nL]
    rw [upsample_eq]
    rw [show S.w + S.h = s.w + s.h by rw [A.w, A.h]]
    exact j4

theorem arr_get {a : Arr} {g : Int → Int} {bd k : Nat} {z : Int} (h : (a.at_ k : Int) = g z ∧ a.at_ k < 2 ^ bd) (hk : k < a.len) :
    Good bd (a.get k) (g z) := ⟨a.at_ k, by unfold Arr.get; rw [if_pos hk], h.1, h.2⟩

theorem arr_getI {a : Arr} {g : Int → Int} {bd k : Nat} {i z : Int} (h : (a.at_ k : Int) = g z ∧ a.at_ k < 2 ^ bd) (hk : k < a.len)
    (hi : i = (k : Int)) : Good bd (a.getI i) (g z) := by
  unfold Arr.getI
  rw [hi, if_pos (by omega), Int.toNat_natCast]
  exact arr_get h hk

theorem predDirectional_ok (A : Agree p s S) {above left : Arr} {t angle : Nat} (ef sm : Bool) (ha : angle ∈ angles)
    (hA : IsA above S (s.w + if angle < 90 then s.h else 0)) (hL : IsL left S (s.h + if angle > 180 then s.w else 0))
    (ht : (t : Int) = cornerOf S angle ef) (ht' : t < 2 ^ S.bitDepth) :
    ∃ f, predDirectional above left t angle s.w s.h S.bitDepth (p.rectX + s.x) (p.rectY + s.y) p.planeW p.planeH
        (if ef = true then some sm else none) = some f ∧
      ∀ r < s.h, ∀ c < s.w, Good S.bitDepth (f r c) (S.directional angle ef sm r c) := by
  have hw := side_pos A.sizeW
  have hh := side_pos A.sizeH
  have ht1 := angle_turned angle ha
  unfold predDirectional
  simp only
  cases ef with
  | true =>
    obtain ⟨af, lf, ua, ul, e1, e2, e3, e4, e5, e6, e7⟩ := filteredEdges_ok A sm ht1 hA hL ht ht'
    rw [if_pos rfl]
    simp only
    rw [e1, Option.map_some]
    refine ⟨_, rfl, fun r hr c hc => ?_⟩
    have hua : ua.toNat = 0 ∨ ua.toNat = 1 := by cases ua <;> simp
    have hul : ul.toNat = 0 ∨ ul.toNat = 1 := by cases ul <;> simp
    have pa : 1 <<< ua.toNat = 2 ^ ua.toNat := Nat.one_shiftLeft _
    have pl : 1 <<< ul.toNat = 2 ^ ul.toNat := Nat.one_shiftLeft _
    unfold Spec.Input.directional
    simp only
    rw [e2, e3, if_neg (show ¬ (angle : Int) = 90 by omega), if_neg (show ¬ (angle : Int) = 180 by omega)]
    generalize (S.filtered angle true sm).1.1 = ga at e6 ⊢
    generalize (S.filtered angle true sm).2.1 = gl at e7 ⊢
    simp only [A.w, A.h, pa, pl]
    have hrev : ∀ k < lf.len, (⟨lf.len, fun k => lf.at_ (lf.len - 1 - k)⟩ : Arr).at_ (lf.len - 1 - k) = lf.at_ k := by
      intro k hk
      show lf.at_ (lf.len - 1 - (lf.len - 1 - k)) = _
      congr 1; omega
    have hs1 : sub? (⟨lf.len, fun k => lf.at_ (lf.len - 1 - k)⟩ : Arr).len 1 = some (lf.len - 1) := by
      unfold sub?; rw [if_pos (by show 1 ≤ lf.len; omega)]
    rcases Nat.lt_or_ge angle 90 with h1 | h1
    · have b1 : (angle : Int) < 90 := by omega
      simp only [if_pos h1, if_pos b1]
      rw [← angle1 angle ha h1]
      rw [if_pos h1] at e6
      refine z1_ok hua (by omega) (fun b hb => ?_) r c
      have := e6 (b + 2 ^ ua.toNat) (by rcases hua with h | h <;> rw [h] at hb ⊢ <;> omega)
      rw [show ((b + 2 ^ ua.toNat : Nat) : Int) - 2 ^ ua.toNat = b by push_cast; omega] at this
      exact arr_get this (by rcases hua with h | h <;> rw [h] at hb ⊢ <;> omega)
    · rcases Nat.lt_or_ge angle 180 with h2 | h2
      · have h3 : 90 < angle := by omega
        obtain ⟨d1, d2, d3, d4, d5⟩ := angle2 angle ha h3 h2
        have b1 : ¬ angle < 90 := by omega
        have b2 : ¬ (angle : Int) < 90 := by omega
        have b3 : 90 < angle ∧ angle < 180 := ⟨h3, h2⟩
        have b4 : (angle : Int) < 180 := by omega
        have b5 : ¬ angle > 180 := by omega
        simp only [if_neg b1, if_neg b2, if_pos b3, if_pos b4]
        rw [← d1, ← d2]
        rw [if_neg b1, Nat.add_zero] at e6
        rw [if_neg b5, Nat.add_zero] at e7
        refine z2_ok hua hul hs1 d3 d4 d5 (fun z hz hz' => ?_) (fun z hz hz' => ?_) hr hc
        · have k1 := e6 (z + 2 ^ ua.toNat).toNat (by rcases hua with h | h <;> rw [h] at hz hz' ⊢ <;> omega)
          have k2 := e6 (z + 1 + 2 ^ ua.toNat).toNat (by rcases hua with h | h <;> rw [h] at hz hz' ⊢ <;> omega)
          rw [show (((z + 2 ^ ua.toNat).toNat : Nat) : Int) - 2 ^ ua.toNat = z by omega] at k1
          rw [show (((z + 1 + 2 ^ ua.toNat).toNat : Nat) : Int) - 2 ^ ua.toNat = z + 1 by omega] at k2
          simp only [Bool.not_true, Bool.false_and, Bool.false_eq_true, if_false]
          have hp : ((2 ^ ua.toNat : Nat) : Int) = 2 ^ ua.toNat := by push_cast; rfl
          exact ⟨arr_getI k1 (by rcases hua with h | h <;> rw [h] at hz hz' ⊢ <;> omega) (by omega),
            arr_getI k2 (by rcases hua with h | h <;> rw [h] at hz hz' ⊢ <;> omega) (by omega)⟩
        · have k1 := e7 (z + 2 ^ ul.toNat).toNat (by rcases hul with h | h <;> rw [h] at hz hz' ⊢ <;> omega)
          have k2 := e7 (z + 1 + 2 ^ ul.toNat).toNat (by rcases hul with h | h <;> rw [h] at hz hz' ⊢ <;> omega)
          rw [show (((z + 2 ^ ul.toNat).toNat : Nat) : Int) - 2 ^ ul.toNat = z by omega] at k1
          rw [show (((z + 1 + 2 ^ ul.toNat).toNat : Nat) : Int) - 2 ^ ul.toNat = z + 1 by omega] at k2
          have hp : ((2 ^ ul.toNat : Nat) : Int) = 2 ^ ul.toNat := by push_cast; rfl
          have hp0 : (0 : Int) < 2 ^ ul.toNat := by rcases hul with h | h <;> rw [h] <;> decide
          have l1 : (z + 2 ^ ul.toNat).toNat < lf.len := by rcases hul with h | h <;> rw [h] at hz hz' ⊢ <;> omega
          have l2 : (z + 1 + 2 ^ ul.toNat).toNat < lf.len := by rcases hul with h | h <;> rw [h] at hz hz' ⊢ <;> omega
          rw [← hrev _ l1] at k1
          rw [← hrev _ l2] at k2
          unfold leftAt leftNext
          simp only [Bool.not_true, Bool.false_and, Bool.false_eq_true, if_false]
          rw [if_neg (by omega), if_pos (by omega), if_neg (by omega), if_pos (by omega)]
          exact ⟨arr_getI k1 (by show _ < lf.len; omega) (by omega), arr_getI k2 (by show _ < lf.len; omega) (by omega)⟩
      · have h3 : 180 < angle := by omega
        obtain ⟨d1, d2⟩ := angle3 angle ha h3
        have b1 : ¬ angle < 90 := by omega
        have b2 : ¬ (angle : Int) < 90 := by omega
        have b3 : ¬ (90 < angle ∧ angle < 180) := by omega
        have b4 : ¬ (angle : Int) < 180 := by omega
        simp only [if_neg b1, if_neg b2, if_neg b3, if_neg b4, if_pos h3]
        rw [← d1]
        rw [if_pos h3] at e7
        refine z3_ok (w := s.w) (h := s.h) hul hs1 d2 (fun b hb => ?_) hr hc
        have := e7 (b + 2 ^ ul.toNat) (by rcases hul with h | h <;> rw [h] at hb ⊢ <;> omega)
        rw [show ((b + 2 ^ ul.toNat : Nat) : Int) - 2 ^ ul.toNat = b by push_cast; omega] at this
        have l1 : b + 2 ^ ul.toNat < lf.len := by rcases hul with h | h <;> rw [h] at hb ⊢ <;> omega
        rw [← hrev _ l1] at this
        have l2 : lf.len - 1 - (b + 2 ^ ul.toNat) < lf.len := Nat.lt_of_le_of_lt (Nat.sub_le _ _) (by omega)
        exact arr_get this l2
  | false =>
    rw [if_neg (by decide)]
    simp only
    refine ⟨_, rfl, fun r hr c hc => ?_⟩
    unfold Spec.Input.directional Spec.Input.filtered
    simp only [Bool.not_false, if_true]
    rw [if_neg (show ¬ (angle : Int) = 90 by omega), if_neg (show ¬ (angle : Int) = 180 by omega)]
    simp only [A.w, A.h]
    have ct : (t : Int) = S.aboveRow (-1) := by rw [ht]; unfold cornerOf; simp
    have cl : S.leftCol (-1) = S.aboveRow (-1) := by unfold Spec.Input.leftCol; simp
    rcases Nat.lt_or_ge angle 90 with h1 | h1
    · have b1 : (angle : Int) < 90 := by omega
      simp only [if_pos h1, if_pos b1]
      rw [← angle1 angle ha h1]
      rw [if_pos h1] at hA
      exact z1_ok (Or.inl rfl) (by omega) (fun b hb => hA.get (by omega)) r c
    · rcases Nat.lt_or_ge angle 180 with h2 | h2
      · have h3 : 90 < angle := by omega
        obtain ⟨d1, d2, d3, d4, d5⟩ := angle2 angle ha h3 h2
        have b1 : ¬ angle < 90 := by omega
        have b2 : ¬ (angle : Int) < 90 := by omega
        have b3 : 90 < angle ∧ angle < 180 := ⟨h3, h2⟩
        have b4 : (angle : Int) < 180 := by omega
        have b5 : ¬ angle > 180 := by omega
        simp only [if_neg b1, if_neg b2, if_pos b3, if_pos b4]
        rw [← d1, ← d2]
        rw [if_neg b1, Nat.add_zero] at hA
        rw [if_neg b5, Nat.add_zero] at hL
        have hs1 : sub? left.len 1 = some (s.h - 1) := by unfold sub?; rw [hL.len, if_pos (by omega)]
        refine z2_ok (Or.inl rfl) (Or.inl rfl) hs1 d3 d4 d5 (fun z hz hz' => ?_) (fun z hz hz' => ?_) hr hc
        · have gg : ∀ k : Nat, k < s.w → Good S.bitDepth (above.getI ((k : Int) + (0 : Nat))) (S.aboveRow k) := by
            intro k hk
            exact arr_getI (k := k) ⟨hA.eq k hk, hA.lt k hk⟩ (by rw [hA.len]; exact hk) (by omega)
          have k2 := gg (z + 1).toNat (by omega)
          rw [show (((z + 1).toNat : Nat) : Int) = z + 1 by omega] at k2
          refine ⟨?_, k2⟩
          by_cases h0 : z < 0
          · rw [show z = -1 by omega]
            exact ⟨t, rfl, ct, ht'⟩
          · have k1 := gg z.toNat (by omega)
            rw [show ((z.toNat : Nat) : Int) = z by omega] at k1
            simp only [h0, decide_false, Bool.and_false, Bool.false_eq_true, if_false]
            exact k1
        · have gg : ∀ k : Nat, k < s.h → Good S.bitDepth (left.getI (((s.h - 1 : Nat) : Int) - k)) (S.leftCol k) := by
            intro k hk
            exact arr_getI (k := s.h - 1 - k) ⟨hL.eq k hk, hL.lt k hk⟩ (by rw [hL.len]; omega) (by omega)
          unfold leftAt leftNext
          have k2 := gg (z + 1).toNat (by omega)
          rw [show (((z + 1).toNat : Nat) : Int) = z + 1 by omega] at k2
          constructor
          · by_cases h0 : z < 0
            · rw [show z = -1 by omega]
              exact ⟨t, rfl, by rw [cl]; exact ct, ht'⟩
            · have k1 := gg z.toNat (by omega)
              rw [show ((z.toNat : Nat) : Int) = z by omega] at k1
              simp only [h0, decide_false, Bool.and_false, Bool.false_eq_true, if_false]
              rw [if_neg (by omega), if_pos (by omega), show z + ((0 : Nat) : Int) = z by omega]
              exact k1
          · rw [if_neg (by omega), if_pos (by omega), show z + ((0 : Nat) : Int) + 1 = z + 1 by omega]
            exact k2
      · have h3 : 180 < angle := by omega
        obtain ⟨d1, d2⟩ := angle3 angle ha h3
        have b1 : ¬ angle < 90 := by omega
        have b2 : ¬ (angle : Int) < 90 := by omega
        have b3 : ¬ (90 < angle ∧ angle < 180) := by omega
        have b4 : ¬ (angle : Int) < 180 := by omega
        simp only [if_neg b1, if_neg b2, if_neg b3, if_neg b4, if_pos h3]
        rw [← d1]
        rw [if_pos h3] at hL
        have hs1 : sub? left.len 1 = some (s.h + s.w - 1) := by unfold sub?; rw [hL.len, if_pos (by omega)]
        refine z3_ok (w := s.w) (h := s.h) (Or.inl rfl) hs1 d2 (fun b hb => ?_) hr hc
        have := hL.get (k := b) (by omega)
        rw [show s.h + s.w - 1 - (b + 0) = s.h + s.w - 1 - b by omega]
        exact this

end Rav1e.Intra

import Verif.Mc.Fill
import Verif.Mc.Sample

/-! # Interpolation of a block -/

namespace Rav1e.Mc

open Spec (round2 clip3)

/-- The source gives the samples `P`, where `P 3 3` is at the corner of the block. -/
def Gives (s : Src) (w h : Nat) (P : Nat → Nat → Int) : Prop :=
  ∀ dx dy r c : Nat, dx ≤ 3 → dy ≤ 3 → r + (3 - dy) < h + 7 → c + (3 - dx) < w + 7 →
    s.px dx dy r c = some (P (r + (3 - dy)) (c + (3 - dx)))

section
variable {κ : Type} [DecidableEq κ]

theorem fillIntermediate_ok {s : Src} {w h : Nat} {P : Nat → Nat → Int} (hs : Gives s w h P) {xf : List Int} {fx : Nat → Int}
    (hf : ∀ t < 8, xf.getD t 0 = fx t) (hh : h ≤ 128) {bd cg : Nat} (hc : cg < w) (buf : Nat → Int) :
    ∃ b', fillIntermediate s xf bd cg w h buf = some b' ∧ ∀ r < h + 7, ∀ j < min 8 (w - cg),
      b' (8 * r + j) = i16 (roundShift (dot fx (fun t => P r (cg + j + t))) (7 - intermediateBits bd)) := by
  obtain ⟨b', h1, h2, _⟩ := fill_ok (fun k => decide (k < 8 * (128 + 7))) (fun r j => 8 * r + j)
    (fun r j => (runFilter (fun i => s.px 3 3 r (cg + j + i)) xf).map (fun v => i16 (roundShift v (7 - intermediateBits bd))))
    (fun r j => i16 (roundShift (dot fx (fun t => P r (cg + j + t))) (7 - intermediateBits bd))) (h + 7) (min 8 (w - cg)) buf
    (fun r hr j hj => by simp only [decide_eq_true_eq]; omega)
    (fun r hr j hj => by
      rw [runFilter_ok _ (fun t => P r (cg + j + t)) xf
        (fun i hi => by
          have := hs 3 3 r (cg + j + i) (by omega) (by omega) (by omega) (by omega)
          simpa using this)]
      simp only [Option.map_some]
      rw [dot_congr hf (fun _ _ => rfl)])
    (fun r hr j hj r' hr' j' hj' he => by
      omega)
  exact ⟨b', h1, h2⟩

/-- The loop over groups of 8 columns. -/
def groups (ok : κ → Bool) (pos : Nat → Nat → κ) (s : Src) (xf yf : List Int) (w h bd : Nat) (out : Int → Int) (n : Nat)
    (dst : κ → Int) : Option ((Nat → Int) × (κ → Int)) :=
  (List.range n).foldlM (fun (st : (Nat → Int) × (κ → Int)) g => do
    let cg := 8 * g
    let buf ← fillIntermediate s xf bd cg w h st.1
    let dst ← fill ok (fun r j => pos r (cg + j)) (fun r j => (runFilter (fromIntermediate buf r j) yf).map out) h
      (min 8 (w - cg)) st.2
    some (buf, dst)) (fun _ => 0, dst)

theorem groups_ok {ok : κ → Bool} {pos : Nat → Nat → κ} {s : Src} {w h : Nat} {P : Nat → Nat → Int} (hs : Gives s w h P)
    {xf yf : List Int} {fx fy : Nat → Int} (hfx : ∀ t < 8, xf.getD t 0 = fx t) (hfy : ∀ t < 8, yf.getD t 0 = fy t)
    (hh : h ≤ 128) {bd : Nat} (out : Int → Int)
    (hok : ∀ r < h, ∀ c < w, ok (pos r c) = true)
    (hi : ∀ r < h, ∀ c < w, ∀ r' < h, ∀ c' < w, pos r c = pos r' c' → r = r' ∧ c = c') (dst : κ → Int) (n : Nat)
    (hn : n ≤ (w + 7) / 8) :
    ∃ buf d', groups ok pos s xf yf w h bd out n dst = some (buf, d') ∧
      (∀ r < h, ∀ c < w, c < 8 * n → d' (pos r c) =
        out (dot fy (fun t => i16 (roundShift (dot fx (fun u => P (r + t) (c + u))) (7 - intermediateBits bd))))) ∧
      ∀ k, (∀ r < h, ∀ c < w, k ≠ pos r c) → d' k = dst k := by
  induction n with
  | zero => exact ⟨fun _ => 0, dst, rfl, by omega, by simp⟩
  | succ n ih =>
    obtain ⟨buf, d', h1, h2, h3⟩ := ih (by omega)
    have hc : 8 * n < w := by omega
    obtain ⟨b2, g1, g2⟩ := fillIntermediate_ok (bd := bd) hs hfx hh hc buf
    obtain ⟨d2, e1, e2, e3⟩ := fill_ok ok (fun r j => pos r (8 * n + j))
      (fun r j => (runFilter (fromIntermediate b2 r j) yf).map out)
      (fun r j => out (dot fy (fun t => i16 (roundShift (dot fx (fun u => P (r + t) (8 * n + j + u)))
        (7 - intermediateBits bd))))) h (min 8 (w - 8 * n)) d'
      (fun r hr j hj => hok r hr _ (by omega))
      (fun r hr j hj => by
        rw [runFilter_ok _ (fun t => i16 (roundShift (dot fx (fun u => P (r + t) (8 * n + j + u))) (7 - intermediateBits bd)))
          yf (fun i hi8 => by
            unfold fromIntermediate
            rw [if_pos (by omega), show 8 * r + j + 8 * i = 8 * (r + i) + j by omega, g2 (r + i) (by omega) j hj])]
        simp only [Option.map_some]
        rw [dot_congr hfy (fun _ _ => rfl)])
      (fun r hr j hj r' hr' j' hj' he => by
        have := hi r hr _ (by omega) r' hr' _ (by omega) he
        omega)
    refine ⟨b2, d2, ?_, ?_, ?_⟩
    · unfold groups at h1 ⊢
      rw [List.range_succ, List.foldlM_append, h1]
      simp only [Option.bind_eq_bind, Option.bind_some, List.foldlM_cons, List.foldlM_nil, g1, e1]
      rfl
    · intro r hr c hcw hc8
      by_cases hlt : c < 8 * n
      · rw [e3 _ (fun r' hr' j' hj' he => ?_), h2 r hr c hcw hlt]
        have := hi r hr c hcw r' hr' _ (by omega) he
        omega
      · have := e2 r hr (c - 8 * n) (by omega)
        simp only [show 8 * n + (c - 8 * n) = c by omega] at this
        exact this
    · intro k hk
      rw [e3 k (fun r hr j hj => hk r hr _ (by omega)), h3 k hk]

theorem sizesOk_of {w h : Nat} (hw : w ∈ [2, 4, 8, 16, 32, 64, 128]) (hh : h % 2 = 0) : sizesOk w h = true := by
  unfold sizesOk
  simp only [Bool.and_eq_true, decide_eq_true_eq, List.contains_iff_mem]
  exact ⟨hh, hw⟩

/-- `InterRound0` in terms of `intermediate_bits`. -/
theorem bits_cases {bd : Nat} : (bd = 12 ∧ intermediateBits bd = 2) ∨ (bd ≠ 12 ∧ intermediateBits bd = 4) := by
  unfold intermediateBits
  by_cases h : bd = 12
  · left; exact ⟨h, by rw [if_pos h]⟩
  · right; exact ⟨h, by rw [if_neg h]⟩

theorem put8tap_ok {ok : κ → Bool} {pos : Nat → Nat → κ} {s : Src} {w h : Nat} {P : Nat → Nat → Int} (hs : Gives s w h P)
    (hw : w ∈ [2, 4, 8, 16, 32, 64, 128]) (hh : h % 2 = 0) (hh' : h ≤ 128) {mode bd cf rf : Nat} (hm : mode < 4)
    (hsharp : mode ≠ 2 ∨ (4 < w ∧ 4 < h)) (hcf : cf < 16) (hrf : rf < 16) (hbd : bd = 8 ∨ bd = 10 ∨ bd = 12)
    (hP : ∀ i j, 0 ≤ P i j ∧ P i j < 2 ^ bd)
    (hok : ∀ r < h, ∀ c < w, ok (pos r c) = true)
    (hi : ∀ r < h, ∀ c < w, ∀ r' < h, ∀ c' < w, pos r c = pos r' c' → r = r' ∧ c = c') (dst : κ → Int) :
    ∃ d', put8tap ok pos s w h cf rf mode mode bd dst = some d' ∧
      (∀ r < h, ∀ c < w, d' (pos r c) = clip3 0 (2 ^ bd - 1) (ideal (Spec.subpel (Spec.interpFilter mode w) cf)
        (Spec.subpel (Spec.interpFilter mode h) rf) P (7 - intermediateBits bd) (7 + intermediateBits bd) r c)) ∧
      ∀ k, (∀ r < h, ∀ c < w, k ≠ pos r c) → d' k = dst k := by
  obtain ⟨yf, hyf, hy⟩ := getFilter_ok (mode := mode) (frac := rf) (len := h) hm (by omega) hrf
  obtain ⟨xf, hxf, hx⟩ := getFilter_ok (mode := mode) (frac := cf) (len := w) hm (by omega) hcf
  have tx := subpel_tame _ (interpFilter_lt (len := w) hm) cf hcf
  have ty := subpel_tame _ (interpFilter_lt (len := h) hm) rf hrf
  have cx := subpel_copies _ (interpFilter_lt (len := w) hm)
  have cy := subpel_copies _ (interpFilter_lt (len := h) hm)
  have key : ∀ b : Option (κ → Int), put8tap ok pos s w h cf rf mode mode bd dst = b ↔
      (if cf = 0 ∧ rf = 0 then
        fill ok pos (fun r c => s.px 0 0 r c) h w dst
      else if cf = 0 then
        fill ok pos (fun r c => (runFilter (fun i => s.px 0 3 (r + i) c) yf).map (fun v => clampPx bd (roundShift v 7))) h w dst
      else if rf = 0 then
        fill ok pos (fun r c => (runFilter (fun i => s.px 3 0 r (c + i)) xf).map
          (fun v => clampPx bd (roundShift (roundShift v (7 - intermediateBits bd)) (intermediateBits bd)))) h w dst
      else (groups ok pos s xf yf w h bd (fun v => clampPx bd (roundShift v (7 + intermediateBits bd))) ((w + 7) / 8) dst).bind
        (fun r => some r.2)) = b := by
    intro b
    unfold put8tap
    rw [hyf, hxf]
    simp only [Option.bind_eq_bind, Option.bind_some, sizesOk_of hw hh, if_true]
    rfl
  simp only [key]
  clear key
  rcases Nat.eq_zero_or_pos cf with rfl | hc0 <;> rcases Nat.eq_zero_or_pos rf with rfl | hr0
  · rw [if_pos ⟨rfl, rfl⟩]
    refine fill_ok ok pos _ _ h w dst hok (fun r hr c hc => ?_) hi
    rw [show s.px 0 0 r c = _ from hs 0 0 r c (by omega) (by omega) (by omega) (by omega)]
    have hp := hP (r + 3) (c + 3)
    have := ideal_copy (P := P) (r := r) (c := c) cx cy
    rcases bits_cases (bd := bd) with ⟨_, e⟩ | ⟨_, e⟩
    · rw [e, show 7 - 2 = 5 by rfl, show 7 + 2 = 9 by rfl, this.2.1]
      unfold clip3
      rw [if_neg (by omega), if_neg (by omega)]
    · rw [e, show 7 - 4 = 3 by rfl, show 7 + 4 = 11 by rfl, this.1]
      unfold clip3
      rw [if_neg (by omega), if_neg (by omega)]
  · rw [if_neg (by omega), if_pos rfl]
    refine fill_ok ok pos _ _ h w dst hok (fun r hr c hc => ?_) hi
    rw [runFilter_ok _ (fun t => P (r + t) (c + 3)) yf
      (fun i hi8 => by
        have := hs 0 3 (r + i) c (by omega) (by omega) (by omega) (by omega)
        simpa using this)]
    simp only [Option.map_some]
    rw [dot_congr hy (fun _ _ => rfl), clampPx_eq, roundShift_eq (by omega)]
    have := ideal_vert (fy := Spec.subpel (Spec.interpFilter mode h) rf) (P := P) (r := r) (c := c) cx
    rcases bits_cases (bd := bd) with ⟨_, e⟩ | ⟨_, e⟩
    · rw [e, show 7 - 2 = 5 by rfl, show 7 + 2 = 9 by rfl, this.2.1]
    · rw [e, show 7 - 4 = 3 by rfl, show 7 + 4 = 11 by rfl, this.1]
  · rw [if_neg (by omega), if_neg (by omega), if_pos rfl]
    refine fill_ok ok pos _ _ h w dst hok (fun r hr c hc => ?_) hi
    rw [runFilter_ok _ (fun t => P (r + 3) (c + t)) xf
      (fun i hi8 => by
        have := hs 3 0 r (c + i) (by omega) (by omega) (by omega) (by omega)
        simpa using this)]
    simp only [Option.map_some]
    have := ideal_horz (fx := Spec.subpel (Spec.interpFilter mode w) cf) (P := P) (r := r) (c := c) cy
    rw [dot_congr hx (fun _ _ => rfl), clampPx_eq]
    rcases bits_cases (bd := bd) with ⟨_, e⟩ | ⟨_, e⟩
    · rw [e, show 7 - 2 = 5 by rfl, show 7 + 2 = 9 by rfl, this.2.1, roundShift_eq (by omega), roundShift_eq (by omega)]
    · rw [e, show 7 - 4 = 3 by rfl, show 7 + 4 = 11 by rfl, this.1, roundShift_eq (by omega), roundShift_eq (by omega)]
  · rw [if_neg (by omega), if_neg (by omega), if_neg (by omega)]
    obtain ⟨buf, d', h1, h2, h3⟩ := groups_ok (bd := bd) hs hx hy hh' (fun v => clampPx bd (roundShift v (7 + intermediateBits bd)))
      hok hi dst ((w + 7) / 8) (Nat.le_refl _)
    refine ⟨d', by rw [h1]; rfl, fun r hr c hc => ?_, h3⟩
    rw [h2 r hr c hc (by omega), clampPx_eq, roundShift_eq (by omega)]
    unfold ideal
    congr 2
    refine dot_congr (fun _ _ => rfl) (fun t _ => ?_)
    have hr := horz_range (c := c) hbd tx hP (r + t)
    rw [roundShift_eq (by rcases bits_cases (bd := bd) with ⟨_, e⟩ | ⟨_, e⟩ <;> omega), i16_id (by omega) (by omega)]

theorem prep8tap_ok {s : Src} {w h : Nat} {P : Nat → Nat → Int} (hs : Gives s w h P)
    (hw : w ∈ [2, 4, 8, 16, 32, 64, 128]) (hh : h % 2 = 0) (hh' : h ≤ 128) {mode bd cf rf : Nat} (hm : mode < 4)
    (hsharp : mode ≠ 2 ∨ (4 < w ∧ 4 < h)) (hcf : cf < 16) (hrf : rf < 16) (hbd : bd = 8 ∨ bd = 10 ∨ bd = 12)
    (hP : ∀ i j, 0 ≤ P i j ∧ P i j < 2 ^ bd) (tmp : Nat → Int) :
    ∃ d', prep8tap s w h cf rf mode mode bd tmp = some d' ∧
      ∀ r < h, ∀ c < w, d' (r * w + c) = ideal (Spec.subpel (Spec.interpFilter mode w) cf)
        (Spec.subpel (Spec.interpFilter mode h) rf) P (7 - intermediateBits bd) 7 r c - prepBias bd := by
  obtain ⟨yf, hyf, hy⟩ := getFilter_ok (mode := mode) (frac := rf) (len := h) hm (by omega) hrf
  obtain ⟨xf, hxf, hx⟩ := getFilter_ok (mode := mode) (frac := cf) (len := w) hm (by omega) hcf
  have tx := subpel_tame _ (interpFilter_lt (len := w) hm) cf hcf
  have ty := subpel_tame _ (interpFilter_lt (len := h) hm) rf hrf
  have cx := subpel_copies _ (interpFilter_lt (len := w) hm)
  have cy := subpel_copies _ (interpFilter_lt (len := h) hm)
  have hw128 : 0 < w ∧ w ≤ 128 := by simp at hw; omega
  have hok : ∀ r < h, ∀ c < w, (fun k => decide (k < 1 <<< 14)) ((fun r c => r * w + c) r c) = true := by
    intro r hr c hc
    have h14 : (1 <<< 14 : Nat) = 16384 := by decide
    simp only [decide_eq_true_eq, h14]
    have : r * w ≤ 127 * 128 := Nat.mul_le_mul (by omega) hw128.2
    have h2 : r * w + w ≤ 128 * 128 := by
      calc r * w + w = (r + 1) * w := by ring
        _ ≤ 128 * 128 := Nat.mul_le_mul (by omega) hw128.2
    omega
  have hi : ∀ r < h, ∀ c < w, ∀ r' < h, ∀ c' < w, (fun r c => r * w + c) r c = (fun r c => r * w + c) r' c' → r = r' ∧ c = c' := by
    intro r _ c hc r' _ c' hc' he
    simp only at he
    have e1 : (r * w + c) / w = (r' * w + c') / w := by rw [he]
    have e2 : (r * w + c) % w = (r' * w + c') % w := by rw [he]
    rw [Nat.mul_comm r, Nat.mul_comm r', Nat.mul_add_div hw128.1, Nat.mul_add_div hw128.1, Nat.div_eq_of_lt hc,
      Nat.div_eq_of_lt hc'] at e1
    rw [Nat.mul_comm r, Nat.mul_comm r', Nat.mul_add_mod, Nat.mul_add_mod, Nat.mod_eq_of_lt hc, Nat.mod_eq_of_lt hc'] at e2
    omega
  have key : ∀ b : Option (Nat → Int), prep8tap s w h cf rf mode mode bd tmp = b ↔
      (if cf = 0 ∧ rf = 0 then
        fill (fun k => decide (k < 1 <<< 14)) (fun r c => r * w + c)
          (fun r c => (s.px 0 0 r c).map (fun v => i16 (i16 (v * 2 ^ intermediateBits bd) - prepBias bd))) h w tmp
      else if cf = 0 then
        fill (fun k => decide (k < 1 <<< 14)) (fun r c => r * w + c) (fun r c => (runFilter (fun i => s.px 0 3 (r + i) c) yf).map
          (fun v => i16 (roundShift v (7 - intermediateBits bd) - prepBias bd))) h w tmp
      else if rf = 0 then
        fill (fun k => decide (k < 1 <<< 14)) (fun r c => r * w + c) (fun r c => (runFilter (fun i => s.px 3 0 r (c + i)) xf).map
          (fun v => i16 (roundShift v (7 - intermediateBits bd) - prepBias bd))) h w tmp
      else (groups (fun k => decide (k < 1 <<< 14)) (fun r c => r * w + c) s xf yf w h bd
        (fun v => i16 (roundShift v 7 - prepBias bd)) ((w + 7) / 8) tmp).bind
        (fun r => some r.2)) = b := by
    intro b
    unfold prep8tap
    rw [hyf, hxf]
    simp only [Option.bind_eq_bind, Option.bind_some, sizesOk_of hw hh, if_true]
    rfl
  simp only [key]
  clear key
  have drop : ∀ {b : Option (Nat → Int)} {v : Nat → Nat → Int}, (∃ d', b = some d' ∧
      (∀ r < h, ∀ c < w, d' ((fun r c => r * w + c) r c) = v r c) ∧
      ∀ k, (∀ r < h, ∀ c < w, k ≠ (fun r c => r * w + c) r c) → d' k = tmp k) →
      ∃ d', b = some d' ∧ ∀ r < h, ∀ c < w, d' (r * w + c) = v r c :=
    fun ⟨d', h1, h2, _⟩ => ⟨d', h1, h2⟩
  have fits : ∀ r c, i16 (ideal (Spec.subpel (Spec.interpFilter mode w) cf) (Spec.subpel (Spec.interpFilter mode h) rf) P
      (7 - intermediateBits bd) 7 r c - prepBias bd) = ideal (Spec.subpel (Spec.interpFilter mode w) cf)
      (Spec.subpel (Spec.interpFilter mode h) rf) P (7 - intermediateBits bd) 7 r c - prepBias bd := fun r c =>
    i16_id (prep_range hbd tx ty hP).1 (prep_range hbd tx ty hP).2
  rcases Nat.eq_zero_or_pos cf with rfl | hc0 <;> rcases Nat.eq_zero_or_pos rf with rfl | hr0
  · rw [if_pos ⟨rfl, rfl⟩]
    refine drop (fill_ok _ _ _ _ h w tmp hok (fun r hr c hc => ?_) hi)
    rw [show s.px 0 0 r c = _ from hs 0 0 r c (by omega) (by omega) (by omega) (by omega)]
    rw [← fits]
    simp only [Option.map_some]
    have hp := hP (r + 3) (c + 3)
    have := ideal_copy (P := P) (r := r) (c := c) cx cy
    rcases bits_cases (bd := bd) with ⟨eb, e⟩ | ⟨eb, e⟩
    · subst eb
      rw [e, show 7 - 2 = 5 by rfl, this.2.2.2, show 3 - 0 = 3 by rfl, i16_id (v := _ * _) (by norm_num; omega) (by norm_num at hp ⊢; omega)]
    · rw [e, show 7 - 4 = 3 by rfl, this.2.2.1]
      have : P (r + 3) (c + 3) < 1024 := by
        rcases hbd with rfl | rfl | rfl
        · norm_num at hp; omega
        · norm_num at hp; omega
        · omega
      rw [i16_id (v := _ * _) (by norm_num; omega) (by norm_num; omega)]
  · rw [if_neg (by omega), if_pos rfl]
    refine drop (fill_ok _ _ _ _ h w tmp hok (fun r hr c hc => ?_) hi)
    rw [runFilter_ok _ (fun t => P (r + t) (c + 3)) yf
      (fun i hi8 => by
        have := hs 0 3 (r + i) c (by omega) (by omega) (by omega) (by omega)
        simpa using this)]
    rw [← fits]
    simp only [Option.map_some]
    have := ideal_vert (fy := Spec.subpel (Spec.interpFilter mode h) rf) (P := P) (r := r) (c := c) cx
    rw [dot_congr hy (fun _ _ => rfl)]
    rcases bits_cases (bd := bd) with ⟨_, e⟩ | ⟨_, e⟩
    · rw [e, show 7 - 2 = 5 by rfl, this.2.2.2, roundShift_eq (by omega)]
    · rw [e, show 7 - 4 = 3 by rfl, this.2.2.1, roundShift_eq (by omega)]
  · rw [if_neg (by omega), if_neg (by omega), if_pos rfl]
    refine drop (fill_ok _ _ _ _ h w tmp hok (fun r hr c hc => ?_) hi)
    rw [runFilter_ok _ (fun t => P (r + 3) (c + t)) xf
      (fun i hi8 => by
        have := hs 3 0 r (c + i) (by omega) (by omega) (by omega) (by omega)
        simpa using this)]
    rw [← fits]
    simp only [Option.map_some]
    have := ideal_horz (fx := Spec.subpel (Spec.interpFilter mode w) cf) (P := P) (r := r) (c := c) cy
    rw [dot_congr hx (fun _ _ => rfl)]
    rcases bits_cases (bd := bd) with ⟨_, e⟩ | ⟨_, e⟩
    · rw [e, show 7 - 2 = 5 by rfl, this.2.2.2, roundShift_eq (by omega)]
    · rw [e, show 7 - 4 = 3 by rfl, this.2.2.1, roundShift_eq (by omega)]
  · rw [if_neg (by omega), if_neg (by omega), if_neg (by omega)]
    obtain ⟨buf, d', h1, h2, _⟩ := groups_ok (ok := fun k => decide (k < 1 <<< 14)) (pos := fun r c => r * w + c) (bd := bd) hs hx hy hh'
      (fun v => i16 (roundShift v 7 - prepBias bd))
      hok hi tmp ((w + 7) / 8) (Nat.le_refl _)
    refine ⟨d', by rw [h1]; rfl, fun r hr c hc => ?_⟩
    have := h2 r hr c hc (by omega)
    rw [this, ← fits, roundShift_eq (by omega)]
    unfold ideal
    congr 3
    refine dot_congr (fun _ _ => rfl) (fun t _ => ?_)
    have hr := horz_range (c := c) hbd tx hP (r + t)
    rw [roundShift_eq (by rcases bits_cases (bd := bd) with ⟨_, e⟩ | ⟨_, e⟩ <;> omega), i16_id (by omega) (by omega)]

/-- The average of two predictions. -/
theorem mcAvg_ok {ok : κ → Bool} {pos : Nat → Nat → κ} {w h bd : Nat} {t1 t2 : Nat → Int} {a b : Nat → Nat → Int}
    (hw : w ∈ [2, 4, 8, 16, 32, 64, 128]) (hh : h % 2 = 0)
    (h1 : ∀ r < h, ∀ c < w, t1 (r * w + c) = a r c - prepBias bd) (h2 : ∀ r < h, ∀ c < w, t2 (r * w + c) = b r c - prepBias bd)
    (hok : ∀ r < h, ∀ c < w, ok (pos r c) = true)
    (hi : ∀ r < h, ∀ c < w, ∀ r' < h, ∀ c' < w, pos r c = pos r' c' → r = r' ∧ c = c') (dst : κ → Int) :
    ∃ d', mcAvg ok pos t1 t2 w h bd dst = some d' ∧
      (∀ r < h, ∀ c < w, d' (pos r c) = clip3 0 (2 ^ bd - 1) (round2 (a r c + b r c) (intermediateBits bd + 1))) ∧
      ∀ k, (∀ r < h, ∀ c < w, k ≠ pos r c) → d' k = dst k := by
  unfold mcAvg
  rw [if_pos (sizesOk_of hw hh)]
  refine fill_ok ok pos _ _ h w dst hok (fun r hr c hc => ?_) hi
  rw [h1 r hr c hc, h2 r hr c hc, clampPx_eq, roundShift_eq (by omega)]
  congr 3
  omega

end

end Rav1e.Mc

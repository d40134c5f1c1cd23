import Verif.Intra.Directional

/-!
# The prediction of a transform block
-/

namespace Rav1e.Intra

variable {p : Region} {s : Site} {S : Spec.Input}

/-- The mode in the bitstream; chroma from luma starts from the DC prediction. -/
def Mode.spec : Mode → Spec.Mode
  | .dc | .cfl => .dc
  | .v => .v | .h => .h | .d45 => .d45 | .d135 => .d135 | .d113 => .d113 | .d157 => .d157 | .d203 => .d203 | .d67 => .d67
  | .smooth => .smooth | .smoothV => .smoothV | .smoothH => .smoothH | .paeth => .paeth

/-- The angle delta in the bitstream. -/
def Param.delta : Param → Int
  | .angleDelta d => d
  | _ => 0

/-- The parameters the bitstream allows: angle deltas from -3 to 3, and only for directional modes. -/
def Allowed (m : Mode) (q : Param) : Prop := -3 ≤ q.delta ∧ q.delta ≤ 3 ∧ (m.directional = false → q.delta = 0)

theorem edgeAngle_eq (m : Mode) (q : Param) : edgeAngle m q = modeAngle m + q.delta * 3 := by
  cases q <;> simp [edgeAngle, Param.delta]

theorem filtered_90 (i : Nat) (ef sm : Bool) : (S.filtered 90 ef sm).1.1 i = S.aboveRow i := by
  unfold Spec.Input.filtered
  cases ef <;> simp [Spec.useUpsample]

theorem filtered_180 (i : Nat) (ef sm : Bool) : (S.filtered 180 ef sm).2.1 i = S.leftCol i := by
  unfold Spec.Input.filtered
  cases ef <;> simp [Spec.useUpsample]

theorem angles_mem {m : Mode} {d : Int} (hm : m.directional = true) (h1 : -3 ≤ d) (h2 : d ≤ 3) :
    ((modeAngle m + d * 3).toNat : Int) = modeAngle m + d * 3 ∧
    (modeAngle m + d * 3 ≠ 90 → modeAngle m + d * 3 ≠ 180 → (modeAngle m + d * 3).toNat ∈ angles) ∧
    (m ≠ .v → modeAngle m + d * 3 ≠ 90) ∧ (m ≠ .h → modeAngle m + d * 3 ≠ 180) := by
  obtain rfl | rfl | rfl | rfl | rfl | rfl | rfl : d = -3 ∨ d = -2 ∨ d = -1 ∨ d = 0 ∨ d = 1 ∨ d = 2 ∨ d = 3 := by omega
  all_goals cases m <;> first | (exact absurd hm (by decide)) | decide

/-- A directional mode. -/
theorem dir_ok (A : Agree p s S) {e : Edges} {m : Mode} {d : Int} (ef sm : Bool) (hm : m.directional = true) (h1 : -3 ≤ d) (h2 : d ≤ 3)
    (hA : IsA e.above S (s.w + if m.directional = true ∧ modeAngle m + d * 3 < 90 then s.h else 0))
    (hL : IsL e.left S (leftLen s m (modeAngle m + d * 3)))
    (hT : m = .paeth ∨ (m.directional = true ∧ modeAngle m + d * 3 ≠ 90 ∧ modeAngle m + d * 3 ≠ 180) →
      (e.topLeft : Int) = cornerOf S (modeAngle m + d * 3) ef ∧ e.topLeft < 2 ^ S.bitDepth)
    (h9 : modeAngle m + d * 3 ≠ 90) (h18 : modeAngle m + d * 3 ≠ 180) :
    ∃ f, predDirectional e.above (e.left.last (s.w + s.h)) e.topLeft (modeAngle m + d * 3).toNat s.w s.h S.bitDepth (p.rectX + s.x) (p.rectY + s.y)
        p.planeW p.planeH (if (m.directional && ef) = true then some sm else none) = some f ∧
      ∀ r < s.h, ∀ c < s.w, Good S.bitDepth (f r c) (S.directional (modeAngle m + d * 3) ef sm r c) := by
  have hw := side_pos A.sizeW
  have hh := side_pos A.sizeH
  obtain ⟨a1, a2, _⟩ := angles_mem hm h1 h2
  have a3 := a2 h9 h18
  obtain ⟨t1, t2⟩ := hT (Or.inr ⟨hm, h9, h18⟩)
  have hlen : leftLen s m (modeAngle m + d * 3) = s.h + if (modeAngle m + d * 3).toNat > 180 then s.w else 0 := by
    unfold leftLen
    have : ¬ (m = .dc ∨ m = .cfl) := by rintro (rfl | rfl) <;> cases hm
    rw [if_pos (Or.inl (Or.inl this)), hm]
    congr 1
    by_cases h : modeAngle m + d * 3 > 180
    · rw [if_pos ⟨rfl, h⟩, if_pos (by omega)]
    · rw [if_neg (by omega), if_neg (by omega)]
  have hA' : IsA e.above S (s.w + if (modeAngle m + d * 3).toNat < 90 then s.h else 0) := by
    have : (if m.directional = true ∧ modeAngle m + d * 3 < 90 then s.h else 0) = if (modeAngle m + d * 3).toNat < 90 then s.h else 0 := by
      by_cases h : modeAngle m + d * 3 < 90
      · rw [if_pos ⟨hm, h⟩, if_pos (by omega)]
      · rw [if_neg (by omega), if_neg (by omega)]
    rwa [this] at hA
  have hL' : IsL (e.left.last (s.w + s.h)) S (s.h + if (modeAngle m + d * 3).toNat > 180 then s.w else 0) := by
    have := hL.last (s.w + s.h)
    rwa [hlen, Nat.min_eq_left (by split <;> omega)] at this
  have key := predDirectional_ok A (t := e.topLeft) ef sm a3 hA' hL' (by rw [a1]; exact t1) t2
  rw [a1] at key
  rw [hm, Bool.true_and]
  exact key

section
variable (e : Edges) {m : Mode} {x y w h bd : Nat} {ac : List Int} {q : Param} {ief : Option Bool} {posX posY planeW planeH : Nat}

theorem pi_dc (hm : paethMode m x y = .dc) : predictIntra e m x y w h bd ac q ief posX posY planeW planeH =
    some (predDcAny e.above (e.left.last h) x y w h bd) := by
  unfold predictIntra; simp [hm]

theorem pi_smooth (hm : paethMode m x y = .smooth) : predictIntra e m x y w h bd ac q ief posX posY planeW planeH =
    some (predSmooth e.above (e.left.last h) w h) := by
  unfold predictIntra; simp [hm]

theorem pi_smoothV (hm : paethMode m x y = .smoothV) : predictIntra e m x y w h bd ac q ief posX posY planeW planeH =
    some (predSmoothV e.above (e.left.last h) h) := by
  unfold predictIntra; simp [hm]

theorem pi_smoothH (hm : paethMode m x y = .smoothH) : predictIntra e m x y w h bd ac q ief posX posY planeW planeH =
    some (predSmoothH e.above (e.left.last h) w h) := by
  unfold predictIntra; simp [hm]

theorem pi_paeth (hm : paethMode m x y = .paeth) : predictIntra e m x y w h bd ac q ief posX posY planeW planeH =
    some (predPaeth e.above (e.left.last h) e.topLeft h) := by
  unfold predictIntra; simp [hm]

theorem pi_v (hm : paethMode m x y = .v) (ha : modeAngle .v + q.delta * 3 = 90) :
    predictIntra e m x y w h bd ac q ief posX posY planeW planeH = some (predV e.above w) := by
  unfold predictIntra; cases q <;> simp_all [Param.delta]

theorem pi_h (hm : paethMode m x y = .h) (ha : modeAngle .h + q.delta * 3 = 180) :
    predictIntra e m x y w h bd ac q ief posX posY planeW planeH = some (predH (e.left.last h) h) := by
  unfold predictIntra; cases q <;> simp_all [Param.delta]

theorem pi_dir {m' : Mode} (hm : paethMode m x y = m') (hd : m'.directional = true) (h9 : modeAngle m' + q.delta * 3 ≠ 90)
    (h18 : modeAngle m' + q.delta * 3 ≠ 180) : predictIntra e m x y w h bd ac q ief posX posY planeW planeH =
      predDirectional e.above (e.left.last (w + h)) e.topLeft (modeAngle m' + q.delta * 3).toNat w h bd posX posY planeW planeH ief := by
  unfold predictIntra
  simp only [hm]
  cases m' <;> first | (exact absurd hd (by decide)) | (cases q <;> simp_all [Param.delta])

theorem pi_cfl {a : Int} (hm : paethMode m x y = .cfl) (ha : a ≠ 0) : predictIntra e m x y w h bd ac (.alpha a) ief posX posY planeW planeH =
    some (predCflInner (predDcAny e.above (e.left.last h) x y w h bd) ac a w bd) := by
  unfold predictIntra; simp [hm, ha]

theorem pi_cfl0 (hm : paethMode m x y = .cfl) : predictIntra e m x y w h bd ac (.alpha 0) ief posX posY planeW planeH =
    some (predDcAny e.above (e.left.last h) x y w h bd) := by
  unfold predictIntra; simp [hm]
end

/-- Everything but chroma from luma. -/
theorem predict_ok (A : Agree p s S) {m : Mode} {q : Param} (hq : Allowed m q) (hm : m ≠ .cfl) (ef sm : Bool) (ac : List Int) :
    ∃ f, ((intraEdges p s S.bitDepth m ef q).bind fun e =>
        predictIntra e m s.x s.y s.w s.h S.bitDepth ac q (if (m.directional && ef) = true then some sm else none)
          (p.rectX + s.x) (p.rectY + s.y) p.planeW p.planeH) = some f ∧
      ∀ r < s.h, ∀ c < s.w, Good S.bitDepth (f r c) (S.pred m.spec q.delta ef sm r c) := by
  obtain ⟨q1, q2, q3⟩ := hq
  have hw := side_pos A.sizeW
  have hh := side_pos A.sizeH
  have hdc : paethMode m s.x s.y = .dc ∨ paethMode m s.x s.y = .cfl → edgeAngle (paethMode m s.x s.y) q = 0 := by
    intro h
    rw [edgeAngle_eq]
    have hd : m.directional = false := by
      cases m <;> simp_all [paethMode, Mode.directional]
    rw [q3 hd]
    rcases h with h | h <;> rw [h] <;> rfl
  obtain ⟨e, he, hA, hL, hT⟩ := intraEdges_ok A m ef q hdc
  rw [he, Option.bind_some]
  rw [edgeAngle_eq] at hA hL hT
  have hx := A.haveLeft
  have hy := A.haveAbove
  have hll : ∀ m' : Mode, m' ≠ .dc → m' ≠ .cfl → s.h ≤ leftLen s m' (modeAngle m' + q.delta * 3) := by
    intro m' n1 n2
    unfold leftLen
    rw [if_pos (Or.inl (Or.inl (by rintro (h | h) <;> contradiction)))]
    omega
  have wl : ∀ b : Prop, [Decidable b] → s.w ≤ s.w + (if b then s.h else 0) := fun b _ => by omega
  have leftOk : ∀ m', paethMode m s.x s.y = m' → m' ≠ .dc → m' ≠ .cfl → IsL (e.left.last s.h) S s.h := by
    intro m' h1 h2 h3
    rw [h1] at hL
    exact hL.last' (hll m' h2 h3)
  have vCase : paethMode m s.x s.y = .v → ∀ r < s.h, ∀ c < s.w, Good S.bitDepth (predV e.above s.w r c) (S.aboveRow c) := by
    intro h1 r _ c hc
    exact v_ok hA (wl _) hc
  have hCase : paethMode m s.x s.y = .h → ∀ r < s.h, ∀ c < s.w, Good S.bitDepth (predH (e.left.last s.h) s.h r c) (S.leftCol r) := by
    intro h1 r hr c _
    exact h_ok (leftOk _ h1 (by decide) (by decide)) hr
  have dcCase : paethMode m s.x s.y = .dc → ∀ r c, Good S.bitDepth (predDcAny e.above (e.left.last s.h) s.x s.y s.w s.h S.bitDepth r c) S.dc := by
    intro h1 r c
    refine dc_ok A hA (wl _) (fun h0 => ?_) r c
    rw [h1] at hL
    refine hL.last' ?_
    unfold leftLen
    rw [if_pos (Or.inl (Or.inr h0))]
    omega
  have dirCase : ∀ a : Int, paethMode m s.x s.y = m → m.directional = true → Spec.modeToAngle m.spec = some a → modeAngle m = a →
      modeAngle m + q.delta * 3 ≠ 90 → modeAngle m + q.delta * 3 ≠ 180 →
      ∃ f, predictIntra e m s.x s.y s.w s.h S.bitDepth ac q (if (m.directional && ef) = true then some sm else none)
          (p.rectX + s.x) (p.rectY + s.y) p.planeW p.planeH = some f ∧
        ∀ r < s.h, ∀ c < s.w, Good S.bitDepth (f r c) (S.pred m.spec q.delta ef sm r c) := by
    intro a h1 h3 h6 h7 n1 n2
    rw [pi_dir e h1 h3 n1 n2]
    rw [h1] at hA hL hT
    obtain ⟨f, k1, k2⟩ := dir_ok A ef sm h3 q1 q2 hA hL hT n1 n2
    refine ⟨f, k1, fun r hr c hc => ?_⟩
    unfold Spec.Input.pred
    rw [h6, ← h7]
    exact k2 r hr c hc
  have d0 : m.directional = false → q.delta = 0 := q3
  have tilted : m.directional = true → m ≠ .v → m ≠ .h → modeAngle m + q.delta * 3 ≠ 90 ∧ modeAngle m + q.delta * 3 ≠ 180 := by
    intro h1 h2 h3
    obtain ⟨_, _, n1, n2⟩ := angles_mem h1 q1 q2
    exact ⟨n1 h2, n2 h3⟩
  cases m with
  | cfl => exact absurd rfl hm
  | dc =>
    refine ⟨_, pi_dc e rfl, fun r _ c _ => ?_⟩
    exact dcCase rfl r c
  | smooth =>
    refine ⟨_, pi_smooth e rfl, fun r hr c hc => ?_⟩
    exact smooth_ok A hA (wl _) (leftOk .smooth rfl (by decide) (by decide)) hr hc
  | smoothV =>
    refine ⟨_, pi_smoothV e rfl, fun r hr c hc => ?_⟩
    exact smoothV_ok A hA (wl _) (leftOk .smoothV rfl (by decide) (by decide)) hr hc
  | smoothH =>
    refine ⟨_, pi_smoothH e rfl, fun r hr c hc => ?_⟩
    exact smoothH_ok A hA (wl _) (leftOk .smoothH rfl (by decide) (by decide)) hr hc
  | paeth =>
    have hd := d0 rfl
    by_cases h0 : s.x = 0 <;> by_cases h1 : s.y = 0
    · have hp : paethMode .paeth s.x s.y = .dc := by simp [paethMode, h0, h1]
      refine ⟨_, pi_dc e hp, fun r hr c hc => ?_⟩
      show Good _ _ (S.paeth r c)
      rw [paeth_none (by rw [hy]; simp [h1]) (by rw [hx]; simp [h0])]
      exact dcCase hp r c
    · have hp : paethMode .paeth s.x s.y = .v := by simp [paethMode, h0, h1]
      refine ⟨_, pi_v e hp (by rw [hd]; rfl), fun r hr c hc => ?_⟩
      show Good _ _ (S.paeth r c)
      rw [paeth_top (by rw [hy]; simp [h1]) (by rw [hx]; simp [h0])]
      exact vCase hp r hr c hc
    · have hp : paethMode .paeth s.x s.y = .h := by simp [paethMode, h0, h1]
      refine ⟨_, pi_h e hp (by rw [hd]; rfl), fun r hr c hc => ?_⟩
      show Good _ _ (S.paeth r c)
      rw [paeth_left (by rw [hy]; simp [h1]) (by rw [hx]; simp [h0])]
      exact hCase hp r hr c hc
    · have hp : paethMode .paeth s.x s.y = .paeth := by simp [paethMode, h0, h1]
      refine ⟨_, pi_paeth e hp, fun r hr c hc => ?_⟩
      obtain ⟨t1, t2⟩ := hT (Or.inl hp)
      refine paeth_ok hA (leftOk _ hp (by decide) (by decide)) ?_ t2 hr (by omega)
      rw [t1, hp, hd]
      unfold cornerOf
      rw [if_neg (by show ¬ (ef = true ∧ 90 < (0 : Int) + 0 * 3 ∧ _); omega)]
  | v =>
    by_cases h9 : modeAngle .v + q.delta * 3 = 90
    · refine ⟨_, pi_v e rfl h9, fun r hr c hc => ?_⟩
      show Good _ _ (S.directional (90 + q.delta * 3) ef sm r c)
      have : (90 : Int) + q.delta * 3 = 90 := h9
      rw [this]
      unfold Spec.Input.directional
      simp only
      rw [if_pos trivial, filtered_90]
      exact vCase rfl r hr c hc
    · exact dirCase 90 rfl rfl rfl rfl h9 (by show (90 : Int) + _ ≠ 180; omega)
  | h =>
    by_cases h18 : modeAngle .h + q.delta * 3 = 180
    · refine ⟨_, pi_h e rfl h18, fun r hr c hc => ?_⟩
      show Good _ _ (S.directional (180 + q.delta * 3) ef sm r c)
      have : (180 : Int) + q.delta * 3 = 180 := h18
      rw [this]
      unfold Spec.Input.directional
      simp only
      rw [if_neg (by decide), if_pos trivial, filtered_180]
      exact hCase rfl r hr c hc
    · exact dirCase 180 rfl rfl rfl rfl (by show (180 : Int) + _ ≠ 90; omega) h18
  | d45 => exact dirCase _ rfl rfl rfl rfl (tilted rfl (by decide) (by decide)).1 (tilted rfl (by decide) (by decide)).2
  | d135 => exact dirCase _ rfl rfl rfl rfl (tilted rfl (by decide) (by decide)).1 (tilted rfl (by decide) (by decide)).2
  | d113 => exact dirCase _ rfl rfl rfl rfl (tilted rfl (by decide) (by decide)).1 (tilted rfl (by decide) (by decide)).2
  | d157 => exact dirCase _ rfl rfl rfl rfl (tilted rfl (by decide) (by decide)).1 (tilted rfl (by decide) (by decide)).2
  | d203 => exact dirCase _ rfl rfl rfl rfl (tilted rfl (by decide) (by decide)).1 (tilted rfl (by decide) (by decide)).2
  | d67 => exact dirCase _ rfl rfl rfl rfl (tilted rfl (by decide) (by decide)).1 (tilted rfl (by decide) (by decide)).2

end Rav1e.Intra

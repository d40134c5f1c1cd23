import Verif.Lrf.Pixel

/-!
# The loops of the self-guided filter

Two rows of boxes of radius 2 and three of radius 1 are kept and replaced in turn.
-/

namespace Rav1e.Lrf

open Spec (sum)

/-- The two strengths and the parameters of a set. -/
structure Par (s : Nat × Nat) (p : (Nat × Nat) × (Nat × Nat)) : Prop where
  two : s.1 = 0 ∧ p.1.1 = 0 ∨ p.1.1 = 2 ∧ 0 < s.1 ∧ Strength 2 s.1 p.1.2
  one : s.2 = 0 ∧ p.2.1 = 0 ∨ p.2.1 = 1 ∧ 0 < s.2 ∧ Strength 1 s.2 p.2.2

instance (r s eps : Nat) : Decidable (Strength r s eps) := by unfold Strength; infer_instance

theorem par_ok (set : Nat) (h : set < 16) :
    ∃ s, paramsS[set]? = some s ∧ Par s (Spec.sgrParams.getD set ((0, 0), (0, 0))) := by
  have key : ∀ set : Fin 16, ∃ s ∈ paramsS, paramsS[set.1]? = some s ∧
      (s.1 = 0 ∧ (Spec.sgrParams.getD set.1 ((0, 0), (0, 0))).1.1 = 0 ∨ (Spec.sgrParams.getD set.1 ((0, 0), (0, 0))).1.1 = 2 ∧
        0 < s.1 ∧ Strength 2 s.1 (Spec.sgrParams.getD set.1 ((0, 0), (0, 0))).1.2) ∧
      (s.2 = 0 ∧ (Spec.sgrParams.getD set.1 ((0, 0), (0, 0))).2.1 = 0 ∨ (Spec.sgrParams.getD set.1 ((0, 0), (0, 0))).2.1 = 1 ∧
        0 < s.2 ∧ Strength 1 s.2 (Spec.sgrParams.getD set.1 ((0, 0), (0, 0))).2.2) := by
    decide +kernel
  obtain ⟨s, -, h1, h2, h3⟩ := key ⟨set, h⟩
  exact ⟨s, h1, ⟨h2, h3⟩⟩

/-- One unit of the self-guided filter: what the writer of the bit stream must ensure. -/
structure Weights (s : Nat × Nat) (w0 w1 : Int) : Prop where
  xqd0 : -96 ≤ w0 ∧ w0 ≤ 31
  xqd1 : -32 ≤ w1 ∧ w1 ≤ 95
  zero : s.1 = 0 → w0 = 0

section
variable {d : Spec.Dec} {t : Stripe} {M : Nat} (H : Fits d t M) {set : Nat} {s : Nat × Nat} {w0 w1 : Int}
  (hp : Par s (Spec.sgrParams.getD set ((0, 0), (0, 0)))) (hw : Weights s w0 w1)

/-- The rows of boxes of radius 2 from row `2 k` on. -/
def R2 (d : Spec.Dec) (t : Stripe) (set : Nat) (s : Nat × Nat) (st : Rows) (k n : Nat) : Prop :=
  0 < s.1 → ∀ i, i < n → IsRow d t 2 (Spec.sgrParams.getD set ((0, 0), (0, 0))).1.2 (2 * (k + i)) (st.r2 ((k + i) % 2))

/-- The rows of boxes of radius 1 from row `y` on. -/
def R1 (d : Spec.Dec) (t : Stripe) (set : Nat) (s : Nat × Nat) (st : Rows) (y n : Nat) : Prop :=
  0 < s.2 → ∀ i, i < n → IsRow d t 1 (Spec.sgrParams.getD set ((0, 0), (0, 0))).2.2 (y + i) (st.r1 ((y + i) % 3))

include H hp hw in
/-- One pixel. -/
theorem pixel_ok (st : Rows) (k dy x : Nat) (hdy : dy < 2) (hy : 2 * k + dy < t.h) (hx : x < t.w) (h2 : R2 d t set s st k 2)
    (h1 : R1 d t set s st (2 * k + dy) 3) (ws : Writes) :
    pixelStep d.bitDepth t w0 w1 s.1 s.2 st (2 * k) dy ws x =
      some (ws ++ [(2 * k + dy, x, d.selfGuided set w0 w1 (t.y + (2 * k + dy)) (t.x + x))]) := by
  have ev : t.px (2 * k + dy) x < 65536 := H.px16 _ _
  have ev0 : t.px (2 * k) x < 65536 := H.px16 _ _
  have hf2 : ∃ a, f2 t s.1 st (2 * k) dy x = some a ∧ a ≤ 1200000 ∧
      w0 * a = (if (Spec.sgrParams.getD set ((0, 0), (0, 0))).1.1 ≠ 0 then w0 * d.flt 0 (Spec.sgrParams.getD set ((0, 0), (0, 0))).1.1
        (Spec.sgrParams.getD set ((0, 0), (0, 0))).1.2 (t.y + (2 * k + dy)) (t.x + x) else w0 * ((t.px (2 * k + dy) x : Int) * 2 ^ 4)) := by
    unfold f2
    rcases hp.two with ⟨e1, e2⟩ | ⟨e1, e2, e3⟩
    · rw [if_neg (by omega), if_neg (by omega), hw.zero e1]
      refine ⟨t.px (2 * k) x <<< 4, rfl, ?_, by simp⟩
      rw [Nat.shiftLeft_eq]; omega
    · rw [if_pos e2, e1, if_pos (show (2 : Nat) ≠ 0 by decide)]
      rcases (show dy = 0 ∨ dy = 1 by omega) with rfl | rfl
      · rw [if_pos rfl]
        have q0 := h2 e2 0 (by omega)
        have q1 := h2 e2 1 (by omega)
        have key := f2even_ok H s.1 _ (2 * k) x e3 (by omega) hx (by omega) _ _ q0 (by simpa [Nat.mul_add] using q1)
        rw [show 2 * k / 2 = k by omega]
        exact ⟨_, key.1, key.2, rfl⟩
      · rw [if_neg (by omega)]
        have q1 := h2 e2 1 (by omega)
        have key := f2odd_ok H s.1 _ (2 * k + 1) x e3 (by omega) hx (by omega) _ (by simpa [Nat.mul_add] using q1)
        rw [show 2 * k / 2 = k by omega]
        exact ⟨_, key.1, key.2, rfl⟩
  have hf1 : ∃ b, fr1 t s.2 st (2 * k + dy) x = some b ∧ b ≤ 1200000 ∧
      (2 ^ 7 - w0 - w1) * b = (if (Spec.sgrParams.getD set ((0, 0), (0, 0))).2.1 ≠ 0 then
        (2 ^ 7 - w0 - w1) * d.flt 1 (Spec.sgrParams.getD set ((0, 0), (0, 0))).2.1
        (Spec.sgrParams.getD set ((0, 0), (0, 0))).2.2 (t.y + (2 * k + dy)) (t.x + x)
        else (2 ^ 7 - w0 - w1) * ((t.px (2 * k + dy) x : Int) * 2 ^ 4)) := by
    unfold fr1
    rcases hp.one with ⟨e1, e2⟩ | ⟨e1, e2, e3⟩
    · rw [if_neg (by omega), if_neg (by omega)]
      refine ⟨t.px (2 * k + dy) x <<< 4, rfl, ?_, ?_⟩
      · rw [Nat.shiftLeft_eq]; omega
      · rw [Nat.shiftLeft_eq]; push_cast; rfl
    · rw [if_pos e2, e1, if_pos (show (1 : Nat) ≠ 0 by decide)]
      have key := f1_ok H s.2 _ (2 * k + dy) x e3 hy hx _ _ _ (h1 e2 0 (by omega)) (h1 e2 1 (by omega)) (h1 e2 2 (by omega))
      exact ⟨_, key.1, key.2, rfl⟩
  obtain ⟨a, ha, ha', ha2⟩ := hf2
  obtain ⟨b, hb, hb', hb2⟩ := hf1
  unfold pixelStep
  refine Option.bind_eq_some_iff.mpr ⟨a, ha, ?_⟩
  refine Option.bind_eq_some_iff.mpr ⟨b, hb, ?_⟩
  refine Option.bind_eq_some_iff.mpr ⟨_, applyFilter_ok d.bitDepth w0 w1 _ a b hw.xqd0 hw.xqd1 ev ha' hb', ?_⟩
  have e : d.selfGuided set w0 w1 (t.y + (2 * k + dy)) (t.x + x) = (Spec.clip3 0 (2 ^ d.bitDepth - 1)
      (Spec.round2i (w1 * ((t.px (2 * k + dy) x : Int) * 2 ^ 4) + w0 * a + (2 ^ 7 - w0 - w1) * b) (4 + 7))).toNat := by
    unfold Spec.Dec.selfGuided
    rw [px_eq H, ha2, hb2]
    simp only []
    split <;> split <;> rfl
  rw [e]

/-- What is written: rows before `y`, and columns before `x` of row `y`. -/
structure Out (d : Spec.Dec) (t : Stripe) (set : Nat) (w0 w1 : Int) (ws : Writes) (y x : Nat) : Prop where
  only : ∀ w ∈ ws, w.1 < t.h ∧ w.2.1 < t.w ∧ w.2.2 = d.selfGuided set w0 w1 (t.y + w.1) (t.x + w.2.1)
  all : ∀ r c, c < t.w → (r < y ∨ r = y ∧ c < x) → ∃ v, (r, c, v) ∈ ws

theorem Out.next {ws : Writes} {y x : Nat} (h : Out d t set w0 w1 ws y x) (hy : y < t.h) (hx : x < t.w) :
    Out d t set w0 w1 (ws ++ [(y, x, d.selfGuided set w0 w1 (t.y + y) (t.x + x))]) y (x + 1) := by
  refine ⟨fun w hw => ?_, fun r c hc hrc => ?_⟩
  · rcases List.mem_append.mp hw with h1 | h1
    · exact h.only w h1
    · rw [List.mem_singleton.mp h1]
      exact ⟨hy, hx, rfl⟩
  · by_cases e : r = y ∧ c = x
    · obtain ⟨rfl, rfl⟩ := e
      exact ⟨_, List.mem_append_right _ (List.mem_singleton.mpr rfl)⟩
    · obtain ⟨v, hv⟩ := h.all r c hc (by omega)
      exact ⟨v, List.mem_append_left _ hv⟩

theorem Out.row {ws : Writes} {y : Nat} (h : Out d t set w0 w1 ws y t.w) : Out d t set w0 w1 ws (y + 1) 0 :=
  ⟨h.only, fun r c hc hrc => h.all r c hc (by omega)⟩

include H hp in
theorem updR1_ok {im : Images} (hi : Holds t im) (st : Rows) (y n k : Nat) (hk : k = (y + n) % 3) (hn : n ≤ 2) (hy : y + n ≤ t.h + 1)
    (h1 : R1 d t set s st y n) :
    ∃ st', updR1 d.bitDepth im stripeSize stripeStride t.w s.2 (y + n) k st = some st' ∧ st'.r2 = st.r2 ∧
      R1 d t set s st' y (n + 1) := by
  unfold updR1
  by_cases c : 0 < s.2
  · rw [if_pos c]
    obtain ⟨-, -, e3⟩ := hp.one.resolve_left (by omega)
    obtain ⟨v, hv, hv'⟩ := abR1_ok H hi s.2 _ (y + n) e3 hy (st.r1 k)
    rw [hv]
    refine ⟨_, rfl, rfl, fun _ i hi => ?_⟩
    show IsRow _ _ _ _ _ (setRow st.r1 k v ((y + i) % 3))
    unfold setRow
    by_cases e : i = n
    · rw [e, if_pos hk.symm]; exact hv'
    · rw [if_neg (by omega)]
      exact h1 c i (by omega)
  · rw [if_neg c]
    exact ⟨st, rfl, rfl, fun c' => absurd c' c⟩

include H hp in
theorem updR2_ok {im : Images} (hi : Holds t im) (st : Rows) (y n k : Nat) (hk : k = (y + n) % 2) (hn : n ≤ 1)
    (hy : 2 * (y + n) ≤ t.h + t.h % 2) (h2 : R2 d t set s st y n) :
    ∃ st', updR2 d.bitDepth im stripeSize stripeStride t.w s.1 (2 * (y + n)) k st = some st' ∧ st'.r1 = st.r1 ∧
      R2 d t set s st' y (n + 1) := by
  unfold updR2
  by_cases c : 0 < s.1
  · rw [if_pos c]
    obtain ⟨-, -, e3⟩ := hp.two.resolve_left (by omega)
    obtain ⟨v, hv, hv'⟩ := abR2_ok H hi s.1 _ (2 * (y + n)) e3 hy (st.r2 k)
    rw [hv]
    refine ⟨_, rfl, rfl, fun _ i hi => ?_⟩
    show IsRow _ _ _ _ _ (setRow st.r2 k v ((y + i) % 2))
    unfold setRow
    by_cases e : i = n
    · rw [e, if_pos hk.symm]; exact hv'
    · rw [if_neg (by omega)]
      exact h2 c i (by omega)
  · rw [if_neg c]
    exact ⟨st, rfl, rfl, fun c' => absurd c' c⟩

theorem R1.of_eq {st st' : Rows} {y n : Nat} (h : R1 d t set s st y n) (e : st'.r1 = st.r1) : R1 d t set s st' y n := by
  intro c i hi
  rw [e]
  exact h c i hi

theorem R2.of_eq {st st' : Rows} {y n : Nat} (h : R2 d t set s st y n) (e : st'.r2 = st.r2) : R2 d t set s st' y n := by
  intro c i hi
  rw [e]
  exact h c i hi

include H hp hw in
/-- One row. -/
theorem row_ok {im : Images} (hi : Holds t im) (st : Rows) (ws : Writes) (k dy : Nat) (hdy : dy < 2) (hy : 2 * k + dy < t.h)
    (h2 : R2 d t set s st k 2) (h1 : R1 d t set s st (2 * k + dy) 2) (ho : Out d t set w0 w1 ws (2 * k + dy) 0) :
    ∃ st' ws', rowStep d.bitDepth t im stripeSize stripeStride w0 w1 s.1 s.2 (2 * k) (st, ws) dy = some (st', ws') ∧
      R2 d t set s st' k 2 ∧ R1 d t set s st' (2 * k + dy + 1) 2 ∧ Out d t set w0 w1 ws' (2 * k + dy + 1) 0 := by
  obtain ⟨st', e1, e2, e3⟩ := updR1_ok H hp hi st (2 * k + dy) 2 ((2 * k + dy + 2) % 3) rfl (by omega) (by omega) h1
  have h2' : R2 d t set s st' k 2 := h2.of_eq e2
  obtain ⟨ws', f1, f2⟩ := foldlM_inv (pixelStep d.bitDepth t w0 w1 s.1 s.2 st' (2 * k) dy)
    (fun x ws => Out d t set w0 w1 ws (2 * k + dy) x) t.w ws ho
    (fun x ws1 hx h => ⟨_, pixel_ok H hp hw st' k dy x hdy hy hx h2' e3 ws1, h.next hy hx⟩)
  refine ⟨st', ws', ?_, h2', ?_, f2.row⟩
  · unfold rowStep
    refine Option.bind_eq_some_iff.mpr ⟨st', e1, ?_⟩
    exact Option.bind_eq_some_iff.mpr ⟨ws', f1, rfl⟩
  · intro c i hi
    have := e3 c (i + 1) (by omega)
    rwa [show 2 * k + dy + (i + 1) = 2 * k + dy + 1 + i by omega] at this

include H hp hw in
/-- Two rows. -/
theorem pair_ok {im : Images} (hi : Holds t im) (st : Rows) (ws : Writes) (k : Nat) (hy : 2 * k < t.h)
    (h2 : R2 d t set s st k 1) (h1 : R1 d t set s st (2 * k) 2) (ho : Out d t set w0 w1 ws (2 * k) 0) :
    ∃ st' ws', pairStep d.bitDepth t im stripeSize stripeStride w0 w1 s.1 s.2 (st, ws) k = some (st', ws') ∧
      R2 d t set s st' (k + 1) 1 ∧ R1 d t set s st' (min (2 * (k + 1)) t.h) 2 ∧
      Out d t set w0 w1 ws' (min (2 * (k + 1)) t.h) 0 := by
  obtain ⟨st', e1, e2, e3⟩ := updR2_ok H hp hi st k 1 ((2 * k / 2 + 1) % 2) (by omega) (by omega) (by omega) h2
  have h1' : R1 d t set s st' (2 * k) 2 := h1.of_eq e2
  have hodd : ∃ z, (List.range t.w).foldlM (fun (_ : Nat) x => f2 t s.1 st' (2 * k) 1 x) 0 = some z := by
    obtain ⟨z, hz, -⟩ := foldlM_inv (fun (_ : Nat) x => f2 t s.1 st' (2 * k) 1 x) (fun _ _ => True) t.w 0 trivial
      (by
        intro x _ hx _
        show ∃ s', f2 t s.1 st' (2 * k) 1 x = some s' ∧ True
        unfold f2
        by_cases c : 0 < s.1
        · rw [if_pos c, if_neg (by omega), show 2 * k / 2 = k by omega]
          obtain ⟨-, -, e4⟩ := hp.two.resolve_left (by omega)
          obtain ⟨f, hf⟩ := f2odd_some H s.1 _ _ x e4 hx _ (e3 c 1 (by omega)) (t.px (2 * k + 1) x) (H.px16 _ _)
          exact ⟨f, hf, trivial⟩
        · rw [if_neg c]
          exact ⟨_, rfl, trivial⟩)
    exact ⟨z, hz⟩
  obtain ⟨z, hz⟩ := hodd
  obtain ⟨r, f1, f2, f3, f4⟩ := foldlM_inv (rowStep d.bitDepth t im stripeSize stripeStride w0 w1 s.1 s.2 (2 * k))
    (fun n r => R2 d t set s r.1 k 2 ∧ R1 d t set s r.1 (2 * k + n) 2 ∧ Out d t set w0 w1 r.2 (2 * k + n) 0)
    (min 2 (t.h - 2 * k)) (st', ws) ⟨e3, h1', ho⟩
    (by
      intro dy r hdy ⟨g2, g1, go⟩
      obtain ⟨st2, ws2, q1, q2, q3, q4⟩ := row_ok H hp hw hi r.1 r.2 k dy (by omega) (by omega) g2 g1 go
      exact ⟨(st2, ws2), q1, q2, q3, q4⟩)
  have em : 2 * k + min 2 (t.h - 2 * k) = min (2 * (k + 1)) t.h := by omega
  rw [em] at f3 f4
  refine ⟨r.1, r.2, ?_, ?_, f3, f4⟩
  · unfold pairStep
    refine Option.bind_eq_some_iff.mpr ⟨st', e1, ?_⟩
    exact Option.bind_eq_some_iff.mpr ⟨z, hz, f1⟩
  · intro c i hi
    have := f2 c (i + 1) (by omega)
    rwa [show k + (i + 1) = k + 1 + i by omega] at this

include H hp hw in
/-- A rectangle. -/
theorem sgrStripe_ok (hs : paramsS[set]? = some s) {im : Images} (hi : Holds t im) :
    ∃ ws, sgrStripe d.bitDepth t im stripeSize stripeStride set w0 w1 = some ws ∧ Out d t set w0 w1 ws t.h 0 := by
  have hprime : ∃ st, prime d.bitDepth im stripeSize stripeStride t.w s.1 s.2 ⟨fun _ _ => (0, 0), fun _ _ => (0, 0)⟩ = some st ∧
      R2 d t set s st 0 1 ∧ R1 d t set s st 0 2 := by
    obtain ⟨sa, a1, a2, a3⟩ := updR2_ok H hp hi ⟨fun _ _ => (0, 0), fun _ _ => (0, 0)⟩ 0 0 0 rfl (by omega) (by omega)
      (fun _ i hi => absurd hi (Nat.not_lt_zero _))
    obtain ⟨sb, b1, b2, b3⟩ := updR1_ok H hp hi sa 0 0 0 rfl (by omega) (by omega) (fun _ i hi => absurd hi (Nat.not_lt_zero _))
    obtain ⟨sc, c1, c2, c3⟩ := updR1_ok H hp hi sb 0 1 1 rfl (by omega) (by omega) b3
    refine ⟨sc, ?_, (a3.of_eq b2).of_eq c2, c3⟩
    exact Option.bind_eq_some_iff.mpr ⟨sa, a1, Option.bind_eq_some_iff.mpr ⟨sb, b1, c1⟩⟩
  obtain ⟨st, p1, p2, p3⟩ := hprime
  obtain ⟨r, f1, -, -, f4⟩ := foldlM_inv (pairStep d.bitDepth t im stripeSize stripeStride w0 w1 s.1 s.2)
    (fun k r => R2 d t set s r.1 k 1 ∧ R1 d t set s r.1 (min (2 * k) t.h) 2 ∧ Out d t set w0 w1 r.2 (min (2 * k) t.h) 0)
    ((t.h + 1) / 2) (st, [])
    ⟨p2, by simpa using p3, ⟨fun w hw => absurd hw List.not_mem_nil, fun r c _ h => by omega⟩⟩
    (by
      intro k r hk ⟨g2, g1, go⟩
      rw [show min (2 * k) t.h = 2 * k by omega] at g1 go
      obtain ⟨st2, ws2, q1, q2, q3, q4⟩ := pair_ok H hp hw hi r.1 r.2 k (by omega) g2 g1 go
      exact ⟨(st2, ws2), q1, q2, q3, q4⟩)
  rw [show min (2 * ((t.h + 1) / 2)) t.h = t.h by omega] at f4
  refine ⟨r.2, ?_, f4⟩
  unfold sgrStripe
  refine Option.bind_eq_some_iff.mpr ⟨s, hs, ?_⟩
  rw [if_pos (by rcases H.depth with h | h | h <;> omega)]
  refine Option.bind_eq_some_iff.mpr ⟨st, p1, ?_⟩
  exact Option.bind_eq_some_iff.mpr ⟨r, f1, rfl⟩

end

/-- The plane after the writes. -/
theorem write_ok {d : Spec.Dec} {t : Stripe} {set : Nat} {w0 w1 : Int} {ws : Writes} (h : Out d t set w0 w1 ws t.h 0)
    (out : Plane) (r c : Nat) :
    write t out ws r c = if t.y ≤ r ∧ r < t.y + t.h ∧ t.x ≤ c ∧ c < t.x + t.w then d.selfGuided set w0 w1 r c else out r c := by
  have key : ∀ ws' : Writes, (∀ w ∈ ws', w.1 < t.h ∧ w.2.1 < t.w ∧ w.2.2 = d.selfGuided set w0 w1 (t.y + w.1) (t.x + w.2.1)) →
      ∀ o : Plane, write t o ws' r c =
        if ∃ w ∈ ws', r = t.y + w.1 ∧ c = t.x + w.2.1 then d.selfGuided set w0 w1 r c else o r c := by
    intro ws'
    induction ws' with
    | nil => intro _ o; rw [if_neg (by rintro ⟨w, hw, -⟩; exact absurd hw List.not_mem_nil)]; rfl
    | cons w ws' ih =>
      intro hall o
      have hw := hall w List.mem_cons_self
      have := ih (fun w' h' => hall w' (List.mem_cons_of_mem _ h'))
        (fun r c => if r = ((t.y + w.1 : Nat) : Int) ∧ c = ((t.x + w.2.1 : Nat) : Int) then w.2.2 else o r c)
      show write t _ ws' r c = _
      rw [this]
      by_cases c1 : ∃ w ∈ ws', r = t.y + w.1 ∧ c = t.x + w.2.1
      · obtain ⟨w', h1, h2⟩ := c1
        rw [if_pos ⟨w', h1, h2⟩, if_pos ⟨w', List.mem_cons_of_mem _ h1, h2⟩]
      · rw [if_neg c1]
        by_cases c2 : r = t.y + w.1 ∧ c = t.x + w.2.1
        · rw [if_pos ⟨by exact_mod_cast c2.1, by exact_mod_cast c2.2⟩, if_pos ⟨w, List.mem_cons_self, c2⟩, hw.2.2, c2.1, c2.2]
        · rw [if_neg (by omega), if_neg]
          rintro ⟨w', h1, h2⟩
          rcases List.mem_cons.mp h1 with rfl | h1
          · exact c2 h2
          · exact c1 ⟨w', h1, h2⟩
  rw [key ws h.only out]
  by_cases c1 : t.y ≤ r ∧ r < t.y + t.h ∧ t.x ≤ c ∧ c < t.x + t.w
  · rw [if_pos c1, if_pos]
    obtain ⟨v, hv⟩ := h.all (r - t.y) (c - t.x) (by omega) (by omega)
    exact ⟨_, hv, by show r = t.y + (r - t.y); omega, by show c = t.x + (c - t.x); omega⟩
  · rw [if_neg c1, if_neg]
    rintro ⟨w, h1, h2⟩
    have := h.only w h1
    omega

end Rav1e.Lrf

import Verif.Seg.Delta
import Verif.Seg.First
import Verif.Seg.Spec

/-!
# The state of the segmentation
-/

namespace Rav1e.Seg

open Rav1e.Quant

theorem mapM_ok {α β : Type} {f : α → Option β} {P : α → β → Prop} : ∀ {l : List α}, (∀ x ∈ l, ∃ y, f x = some y ∧ P x y) →
    ∃ l', l.mapM f = some l' ∧ List.Forall₂ P l l' := by
  intro l
  induction l with
  | nil => intro _; exact ⟨[], rfl, List.Forall₂.nil⟩
  | cons x l ih =>
    intro h
    obtain ⟨y, e, hy⟩ := h x (by simp)
    obtain ⟨l', e', hl⟩ := ih fun z hz => h z (by simp [hz])
    exact ⟨y :: l', by simp [e, e'], List.Forall₂.cons hy hl⟩

theorem forall₂_mem {α β : Type} {P : α → β → Prop} {l : List α} {l' : List β} (h : List.Forall₂ P l l') : ∀ y ∈ l', ∃ x ∈ l, P x y := by
  induction h with
  | nil => intro y hy; cases hy
  | cons hxy _ ih =>
    intro y hy
    rcases List.mem_cons.1 hy with rfl | hy
    · exact ⟨_, by simp, hxy⟩
    · obtain ⟨x, hx, hp⟩ := ih y hy
      exact ⟨x, by simp [hx], hp⟩

/-! ### Thresholds -/

theorem scaleNew_some {num den : Nat} (h : 1 ≤ den) : ∃ t, scaleNew num den = some t ∧ t < 2 ^ 28 := by
  unfold scaleNew
  rw [if_neg (by omega)]
  refine ⟨_, rfl, ?_⟩
  split_ifs <;> omega

theorem threshold_ok {bd base : Nat} (hbd : bd ∈ [8, 10, 12]) {S : State} (hl : S.data.length = 8) (hm : S.maxSeg ≤ 7) :
    ∃ T, updateThreshold S base bd = some { S with threshold := T } ∧ T.length = 7 ∧ ∀ i, S.maxSeg ≤ i → T.getD i 0 = 0 := by
  obtain ⟨q0, e0, -⟩ := acQ_some hbd (base := base) 0
  obtain ⟨q, e1, h1⟩ := mapM_ok (f := fun d => acQ base (wrap8 d) bd) (l := S.data.take (S.maxSeg + 1)) (P := fun _ y => 1 ≤ y)
    fun d _ => by obtain ⟨q, e, h, -⟩ := acQ_some hbd (base := base) (wrap8 d); exact ⟨q, e, h⟩
  obtain ⟨t, e2, h2⟩ := mapM_ok (f := fun p : Nat × Nat => scaleNew (q0 ^ 2) (p.1 * p.2)) (l := (q.drop 1).zip q) (P := fun _ _ => True)
    fun p hp => by
      have a := List.of_mem_zip hp
      obtain ⟨_, -, b1⟩ := forall₂_mem h1 p.1 (List.mem_of_mem_drop a.1)
      obtain ⟨_, -, b2⟩ := forall₂_mem h1 p.2 a.2
      obtain ⟨t, e, -⟩ := scaleNew_some (num := q0 ^ 2) (Nat.mul_le_mul b1 b2)
      exact ⟨t, e, trivial⟩
  have l1 := h1.length_eq
  have l2 := h2.length_eq
  rw [List.length_take] at l1
  rw [List.length_zip, List.length_drop] at l2
  have l3 : t.length = S.maxSeg := by omega
  refine ⟨t.take 7 ++ List.replicate (7 - t.length) 0, ?_, by simp; omega, ?_⟩
  · unfold updateThreshold
    simp only [e0, e1, e2, Option.bind_eq_bind, Option.bind_some]
  · intro i hi
    rw [List.getD_eq_getElem?_getD, List.getElem?_append_right (by simp; omega), List.getElem?_replicate]
    split_ifs <;> rfl

/-! ### Centroids -/

theorem forall₂_of_mem {α β : Type} {P : α → β → Prop} {Q : β → Prop} {l : List α} {l' : List β} (h : List.Forall₂ P l l') (hq : ∀ x y, P x y → Q y) : ∀ y ∈ l', Q y := by
  intro y hy
  obtain ⟨x, -, hp⟩ := forall₂_mem h y hy
  exact hq x y hp

theorem spacing_some {c : List Int} (h : 3 ≤ c.length) : ∃ v, spacing c = some v := by
  unfold spacing
  dsimp only
  rw [if_neg (by simp; omega)]
  exact ⟨_, rfl⟩

theorem lastMin_lt {v : List Nat} (h : v ≠ []) : ∃ p, lastMin v = some p ∧ p < v.length := by
  unfold lastMin
  obtain ⟨m, hm⟩ : ∃ m, v.min? = some m := by
    cases v with
    | nil => exact absurd rfl h
    | cons a l => exact ⟨_, List.min?_cons'⟩
  rw [hm]
  have := List.length_pos_iff.2 h
  exact ⟨_, rfl, by omega⟩

/-- The logarithms of the scores. -/
theorem logs_ok {scores : List Nat} (hs : ∀ s ∈ scores, 0 < s ∧ s < 2 ^ 28) : ∃ logs, scores.mapM blog16 = some logs ∧ logs.length = scores.length ∧ ∀ v ∈ logs, -28673 ≤ v ∧ v ≤ 28673 := by
  obtain ⟨logs, e, h⟩ := mapM_ok (f := blog16) (l := scores) (P := fun _ v => -28673 ≤ v ∧ v ≤ 28673)
    fun s h => by obtain ⟨v, e, a, b, -⟩ := blog16_near (hs s h).1 (hs s h).2; exact ⟨v, e, a, b⟩
  exact ⟨logs, e, h.length_eq.symm, forall₂_of_mem h fun _ _ h => h⟩

/-- The mean of the logarithms of the scores is at most 16 of 2048 parts of an octave. -/
def Centered (scores : List Nat) : Prop := ∃ logs, scores.mapM blog16 = some logs ∧ logs.sum ≤ logs.length * 16

theorem centroids_ok {scores : List Nat} (hne : scores ≠ []) (hs : ∀ s ∈ scores, 0 < s ∧ s < 2 ^ 28) : ∃ c, centroids scores = some c ∧ 3 ≤ c.length ∧ c.length ≤ 8 ∧
    c.Pairwise (· ≤ ·) ∧ (∀ s ∈ c, -28674 ≤ s ∧ s ≤ 28674) ∧ (Centered scores → ∀ s ∈ c.head?, s ≤ 16) := by
  obtain ⟨logs, e, hl, hr⟩ := logs_ok hs
  have perm : (logs.mergeSort fun a b => decide (a ≤ b)).Perm logs := List.mergeSort_perm _ _
  have sorted : (logs.mergeSort fun a b => decide (a ≤ b)).Pairwise (· ≤ ·) := by
    have := List.pairwise_mergeSort (le := fun a b : Int => decide (a ≤ b)) (by intro a b c; simp only [decide_eq_true_eq]; omega)
      (by intro a b; simp only [Bool.or_eq_true, decide_eq_true_eq]; omega) logs
    exact this.imp (by intro a b h; simpa using h)
  obtain ⟨l, el⟩ : ∃ l, l = logs.mergeSort fun a b => decide (a ≤ b) := ⟨_, rfl⟩
  rw [← el] at perm sorted
  have lr : ∀ d ∈ l, -28673 ≤ d ∧ d ≤ 28673 := fun d hd => hr d (perm.mem_iff.1 hd)
  have lne : l ≠ [] := by
    intro h
    rw [h] at perm
    have := perm.length_eq
    rw [hl] at this
    exact hne (List.length_eq_zero_iff.1 this.symm)
  obtain ⟨c, ec, hc⟩ := mapM_ok (f := fun k => Kmeans.kmeans (-32768) 32767 k l) (l := [8, 7, 6, 5, 4, 3])
    (P := fun _ c => 3 ≤ c.length ∧ c.length ≤ 8 ∧ c.Pairwise (· ≤ ·) ∧ (∀ s ∈ c, -28674 ≤ s ∧ s ≤ 28674) ∧ (Centered scores → ∀ s ∈ c.head?, s ≤ 16)) fun k hk => by
      have hk' : 3 ≤ k ∧ k ≤ 8 := by
        simp only [List.mem_cons, List.not_mem_nil, or_false] at hk
        omega
      have hT : ∀ d ∈ l, (-32768 : Int) ≤ d ∧ d ≤ 32767 := fun d hd => by have := lr d hd; omega
      obtain ⟨m, em, h1, h2, h3⟩ := Kmeans.kmeans_ok (-32768) 32767 (by norm_num) k (by omega) l lne sorted hT
      refine ⟨m, em, by omega, by omega, h2, ?_, ?_⟩
      · intro s hs
        obtain ⟨⟨d, hd, hds⟩, ⟨d', hd', hds'⟩⟩ := h3 s hs
        have := lr d hd
        have := lr d' hd'
        split_ifs at hds' <;> omega
      · rintro ⟨logs', e', hsum⟩
        rw [e] at e'
        cases e'
        refine Kmeans.kmeans_first (B := 16) (by norm_num) (by omega) sorted hT (by norm_num) ?_ em
        rw [perm.sum_eq, perm.length_eq]
        exact hsum
  obtain ⟨v, ev, hv⟩ := mapM_ok (f := spacing) (l := c) (P := fun _ _ => True) fun x hx => by
    obtain ⟨_, -, h, -⟩ := forall₂_mem hc x hx
    obtain ⟨v, e⟩ := spacing_some h
    exact ⟨v, e, trivial⟩
  have lc : c.length = 6 := hc.length_eq.symm
  obtain ⟨p, ep, hp⟩ := lastMin_lt (v := v) (by intro h; rw [h] at hv; have := hv.length_eq; simp [lc] at this)
  rw [← hv.length_eq] at hp
  refine ⟨c[p], ?_, ?_⟩
  · unfold centroids
    simp only [e, ← el, ec, ev, ep, Option.bind_eq_bind, Option.bind_some]
    exact List.getElem?_eq_getElem hp
  · obtain ⟨_, -, h⟩ := forall₂_mem hc c[p] (List.getElem_mem hp)
    exact h

/-! ### The invariant -/

/-- What holds for every state, with the number `k` of segments. -/
structure Good (S : State) (k : Nat) : Prop where
  k3 : 3 ≤ k
  k8 : k ≤ 8
  max : S.maxSeg = k - 1
  last : S.lastActive = k - 1
  pre : S.preskip = false
  feat : S.features = List.replicate k true ++ List.replicate (8 - k) false
  len : S.data.length = 8
  mono : ∀ i j, i ≤ j → j < k → S.data.getD i 0 ≤ S.data.getD j 0
  range : ∀ i < k, -255 ≤ S.data.getD i 0 ∧ S.data.getD i 0 ≤ 255
  min : S.minSeg < k
  thr : S.threshold.length = 7 ∧ ∀ i, k - 1 ≤ i → S.threshold.getD i 0 = 0

/-- A feature is on exactly in the segments below `k`. -/
theorem Good.feature {S : State} {k : Nat} (h : Good S k) (i : Nat) : S.features.getD i false = decide (i < k) := by
  rw [h.feat, List.getD_eq_getElem?_getD]
  rcases Nat.lt_or_ge i k with hi | hi
  · rw [List.getElem?_append_left (by simpa using hi), List.getElem?_replicate, if_pos hi]
    simp [hi]
  · rw [List.getElem?_append_right (by simpa using hi), List.getElem?_replicate]
    split_ifs <;> simp <;> omega

/-- A frame that sends new data. -/
theorem fresh_ok {bs : Search} (hbs : bs.Ok) {bd base : Nat} (hbd : bd ∈ [8, 10, 12]) (hb : base ≤ 255) {scores : List Nat} (hne : scores ≠ [])
    (hs : ∀ s ∈ scores, 0 < s ∧ s < 2 ^ 28) : ∃ S k, optimize bs {} true base bd scores = some S ∧ Good S k ∧ S.updateData = true ∧ S.minSeg = 0 ∧
      (∀ i < k, 1 ≤ base + S.data.getD i 0 ∧ base + S.data.getD i 0 ≤ 255) ∧ (Centered scores → 0 ≤ S.data.getD (k - 1) 0) := by
  obtain ⟨c, ec, k3, k8, sorted, range, cent⟩ := centroids_ok hne hs
  obtain ⟨q, l, eq, el, δ, d1, d2, d3⟩ := delta_ok hbs hbd hb
  have em : c.reverse.mapM (deltaOf bs base bd l) = some (c.reverse.map δ) := by
    obtain ⟨l', e', h'⟩ := mapM_ok (f := deltaOf bs base bd l) (l := c.reverse) (P := fun s y => y = δ s) fun s hs => by
      have := range s (List.mem_reverse.1 hs)
      exact ⟨δ s, (d1 s this.1 this.2).1, rfl⟩
    have : l' = c.reverse.map δ := by
      clear e'
      generalize c.reverse = r at h'
      induction h' with
      | nil => rfl
      | cons h _ ih => rw [List.map_cons, h, ih]
    rw [e', this]
  have eD : computeDelta bs base bd c = some (c.reverse.map δ) := by
    unfold computeDelta
    simp only [eq, el, Option.bind_eq_bind, Option.bind_some]
    exact em
  obtain ⟨k, hk⟩ : ∃ k, k = c.length := ⟨_, rfl⟩
  obtain ⟨D, hD⟩ : ∃ D, D = c.reverse.map δ := ⟨_, rfl⟩
  have lD : D.length = k := by rw [hD]; simp [hk]
  have hget : ∀ i < k, ∃ s, c[k - 1 - i]? = some s ∧ D.getD i 0 = δ s ∧ -28674 ≤ s ∧ s ≤ 28674 := by
    intro i hi
    have h1 : k - 1 - i < c.length := by omega
    refine ⟨c[k - 1 - i], List.getElem?_eq_getElem h1, ?_, range _ (List.getElem_mem h1)⟩
    rw [hD, List.getD_eq_getElem?_getD, List.getElem?_map, List.getElem?_reverse (by omega), ← hk, List.getElem?_eq_getElem h1]
    rfl
  have hlow : (D.take 8).map (fun x => max x ((1 : Int) - base)) = D := by
    rw [List.take_of_length_le (by omega)]
    conv_rhs => rw [← List.map_id D]
    apply List.map_congr_left
    intro x hx
    rw [hD, List.mem_map] at hx
    obtain ⟨s, hs, rfl⟩ := hx
    have := range s (List.mem_reverse.1 hs)
    have := (d1 s this.1 this.2).2.1
    show max _ _ = _
    rw [max_eq_left (by omega)]
    rfl
  have hdata : ∀ i < k, (D ++ (List.replicate 8 (0 : Int)).drop k).getD i 0 = D.getD i 0 := by
    intro i hi
    rw [List.getD_eq_getElem?_getD, List.getD_eq_getElem?_getD, List.getElem?_append_left (by omega)]
  obtain ⟨T, eT, lT, zT⟩ := threshold_ok hbd (base := base) (S :=
    { updateData := true, minSeg := 0, maxSeg := k - 1, features := List.replicate (min k 8) true ++ (List.replicate 8 false).drop k,
      data := D ++ (List.replicate 8 (0 : Int)).drop k }) (by simp [lD]; omega) (by show k - 1 ≤ 7; omega)
  have hfeat : List.replicate (min k 8) true ++ (List.replicate 8 false).drop k = List.replicate k true ++ List.replicate (8 - k) false := by
    rw [Nat.min_eq_left (by omega), List.drop_replicate]
  have hlast : lastTrue (List.replicate k true ++ List.replicate (8 - k) false) = k - 1 := by
    have : ∀ k < 9, 3 ≤ k → lastTrue (List.replicate k true ++ List.replicate (8 - k) false) = k - 1 := by decide
    exact this k (by omega) (by omega)
  have hrange : ∀ i < k, 1 ≤ (base : Int) + D.getD i 0 ∧ (base : Int) + D.getD i 0 ≤ 255 := by
    intro i hi
    obtain ⟨s, -, e, h1, h2⟩ := hget i hi
    rw [e]
    exact (d1 s h1 h2).2
  refine ⟨
    { updateData := true, minSeg := 0, maxSeg := k - 1, features := List.replicate (min k 8) true ++ (List.replicate 8 false).drop k,
      data := D ++ (List.replicate 8 (0 : Int)).drop k, threshold := T, lastActive := k - 1 }, k, ?_, ?_, rfl, rfl, ?_, ?_⟩
  · unfold optimize optimizeInner
    simp only [if_true, ec, eD, Option.bind_eq_bind, Option.bind_some, ← hD, lD, hlow]
    rw [if_neg (by omega)]
    simp only [Option.bind_some, eT]
    simp only [hfeat, hlast]
  · refine ⟨by omega, by omega, rfl, rfl, rfl, hfeat, by simp [lD]; omega, ?_, ?_, by show 0 < k; omega, lT, zT⟩
    · intro i j hij hj
      show List.getD _ _ _ ≤ List.getD _ _ _
      rw [hdata i (by omega), hdata j hj]
      obtain ⟨s, es, e, h1, h2⟩ := hget i (by omega)
      obtain ⟨s', es', e', h1', h2'⟩ := hget j hj
      rw [e, e']
      refine d2 s' s h1' ?_ h2
      obtain ⟨a, rfl⟩ := List.getElem?_eq_some_iff.1 es
      obtain ⟨a', rfl⟩ := List.getElem?_eq_some_iff.1 es'
      rcases Nat.lt_or_ge (k - 1 - j) (k - 1 - i) with hlt | hge
      · exact List.pairwise_iff_getElem.1 sorted _ _ a' a hlt
      · have : k - 1 - j = k - 1 - i := by omega
        simp only [this, le_refl]
    · intro i hi
      show -255 ≤ List.getD _ _ _ ∧ List.getD _ _ _ ≤ 255
      rw [hdata i hi]
      have := hrange i hi
      omega
  · intro i hi
    show 1 ≤ (base : Int) + List.getD _ _ _ ∧ (base : Int) + List.getD _ _ _ ≤ 255
    rw [hdata i hi]
    exact hrange i hi
  · intro hc
    show 0 ≤ List.getD _ _ _
    rw [hdata _ (by omega)]
    obtain ⟨s, es, e, h1, h2⟩ := hget (k - 1) (by omega)
    rw [e]
    refine d3 s h1 (cent hc s ?_)
    rw [Nat.sub_self] at es
    rw [List.head?_eq_getElem?]
    exact es

/-- A frame that takes the data of another one. -/
theorem later_ok {bs : Search} {bd base : Nat} (hbd : bd ∈ [8, 10, 12]) {S : State} {k : Nat} (hS : Good S k) (scores : List Nat) :
    ((base : Int) + S.data.getD S.maxSeg 0 < 1 → optimize bs S false base bd scores = none) ∧
    (1 ≤ (base : Int) + S.data.getD S.maxSeg 0 → ∃ S', optimize bs S false base bd scores = some S' ∧ Good S' k ∧ S'.updateData = false ∧
      S'.data = S.data ∧ (∀ i, S'.minSeg ≤ i → i < k → 1 ≤ (base : Int) + S.data.getD i 0) ∧ ∀ i < S'.minSeg, (base : Int) + S.data.getD i 0 < 1) := by
  have k3 := hS.k3
  have k8 := hS.k8
  have hf := hS.feature
  constructor
  · intro h
    have : ((List.range 8).find? fun i => S.features.getD i false && decide ((1 : Int) - base ≤ S.data.getD i 0)) = none := by
      rw [List.find?_eq_none]
      intro i hi
      rw [hf]
      simp only [Bool.and_eq_true, decide_eq_true_eq, not_and]
      intro hik
      have := hS.mono i (k - 1) (by omega) (by omega)
      rw [hS.max] at h
      omega
    unfold optimize
    simp only [Bool.false_eq_true, if_false, this]
  · intro h
    obtain ⟨i, ei⟩ : ∃ i, ((List.range 8).find? fun i => S.features.getD i false && decide ((1 : Int) - base ≤ S.data.getD i 0)) = some i := by
      rw [← Option.isSome_iff_exists, List.find?_isSome]
      refine ⟨k - 1, by simp; omega, ?_⟩
      rw [hf]
      rw [hS.max] at h
      simp only [Bool.and_eq_true, decide_eq_true_eq]
      omega
    have h1 := List.find?_some ei
    rw [hf] at h1
    simp only [Bool.and_eq_true, decide_eq_true_eq] at h1
    have h2 : ∀ j < i, (base : Int) + S.data.getD j 0 < 1 := by
      intro j hj
      have := List.find?_range_eq_some.1 ei
      have := this.2.2 j hj
      rw [hf] at this
      simp only [Bool.not_eq_true', Bool.and_eq_false_iff, decide_eq_false_iff_not] at this
      omega
    obtain ⟨T, eT, lT, zT⟩ := threshold_ok hbd (base := base) (S := { S with updateData := false, minSeg := i }) hS.len (by show S.maxSeg ≤ 7; rw [hS.max]; omega)
    refine ⟨{ S with updateData := false, minSeg := i, threshold := T }, ?_, ⟨k3, k8, hS.max, hS.last, hS.pre, hS.feat, hS.len, hS.mono, hS.range, h1.1, lT, ?_⟩, rfl, rfl, ?_, h2⟩
    · unfold optimize
      simp only [Bool.false_eq_true, if_false, ei, eT]
    · intro j hj
      exact zT j (by show S.maxSeg ≤ j; rw [hS.max]; omega)
    · intro j hij hj
      have := hS.mono i j hij hj
      omega

end Rav1e.Seg

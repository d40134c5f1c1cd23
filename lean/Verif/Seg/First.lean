import Verif.Misc.Kmeans

/-!
# The lowest centroid

It does not exceed the mean of all values.
-/

namespace Rav1e.Kmeans

/-- The first values of sorted data have no larger mean than all of them. -/
theorem pre_le {data : List Int} (hs : Sorted data) {B : Int} (hB : data.sum ≤ data.length * B) {h : Nat} (hh : h ≤ data.length) : pre data h ≤ h * B := by
  by_cases hc : ∀ d ∈ data.take h, d ≤ B
  · have := sum_le hc
    rwa [List.length_take, Nat.min_eq_left hh] at this
  · push Not at hc
    obtain ⟨d, hd, hdB⟩ := hc
    obtain ⟨k, hk⟩ := List.mem_iff_getElem?.1 hd
    rw [List.getElem?_take] at hk
    split_ifs at hk with hkh
    have h1 : ∀ e ∈ data.drop h, B ≤ e := by
      intro e he
      obtain ⟨j, hj⟩ := List.mem_iff_getElem?.1 he
      rw [List.getElem?_drop] at hj
      have := hs k (h + j) d e (by omega) hk hj
      omega
    have h2 := le_sum h1
    have h3 : data.sum = pre data h + (data.drop h).sum := by
      unfold pre
      rw [← List.sum_append, List.take_append_drop]
    rw [List.length_drop] at h2
    have h4 : ((data.length - h : Nat) : Int) * B = data.length * B - h * B := by
      rw [Nat.cast_sub hh]; ring
    rw [h4] at h2
    omega

theorem nm_first {data : List Int} (hs : Sorted data) {B : Int} (h0 : 0 ≤ B) (hB : data.sum ≤ data.length * B) {c : Cluster} (h : Good data c) (hl : c.low = 0) (hm : c.m ≤ B) :
    nm c ≤ B := by
  unfold nm
  split_ifs with he
  · exact hm
  · refine rmean_le_nonneg (by omega) ?_ h0
    rw [h.sums.sum, hl]
    have := pre_le hs hB h.sums.high
    have e : pre data 0 = 0 := by simp [pre]
    rw [e]
    simpa using this

theorem iterate_first {tmin tmax : Int} {data : List Int} (hs : Sorted data) {a b : Int}
    (hd : ∀ d ∈ data, a ≤ d ∧ d ≤ b) (ha : tmin ≤ a) (hb : top b ≤ tmax) {B : Int} (h0 : 0 ≤ B) (hB : data.sum ≤ data.length * B) (n : Nat) (cs cs' : List Cluster)
    (hi : Inv data a b cs) (hf : ∀ c ∈ cs.head?, c.m ≤ B) (he : iterate tmin tmax data n cs = some cs') : ∀ c ∈ cs'.head?, c.m ≤ B := by
  induction n generalizing cs with
  | zero =>
    cases he
    exact hf
  | succ n ih =>
    cases cs with
    | nil =>
      cases he
      exact hf
    | cons c rest =>
      obtain ⟨r, e1, e2, e3, -, -, x, r', e6, e7, e8⟩ := pass_ok (tmin := tmin) (tmax := tmax) hs rest c hi.sums
        (fun x hx => by have := hi.range x hx; omega) hi.sorted (Or.inl (hi.first c (by simp))) hi.last
      have hmem : ∀ y ∈ r, a ≤ y.m ∧ y.m ≤ top b := by
        intro y hy
        have : y.m ∈ r.map Cluster.m := List.mem_map_of_mem hy
        rw [e2] at this
        obtain ⟨z, hz, hzy⟩ := List.mem_map.1 this
        rw [← hzy]; exact hi.range z hz
      have hnm : ∀ y ∈ r, a ≤ nm y ∧ nm y ≤ top b := fun y hy => nm_range (e3 y hy) hd (hmem y hy)
      have hm := mapM_newMean (tmin := tmin) (tmax := tmax) r e3 (fun y hy => by have := hnm y hy; omega)
      have hstep : ∀ c ∈ (r.map fun c => { c with m := nm c }).head?, c.m ≤ B := by
        intro y hy
        rw [e6] at hy
        simp at hy
        subst hy
        exact nm_first hs h0 hB (e3 x (by simp [e6])) (by rw [e8]; exact hi.first c (by simp)) (by rw [e7]; exact hf c (by simp))
      have hinv : Inv data a b (r.map fun c => { c with m := nm c }) := by
        obtain ⟨cs1, f1, f2, -⟩ := iterate_ok (tmin := tmin) (tmax := tmax) hs hd ha hb 1 (c :: rest) hi
        rw [iterate, e1, Option.bind_eq_bind, Option.bind_some, hm, Option.bind_some] at f1
        split_ifs at f1
        · cases f1; exact f2
        · cases f1; exact f2
      rw [iterate, e1, Option.bind_eq_bind, Option.bind_some, hm, Option.bind_some] at he
      split_ifs at he
      · cases he
        exact hstep
      · exact ih _ hinv hstep he

/-- The lowest centroid is at most `B` if the mean of the data is, for `B` from zero on. -/
theorem kmeans_first {tmin tmax : Int} (ht : 0 ≤ tmax) {k : Nat} (hk : 2 ≤ k) {data : List Int} (hs : data.Pairwise (· ≤ ·)) (hT : ∀ d ∈ data, tmin ≤ d ∧ d ≤ tmax)
    {B : Int} (h0 : 0 ≤ B) (hB : data.sum ≤ data.length * B) {means : List Int} (he : kmeans tmin tmax k data = some means) : ∀ m ∈ means.head?, m ≤ B := by
  unfold kmeans at he
  split_ifs at he with hc
  have hn : 0 < data.length := by omega
  have hS := sorted_of_pairwise hs
  have hl : data.length - 1 < data.length := by omega
  have hd : ∀ d ∈ data, data[0] ≤ d ∧ d ≤ data[data.length - 1] := by
    intro d hd
    obtain ⟨i, hi⟩ := List.mem_iff_getElem?.1 hd
    have hil := (List.getElem?_eq_some_iff.1 hi).1
    exact ⟨hS 0 i _ _ (by omega) (List.getElem?_eq_getElem hn) hi,
      hS i (data.length - 1) _ _ (by omega) hi (List.getElem?_eq_getElem hl)⟩
  obtain ⟨hi, -⟩ := start_ok hS hk hn hd
  rw [Option.map_eq_some_iff] at he
  obtain ⟨cs, e1, rfl⟩ := he
  have hmin : data[0] ≤ B := by
    have := le_sum (fun d h => (hd d h).1)
    by_contra hc
    have h1 : (data.length : Int) * B < data.length * data[0] := mul_lt_mul_of_pos_left (by omega) (by omega)
    omega
  have := iterate_first hS hd (hT _ (List.getElem_mem hn)).1 (by unfold top; have := (hT _ (List.getElem_mem hl)).2; split_ifs <;> omega) h0 hB _ _ _ hi ?_ e1
  · intro m hm
    rw [List.head?_map, Option.mem_def, Option.map_eq_some_iff] at hm
    obtain ⟨c, hc, rfl⟩ := hm
    exact this c hc
  · intro c hc
    obtain ⟨j, rfl⟩ : ∃ j, k = j + 1 := ⟨k - 1, by omega⟩
    rw [start, List.range_succ_eq_map] at hc
    simp only [List.map_cons, List.head?_cons, Option.mem_def, Option.some.injEq] at hc
    rw [← hc]
    have e : data.getD 0 0 = data[0] := by
      rw [List.getD_eq_getElem?_getD, List.getElem?_eq_getElem hn]; rfl
    split_ifs
    all_goals
      simp only [Nat.zero_mul, Nat.zero_div]
      rw [e]; exact hmin

end Rav1e.Kmeans

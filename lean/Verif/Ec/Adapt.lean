import Verif.Ec.DecLemmas
/-
Adaptation of CDFs: validity and agreement with the specification (helper lemmas).
-/
namespace Rav1e.Ec
open Av1Spec

/-- A CDF that additionally has the counter within its cap, as the decoder keeps it. -/
structure WfCdf (c : List Nat) : Prop extends ValidCdf c where
  cap : c.getD (c.length - 1) 0 ≤ 32

theorem getD_last {c : List Nat} (h : c ≠ []) : c.getLast? = some (c.getD (c.length - 1) 0) := by
  rw [List.getLast?_eq_getElem?, List.getD_eq_getElem?_getD]
  have : c.length - 1 < c.length := by
    have := List.length_pos_iff.2 h; omega
  rw [List.getElem?_eq_getElem this]; rfl

/-- Rate used by `update_cdf`. -/
def urate (c : List Nat) : Nat := 3 + min (c.length >>> 1) 2 + (c.getD (c.length - 1) 0 >>> 4)

theorem updateCdf_length {c : List Nat} (h : 1 ≤ c.length) (s : Nat) :
    (updateCdf c s).length = c.length := by
  unfold updateCdf
  rw [getD_last (by intro h0; simp [h0] at h)]
  simp; omega

theorem updateCdf_getD {c : List Nat} (h2 : 2 ≤ c.length) (h16 : c.length ≤ 16) (s i : Nat)
    (hi : i + 1 < c.length) :
    (updateCdf c s).getD i 0 =
      if i ≥ s then c.getD i 0 - (c.getD i 0 >>> urate c)
      else c.getD i 0 + ((32768 - c.getD i 0) >>> urate c) := by
  unfold updateCdf
  rw [getD_last (by intro h0; simp [h0] at h2)]
  simp only
  rw [List.getD_eq_getElem?_getD, List.getElem?_append_left (by simp; omega),
    List.getElem?_mapIdx, List.getElem?_dropLast, if_pos (by omega),
    List.getElem?_eq_getElem (by omega : i < c.length)]
  simp only [Option.map_some, Option.getD_some]
  rw [if_pos (by omega)]
  have : c.getD i 0 = c[i] := by
    rw [List.getD_eq_getElem?_getD, List.getElem?_eq_getElem (by omega : i < c.length)]; rfl
  rw [this]; rfl

theorem updateCdf_last {c : List Nat} (h2 : 2 ≤ c.length) (s : Nat) :
    (updateCdf c s).getD (c.length - 1) 0 =
      c.getD (c.length - 1) 0 + (1 - (c.getD (c.length - 1) 0 >>> 5)) := by
  unfold updateCdf
  rw [getD_last (by intro h0; simp [h0] at h2)]
  simp only
  rw [List.getD_eq_getElem?_getD, List.getElem?_append_right (by simp)]
  simp

theorem down_mono {a b r : Nat} (h : a ≤ b) : a - (a >>> r) ≤ b - (b >>> r) := by
  obtain ⟨k, rfl⟩ := Nat.le.dest h
  induction k with
  | zero => simp
  | succ k ih =>
    have := ih (by omega)
    refine Nat.le_trans this ?_
    simp only [Nat.shiftRight_eq_div_pow]
    have e : (a + (k + 1)) / 2 ^ r ≤ (a + k) / 2 ^ r + 1 := by
      rw [show a + (k + 1) = (a + k) + 1 by omega, Nat.succ_div]
      split <;> omega
    omega

theorem up_mono {a b r : Nat} (h : a ≤ b) (hb : b ≤ 32768) :
    a + ((32768 - a) >>> r) ≤ b + ((32768 - b) >>> r) := by
  have h1 := down_mono (r := r) (show 32768 - b ≤ 32768 - a by omega)
  have h2 : (32768 - a) >>> r ≤ 32768 - a := by
    rw [Nat.shiftRight_eq_div_pow]; exact Nat.div_le_self _ _
  have h3 : (32768 - b) >>> r ≤ 32768 - b := by
    rw [Nat.shiftRight_eq_div_pow]; exact Nat.div_le_self _ _
  omega

theorem shr_le (a r : Nat) : a >>> r ≤ a := by
  rw [Nat.shiftRight_eq_div_pow]; exact Nat.div_le_self _ _

theorem up_lt {a r : Nat} (ha : a < 32768) (hr : 1 ≤ r) : a + ((32768 - a) >>> r) < 32768 := by
  have : (32768 - a) >>> r < 32768 - a := by
    rw [Nat.shiftRight_eq_div_pow]
    exact Nat.div_lt_self (by omega) (Nat.one_lt_two_pow (by omega))
  omega

theorem urate_pos (c : List Nat) : 1 ≤ urate c := by unfold urate; omega

/-- `update_cdf` keeps a CDF valid. -/
theorem updateCdf_valid {c : List Nat} (h : ValidCdf c) (s : Nat) : ValidCdf (updateCdf c s) := by
  have h2 := h.two_le
  have h16 := h.le_sixteen
  have hl := updateCdf_length (c := c) (by omega) s
  refine ⟨by omega, by omega, ?_, ?_, ?_⟩
  · intro i hi
    rw [updateCdf_getD h2 h16 s i (by omega)]
    have := h.lt i (by omega)
    split
    · exact Nat.lt_of_le_of_lt (Nat.sub_le _ _) this
    · exact up_lt this (urate_pos c)
  · intro i hi
    rw [updateCdf_getD h2 h16 s i (by omega), updateCdf_getD h2 h16 s (i + 1) (by omega)]
    have h1 := h.lt i (by omega)
    have h3 := h.mono i (by omega)
    by_cases hs : i ≥ s
    · rw [if_pos hs, if_pos (by omega)]
      exact down_mono h3
    · rw [if_neg hs]
      split
      · exact Nat.le_trans (Nat.sub_le _ _) (Nat.le_trans h3 (Nat.le_add_right _ _))
      · exact up_mono h3 (by omega)
  · rw [hl, updateCdf_last h2]
    have := h.count
    simp only [Nat.shiftRight_eq_div_pow]
    omega

theorem updateCdf_wf {c : List Nat} (h : WfCdf c) (s : Nat) : WfCdf (updateCdf c s) := by
  refine ⟨updateCdf_valid h.toValidCdf s, ?_⟩
  have h2 := h.two_le
  rw [updateCdf_length (by omega), updateCdf_last h2]
  have := h.cap
  simp only [Nat.shiftRight_eq_div_pow]
  omega

theorem toSpec_getD {c : List Nat} (i : Nat) (hi : i + 1 < c.length) :
    (toSpec c).getD i 0 = 32768 - c.getD i 0 := by
  unfold toSpec
  rw [List.getD_eq_getElem?_getD, List.getElem?_append_left (by simp; omega)]
  simp only [List.getElem?_map, List.getElem?_dropLast]
  rw [if_pos (by omega), List.getD_eq_getElem?_getD,
    List.getElem?_eq_getElem (by omega : i < c.length)]
  simp

theorem toSpec_getD_top {c : List Nat} (h : 1 ≤ c.length) :
    (toSpec c).getD (c.length - 1) 0 = 32768 := by
  unfold toSpec
  rw [List.getD_eq_getElem?_getD, List.getElem?_append_right (by simp)]
  simp

theorem toSpec_getD_count {c : List Nat} (h : 1 ≤ c.length) :
    (toSpec c).getD c.length 0 = c.getD (c.length - 1) 0 := by
  unfold toSpec
  rw [List.getD_eq_getElem?_getD, List.getElem?_append_right (by simp)]
  simp only [List.length_map, List.length_dropLast]
  rw [show c.length - (c.length - 1) = 1 by omega]
  simp

theorem getD_ext {a b : List Nat} (hl : a.length = b.length)
    (h : ∀ i, i < a.length → a.getD i 0 = b.getD i 0) : a = b := by
  apply List.ext_getElem hl
  intro i h1 h2
  have := h i h1
  rw [List.getD_eq_getElem?_getD, List.getD_eq_getElem?_getD, List.getElem?_eq_getElem h1,
    List.getElem?_eq_getElem h2] at this
  exact this

theorem adapt_getD (c : List Nat) (s i : Nat) (hi : i < c.length) :
    (adapt c s).getD i 0 =
      (let n := c.length - 1
       let count := c.getD n 0
       let rate := 3 + (if count > 15 then 1 else 0) + (if count > 31 then 1 else 0) + min n.log2 2
       let c := c.getD i 0
       if i < n - 1 then
         let tmp := if s ≤ i then 32768 else 0
         if tmp < c then c - ((c - tmp) >>> rate) else c + ((tmp - c) >>> rate)
       else if i = n then c + (if c < 32 then 1 else 0)
       else c) := by
  unfold adapt
  rw [List.getD_eq_getElem?_getD, List.getElem?_mapIdx, List.getElem?_eq_getElem hi]
  have : c.getD i 0 = c[i] := by
    rw [List.getD_eq_getElem?_getD, List.getElem?_eq_getElem hi]; rfl
  rw [this]; rfl

theorem log2_min : ∀ n, n ≤ 16 → 2 ≤ n → min n.log2 2 = min (n >>> 1) 2 := by decide

/-- `update_cdf` is the specification's adaptation, in the other representation. -/
theorem updateCdf_spec {c : List Nat} (h : WfCdf c) (s : Nat) :
    toSpec (updateCdf c s) = adapt (toSpec c) s := by
  have h2 := h.two_le
  have h16 := h.le_sixteen
  have hl := updateCdf_length (c := c) (by omega) s
  have hcap := h.cap
  have hlen : (toSpec c).length = c.length + 1 := toSpec_length (by omega)
  have hlen' : (toSpec (updateCdf c s)).length = c.length + 1 := by
    rw [toSpec_length (by omega), hl]
  have hal : (adapt (toSpec c) s).length = c.length + 1 := by
    unfold adapt; simp [hlen]
  apply getD_ext (by rw [hlen', hal])
  intro i hi
  rw [hlen'] at hi
  rw [adapt_getD _ _ _ (by omega), hlen]
  simp only [Nat.add_sub_cancel]
  rw [toSpec_getD_count (by omega)]
  have hrate : 3 + (if c.getD (c.length - 1) 0 > 15 then 1 else 0) +
      (if c.getD (c.length - 1) 0 > 31 then 1 else 0) + min c.length.log2 2 = urate c := by
    unfold urate
    rw [log2_min _ h16 h2]
    simp only [Nat.shiftRight_eq_div_pow]
    split <;> split <;> omega
  rw [hrate]
  by_cases h1 : i < c.length - 1
  · rw [if_pos h1, toSpec_getD i (by omega), toSpec_getD i (by omega),
      updateCdf_getD h2 h16 s i (by omega)]
    have hlt := h.lt i (by omega)
    generalize c.getD i 0 = v at *
    by_cases hs : s ≤ i
    · rw [if_pos (by omega), if_pos hs, if_neg (by omega)]
      have := shr_le v (urate c)
      rw [show 32768 - (32768 - v) = v by omega]
      generalize v >>> urate c = w at *; omega
    · rw [if_neg (by omega), if_neg hs, if_pos (by omega)]
      have := shr_le (32768 - v) (urate c)
      rw [show 32768 - v - 0 = 32768 - v by omega]
      generalize (32768 - v) >>> urate c = w at *; omega
  · by_cases h3 : i = c.length
    · subst h3
      rw [if_neg h1, if_pos rfl, toSpec_getD_count (by omega)]
      have := toSpec_getD_count (c := updateCdf c s) (by omega)
      rw [hl, updateCdf_last h2] at this
      rw [this]
      simp only [Nat.shiftRight_eq_div_pow]
      split <;> omega
    · have h4 : i = c.length - 1 := by omega
      subst h4
      rw [if_neg h1, if_neg h3, toSpec_getD_top (by omega)]
      have := toSpec_getD_top (c := updateCdf c s) (by omega)
      rw [hl] at this
      exact this

/-- Encoder side of adaptive coding: an array of rav1e CDFs, `pick` chooses the CDF for the
next symbol from the symbols coded so far, `symbol_with_update` (src/ec.rs:548-562) codes the
symbol with the chosen CDF and then adapts it in place. -/
def adaptiveSyms (pick : List Nat → Nat) : List (List Nat) → List Nat → List Nat → List Sym
  | _, _, [] => []
  | cdfs, hist, s :: ss =>
    let i := pick hist
    let c := cdfs.getD i []
    ⟨s, c⟩ :: adaptiveSyms pick (cdfs.set i (updateCdf c s)) (hist ++ [s]) ss

/-- Along the run every symbol is inside the CDF chosen for it. -/
def AdaptOk (pick : List Nat → Nat) : List (List Nat) → List Nat → List Nat → Prop
  | _, _, [] => True
  | cdfs, hist, s :: ss =>
    pick hist < cdfs.length ∧ s < (cdfs.getD (pick hist) []).length ∧
      AdaptOk pick (cdfs.set (pick hist) (updateCdf (cdfs.getD (pick hist) []) s)) (hist ++ [s]) ss

theorem set_wf {cdfs : List (List Nat)} (h : ∀ c ∈ cdfs, WfCdf c) {i : Nat} {c' : List Nat}
    (hc : WfCdf c') : ∀ c ∈ cdfs.set i c', WfCdf c := by
  intro c hc2
  rcases List.mem_or_eq_of_mem_set hc2 with h1 | h1
  · exact h c h1
  · rw [h1]; exact hc

theorem getD_wf {cdfs : List (List Nat)} (h : ∀ c ∈ cdfs, WfCdf c) {i : Nat}
    (hi : i < cdfs.length) : WfCdf (cdfs.getD i []) := by
  rw [List.getD_eq_getElem?_getD, List.getElem?_eq_getElem hi]
  exact h _ (List.getElem_mem hi)

theorem adaptive_valid {pick : List Nat → Nat} {ss : List Nat} : ∀ {cdfs hist},
    (∀ c ∈ cdfs, WfCdf c) → AdaptOk pick cdfs hist ss →
    ∀ x ∈ adaptiveSyms pick cdfs hist ss, x.Valid := by
  induction ss with
  | nil => intro cdfs hist _ _ x hx; simp [adaptiveSyms] at hx
  | cons s ss ih =>
    intro cdfs hist hw hok x hx
    obtain ⟨h1, h2, h3⟩ := hok
    have hwf := getD_wf hw h1
    rcases List.mem_cons.1 hx with rfl | hx
    · exact ⟨hwf.toValidCdf, h2⟩
    · exact ih (set_wf hw (updateCdf_wf hwf s)) h3 x hx

theorem adaptive_map {pick : List Nat → Nat} {ss : List Nat} : ∀ {cdfs hist},
    (adaptiveSyms pick cdfs hist ss).map (·.s) = ss := by
  induction ss with
  | nil => intro _ _; rfl
  | cons s ss ih => intro cdfs hist; simp [adaptiveSyms, ih]

theorem decode_adaptive_eq {pick : List Nat → Nat} {ss : List Nat} : ∀ {cdfs hist d},
    (∀ c ∈ cdfs, WfCdf c) → AdaptOk pick cdfs hist ss →
    (Dec.symbols d ((adaptiveSyms pick cdfs hist ss).map fun x => toSpec x.cdf)).1 = ss →
    decodeAdaptive pick ss.length d (cdfs.map toSpec) hist = hist ++ ss := by
  induction ss with
  | nil => intro cdfs hist d _ _ _; simp [decodeAdaptive]
  | cons s ss ih =>
    intro cdfs hist d hw hok hdec
    obtain ⟨h1, h2, h3⟩ := hok
    have hwf := getD_wf hw h1
    simp only [adaptiveSyms, List.map_cons, Dec.symbols] at hdec
    injection hdec with e1 e2
    simp only [List.length_cons, decodeAdaptive]
    have hg : (cdfs.map toSpec).getD (pick hist) [] = toSpec (cdfs.getD (pick hist) []) := by
      rw [List.getD_eq_getElem?_getD, List.getD_eq_getElem?_getD, List.getElem?_map,
        List.getElem?_eq_getElem h1]; rfl
    rw [hg, e1, ← updateCdf_spec hwf, ← List.map_set, ih (set_wf hw (updateCdf_wf hwf s)) h3 e2]
    simp

end Rav1e.Ec

import Verif.LoopSyn.Model
import Verif.Lrf.Theorems
import Verif.Ec.CodeThms

/-!
# CDEF indices and loop restoration units: the syntax of a unit

`read_lr_unit` reads back what `write_lrf` has written, and the references stay the same on both sides.
-/

namespace Rav1e.LoopSyn

open Av1Spec
open Ec
open Lrf (Filter paramsS)
open Spec (Refs Frame)

/-- The references are values that have been coded, or those of the start. -/
structure RefsOk (r : Refs) : Prop where
  tap : ∀ pass j, j < 3 → Spec.tapMin j ≤ r.wiener pass j ∧ r.wiener pass j ≤ Spec.tapMax j
  xqd : ∀ i, i < 2 → Spec.xqdMin i ≤ r.sgr i ∧ r.sgr i ≤ Spec.xqdMax i

/-- The coefficients of a pass can be coded. -/
def TapsOk (pli : Nat) (c : Int × Int × Int) : Prop :=
  (-5 ≤ c.1 ∧ c.1 ≤ 10) ∧ (-23 ≤ c.2.1 ∧ c.2.1 ≤ 8) ∧ (-17 ≤ c.2.2 ∧ c.2.2 ≤ 46) ∧ (pli ≠ 0 → c.1 = 0)

instance (pli : Nat) (c : Int × Int × Int) : Decidable (TapsOk pli c) := by unfold TapsOk; infer_instance

/-- The filter can be coded in a plane of this type: weights and coefficients in the ranges of the bit stream, and those that are not coded have the values that
the decoder infers.  `Rav1e.Lrf.solve_ok` shows this for every filter that the search tries. -/
def FilterOk (ty pli : Nat) : Filter → Prop
  | .none => True
  | .sgrproj set x0 x1 => (ty = 1 ∨ ty = 3) ∧ set < 16 ∧ (-96 ≤ x0 ∧ x0 ≤ 31) ∧ (-32 ≤ x1 ∧ x1 ≤ 95) ∧
      ((paramsS.getD set (0, 0)).1 = 0 → x0 = 0) ∧ ((paramsS.getD set (0, 0)).2 = 0 → x1 = max (-32) (min 95 (128 - x0)))
  | .wiener cv ch => (ty = 1 ∨ ty = 2) ∧ TapsOk pli cv ∧ TapsOk pli ch

instance (ty pli : Nat) (f : Filter) : Decidable (FilterOk ty pli f) := by cases f <;> (unfold FilterOk; infer_instance)

theorem RefsOk.setTap {r : Refs} (h : RefsOk r) {pass j : Nat} {v : Int} (hv : j < 3 → Spec.tapMin j ≤ v ∧ v ≤ Spec.tapMax j) : RefsOk (r.setTap pass j v) := by
  refine ⟨fun q i hi => ?_, h.xqd⟩
  show Spec.tapMin i ≤ (if q = pass ∧ i = j then v else r.wiener q i) ∧ (if q = pass ∧ i = j then v else r.wiener q i) ≤ Spec.tapMax i
  by_cases hc : q = pass ∧ i = j
  · rw [if_pos hc, hc.2]; exact hv (hc.2 ▸ hi)
  · rw [if_neg hc]; exact h.tap q i hi

theorem RefsOk.setXqd {r : Refs} (h : RefsOk r) {i : Nat} {v : Int} (hv : i < 2 → Spec.xqdMin i ≤ v ∧ v ≤ Spec.xqdMax i) : RefsOk (r.setXqd i v) := by
  refine ⟨h.tap, fun k hk => ?_⟩
  show Spec.xqdMin k ≤ (if k = i then v else r.sgr k) ∧ (if k = i then v else r.sgr k) ≤ Spec.xqdMax k
  by_cases hc : k = i
  · rw [if_pos hc, hc]; exact hv (hc ▸ hk)
  · rw [if_neg hc]; exact h.xqd k hk

theorem initRefs_ok : RefsOk initRefs := by
  refine ⟨fun pass j hj => ?_, fun i hi => ?_⟩
  · show Spec.tapMin j ≤ ([3, -7, 15] : List Int).getD j 0 ∧ ([3, -7, 15] : List Int).getD j 0 ≤ Spec.tapMax j
    have : ∀ j < 3, Spec.tapMin j ≤ ([3, -7, 15] : List Int).getD j 0 ∧ ([3, -7, 15] : List Int).getD j 0 ≤ Spec.tapMax j := by decide
    exact this j hj
  · show Spec.xqdMin i ≤ ([-32, 31] : List Int).getD i 0 ∧ ([-32, 31] : List Int).getD i 0 ≤ Spec.xqdMax i
    have : ∀ i < 2, Spec.xqdMin i ≤ ([-32, 31] : List Int).getD i 0 ∧ ([-32, 31] : List Int).getD i 0 ≤ Spec.xqdMax i := by decide
    exact this i hi

/-- The two programs use the same tables. -/
theorem tables : ∀ j < 3, wienerMin.getD j 0 = Spec.tapMin j ∧ wienerMax.getD j 0 = Spec.tapMax j ∧ j + 1 = Spec.tapK j := by decide
@[inherit_doc tables] theorem tables' : ∀ i < 2, sgrMin.getD i 0 = Spec.xqdMin i ∧ sgrMax.getD i 0 = Spec.xqdMax i := by decide
@[inherit_doc tables] theorem radius : ∀ k < 16, ((Lrf.Spec.sgrParams.getD k ((0, 0), (0, 0))).1.1 ≠ 0 ↔ (paramsS.getD k (0, 0)).1 > 0) ∧
    ((Lrf.Spec.sgrParams.getD k ((0, 0), (0, 0))).2.1 ≠ 0 ↔ (paramsS.getD k (0, 0)).2 > 0) := by decide

theorem tap_rt {pass j : Nat} (hj : j < 3) {v : Int} (hv : Spec.tapMin j ≤ v ∧ v ≤ Spec.tapMax j) {r : Refs} (h : RefsOk r) (rest) :
    (Spec.rdTap pass j r).onToks ((writeTap pass j v r).1 ++ rest) = some ((v, (writeTap pass j v r).2), rest) ∧ RefsOk (writeTap pass j v r).2 := by
  obtain ⟨h1, h2, h3⟩ := tables j hj
  have := h.tap pass j hj
  unfold Spec.rdTap writeTap
  rw [onToks_bind, h1, h2, h3]
  dsimp only
  rw [signed_subexp_toks (by omega) (by omega) (by omega) (by omega)]
  exact ⟨rfl, h.setTap fun _ => hv⟩

theorem pass_rt {pli pass : Nat} {c : Int × Int × Int} (hc : TapsOk pli c) {r : Refs} (h : RefsOk r) :
    ∃ ts r', writePass pli pass c r = some (ts, r') ∧ RefsOk r' ∧ ∀ rest, (Spec.rdPass pli pass r).onToks (ts ++ rest) = some ((c, r'), rest) := by
  obtain ⟨a, b, d⟩ := c
  obtain ⟨ha, hb, hd, h0⟩ := hc
  dsimp only at ha hb hd h0
  by_cases hp : pli = 0
  · have t0 := fun rest => tap_rt (pass := pass) (j := 0) (by omega) (v := a) ha h rest
    have t1 := fun rest => tap_rt (pass := pass) (j := 1) (by omega) (v := b) hb (t0 []).2 rest
    have t2 := fun rest => tap_rt (pass := pass) (j := 2) (by omega) (v := d) hd (t1 []).2 rest
    refine ⟨(writeTap pass 0 a r).1 ++ (writeTap pass 1 b (writeTap pass 0 a r).2).1 ++ (writeTap pass 2 d (writeTap pass 1 b (writeTap pass 0 a r).2).2).1, _,
      by unfold writePass; rw [if_pos hp]; rfl, (t2 []).2, fun rest => ?_⟩
    unfold Spec.rdPass
    rw [onToks_bind, if_pos hp, List.append_assoc, List.append_assoc, (t0 _).1]
    simp only [Option.bind_some]
    rw [onToks_bind, (t1 _).1]
    simp only [Option.bind_some]
    rw [onToks_bind, (t2 _).1]
    rfl
  · have t1 := fun rest => tap_rt (pass := pass) (j := 1) (by omega) (v := b) hb h rest
    have t2 := fun rest => tap_rt (pass := pass) (j := 2) (by omega) (v := d) hd (t1 []).2 rest
    refine ⟨[] ++ (writeTap pass 1 b r).1 ++ (writeTap pass 2 d (writeTap pass 1 b r).2).1, _,
      by unfold writePass; rw [if_neg hp, if_pos (h0 hp)]; rfl, (t2 []).2, fun rest => ?_⟩
    unfold Spec.rdPass
    rw [onToks_bind, if_neg hp, List.nil_append, List.append_assoc, Rd.onToks]
    simp only [Option.bind_some]
    rw [onToks_bind, (t1 _).1]
    simp only [Option.bind_some]
    rw [onToks_bind, (t2 _).1, h0 hp]
    rfl

theorem xqd0_rt {s rad : Nat} (hs : rad ≠ 0 ↔ s > 0) {v : Int} (hv : -96 ≤ v ∧ v ≤ 31) (h0 : s = 0 → v = 0) {r : Refs} (h : RefsOk r) :
    ∃ ts r', writeXqd 0 s v r = some (ts, r') ∧ RefsOk r' ∧ r'.sgr 0 = v ∧ ∀ rest, (Spec.rdXqd 0 rad r).onToks (ts ++ rest) = some ((v, r'), rest) := by
  have hr := h.xqd 0 (by omega)
  unfold writeXqd Spec.rdXqd
  by_cases hp : s > 0
  · rw [if_pos hp]
    refine ⟨_, _, rfl, h.setXqd fun _ => hv, rfl, fun rest => ?_⟩
    rw [onToks_bind, if_pos (hs.2 hp)]
    have := signed_subexp_toks (k := 4) (low := -96) (high := 31 + 1) (r := r.sgr 0) (v := v) hr.1 (by have := hr.2; change _ ≤ (31 : Int) at this; omega)
      hv.1 (by omega) rest
    erw [this]
    rfl
  · have e : v = 0 := h0 (by omega)
    rw [if_neg hp, if_pos rfl, if_pos e]
    refine ⟨_, _, rfl, h.setXqd fun _ => by decide, e.symm, fun rest => ?_⟩
    rw [onToks_bind, if_neg (fun hc => hp (hs.1 hc)), e]
    rfl

theorem xqd1_rt {s rad : Nat} (hs : rad ≠ 0 ↔ s > 0) {v x0 : Int} (hx : -96 ≤ x0 ∧ x0 ≤ 31) (hv : -32 ≤ v ∧ v ≤ 95)
    (h0 : s = 0 → v = max (-32) (min 95 (128 - x0))) {r : Refs} (h : RefsOk r) (hr0 : r.sgr 0 = x0) :
    ∃ ts r', writeXqd 1 s v r = some (ts, r') ∧ RefsOk r' ∧ ∀ rest, (Spec.rdXqd 1 rad r).onToks (ts ++ rest) = some ((v, r'), rest) := by
  have hr := h.xqd 1 (by omega)
  unfold writeXqd Spec.rdXqd
  by_cases hp : s > 0
  · rw [if_pos hp]
    refine ⟨_, _, rfl, h.setXqd fun _ => hv, fun rest => ?_⟩
    rw [onToks_bind, if_pos (hs.2 hp)]
    have := signed_subexp_toks (k := 4) (low := -32) (high := 95 + 1) (r := r.sgr 1) (v := v) hr.1 (by have := hr.2; change _ ≤ (95 : Int) at this; omega)
      hv.1 (by omega) rest
    erw [this]
    rfl
  · have e : v = 95 := by have := h0 (by omega); omega
    rw [if_neg hp, if_neg (by omega)]
    refine ⟨_, _, rfl, h.setXqd fun _ => by decide, fun rest => ?_⟩
    rw [onToks_bind, if_neg (fun hc => hp (hs.1 hc)), if_pos rfl, hr0]
    have e' : max (Spec.xqdMin 1) (min (Spec.xqdMax 1) (2 ^ 7 - x0)) = 95 := by
      show max (-32 : Int) (min 95 (2 ^ 7 - x0)) = 95
      omega
    rw [e', e]
    rfl

/-- Encoder and decoder agree on the types and the distributions. -/
structure CorType (C : Cfg) (f : Frame) (pli : Nat) : Prop where
  ty : f.lrType pli = Spec.remapLrType (C.plane pli).lrfType
  switchable : f.restorationType = C.switchable
  wiener : f.useWiener = C.wiener
  sgrproj : f.useSgrproj = C.sgrproj
  range : 1 ≤ (C.plane pli).lrfType ∧ (C.plane pli).lrfType ≤ 3

theorem onToks_sym (i v : Nat) (ts) : (rdSym i).onToks ((.cdf i, v) :: ts) = some (v, ts) := by simp [rdSym, Rd.onToks]

/-- **A unit round-trips**: `write_lrf` does not panic, and `read_lr_unit` reads back the filter; both leave the same references. -/
theorem unit_rt {C : Cfg} {f : Frame} {pli : Nat} (K : CorType C f pli) {flt : Filter} (hf : FilterOk (C.plane pli).lrfType pli flt) {r : Refs} (h : RefsOk r) :
    ∃ ts r', writeLrf C pli flt r = some (ts, r') ∧ RefsOk r' ∧ ∀ rest, (Spec.rdUnit f pli r).onToks (ts ++ rest) = some ((flt.toSpec, r'), rest) := by
  have hty : ∀ v rest, (Spec.rdType f pli).onToks ((Src.cdf C.switchable, v) :: rest) = some (v, rest) ∨ (C.plane pli).lrfType ≠ 1 := by
    intro v rest
    by_cases h1 : (C.plane pli).lrfType = 1
    · left
      unfold Spec.rdType
      rw [K.ty, h1, K.switchable]
      exact onToks_sym _ _ _
    · exact .inr h1
  have hw : ∀ v rest, v < 2 → (C.plane pli).lrfType = 2 → (Spec.rdType f pli).onToks ((Src.cdf C.wiener, v) :: rest) = some (v, rest) := by
    intro v rest hv h1
    unfold Spec.rdType
    rw [K.ty, h1, K.wiener]
    show ((rdSym C.wiener).bind fun v => .ret (if v = 1 then 1 else 0)).onToks _ = _
    rw [onToks_bind, onToks_sym]
    simp only [Option.bind_some, Rd.onToks]
    rcases (show v = 0 ∨ v = 1 by omega) with rfl | rfl <;> rfl
  have hs : ∀ v rest, v < 2 → (C.plane pli).lrfType = 3 → (Spec.rdType f pli).onToks ((Src.cdf C.sgrproj, v) :: rest) = some (2 * v, rest) := by
    intro v rest hv h1
    unfold Spec.rdType
    rw [K.ty, h1, K.sgrproj]
    show ((rdSym C.sgrproj).bind fun v => .ret (if v = 1 then 2 else 0)).onToks _ = _
    rw [onToks_bind, onToks_sym]
    simp only [Option.bind_some, Rd.onToks]
    rcases (show v = 0 ∨ v = 1 by omega) with rfl | rfl <;> rfl
  have h3 := K.range
  cases flt with
  | none =>
    have key : ∃ t, writeLrf C pli .none r = some ([t], r) ∧ ∀ rest, (Spec.rdType f pli).onToks (t :: rest) = some (0, rest) := by
      unfold writeLrf
      dsimp only
      rcases (show (C.plane pli).lrfType = 1 ∨ (C.plane pli).lrfType = 2 ∨ (C.plane pli).lrfType = 3 by omega) with h1 | h1 | h1
      · rw [h1]
        exact ⟨(.cdf C.switchable, 0), rfl, fun rest => (hty 0 rest).resolve_right (by omega)⟩
      · rw [h1]
        exact ⟨(.cdf C.wiener, 0), rfl, fun rest => hw 0 rest (by omega) h1⟩
      · rw [h1]
        exact ⟨(.cdf C.sgrproj, 0), rfl, fun rest => hs 0 rest (by omega) h1⟩
    obtain ⟨t, k1, k2⟩ := key
    refine ⟨_, _, k1, h, fun rest => ?_⟩
    unfold Spec.rdUnit
    rw [onToks_bind, List.singleton_append, k2]
    rfl
  | sgrproj set x0 x1 =>
    obtain ⟨ht, h16, hx0, hx1, z0, z1⟩ := hf
    have hlen : set < paramsS.length := h16
    have hg : paramsS[set]? = some (paramsS.getD set (0, 0)) := by
      rw [List.getD_eq_getElem?_getD, List.getElem?_eq_getElem hlen]; rfl
    obtain ⟨r1, r2⟩ := radius set h16
    obtain ⟨s0, q0, e0, o0, v0, d0⟩ := xqd0_rt r1 hx0 z0 h
    obtain ⟨s1, q1, e1, o1, d1⟩ := xqd1_rt r2 hx0 hx1 z1 o0 v0
    have key : ∃ t, sgrSym C (C.plane pli).lrfType = some [t] ∧ ∀ rest, (Spec.rdType f pli).onToks (t :: rest) = some (2, rest) := by
      rcases ht with h1 | h1
      · rw [h1]
        exact ⟨(.cdf C.switchable, 2), rfl, fun rest => (hty 2 rest).resolve_right (by omega)⟩
      · rw [h1]
        exact ⟨(.cdf C.sgrproj, 1), rfl, fun rest => hs 1 rest (by omega) h1⟩
    obtain ⟨t, k1, k2⟩ := key
    refine ⟨[t] ++ flatToks (literal 4 set) ++ s0 ++ s1, q1, ?_, o1, fun rest => ?_⟩
    · unfold writeLrf
      dsimp only
      rw [k1, hg]
      simp only [Option.bind_eq_bind, Option.bind_some]
      rw [e0]
      simp only [Option.bind_some]
      rw [e1]
      rfl
    · unfold Spec.rdUnit
      rw [onToks_bind, List.append_assoc, List.append_assoc, List.append_assoc, List.singleton_append, k2]
      simp only [Option.bind_some]
      rw [if_neg (by omega), if_pos trivial, onToks_bind, onToks_lit0 (by simpa using h16)]
      simp only [Option.bind_some]
      rw [onToks_bind, d0]
      simp only [Option.bind_some]
      rw [onToks_bind, d1]
      rfl
  | wiener cv ch =>
    obtain ⟨ht, hv, hh⟩ := hf
    obtain ⟨s0, q0, e0, o0, d0⟩ := pass_rt (pass := 0) hv h
    obtain ⟨s1, q1, e1, o1, d1⟩ := pass_rt (pass := 1) hh o0
    have key : ∃ t, wienerSym C (C.plane pli).lrfType = some [t] ∧ ∀ rest, (Spec.rdType f pli).onToks (t :: rest) = some (1, rest) := by
      rcases ht with h1 | h1
      · rw [h1]
        exact ⟨(.cdf C.switchable, 1), rfl, fun rest => (hty 1 rest).resolve_right (by omega)⟩
      · rw [h1]
        exact ⟨(.cdf C.wiener, 1), rfl, fun rest => hw 1 rest (by omega) h1⟩
    obtain ⟨t, k1, k2⟩ := key
    refine ⟨[t] ++ s0 ++ s1, q1, ?_, o1, fun rest => ?_⟩
    · unfold writeLrf
      dsimp only
      rw [k1]
      simp only [Option.bind_eq_bind, Option.bind_some]
      rw [e0]
      simp only [Option.bind_some]
      rw [e1]
      rfl
    · unfold Spec.rdUnit
      rw [onToks_bind, List.append_assoc, List.append_assoc, List.singleton_append, k2]
      simp only [Option.bind_some]
      rw [if_pos trivial, onToks_bind, d0]
      simp only [Option.bind_some]
      rw [onToks_bind, d1]
      rfl

end Rav1e.LoopSyn

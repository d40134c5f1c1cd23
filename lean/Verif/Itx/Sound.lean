import Verif.Itx.Sym
import Verif.Itx.Model
import Mathlib.Tactic.NormNum
import Mathlib.Tactic.Linarith
/-
C59: what the symbolic values mean: for the specification, and for the code on 32-bit integers.
-/
namespace Rav1e.Itx
open Rav1e.Wht (chkI wrapI clampValue)

/-! ### Meaning for the specification -/

/-- The value, with exact integers. -/
def eval (r : Nat) (x : Nat → Int) : E → Int
  | .inp k => x k
  | .btf c0 a c1 b => round2 (c0 * eval r x a + c1 * eval r x b) 12
  | .add a b => clipR r (eval r x a + eval r x b)
  | .sub a b => clipR r (eval r x a - eval r x b)
  | .nadd a b => clipR r (-eval r x a + eval r x b)
  | .neg a => -eval r x a
  | .bad => 0

/-- All rotations are representable by `r` bits. -/
def Fit (r : Nat) (x : Nat → Int) : E → Prop
  | .inp _ | .bad => True
  | .btf c0 a c1 b => InR r (eval r x (.btf c0 a c1 b)) ∧ Fit r x a ∧ Fit r x b
  | .add a b | .sub a b | .nadd a b => Fit r x a ∧ Fit r x b
  | .neg a => Fit r x a

theorem eqv_sound {r : Nat} {x : Nat → Int} : ∀ {a b : E}, eqv a b = true → eval r x a = eval r x b ∧ (Fit r x b → Fit r x a) := by
  intro a
  induction a with
  | inp k =>
    intro b h
    cases b <;> simp only [eqv, beq_iff_eq, Bool.false_eq_true] at h
    subst h; exact ⟨rfl, id⟩
  | bad => intro b h; cases b <;> simp only [eqv, Bool.false_eq_true] at h
  | neg a ih =>
    intro b h
    cases b <;> simp only [eqv, Bool.false_eq_true] at h
    obtain ⟨h1, h2⟩ := ih h
    exact ⟨by simp only [eval, h1], h2⟩
  | sub a b iha ihb =>
    intro c h
    cases c <;> simp only [eqv, Bool.false_eq_true, Bool.and_eq_true] at h
    obtain ⟨h1, h2⟩ := iha h.1
    obtain ⟨h3, h4⟩ := ihb h.2
    exact ⟨by simp only [eval, h1, h3], fun g => ⟨h2 g.1, h4 g.2⟩⟩
  | nadd a b iha ihb =>
    intro c h
    cases c <;> simp only [eqv, Bool.false_eq_true, Bool.and_eq_true] at h
    obtain ⟨h1, h2⟩ := iha h.1
    obtain ⟨h3, h4⟩ := ihb h.2
    refine ⟨?_, fun g => ⟨h2 g.2, h4 g.1⟩⟩
    simp only [eval, h1, h3]
    rw [show ∀ u v : Int, -u + v = v - u from fun u v => by omega]
  | add a b iha ihb =>
    intro c h
    cases c <;> simp only [eqv, Bool.false_eq_true, Bool.and_eq_true, Bool.or_eq_true] at h
    rcases h with h | h
    · obtain ⟨h1, h2⟩ := iha h.1
      obtain ⟨h3, h4⟩ := ihb h.2
      exact ⟨by simp only [eval, h1, h3], fun g => ⟨h2 g.1, h4 g.2⟩⟩
    · obtain ⟨h1, h2⟩ := iha h.1
      obtain ⟨h3, h4⟩ := ihb h.2
      exact ⟨by simp only [eval, h1, h3, Int.add_comm], fun g => ⟨h2 g.2, h4 g.1⟩⟩
  | btf c0 a c1 b iha ihb =>
    intro c h
    cases c <;> simp only [eqv, Bool.false_eq_true, Bool.and_eq_true, Bool.or_eq_true, beq_iff_eq] at h
    rcases h with ⟨⟨⟨e0, e1⟩, ha⟩, hb⟩ | ⟨⟨⟨e0, e1⟩, ha⟩, hb⟩
    · obtain ⟨h1, h2⟩ := iha ha
      obtain ⟨h3, h4⟩ := ihb hb
      subst e0 e1
      exact ⟨by simp only [eval, h1, h3], fun g => ⟨by have := g.1; simp only [eval, h1, h3] at this ⊢; exact this, h2 g.2.1, h4 g.2.2⟩⟩
    · obtain ⟨h1, h2⟩ := iha ha
      obtain ⟨h3, h4⟩ := ihb hb
      subst e0 e1
      exact ⟨by simp only [eval, h1, h3, Int.add_comm], fun g => ⟨by have := g.1; simp only [eval, h1, h3] at this ⊢; rw [Int.add_comm]; exact this, h2 g.2.2, h4 g.2.1⟩⟩

theorem eqvs_sound {r : Nat} {x : Nat → Int} : ∀ {l m : List E}, eqvs l m = true →
    l.map (eval r x) = m.map (eval r x) ∧ ((∀ e ∈ m, Fit r x e) → ∀ e ∈ l, Fit r x e)
  | [], [], _ => ⟨rfl, fun h => h⟩
  | [], _ :: _, h => by simp [eqvs] at h
  | _ :: _, [], h => by simp [eqvs] at h
  | a :: l, b :: m, h => by
    simp only [eqvs, Bool.and_eq_true] at h
    obtain ⟨h1, h2⟩ := eqv_sound (r := r) (x := x) h.1
    obtain ⟨h3, h4⟩ := eqvs_sound (r := r) (x := x) h.2
    refine ⟨by simp only [List.map_cons, h1, h3], fun g e he => ?_⟩
    rcases List.mem_cons.1 he with rfl | he
    · exact h2 (g b (List.mem_cons_self ..))
    · exact h4 (fun e he => g e (List.mem_cons_of_mem _ he)) e he

/-- The array `T` has the symbolic values `st`. -/
def Means (r : Nat) (x : Nat → Int) (T : Nat → Int) (st : List E) : Prop := ∀ k < st.length, T k = eval r x (st.getD k .bad)

theorem getD_set (l : List E) (a : Nat) (v : E) (k : Nat) (h : k < l.length) : (l.set a v).getD k .bad = if k = a then v else l.getD k .bad := by
  simp only [List.getD_eq_getElem?_getD, List.getElem?_set]
  by_cases e : k = a
  · subst e; simp [h]
  · rw [if_neg (fun g => e g.symm), if_neg e]

theorem means_set {r : Nat} {x T : Nat → Int} {st : List E} (h : Means r x T st) (a : Nat) {v : Int} {e : E} (hv : v = eval r x e) :
    Means r x (upd T a v) (st.set a e) := by
  intro k hk
  rw [List.length_set] at hk
  rw [getD_set _ _ _ _ hk]
  unfold upd
  by_cases e : k = a
  · rw [if_pos e, if_pos e, hv]
  · rw [if_neg e, if_neg e]; exact h k hk

theorem length_sym (s : Step) (st : List E) : (s.sym st).length = st.length := by
  cases s with
  | B a b angle flip => cases flip <;> simp [Step.sym]
  | H a b flip => cases flip <;> simp [Step.sym]

theorem fit_set {r : Nat} {x : Nat → Int} {st : List E} (h : ∀ e ∈ st, Fit r x e) (a : Nat) {v : E} (hv : Fit r x v) : ∀ e ∈ st.set a v, Fit r x e := by
  intro e he
  rcases List.mem_or_eq_of_mem_set he with g | g
  · exact h e g
  · rw [g]; exact hv

theorem fit_getD {r : Nat} {x : Nat → Int} {st : List E} (h : ∀ e ∈ st, Fit r x e) (a : Nat) : Fit r x (st.getD a .bad) := by
  rw [List.getD_eq_getElem?_getD]
  cases g : st[a]? with
  | none => trivial
  | some v => exact h v (List.mem_of_getElem? g)

theorem step_sound {r : Nat} {x T : Nat → Int} {st : List E} (h : Means r x T st) (s : Step) (hs : s.within st.length = true) :
    Means r x (s.apply r T) (s.sym st) := by
  cases s with
  | B a b angle flip =>
    simp only [Step.within, Bool.and_eq_true, decide_eq_true_eq] at hs
    have e1 := h a hs.1.1
    have e2 := h b hs.1.2
    cases flip
    · refine means_set (means_set h a ?_) b ?_ <;> simp only [eval, ← e1, ← e2, Int.mul_comm, Int.mul_neg, Int.sub_eq_add_neg]
    · refine means_set (means_set h a ?_) b ?_ <;> simp only [eval, ← e1, ← e2, Int.mul_comm, Int.mul_neg, Int.sub_eq_add_neg]
  | H a b flip =>
    simp only [Step.within, Bool.and_eq_true, decide_eq_true_eq] at hs
    have e1 := h a hs.1.1
    have e2 := h b hs.1.2
    cases flip
    · refine means_set (means_set h a ?_) b ?_ <;> simp only [eval, ← e1, ← e2]
    · refine means_set (means_set h b ?_) a ?_ <;> simp only [eval, ← e1, ← e2]

theorem upd_same (T : Nat → Int) (a : Nat) (v : Int) : upd T a v a = v := by simp [upd]
theorem upd_ne (T : Nat → Int) {a k : Nat} (v : Int) (h : k ≠ a) : upd T a v k = T k := by simp [upd, h]

theorem step_fit {r : Nat} {x T : Nat → Int} {st : List E} (h : Means r x T st) (s : Step) (hs : s.within st.length = true)
    (hf : ∀ e ∈ st, Fit r x e) (hc : ∀ a b angle flip, s = .B a b angle flip → InR r (s.apply r T a) ∧ InR r (s.apply r T b)) : ∀ e ∈ s.sym st, Fit r x e := by
  have hm := step_sound h s hs
  cases s with
  | B a b angle flip =>
    have hs' := hs
    simp only [Step.within, Bool.and_eq_true, decide_eq_true_eq] at hs'
    obtain ⟨c1, c2⟩ := hc a b angle flip rfl
    have hab := hs'.2
    have m1 := hm a (by rw [length_sym]; exact hs'.1.1)
    have m2 := hm b (by rw [length_sym]; exact hs'.1.2)
    rw [m1] at c1
    rw [m2] at c2
    cases flip
    · simp only [Step.sym] at c1 c2 ⊢
      rw [getD_set _ _ _ _ (by simpa using hs'.1.1), if_neg hab, getD_set _ _ _ _ hs'.1.1, if_pos rfl] at c1
      rw [getD_set _ _ _ _ (by simpa using hs'.1.2), if_pos rfl] at c2
      refine fit_set (fit_set hf a ?_) b ?_
      · exact ⟨c1, fit_getD hf a, fit_getD hf b⟩
      · exact ⟨c2, fit_getD hf a, fit_getD hf b⟩
    · simp only [Step.sym] at c1 c2 ⊢
      rw [getD_set _ _ _ _ (by simpa using hs'.1.1), if_neg hab, getD_set _ _ _ _ hs'.1.1, if_pos rfl] at c1
      rw [getD_set _ _ _ _ (by simpa using hs'.1.2), if_pos rfl] at c2
      refine fit_set (fit_set hf a ?_) b ?_
      · exact ⟨c1, fit_getD hf a, fit_getD hf b⟩
      · exact ⟨c2, fit_getD hf a, fit_getD hf b⟩
  | H a b flip =>
    cases flip
    · refine fit_set (fit_set hf a ?_) b ?_
      · exact ⟨fit_getD hf a, fit_getD hf b⟩
      · exact ⟨fit_getD hf a, fit_getD hf b⟩
    · refine fit_set (fit_set hf b ?_) a ?_
      · exact ⟨fit_getD hf b, fit_getD hf a⟩
      · exact ⟨fit_getD hf b, fit_getD hf a⟩

theorem steps_sound {r : Nat} {x : Nat → Int} : ∀ (l : List Step) {T : Nat → Int} {st : List E}, Means r x T st → within st.length l = true →
    Means r x (apply r l T) (symSteps l st) ∧ (symSteps l st).length = st.length ∧
      ((∀ e ∈ st, Fit r x e) → Conforms r l T → ∀ e ∈ symSteps l st, Fit r x e)
  | [], _, _, h, _ => ⟨h, rfl, fun g _ => g⟩
  | s :: l, T, st, h, hw => by
    simp only [within, List.all_cons, Bool.and_eq_true] at hw
    obtain ⟨h1, h2, h3⟩ := steps_sound l (step_sound h s hw.1) (by rw [length_sym]; exact hw.2)
    refine ⟨h1, by rw [length_sym] at h2; exact h2, fun g c => ?_⟩
    exact h3 (step_fit h s hw.1 g c.1) c.2

/-! ### Meaning for the code -/

/-- `h` respects the operations. -/
structure Hom {α β : Type} (o : Ops α) (o' : Ops β) (h : α → β) : Prop where
  btf : ∀ c0 a c1 b, h (o.btf c0 a c1 b) = o'.btf c0 (h a) c1 (h b)
  add : ∀ a b, h (o.add a b) = o'.add (h a) (h b)
  sub : ∀ a b, h (o.sub a b) = o'.sub (h a) (h b)
  nadd : ∀ a b, h (o.nadd a b) = o'.nadd (h a) (h b)
  neg : ∀ a, h (o.neg a) = o'.neg (h a)
  bad : h o.bad = o'.bad

section hom
variable {α β : Type} {o : Ops α} {o' : Ops β} {h : α → β}

theorem getD_map' (l : List α) (i : Nat) (d : α) : (l.map h).getD i (h d) = h (l.getD i d) := by
  simp only [List.getD_eq_getElem?_getD, List.getElem?_map]
  cases l[i]? <;> rfl

theorem stage_hom (H : Hom o o' h) (l : List α) (s : List Term) : stage o' (l.map h) s = (stage o l s).map h := by
  unfold stage
  rw [List.map_map]
  refine List.map_congr_left fun t _ => ?_
  cases t <;> simp only [Term.eval, Function.comp, ← H.bad, getD_map', H.btf, H.add, H.sub, H.nadd, H.neg]

theorem run_hom (H : Hom o o' h) : ∀ (p : List (List Term)) (l : List α), run o' p (l.map h) = (run o p l).map h
  | [], _ => rfl
  | s :: p, l => by
    show run o' p (stage o' (l.map h) s) = _
    rw [stage_hom H, run_hom H p]
    rfl

theorem idct4_hom (H : Hom o o' h) (l : List α) : idct4 o' (l.map h) = (idct4 o l).map h := by
  unfold idct4; rw [run_hom H, stage_hom H]
theorem idct8_hom (H : Hom o o' h) (l : List α) : idct8 o' (l.map h) = (idct8 o l).map h := by
  unfold idct8; rw [run_hom H, stage_hom H, idct4_hom H, ← List.map_append, stage_hom H]
theorem idct16_hom (H : Hom o o' h) (l : List α) : idct16 o' (l.map h) = (idct16 o l).map h := by
  unfold idct16; rw [run_hom H, stage_hom H, idct8_hom H, ← List.map_append, stage_hom H]
theorem idct32_hom (H : Hom o o' h) (l : List α) : idct32 o' (l.map h) = (idct32 o l).map h := by
  unfold idct32; rw [run_hom H, stage_hom H]
theorem idct64_hom (H : Hom o o' h) (l : List α) : idct64 o' (l.map h) = (idct64 o l).map h := by
  unfold idct64; rw [run_hom H, stage_hom H]
theorem iadst8_hom (H : Hom o o' h) (l : List α) : iadst8 o' (l.map h) = (iadst8 o l).map h := by
  unfold iadst8; rw [run_hom H, stage_hom H]
theorem iadst16_hom (H : Hom o o' h) (l : List α) : iadst16 o' (l.map h) = (iadst16 o l).map h := by
  unfold iadst16; rw [run_hom H, stage_hom H]
end hom

/-- The value in the code. -/
def cval (r : Nat) (x : Nat → Int) : E → Option Int
  | .inp k => some (x k)
  | .btf c0 a c1 b => (ops r).btf c0 (cval r x a) c1 (cval r x b)
  | .add a b => (ops r).add (cval r x a) (cval r x b)
  | .sub a b => (ops r).sub (cval r x a) (cval r x b)
  | .nadd a b => (ops r).nadd (cval r x a) (cval r x b)
  | .neg a => (ops r).neg (cval r x a)
  | .bad => (ops r).bad

theorem cval_hom (r : Nat) (x : Nat → Int) : Hom symOps (ops r) (cval r x) :=
  ⟨fun _ _ _ _ => rfl, fun _ _ => rfl, fun _ _ => rfl, fun _ _ => rfl, fun _ => rfl, rfl⟩

theorem chk32 {n : Int} (h1 : -2147483648 ≤ n) (h2 : n ≤ 2147483647) : chkI 32 n = some n := by
  unfold chkI
  rw [if_pos (by norm_num; omega)]

theorem clampValue_eq (v : Int) (r : Nat) : clampValue v r = clipR r v := by
  unfold clampValue clipR
  have : (1 : Int) ≤ 2 ^ (r - 1) := by exact_mod_cast Nat.one_le_two_pow
  generalize (2 : Int) ^ (r - 1) = M at *
  split
  · omega
  · split <;> omega

theorem clipR_in (r : Nat) (v : Int) : InR r (clipR r v) := by
  unfold InR clipR
  have : (1 : Int) ≤ 2 ^ (r - 1) := by exact_mod_cast Nat.one_le_two_pow
  generalize (2 : Int) ^ (r - 1) = M at *
  split
  · omega
  · split <;> omega

theorem clipR_id {r : Nat} {v : Int} (h : InR r v) : clipR r v = v := by
  unfold InR at h
  unfold clipR
  rw [if_neg (by omega), if_neg (by omega)]

theorem mul_bound {c x M : Int} (h1 : -4096 < c) (h2 : c < 4096) (h3 : -M ≤ x) (h4 : x ≤ M) : -(4095 * M) ≤ c * x ∧ c * x ≤ 4095 * M := by
  constructor <;> nlinarith

theorem wrap_round {v : Int} (h1 : -2147483648 ≤ v + 2048) (h2 : v + 2048 ≤ 2147483647) : wrapI 32 (wrapI 32 v + 2048) = v + 2048 := by
  unfold wrapI
  norm_num
  omega

theorem round2_12 (v : Int) : round2 v 12 = (v + 2048) / 4096 := by
  unfold round2
  norm_num

theorem pow_r {r : Nat} (h : r ≤ 20) : (1 : Int) ≤ 2 ^ (r - 1) ∧ (2 : Int) ^ (r - 1) ≤ 524288 ∧ (r ≤ 18 → (2 : Int) ^ (r - 1) ≤ 131072) := by
  refine ⟨by exact_mod_cast Nat.one_le_two_pow, ?_, fun g => ?_⟩
  · calc (2 : Int) ^ (r - 1) ≤ 2 ^ 19 := by exact_mod_cast Nat.pow_le_pow_right (by omega) (by omega)
      _ = 524288 := by norm_num
  · calc (2 : Int) ^ (r - 1) ≤ 2 ^ 17 := by exact_mod_cast Nat.pow_le_pow_right (by omega) (by omega)
      _ = 131072 := by norm_num

theorem cval_sound {r : Nat} {x : Nat → Int} (hr : r ≤ 20) (hx : ∀ k < 64, InR r (x k)) : ∀ e : E, safe e = true → (r ≤ 18 ∨ Fit r x e) →
    cval r x e = some (eval r x e) ∧ (-1048576 ≤ eval r x e ∧ eval r x e ≤ 1048576) ∧ (clipped e = true → InR r (eval r x e)) := by
  obtain ⟨p1, p2, p3⟩ := pow_r hr
  have big : ∀ {v : Int}, InR r v → -1048576 ≤ v ∧ v ≤ 1048576 := fun {v} h => by unfold InR at h; omega
  intro e
  induction e with
  | inp k =>
    intro hs _
    have := hx k (by simpa [safe] using hs)
    exact ⟨rfl, big this, fun _ => this⟩
  | bad => intro hs; simp [safe] at hs
  | neg a ih =>
    intro hs hf
    obtain ⟨h1, h2, _⟩ := ih hs hf
    refine ⟨?_, by simp only [eval]; omega, fun h => by simp [clipped] at h⟩
    simp only [cval, ops, h1, Option.bind_eq_bind, Option.bind_some, eval]
    exact chk32 (by omega) (by omega)
  | add a b iha ihb =>
    intro hs hf
    simp only [safe, Bool.and_eq_true] at hs
    obtain ⟨h1, h2, _⟩ := iha hs.1 (hf.imp_right And.left)
    obtain ⟨h3, h4, _⟩ := ihb hs.2 (hf.imp_right And.right)
    have hc := clipR_in r (eval r x a + eval r x b)
    refine ⟨?_, big hc, fun _ => hc⟩
    simp only [cval, ops, h1, h3, Option.bind_eq_bind, Option.bind_some, eval]
    rw [chk32 (by omega) (by omega), Option.bind_some, clampValue_eq]
  | sub a b iha ihb =>
    intro hs hf
    simp only [safe, Bool.and_eq_true] at hs
    obtain ⟨h1, h2, _⟩ := iha hs.1 (hf.imp_right And.left)
    obtain ⟨h3, h4, _⟩ := ihb hs.2 (hf.imp_right And.right)
    have hc := clipR_in r (eval r x a - eval r x b)
    refine ⟨?_, big hc, fun _ => hc⟩
    simp only [cval, ops, h1, h3, Option.bind_eq_bind, Option.bind_some, eval]
    rw [chk32 (by omega) (by omega), Option.bind_some, clampValue_eq]
  | nadd a b iha ihb =>
    intro hs hf
    simp only [safe, Bool.and_eq_true] at hs
    obtain ⟨h1, h2, _⟩ := iha hs.1 (hf.imp_right And.left)
    obtain ⟨h3, h4, _⟩ := ihb hs.2 (hf.imp_right And.right)
    have hc := clipR_in r (-eval r x a + eval r x b)
    refine ⟨?_, big hc, fun _ => hc⟩
    simp only [cval, ops, h1, h3, Option.bind_eq_bind, Option.bind_some, eval]
    rw [chk32 (by omega) (by omega), Option.bind_some, chk32 (by omega) (by omega), Option.bind_some, clampValue_eq]
  | btf c0 a c1 b iha ihb =>
    intro hs hf
    simp only [safe, Bool.and_eq_true, decide_eq_true_eq] at hs
    obtain ⟨⟨⟨⟨⟨⟨⟨ka, kb⟩, k1⟩, k2⟩, k3⟩, k4⟩, sa⟩, sb⟩ := hs
    obtain ⟨h1, _, h2⟩ := iha sa (hf.imp_right fun g => g.2.1)
    obtain ⟨h3, _, h4⟩ := ihb sb (hf.imp_right fun g => g.2.2)
    have ia := h2 ka
    have ib := h4 kb
    have hf : r ≤ 18 ∨ InR r (eval r x (.btf c0 a c1 b)) := hf.imp_right And.left
    simp only [cval, ops, halfBtf, h1, h3, Option.bind_eq_bind, Option.bind_some, eval] at hf ⊢
    generalize eval r x a = u at *
    generalize eval r x b = v at *
    unfold InR at ia ib hf
    obtain ⟨m1, m2⟩ := mul_bound k1 k2 (x := u) (M := 2 ^ (r - 1)) (by omega) (by omega)
    obtain ⟨m3, m4⟩ := mul_bound k3 k4 (x := v) (M := 2 ^ (r - 1)) (by omega) (by omega)
    generalize c0 * u = p at *
    generalize c1 * v = q at *
    generalize (2 : Int) ^ (r - 1) = M at *
    rw [round2_12] at hf ⊢
    refine ⟨?_, by omega, fun h => by simp [clipped] at h⟩
    rw [chk32 (by omega) (by omega), Option.bind_some, chk32 (by omega) (by omega), Option.bind_some, wrap_round (by omega) (by omega)]

end Rav1e.Itx

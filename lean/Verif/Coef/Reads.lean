import Verif.Coef.Contexts
import Verif.Ec.CodeThms

/-!
# Lemmas for C41: elements written and programs that read them
-/

namespace Rav1e.Coef
open Av1Spec (Src Rd rdBit rdSym)
open Rav1e.Ec

/-! ## The CDFs -/

/-- The number of words of every CDF, in the order of their numbers. -/
def lens : List Nat := Cdf.fields.flatMap fun f => if f.len = 0 then [] else List.replicate f.count f.len

theorem lens_get_aux {f : Cdf.Field} {i : Nat} (h0 : f.len ≠ 0) (hi : i < f.count) :
    ∀ fs : List Cdf.Field, (fs.map (·.name)).Nodup → f ∈ fs →
    (fs.flatMap fun f => if f.len = 0 then [] else List.replicate f.count f.len)[firstCdf f.name fs + i]? =
      some f.len := by
  intro fs
  induction fs with
  | nil => intro _ h; exact absurd h (by simp)
  | cons g fs ih =>
    intro hn hm
    rw [List.map_cons, List.nodup_cons] at hn
    rw [List.flatMap_cons]
    rcases List.mem_cons.1 hm with rfl | hm
    · rw [firstCdf, if_pos rfl, if_neg h0, Nat.zero_add,
        List.getElem?_append_left (by rw [List.length_replicate]; exact hi), List.getElem?_replicate, if_pos hi]
    · have hne : g.name ≠ f.name := fun e => hn.1 (e ▸ List.mem_map.2 ⟨f, hm, rfl⟩)
      rw [firstCdf, if_neg hne, List.getElem?_append_right (by
        split_ifs <;> simp <;> omega), ← ih hn.2 hm]
      congr 1
      split_ifs <;> simp <;> omega

theorem names_nodup : (Cdf.fields.map (·.name)).Nodup := by decide +kernel

theorem lens_get {f : Cdf.Field} (hf : f ∈ Cdf.fields) {i : Nat} (h0 : f.len ≠ 0) (hi : i < f.count) :
    lens[cdfNo f.name i]? = some f.len := lens_get_aux h0 hi _ names_nodup hf

/-- Elements within the alphabets of the CDFs. -/
def TokOk (t : Src × Nat) : Prop :=
  match t with
  | (.flat, b) => b < 2
  | (.cdf i, s) => ∃ n, lens[i]? = some n ∧ s < n

def AllOk (ts : Toks) : Prop := ∀ t ∈ ts, TokOk t

theorem AllOk.append {a b : Toks} (ha : AllOk a) (hb : AllOk b) : AllOk (a ++ b) := fun t ht =>
  (List.mem_append.1 ht).elim (ha t) (hb t)

theorem AllOk.nil : AllOk [] := fun _ h => absurd h (by simp)

/-- The writer is given elements from which the program reads `a`, using up all of them. -/
def Wr {α : Type} (o : Option Toks) (p : Rd α) (a : α) : Prop :=
  ∃ t, o = some t ∧ AllOk t ∧ ∀ ts, p.onToks (t ++ ts) = some (a, ts)

theorem Wr.ret {α : Type} (a : α) : Wr (some []) (.ret a) a := ⟨[], rfl, .nil, fun _ => rfl⟩

theorem Wr.bind {α β : Type} {o : Option Toks} {f : Toks → Option Toks} {p : Rd α} {a : α} {q : α → Rd β} {b : β}
    (h1 : Wr o p a) {o2 : Option Toks} (h2 : Wr o2 (q a) b)
    (hf : ∀ t t2, o = some t → o2 = some t2 → f t = some (t ++ t2)) : Wr (o.bind f) (p.bind q) b := by
  obtain ⟨t, e, ok, r⟩ := h1
  obtain ⟨t2, e2, ok2, r2⟩ := h2
  refine ⟨t ++ t2, ?_, ok.append ok2, fun ts => ?_⟩
  · rw [e, Option.bind_some, hf t t2 e e2]
  · rw [onToks_bind, List.append_assoc, r, Option.bind_some, r2]

/-- As `Wr.bind`, for a first part that writes nothing. -/
theorem Wr.map {α β : Type} {o : Option Toks} {p : Rd α} {a : α} {q : α → Rd β} {b : β}
    (h1 : Wr o p a) (h2 : q a = .ret b) : Wr o (p.bind q) b := by
  obtain ⟨t, e, ok, r⟩ := h1
  refine ⟨t, e, ok, fun ts => ?_⟩
  rw [onToks_bind, r, Option.bind_some, h2]; rfl

/-! ## The numbers of the CDFs of the specification -/

/-- The field of `CDFContext` and the index in it for each CDF of the specification. -/
def place : Av1Spec.Coef.Cdf → String × Nat
  | .txbSkip t c => ("txb_skip_cdf", t * 13 + c)
  | .eobPt m p c => (eobField m, p * 2 + c)
  | .eobExtra t p i => ("eob_extra_cdf", (t * 2 + p) * 9 + i)
  | .coeffBaseEob t p c => ("coeff_base_eob_cdf", (t * 2 + p) * 4 + c)
  | .coeffBase t p c => ("coeff_base_cdf", (t * 2 + p) * 42 + c)
  | .coeffBr t p c => ("coeff_br_cdf", (t * 2 + p) * 21 + c)
  | .dcSign p c => ("dc_sign_cdf", p * 3 + c)
  | .intraTx s q d => (if s = 1 then "intra_tx_1_cdf" else "intra_tx_2_cdf", q * 13 + d)
  | .interTx s q => (if s = 1 then "inter_tx_1_cdf" else if s = 2 then "inter_tx_2_cdf" else "inter_tx_3_cdf", q)

/-- The number of a CDF of the specification among those of `CDFContext`. -/
def num (c : Av1Spec.Coef.Cdf) : Nat := cdfNo (place c).1 (place c).2

theorem wr_symbol {name : String} {ix : List (Nat × Nat)} {s i : Nat} {c : Av1Spec.Coef.Cdf} (count len : Nat)
    (hf : (⟨name, count, len⟩ : Cdf.Field) ∈ Cdf.fields) (hx : flatIdx ix 0 = some i) (hi : i < count)
    (hs : s < len) (hc : place c = (name, i)) : Wr (symbol name ix s) (Av1Spec.Coef.sym num c) s := by
  have e : num c = cdfNo name i := by unfold num; rw [hc]
  refine ⟨[(.cdf (cdfNo name i), s)], by unfold symbol; rw [hx]; rfl, ?_, fun ts => ?_⟩
  · intro t ht
    rw [List.mem_singleton] at ht
    subst ht
    exact ⟨len, lens_get hf (show len ≠ 0 by omega) hi, hs⟩
  · unfold Av1Spec.Coef.sym
    rw [e]
    simp [rdSym, Rd.onToks]

theorem wr_bit {b : Nat} (h : b < 2) : Wr (some [(.flat, b)]) rdBit b :=
  ⟨_, rfl, fun t ht => by rw [List.mem_singleton] at ht; subst ht; exact h, fun ts => onToks_bit b ts⟩

theorem flat_ok {l : List Nat} (h : ∀ b ∈ l, b < 2) : AllOk (flatToks l) := by
  intro t ht
  unfold flatToks at ht
  obtain ⟨b, hb, rfl⟩ := List.mem_map.1 ht
  exact h b hb

end Rav1e.Coef

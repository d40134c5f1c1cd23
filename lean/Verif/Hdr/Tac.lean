import Verif.Hdr.Spec

/-!
# Headers: lemmas to walk through a writer and a parser in step
-/

namespace Av1Spec

instance : LawfulMonad Parser := LawfulMonad.mk'
  (id_map := fun x => by
    funext bs
    show (match x bs with | some (a, rest) => some (a, rest) | none => none) = x bs
    rcases x bs with _ | ⟨a, r⟩ <;> rfl)
  (pure_bind := fun _ _ => rfl)
  (bind_assoc := fun x f g => by
    funext bs
    show (match (match x bs with | some (a, rest) => f a rest | none => none) with
        | some (a, rest) => g a rest | none => none) =
      (match x bs with
        | some (a, rest) => (match f a rest with | some (a, rest) => g a rest | none => none)
        | none => none)
    rcases x bs with _ | ⟨a, r⟩ <;> rfl)

end Av1Spec

namespace Rav1e.Hdr
open Av1Spec

section
variable {α β γ : Type}

theorem app_assoc (a b c : W) : ((a ⊹ b) ⊹ c) = (a ⊹ b ⊹ c) := by
  rcases a with _ | a <;> rcases b with _ | b <;> rcases c with _ | c <;> simp [W.app]

theorem opt_true (p : Parser α) (d : α) : Parser.opt true p d = p := rfl
theorem opt_false (p : Parser α) (d : α) : Parser.opt false p d = pure d := rfl
theorem rejectIf_false : Parser.rejectIf false = pure () := rfl

/-- The writer's condition and the reader's agree. -/
theorem codes_opt {c : Prop} [Decidable c] {b : Bool} {w : W} {p : Parser α} {d a : α}
    (h : c ↔ b = true) (h1 : c → Codes w p a) (h2 : ¬ c → d = a) :
    Codes (if c then w else W.nil) (Parser.opt b p d) a := by
  unfold Parser.opt
  refine Codes.ite h h1 fun hc => ?_
  rw [h2 hc]; exact Codes.pure _

/-- A writer without bits and a reader that does not read. -/
theorem Codes.reject {b : Bool} {w : W} {k : Unit → Parser α} {a : α} (hb : b = false)
    (h : Codes w (k ()) a) : Codes w (Parser.rejectIf b >>= k) a := by
  subst hb; exact h

theorem codes_lit_as {n v : Nat} {w : W} {k : Nat → Parser α} {a : α}
    (h : v < 2 ^ n → Codes w (k v) a) : Codes (lit n v ⊹ w) (Parser.f n >>= k) a := by
  intro bs hbs tail
  exact Codes.bind (codes_lit n v) (h (lit_lt hbs)) bs hbs tail

/-- A literal of one bit is a flag. -/
theorem codes_bit_f (b : Bool) : Codes (bit b) (Parser.f 1) b.toNat := by
  have h := codes_lit 1 b.toNat
  have e : lit 1 b.toNat = bit b := by cases b <;> rfl
  rwa [e] at h

theorem codes_lit_flag (b : Bool) : Codes (lit 1 b.toNat) Parser.flag b := by
  have e : lit 1 b.toNat = bit b := by cases b <;> rfl
  rw [e]; exact codes_bit b

theorem Codes.map {w : W} {p : Parser α} {a : α} {b : β} {g : α → β} (h : Codes w p a)
    (e : g a = b) : Codes w (p >>= fun x => Pure.pure (g x)) b := e ▸ Codes.last h

theorem Codes.done {w : W} {p : Parser α} {a : α} (h : Codes w p a) :
    Codes w (p >>= fun x => Pure.pure x) a := Codes.last (g := id) h

theorem Codes.fail {p : Parser α} {a : α} : Codes (none : W) p a := by
  intro bs hbs; exact absurd hbs (by simp)

theorem fail_app (w : W) : ((none : W) ⊹ w) = none := by cases w <;> rfl

theorem some_nil_app (w : W) : ((some [] : W) ⊹ w) = w := nil_app w

theorem app_fail (w : W) : (w ⊹ (none : W)) = none := by cases w <;> rfl

theorem forall₂_of_get {R : α → β → Prop} : ∀ {xs : List α} {ys : List β}, xs.length = ys.length →
    (∀ (i : Nat) (x : α) (y : β), xs[i]? = some x → ys[i]? = some y → R x y) → List.Forall₂ R xs ys
  | [], [], _, _ => .nil
  | [], _ :: _, h, _ => by simp at h
  | _ :: _, [], h, _ => by simp at h
  | x :: xs, y :: ys, h, hr =>
    .cons (hr 0 x y rfl rfl)
      (forall₂_of_get (by simpa using h) fun i a b ha hb => hr (i + 1) a b (by simpa using ha)
        (by simpa using hb))

end

/-- One step of a writer and a parser both written in order. -/
macro "codes_step" : tactic => `(tactic| first
  | refine Codes.bind (codes_lit _ _) ?_
  | refine Codes.bind (codes_bit _) ?_
  | refine Codes.assert fun _ => ?_
  | refine Codes.reject rfl ?_
  | exact Codes.pure _
  | exact Codes.last (codes_bit _)
  | exact Codes.last (codes_lit _ _)
  | refine Codes.bind (codes_bit_f _) ?_)

macro "codes" : tactic => `(tactic| repeat codes_step)

end Rav1e.Hdr

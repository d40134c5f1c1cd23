import Verif.Ec.CodeThms

/-!
# Headers: bit writers and bit readers

Writers model the calls on `bitstream_io::BitWriter<_, BigEndian>` of `header.rs`; readers are the
descriptors of the AV1 specification (4.10).  A writer that would panic, because an `assert!`
fails or because the `io::Error` of a value that does not fit is unwrapped, is `none`.
-/

namespace Av1Spec

/-- A header parser: consumes bits from the front, or rejects. -/
def Parser (α : Type) : Type := List Bool → Option (α × List Bool)

namespace Parser

instance : Monad Parser where
  pure a := fun bs => some (a, bs)
  bind p k := fun bs => match p bs with
    | some (a, rest) => k a rest
    | none => none

/-- Syntax this parser does not support. -/
def unsupported {α : Type} : Parser α := fun _ => none

/-- Run a reader of `SpecReader`. -/
def ofRd {α : Type} (r : Rd α) : Parser α := fun bs => r.onBits bs

/-- `f(n)` (4.10.2). -/
def f (n : Nat) : Parser Nat := ofRd (rdLit n)

/-- `f(1)` used as a flag. -/
def flag : Parser Bool := fun bs => match bs with
  | [] => none
  | b :: rest => some (b, rest)

/-- `su(n)` (4.10.6): `f(n)` with the top bit as sign. -/
def su (n : Nat) : Parser Int := do
  let value ← f n
  let signMask := 2 ^ (n - 1)
  pure (if value / signMask % 2 = 1 then (value : Int) - 2 * signMask else value)

/-- `ns(n)` (4.10.7). -/
def ns (n : Nat) : Parser Nat := ofRd (rdNS n)

/-- Parse one item for each element of a list known to the decoder. -/
def each {α β : Type} (p : α → Parser β) : List α → Parser (List β)
  | [] => pure []
  | x :: xs => do
    let b ← p x
    let bs ← each p xs
    pure (b :: bs)

/-- The same item `n` times. -/
def times {α : Type} (n : Nat) (p : Parser α) : Parser (List α) := each (fun _ => p) (List.range n)

end Parser
end Av1Spec

namespace Rav1e.Hdr
open Av1Spec Rav1e.Ec

/-- The bits written by a piece of header code, `none` for a panic. -/
abbrev W : Type := Option (List Bool)

/-- One piece after the other. -/
def W.app : W → W → W
  | some a, some b => some (a ++ b)
  | _, _ => none

infixr:67 " ⊹ " => W.app

/-- Nothing written. -/
def W.nil : W := some []

/-- `write_bit(b)`. -/
def bit (b : Bool) : W := some [b]

/-- `write::<n, _>(v)` and `write_var(n, v)` of an unsigned value, with the error for values that do
not fit in `n` bits unwrapped by the caller (`encoder.rs:3783-3798`, `3693-3734`). -/
def lit (n v : Nat) : W := if v < 2 ^ n then some (toBits (literal n v)) else none

/-- `write_signed::<n, _>(v)` and `write_signed_var(n, v)`: two's complement in `n` bits. -/
def slit (n : Nat) (v : Int) : W :=
  if -(2 ^ (n - 1) : Int) ≤ v ∧ v < 2 ^ (n - 1) then
    some (toBits (literal n (if v < 0 then v + 2 ^ n else v).toNat)) else none

/-- `assert!(c)`. -/
def assertW (c : Prop) [Decidable c] : W := if c then some [] else none

/-- `write_quniform(n, v)` with its result ignored (`header.rs:705, 723`). -/
def quni (n v : Nat) : W := some (toBits (writeQuniform n v))

/-- A `for` loop. -/
def forW {α : Type} (xs : List α) (g : α → W) : W :=
  match xs with
  | [] => W.nil
  | x :: xs => g x ⊹ forW xs g

/-- The writer `w`, if it does not panic, writes a code that the parser `p` reads back as `a`,
whatever follows. -/
def Codes {α : Type} (w : W) (p : Parser α) (a : α) : Prop :=
  ∀ bs, w = some bs → ∀ tail, p (bs ++ tail) = some (a, tail)

section
variable {α β γ : Type}

theorem Codes.bind {w1 w2 : W} {p : Parser α} {k : α → Parser β} {a : α} {b : β}
    (h1 : Codes w1 p a) (h2 : Codes w2 (k a) b) : Codes (w1 ⊹ w2) (p >>= k) b := by
  intro bs hbs tail
  rcases w1 with _ | b1
  · exact absurd hbs (by simp [W.app])
  rcases w2 with _ | b2
  · exact absurd hbs (by simp [W.app])
  have : b1 ++ b2 = bs := by simpa [W.app] using hbs
  subst this
  show (match p (b1 ++ b2 ++ tail) with
    | some (a, rest) => k a rest
    | none => none) = _
  rw [List.append_assoc, h1 b1 rfl (b2 ++ tail)]
  exact h2 b2 rfl tail

theorem Codes.pure (a : α) : Codes W.nil (Pure.pure a : Parser α) a := by
  intro bs hbs tail
  have : [] = bs := by simpa [W.nil] using hbs
  subst this; rfl

theorem app_nil (w : W) : (w ⊹ W.nil) = w := by
  rcases w with _ | b <;> simp [W.app, W.nil]

theorem nil_app (w : W) : (W.nil ⊹ w) = w := by
  rcases w with _ | b <;> simp [W.app, W.nil]

/-- The last item, with the parser's result built from it. -/
theorem Codes.last {w : W} {p : Parser α} {a : α} {g : α → β} (h : Codes w p a) :
    Codes w (p >>= fun x => Pure.pure (g x)) (g a) := by
  have := Codes.bind (k := fun x => (Pure.pure (g x) : Parser β)) h (Codes.pure (g a))
  rwa [app_nil] at this

/-- A parser that reads nothing. -/
theorem Codes.pure_bind {w : W} {a : α} {k : α → Parser β} {b : β} (h : Codes w (k a) b) :
    Codes w ((Pure.pure a : Parser α) >>= k) b := h

theorem Codes.assert {c : Prop} [Decidable c] {w : W} {p : Parser α} {a : α}
    (h : c → Codes w p a) : Codes (assertW c ⊹ w) p a := by
  intro bs hbs tail
  unfold assertW at hbs
  split at hbs
  · rename_i hc
    refine h hc bs ?_ tail
    rcases w with _ | b
    · exact absurd hbs (by simp [W.app])
    · simpa [W.app] using hbs
  · exact absurd hbs (by simp [W.app])

theorem Codes.eq {w : W} {p : Parser α} {a b : α} (h : Codes w p a) (e : a = b) :
    Codes w p b := e ▸ h

theorem Codes.ite {c d : Prop} [Decidable c] [Decidable d] {w1 w2 : W} {p1 p2 : Parser α} {a : α}
    (h : c ↔ d) (h1 : c → Codes w1 p1 a) (h2 : ¬ c → Codes w2 p2 a) :
    Codes (if c then w1 else w2) (if d then p1 else p2) a := by
  by_cases hc : c
  · rw [if_pos hc, if_pos (h.1 hc)]; exact h1 hc
  · rw [if_neg hc, if_neg (fun hd => hc (h.2 hd))]; exact h2 hc

theorem codes_bit (b : Bool) : Codes (bit b) Parser.flag b := by
  intro bs hbs tail
  have : [b] = bs := by simpa [bit] using hbs
  subst this; rfl

theorem codes_lit (n v : Nat) : Codes (lit n v) (Parser.f n) v := by
  intro bs hbs tail
  unfold lit at hbs
  split at hbs
  · rename_i h
    have : toBits (literal n v) = bs := by simpa using hbs
    subst this
    exact header_literal n v h tail
  · exact absurd hbs (by simp)

theorem lit_lt {n v : Nat} {w : W} {bs : List Bool} (h : (lit n v ⊹ w) = some bs) : v < 2 ^ n := by
  unfold lit at h
  split at h
  · assumption
  · exact absurd h (by simp [W.app])

theorem codes_slit {n : Nat} (hn : 1 ≤ n) (v : Int) : Codes (slit n v) (Parser.su n) v := by
  intro bs hbs tail
  unfold slit at hbs
  split at hbs
  · rename_i h
    obtain ⟨h1, h2⟩ := h
    obtain ⟨m, rfl⟩ : ∃ m, n = m + 1 := ⟨n - 1, by omega⟩
    simp only [Nat.add_sub_cancel] at h1 h2
    have hp : (0 : Int) < 2 ^ m := by positivity
    have hpp : (2 : Int) ^ (m + 1) = 2 * 2 ^ m := by ring
    have hN : ((2 ^ m : Nat) : Int) = 2 ^ m := by push_cast; rfl
    have hN' : ((2 ^ (m + 1) : Nat) : Int) = 2 * 2 ^ m := by push_cast; ring
    generalize hu : (if v < 0 then v + 2 ^ (m + 1) else v).toNat = u at hbs
    have : toBits (literal (m + 1) u) = bs := by simpa using hbs
    subst this
    have hul : u < 2 ^ (m + 1) := by
      zify; rw [← hu, hpp]; split <;> omega
    have hc : Codes (lit (m + 1) u) (Parser.su (m + 1))
        (if u / 2 ^ m % 2 = 1 then (u : Int) - 2 * (2 ^ m : Nat) else u) := by
      have := Codes.last (g := fun value : Nat =>
        (if value / 2 ^ m % 2 = 1 then (value : Int) - 2 * (2 ^ m : Nat) else value))
        (codes_lit (m + 1) u)
      exact this
    have : (if u / 2 ^ m % 2 = 1 then (u : Int) - 2 * (2 ^ m : Nat) else u) = v := by
      have hPn : 0 < 2 ^ m := Nat.two_pow_pos m
      by_cases hv : v < 0
      · rw [if_pos hv, hpp] at hu
        have h3 : 2 ^ m ≤ u := by zify; rw [← hu]; omega
        have h4 : u / 2 ^ m = 1 := by
          have a1 : 1 ≤ u / 2 ^ m := (Nat.le_div_iff_mul_le hPn).2 (by omega)
          have a2 : u / 2 ^ m < 2 := (Nat.div_lt_iff_lt_mul hPn).2 (by rw [Nat.pow_succ] at hul; omega)
          omega
        rw [h4, if_pos (by norm_num), hN, ← hu]; omega
      · rw [if_neg hv] at hu
        have h3 : u < 2 ^ m := by zify; rw [← hu]; omega
        rw [Nat.div_eq_of_lt h3, if_neg (by norm_num), ← hu]; omega
    rw [this] at hc
    exact hc _ (by unfold lit; rw [if_pos hul]) tail
  · exact absurd hbs (by simp)

theorem codes_quni {n v : Nat} (h : v < n) : Codes (quni n v) (Parser.ns n) v := by
  intro bs hbs tail
  have : toBits (writeQuniform n v) = bs := by simpa [quni] using hbs
  subst this
  exact header_quniform n v h tail

/-- Two lists processed in step: the decoder iterates over `ys`. -/
theorem codes_each {xs : List α} {ys : List β} {g : α → W} {p : β → Parser γ} {r : α → γ}
    (h : List.Forall₂ (fun x y => Codes (g x) (p y) (r x)) xs ys) :
    Codes (forW xs g) (Parser.each p ys) (xs.map r) := by
  induction h with
  | nil => exact Codes.pure _
  | cons h1 _ ih =>
    refine Codes.bind h1 ?_
    exact Codes.last ih

theorem codes_times {xs : List α} {n : Nat} {g : α → W} {p : Parser γ} {r : α → γ}
    (hn : xs.length = n) (h : ∀ x ∈ xs, Codes (g x) p (r x)) :
    Codes (forW xs g) (Parser.times n p) (xs.map r) := by
  refine codes_each ?_
  have : ∀ (xs : List α) (ys : List Nat), xs.length = ys.length →
      (∀ x ∈ xs, Codes (g x) p (r x)) →
      List.Forall₂ (fun x (_ : Nat) => Codes (g x) p (r x)) xs ys := by
    intro xs
    induction xs with
    | nil => intro ys hl _; cases ys with
      | nil => exact .nil
      | cons => simp at hl
    | cons x xs ih => intro ys hl hx; cases ys with
      | nil => simp at hl
      | cons y ys =>
        exact .cons (hx x (by simp)) (ih ys (by simpa using hl) fun z hz => hx z (by simp [hz]))
  exact this xs _ (by simp [hn]) h

end

/-- A writer made of pieces succeeds iff all do. -/
theorem app_some {a b : W} {bs : List Bool} :
    (a ⊹ b) = some bs ↔ ∃ x y, a = some x ∧ b = some y ∧ x ++ y = bs := by
  rcases a with _ | x <;> rcases b with _ | y <;> simp [W.app]

end Rav1e.Hdr

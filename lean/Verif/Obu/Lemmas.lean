import Verif.Obu.Spec
import Verif.Obu.Model

/-!
# Bytes, sizes and OBUs
-/

namespace Rav1e.Obu

open Rav1e.Hdr Av1Spec

theorem bits_append (a b : List Nat) : bits (a ++ b) = bits a ++ bits b := by
  simp [bits]

theorem byteBits_toByte : ∀ b7 b6 b5 b4 b3 b2 b1 b0 : Bool,
    byteBits (128 * b7.toNat + 64 * b6.toNat + 32 * b5.toNat + 16 * b4.toNat + 8 * b3.toNat +
      4 * b2.toNat + 2 * b1.toNat + b0.toNat) = [b7, b6, b5, b4, b3, b2, b1, b0] := by
  decide +kernel

theorem bits_toBytes : ∀ (n : Nat) (bs : List Bool), bs.length = 8 * n → bits (toBytes bs) = bs
  | 0, bs, h => by
    have : bs = [] := List.length_eq_zero_iff.1 (by omega)
    subst this; rfl
  | n + 1, bs, h => by
    match bs, h with
    | b7 :: b6 :: b5 :: b4 :: b3 :: b2 :: b1 :: b0 :: rest, h =>
      have ih := bits_toBytes n rest (by simp only [List.length_cons] at h; omega)
      show bits (_ :: toBytes rest) = _
      have : ∀ (x : Nat) (l : List Nat), bits (x :: l) = byteBits x ++ bits l := fun _ _ => rfl
      rw [this, ih, byteBits_toByte]
      rfl

theorem length_toBytes : ∀ (n : Nat) (bs : List Bool), bs.length = 8 * n → (toBytes bs).length = n
  | 0, bs, h => by
    have : bs = [] := List.length_eq_zero_iff.1 (by omega)
    subst this; rfl
  | n + 1, bs, h => by
    match bs, h with
    | b7 :: b6 :: b5 :: b4 :: b3 :: b2 :: b1 :: b0 :: rest, h =>
      have ih := length_toBytes n rest (by simp only [List.length_cons] at h; omega)
      show (toBytes rest).length + 1 = _
      rw [ih]

theorem length_align (bs : List Bool) : (align bs).length = 8 * ((bs.length + 7) / 8) := by
  unfold align
  rw [List.length_append, List.length_replicate]
  omega

theorem bits_align (bs : List Bool) : bits (toBytes (align bs)) = align bs :=
  bits_toBytes _ _ (length_align bs)

theorem bytes_align (bs : List Bool) : (toBytes (align bs)).length = (bs.length + 7) / 8 :=
  length_toBytes _ _ (length_align bs)

/-! ## Sizes -/

theorem leb_loop : ∀ (n m i v : Nat) (rest : List Nat), v < 128 ^ n → n ≤ m → 1 ≤ n →
    leb128Loop m i (ulebLoop n v ++ rest) = some (v * 2 ^ (7 * i), rest)
  | 0, _, _, _, _, _, _, h => by omega
  | n + 1, 0, _, _, _, _, h, _ => by omega
  | n + 1, m + 1, i, v, rest, hv, hm, _ => by
    unfold ulebLoop
    dsimp only
    by_cases h0 : v / 128 = 0
    · rw [if_neg (by omega)]
      have : v < 128 := by omega
      simp only [List.singleton_append]
      unfold leb128Loop
      rw [if_neg (by omega), Nat.mod_eq_of_lt this]
    · rw [if_pos h0]
      have hn : 1 ≤ n := by
        by_contra hn
        have : n = 0 := by omega
        subst this
        omega
      have hlt : v / 128 < 128 ^ n := by
        rw [Nat.div_lt_iff_lt_mul (by decide)]
        rwa [Nat.pow_succ] at hv
      rw [List.cons_append]
      unfold leb128Loop
      rw [if_pos (by omega), leb_loop n m (i + 1) (v / 128) rest hlt (by omega) hn]
      dsimp only
      congr 2
      have : 2 ^ (7 * (i + 1)) = 2 ^ (7 * i) * 128 := by
        rw [show 7 * (i + 1) = 7 * i + 7 by omega, Nat.pow_add]
      rw [this]
      clear this
      have hmod : (v % 128 + 128) % 128 = v % 128 := by omega
      rw [hmod]
      have := Nat.div_add_mod v 128
      generalize 2 ^ (7 * i) = p at *
      calc v % 128 * p + v / 128 * (p * 128) = (128 * (v / 128) + v % 128) * p := by ring
        _ = v * p := by rw [this]

theorem uleb_length : ∀ (n v : Nat), 1 ≤ n → 1 ≤ (ulebLoop n v).length ∧ (ulebLoop n v).length ≤ n
  | 0, _, h => by omega
  | n + 1, v, _ => by
    unfold ulebLoop
    dsimp only
    split
    · rename_i h
      refine ⟨by simp, ?_⟩
      rw [List.length_cons]
      rcases Nat.eq_zero_or_pos n with rfl | hn
      · simp [ulebLoop]
      · have := (uleb_length n (v / 128) hn).2; omega
    · simp

/-- **C10.**  Every size below `2^32` is read back, with nothing of what follows, from at least one and
at most five bytes. -/
theorem uleb128_round_trip (v : Nat) (hv : v < 2 ^ 32) (rest : List Nat) :
    leb128 (uleb128 v ++ rest) = some (v, rest) ∧
      1 ≤ (uleb128 v).length ∧ (uleb128 v).length ≤ 5 := by
  refine ⟨?_, uleb_length 5 _ (by decide)⟩
  unfold leb128 uleb128
  rw [Nat.mod_eq_of_lt hv, leb_loop 5 8 0 v rest (by omega) (by decide) (by decide)]
  dsimp only
  rw [Nat.mul_zero, Nat.pow_zero, Nat.mul_one, if_pos hv]

/-- The code of a size is the shortest: one byte for every seven bits. -/
theorem uleb128_shortest (v : Nat) (hv : v < 2 ^ 32) : (uleb128 v).length = max 1 ((Nat.log2 v + 7) / 7) := by
  have aux : ∀ (n v : Nat), v < 128 ^ n → 1 ≤ n → (ulebLoop n v).length = max 1 ((Nat.log2 v + 7) / 7) := by
    intro n
    induction n with
    | zero => intro v _ h; omega
    | succ n ih =>
      intro v hv _
      unfold ulebLoop
      dsimp only
      by_cases h0 : v / 128 = 0
      · rw [if_neg (by omega)]
        have hl : Nat.log2 v < 7 := by
          rcases Nat.eq_zero_or_pos v with rfl | hp
          · simp [Nat.log2_zero]
          · rw [Nat.log2_lt (by omega)]; omega
        simp only [List.length_singleton]
        omega
      · rw [if_pos h0]
        have hn : 1 ≤ n := by
          by_contra hn
          have : n = 0 := by omega
          subst this
          omega
        have hlt : v / 128 < 128 ^ n := by
          rw [Nat.div_lt_iff_lt_mul (by decide)]
          rwa [Nat.pow_succ] at hv
        rw [List.length_cons, ih (v / 128) hlt hn]
        have hlog : Nat.log2 v = Nat.log2 (v / 128) + 7 := by
          have h1 := Nat.log2_self_le h0
          have h2 := Nat.lt_log2_self (n := v / 128)
          have h3 : 2 ^ (Nat.log2 (v / 128) + 7) = 2 ^ Nat.log2 (v / 128) * 128 := Nat.pow_add _ _ _
          have h4 : 2 ^ (Nat.log2 (v / 128) + 7 + 1) = 2 ^ (Nat.log2 (v / 128) + 1) * 128 := by
            rw [show Nat.log2 (v / 128) + 7 + 1 = Nat.log2 (v / 128) + 1 + 7 by omega]; exact Nat.pow_add _ _ _
          rw [Nat.log2_eq_iff (by omega)]
          omega
        omega
  unfold uleb128
  rw [Nat.mod_eq_of_lt hv]
  exact aux 5 v (by omega) (by decide)

/-! ## OBUs -/

theorem obuHeader_byte : ∀ t < 16, bytesOf (obuHeader t) = some [8 * t + 2] := by decide +kernel

theorem rawObu_obu (t : Nat) (ht : t < 16) (payload rest : List Nat) (hl : payload.length < 2 ^ 32) :
    rawObu ((8 * t + 2) :: (uleb128 payload.length ++ payload ++ rest)) =
      some (⟨t, payload⟩, rest) := by
  unfold rawObu
  dsimp only
  rw [if_neg (by omega), if_neg (by omega), List.append_assoc, (uleb128_round_trip _ hl _).1]
  dsimp only
  rw [if_pos (by simp), List.take_left, List.drop_left]
  have : (8 * t + 2) / 8 % 16 = t := by omega
  rw [this]

/-- The bytes are those of these OBUs, whatever follows. -/
structure Splits (bs : List Nat) (os : List RawObu) : Prop where
  len : os.length ≤ bs.length
  split : ∀ n rest, rawObus (n + os.length) (bs ++ rest) = (rawObus n rest).map (os ++ ·)

theorem Splits.nil : Splits [] [] := ⟨by simp, by intro n rest; simp⟩

theorem Splits.append {a b : List Nat} {x y : List RawObu} (h1 : Splits a x) (h2 : Splits b y) :
    Splits (a ++ b) (x ++ y) := by
  refine ⟨by have := h1.len; have := h2.len; simp; omega, ?_⟩
  intro n rest
  rw [List.append_assoc, List.length_append, show n + (x.length + y.length) = n + y.length + x.length by omega,
    h1.split, h2.split, Option.map_map]
  congr 1
  funext z
  simp

theorem Splits.one {t : Nat} (ht : t < 16) (payload : List Nat) (hl : payload.length < 2 ^ 32) :
    Splits ((8 * t + 2) :: (uleb128 payload.length ++ payload)) [⟨t, payload⟩] := by
  refine ⟨by simp, ?_⟩
  intro n rest
  show rawObus (n + 1) (_ :: _) = _
  rw [rawObus, List.append_eq, rawObu_obu t ht payload rest hl]
  dsimp only
  cases rawObus n rest <;> rfl
  intro h; cases h

theorem Splits.packet {bs : List Nat} {os : List RawObu} (h : Splits bs os) :
    rawObus bs.length bs = some os := by
  have := h.split (bs.length - os.length) []
  rw [List.append_nil, Nat.sub_add_cancel h.len] at this
  rw [this]
  cases hn : bs.length - os.length <;> simp [rawObus]

theorem cat_some {a : List Nat} {xs : List (Option (List Nat))} {bs : List Nat}
    (h : cat (some a :: xs) = some bs) : ∃ b, cat xs = some b ∧ bs = a ++ b := by
  simp only [cat, Option.map_eq_some_iff] at h
  obtain ⟨b, h1, rfl⟩ := h
  exact ⟨b, h1, rfl⟩

theorem obu_splits {t : Nat} (ht : t < 16) {payload bs : List Nat} (hb : obu t payload = some bs)
    (hl : bs.length < 2 ^ 32) : Splits bs [⟨t, payload⟩] := by
  unfold obu at hb
  rw [obuHeader_byte t ht] at hb
  simp only [cat, Option.map_some, List.append_nil, Option.some.injEq] at hb
  subst hb
  have : payload.length < 2 ^ 32 := by
    simp only [List.length_append] at hl; omega
  exact Splits.one ht payload this

theorem obu_isSome {t : Nat} (ht : t < 16) (payload : List Nat) : ∃ bs, obu t payload = some bs := by
  unfold obu
  rw [obuHeader_byte t ht]
  exact ⟨_, rfl⟩

end Rav1e.Obu

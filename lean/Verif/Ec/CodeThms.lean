import Verif.Ec.Codes
import Verif.Ec.SpecReader
import Verif.Ec.Theorems
/-
Properties C07, C08, C09: codes inside tile data and in headers.
-/
namespace Rav1e.Ec
open Av1Spec

/-! ### From separated elements to bytes -/

/-- Every element is in range of what it is coded with. -/
def ToksOk (cdfs : List (List Nat)) (ts : List (Src × Nat)) : Prop :=
  ∀ t ∈ ts, match t with
    | (.flat, b) => b < 2
    | (.cdf i, s) => i < cdfs.length ∧ s < (cdfs.getD i []).length

theorem flat_valid {b : Nat} (h : b < 2) : (⟨b, [16384, 0]⟩ : Sym).Valid :=
  ⟨(demo_valid ⟨0, [16384, 0]⟩ (by decide)).cdf, h⟩

theorem toksOk_set {cdfs : List (List Nat)} {ts : List (Src × Nat)} (h : ToksOk cdfs ts) {i : Nat}
    {c' : List Nat} (hc : c'.length = (cdfs.getD i []).length) : ToksOk (cdfs.set i c') ts := by
  intro t ht
  have := h t ht
  rcases t with ⟨src, s⟩
  cases src with
  | flat => exact this
  | cdf j =>
    obtain ⟨h1, h2⟩ := this
    refine ⟨by simpa using h1, ?_⟩
    rw [List.getD_eq_getElem?_getD, List.getElem?_set]
    split
    · rename_i hij; subst hij
      rw [if_pos h1]
      simpa [hc] using h2
    · rw [← List.getD_eq_getElem?_getD]; exact h2

theorem toSyms_valid {ts : List (Src × Nat)} : ∀ {cdfs : List (List Nat)},
    (∀ c ∈ cdfs, WfCdf c) → ToksOk cdfs ts → ∀ x ∈ toSyms cdfs ts, x.Valid := by
  induction ts with
  | nil => intro cdfs _ _ x hx; simp [toSyms] at hx
  | cons t ts ih =>
    intro cdfs hw hok x hx
    have h0 := hok t (by simp)
    have hts : ToksOk cdfs ts := fun t ht => hok t (by simp [ht])
    rcases t with ⟨src, s⟩
    cases src with
    | flat =>
      rcases List.mem_cons.1 hx with rfl | hx
      · exact flat_valid h0
      · exact ih hw hts x hx
    | cdf i =>
      have hwf := getD_wf hw h0.1
      rcases List.mem_cons.1 hx with rfl | hx
      · exact ⟨hwf.toValidCdf, h0.2⟩
      · exact ih (set_wf hw (updateCdf_wf hwf s))
          (toksOk_set hts (updateCdf_length (by have := hwf.two_le; omega) s)) x hx

theorem onDec_onToks {α : Type} {ts : List (Src × Nat)} : ∀ {p : Rd α} {a : α} {rest d}
    {cdfs : List (List Nat)}, (∀ c ∈ cdfs, WfCdf c) → ToksOk cdfs ts →
    p.onToks ts = some (a, rest) →
    (Dec.symbols d ((toSyms cdfs ts).map fun x => toSpec x.cdf)).1 = (toSyms cdfs ts).map (·.s) →
    (p.onDec (cdfs.map toSpec) d).1 = a := by
  induction ts with
  | nil =>
    intro p a rest d cdfs _ _ hp _
    cases p with
    | ret b => simp only [Rd.onToks, Option.some.injEq, Prod.mk.injEq] at hp; exact hp.1
    | read s k => simp [Rd.onToks] at hp
  | cons t ts ih =>
    intro p a rest d cdfs hw hok hp hdec
    cases p with
    | ret b => simp only [Rd.onToks, Option.some.injEq, Prod.mk.injEq] at hp; exact hp.1
    | read src k =>
      rcases t with ⟨src', s⟩
      have h0 := hok (src', s) (by simp)
      have hts : ToksOk cdfs ts := fun t ht => hok t (by simp [ht])
      simp only [Rd.onToks] at hp
      split at hp
      · rename_i he; subst he
        cases src with
        | flat =>
          simp only [toSyms, List.map_cons, Dec.symbols] at hdec
          injection hdec with e1 e2
          have et : toSpec [16384, 0] = [1 <<< 14, 1 <<< 15, 0] := by decide
          rw [et] at e1 e2
          simp only [Rd.onDec]
          rw [e1]
          exact ih hw hts hp e2
        | cdf i =>
          have hwf := getD_wf hw h0.1
          simp only [toSyms, List.map_cons, Dec.symbols] at hdec
          injection hdec with e1 e2
          have hg : (cdfs.map toSpec).getD i [] = toSpec (cdfs.getD i []) := by
            rw [List.getD_eq_getElem?_getD, List.getD_eq_getElem?_getD, List.getElem?_map,
              List.getElem?_eq_getElem h0.1]; rfl
          simp only [Rd.onDec]
          rw [hg, e1, ← updateCdf_spec hwf, ← List.map_set]
          exact ih (set_wf hw (updateCdf_wf hwf s))
            (toksOk_set hts (updateCdf_length (by have := hwf.two_le; omega) s)) hp e2
      · exact absurd hp (by simp)

/-- **C01 (syntax level).** Whatever a specification-style reader makes of the separated elements is
what it makes of the bytes rav1e produces for them, adaptive CDFs and flat bits mixed freely. -/
theorem syntax_roundtrip {α : Type} (p : Rd α) (cdfs : List (List Nat)) (hw : ∀ c ∈ cdfs, WfCdf c)
    (ts : List (Src × Nat)) (hok : ToksOk cdfs ts) (a : α) (rest) (hp : p.onToks ts = some (a, rest)) :
    (p.onDec (cdfs.map toSpec) (Dec.init (encodeTile (toSyms cdfs ts)))).1 = a :=
  onDec_onToks hw hok hp (encode_decode _ (toSyms_valid hw hok))

/-! ### Reading codes from separated elements -/

theorem onToks_bind {α β : Type} (p : Rd α) (f : α → Rd β) : ∀ ts,
    (p.bind f).onToks ts = (p.onToks ts).bind fun r => (f r.1).onToks r.2 := by
  induction p with
  | ret a => intro ts; rfl
  | read src k ih =>
    intro ts
    cases ts with
    | nil => rfl
    | cons t ts =>
      rcases t with ⟨s', x⟩
      simp only [Rd.bind, Rd.onToks]
      split
      · exact ih x ts
      · rfl

theorem onToks_bit (b : Nat) (ts) : rdBit.onToks ((.flat, b) :: ts) = some (b, ts) := by
  simp [rdBit, Rd.onToks]

theorem flatToks_append (a b : List Nat) : flatToks (a ++ b) = flatToks a ++ flatToks b := by
  simp [flatToks]

theorem literal_length (n v : Nat) : (literal n v).length = n := by
  induction n with
  | zero => rfl
  | succ n ih => simp [literal, ih]

theorem literal_lt (n v : Nat) : ∀ b ∈ literal n v, b < 2 := by
  induction n with
  | zero => simp [literal]
  | succ n ih =>
    intro b hb
    rcases List.mem_cons.1 hb with rfl | hb
    · omega
    · exact ih b hb

theorem onToks_lit (n : Nat) : ∀ (v x : Nat) (ts), 
    (rdLit n x).onToks (flatToks (literal n v) ++ ts) = some (x * 2 ^ n + v % 2 ^ n, ts) := by
  induction n with
  | zero => intro v x ts; simp [rdLit, literal, flatToks, Rd.onToks, Nat.mod_one]
  | succ n ih =>
    intro v x ts
    have e : flatToks (literal (n + 1) v) ++ ts =
        (.flat, (v >>> n) % 2) :: (flatToks (literal n v) ++ ts) := by simp [literal, flatToks]
    rw [e]
    simp only [rdLit]
    rw [onToks_bind, onToks_bit]
    simp only [Option.bind_some]
    rw [ih]
    congr 2
    rw [Nat.shiftRight_eq_div_pow]
    have h1 : v % 2 ^ (n + 1) = v % 2 ^ n + 2 ^ n * (v / 2 ^ n % 2) := by
      rw [Nat.pow_succ, Nat.mod_mul]
    rw [h1, Nat.pow_succ]
    ring

theorem onToks_lit0 {n v : Nat} (h : v < 2 ^ n) (ts) :
    (rdLit n).onToks (flatToks (literal n v) ++ ts) = some (v, ts) := by
  rw [onToks_lit, Nat.mod_eq_of_lt h]; simp

theorem onToks_golombLen (z : Nat) : ∀ (fuel len : Nat) (ts), z < fuel →
    (rdGolombLen fuel len).onToks (flatToks (List.replicate z 0 ++ [1]) ++ ts) =
      some (len + z + 1, ts) := by
  induction z with
  | zero =>
    intro fuel len ts h
    cases fuel with
    | zero => omega
    | succ f => simp [rdGolombLen, flatToks, onToks_bind, onToks_bit, Rd.onToks]
  | succ z ih =>
    intro fuel len ts h
    cases fuel with
    | zero => omega
    | succ f =>
      have e : flatToks (List.replicate (z + 1) 0 ++ [1]) ++ ts =
        (.flat, 0) :: (flatToks (List.replicate z 0 ++ [1]) ++ ts) := by
        simp [List.replicate_succ, flatToks]
      rw [e]
      simp only [rdGolombLen]
      rw [onToks_bind, onToks_bit]
      simp only [Option.bind_some]
      rw [if_neg (by decide), ih f (len + 1) ts (by omega)]
      congr 2; omega

theorem literal_top {n v : Nat} (h1 : 2 ^ n ≤ v) (h2 : v < 2 ^ (n + 1)) :
    literal (n + 1) v = 1 :: literal n v := by
  have : v >>> n = 1 := by
    rw [Nat.shiftRight_eq_div_pow]
    rw [Nat.pow_succ] at h2
    exact Nat.div_eq_of_lt_le (by omega) (by omega)
  simp [literal, this]

/-- **C07 (elements).** -/
theorem golomb_toks (level : Nat) (h : level + 1 < 2 ^ 20) (ts) :
    rdGolomb.onToks (flatToks (writeGolomb level) ++ ts) = some (level, ts) := by
  have hx : level + 1 ≠ 0 := by omega
  have h1 : 2 ^ (level + 1).log2 ≤ level + 1 := Nat.log2_self_le hx
  have h2 : level + 1 < 2 ^ ((level + 1).log2 + 1) := Nat.lt_log2_self
  have hl : (level + 1).log2 < 20 := (Nat.log2_lt hx).2 h
  simp only [writeGolomb, bitLen, if_neg hx, Nat.add_sub_cancel]
  rw [literal_top h1 h2]
  generalize (level + 1).log2 = n at *
  have e : flatToks (List.replicate n 0 ++ 1 :: literal n (level + 1)) ++ ts =
      flatToks (List.replicate n 0 ++ [1]) ++ (flatToks (literal n (level + 1)) ++ ts) := by
    simp [flatToks]
  rw [e]
  simp only [rdGolomb]
  rw [onToks_bind, onToks_golombLen n 20 0 _ hl]
  simp only [Option.bind_some]
  rw [onToks_bind, show 0 + n + 1 - 1 = n by omega, onToks_lit]
  simp only [Option.bind_some, Rd.onToks]
  congr 2
  have : (level + 1) % 2 ^ n = level + 1 - 2 ^ n := by
    rw [Nat.pow_succ] at h2
    rw [Nat.mod_eq_sub_mod h1, Nat.mod_eq_of_lt (by omega)]
  omega

theorem onToks_ns {n v : Nat} (hn : 1 ≤ n) (hv : v < n) (ts) :
    (rdNS n).onToks (flatToks (writeQuniform n v) ++ ts) = some (v, ts) := by
  have h0 : n ≠ 0 := by omega
  have h1 : 2 ^ n.log2 ≤ n := Nat.log2_self_le h0
  have h2 : n < 2 ^ (n.log2 + 1) := Nat.lt_log2_self
  simp only [rdNS, writeQuniform, bitLen, if_neg h0, Nat.add_sub_cancel, Nat.one_shiftLeft]
  by_cases hn1 : n > 1
  · rw [if_pos hn1]
    generalize n.log2 = w at *
    have hp : 2 ^ (w + 1) = 2 * 2 ^ w := by rw [Nat.pow_succ]; ring
    rw [hp] at h2 ⊢
    split
    · rename_i hvm
      rw [onToks_bind, onToks_lit0 (by omega)]
      simp only [Option.bind_some]
      rw [if_pos hvm]; rfl
    · rename_i hvm
      have hq : (v - (2 * 2 ^ w - n)) >>> 1 = (v - (2 * 2 ^ w - n)) / 2 := by
        simp [Nat.shiftRight_eq_div_pow]
      have hr : (v - (2 * 2 ^ w - n)) &&& 1 = (v - (2 * 2 ^ w - n)) % 2 := by
        simp [Nat.and_one_is_mod]
      rw [hq, hr, flatToks_append, List.append_assoc, onToks_bind, onToks_lit0 (by omega)]
      simp only [Option.bind_some]
      rw [if_neg (by omega), onToks_bind]
      have e1 : flatToks (literal 1 ((v - (2 * 2 ^ w - n)) % 2)) ++ ts =
          (.flat, (v - (2 * 2 ^ w - n)) % 2) :: ts := by simp [flatToks, literal]
      rw [e1, onToks_bit]
      simp only [Option.bind_some, Rd.onToks, Nat.shiftLeft_eq]
      congr 2; omega
  · have : n = 1 := by omega
    subst this
    have : v = 0 := by omega
    subst this
    have hl : Nat.log2 1 = 0 := by decide
    simp [hl, rdLit, Rd.bind, Rd.onToks, flatToks]

theorem onToks_subexp {n k v : Nat} (hv : v < n) : ∀ (m i mk : Nat) (ts), n - mk ≤ m → mk ≤ v →
    (rdSubexp n k i mk).onToks (flatToks (subexpLoop n k v i mk) ++ ts) = some (v, ts) := by
  intro m
  induction m with
  | zero => intro i mk ts hm hmk; omega
  | succ m ih =>
    intro i mk ts hm hmk
    rw [rdSubexp, subexpLoop]
    simp only [Nat.one_shiftLeft]
    rw [show subexpB2 k i = subexpB k i by unfold subexpB subexpB2; split <;> simp_all]
    generalize subexpB k i = b
    have hpos := Nat.two_pow_pos b
    by_cases h1 : n ≤ mk + 3 * 2 ^ b
    · rw [if_pos h1, if_pos h1, onToks_bind, onToks_ns (by omega) (by omega)]
      simp only [Option.bind_some, Rd.onToks]
      congr 2; omega
    · rw [if_neg h1, if_neg h1]
      by_cases h2 : v ≥ mk + 2 ^ b
      · rw [if_pos h2]
        have e : flatToks (1 :: subexpLoop n k v (i + 1) (mk + 2 ^ b)) ++ ts =
          (.flat, 1) :: (flatToks (subexpLoop n k v (i + 1) (mk + 2 ^ b)) ++ ts) := by simp [flatToks]
        rw [e, onToks_bind, onToks_bit]
        simp only [Option.bind_some]
        rw [if_pos (by decide)]
        exact ih (i + 1) (mk + 2 ^ b) ts (by omega) h2
      · rw [if_neg h2]
        have e : flatToks (0 :: literal b (v - mk)) ++ ts =
          (.flat, 0) :: (flatToks (literal b (v - mk)) ++ ts) := by simp [flatToks]
        rw [e, onToks_bind, onToks_bit]
        simp only [Option.bind_some]
        rw [if_neg (by decide), onToks_bind, onToks_lit0 (by omega)]
        simp only [Option.bind_some, Rd.onToks]
        congr 2; omega

theorem inverse_recenter_recenter {r v : Nat} : inverseRecenter r (recenter r v) = v := by
  unfold inverseRecenter recenter
  simp only [Nat.shiftLeft_eq, Nat.shiftRight_eq_div_pow, Nat.pow_one]
  split
  · rw [if_pos (by omega)]
  · split
    · rw [if_neg (by omega), if_neg (by omega)]; omega
    · rw [if_neg (by omega), if_pos (by omega)]; omega

theorem recenterFinite_lt {n r v : Nat} (hr : r < n) (hv : v < n) : recenterFinite n r v < n := by
  unfold recenterFinite recenter
  simp only [Nat.shiftLeft_eq, Nat.pow_one]
  split <;> split <;> (try split) <;> omega

/-- **C08 (elements), unsigned.** -/
theorem unsigned_subexp_toks {v n k r : Nat} (hr : r < n) (hv : v < n) (ts) :
    (rdUnsignedSubexpWithRef n k r).onToks (flatToks (writeUnsignedSubexpWithRef v n k r) ++ ts) =
      some (v, ts) := by
  simp only [rdUnsignedSubexpWithRef, writeUnsignedSubexpWithRef, writeSubexp]
  rw [onToks_bind, onToks_subexp (recenterFinite_lt hr hv) n 0 0 ts (by omega) (by omega)]
  simp only [Option.bind_some, Rd.onToks, recenterFinite]
  split
  · rw [inverse_recenter_recenter]
  · rw [inverse_recenter_recenter]
    congr 2; omega

/-- **C08 (elements), signed.** -/
theorem signed_subexp_toks {v low high r : Int} {k : Nat} (hr : low ≤ r) (hr' : r < high)
    (hv : low ≤ v) (hv' : v < high) (ts) :
    (rdSignedSubexpWithRef low high k r).onToks
      (flatToks (writeSignedSubexpWithRef v low high k r) ++ ts) = some (v, ts) := by
  simp only [rdSignedSubexpWithRef, writeSignedSubexpWithRef]
  rw [onToks_bind, unsigned_subexp_toks (by omega) (by omega)]
  simp only [Option.bind_some, Rd.onToks]
  congr 2; omega

/-! ### Bits are bits -/

theorem quniform_bits (n v : Nat) : ∀ b ∈ writeQuniform n v, b < 2 := by
  unfold writeQuniform
  split
  · simp only
    split
    · exact literal_lt _ _
    · intro b hb
      rcases List.mem_append.1 hb with h | h
      · exact literal_lt _ _ b h
      · exact literal_lt _ _ b h
  · simp

theorem subexp_bits (n k v : Nat) : ∀ (m i mk : Nat), n - mk ≤ m →
    ∀ b ∈ subexpLoop n k v i mk, b < 2 := by
  intro m
  induction m with
  | zero =>
    intro i mk hm
    rw [subexpLoop, if_pos (by omega)]
    exact quniform_bits _ _
  | succ m ih =>
    intro i mk hm
    rw [subexpLoop]
    simp only [Nat.one_shiftLeft]
    generalize subexpB k i = b
    have hpos := Nat.two_pow_pos b
    split
    · exact quniform_bits _ _
    · split
      · intro x hx
        rcases List.mem_cons.1 hx with rfl | hx
        · decide
        · exact ih _ _ (by omega) x hx
      · intro x hx
        rcases List.mem_cons.1 hx with rfl | hx
        · decide
        · exact literal_lt _ _ x hx

theorem golomb_bits (level : Nat) : ∀ b ∈ writeGolomb level, b < 2 := by
  intro b hb
  rcases List.mem_append.1 hb with h | h
  · rw [List.eq_of_mem_replicate h]; decide
  · exact literal_lt _ _ b h

theorem flat_ok {cdfs : List (List Nat)} {bs : List Nat} (h : ∀ b ∈ bs, b < 2) :
    ToksOk cdfs (flatToks bs) := by
  intro t ht
  simp only [flatToks, List.mem_map] at ht
  obtain ⟨b, hb, rfl⟩ := ht
  exact h b hb

/-! ### C07, C08: through the range coder -/

/-- The symbols of a run of flat bits. -/
def bitSyms (bs : List Nat) : List Sym := bs.map fun b => ⟨b, [16384, 0]⟩

theorem toSyms_flat (cdfs : List (List Nat)) (bs : List Nat) :
    toSyms cdfs (flatToks bs) = bitSyms bs := by
  induction bs with
  | nil => rfl
  | cons b bs ih => simp only [flatToks, List.map_cons, toSyms, bitSyms] at *; rw [ih]

/-- Any flat code read back through the range coder. -/
theorem flat_code {α : Type} {p : Rd α} {bs : List Nat} {a : α} (hb : ∀ b ∈ bs, b < 2)
    (hp : p.onToks (flatToks bs) = some (a, [])) :
    (p.onDec [] (Dec.init (encodeTile (bitSyms bs)))).1 = a := by
  have := syntax_roundtrip p [] (by simp) (flatToks bs) (flat_ok hb) a [] hp
  rwa [toSyms_flat] at this

/-- **C07.** Every level whose code respects the format's 20-bit prefix limit is read back exactly
from the bytes. -/
theorem golomb_roundtrip (level : Nat) (h : level + 1 < 2 ^ 20) :
    (rdGolomb.onDec [] (Dec.init (encodeTile (bitSyms (writeGolomb level))))).1 = level :=
  flat_code (golomb_bits level) (by simpa using golomb_toks level h [])

example : writeGolomb 4 = [0, 0, 1, 0, 1] ∧ (4 : Nat) + 1 < 2 ^ 20 := by decide

/-- The limit is sharp: one more bit of prefix is not decodable within the format. -/
theorem golomb_limit : rdGolomb.onToks (flatToks (writeGolomb (2 ^ 20 - 1))) ≠
    some (2 ^ 20 - 1, []) := by decide +kernel

/-- **C07 (codes are self-delimiting).** In any surrounding stream the code is consumed exactly. -/
theorem golomb_self_delimiting (level : Nat) (h : level + 1 < 2 ^ 20) (ts) :
    rdGolomb.onToks (flatToks (writeGolomb level) ++ ts) = some (level, ts) := golomb_toks level h ts

/-- **C08.** Quasi-uniform codes. -/
theorem quniform_roundtrip (n v : Nat) (hv : v < n) :
    ((rdNS n).onDec [] (Dec.init (encodeTile (bitSyms (writeQuniform n v))))).1 = v :=
  flat_code (quniform_bits n v) (by simpa using onToks_ns (by omega) hv [])

example : writeQuniform 5 3 = [1, 1, 0] ∧ writeQuniform 5 2 = [1, 0] ∧ writeQuniform 1 0 = [] := by
  decide

/-- **C08.** Finite subexponential codes. -/
theorem subexp_roundtrip (n k v : Nat) (hv : v < n) :
    ((rdSubexp n k 0 0).onDec [] (Dec.init (encodeTile (bitSyms (writeSubexp n k v))))).1 = v :=
  flat_code (subexp_bits n k v n 0 0 (by omega))
    (by simpa [writeSubexp] using onToks_subexp hv n 0 0 [] (by omega) (by omega))

/-- **C08.** Signed subexponential codes relative to a reference, both in `[low, high)`. -/
theorem signed_subexp_roundtrip (v low high r : Int) (k : Nat) (hr : low ≤ r) (hr' : r < high)
    (hv : low ≤ v) (hv' : v < high) :
    ((rdSignedSubexpWithRef low high k r).onDec []
      (Dec.init (encodeTile (bitSyms (writeSignedSubexpWithRef v low high k r))))).1 = v :=
  flat_code (subexp_bits _ _ _ _ 0 0 (Nat.le_refl _))
    (by simpa using signed_subexp_toks hr hr' hv hv' [])

-- sgrproj weights: low = -96, high = 32, k = 4
example : (-96 : Int) ≤ -32 ∧ (-32 : Int) < 32 ∧ (-96 : Int) ≤ 31 ∧ (31 : Int) < 32 := by decide

/-- **C08 (cost queries).** The `count_*` functions return exactly 8 times the number of bits the
corresponding `write_*` functions emit. -/
theorem count_quniform_exact (n v : Nat) : countQuniform n v = 8 * (writeQuniform n v).length := by
  unfold countQuniform writeQuniform
  split
  · simp only
    by_cases h : v < 2 ^ bitLen n - n
    · rw [if_neg (by omega), if_pos h, literal_length]
      simp [Nat.shiftLeft_eq]; omega
    · rw [if_pos (by omega), if_neg h, List.length_append, literal_length, literal_length]
      simp [Nat.shiftLeft_eq]; omega
  · rfl

theorem count_subexp_exact (n k v : Nat) : countSubexp n k v = 8 * (writeSubexp n k v).length := by
  have key : ∀ (m i mk : Nat), n - mk ≤ m →
      countSubexpLoop n k v i mk = 8 * (subexpLoop n k v i mk).length := by
    intro m
    induction m with
    | zero =>
      intro i mk hm
      rw [subexpLoop, countSubexpLoop, if_pos (by omega), if_pos (by omega)]
      exact count_quniform_exact _ _
    | succ m ih =>
      intro i mk hm
      rw [subexpLoop, countSubexpLoop]
      simp only [Nat.one_shiftLeft]
      generalize subexpB k i = b
      have hpos := Nat.two_pow_pos b
      split
      · exact count_quniform_exact _ _
      · split
        · rw [ih _ _ (by omega), List.length_cons]; omega
        · rw [List.length_cons, literal_length, Nat.shiftLeft_eq]; omega
  exact key n 0 0 (by omega)

theorem count_signed_subexp_exact (v low high : Int) (k : Nat) (r : Int) :
    countSignedSubexpWithRef v low high k r =
      8 * (writeSignedSubexpWithRef v low high k r).length :=
  count_subexp_exact _ _ _

/-! ### C09: the same codes in headers -/

theorem onBits_of_onToks {α : Type} {bs : List Nat} : ∀ {p : Rd α} {a : α} {rest : List Nat}
    {tail : List Bool}, (∀ b ∈ bs, b < 2) → p.onToks (flatToks bs) = some (a, flatToks rest) →
    p.onBits (bs.map (fun b => decide (b = 1)) ++ tail) =
      some (a, rest.map (fun b => decide (b = 1)) ++ tail) := by
  induction bs with
  | nil =>
    intro p a rest tail _ hp
    cases p with
    | ret b =>
      simp only [Rd.onToks, flatToks, List.map_nil, Option.some.injEq, Prod.mk.injEq] at hp
      obtain ⟨rfl, h2⟩ := hp
      have : rest = [] := by
        have := congrArg List.length h2; simp at this
        exact List.length_eq_zero_iff.1 this.symm
      subst this; rfl
    | read s k => simp [Rd.onToks, flatToks] at hp
  | cons b bs ih =>
    intro p a rest tail hb hp
    cases p with
    | ret x =>
      simp only [Rd.onToks, Option.some.injEq, Prod.mk.injEq] at hp
      obtain ⟨rfl, h2⟩ := hp
      have : rest = b :: bs := by
        have inj : Function.Injective (fun b : Nat => ((Src.flat, b) : Src × Nat)) := by
          intro x y h; injection h
        exact List.map_inj_right (fun x y h => inj h) |>.1 h2.symm
      subst this; rfl
    | read s k =>
      have hp' : (if s = Src.flat then (k b).onToks (flatToks bs) else none) =
        some (a, flatToks rest) := hp
      split at hp'
      · rename_i he; subst he
        have h01 : b < 2 := hb b (by simp)
        have : (decide (b = 1)).toNat = b := by
          rcases Nat.lt_or_ge b 1 with h | h
          · have : b = 0 := by omega
            subst this; rfl
          · have : b = 1 := by omega
            subst this; rfl
        simp only [List.map_cons, List.cons_append, Rd.onBits, this]
        exact ih (fun x hx => hb x (by simp [hx])) hp'
      · exact absurd hp' (by simp)

/-- Bits as written to a header by `BitWriter`. -/
def toBits (bs : List Nat) : List Bool := bs.map fun b => decide (b = 1)

theorem header_code {α : Type} {p : Rd α} {bs : List Nat} {a : α} (hb : ∀ b ∈ bs, b < 2)
    (hp : p.onToks (flatToks bs) = some (a, [])) (tail : List Bool) :
    p.onBits (toBits bs ++ tail) = some (a, tail) := by
  have := onBits_of_onToks (rest := []) (tail := tail) hb (by simpa [flatToks] using hp)
  simpa [toBits] using this

/-- **C09.** Fixed-width header fields. -/
theorem header_literal (n v : Nat) (h : v < 2 ^ n) (tail : List Bool) :
    (rdLit n).onBits (toBits (literal n v) ++ tail) = some (v, tail) :=
  header_code (literal_lt n v) (by simpa using onToks_lit0 h []) tail

/-- **C09.** `ns(n)` fields. -/
theorem header_quniform (n v : Nat) (hv : v < n) (tail : List Bool) :
    (rdNS n).onBits (toBits (writeQuniform n v) ++ tail) = some (v, tail) :=
  header_code (quniform_bits n v) (by simpa using onToks_ns (by omega) hv []) tail

/-- **C09.** Signed references in `(-n, n)`, as used for global motion parameters. -/
theorem header_s_refsubexpfin (n k : Nat) (r v : Int) (hr : -(n : Int) < r) (hr' : r < n)
    (hv : -(n : Int) < v) (hv' : v < n) (tail : List Bool) :
    (rdSignedSubexpWithRef (-(n : Int) + 1) n k r).onBits (toBits (writeSRefSubexpFin n k r v) ++ tail) =
      some (v, tail) := by
  have e : writeSRefSubexpFin n k r v =
      writeSignedSubexpWithRef v (-(n : Int) + 1) n k r := by
    simp only [writeSRefSubexpFin, writeSignedSubexpWithRef, Nat.shiftLeft_eq]
    congr 1 <;> omega
  rw [e]
  have hb : ∀ b ∈ writeSignedSubexpWithRef v (-(n : Int) + 1) n k r, b < 2 :=
    subexp_bits _ _ _ _ 0 0 (Nat.le_refl _)
  exact header_code hb
    (by simpa using signed_subexp_toks (by omega) hr' (by omega) hv' []) tail

example : (rdNS 5).onBits (toBits (writeQuniform 5 3) ++ [true]) = some (3, [true]) := by decide

end Rav1e.Ec

import Verif.Quant.Divu
import Mathlib.Data.List.Basic
import Mathlib.Tactic.NormNum
/-
C33: the look-up of a quantizer index picks the nearest entry of the table in the log domain.
C32: the indices chosen for a frame can be coded.
-/
namespace Rav1e.Quant

/-- `a` is at most as far from `q` as `b` on a logarithmic scale, for positive numbers:
`max(a,q)/min(a,q) ≤ max(b,q)/min(b,q)`. -/
def Nearer (q a b : Nat) : Prop := max a q * min b q ≤ max b q * min a q

/-- `i` is the index of an entry of the table that is nearest to `q` on a logarithmic scale. -/
def IsNearest (t : List Nat) (q i : Nat) : Prop :=
  ∃ a, t[i]? = some a ∧ ∀ b ∈ t, Nearer q a b

theorem wrapI_eq {w : Nat} {n : Int} (hw : 1 ≤ w) (h1 : -(2 : Int) ^ (w - 1) ≤ n) (h2 : n < 2 ^ (w - 1)) :
    wrapI w n = n := by
  have : (2 : Int) ^ w = 2 * 2 ^ (w - 1) := by
    rw [← pow_succ']; congr 1; omega
  unfold wrapI
  rw [Int.emod_eq_of_lt (by omega) (by omega)]
  omega

theorem chkI_eq {w : Nat} {n : Int} (h1 : -(2 : Int) ^ (w - 1) ≤ n) (h2 : n < 2 ^ (w - 1)) :
    chkI w n = some n := by
  simp [chkI, h1, h2]

theorem wrap32 {n : Int} (h1 : -2147483648 ≤ n) (h2 : n < 2147483648) : wrapI 32 n = n :=
  wrapI_eq (by omega) (by norm_num; exact h1) (by norm_num; exact h2)

theorem chk32 {n : Int} (h1 : -2147483648 ≤ n) (h2 : n < 2147483648) : chkI 32 n = some n :=
  chkI_eq (by norm_num; exact h1) (by norm_num; exact h2)

theorem chk32Mul {a b : Nat} (h : a * b < 2147483648) :
    chkI 32 ((a : Int) * b) = some ((a * b : Nat) : Int) := by
  have h' : ((a * b : Nat) : Int) = (a : Int) * b := by push_cast; rfl
  rw [← h']
  generalize a * b = n at *
  exact chk32 (by omega) (by omega)

theorem mul_lt31 {a b : Nat} (ha : a < 32768) (hb : b < 32768) : a * b < 2147483648 := by
  nlinarith

theorem mod16 {n : Nat} (h : n < 65536) : n % 2 ^ 16 = n := Nat.mod_eq_of_lt (by norm_num; exact h)

/-- The properties of the quantizer tables that the look-up relies on. -/
structure TableOk (t : List Nat) : Prop where
  len : t.length = 256
  sorted : ∀ i j : Nat, ∀ a b, i ≤ j → t[i]? = some a → t[j]? = some b → a ≤ b
  pos : ∀ a ∈ t, 1 ≤ a
  small : ∀ a ∈ t, a < 32768

/-- A decidable form of the same. -/
def tableCheck (t : List Nat) : Bool :=
  t.length == 256 && (t.zip (t.drop 1)).all (fun p => p.1 ≤ p.2) && t.all (fun a => 1 ≤ a && a < 32768)

theorem tableOk_of_check {t : List Nat} (h : tableCheck t = true) : TableOk t := by
  simp only [tableCheck, Bool.and_eq_true, beq_iff_eq, List.all_eq_true, decide_eq_true_eq] at h
  obtain ⟨⟨hl, hs⟩, hb⟩ := h
  refine ⟨hl, ?_, fun a ha => (hb a ha).1, fun a ha => (hb a ha).2⟩
  have step : ∀ i a b, t[i]? = some a → t[i + 1]? = some b → a ≤ b := by
    intro i a b ha hb
    apply hs (a, b)
    rw [List.mem_iff_getElem?]
    exact ⟨i, by rw [List.getElem?_zip_eq_some]; exact ⟨ha, by simpa [Nat.add_comm] using hb⟩⟩
  intro i j a b hij ha hb
  induction j, hij using Nat.le_induction generalizing b with
  | base => rw [ha] at hb; injection hb with hb; omega
  | succ j hj ih =>
    have hlt : j + 1 < t.length := (List.getElem?_eq_some_iff.1 hb).1
    obtain ⟨c, hc⟩ : ∃ c, t[j]? = some c := ⟨t[j], List.getElem?_eq_getElem (by omega)⟩
    exact le_trans (ih c hc) (step j c b hc hb)

theorem dcTable_ok {bd : Nat} (h : bd = 8 ∨ bd = 10 ∨ bd = 12) :
    ∃ t, dcTable bd = some t ∧ TableOk t := by
  rcases h with rfl | rfl | rfl <;> exact ⟨_, rfl, tableOk_of_check (by decide +kernel)⟩

theorem acTable_ok {bd : Nat} (h : bd = 8 ∨ bd = 10 ∨ bd = 12) :
    ∃ t, acTable bd = some t ∧ TableOk t := by
  rcases h with rfl | rfl | rfl <;> exact ⟨_, rfl, tableOk_of_check (by decide +kernel)⟩

/-- Below the table. -/
theorem nearer_above {q a b : Nat} (h1 : q ≤ a) (h2 : a ≤ b) : Nearer q a b := by
  unfold Nearer
  rw [max_eq_left h1, max_eq_left (h1.trans h2), min_eq_right h1, min_eq_right (h1.trans h2)]
  exact Nat.mul_le_mul_right _ h2

theorem nearer_below {q a b : Nat} (h1 : a ≤ q) (h2 : b ≤ a) : Nearer q a b := by
  unfold Nearer
  rw [max_eq_right h1, max_eq_right (h2.trans h1), min_eq_left h1, min_eq_left (h2.trans h1)]
  exact Nat.mul_le_mul_left _ h2

theorem Nearer.trans {q a b c : Nat} (hq : 1 ≤ q) (hb : 1 ≤ b) (h1 : Nearer q a b) (h2 : Nearer q b c) :
    Nearer q a c := by
  unfold Nearer at *
  have p1 : 0 < min b q := by omega
  have p2 : 0 < max b q := by omega
  apply Nat.le_of_mul_le_mul_left (c := min b q * max b q) _ (Nat.mul_pos p1 p2)
  calc min b q * max b q * (max a q * min c q)
      = (max a q * min b q) * (max b q * min c q) := by ring
    _ ≤ (max b q * min a q) * (max c q * min b q) := Nat.mul_le_mul h1 h2
    _ = min b q * max b q * (max c q * min a q) := by ring

theorem selectGap_eq {t : List Nat} {q qi a b : Nat} (ha : t[qi - 1]? = some a) (hb : t[qi]? = some b)
    (h0 : 0 < qi) (h255 : qi ≤ 255) (hb' : b < 32768) (haq : a < q) (hqb : q < b) :
    selectGap q t qi = some (if q * q < a * b then qi - 1 else qi) := by
  have wa : wrapI 32 (a : Int) = a := wrap32 (by omega) (by omega)
  have wb : wrapI 32 (b : Int) = b := wrap32 (by omega) (by omega)
  have wq : wrapI 32 (q : Int) = q := wrap32 (by omega) (by omega)
  have pab : a * b < 2147483648 := mul_lt31 (by omega) hb'
  have pqq : q * q < 2147483648 := mul_lt31 (by omega) (by omega)
  have cab : chkI 32 ((a : Int) * b) = some ((a * b : Nat) : Int) := chk32Mul pab
  have cqq : chkI 32 ((q : Int) * q) = some ((q * q : Nat) : Int) := chk32Mul pqq
  unfold selectGap
  rw [if_pos ⟨h0, h255⟩, ha, Option.bind_some, hb, Option.bind_some, wa, wb, cab, Option.bind_some, wq, cqq,
    Option.bind_some]
  have e1 : (qi - 1) % 256 = qi - 1 := Nat.mod_eq_of_lt (by omega)
  have e2 : qi % 256 = qi := Nat.mod_eq_of_lt (by omega)
  rw [e1, e2]
  simp only [Int.ofNat_lt]
  split_ifs <;> rfl

/-- C33, for one table: whatever match the binary search reports, the look-up does not panic and returns an
index of an entry nearest to the quantizer asked for; a quantizer below one gives the first entry. -/
theorem selectQi_nearest (bs : Search) (t : List Nat) (ht : TableOk t) (hbs : ∀ x, (bs t x).Ok t x)
    (quantizer : Int) :
    ∃ i, selectQi bs quantizer t = some i ∧ i < 256 ∧
      (1 ≤ quantizer → IsNearest t quantizer.toNat i) ∧ (quantizer < 1 → i = 0) := by
  obtain ⟨hl, hs, hpos, hsm⟩ := ht
  obtain ⟨lo, hlo⟩ : ∃ v, t[0]? = some v := ⟨t[0], List.getElem?_eq_getElem (by omega)⟩
  obtain ⟨hi, hhi⟩ : ∃ v, t[255]? = some v := ⟨t[255], List.getElem?_eq_getElem (by omega)⟩
  have mem : ∀ {i v}, t[i]? = some v → v ∈ t := fun h => List.mem_of_getElem? h
  have idx : ∀ {b}, b ∈ t → ∃ j, j ≤ 255 ∧ t[j]? = some b := by
    intro b hb
    obtain ⟨j, hj⟩ := List.mem_iff_getElem?.1 hb
    have := (List.getElem?_eq_some_iff.1 hj).1
    exact ⟨j, by omega, hj⟩
  have hlo1 := hpos lo (mem hlo)
  have hhis := hsm hi (mem hhi)
  unfold selectQi
  simp only [hlo, hhi, Option.bind_eq_bind, Option.bind_some]
  split_ifs with c1 c2 c3
  · refine ⟨0, rfl, by omega, fun h => ⟨lo, hlo, fun b hb => ?_⟩, fun _ => rfl⟩
    obtain ⟨j, _, hj⟩ := idx hb
    exact nearer_above (by omega) (hs 0 j _ _ (by omega) hlo hj)
  · refine ⟨255, rfl, by omega, fun h => ⟨hi, hhi, fun b hb => ?_⟩, fun h => by omega⟩
    obtain ⟨j, hj255, hj⟩ := idx hb
    exact nearer_below (by omega) (hs j 255 _ _ hj255 hj hhi)
  · exfalso
    rw [mod16 (by omega)] at c3
    omega
  · have hmod : quantizer.toNat % 2 ^ 16 = quantizer.toNat := mod16 (by omega)
    rw [hmod]
    obtain ⟨q, rfl⟩ : ∃ q : Nat, quantizer = q := ⟨quantizer.toNat, by omega⟩
    rw [Int.toNat_natCast]
    clear hmod c3
    have hq1 : 1 ≤ q := by omega
    have hbq := hbs q
    cases hf : bs t q with
    | hit qi =>
      rw [hf] at hbq
      have hqi : t[qi]? = some q := hbq
      have : qi < 256 := by
        have := (List.getElem?_eq_some_iff.1 hqi).1
        omega
      refine ⟨qi, by simp [Nat.mod_eq_of_lt this], this, fun _ => ⟨q, hqi, fun b _ => ?_⟩, fun h => by omega⟩
      rcases le_total q b with h | h
      · exact nearer_above (le_refl _) h
      · exact nearer_below (le_refl _) h
    | gap qi =>
      rw [hf] at hbq
      obtain ⟨g1, g2, g3⟩ : qi ≤ t.length ∧ (∀ j v, j < qi → t[j]? = some v → v < q) ∧
        (∀ j v, qi ≤ j → t[j]? = some v → q < v) := hbq
      have hq0 : 0 < qi := by
        by_contra h
        have := g3 0 lo (by omega) hlo
        omega
      have hq255 : qi ≤ 255 := by
        by_contra h
        have := g2 255 hi (by omega) hhi
        omega
      obtain ⟨a, ha⟩ : ∃ v, t[qi - 1]? = some v := ⟨t[qi - 1], List.getElem?_eq_getElem (by omega)⟩
      obtain ⟨b, hb⟩ : ∃ v, t[qi]? = some v := ⟨t[qi], List.getElem?_eq_getElem (by omega)⟩
      have haq := g2 (qi - 1) a (by omega) ha
      have hbq := g3 qi b (by omega) hb
      have ha1 := hpos a (mem ha)
      have hbs' := hsm b (mem hb)
      simp only [selectGap_eq ha hb hq0 hq255 hbs' (by omega) (by omega)]
      have key1 : Nearer q a b ↔ q * q ≤ a * b := by
        unfold Nearer
        rw [max_eq_right (by omega), max_eq_left (by omega), min_eq_right (by omega), min_eq_left (by omega),
          Nat.mul_comm b a]
      have key2 : Nearer q b a ↔ a * b ≤ q * q := by
        unfold Nearer
        rw [max_eq_right (a := a) (by omega), max_eq_left (a := b) (by omega), min_eq_right (a := b) (by omega),
          min_eq_left (a := a) (by omega), Nat.mul_comm b a]
      -- every entry is beyond one of the two neighbours
      have split : ∀ c ∈ t, Nearer q a c ∨ Nearer q b c := by
        intro c hc
        obtain ⟨j, hj255, hj⟩ := idx hc
        by_cases hjq : j < qi
        · exact Or.inl (nearer_below (by omega) (hs j (qi - 1) _ _ (by omega) hj ha))
        · exact Or.inr (nearer_above (by omega) (hs qi j _ _ (by omega) hb hj))
      split_ifs with hlt
      · refine ⟨qi - 1, rfl, by omega,
          fun _ => ⟨a, ha, fun c hc => ?_⟩, fun h => by omega⟩
        rcases split c hc with h | h
        · exact h
        · exact Nearer.trans hq1 (by omega) (key1.2 (by omega)) h
      · refine ⟨qi, rfl, by omega,
          fun _ => ⟨b, hb, fun c hc => ?_⟩, fun h => by omega⟩
        rcases split c hc with h | h
        · exact Nearer.trans hq1 ha1 (key2.2 (by omega)) h
        · exact h

/-- A binary search keeps the promise of the standard library. -/
def Search.Ok (bs : Search) : Prop :=
  ∀ t : List Nat, (∀ i j : Nat, ∀ a b, i ≤ j → t[i]? = some a → t[j]? = some b → a ≤ b) →
    ∀ x, (bs t x).Ok t x

/-- C33: at every bit depth, for DC and for AC, for every quantizer and whatever match the binary search
reports. -/
theorem select_nearest (bs : Search) (hbs : bs.Ok) (quantizer : Int) (bd : Nat)
    (hbd : bd = 8 ∨ bd = 10 ∨ bd = 12) :
    (∃ t i, dcTable bd = some t ∧ selectDcQi bs quantizer bd = some i ∧ i < 256 ∧
      (1 ≤ quantizer → IsNearest t quantizer.toNat i) ∧ (quantizer < 1 → i = 0)) ∧
    (∃ t i, acTable bd = some t ∧ selectAcQi bs quantizer bd = some i ∧ i < 256 ∧
      (1 ≤ quantizer → IsNearest t quantizer.toNat i) ∧ (quantizer < 1 → i = 0)) := by
  constructor
  · obtain ⟨t, h1, h2⟩ := dcTable_ok hbd
    obtain ⟨i, h3, h4, h5⟩ := selectQi_nearest bs t h2 (hbs t h2.sorted) quantizer
    exact ⟨t, i, h1, by simp [selectDcQi, h1, h3], h4, h5⟩
  · obtain ⟨t, h1, h2⟩ := acTable_ok hbd
    obtain ⟨i, h3, h4, h5⟩ := selectQi_nearest bs t h2 (hbs t h2.sorted) quantizer
    exact ⟨t, i, h1, by simp [selectAcQi, h1, h3], h4, h5⟩

/-- A search from the left, which reports the first match. -/
def linearSearch : Search := fun t x =>
  let i := t.findIdx (fun v => decide (x ≤ v))
  if t[i]? = some x then .hit i else .gap i

theorem linearSearch_ok : linearSearch.Ok := by
  intro t hs x
  simp only [linearSearch]
  have hbefore : ∀ j v, j < t.findIdx (fun v => decide (x ≤ v)) → t[j]? = some v → v < x := by
    intro j v hj hv
    have := List.not_of_lt_findIdx hj
    obtain ⟨h, rfl⟩ := List.getElem?_eq_some_iff.1 hv
    simpa using this
  split_ifs with h
  · exact h
  · refine ⟨List.findIdx_le_length, hbefore, fun j v hj hv => ?_⟩
    have hjl := (List.getElem?_eq_some_iff.1 hv).1
    have hlt : t.findIdx (fun v => decide (x ≤ v)) < t.length := by omega
    have h1 := List.findIdx_getElem (w := hlt)
    have h2 : t[t.findIdx (fun v => decide (x ≤ v))]? = some (t[t.findIdx (fun v => decide (x ≤ v))]'hlt) :=
      List.getElem?_eq_getElem hlt
    have h3 := hs _ _ _ _ hj h2 hv
    have h4 : x ≠ t[t.findIdx (fun v => decide (x ≤ v))]'hlt := by
      intro he; apply h; rw [h2, ← he]
    simp only [decide_eq_true_eq] at h1
    omega

/-- Between 1022 and 1058, the entries 248 and 249 of the table for 8 bits. -/
example : selectDcQi linearSearch 1039 8 = some 248 ∧ selectDcQi linearSearch 1040 8 = some 249 ∧
    selectAcQi linearSearch (-5) 12 = some 0 ∧ selectAcQi linearSearch (2 ^ 62) 10 = some 255 := by
  decide +kernel

end Rav1e.Quant

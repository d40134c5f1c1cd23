import Verif.Quant.Select
import Verif.Quant.ScanThms
import Mathlib.Data.Int.Order.Basic
import Mathlib.Algebra.Order.Group.Unbundled.Int
/-
Lemmas for C35: the level of one coefficient, and its reconstruction.
-/
namespace Rav1e.Quant

/-! ## The quantizer context -/

/-- What `update` establishes. -/
structure QcOk (qc : QCtx) : Prop where
  scale : qc.logTxScale ≤ 2
  dcQ : qc.dcQuant = 4 ∨ 8 ≤ qc.dcQuant
  dcHi : qc.dcQuant < 32768
  acQ : qc.acQuant = 4 ∨ 8 ≤ qc.acQuant
  acHi : qc.acQuant < 32768
  dcDiv : ∀ x < 2 ^ 32, divuPair x qc.dcMulAdd = some (x / qc.dcQuant)
  acDiv : ∀ x < 2 ^ 32, divuPair x qc.acMulAdd = some (x / qc.acQuant)
  dcOff : 2 * qc.dcOffset < qc.dcQuant ∧ (8 ≤ qc.dcQuant → 3 ≤ qc.dcOffset)
  acOff1 : 2 * qc.acOffset1 < qc.acQuant
  acOff01 : qc.acOffset0 ≤ qc.acOffset1
  acOff0 : 8 ≤ qc.acQuant → 3 ≤ qc.acOffset0
  acOffE : qc.acOffsetEob ≤ qc.acOffset0

/-- The entries of a table are 4 or at least 8. -/
def gapCheck (t : List Nat) : Bool := t.length == 256 && t.all (fun q => (q == 4 || 8 ≤ q) && q < 32768)

theorem gap_get {t : List Nat} (h : gapCheck t = true) {i : Nat} (hi : i < 256) :
    ∃ q, t[i]? = some q ∧ (q = 4 ∨ 8 ≤ q) ∧ q < 32768 := by
  simp only [gapCheck, Bool.and_eq_true, beq_iff_eq, List.all_eq_true, Bool.or_eq_true,
    decide_eq_true_eq] at h
  have hl : i < t.length := by omega
  exact ⟨t[i], List.getElem?_eq_getElem hl, h.2 _ (List.getElem_mem hl)⟩

theorem bdIndex_lt (bd : Nat) : bdIndex bd = 0 ∨ bdIndex bd = 1 ∨ bdIndex bd = 2 := by
  unfold bdIndex; generalize (bd ^^^ 8) / 2 = n; omega

theorem qIndex_lt (q : Nat) (d : Int) : qIndex q d < 256 := by unfold qIndex; omega

theorem dcQ_ok (qindex : Nat) (d : Int) (bd : Nat) :
    ∃ q, dcQ qindex d bd = some q ∧ (q = 4 ∨ 8 ≤ q) ∧ q < 32768 := by
  unfold dcQ
  rcases bdIndex_lt bd with h | h | h <;> rw [h] <;>
    exact gap_get (by decide +kernel) (qIndex_lt qindex d)

theorem acQ_ok (qindex : Nat) (d : Int) (bd : Nat) :
    ∃ q, acQ qindex d bd = some q ∧ (q = 4 ∨ 8 ≤ q) ∧ q < 32768 := by
  unfold acQ
  rcases bdIndex_lt bd with h | h | h <;> rw [h] <;>
    exact gap_get (by decide +kernel) (qIndex_lt qindex d)

theorem divuGen_ok {d : Nat} (h1 : 1 ≤ d) (h2 : d < 32768) :
    ∃ p, divuGen d = some p ∧ ∀ x < 2 ^ 32, divuPair x p = some (x / d) := by
  have hd2 : d < 2 ^ 32 := lt_trans h2 (by norm_num)
  obtain ⟨p, hp, _⟩ := divu_exact d 0 h1 hd2 (by norm_num)
  refine ⟨p, hp, fun x hx => ?_⟩
  obtain ⟨p', hp', hx'⟩ := divu_exact d x h1 hd2 hx
  rw [hp] at hp'
  injection hp' with hp'
  rw [hp']; exact hx'

theorem logTxScale_le (tx : TxSize) : logTxScale tx ≤ 2 := by cases tx <;> decide

/-- `update` never panics and establishes the invariant. -/
theorem update_ok (qindex : Nat) (tx : TxSize) (intra : Bool) (bd : Nat) (dcd acd : Int) :
    ∃ qc, QCtx.update qindex tx intra bd dcd acd = some qc ∧ QcOk qc ∧
      qc.logTxScale = logTxScale tx ∧ dcQ qindex dcd bd = some qc.dcQuant ∧
      acQ qindex acd bd = some qc.acQuant := by
  obtain ⟨dq, hdq, hd1, hd2⟩ := dcQ_ok qindex dcd bd
  obtain ⟨aq, haq, ha1, ha2⟩ := acQ_ok qindex acd bd
  obtain ⟨dm, hdm, hdd⟩ := divuGen_ok (d := dq) (by omega) hd2
  obtain ⟨am, ham, had⟩ := divuGen_ok (d := aq) (by omega) ha2
  have he : QCtx.update qindex tx intra bd dcd acd = some
      { logTxScale := logTxScale tx, dcQuant := dq, dcOffset := (dq * if intra = true then 109 else 108) / 256,
        dcMulAdd := dm, acQuant := aq, acOffsetEob := (aq * if intra = true then 88 else 44) / 256,
        acOffset0 := (aq * if intra = true then 98 else 97) / 256,
        acOffset1 := (aq * if intra = true then 109 else 108) / 256, acMulAdd := am } := by
    simp only [QCtx.update, hdq, hdm, haq, ham, Option.bind_eq_bind, Option.bind_some]
  refine ⟨_, he, ?_, rfl, hdq, haq⟩
  have := logTxScale_le tx
  constructor <;> try assumption
  all_goals cases intra <;> simp <;> omega

/-! ## Levels -/

/-- The largest magnitude that the theorems allow for a coefficient of a type of `w` bits: the whole range
(but the least value) of `i16`, 30 bits of `i32`. -/
def lim (w : Nat) : Nat := if w = 16 then 32768 else 536870912

/-- The level: the magnitude, scaled up, plus the offset, divided by the quantizer and truncated; the sign of
the coefficient. -/
def levelOf (s off q : Nat) (c : Int) : Int := c.sign * ((c.natAbs * 2 ^ s + off) / q : Nat)

theorem pow_scale {s : Nat} (h : s ≤ 2) : 2 ^ s = 1 ∨ 2 ^ s = 2 ∨ 2 ^ s = 4 := by
  have : s = 0 ∨ s = 1 ∨ s = 2 := by omega
  rcases this with rfl | rfl | rfl <;> simp

theorem scaled_eq {s : Nat} {c : Int} (hs : s ≤ 2) (hc : c.natAbs < 536870912) :
    scaled s c = c * 2 ^ s ∧ (scaled s c).natAbs = c.natAbs * 2 ^ s ∧ c.natAbs * 2 ^ s < 2147483648 ∧
      (scaled s c < 0 ↔ c < 0) := by
  have key : ∀ k : Int, ∀ m : Nat, k = m → (m = 1 ∨ m = 2 ∨ m = 4) → (2 : Int) ^ s = k → 2 ^ s = m →
      scaled s c = c * 2 ^ s ∧ (scaled s c).natAbs = c.natAbs * 2 ^ s ∧ c.natAbs * 2 ^ s < 2147483648 ∧
      (scaled s c < 0 ↔ c < 0) := by
    intro k m hk hm h1 h2
    rw [scaled, h1, h2, hk]
    have hw : wrapI 32 (c * m) = c * m := by
      rcases hm with rfl | rfl | rfl <;> exact wrap32 (by push_cast; omega) (by push_cast; omega)
    rw [hw]
    rcases hm with rfl | rfl | rfl <;> push_cast <;> omega
  rcases pow_scale hs with h | h | h
  · exact key 1 1 (by norm_num) (by omega) (by exact_mod_cast h) h
  · exact key 2 2 (by norm_num) (by omega) (by exact_mod_cast h) h
  · exact key 4 4 (by norm_num) (by omega) (by exact_mod_cast h) h

theorem wrap16 {n : Int} (h1 : -32768 ≤ n) (h2 : n < 32768) : wrapI 16 n = n :=
  wrapI_eq (by omega) (by norm_num; exact h1) (by norm_num; exact h2)

theorem wrap_lim {w : Nat} (hw : w = 16 ∨ w = 32) {n : Int} (h : n.natAbs < lim w) : wrapI w n = n := by
  rcases hw with rfl | rfl
  · have : n.natAbs < 32768 := h
    exact wrap16 (by omega) (by omega)
  · have : n.natAbs < 536870912 := h
    exact wrap32 (by omega) (by omega)

theorem chkI_lim {w : Nat} (hw : w = 16 ∨ w = 32) {n : Nat} (h : n < lim w) : chkI w n = some (n : Int) := by
  rcases hw with rfl | rfl
  · have : n < 32768 := h
    exact chkI_eq (by norm_num) (by norm_num; omega)
  · have : n < 536870912 := h
    exact chkI_eq (by norm_num) (by norm_num; omega)

theorem lim_le (w : Nat) : lim w ≤ 536870912 := by unfold lim; split_ifs <;> omega

/-- The level is not larger than the coefficient. -/
theorem level_le {s off q x : Nat} (hs : s ≤ 2) (hq : 4 ≤ q) (hoff : off < q) :
    (x * 2 ^ s + off) / q ≤ x := by
  apply Nat.le_of_lt_succ
  rw [Nat.div_lt_iff_lt_mul (by omega)]
  have h1 : x * 2 ^ s ≤ x * q := Nat.mul_le_mul_left _ (by rcases pow_scale hs with h | h | h <;> omega)
  calc x * 2 ^ s + off < x * q + q := by omega
    _ = (x + 1) * q := by ring

theorem copysign_eq {n : Nat} {c : Int} (h : n < 536870912) :
    copysign n c = some (if c < 0 then -(n : Int) else n) := by
  unfold copysign
  rw [wrap32 (by omega) (by omega)]
  split_ifs
  · exact chk32 (by omega) (by omega)
  · rfl

theorem sign_mul {c : Int} {n : Nat} (h : c = 0 → n = 0) :
    (if c < 0 then -(n : Int) else n) = c.sign * n := by
  rcases lt_trichotomy c 0 with hc | hc | hc
  · rw [if_pos hc, Int.sign_eq_neg_one_of_neg hc]; ring
  · subst hc; rw [h rfl]; simp
  · rw [if_neg (by omega), Int.sign_eq_one_of_pos hc]; ring

theorem levelOf_eq {s off q : Nat} {c : Int} (hoff : off < q) :
    (if c < 0 then -(((c.natAbs * 2 ^ s + off) / q : Nat) : Int) else ((c.natAbs * 2 ^ s + off) / q : Nat)) =
      levelOf s off q c := by
  apply sign_mul
  rintro rfl
  simp [Nat.div_eq_of_lt hoff]

theorem levelOf_natAbs {s off q : Nat} {c : Int} (hoff : off < q) :
    (levelOf s off q c).natAbs = (c.natAbs * 2 ^ s + off) / q := by
  rw [← levelOf_eq hoff]
  generalize (c.natAbs * 2 ^ s + off) / q = n
  split_ifs <;> omega

theorem dcLevel_eq {qc : QCtx} (ok : QcOk qc) {w : Nat} (hw : w = 16 ∨ w = 32) {c : Int}
    (hc : c.natAbs < lim w) :
    dcLevel qc w c = some (levelOf qc.logTxScale qc.dcOffset qc.dcQuant c) := by
  have hoff := ok.dcOff.1
  have hl := lim_le w
  have hhi := ok.dcHi
  have hq4 : 4 ≤ qc.dcQuant := by have := ok.dcQ; omega
  obtain ⟨h1, h2, h3, h4⟩ := scaled_eq (c := c) ok.scale (by omega)
  unfold dcLevel
  dsimp only
  rw [h2]
  have hle := level_le (x := c.natAbs) ok.scale hq4 (show qc.dcOffset < qc.dcQuant by omega)
  generalize hX : c.natAbs * 2 ^ qc.logTxScale = X at *
  have hx32 : X + qc.dcOffset < 2 ^ 32 := by norm_num; omega
  rw [chk_eq hx32, Option.bind_eq_bind, Option.bind_some, ok.dcDiv _ hx32, Option.bind_eq_bind,
    Option.bind_some, copysign_eq (lt_of_le_of_lt hle (by omega)), Option.bind_some]
  simp only [h4]
  subst hX
  rw [levelOf_eq (by omega), wrap_lim hw]
  rw [levelOf_natAbs (by omega)]
  omega

/-- The level of one AC coefficient: the offset is one of the two. -/
theorem acStep_eq {qc : QCtx} (ok : QcOk qc) {w : Nat} (hw : w = 16 ∨ w = 32) {coeffs q : List Int}
    {mode pos : Nat} {c : Int} (hc : coeffs[pos]? = some c) (hlim : c.natAbs < lim w) (hp : pos < q.length) :
    ∃ mode' off, acStep qc w coeffs mode q pos =
        some (mode', q.set pos (levelOf qc.logTxScale off qc.acQuant c)) ∧
      (off = qc.acOffset0 ∨ off = qc.acOffset1) := by
  have hoff1 := ok.acOff1
  have hoff01 := ok.acOff01
  have hl := lim_le w
  have hhi := ok.acHi
  have hq4 : 4 ≤ qc.acQuant := by have := ok.acQ; omega
  obtain ⟨h1, h2, h3, h4⟩ := scaled_eq (c := c) ok.scale (by omega)
  unfold acStep
  rw [hc, Option.bind_eq_bind, Option.bind_some]
  dsimp only
  rw [h2]
  have hx0 : c.natAbs * 2 ^ qc.logTxScale < 2 ^ 32 := lt_trans h3 (by norm_num)
  rw [ok.acDiv _ hx0, Option.bind_eq_bind, Option.bind_some]
  have hoff : ∃ off, (if c.natAbs * 2 ^ qc.logTxScale / qc.acQuant > 1 - mode then qc.acOffset1 else qc.acOffset0) = off ∧
      (off = qc.acOffset0 ∨ off = qc.acOffset1) := by
    split_ifs
    · exact ⟨_, rfl, Or.inr rfl⟩
    · exact ⟨_, rfl, Or.inl rfl⟩
  obtain ⟨off, he, ho⟩ := hoff
  rw [he]
  have hle := level_le (x := c.natAbs) ok.scale hq4 (show off < qc.acQuant by omega)
  have hfin : ∀ mode', (some (mode', q.set pos (wrapI w (levelOf qc.logTxScale off qc.acQuant c))) : Option (Nat × List Int)) =
      some (mode', q.set pos (levelOf qc.logTxScale off qc.acQuant c)) := by
    intro mode'
    rw [wrap_lim hw]
    rw [levelOf_natAbs (by omega)]
    omega
  have hsum : (c.natAbs * 2 ^ qc.logTxScale) / qc.acQuant +
      (if (c.natAbs * 2 ^ qc.logTxScale / qc.acQuant + 1) * qc.acQuant ≤ c.natAbs * 2 ^ qc.logTxScale + off then 1 else 0) =
      (c.natAbs * 2 ^ qc.logTxScale + off) / qc.acQuant := by
    generalize c.natAbs * 2 ^ qc.logTxScale = X
    have hdm := Nat.div_add_mod X qc.acQuant
    have hml := Nat.mod_lt X (show 0 < qc.acQuant by omega)
    symm
    apply div_of_bounds
    · split_ifs with h
      · exact h
      · rw [Nat.add_zero, Nat.mul_comm]; omega
    · split_ifs with h
      · have : (X / qc.acQuant + 1 + 1) * qc.acQuant = qc.acQuant * (X / qc.acQuant) + 2 * qc.acQuant := by ring
        omega
      · rw [Nat.add_zero]; omega
  have hx1 : c.natAbs * 2 ^ qc.logTxScale + off < 2 ^ 32 := by norm_num; omega
  have hx2 : (c.natAbs * 2 ^ qc.logTxScale / qc.acQuant + 1) * qc.acQuant < 2 ^ 32 := by
    have := Nat.div_mul_le_self (c.natAbs * 2 ^ qc.logTxScale) qc.acQuant
    rw [Nat.add_mul, Nat.one_mul]
    norm_num; omega
  have hx3 : (c.natAbs * 2 ^ qc.logTxScale + off) / qc.acQuant < 2 ^ 32 :=
    lt_of_le_of_lt hle (by norm_num; omega)
  rw [chk_eq hx1, Option.bind_some, chk_eq hx2, Option.bind_some,
    hsum, chk_eq hx3, Option.bind_some, copysign_eq (lt_of_le_of_lt hle (by omega)),
    Option.bind_some, if_pos hp]
  simp only [h4]
  rw [levelOf_eq (by omega)]
  exact ⟨_, off, hfin _, ho⟩

/-! ## Reconstruction -/

/-- The reconstruction of a level: the product with the quantizer, scaled down towards zero. -/
def recOf (s q : Nat) (l : Int) : Int := l.sign * (l.natAbs * q / 2 ^ s : Nat)

theorem recOf_natAbs (s q : Nat) (l : Int) : (recOf s q l).natAbs = l.natAbs * q / 2 ^ s := by
  unfold recOf
  rw [Int.natAbs_mul, Int.natAbs_natCast]
  rcases eq_or_ne l 0 with rfl | h
  · simp
  · rw [Int.natAbs_sign_of_ne_zero h, Nat.one_mul]

theorem dequant1_eq {s q w : Nat} (hs : s ≤ 2) (hw : w = 16 ∨ w = 32) {l : Int}
    (h1 : l.natAbs * q < 2147483640) (h2 : l.natAbs * q / 2 ^ s < lim w) :
    dequant1 s q w l = some (recOf s q l) := by
  have habs : ((l * (q : Int)).natAbs : Nat) = l.natAbs * q := by rw [Int.natAbs_mul, Int.natAbs_natCast]
  have hz := recOf_natAbs s q l
  unfold dequant1
  have hp : chkI 32 (l * (q : Int)) = some (l * (q : Int)) := by
    generalize l * (q : Int) = P at *
    exact chk32 (by omega) (by omega)
  rw [hp, Option.bind_eq_bind, Option.bind_some]
  have hsum : (l * (q : Int) + (if l < 0 then (2 : Int) ^ s - 1 else 0)) / 2 ^ s = recOf s q l := by
    unfold recOf
    have hpos : (0 : Int) < 2 ^ s := by positivity
    rcases lt_trichotomy l 0 with hl | hl | hl
    · rw [if_pos hl, Int.sign_eq_neg_one_of_neg hl]
      obtain ⟨n, rfl⟩ : ∃ n : Nat, l = -(n : Int) := ⟨l.natAbs, by omega⟩
      rw [Int.natAbs_neg, Int.natAbs_natCast]
      push_cast
      rw [neg_mul, ← Int.natCast_mul]
      generalize n * q = P
      rcases pow_scale hs with h | h | h
      all_goals
        have h' : (2 : Int) ^ s = ((2 ^ s : Nat) : Int) := by push_cast; rfl
        rw [h', h]
        omega
    · subst hl; simp
    · rw [if_neg (by omega), Int.sign_eq_one_of_pos hl, add_zero, one_mul]
      obtain ⟨n, rfl⟩ : ∃ n : Nat, l = (n : Int) := ⟨l.natAbs, by omega⟩
      rw [Int.natAbs_natCast]
      push_cast
      rfl
  have hc : chkI 32 (l * (q : Int) + (if l < 0 then (2 : Int) ^ s - 1 else 0)) =
      some (l * (q : Int) + (if l < 0 then (2 : Int) ^ s - 1 else 0)) := by
    have h4 : (2 : Int) ^ s ≤ 4 ∧ 1 ≤ (2 : Int) ^ s := by
      have h' : (2 : Int) ^ s = ((2 ^ s : Nat) : Int) := by push_cast; rfl
      rw [h']
      rcases pow_scale hs with h | h | h <;> rw [h] <;> norm_num
    generalize (2 : Int) ^ s = K at *
    generalize l * (q : Int) = P at *
    apply chk32 <;> split_ifs <;> omega
  rw [hc, Option.bind_some, hsum, wrap_lim hw]
  rw [hz]; exact h2

/-- The error of one coefficient: less than one quantizer step. -/
theorem level_error {s off q : Nat} {c : Int} (hs : s ≤ 2) (hq : q = 4 ∨ 8 ≤ q) (hoff : 2 * off < q)
    (hoff3 : 8 ≤ q → 3 ≤ off) :
    2 ^ s * (c - recOf s q (levelOf s off q c)).natAbs < q ∧
      (recOf s q (levelOf s off q c) = 0 ∨ (recOf s q (levelOf s off q c)).sign = c.sign) := by
  have hna := levelOf_natAbs (s := s) (c := c) (show off < q by omega)
  have hra := recOf_natAbs s q (levelOf s off q c)
  rw [hna] at hra
  -- the sign of the reconstruction
  have hsg : recOf s q (levelOf s off q c) =
      c.sign * ((c.natAbs * 2 ^ s + off) / q * q / 2 ^ s : Nat) := by
    unfold recOf
    rw [hna]
    rcases Nat.eq_zero_or_pos ((c.natAbs * 2 ^ s + off) / q) with h | h
    · rw [h]; simp
    · congr 1
      unfold levelOf
      rw [Int.sign_mul, Int.sign_natCast_of_ne_zero (by omega), mul_one, Int.sign_sign]
  generalize hL : (c.natAbs * 2 ^ s + off) / q = L at *
  have hb1 : L * q ≤ c.natAbs * 2 ^ s + off := by rw [← hL]; exact Nat.div_mul_le_self _ _
  have hb2 : c.natAbs * 2 ^ s + off < L * q + q := by
    have := Nat.lt_div_mul_add (a := c.natAbs * 2 ^ s + off) (show 0 < q by omega)
    rw [hL] at this; exact this
  -- the rounding of the scale
  have hR1 : 2 ^ s * (L * q / 2 ^ s) ≤ L * q := by rw [Nat.mul_comm]; exact Nat.div_mul_le_self _ _
  have hR2 : L * q < 2 ^ s * (L * q / 2 ^ s) + 2 ^ s := by
    have := Nat.lt_div_mul_add (a := L * q) (show 0 < 2 ^ s by positivity)
    rw [Nat.mul_comm (2 ^ s)]; exact this
  have hR3 : q = 4 → 2 ^ s * (L * q / 2 ^ s) = L * q := by
    intro h4
    subst h4
    rcases pow_scale hs with h | h | h <;> rw [h] <;> omega
  constructor
  · have hdiff : 2 ^ s * (c - recOf s q (levelOf s off q c)).natAbs =
        ((2 ^ s * c.natAbs : Nat) - (2 ^ s * (L * q / 2 ^ s) : Nat) : Int).natAbs := by
      rw [hsg]
      have h0 : c = 0 → L * q / 2 ^ s = 0 := by
        rintro rfl
        have : L = 0 := by rw [← hL]; simp [Nat.div_eq_of_lt (show off < q by omega)]
        rw [this]; simp
      generalize (L * q / 2 ^ s) = R at h0 ⊢
      have h2 : (2 ^ s * (c - c.sign * (R : Int)).natAbs : Nat) = (((2 ^ s : Nat) : Int) * (c - c.sign * (R : Int))).natAbs := by
        rw [Int.natAbs_mul, Int.natAbs_natCast]
      rw [h2]
      rcases lt_trichotomy c 0 with hc | hc | hc
      · rw [Int.sign_eq_neg_one_of_neg hc]
        have : ((c.natAbs : Nat) : Int) = -c := by omega
        push_cast
        rw [show ((2:Int) ^ s * |c| - 2 ^ s * (R : Int)) = -(2 ^ s * (c - -1 * (R : Int))) by
          rw [abs_of_neg hc]; ring, Int.natAbs_neg]
      · have := h0 hc
        subst hc
        subst this
        simp
      · rw [Int.sign_eq_one_of_pos hc]
        push_cast
        rw [abs_of_pos hc, one_mul, mul_sub]
    rw [hdiff]
    have h4 : 2 ^ s ≤ 4 := by rcases pow_scale hs with h | h | h <;> omega
    rw [Nat.mul_comm (2 ^ s) c.natAbs]
    generalize 2 ^ s * (L * q / 2 ^ s) = A at *
    generalize c.natAbs * 2 ^ s = B at *
    generalize L * q = D at *
    generalize 2 ^ s = K at *
    clear hdiff hsg hra hna
    rcases hq with h | h
    · have := hR3 h; omega
    · have := hoff3 h; omega
  · rw [hsg]
    rcases Nat.eq_zero_or_pos (L * q / 2 ^ s) with h | h
    · left; rw [h]; simp
    · right
      rw [Int.sign_mul, Int.sign_natCast_of_ne_zero (by omega), mul_one, Int.sign_sign]

end Rav1e.Quant

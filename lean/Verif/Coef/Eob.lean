import Verif.Coef.Loops

/-!
# Lemmas for C41: end of block and transform type
-/

namespace Rav1e.Coef
open Av1Spec (Src Rd rdBit rdSym rdGolomb)
open Rav1e.Ec
open Rav1e.Quant (TxSize TxType scanOf storage codedW codedH specOrder allTx mem_allTx)

theorem bitAt_eq (x k : Nat) : bitAt x k = x / 2 ^ k % 2 := by
  unfold bitAt
  rw [Nat.shiftLeft_eq, Nat.one_mul, Nat.and_two_pow, Nat.testBit_eq_decide_div_mod_eq]
  have h : x / 2 ^ k % 2 = 0 ∨ x / 2 ^ k % 2 = 1 := by omega
  have hp : 0 < 2 ^ k := Nat.two_pow_pos k
  rcases h with h | h <;> simp [h]

theorem bitAt_lt (x k : Nat) : bitAt x k < 2 := by rw [bitAt_eq]; omega

theorem eobBits (e : Nat) : ∀ n acc ts,
    (Av1Spec.Coef.rdEobBits n acc).onToks
      (flatToks ((List.range n).map fun i => bitAt e (n - (i + 1))) ++ ts) = some (acc + e % 2 ^ n, ts) := by
  intro n
  induction n with
  | zero => intro acc ts; simp [Av1Spec.Coef.rdEobBits, flatToks, Rd.onToks, Nat.mod_one]
  | succ n ih =>
    intro acc ts
    rw [List.range_succ_eq_map, List.map_cons, List.map_map]
    have e1 : ((fun i => bitAt e (n + 1 - (i + 1))) ∘ Nat.succ) = fun i => bitAt e (n - (i + 1)) := by
      funext i; simp only [Function.comp, Nat.succ_eq_add_one]; congr 1; omega
    have e2 : n + 1 - (0 + 1) = n := by omega
    rw [e1, e2]
    have e3 : ∀ (b : Nat) (l : List Nat), flatToks (b :: l) ++ ts = (.flat, b) :: (flatToks l ++ ts) := by
      intro b l; simp [flatToks]
    rw [e3, Av1Spec.Coef.rdEobBits, onToks_bind, onToks_bit, Option.bind_some]
    rw [ih]
    have hm : e % 2 ^ (n + 1) = e % 2 ^ n + 2 ^ n * (e / 2 ^ n % 2) := by rw [Nat.pow_succ, Nat.mod_mul]
    rw [hm, bitAt_eq, Nat.shiftLeft_eq, Nat.one_mul]
    have h : e / 2 ^ n % 2 = 0 ∨ e / 2 ^ n % 2 = 1 := by omega
    rcases h with h | h <;> simp [h] <;> omega

/-- The tables give the token and offset that the specification expects. -/
def eobCheck (eob : Nat) : Bool :=
  match eobPosToken eob with
  | none => false
  | some (t, e) =>
    decide (1 ≤ t ∧ t ≤ 11 ∧ eob = e + (if t < 2 then t else (1 <<< (t - 2)) + 1) ∧ (t < 3 → e = 0) ∧
      (3 ≤ t → e < 2 ^ (t - 2)) ∧ eobOffsetBits[t]? = some (if t < 3 then 0 else t - 2) ∧
      (eob ≤ 16 → t ≤ 5) ∧ (eob ≤ 32 → t ≤ 6) ∧ (eob ≤ 64 → t ≤ 7) ∧ (eob ≤ 128 → t ≤ 8) ∧
      (eob ≤ 256 → t ≤ 9) ∧ (eob ≤ 512 → t ≤ 10))

theorem eobChecks : ((List.range 1025).all fun e => e == 0 || eobCheck e) = true := by decide +kernel

theorem eobCheck_ok {eob : Nat} (h0 : 0 < eob) (h : eob ≤ 1024) : eobCheck eob = true := by
  have := List.all_eq_true.1 eobChecks eob (List.mem_range.2 (by omega))
  rw [Bool.or_eq_true] at this
  rcases this with h1 | h1
  · have := beq_iff_eq.1 h1; omega
  · exact h1

/-- The CDF for `eob_pt`: the encoder's choice is the one of the specification except for the sizes 16x64 and
64x16. -/
theorem eobField_eq (tx : TxSize) (h : tx ≠ .tx16x64 ∧ tx ≠ .tx64x16) :
    eobField (tx.widthLog2 + tx.heightLog2 - 4) = eobField (min (txOf tx).wl 5 + min (txOf tx).hl 5 - 4) := by
  cases tx <;> first | rfl | exact absurd rfl h.1 | exact absurd rfl h.2

/-- The number of symbols of the CDF for `eob_pt`. -/
theorem eobField_mem (m : Nat) : (⟨eobField m, 2 * 2, min m 6 + 5⟩ : Cdf.Field) ∈ Cdf.fields := by
  rcases Nat.lt_or_ge m 6 with h | h
  · interval_cases m <;> exact mem_field _
  · have e1 : eobField m = "eob_flag_cdf1024" := by
      unfold eobField
      split <;> first | omega | rfl
    have e2 : min m 6 + 5 = 11 := by omega
    rw [e1, e2]; exact mem_field _

theorem wr_eob {tx : TxSize} {eob pt : Nat} {cls : TxClass} (hp : pt < 2) (h0 : 0 < eob)
    (he : eob ≤ codedW tx * codedH tx) (ht : tx ≠ .tx16x64 ∧ tx ≠ .tx64x16)
    (hc : 512 ≤ codedW tx * codedH tx → cls = .two) :
    Wr (encodeEob eob tx cls (txsCtx tx) pt) (Av1Spec.Coef.rdEob num (txOf tx) pt (clsOf cls)) eob := by
  have harea : codedW tx * codedH tx = 2 ^ (min (txOf tx).wl 5 + min (txOf tx).hl 5 - 4 + 4) ∧
      min (txOf tx).wl 5 + min (txOf tx).hl 5 - 4 ≤ 6 := by cases tx <;> decide
  have hk := eobCheck_ok h0 (by
    have := Nat.mul_le_mul (codedW_le tx) (codedH_le tx); omega)
  unfold eobCheck at hk
  cases hr : eobPosToken eob with
  | none => rw [hr] at hk; exact absurd hk (by simp)
  | some r =>
    obtain ⟨t, e⟩ := r
    rw [hr] at hk
    simp only [decide_eq_true_eq] at hk
    obtain ⟨k1, k2, k3, k4, k5, k6, k7⟩ := hk
    unfold encodeEob
    simp only [Option.bind_eq_bind]
    rw [hr, Option.bind_some]
    dsimp only
    rw [if_neg (by omega), eobField_eq tx ht]
    unfold Av1Spec.Coef.rdEob
    dsimp only
    generalize hm : min (txOf tx).wl 5 + min (txOf tx).hl 5 - 4 = m at *
    obtain ⟨ha, hm6⟩ := harea
    rw [ha] at he hc
    have ht5 : t ≤ m + 5 := by
      interval_cases m <;> simp only [Nat.reduceAdd, Nat.reducePow] at he <;> omega
    have hcls : (if 5 ≤ m ∨ clsOf cls = .two then 0 else 1) = (if cls = .two then 0 else 1) := by
      by_cases h5 : 5 ≤ m
      · have h9 : 512 ≤ 2 ^ (m + 4) := by
          have : 2 ^ 9 ≤ 2 ^ (m + 4) := Nat.pow_le_pow_right (by omega) (by omega)
          omega
        rw [hc h9, if_pos (Or.inl h5), if_pos rfl]
      · cases cls <;> simp [h5, clsOf]
    rw [hcls]
    have hcl : (if cls = .two then 0 else 1) < 2 := by split_ifs <;> omega
    generalize (if cls = .two then 0 else 1) = k at *
    have hs : Wr (symbol (eobField m) [(pt, 2), (k, 2)] (t - 1)) (Av1Spec.Coef.sym num (.eobPt m pt k)) (t - 1) :=
      wr_symbol (2 * 2) (min m 6 + 5) (i := pt * 2 + k) (eobField_mem m) (by simp [flatIdx, hp, hcl])
        (by omega) (by omega) rfl
    have et : t - 1 + 1 = t := by omega
    by_cases h3 : t < 3
    · refine hs.bind (o2 := some []) ?_ ?_
      · rw [et, if_neg (show ¬ 3 ≤ t by omega)]
        have := k4 h3
        have e1 : eob = if t < 2 then t else (1 <<< (t - 2)) + 1 := by omega
        rw [← e1]; exact Wr.ret _
      · intro a b _ h
        rw [k6, Option.bind_some, if_pos h3, if_neg (by omega), ← Option.some.inj h, List.append_nil]
    · have hx : Wr (symbol "eob_extra_cdf" [(txsCtx tx, 5), (pt, 2), (t - 3, 9)] (bitAt e (t - 2 - 1)))
          (Av1Spec.Coef.sym num (.eobExtra (txOf tx).ctx pt (t - 3))) (bitAt e (t - 2 - 1)) := by
        have h1 := txsCtx_lt tx
        exact wr_symbol (9 * 2 * 5) 2 (i := (txsCtx tx * 2 + pt) * 9 + (t - 3)) (mem_field _)
          (by simp [flatIdx, hp, h1]; omega) (by omega) (bitAt_lt _ _) (by rw [← txsCtx_eq]; rfl)
      obtain ⟨a, wa, oa, ra⟩ := hs
      obtain ⟨b, wb, ob, rb⟩ := hx
      refine ⟨a ++ b ++ flatToks ((List.range (t - 2 - 1)).map fun i => bitAt e (t - 2 - 1 - (i + 1))), ?_,
        (oa.append ob).append (flat_ok ?_), ?_⟩
      · rw [wa, Option.bind_some, k6, Option.bind_some, if_neg h3, if_pos (by omega), if_neg h3, wb,
          Option.bind_some]
      · intro x hx
        obtain ⟨i, _, rfl⟩ := List.mem_map.1 hx
        exact bitAt_lt _ _
      · intro ts
        rw [onToks_bind, List.append_assoc, List.append_assoc, ra, Option.bind_some]
        dsimp only
        rw [et, if_pos (show 3 ≤ t by omega), if_neg (show ¬ t < 2 by omega), onToks_bind, rb, Option.bind_some]
        dsimp only
        have e1 : t - 2 - 1 = t - 3 := by omega
        rw [e1, eobBits, bitAt_eq]
        have h5 := k5 (by omega)
        rw [if_neg (show ¬ t < 2 by omega)] at k3
        have e2 : t - 2 = t - 3 + 1 := by omega
        rw [e2] at h5 k3 ⊢
        generalize t - 3 = n at *
        have hm2 : e % 2 ^ (n + 1) = e % 2 ^ n + 2 ^ n * (e / 2 ^ n % 2) := by rw [Nat.pow_succ, Nat.mod_mul]
        rw [Nat.mod_eq_of_lt h5] at hm2
        simp only [Nat.shiftLeft_eq, Nat.one_mul] at k3 ⊢
        generalize 2 ^ (n + 1) = P at *
        have h : e / 2 ^ n % 2 = 0 ∨ e / 2 ^ n % 2 = 1 := by omega
        rcases h with h | h <;> rw [h] at hm2 ⊢ <;> simp <;> omega

/-! ## Transform type -/

/-- All transform types. -/
def allTy : List TxType :=
  [.dctDct, .adstDct, .dctAdst, .adstAdst, .flipadstDct, .dctFlipadst, .flipadstFlipadst, .adstFlipadst,
   .flipadstAdst, .idtx, .vDct, .hDct, .vAdst, .hAdst, .vFlipadst, .hFlipadst, .whtWht]

theorem mem_allTy (ty : TxType) : ty ∈ allTy := by cases ty <;> decide

/-- What the tables say about a size, type and kind of block for a type in the set. -/
def txCheck (tx : TxSize) (ty : TxType) (isInter reduced : Bool) : Bool :=
  let s := Av1Spec.Coef.txSet (txOf tx) isInter reduced
  let set := (getTxSet tx isInter reduced).idx
  if s = 0 then numTxSet[set]? == some 1 && (sqr tx).idx == (txOf tx).sqr
  else
    let inv := if isInter then Av1Spec.Coef.interInv s else Av1Spec.Coef.intraInv s
    !inv.contains ty.idx || ((numTxSet[set]?).isSome && decide (numTxSet[set]? ≠ some 1 ∧ numTxSet[set]? ≠ some 0) &&
      getTxSetIndex tx isInter reduced == some (s : Int) && (txUsed[set]?.bind (·[ty.idx]?)) == some 1 &&
      (match txInd[set]?.bind (·[ty.idx]?) with
        | none => false
        | some i => inv[i]? == some ty.idx) &&
      (sqr tx).idx == (txOf tx).sqr && decide (s ≤ 3) && (isInter || decide (s ≤ 2)) && decide ((sqr tx).idx < 4) &&
      decide (inv.length = if isInter then (if s = 1 then 16 else if s = 2 then 12 else 2)
        else (if s = 1 then 7 else 5)))

theorem txChecks : (allTx.all fun tx => allTy.all fun ty => [true, false].all fun i => [true, false].all fun r =>
    txCheck tx ty i r) = true := by decide +kernel

theorem txCheck_ok (tx : TxSize) (ty : TxType) (i r : Bool) : txCheck tx ty i r = true := by
  have h := List.all_eq_true.1 txChecks tx (mem_allTx tx)
  have h := List.all_eq_true.1 h ty (mem_allTy ty)
  have h := List.all_eq_true.1 h i (by cases i <;> simp)
  exact List.all_eq_true.1 h r (by cases r <;> simp)

theorem wr_txType {tx : TxSize} {ty : TxType} {mode : Nat} {b : Av1Spec.Coef.Blk} (ht : b.tx = txOf tx)
    (hin : Av1Spec.Coef.inSet b.tx b.isInter b.reduced ty.idx) (hm : b.isInter = false → mode < 13)
    (hd : b.isInter = false → b.intraDir = mode) :
    Wr (writeTxType tx ty mode b.isInter b.reduced) (Av1Spec.Coef.rdTxType num b) ty.idx := by
  have hk := txCheck_ok tx ty b.isInter b.reduced
  unfold txCheck at hk
  unfold Av1Spec.Coef.inSet at hin
  unfold writeTxType Av1Spec.Coef.rdTxType
  rw [ht] at hin ⊢
  simp only [Option.bind_eq_bind]
  dsimp only at hin hk ⊢
  generalize hs : Av1Spec.Coef.txSet (txOf tx) b.isInter b.reduced = s at *
  generalize hset : (getTxSet tx b.isInter b.reduced).idx = set at *
  by_cases h0 : s = 0
  · rw [if_pos h0] at hin hk ⊢
    rw [Bool.and_eq_true, beq_iff_eq] at hk
    rw [hk.1, Option.bind_some, if_neg (by omega), hin]
    exact Wr.ret _
  · rw [if_neg h0] at hin hk ⊢
    have hmem : (if b.isInter then Av1Spec.Coef.interInv s else Av1Spec.Coef.intraInv s).contains ty.idx = true := by
      rw [List.contains_iff_mem]
      cases hb : b.isInter <;> rw [hb] at hin <;> simpa using hin
    rw [hmem] at hk
    simp only [Bool.not_true, Bool.false_or, Bool.and_eq_true, beq_iff_eq, decide_eq_true_eq,
      Option.isSome_iff_exists] at hk
    obtain ⟨⟨⟨⟨⟨⟨⟨⟨⟨⟨n, hn⟩, hn1⟩, hsi⟩, hus⟩, hind⟩, hsq⟩, hs3⟩, hs2⟩, hsq4⟩, hlen⟩ := hk
    obtain ⟨row, hrow, hu⟩ := Option.bind_eq_some_iff.1 hus
    cases hi : txInd[set]?.bind (·[ty.idx]?) with
    | none => rw [hi] at hind; exact absurd hind (by simp)
    | some i =>
      rw [hi] at hind
      dsimp only at hind
      rw [beq_iff_eq] at hind
      obtain ⟨row2, hrow2, hi2⟩ := Option.bind_eq_some_iff.1 hi
      have hn2 : 1 < n := by
        rw [hn] at hn1
        have h1 : n ≠ 1 := fun e => hn1.1 (by rw [e])
        have h2 : n ≠ 0 := fun e => hn1.2 (by rw [e])
        omega
      have hil : i < (if b.isInter then Av1Spec.Coef.interInv s else Av1Spec.Coef.intraInv s).length :=
        (List.getElem?_eq_some_iff.1 hind).1
      rw [hlen] at hil
      rw [hn, Option.bind_some, if_pos hn2, hsi, Option.bind_some, if_neg (by omega), hrow, Option.bind_some, hu,
        Option.bind_some, if_neg (by omega), hrow2, Option.bind_some, hi2, Option.bind_some, ← hsq]
      generalize (sqr tx).idx = sq at *
      cases hb : b.isInter
      · rw [hb] at hil hind hs2
        simp only [Bool.false_eq_true, if_false, false_or] at hil hind hs2 ⊢
        have hs2 : s ≤ 2 := by simpa using hs2
        have hmm := hm hb
        rw [hd hb]
        have hret : ((Av1Spec.Coef.intraInv s).getD i 0) = ty.idx := by
          rw [List.getD_eq_getElem?_getD, hind]; rfl
        have h12 : s = 1 ∨ s = 2 := by omega
        rcases h12 with rfl | rfl
        · refine Wr.map (a := i) ?_ (by rw [hret])
          rw [if_pos (by omega)]
          exact wr_symbol (13 * 4) 7 (i := sq * 13 + mode) (mem_field _) (by simp [flatIdx, hsq4, hmm]) (by omega)
            (by simpa using hil) rfl
        · refine Wr.map (a := i) ?_ (by rw [hret])
          rw [if_neg (by omega)]
          exact wr_symbol (13 * 4) 5 (i := sq * 13 + mode) (mem_field _) (by simp [flatIdx, hsq4, hmm]) (by omega)
            (by simpa using hil) rfl
      · rw [hb] at hil hind
        simp only [if_true] at hil hind ⊢
        have hret : ((Av1Spec.Coef.interInv s).getD i 0) = ty.idx := by
          rw [List.getD_eq_getElem?_getD, hind]; rfl
        have h12 : s = 1 ∨ s = 2 ∨ s = 3 := by omega
        rcases h12 with rfl | rfl | rfl
        · refine Wr.map (a := i) ?_ (by rw [hret])
          rw [if_pos (by omega)]
          exact wr_symbol 4 16 (i := sq) (mem_field _) (by simp [flatIdx, hsq4]) (by omega)
            (by simpa using hil) rfl
        · refine Wr.map (a := i) ?_ (by rw [hret])
          rw [if_neg (by omega), if_pos (by omega)]
          exact wr_symbol 4 12 (i := sq) (mem_field _) (by simp [flatIdx, hsq4]) (by omega)
            (by simpa using hil) rfl
        · refine Wr.map (a := i) ?_ (by rw [hret])
          rw [if_neg (by omega), if_neg (by omega)]
          exact wr_symbol 4 2 (i := sq) (mem_field _) (by simp [flatIdx, hsq4]) (by omega)
            (by simpa using hil) rfl

end Rav1e.Coef

import Verif.Coef.Reads

/-!
# Lemmas for C41: the loops over the coefficients
-/

namespace Rav1e.Coef
open Av1Spec (Src Rd rdBit rdSym rdGolomb)
open Rav1e.Ec
open Rav1e.Quant (TxSize TxType scanOf storage codedW codedH specOrder allTx mem_allTx)

theorem mem_field (f : Cdf.Field) (h : Cdf.fields.contains f = true := by decide +kernel) : f ∈ Cdf.fields :=
  List.contains_iff_mem.1 h

/-! ## Levels -/

theorem wr_br {txs pt ctx br : Nat} (ht : txs < 5) (hp : pt < 2) (hx : ctx < 21) :
    ∀ n fuel idx level, idx + 3 * n = 12 → n < fuel →
    Wr (brLoop txs pt ctx br fuel idx) (Av1Spec.Coef.rdBr num (.coeffBr (min txs 3) pt ctx) n level)
      (level + min (br - idx) (3 * n)) := by
  intro n
  induction n with
  | zero =>
    intro fuel idx level h1 h2
    obtain ⟨fuel, rfl⟩ : ∃ k, fuel = k + 1 := ⟨fuel - 1, by omega⟩
    rw [brLoop, if_pos (by omega)]
    have e : level + min (br - idx) (3 * 0) = level := by omega
    rw [e]; exact Wr.ret level
  | succ n ih =>
    intro fuel idx level h1 h2
    obtain ⟨fuel, rfl⟩ : ∃ k, fuel = k + 1 := ⟨fuel - 1, by omega⟩
    rw [brLoop, if_neg (by omega), Av1Spec.Coef.rdBr]
    simp only [Option.bind_eq_bind]
    have hs := wr_symbol (name := "coeff_br_cdf") (ix := [(min txs 3, 5), (pt, 2), (ctx, 21)])
      (s := min (br - idx) 3) (i := (min txs 3 * 2 + pt) * 21 + ctx) (c := .coeffBr (min txs 3) pt ctx)
      (21 * 2 * 5) 4 (mem_field _) (by simp [flatIdx, hp, hx]) (by omega) (by omega) rfl
    by_cases hk : min (br - idx) 3 < 3
    · have e : level + min (br - idx) (3 * (n + 1)) = level + min (br - idx) 3 := by omega
      rw [e]
      refine hs.bind (o2 := some []) (by rw [if_pos hk]; exact Wr.ret _) ?_
      intro t t2 _ h
      rw [← Option.some.inj h, if_pos hk, List.append_nil]
    · have e : level + min (br - idx) (3 * (n + 1)) = level + min (br - idx) 3 + min (br - (idx + 3)) (3 * n) := by
        omega
      rw [e]
      refine hs.bind (o2 := brLoop txs pt ctx br fuel (idx + 3)) (by
        rw [if_neg hk]; exact ih fuel (idx + 3) _ (by omega) (by omega)) ?_
      intro t t2 _ h
      rw [if_neg hk, h]; rfl

/-- The coefficients in scan order. -/
def ordered (tx : TxSize) (ty : TxType) (coeffs : List Int) (n : Nat) : List Int :=
  ((specOrder tx ty).take n).map fun x => coefAt coeffs (codedH tx) x.1 x.2

theorem wr_levels {tx : TxSize} {ty : TxType} {coeffs : List Int} {eob pt : Nat} (cls : TxClass)
    (hl : coeffs.length = codedW tx * codedH tx) (he : eob ≤ (specOrder tx ty).length) (hp : pt < 2)
    (hlast : ∀ x, 0 < eob → (specOrder tx ty)[eob - 1]? = some x → coefAt coeffs (codedH tx) x.1 x.2 ≠ 0) :
    ∀ n q, n ≤ eob → Known tx ty coeffs n q →
    ∃ q', Wr (encodeCoeffs ⟨levelsOf tx coeffs, eob, tx, cls, txsCtx tx, pt⟩
        (((specOrder tx ty).map (storage (codedH tx))).take eob) (ordered tx ty coeffs eob) n)
      (Av1Spec.Coef.rdLevels num (txOf tx) pt (clsOf cls) (specOrder tx ty) eob n q) q' ∧
      Known tx ty coeffs 0 q' := by
  intro n
  induction n with
  | zero =>
    intro q _ hk
    exact ⟨q, Wr.ret q, hk⟩
  | succ c ih =>
    intro q hc hk
    have ht := txsCtx_lt tx
    obtain ⟨x, hx⟩ : ∃ x, (specOrder tx ty)[c]? = some x :=
      ⟨_, List.getElem?_eq_getElem (by omega : c < (specOrder tx ty).length)⟩
    set v := coefAt coeffs (codedH tx) x.1 x.2 with hv
    have e1 : (((specOrder tx ty).map (storage (codedH tx))).take eob)[c]? = some (storage (codedH tx) x) := by
      rw [List.getElem?_take_of_lt (by omega), List.getElem?_map, hx]; rfl
    have e2 : (ordered tx ty coeffs eob)[c]? = some v := by
      unfold ordered
      rw [List.getElem?_map, List.getElem?_take_of_lt (by omega), hx]; rfl
    have e3 : (specOrder tx ty).getD c (0, 0) = x := by rw [List.getD_eq_getElem?_getD, hx]; rfl
    -- the base level
    obtain ⟨ctx, hctx, hbase⟩ : ∃ ctx, nzMapCtx (levelsOf tx coeffs) (storage (codedH tx) x)
          (codedSize tx).heightLog2 (codedSize tx).area c (decide (c = eob - 1)) tx cls = some ctx ∧
        Wr (encodeBase ⟨levelsOf tx coeffs, eob, tx, cls, txsCtx tx, pt⟩ c ctx v.natAbs)
          (if c + 1 = eob then
            (Av1Spec.Coef.sym num (.coeffBaseEob (txOf tx).ctx pt (Av1Spec.Coef.baseEobCtx (txOf tx) c))).bind
              fun s => .ret (s + 1)
          else Av1Spec.Coef.sym num
            (.coeffBase (txOf tx).ctx pt (Av1Spec.Coef.baseCtx (txOf tx) (clsOf cls) q x.1 x.2)))
          (min v.natAbs 3) := by
      by_cases h : c + 1 = eob
      · refine ⟨_, by rw [show decide (c = eob - 1) = true by simp; omega]; exact nzMapCtx_eob _ _ _ _ _, ?_⟩
        have hv0 : v ≠ 0 := hlast x (by omega) (by rw [← h]; exact hx)
        have := baseEobCtx_lt (txOf tx) c
        rw [if_pos h]
        unfold encodeBase
        rw [if_pos (show c = eob - 1 by omega), if_neg (by omega)]
        dsimp only
        refine Wr.map (wr_symbol (4 * 2 * 5) 3 (s := min v.natAbs 3 - 1)
          (i := (txsCtx tx * 2 + pt) * 4 + Av1Spec.Coef.baseEobCtx (txOf tx) c)
          (mem_field _) (by simp [flatIdx, hp, ht, this]) (by omega) (by omega) (by
            rw [← txsCtx_eq]; rfl)) ?_
        congr 1; omega
      · refine ⟨_, by rw [show decide (c = eob - 1) = false by simp; omega]; exact nzMapCtx_base hl hk hx cls _, ?_⟩
        have := baseCtx_lt tx cls q x.1 x.2
        rw [if_neg h]
        unfold encodeBase
        rw [if_neg (show ¬ c = eob - 1 by omega)]
        dsimp only
        exact wr_symbol (42 * 2 * 5) 4
          (i := (txsCtx tx * 2 + pt) * 42 + Av1Spec.Coef.baseCtx (txOf tx) (clsOf cls) q x.1 x.2)
          (mem_field _) (by simp [flatIdx, hp, ht, this]) (by omega) (by omega) (by
            rw [← txsCtx_eq]; rfl)
    -- the rest of the level
    have hbr : Wr (encodeBr ⟨levelsOf tx coeffs, eob, tx, cls, txsCtx tx, pt⟩ (storage (codedH tx) x) v.natAbs)
        (if 2 < min v.natAbs 3 then Av1Spec.Coef.rdBr num
            (.coeffBr (min (txOf tx).ctx 3) pt (Av1Spec.Coef.brCtx (txOf tx) (clsOf cls) q x.1 x.2)) 4
            (min v.natAbs 3)
          else .ret (min v.natAbs 3)) (min v.natAbs 15) := by
      unfold encodeBr
      by_cases h : 2 < v.natAbs
      · rw [if_pos h, if_pos (by omega), brCtx_eq hl hk hx cls, Option.bind_some]
        have e : min v.natAbs 15 = min v.natAbs 3 + min (v.natAbs - 3 - 0) (3 * 4) := by omega
        rw [e, ← txsCtx_eq]
        exact wr_br ht hp (brCtx_lt _ _ _ _ _) 4 5 0 _ (by omega) (by omega)
      · rw [if_neg h, if_neg (by omega)]
        have e : min v.natAbs 15 = min v.natAbs 3 := by omega
        rw [e]
        exact Wr.ret _
    -- the remaining coefficients
    have hk' : Known tx ty coeffs c (fun r k => if (r, k) = x then min v.natAbs 15 else q r k) := by
      intro j y hj hy
      dsimp only
      split_ifs with h
      · have : y = x := h
        subst this; rfl
      · refine hk j y ?_ hy
        rcases Nat.lt_or_ge c j with h1 | h1
        · exact h1
        · exfalso; apply h
          have : j = c := by omega
          subst this
          rw [hx] at hy; exact (Option.some.inj hy).symm
    obtain ⟨q', hw, hq⟩ := ih _ (by omega) hk'
    refine ⟨q', ?_, hq⟩
    obtain ⟨t1, w1, o1, r1⟩ := hbase
    obtain ⟨t2, w2, o2, r2⟩ := hbr
    obtain ⟨t3, w3, o3, r3⟩ := hw
    refine ⟨(t1 ++ t2) ++ t3, ?_, (o1.append o2).append o3, ?_⟩
    · rw [encodeCoeffs]
      simp only [Option.bind_eq_bind]
      rw [e1, Option.bind_some, e2, Option.bind_some]
      unfold encodeCoeff
      simp only [Option.bind_eq_bind]
      rw [hctx, Option.bind_some, w1, Option.bind_some, w2, Option.bind_some, Option.bind_some, w3, Option.bind_some]
    · intro ts
      rw [Av1Spec.Coef.rdLevels]
      rw [e3, onToks_bind, List.append_assoc, List.append_assoc, r1, Option.bind_some, onToks_bind, r2,
        Option.bind_some]
      exact r3 ts

/-! ## Signs -/

theorem wr_sign {v : Int} (hv : v.natAbs < 2 ^ 20) :
    Wr (some (if 14 < v.natAbs then flatToks (writeGolomb (v.natAbs - 15)) else []))
      (if 14 < min v.natAbs 15 then rdGolomb.bind fun g => .ret (min v.natAbs 15 + g) else .ret (min v.natAbs 15))
      v.natAbs := by
  by_cases h : 14 < v.natAbs
  · rw [if_pos h, if_pos (by omega)]
    refine ⟨_, rfl, flat_ok ?_, ?_⟩
    · unfold writeGolomb
      intro b hb
      rcases List.mem_append.1 hb with hb | hb
      · have := List.eq_of_mem_replicate hb; omega
      · exact literal_lt _ _ b hb
    · intro ts
      rw [onToks_bind, golomb_toks _ (by omega), Option.bind_some]
      simp only [Rd.onToks]
      congr 2; omega
  · rw [if_neg h, if_neg (by omega)]
    have e : min v.natAbs 15 = v.natAbs := by omega
    rw [e]; exact Wr.ret _

theorem wr_signs {h pt dcCtx : Nat} {coeffs : List Int} {q : Nat → Nat → Nat} (hp : pt < 2) (hd : dcCtx < 3) :
    ∀ (ps : List (Nat × Nat)) (c : Nat) (a : Av1Spec.Coef.Acc), ps.Nodup →
    (∀ x ∈ ps, (coefAt coeffs h x.1 x.2).natAbs < 2 ^ 20) →
    (∀ x ∈ ps, q x.1 x.2 = min (coefAt coeffs h x.1 x.2).natAbs 15) →
    ∃ a', Wr (encodeSigns pt dcCtx c (ps.map fun x => coefAt coeffs h x.1 x.2))
        (Av1Spec.Coef.rdSigns num pt dcCtx q c ps a) a' ∧
      (∀ r k, a'.quant r k = if (r, k) ∈ ps ∧ coefAt coeffs h r k ≠ 0 then coefAt coeffs h r k else a.quant r k) ∧
      a'.cul = a.cul + ((ps.map fun x => coefAt coeffs h x.1 x.2).map Int.natAbs).sum ∧
      a'.dc = if (0, 0) ∈ ps ∧ coefAt coeffs h 0 0 ≠ 0 then (if coefAt coeffs h 0 0 < 0 then 1 else 2) else a.dc := by
  intro ps
  induction ps with
  | nil =>
    intro c a _ _ _
    exact ⟨a, Wr.ret a, fun r k => by simp, by simp, by simp⟩
  | cons x ps ih =>
    intro c a hn hb hq
    rw [List.nodup_cons] at hn
    have ih := fun c a => ih c a hn.2 (fun y hy => hb y (List.mem_cons_of_mem _ hy))
      (fun y hy => hq y (List.mem_cons_of_mem _ hy))
    have hbx := hb x List.mem_cons_self
    have hqx := hq x List.mem_cons_self
    rw [List.map_cons, encodeSigns, Av1Spec.Coef.rdSigns]
    dsimp only
    rw [hqx]
    generalize hv : coefAt coeffs h x.1 x.2 = v at *
    by_cases h0 : v = 0
    · rw [if_pos h0, if_neg (by rw [h0]; simp)]
      obtain ⟨a', hw, h1, h2, h3⟩ := ih (c + 1) a
      refine ⟨a', hw, ?_, ?_, ?_⟩
      · intro r k
        rw [h1]
        by_cases e : (r, k) = x
        · subst e
          dsimp only at hv
          rw [hv, if_neg (fun t => t.2 h0), if_neg (fun t => t.2 h0)]
        · simp [e]
      · rw [h2, h0]; simp
      · rw [h3]
        by_cases e : (0, 0) = x
        · subst e
          dsimp only at hv
          rw [hv, if_neg (fun t => t.2 h0), if_neg (fun t => t.2 h0)]
        · simp [e]
    · rw [if_neg h0, if_pos (show min v.natAbs 15 ≠ 0 by omega)]
      simp only [Option.bind_eq_bind]
      set sign : Nat := if v < 0 then 1 else 0 with hsign
      have hs2 : sign < 2 := by rw [hsign]; split_ifs <;> omega
      have hsr : Wr (if c = 0 then symbol "dc_sign_cdf" [(pt, 2), (dcCtx, 3)] sign else some [(.flat, sign)])
          (if c = 0 then Av1Spec.Coef.sym num (.dcSign pt dcCtx) else rdBit) sign := by
        split_ifs
        · exact wr_symbol (3 * 2) 2 (i := pt * 3 + dcCtx) (mem_field _) (by simp [flatIdx, hp, hd]) (by omega) hs2 rfl
        · exact wr_bit hs2
      have hgr := wr_sign hbx
      obtain ⟨a', hw, h1, h2, h3⟩ := ih (c + 1)
        { quant := fun r k => if (r, k) = x then
            (if sign ≠ 0 then -((v.natAbs % 2 ^ 20 : Nat) : Int) else (v.natAbs % 2 ^ 20 : Nat)) else a.quant r k
          cul := a.cul + v.natAbs % 2 ^ 20
          dc := if x = (0, 0) then (if sign ≠ 0 then 1 else 2) else a.dc }
      obtain ⟨t1, w1, o1, r1⟩ := hsr
      obtain ⟨t2, w2, o2, r2⟩ := hgr
      obtain ⟨t3, w3, o3, r3⟩ := hw
      have hlv : v.natAbs % 2 ^ 20 = v.natAbs := Nat.mod_eq_of_lt hbx
      refine ⟨a', ⟨(t1 ++ t2) ++ t3, ?_, (o1.append o2).append o3, ?_⟩, ?_, ?_, ?_⟩
      · by_cases hc : c = 0
        · rw [if_pos hc] at w1 ⊢
          rw [w1, Option.bind_some, w3, Option.bind_some, Option.some.inj w2]
        · rw [if_neg hc] at w1 ⊢
          rw [w1, Option.bind_some, w3, Option.bind_some, Option.some.inj w2]
      · intro ts
        rw [onToks_bind, List.append_assoc, List.append_assoc, r1, Option.bind_some, onToks_bind, r2,
          Option.bind_some]
        exact r3 ts
      · intro r k
        rw [h1]
        dsimp only
        rw [hlv]
        by_cases e : (r, k) = x
        · subst e
          dsimp only at hv
          rw [hv, if_neg (fun t => hn.1 t.1), if_pos rfl, if_pos (c := _ ∧ _) ⟨List.mem_cons_self, h0⟩]
          rcases Int.lt_or_le v 0 with hlt | hle
          · rw [if_pos hlt] at hsign; rw [if_pos (show sign ≠ 0 by omega)]; omega
          · rw [if_neg (by omega)] at hsign; rw [if_neg (show ¬ sign ≠ 0 by omega)]; omega
        · simp [e]
      · rw [h2]
        dsimp only
        rw [hlv, List.map_cons, List.sum_cons]; omega
      · rw [h3]
        dsimp only
        by_cases e : x = (0, 0)
        · subst e
          dsimp only at hv
          rw [hv, if_neg (fun t => hn.1 t.1), if_pos rfl, if_pos (c := _ ∧ _) ⟨List.mem_cons_self, h0⟩]
          rcases Int.lt_or_le v 0 with hlt | hle
          · rw [if_pos hlt] at hsign; rw [if_pos (show sign ≠ 0 by omega), if_pos hlt]
          · rw [if_neg (by omega)] at hsign; rw [if_neg (show ¬ sign ≠ 0 by omega), if_neg (by omega)]
        · have e' : (0, 0) ≠ x := fun h => e h.symm
          simp [e, e']

end Rav1e.Coef

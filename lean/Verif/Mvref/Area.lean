import Verif.Mvref.Rows
import Mathlib.Tactic.Ring

/-!
# The three rows above a block

The encoder does not scan a row again that belongs to a block which it has met in a row below; it gives that block all its weight at once.
-/

namespace Rav1e.Mvref

open Spec (Entry St Info Input Blk Geo)

variable {e : Env} {p : Input}

/-- A scan that does these visits. -/
def Exact (p : Input) (t : Visits) (P P' : Int) (f : Scan → Int → Option (Scan × Int × Bool)) : Prop :=
  ∀ st n, Plain p st → f ⟨st.map ofE, n⟩ P = some (⟨(run st (ops p t)).map ofE, n + newCount p t⟩, P', matched p t)

/-- A scan that does as if it did these visits, once the others have been done. -/
def Upto (p : Input) (seen t : Visits) (P P' : Int) (f : Scan → Int → Option (Scan × Int × Bool)) : Prop :=
  ∀ st n, Plain p st → (∀ v ∈ seen, Seen p v.1 st) → ∃ n' m, f ⟨st.map ofE, n⟩ P = some (⟨(run st (ops p t)).map ofE, n'⟩, P', m) ∧
    (matched p seen || m) = (matched p seen || matched p t)

theorem Exact.upto {t seen : Visits} {P P' : Int} {f : Scan → Int → Option (Scan × Int × Bool)} (h : Exact p t P P' f) : Upto p seen t P P' f :=
  fun st n hp _ => ⟨_, _, h st n hp, rfl⟩

theorem exact_nil {P : Int} {f : Scan → Int → Option (Scan × Int × Bool)} (h : ∀ s, f s P = some (s, P, false)) : Exact p [] P P f := by
  intro st n _
  rw [h]
  simp [ops, run, newCount, matched]

theorem upto_skip {seen : Visits} {b : Info} {P : Int} {f : Scan → Int → Option (Scan × Int × Bool)} (h : ∀ s, f s P = some (s, P, false))
    (hb : b ∈ seen.map Prod.fst) : Upto p seen [(b, 0)] P P f := by
  obtain ⟨v, hv, rfl⟩ := List.mem_map.mp hb
  intro st n _ hs
  refine ⟨n, false, ?_, ?_⟩
  · rw [h, run_again (hs v hv)]
  · rw [Bool.or_false]
    by_cases hm : keys p v.1 = []
    · simp [matched, hm]
    · have : matched p seen = true := List.any_eq_true.mpr ⟨v, hv, by simpa using hm⟩
      rw [this]; rfl

/-- What the rows above come to, for the decoder (`v`) and the encoder (`t`). -/
structure Same (p : Input) (v1 v3 v5 t1 t3 t5 : Visits) (P1 P3 P5 : Int) (s1 s3 s5 : St → Option St)
    (f1 f3 f5 : Scan → Int → Option (Scan × Int × Bool)) : Prop where
  spec1 : ∀ s, s1 s = some (apply p v1 s)
  spec3 : ∀ s, s3 s = some (apply p v3 s)
  spec5 : ∀ s, s5 s = some (apply p v5 s)
  model1 : Exact p t1 0 P1 f1
  model3 : Upto p t1 t3 P1 P3 f3
  model5 : Upto p (t1 ++ t3) t5 P3 P5 f5
  same1 : t1.map Prod.fst = v1.map Prod.fst
  same3 : t3.map Prod.fst = v3.map Prod.fst
  same5 : t5.map Prod.fst = v5.map Prod.fst
  weight : ∀ k, W (ops p t1) k + W (ops p t3) k + W (ops p t5) k = W (ops p v1) k + W (ops p v3) k + W (ops p v5) k
  small1 : total v1 ≤ 64
  small3 : total v3 ≤ 64
  small5 : total v5 ≤ 64

theorem W_one (b : Info) (n : Nat) (k : Key) : W (ops p [(b, n)]) k = n * (keys p b).count k := by
  have h : ∀ l : List Key, W (l.map (·, n)) k = n * l.count k := by
    intro l
    induction l with
    | nil => simp [W]
    | cons a l ih =>
      rw [List.map_cons, W, ih, List.count_cons]
      by_cases ha : a = k
      · simp [ha, Nat.mul_add]
        omega
      · simp [ha]
  rw [ops_cons, show ops p [] = [] from rfl, List.append_nil, h]

/-- The scan of the nearest row. -/
def Env.first (e : Env) (M : Int) (s : Scan) (P : Int) : Option (Scan × Int × Bool) := if M.natAbs ≥ 1 then e.scanRow (-1) M s P else some (s, P, false)

/-- The scan of a row further away. -/
def Env.further (e : Env) (M : Int) (adj : Bool) (idx : Nat) (s : Scan) (P : Int) : Option (Scan × Int × Bool) :=
  let off : Int := -2 * (idx : Int) + 1 + adj.toNat
  if off.natAbs ≤ M.natAbs ∧ (off.natAbs : Int) > P then e.scanRow off M s P else some (s, P, false)

/-- `row_adj`. -/
def Env.rowAdj (e : Env) : Bool := decide (e.h < 2) && decide (e.y % 2 ≠ 0)

/-- `max_row_offs`. -/
def Env.maxRow (e : Env) : Int := maxOffs e.y e.h e.t.rows e.rowAdj

/-- How many rows there are to look at. -/
def rowsMax (p : Input) : Nat := min (if p.bh4 < 2 then 4 - p.miRow % 2 else 6) (p.miRow - p.g.rowStart)

theorem high_even (C : Ctx p) (h : 2 ≤ p.bh4) : p.miRow % 2 = 0 := by
  have h1 := C.sized.high
  have h2 := C.sized.row
  simp only [List.mem_cons, List.not_mem_nil, or_false] at h1
  rcases h1 with h5 | h5 | h5 | h5 | h5 <;> rw [h5] at h2 h <;> omega

theorem wide_even (C : Ctx p) (h : 2 ≤ p.bw4) : p.miCol % 2 = 0 := by
  have h1 := C.sized.wide
  have h2 := C.sized.col
  simp only [List.mem_cons, List.not_mem_nil, or_false] at h1
  rcases h1 with h5 | h5 | h5 | h5 | h5 <;> rw [h5] at h2 h <;> omega

theorem rowAdj_eq (R : Rel e p) (C : Ctx p) : e.rowAdj.toNat = p.miRow % 2 := by
  have h1 := R.y
  have h2 := C.geo.row0
  unfold Env.rowAdj
  rw [R.h]
  by_cases h : p.bh4 < 2
  · rw [decide_eq_true h, Bool.true_and]
    by_cases h3 : e.y % 2 ≠ 0
    · rw [decide_eq_true h3]; simp only [Bool.toNat_true]; omega
    · rw [decide_eq_false h3]; simp only [Bool.toNat_false]; omega
  · rw [decide_eq_false h, Bool.false_and]
    have := high_even C (by omega)
    simp only [Bool.toNat_false]; omega

theorem maxRow_eq (R : Rel e p) (C : Ctx p) : e.maxRow = -(rowsMax p : Int) := by
  have h1 := R.y
  have h2 := C.geo.row0
  have h3 := high_even C
  have h4 := R.rows
  have h5 := C.inTile.2.1
  unfold Env.maxRow maxOffs findValidOffs rowsMax
  rw [rowAdj_eq R C, R.h]
  dsimp only
  by_cases h : p.bh4 < 2
  · rw [if_pos h, if_pos h]
    split_ifs <;> omega
  · rw [if_neg h, if_neg h]
    have := h3 (by omega)
    split_ifs <;> omega

/-- `end4`. -/
abbrev end4 (p : Input) : Nat := min (min p.bw4 (p.g.miCols - p.miCol)) 16

abbrev endMi (e : Env) : Nat := min (min e.w (e.t.cols - e.x)) 16

theorem spec_first (s : St) : p.scanRow (-1) s = p.rowLoop (-1) (0 : Nat) (end4 p) (end4 p) 0 s := rfl

theorem spec_further {d : Int} (hd : d.natAbs > 1) (s : St) :
    p.scanRow d s = p.rowLoop (d + (p.miRow % 2 : Nat)) (1 - p.miCol % 2 : Nat) (end4 p) (end4 p) 0 s := by
  unfold Spec.Input.scanRow
  dsimp only
  rw [if_pos hd, show (1 - (p.miCol % 2 : Nat) : Int) = ((1 - p.miCol % 2 : Nat) : Int) by omega]

theorem spec_outside {dr dc : Int} (h : (p.miRow : Int) + dr < p.g.rowStart) (E : Nat) (s : St) : p.rowLoop dr dc E E 0 s = some s := by
  cases E with
  | zero => rfl
  | succ E =>
    rw [Spec.Input.rowLoop, if_pos (by omega)]
    dsimp only
    rw [if_pos]
    unfold Spec.Geo.isInside
    rw [decide_eq_false (show ¬ (p.g.rowStart : Int) ≤ (p.miRow : Int) + dr by omega)]
    simp

theorem model_first (R : Rel e p) (C : Ctx p) (s : Scan) (P : Int) : e.first e.maxRow s P =
    if 1 ≤ rowsMax p then e.rowLoop (-1) (0 : Nat) e.maxRow (endMi e) (endMi e) 0 s P false else some (s, P, false) := by
  unfold Env.first
  have : e.maxRow.natAbs = rowsMax p := by rw [maxRow_eq R C]; omega
  rw [this]
  rfl

theorem model_further (R : Rel e p) (C : Ctx p) {idx : Nat} (hi : 2 ≤ idx) (s : Scan) (P : Int) : e.further e.maxRow e.rowAdj idx s P =
    if 2 * idx - 1 - p.miRow % 2 ≤ rowsMax p ∧ ((2 * idx - 1 - p.miRow % 2 : Nat) : Int) > P then
      e.rowLoop (-2 * (idx : Int) + 1 + (p.miRow % 2 : Nat)) (1 - p.miCol % 2 : Nat) e.maxRow (endMi e) (endMi e) 0 s P false
    else some (s, P, false) := by
  unfold Env.further
  have h1 : e.maxRow.natAbs = rowsMax p := by rw [maxRow_eq R C]; omega
  dsimp only
  rw [h1, rowAdj_eq R C, show (-2 * (idx : Int) + 1 + (p.miRow % 2 : Nat)).natAbs = 2 * idx - 1 - p.miRow % 2 by omega]
  congr 1
  unfold Env.scanRow
  dsimp only
  rw [if_pos (by omega)]
  have hx := R.x
  have hc := C.geo.col0
  have hw := wide_even C
  have : (if e.x % 2 ≠ 0 ∧ e.w < 2 then (0 : Int) else 1) = ((1 - p.miCol % 2 : Nat) : Int) := by
    rw [R.w]
    by_cases h : 2 ≤ p.bw4
    · have := hw h
      rw [if_neg (by omega)]; omega
    · split_ifs <;> omega
  rw [this]

/-- The encoder's scan of the third row, when the second does not cover it. -/
theorem third (R : Rel e p) (C : Ctx p) {P3 : Int} (hP : P3 ≤ 4) :
    ∃ v5 P5, total v5 ≤ 64 ∧ (∀ s, (if p.bh4 > 1 then p.scanRow (-5) s else some s) = some (apply p v5 s)) ∧
      Exact p v5 P3 P5 (e.further e.maxRow e.rowAdj 3) := by
  have hy := C.inTile.1
  by_cases h : p.bh4 > 1
  · have he := high_even C h
    by_cases h5 : p.g.rowStart + 5 ≤ p.miRow
    · have hm : rowsMax p = 6 := by
        have := C.geo.row0
        unfold rowsMax; rw [if_neg (by omega)]; omega
      have hM := maxRow_eq R C
      rw [hm] at hM
      have hdr : (-2 * ((3 : Nat) : Int) + 1 + (p.miRow % 2 : Nat)) = -5 := by omega
      have hdr' : (-5 + (p.miRow % 2 : Nat) : Int) = -5 := by omega
      obtain ⟨b, _, _, h1⟩ := row_scan R C (r := p.miRow - 5) (dr := -5) (dc := 1 - p.miCol % 2) (by omega) (by omega) (by omega)
        (.inr ⟨by decide, rfl, by omega⟩)
      have hf : ∀ s, e.further e.maxRow e.rowAdj 3 s P3 = e.rowLoop (-5) (1 - p.miCol % 2 : Nat) e.maxRow (endMi e) (endMi e) 0 s P3 false := by
        intro s
        rw [model_further R C (by omega), if_pos (by omega), hdr]
      have hs : ∀ s, (if p.bh4 > 1 then p.scanRow (-5) s else some s) = p.rowLoop (-5) (1 - p.miCol % 2 : Nat) (end4 p) (end4 p) 0 s := by
        intro s
        rw [if_pos h, spec_further (by decide), hdr']
      rcases h1 with ⟨hw, h2, h3⟩ | ⟨hw, vs, h1, h2, h3⟩
      · refine ⟨[(b.info, p.bw4 * 2)], min (-e.maxRow + -5 + 1) b.bh4 - -5 - 1, ?_, fun s => by rw [hs, h2], fun st n hp => ?_⟩
        · have := C.sized.wide
          simp only [List.mem_cons, List.not_mem_nil, or_false] at this
          simp only [total, List.map_cons, List.map_nil, List.sum_cons, List.sum_nil]; omega
        · rw [hf, h3 _ st n P3 (by rw [hM]; omega) hp]
          rw [show max 2 (min (-e.maxRow + -5 + 1) (b.bh4 : Int)).toNat = 2 by omega]
          rfl
      · exact ⟨vs, P3, h1, fun s => by rw [hs, h2], fun st n hp => by rw [hf, h3 _ st n P3 hp]⟩
    · refine ⟨[], P3, by simp [total], fun s => ?_, exact_nil fun s => ?_⟩
      · rw [if_pos h, spec_further (by decide), spec_outside (by omega)]; rfl
      · rw [model_further R C (by omega), if_neg]
        have : rowsMax p < 5 := by unfold rowsMax; omega
        omega
  · refine ⟨[], P3, by simp [total], fun s => ?_, exact_nil fun s => ?_⟩
    · rw [if_neg h]; rfl
    · rw [model_further R C (by omega), if_neg]
      have : rowsMax p ≤ 4 - p.miRow % 2 := by unfold rowsMax; rw [if_pos (by omega)]; omega
      omega

/-- A block in the tile begins in it. -/
theorem row_ge (C : Ctx p) {r c : Nat} {b : Blk} (hb : p.d r c = some b) (hr : p.g.rowStart ≤ r) : p.g.rowStart ≤ b.row := by
  have h1 := C.geo.row0
  have h2 := (C.wf.sized hb).high
  have h3 := (C.wf.sized hb).row
  have h4 := (C.wf.covers hb).2.1
  simp only [List.mem_cons, List.not_mem_nil, or_false] at h2
  rcases h2 with h5 | h5 | h5 | h5 | h5 <;> rw [h5] at h3 h4 <;> omega

theorem total_one (C : Ctx p) (b : Info) : total [(b, p.bw4 * 2)] ≤ 64 := by
  have := C.sized.wide
  simp only [List.mem_cons, List.not_mem_nil, or_false] at this
  simp only [total, List.map_cons, List.map_nil, List.sum_cons, List.sum_nil]; omega

/-- A wide block covers the columns of the block. -/
theorem wide_covers (C : Ctx p) {r j : Nat} {b : Blk} (hb : p.d r (p.miCol + j) = some b) (hj : j < p.bw4) (hw : p.bw4 ≤ b.bw4) {r' j' : Nat}
    (h1 : b.row ≤ r') (h2 : r' < b.row + b.bh4) (hj' : j' < p.bw4) : p.d r' (p.miCol + j') = some b := by
  have hs := C.wf.sized hb
  have hc := C.wf.covers hb
  unfold Spec.Blk.Covers at hc
  obtain ⟨k1, k2⟩ := contain C.sized.wide hs.wide C.sized.col hs.col hw hc.2.2.1 hc.2.2.2 hj
  exact C.wf.same hb (by unfold Spec.Blk.Covers; omega)

/-- The decoder finds a wide block that reaches the row. -/
theorem spec_wide (R : Rel e p) (C : Ctx p) {d : Int} {k : Nat} (hd : d = -(k : Int)) (hk : 3 ≤ k) (he : p.miRow % 2 = 0) {r j : Nat} {b : Blk}
    (hb : p.d r (p.miCol + j) = some b) (hj : j < p.bw4) (hw : 2 ≤ p.bw4 ∧ p.bw4 ≤ b.bw4) (hr : p.g.rowStart ≤ r) (h1 : b.row + k ≤ p.miRow)
    (h2 : p.miRow < b.row + b.bh4 + k) (s : St) : p.scanRow d s = some (apply p [(b.info, p.bw4 * 2)] s) := by
  have hdc : 1 - p.miCol % 2 < p.bw4 := by omega
  have hb' := wide_covers C hb hj hw.2 (r' := p.miRow - k) (j' := 1 - p.miCol % 2) (by omega) (by omega) hdc
  have hge := row_ge C hb hr
  obtain ⟨b', h3, _, h4⟩ := row_scan R C (r := p.miRow - k) (dr := d) (dc := 1 - p.miCol % 2) (by omega) (by omega) (by omega)
    (.inr ⟨by omega, rfl, by omega⟩)
  rw [hb'] at h3
  obtain rfl := Option.some.inj h3
  rcases h4 with ⟨_, h4, _⟩ | ⟨h4, _⟩
  · rw [spec_further (by omega), show d + (p.miRow % 2 : Nat) = d by omega, h4]
  · exact absurd hw h4

/-- The second and the third row, when the first does not cover the second. -/
theorem second (R : Rel e p) (C : Ctx p) {P1 : Int} (hP : P1 + (p.miRow % 2 : Nat) ≤ 2)
    (hn : ∀ b, p.g.rowStart < p.miRow → p.d (p.miRow - 1) (p.miCol + 0) = some b → 2 ≤ p.bw4 → p.bw4 ≤ b.bw4 → b.bh4 ≤ 2) :
    ∃ v3 v5 t3 t5 P3 P5, total v3 ≤ 64 ∧ total v5 ≤ 64 ∧ (∀ s, p.scanRow (-3) s = some (apply p v3 s)) ∧
      (∀ s, (if p.bh4 > 1 then p.scanRow (-5) s else some s) = some (apply p v5 s)) ∧
      Exact p t3 P1 P3 (e.further e.maxRow e.rowAdj 2) ∧ (∀ seen, Upto p (seen ++ t3) t5 P3 P5 (e.further e.maxRow e.rowAdj 3)) ∧
      t3.map Prod.fst = v3.map Prod.fst ∧ t5.map Prod.fst = v5.map Prod.fst ∧
      ∀ k, W (ops p t3) k + W (ops p t5) k = W (ops p v3) k + W (ops p v5) k := by
  have hy := C.inTile.1
  have hM := maxRow_eq R C
  have hev := high_even C
  have easy : ∀ (v3 : Visits) (P3 : Int), P3 ≤ 4 → total v3 ≤ 64 → (∀ s, p.scanRow (-3) s = some (apply p v3 s)) →
      Exact p v3 P1 P3 (e.further e.maxRow e.rowAdj 2) →
      ∃ v3 v5 t3 t5 P3 P5, total v3 ≤ 64 ∧ total v5 ≤ 64 ∧ (∀ s, p.scanRow (-3) s = some (apply p v3 s)) ∧
      (∀ s, (if p.bh4 > 1 then p.scanRow (-5) s else some s) = some (apply p v5 s)) ∧
      Exact p t3 P1 P3 (e.further e.maxRow e.rowAdj 2) ∧ (∀ seen, Upto p (seen ++ t3) t5 P3 P5 (e.further e.maxRow e.rowAdj 3)) ∧
      t3.map Prod.fst = v3.map Prod.fst ∧ t5.map Prod.fst = v5.map Prod.fst ∧
      ∀ k, W (ops p t3) k + W (ops p t5) k = W (ops p v3) k + W (ops p v5) k := by
    intro v3 P3 h1 h2 h3 h4
    obtain ⟨v5, P5, h5, h6, h7⟩ := third R C h1
    exact ⟨v3, v5, v3, v5, P3, P5, h2, h5, h3, h6, h4, fun _ => h7.upto, rfl, rfl, fun _ => rfl⟩
  by_cases h3 : p.g.rowStart + (3 - p.miRow % 2) ≤ p.miRow
  · have hm : 3 - p.miRow % 2 ≤ rowsMax p := by unfold rowsMax; split_ifs <;> omega
    have hm6 : rowsMax p ≤ 6 := by unfold rowsMax; split_ifs <;> omega
    have hdr : (-2 * ((2 : Nat) : Int) + 1 + (p.miRow % 2 : Nat)) = -3 + (p.miRow % 2 : Nat) := by omega
    obtain ⟨b, hb, hdc, h1⟩ := row_scan R C (r := p.miRow - (3 - p.miRow % 2)) (dr := -3 + (p.miRow % 2 : Nat)) (dc := 1 - p.miCol % 2) (by omega) (by omega)
      (by omega) (.inr ⟨by omega, rfl, by omega⟩)
    have hf : ∀ s, e.further e.maxRow e.rowAdj 2 s P1 =
        e.rowLoop (-3 + (p.miRow % 2 : Nat)) (1 - p.miCol % 2 : Nat) e.maxRow (endMi e) (endMi e) 0 s P1 false := by
      intro s
      rw [model_further R C (by omega), if_pos (by omega), hdr]
    have hs : ∀ s, p.scanRow (-3) s = p.rowLoop (-3 + (p.miRow % 2 : Nat)) (1 - p.miCol % 2 : Nat) (end4 p) (end4 p) 0 s := by
      intro s
      rw [spec_further (by decide)]
    rcases h1 with ⟨hw, h4, h5⟩ | ⟨hw, vs, h1, h4, h5⟩
    · have hk : -e.maxRow + (-3 + (p.miRow % 2 : Nat)) + 1 = (rowsMax p - 2 + p.miRow % 2 : Nat) := by omega
      rw [show max 2 p.bw4 = p.bw4 by omega] at hdc
      by_cases hinc : min (rowsMax p - 2 + p.miRow % 2) b.bh4 ≤ 2
      · refine easy [(b.info, p.bw4 * 2)] (min (rowsMax p - 2 + p.miRow % 2) b.bh4 + 2 - (p.miRow % 2 : Nat)) (by omega) (total_one C _)
          (fun s => by rw [hs, h4]) fun st n hp => ?_
        rw [hf, h5 _ st n P1 (by omega) hp, hk]
        rw [show max 2 (min ((rowsMax p - 2 + p.miRow % 2 : Nat) : Int) (b.bh4 : Int)).toNat = 2 by omega,
          show min ((rowsMax p - 2 + p.miRow % 2 : Nat) : Int) (b.bh4 : Int) - (-3 + (p.miRow % 2 : Nat)) - 1 =
            (min (rowsMax p - 2 + p.miRow % 2) b.bh4 : Nat) + 2 - (p.miRow % 2 : Nat) by omega]
        rfl
      · have hh : 2 ≤ p.bh4 := by
          by_contra hh
          have : rowsMax p ≤ 4 - p.miRow % 2 := by unfold rowsMax; rw [if_pos (by omega)]; omega
          omega
        have ha := hev hh
        have hge := row_ge C hb (by omega)
        have hcov := C.wf.covers hb
        have hsz := C.wf.sized hb
        unfold Spec.Blk.Covers at hcov
        have hends : ¬ (p.miRow - 1 < b.row + b.bh4) := by
          intro hlt
          have := hn b (by omega) (wide_covers C hb hdc hw.2 (r' := p.miRow - 1) (j' := 0) (by omega) hlt (by omega)) hw.1 hw.2
          omega
        have hend : b.row + b.bh4 = p.miRow - 2 ∧ 4 ≤ b.bh4 := by
          have q1 := hsz.high
          have q2 := hsz.row
          simp only [List.mem_cons, List.not_mem_nil, or_false] at q1
          rcases q1 with h5 | h5 | h5 | h5 | h5 <;> rw [h5] at q2 hends hcov hinc ⊢ <;> omega
        have h6 : rowsMax p = 6 := by unfold rowsMax; rw [if_neg (by omega)]; omega
        have hskip : ∀ s, e.further e.maxRow e.rowAdj 3 s 6 = some (s, 6, false) := by
          intro s
          rw [model_further R C (by omega), if_neg (by omega)]
        refine ⟨[(b.info, p.bw4 * 2)], [(b.info, p.bw4 * 2)], [(b.info, p.bw4 * 4)], [(b.info, 0)], 6, 6, total_one C _, total_one C _,
          fun s => by rw [hs, h4], fun s => ?_, fun st n hp => ?_, fun seen => upto_skip hskip (by simp), rfl, rfl, fun k => ?_⟩
        · rw [if_pos (by omega)]
          exact spec_wide R C (d := -5) (k := 5) rfl (by omega) ha hb hdc hw (by omega) (by omega) (by omega) s
        · rw [hf, h5 _ st n P1 (by omega) hp, hk]
          rw [show max 2 (min ((rowsMax p - 2 + p.miRow % 2 : Nat) : Int) (b.bh4 : Int)).toNat = 4 by omega,
            show min ((rowsMax p - 2 + p.miRow % 2 : Nat) : Int) (b.bh4 : Int) - (-3 + (p.miRow % 2 : Nat)) - 1 = 6 by omega]
          rfl
        · rw [W_one, W_one, W_one]; ring
    · exact easy vs P1 (by omega) h1 (fun s => by rw [hs, h4]) fun st n hp => by rw [hf, h5 _ st n P1 hp]
  · refine easy [] P1 (by omega) (by simp [total]) (fun s => ?_) (exact_nil fun s => ?_)
    · rw [spec_further (by decide), spec_outside (by omega)]; rfl
    · rw [model_further R C (by omega), if_neg]
      have : rowsMax p < 3 - p.miRow % 2 := by unfold rowsMax; omega
      omega

/-- **The rows above**: the encoder's scans come to what the decoder's come to. -/
theorem rows_same (R : Rel e p) (C : Ctx p) : ∃ v1 v3 v5 t1 t3 t5 P1 P3 P5, Same p v1 v3 v5 t1 t3 t5 P1 P3 P5
    (p.scanRow (-1)) (p.scanRow (-3)) (fun s => if p.bh4 > 1 then p.scanRow (-5) s else some s)
    (e.first e.maxRow) (e.further e.maxRow e.rowAdj 2) (e.further e.maxRow e.rowAdj 3) := by
  have hy := C.inTile.1
  have hM := maxRow_eq R C
  have hev := high_even C
  have hin := C.inTile
  have easy : ∀ (v1 : Visits) (P1 : Int), P1 + (p.miRow % 2 : Nat) ≤ 2 →
      (∀ b, p.g.rowStart < p.miRow → p.d (p.miRow - 1) (p.miCol + 0) = some b → 2 ≤ p.bw4 → p.bw4 ≤ b.bw4 → b.bh4 ≤ 2) →
      total v1 ≤ 64 → (∀ s, p.scanRow (-1) s = some (apply p v1 s)) → Exact p v1 0 P1 (e.first e.maxRow) →
      ∃ v1 v3 v5 t1 t3 t5 P1 P3 P5, Same p v1 v3 v5 t1 t3 t5 P1 P3 P5
        (p.scanRow (-1)) (p.scanRow (-3)) (fun s => if p.bh4 > 1 then p.scanRow (-5) s else some s)
        (e.first e.maxRow) (e.further e.maxRow e.rowAdj 2) (e.further e.maxRow e.rowAdj 3) := by
    intro v1 P1 h1 h2 h3 h4 h5
    obtain ⟨v3, v5, t3, t5, P3, P5, k1, k2, k3, k4, k5, k6, k7, k8, k9⟩ := second R C h1 h2
    exact ⟨v1, v3, v5, v1, t3, t5, P1, P3, P5, h4, k3, k4, h5, k5.upto, k6 v1, rfl, k7, k8, fun k => by have := k9 k; omega, h3, k1, k2⟩
  by_cases h1 : p.g.rowStart < p.miRow
  · have hm : 1 ≤ rowsMax p := by unfold rowsMax; split_ifs <;> omega
    have hm6 : rowsMax p ≤ 6 := by unfold rowsMax; split_ifs <;> omega
    obtain ⟨b, hb, _, h2⟩ := row_scan R C (r := p.miRow - 1) (dr := -1) (dc := 0) (by omega) (by omega) (by omega) (.inl ⟨rfl, rfl⟩)
    have hf : ∀ s, e.first e.maxRow s 0 = e.rowLoop (-1) (0 : Nat) e.maxRow (endMi e) (endMi e) 0 s 0 false := by
      intro s
      rw [model_first R C, if_pos hm]
    rcases h2 with ⟨hw, h4, h5⟩ | ⟨hw, vs, h2, h4, h5⟩
    · have hk : -e.maxRow + -1 + 1 = (rowsMax p : Int) := by omega
      have hge := row_ge C hb (by omega)
      have hcov := C.wf.covers hb
      have hsz := C.wf.sized hb
      unfold Spec.Blk.Covers at hcov
      have hend : b.row + b.bh4 = p.miRow := by
        by_contra hne
        have := wide_covers C hb (by omega) hw.2 (r' := p.miRow) (j' := 0) (by omega) (by omega) (by omega)
        rw [C.fresh (by omega) (by omega)] at this
        cases this
      have hpow : b.bh4 = 1 ∨ b.bh4 = 2 ∧ p.miRow % 2 = 0 ∨ b.bh4 = 4 ∧ p.miRow % 2 = 0 ∨ 8 ≤ b.bh4 ∧ p.miRow % 2 = 0 := by
        have q1 := hsz.high
        have q2 := hsz.row
        simp only [List.mem_cons, List.not_mem_nil, or_false] at q1
        rcases q1 with h5 | h5 | h5 | h5 | h5 <;> rw [h5] at q2 hend ⊢ <;> omega
      by_cases h2 : b.bh4 ≤ 2
      · refine easy [(b.info, p.bw4 * 2)] (min (rowsMax p) b.bh4 : Nat) (by omega) (fun b' _ hb' _ _ => ?_) (total_one C _)
          (fun s => by rw [spec_first, h4]) fun st n hp => ?_
        · rw [hb] at hb'
          rw [← Option.some.inj hb']; exact h2
        · rw [hf, h5 _ st n 0 (by omega) hp, hk]
          rw [show max 2 (min (rowsMax p : Int) (b.bh4 : Int)).toNat = 2 by omega,
            show min (rowsMax p : Int) (b.bh4 : Int) - -1 - 1 = (min (rowsMax p) b.bh4 : Nat) by omega]
          rfl
      · have ha : p.miRow % 2 = 0 := by omega
        have hspec3 := spec_wide R C (d := -3) (k := 3) rfl (by omega) ha hb (by omega) hw (by omega) (by omega) (by omega)
        by_cases h8 : 8 ≤ b.bh4 ∧ 2 ≤ p.bh4
        · have h6 : rowsMax p = 6 := by unfold rowsMax; rw [if_neg (by omega)]; omega
          have hspec5 := spec_wide R C (d := -5) (k := 5) rfl (by omega) ha hb (by omega) hw (by omega) (by omega) (by omega)
          have hskip2 : ∀ s, e.further e.maxRow e.rowAdj 2 s 6 = some (s, 6, false) := by
            intro s
            rw [model_further R C (by omega), if_neg (by omega)]
          have hskip3 : ∀ s, e.further e.maxRow e.rowAdj 3 s 6 = some (s, 6, false) := by
            intro s
            rw [model_further R C (by omega), if_neg (by omega)]
          refine ⟨[(b.info, p.bw4 * 2)], [(b.info, p.bw4 * 2)], [(b.info, p.bw4 * 2)], [(b.info, p.bw4 * 6)], [(b.info, 0)], [(b.info, 0)], 6, 6, 6,
            fun s => by rw [spec_first, h4], hspec3, fun s => ?_, fun st n hp => ?_, upto_skip hskip2 (by simp), upto_skip hskip3 (by simp),
            rfl, rfl, rfl, fun k => ?_, total_one C _, total_one C _, total_one C _⟩
          · rw [if_pos (by omega)]; exact hspec5 s
          · rw [hf, h5 _ st n 0 (by omega) hp, hk]
            rw [show max 2 (min (rowsMax p : Int) (b.bh4 : Int)).toNat = 6 by omega,
              show min (rowsMax p : Int) (b.bh4 : Int) - -1 - 1 = 6 by omega]
            rfl
          · rw [W_one, W_one, W_one]; ring
        · have h6 : min (rowsMax p) b.bh4 = 4 := by
            unfold rowsMax
            by_cases hh : p.bh4 < 2
            · rw [if_pos hh]; omega
            · rw [if_neg hh]; omega
          have hskip2 : ∀ s, e.further e.maxRow e.rowAdj 2 s 4 = some (s, 4, false) := by
            intro s
            rw [model_further R C (by omega), if_neg (by omega)]
          obtain ⟨v5, P5, k1, k2, k3⟩ := third R C (P3 := 4) (by omega)
          refine ⟨[(b.info, p.bw4 * 2)], [(b.info, p.bw4 * 2)], v5, [(b.info, p.bw4 * 4)], [(b.info, 0)], v5, 4, 4, P5,
            fun s => by rw [spec_first, h4], hspec3, k2, fun st n hp => ?_, upto_skip hskip2 (by simp), k3.upto,
            rfl, rfl, rfl, fun k => ?_, total_one C _, total_one C _, k1⟩
          · rw [hf, h5 _ st n 0 (by omega) hp, hk]
            rw [show max 2 (min (rowsMax p : Int) (b.bh4 : Int)).toNat = 4 by omega,
              show min (rowsMax p : Int) (b.bh4 : Int) - -1 - 1 = 4 by omega]
            rfl
          · rw [W_one, W_one, W_one]; ring
    · refine easy vs 0 (by omega) (fun b' _ hb' h6 h7 => ?_) h2 (fun s => by rw [spec_first, h4]) fun st n hp => by rw [hf, h5 _ st n 0 hp]
      rw [hb] at hb'
      obtain rfl := Option.some.inj hb'
      exact absurd ⟨h6, h7⟩ hw
  · refine easy [] 0 (by omega) (fun b h => absurd h h1) (by simp [total]) (fun s => ?_) (exact_nil fun s => ?_)
    · rw [spec_first, spec_outside (by omega)]; rfl
    · rw [model_first R C, if_neg]
      unfold rowsMax; omega

end Rav1e.Mvref

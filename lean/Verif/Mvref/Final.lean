import Verif.Mvref.Cols

/-!
# The stack before the extra search
-/

namespace Rav1e.Mvref

open Spec (Entry St Info Input Blk Geo)

variable {e : Env} {p : Input}

/-- Where the block above and to the right is known. -/
structure TrOk (p : Input) : Prop where
  tr : p.g.rowStart < p.miRow → In p.g (p.miRow - 1) (p.miCol + p.bw4) → (p.d (p.miRow - 1) (p.miCol + p.bw4)).isSome = hasTr p.miCol p.miRow p.bw4 p.bh4

/-- A point, for the decoder and the encoder. -/
theorem point (R : Rel e p) {dr dc : Int} {b : Option Blk}
    (hin : ∀ s, p.scanPoint dr dc s = match b with | some b => p.addRef b.info 4 s | none => s)
    {go : Prop} [Decidable go] {m : Scan → Option (Scan × Bool)}
    (hm : ∀ b', b = some b' → go ∧ ∃ blk, Shows blk b' ∧ ∀ s, m s = addRefMvCandidate e.ref0 e.ref1 blk 4 e.isCompound s)
    (hn : b = none → go → ∀ s, m s = some (s, false)) :
    ∃ vs, total vs ≤ 4 ∧ (∀ s, p.scanPoint dr dc s = apply p vs s) ∧ ∀ st n, Plain p st →
      (if go then m ⟨st.map ofE, n⟩ else some (⟨st.map ofE, n⟩, false)) = some (⟨(run st (ops p vs)).map ofE, n + newCount p vs⟩, matched p vs) := by
  cases b with
  | none =>
    refine ⟨[], by simp [total], fun s => by rw [hin]; rfl, fun st n _ => ?_⟩
    have : (⟨(run st (ops p [])).map ofE, n + newCount p []⟩ : Scan) = ⟨st.map ofE, n⟩ := by simp [run, ops, newCount]
    rw [this, show matched p [] = false from rfl]
    by_cases hg : go
    · rw [if_pos hg, hn rfl hg]
    · rw [if_neg hg]
  | some b =>
    obtain ⟨hg, blk, S, h1⟩ := hm b rfl
    refine ⟨[(b.info, 4)], by simp [total], fun s => by rw [hin]; rfl, fun st n hp => ?_⟩
    rw [if_pos hg, h1, addRef_model R S 4 hp n]

/-- The point above and to the left. -/
theorem point_tl (R : Rel e p) (C : Ctx p) : ∃ vs, total vs ≤ 4 ∧ (∀ s, p.scanPoint (-1) (-1) s = apply p vs s) ∧ ∀ st n, Plain p st →
    (if e.x > 0 ∧ e.y > 0 then e.scanBlk (-1) (-1) ⟨st.map ofE, n⟩ else some (⟨st.map ofE, n⟩, false)) =
      some (⟨(run st (ops p vs)).map ofE, n + newCount p vs⟩, matched p vs) := by
  have hx := R.x
  have hy := R.y
  have hcols := R.cols
  have hrows := R.rows
  have hin := C.inTile
  unfold In at hin
  by_cases h : e.x > 0 ∧ e.y > 0
  · have hI : In p.g (p.miRow - 1) (p.miCol - 1) := by unfold In; omega
    obtain ⟨b, hb⟩ := Option.isSome_iff_exists.mp (C.above hI (by omega) (by omega))
    refine point R (b := some b) (fun s => ?_) (fun b' hb' => ⟨h, e.t.data (e.y - 1) (e.x - 1), ?_, fun s => ?_⟩) fun h => by cases h
    · unfold Spec.Input.scanPoint
      dsimp only
      rw [show (p.miRow : Int) + -1 = ((p.miRow - 1 : Nat) : Int) by omega, show (p.miCol : Int) + -1 = ((p.miCol - 1 : Nat) : Int) by omega,
        isInside_iff.mpr hI, if_pos rfl, Int.toNat_natCast, Int.toNat_natCast, hb]
    · rw [← Option.some.inj hb']
      refine R.shows (by omega) (by omega) ?_
      rw [show p.g.rowStart + (e.y - 1) = p.miRow - 1 by omega, show p.g.colStart + (e.x - 1) = p.miCol - 1 by omega]
      exact hb
    · unfold Env.scanBlk Tile.at
      rw [if_pos (by omega), show (e.x : Int) + -1 = ((e.x - 1 : Nat) : Int) by omega, show (e.y : Int) + -1 = ((e.y - 1 : Nat) : Int) by omega]
      dsimp only
      rw [Int.toNat_natCast, Int.toNat_natCast, if_neg (by omega), if_pos (by omega)]
      rfl
  · refine point R (b := none) (fun s => ?_) (fun b' hb' => by cases hb') fun _ h' => absurd h' h
    unfold Spec.Input.scanPoint
    dsimp only
    rw [if_neg]
    unfold Spec.Geo.isInside
    simp only [Bool.and_eq_true, decide_eq_true_eq]
    omega

/-- The point above and to the right. -/
theorem point_tr (R : Rel e p) (C : Ctx p) (T : TrOk p) : ∃ vs, total vs ≤ 4 ∧
    (∀ s, (if max p.bw4 p.bh4 ≤ 16 then p.scanPoint (-1) p.bw4 s else s) = apply p vs s) ∧ ∀ st n, Plain p st →
    (if hasTr e.x e.y e.w e.h ∧ e.y > 0 then e.scanBlk e.w (-1) ⟨st.map ofE, n⟩ else some (⟨st.map ofE, n⟩, false)) =
      some (⟨(run st (ops p vs)).map ofE, n + newCount p vs⟩, matched p vs) := by
  have hx := R.x
  have hy := R.y
  have hw := R.w
  have hcols := R.cols
  have hrows := R.rows
  have hin := C.inTile
  have h16 : max p.bw4 p.bh4 ≤ 16 := by
    have h1 := C.sized.wide
    have h2 := C.sized.high
    simp only [List.mem_cons, List.not_mem_nil, or_false] at h1 h2
    omega
  have htr : hasTr e.x e.y e.w e.h = hasTr p.miCol p.miRow p.bw4 p.bh4 := by
    rw [R.w, R.h]
    have h1 := C.geo.col0
    have h2 := C.geo.row0
    rw [hasTr_mod C.sized.wide C.sized.high, hasTr_mod (x := p.miCol) C.sized.wide C.sized.high, show p.miCol % 16 = e.x % 16 by omega,
      show p.miRow % 16 = e.y % 16 by omega]
  simp only [if_pos h16]
  unfold In at hin
  by_cases h0 : e.y > 0
  · by_cases hI : In p.g (p.miRow - 1) (p.miCol + p.bw4)
    · have h1 := T.tr (by omega) hI
      cases hb : p.d (p.miRow - 1) (p.miCol + p.bw4) with
      | some b =>
        rw [hb] at h1
        have hI' := hI
        unfold In at hI'
        refine point R (b := some b) (fun s => ?_) (fun b' hb' => ⟨⟨by rw [htr, ← h1]; rfl, h0⟩, e.t.data (e.y - 1) (e.x + e.w), ?_, fun s => ?_⟩) fun h => by cases h
        · unfold Spec.Input.scanPoint
          dsimp only
          rw [show (p.miRow : Int) + -1 = ((p.miRow - 1 : Nat) : Int) by omega, show (p.miCol : Int) + p.bw4 = ((p.miCol + p.bw4 : Nat) : Int) by omega,
            isInside_iff.mpr hI, if_pos rfl, Int.toNat_natCast, Int.toNat_natCast, hb]
        · rw [← Option.some.inj hb']
          refine R.shows (by omega) (by omega) ?_
          rw [show p.g.rowStart + (e.y - 1) = p.miRow - 1 by omega, show p.g.colStart + (e.x + e.w) = p.miCol + p.bw4 by omega]
          exact hb
        · unfold Env.scanBlk Tile.at
          rw [if_pos (by omega), show (e.x : Int) + e.w = ((e.x + e.w : Nat) : Int) by omega, show (e.y : Int) + -1 = ((e.y - 1 : Nat) : Int) by omega]
          dsimp only
          rw [Int.toNat_natCast, Int.toNat_natCast, if_neg (by omega), if_pos (by omega)]
          rfl
      | none =>
        rw [hb] at h1
        refine point R (b := none) (fun s => ?_) (fun b' hb' => by cases hb') fun _ h' => ?_
        · unfold Spec.Input.scanPoint
          dsimp only
          rw [show (p.miRow : Int) + -1 = ((p.miRow - 1 : Nat) : Int) by omega, show (p.miCol : Int) + p.bw4 = ((p.miCol + p.bw4 : Nat) : Int) by omega,
            isInside_iff.mpr hI, if_pos rfl, Int.toNat_natCast, Int.toNat_natCast, hb]
        · rw [htr, ← h1] at h'
          exact absurd h'.1 (by simp)
    · unfold In at hI
      refine point R (b := none) (fun s => ?_) (fun b' hb' => by cases hb') fun _ _ s => ?_
      · unfold Spec.Input.scanPoint
        dsimp only
        rw [if_neg]
        unfold Spec.Geo.isInside
        simp only [Bool.and_eq_true, decide_eq_true_eq]
        omega
      · unfold Env.scanBlk
        rw [if_pos (by omega)]
        dsimp only
        rw [if_pos (by omega)]
  · refine point R (b := none) (fun s => ?_) (fun b' hb' => by cases hb') fun _ h' => absurd h'.2 h0
    unfold Spec.Input.scanPoint
    dsimp only
    rw [if_neg]
    unfold Spec.Geo.isInside
    simp only [Bool.and_eq_true, decide_eq_true_eq]
    omega

/-! ### The steps of the encoder -/

theorem nearest_def : e.nearest e.maxRow e.T.maxRow = (e.first e.maxRow ⟨[], 0⟩ 0).bind fun r => (e.T.first e.T.maxRow r.1 0).bind fun c =>
    (if hasTr e.x e.y e.w e.h ∧ e.y > 0 then e.scanBlk e.w (-1) c.1 else some (c.1, false)).bind fun q =>
      some (q.1, r.2.1, c.2.1, r.2.2 || q.2, c.2.2) := by
  unfold Env.nearest Env.first
  simp only [mscanCol_T]
  split_ifs <;> rfl

theorem outerStep_def (idx : Nat) (s : Scan) (P Q : Int) (rm cm : Bool) : e.outerStep e.maxRow e.T.maxRow e.rowAdj e.T.rowAdj idx s P Q rm cm =
    (e.further e.maxRow e.rowAdj idx s P).bind fun r => (e.T.further e.T.maxRow e.T.rowAdj idx r.1 Q).bind fun c =>
      some (c.1, r.2.1, c.2.1, rm || r.2.2, cm || c.2.2) := by
  unfold Env.outerStep Env.further
  simp only [mscanCol_T]
  split_ifs <;> rfl

theorem outer_def (stack : List Cand) (P Q : Int) (rm cm : Bool) : e.outer e.maxRow e.T.maxRow e.rowAdj e.T.rowAdj stack P Q rm cm =
    (if e.x > 0 ∧ e.y > 0 then e.scanBlk (-1) (-1) ⟨stack, 0⟩ else some (⟨stack, 0⟩, false)).bind fun q =>
      (e.outerStep e.maxRow e.T.maxRow e.rowAdj e.T.rowAdj 2 q.1 P Q (rm || q.2) cm).bind fun a =>
        (e.outerStep e.maxRow e.T.maxRow e.rowAdj e.T.rowAdj 3 a.1 a.2.1 a.2.2.1 a.2.2.2.1 a.2.2.2.2).bind fun b => some (b.1, b.2.2.2.1, b.2.2.2.2) := by
  unfold Env.outer
  split_ifs <;> rfl

theorem spec_outer_def (s : St) (a l : Bool) : p.outer s a l =
    (p.scanRow (-3) { p.scanPoint (-1) (-1) { s with foundMatch := false } with foundMatch := false }).bind fun s3 =>
      (p.scanCol (-3) { s3 with foundMatch := false }).bind fun c3 =>
        ((fun s => if p.bh4 > 1 then p.scanRow (-5) s else some s) { c3 with foundMatch := false }).bind fun s5 =>
          ((fun s => if p.bw4 > 1 then p.scanCol (-5) s else some s) { s5 with foundMatch := false }).bind fun c5 =>
            some (c5, a || (p.scanPoint (-1) (-1) { s with foundMatch := false }).foundMatch || s3.foundMatch || s5.foundMatch,
              l || c3.foundMatch || c5.foundMatch) := by
  unfold Spec.Input.outer
  dsimp only
  split_ifs <;> rfl

/-- What is found before the extra search: the visits of the decoder near the block (`N`) and further away (`F`), the matches, and the encoder's result. -/
structure Found (e : Env) (p : Input) (N F : Visits) (a l a' l' : Bool) : Prop where
  smallN : total N ≤ 132
  smallF : total F ≤ 260
  nearest : ∃ f, p.nearest = some (⟨run [] (ops p N), newCount p N, f⟩, a, l)
  outer : ∀ n f, ∃ n' f', p.outer ⟨near (ops p N), n, f⟩ a l = some (⟨run (near (ops p N)) (ops p F), n', f'⟩, a', l')
  mono : (a = true → a' = true) ∧ (l = true → l' = true)
  model : ∃ st P Q n', e.nearest e.maxRow e.T.maxRow = some (⟨st, newCount p N⟩, P, Q, a, l) ∧
    e.outer e.maxRow e.T.maxRow e.rowAdj e.T.rowAdj (addOffset st) P Q a l = some (⟨(run (near (ops p N)) (ops p F)).map ofE, n'⟩, a', l')

theorem plain_near (p : Input) (N : Visits) : Plain p (near (ops p N)) := by
  intro hc x hx
  unfold near at hx
  obtain ⟨y, hy, rfl⟩ := List.mem_map.mp hx
  exact plain_run (p := p) (s := []) (fun _ _ h => by cases h) N hc y hy

theorem near_map (p : Input) (N : Visits) : addOffset ((run [] (ops p N)).map ofE) = (near (ops p N)).map ofE := by
  unfold addOffset near
  rw [List.map_map, List.map_map]
  rfl

theorem seen_near {N : Visits} {v : Info × Nat} (hv : v ∈ N) : Seen p v.1 (near (ops p N)) := (seen_visit hv []).map

theorem total_append (a b : Visits) : total (a ++ b) = total a + total b := by simp [total]

theorem newCount_append (a b : Visits) : newCount p (a ++ b) = newCount p a + newCount p b := by simp [newCount]

theorem matched_append (a b : Visits) : matched p (a ++ b) = (matched p a || matched p b) := by simp [matched]

/-- **Everything before the extra search.** -/
theorem found (R : Rel e p) (C : Ctx p) (T : TrOk p) : ∃ N F a l a' l', Found e p N F a l a' l' := by
  obtain ⟨v1, v3, v5, t1, t3, t5, P1, P3, P5, S⟩ := rows_same R C
  obtain ⟨u1, u3, u5, r1, r3, r5, Q1, Q3, Q5, U⟩ := cols_same R C
  obtain ⟨tr, tr1, tr2, tr3⟩ := point_tr R C T
  obtain ⟨tl, tl1, tl2, tl3⟩ := point_tl R C
  have k1 : matched p v1 = matched p t1 := matched_congr p S.same1.symm
  have k2 : matched p u1 = matched p r1 := matched_congr p U.same1.symm
  have k3 : matched p v3 = matched p t3 := matched_congr p S.same3.symm
  have k4 : matched p u3 = matched p r3 := matched_congr p U.same3.symm
  have k5 : matched p v5 = matched p t5 := matched_congr p S.same5.symm
  have k6 : matched p u5 = matched p r5 := matched_congr p U.same5.symm
  have hN : (ops p (t1 ++ r1 ++ tr)).map Prod.fst = (ops p (v1 ++ u1 ++ tr)).map Prod.fst :=
    ops_keys p (by simp only [List.map_append, S.same1, U.same1])
  have hF : (ops p (tl ++ t3 ++ r3 ++ t5 ++ r5)).map Prod.fst = (ops p (tl ++ v3 ++ u3 ++ v5 ++ u5)).map Prod.fst :=
    ops_keys p (by simp only [List.map_append, S.same3, U.same3, S.same5, U.same5])
  have hcong : run (near (ops p (t1 ++ r1 ++ tr))) (ops p (tl ++ t3 ++ r3 ++ t5 ++ r5)) =
      run (near (ops p (v1 ++ u1 ++ tr))) (ops p (tl ++ v3 ++ u3 ++ v5 ++ u5)) := by
    refine final_congr hN hF fun k => ?_
    simp only [ops_append, W_append]
    have h1 := S.weight k
    have h2 := U.weight k
    omega
  have nil : Plain p [] := fun _ _ h => by cases h
  refine ⟨v1 ++ u1 ++ tr, tl ++ v3 ++ u3 ++ v5 ++ u5, matched p t1 || matched p tr, matched p r1,
    matched p t1 || matched p tr || matched p tl || matched p t3 || matched p t5, matched p r1 || matched p r3 || matched p r5, ?_⟩
  refine ⟨?_, ?_, ⟨matched p tr, ?_⟩, fun n f => ?_, ⟨?_, ?_⟩, ?_⟩
  · simp only [total_append]
    have := S.small1; have := U.small1; omega
  · simp only [total_append]
    have := S.small3; have := U.small3; have := S.small5; have := U.small5; omega
  · unfold Spec.Input.nearest
    rw [S.spec1]
    simp only [Option.bind_eq_bind, Option.bind_some]
    rw [U.spec1]
    simp only [Option.bind_some, tr2, apply_eq, Bool.false_or, Nat.zero_add, k1, k2, ops_append, run_append, newCount_append]
    rfl
  · refine ⟨n + newCount p tl + newCount p v3 + newCount p u3 + newCount p v5 + newCount p u5, matched p r5, ?_⟩
    rw [spec_outer_def, tl2, S.spec3]
    simp only [Option.bind_some]
    rw [U.spec3]
    simp only [Option.bind_some]
    rw [S.spec5]
    simp only [Option.bind_some]
    rw [U.spec5]
    simp only [Option.bind_some, apply_eq, Bool.false_or, k3, k4, k5, k6, ops_append, run_append]
  · intro h; rw [h]; rfl
  · intro h; rw [h]; rfl
  · obtain ⟨n3, m3, f3, f3'⟩ := S.model3 (run (near (ops p (t1 ++ r1 ++ tr))) (ops p tl)) (0 + newCount p tl) (plain_run (plain_near p _) _)
      fun v hv => (seen_near (by simp [hv])).run _
    obtain ⟨n3', m3', g3, g3'⟩ := U.model3 (run (run (near (ops p (t1 ++ r1 ++ tr))) (ops p tl)) (ops p t3)) n3 (plain_run (plain_run (plain_near p _) _) _)
      fun v hv => ((seen_near (by simp [hv])).run _).run _
    obtain ⟨n5, m5, f5, f5'⟩ := S.model5 (run (run (run (near (ops p (t1 ++ r1 ++ tr))) (ops p tl)) (ops p t3)) (ops p r3)) n3'
      (plain_run (plain_run (plain_run (plain_near p _) _) _) _) fun v hv => by
        rcases List.mem_append.mp hv with hv | hv
        · exact (((seen_near (by simp [hv])).run _).run _).run _
        · exact (seen_visit hv _).run _
    obtain ⟨n5', m5', g5, g5'⟩ := U.model5 (run (run (run (run (near (ops p (t1 ++ r1 ++ tr))) (ops p tl)) (ops p t3)) (ops p r3)) (ops p t5)) n5
      (plain_run (plain_run (plain_run (plain_run (plain_near p _) _) _) _) _) fun v hv => by
        rcases List.mem_append.mp hv with hv | hv
        · exact ((((seen_near (by simp [hv])).run _).run _).run _).run _
        · exact (seen_visit hv _).run _
    refine ⟨(run [] (ops p (t1 ++ r1 ++ tr))).map ofE, P1, Q1, n5', ?_, ?_⟩
    · rw [nearest_def]
      have h1 := S.model1 [] 0 nil
      rw [List.map_nil] at h1
      rw [h1]
      simp only [Option.bind_some]
      rw [U.model1 _ _ (plain_run nil _)]
      simp only [Option.bind_some]
      rw [tr3 _ _ (plain_run (plain_run nil _) _)]
      simp only [Option.bind_some, Nat.zero_add, ops_append, run_append, newCount_append, newCount_congr p S.same1, newCount_congr p U.same1]
    · rw [outer_def, near_map, tl3 _ _ (plain_near p _)]
      simp only [Option.bind_some]
      rw [outerStep_def, f3]
      simp only [Option.bind_some]
      rw [g3]
      simp only [Option.bind_some]
      rw [outerStep_def, f5]
      simp only [Option.bind_some]
      rw [g5]
      simp only [Option.bind_some]
      rw [← hcong]
      simp only [ops_append, run_append]
      rw [matched_append] at f5' g5'
      have e1 : (matched p t1 || matched p tr || matched p tl || m3 || m5) = (matched p t1 || matched p tr || matched p tl || matched p t3 || matched p t5) := by
        revert f3' f5'
        cases matched p t1 <;> cases matched p tr <;> cases matched p tl <;> cases matched p t3 <;> cases matched p t5 <;> cases m3 <;> cases m5 <;> decide
      have e2 : (matched p r1 || m3' || m5') = (matched p r1 || matched p r3 || matched p r5) := by
        revert g3' g5'
        cases matched p r1 <;> cases matched p r3 <;> cases matched p r5 <;> cases m3' <;> cases m5' <;> decide
      rw [e1, e2]

end Rav1e.Mvref

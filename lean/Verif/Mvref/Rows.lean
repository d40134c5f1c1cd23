import Verif.Mvref.Scan

/-!
# Scanning rows
-/

namespace Rav1e.Mvref

open Spec (Entry St Info Input Blk Geo)

variable {e : Env} {p : Input}

theorem isInside_iff {g : Geo} {r c : Nat} : g.isInside r c = true ↔ In g r c := by
  unfold Spec.Geo.isInside In
  simp only [Bool.and_eq_true, decide_eq_true_eq]
  omega

theorem Rel.get (R : Rel e p) {r c : Nat} {dr dc : Int} {b : Blk} (hi : In p.g r c) (hr : (p.miRow : Int) + dr = r) (hc : (p.miCol : Int) + dc = c)
    (hd : p.d r c = some b) : ∃ blk, e.t.atOffset e.x e.y dc dr = some blk ∧ Shows blk b := by
  have h1 := R.x
  have h2 := R.y
  have h3 := R.cols
  have h4 := R.rows
  unfold In at hi
  have ex : (e.x : Int) + dc = (c - p.g.colStart : Nat) := by omega
  have ey : (e.y : Int) + dr = (r - p.g.rowStart : Nat) := by omega
  refine ⟨_, ?_, R.shows (r := r - p.g.rowStart) (c := c - p.g.colStart) (by omega) (by omega) ?_⟩
  · unfold Tile.atOffset Tile.at
    rw [if_pos (by omega), ex, ey, Int.toNat_natCast, Int.toNat_natCast, if_pos (by omega)]
  · rw [show p.g.rowStart + (r - p.g.rowStart) = r by omega, show p.g.colStart + (c - p.g.colStart) = c by omega]
    exact hd

/-- A step of the decoder's loop. -/
theorem spec_step {r c : Nat} {dr dc : Int} {end4 fuel i : Nat} {b : Blk} (hi : In p.g r c) (hr : (p.miRow : Int) + dr = r)
    (hc : (p.miCol : Int) + dc + i = c) (hd : p.d r c = some b) (hl : i < end4) (s : St) :
    p.rowLoop dr dc end4 (fuel + 1) i s =
      p.rowLoop dr dc end4 fuel (i + stepLen p.bw4 b.bw4 dr) (apply p [(b.info, stepLen p.bw4 b.bw4 dr * 2)] s) := by
  have el : (if p.bw4 ≥ 16 then max 4 (if dr.natAbs > 1 then max 2 (min p.bw4 b.bw4) else min p.bw4 b.bw4)
      else if dr.natAbs > 1 then max 2 (min p.bw4 b.bw4) else min p.bw4 b.bw4) = stepLen p.bw4 b.bw4 dr := by
    unfold stepLen
    dsimp only
    split_ifs <;> omega
  rw [Spec.Input.rowLoop, if_pos hl]
  dsimp only
  rw [hr, hc, isInside_iff.mpr hi, if_neg (by simp), Int.toNat_natCast, Int.toNat_natCast, hd]
  simp only [Option.bind_eq_bind, Option.bind_some, el]
  rfl

/-- A step of the encoder's loop at a block that is not wide. -/
theorem model_narrow (R : Rel e p) {r c : Nat} {dr dc : Int} {end4 fuel i : Nat} {b : Blk} (hi : In p.g r c) (hr : (p.miRow : Int) + dr = r)
    (hc : (p.miCol : Int) + dc + i = c) (hd : p.d r c = some b) (hl : i < end4) (hw : ¬ (2 ≤ p.bw4 ∧ p.bw4 ≤ b.bw4)) {st : List Entry} (hp : Plain p st)
    (n : Nat) (M P : Int) (f : Bool) :
    e.rowLoop dr dc M end4 (fuel + 1) i ⟨st.map ofE, n⟩ P f =
      e.rowLoop dr dc M end4 fuel (i + stepLen p.bw4 b.bw4 dr) ⟨(run st (ops p [(b.info, stepLen p.bw4 b.bw4 dr * 2)])).map ofE,
        n + newCount p [(b.info, stepLen p.bw4 b.bw4 dr * 2)]⟩ P (f || matched p [(b.info, stepLen p.bw4 b.bw4 dr * 2)]) := by
  obtain ⟨blk, h1, S⟩ := R.get (dc := dc + i) hi hr (by omega) hd
  have hwide : (decide (e.w ≥ 2) && decide (e.w ≤ blk.n4w)) = false := by
    rw [R.w, S.w, ← Bool.decide_and]
    exact decide_eq_false hw
  rw [Env.rowLoop, if_pos hl, h1]
  simp only [Option.bind_eq_bind, Option.bind_some]
  rw [hwide, if_neg (by simp)]
  simp only [Bool.false_eq_true, if_false, R.w, S.w]
  rw [addRef_model R S _ hp n]
  rfl

/-- A step of the encoder's loop at a wide block. -/
theorem model_wide (R : Rel e p) {r c : Nat} {dr dc : Int} {end4 fuel i : Nat} {b : Blk} (hi : In p.g r c) (hr : (p.miRow : Int) + dr = r)
    (hc : (p.miCol : Int) + dc + i = c) (hd : p.d r c = some b) (hl : i < end4) (hw : 2 ≤ p.bw4 ∧ p.bw4 ≤ b.bw4) {st : List Entry} (hp : Plain p st)
    (n : Nat) {M : Int} (hM : 0 ≤ -M + dr + 1) (P : Int) (f : Bool) :
    e.rowLoop dr dc M end4 (fuel + 1) i ⟨st.map ofE, n⟩ P f =
      e.rowLoop dr dc M end4 fuel (i + stepLen p.bw4 b.bw4 dr)
        ⟨(run st (ops p [(b.info, stepLen p.bw4 b.bw4 dr * max 2 (min (-M + dr + 1) b.bh4).toNat)])).map ofE, n + newCount p [(b.info, 0)]⟩
        (min (-M + dr + 1) b.bh4 - dr - 1) (f || matched p [(b.info, 0)]) := by
  obtain ⟨blk, h1, S⟩ := R.get (dc := dc + i) hi hr (by omega) hd
  have hwide : (decide (e.w ≥ 2) && decide (e.w ≤ blk.n4w)) = true := by
    rw [R.w, S.w, ← Bool.decide_and]
    exact decide_eq_true hw
  rw [Env.rowLoop, if_pos hl, h1]
  simp only [Option.bind_eq_bind, Option.bind_some]
  rw [hwide, S.h, if_neg (show ¬ ((true && decide (min (-M + dr + 1) (b.bh4 : Int) < 0)) = true) from by
    rw [Bool.true_and, decide_eq_true_iff]; omega)]
  simp only [if_true, R.w, S.w]
  rw [addRef_model R S _ hp n]
  rfl

theorem stepLen_pow {w W : Nat} {dr : Int} (hw : w ∈ [1, 2, 4, 8, 16]) (hW : W ∈ [1, 2, 4, 8, 16]) :
    1 ≤ stepLen w W dr ∧ stepLen w W dr ≤ 16 ∧ (dr.natAbs > 1 → stepLen w W dr % 2 = 0) := by
  simp only [List.mem_cons, List.not_mem_nil, or_false] at hw hW
  unfold stepLen
  dsimp only
  rcases hw with rfl | rfl | rfl | rfl | rfl <;> rcases hW with rfl | rfl | rfl | rfl | rfl <;> (split_ifs <;> omega)

theorem stepLen_wide {w W : Nat} {dr : Int} (h : 2 ≤ w ∧ w ≤ W) : stepLen w W dr = w := by
  unfold stepLen
  dsimp only
  split_ifs <;> omega

/-- Where no block is wide both loops visit the same blocks. -/
theorem narrow (R : Rel e p) (C : Ctx p) {r : Nat} {dr : Int} {dc end4 : Nat} (hr : (p.miRow : Int) + dr = r) (par : dr.natAbs > 1 ∨ dc = 0)
    (hpos : ∀ i < end4, (dc = 0 ∨ i % 2 = 0) →
      In p.g r (p.miCol + dc + i) ∧ ∃ b, p.d r (p.miCol + dc + i) = some b ∧ ¬ (2 ≤ p.bw4 ∧ p.bw4 ≤ b.bw4)) :
    ∀ fuel i, end4 ≤ i + fuel → (dc = 0 ∨ i % 2 = 0) → ∃ vs, total vs ≤ (if i < end4 then 2 * (end4 + 16 - i) else 0) ∧
      (∀ s, p.rowLoop dr dc end4 fuel i s = some (apply p vs s)) ∧
      ∀ (M : Int) (st : List Entry) (n : Nat) (P : Int) (f : Bool), Plain p st → e.rowLoop dr dc M end4 fuel i ⟨st.map ofE, n⟩ P f =
        some (⟨(run st (ops p vs)).map ofE, n + newCount p vs⟩, P, f || matched p vs) := by
  have stop : ∀ fuel i, ¬ i < end4 → ∃ vs, total vs ≤ (if i < end4 then 2 * (end4 + 16 - i) else 0) ∧
      (∀ s, p.rowLoop dr dc end4 fuel i s = some (apply p vs s)) ∧
      ∀ (M : Int) (st : List Entry) (n : Nat) (P : Int) (f : Bool), Plain p st → e.rowLoop dr dc M end4 fuel i ⟨st.map ofE, n⟩ P f =
        some (⟨(run st (ops p vs)).map ofE, n + newCount p vs⟩, P, f || matched p vs) := by
    intro fuel i hl
    refine ⟨[], by simp [total], fun s => ?_, fun M st n P f _ => ?_⟩
    · cases fuel <;> (rw [Spec.Input.rowLoop, if_neg hl]; rfl)
    · cases fuel <;> (rw [Env.rowLoop, if_neg hl]; simp [run, ops, newCount, matched])
  intro fuel
  induction fuel with
  | zero => intro i h _; exact stop 0 i (by omega)
  | succ fuel ih =>
    intro i h hev
    by_cases hl : i < end4
    · obtain ⟨hi, b, hd, hw⟩ := hpos i hl hev
      obtain ⟨l1, l2, l3⟩ := stepLen_pow (dr := dr) C.sized.wide (C.wf.sized hd).wide
      have hc : (p.miCol : Int) + (dc : Nat) + i = (p.miCol + dc + i : Nat) := by omega
      have hev' : dc = 0 ∨ (i + stepLen p.bw4 b.bw4 dr) % 2 = 0 := by
        rcases par with h1 | h1
        · rcases hev with h2 | h2
          · exact .inl h2
          · have := l3 h1; right; omega
        · exact .inl h1
      obtain ⟨vs, h1, h2, h3⟩ := ih (i + stepLen p.bw4 b.bw4 dr) (by omega) hev'
      generalize hL : stepLen p.bw4 b.bw4 dr = L at *
      refine ⟨(b.info, L * 2) :: vs, ?_, fun s => ?_, fun M st n P f hp => ?_⟩
      · rw [if_pos hl]
        have : total ((b.info, L * 2) :: vs) = L * 2 + total vs := by simp [total]
        rw [this]
        split_ifs at h1 <;> omega
      · rw [spec_step hi hr hc hd hl, hL, h2]; rfl
      · rw [model_narrow R hi hr hc hd hl hw hp, hL, h3 M _ _ P _ (plain_run hp _), ← run_append, ← ops_append]
        have en : newCount p ((b.info, L * 2) :: vs) = newCount p [(b.info, L * 2)] + newCount p vs := by simp [newCount]
        have em : matched p ((b.info, L * 2) :: vs) = (matched p [(b.info, L * 2)] || matched p vs) := by simp [matched]
        rw [en, em, Nat.add_assoc, Bool.or_assoc]
        rfl
    · exact stop _ i hl

/-- Blocks that are at least as wide as the block itself contain its columns. -/
theorem contain {w W x c0 j : Nat} (hw : w ∈ [1, 2, 4, 8, 16]) (hW : W ∈ [1, 2, 4, 8, 16]) (hx : x % w = 0) (hc : c0 % W = 0) (hle : w ≤ W)
    (h1 : c0 ≤ x + j) (h2 : x + j < c0 + W) (hj : j < w) : c0 ≤ x ∧ x + w ≤ c0 + W := by
  simp only [List.mem_cons, List.not_mem_nil, or_false] at hw hW
  rcases hw with rfl | rfl | rfl | rfl | rfl <;> rcases hW with rfl | rfl | rfl | rfl | rfl <;> omega

/-- Where the decoder's and the encoder's loops end. -/
theorem end_eq (C : Ctx p) : min (min p.bw4 (p.g.colEnd - p.miCol)) 16 = min (min p.bw4 (p.g.miCols - p.miCol)) 16 ∧
    (p.g.colEnd - p.miCol) % 2 = p.miCol % 2 := by
  have h1 := C.geo.colEnd
  have h2 := C.geo.cols
  have h3 := C.geo.colLe
  have h4 := C.sized.col
  have h5 := C.sized.wide
  have h6 := C.inTile.2.2
  simp only [List.mem_cons, List.not_mem_nil, or_false] at h5
  rcases h1 with h1 | h1
  · rw [h1]; omega
  · rcases h5 with h5 | h5 | h5 | h5 | h5 <;> rw [h5] at h4 ⊢ <;> omega

/-- A row of a scan: its block, if that is wide, or the same blocks. -/
theorem row_scan (R : Rel e p) (C : Ctx p) {r : Nat} {dr : Int} {dc : Nat} (hr : (p.miRow : Int) + dr = r) (h0 : p.g.rowStart ≤ r) (hlt : r < p.miRow)
    (hd : dr.natAbs = 1 ∧ dc = 0 ∨ dr.natAbs > 1 ∧ dc = 1 - p.miCol % 2 ∧ r < p.miRow - p.miRow % 2) :
    ∃ b, p.d r (p.miCol + dc) = some b ∧ dc < max 2 p.bw4 ∧
      ((2 ≤ p.bw4 ∧ p.bw4 ≤ b.bw4) ∧
          (∀ s, p.rowLoop dr dc (min (min p.bw4 (p.g.miCols - p.miCol)) 16) (min (min p.bw4 (p.g.miCols - p.miCol)) 16) 0 s = some (apply p [(b.info, p.bw4 * 2)] s)) ∧
          (∀ (M : Int) (st : List Entry) (n : Nat) (P : Int), 0 ≤ -M + dr + 1 → Plain p st →
            e.rowLoop dr dc M (min (min e.w (e.t.cols - e.x)) 16) (min (min e.w (e.t.cols - e.x)) 16) 0 ⟨st.map ofE, n⟩ P false =
            some (⟨(run st (ops p [(b.info, p.bw4 * max 2 (min (-M + dr + 1) b.bh4).toNat)])).map ofE, n + newCount p [(b.info, 0)]⟩,
              min (-M + dr + 1) b.bh4 - dr - 1, matched p [(b.info, 0)])) ∨
        ¬ (2 ≤ p.bw4 ∧ p.bw4 ≤ b.bw4) ∧ ∃ vs, total vs ≤ 64 ∧
          (∀ s, p.rowLoop dr dc (min (min p.bw4 (p.g.miCols - p.miCol)) 16) (min (min p.bw4 (p.g.miCols - p.miCol)) 16) 0 s = some (apply p vs s)) ∧
          (∀ (M : Int) (st : List Entry) (n : Nat) (P : Int), Plain p st →
            e.rowLoop dr dc M (min (min e.w (e.t.cols - e.x)) 16) (min (min e.w (e.t.cols - e.x)) 16) 0 ⟨st.map ofE, n⟩ P false =
            some (⟨(run st (ops p vs)).map ofE, n + newCount p vs⟩, P, matched p vs))) := by
  obtain ⟨q1, q2⟩ := end_eq C
  have hsz := C.sized.wide
  have hcol := C.sized.col
  have hin := C.inTile
  have hend : min (min e.w (e.t.cols - e.x)) 16 = min (min p.bw4 (p.g.miCols - p.miCol)) 16 := by
    rw [R.w, ← q1]
    have := R.x
    have := R.cols
    congr 2
    omega
  rw [hend]
  generalize hE : min (min p.bw4 (p.g.miCols - p.miCol)) 16 = E at *
  have hE1 : 1 ≤ E ∧ E ≤ 16 ∧ E ≤ p.bw4 ∧ p.miCol + E ≤ p.g.colEnd := by
    have : 1 ≤ p.bw4 := by simp only [List.mem_cons, List.not_mem_nil, or_false] at hsz; omega
    have := hin.2.2
    omega
  have heven : 2 ≤ p.bw4 → p.bw4 % 2 = 0 ∧ p.miCol % 2 = 0 := by
    intro h
    simp only [List.mem_cons, List.not_mem_nil, or_false] at hsz
    rcases hsz with h5 | h5 | h5 | h5 | h5 <;> rw [h5] at hcol h ⊢ <;> omega
  -- what is visited has been decoded
  have some : ∀ i < E, (dc = 0 ∨ i % 2 = 0) → In p.g r (p.miCol + dc + i) ∧ (dc + i < p.bw4 ∨ p.bw4 = 1) ∧ ∃ b, p.d r (p.miCol + dc + i) = some b := by
    intro i hi hev
    have hrr : p.g.rowStart ≤ r ∧ r < p.g.rowEnd := ⟨h0, by have := hin.2.1; omega⟩
    have hc0 := hin.2.2.1
    by_cases h2 : 2 ≤ p.bw4
    · obtain ⟨h3, h4⟩ := heven h2
      have hlt2 : dc + i < E := by
        rcases hd with hd | hd <;> omega
      have hI : In p.g r (p.miCol + dc + i) := ⟨hrr.1, hrr.2, by omega, by omega⟩
      exact ⟨hI, .inl (by omega), Option.isSome_iff_exists.mp (C.above hI hlt (by omega))⟩
    · have h1 : p.bw4 = 1 := by omega
      have hi0 : i = 0 := by omega
      subst hi0
      have hI : In p.g r (p.miCol + dc + 0) := ⟨hrr.1, hrr.2, by omega, by omega⟩
      refine ⟨hI, .inr h1, Option.isSome_iff_exists.mp ?_⟩
      rcases hd with hd | hd
      · exact C.above hI hlt (by omega)
      · exact C.above2 hI hd.2.2 (by omega)
  obtain ⟨hI0, hj0, b, hb⟩ := some 0 (by omega) (.inr rfl)
  have hdc : dc < max 2 p.bw4 := by omega
  refine ⟨b, hb, hdc, ?_⟩
  by_cases hw : 2 ≤ p.bw4 ∧ p.bw4 ≤ b.bw4
  · left
    have hc : (p.miCol : Int) + (dc : Nat) + (0 : Nat) = (p.miCol + dc + 0 : Nat) := by omega
    have hlen : stepLen p.bw4 b.bw4 dr = p.bw4 := stepLen_wide hw
    obtain ⟨F, hF⟩ : ∃ F, E = F + 1 := ⟨E - 1, by omega⟩
    have fuel : ∀ G, G = F + 1 → G = E := fun G h => by omega
    refine ⟨hw, fun s => ?_, fun M st n P hM hp => ?_⟩
    · have := spec_step (end4 := E) (fuel := F) hI0 hr hc hb (by omega) s
      rw [hlen, ← hF] at this
      rw [this]
      have stop : ∀ s, p.rowLoop dr dc E F (0 + p.bw4) s = Option.some s := by
        intro s
        cases F <;> (rw [Spec.Input.rowLoop, if_neg (by omega)])
      rw [stop]
    · have := model_wide (end4 := E) (fuel := F) R hI0 hr hc hb (by omega) hw hp n hM P false
      rw [hlen, ← hF] at this
      rw [this]
      have stop : ∀ s P f, e.rowLoop dr dc M E F (0 + p.bw4) s P f = Option.some (s, P, f) := by
        intro s P f
        cases F <;> (rw [Env.rowLoop, if_neg (by omega)])
      rw [stop, Bool.false_or]
  · right
    refine ⟨hw, ?_⟩
    have hpos : ∀ i < E, (dc = 0 ∨ i % 2 = 0) → In p.g r (p.miCol + dc + i) ∧ ∃ b, p.d r (p.miCol + dc + i) = Option.some b ∧ ¬ (2 ≤ p.bw4 ∧ p.bw4 ≤ b.bw4) := by
      intro i hi hev
      obtain ⟨h1, h2, b', h3⟩ := some i hi hev
      refine ⟨h1, b', h3, fun h4 => hw ?_⟩
      have hs' := C.wf.sized h3
      have hc' := C.wf.covers h3
      unfold Spec.Blk.Covers at hc'
      obtain ⟨k1, k2⟩ := contain (j := dc + i) hsz hs'.wide hcol hs'.col h4.2 (by omega) (by omega) (by omega)
      have h5 : b'.Covers r (p.miCol + dc + 0) := by
        unfold Spec.Blk.Covers; omega
      have := C.wf.same h3 h5
      rw [hb] at this
      rw [Option.some.inj this]
      exact h4
    obtain ⟨vs, h1, h2, h3⟩ := narrow R C hr (by rcases hd with h | h <;> omega) hpos E 0 (by omega) (.inr rfl)
    refine ⟨vs, ?_, h2, fun M st n P hp => ?_⟩
    · split_ifs at h1 <;> omega
    · rw [h3 M st n P false hp, Bool.false_or]

end Rav1e.Mvref

import Verif.Sched.Rcv

/-!
# The decoder follows the schedule
-/

namespace Rav1e.Sched

open Spec

variable {F O M : Type}

theorem relativeDist_eq (a b : Nat) : relativeDist a b = dist (a % 64) (b % 64) := by
  unfold relativeDist dist
  simp only [Int.bmod]
  split <;> omega

/-- `dist` is the true difference when it is small. -/
theorem dist_true (a b : Nat) (h1 : a ≤ b + 16) (h2 : b ≤ a + 16) :
    dist (a % 64) (b % 64) = (a : Int) - b := by
  unfold dist
  simp only [Int.bmod]
  split <;> omega

/-- The decoder's view of a reference. -/
def toSlot (r : Ref) : Slot := ⟨r.orderHint % 64, r.orderHint = 0, some r.pic⟩

section
variable (c : Cfg) (K : Nat → Bool) (lim : Option Nat)

/-- The decoder's slots when it has decoded everything before output `o`. -/
def decSlots (o : Nat) : List (Option Slot) :=
  (slotsAt c K lim .recon o).map (Option.map toSlot)

theorem decSlots_zero : decSlots c K lim 0 = Dec.init.slots := by
  simp [decSlots, slotsAt, RefSet.empty, Dec.init]

theorem ref_decSlots (o i : Nat) (out : List (Option Pic)) :
    Dec.ref ⟨decSlots c K lim o, out⟩ i = ((slotsAt c K lim .recon o).at i).map toSlot := by
  unfold Dec.ref decSlots RefSet.at
  rw [List.getD_eq_getElem?_getD, List.getD_eq_getElem?_getD, List.getElem?_map]
  cases (slotsAt c K lim .recon o)[i]? <;> rfl

theorem update_refresh (s : RefSet) (flags : Nat) (r : Ref) :
    Spec.update (s.map (Option.map toSlot)) flags (toSlot r) =
      (s.refresh flags r).map (Option.map toSlot) := by
  unfold Spec.update RefSet.refresh
  apply List.ext_getElem?
  intro i
  rw [List.getElem?_mapIdx, List.getElem?_map, List.getElem?_map, List.getElem?_mapIdx]
  cases s[i]? with
  | none => rfl
  | some x =>
    simp only [Option.map_some]
    split <;> rfl

theorem hint_pos (hv : c.Valid) {o : Nat} {p : FI Unit} (hp : plan c K lim o = some p) :
    p.ftype = .key ↔ p.orderHint = 0 := by
  rcases classify c K lim hv o with ⟨gs, h1, h2, -⟩ | ⟨hr, gs, go, j, idx, h1, h2, h3, h4, -, h5⟩ |
      ⟨hr, gs, go, k, h1, h2, h3, h4, -, h5⟩
  · rw [plan_key c K lim h1] at hp; cases hp; simp [FI.strip, newKeyFrame]
  · rw [plan_R c K lim hv hr h1 h2 h3] at hp
    split at hp
    · cases hp
      simp only [stR, reduceCtorEq, false_iff]
      unfold off; split <;> omega
    · cases hp
  · rw [plan_L c K lim hr h1 h2 h3, if_pos h4] at hp
    cases hp
    simp only [stL]
    constructor
    · split <;> simp
    · omega

/-- References of an inter frame: filled, and in the same group of pictures. -/
theorem ref_held (hv : c.Valid) {o : Nat} {p : FI Unit} (hp : plan c K lim o = some p)
    (hk : p.ftype ≠ .key) (hs : p.sef = false) (i : Nat) (hi : i ∈ p.refs) :
    ∃ r m, (slotsAt c K lim .recon o).at i = some r ∧ r.pic = .recon m ∧
      dist (r.orderHint % 64) (p.orderHint % 64) = (m : Int) - p.input := by
  have hlt := (refs_lt c K lim hv hp).1 i hi
  have hfp := plan_facts c K lim hv hp
  have ho : 0 < o := by
    rcases Nat.eq_zero_or_pos o with e | e
    · subst e
      exact absurd (hfp.2.2.2.2.1.2 rfl) hk
    · exact e
  obtain ⟨o', rfl⟩ : ∃ o', o = o' + 1 := ⟨o - 1, by omega⟩
  obtain ⟨r, q, x1, x2, x3, x4, x5, x6⟩ := slotsAt_held c K lim .recon hv o' i (by omega)
  refine ⟨r, q.input, x1, by rw [x5], ?_⟩
  have hd := ref_distance c K lim .recon hv hp hk hs i hi
  unfold hintAt at hd
  rw [x1] at hd
  simp only at hd
  rw [dist_true _ _ hd.1 hd.2]
  have hq := (plan_facts c K lim hv x3).2.2.2.2.2.2.2.2
  have hsch : sched c K lim (o' + 1) = sched c K lim o' := by
    have hne : (sched c K lim (o' + 1)).2 ≠ o' + 1 :=
      fun e => hk (hfp.2.2.2.2.1.2 e)
    rw [sched] at hne
    rw [sched]
    split
    · rename_i hc; rw [if_pos hc] at hne; exact absurd rfl hne
    · rfl
  have hpi := hfp.2.2.2.2.2.2.2.2
  rw [hsch] at hpi
  rw [x6] at hq
  have hro : r.orderHint = q.orderHint := by rw [x5]
  omega

theorem agrees_plan (hv : c.Valid) {o : Nat} {p : FI Unit} (hp : plan c K lim o = some p)
    (hk : p.ftype ≠ .key) (hs : p.sef = false) (out : List (Option Pic)) :
    agrees c.stillPicture ⟨decSlots c K lim o, out⟩ (p.orderHint % 64) p.refs
      ⟨p.refs.map (slotsAt c K lim .recon o).at,
       signBias c.stillPicture (slotsAt c K lim .recon o) p.refs p.orderHint⟩ := by
  refine ⟨?_, ?_, ?_⟩
  · simp only [List.map_map]
    apply List.map_congr_left
    intro i hi
    rw [ref_decSlots]
    simp only [Function.comp]
    cases (slotsAt c K lim .recon o).at i <;> rfl
  · intro i hi
    obtain ⟨r, m, h1, h2, -⟩ := ref_held c K lim hv hp hk hs i hi
    rw [ref_decSlots, h1]; rfl
  · unfold signBias
    apply List.map_congr_left
    intro i hi
    rw [ref_decSlots]
    cases (slotsAt c K lim .recon o).at i with
    | none => simp
    | some r =>
      simp only [Option.map_some, toSlot]
      rw [relativeDist_eq]
      cases c.stillPicture <;> simp

/-- Decoding the frame at output `o`. -/
theorem dec_unit (hv : c.Valid) {o : Nat} {p : FI Unit} (hp : plan c K lim o = some p)
    (out : List (Option Pic)) :
    unitOk (M := M) c.stillPicture ⟨decSlots c K lim o, out⟩ (obuOf c K lim o p) ∧
    Dec.step (M := M) c.stillPicture ⟨decSlots c K lim o, out⟩ (obuOf c K lim o p) =
      ⟨decSlots c K lim (o + 1),
        if p.shown then out ++ [some (.recon p.input)] else out⟩ := by
  have hfp := plan_facts c K lim hv hp
  unfold obuOf
  cases hs : p.sef with
  | true =>
    simp only [if_true]
    obtain ⟨o', q, h1, -⟩ := sef_right c K lim .recon hv hp hs
    have hsh := hfp.2.2.2.2.2.2.1 hs
    have hnk : p.orderHint ≠ 0 := by
      intro h
      have hk := (hint_pos c K lim hv hp).2 h
      have := (hfp.2.2.2.2.2.1 hk).1
      rw [hs] at this; cases this
    have href : Dec.ref ⟨decSlots c K lim o, out⟩ p.slot =
        some ⟨p.orderHint % 64, false, some (.recon p.input)⟩ := by
      rw [ref_decSlots, h1]; simp [toSlot, hnk]
    constructor
    · exact ⟨_, href, rfl, rfl⟩
    · unfold Dec.step
      simp only [href, hsh, if_true, Bool.false_eq_true, if_false]
      congr 1
      unfold decSlots
      rw [slotsAt, hp]
      simp only [hs, if_true]
  | false =>
    simp only [Bool.false_eq_true, if_false]
    by_cases hk : p.ftype = .key
    · constructor
      · exact Or.inl hk
      · unfold Dec.step
        simp only [hk, true_or, if_true]
        have hh := (hint_pos c K lim hv hp).1 hk
        congr 1
        rw [show (⟨p.orderHint % 64, decide True, some (.recon p.input)⟩ : Slot) =
          toSlot ⟨p.orderHint, o, .recon p.input⟩ by simp [toSlot, hh]]
        unfold decSlots
        rw [update_refresh]
        congr 1
        conv => rhs; rw [slotsAt, hp]
        simp only [hs, Bool.false_eq_true, if_false]
    · have hag := agrees_plan c K lim hv hp hk hs out
      simp only [hk, if_false]
      constructor
      · refine Or.inr ⟨(refs_lt c K lim hv hp).2.1, hag, ?_⟩
        intro i hi
        obtain ⟨r, m, h1, h2, h3⟩ := ref_held c K lim hv hp hk hs i hi
        refine ⟨toSlot r, m, ?_, ?_, h3⟩
        · rw [ref_decSlots, h1]; rfl
        · simp only [toSlot, h2]
      · unfold Dec.step
        simp only [hk, false_or, hag, if_true, decide_false]
        have hh : p.orderHint ≠ 0 := fun h => hk ((hint_pos c K lim hv hp).2 h)
        congr 1
        rw [show (⟨p.orderHint % 64, false, some (.recon p.input)⟩ : Slot) =
          toSlot ⟨p.orderHint, o, .recon p.input⟩ by simp [toSlot, hh]]
        unfold decSlots
        rw [update_refresh]
        congr 1
        conv => rhs; rw [slotsAt, hp]
        simp only [hs, Bool.false_eq_true, if_false]

theorem conforms_append (n : Bool) (d : Dec) (a b : List (Obu M)) :
    Conforms n d (a ++ b) ↔ Conforms n d a ∧ Conforms n (d.run n a) b := by
  induction a generalizing d with
  | nil => simp [Conforms, Dec.run]
  | cons u a ih =>
    simp only [List.cons_append, Conforms, ih, and_assoc]
    rfl

theorem run_append (n : Bool) (d : Dec) (a b : List (Obu M)) :
    d.run n (a ++ b) = (d.run n a).run n b := by
  unfold Dec.run; rw [List.foldl_append]

/-- Headers and metadata do not change the decoder state. -/
theorem run_headers (n : Bool) (d : Dec) (a : List (Obu M))
    (h : ∀ u ∈ a, u = .td ∨ u = .seqHdr ∨ ∃ m, u = .t35 m) :
    Conforms n d a ∧ d.run n a = d := by
  induction a with
  | nil => exact ⟨trivial, rfl⟩
  | cons u a ih =>
    have ih' := ih (fun v hv => h v (List.mem_cons_of_mem _ hv))
    rcases h u (List.mem_cons_self ..) with e | e | ⟨m, e⟩ <;> subst e <;>
      exact ⟨⟨trivial, ih'.1⟩, ih'.2⟩

theorem dec_units (hv : c.Valid) {o : Nat} {p : FI Unit} (hp : plan c K lim o = some p)
    (t : List M) (out : List (Option Pic)) :
    Conforms c.stillPicture ⟨decSlots c K lim o, out⟩ (unitsOf c K lim o p t) ∧
    Dec.run c.stillPicture ⟨decSlots c K lim o, out⟩ (unitsOf c K lim o p t) =
      ⟨decSlots c K lim (o + 1),
        if p.shown then out ++ [some (.recon p.input)] else out⟩ := by
  unfold unitsOf
  obtain ⟨h1, h2⟩ := run_headers c.stillPicture ⟨decSlots c K lim o, out⟩
    ((if p.ftype = .key then [.seqHdr] else []) ++ t.map .t35) (by
      intro u hu
      rcases List.mem_append.1 hu with h | h
      · split at h
        · simp at h; exact Or.inr (Or.inl h)
        · cases h
      · obtain ⟨m, _, e⟩ := List.mem_map.1 h
        exact Or.inr (Or.inr ⟨m, e.symm⟩))
  obtain ⟨h3, h4⟩ := dec_unit (M := M) c K lim hv hp out
  generalize (if p.ftype = .key then [Obu.seqHdr] else []) ++ t.map Obu.t35 = hd at *
  rw [conforms_append, run_append, h2]
  refine ⟨⟨h1, h3, trivial⟩, ?_⟩
  unfold Dec.run
  simp only [List.foldl_cons, List.foldl_nil]
  exact h4

theorem decSlots_hole {a b : Nat} (h : a ≤ b)
    (hn : ∀ k, a ≤ k → k < b → plan c K lim k = none) :
    decSlots c K lim b = decSlots c K lim a := by
  unfold decSlots
  rw [slotsAt_keep c K lim .recon a b h]
  rintro k h1 h2 ⟨p, hp, -⟩
  rw [hn k h1 h2] at hp; cases hp

/-- After a key frame the slots do not depend on what was there before. -/
theorem dec_key_fresh (hv : c.Valid) {o : Nat} {p : FI Unit} (hp : plan c K lim o = some p)
    (hk : p.ftype = .key) (t : List M) :
    Conforms c.stillPicture Dec.init (unitsOf c K lim o p t) ∧
    Dec.run c.stillPicture Dec.init (unitsOf c K lim o p t) =
      ⟨decSlots c K lim (o + 1), [some (.recon p.input)]⟩ := by
  have hfp := (plan_facts c K lim hv hp).2.2.2.2.2.1 hk
  have hh := (hint_pos c K lim hv hp).1 hk
  unfold unitsOf
  obtain ⟨h1, h2⟩ := run_headers c.stillPicture Dec.init
    ((if p.ftype = .key then [.seqHdr] else []) ++ t.map .t35) (by
      intro u hu
      rcases List.mem_append.1 hu with h | h
      · rw [if_pos hk] at h
        simp at h; exact Or.inr (Or.inl h)
      · obtain ⟨m, _, e⟩ := List.mem_map.1 h
        exact Or.inr (Or.inr ⟨m, e.symm⟩))
  generalize (if p.ftype = .key then [Obu.seqHdr] else []) ++ t.map Obu.t35 = hd at *
  rw [conforms_append, run_append, h2]
  have hobu : (obuOf c K lim o p : Obu M) = .frame .key true (p.orderHint % 64) 255 p.refs
      p.primary p.input ⟨[], []⟩ := by
    unfold obuOf
    rw [hfp.1]
    simp only [Bool.false_eq_true, if_false, hk, hfp.2.1, hfp.2.2.1, if_true]
  rw [hobu]
  refine ⟨⟨h1, Or.inl rfl, trivial⟩, ?_⟩
  unfold Dec.run
  simp only [List.foldl_cons, List.foldl_nil]
  unfold Dec.step
  simp only [true_or, if_true]
  have e0 : Dec.init.slots = RefSet.empty.map (Option.map toSlot) := rfl
  rw [show (⟨p.orderHint % 64, decide True, some (.recon p.input)⟩ : Slot) =
          toSlot ⟨p.orderHint, o, .recon p.input⟩ by simp [toSlot, hh], e0, update_refresh]
  congr 1
  unfold decSlots
  congr 1
  conv => rhs; rw [slotsAt, hp]
  simp only [hfp.1, Bool.false_eq_true, if_false, hfp.2.2.1]
  exact RefSet.refresh_all _ _ rfl (slotsAt_length ..) _

end
end Rav1e.Sched

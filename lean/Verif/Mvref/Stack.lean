import Verif.Mvref.Order
import Mathlib.Data.List.Nodup
import Mathlib.Tactic.SplitIfs

/-!
# The stack as a function of what was added

However weights are spread over additions, the stack holds the first eight different pairs of vectors in the order of their first appearance, each with
the sum of its weights.
-/

namespace Rav1e.Mvref

open Spec (Entry St Info Input)

abbrev Key := Spec.Mv × Spec.Mv

/-- One addition. -/
def step (s : List Entry) (o : Key × Nat) : List Entry :=
  match Spec.addWeight o.1.1 o.1.2 o.2 s with
  | some l => l
  | none => if s.length < 8 then s ++ [⟨o.1.1, o.1.2, o.2⟩] else s

def run (s : List Entry) (ops : List (Key × Nat)) : List Entry := ops.foldl step s

def kstep (l : List Key) (k : Key) : List Key := if k ∈ l then l else if l.length < 8 then l ++ [k] else l

def krun (l : List Key) (ks : List Key) : List Key := ks.foldl kstep l

def mk (l : List Key) (f : Key → Nat) : List Entry := l.map fun k => ⟨k.1, k.2, f k⟩

/-- The sum of the weights added for a pair. -/
def W : List (Key × Nat) → Key → Nat
  | [], _ => 0
  | o :: l, k => (if o.1 = k then o.2 else 0) + W l k

theorem W_append (a b : List (Key × Nat)) (k : Key) : W (a ++ b) k = W a k + W b k := by
  induction a with
  | nil => simp [W]
  | cons o a ih => simp only [List.cons_append, W, ih]; omega

theorem mk_congr {l : List Key} {f g : Key → Nat} (h : ∀ k ∈ l, f k = g k) : mk l f = mk l g := by
  unfold mk
  apply List.map_congr_left
  intro k hk
  rw [h k hk]

theorem mk_length (l : List Key) (f : Key → Nat) : (mk l f).length = l.length := by simp [mk]

theorem addWeight_mk (k : Key) (w : Nat) (f : Key → Nat) : ∀ {l : List Key}, l.Nodup →
    Spec.addWeight k.1 k.2 w (mk l f) = if k ∈ l then some (mk l fun k' => f k' + if k = k' then w else 0) else none := by
  intro l
  induction l with
  | nil => intro _; rfl
  | cons a l ih =>
    intro hn
    obtain ⟨h1, h2⟩ := List.nodup_cons.mp hn
    show Spec.addWeight k.1 k.2 w (⟨a.1, a.2, f a⟩ :: mk l f) = _
    rw [Spec.addWeight]
    by_cases ha : k = a
    · subst ha
      rw [if_pos ⟨rfl, rfl⟩, if_pos List.mem_cons_self]
      have e : mk l f = mk l fun k' => f k' + if k = k' then w else 0 := by
        apply mk_congr
        intro k' hk'
        rw [if_neg]
        · rfl
        · rintro rfl; exact h1 hk'
      rw [e]
      show some _ = some (mk (k :: l) _)
      simp only [mk, List.map_cons, if_pos]
    · have hne : ¬ (a.1 = k.1 ∧ a.2 = k.2) := fun h => ha (Prod.ext h.1.symm h.2.symm)
      rw [if_neg hne, ih h2]
      by_cases hk : k ∈ l
      · rw [if_pos hk, if_pos (List.mem_cons_of_mem _ hk)]
        simp only [mk, Option.map_some, List.map_cons, if_neg ha, Nat.add_zero]
      · rw [if_neg hk, if_neg]
        · rfl
        · intro h
          rcases List.mem_cons.mp h with h | h
          · exact ha h
          · exact hk h

theorem kstep_nodup {l : List Key} (k : Key) (hn : l.Nodup) : (kstep l k).Nodup := by
  unfold kstep
  split_ifs with h1 h2
  · exact hn
  · rw [List.nodup_append]
    refine ⟨hn, List.nodup_singleton _, ?_⟩
    intro a ha b hb
    rw [List.mem_singleton] at hb
    subst hb
    rintro rfl
    exact h1 ha
  · exact hn

theorem kstep_le {l : List Key} (k : Key) (h : l.length ≤ 8) : (kstep l k).length ≤ 8 := by
  unfold kstep
  split_ifs with h1 h2
  · exact h
  · rw [List.length_append, List.length_singleton]; omega
  · exact h

theorem kstep_prefix (l : List Key) (k : Key) : l <+: kstep l k := by
  unfold kstep
  split_ifs
  · exact List.prefix_rfl
  · exact List.prefix_append _ _
  · exact List.prefix_rfl

theorem mem_kstep {l : List Key} {k : Key} (h : (kstep l k).length < 8) : k ∈ kstep l k := by
  unfold kstep at h ⊢
  by_cases h1 : k ∈ l
  · rw [if_pos h1]; exact h1
  · rw [if_neg h1] at h ⊢
    by_cases h2 : l.length < 8
    · rw [if_pos h2]; exact List.mem_append_right _ List.mem_cons_self
    · rw [if_neg h2] at h; omega

theorem krun_prefix (ks : List Key) : ∀ l : List Key, l <+: krun l ks := by
  induction ks with
  | nil => intro l; exact List.prefix_rfl
  | cons k ks ih => intro l; exact (kstep_prefix l k).trans (ih _)

theorem krun_nodup (ks : List Key) : ∀ {l : List Key}, l.Nodup → (krun l ks).Nodup := by
  induction ks with
  | nil => intro l h; exact h
  | cons k ks ih => intro l h; exact ih (kstep_nodup k h)

theorem krun_le (ks : List Key) : ∀ {l : List Key}, l.length ≤ 8 → (krun l ks).length ≤ 8 := by
  induction ks with
  | nil => intro l h; exact h
  | cons k ks ih => intro l h; exact ih (kstep_le k h)

theorem step_mk {l : List Key} {f : Key → Nat} (k : Key) (w : Nat) (hn : l.Nodup) (h0 : l.length < 8 → ∀ k ∉ l, f k = 0) :
    step (mk l f) (k, w) = mk (kstep l k) fun k' => f k' + if k = k' then w else 0 := by
  unfold step
  rw [addWeight_mk k w f hn]
  unfold kstep
  by_cases hk : k ∈ l
  · rw [if_pos hk, if_pos hk]
  · rw [if_neg hk, if_neg hk]
    have e : mk l f = mk l fun k' => f k' + if k = k' then w else 0 := by
      apply mk_congr
      intro k' hk'
      rw [if_neg]
      · rfl
      · rintro rfl; exact hk hk'
    dsimp only
    rw [mk_length]
    by_cases hl : l.length < 8
    · rw [if_pos hl, if_pos hl, e]
      simp only [mk, List.map_append, List.map_cons, List.map_nil, if_pos, h0 hl k hk, Nat.zero_add]
    · rw [if_neg hl, if_neg hl]; exact e

theorem run_mk (ops : List (Key × Nat)) : ∀ {l : List Key} {f : Key → Nat}, l.Nodup → (l.length < 8 → ∀ k ∉ l, f k = 0) →
    run (mk l f) ops = mk (krun l (ops.map Prod.fst)) fun k => f k + W ops k := by
  induction ops with
  | nil => intro l f _ _; rfl
  | cons o ops ih =>
    intro l f hn h0
    show run (step (mk l f) (o.1, o.2)) ops = _
    rw [step_mk o.1 o.2 hn h0, ih (kstep_nodup _ hn)]
    · apply mk_congr
      intro k _
      simp only [W]
      omega
    · intro hl k hk
      have hp := (kstep_prefix l o.1).length_le
      have hkl : k ∉ l := fun h => hk ((kstep_prefix l o.1).subset h)
      rw [h0 (by omega) k hkl, if_neg]
      rintro rfl
      exact hk (mem_kstep hl)

/-- The nearest additions, the offset, the others. -/
def near (a : List (Key × Nat)) : List Entry := (run [] a).map fun e => { e with weight := e.weight + 640 }

theorem near_mk (a : List (Key × Nat)) : near a = mk (krun [] (a.map Prod.fst)) fun k => W a k + if k ∈ krun [] (a.map Prod.fst) then 640 else 0 := by
  unfold near
  have : run [] a = mk (krun [] (a.map Prod.fst)) fun k => 0 + W a k := run_mk a (l := []) (f := fun _ => 0) List.nodup_nil (fun _ _ _ => rfl)
  rw [this]
  simp only [mk, List.map_map]
  apply List.map_congr_left
  intro k hk
  simp only [Function.comp, Nat.zero_add, if_pos hk]

/-- Pairs that are not in a stack that is not full have no weight. -/
theorem W_zero (a : List (Key × Nat)) : ∀ {l : List Key}, (krun l (a.map Prod.fst)).length < 8 → ∀ k ∉ krun l (a.map Prod.fst), W a k = 0 := by
  induction a with
  | nil => intro l _ k _; rfl
  | cons o a ih =>
    intro l hl k hk
    have hl' : (krun (kstep l o.1) (a.map Prod.fst)).length < 8 := hl
    have hk' : k ∉ krun (kstep l o.1) (a.map Prod.fst) := hk
    rw [W, ih hl' k hk', if_neg]
    rintro rfl
    apply hk'
    apply (krun_prefix _ _).subset
    have hp := (krun_prefix (a.map Prod.fst) (kstep l o.1)).length_le
    exact mem_kstep (by omega)

theorem final_mk (a b : List (Key × Nat)) : run (near a) b = mk (krun (krun [] (a.map Prod.fst)) (b.map Prod.fst))
    fun k => W a k + (if k ∈ krun [] (a.map Prod.fst) then 640 else 0) + W b k := by
  rw [near_mk, run_mk b (krun_nodup _ List.nodup_nil)]
  intro hl k hk
  rw [W_zero a hl k hk, if_neg hk]

/-- Weights may be added earlier or later. -/
theorem final_congr {a b a' b' : List (Key × Nat)} (ha : a.map Prod.fst = a'.map Prod.fst) (hb : b.map Prod.fst = b'.map Prod.fst)
    (hw : ∀ k, W a k + W b k = W a' k + W b' k) : run (near a) b = run (near a') b' := by
  rw [final_mk, final_mk, ha, hb]
  apply mk_congr
  intro k _
  have := hw k
  omega

/-! ### Blocks that are visited -/

/-- The pairs that a block adds. -/
def keys (p : Input) (b : Info) : List Key :=
  if b.isInter = false then []
  else if p.isCompound = false then 
    (if b.ref0 = p.ref0 then [(Spec.lower b.mv0, (0, 0))] else []) ++ (if b.ref1 = p.ref0 then [(Spec.lower b.mv1, (0, 0))] else [])
  else if b.ref0 = p.ref0 ∧ b.ref1 = p.ref1 then [(Spec.lower b.mv0, Spec.lower b.mv1)] else []

abbrev Visits := List (Info × Nat)

def ops (p : Input) (vs : Visits) : List (Key × Nat) := vs.flatMap fun v => (keys p v.1).map (·, v.2)

def matched (p : Input) (vs : Visits) : Bool := vs.any fun v => !(keys p v.1).isEmpty

def newCount (p : Input) (vs : Visits) : Nat := (vs.map fun v => if v.1.hasNewmv then (keys p v.1).length else 0).sum

def apply (p : Input) (vs : Visits) (s : St) : St := vs.foldl (fun s v => p.addRef v.1 v.2 s) s

theorem searchStack_eq (b : Info) (mv0 mv1 : Spec.Mv) (w : Nat) (s : St) : Spec.searchStack b mv0 mv1 w s =
    ⟨step s.stack ((mv0, mv1), w), s.newMvCount + (if b.hasNewmv then 1 else 0), true⟩ := rfl

theorem addRef_eq (p : Input) (b : Info) (w : Nat) (s : St) : p.addRef b w s =
    ⟨run s.stack ((keys p b).map (·, w)), s.newMvCount + (if b.hasNewmv then (keys p b).length else 0), s.foundMatch || !(keys p b).isEmpty⟩ := by
  obtain ⟨st, n, f⟩ := s
  unfold Spec.Input.addRef keys
  by_cases h1 : b.isInter = false
  · simp [h1, run]
  · by_cases h2 : p.isCompound = false
    · by_cases h3 : b.ref0 = p.ref0 <;> by_cases h4 : b.ref1 = p.ref0 <;> by_cases h5 : b.hasNewmv <;>
        simp [h1, h2, h3, h4, h5, run, searchStack_eq]
    · by_cases h3 : b.ref0 = p.ref0 ∧ b.ref1 = p.ref1 <;> by_cases h5 : b.hasNewmv <;>
        simp [h1, h2, h3, h5, run, searchStack_eq]

theorem run_append (s : List Entry) (a b : List (Key × Nat)) : run s (a ++ b) = run (run s a) b := List.foldl_append ..

theorem ops_append (p : Input) (a b : Visits) : ops p (a ++ b) = ops p a ++ ops p b := List.flatMap_append ..

theorem ops_cons (p : Input) (v : Info × Nat) (vs : Visits) : ops p (v :: vs) = (keys p v.1).map (·, v.2) ++ ops p vs := rfl

theorem apply_eq (p : Input) (vs : Visits) : ∀ s : St, apply p vs s = ⟨run s.stack (ops p vs), s.newMvCount + newCount p vs, s.foundMatch || matched p vs⟩ := by
  induction vs with
  | nil => intro s; simp [apply, run, ops, newCount, matched]
  | cons v vs ih =>
    intro s
    show apply p vs (p.addRef v.1 v.2 s) = _
    rw [ih, addRef_eq, ops_cons, run_append]
    simp only [newCount, matched, List.map_cons, List.sum_cons, List.any_cons, Bool.or_assoc, Nat.add_assoc]

theorem apply_append (p : Input) (a b : Visits) (s : St) : apply p (a ++ b) s = apply p b (apply p a s) := List.foldl_append ..

/-- Same blocks, so same pairs in the same order. -/
theorem ops_keys (p : Input) : ∀ {a b : Visits}, a.map Prod.fst = b.map Prod.fst → (ops p a).map Prod.fst = (ops p b).map Prod.fst := by
  have e : ∀ a : Visits, (ops p a).map Prod.fst = (a.map Prod.fst).flatMap (keys p) := by
    intro a
    induction a with
    | nil => rfl
    | cons v a ih =>
      rw [ops_cons, List.map_append, ih, List.map_map]
      have h1 : List.map (Prod.fst ∘ fun x => (x, v.2)) (keys p v.1) = keys p v.1 := by
        have : (Prod.fst ∘ fun x : Key => (x, v.2)) = id := rfl
        rw [this, List.map_id]
      rw [h1]
      rfl
  intro a b h
  rw [e, e, h]

theorem matched_congr (p : Input) {a b : Visits} (h : a.map Prod.fst = b.map Prod.fst) : matched p a = matched p b := by
  have e : ∀ a : Visits, matched p a = (a.map Prod.fst).any fun b => !(keys p b).isEmpty := by
    intro a; unfold matched; rw [List.any_map]; rfl
  rw [e, e, h]

theorem newCount_congr (p : Input) {a b : Visits} (h : a.map Prod.fst = b.map Prod.fst) : newCount p a = newCount p b := by
  have e : ∀ a : Visits, newCount p a = ((a.map Prod.fst).map fun b => if b.hasNewmv then (keys p b).length else 0).sum := by
    intro a; unfold newCount; rw [List.map_map]; rfl
  rw [e, e, h]

/-- The sum of all weights bounds each. -/
def total (vs : Visits) : Nat := (vs.map Prod.snd).sum

theorem keys_length (p : Input) (b : Info) : (keys p b).length ≤ 2 := by
  unfold keys
  split_ifs <;> simp

theorem W_le (p : Input) (vs : Visits) (k : Key) : W (ops p vs) k ≤ 2 * total vs := by
  induction vs with
  | nil => simp [ops, W, total]
  | cons v vs ih =>
    rw [ops_cons, W_append]
    have h1 : ∀ l : List Key, W (l.map (·, v.2)) k ≤ l.length * v.2 := by
      intro l
      induction l with
      | nil => simp [W]
      | cons a l ihl =>
        simp only [List.map_cons, W, List.length_cons, Nat.succ_mul]
        split_ifs <;> omega
    have h2 := h1 (keys p v.1)
    have h3 : (keys p v.1).length * v.2 ≤ 2 * v.2 := Nat.mul_le_mul_right _ (keys_length p v.1)
    simp only [total, List.map_cons, List.sum_cons] at ih ⊢
    omega

/-- The pairs of a block have been added, or there was no room for them. -/
def Seen (p : Input) (b : Info) (s : List Entry) : Prop := ∀ k ∈ keys p b, s.length ≥ 8 ∨ ∃ e ∈ s, e.mv0 = k.1 ∧ e.mv1 = k.2

theorem addWeight_mem {a b : Spec.Mv} {w : Nat} : ∀ {s : List Entry}, (∃ e ∈ s, e.mv0 = a ∧ e.mv1 = b) → ∃ l, Spec.addWeight a b w s = some l := by
  intro s
  induction s with
  | nil => rintro ⟨e, h, _⟩; cases h
  | cons x s ih =>
    rintro ⟨e, h, h1⟩
    rw [Spec.addWeight]
    by_cases hx : x.mv0 = a ∧ x.mv1 = b
    · rw [if_pos hx]; exact ⟨_, rfl⟩
    · rw [if_neg hx]
      rcases List.mem_cons.mp h with rfl | h
      · exact absurd h1 hx
      · obtain ⟨l, hl⟩ := ih ⟨e, h, h1⟩
        rw [hl]; exact ⟨_, rfl⟩

theorem addWeight_zero {a b : Spec.Mv} : ∀ {s l : List Entry}, Spec.addWeight a b 0 s = some l → l = s := by
  intro s
  induction s with
  | nil => intro l h; cases h
  | cons x s ih =>
    intro l h
    rw [Spec.addWeight] at h
    by_cases hx : x.mv0 = a ∧ x.mv1 = b
    · rw [if_pos hx] at h; exact (Option.some.inj h).symm
    · rw [if_neg hx] at h
      cases he : Spec.addWeight a b 0 s with
      | none => rw [he] at h; cases h
      | some l' =>
        rw [he] at h
        rw [← Option.some.inj h, ih he]

theorem step_zero {s : List Entry} {k : Key} (h : s.length ≥ 8 ∨ ∃ e ∈ s, e.mv0 = k.1 ∧ e.mv1 = k.2) : step s (k, 0) = s := by
  unfold step
  cases he : Spec.addWeight k.1 k.2 0 s with
  | some l => exact addWeight_zero he
  | none =>
    dsimp only
    rcases h with h | h
    · rw [if_neg (by omega)]
    · obtain ⟨l, hl⟩ := addWeight_mem (w := 0) h
      rw [hl] at he; cases he

theorem addWeight_keys {a b : Spec.Mv} {w : Nat} : ∀ {s l : List Entry}, Spec.addWeight a b w s = some l →
    l.map (fun e => (e.mv0, e.mv1)) = s.map (fun e => (e.mv0, e.mv1)) ∧ (a, b) ∈ l.map (fun e => (e.mv0, e.mv1)) := by
  intro s
  induction s with
  | nil => intro l h; cases h
  | cons x s ih =>
    intro l h
    rw [Spec.addWeight] at h
    by_cases hx : x.mv0 = a ∧ x.mv1 = b
    · rw [if_pos hx] at h
      rw [← Option.some.inj h]
      refine ⟨rfl, ?_⟩
      rw [List.map_cons, ← hx.1, ← hx.2]
      exact List.mem_cons_self
    · rw [if_neg hx] at h
      cases he : Spec.addWeight a b w s with
      | none => rw [he] at h; cases h
      | some l' =>
        rw [he] at h
        rw [← Option.some.inj h]
        obtain ⟨h1, h2⟩ := ih he
        exact ⟨by rw [List.map_cons, List.map_cons, h1], List.mem_cons_of_mem _ h2⟩

/-- What is on the stack stays, and what is added is on it or finds no room. -/
theorem step_has {s : List Entry} {o : Key × Nat} :
    (∀ k : Key, (s.length ≥ 8 ∨ ∃ e ∈ s, e.mv0 = k.1 ∧ e.mv1 = k.2) → ((step s o).length ≥ 8 ∨ ∃ e ∈ step s o, e.mv0 = k.1 ∧ e.mv1 = k.2)) ∧
      ((step s o).length ≥ 8 ∨ ∃ e ∈ step s o, e.mv0 = o.1.1 ∧ e.mv1 = o.1.2) := by
  have conv : ∀ (s : List Entry) (k : Key), (∃ e ∈ s, e.mv0 = k.1 ∧ e.mv1 = k.2) ↔ k ∈ s.map (fun e => (e.mv0, e.mv1)) := by
    intro s k
    rw [List.mem_map]
    exact ⟨fun ⟨e, h, h1, h2⟩ => ⟨e, h, Prod.ext h1 h2⟩, fun ⟨e, h, h1⟩ => ⟨e, h, by rw [← h1], by rw [← h1]⟩⟩
  simp only [conv]
  unfold step
  cases he : Spec.addWeight o.1.1 o.1.2 o.2 s with
  | some l =>
    obtain ⟨h1, h2⟩ := addWeight_keys he
    have hl : l.length = s.length := by have := congrArg List.length h1; rwa [List.length_map, List.length_map] at this
    dsimp only
    rw [h1] at h2 ⊢
    rw [hl]
    exact ⟨fun k h => h, .inr h2⟩
  | none =>
    dsimp only
    by_cases h8 : s.length < 8
    · rw [if_pos h8]
      refine ⟨fun k h => ?_, .inr (by rw [List.map_append]; exact List.mem_append_right _ List.mem_cons_self)⟩
      rcases h with h | h
      · omega
      · right; rw [List.map_append]; exact List.mem_append_left _ h
    · rw [if_neg h8]
      exact ⟨fun k h => h, .inl (by omega)⟩

theorem run_has (o : List (Key × Nat)) : ∀ {s : List Entry},
    (∀ k : Key, (s.length ≥ 8 ∨ ∃ e ∈ s, e.mv0 = k.1 ∧ e.mv1 = k.2) → ((run s o).length ≥ 8 ∨ ∃ e ∈ run s o, e.mv0 = k.1 ∧ e.mv1 = k.2)) ∧
      ∀ k ∈ o.map Prod.fst, ((run s o).length ≥ 8 ∨ ∃ e ∈ run s o, e.mv0 = k.1 ∧ e.mv1 = k.2) := by
  induction o with
  | nil => intro s; exact ⟨fun k h => h, fun k h => by cases h⟩
  | cons a o ih =>
    intro s
    obtain ⟨h1, h2⟩ := step_has (s := s) (o := a)
    obtain ⟨i1, i2⟩ := ih (s := step s a)
    refine ⟨fun k h => i1 k (h1 k h), ?_⟩
    intro k hk
    rcases List.mem_cons.mp hk with rfl | hk
    · exact i1 _ h2
    · exact i2 k hk

theorem Seen.run {p : Input} {b : Info} {s : List Entry} (h : Seen p b s) (o : List (Key × Nat)) : Seen p b (run s o) :=
  fun k hk => (run_has o).1 k (h k hk)

theorem Seen.map {p : Input} {b : Info} {s : List Entry} (h : Seen p b s) : Seen p b (s.map fun e => { e with weight := e.weight + 640 }) := by
  intro k hk
  rcases h k hk with h | ⟨e, he, h1⟩
  · left; rwa [List.length_map]
  · right; exact ⟨_, List.mem_map_of_mem he, h1⟩

theorem seen_visit {p : Input} {vs : Visits} {v : Info × Nat} (hv : v ∈ vs) (s : List Entry) : Seen p v.1 (run s (ops p vs)) := by
  intro k hk
  apply (run_has _).2
  rw [List.mem_map]
  refine ⟨(k, v.2), ?_, rfl⟩
  unfold ops
  rw [List.mem_flatMap]
  exact ⟨v, hv, List.mem_map_of_mem hk⟩

/-- Visiting a block again without weight changes nothing. -/
theorem run_again {p : Input} {b : Info} {s : List Entry} (h : Seen p b s) : run s (ops p [(b, 0)]) = s := by
  have e : ops p [(b, 0)] = (keys p b).map (·, 0) := by rw [ops_cons]; simp [ops]
  rw [e]
  have : ∀ l : List Key, (∀ k ∈ l, s.length ≥ 8 ∨ ∃ e ∈ s, e.mv0 = k.1 ∧ e.mv1 = k.2) → Mvref.run s (l.map (·, 0)) = s := by
    intro l
    induction l with
    | nil => intro _; rfl
    | cons a l ih =>
      intro hl
      show Mvref.run (step s (a, 0)) (l.map (·, 0)) = s
      rw [step_zero (hl a List.mem_cons_self)]
      exact ih fun k hk => hl k (List.mem_cons_of_mem _ hk)
  exact this _ h

end Rav1e.Mvref

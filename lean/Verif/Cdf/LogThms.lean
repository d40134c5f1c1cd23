import Verif.Cdf.Log
import Mathlib.Data.List.Induction
import Mathlib.Data.List.Pairwise
/-
Property C40: rolling back the CDF log restores the probabilities exactly, and every raw access
stays inside the structure and inside the log's allocation.
-/
namespace Rav1e.Cdf

/-- Number of words the log saves for a CDF. -/
def win (l : Loc) : Nat := if l.len ≤ CDF_LEN_SMALL then CDF_LEN_SMALL else CDF_LEN_MAX

/-- What the layout has to guarantee for a CDF. -/
structure Safe (l : Loc) : Prop where
  len : 1 ≤ l.len ∧ l.len ≤ CDF_LEN_MAX
  inside : l.off + win l ≤ size
  offset : 2 * l.off < 65536

/-- Saved windows of CDFs kept in different partitions never overlap. -/
def Apart (a b : Loc) : Prop := a.off + win a ≤ b.off ∨ b.off + win b ≤ a.off

/-! ### The actual layout -/

def fieldWin (f : Field) : Nat := if f.len ≤ CDF_LEN_SMALL then CDF_LEN_SMALL else CDF_LEN_MAX

theorem layout_fields_safe : ∀ p ∈ layout, p.1.len ≠ 0 →
    p.1.len ≤ 16 ∧ 1 ≤ p.1.count ∧ p.2 + (p.1.count - 1) * p.1.len + fieldWin p.1 ≤ size ∧
    size < 32768 := by decide +kernel

theorem layout_fields_apart : ∀ p ∈ layout, p.1.len ≠ 0 → p.1.len ≤ 4 → ∀ q ∈ layout,
    ¬ q.1.len ≤ 4 →
    p.2 + (p.1.count - 1) * p.1.len + 4 ≤ q.2 ∨ q.2 + (q.1.count - 1) * q.1.len + 16 ≤ p.2 := by
  decide +kernel

/-- Every CDF of the structure: the saved window lies inside the structure and the offset fits the
16 bits it is stored in. -/
theorem cdf_safe {l : Loc} (h : IsCdf l) : Safe l := by
  obtain ⟨f, o, i, hm, h0, hi, rfl⟩ := h
  obtain ⟨h1, h2, h3, h4⟩ := layout_fields_safe (f, o) hm h0
  have hle : i * f.len ≤ (f.count - 1) * f.len := Nat.mul_le_mul_right _ (by omega)
  have hw : win ⟨o + i * f.len, f.len⟩ = fieldWin f := rfl
  simp only at h1 h2 h3
  have : 4 ≤ fieldWin f := by unfold fieldWin CDF_LEN_SMALL CDF_LEN_MAX; split <;> omega
  refine ⟨⟨by show 1 ≤ f.len; omega, h1⟩, ?_, ?_⟩
  · rw [hw]; show o + i * f.len + fieldWin f ≤ size; omega
  · show 2 * (o + i * f.len) < 65536; omega

theorem cdf_apart {a b : Loc} (ha : IsCdf a) (hb : IsCdf b) (h1 : a.len ≤ CDF_LEN_SMALL)
    (h2 : ¬ b.len ≤ CDF_LEN_SMALL) : Apart a b := by
  obtain ⟨f, o, i, hm, h0, hi, rfl⟩ := ha
  obtain ⟨g, o', j, hm', h0', hj, rfl⟩ := hb
  have hle : i * f.len ≤ (f.count - 1) * f.len := Nat.mul_le_mul_right _ (by omega)
  have hle' : j * g.len ≤ (g.count - 1) * g.len := Nat.mul_le_mul_right _ (by omega)
  have h := layout_fields_apart (f, o) hm h0 h1 (g, o') hm' h2
  simp only at h h1 h2
  have w1 : win ⟨o + i * f.len, f.len⟩ = 4 := if_pos h1
  have w2 : win ⟨o' + j * g.len, g.len⟩ = 16 := if_neg h2
  unfold Apart
  rw [w1, w2]
  simp only
  omega

/-! ### Histories -/

/-- An update: which CDF, its new contents, and the allocator's choice. -/
structure Upd where
  loc : Loc
  new : List Nat
  grow : Nat

def State.updates (s : State) (us : List Upd) : State :=
  us.foldl (fun s u => s.update u.loc u.new u.grow) s

inductive Op where
  | upd (u : Upd)
  | save
  | restore (i : Nat)

/-- Running operations, with the checkpoints taken so far. -/
def State.run : State → List Ckpt → List Op → State
  | s, _, [] => s
  | s, cs, .upd u :: ops => (s.update u.loc u.new u.grow).run cs ops
  | s, cs, .save :: ops => s.run (cs ++ [s.checkpoint]) ops
  | s, cs, .restore i :: ops =>
    match cs[i]? with
    | some c => (s.rollback c).run cs ops
    | none => s.run cs ops

/-- Specification: the updates that survive, by the meaning of checkpoints. -/
def surviving : List Upd → List (List Upd) → List Op → List Upd
  | h, _, [] => h
  | h, hs, .upd u :: ops => surviving (h ++ [u]) hs ops
  | h, hs, .save :: ops => surviving h (hs ++ [h]) ops
  | h, hs, .restore i :: ops => surviving (hs.getD i h) hs ops

/-- A checkpoint may be restored while the saved history is still a prefix of the current one; all
updates are to CDFs of the structure. -/
def Legal : List Upd → List (List Upd) → List Op → Prop
  | _, _, [] => True
  | h, hs, .upd u :: ops => IsCdf u.loc ∧ Legal (h ++ [u]) hs ops
  | h, hs, .save :: ops => Legal h (hs ++ [h]) ops
  | h, hs, .restore i :: ops => ∃ h0, hs[i]? = some h0 ∧ h0 <+: h ∧ Legal h0 hs ops

/-- The memory after applying updates directly, without any log. -/
def applyAll (m : Mem) (us : List Upd) : Mem :=
  us.foldl (fun m u => writeWin m u.loc.off (u.new.take u.loc.len)) m

/-! ### Exactness -/

theorem readWin_length (m : Mem) (off w : Nat) : (readWin m off w).length = w := by simp [readWin]

theorem readWin_getD (m : Mem) (off w i : Nat) (h : i < w) : (readWin m off w).getD i 0 = m (off + i) := by
  unfold readWin
  rw [List.getD_eq_getElem?_getD, List.getElem?_map, List.getElem?_range h]; rfl

/-- Writing back a window that was read before an update inside that window undoes the update. -/
theorem write_read_undo (m : Mem) (off w : Nat) (new : List Nat) (h : new.length ≤ w) :
    writeWin (writeWin m off new) off (readWin m off w) = m := by
  funext a
  unfold writeWin
  rw [readWin_length]
  by_cases h1 : off ≤ a ∧ a < off + w
  · rw [if_pos h1, readWin_getD _ _ _ _ (by omega)]
    congr 1; omega
  · rw [if_neg h1, if_neg (by omega)]

theorem writeWin_comm (m : Mem) (o o' : Nat) (d d' : List Nat)
    (h : o + d.length ≤ o' ∨ o' + d'.length ≤ o) :
    writeWin (writeWin m o d) o' d' = writeWin (writeWin m o' d') o d := by
  funext a
  unfold writeWin
  by_cases h1 : o' ≤ a ∧ a < o' + d'.length
  · rw [if_pos h1, if_neg (by omega)]
    rw [if_pos h1]
  · rw [if_neg h1]
    by_cases h2 : o ≤ a ∧ a < o + d.length
    · rw [if_pos h2, if_pos h2]
    · rw [if_neg h2, if_neg h2, if_neg h1]

/-- The entries of the small partition all lie apart from a given large window. -/
theorem restore_comm_list (o : Nat) (d : List Nat) : ∀ (es : List Entry) (m : Mem),
    (∀ e ∈ es, e.byteOff / 2 + e.data.length ≤ o ∨ o + d.length ≤ e.byteOff / 2) →
    es.foldl restore (writeWin m o d) = writeWin (es.foldl restore m) o d := by
  intro es
  induction es with
  | nil => intro m _; rfl
  | cons e es ih =>
    intro m h
    simp only [List.foldl_cons]
    have : restore (writeWin m o d) e = writeWin (restore m e) o d := by
      unfold restore
      rw [writeWin_comm]
      exact (h e (by simp)).symm
    rw [this]
    exact ih _ (fun x hx => h x (by simp [hx]))

/-- Relation between a state and its log: what entries can be in the small partition. -/
def SmallEntry (e : Entry) : Prop :=
  ∃ l, IsCdf l ∧ l.len ≤ CDF_LEN_SMALL ∧ e.byteOff = 2 * l.off ∧ e.data.length = CDF_LEN_SMALL

theorem update_small_entries {s : State} {u : Upd} (hu : IsCdf u.loc)
    (h : ∀ e ∈ s.small.entries, SmallEntry e) :
    ∀ e ∈ (s.update u.loc u.new u.grow).small.entries, SmallEntry e := by
  have hs := cdf_safe hu
  intro e he
  unfold State.update at he
  by_cases hl : u.loc.len ≤ CDF_LEN_SMALL
  · simp only [hl, if_true, Part.push] at he
    rcases List.mem_append.1 he with h1 | h1
    · exact h e h1
    · rw [List.mem_singleton.1 h1]
      exact ⟨u.loc, hu, hl, Nat.mod_eq_of_lt hs.offset, readWin_length _ _ _⟩
  · simp only [hl, if_false] at he
    exact h e he

/-- A state reached from `s` by updates; the logs extend those of `s`. -/
structure Ext (s t : State) : Prop where
  small : s.small.entries <+: t.small.entries
  large : s.large.entries <+: t.large.entries
  smallE : ∀ e ∈ t.small.entries, SmallEntry e

theorem take_prefix {α} {a b : List α} (h : a <+: b) : b.take a.length = a := by
  obtain ⟨t, rfl⟩ := h; simp

/-- Equality of states up to the vectors' spare capacity. -/
structure Same (s t : State) : Prop where
  mem : s.mem = t.mem
  small : s.small.entries = t.small.entries
  large : s.large.entries = t.large.entries

theorem rollback_mem (s : State) (c : Ckpt) : (s.rollback c).mem =
    (s.large.entries.drop c.large).reverse.foldl restore
      ((s.small.entries.drop c.small).reverse.foldl restore s.mem) := rfl

theorem rollback_undoes (s : State) (us : List Upd) (hus : ∀ u ∈ us, IsCdf u.loc)
    (hs : ∀ e ∈ s.small.entries, SmallEntry e) :
    Ext s (s.updates us) ∧ Same ((s.updates us).rollback s.checkpoint) s := by
  induction us using List.reverseRecOn with
  | nil =>
    refine ⟨⟨List.prefix_refl _, List.prefix_refl _, hs⟩, ⟨?_, ?_, ?_⟩⟩
    · show (s.large.entries.drop s.large.entries.length).reverse.foldl restore
        ((s.small.entries.drop s.small.entries.length).reverse.foldl restore s.mem) = _
      simp
    · show s.small.entries.take s.small.entries.length = _
      simp
    · show s.large.entries.take s.large.entries.length = _
      simp
  | append_singleton us u ih =>
    have hu := hus u (by simp)
    have hsafe := cdf_safe hu
    obtain ⟨hext, hsame⟩ := ih (fun v hv => hus v (by simp [hv]))
    have e : s.updates (us ++ [u]) = (s.updates us).update u.loc u.new u.grow := by
      simp [State.updates, List.foldl_append]
    rw [e]
    generalize s.updates us = t at *
    have hsm := update_small_entries hu hext.smallE
    have hoff : (2 * u.loc.off) % 65536 / 2 = u.loc.off := by
      rw [Nat.mod_eq_of_lt hsafe.offset]; omega
    have hm := hsame.mem
    rw [rollback_mem] at hm
    simp only [State.checkpoint] at hm
    by_cases hl : u.loc.len ≤ CDF_LEN_SMALL
    · have hse : (t.update u.loc u.new u.grow).small.entries = t.small.entries ++
          [⟨readWin t.mem u.loc.off CDF_LEN_SMALL, (2 * u.loc.off) % 65536⟩] := by
        simp [State.update, hl, Part.push]
      have hle : (t.update u.loc u.new u.grow).large.entries = t.large.entries := by
        simp [State.update, hl]
      have hme : (t.update u.loc u.new u.grow).mem =
          writeWin t.mem u.loc.off (u.new.take u.loc.len) := rfl
      have hp := hext.small
      refine ⟨⟨?_, ?_, hsm⟩, ⟨?_, ?_, ?_⟩⟩
      · rw [hse]; exact hp.trans (List.prefix_append _ _)
      · rw [hle]; exact hext.large
      · rw [rollback_mem, hse, hle, hme]
        simp only [State.checkpoint]
        rw [List.drop_append_of_le_length hp.length_le, List.reverse_append]
        simp only [List.reverse_singleton, List.singleton_append, List.foldl_cons]
        have : restore (writeWin t.mem u.loc.off (u.new.take u.loc.len))
            ⟨readWin t.mem u.loc.off CDF_LEN_SMALL, (2 * u.loc.off) % 65536⟩ = t.mem := by
          unfold restore
          simp only [hoff]
          exact write_read_undo _ _ _ _ (by
            have := List.length_take_le u.loc.len u.new
            omega)
        rw [this]; exact hm
      · show (t.update u.loc u.new u.grow).small.entries.take s.small.entries.length = _
        rw [hse, List.take_append_of_le_length hp.length_le, take_prefix hp]
      · show (t.update u.loc u.new u.grow).large.entries.take s.large.entries.length = _
        rw [hle, take_prefix hext.large]
    · have hse : (t.update u.loc u.new u.grow).large.entries = t.large.entries ++
          [⟨readWin t.mem u.loc.off CDF_LEN_MAX, (2 * u.loc.off) % 65536⟩] := by
        simp [State.update, hl, Part.push]
      have hle : (t.update u.loc u.new u.grow).small.entries = t.small.entries := by
        simp [State.update, hl]
      have hme : (t.update u.loc u.new u.grow).mem =
          writeWin t.mem u.loc.off (u.new.take u.loc.len) := rfl
      have hp := hext.large
      have hlen : (u.new.take u.loc.len).length ≤ CDF_LEN_MAX := by
        have := List.length_take_le u.loc.len u.new
        have := hsafe.len.2
        omega
      have hwin : win u.loc = CDF_LEN_MAX := if_neg hl
      refine ⟨⟨?_, ?_, hsm⟩, ⟨?_, ?_, ?_⟩⟩
      · rw [hle]; exact hext.small
      · rw [hse]; exact hp.trans (List.prefix_append _ _)
      · rw [rollback_mem, hse, hle, hme]
        simp only [State.checkpoint]
        rw [List.drop_append_of_le_length hp.length_le, List.reverse_append]
        simp only [List.reverse_singleton, List.singleton_append, List.foldl_cons]
        rw [restore_comm_list]
        · have : ∀ m, restore (writeWin m u.loc.off (u.new.take u.loc.len))
              ⟨readWin t.mem u.loc.off CDF_LEN_MAX, (2 * u.loc.off) % 65536⟩ =
              writeWin m u.loc.off (readWin t.mem u.loc.off CDF_LEN_MAX) := by
            intro m
            unfold restore
            simp only [hoff]
            funext a
            unfold writeWin
            rw [readWin_length]
            by_cases h1 : u.loc.off ≤ a ∧ a < u.loc.off + CDF_LEN_MAX
            · rw [if_pos h1, if_pos h1]
            · rw [if_neg h1, if_neg h1, if_neg (by omega)]
          rw [this, ← restore_comm_list]
          · have e2 : writeWin t.mem u.loc.off (readWin t.mem u.loc.off CDF_LEN_MAX) = t.mem := by
              funext a
              unfold writeWin
              rw [readWin_length]
              split
              · rename_i h1
                rw [readWin_getD _ _ _ _ (by omega)]; congr 1; omega
              · rfl
            rw [e2]; exact hm
          · intro x hx
            obtain ⟨l, h1, h2, h3, h4⟩ := hext.smallE x
              (List.mem_of_mem_drop (List.mem_reverse.1 hx))
            have := cdf_apart h1 hu h2 hl
            unfold Apart at this
            rw [hwin, show win l = CDF_LEN_SMALL from if_pos h2] at this
            rw [readWin_length, h3, h4]
            omega
        · intro x hx
          obtain ⟨l, h1, h2, h3, h4⟩ := hext.smallE x
            (List.mem_of_mem_drop (List.mem_reverse.1 hx))
          have := cdf_apart h1 hu h2 hl
          unfold Apart at this
          rw [hwin, show win l = CDF_LEN_SMALL from if_pos h2] at this
          rw [h3, h4]
          omega
      · show (t.update u.loc u.new u.grow).small.entries.take s.small.entries.length = _
        rw [hle, take_prefix hext.small]
      · show (t.update u.loc u.new u.grow).large.entries.take s.large.entries.length = _
        rw [hse, List.take_append_of_le_length hp.length_le, take_prefix hp]

theorem Same.refl (s : State) : Same s s := ⟨rfl, rfl, rfl⟩

theorem Same.update {s t : State} (h : Same s t) (u : Upd) (g : Nat) :
    Same (s.update u.loc u.new g) (t.update u.loc u.new u.grow) := by
  obtain ⟨h1, h2, h3⟩ := h
  unfold State.update
  by_cases hl : u.loc.len ≤ CDF_LEN_SMALL <;>
    refine ⟨?_, ?_, ?_⟩ <;> simp [hl, Part.push, h1, h2, h3]

theorem Same.rollback {s t : State} (h : Same s t) (c : Ckpt) :
    Same (s.rollback c) (t.rollback c) := by
  obtain ⟨h1, h2, h3⟩ := h
  refine ⟨?_, ?_, ?_⟩
  · rw [rollback_mem, rollback_mem, h1, h2, h3]
  · show s.small.entries.take _ = t.small.entries.take _
    rw [h2]
  · show s.large.entries.take _ = t.large.entries.take _
    rw [h3]

theorem Same.trans {s t r : State} (h : Same s t) (h' : Same t r) : Same s r :=
  ⟨h.mem.trans h'.mem, h.small.trans h'.small, h.large.trans h'.large⟩

theorem updates_append (s : State) (a b : List Upd) :
    s.updates (a ++ b) = (s.updates a).updates b := by simp [State.updates, List.foldl_append]

theorem updates_mem (s : State) (us : List Upd) : (s.updates us).mem = applyAll s.mem us := by
  induction us using List.reverseRecOn with
  | nil => rfl
  | append_singleton us u ih =>
    rw [updates_append]
    unfold applyAll
    rw [List.foldl_append]
    show writeWin (s.updates us).mem _ _ = writeWin _ _ _
    rw [ih]; rfl

theorem init_smallE (m : Mem) (us : List Upd) (h : ∀ u ∈ us, IsCdf u.loc) :
    ∀ e ∈ ((State.init m).updates us).small.entries, SmallEntry e :=
  (rollback_undoes (State.init m) us h (by intro e he; simp [State.init] at he)).1.smallE

theorem checkpoint_congr {s t : State} (h : Same s t) : s.checkpoint = t.checkpoint := by
  simp [State.checkpoint, h.small, h.large]

theorem run_same (m : Mem) : ∀ (ops : List Op) (s : State) (cs : List Ckpt) (h : List Upd)
    (hs : List (List Upd)),
    Same s ((State.init m).updates h) → (∀ u ∈ h, IsCdf u.loc) →
    cs = hs.map (fun h0 => ((State.init m).updates h0).checkpoint) →
    Legal h hs ops →
    Same (s.run cs ops) ((State.init m).updates (surviving h hs ops)) := by
  intro ops
  induction ops with
  | nil => intro s cs h hs hsame _ _ _; exact hsame
  | cons op ops ih =>
    intro s cs h hs hsame hh hcs hleg
    cases op with
    | upd u =>
      obtain ⟨hu, hleg⟩ := hleg
      refine ih _ _ _ _ ?_ ?_ hcs hleg
      · rw [updates_append]
        exact hsame.update u u.grow
      · intro v hv
        rcases List.mem_append.1 hv with h1 | h1
        · exact hh v h1
        · rw [List.mem_singleton.1 h1]; exact hu
    | save =>
      refine ih _ _ _ _ hsame hh ?_ hleg
      rw [List.map_append, hcs, checkpoint_congr hsame]; rfl
    | restore i =>
      obtain ⟨h0, hi, hpre, hleg⟩ := hleg
      have hc : cs[i]? = some ((State.init m).updates h0).checkpoint := by
        rw [hcs, List.getElem?_map, hi]; rfl
      have hg : hs.getD i h = h0 := by rw [List.getD_eq_getElem?_getD, hi]; rfl
      unfold State.run surviving
      rw [hc, hg]
      have hh0 : ∀ u ∈ h0, IsCdf u.loc := fun u hu => hh u (hpre.subset hu)
      refine ih _ _ _ _ ?_ hh0 hcs hleg
      obtain ⟨t, rfl⟩ := hpre
      refine (hsame.rollback _).trans ?_
      rw [updates_append]
      exact (rollback_undoes ((State.init m).updates h0) t
        (fun u hu => hh u (by simp [hu])) (init_smallE m h0 hh0)).2

/-- **C40** (restoration).  Start from any probabilities `m` and run any history of CDF updates,
checkpoints and rollbacks, nested or abandoned in any order, in which only checkpoints of the current
past are restored.  The probabilities then are exactly those obtained by applying the surviving
updates alone, word for word over the whole structure. -/
theorem cdf_rollback_exact (m : Mem) (ops : List Op) (h : Legal [] [] ops) :
    ((State.init m).run [] ops).mem = applyAll m (surviving [] [] ops) := by
  have := (run_same m ops (State.init m) [] [] [] (Same.refl _) (by simp) rfl h).mem
  rw [this, updates_mem]; rfl

/-! ### Memory safety of the raw accesses -/

/-- Invariant the code's comment asks for: spare capacity before every push. -/
def Room (s : State) : Prop :=
  s.small.entries.length < s.small.cap ∧ s.large.entries.length < s.large.cap

theorem push_room (p : Part) (w : Nat) (m : Mem) (l : Loc) (g : Nat)
    (h : p.entries.length < p.cap) :
    (p.push w m l g).entries.length ≤ p.cap ∧
    (p.push w m l g).entries.length < (p.push w m l g).cap := by
  simp only [Part.push, List.length_append, List.length_singleton]
  refine ⟨by omega, ?_⟩
  split <;> omega

theorem update_room (s : State) (l : Loc) (new : List Nat) (g : Nat) (h : Room s) :
    Room (s.update l new g) := by
  unfold State.update
  by_cases hl : l.len ≤ CDF_LEN_SMALL
  · simp only [hl, if_true]
    exact ⟨(push_room _ _ _ _ _ h.1).2, h.2⟩
  · simp only [hl, if_false]
    exact ⟨h.1, (push_room _ _ _ _ _ h.2).2⟩

theorem rollback_room (s : State) (c : Ckpt) (h : Room s) : Room (s.rollback c) := by
  have h1 : (s.small.entries.take c.small).length ≤ s.small.entries.length := List.length_take_le' _ _
  have h2 : (s.large.entries.take c.large).length ≤ s.large.entries.length := List.length_take_le' _ _
  exact ⟨Nat.lt_of_le_of_lt h1 h.1, Nat.lt_of_le_of_lt h2 h.2⟩

/-- **C40** (log memory).  In every history (legal or not, for any growth policy of the allocator)
there is a free slot in both partitions whenever the next update is logged: the unchecked write at
index `len` stays inside the allocation. -/
theorem cdf_log_has_room (m : Mem) (ops : List Op) : ∀ (cs : List Ckpt) (s : State), Room s →
    Room (s.run cs ops) := by
  induction ops with
  | nil => intro cs s h; exact h
  | cons op ops ih =>
    intro cs s h
    cases op with
    | upd u => exact ih _ _ (update_room _ _ _ _ h)
    | save => exact ih _ _ h
    | restore i =>
      unfold State.run
      cases cs[i]? with
      | none => exact ih _ _ h
      | some c => exact ih _ _ (rollback_room _ _ h)

example (m : Mem) : Room (State.init m) := by
  constructor
  · show 0 < 1 <<< 16; decide
  · show 0 < 1 <<< 9; decide

/-- **C40** (structure memory).  For every CDF of the structure, the words the log copies out and back
lie inside the structure, its own words lie inside that window, and its byte offset survives being
stored in 16 bits. -/
theorem cdf_log_access_in_bounds (l : Loc) (h : IsCdf l) :
    l.off + win l ≤ size ∧ l.len ≤ win l ∧ (2 * l.off) % 65536 = 2 * l.off := by
  have hs := cdf_safe h
  refine ⟨hs.inside, ?_, Nat.mod_eq_of_lt hs.offset⟩
  unfold win
  split
  · assumption
  · exact hs.len.2

/-- A history on the real layout meeting the hypotheses: updates of a small CDF (`dc_sign`), of a large
one (`inter_tx_1`) and of the last one of the structure, with nested checkpoints. -/
def demoLoc (name : String) (i : Nat) : Loc :=
  match layout.find? (fun p => p.1.name = name) with
  | some (f, o) => ⟨o + i * f.len, f.len⟩
  | none => ⟨0, 0⟩

theorem demoLoc_isCdf (name : String) (i : Nat)
    (h : (layout.find? (fun p => p.1.name = name)).any (fun p => p.1.len ≠ 0 && i < p.1.count) = true) :
    IsCdf (demoLoc name i) := by
  unfold demoLoc
  cases hf : layout.find? (fun p => p.1.name = name) with
  | none => rw [hf] at h; simp at h
  | some p =>
    rw [hf] at h
    simp at h
    exact ⟨p.1, p.2, i, List.mem_of_find?_eq_some hf, h.1, h.2, rfl⟩

example : Legal [] []
    [.upd ⟨demoLoc "dc_sign_cdf" 3, [100, 1], 0⟩, .save,
     .upd ⟨demoLoc "inter_tx_1_cdf" 2, [7, 8], 5⟩, .save,
     .upd ⟨demoLoc "nmv_context.comps[1].classes_cdf" 0, [9], 0⟩, .restore 1, .restore 0,
     .upd ⟨demoLoc "dc_sign_cdf" 0, [1, 1], 0⟩] := by
  refine ⟨demoLoc_isCdf "dc_sign_cdf" 3 (by decide +kernel),
    demoLoc_isCdf "inter_tx_1_cdf" 2 (by decide +kernel),
    demoLoc_isCdf "nmv_context.comps[1].classes_cdf" 0 (by decide +kernel),
    _, rfl, ?_, _, rfl, ?_, demoLoc_isCdf "dc_sign_cdf" 0 (by decide +kernel), trivial⟩
  · exact List.prefix_append _ _
  · exact List.prefix_append _ _

/-! The padding after `classes_cdf` is needed: without it the window of a large CDF would reach a small
one, and a window would leave the structure.  The padding after `joints_cdf` is not needed (see
`joints_padding_superfluous`): `joints_cdf` is a small CDF and the large CDF before it is 16 words long,
so its stated purpose ("pad the last CDF for rollback", block_unit.rs:550) is not required. -/

/-- The layout with the two kinds of padding removed. -/
def unpadded : List (Field × Nat) := place 0 (fields.filter (fun f => f.len ≠ 0))

theorem padding_needed :
    (∃ p ∈ unpadded, ∃ q ∈ unpadded, p.1.len ≤ 4 ∧ ¬ q.1.len ≤ 4 ∧
      ¬ (p.2 + (p.1.count - 1) * p.1.len + 4 ≤ q.2 ∨ q.2 + (q.1.count - 1) * q.1.len + 16 ≤ p.2)) ∧
    (∃ p ∈ unpadded, p.2 + (p.1.count - 1) * p.1.len + fieldWin p.1 >
      ((fields.filter (fun f => f.len ≠ 0)).map Field.words).sum) := by
  decide +kernel

/-- The layout without the padding after `joints_cdf` satisfies the same checks. -/
theorem joints_padding_superfluous :
    let lay := place 0 (fields.filter (fun f => f.name ≠ "nmv_context.padding"))
    (∀ p ∈ lay, p.1.len ≠ 0 → p.1.len ≤ 4 → ∀ q ∈ lay, ¬ q.1.len ≤ 4 →
      p.2 + (p.1.count - 1) * p.1.len + 4 ≤ q.2 ∨ q.2 + (q.1.count - 1) * q.1.len + 16 ≤ p.2) ∧
    (∀ p ∈ lay, p.1.len ≠ 0 → p.2 + (p.1.count - 1) * p.1.len + fieldWin p.1 ≤ size - 12) := by
  decide +kernel

/-! ### reset_counts (C46) -/

theorem layout_ordered : layout.Pairwise (fun p q => p.2 + p.1.words ≤ q.2) := by decide +kernel

/-- Distinct CDFs of the structure occupy disjoint words. -/
theorem cdfs_disjoint {a b : Loc} (ha : IsCdf a) (hb : IsCdf b) (hne : a ≠ b) :
    a.off + a.len ≤ b.off ∨ b.off + b.len ≤ a.off := by
  obtain ⟨f, o, i, hm, h0, hi, rfl⟩ := ha
  obtain ⟨g, o', j, hm', h0', hj, rfl⟩ := hb
  have hw : f.words = f.count * f.len := if_neg h0
  have hw' : g.words = g.count * g.len := if_neg h0'
  have h1 : i * f.len + f.len ≤ f.count * f.len := by
    rw [← Nat.succ_mul]; exact Nat.mul_le_mul_right _ hi
  have h2 : j * g.len + g.len ≤ g.count * g.len := by
    rw [← Nat.succ_mul]; exact Nat.mul_le_mul_right _ hj
  by_cases he : (f, o) = (g, o')
  · obtain ⟨rfl, rfl⟩ := Prod.mk.inj he
    simp only
    rcases Nat.lt_trichotomy i j with h | h | h
    · left
      have : i * f.len + f.len ≤ j * f.len := by
        rw [← Nat.succ_mul]; exact Nat.mul_le_mul_right _ h
      omega
    · subst h; exact absurd rfl hne
    · right
      have : j * f.len + f.len ≤ i * f.len := by
        rw [← Nat.succ_mul]; exact Nat.mul_le_mul_right _ h
      omega
  · let R := fun p q : Field × Nat => p = q ∨ p.2 + p.1.words ≤ q.2 ∨ q.2 + q.1.words ≤ p.2
    haveI : Std.Symm R := ⟨fun x y h => by
      rcases h with h | h | h
      · exact Or.inl h.symm
      · exact Or.inr (Or.inr h)
      · exact Or.inr (Or.inl h)⟩
    have : R (f, o) (g, o') := List.Pairwise.forall_of_forall (R := R) (fun x _ => Or.inl rfl)
      (layout_ordered.imp (fun {x y} h => Or.inr (Or.inl h))) hm hm'
    rcases this with h | h | h
    · exact absurd h he
    · left; simp only at h ⊢; omega
    · right; simp only at h ⊢; omega

/-- The counter word of a CDF is its last one. -/
def counterWord (l : Loc) : Nat := l.off + l.len - 1

theorem reset_covers : ∀ p ∈ layout, p.1.len ≠ 0 → p.1.name ∈ resetNames := by decide +kernel

/-- **C46**.  `reset_counts` clears the adaptation counter of every CDF of the structure and changes
nothing else: all probabilities keep their value. -/
theorem reset_counts_exact (m : Mem) (l : Loc) (h : IsCdf l) :
    resetCounts m (counterWord l) = 0 ∧
    ∀ j, j + 1 < l.len → resetCounts m (l.off + j) = m (l.off + j) := by
  have hlen := (cdf_safe h).len
  constructor
  · obtain ⟨f, o, i, hm, h0, hi, rfl⟩ := h
    unfold resetCounts
    rw [if_pos]
    exact ⟨(f, o), hm, reset_covers _ hm h0, i, hi, by simp only [counterWord]⟩
  · intro j hj
    unfold resetCounts
    rw [if_neg]
    rintro ⟨⟨f, o⟩, hm, hn, i, hi, ha⟩
    simp only at hi ha hn
    have h0 : f.len ≠ 0 := by
      intro h0
      have : ∀ p ∈ layout, p.1.len = 0 → p.1.name ∉ resetNames := by decide +kernel
      exact this _ hm h0 hn
    have hb : IsCdf ⟨o + i * f.len, f.len⟩ := ⟨f, o, i, hm, h0, hi, rfl⟩
    by_cases he : l = ⟨o + i * f.len, f.len⟩
    · subst he; simp only at ha hj; omega
    · have := cdfs_disjoint h hb he
      simp only at this; omega

example : IsCdf (demoLoc "coeff_br_cdf" 200) := demoLoc_isCdf "coeff_br_cdf" 200 (by decide +kernel)

end Rav1e.Cdf

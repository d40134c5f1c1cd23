import Verif.LoopSyn.Unit

/-!
# CDEF indices and loop restoration units: the CDEF index of a superblock

The encoder records the symbols of a superblock in two parts and puts the CDEF index between them.  This is where the decoder looks for it.
-/

namespace Rav1e.LoopSyn

open Av1Spec
open Ec
open Spec (Frame Syn)

/-- The block syntax reads these elements. -/
def eats {S : Type} : Syn S → List Tok → Option (Syn S)
  | syn, [] => some syn
  | .read src k, (s, v) :: ts => if s = src then eats (k v) ts else none
  | _, _ :: _ => none

/-- The block syntax reads these blocks: for each the elements before its CDEF index, then comes the place of the CDEF index, then the other elements. -/
def accepts {S : Type} : Syn S → List Bk → Option S
  | .done s, [] => some s
  | _, [] => none
  | syn, b :: bs =>
    match eats syn b.pre with
    | some (.cdef skip k) => if skip = b.skip then (eats k b.post).bind fun k => accepts k bs else none
    | _ => none

theorem eats_rd {S : Type} (f : Frame) (idx : Int) : ∀ (ts : List Tok) {syn syn' : Syn S}, eats syn ts = some syn' → ∀ rest,
    (syn.rd f idx).onToks (ts ++ rest) = (syn'.rd f idx).onToks rest := by
  intro ts
  induction ts with
  | nil =>
    intro syn syn' h rest
    cases syn <;> (simp only [eats, Option.some.injEq] at h; rw [h]; rfl)
  | cons t ts ih =>
    intro syn syn' h rest
    obtain ⟨s, v⟩ := t
    cases syn with
    | done s => simp [eats] at h
    | cdef sk k => simp [eats] at h
    | read src k =>
      rw [eats] at h
      by_cases e : s = src
      · rw [if_pos e] at h
        rw [Syn.rd, List.cons_append, Rd.onToks, if_pos e.symm]
        exact ih h rest
      · rw [if_neg e] at h
        exact absurd h (by simp)

theorem accepts_cons {S : Type} {syn : Syn S} {b : Bk} {bs : List Bk} {s : S} (h : accepts syn (b :: bs) = some s) :
    ∃ k k', eats syn b.pre = some (.cdef b.skip k) ∧ eats k b.post = some k' ∧ accepts k' bs = some s := by
  have e : accepts syn (b :: bs) = match eats syn b.pre with
    | some (.cdef skip k) => if skip = b.skip then (eats k b.post).bind fun k => accepts k bs else none
    | _ => none := by cases syn <;> rfl
  rw [e] at h
  rcases h1 : eats syn b.pre with _ | k
  · rw [h1] at h; exact absurd h (by simp)
  · rw [h1] at h
    cases k with
    | done s => exact absurd h (by simp)
    | read s k => exact absurd h (by simp)
    | cdef sk k =>
      dsimp only at h
      by_cases e : sk = b.skip
      · rw [if_pos e] at h
        rcases h2 : eats k b.post with _ | k'
        · rw [h2] at h; exact absurd h (by simp)
        · rw [h2] at h
          exact ⟨k, k', by rw [e], h2, h⟩
      · rw [if_neg e] at h; exact absurd h (by simp)

theorem accepts_nil {S : Type} {syn : Syn S} {s : S} (h : accepts syn [] = some s) : syn = .done s := by
  cases syn with
  | done t => simp only [accepts, Option.some.injEq] at h; rw [h]
  | read src k => simp [accepts] at h
  | cdef sk k => simp [accepts] at h

/-- All elements of blocks. -/
def flat (bs : List Bk) : List Tok := bs.flatMap fun b => b.pre ++ b.post

/-- After the CDEF index everything is recorded in the second part. -/
theorem fold_coded (C : Cfg) : ∀ (bs : List Bk) (a b : List Tok), bs.foldl (encodeBk C) ⟨true, a, b⟩ = ⟨true, a, b ++ flat bs⟩ := by
  intro bs
  induction bs with
  | nil => intro a b; simp [flat]
  | cons k bs ih =>
    intro a b
    have e : encodeBk C ⟨true, a, b⟩ k = ⟨true, a, b ++ k.pre ++ k.post⟩ := by
      unfold encodeBk Recs.write
      cases (!k.skip && C.enableCdef) <;> rfl
    rw [List.foldl_cons, e, ih]
    simp [flat]

/-- After the CDEF index the decoder does not look for it again. -/
theorem rd_coded {S : Type} {f : Frame} {v : Nat} : ∀ {bs : List Bk} {syn : Syn S} {s : S}, accepts syn bs = some s → ∀ rest,
    (syn.rd f v).onToks (flat bs ++ rest) = some (((v : Int), s), rest) := by
  intro bs
  induction bs with
  | nil => intro syn s h rest; rw [accepts_nil h]; rfl
  | cons b bs ih =>
    intro syn s h rest
    obtain ⟨k, k', h1, h2, h3⟩ := accepts_cons h
    have e : flat (b :: bs) ++ rest = b.pre ++ (b.post ++ (flat bs ++ rest)) := by simp [flat]
    rw [e, eats_rd f v _ h1, Syn.rd, onToks_bind]
    have e2 : Spec.readCdef f b.skip (v : Int) = .ret (v : Int) := by
      unfold Spec.readCdef
      rw [if_neg (show ¬((v : Int) = -1) by omega)]
      split <;> rfl
    rw [e2]
    show (k.rd f v).onToks _ = _
    rw [eats_rd f v _ h2]
    exact ih h3 rest

/-- **The CDEF index is where the decoder looks for it**: between the two parts, if there is a block that is not skipped. -/
theorem cdef_rt {S : Type} {C : Cfg} {f : Frame} (h1 : f.enableCdef = C.enableCdef) (h2 : f.cdefBits = C.cdefBits) (h3 : f.allowIntrabc = false) {v : Nat}
    (hv : v < 2 ^ C.cdefBits) : ∀ {bs : List Bk} {syn : Syn S} {s : S}, accepts syn bs = some s → ∀ a : List Tok,
    ∃ r : Recs, bs.foldl (encodeBk C) ⟨false, a, []⟩ = r ∧ (r.coded = (C.enableCdef && bs.any fun b => !b.skip)) ∧ ∃ t, r.wPre = a ++ t ∧
      (r.coded = true → ∀ rest, (syn.rd f (-1)).onToks (t ++ (flatToks (literal C.cdefBits v) ++ (r.wPost ++ rest))) = some (((v : Int), s), rest)) ∧
      (r.coded = false → ∀ rest, (syn.rd f (-1)).onToks (t ++ rest) = some (((-1 : Int), s), rest)) := by
  intro bs
  induction bs with
  | nil =>
    intro syn s h a
    refine ⟨_, rfl, by simp, [], by simp, fun hc => absurd hc (by simp), fun _ rest => ?_⟩
    rw [accepts_nil h]
    rfl
  | cons b bs ih =>
    intro syn s h a
    obtain ⟨k, k', e1, e2, e3⟩ := accepts_cons h
    rw [List.foldl_cons]
    by_cases hc : (!b.skip && C.enableCdef) = true
    · have e : encodeBk C ⟨false, a, []⟩ b = ⟨true, a ++ b.pre, b.post⟩ := by
        unfold encodeBk Recs.write
        dsimp only
        rw [if_pos hc]
        rfl
      rw [e, fold_coded]
      obtain ⟨hs, he⟩ : b.skip = false ∧ C.enableCdef = true := by simpa using hc
      refine ⟨_, rfl, by simp [hs, he], b.pre, rfl, fun _ rest => ?_, fun hn => absurd hn (by simp)⟩
      rw [eats_rd f (-1) _ e1, Syn.rd, onToks_bind]
      have e5 : Spec.readCdef f b.skip (-1) = (rdLit f.cdefBits).bind fun v => .ret (v : Int) := by
        unfold Spec.readCdef
        rw [if_neg (by simp [hs, h1, he, h3]), if_pos rfl]
      rw [e5, h2, onToks_bind, onToks_lit0 hv]
      show (k.rd f v).onToks _ = _
      rw [List.append_assoc, eats_rd f v _ e2]
      exact rd_coded e3 rest
    · have hc' : (!b.skip && C.enableCdef) = false := by simpa using hc
      have e : encodeBk C ⟨false, a, []⟩ b = ⟨false, a ++ b.pre ++ b.post, []⟩ := by
        unfold encodeBk Recs.write
        dsimp only
        rw [if_neg hc]
        rfl
      rw [e]
      obtain ⟨r, r1, r2, t, r3, r4, r5⟩ := ih e3 (a ++ b.pre ++ b.post)
      have e5 : Spec.readCdef f b.skip (-1) = .ret (-1) := by
        unfold Spec.readCdef
        rw [if_pos]
        rw [h1]
        rcases hs : b.skip with _ | _
        · rw [hs] at hc'
          right; left
          simpa using hc'
        · exact .inl rfl
      have go : ∀ x, (syn.rd f (-1)).onToks (b.pre ++ b.post ++ t ++ x) = (k'.rd f (-1)).onToks (t ++ x) := by
        intro x
        rw [List.append_assoc, List.append_assoc, eats_rd f (-1) _ e1, Syn.rd, onToks_bind, e5]
        show (k.rd f (-1)).onToks _ = _
        rw [eats_rd f (-1) _ e2]
      refine ⟨r, r1, ?_, b.pre ++ b.post ++ t, by rw [r3]; simp, fun hr rest => ?_, fun hr rest => ?_⟩
      · rw [r2]
        rw [List.any_cons]
        rcases he : C.enableCdef with _ | _
        · rfl
        · rw [he] at hc'
          simp only [Bool.and_true] at hc'
          rw [hc']
          rfl
      · rw [go, r4 hr]
      · rw [go, r5 hr]

end Rav1e.LoopSyn

import Verif.LoopSyn.Queue

/-!
# CDEF indices and loop restoration units: theorems

The encoder delays the output of a superblock until it has decided how its loop restoration units and its CDEF index are coded.  A decoder that follows the
specification still finds each of them in its place, and reads the values that the encoder has in the end and filters with.
-/

namespace Rav1e.LoopSyn

open Av1Spec
open Ec
open Lrf (Filter)
open Spec (Frame State Syn)

/-! ### The decoder's loops -/

/-- A reader for every element of a list. -/
def rdList {α σ : Type} (g : α → σ → Rd σ) : List α → σ → Rd σ
  | [], s => .ret s
  | a :: l, s => (g a s).bind (rdList g l)

theorem rdList_append {α σ : Type} (g : α → σ → Rd σ) : ∀ (l m : List α) (s : σ), rdList g (l ++ m) s = (rdList g l s).bind (rdList g m) := by
  intro l
  induction l with
  | nil => intro m s; rfl
  | cons a l ih =>
    intro m s
    rw [List.cons_append, rdList, rdList, bind_assoc]
    congr
    funext t
    exact ih m t

theorem rdList_map {α β σ : Type} (g : β → σ → Rd σ) (h : α → β) : ∀ (l : List α) (s : σ), rdList g (l.map h) s = rdList (fun a => g (h a)) l s := by
  intro l
  induction l with
  | nil => intro s; rfl
  | cons a l ih =>
    intro s
    rw [List.map_cons, rdList, rdList]
    exact congrArg _ (funext fun t => ih t)

theorem rdList_flatMap {α β σ : Type} (g : β → σ → Rd σ) (h : α → List β) : ∀ (l : List α) (s : σ),
    rdList g (l.flatMap h) s = rdList (fun a s => rdList g (h a) s) l s := by
  intro l
  induction l with
  | nil => intro s; rfl
  | cons a l ih =>
    intro s
    rw [List.flatMap_cons, rdList_append, rdList]
    exact congrArg _ (funext fun t => ih t)

theorem loop_list {σ : Type} (g : Nat → σ → Rd σ) : ∀ (n i : Nat) (s : σ), Spec.loop g n i s = rdList g (List.range' i n) s := by
  intro n
  induction n with
  | zero => intro i s; rfl
  | succ n ih =>
    intro i s
    rw [Spec.loop, List.range'_succ, rdList]
    congr
    funext t
    exact ih (i + 1) t

/-- The decoder goes through the superblocks in raster order. -/
theorem readTile_list {S : Type} (f : Frame) (sb : Nat → Nat → S → Syn S) (r c n m : Nat) (s : State S) :
    Spec.readTile f sb r c n m s = rdList (fun k s => Spec.readSb f sb (r + 16 * k.1) (c + 16 * k.2) s) (pairs n m) s := by
  unfold Spec.readTile pairs
  rw [loop_list, rdList_flatMap]
  simp only [List.range_eq_range']
  congr
  funext i t
  rw [loop_list, rdList_map]

/-! ### The tile -/

/-- The decoder's block syntax reads the blocks of the tile, and ends with `b'`: what it makes of a superblock depends on what it has read before, but not on CDEF
indices or restoration units. -/
def acceptsTile {S : Type} (C : Cfg) (sb : Nat → Nat → S → Syn S) (sbs : Nat → Nat → List Bk) (b : S) : Option S :=
  (pairs C.sbH C.sbW).foldlM (fun b k => accepts (sb (16 * C.gy + 16 * k.1) (16 * C.gx + 16 * k.2) b) (sbs k.2 k.1)) b

theorem tile_rt {S : Type} {C : Cfg} {f : Frame} (K : CfgOk C f) {R : Rdo} (hR : RdoOk C R) {sbs : Nat → Nat → List Bk} (sb : Nat → Nat → S → Syn S) {b' : S} :
    ∀ (post pre : List (Nat × Nat)) (s : Lf) (D : State S), pairs C.sbH C.sbW = pre ++ post → Inv C sbs pre s D →
    post.foldlM (fun b k => accepts (sb (16 * C.gy + 16 * k.1) (16 * C.gx + 16 * k.2) b) (sbs k.2 k.1)) D.blocks = some b' →
    ∃ s' ts D', (post.map (entryOf C sbs)).foldlM (flushIn C R) s = some s' ∧ s'.out = s.out ++ ts ∧
      (∀ rest, (rdList (fun k s => Spec.readSb f sb (16 * C.gy + 16 * k.1) (16 * C.gx + 16 * k.2) s) post D).onToks (ts ++ rest) = some (D', rest)) ∧
      Inv C sbs (pairs C.sbH C.sbW) s' D' ∧ D'.blocks = b' := by
  intro post
  induction post with
  | nil =>
    intro pre s D hL I hacc
    rw [List.append_nil] at hL
    rw [hL]
    simp only [List.foldlM_nil, Option.pure_def, Option.some.injEq] at hacc
    exact ⟨s, [], D, rfl, by simp, fun rest => rfl, I, hacc⟩
  | cons k post ih =>
    intro pre s D hL I hacc
    rw [List.foldlM_cons] at hacc
    rcases ha : accepts (sb (16 * C.gy + 16 * k.1) (16 * C.gx + 16 * k.2) D.blocks) (sbs k.2 k.1) with _ | b1
    · rw [ha] at hacc; exact absurd hacc (by simp)
    · rw [ha] at hacc
      obtain ⟨s1, t1, D1, e1, e2, e3, I1, e4⟩ := flush_step K hR sb hL I ha
      obtain ⟨s2, t2, D2, g1, g2, g3, I2, g4⟩ := ih (pre ++ [k]) s1 D1 (by rw [hL]; simp) I1 (by rw [e4]; exact hacc)
      refine ⟨s2, t1 ++ t2, D2, ?_, by rw [g2, e2, List.append_assoc], fun rest => ?_, I2, g4⟩
      · rw [List.map_cons, List.foldlM_cons, show flushIn C R s (entryOf C sbs k) = some s1 from e1]
        exact g1
      · rw [rdList, onToks_bind, List.append_assoc, e3]
        exact g3 rest

/-- **C65. A decoder finds every CDEF index and every loop restoration unit of a tile in its place.**  Whatever blocks a tile consists of, whatever is decided
for its units and superblocks and whenever the queue is written, `encode_tile` does not panic and leaves no superblock in its queue; and the decoder that reads
what has been written ends with

* its block syntax where it would end without CDEF indices and restoration units,
* for every restoration unit of the tile the filter that the encoder has for it in the end, and no other units,
* for every superblock with a block that is not skipped the CDEF index that the encoder has for it in the end, and -1 for the others. -/
theorem side_information_roundtrip {S : Type} {C : Cfg} {f : Frame} (K : CfgOk C f) {R : Rdo} (hR : RdoOk C R) (sbs : Nat → Nat → List Bk)
    (sb : Nat → Nat → S → Syn S) {b b' : S} (hacc : acceptsTile C sb sbs b = some b') {filters : Nat → Nat → Nat → Filter} (hf : FiltersOk C filters)
    {cdef : Nat → Nat → Nat} (hc : CdefOk C cdef) :
    ∃ lf D, encodeTile C R sbs filters cdef = some lf ∧
      (∀ rest, (Spec.readTile f sb (16 * C.gy) (16 * C.gx) C.sbH C.sbW (.init b)).onToks (lf.out ++ rest) = some (D, rest)) ∧
      D.blocks = b' ∧
      (C.enableRestoration = true → ∀ p < C.planes, ∀ row < (C.plane p).rows, ∀ col < (C.plane p).cols,
        D.lr p ((C.plane p).uy + row) ((C.plane p).ux + col) = some (lf.filters p row col).toSpec) ∧
      (∀ p i j, D.lr p i j ≠ none → C.enableRestoration = true ∧ p < C.planes ∧ ∃ row < (C.plane p).rows, ∃ col < (C.plane p).cols,
        i = (C.plane p).uy + row ∧ j = (C.plane p).ux + col) ∧
      (∀ y < C.sbH, ∀ x < C.sbW, D.cdef (C.gy + y) (C.gx + x) =
        if C.enableCdef = true ∧ ∃ k ∈ sbs x y, k.skip = false then (lf.cdef y x : Int) else -1) := by
  have I0 : Inv C sbs [] ⟨fun _ => -1, fun _ => -1, filters, cdef, fun _ => initRefs, []⟩ (State.init b) := by
    refine ⟨fun _ => ⟨fun p _ => ⟨fun z hz => absurd hz (by simp), .inl rfl⟩, fun p _ => .inl rfl, fun z hz => absurd hz (by simp)⟩, hf, hc,
      fun p _ => ⟨initRefs_ok, rfl⟩, fun _ p _ b _ a _ h => absurd h (by simp), fun p i j h => absurd rfl h, fun z hz => absurd hz (by simp)⟩
  obtain ⟨lf, ts, D, e1, e2, e3, I, e4⟩ := tile_rt K hR sb (pairs C.sbH C.sbW) [] _ _ rfl I0 hacc
  refine ⟨lf, D, encodeTile_eq K e1, fun rest => ?_, e4, fun hr p hp row hrow col hcol => ?_, I.only, fun y hy x hx => ?_⟩
  · rw [readTile_list, e2, List.nil_append]
    exact e3 rest
  · obtain ⟨h1, h2⟩ := unit_in (K.plane p hp) hcol hrow
    exact I.lr hr p hp row hrow col hcol (mem_pairs.2 ⟨h2, h1⟩)
  · rw [I.idx (y, x) (mem_pairs.2 ⟨hy, hx⟩)]
    have hb : ∃ b1 b2, accepts (sb (16 * C.gy + 16 * y) (16 * C.gx + 16 * x) b1) (sbs x y) = some b2 := by
      have go : ∀ (l : List (Nat × Nat)) (b : S), l.foldlM (fun b k => accepts (sb (16 * C.gy + 16 * k.1) (16 * C.gx + 16 * k.2) b) (sbs k.2 k.1)) b = some b' →
          (y, x) ∈ l → ∃ b1 b2, accepts (sb (16 * C.gy + 16 * y) (16 * C.gx + 16 * x) b1) (sbs x y) = some b2 := by
        intro l
        induction l with
        | nil => intro b _ h; exact absurd h (by simp)
        | cons k l ih =>
          intro b h hm
          rw [List.foldlM_cons] at h
          rcases ha : accepts (sb (16 * C.gy + 16 * k.1) (16 * C.gx + 16 * k.2) b) (sbs k.2 k.1) with _ | b1
          · rw [ha] at h; exact absurd h (by simp)
          · rw [ha] at h
            rcases List.mem_cons.1 hm with rfl | hm
            · exact ⟨b, b1, ha⟩
            · exact ih b1 h hm
      exact go _ _ hacc (mem_pairs.2 ⟨hy, hx⟩)
    obtain ⟨b1, b2, hb⟩ := hb
    obtain ⟨r, r1, r2, _⟩ := cdef_rt (f := f) K.enableCdef K.cdefBits K.intrabc.1 (v := 0) (Nat.two_pow_pos _) hb []
    have hco : (encodeSb C (sbs x y)).coded = (C.enableCdef && (sbs x y).any fun b => !b.skip) := by
      unfold encodeSb
      rw [r1]
      exact r2
    dsimp only
    rw [hco]
    by_cases hh : C.enableCdef = true ∧ ∃ k ∈ sbs x y, k.skip = false
    · rw [if_pos hh, if_pos]
      simp only [Bool.and_eq_true, List.any_eq_true, Bool.not_eq_true']
      exact hh
    · rw [if_neg hh, if_neg]
      simp only [Bool.and_eq_true, List.any_eq_true, Bool.not_eq_true']
      exact hh

/-- **C65, from bytes**: the same for a decoder that reads the bytes of the tile with adaptive distributions. -/
theorem side_information_bytes {S : Type} {C : Cfg} {f : Frame} (K : CfgOk C f) {R : Rdo} (hR : RdoOk C R) (sbs : Nat → Nat → List Bk)
    (sb : Nat → Nat → S → Syn S) {b b' : S} (hacc : acceptsTile C sb sbs b = some b') {filters : Nat → Nat → Nat → Filter} (hf : FiltersOk C filters)
    {cdef : Nat → Nat → Nat} (hc : CdefOk C cdef) {lf : Lf} (hlf : encodeTile C R sbs filters cdef = some lf)
    (cdfs : List (List Nat)) (hw : ∀ c ∈ cdfs, WfCdf c) (hok : ToksOk cdfs lf.out) :
    let D := ((Spec.readTile f sb (16 * C.gy) (16 * C.gx) C.sbH C.sbW (.init b)).onDec (cdfs.map toSpec) (Dec.init (Ec.encodeTile (toSyms cdfs lf.out)))).1
    D.blocks = b' ∧
    (C.enableRestoration = true → ∀ p < C.planes, ∀ row < (C.plane p).rows, ∀ col < (C.plane p).cols,
      D.lr p ((C.plane p).uy + row) ((C.plane p).ux + col) = some (lf.filters p row col).toSpec) ∧
    (∀ y < C.sbH, ∀ x < C.sbW, D.cdef (C.gy + y) (C.gx + x) =
      if C.enableCdef = true ∧ ∃ k ∈ sbs x y, k.skip = false then (lf.cdef y x : Int) else -1) := by
  obtain ⟨lf', D, e1, e2, e3, e4, _, e5⟩ := side_information_roundtrip K hR sbs sb hacc hf hc
  rw [hlf] at e1
  obtain rfl : lf = lf' := by simpa using e1
  have h := e2 []
  rw [List.append_nil] at h
  have := syntax_roundtrip _ cdfs hw lf.out hok D [] h
  dsimp only
  rw [this]
  exact ⟨e3, e4, e5⟩

end Rav1e.LoopSyn

import Verif.Cdf.LogThms
import Verif.Cdf.Tables
import Verif.Ec.Adapt
/-
Initial probabilities (`CDFContext::new`, cdf_context.rs:104-170) and property C47: every CDF the
encoder ever codes with is well formed, whatever is coded and rolled back.
-/
namespace Rav1e.Cdf
open Rav1e.Ec

/-- `cdf(vars)`: src/util/cdf.rs:10-25: `32768 - v`, zero-filled to the CDF's length. -/
def cdfConst (len : Nat) (vars : List Nat) : List Nat :=
  (vars.map (32768 - ·)) ++ List.replicate (len - vars.length) 0

/-- `qctx`: cdf_context.rs:105-110. -/
def qctx (quantizer : Nat) : Nat :=
  if quantizer ≤ 20 then 0 else if quantizer ≤ 60 then 1 else if quantizer ≤ 120 then 2 else 3

/-- The default table of a field. -/
def tableOf (q : Nat) (name : String) : List (List Nat) :=
  ((Tables.defaults q).lookup name).getD []

/-- Contents of one field. -/
def fieldWords (q : Nat) (f : Field) : List Nat :=
  if f.len = 0 then List.replicate f.count 0 else ((tableOf q f.name).map (cdfConst f.len)).flatten

/-- `CDFContext::new(quantizer)` as memory: cdf_context.rs:104-170. -/
def cdfNew (quantizer : Nat) : Mem := fun a =>
  (fields.flatMap (fieldWords (qctx quantizer))).getD a 0

/-! ### Every default table has the declared shape and is well formed -/

/-- Boolean form of `WfCdf`. -/
def wfB (c : List Nat) : Bool :=
  decide (2 ≤ c.length) && decide (c.length ≤ 16) &&
  (List.range c.length).all (fun i => decide (c.length ≤ i + 1) || decide (c.getD i 0 < 32768)) &&
  (List.range c.length).all (fun i => decide (c.length ≤ i + 2) || decide (c.getD (i + 1) 0 ≤ c.getD i 0)) &&
  decide (c.getD (c.length - 1) 0 ≤ 32)

theorem wfB_wf {c : List Nat} (h : wfB c = true) : WfCdf c := by
  simp only [wfB, Bool.and_eq_true, decide_eq_true_eq, List.all_eq_true, Bool.or_eq_true,
    List.mem_range] at h
  obtain ⟨⟨⟨⟨h1, h2⟩, h3⟩, h4⟩, h5⟩ := h
  refine ⟨⟨h1, h2, ?_, ?_, by omega⟩, h5⟩
  · intro i hi; have := h3 i (by omega); omega
  · intro i hi; have := h4 i (by omega); omega

/-- Shape and validity of a field's table. -/
def fieldOk (q : Nat) (f : Field) : Bool :=
  f.len == 0 || ((tableOf q f.name).length == f.count &&
    (tableOf q f.name).all fun v => decide (v.length + 1 = f.len) && v.all (fun x => decide (x ≤ 32768)) && wfB (cdfConst f.len v))

theorem fields_ok0 : fields.all (fieldOk 0) = true := by decide +kernel
theorem fields_ok1 : fields.all (fieldOk 1) = true := by decide +kernel
theorem fields_ok2 : fields.all (fieldOk 2) = true := by decide +kernel
theorem fields_ok3 : fields.all (fieldOk 3) = true := by decide +kernel

theorem fields_ok (q : Nat) : ∀ f ∈ fields, fieldOk (qctx q) f = true := by
  have : fields.all (fieldOk (qctx q)) = true := by
    unfold qctx
    split
    · exact fields_ok0
    · split
      · exact fields_ok1
      · split
        · exact fields_ok2
        · exact fields_ok3
  exact List.all_eq_true.1 this

/-! ### Position of a CDF in the image -/

theorem flatten_window {len : Nat} : ∀ (rows : List (List Nat)) (i j : Nat),
    (∀ r ∈ rows, r.length = len) → i < rows.length → j < len →
    rows.flatten.getD (i * len + j) 0 = (rows.getD i []).getD j 0 := by
  intro rows
  induction rows with
  | nil => intro i j _ h; simp at h
  | cons r rs ih =>
    intro i j hl hi hj
    have hr : r.length = len := hl r (by simp)
    rw [List.flatten_cons, List.getD_eq_getElem?_getD]
    cases i with
    | zero =>
      rw [List.getElem?_append_left (by omega)]
      simp [List.getD_eq_getElem?_getD]
    | succ i =>
      rw [List.getElem?_append_right (by rw [Nat.succ_mul]; omega)]
      have : (i + 1) * len + j - r.length = i * len + j := by rw [Nat.succ_mul]; omega
      rw [this, ← List.getD_eq_getElem?_getD, ih i j (fun r' h => hl r' (by simp [h]))
        (by simpa using hi) hj]
      simp [List.getD_eq_getElem?_getD]

theorem place_window (w : Field → List Nat) : ∀ (fs : List Field) (base : Nat),
    (∀ f ∈ fs, (w f).length = f.words) → ∀ f o, (f, o) ∈ place base fs →
    base ≤ o ∧ ∀ j, j < f.words → (fs.flatMap w).getD (o - base + j) 0 = (w f).getD j 0 := by
  intro fs
  induction fs with
  | nil => intro base _ f o h; simp [place] at h
  | cons g gs ih =>
    intro base hw f o h
    have hg := hw g (by simp)
    simp only [place, List.mem_cons] at h
    rcases h with h | h
    · obtain ⟨rfl, rfl⟩ := Prod.mk.inj h
      refine ⟨Nat.le_refl _, fun j hj => ?_⟩
      rw [List.flatMap_cons, List.getD_eq_getElem?_getD, List.getElem?_append_left (by omega)]
      simp [List.getD_eq_getElem?_getD]
    · obtain ⟨h1, h2⟩ := ih (base + g.words) (fun f hf => hw f (by simp [hf])) f o h
      refine ⟨by omega, fun j hj => ?_⟩
      rw [List.flatMap_cons, List.getD_eq_getElem?_getD, List.getElem?_append_right (by omega),
        ← List.getD_eq_getElem?_getD, ← h2 j hj]
      congr 1; omega

theorem mem_fields_of_layout {f : Field} {o : Nat} (h : (f, o) ∈ layout) : f ∈ fields := by
  have : ∀ (fs : List Field) (b : Nat), (f, o) ∈ place b fs → f ∈ fs := by
    intro fs
    induction fs with
    | nil => intro b h; simp [place] at h
    | cons g gs ih =>
      intro b h
      simp only [place, List.mem_cons] at h
      rcases h with h | h
      · simp [(Prod.mk.inj h).1]
      · simp [ih _ h]
  exact this fields 0 h

theorem cdfConst_length {len : Nat} {v : List Nat} (h : v.length < len) :
    (cdfConst len v).length = len := by simp [cdfConst]; omega

theorem fieldWords_length (q : Nat) {f : Field} (h : f ∈ fields) :
    (fieldWords (qctx q) f).length = f.words := by
  have hok := fields_ok q f h
  unfold fieldWords Field.words
  by_cases h0 : f.len = 0
  · simp [h0]
  · simp only [fieldOk, Bool.or_eq_true, beq_iff_eq, h0, false_or, Bool.and_eq_true,
      List.all_eq_true, decide_eq_true_eq] at hok
    simp only [h0, if_false]
    rw [List.length_flatten, List.map_map]
    have : ∀ x ∈ (tableOf (qctx q) f.name).map (List.length ∘ cdfConst f.len), x = f.len := by
      intro x hx
      obtain ⟨v, hv, rfl⟩ := List.mem_map.1 hx
      exact cdfConst_length (by have := (hok.2 v hv).1.1; omega)
    rw [List.eq_replicate_of_mem this, List.sum_replicate_nat, List.length_map, hok.1]

/-- All CDFs of a memory are well formed. -/
def AllWf (m : Mem) : Prop := ∀ l, IsCdf l → WfCdf (readWin m l.off l.len)

/-- The words of the `i`-th CDF of a field. -/
theorem cdfNew_row (quantizer : Nat) {f : Field} {o i : Nat} (hm : (f, o) ∈ layout) (h0 : f.len ≠ 0)
    (hi : i < f.count) : ∃ row, (tableOf (qctx quantizer) f.name)[i]? = some row ∧
      row.length + 1 = f.len ∧ (∀ x ∈ row, x ≤ 32768) ∧ wfB (cdfConst f.len row) = true ∧
      readWin (cdfNew quantizer) (o + i * f.len) f.len = cdfConst f.len row := by
  have hf := mem_fields_of_layout hm
  have hok := fields_ok quantizer f hf
  simp only [fieldOk, Bool.or_eq_true, beq_iff_eq, h0, false_or, Bool.and_eq_true,
    List.all_eq_true, decide_eq_true_eq] at hok
  obtain ⟨hcnt, hrows⟩ := hok
  obtain ⟨_, hpl⟩ := place_window (fieldWords (qctx quantizer)) fields 0
    (fun f hf => fieldWords_length quantizer hf) f o hm
  have hfw : fieldWords (qctx quantizer) f =
      ((tableOf (qctx quantizer) f.name).map (cdfConst f.len)).flatten := if_neg h0
  have hi' : i < (tableOf (qctx quantizer) f.name).length := by omega
  obtain ⟨⟨hv1, hv3⟩, hv2⟩ := hrows _ (List.getElem_mem hi')
  refine ⟨_, List.getElem?_eq_getElem hi', hv1, hv3, hv2, ?_⟩
  have hl : (cdfConst f.len (tableOf (qctx quantizer) f.name)[i]).length = f.len :=
    cdfConst_length (by omega)
  apply List.ext_getElem
  · rw [readWin_length, hl]
  · intro j h1 h2
    rw [readWin_length] at h1
    have hb : i * f.len + f.len ≤ f.count * f.len := by
      rw [← Nat.succ_mul]; exact Nat.mul_le_mul_right _ hi
    have e1 := hpl (i * f.len + j) (by rw [Field.words, if_neg h0]; omega)
    have e2 : (readWin (cdfNew quantizer) (o + i * f.len) f.len)[j] =
        cdfNew quantizer (o + i * f.len + j) := by simp [readWin]
    rw [e2]
    unfold cdfNew
    rw [show o + i * f.len + j = o - 0 + (i * f.len + j) by omega, e1, hfw,
      flatten_window _ i j ?_ (by simpa using hi') h1]
    · simp [List.getD_eq_getElem?_getD, hi', h2]
    · intro r hr
      obtain ⟨v, hv, rfl⟩ := List.mem_map.1 hr
      exact cdfConst_length (by have := (hrows v hv).1.1; omega)

theorem cdfNew_wf (quantizer : Nat) : AllWf (cdfNew quantizer) := by
  rintro l ⟨f, o, i, hm, h0, hi, rfl⟩
  obtain ⟨row, _, _, _, hwf, key⟩ := cdfNew_row quantizer hm h0 hi
  show WfCdf (readWin (cdfNew quantizer) (o + i * f.len) f.len)
  rw [key]
  exact wfB_wf hwf

/-- Specification (init_coeff_cdfs): the set of coefficient tables depends on which of the thresholds
20, 60, 120 the base quantizer index exceeds. -/
def specCoefSet (baseQIdx : Nat) : Nat := ([20, 60, 120].filter (· < baseQIdx)).length

theorem qctx_spec (q : Nat) : qctx q = specCoefSet q := by
  unfold qctx specCoefSet
  simp only [List.filter_cons, List.filter_nil]
  by_cases h1 : q ≤ 20
  · simp [h1, show ¬ 20 < q by omega, show ¬ 60 < q by omega, show ¬ 120 < q by omega]
  · by_cases h2 : q ≤ 60
    · simp [h1, h2, show 20 < q by omega, show ¬ 60 < q by omega, show ¬ 120 < q by omega]
    · by_cases h3 : q ≤ 120
      · simp [h1, h2, h3, show 20 < q by omega, show 60 < q by omega, show ¬ 120 < q by omega]
      · simp [h1, h2, h3, show 20 < q by omega, show 60 < q by omega, show 120 < q by omega]

/-- **C47** (values).  Seen in the specification's format (cumulative probabilities, 32768, counter),
the `i`-th CDF of a field of a new context is the `i`-th row of the field's default table followed by
32768 and a zero counter. -/
theorem default_cdfs_values (quantizer : Nat) {f : Field} {o i : Nat} (hm : (f, o) ∈ layout)
    (h0 : f.len ≠ 0) (hi : i < f.count) : ∃ row,
      (tableOf (specCoefSet quantizer) f.name)[i]? = some row ∧
      toSpec (readWin (cdfNew quantizer) (o + i * f.len) f.len) = row ++ [32768, 0] := by
  obtain ⟨row, h1, h2, h3, _, key⟩ := cdfNew_row quantizer hm h0 hi
  refine ⟨row, qctx_spec quantizer ▸ h1, ?_⟩
  have e : f.len - row.length = 1 := by omega
  rw [key]
  unfold cdfConst toSpec
  rw [e]
  have : List.replicate 1 0 = [0] := rfl
  rw [this, List.dropLast_concat, List.length_append, List.length_map]
  have h4 : (row.map (32768 - ·)).map (fun v => 32768 - v) = row := by
    rw [List.map_map]
    conv_rhs => rw [← List.map_id row]
    apply List.map_congr_left
    intro x hx
    have := h3 x hx
    simp only [Function.comp, id]; omega
  rw [h4]
  simp [List.getD_eq_getElem?_getD]

/-! ### Coding histories -/

/-- What the block coder does with the context: `symbol_with_update` (ec.rs:548-562) on a CDF,
`checkpoint`, `rollback` (context/mod.rs, cdf_context.rs:661-689). -/
inductive SymOp where
  | code (l : Loc) (s : Nat) (grow : Nat)
  | save
  | restore (i : Nat)

def State.runSym : State → List Ckpt → List SymOp → State
  | s, _, [] => s
  | s, cs, .code l v g :: ops =>
    (s.update l (updateCdf (readWin s.mem l.off l.len) v) g).runSym cs ops
  | s, cs, .save :: ops => s.runSym (cs ++ [s.checkpoint]) ops
  | s, cs, .restore i :: ops =>
    match cs[i]? with
    | some c => (s.rollback c).runSym cs ops
    | none => s.runSym cs ops

/-- Specification: coded (CDF, symbol) pairs that survive. -/
def survivingSyms : List (Loc × Nat) → List (List (Loc × Nat)) → List SymOp → List (Loc × Nat)
  | h, _, [] => h
  | h, hs, .code l v _ :: ops => survivingSyms (h ++ [(l, v)]) hs ops
  | h, hs, .save :: ops => survivingSyms h (hs ++ [h]) ops
  | h, hs, .restore i :: ops => survivingSyms (hs.getD i h) hs ops

def LegalSyms : List (Loc × Nat) → List (List (Loc × Nat)) → List SymOp → Prop
  | _, _, [] => True
  | h, hs, .code l v _ :: ops => IsCdf l ∧ LegalSyms (h ++ [(l, v)]) hs ops
  | h, hs, .save :: ops => LegalSyms h (hs ++ [h]) ops
  | h, hs, .restore i :: ops => ∃ h0, hs[i]? = some h0 ∧ h0 <+: h ∧ LegalSyms h0 hs ops

/-- Specification: probabilities after adapting to a sequence of coded symbols, nothing else. -/
def adaptTo (m : Mem) (h : List (Loc × Nat)) : Mem :=
  h.foldl (fun m p => writeWin m p.1.off (updateCdf (readWin m p.1.off p.1.len) p.2)) m

theorem readWin_writeWin_same (m : Mem) (o : Nat) (d : List Nat) :
    readWin (writeWin m o d) o d.length = d := by
  apply List.ext_getElem
  · rw [readWin_length]
  · intro j h1 h2
    simp [readWin, writeWin, List.getD_eq_getElem?_getD, h2]

theorem readWin_writeWin_apart (m : Mem) (o : Nat) (d : List Nat) (o' w : Nat)
    (h : o + d.length ≤ o' ∨ o' + w ≤ o) : readWin (writeWin m o d) o' w = readWin m o' w := by
  apply List.ext_getElem
  · rw [readWin_length, readWin_length]
  · intro j h1 h2
    rw [readWin_length] at h1
    simp only [readWin, List.getElem_map, List.getElem_range, writeWin]
    rw [if_neg (by omega)]

theorem code_wf {m : Mem} (h : AllWf m) {l : Loc} (hl : IsCdf l) (s : Nat) :
    AllWf (writeWin m l.off (updateCdf (readWin m l.off l.len) s)) := by
  intro l' hl'
  have hw := h l hl
  have hlen : (updateCdf (readWin m l.off l.len) s).length = l.len := by
    rw [updateCdf_length (by have := hw.two_le; omega), readWin_length]
  by_cases he : l = l'
  · subst he
    have e := readWin_writeWin_same m l.off (updateCdf (readWin m l.off l.len) s)
    rw [hlen] at e
    rw [e]
    exact updateCdf_wf hw s
  · rw [readWin_writeWin_apart]
    · exact h l' hl'
    · rw [hlen]
      exact cdfs_disjoint hl hl' he

theorem adaptTo_append (m : Mem) (h : List (Loc × Nat)) (p : Loc × Nat) :
    adaptTo m (h ++ [p]) = writeWin (adaptTo m h) p.1.off
      (updateCdf (readWin (adaptTo m h) p.1.off p.1.len) p.2) := by
  simp [adaptTo, List.foldl_append]

theorem adaptTo_wf {m : Mem} (h : AllWf m) (hist : List (Loc × Nat))
    (hh : ∀ p ∈ hist, IsCdf p.1) : AllWf (adaptTo m hist) := by
  induction hist using List.reverseRecOn with
  | nil => exact h
  | append_singleton hist p ih =>
    rw [adaptTo_append]
    exact code_wf (ih (fun q hq => hh q (by simp [hq]))) (hh p (by simp)) p.2

/-- Updates performed for a history of symbols. -/
def denote (m : Mem) : List (Loc × Nat) → List Upd → List Upd
  | [], acc => acc
  | p :: ps, acc =>
    denote m ps (acc ++ [⟨p.1, updateCdf (readWin (applyAll m acc) p.1.off p.1.len) p.2, 0⟩])

theorem denote_append (m : Mem) (a b : List (Loc × Nat)) (acc : List Upd) :
    denote m (a ++ b) acc = denote m b (denote m a acc) := by
  induction a generalizing acc with
  | nil => rfl
  | cons p ps ih => exact ih _

theorem denote_prefix (m : Mem) (a : List (Loc × Nat)) (acc : List Upd) : acc <+: denote m a acc := by
  induction a generalizing acc with
  | nil => exact List.prefix_refl _
  | cons p ps ih => exact (List.prefix_append _ _).trans (ih _)

theorem denote_locs (m : Mem) (a : List (Loc × Nat)) (acc : List Upd)
    (h : ∀ p ∈ a, IsCdf p.1) (h' : ∀ u ∈ acc, IsCdf u.loc) : ∀ u ∈ denote m a acc, IsCdf u.loc := by
  induction a generalizing acc with
  | nil => exact h'
  | cons p ps ih =>
    refine ih _ (fun q hq => h q (by simp [hq])) (fun u hu => ?_)
    rcases List.mem_append.1 hu with h1 | h1
    · exact h' u h1
    · rw [List.mem_singleton.1 h1]; exact h p (by simp)

theorem applyAll_denote {m : Mem} (hm : AllWf m) (hist : List (Loc × Nat))
    (h : ∀ p ∈ hist, IsCdf p.1) : applyAll m (denote m hist []) = adaptTo m hist := by
  induction hist using List.reverseRecOn with
  | nil => rfl
  | append_singleton hist p ih =>
    have ih := ih (fun q hq => h q (by simp [hq]))
    have hw := adaptTo_wf hm hist (fun q hq => h q (by simp [hq])) p.1 (h p (by simp))
    rw [denote_append, adaptTo_append]
    show applyAll m (denote m hist [] ++ [_]) = _
    unfold applyAll at *
    rw [List.foldl_append]
    simp only [List.foldl_cons, List.foldl_nil]
    rw [ih]
    congr 1
    rw [List.take_of_length_le]
    rw [updateCdf_length (by have := hw.two_le; omega), readWin_length]

theorem runSym_same {m : Mem} : ∀ (ops : List SymOp) (s : State) (cs : List Ckpt)
    (h : List (Loc × Nat)) (hs : List (List (Loc × Nat))),
    Same s ((State.init m).updates (denote m h [])) → (∀ p ∈ h, IsCdf p.1) →
    cs = hs.map (fun h0 => ((State.init m).updates (denote m h0 [])).checkpoint) →
    LegalSyms h hs ops →
    Same (s.runSym cs ops) ((State.init m).updates (denote m (survivingSyms h hs ops) [])) ∧
    ∀ p ∈ survivingSyms h hs ops, IsCdf p.1 := by
  intro ops
  induction ops with
  | nil => intro s cs h hs hsame hh _ _; exact ⟨hsame, hh⟩
  | cons op ops ih =>
    intro s cs h hs hsame hh hcs hleg
    cases op with
    | code l v g =>
      obtain ⟨hu, hleg⟩ := hleg
      refine ih _ _ _ _ ?_ ?_ hcs hleg
      · rw [denote_append]
        show Same _ ((State.init m).updates (denote m h [] ++ [_]))
        rw [updates_append]
        have e : s.mem = applyAll m (denote m h []) := by rw [hsame.mem, updates_mem]; rfl
        rw [e]
        exact hsame.update ⟨l, _, 0⟩ g
      · intro v hv
        rcases List.mem_append.1 hv with h1 | h1
        · exact hh v h1
        · rw [List.mem_singleton.1 h1]; exact hu
    | save =>
      refine ih _ _ _ _ hsame hh ?_ hleg
      rw [List.map_append, hcs, checkpoint_congr hsame]; rfl
    | restore i =>
      obtain ⟨h0, hi, hpre, hleg⟩ := hleg
      have hc : cs[i]? = some ((State.init m).updates (denote m h0 [])).checkpoint := by
        rw [hcs, List.getElem?_map, hi]; rfl
      have hg : hs.getD i h = h0 := by rw [List.getD_eq_getElem?_getD, hi]; rfl
      unfold State.runSym survivingSyms
      rw [hc, hg]
      have hh0 : ∀ u ∈ h0, IsCdf u.1 := fun u hu => hh u (hpre.subset hu)
      refine ih _ _ _ _ ?_ hh0 hcs hleg
      obtain ⟨t, rfl⟩ := hpre
      refine (hsame.rollback _).trans ?_
      rw [denote_append]
      obtain ⟨t', ht'⟩ := denote_prefix m t (denote m h0 [])
      rw [← ht', updates_append]
      have hall : ∀ u ∈ denote m t (denote m h0 []), IsCdf u.loc :=
        denote_locs m t _ (fun p hp => hh p (by simp [hp])) (denote_locs m h0 [] hh0 (by simp))
      exact (rollback_undoes _ t' (fun u hu => hall u (by rw [← ht']; simp [hu]))
        (init_smallE m _ (denote_locs m h0 [] hh0 (by simp)))).2

/-- **C47**.  Start a tile from any well-formed probabilities `m0` and code any symbols on any CDFs,
with any checkpoints and rollbacks.  At the end (hence at every moment, every prefix of a history being
a history) each CDF of the context is well formed, i.e. usable by the range coder, and the
probabilities are exactly those adapted to the surviving symbols. -/
theorem context_always_wellformed {m0 : Mem} (hm : ∀ l, IsCdf l → WfCdf (readWin m0 l.off l.len))
    (ops : List SymOp) (h : LegalSyms [] [] ops) :
    let m := ((State.init m0).runSym [] ops).mem
    m = adaptTo m0 (survivingSyms [] [] ops) ∧
    ∀ l, IsCdf l → WfCdf (readWin m l.off l.len) := by
  obtain ⟨h1, h2⟩ := runSym_same (m := m0) ops (State.init m0) [] [] []
    (Same.refl _) (by simp) rfl h
  have e : ((State.init m0).runSym [] ops).mem = adaptTo m0 (survivingSyms [] [] ops) := by
    rw [h1.mem, updates_mem]
    exact applyAll_denote hm _ h2
  refine ⟨e, ?_⟩
  rw [e]
  exact adaptTo_wf hm _ h2

/-- **C47** (defaults).  The initial probabilities are well formed for every quantizer. -/
theorem default_cdfs_wellformed (quantizer : Nat) (l : Loc) (h : IsCdf l) :
    WfCdf (readWin (cdfNew quantizer) l.off l.len) := cdfNew_wf quantizer l h

/-- Resetting the counters between frames keeps every CDF well formed (`reset_counts` before the
context is stored for later frames, encoder.rs). -/
theorem reset_counts_wf {m : Mem} (h : AllWf m) : AllWf (resetCounts m) := by
  intro l hl
  have hw := h l hl
  obtain ⟨r1, r2⟩ := reset_counts_exact m l hl
  have hlen : (readWin m l.off l.len).length = l.len := readWin_length _ _ _
  have hlen' : (readWin (resetCounts m) l.off l.len).length = l.len := readWin_length _ _ _
  have h2 := hw.two_le
  have h16 := hw.le_sixteen
  rw [hlen] at h2 h16
  have g : ∀ j, j + 1 < l.len →
      (readWin (resetCounts m) l.off l.len).getD j 0 = (readWin m l.off l.len).getD j 0 := by
    intro j hj
    rw [readWin_getD _ _ _ _ (by omega), readWin_getD _ _ _ _ (by omega), r2 j hj]
  have glast : (readWin (resetCounts m) l.off l.len).getD (l.len - 1) 0 = 0 := by
    rw [readWin_getD _ _ _ _ (by omega), show l.off + (l.len - 1) = counterWord l by
      unfold counterWord; omega, r1]
  refine ⟨⟨by omega, by omega, ?_, ?_, ?_⟩, ?_⟩
  · intro i hi; rw [hlen'] at hi; rw [g i hi]; exact hw.lt i (by omega)
  · intro i hi; rw [hlen'] at hi; rw [g i (by omega), g (i + 1) (by omega)]; exact hw.mono i (by omega)
  · rw [hlen', glast]; decide
  · rw [hlen', glast]; decide

example : LegalSyms [] []
    [.code (demoLoc "dc_sign_cdf" 3) 1 0, .save, .code (demoLoc "inter_tx_1_cdf" 2) 9 7, .restore 0,
     .code (demoLoc "dc_sign_cdf" 3) 0 0] :=
  ⟨demoLoc_isCdf "dc_sign_cdf" 3 (by decide +kernel),
   demoLoc_isCdf "inter_tx_1_cdf" 2 (by decide +kernel), _, rfl, List.prefix_append _ _,
   demoLoc_isCdf "dc_sign_cdf" 3 (by decide +kernel), trivial⟩

end Rav1e.Cdf

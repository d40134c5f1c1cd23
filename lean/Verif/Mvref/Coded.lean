import Verif.Mvref.Even
import Verif.Mvref.Motion

/-!
# The motion of every block of a tile is what the decoder reads
-/

namespace Rav1e.Mvref

open Spec (Cdf Sym Result Blk Geo Tree Info)

/-- `dmv_in_range` (src/rdo.rs:804-812). -/
def dmvInRange (mv pred : Mv) : Bool :=
  decide (-16384 ≤ mv.1 - pred.1 ∧ mv.1 - pred.1 ≤ 16384 ∧ -16384 ≤ mv.2 - pred.2 ∧ mv.2 - pred.2 ≤ 16384)

/-- A new motion vector may be coded: it is valid, in quarters of a pixel, and `dmv_in_range`. -/
def NewOk (mv pred : Mv) : Prop := isValid mv = true ∧ Quarter mv ∧ dmvInRange mv pred = true

/-- The new vectors of a block may be coded. -/
def NewsOk (m : Mode) (mv0 mv1 : Mv) (stack : List Cand) : Prop :=
  (m = .newmv ∨ m = .new_newmv ∨ m = .new_nearestmv → NewOk mv0 (refMvs stack).1) ∧ (m = .new_newmv ∨ m = .nearest_newmv → NewOk mv1 (refMvs stack).2)

theorem NewOk.codable {mv pred : Mv} (h : NewOk mv pred) (hp : Quarter pred) : Codable mv pred := by
  obtain ⟨h1, h2, h3⟩ := h
  unfold dmvInRange at h3
  rw [decide_eq_true_eq] at h3
  unfold Quarter at h2 hp
  exact ⟨h1, by omega, by omega, by omega⟩

variable {g : Geo} {t : Nat → Nat → Tree} {pre post : List Blk} {b : Blk} {ref0 ref1 : Int} {sb : Int → Bool} {e : Env} {stack : List Cand} {ctx : Nat}

/-- The stack and the context of the encoder are those of the decoder. -/
theorem agrees (G : GeoOk g) (ht : ∀ r c, (t r c).Ok 16) (hb : g.tile t = pre ++ b :: post) (R : Rel e (inputAt g pre b ref0 ref1 sb))
    (hm : e.findMvrefs = some (stack, ctx)) : ∃ out, (inputAt g pre b ref0 ref1 sb).findMvStack = some out ∧ Agrees out stack ctx ∧
      (Quarter (refMvs stack).1 ∧ Quarter (refMvs stack).2) ∧ (ref1 > 0 → 2 ≤ stack.length) := by
  obtain ⟨out, h1, h2⟩ := mvrefs_decoder G ht hb R
  rw [hm, Option.some.injEq, Prod.mk.injEq] at h2
  obtain ⟨s1, s2, s3, s4⟩ := stack_spec R.qframe h1
  refine ⟨out, h1, ⟨h2.1, h2.2, s3, s4, fun hq hr => drl_decoder G ht hb R h1 hm hq hr⟩, ?_, fun hr => ?_⟩
  · rw [h2.1]
    cases hs : out.stack with
    | nil => exact ⟨quarter_zero, quarter_zero⟩
    | cons q l => exact s1 q (by rw [hs]; simp)
  · rw [h2.1, List.length_map]
    exact s2 (decide_eq_true hr)

theorem Rel.isCompound {p : Spec.Input} (R : Rel e p) : e.isCompound = decide (p.ref1 > 0) := by
  have h := R.ref1
  rcases R.compound with ⟨h1, h2, h3⟩ | ⟨h1, h2⟩
  · rw [h1, h]
    unfold refInt
    rw [if_neg (by omega)]
    exact (decide_eq_true (by omega)).symm
  · rw [h1, h, h2]
    rfl

/-- **C61.**  For every tile, partition, block and choice of references: if the vectors of the block are what its mode says about the stack, and new vectors
may be coded, then the encoder writes the mode and the vectors without panic, and a decoder that has decoded the blocks before reads exactly that mode, those
vectors, and nothing more. -/
theorem motion_decoder (G : GeoOk g) (ht : ∀ r c, (t r c).Ok 16) (hb : g.tile t = pre ++ b :: post) (R : Rel e (inputAt g pre b ref0 ref1 sb))
    (hm : e.findMvrefs = some (stack, ctx)) {m : Mode} {mv0 mv1 : Mv} (hc : m.isCompound = e.isCompound) (hs : Says m mv0 mv1 stack)
    (hn : NewsOk m mv0 mv1 stack) :
    ∃ out l, (inputAt g pre b ref0 ref1 sb).findMvStack = some out ∧ writeMotion m mv0 mv1 stack ctx .low = some l ∧
      ∀ rest, Spec.readMotion (decide (ref1 > 0)) out (l ++ rest) = some ((modeOf m, mv0, if ref1 > 0 then some mv1 else none), rest) := by
  obtain ⟨out, h1, A, ⟨q0, q1⟩, _⟩ := agrees G ht hb R hm
  obtain ⟨l, w1, w2⟩ := motion_rt A hs (fun h => (hn.1 h).codable q0) (fun h => (hn.2 h).codable q1)
  have hcc : m.isCompound = decide (ref1 > 0) := hc.trans R.isCompound
  refine ⟨out, l, h1, w1, fun rest => ?_⟩
  have := w2 rest
  rw [hcc] at this
  simpa using this

/-- **C61.**  Top down, the mode of a block is fitted to the stack before the block is coded: this does not panic, and then the vectors are what the mode says,
whatever stack they were chosen with. -/
theorem topdown_says (G : GeoOk g) (ht : ∀ r c, (t r c).Ok 16) (hb : g.tile t = pre ++ b :: post) (R : Rel e (inputAt g pre b ref0 ref1 sb))
    (hm : e.findMvrefs = some (stack, ctx)) {m : Mode} {mv0 mv1 : Mv} (hc : m.isCompound = e.isCompound) (hi : m ≠ .intra)
    (hg : m = .globalmv → mv0 = (0, 0)) (hgg : m = .global_globalmv → mv0 = (0, 0) ∧ mv1 = (0, 0)) :
    ∃ m', remap m e.isCompound mv0 mv1 stack = some m' ∧ m'.isCompound = e.isCompound ∧ Says m' mv0 mv1 stack := by
  obtain ⟨out, h1, A, _, hl⟩ := agrees G ht hb R hm
  have hsome : ∃ m', remap m e.isCompound mv0 mv1 stack = some m' := by
    unfold remap
    by_cases h2 : e.isCompound = true
    · have hr : ref1 > 0 := of_decide_eq_true ((R.isCompound).symm.trans h2)
      have hl := hl hr
      split_ifs
      · unfold remapCompound
        rw [List.getElem?_eq_getElem (show 0 < stack.length by omega), List.getElem?_eq_getElem (show 1 < stack.length by omega)]
        exact ⟨_, rfl⟩
      · exact ⟨_, rfl⟩
      · exact ⟨_, rfl⟩
    · have h2 : e.isCompound = false := by simpa using h2
      rw [h2]
      rw [if_neg (by simp)]
      split_ifs <;> exact ⟨_, rfl⟩
  obtain ⟨m', h⟩ := hsome
  rw [← hc] at h ⊢
  exact ⟨m', h, remap_says hi hg hgg h⟩

/-- **C61.**  In the mode decision, the vectors that go with a mode are what the mode says. -/
theorem rdo_says {m : Mode} {me0 me1 mv0 mv1 : Mv} (h : rdoMvs m me0 me1 stack = some (mv0, mv1)) (hl : m.isCompound = true → 2 ≤ stack.length) :
    Says m mv0 mv1 stack := by
  cases m with
  | nearestmv =>
    cases stack with
    | nil => simp [rdoMvs] at h; simp [Says, h.1.symm]
    | cons q l => simp [rdoMvs] at h; simp [Says, h.1.symm]
  | near0mv =>
    unfold rdoMvs at h
    cases h1 : stack[1]? with
    | none => rw [h1] at h; simp at h; simp [Says, h1, h.1.symm]
    | some q => rw [h1] at h; simp at h; simp [Says, h1, h.1.symm]
  | near1mv =>
    obtain ⟨q, h1, h2⟩ := Option.map_eq_some_iff.mp h
    exact ⟨q, h1, (Prod.mk.inj h2).1.symm⟩
  | near2mv =>
    obtain ⟨q, h1, h2⟩ := Option.map_eq_some_iff.mp h
    exact ⟨q, h1, (Prod.mk.inj h2).1.symm⟩
  | globalmv => exact (Prod.mk.inj (Option.some.inj h)).1.symm
  | newmv => trivial
  | nearest_nearestmv =>
    have := hl rfl
    match hst : stack with
    | [] => simp at this
    | q :: l =>
      have h2 := Prod.mk.inj (Option.some.inj h)
      exact ⟨q, rfl, h2.1.symm, h2.2.symm⟩
  | near_near0mv =>
    have := hl rfl
    unfold rdoMvs at h
    have h1 : stack[1]? = some stack[1] := List.getElem?_eq_getElem (by omega)
    rw [h1] at h
    have h2 := Prod.mk.inj (Option.some.inj h)
    exact ⟨_, h1, h2.1.symm, h2.2.symm⟩
  | near_near1mv =>
    obtain ⟨q, h1, h2⟩ := Option.map_eq_some_iff.mp h
    exact ⟨q, h1, (Prod.mk.inj h2).1.symm, (Prod.mk.inj h2).2.symm⟩
  | near_near2mv =>
    obtain ⟨q, h1, h2⟩ := Option.map_eq_some_iff.mp h
    exact ⟨q, h1, (Prod.mk.inj h2).1.symm, (Prod.mk.inj h2).2.symm⟩
  | nearest_newmv =>
    obtain ⟨q, h1, h2⟩ := Option.map_eq_some_iff.mp h
    exact ⟨q, h1, (Prod.mk.inj h2).1.symm⟩
  | new_nearestmv =>
    obtain ⟨q, h1, h2⟩ := Option.map_eq_some_iff.mp h
    exact ⟨q, h1, (Prod.mk.inj h2).2.symm⟩
  | global_globalmv => exact ⟨(Prod.mk.inj (Option.some.inj h)).1.symm, (Prod.mk.inj (Option.some.inj h)).2.symm⟩
  | new_newmv => exact hl rfl
  | intra => simp [rdoMvs] at h
  | near_new0mv => simp [rdoMvs] at h
  | near_new1mv => simp [rdoMvs] at h
  | near_new2mv => simp [rdoMvs] at h
  | new_near0mv => simp [rdoMvs] at h
  | new_near1mv => simp [rdoMvs] at h
  | new_near2mv => simp [rdoMvs] at h

/-! ### A whole tile -/

/-- A decoder that reads the motion of the blocks of a tile, one after the other; where blocks lie and which references they use is known from other syntax
elements, so `mode`, `mv0` and `mv1` in the list that is given do not matter except for telling intra blocks. -/
def Spec.readTile (g : Geo) (sb : Int → Bool) : List Blk → List Blk → List Sym → Option (List Blk × List Sym)
  | _, [], l => some ([], l)
  | pre, s :: shapes, l =>
    if s.info.mode = .intra then do
      let q ← Spec.readTile g sb (pre ++ [s]) shapes l
      some (s :: q.1, q.2)
    else do
      let out ← (Spec.Input.mk g (Spec.decoded pre) s.row s.col s.bw4 s.bh4 s.info.ref0 s.info.ref1 sb).findMvStack
      let x ← Spec.readMotion (decide (s.info.ref1 > 0)) out l
      let b : Blk := ⟨s.row, s.col, s.bw4, s.bh4, ⟨x.1.1, s.info.ref0, s.info.ref1, x.1.2.1, x.1.2.2.getD (0, 0)⟩⟩
      let q ← Spec.readTile g sb (pre ++ [b]) shapes x.2
      some (b :: q.1, q.2)

/-- What is known of a block before its motion is read. -/
def Spec.shape (b : Blk) : Blk :=
  if b.info.mode = .intra then b else { b with info := ⟨.newmv, b.info.ref0, b.info.ref1, (0, 0), (0, 0)⟩ }

/-- The encoder writes the motion of these blocks after it has coded the blocks `pre`: for each inter block, in a state that shows the blocks before, it finds
the candidates, has a mode and vectors that fit, and writes them. -/
inductive Coded (g : Geo) (sb : Int → Bool) : List Blk → List Blk → List Sym → Prop
  | nil {pre : List Blk} : Coded g sb pre [] []
  | intra {pre : List Blk} {b : Blk} {post : List Blk} {l : List Sym} : b.info.mode = .intra → Coded g sb (pre ++ [b]) post l → Coded g sb pre (b :: post) l
  | inter {pre : List Blk} {b : Blk} {post : List Blk} {l w : List Sym} {e : Env} {stack : List Cand} {ctx : Nat} {m : Mode} :
      Rel e (inputAt g pre b b.info.ref0 b.info.ref1 sb) → e.findMvrefs = some (stack, ctx) → m.isCompound = e.isCompound → modeOf m = b.info.mode →
      (b.info.ref1 ≤ 0 → b.info.mv1 = (0, 0)) → Says m b.info.mv0 b.info.mv1 stack → NewsOk m b.info.mv0 b.info.mv1 stack →
      writeMotion m b.info.mv0 b.info.mv1 stack ctx .low = some w → Coded g sb (pre ++ [b]) post l → Coded g sb pre (b :: post) (w ++ l)

theorem coded_read (G : GeoOk g) (ht : ∀ r c, (t r c).Ok 16) {post : List Blk} {l : List Sym} (h : Coded g sb pre post l) :
    g.tile t = pre ++ post → ∀ rest, Spec.readTile g sb pre (post.map Spec.shape) (l ++ rest) = some (post, rest) := by
  induction h with
  | nil => intro _ rest; rfl
  | @intra pre b post l hi _ ih =>
    intro hb rest
    have := ih (by rw [hb, List.append_assoc]; rfl) rest
    rw [List.map_cons, Spec.readTile]
    have hsh : Spec.shape b = b := by unfold Spec.shape; rw [if_pos hi]
    rw [hsh, if_pos hi, this]
    rfl
  | @inter pre b post l w e stack ctx m R hm hc hmode h1 hs hn hw _ ih =>
    intro hb rest
    have hi : b.info.mode ≠ .intra := by
      rw [← hmode]
      intro h
      cases m <;> first | exact absurd h (by decide) | exact absurd hs (by simp [Says])
    obtain ⟨out, l', o1, o2, o3⟩ := motion_decoder G ht hb R hm hc hs hn
    rw [hw, Option.some.injEq] at o2
    subst o2
    have hsh : Spec.shape b = { b with info := ⟨.newmv, b.info.ref0, b.info.ref1, (0, 0), (0, 0)⟩ } := by unfold Spec.shape; rw [if_neg hi]
    rw [List.map_cons, Spec.readTile, hsh]
    dsimp only
    rw [if_neg (by decide)]
    unfold inputAt at o1
    rw [o1, List.append_assoc]
    simp only [Option.bind_eq_bind, Option.bind_some]
    rw [o3]
    simp only [Option.bind_some]
    have hblk : (⟨b.row, b.col, b.bw4, b.bh4, ⟨modeOf m, b.info.ref0, b.info.ref1, b.info.mv0, (if b.info.ref1 > 0 then some b.info.mv1 else none).getD (0, 0)⟩⟩ : Blk) = b := by
      have h2 : (if b.info.ref1 > 0 then some b.info.mv1 else none).getD (0, 0) = b.info.mv1 := by
        split_ifs with hp
        · rfl
        · exact (h1 (by omega)).symm
      rw [hmode, h2]
    rw [hblk, ih (by rw [hb, List.append_assoc]; rfl) rest]
    rfl

/-- **C61.**  For every tile and every way to partition it: a decoder that reads what the encoder has written for the motion of the blocks of the tile gets
every mode and every vector, and has then read all of it. -/
theorem tile_motion (G : GeoOk g) (ht : ∀ r c, (t r c).Ok 16) {l : List Sym} (h : Coded g sb [] (g.tile t) l) (rest : List Sym) :
    Spec.readTile g sb [] ((g.tile t).map Spec.shape) (l ++ rest) = some (g.tile t, rest) :=
  coded_read G ht h rfl rest

/-! ### The hypotheses can be met, and one that has to be made -/

/-- A vector that stands on the stack, a new one, and a pair of which one is new. -/
example :
    remap .nearestmv false (-400, 8) (0, 0) [⟨(2, 2), (0, 0), 664⟩, ⟨(40, 8), (0, 0), 648⟩, ⟨(-400, 8), (0, 0), 648⟩, ⟨(16, -8), (0, 0), 4⟩] = some .near1mv ∧
    remap .nearestmv false (2, -700) (0, 0) [⟨(2, 2), (0, 0), 664⟩, ⟨(40, 8), (0, 0), 648⟩] = some .newmv ∧ dmvInRange (2, -700) (2, 2) = true ∧
    remap .new_newmv true (40, 8) (2, 2) [⟨(40, 8), (-6, 10), 648⟩, ⟨(-400, 8), (-40, -8), 2⟩] = some .nearest_newmv := by decide +kernel

example : writeMotion .newmv (2, -700) (0, 0) [⟨(2, 2), (0, 0), 664⟩, ⟨(40, 8), (0, 0), 648⟩] 84 .low =
    some [(.newMv 4, 0), (.drlMode 0, 0), (.mvJoint, 1), (.mvSign 1, 1), (.mvClass 1, 6), (.mvBit 1 0, 1), (.mvBit 1 1, 1), (.mvBit 1 2, 1), (.mvBit 1 3, 0),
      (.mvBit 1 4, 1), (.mvBit 1 5, 0), (.mvFr 1, 2)] := by decide +kernel

/-- A tile of one superblock: a new vector, and the same one again. -/
def oneGeo : Geo := ⟨16, 16, 0, 16, 0, 16⟩

@[inherit_doc oneGeo] def oneTree : Tree := .vert ⟨.newmv, 1, -1, (16, -8), (0, 0)⟩ ⟨.nearestmv, 1, -1, (16, -8), (0, 0)⟩

theorem one_tile : (oneGeo.tile fun _ _ => oneTree) = [⟨0, 0, 8, 16, ⟨.newmv, 1, -1, (16, -8), (0, 0)⟩⟩, ⟨0, 8, 8, 16, ⟨.nearestmv, 1, -1, (16, -8), (0, 0)⟩⟩] := by
  decide +kernel

theorem one_coded : ∃ l, l ≠ [] ∧ Coded oneGeo (fun _ => false) [] (oneGeo.tile fun _ _ => oneTree) l := by
  have G : GeoOk oneGeo := ⟨rfl, rfl, rfl, rfl, by decide, by decide, .inl rfl, .inl rfl⟩
  have T : ∀ r c : Nat, ((fun _ _ => oneTree) r c : Tree).Ok 16 := fun _ _ => by simp [oneTree, Tree.Ok]
  have hgood : ∀ l : List Blk, (∀ b ∈ l, Good b.info) → ∀ i j b, Spec.decoded l i j = some b → Good b.info := by
    intro l hl i j b hb
    exact decoded_good l hl i j b hb
  have R1 : Rel _ (inputAt oneGeo [] ⟨0, 0, 8, 16, ⟨.newmv, 1, -1, (16, -8), (0, 0)⟩⟩ 1 (-1) fun _ => false) :=
    rel_envOf (hgood [] (by simp)) (by decide) (by decide) (by unfold In; decide)
  have R2 : Rel _ (inputAt oneGeo [⟨0, 0, 8, 16, ⟨.newmv, 1, -1, (16, -8), (0, 0)⟩⟩] ⟨0, 8, 8, 16, ⟨.nearestmv, 1, -1, (16, -8), (0, 0)⟩⟩ 1 (-1) fun _ => false) :=
    rel_envOf (hgood [_] (by unfold Good Small; decide)) (by decide) (by decide) (by unfold In; decide)
  obtain ⟨o1, a1, b1⟩ := mvrefs_decoder G T (pre := []) one_tile R1
  obtain ⟨o2, a2, b2⟩ := mvrefs_decoder G T (pre := [_]) one_tile R2
  have e1 : o1 = ⟨[], 0, 0, []⟩ := by
    rw [show (inputAt oneGeo [] ⟨0, 0, 8, 16, ⟨.newmv, 1, -1, (16, -8), (0, 0)⟩⟩ 1 (-1) fun _ => false).findMvStack = some ⟨[], 0, 0, []⟩ by decide +kernel] at a1
    exact (Option.some.inj a1).symm
  have e2 : o2 = ⟨[⟨(16, -8), (0, 0), 736⟩], 2, 3, [0]⟩ := by
    rw [show (inputAt oneGeo [⟨0, 0, 8, 16, ⟨.newmv, 1, -1, (16, -8), (0, 0)⟩⟩] ⟨0, 8, 8, 16, ⟨.nearestmv, 1, -1, (16, -8), (0, 0)⟩⟩ 1 (-1) fun _ => false).findMvStack =
      some ⟨[⟨(16, -8), (0, 0), 736⟩], 2, 3, [0]⟩ by decide +kernel] at a2
    exact (Option.some.inj a2).symm
  subst e1 e2
  rw [one_tile]
  refine ⟨_, ?_, .inter (m := .newmv) R1 b1 rfl rfl (fun _ => rfl) trivial ⟨fun _ => ⟨by decide, ⟨rfl, rfl⟩, by decide⟩, by simp⟩ (w := [(.newMv 0, 0), (.mvJoint, 3), (.mvSign 0, 0),
    (.mvClass 0, 0), (.mvClass0Bit 0, 1), (.mvClass0Fr 0 1, 3), (.mvSign 1, 1), (.mvClass 1, 0), (.mvClass0Bit 1, 0), (.mvClass0Fr 1 0, 3)]) (by decide +kernel)
    (.inter (m := .nearestmv) R2 b2 rfl rfl (fun _ => rfl) rfl ⟨by simp, by simp⟩ (w := [(.newMv 2, 1), (.zeroMv 0, 1), (.refMv 3, 0)]) (by decide +kernel) .nil)⟩
  simp

/-- That new vectors are near enough to the prediction is checked when the mode is decided (`dmv_in_range`), but not again after the mode has been fitted to
another stack: a valid vector may then be too far away from the new prediction, and writing it panics. -/
theorem remap_far : ∃ (stack : List Cand) (mv : Mv), (∀ q ∈ stack, isValid q.this = true) ∧ isValid mv = true ∧
    remap .nearestmv false mv (0, 0) stack = some .newmv ∧ writeMotion .newmv mv (0, 0) stack 0 .low = none :=
  ⟨[⟨(16000, 0), (0, 0), 650⟩], (-16000, 0), by decide, by decide, by decide, by decide +kernel⟩

end Rav1e.Mvref

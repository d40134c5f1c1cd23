import Verif.Block.Tile

/-!
# The blocks of a tile

C62: what is decided for the blocks of a tile is what a decoder reads.
-/

namespace Rav1e.Block

open Mvref (GeoOk I16)
open Spec (Sym)

/-- A block of the partition tree: its place and size and what was decided. -/
structure Leaf where
  x : Nat
  y : Nat
  w : Nat
  h : Nat
  ch : Choice

/-- The blocks of a square of `n` units, in coding order; those outside the tile are not coded. -/
def Tree.leaves (C : Cfg) : Nat → Nat → Nat → Tree → List Leaf
  | n, x, y, t =>
    if x ≥ C.cols ∨ y ≥ C.rows then []
    else match t with
      | .none a => [⟨x, y, n, n, a⟩]
      | .horz a b => ⟨x, y, n, n / 2, a⟩ :: if y + n / 2 < C.rows then [⟨x, y + n / 2, n, n / 2, b⟩] else []
      | .vert a b => ⟨x, y, n / 2, n, a⟩ :: if x + n / 2 < C.cols then [⟨x + n / 2, y, n / 2, n, b⟩] else []
      | .split a b c d =>
        a.leaves C (n / 2) x y ++ b.leaves C (n / 2) (x + n / 2) y ++ c.leaves C (n / 2) x (y + n / 2) ++ d.leaves C (n / 2) (x + n / 2) (y + n / 2)

/-- The blocks of the tile in coding order; `t y x` is the tree of the superblock there. -/
def leaves (C : Cfg) (t : Nat → Nat → Tree) : List Leaf :=
  (List.range' 0 ((C.rows + 15) / 16)).flatMap fun i => (List.range' 0 ((C.cols + 15) / 16)).flatMap fun j => (t (16 * i) (16 * j)).leaves C 16 (16 * j) (16 * i)

/-- The entry of the log is for the block; the segment of a skipped block may be the predicted one. -/
structure Wrote (e : Entry) (l : Leaf) : Prop where
  x : e.x = l.x
  y : e.y = l.y
  w : e.w = l.w
  h : e.h = l.h
  ch : e.ch = { l.ch with seg := e.ch.seg }
  seg : l.ch.skip = false → e.ch.seg = l.ch.seg

variable {C : Cfg} {S S' : State}

theorem segmentation_seg {ul a l : Option EBlk} {seg last seg' : Nat} {s : List Sym} (h : writeSegmentation ul a l false seg last = some (s, seg')) : seg' = seg := by
  unfold writeSegmentation at h
  simp only [Bool.false_eq_true, if_false, Option.bind_eq_bind, Option.bind_eq_some_iff, Option.some.injEq, Prod.mk.injEq] at h
  obtain ⟨_, _, _, rfl⟩ := h
  rfl

theorem pre_seg {ul a l : Option EBlk} {ch : Choice} {s : List Sym} {seg : Nat} (h : encodePre C ul a l ch = some (s, seg)) (hs : ch.skip = false) : seg = ch.seg := by
  unfold encodePre at h
  rw [hs] at h
  split_ifs at h with h1 h2 h3 <;> simp only [Option.bind_eq_bind, Option.bind_some, Option.bind_eq_some_iff, Option.some.injEq, Prod.mk.injEq] at h
  · obtain ⟨⟨s0, g0⟩, k0, ⟨s2, g2⟩, k2, _, rfl⟩ := h
    rw [segmentation_seg k2, segmentation_seg k0]
  · obtain ⟨⟨s0, g0⟩, k0, _, rfl⟩ := h
    exact segmentation_seg k0
  · obtain ⟨⟨s2, g2⟩, k2, _, rfl⟩ := h
    exact segmentation_seg k2
  · exact h.2.symm

theorem block_wrote {x y w h : Nat} {ch : Choice} {s : List Sym} (he : encodeBlock C S x y w h ch = some (s, S')) :
    ∃ l, S'.log = S.log ++ l ∧ List.Forall₂ Wrote l [⟨x, y, w, h, ch⟩] := by
  unfold encodeBlock at he
  simp only [Option.bind_eq_bind, Option.bind_eq_some_iff, Option.some.injEq, Prod.mk.injEq] at he
  obtain ⟨⟨s0, seg⟩, h0, ⟨s1, stack⟩, h1, rfl, rfl⟩ := he
  exact ⟨_, rfl, .cons ⟨rfl, rfl, rfl, rfl, rfl, fun hs => pre_seg h0 hs⟩ .nil⟩

theorem leaf_wrote {x y w h : Nat} {ch : Choice} {s : List Sym} (he : encodeLeaf C S x y w h ch = some (s, S')) :
    ∃ l, S'.log = S.log ++ l ∧ List.Forall₂ Wrote l (if x ≥ C.cols ∨ y ≥ C.rows then [] else [⟨x, y, w, h, ch⟩]) := by
  unfold encodeLeaf at he
  split_ifs at he ⊢ with ho
  · cases he
    exact ⟨[], by rw [List.append_nil], .nil⟩
  · exact block_wrote he

theorem wrote_append {a b c : List Entry} {l l' : List Leaf} (h : ∃ m, b = a ++ m ∧ List.Forall₂ Wrote m l) (h' : ∃ m, c = b ++ m ∧ List.Forall₂ Wrote m l') :
    ∃ m, c = a ++ m ∧ List.Forall₂ Wrote m (l ++ l') := by
  obtain ⟨m, rfl, h⟩ := h
  obtain ⟨m', rfl, h'⟩ := h'
  exact ⟨m ++ m', by rw [List.append_assoc], List.rel_append h h'⟩

theorem tree_wrote (t : Tree) : ∀ {n x y : Nat} {S S' : State} {s : List Sym}, encodeTree C n x y t S = some (s, S') →
    ∃ l, S'.log = S.log ++ l ∧ List.Forall₂ Wrote l (t.leaves C n x y) := by
  have out : ∀ (t : Tree) {n x y : Nat} (S : State), (x ≥ C.cols ∨ y ≥ C.rows) → ∃ l, S.log = S.log ++ l ∧ List.Forall₂ Wrote l (t.leaves C n x y) := by
    intro t n x y S ho
    refine ⟨[], by rw [List.append_nil], ?_⟩
    cases t <;> (unfold Tree.leaves; rw [if_pos ho]; exact .nil)
  induction t with
  | none a =>
    intro n x y S S' s he
    rcases tree_inv he with ⟨ho, _, rfl⟩ | ⟨ho, s0, _, s1, S1, h1, _, rfl⟩
    · exact out _ _ ho
    · have := block_wrote h1
      unfold Tree.leaves
      rw [if_neg ho]
      dsimp only
      by_cases hn : n ≥ 2
      · rw [if_pos hn]; exact this
      · rw [if_neg hn]; exact this
  | horz a b =>
    intro n x y S S' s he
    rcases tree_inv he with ⟨ho, _, rfl⟩ | ⟨ho, s0, _, s1, S1, s2, S2, h1, h2, _, rfl⟩
    · exact out _ _ ho
    · unfold Tree.leaves
      rw [if_neg ho, update_log]
      have h1 := leaf_wrote h1
      have h2 := leaf_wrote h2
      rw [if_neg ho] at h1
      have := wrote_append h1 h2
      by_cases hc : y + n / 2 < C.rows
      · rw [if_neg (by omega)] at this
        dsimp only
        rw [if_pos hc]
        exact this
      · rw [if_pos (by omega)] at this
        dsimp only
        rw [if_neg hc]
        exact this
  | vert a b =>
    intro n x y S S' s he
    rcases tree_inv he with ⟨ho, _, rfl⟩ | ⟨ho, s0, _, s1, S1, s2, S2, h1, h2, _, rfl⟩
    · exact out _ _ ho
    · unfold Tree.leaves
      rw [if_neg ho, update_log]
      have h1 := leaf_wrote h1
      have h2 := leaf_wrote h2
      rw [if_neg ho] at h1
      have := wrote_append h1 h2
      by_cases hc : x + n / 2 < C.cols
      · rw [if_neg (by omega)] at this
        dsimp only
        rw [if_pos hc]
        exact this
      · rw [if_pos (by omega)] at this
        dsimp only
        rw [if_neg hc]
        exact this
  | split a b c d iha ihb ihc ihd =>
    intro n x y S S' s he
    rcases tree_inv he with ⟨ho, _, rfl⟩ | ⟨ho, s0, _, s1, S1, s2, S2, s3, S3, s4, S4, h1, h2, h3, h4, _, rfl⟩
    · exact out _ _ ho
    · have := wrote_append (wrote_append (wrote_append (iha h1) (ihb h2)) (ihc h3)) (ihd h4)
      unfold Tree.leaves
      rw [if_neg ho]
      dsimp only
      by_cases hn : n = 2
      · rw [if_pos hn]; exact this
      · rw [if_neg hn]; exact this

theorem row_wrote (t : Nat → Nat → Tree) (y : Nat) (k : Nat) : ∀ {j : Nat} {S S' : State} {s : List Sym}, encodeRow C t y k j S = some (s, S') →
    ∃ l, S'.log = S.log ++ l ∧ List.Forall₂ Wrote l ((List.range' j k).flatMap fun j => (t y (16 * j)).leaves C 16 (16 * j) y) := by
  induction k with
  | zero => intro j S S' s he; cases he; exact ⟨[], by rw [List.append_nil], .nil⟩
  | succ k ih =>
    intro j S S' s he
    unfold encodeRow at he
    simp only [Option.bind_eq_bind, Option.bind_eq_some_iff] at he
    obtain ⟨⟨s1, S1⟩, h1, ⟨s2, S2⟩, h2, h⟩ := he
    cases h
    exact wrote_append (tree_wrote _ h1) (ih h2)

theorem rows_wrote (t : Nat → Nat → Tree) (k : Nat) : ∀ {i : Nat} {S S' : State} {s : List Sym}, encodeRows C t k i S = some (s, S') →
    ∃ l, S'.log = S.log ++ l ∧ List.Forall₂ Wrote l ((List.range' i k).flatMap fun i => (List.range' 0 ((C.cols + 15) / 16)).flatMap fun j =>
      (t (16 * i) (16 * j)).leaves C 16 (16 * j) (16 * i)) := by
  induction k with
  | zero => intro j S S' s he; cases he; exact ⟨[], by rw [List.append_nil], .nil⟩
  | succ k ih =>
    intro i S S' s he
    unfold encodeRows at he
    simp only [Option.bind_eq_bind, Option.bind_eq_some_iff] at he
    obtain ⟨⟨s1, S1⟩, h1, ⟨s2, S2⟩, h2, h⟩ := he
    cases h
    have := row_wrote t _ _ h1
    exact wrote_append this (ih h2)

/-- **C62.** If the blocks of a tile are coded, every block of the partition trees that is in the tile is coded once, in order, with what was decided for it
(a skipped block may get the predicted segment), and a decoder that follows the syntax of the specification reads back exactly these blocks, with their places,
sizes, skip flags, segments, modes, reference frames and motion vectors, and stops where what follows in the tile begins. -/
theorem blocks_decoder (G : GeoOk C.par.g) (h7 : C.lastActiveSegid ≤ 7) {t : Nat → Nat → Tree} (ht : ∀ r c, (t r c).motion.Ok 16) {data : Nat → Nat → EBlk}
    (hd : ∀ r c, I16 (data r c).blk.mv0 ∧ I16 (data r c).blk.mv1) {s : List Sym} (he : encodeTile C t data = some (s, S)) (hE : ∀ e ∈ S.log, EntryOk C e) :
    List.Forall₂ Wrote S.log (leaves C t) ∧ ∀ rest, Spec.readTile C.par (s ++ rest) = some (S.log.map (place C), rest) := by
  refine ⟨?_, (tile_rt G h7 ht hd he hE).2⟩
  obtain ⟨l, h1, h2⟩ := rows_wrote t _ he
  have h1 : S.log = l := h1
  rw [h1]
  exact h2

/-! ### Examples -/

/-- An intra frame of 40x24 pixels in 4:2:0, one tile, with segmentation; a tree with every partition, directional modes, CfL, and a skipped block. -/
def exCfg : Cfg := ⟨0, 0, 10, 6, 10, 6, false, true, false, 3, false, false, 1, 1, false, false, fun _ => false⟩

@[inherit_doc exCfg] def exChoice (skip : Bool) (seg mode : Nat) (angle : Int) (uv : Nat) (cfl : Cfl) : Choice :=
  ⟨skip, seg, .intra, 0, 8, (0, 0), (0, 0), mode, angle, uv, 0, cfl⟩

@[inherit_doc exCfg] def exTree : Tree :=
  .split
    (.split (.horz (exChoice false 1 1 2 13 ⟨1, 2, 3, 5⟩) (exChoice true 2 0 0 0 ⟨0, 0, 0, 0⟩))
      (.split (.none (exChoice false 2 3 (-1) 1 ⟨0, 0, 0, 0⟩))
        (.split (.none (exChoice false 0 9 0 9 ⟨0, 0, 0, 0⟩)) (.none (exChoice false 3 0 0 0 ⟨0, 0, 0, 0⟩)) (.none (exChoice true 3 12 0 0 ⟨0, 0, 0, 0⟩))
          (.none (exChoice false 3 2 0 13 ⟨0, 2, 0, 8⟩)))
        (.vert (exChoice false 1 2 0 2 ⟨0, 0, 0, 0⟩) (exChoice false 1 5 0 0 ⟨0, 0, 0, 0⟩))
        (.none (exChoice true 0 0 0 0 ⟨0, 0, 0, 0⟩)))
      (.horz (exChoice false 0 10 0 11 ⟨0, 0, 0, 0⟩) (exChoice false 0 10 0 11 ⟨0, 0, 0, 0⟩))
      (.split (.none (exChoice false 1 1 3 1 ⟨0, 0, 0, 0⟩)) (.none (exChoice false 1 1 3 1 ⟨0, 0, 0, 0⟩)) (.none (exChoice false 1 1 3 1 ⟨0, 0, 0, 0⟩))
        (.none (exChoice false 1 1 3 1 ⟨0, 0, 0, 0⟩))))
    (.split (.vert (exChoice false 1 1 2 13 ⟨1, 2, 3, 5⟩) (exChoice true 2 0 0 0 ⟨0, 0, 0, 0⟩)) (.none (exChoice true 2 0 0 0 ⟨0, 0, 0, 0⟩))
       (.split (.none (exChoice true 1 7 1 0 ⟨0, 0, 0, 0⟩)) (.none (exChoice true 1 7 0 0 ⟨0, 0, 0, 0⟩)) (.none (exChoice true 1 7 0 0 ⟨0, 0, 0, 0⟩))
          (.none (exChoice true 1 7 0 0 ⟨0, 0, 0, 0⟩)))
       (.none (exChoice true 2 0 0 0 ⟨0, 0, 0, 0⟩)))
    (.none (exChoice true 2 0 0 0 ⟨0, 0, 0, 0⟩))
    (.none (exChoice true 2 0 0 0 ⟨0, 0, 0, 0⟩))

@[inherit_doc exCfg] def exData : Nat → Nat → EBlk := fun _ _ => ⟨⟨.intra, 0, 8, (0, 0), (0, 0), 16, 16⟩, 0, false, 0⟩


theorem ex_ok : ∃ s S, encodeTile exCfg (fun _ _ => exTree) exData = some (s, S) ∧ s.length = 84 ∧ S.log.length = 15 ∧
    ∀ e ∈ S.log, EntryOk exCfg e := by
  have h : ((encodeTile exCfg (fun _ _ => exTree) exData).any fun p => decide (p.1.length = 84 ∧ p.2.log.length = 15 ∧ ∀ e ∈ p.2.log,
      e.ch.mode = .intra ∧ e.ch.ref0 = 0 ∧ e.ch.ref1 = 8 ∧ e.ch.mv0 = (0, 0) ∧ e.ch.mv1 = (0, 0) ∧ e.ch.intraMode < 13 ∧
      (-3 ≤ e.ch.angleY ∧ e.ch.angleY ≤ 3 ∧ (e.ch.angleY ≠ 0 → isDirectional e.ch.intraMode = true ∧ ge8x8 e.w e.h = true)) ∧
      e.ch.uvMode ≤ 13 ∧ e.ch.angleUV = 0 ∧ (e.ch.cfl.signU ≤ 2 ∧ e.ch.cfl.signV ≤ 2 ∧ e.ch.cfl.scaleU ≤ 16 ∧ e.ch.cfl.scaleV ≤ 16))) = true := by decide +kernel
  cases hc : encodeTile exCfg (fun _ _ => exTree) exData with
  | none => rw [hc] at h; cases h
  | some p =>
    obtain ⟨s, S⟩ := p
    rw [hc] at h
    simp only [Option.any_some, decide_eq_true_eq] at h
    refine ⟨s, S, rfl, h.1, h.2.1, fun e he => ?_⟩
    obtain ⟨h1, h2, h3, h4, h5, h6, h7, h8, h9, h10⟩ := h.2.2 e he
    exact ⟨fun hf => (by cases hf), fun _ => ⟨h2, h3, h4, h5, h6, h7, fun _ => ⟨h8, by rw [h9]; exact ⟨by decide, by decide, fun hz => absurd rfl hz⟩, fun _ => h10⟩⟩, fun hn => absurd h1 hn⟩

/-- An inter frame of 64x64 pixels in one tile: two blocks of 32x64, one with a new vector and one with the vector of its neighbour. -/
def exInterCfg : Cfg := ⟨0, 0, 16, 16, 16, 16, true, false, false, 0, false, false, 1, 1, false, false, fun _ => false⟩

@[inherit_doc exInterCfg] def exInter (m : Mvref.Mode) : Choice := ⟨false, 0, m, 1, 8, (16, -8), (0, 0), 13, 0, 13, 0, ⟨0, 0, 0, 0⟩⟩

@[inherit_doc exInterCfg] def exInter1 : State := ⟨setBlock exInterCfg exData 0 0 8 16 (blockOf 8 16 (exInter .newmv)), fun _ => 0, fun _ => 0,
  [⟨0, 0, 8, 16, exInter .newmv, []⟩]⟩

theorem block_inter {C : Cfg} {S : State} {x y w h : Nat} {ch : Choice} (hi : C.hasInter = true) (hs : C.segEnabled = false) (hm : ch.mode ≠ .intra)
    (h1 : ((fillRefCounts (S.above x y) (S.left x y)).bind fun f => writeRefFrames C.multiref w h ch.ref0 ch.ref1 (S.above x y) (S.left x y) f).isSome)
    {st : List Mvref.Cand} {ctx : Nat} (h2 : (S.env C x y w h ch).findMvrefs = some (st, ctx)) (h3 : (Mvref.writeMotion ch.mode ch.mv0 ch.mv1 st ctx .low).isSome) :
    ∃ s, encodeBlock C S x y w h ch = some (s, { S with data := setBlock C S.data x y w h (blockOf w h ch), log := S.log ++ [⟨x, y, w, h, ch, st⟩] }) := by
  obtain ⟨s1, h1⟩ := Option.isSome_iff_exists.mp h1
  obtain ⟨f, h0, h1⟩ := Option.bind_eq_some_iff.mp h1
  obtain ⟨s2, h3⟩ := Option.isSome_iff_exists.mp h3
  have hp : encodePre C (S.aboveLeft x y) (S.above x y) (S.left x y) ch = some (writeSkip (S.above x y) (S.left x y) ch.skip, ch.seg) := by
    unfold encodePre
    rw [hs]
    simp
  unfold encodeBlock
  rw [hp]
  simp only [Option.bind_eq_bind, Option.bind_some]
  unfold encodePost
  dsimp only
  rw [if_pos (by simp [hi, hm]), h0]
  simp only [Option.bind_eq_bind, Option.bind_some]
  rw [h1]
  simp only [Option.bind_some]
  rw [h2]
  simp only [Option.bind_some]
  rw [h3]
  exact ⟨_, rfl⟩

theorem ex_geo : GeoOk Mvref.oneGeo := ⟨rfl, rfl, rfl, rfl, by decide, by decide, .inl rfl, .inl rfl⟩

theorem ex_mvrefs0 : (State.env exInterCfg ⟨exData, fun _ => 0, fun _ => 0, []⟩ 0 0 8 16 (exInter .newmv)).findMvrefs = some ([], 0) := by
  have R : Mvref.Rel (State.env exInterCfg ⟨exData, fun _ => 0, fun _ => 0, []⟩ 0 0 8 16 (exInter .newmv))
      (Mvref.inputAt Mvref.oneGeo [] ⟨0, 0, 8, 16, ⟨.newmv, 1, -1, (16, -8), (0, 0)⟩⟩ 1 (-1) fun _ => false) :=
    ⟨rfl, rfl, rfl, rfl, rfl, rfl, rfl, rfl, rfl, rfl, rfl, rfl, by decide, .inr ⟨rfl, rfl⟩, fun _ _ _ => rfl, fun _ _ => by
      show I16 (0, 0) ∧ I16 (0, 0); unfold I16; decide, fun _ _ h => by cases h⟩
  obtain ⟨o, a, b⟩ := Mvref.mvrefs_decoder (t := fun _ _ => Mvref.oneTree) ex_geo (fun _ _ => by simp [Mvref.oneTree, Mvref.Spec.Tree.Ok]) (pre := []) Mvref.one_tile R
  rw [show (Mvref.inputAt Mvref.oneGeo [] ⟨0, 0, 8, 16, ⟨.newmv, 1, -1, (16, -8), (0, 0)⟩⟩ 1 (-1) fun _ => false).findMvStack = some ⟨[], 0, 0, []⟩ by decide +kernel] at a
  cases a
  exact b

theorem ex_mvrefs1 : (State.env exInterCfg exInter1 8 0 8 16 (exInter .nearestmv)).findMvrefs = some ([⟨(16, -8), (0, 0), 736⟩], 50) := by
  have hd : ∀ r c, (exInter1.data r c).blk = ⟨.newmv, 1, 8, (16, -8), (0, 0), 8, 16⟩ ∧ c < 8 ∨ (exInter1.data r c).blk = ⟨.intra, 0, 8, (0, 0), (0, 0), 16, 16⟩ := by
    intro r c
    by_cases h : 0 ≤ r ∧ r < 0 + 16 ∧ 0 ≤ c ∧ c < 0 + 8 ∧ r < exInterCfg.rows ∧ c < exInterCfg.cols
    · refine .inl ⟨?_, by omega⟩
      show (setBlock exInterCfg exData 0 0 8 16 (blockOf 8 16 (exInter .newmv)) r c).blk = _
      unfold setBlock
      rw [if_pos h]
      rfl
    · refine .inr ?_
      show (setBlock exInterCfg exData 0 0 8 16 (blockOf 8 16 (exInter .newmv)) r c).blk = _
      unfold setBlock
      rw [if_neg h]
      rfl
  have R : Mvref.Rel (State.env exInterCfg exInter1 8 0 8 16 (exInter .nearestmv))
      (Mvref.inputAt Mvref.oneGeo [⟨0, 0, 8, 16, ⟨.newmv, 1, -1, (16, -8), (0, 0)⟩⟩] ⟨0, 8, 8, 16, ⟨.nearestmv, 1, -1, (16, -8), (0, 0)⟩⟩ 1 (-1) fun _ => false) := by
    refine ⟨rfl, rfl, rfl, rfl, rfl, rfl, rfl, rfl, rfl, rfl, rfl, rfl, by decide, .inr ⟨rfl, rfl⟩, fun _ _ _ => rfl, fun r c => ?_, fun {r c b} hr hc h => ?_⟩
    · show I16 (exInter1.data r c).blk.mv0 ∧ I16 (exInter1.data r c).blk.mv1
      rcases hd r c with ⟨h, _⟩ | h <;> rw [h] <;> (unfold I16; decide)
    · have hr : r < 16 := hr
      have hc : c < 16 := hc
      have h : (if (⟨0, 0, 8, 16, ⟨.newmv, 1, -1, (16, -8), (0, 0)⟩⟩ : Mvref.Spec.Blk).Covers (0 + r) (0 + c) then some (⟨0, 0, 8, 16, ⟨.newmv, 1, -1, (16, -8), (0, 0)⟩⟩ : Mvref.Spec.Blk) else none) = some b := h
      split_ifs at h with hcov
      cases h
      have hcov : 0 ≤ 0 + r ∧ 0 + r < 0 + 16 ∧ 0 ≤ 0 + c ∧ 0 + c < 0 + 8 := hcov
      show Mvref.Shows (setBlock exInterCfg exData 0 0 8 16 (blockOf 8 16 (exInter .newmv)) r c).blk _
      unfold setBlock
      rw [if_pos (show 0 ≤ r ∧ r < 0 + 16 ∧ 0 ≤ c ∧ c < 0 + 8 ∧ r < exInterCfg.rows ∧ c < exInterCfg.cols from ⟨by omega, by omega, by omega, by omega, hr, hc⟩)]
      exact ⟨rfl, rfl, rfl, by decide, by decide, by unfold Mvref.Small; decide, by unfold Mvref.Small; decide⟩
  obtain ⟨o, a, b⟩ := Mvref.mvrefs_decoder (t := fun _ _ => Mvref.oneTree) ex_geo (fun _ _ => by simp [Mvref.oneTree, Mvref.Spec.Tree.Ok])
    (pre := [_]) Mvref.one_tile R
  rw [show (Mvref.inputAt Mvref.oneGeo [⟨0, 0, 8, 16, ⟨.newmv, 1, -1, (16, -8), (0, 0)⟩⟩] ⟨0, 8, 8, 16, ⟨.nearestmv, 1, -1, (16, -8), (0, 0)⟩⟩ 1 (-1) fun _ => false).findMvStack =
      some ⟨[⟨(16, -8), (0, 0), 736⟩], 2, 3, [0]⟩ by decide +kernel] at a
  cases a
  exact b

theorem exInter_ok : ∃ s S, encodeTile exInterCfg (fun _ _ => .vert (exInter .newmv) (exInter .nearestmv)) exData = some (s, S) ∧ S.log.length = 2 ∧
    ∀ e ∈ S.log, EntryOk exInterCfg e := by
  obtain ⟨s1, h1⟩ := block_inter (C := exInterCfg) (S := ⟨exData, fun _ => 0, fun _ => 0, []⟩) (x := 0) (y := 0) (w := 8) (h := 16) (ch := exInter .newmv) rfl rfl (by decide)
    (by decide +kernel) ex_mvrefs0 (by decide +kernel)
  obtain ⟨s2, h2⟩ := block_inter (C := exInterCfg) (S := exInter1) (x := 8) (y := 0) (w := 8) (h := 16) (ch := exInter .nearestmv) rfl rfl (by decide)
    (by decide +kernel) ex_mvrefs1 (by decide +kernel)
  have e0 : (exInterCfg.rows + 15) / 16 = 1 := rfl
  have e1 : (exInterCfg.cols + 15) / 16 = 1 := rfl
  have hp : partSyntax exInterCfg ⟨exData, fun _ => 0, fun _ => 0, []⟩ 0 0 16 .vert = some [(.partition 3 0, 2)] := by decide +kernel
  unfold encodeTile
  rw [e0]
  unfold encodeRows
  rw [e1]
  unfold encodeRow encodeTree
  rw [if_neg (by decide)]
  simp only [Option.bind_eq_bind, Tree.part, Nat.mul_zero, hp, Option.bind_some, leaf_in (C := exInterCfg) (x := 0) (y := 0) (by decide) (by decide),
    leaf_in (C := exInterCfg) (x := 0 + 16 / 2) (y := 0) (by decide) (by decide)]
  rw [show (16 / 2 : Nat) = 8 from rfl, h1]
  simp only [Option.bind_some]
  rw [show (0 + 8 : Nat) = 8 from rfl]
  have h2' := h2
  unfold exInter1 at h2'
  simp only [List.nil_append]
  rw [h2']
  simp only [Option.bind_some]
  unfold encodeRow encodeRows
  simp only [Option.bind_some]
  refine ⟨_, _, rfl, rfl, ?_⟩
  intro e he
  have he : e ∈ [⟨0, 0, 8, 16, exInter .newmv, []⟩, ⟨8, 0, 8, 16, exInter .nearestmv, [⟨(16, -8), (0, 0), 736⟩]⟩] := he
  simp only [List.mem_cons, List.not_mem_nil, or_false] at he
  rcases he with rfl | rfl
  · refine ⟨fun _ => rfl, fun h => (by cases h), fun _ => ⟨.inl ⟨by decide, rfl⟩, rfl, fun _ => rfl, by unfold Mvref.Small; decide, by unfold Mvref.Small; decide, trivial,
      ⟨fun _ => ⟨by decide, ⟨rfl, rfl⟩, by decide⟩, by simp [exInter]⟩⟩⟩
  · exact ⟨fun _ => rfl, fun h => (by cases h), fun _ => ⟨.inl ⟨by decide, rfl⟩, rfl, fun _ => rfl, by unfold Mvref.Small; decide, by unfold Mvref.Small; decide, rfl,
      ⟨by simp [exInter], by simp [exInter]⟩⟩⟩

example : ∃ s S, encodeTile exCfg (fun _ _ => exTree) exData = some (s, S) ∧ S.log.length = 15 ∧
    ∀ rest, Spec.readTile exCfg.par (s ++ rest) = some (S.log.map (place exCfg), rest) := by
  obtain ⟨s, S, h1, _, h3, h4⟩ := ex_ok
  exact ⟨s, S, h1, h3, (blocks_decoder ⟨rfl, rfl, rfl, rfl, by decide, by decide, .inl rfl, .inl rfl⟩ (by decide)
    (fun _ _ => by simp [exTree, Tree.motion, Mvref.Spec.Tree.Ok]) (fun _ _ => by show I16 (0, 0) ∧ I16 (0, 0); unfold I16; decide) h1 h4).2⟩

example : ∃ s S, encodeTile exInterCfg (fun _ _ => .vert (exInter .newmv) (exInter .nearestmv)) exData = some (s, S) ∧ S.log.length = 2 ∧
    ∀ rest, Spec.readTile exInterCfg.par (s ++ rest) = some (S.log.map (place exInterCfg), rest) := by
  obtain ⟨s, S, h1, h3, h4⟩ := exInter_ok
  exact ⟨s, S, h1, h3, (blocks_decoder ⟨rfl, rfl, rfl, rfl, by decide, by decide, .inl rfl, .inl rfl⟩ (by decide)
    (fun _ _ => by simp [Tree.motion, Mvref.Spec.Tree.Ok]) (fun _ _ => by show I16 (0, 0) ∧ I16 (0, 0); unfold I16; decide) h1 h4).2⟩

end Rav1e.Block

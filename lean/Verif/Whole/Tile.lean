import Verif.Whole.Blk

/-!
# Every square, every row of superblocks, every tile
-/

namespace Rav1e.Whole

open Spec (Tok Out St takeKind on)
open Coef (num Cx)
open Block (Size EntryOk Entry place LeafOk NodeOk DataOk AboveOk LeftOk mlog infoOf motions sbBlocks Tree)
open Mvref (GeoOk I16)
open TxSize (Good Ordered TileOk Rect rectOf updF updG endF endG endF_append endG_append)

variable {C : Cfg} {X : Nat → Nat → Extra}

theorem ordered_split {g : Mvref.Spec.Geo} {lo hi : Nat} {l m : List Rect} : ∀ {F G : Nat → Nat}, Ordered g lo hi F G (l ++ m) →
    Ordered g lo hi F G l ∧ Ordered g lo hi (endF F l) (endG G l) m := by
  induction l with
  | nil => intro F G h; exact ⟨trivial, h⟩
  | cons q l ih => intro F G h; exact ⟨⟨h.1, (ih h.2).1⟩, (ih h.2).2⟩

theorem grown {l l' : List Entry} (h : ∃ m, l' = l ++ m) (E : ∀ e ∈ l', Decided C X e) : ∀ e ∈ l, Decided C X e := by
  obtain ⟨m, rfl⟩ := h
  exact fun e he => E e (List.mem_append_left _ he)

theorem entryOk {l : List Entry} (E : ∀ e ∈ l, Decided C X e) : ∀ e ∈ l, EntryOk C.toCfg e := fun e he => (E e he).entry

theorem leaf_in {S : State} {x y w h : Nat} {ch : Block.Choice} (hx : x < C.cols) (hy : y < C.rows) : encodeLeaf C X S x y w h ch = encodeBlock C X S x y w h ch := by
  unfold encodeLeaf
  rw [if_neg (by omega)]

theorem leaf_out {S : State} {x y w h : Nat} {ch : Block.Choice} (ho : x ≥ C.cols ∨ y ≥ C.rows) : encodeLeaf C X S x y w h ch = some ([], S) := by
  unfold encodeLeaf
  rw [if_pos ho]

/-- The blocks of a square. -/
def rects (C : Cfg) (n x y : Nat) (t : Tree) : List Rect := (C.toCfg.par.g.partition n (C.y + y) (C.x + x) t.motion).map rectOf

theorem done_out (G : GeoOk C.toCfg.par.g) {lo : Nat} {F H : Nat → Nat} {S : State} {D : St} (I : Inv C X lo F H S D) {k x y : Nat} {t : Tree}
    (sx : 16 * (x / 16) < C.cols) (sy : 16 * (y / 16) < C.rows) (h : x ≥ C.cols ∨ y ≥ C.rows) :
    Done C X lo (endF F (rects C (2 ^ k) x y t)) (endG H (rects C (2 ^ k) x y t)) (encodeTree C X (2 ^ k) x y t S) S.blk
      (Spec.readTree num C.head k (C.y + y) (C.x + x) D) := by
  have ho : C.y + y ≥ C.toCfg.par.g.miRows ∨ C.x + x ≥ C.toCfg.par.g.miCols := by
    have h1 := (Block.border G (i := y)).1 sy
    have h2 := (Block.border G (i := x)).2 sx
    show _ ≥ C.frameRows ∨ _ ≥ C.frameCols
    omega
  have hp : rects C (2 ^ k) x y t = [] := by unfold rects; rw [Block.partition_out _ ho]; rfl
  refine ⟨[], S, ?_, rfl, D, fun rest => ?_, by rw [hp]; exact I⟩
  · cases t <;> (unfold encodeTree; rw [if_pos h])
  · have ho' : C.y + y ≥ C.head.g.miRows ∨ C.x + x ≥ C.head.g.miCols := ho
    cases k <;> (unfold Spec.readTree; rw [if_pos ho']; rfl)

/-- Every square. -/
theorem node_step (G : GeoOk C.toCfg.par.g) (h7 : C.lastActiveSegid ≤ 7) (hd : (C.xdec, C.ydec) ∈ [(0, 0), (1, 0), (1, 1)]) (hw : C.cols ≤ 1024)
    {T : Nat → Nat → Mvref.Spec.Tree} (ht : ∀ r c, (T r c).Ok 16) {lo hi : Nat} (O : TileOk C.toCfg.par.g C.resid.toCfg lo hi) (t : Tree) :
    ∀ {k x y : Nat} {S : State} {B : Block.State} {s : List Block.Spec.Sym} {post : List Mvref.Spec.Blk} {F H : Nat → Nat} {D : St}, t.motion.Ok (2 ^ k) → k ≤ 4 →
    x % 2 ^ k = 0 → y % 2 ^ k = 0 → 16 * (x / 16) < C.cols → 16 * (y / 16) < C.rows →
    DataOk C.toCfg S.blk → Block.encodeTree C.toCfg (2 ^ k) x y t S.blk = some (s, B) → (∀ e ∈ B.log, Decided C X e) →
    C.toCfg.par.g.tile T = mlog C.toCfg S.blk ++ (C.toCfg.par.g.partition (2 ^ k) (C.y + y) (C.x + x) t.motion ++ post) →
    (1 ≤ k → x < C.cols → y < C.rows → AboveOk C.toCfg S.blk x y (2 ^ k) ∧ LeftOk C.toCfg S.blk x y (2 ^ k)) →
    Ordered C.toCfg.par.g lo hi F H (rects C (2 ^ k) x y t) → Inv C X lo F H S D →
    Done C X lo (endF F (rects C (2 ^ k) x y t)) (endG H (rects C (2 ^ k) x y t)) (encodeTree C X (2 ^ k) x y t S) B
      (Spec.readTree num C.head k (C.y + y) (C.x + x) D) := by
  have inside : ∀ {x y : Nat}, 16 * (x / 16) < C.cols → 16 * (y / 16) < C.rows → ¬(x ≥ C.cols ∨ y ≥ C.rows) →
      ¬(C.y + y ≥ C.toCfg.par.g.miRows ∨ C.x + x ≥ C.toCfg.par.g.miCols) := by
    intro x y sx sy h
    have h1 := (Block.border G (i := y)).1 sy
    have h2 := (Block.border G (i := x)).2 sx
    show ¬(_ ≥ C.frameRows ∨ _ ≥ C.frameCols)
    omega
  have hg : C.head.g = C.toCfg.par.g := rfl
  have hpar : C.head.toPar = C.toCfg.par := rfl
  induction t with
  | none a =>
    intro k x y S B s post F H D hok hk mx my sx sy DO he hE hb hctx hO I
    rcases Block.tree_inv he with ⟨ho, rfl, rfl⟩ | ⟨ho, s0, h0, s1, B1, h1, rfl, rfl⟩
    · exact done_out G I sx sy ho
    have hi := inside sx sy ho
    have hx : x < C.cols := by omega
    have hy : y < C.rows := by omega
    have hp : C.toCfg.par.g.partition (2 ^ k) (C.y + y) (C.x + x) (Tree.none a).motion = [⟨C.y + y, C.x + x, 2 ^ k, 2 ^ k, infoOf a⟩] := by
      unfold Mvref.Spec.Geo.partition Tree.motion
      rw [if_neg hi]
    have hr : rects C (2 ^ k) x y (.none a) = [⟨C.y + y, C.x + x, 2 ^ k, 2 ^ k⟩] := by unfold rects; rw [hp]; rfl
    rw [hp, List.singleton_append] at hb
    have hE1 : ∀ e ∈ B1.log, Decided C X e := by
      split_ifs at hE
      · exact hE
      · exact hE
    obtain ⟨b, L⟩ := Block.leaf_rt G h7 ht DO (Block.size_square hk) hx hy h1 (entryOk hE1) hb
    rw [hr] at hO ⊢
    obtain ⟨t1, S1, e1, rfl, D1, r1, I1⟩ := block_step G hd hw I O (Block.size_square hk) hx hy mx my h1 L hE1 hO.1
    obtain _ | k := k
    · unfold Block.partSyntax at h0
      rw [if_neg (by decide)] at h0
      cases h0
      rw [if_neg (by decide)]
      refine ⟨t1, S1, ?_, rfl, D1, fun rest => ?_, I1⟩
      · unfold encodeTree
        rw [if_neg ho]
        have h0 : Block.partSyntax C.toCfg S.blk x y (2 ^ 0) (Tree.none a).part = some [] := by
          unfold Block.partSyntax; rw [if_neg (by decide)]
        rw [h0]
        simp only [Option.bind_eq_bind, Option.bind_some]
        rw [e1]
        rfl
      · unfold Spec.readTree
        rw [hg, if_neg hi]
        exact r1 rest
    · have h2 : 2 ^ (k + 1) ≥ 2 := by have := Nat.two_pow_pos k; omega
      have h0' := h0
      unfold Block.partSyntax at h0
      rw [if_pos h2] at h0
      rw [if_pos h2]
      split_ifs at h0 with hm
      obtain ⟨A, L'⟩ := hctx (by omega) hx hy
      refine ⟨s0.map .mode ++ t1, S1.update x y (2 ^ (k + 1)) (2 ^ (k + 1)) (2 ^ (k + 1)), ?_, rfl, D1, fun rest => ?_, I1.update _ _ _ _ _⟩
      · unfold encodeTree
        rw [if_neg ho, h0']
        simp only [Option.bind_eq_bind, Option.bind_some]
        rw [e1]
        simp only [Option.bind_some]
        rw [if_pos h2]
      · unfold Spec.readTree
        rw [hg, if_neg hi, List.append_assoc,
          on_mode (b := .none) (fun rest => by rw [I.blocks, hpar]; exact Block.partition_rt G (by omega) mx my hx hy A L' hm h0 rest)]
        simp only [Option.bind_eq_bind, Option.bind_some]
        exact r1 rest
  | horz a b =>
    intro k x y S B s post F H D hok hk mx my sx sy DO he hE hb hctx hO I
    rcases Block.tree_inv he with ⟨ho, rfl, rfl⟩ | ⟨ho, s0, h0, s1, B1, s2, B2, h1, h2, rfl, rfl⟩
    · exact done_out G I sx sy ho
    have hi := inside sx sy ho
    have hx : x < C.cols := by omega
    have hy : y < C.rows := by omega
    obtain _ | k := k
    · exact absurd hok (by unfold Tree.motion Mvref.Spec.Tree.Ok; decide)
    obtain ⟨a1, a2, a3, a4, a5, a6, a7, a8, a9, a10⟩ := Block.half (by omega) mx
    obtain ⟨b1, b2, b3, b4, b5, b6, b7, b8, b9, b10⟩ := Block.half (by omega) my
    have hn : 2 ^ (k + 1) ≥ 2 := by omega
    rw [a1] at h1 h2 hE ⊢
    have h0' := h0
    unfold Block.partSyntax at h0
    rw [if_pos hn] at h0
    split_ifs at h0 with hm
    obtain ⟨A, L'⟩ := hctx (by omega) hx hy
    have hbr := (Block.border G (i := y + 2 ^ k)).1 (by rw [b7]; exact sy)
    have hz := (Block.size_horz (k := k) (by omega)).1
    rw [Block.leaf_in hx hy] at h1
    have hpt : ∀ rest, Block.Spec.readPartition C.head.toPar D.blocks (2 ^ (k + 1)) (C.y + y) (C.x + x) (s0 ++ rest) = some (.horz, rest) := fun rest => by
      rw [I.blocks, hpar]; exact Block.partition_rt G (by omega) mx my hx hy A L' hm h0 rest
    by_cases hc : y + 2 ^ k < C.rows
    · rw [Block.leaf_in hx hc] at h2
      have hc' : C.y + y + 2 ^ k < C.toCfg.par.g.miRows := by rw [Nat.add_assoc]; exact hbr.mpr hc
      have hp : C.toCfg.par.g.partition (2 ^ (k + 1)) (C.y + y) (C.x + x) (Tree.horz a b).motion =
          [⟨C.y + y, C.x + x, 2 ^ (k + 1), 2 ^ k, infoOf a⟩, ⟨C.y + (y + 2 ^ k), C.x + x, 2 ^ (k + 1), 2 ^ k, infoOf b⟩] := by
        unfold Mvref.Spec.Geo.partition Tree.motion
        rw [if_neg hi]
        dsimp only
        rw [a1, if_pos hc', Nat.add_assoc]
      have hr : rects C (2 ^ (k + 1)) x y (.horz a b) = [⟨C.y + y, C.x + x, 2 ^ (k + 1), 2 ^ k⟩, ⟨C.y + (y + 2 ^ k), C.x + x, 2 ^ (k + 1), 2 ^ k⟩] := by
        unfold rects; rw [hp]; rfl
      rw [hp] at hb
      rw [hr] at hO ⊢
      have hE1 := grown (Block.block_log h2) hE
      obtain ⟨p, P⟩ := Block.leaf_rt G h7 ht DO hz hx hy h1 (entryOk hE1) hb
      obtain ⟨q, Q⟩ := Block.leaf_rt G h7 ht P.data hz hx hc h2 (entryOk hE) (post := post) (by rw [P.log, List.append_assoc]; exact hb)
      obtain ⟨t1, S1, e1, rfl, D1, r1, I1⟩ := block_step G hd hw I O hz hx hy mx b3 h1 P hE1 hO.1
      obtain ⟨t2, S2, e2, rfl, D2, r2, I2⟩ := block_step G hd hw I1 O hz hx hc mx b4 h2 Q hE hO.2.1
      refine ⟨s0.map .mode ++ t1 ++ t2, S2.update x y (2 ^ (k + 1)) (2 ^ (k + 1)) (2 ^ k), ?_, rfl, D2, fun rest => ?_, I2.update _ _ _ _ _⟩
      · unfold encodeTree
        rw [if_neg ho, h0']
        simp only [Option.bind_eq_bind, Option.bind_some, a1]
        rw [leaf_in hx hy, e1]
        simp only [Option.bind_some]
        rw [leaf_in hx hc, e2]
        rfl
      · unfold Spec.readTree
        rw [hg, if_neg hi, List.append_assoc, List.append_assoc, on_mode (b := .horz) hpt]
        simp only [Option.bind_eq_bind, Option.bind_some]
        rw [r1]
        simp only [Option.bind_some]
        rw [if_pos hc', Nat.add_assoc]
        exact r2 rest
    · rw [Block.leaf_out (.inr (by omega))] at h2
      cases h2
      have hc' : ¬ C.y + y + 2 ^ k < C.toCfg.par.g.miRows := by rw [Nat.add_assoc]; exact fun h => hc (hbr.mp h)
      have hp : C.toCfg.par.g.partition (2 ^ (k + 1)) (C.y + y) (C.x + x) (Tree.horz a b).motion = [⟨C.y + y, C.x + x, 2 ^ (k + 1), 2 ^ k, infoOf a⟩] := by
        unfold Mvref.Spec.Geo.partition Tree.motion
        rw [if_neg hi]
        dsimp only
        rw [a1, if_neg hc']
      have hr : rects C (2 ^ (k + 1)) x y (.horz a b) = [⟨C.y + y, C.x + x, 2 ^ (k + 1), 2 ^ k⟩] := by
        unfold rects; rw [hp]; rfl
      rw [hp] at hb
      rw [hr] at hO ⊢
      obtain ⟨p, P⟩ := Block.leaf_rt G h7 ht DO hz hx hy h1 (entryOk hE) hb
      obtain ⟨t1, S1, e1, rfl, D1, r1, I1⟩ := block_step G hd hw I O hz hx hy mx b3 h1 P hE hO.1
      refine ⟨s0.map .mode ++ t1 ++ [], S1.update x y (2 ^ (k + 1)) (2 ^ (k + 1)) (2 ^ k), ?_, rfl, D1, fun rest => ?_, I1.update _ _ _ _ _⟩
      · unfold encodeTree
        rw [if_neg ho, h0']
        simp only [Option.bind_eq_bind, Option.bind_some, a1]
        rw [leaf_in hx hy, e1]
        simp only [Option.bind_some]
        rw [leaf_out (.inr (by omega))]
        rfl
      · unfold Spec.readTree
        rw [hg, if_neg hi, List.append_nil, List.append_assoc, on_mode (b := .horz) hpt]
        simp only [Option.bind_eq_bind, Option.bind_some]
        rw [r1]
        simp only [Option.bind_some]
        rw [if_neg hc']
  | vert a b =>
    intro k x y S B s post F H D hok hk mx my sx sy DO he hE hb hctx hO I
    rcases Block.tree_inv he with ⟨ho, rfl, rfl⟩ | ⟨ho, s0, h0, s1, B1, s2, B2, h1, h2, rfl, rfl⟩
    · exact done_out G I sx sy ho
    have hi := inside sx sy ho
    have hx : x < C.cols := by omega
    have hy : y < C.rows := by omega
    obtain _ | k := k
    · exact absurd hok (by unfold Tree.motion Mvref.Spec.Tree.Ok; decide)
    obtain ⟨a1, a2, a3, a4, a5, a6, a7, a8, a9, a10⟩ := Block.half (by omega) mx
    obtain ⟨b1, b2, b3, b4, b5, b6, b7, b8, b9, b10⟩ := Block.half (by omega) my
    have hn : 2 ^ (k + 1) ≥ 2 := by omega
    rw [a1] at h1 h2 hE ⊢
    have h0' := h0
    unfold Block.partSyntax at h0
    rw [if_pos hn] at h0
    split_ifs at h0 with hm
    obtain ⟨A, L'⟩ := hctx (by omega) hx hy
    have hbr := (Block.border G (i := x + 2 ^ k)).2 (by rw [a7]; exact sx)
    have hz := (Block.size_horz (k := k) (by omega)).2
    rw [Block.leaf_in hx hy] at h1
    have hpt : ∀ rest, Block.Spec.readPartition C.head.toPar D.blocks (2 ^ (k + 1)) (C.y + y) (C.x + x) (s0 ++ rest) = some (.vert, rest) := fun rest => by
      rw [I.blocks, hpar]; exact Block.partition_rt G (by omega) mx my hx hy A L' hm h0 rest
    by_cases hc : x + 2 ^ k < C.cols
    · rw [Block.leaf_in hc hy] at h2
      have hc' : C.x + x + 2 ^ k < C.toCfg.par.g.miCols := by rw [Nat.add_assoc]; exact hbr.mpr hc
      have hp : C.toCfg.par.g.partition (2 ^ (k + 1)) (C.y + y) (C.x + x) (Tree.vert a b).motion =
          [⟨C.y + y, C.x + x, 2 ^ k, 2 ^ (k + 1), infoOf a⟩, ⟨C.y + y, C.x + (x + 2 ^ k), 2 ^ k, 2 ^ (k + 1), infoOf b⟩] := by
        unfold Mvref.Spec.Geo.partition Tree.motion
        rw [if_neg hi]
        dsimp only
        rw [a1, if_pos hc', Nat.add_assoc]
      have hr : rects C (2 ^ (k + 1)) x y (.vert a b) = [⟨C.y + y, C.x + x, 2 ^ k, 2 ^ (k + 1)⟩, ⟨C.y + y, C.x + (x + 2 ^ k), 2 ^ k, 2 ^ (k + 1)⟩] := by
        unfold rects; rw [hp]; rfl
      rw [hp] at hb
      rw [hr] at hO ⊢
      have hE1 := grown (Block.block_log h2) hE
      obtain ⟨p, P⟩ := Block.leaf_rt G h7 ht DO hz hx hy h1 (entryOk hE1) hb
      obtain ⟨q, Q⟩ := Block.leaf_rt G h7 ht P.data hz hc hy h2 (entryOk hE) (post := post) (by rw [P.log, List.append_assoc]; exact hb)
      obtain ⟨t1, S1, e1, rfl, D1, r1, I1⟩ := block_step G hd hw I O hz hx hy a3 my h1 P hE1 hO.1
      obtain ⟨t2, S2, e2, rfl, D2, r2, I2⟩ := block_step G hd hw I1 O hz hc hy a4 my h2 Q hE hO.2.1
      refine ⟨s0.map .mode ++ t1 ++ t2, S2.update x y (2 ^ (k + 1)) (2 ^ k) (2 ^ (k + 1)), ?_, rfl, D2, fun rest => ?_, I2.update _ _ _ _ _⟩
      · unfold encodeTree
        rw [if_neg ho, h0']
        simp only [Option.bind_eq_bind, Option.bind_some, a1]
        rw [leaf_in hx hy, e1]
        simp only [Option.bind_some]
        rw [leaf_in hc hy, e2]
        rfl
      · unfold Spec.readTree
        rw [hg, if_neg hi, List.append_assoc, List.append_assoc, on_mode (b := .vert) hpt]
        simp only [Option.bind_eq_bind, Option.bind_some]
        rw [r1]
        simp only [Option.bind_some]
        rw [if_pos hc', Nat.add_assoc]
        exact r2 rest
    · rw [Block.leaf_out (.inl (by omega))] at h2
      cases h2
      have hc' : ¬ C.x + x + 2 ^ k < C.toCfg.par.g.miCols := by rw [Nat.add_assoc]; exact fun h => hc (hbr.mp h)
      have hp : C.toCfg.par.g.partition (2 ^ (k + 1)) (C.y + y) (C.x + x) (Tree.vert a b).motion = [⟨C.y + y, C.x + x, 2 ^ k, 2 ^ (k + 1), infoOf a⟩] := by
        unfold Mvref.Spec.Geo.partition Tree.motion
        rw [if_neg hi]
        dsimp only
        rw [a1, if_neg hc']
      have hr : rects C (2 ^ (k + 1)) x y (.vert a b) = [⟨C.y + y, C.x + x, 2 ^ k, 2 ^ (k + 1)⟩] := by
        unfold rects; rw [hp]; rfl
      rw [hp] at hb
      rw [hr] at hO ⊢
      obtain ⟨p, P⟩ := Block.leaf_rt G h7 ht DO hz hx hy h1 (entryOk hE) hb
      obtain ⟨t1, S1, e1, rfl, D1, r1, I1⟩ := block_step G hd hw I O hz hx hy a3 my h1 P hE hO.1
      refine ⟨s0.map .mode ++ t1 ++ [], S1.update x y (2 ^ (k + 1)) (2 ^ k) (2 ^ (k + 1)), ?_, rfl, D1, fun rest => ?_, I1.update _ _ _ _ _⟩
      · unfold encodeTree
        rw [if_neg ho, h0']
        simp only [Option.bind_eq_bind, Option.bind_some, a1]
        rw [leaf_in hx hy, e1]
        simp only [Option.bind_some]
        rw [leaf_out (.inl (by omega))]
        rfl
      · unfold Spec.readTree
        rw [hg, if_neg hi, List.append_nil, List.append_assoc, on_mode (b := .vert) hpt]
        simp only [Option.bind_eq_bind, Option.bind_some]
        rw [r1]
        simp only [Option.bind_some]
        rw [if_neg hc']
  | split a b c d iha ihb ihc ihd =>
    intro k x y S B s post F H D hok hk mx my sx sy DO he hE hb hctx hO I
    rcases Block.tree_inv he with ⟨ho, rfl, rfl⟩ | ⟨ho, s0, h0, s1, B1, s2, B2, s3, B3, s4, B4, h1, h2, h3, h4, rfl, rfl⟩
    · exact done_out G I sx sy ho
    have hi := inside sx sy ho
    have hx : x < C.cols := by omega
    have hy : y < C.rows := by omega
    obtain _ | k := k
    · exact absurd hok.1 (by decide)
    obtain ⟨_, oka, okb, okc, okd⟩ := hok
    obtain ⟨a1, a2, a3, a4, a5, a6, a7, a8, a9, a10⟩ := Block.half (by omega) mx
    obtain ⟨b1, b2, b3, b4, b5, b6, b7, b8, b9, b10⟩ := Block.half (by omega) my
    have hn : 2 ^ (k + 1) ≥ 2 := by omega
    rw [a1] at h1 h2 h3 h4 hE oka okb okc okd ⊢
    have hE4 : ∀ e ∈ B4.log, Decided C X e := by
      split_ifs at hE
      · exact hE
      · exact hE
    have hE3 := grown (Block.tree_log d h4) hE4
    have hE2 := grown (Block.tree_log c h3) hE3
    have hE1 := grown (Block.tree_log b h2) hE2
    have h0' := h0
    unfold Block.partSyntax at h0
    rw [if_pos hn] at h0
    split_ifs at h0 with hm
    obtain ⟨A, L⟩ := hctx (by omega) hx hy
    have sx' : 16 * ((x + 2 ^ k) / 16) < C.cols := by rw [a7]; exact sx
    have sy' : 16 * ((y + 2 ^ k) / 16) < C.rows := by rw [b7]; exact sy
    have hp : C.toCfg.par.g.partition (2 ^ (k + 1)) (C.y + y) (C.x + x) (Tree.split a b c d).motion =
        C.toCfg.par.g.partition (2 ^ k) (C.y + y) (C.x + x) a.motion ++ C.toCfg.par.g.partition (2 ^ k) (C.y + y) (C.x + (x + 2 ^ k)) b.motion ++
        C.toCfg.par.g.partition (2 ^ k) (C.y + (y + 2 ^ k)) (C.x + x) c.motion ++
        C.toCfg.par.g.partition (2 ^ k) (C.y + (y + 2 ^ k)) (C.x + (x + 2 ^ k)) d.motion := by
      rw [Tree.motion, Mvref.Spec.Geo.partition.eq_def]
      dsimp only
      rw [if_neg hi]
      simp only [a1, Nat.add_assoc]
    have hr : rects C (2 ^ (k + 1)) x y (.split a b c d) =
        rects C (2 ^ k) x y a ++ (rects C (2 ^ k) (x + 2 ^ k) y b ++ (rects C (2 ^ k) x (y + 2 ^ k) c ++ rects C (2 ^ k) (x + 2 ^ k) (y + 2 ^ k) d)) := by
      unfold rects; rw [hp]; simp only [List.map_append, List.append_assoc]
    rw [hp] at hb
    rw [hr] at hO ⊢
    obtain ⟨O1, O2⟩ := ordered_split hO
    obtain ⟨O2, O3⟩ := ordered_split O2
    obtain ⟨O3, O4⟩ := ordered_split O3
    have hb1 : C.toCfg.par.g.tile T = mlog C.toCfg S.blk ++ (C.toCfg.par.g.partition (2 ^ k) (C.y + y) (C.x + x) a.motion ++
        (C.toCfg.par.g.partition (2 ^ k) (C.y + y) (C.x + (x + 2 ^ k)) b.motion ++ (C.toCfg.par.g.partition (2 ^ k) (C.y + (y + 2 ^ k)) (C.x + x) c.motion ++
        (C.toCfg.par.g.partition (2 ^ k) (C.y + (y + 2 ^ k)) (C.x + (x + 2 ^ k)) d.motion ++ post)))) := by rw [hb]; simp only [List.append_assoc]
    have c1 : 1 ≤ k → x < C.cols → y < C.rows → AboveOk C.toCfg S.blk x y (2 ^ k) ∧ LeftOk C.toCfg S.blk x y (2 ^ k) :=
      fun _ _ _ => ⟨A.sub (by omega) (by omega), L.sub (by omega) (by omega)⟩
    have N1 := Block.node_rt G h7 ht a oka (by omega) a3 b3 sx sy DO h1 (entryOk hE1) hb1 c1
    have hb2 : C.toCfg.par.g.tile T = mlog C.toCfg B1 ++ (C.toCfg.par.g.partition (2 ^ k) (C.y + y) (C.x + (x + 2 ^ k)) b.motion ++
        (C.toCfg.par.g.partition (2 ^ k) (C.y + (y + 2 ^ k)) (C.x + x) c.motion ++
        (C.toCfg.par.g.partition (2 ^ k) (C.y + (y + 2 ^ k)) (C.x + (x + 2 ^ k)) d.motion ++ post))) := by rw [hb, N1.log]; simp only [List.append_assoc]
    have c2 : 1 ≤ k → x + 2 ^ k < C.cols → y < C.rows → AboveOk C.toCfg B1 (x + 2 ^ k) y (2 ^ k) ∧ LeftOk C.toCfg B1 (x + 2 ^ k) y (2 ^ k) :=
      fun hk1 hx' _ => ⟨(A.sub (by omega) (by omega)).keep N1.kept a8 (a10 hk1) (by omega), N1.left hk1 (by omega)⟩
    have N2 := Block.node_rt G h7 ht b okb (by omega) a4 b3 sx' sy N1.data h2 (entryOk hE2) hb2 c2
    have hb3 : C.toCfg.par.g.tile T = mlog C.toCfg B2 ++ (C.toCfg.par.g.partition (2 ^ k) (C.y + (y + 2 ^ k)) (C.x + x) c.motion ++
        (C.toCfg.par.g.partition (2 ^ k) (C.y + (y + 2 ^ k)) (C.x + (x + 2 ^ k)) d.motion ++ post)) := by rw [hb, N2.log, N1.log]; simp only [List.append_assoc]
    have c3 : 1 ≤ k → x < C.cols → y + 2 ^ k < C.rows → AboveOk C.toCfg B2 x (y + 2 ^ k) (2 ^ k) ∧ LeftOk C.toCfg B2 x (y + 2 ^ k) (2 ^ k) :=
      fun hk1 _ hy' => ⟨(N1.above hk1 (by omega)).keep N2.kept (by omega) (a10 hk1) (by omega),
        ((L.sub (by omega) (by omega)).keep N1.kept b8 (a10 hk1) b7 (by omega) (by omega)).keep N2.kept b8 (a10 hk1) b7 (by omega) (by omega)⟩
    have N3 := Block.node_rt G h7 ht c okc (by omega) a3 b4 sx sy' N2.data h3 (entryOk hE3) hb3 c3
    have hb4 : C.toCfg.par.g.tile T = mlog C.toCfg B3 ++ (C.toCfg.par.g.partition (2 ^ k) (C.y + (y + 2 ^ k)) (C.x + (x + 2 ^ k)) d.motion ++ post) := by
      rw [hb, N3.log, N2.log, N1.log]; simp only [List.append_assoc]
    have c4 : 1 ≤ k → x + 2 ^ k < C.cols → y + 2 ^ k < C.rows →
        AboveOk C.toCfg B3 (x + 2 ^ k) (y + 2 ^ k) (2 ^ k) ∧ LeftOk C.toCfg B3 (x + 2 ^ k) (y + 2 ^ k) (2 ^ k) :=
      fun hk1 hx' hy' => ⟨(N2.above hk1 (by omega)).keep N3.kept a8 (a10 hk1) (by omega), N3.left hk1 (by omega)⟩
    have d1 := N1.data
    have d2 := N2.data
    have d3 := N3.data
    clear N1 N2 N3
    obtain ⟨t1, S1, e1, rfl, D1, r1, I1⟩ := iha oka (by omega) a3 b3 sx sy DO h1 hE1 hb1 c1 O1 I
    obtain ⟨t2, S2, e2, rfl, D2, r2, I2⟩ := ihb okb (by omega) a4 b3 sx' sy d1 h2 hE2 hb2 c2 O2 I1
    obtain ⟨t3, S3, e3, rfl, D3, r3, I3⟩ := ihc okc (by omega) a3 b4 sx sy' d2 h3 hE3 hb3 c3 O3 I2
    obtain ⟨t4, S4, e4, rfl, D4, r4, I4⟩ := ihd okd (by omega) a4 b4 sx' sy' d3 h4 hE4 hb4 c4 O4 I3
    refine ⟨s0.map .mode ++ t1 ++ t2 ++ t3 ++ t4, if 2 ^ (k + 1) = 2 then S4.update x y (2 ^ (k + 1)) (2 ^ k) (2 ^ k) else S4, ?_, ?_, D4, fun rest => ?_, ?_⟩
    · unfold encodeTree
      rw [if_neg ho, h0']
      simp only [Option.bind_eq_bind, Option.bind_some, a1]
      rw [e1]
      simp only [Option.bind_some]
      rw [e2]
      simp only [Option.bind_some]
      rw [e3]
      simp only [Option.bind_some]
      rw [e4]
      rfl
    · split_ifs <;> rfl
    · unfold Spec.readTree
      simp only [List.append_assoc]
      rw [hg, if_neg hi, on_mode (b := .split) (fun rest => by rw [I.blocks, hpar]; exact Block.partition_rt G (by omega) mx my hx hy A L hm h0 rest)]
      simp only [Option.bind_eq_bind, Option.bind_some, Nat.add_assoc]
      rw [r1]
      simp only [Option.bind_some]
      rw [r2]
      simp only [Option.bind_some]
      rw [r3]
      simp only [Option.bind_some]
      exact r4 rest
    · rw [endF_append, endF_append, endF_append, endG_append, endG_append, endG_append]
      split_ifs
      · exact I4.update _ _ _ _ _
      · exact I4

/-! ### Rows and tiles -/

/-- The blocks of some superblocks of a row. -/
def rowRects (C : Cfg) (t : Nat → Nat → Tree) (i j k : Nat) : List Rect := ((List.range' j k).flatMap fun j => sbBlocks C.toCfg t i j).map rectOf

theorem rowRects_succ (C : Cfg) (t : Nat → Nat → Tree) (i j k : Nat) :
    rowRects C t i j (k + 1) = rects C (2 ^ 4) (16 * j) (16 * i) (t (16 * i) (16 * j)) ++ rowRects C t i (j + 1) k := by
  unfold rowRects
  rw [List.range'_succ, List.flatMap_cons, List.map_append]
  rfl

theorem row_step (G : GeoOk C.toCfg.par.g) (h7 : C.lastActiveSegid ≤ 7) (hd : (C.xdec, C.ydec) ∈ [(0, 0), (1, 0), (1, 1)]) (hw : C.cols ≤ 1024)
    {t : Nat → Nat → Tree} (ht : ∀ r c, (t r c).motion.Ok 16) {i : Nat} (hi : 16 * i < C.rows) {lo hi' : Nat} (O : TileOk C.toCfg.par.g C.resid.toCfg lo hi') (k : Nat) :
    ∀ {j : Nat} {S : State} {B : Block.State} {s : List Block.Spec.Sym} {post : List Mvref.Spec.Blk} {F H : Nat → Nat} {D : St}, j + k = (C.cols + 15) / 16 →
    DataOk C.toCfg S.blk → Block.encodeRow C.toCfg t (16 * i) k j S.blk = some (s, B) → (∀ e ∈ B.log, Decided C X e) →
    C.toCfg.par.g.tile (motions C.toCfg t) = mlog C.toCfg S.blk ++ ((List.range' j k).flatMap (fun j => sbBlocks C.toCfg t i j) ++ post) →
    AboveOk C.toCfg S.blk (16 * j) (16 * i) (16 * k) → (1 ≤ k → LeftOk C.toCfg S.blk (16 * j) (16 * i) 16) →
    Ordered C.toCfg.par.g lo hi' F H (rowRects C t i j k) → Inv C X lo F H S D →
    Done C X lo (endF F (rowRects C t i j k)) (endG H (rowRects C t i j k)) (encodeRow C X t (16 * i) k j S) B
      (Spec.readRow num C.head (C.y + 16 * i) k j D) := by
  induction k with
  | zero =>
    intro j S B s post F H D hj DO he hE hb A L hO I
    cases he
    exact ⟨[], S, rfl, rfl, D, fun rest => rfl, I⟩
  | succ k ih =>
    intro j S B s post F H D hj DO he hE hb A L hO I
    unfold Block.encodeRow at he
    simp only [Option.bind_eq_bind, Option.bind_eq_some_iff] at he
    obtain ⟨⟨s1, B1⟩, h1, ⟨s2, B2⟩, h2, h⟩ := he
    cases h
    dsimp only at h2
    rw [List.range'_succ, List.flatMap_cons, List.append_assoc] at hb
    rw [rowRects_succ] at hO ⊢
    obtain ⟨O1, O2⟩ := ordered_split hO
    have hE1 := grown (Block.row_log t _ _ h2) hE
    have cx : 1 ≤ 4 → 16 * j < C.cols → 16 * i < C.rows →
        AboveOk C.toCfg S.blk (16 * j) (16 * i) (2 ^ 4) ∧ LeftOk C.toCfg S.blk (16 * j) (16 * i) (2 ^ 4) :=
      fun _ _ _ => ⟨A.sub (by omega) (by omega), L (by omega)⟩
    have N := Block.node_rt (k := 4) (T := motions C.toCfg t) G h7 (fun r c => ht _ _) (t (16 * i) (16 * j)) (ht _ _) (by omega) (by omega) (by omega) (by omega)
      (by omega) DO h1 (entryOk hE1) hb cx
    have hl : mlog C.toCfg B1 = mlog C.toCfg S.blk ++ sbBlocks C.toCfg t i j := N.log
    obtain ⟨t1, S1, e1, rfl, D1, r1, I1⟩ := node_step (k := 4) (T := motions C.toCfg t) G h7 hd hw (fun r c => ht _ _) O (t (16 * i) (16 * j)) (ht _ _) (by omega)
      (by omega) (by omega) (by omega) (by omega) DO h1 hE1 hb cx O1 I
    obtain ⟨t2, S2, e2, rfl, D2, r2, I2⟩ := ih (post := post) (by omega) N.data h2 hE (by rw [hl, List.append_assoc]; exact hb)
      ((A.sub (by omega) (by omega)).keep N.kept (by omega) (by omega) (by omega))
      (fun _ => by have := N.left (by omega) (by omega); rwa [show 16 * j + 2 ^ 4 = 16 * (j + 1) by omega] at this) O2 I1
    refine ⟨t1 ++ t2, S2, ?_, rfl, D2, fun rest => ?_, by rw [endF_append, endG_append]; exact I2⟩
    · have e1' : encodeTree C X 16 (16 * j) (16 * i) (t (16 * i) (16 * j)) S = some (t1, S1) := e1
      unfold encodeRow
      rw [e1']
      simp only [Option.bind_eq_bind, Option.bind_some]
      rw [e2]
      rfl
    · have hx : C.head.g.colStart = C.x := rfl
      unfold Spec.readRow
      rw [hx, List.append_assoc, r1]
      simp only [Option.bind_eq_bind, Option.bind_some]
      exact r2 rest

theorem rows_step (G : GeoOk C.toCfg.par.g) (h7 : C.lastActiveSegid ≤ 7) (hd : (C.xdec, C.ydec) ∈ [(0, 0), (1, 0), (1, 1)]) (hw : C.cols ≤ 1024)
    {t : Nat → Nat → Tree} (ht : ∀ r c, (t r c).motion.Ok 16) (k : Nat) :
    ∀ {i : Nat} {S : State} {B : Block.State} {s : List Block.Spec.Sym} {post : List Mvref.Spec.Blk} {lo : Nat} {F H : Nat → Nat} {D : St},
    i + k = (C.rows + 15) / 16 → DataOk C.toCfg S.blk → Block.encodeRows C.toCfg t k i S.blk = some (s, B) → (∀ e ∈ B.log, Decided C X e) →
    C.toCfg.par.g.tile (motions C.toCfg t) =
      mlog C.toCfg S.blk ++ ((List.range' i k).flatMap (fun i => (List.range' 0 ((C.cols + 15) / 16)).flatMap fun j => sbBlocks C.toCfg t i j) ++ post) →
    (1 ≤ k → AboveOk C.toCfg S.blk 0 (16 * i) (16 * ((C.cols + 15) / 16))) →
    (∀ j, C.x ≤ j → j < C.x + 16 * ((C.cols + 15) / 16) → j < C.frameCols → C.y + 16 * i < C.frameRows → F j = C.y + 16 * i) → Inv C X lo F H S D →
    ∃ lo' F' H', Done C X lo' F' H' (encodeRows C X t k i S) B (Spec.readRows num C.head k i D) := by
  induction k with
  | zero =>
    intro i S B s post lo F H D hj DO he hE hb A hF I
    cases he
    exact ⟨lo, F, H, [], S, rfl, rfl, D, fun rest => rfl, I⟩
  | succ k ih =>
    intro i S B s post lo F H D hj DO he hE hb A hF I
    unfold Block.encodeRows at he
    simp only [Option.bind_eq_bind, Option.bind_eq_some_iff] at he
    obtain ⟨⟨s1, B1⟩, h1, ⟨s2, B2⟩, h2, h⟩ := he
    cases h
    dsimp only at h2
    rw [List.range'_succ, List.flatMap_cons, List.append_assoc] at hb
    have hr : C.toCfg.par.g.rowEnd - C.toCfg.par.g.rowStart = C.rows := by
      show C.y + C.rows - C.y = _
      omega
    have hc : C.toCfg.par.g.colEnd - C.toCfg.par.g.colStart = C.cols := by
      show C.x + C.cols - C.x = _
      omega
    have T := TxSize.tileOk (C := C.resid.toCfg) (i := i) G hr.symm hc.symm (by rw [hr]; omega)
    rw [hc] at T
    have hin : C.y + 16 * i < C.frameRows := by
      have : C.y + C.rows ≤ C.frameRows := G.rowLe
      omega
    have W := TxSize.sbs_ok (g := C.toCfg.par.g) (lo := C.y + 16 * i) (hi := C.x + 16 * ((C.cols + 15) / 16)) (t := motions C.toCfg t) (fun r c => ht _ _) (F := F)
      (G := fun _ => C.x) ((C.cols + 15) / 16) (Nat.le_refl _) (fun j a b d => hF j a b d hin) (fun _ _ _ _ => rfl)
    have e0 : (TxSize.sbs C.toCfg.par.g (motions C.toCfg t) (C.y + 16 * i) ((C.cols + 15) / 16)).map rectOf = rowRects C t i 0 ((C.cols + 15) / 16) := by
      unfold rowRects TxSize.sbs
      rw [List.range_eq_range']
      congr 2
      funext j
      unfold motions sbBlocks
      have hx : C.toCfg.par.g.colStart = C.x := rfl
      rw [hx, Nat.add_sub_cancel_left, Nat.add_sub_cancel_left]
    rw [e0] at W
    have I0 : Inv C X (C.y + 16 * i) F (fun _ => C.x) (S.resetLeft C) { D with resid := { D.resid with ctx := D.resid.ctx.clearLeft } } := by
      refine ⟨I.out, fun hs => ⟨(I.rel hs).above, fun r _ _ _ h _ => absurd h (Nat.lt_irrefl _)⟩, ?_, Coef.row_ok I.cx⟩
      intro r c a b d f h
      refine I.data r c a b d f (Or.inl (h.resolve_right ?_))
      have : C.x ≤ c := b
      show ¬ c < C.x
      omega
    have hE1 := grown (Block.rows_log t _ h2) hE
    have DO0 : DataOk C.toCfg (S.resetLeft C).blk := ⟨DO.shows, DO.i16⟩
    have L0 : LeftOk C.toCfg (S.resetLeft C).blk (16 * 0) (16 * i) 16 := fun i h1 h2 h3 => .inl ⟨rfl, rfl⟩
    obtain ⟨q1, q2, q3, -⟩ := Block.row_rt (S := (S.resetLeft C).blk) G h7 ht (i := i) (by omega) ((C.cols + 15) / 16) (by omega) DO0 h1 (entryOk hE1) hb (A (by omega))
      (fun _ => L0) (fun _ j h1 h2 h3 => by omega)
    have hl : mlog C.toCfg B1 = mlog C.toCfg S.blk ++ (List.range' 0 ((C.cols + 15) / 16)).flatMap fun j => sbBlocks C.toCfg t i j := q2
    obtain ⟨t1, S1, e1, rfl, D1, r1, I1⟩ := row_step (S := S.resetLeft C) G h7 hd hw ht (i := i) (by omega) T ((C.cols + 15) / 16) (by omega) DO0 h1 hE1 hb
      (A (by omega)) (fun _ => L0) W.ok I0
    obtain ⟨lo', F', H', t2, S2, e2, rfl, D2, r2, I2⟩ := ih (i := i + 1) (post := post) (by omega) q1 h2 hE (by rw [hl, List.append_assoc]; exact hb)
      (fun _ => by have := q3 (by omega); rwa [Nat.zero_add] at this)
      (fun j a b d f => by
        have := W.f j a b d (by show C.y + 16 * i + 16 < C.frameRows; omega)
        rw [this]; omega) I1
    refine ⟨lo', F', H', t1 ++ t2, S2, ?_, rfl, D2, fun rest => ?_, I2⟩
    · unfold encodeRows
      rw [e1]
      simp only [Option.bind_eq_bind, Option.bind_some]
      rw [e2]
      rfl
    · have hy : C.head.g.rowStart = C.y := rfl
      have hc' : C.head.g.colEnd - C.head.g.colStart = C.cols := hc
      unfold Spec.readRows
      rw [hy, hc', List.append_assoc, r1]
      simp only [Option.bind_eq_bind, Option.bind_some]
      exact r2 rest

theorem tile_step (G : GeoOk C.toCfg.par.g) (h7 : C.lastActiveSegid ≤ 7) (hd : (C.xdec, C.ydec) ∈ [(0, 0), (1, 0), (1, 1)]) (hw : C.cols ≤ 1024)
    {t : Nat → Nat → Tree} (ht : ∀ r c, (t r c).motion.Ok 16) {data : Nat → Nat → Block.EBlk} (hi : ∀ r c, I16 (data r c).blk.mv0 ∧ I16 (data r c).blk.mv1)
    {s : List Block.Spec.Sym} {B : Block.State} (he : Block.encodeTile C.toCfg t data = some (s, B)) (hE : ∀ e ∈ B.log, Decided C X e) (types : Nat → Nat → Nat) :
    ∃ toks S, encodeTile C X t data = some (toks, S) ∧ S.blk = B ∧
      ∀ rest, Spec.readTile num C.head types (toks ++ rest) = some (B.log.map (outOf C X), rest) := by
  unfold Block.encodeTile at he
  have DO : DataOk C.toCfg ⟨data, fun _ => 0, fun _ => 0, []⟩ := ⟨fun _ _ h => (by cases h), hi⟩
  have I : Inv C X 0 (fun _ => C.y) (fun _ => C.x) ⟨⟨data, fun _ => 0, fun _ => 0, []⟩, TxSize.init, Cx.new⟩ ⟨[], TxSize.Spec.start, ⟨.start, types⟩⟩ := by
    refine ⟨rfl, fun _ => ⟨fun c _ _ h _ => absurd h (Nat.lt_irrefl _), fun r _ _ _ h _ => absurd h (Nat.lt_irrefl _)⟩, ?_, Coef.rel_start C.cs400⟩
    intro r c a b d f h
    have a' : C.y ≤ r := a
    have b' : C.x ≤ c := b
    have h' : r < C.y ∨ c < C.x := h
    omega
  obtain ⟨lo', F', H', toks, S, e, hS, D, r, J⟩ := rows_step (S := ⟨⟨data, fun _ => 0, fun _ => 0, []⟩, TxSize.init, Cx.new⟩) (post := []) G h7 hd hw ht _ (by omega) DO he hE
    (by rw [Block.tile_eq]; simp [mlog]) (fun _ j _ _ _ => .inl ⟨rfl, rfl⟩) (fun _ _ _ _ _ => rfl) I
  refine ⟨toks, S, e, hS, fun rest => ?_⟩
  unfold Spec.readTile
  have hr : (C.head.g.rowEnd - C.head.g.rowStart + 15) / 16 = (C.rows + 15) / 16 := by
    show (C.y + C.rows - C.y + 15) / 16 = _
    rw [Nat.add_sub_cancel_left]
  rw [hr, r, Option.map_some]
  dsimp only
  rw [J.out, hS]

end Rav1e.Whole

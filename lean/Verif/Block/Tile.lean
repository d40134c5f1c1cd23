import Verif.Block.Ctx2

/-!
# Tiles

A decoder reads back every block of a tile.
-/

namespace Rav1e.Block

open Mvref (GeoOk I16)
open Spec (Sym)

/-- What the tree says about the prediction of motion vectors. -/
def Tree.motion : Tree → Mvref.Spec.Tree
  | .none a => .none (infoOf a)
  | .horz a b => .horz (infoOf a) (infoOf b)
  | .vert a b => .vert (infoOf a) (infoOf b)
  | .split a b c d => .split a.motion b.motion c.motion d.motion

/-- What the blocks of the log say about the prediction of motion vectors. -/
def mlog (C : Cfg) (S : State) : List Mvref.Spec.Blk := (S.log.map (place C)).map Spec.Blk.motion

variable {C : Cfg} {S S' : State}

/-! ### The log grows -/

theorem block_log {x y w h : Nat} {ch : Choice} {s : List Sym} (he : encodeBlock C S x y w h ch = some (s, S')) : ∃ l, S'.log = S.log ++ l := by
  unfold encodeBlock at he
  simp only [Option.bind_eq_bind, Option.bind_eq_some_iff, Option.some.injEq, Prod.mk.injEq] at he
  obtain ⟨⟨s0, seg⟩, h0, ⟨s1, stack⟩, h1, rfl, rfl⟩ := he
  exact ⟨_, rfl⟩

theorem leaf_log {x y w h : Nat} {ch : Choice} {s : List Sym} (he : encodeLeaf C S x y w h ch = some (s, S')) : ∃ l, S'.log = S.log ++ l := by
  unfold encodeLeaf at he
  split_ifs at he
  · simp only [Option.some.injEq, Prod.mk.injEq] at he
    exact ⟨[], by rw [← he.2, List.append_nil]⟩
  · exact block_log he

theorem update_log (S : State) (x y n w h : Nat) : (updatePartition S x y n w h).log = S.log := rfl

theorem grow_trans {a b c : List Entry} (h : ∃ l, b = a ++ l) (h' : ∃ l, c = b ++ l) : ∃ l, c = a ++ l := by
  obtain ⟨l, rfl⟩ := h
  obtain ⟨l', rfl⟩ := h'
  exact ⟨l ++ l', by rw [List.append_assoc]⟩

/-- What a square consists of. -/
theorem tree_inv {n x y : Nat} {t : Tree} {s : List Sym} (he : encodeTree C n x y t S = some (s, S')) :
    ((x ≥ C.cols ∨ y ≥ C.rows) ∧ s = [] ∧ S' = S) ∨ (¬(x ≥ C.cols ∨ y ≥ C.rows) ∧ ∃ s0, partSyntax C S x y n t.part = some s0 ∧ match t with
      | .none a => ∃ s1 S1, encodeBlock C S x y n n a = some (s1, S1) ∧ s = s0 ++ s1 ∧ S' = if n ≥ 2 then updatePartition S1 x y n n n else S1
      | .horz a b => ∃ s1 S1 s2 S2, encodeLeaf C S x y n (n / 2) a = some (s1, S1) ∧ encodeLeaf C S1 x (y + n / 2) n (n / 2) b = some (s2, S2) ∧
          s = s0 ++ s1 ++ s2 ∧ S' = updatePartition S2 x y n n (n / 2)
      | .vert a b => ∃ s1 S1 s2 S2, encodeLeaf C S x y (n / 2) n a = some (s1, S1) ∧ encodeLeaf C S1 (x + n / 2) y (n / 2) n b = some (s2, S2) ∧
          s = s0 ++ s1 ++ s2 ∧ S' = updatePartition S2 x y n (n / 2) n
      | .split a b c d => ∃ s1 S1 s2 S2 s3 S3 s4 S4, encodeTree C (n / 2) x y a S = some (s1, S1) ∧ encodeTree C (n / 2) (x + n / 2) y b S1 = some (s2, S2) ∧
          encodeTree C (n / 2) x (y + n / 2) c S2 = some (s3, S3) ∧ encodeTree C (n / 2) (x + n / 2) (y + n / 2) d S3 = some (s4, S4) ∧
          s = s0 ++ s1 ++ s2 ++ s3 ++ s4 ∧ S' = if n = 2 then updatePartition S4 x y n (n / 2) (n / 2) else S4) := by
  by_cases ho : x ≥ C.cols ∨ y ≥ C.rows
  · refine .inl ⟨ho, ?_⟩
    cases t <;> (unfold encodeTree at he; rw [if_pos ho] at he; cases he; exact ⟨rfl, rfl⟩)
  · refine .inr ⟨ho, ?_⟩
    cases t <;> (
      unfold encodeTree at he
      rw [if_neg ho] at he
      simp only [Option.bind_eq_bind, Option.bind_eq_some_iff] at he)
    · obtain ⟨s0, h0, ⟨s1, S1⟩, h1, h⟩ := he
      cases h
      exact ⟨s0, h0, s1, S1, h1, rfl, rfl⟩
    · obtain ⟨s0, h0, ⟨s1, S1⟩, h1, ⟨s2, S2⟩, h2, h⟩ := he
      cases h
      exact ⟨s0, h0, s1, S1, s2, S2, h1, h2, rfl, rfl⟩
    · obtain ⟨s0, h0, ⟨s1, S1⟩, h1, ⟨s2, S2⟩, h2, h⟩ := he
      cases h
      exact ⟨s0, h0, s1, S1, s2, S2, h1, h2, rfl, rfl⟩
    · obtain ⟨s0, h0, ⟨s1, S1⟩, h1, ⟨s2, S2⟩, h2, ⟨s3, S3⟩, h3, ⟨s4, S4⟩, h4, h⟩ := he
      cases h
      exact ⟨s0, h0, s1, S1, s2, S2, s3, S3, s4, S4, h1, h2, h3, h4, rfl, rfl⟩

theorem tree_log (t : Tree) : ∀ {n x y : Nat} {S S' : State} {s : List Sym}, encodeTree C n x y t S = some (s, S') → ∃ l, S'.log = S.log ++ l := by
  induction t with
  | none a =>
    intro n x y S S' s he
    rcases tree_inv he with ⟨_, _, rfl⟩ | ⟨_, s0, _, s1, S1, h1, _, rfl⟩
    · exact ⟨[], by rw [List.append_nil]⟩
    · split_ifs
      · rw [update_log]; exact block_log h1
      · exact block_log h1
  | horz a b =>
    intro n x y S S' s he
    rcases tree_inv he with ⟨_, _, rfl⟩ | ⟨_, s0, _, s1, S1, s2, S2, h1, h2, _, rfl⟩
    · exact ⟨[], by rw [List.append_nil]⟩
    · rw [update_log]; exact grow_trans (leaf_log h1) (leaf_log h2)
  | vert a b =>
    intro n x y S S' s he
    rcases tree_inv he with ⟨_, _, rfl⟩ | ⟨_, s0, _, s1, S1, s2, S2, h1, h2, _, rfl⟩
    · exact ⟨[], by rw [List.append_nil]⟩
    · rw [update_log]; exact grow_trans (leaf_log h1) (leaf_log h2)
  | split a b c d iha ihb ihc ihd =>
    intro n x y S S' s he
    rcases tree_inv he with ⟨_, _, rfl⟩ | ⟨_, s0, _, s1, S1, s2, S2, s3, S3, s4, S4, h1, h2, h3, h4, _, rfl⟩
    · exact ⟨[], by rw [List.append_nil]⟩
    · have := grow_trans (iha h1) (grow_trans (ihb h2) (grow_trans (ihc h3) (ihd h4)))
      split_ifs
      · exact this
      · exact this

theorem entries {l l' : List Entry} (h : ∃ m, l' = l ++ m) (E : ∀ e ∈ l', EntryOk C e) : ∀ e ∈ l, EntryOk C e := by
  obtain ⟨m, rfl⟩ := h
  exact fun e he => E e (List.mem_append_left _ he)

/-! ### A block -/

/-- What is known after a block. -/
structure LeafOk (C : Cfg) (S S' : State) (s : List Sym) (x y w h : Nat) (i : Mvref.Spec.Info) (b : Spec.Blk) : Prop where
  bw4 : b.bw4 = w
  bh4 : b.bh4 = h
  places : S'.log.map (place C) = S.log.map (place C) ++ [b]
  log : mlog C S' = mlog C S ++ [⟨C.y + y, C.x + x, w, h, i⟩]
  aboveP : S'.aboveP = S.aboveP
  leftP : S'.leftP = S.leftP
  dec : ∀ i j, S'.dec C (C.y + i) (C.x + j) = if y ≤ i ∧ i < y + h ∧ x ≤ j ∧ j < x + w then some b else S.dec C (C.y + i) (C.x + j)
  data : DataOk C S'
  read : ∀ rest, Spec.readBlock C.par (S.log.map (place C)) (C.y + y) (C.x + x) w h (s ++ rest) = some (b, rest)

variable {T : Nat → Nat → Mvref.Spec.Tree}

theorem leaf_rt (G : GeoOk C.par.g) (h7 : C.lastActiveSegid ≤ 7) (ht : ∀ r c, (T r c).Ok 16) (D : DataOk C S) {x y w h : Nat} {ch : Choice} (hw : Size w h)
    (hx : x < C.cols) (hy : y < C.rows) {s : List Sym} (he : encodeBlock C S x y w h ch = some (s, S')) (hE : ∀ e ∈ S'.log, EntryOk C e)
    {post : List Mvref.Spec.Blk} (hb : C.par.g.tile T = mlog C S ++ ⟨C.y + y, C.x + x, w, h, infoOf ch⟩ :: post) :
    ∃ b, LeafOk C S S' s x y w h (infoOf ch) b := by
  obtain ⟨e, h1, ⟨rfl, rfl, rfl, rfl⟩, ⟨h3, h4⟩, h5, h6, h8⟩ := block_rt G h7 ht D hw hx hy he
  have hm : (place C e).motion = ⟨C.y + e.y, C.x + e.x, e.w, e.h, infoOf ch⟩ := by rw [← h4]; exact place_motion C e
  obtain ⟨h9, h10⟩ := h8 (post := post) (by rw [hm]; exact hb) (hE e (by rw [h1]; simp))
  refine ⟨place C e, rfl, rfl, by rw [h1]; simp, by unfold mlog; rw [h1, List.map_append, List.map_append]; simp only [List.map_cons, List.map_nil, hm], h5, h6, ?_, h9, h10⟩
  intro i j
  unfold State.dec
  rw [h1, List.map_append, List.map_cons, List.map_nil, decoded_snoc]
  have : (place C e).Covers (C.y + i) (C.x + j) ↔ e.y ≤ i ∧ i < e.y + e.h ∧ e.x ≤ j ∧ j < e.x + e.w := by
    show C.y + e.y ≤ C.y + i ∧ C.y + i < C.y + e.y + e.h ∧ C.x + e.x ≤ C.x + j ∧ C.x + j < C.x + e.x + e.w ↔ _
    omega
  by_cases hc : (place C e).Covers (C.y + i) (C.x + j)
  · rw [if_pos hc, if_pos (this.mp hc)]
  · rw [if_neg hc, if_neg (fun h => hc (this.mpr h))]

theorem DataOk.update (D : DataOk C S) (x y n w h : Nat) : DataOk C (updatePartition S x y n w h) := ⟨D.shows, D.i16⟩

/-! ### A square -/

/-- What is known after a square. -/
structure NodeOk (C : Cfg) (S S' : State) (s : List Sym) (k x y : Nat) (t : Tree) : Prop where
  data : DataOk C S'
  log : mlog C S' = mlog C S ++ C.par.g.partition (2 ^ k) (C.y + y) (C.x + x) t.motion
  kept : Kept C S S' x y (2 ^ k)
  above : 1 ≤ k → y + 2 ^ k ≤ C.rows → AboveOk C S' x (y + 2 ^ k) (2 ^ k)
  left : 1 ≤ k → x + 2 ^ k ≤ C.cols → LeftOk C S' (x + 2 ^ k) y (2 ^ k)
  unit : k = 0 → S'.aboveP = S.aboveP ∧ S'.leftP = S.leftP ∧ Filled C S' x y 1 1 1
  read : ∀ rest, Spec.readTree C.par k (C.y + y) (C.x + x) (S.log.map (place C)) (s ++ rest) = some (S'.log.map (place C), rest)

theorem partition_out {g : Mvref.Spec.Geo} {n r c : Nat} (t : Mvref.Spec.Tree) (h : r ≥ g.miRows ∨ c ≥ g.miCols) : g.partition n r c t = [] := by
  cases t <;> (unfold Mvref.Spec.Geo.partition; rw [if_pos h])

theorem node_out (G : GeoOk C.par.g) (D : DataOk C S) {k x y : Nat} {t : Tree} (sx : 16 * (x / 16) < C.cols) (sy : 16 * (y / 16) < C.rows)
    (h : x ≥ C.cols ∨ y ≥ C.rows) : NodeOk C S S [] k x y t := by
  have ho : C.y + y ≥ C.par.g.miRows ∨ C.x + x ≥ C.par.g.miCols := by
    have h1 := (border G (i := y)).1 sy
    have h2 := (border G (i := x)).2 sx
    show _ ≥ C.frameRows ∨ _ ≥ C.frameCols
    omega
  have hp : 0 < 2 ^ k := Nat.two_pow_pos k
  refine ⟨D, by rw [partition_out _ ho, List.append_nil], .refl _ _ _, fun _ hr j h1 h2 h3 => ?_, fun _ hr j h1 h2 h3 => ?_,
    fun _ => ⟨rfl, rfl, fun i j h1 h2 h3 h4 h5 h6 => ?_⟩, fun rest => ?_⟩
  · omega
  · omega
  · omega
  · cases k <;> (unfold Spec.readTree; rw [if_pos ho]; rfl)

theorem size_square {k : Nat} (hk : k ≤ 4) : Size (2 ^ k) (2 ^ k) := by
  interval_cases k <;> (unfold Size; decide)

theorem size_horz {k : Nat} (hk : k ≤ 3) : Size (2 ^ (k + 1)) (2 ^ k) ∧ Size (2 ^ k) (2 ^ (k + 1)) := by
  interval_cases k <;> (unfold Size; decide)

theorem mod_le {k y : Nat} (hk : k ≤ 4) (hy : y % 2 ^ k = 0) : y % 16 + 2 ^ k ≤ 16 := by
  interval_cases k <;> omega

/-- A square of 4x4 pixels. -/
theorem node_unit (G : GeoOk C.par.g) (h7 : C.lastActiveSegid ≤ 7) (ht : ∀ r c, (T r c).Ok 16) (D : DataOk C S) {x y : Nat} {a : Choice} {s : List Sym}
    (he : encodeBlock C S x y 1 1 a = some (s, S')) (hx : x < C.cols) (hy : y < C.rows)
    (hE : ∀ e ∈ S'.log, EntryOk C e) {post : List Mvref.Spec.Blk}
    (hb : C.par.g.tile T = mlog C S ++ (C.par.g.partition (2 ^ 0) (C.y + y) (C.x + x) (Tree.none a).motion ++ post))
    (hi : ¬(C.y + y ≥ C.par.g.miRows ∨ C.x + x ≥ C.par.g.miCols)) :
    NodeOk C S S' s 0 x y (.none a) := by
  have hp : C.par.g.partition (2 ^ 0) (C.y + y) (C.x + x) (Tree.none a).motion = [⟨C.y + y, C.x + x, 1, 1, infoOf a⟩] := by
    unfold Mvref.Spec.Geo.partition Tree.motion
    rw [if_neg hi]
    rfl
  rw [hp, List.singleton_append] at hb
  obtain ⟨b, L⟩ := leaf_rt G h7 ht D (by unfold Size; decide) hx hy he hE hb
  refine ⟨L.data, by rw [L.log, hp], ⟨fun _ _ => by rw [L.aboveP], fun _ _ => by rw [L.leftP], fun i j hij => ?_⟩, by omega, by omega,
    fun _ => ⟨L.aboveP, L.leftP, fun i j h1 h2 h3 h4 _ _ => ⟨b, ?_, L.bw4, L.bh4⟩⟩, fun rest => ?_⟩
  · rw [L.dec, if_neg (by omega)]
  · rw [L.dec, if_pos (by omega)]
  · unfold Spec.readTree
    rw [if_neg hi, L.read rest]
    simp only [Option.bind_eq_bind, Option.bind_some]
    rw [L.places]

theorem leaf_in {x y w h : Nat} {ch : Choice} (hx : x < C.cols) (hy : y < C.rows) : encodeLeaf C S x y w h ch = encodeBlock C S x y w h ch := by
  unfold encodeLeaf
  rw [if_neg (by omega)]

theorem leaf_out {x y w h : Nat} {ch : Choice} (ho : x ≥ C.cols ∨ y ≥ C.rows) : encodeLeaf C S x y w h ch = some ([], S) := by
  unfold encodeLeaf
  rw [if_pos ho]

/-- Every square. -/
theorem node_rt (G : GeoOk C.par.g) (h7 : C.lastActiveSegid ≤ 7) (ht : ∀ r c, (T r c).Ok 16) (t : Tree) : ∀ {k x y : Nat} {S S' : State} {s : List Sym}
    {post : List Mvref.Spec.Blk}, t.motion.Ok (2 ^ k) → k ≤ 4 → x % 2 ^ k = 0 → y % 2 ^ k = 0 → 16 * (x / 16) < C.cols → 16 * (y / 16) < C.rows →
    DataOk C S → encodeTree C (2 ^ k) x y t S = some (s, S') → (∀ e ∈ S'.log, EntryOk C e) →
    C.par.g.tile T = mlog C S ++ (C.par.g.partition (2 ^ k) (C.y + y) (C.x + x) t.motion ++ post) →
    (1 ≤ k → x < C.cols → y < C.rows → AboveOk C S x y (2 ^ k) ∧ LeftOk C S x y (2 ^ k)) → NodeOk C S S' s k x y t := by
  have inside : ∀ {x y : Nat}, 16 * (x / 16) < C.cols → 16 * (y / 16) < C.rows → ¬(x ≥ C.cols ∨ y ≥ C.rows) →
      ¬(C.y + y ≥ C.par.g.miRows ∨ C.x + x ≥ C.par.g.miCols) := by
    intro x y sx sy h
    have h1 := (border G (i := y)).1 sy
    have h2 := (border G (i := x)).2 sx
    show ¬(_ ≥ C.frameRows ∨ _ ≥ C.frameCols)
    omega
  induction t with
  | none a =>
    intro k x y S S' s post hok hk mx my sx sy D he hE hb hctx
    rcases tree_inv he with ⟨ho, rfl, rfl⟩ | ⟨ho, s0, h0, s1, S1, h1, rfl, rfl⟩
    · exact node_out G D sx sy ho
    have hi := inside sx sy ho
    have hx : x < C.cols := by omega
    have hy : y < C.rows := by omega
    obtain _ | k := k
    · unfold partSyntax at h0
      rw [if_neg (by decide)] at h0
      cases h0
      rw [if_neg (by decide)] at hE ⊢
      exact node_unit G h7 ht D h1 hx hy hE hb hi
    · obtain ⟨a1, a2, a3, a4, a5, a6, a7, a8, a9, a10⟩ := half (by omega) mx
      obtain ⟨b1, b2, b3, b4, b5, b6, b7, b8, b9, b10⟩ := half (by omega) my
      have h2 : 2 ^ (k + 1) ≥ 2 := by omega
      have hp : C.par.g.partition (2 ^ (k + 1)) (C.y + y) (C.x + x) (Tree.none a).motion = [⟨C.y + y, C.x + x, 2 ^ (k + 1), 2 ^ (k + 1), infoOf a⟩] := by
        unfold Mvref.Spec.Geo.partition Tree.motion
        rw [if_neg hi]
      unfold partSyntax at h0
      rw [if_pos h2] at h0
      rw [if_pos h2] at hE ⊢
      split_ifs at h0 with hm
      obtain ⟨A, L⟩ := hctx (by omega) hx hy
      rw [hp, List.singleton_append] at hb
      obtain ⟨b, B⟩ := leaf_rt G h7 ht D (size_square (by omega)) hx hy h1 hE hb
      have F : Filled C S1 x y (2 ^ (k + 1)) (2 ^ (k + 1)) (2 ^ (k + 1)) := by
        intro i j h1 h2 h3 h4 _ _
        exact ⟨b, by rw [B.dec, if_pos (by omega)], B.bw4, B.bh4⟩
      have K : Kept C S S1 x y (2 ^ (k + 1)) := ⟨fun _ _ => by rw [B.aboveP], fun _ _ => by rw [B.leftP], fun i j hij => by rw [B.dec, if_neg (by omega)]⟩
      refine ⟨B.data.update _ _ _ _ _, ?_, K.trans update_kept, fun _ hr => ?_, fun _ hr => ?_, by omega, fun rest => ?_⟩
      · rw [hp]; exact B.log
      · exact update_above (size_square (by omega)) F a8 (by omega) (by omega) hr
      · exact update_left (size_square (by omega)) F b8 (by omega) (by omega) (by omega) hr
      · unfold Spec.readTree
        rw [if_neg hi, List.append_assoc, partition_rt G (by omega) mx my hx hy A L hm h0]
        simp only [Option.bind_eq_bind, Option.bind_some, Tree.part]
        rw [B.read rest]
        simp only [Option.bind_some]
        rw [update_log, B.places]
  | horz a b =>
    intro k x y S S' s post hok hk mx my sx sy D he hE hb hctx
    rcases tree_inv he with ⟨ho, rfl, rfl⟩ | ⟨ho, s0, h0, s1, S1, s2, S2, h1, h2, rfl, rfl⟩
    · exact node_out G D sx sy ho
    have hi := inside sx sy ho
    have hx : x < C.cols := by omega
    have hy : y < C.rows := by omega
    obtain _ | k := k
    · exact absurd hok (by unfold Tree.motion Mvref.Spec.Tree.Ok; decide)
    obtain ⟨a1, a2, a3, a4, a5, a6, a7, a8, a9, a10⟩ := half (by omega) mx
    obtain ⟨b1, b2, b3, b4, b5, b6, b7, b8, b9, b10⟩ := half (by omega) my
    have hn : 2 ^ (k + 1) ≥ 2 := by omega
    rw [a1] at h1 h2 hE ⊢
    unfold partSyntax at h0
    rw [if_pos hn] at h0
    split_ifs at h0 with hm
    obtain ⟨A, L⟩ := hctx (by omega) hx hy
    have hbr := (border G (i := y + 2 ^ k)).1 (by rw [b7]; exact sy)
    have hz := (size_horz (k := k) (by omega)).1
    rw [leaf_in hx hy] at h1
    by_cases hc : y + 2 ^ k < C.rows
    · rw [leaf_in hx hc] at h2
      have hc' : C.y + y + 2 ^ k < C.par.g.miRows := by rw [Nat.add_assoc]; exact hbr.mpr hc
      have hp : C.par.g.partition (2 ^ (k + 1)) (C.y + y) (C.x + x) (Tree.horz a b).motion =
          [⟨C.y + y, C.x + x, 2 ^ (k + 1), 2 ^ k, infoOf a⟩, ⟨C.y + (y + 2 ^ k), C.x + x, 2 ^ (k + 1), 2 ^ k, infoOf b⟩] := by
        unfold Mvref.Spec.Geo.partition Tree.motion
        rw [if_neg hi]
        dsimp only
        rw [a1, if_pos hc', Nat.add_assoc]
      rw [hp] at hb
      obtain ⟨p, P⟩ := leaf_rt G h7 ht D hz hx hy h1 (entries (block_log h2) hE) hb
      obtain ⟨q, Q⟩ := leaf_rt G h7 ht P.data hz hx hc h2 hE (post := post) (by rw [P.log, List.append_assoc]; exact hb)
      have F : Filled C S2 x y (2 ^ (k + 1)) (2 ^ (k + 1)) (2 ^ k) := by
        intro i j h1 h2 h3 h4 _ _
        by_cases hq : y + 2 ^ k ≤ i
        · exact ⟨q, by rw [Q.dec, if_pos (by omega)], Q.bw4, Q.bh4⟩
        · exact ⟨p, by rw [Q.dec, if_neg (by omega), P.dec, if_pos (by omega)], P.bw4, P.bh4⟩
      have K : Kept C S S2 x y (2 ^ (k + 1)) := ⟨fun _ _ => by rw [Q.aboveP, P.aboveP], fun _ _ => by rw [Q.leftP, P.leftP],
        fun i j hij => by rw [Q.dec, if_neg (by omega), P.dec, if_neg (by omega)]⟩
      refine ⟨Q.data.update _ _ _ _ _, ?_, K.trans update_kept, fun _ hr => ?_, fun _ hr => ?_, by omega, fun rest => ?_⟩
      · rw [hp]
        show mlog C S2 = _
        rw [Q.log, P.log, List.append_assoc]; rfl
      · exact update_above hz F a8 (by omega) (by omega) hr
      · exact update_left hz F b8 (by omega) (by omega) (by omega) hr
      · unfold Spec.readTree
        rw [if_neg hi, List.append_assoc, List.append_assoc, partition_rt G (by omega) mx my hx hy A L hm h0]
        simp only [Option.bind_eq_bind, Option.bind_some, Tree.part]
        rw [P.read (s2 ++ rest)]
        simp only [Option.bind_some]
        rw [if_pos hc', ← P.places, Nat.add_assoc, Q.read rest]
        simp only [Option.bind_some]
        rw [update_log, Q.places]
    · rw [leaf_out (.inr (by omega))] at h2
      cases h2
      have hc' : ¬ C.y + y + 2 ^ k < C.par.g.miRows := by rw [Nat.add_assoc]; exact fun h => hc (hbr.mp h)
      have hp : C.par.g.partition (2 ^ (k + 1)) (C.y + y) (C.x + x) (Tree.horz a b).motion = [⟨C.y + y, C.x + x, 2 ^ (k + 1), 2 ^ k, infoOf a⟩] := by
        unfold Mvref.Spec.Geo.partition Tree.motion
        rw [if_neg hi]
        dsimp only
        rw [a1, if_neg hc']
      rw [hp] at hb
      obtain ⟨p, P⟩ := leaf_rt G h7 ht D hz hx hy h1 hE hb
      have F : Filled C S1 x y (2 ^ (k + 1)) (2 ^ (k + 1)) (2 ^ k) := by
        intro i j h1 h2 h3 h4 _ _
        exact ⟨p, by rw [P.dec, if_pos (by omega)], P.bw4, P.bh4⟩
      have K : Kept C S S1 x y (2 ^ (k + 1)) := ⟨fun _ _ => by rw [P.aboveP], fun _ _ => by rw [P.leftP], fun i j hij => by rw [P.dec, if_neg (by omega)]⟩
      refine ⟨P.data.update _ _ _ _ _, ?_, K.trans update_kept, fun _ hr => ?_, fun _ hr => ?_, by omega, fun rest => ?_⟩
      · rw [hp]; exact P.log
      · exact update_above hz F a8 (by omega) (by omega) hr
      · exact update_left hz F b8 (by omega) (by omega) (by omega) hr
      · unfold Spec.readTree
        rw [if_neg hi, List.append_nil, List.append_assoc, partition_rt G (by omega) mx my hx hy A L hm h0]
        simp only [Option.bind_eq_bind, Option.bind_some, Tree.part]
        rw [P.read rest]
        simp only [Option.bind_some]
        rw [if_neg hc', update_log, P.places]
  | vert a b =>
    intro k x y S S' s post hok hk mx my sx sy D he hE hb hctx
    rcases tree_inv he with ⟨ho, rfl, rfl⟩ | ⟨ho, s0, h0, s1, S1, s2, S2, h1, h2, rfl, rfl⟩
    · exact node_out G D sx sy ho
    have hi := inside sx sy ho
    have hx : x < C.cols := by omega
    have hy : y < C.rows := by omega
    obtain _ | k := k
    · exact absurd hok (by unfold Tree.motion Mvref.Spec.Tree.Ok; decide)
    obtain ⟨a1, a2, a3, a4, a5, a6, a7, a8, a9, a10⟩ := half (by omega) mx
    obtain ⟨b1, b2, b3, b4, b5, b6, b7, b8, b9, b10⟩ := half (by omega) my
    have hn : 2 ^ (k + 1) ≥ 2 := by omega
    rw [a1] at h1 h2 hE ⊢
    unfold partSyntax at h0
    rw [if_pos hn] at h0
    split_ifs at h0 with hm
    obtain ⟨A, L⟩ := hctx (by omega) hx hy
    have hbr := (border G (i := x + 2 ^ k)).2 (by rw [a7]; exact sx)
    have hz := (size_horz (k := k) (by omega)).2
    rw [leaf_in hx hy] at h1
    by_cases hc : x + 2 ^ k < C.cols
    · rw [leaf_in hc hy] at h2
      have hc' : C.x + x + 2 ^ k < C.par.g.miCols := by rw [Nat.add_assoc]; exact hbr.mpr hc
      have hp : C.par.g.partition (2 ^ (k + 1)) (C.y + y) (C.x + x) (Tree.vert a b).motion =
          [⟨C.y + y, C.x + x, 2 ^ k, 2 ^ (k + 1), infoOf a⟩, ⟨C.y + y, C.x + (x + 2 ^ k), 2 ^ k, 2 ^ (k + 1), infoOf b⟩] := by
        unfold Mvref.Spec.Geo.partition Tree.motion
        rw [if_neg hi]
        dsimp only
        rw [a1, if_pos hc', Nat.add_assoc]
      rw [hp] at hb
      obtain ⟨p, P⟩ := leaf_rt G h7 ht D hz hx hy h1 (entries (block_log h2) hE) hb
      obtain ⟨q, Q⟩ := leaf_rt G h7 ht P.data hz hc hy h2 hE (post := post) (by rw [P.log, List.append_assoc]; exact hb)
      have F : Filled C S2 x y (2 ^ (k + 1)) (2 ^ k) (2 ^ (k + 1)) := by
        intro i j h1 h2 h3 h4 _ _
        by_cases hq : x + 2 ^ k ≤ j
        · exact ⟨q, by rw [Q.dec, if_pos (by omega)], Q.bw4, Q.bh4⟩
        · exact ⟨p, by rw [Q.dec, if_neg (by omega), P.dec, if_pos (by omega)], P.bw4, P.bh4⟩
      have K : Kept C S S2 x y (2 ^ (k + 1)) := ⟨fun _ _ => by rw [Q.aboveP, P.aboveP], fun _ _ => by rw [Q.leftP, P.leftP],
        fun i j hij => by rw [Q.dec, if_neg (by omega), P.dec, if_neg (by omega)]⟩
      refine ⟨Q.data.update _ _ _ _ _, ?_, K.trans update_kept, fun _ hr => ?_, fun _ hr => ?_, by omega, fun rest => ?_⟩
      · rw [hp]
        show mlog C S2 = _
        rw [Q.log, P.log, List.append_assoc]; rfl
      · exact update_above hz F a8 (by omega) (by omega) hr
      · exact update_left hz F b8 (by omega) (by omega) (by omega) hr
      · unfold Spec.readTree
        rw [if_neg hi, List.append_assoc, List.append_assoc, partition_rt G (by omega) mx my hx hy A L hm h0]
        simp only [Option.bind_eq_bind, Option.bind_some, Tree.part]
        rw [P.read (s2 ++ rest)]
        simp only [Option.bind_some]
        rw [if_pos hc', ← P.places, Nat.add_assoc, Q.read rest]
        simp only [Option.bind_some]
        rw [update_log, Q.places]
    · rw [leaf_out (.inl (by omega))] at h2
      cases h2
      have hc' : ¬ C.x + x + 2 ^ k < C.par.g.miCols := by rw [Nat.add_assoc]; exact fun h => hc (hbr.mp h)
      have hp : C.par.g.partition (2 ^ (k + 1)) (C.y + y) (C.x + x) (Tree.vert a b).motion = [⟨C.y + y, C.x + x, 2 ^ k, 2 ^ (k + 1), infoOf a⟩] := by
        unfold Mvref.Spec.Geo.partition Tree.motion
        rw [if_neg hi]
        dsimp only
        rw [a1, if_neg hc']
      rw [hp] at hb
      obtain ⟨p, P⟩ := leaf_rt G h7 ht D hz hx hy h1 hE hb
      have F : Filled C S1 x y (2 ^ (k + 1)) (2 ^ k) (2 ^ (k + 1)) := by
        intro i j h1 h2 h3 h4 _ _
        exact ⟨p, by rw [P.dec, if_pos (by omega)], P.bw4, P.bh4⟩
      have K : Kept C S S1 x y (2 ^ (k + 1)) := ⟨fun _ _ => by rw [P.aboveP], fun _ _ => by rw [P.leftP], fun i j hij => by rw [P.dec, if_neg (by omega)]⟩
      refine ⟨P.data.update _ _ _ _ _, ?_, K.trans update_kept, fun _ hr => ?_, fun _ hr => ?_, by omega, fun rest => ?_⟩
      · rw [hp]; exact P.log
      · exact update_above hz F a8 (by omega) (by omega) hr
      · exact update_left hz F b8 (by omega) (by omega) (by omega) hr
      · unfold Spec.readTree
        rw [if_neg hi, List.append_nil, List.append_assoc, partition_rt G (by omega) mx my hx hy A L hm h0]
        simp only [Option.bind_eq_bind, Option.bind_some, Tree.part]
        rw [P.read rest]
        simp only [Option.bind_some]
        rw [if_neg hc', update_log, P.places]
  | split a b c d iha ihb ihc ihd =>
    intro k x y S S' s post hok hk mx my sx sy D he hE hb hctx
    rcases tree_inv he with ⟨ho, rfl, rfl⟩ | ⟨ho, s0, h0, s1, S1, s2, S2, s3, S3, s4, S4, h1, h2, h3, h4, rfl, rfl⟩
    · exact node_out G D sx sy ho
    have hi := inside sx sy ho
    have hx : x < C.cols := by omega
    have hy : y < C.rows := by omega
    obtain _ | k := k
    · exact absurd hok.1 (by decide)
    obtain ⟨_, oka, okb, okc, okd⟩ := hok
    obtain ⟨a1, a2, a3, a4, a5, a6, a7, a8, a9, a10⟩ := half (by omega) mx
    obtain ⟨b1, b2, b3, b4, b5, b6, b7, b8, b9, b10⟩ := half (by omega) my
    have hn : 2 ^ (k + 1) ≥ 2 := by omega
    rw [a1] at h1 h2 h3 h4 hE oka okb okc okd ⊢
    have hE4 : ∀ e ∈ S4.log, EntryOk C e := by
      split_ifs at hE
      · exact hE
      · exact hE
    have hE3 := entries (tree_log d h4) hE4
    have hE2 := entries (tree_log c h3) hE3
    have hE1 := entries (tree_log b h2) hE2
    unfold partSyntax at h0
    rw [if_pos hn] at h0
    split_ifs at h0 with hm
    obtain ⟨A, L⟩ := hctx (by omega) hx hy
    have sx' : 16 * ((x + 2 ^ k) / 16) < C.cols := by rw [a7]; exact sx
    have sy' : 16 * ((y + 2 ^ k) / 16) < C.rows := by rw [b7]; exact sy
    have hp : C.par.g.partition (2 ^ (k + 1)) (C.y + y) (C.x + x) (Tree.split a b c d).motion =
        C.par.g.partition (2 ^ k) (C.y + y) (C.x + x) a.motion ++ C.par.g.partition (2 ^ k) (C.y + y) (C.x + (x + 2 ^ k)) b.motion ++
        C.par.g.partition (2 ^ k) (C.y + (y + 2 ^ k)) (C.x + x) c.motion ++ C.par.g.partition (2 ^ k) (C.y + (y + 2 ^ k)) (C.x + (x + 2 ^ k)) d.motion := by
      rw [Tree.motion, Mvref.Spec.Geo.partition.eq_def]
      dsimp only
      rw [if_neg hi]
      simp only [a1, Nat.add_assoc]
    rw [hp] at hb
    have N1 := iha (post := C.par.g.partition (2 ^ k) (C.y + y) (C.x + (x + 2 ^ k)) b.motion ++ (C.par.g.partition (2 ^ k) (C.y + (y + 2 ^ k)) (C.x + x) c.motion ++
        (C.par.g.partition (2 ^ k) (C.y + (y + 2 ^ k)) (C.x + (x + 2 ^ k)) d.motion ++ post)))
      oka (by omega) a3 b3 sx sy D h1 hE1 (by rw [hb]; simp only [List.append_assoc])
      (fun _ _ _ => ⟨A.sub (by omega) (by omega), L.sub (by omega) (by omega)⟩)
    have N2 := ihb (post := C.par.g.partition (2 ^ k) (C.y + (y + 2 ^ k)) (C.x + x) c.motion ++
        (C.par.g.partition (2 ^ k) (C.y + (y + 2 ^ k)) (C.x + (x + 2 ^ k)) d.motion ++ post))
      okb (by omega) a4 b3 sx' sy N1.data h2 hE2 (by rw [hb, N1.log]; simp only [List.append_assoc])
      (fun hk1 hx' _ => ⟨(A.sub (by omega) (by omega)).keep N1.kept a8 (a10 hk1) (by omega), N1.left hk1 (by omega)⟩)
    have N3 := ihc (post := C.par.g.partition (2 ^ k) (C.y + (y + 2 ^ k)) (C.x + (x + 2 ^ k)) d.motion ++ post)
      okc (by omega) a3 b4 sx sy' N2.data h3 hE3 (by rw [hb, N2.log, N1.log]; simp only [List.append_assoc])
      (fun hk1 _ hy' => ⟨(N1.above hk1 (by omega)).keep N2.kept (by omega) (a10 hk1) (by omega),
        ((L.sub (by omega) (by omega)).keep N1.kept b8 (a10 hk1) b7 (by omega) (by omega)).keep N2.kept b8 (a10 hk1) b7 (by omega) (by omega)⟩)
    have N4 := ihd (post := post)
      okd (by omega) a4 b4 sx' sy' N3.data h4 hE4 (by rw [hb, N3.log, N2.log, N1.log]; simp only [List.append_assoc])
      (fun hk1 hx' hy' => ⟨(N2.above hk1 (by omega)).keep N3.kept a8 (a10 hk1) (by omega), N3.left hk1 (by omega)⟩)
    have K : Kept C S S4 x y (2 ^ (k + 1)) :=
      (N1.kept.mono (by omega) (by omega) (by omega) (by omega) (by omega) (by omega)).trans
        ((N2.kept.mono (by omega) (by omega) (by omega) (by omega) (by omega) (by omega)).trans
          ((N3.kept.mono (by omega) (by omega) (by omega) (by omega) (by omega) (by omega)).trans
            (N4.kept.mono (by omega) (by omega) (by omega) (by omega) (by omega) (by omega))))
    have hlog : mlog C S4 = mlog C S ++ C.par.g.partition (2 ^ (k + 1)) (C.y + y) (C.x + x) (Tree.split a b c d).motion := by
      rw [hp, N4.log, N3.log, N2.log, N1.log]
      simp only [List.append_assoc]
    have hread : ∀ rest, Spec.readTree C.par (k + 1) (C.y + y) (C.x + x) (S.log.map (place C)) (s0 ++ s1 ++ s2 ++ s3 ++ s4 ++ rest) = some (S4.log.map (place C), rest) := by
      intro rest
      unfold Spec.readTree
      rw [if_neg hi]
      simp only [List.append_assoc]
      rw [partition_rt G (by omega) mx my hx hy A L hm h0]
      simp only [Option.bind_eq_bind, Option.bind_some, Tree.part, Nat.add_assoc]
      rw [N1.read]
      simp only [Option.bind_some]
      rw [N2.read]
      simp only [Option.bind_some]
      rw [N3.read]
      simp only [Option.bind_some]
      exact N4.read rest
    obtain _ | k := k
    · have F : Filled C S4 x y (2 ^ (0 + 1)) (2 ^ 0) (2 ^ 0) := by
        have f1 := (N1.unit rfl).2.2
        have f2 := (N2.unit rfl).2.2
        have f3 := (N3.unit rfl).2.2
        have f4 := (N4.unit rfl).2.2
        intro i j h1 h2 h3 h4 h5 h6
        simp only [Nat.zero_add, Nat.pow_one, Nat.pow_zero] at *
        by_cases hi : i < y + 1 <;> by_cases hj : j < x + 1
        · rw [N4.kept.dec i j (by omega), N3.kept.dec i j (by omega), N2.kept.dec i j (by omega)]
          exact f1 i j (by omega) (by omega) (by omega) (by omega) h5 h6
        · rw [N4.kept.dec i j (by omega), N3.kept.dec i j (by omega)]
          exact f2 i j (by omega) (by omega) (by omega) (by omega) h5 h6
        · rw [N4.kept.dec i j (by omega)]
          exact f3 i j (by omega) (by omega) (by omega) (by omega) h5 h6
        · exact f4 i j (by omega) (by omega) (by omega) (by omega) h5 h6
      rw [if_pos (show 2 ^ (0 + 1) = 2 from rfl)]
      refine ⟨N4.data.update _ _ _ _ _, hlog, K.trans update_kept, fun _ hr => ?_, fun _ hr => ?_, by omega, hread⟩
      · exact update_above (size_square (by omega)) F a8 (by omega) (by omega) hr
      · exact update_left (size_square (by omega)) F b8 (by omega) (by omega) (by omega) hr
    · have h0 : 1 ≤ k + 1 := by omega
      have e0 := a10 h0
      rw [if_neg (by omega)]
      refine ⟨N4.data, hlog, K, fun _ hr => ?_, fun _ hr => ?_, by omega, hread⟩
      · have q1 := (N3.above h0 (by omega)).keep N4.kept (by omega) e0 (by omega)
        have q2 := N4.above h0 (by omega)
        rw [a2, ← Nat.add_assoc]
        exact q1.glue q2
      · have q1 := ((N2.left h0 (by omega)).keep N3.kept (by omega) e0 (by omega) (by omega) (by omega)).keep N4.kept (by omega) e0 (by omega) (by omega) (by omega)
        have q2 := N4.left h0 (by omega)
        rw [a2, ← Nat.add_assoc]
        exact q1.glue q2

/-! ### Rows and tiles -/

theorem row_log (t : Nat → Nat → Tree) (y : Nat) (k : Nat) : ∀ {j : Nat} {S S' : State} {s : List Sym}, encodeRow C t y k j S = some (s, S') →
    ∃ l, S'.log = S.log ++ l := by
  induction k with
  | zero => intro j S S' s he; cases he; exact ⟨[], by rw [List.append_nil]⟩
  | succ k ih =>
    intro j S S' s he
    unfold encodeRow at he
    simp only [Option.bind_eq_bind, Option.bind_eq_some_iff] at he
    obtain ⟨⟨s1, S1⟩, h1, ⟨s2, S2⟩, h2, h⟩ := he
    cases h
    exact grow_trans (tree_log _ h1) (ih h2)

theorem rows_log (t : Nat → Nat → Tree) (k : Nat) : ∀ {i : Nat} {S S' : State} {s : List Sym}, encodeRows C t k i S = some (s, S') →
    ∃ l, S'.log = S.log ++ l := by
  induction k with
  | zero => intro j S S' s he; cases he; exact ⟨[], by rw [List.append_nil]⟩
  | succ k ih =>
    intro i S S' s he
    unfold encodeRows at he
    simp only [Option.bind_eq_bind, Option.bind_eq_some_iff] at he
    obtain ⟨⟨s1, S1⟩, h1, ⟨s2, S2⟩, h2, h⟩ := he
    cases h
    have := row_log t _ _ h1
    exact grow_trans this (ih h2)

/-- The trees by their places in the frame. -/
def motions (C : Cfg) (t : Nat → Nat → Tree) : Nat → Nat → Mvref.Spec.Tree := fun r c => (t (r - C.y) (c - C.x)).motion

/-- The blocks of a superblock. -/
def sbBlocks (C : Cfg) (t : Nat → Nat → Tree) (i j : Nat) : List Mvref.Spec.Blk :=
  C.par.g.partition 16 (C.y + 16 * i) (C.x + 16 * j) (t (16 * i) (16 * j)).motion

theorem tile_eq (C : Cfg) (t : Nat → Nat → Tree) : C.par.g.tile (motions C t) =
    (List.range' 0 ((C.rows + 15) / 16)).flatMap fun i => (List.range' 0 ((C.cols + 15) / 16)).flatMap fun j => sbBlocks C t i j := by
  unfold Mvref.Spec.Geo.tile sbBlocks motions Cfg.par
  dsimp only
  rw [Nat.add_sub_cancel_left, Nat.add_sub_cancel_left, List.range_eq_range', List.range_eq_range']
  simp only [Nat.add_sub_cancel_left]

theorem row_rt (G : GeoOk C.par.g) (h7 : C.lastActiveSegid ≤ 7) {t : Nat → Nat → Tree} (ht : ∀ r c, (t r c).motion.Ok 16) {i : Nat} (hi : 16 * i < C.rows) (k : Nat) :
    ∀ {j : Nat} {S S' : State} {s : List Sym} {post : List Mvref.Spec.Blk}, j + k = (C.cols + 15) / 16 → DataOk C S →
    encodeRow C t (16 * i) k j S = some (s, S') → (∀ e ∈ S'.log, EntryOk C e) →
    C.par.g.tile (motions C t) = mlog C S ++ ((List.range' j k).flatMap (fun j => sbBlocks C t i j) ++ post) →
    AboveOk C S (16 * j) (16 * i) (16 * k) → (1 ≤ k → LeftOk C S (16 * j) (16 * i) 16) →
    (16 * i + 16 ≤ C.rows → AboveOk C S 0 (16 * i + 16) (16 * j)) →
    DataOk C S' ∧ mlog C S' = mlog C S ++ (List.range' j k).flatMap (fun j => sbBlocks C t i j) ∧
      (16 * i + 16 ≤ C.rows → AboveOk C S' 0 (16 * i + 16) (16 * (j + k))) ∧
      ∀ rest, Spec.readRow C.par (C.y + 16 * i) k j (S.log.map (place C)) (s ++ rest) = some (S'.log.map (place C), rest) := by
  induction k with
  | zero =>
    intro j S S' s post hj D he hE hb A L P
    cases he
    exact ⟨D, by simp, P, fun rest => rfl⟩
  | succ k ih =>
    intro j S S' s post hj D he hE hb A L P
    unfold encodeRow at he
    simp only [Option.bind_eq_bind, Option.bind_eq_some_iff] at he
    obtain ⟨⟨s1, S1⟩, h1, ⟨s2, S2⟩, h2, h⟩ := he
    cases h
    dsimp only at h2
    rw [List.range'_succ, List.flatMap_cons, List.append_assoc] at hb
    have N := node_rt (k := 4) (T := motions C t) G h7 (fun r c => ht _ _) (t (16 * i) (16 * j)) (ht _ _) (by omega) (by omega) (by omega) (by omega) (by omega) D h1
      (entries (row_log t _ _ h2) hE) hb (fun _ _ _ => ⟨A.sub (by omega) (by omega), L (by omega)⟩)
    have hl : mlog C S1 = mlog C S ++ sbBlocks C t i j := N.log
    obtain ⟨q1, q2, q3, q4⟩ := ih (post := post) (by omega) N.data h2 hE (by rw [hl, List.append_assoc]; exact hb)
      ((A.sub (by omega) (by omega)).keep N.kept (by omega) (by omega) (by omega))
      (fun _ => by have := N.left (by omega) (by omega); rwa [show 16 * j + 2 ^ 4 = 16 * (j + 1) by omega] at this)
      (fun hr => by
        have p1 := (P hr).keep N.kept (by omega) (by omega) (by omega)
        have p2 := N.above (by omega) hr
        rw [show 16 * j = 0 + 16 * j by omega] at p2
        rw [show 16 * (j + 1) = 16 * j + 16 by omega]
        exact p1.glue p2)
    refine ⟨q1, by rw [q2, hl, List.range'_succ, List.flatMap_cons, List.append_assoc], fun hr => by
      rw [show j + (k + 1) = j + 1 + k by omega]; exact q3 hr, fun rest => ?_⟩
    unfold Spec.readRow
    have hx : C.par.g.colStart = C.x := rfl
    rw [List.append_assoc, hx, N.read]
    simp only [Option.bind_eq_bind, Option.bind_some]
    exact q4 rest

theorem rows_rt (G : GeoOk C.par.g) (h7 : C.lastActiveSegid ≤ 7) {t : Nat → Nat → Tree} (ht : ∀ r c, (t r c).motion.Ok 16) (k : Nat) :
    ∀ {i : Nat} {S S' : State} {s : List Sym} {post : List Mvref.Spec.Blk}, i + k = (C.rows + 15) / 16 → DataOk C S →
    encodeRows C t k i S = some (s, S') → (∀ e ∈ S'.log, EntryOk C e) →
    C.par.g.tile (motions C t) = mlog C S ++ ((List.range' i k).flatMap (fun i => (List.range' 0 ((C.cols + 15) / 16)).flatMap fun j => sbBlocks C t i j) ++ post) →
    (1 ≤ k → AboveOk C S 0 (16 * i) (16 * ((C.cols + 15) / 16))) →
    mlog C S' = mlog C S ++ (List.range' i k).flatMap (fun i => (List.range' 0 ((C.cols + 15) / 16)).flatMap fun j => sbBlocks C t i j) ∧
      ∀ rest, Spec.readRows C.par k i (S.log.map (place C)) (s ++ rest) = some (S'.log.map (place C), rest) := by
  induction k with
  | zero =>
    intro i S S' s post hj D he hE hb A
    cases he
    exact ⟨by simp, fun rest => rfl⟩
  | succ k ih =>
    intro i S S' s post hj D he hE hb A
    unfold encodeRows at he
    simp only [Option.bind_eq_bind, Option.bind_eq_some_iff] at he
    obtain ⟨⟨s1, S1⟩, h1, ⟨s2, S2⟩, h2, h⟩ := he
    cases h
    dsimp only at h2
    rw [List.range'_succ, List.flatMap_cons, List.append_assoc] at hb
    obtain ⟨q1, q2, q3, q4⟩ := row_rt (S := { S with leftP := fun _ => 0 }) G h7 ht (i := i) (by omega) ((C.cols + 15) / 16) (by omega) ⟨D.shows, D.i16⟩ h1
      (entries (rows_log t _ h2) hE) hb (A (by omega)) (fun _ i h1 h2 h3 => .inl ⟨rfl, rfl⟩) (fun _ j h1 h2 h3 => by omega)
    have hl : mlog C S1 = mlog C S ++ (List.range' 0 ((C.cols + 15) / 16)).flatMap fun j => sbBlocks C t i j := q2
    obtain ⟨p1, p2⟩ := ih (i := i + 1) (post := post) (by omega) q1 h2 hE (by rw [hl, List.append_assoc]; exact hb)
      (fun _ => by have := q3 (by omega); rwa [Nat.zero_add] at this)
    refine ⟨by rw [p1, hl, List.range'_succ, List.flatMap_cons, List.append_assoc], fun rest => ?_⟩
    unfold Spec.readRows
    have hy : C.par.g.rowStart = C.y := rfl
    have hc : (C.par.g.colEnd - C.par.g.colStart + 15) / 16 = (C.cols + 15) / 16 := by
      show (C.x + C.cols - C.x + 15) / 16 = _
      rw [Nat.add_sub_cancel_left]
    have := q4 (s2 ++ rest)
    rw [List.append_assoc, hy, hc, this]
    simp only [Option.bind_eq_bind, Option.bind_some]
    exact p2 rest

/-- C62: a decoder that follows the syntax reads back the blocks of a tile. -/
theorem tile_rt (G : GeoOk C.par.g) (h7 : C.lastActiveSegid ≤ 7) {t : Nat → Nat → Tree} (ht : ∀ r c, (t r c).motion.Ok 16) {data : Nat → Nat → EBlk}
    (hd : ∀ r c, I16 (data r c).blk.mv0 ∧ I16 (data r c).blk.mv1) {s : List Sym} (he : encodeTile C t data = some (s, S)) (hE : ∀ e ∈ S.log, EntryOk C e) :
    (S.log.map (place C)).map Spec.Blk.motion = C.par.g.tile (motions C t) ∧
      ∀ rest, Spec.readTile C.par (s ++ rest) = some (S.log.map (place C), rest) := by
  unfold encodeTile at he
  have D : DataOk C ⟨data, fun _ => 0, fun _ => 0, []⟩ := ⟨fun _ _ h => (by cases h), hd⟩
  obtain ⟨h1, h2⟩ := rows_rt (post := []) G h7 ht _ (by omega) D he hE (by rw [tile_eq]; simp [mlog]) (fun _ j _ _ _ => .inl ⟨rfl, rfl⟩)
  refine ⟨by rw [tile_eq]; exact h1, fun rest => ?_⟩
  unfold Spec.readTile
  have hr : (C.par.g.rowEnd - C.par.g.rowStart + 15) / 16 = (C.rows + 15) / 16 := by
    show (C.y + C.rows - C.y + 15) / 16 = _
    rw [Nat.add_sub_cancel_left]
  rw [hr]
  exact h2 rest

end Rav1e.Block

import Verif.Mvref.Spec
import Verif.Mvref.Model
import Mathlib.Tactic.FinCases
import Mathlib.Data.Nat.Basic
import Mathlib.Order.Basic

/-!
# What has been decoded around a block

When a decoder reads a block, what is above it and to its left has been decoded, what is to its right and below has not, and the block above and to its
right has been decoded exactly if `has_tr` says so.
-/

namespace Rav1e.Mvref

open Spec (Blk Frame Geo Tree Info)

/-- A position in the tile. -/
def In (g : Geo) (i j : Nat) : Prop := g.rowStart ≤ i ∧ i < g.rowEnd ∧ g.colStart ≤ j ∧ j < g.colEnd

/-- The tiles that exist: they start at superblocks and end at superblocks or with the frame, and the frame has whole 8x8 squares. -/
structure GeoOk (g : Geo) : Prop where
  row0 : g.rowStart % 16 = 0
  col0 : g.colStart % 16 = 0
  rows : g.miRows % 2 = 0
  cols : g.miCols % 2 = 0
  rowLe : g.rowEnd ≤ g.miRows
  colLe : g.colEnd ≤ g.miCols
  rowEnd : g.rowEnd = g.miRows ∨ g.rowEnd % 16 = 0
  colEnd : g.colEnd = g.miCols ∨ g.colEnd % 16 = 0

/-- Sizes are powers of two and blocks lie at multiples of their size. -/
structure Sized (r c w h : Nat) : Prop where
  wide : w ∈ [1, 2, 4, 8, 16]
  high : h ∈ [1, 2, 4, 8, 16]
  row : r % h = 0
  col : c % w = 0

/-- Blocks do not overlap. -/
structure WF (d : Frame) : Prop where
  covers : ∀ {i j s}, d i j = some s → s.Covers i j
  sized : ∀ {i j s}, d i j = some s → Sized s.row s.col s.bw4 s.bh4
  same : ∀ {i j s i' j'}, d i j = some s → s.Covers i' j' → d i' j' = some s

/-- What has been decoded before the block at `r`, `c`. -/
structure Inv (g : Geo) (d : Frame) (r c w h : Nat) (tr : Bool) : Prop where
  above : ∀ {i j}, In g i j → i < r → j < c + w → (d i j).isSome
  left : ∀ {i j}, In g i j → j < c → i < r + h → (d i j).isSome
  above2 : ∀ {i j}, In g i j → i < r - r % 2 → j < c - c % 2 + 2 → (d i j).isSome
  left2 : ∀ {i j}, In g i j → j < c - c % 2 → i < r - r % 2 + 2 → (d i j).isSome
  fresh : ∀ {i j}, r ≤ i → c ≤ j → d i j = none
  tr : g.rowStart < r → In g (r - 1) (c + w) → (d (r - 1) (c + w)).isSome = tr

/-- What decoding a rectangle does. -/
structure Post (g : Geo) (d d' : Frame) (r c w h : Nat) : Prop where
  mono : ∀ {i j s}, d i j = some s → d' i j = some s
  new : ∀ {i j}, (d' i j).isSome → (d i j).isSome ∨ (r ≤ i ∧ i < r + h ∧ c ≤ j ∧ j < c + w)
  full : ∀ {i j}, In g i j → r ≤ i → i < r + h → c ≤ j → j < c + w → (d' i j).isSome

/-- A part of a rectangle is at least two wide and even, or in the same 8x8 square. -/
def Par (r c w h r' c' : Nat) : Prop :=
  (2 ≤ w ∧ c % 2 = 0 ∨ r - r % 2 = r' - r' % 2 ∧ c - c % 2 = c' - c' % 2) ∧ (2 ≤ h ∧ r % 2 = 0 ∨ r - r % 2 = r' - r' % 2 ∧ c - c % 2 = c' - c' % 2)

variable {g : Geo} {d d1 d2 : Frame} {r c w h w1 w2 h1 h2 : Nat} {tr : Bool}

theorem Post.some (P : Post g d d1 r c w h) {i j : Nat} (hs : (d i j).isSome) : (d1 i j).isSome := by
  obtain ⟨s, hs⟩ := Option.isSome_iff_exists.mp hs
  rw [P.mono hs]; rfl

theorem Post.none (P : Post g d d1 r c w h) {i j : Nat} (hn : d i j = none) (ho : ¬ (r ≤ i ∧ i < r + h ∧ c ≤ j ∧ j < c + w)) : d1 i j = none := by
  cases hd : d1 i j with
  | none => rfl
  | some s =>
    have := P.new (i := i) (j := j) (by rw [hd]; rfl)
    rw [hn] at this
    simp only [Option.isSome_none, Bool.false_eq_true, false_or] at this
    exact absurd this ho

/-- From the rest and what is known of the rectangle around it. -/
theorem Inv.even {r' c' w' h' : Nat} {tr' : Bool} (I : Inv g d r' c' w' h' tr') (hm : ∀ {i j}, (d i j).isSome → (d1 i j).isSome) (hp : Par r c w h r' c')
    (above : ∀ {i j}, In g i j → i < r → j < c + w → (d1 i j).isSome)
    (left : ∀ {i j}, In g i j → j < c → i < r + h → (d1 i j).isSome) :
    (∀ {i j}, In g i j → i < r - r % 2 → j < c - c % 2 + 2 → (d1 i j).isSome) ∧
      (∀ {i j}, In g i j → j < c - c % 2 → i < r - r % 2 + 2 → (d1 i j).isSome) := by
  constructor
  · intro i j hi h1 h2
    rcases hp.1 with ⟨ha, hb⟩ | ⟨ha, hb⟩
    · exact above hi (by omega) (by omega)
    · exact hm (I.above2 hi (by omega) (by omega))
  · intro i j hi h1 h2
    rcases hp.2 with ⟨ha, hb⟩ | ⟨ha, hb⟩
    · exact left hi (by omega) (by omega)
    · exact hm (I.left2 hi (by omega) (by omega))

theorem Inv.top (I : Inv g d r c w (h1 + h2) tr) : Inv g d r c w h1 tr :=
  ⟨I.above, fun hi h1 h2 => I.left hi h1 (by omega), I.above2, I.left2, I.fresh, I.tr⟩

theorem Inv.first (I : Inv g d r c (w1 + w2) h tr) (h0 : 0 < w2) : Inv g d r c w1 h true :=
  ⟨fun hi h1 h2 => I.above hi h1 (by omega), I.left, I.above2, I.left2, I.fresh, fun hr hi => I.above hi (by omega) (by omega)⟩

theorem Inv.bottom (I : Inv g d r c w (h1 + h2) tr) (P : Post g d d1 r c w h1) (h0 : 0 < h1) (hp : Par (r + h1) c w h2 r c) :
    Inv g d1 (r + h1) c w h2 false := by
  have above : ∀ {i j}, In g i j → i < r + h1 → j < c + w → (d1 i j).isSome := by
    intro i j hi ha hb
    by_cases h3 : i < r
    · exact P.some (I.above hi h3 hb)
    · by_cases h4 : j < c
      · exact P.some (I.left hi h4 (by omega))
      · exact P.full hi (by omega) (by omega) (by omega) (by omega)
  have left : ∀ {i j}, In g i j → j < c → i < r + h1 + h2 → (d1 i j).isSome := fun hi ha hb => P.some (I.left hi ha (by omega))
  obtain ⟨a2, l2⟩ := I.even (fun h => P.some h) hp above left
  refine ⟨above, left, a2, l2, ?_, ?_⟩
  · intro i j ha hb
    exact P.none (I.fresh (by omega) hb) (by omega)
  · intro _ hi
    rw [P.none (I.fresh (by omega) (by omega)) (by omega), Option.isSome_none]

theorem Inv.right (I : Inv g d r c (w1 + w2) h tr) (P : Post g d d1 r c w1 h) (h0 : 0 < h) (hp : Par r (c + w1) w2 h r c) :
    Inv g d1 r (c + w1) w2 h tr := by
  have above : ∀ {i j}, In g i j → i < r → j < c + w1 + w2 → (d1 i j).isSome := fun hi ha hb => P.some (I.above hi ha (by omega))
  have left : ∀ {i j}, In g i j → j < c + w1 → i < r + h → (d1 i j).isSome := by
    intro i j hi ha hb
    by_cases h3 : j < c
    · exact P.some (I.left hi h3 hb)
    · by_cases h4 : i < r
      · exact P.some (I.above hi h4 (by omega))
      · exact P.full hi (by omega) (by omega) (by omega) (by omega)
  obtain ⟨a2, l2⟩ := I.even (fun h => P.some h) hp above left
  refine ⟨above, left, a2, l2, ?_, ?_⟩
  · intro i j ha hb
    exact P.none (I.fresh ha (by omega)) (by omega)
  · intro hr hi
    have e : c + w1 + w2 = c + (w1 + w2) := by omega
    rw [e] at hi ⊢
    have ht := I.tr hr hi
    cases hd : d (r - 1) (c + (w1 + w2)) with
    | some s => rw [P.mono hd, ← ht, hd]
    | none => rw [P.none hd (by omega), ← ht, hd]

theorem Post.vcomp (P : Post g d d1 r c w h1) (Q : Post g d1 d2 (r + h1) c w h2) : Post g d d2 r c w (h1 + h2) where
  mono hs := Q.mono (P.mono hs)
  new hs := by
    rcases Q.new hs with h | h
    · rcases P.new h with h | h
      · exact .inl h
      · exact .inr (by omega)
    · exact .inr (by omega)
  full hi a b c' e := by
    rename_i i j
    by_cases h3 : i < r + h1
    · exact Q.some (P.full hi a h3 c' e)
    · exact Q.full hi (by omega) (by omega) c' e

theorem Post.hcomp (P : Post g d d1 r c w1 h) (Q : Post g d1 d2 r (c + w1) w2 h) : Post g d d2 r c (w1 + w2) h where
  mono hs := Q.mono (P.mono hs)
  new hs := by
    rcases Q.new hs with h | h
    · rcases P.new h with h | h
      · exact .inl h
      · exact .inr (by omega)
    · exact .inr (by omega)
  full hi a b c' e := by
    rename_i i j
    by_cases h3 : j < c + w1
    · exact Q.some (P.full hi a b c' h3)
    · exact Q.full hi a b (by omega) (by omega)

theorem Post.out (G : GeoOk g) (ho : r ≥ g.miRows ∨ c ≥ g.miCols) : Post g d d r c w h where
  mono hs := hs
  new hs := .inl hs
  full hi a b c' e := by
    have := G.rowLe; have := G.colLe; have := hi.2.1; have := hi.2.2.2
    omega

theorem Post.refl (hz : h = 0 ∨ w = 0) : Post g d d r c w h where
  mono hs := hs
  new hs := .inl hs
  full hi a b c' e := by omega

/-- Storing a block. -/
theorem store_post (b : Blk) (hf : ∀ {i j}, b.row ≤ i → b.col ≤ j → d i j = none) : Post g d (d.store b) b.row b.col b.bw4 b.bh4 where
  mono {i j s} hs := by
    unfold Spec.Frame.store
    rw [if_neg]
    · exact hs
    · intro hc
      unfold Spec.Blk.Covers at hc
      rw [hf hc.1 hc.2.2.1] at hs
      cases hs
  new {i j} hs := by
    unfold Spec.Frame.store at hs
    by_cases hc : b.Covers i j
    · exact .inr hc
    · rw [if_neg hc] at hs; exact .inl hs
  full hi a b c' e := by
    unfold Spec.Frame.store
    rw [if_pos ⟨a, b, c', e⟩]; rfl

theorem store_wf (W : WF d) (b : Blk) (hb : Sized b.row b.col b.bw4 b.bh4) (hf : ∀ {i j}, b.row ≤ i → b.col ≤ j → d i j = none) : WF (d.store b) := by
  have key : ∀ {i j s}, d.store b i j = some s → (b.Covers i j ∧ s = b) ∨ (¬ b.Covers i j ∧ d i j = some s) := by
    intro i j s hs
    unfold Spec.Frame.store at hs
    by_cases hc : b.Covers i j
    · rw [if_pos hc] at hs; exact .inl ⟨hc, (Option.some.inj hs).symm⟩
    · rw [if_neg hc] at hs; exact .inr ⟨hc, hs⟩
  refine ⟨?_, ?_, ?_⟩
  · intro i j s hs
    rcases key hs with ⟨h1, rfl⟩ | ⟨_, h1⟩
    · exact h1
    · exact W.covers h1
  · intro i j s hs
    rcases key hs with ⟨h1, rfl⟩ | ⟨_, h1⟩
    · exact hb
    · exact W.sized h1
  · intro i j s i' j' hs hc
    rcases key hs with ⟨h1, rfl⟩ | ⟨_, h1⟩
    · unfold Spec.Frame.store; rw [if_pos hc]
    · have := W.same h1 hc
      unfold Spec.Frame.store
      rw [if_neg]
      · exact this
      · intro hb'
        unfold Spec.Blk.Covers at hb'
        rw [hf hb'.1 hb'.2.2.1] at this
        cases this

/-- What is known when a block is read. -/
structure Leaf (g : Geo) (d : Frame) (b : Blk) : Prop where
  wf : WF d
  inv : Inv g d b.row b.col b.bw4 b.bh4 (hasTr b.col b.row b.bw4 b.bh4)
  sized : Sized b.row b.col b.bw4 b.bh4
  inTile : In g b.row b.col

/-- Every block of a list is read in such a state. -/
def Walk (g : Geo) : Frame → List Blk → Prop
  | _, [] => True
  | d, b :: l => Leaf g d b ∧ Walk g (d.store b) l

theorem walk_append {l l' : List Blk} : ∀ {d : Frame}, Walk g d l → Walk g (l.foldl Frame.store d) l' → Walk g d (l ++ l') := by
  induction l with
  | nil => intro d _ h; exact h
  | cons b l ih => intro d h h'; exact ⟨h.1, ih h.2 h'⟩

theorem walk_leaf {l l' : List Blk} {b : Blk} : ∀ {d : Frame}, Walk g d (l ++ b :: l') → Leaf g (l.foldl Frame.store d) b := by
  induction l with
  | nil => intro d h; exact h.1
  | cons b' l ih => intro d h; exact ih h.2

theorem and_mod {x w : Nat} (hw : 15 &&& w = w) : (x % 16) &&& w = x &&& w := by
  have : x % 16 = x &&& 15 := (Nat.and_two_pow_sub_one_eq_mod x 4).symm
  rw [this, Nat.and_assoc, hw]

theorem hasTr_mod {x y w h : Nat} (hw : w ∈ [1, 2, 4, 8, 16]) (hh : h ∈ [1, 2, 4, 8, 16]) : hasTr x y w h = hasTr (x % 16) (y % 16) w h := by
  have m : ∀ z : Nat, z % 16 &&& 15 = z &&& 15 := fun z => and_mod (by decide)
  simp only [hasTr, m]
  have e1 : (w < h ∧ x &&& w = 0) ↔ (w < h ∧ x % 16 &&& w = 0) := by
    refine and_congr_right fun hl => ?_
    rw [and_mod]
    fin_cases hw <;> fin_cases hh <;> first | rfl | (exfalso; revert hl; decide)
  have e2 : (w > h ∧ y &&& h ≠ 0) ↔ (w > h ∧ y % 16 &&& h ≠ 0) := by
    refine and_congr_right fun hl => ?_
    rw [and_mod]
    fin_cases hw <;> fin_cases hh <;> first | rfl | (exfalso; revert hl; decide)
  simp only [e1, e2]


theorem tr_split : ∀ n ∈ [2, 4, 8, 16], ∀ r < 16, ∀ c < 16, r % n = 0 → c % n = 0 →
    hasTr c r (n / 2) (n / 2) = true ∧ hasTr (c + n / 2) r (n / 2) (n / 2) = hasTr c r n n ∧ hasTr c (r + n / 2) (n / 2) (n / 2) = true ∧
      hasTr (c + n / 2) (r + n / 2) (n / 2) (n / 2) = false := by
  decide +kernel

theorem tr_halves : ∀ n ∈ [2, 4, 8, 16], ∀ r < 16, ∀ c < 16, r % n = 0 → c % n = 0 →
    hasTr c r n (n / 2) = hasTr c r n n ∧ hasTr c (r + n / 2) n (n / 2) = false ∧
      hasTr c r (n / 2) n = true ∧ hasTr (c + n / 2) r (n / 2) n = hasTr c r n n := by
  decide +kernel

theorem half_list {n : Nat} (hn : n ∈ [2, 4, 8, 16]) : n / 2 ∈ [1, 2, 4, 8, 16] ∧ n ∈ [1, 2, 4, 8, 16] ∧ n / 2 + n / 2 = n ∧ 0 < n / 2 ∧ (n = 2 ∨ 2 ≤ n / 2 ∧ n / 2 % 2 = 0) := by
  fin_cases hn <;> decide

theorem mod_half {n x : Nat} (hn : n ∈ [2, 4, 8, 16]) (hx : x % n = 0) : x % (n / 2) = 0 ∧ (x + n / 2) % (n / 2) = 0 ∧ x % 2 = 0 ∧ (x % 16) % n = 0 ∧
    (x + n / 2) % 16 = x % 16 + n / 2 := by
  fin_cases hn <;> omega

theorem tr_split' {n r c : Nat} (hn : n ∈ [2, 4, 8, 16]) (hr : r % n = 0) (hc : c % n = 0) :
    hasTr c r (n / 2) (n / 2) = true ∧ hasTr (c + n / 2) r (n / 2) (n / 2) = hasTr c r n n ∧ hasTr c (r + n / 2) (n / 2) (n / 2) = true ∧
      hasTr (c + n / 2) (r + n / 2) (n / 2) (n / 2) = false ∧ hasTr c r n (n / 2) = hasTr c r n n ∧ hasTr c (r + n / 2) n (n / 2) = false ∧
      hasTr c r (n / 2) n = true ∧ hasTr (c + n / 2) r (n / 2) n = hasTr c r n n := by
  have H := tr_split n hn (r % 16) (Nat.mod_lt _ (by decide)) (c % 16) (Nat.mod_lt _ (by decide)) (mod_half hn hr).2.2.2.1 (mod_half hn hc).2.2.2.1
  have H' := tr_halves n hn (r % 16) (Nat.mod_lt _ (by decide)) (c % 16) (Nat.mod_lt _ (by decide)) (mod_half hn hr).2.2.2.1 (mod_half hn hc).2.2.2.1
  obtain ⟨m1, m2, -⟩ := half_list hn
  rw [hasTr_mod (x := c) (y := r) m1 m1, hasTr_mod (x := c + n / 2) (y := r) m1 m1, hasTr_mod (x := c) (y := r + n / 2) m1 m1,
    hasTr_mod (x := c + n / 2) (y := r + n / 2) m1 m1, hasTr_mod (x := c) (y := r) m2 m1, hasTr_mod (x := c) (y := r + n / 2) m2 m1,
    hasTr_mod (x := c) (y := r) m1 m2, hasTr_mod (x := c + n / 2) (y := r) m1 m2, hasTr_mod (x := c) (y := r) m2 m2, (mod_half hn hr).2.2.2.2,
    (mod_half hn hc).2.2.2.2]
  exact ⟨H.1, H.2.1, H.2.2.1, H.2.2.2, H'⟩

/-- A block is read and stored. -/
theorem leaf_step (W : WF d) {b : Blk} (I : Inv g d b.row b.col b.bw4 b.bh4 (hasTr b.col b.row b.bw4 b.bh4)) (hs : Sized b.row b.col b.bw4 b.bh4)
    (hi : In g b.row b.col) : Leaf g d b ∧ WF (d.store b) ∧ Post g d (d.store b) b.row b.col b.bw4 b.bh4 :=
  ⟨⟨W, I, hs, hi⟩, store_wf W b hs I.fresh, store_post b I.fresh⟩

/-- A square starts in the tile: its superblock does. -/
structure Sq (g : Geo) (r c : Nat) : Prop where
  row : g.rowStart ≤ r
  col : g.colStart ≤ c
  rowSb : r / 16 * 16 < g.rowEnd
  colSb : c / 16 * 16 < g.colEnd

theorem Sq.inTile (G : GeoOk g) (S : Sq g r c) (h1 : r < g.miRows) (h2 : c < g.miCols) : In g r c := by
  have := G.rowEnd; have := G.colEnd; have := G.rowLe; have := G.colLe; have := S.rowSb; have := S.colSb
  exact ⟨S.row, by omega, S.col, by omega⟩

theorem Sq.move (S : Sq g r c) {n a b : Nat} (hn : n ∈ [2, 4, 8, 16]) (hr : r % n = 0) (hc : c % n = 0) (ha : a = 0 ∨ a = n / 2) (hb : b = 0 ∨ b = n / 2) :
    Sq g (r + a) (c + b) := by
  have e : ∀ x a : Nat, x % n = 0 → (a = 0 ∨ a = n / 2) → (x + a) / 16 = x / 16 := by
    intro x a hx ha
    rcases ha with rfl | rfl
    · rfl
    · fin_cases hn <;> omega
  exact ⟨Nat.le_trans S.row (Nat.le_add_right _ _), Nat.le_trans S.col (Nat.le_add_right _ _), by rw [e r a hr ha]; exact S.rowSb,
    by rw [e c b hc hb]; exact S.colSb⟩

theorem one_none {t : Tree} (h : t.Ok 1) : ∃ a, t = .none a := by
  cases t with
  | none a => exact ⟨a, rfl⟩
  | horz a b => simp [Spec.Tree.Ok] at h
  | vert a b => simp [Spec.Tree.Ok] at h
  | split a b c d => simp [Spec.Tree.Ok] at h

/-- A partition tree. -/
theorem partition_ok (G : GeoOk g) (t : Tree) : ∀ {n r c : Nat} {d : Frame}, n ∈ [1, 2, 4, 8, 16] → r % n = 0 → c % n = 0 → t.Ok n → Sq g r c → WF d →
    Inv g d r c n n (hasTr c r n n) →
    Walk g d (g.partition n r c t) ∧ WF ((g.partition n r c t).foldl Frame.store d) ∧ Post g d ((g.partition n r c t).foldl Frame.store d) r c n n := by
  have skip : ∀ {n r c : Nat} {d : Frame} (t : Tree), (r ≥ g.miRows ∨ c ≥ g.miCols) → WF d →
      Walk g d (g.partition n r c t) ∧ WF ((g.partition n r c t).foldl Frame.store d) ∧ Post g d ((g.partition n r c t).foldl Frame.store d) r c n n := by
    intro n r c d t ho W
    have e : g.partition n r c t = [] := by cases t <;> (unfold Spec.Geo.partition; rw [if_pos ho])
    rw [e]
    exact ⟨trivial, W, Post.out G ho⟩
  have mem2 : ∀ {n : Nat}, n ∈ [1, 2, 4, 8, 16] → 2 ≤ n → n ∈ [2, 4, 8, 16] := by
    intro n hn h2
    fin_cases hn <;> first | decide | (exfalso; revert h2; decide)
  induction t with
  | none a =>
    intro n r c d hn hr hc ho S W I
    by_cases hout : r ≥ g.miRows ∨ c ≥ g.miCols
    · exact skip _ hout W
    have hin : In g r c := S.inTile G (by omega) (by omega)
    have e : g.partition n r c (.none a) = [⟨r, c, n, n, a⟩] := by unfold Spec.Geo.partition; rw [if_neg hout]
    obtain ⟨h1, h2, h3⟩ := leaf_step (b := ⟨r, c, n, n, a⟩) W I ⟨hn, hn, hr, hc⟩ hin
    rw [e]
    exact ⟨⟨h1, trivial⟩, h2, h3⟩
  | horz a b =>
    intro n r c d hn hr hc ho S W I
    by_cases hout : r ≥ g.miRows ∨ c ≥ g.miCols
    · exact skip _ hout W
    have hin : In g r c := S.inTile G (by omega) (by omega)
    have hr' : r < g.miRows := by omega
    have hc' : c < g.miCols := by omega
    have hn := mem2 hn ho
    obtain ⟨l1, l2, l3, l4, l5⟩ := half_list hn
    obtain ⟨t0, t1, t2, t3, t4, t5, t6, t7⟩ := tr_split' hn hr hc
    obtain ⟨r1, r2, r3, r4, r5⟩ := mod_half hn hr
    obtain ⟨c1, c2, c3, c4, c5⟩ := mod_half hn hc
    have I' : Inv g d r c n (n / 2 + n / 2) (hasTr c r n (n / 2)) := by rw [l3, t4]; exact I
    obtain ⟨h1, h2, h3⟩ := leaf_step (b := ⟨r, c, n, n / 2, a⟩) W I'.top ⟨l2, l1, r1, hc⟩ hin
    by_cases hb : r + n / 2 < g.miRows
    · have e : g.partition n r c (.horz a b) = [⟨r, c, n, n / 2, a⟩, ⟨r + n / 2, c, n, n / 2, b⟩] := by
        unfold Spec.Geo.partition; rw [if_neg hout]; dsimp only; rw [if_pos hb]
      have I2 : Inv g (d.store ⟨r, c, n, n / 2, a⟩) (r + n / 2) c n (n / 2) (hasTr c (r + n / 2) n (n / 2)) := by
        rw [t5]; exact I'.bottom h3 l4 (by unfold Par; omega)
      obtain ⟨k1, k2, k3⟩ := leaf_step (b := ⟨r + n / 2, c, n, n / 2, b⟩) h2 I2 ⟨l2, l1, r2, hc⟩
        ((S.move hn hr hc (.inr rfl) (.inl rfl)).inTile G hb hc')
      rw [e]
      have P := h3.vcomp k3
      rw [show (⟨r, c, n, n / 2, a⟩ : Blk).bh4 + (⟨r + n / 2, c, n, n / 2, b⟩ : Blk).bh4 = n from l3] at P
      exact ⟨⟨h1, k1, trivial⟩, k2, P⟩
    · have e : g.partition n r c (.horz a b) = [⟨r, c, n, n / 2, a⟩] := by
        unfold Spec.Geo.partition; rw [if_neg hout]; dsimp only; rw [if_neg hb]
      rw [e]
      have P := h3.vcomp (h2 := n / 2) (Post.out G (.inl (by show r + n / 2 ≥ _; omega)))
      rw [show (⟨r, c, n, n / 2, a⟩ : Blk).bh4 + n / 2 = n from l3] at P
      exact ⟨⟨h1, trivial⟩, h2, P⟩
  | vert a b =>
    intro n r c d hn hr hc ho S W I
    by_cases hout : r ≥ g.miRows ∨ c ≥ g.miCols
    · exact skip _ hout W
    have hin : In g r c := S.inTile G (by omega) (by omega)
    have hr' : r < g.miRows := by omega
    have hc' : c < g.miCols := by omega
    have hn := mem2 hn ho
    obtain ⟨l1, l2, l3, l4, l5⟩ := half_list hn
    obtain ⟨t0, t1, t2, t3, t4, t5, t6, t7⟩ := tr_split' hn hr hc
    obtain ⟨r1, r2, r3, r4, r5⟩ := mod_half hn hr
    obtain ⟨c1, c2, c3, c4, c5⟩ := mod_half hn hc
    have I' : Inv g d r c (n / 2 + n / 2) n (hasTr c r n n) := by rw [l3]; exact I
    obtain ⟨h1, h2, h3⟩ := leaf_step (b := ⟨r, c, n / 2, n, a⟩) W (by rw [t6]; exact I'.first l4) ⟨l1, l2, hr, c1⟩ hin
    by_cases hb : c + n / 2 < g.miCols
    · have e : g.partition n r c (.vert a b) = [⟨r, c, n / 2, n, a⟩, ⟨r, c + n / 2, n / 2, n, b⟩] := by
        unfold Spec.Geo.partition; rw [if_neg hout]; dsimp only; rw [if_pos hb]
      have I2 : Inv g (d.store ⟨r, c, n / 2, n, a⟩) r (c + n / 2) (n / 2) n (hasTr (c + n / 2) r (n / 2) n) := by
        rw [t7]; exact I'.right h3 (by omega) (by unfold Par; omega)
      obtain ⟨k1, k2, k3⟩ := leaf_step (b := ⟨r, c + n / 2, n / 2, n, b⟩) h2 I2 ⟨l1, l2, hr, c2⟩
        ((S.move hn hr hc (.inl rfl) (.inr rfl)).inTile G hr' hb)
      rw [e]
      have P := h3.hcomp k3
      rw [show (⟨r, c, n / 2, n, a⟩ : Blk).bw4 + (⟨r, c + n / 2, n / 2, n, b⟩ : Blk).bw4 = n from l3] at P
      exact ⟨⟨h1, k1, trivial⟩, k2, P⟩
    · have e : g.partition n r c (.vert a b) = [⟨r, c, n / 2, n, a⟩] := by
        unfold Spec.Geo.partition; rw [if_neg hout]; dsimp only; rw [if_neg hb]
      rw [e]
      have P := h3.hcomp (w2 := n / 2) (Post.out G (.inr (by show c + n / 2 ≥ _; omega)))
      rw [show (⟨r, c, n / 2, n, a⟩ : Blk).bw4 + n / 2 = n from l3] at P
      exact ⟨⟨h1, trivial⟩, h2, P⟩
  | split a0 a1 a2 a3 ih0 ih1 ih2 ih3 =>
    intro n r c d hn hr hc ho S W I
    by_cases hout : r ≥ g.miRows ∨ c ≥ g.miCols
    · exact skip _ hout W
    have hin : In g r c := S.inTile G (by omega) (by omega)
    obtain ⟨o, o0, o1, o2, o3⟩ := ho
    have hn := mem2 hn o
    obtain ⟨l1, l2, l3, l4, l5⟩ := half_list hn
    obtain ⟨t0, t1, t2, t3, t4, t5, t6, t7⟩ := tr_split' hn hr hc
    obtain ⟨r1, r2, r3, r4, r5⟩ := mod_half hn hr
    obtain ⟨c1, c2, c3, c4, c5⟩ := mod_half hn hc
    have e : g.partition n r c (.split a0 a1 a2 a3) = g.partition (n / 2) r c a0 ++ g.partition (n / 2) r (c + n / 2) a1 ++
        g.partition (n / 2) (r + n / 2) c a2 ++ g.partition (n / 2) (r + n / 2) (c + n / 2) a3 := by
      conv_lhs => unfold Spec.Geo.partition
      rw [if_neg hout]
    have I' : Inv g d r c (n / 2 + n / 2) (n / 2 + n / 2) (hasTr c r n n) := by rw [l3]; exact I
    obtain ⟨w0, f0, p0⟩ := ih0 (d := d) l1 r1 c1 o0 S W (by rw [t0]; exact I'.top.first l4)
    obtain ⟨w1, f1, p1⟩ := ih1 l1 r1 c2 o1 (S.move hn hr hc (.inl rfl) (.inr rfl)) f0
      (by rw [t1]; exact I'.top.right p0 l4 (by unfold Par; omega))
    have B := I'.bottom (p0.hcomp p1) l4 (by unfold Par; omega)
    obtain ⟨w2, f2, p2⟩ := ih2 l1 r2 c1 o2 (S.move hn hr hc (.inr rfl) (.inl rfl)) f1 (by rw [t2]; exact B.first l4)
    obtain ⟨w3, f3, p3⟩ := ih3 l1 r2 c2 o3 (S.move hn hr hc (.inr rfl) (.inr rfl)) f2
      (by rw [t3]; exact B.right p2 l4 (by unfold Par; omega))
    have P := (p0.hcomp p1).vcomp (p2.hcomp p3)
    rw [l3] at P
    rw [e]
    simp only [List.foldl_append]
    exact ⟨walk_append (walk_append (walk_append w0 w1) (by rw [List.foldl_append]; exact w2)) (by simp only [List.foldl_append]; exact w3), f3, P⟩

/-- What has been decoded after `i` rows of superblocks and `j` superblocks of the next one. -/
structure Sbs (g : Geo) (d : Frame) (i j : Nat) : Prop where
  wf : WF d
  done : ∀ {y x}, In g y x → y < g.rowStart + 16 * i ∨ y < g.rowStart + 16 * i + 16 ∧ x < g.colStart + 16 * j → (d y x).isSome
  fresh : ∀ {y x}, y ≥ g.rowStart + 16 * i → x ≥ g.colStart + 16 * j ∨ y ≥ g.rowStart + 16 * i + 16 → d y x = none

theorem tr_sb {r c : Nat} (hr : r % 16 = 0) (hc : c % 16 = 0) : hasTr c r 16 16 = true := by
  rw [hasTr_mod (by decide) (by decide), hr, hc]; decide

theorem sb_step (G : GeoOk g) {i j : Nat} {d : Frame} {t : Tree} (ho : t.Ok 16) (hi : g.rowStart + 16 * i < g.rowEnd) (hj : g.colStart + 16 * j < g.colEnd) (S : Sbs g d i j) :
    Walk g d (g.partition 16 (g.rowStart + 16 * i) (g.colStart + 16 * j) t) ∧
      Sbs g ((g.partition 16 (g.rowStart + 16 * i) (g.colStart + 16 * j) t).foldl Frame.store d) i (j + 1) := by
  have hr0 := G.row0; have hc0 := G.col0
  have hr : (g.rowStart + 16 * i) % 16 = 0 := by omega
  have hc : (g.colStart + 16 * j) % 16 = 0 := by omega
  obtain ⟨w, f, p⟩ := partition_ok G t (n := 16) (r := g.rowStart + 16 * i) (c := g.colStart + 16 * j) (d := d) (by decide) hr hc ho ⟨by omega, by omega, by omega, by omega⟩ S.wf (by
    rw [tr_sb hr hc]
    refine ⟨?_, ?_, ?_, ?_, ?_, ?_⟩
    · intro y x h1 h2 h3; exact S.done h1 (.inl h2)
    · intro y x h1 h2 h3; exact S.done h1 (by omega)
    · intro y x h1 h2 h3; exact S.done h1 (.inl (by omega))
    · intro y x h1 h2 h3; exact S.done h1 (by omega)
    · intro y x h1 h2; exact S.fresh h1 (.inl h2)
    · intro h1 h2; exact S.done h2 (.inl (by omega)))
  refine ⟨w, f, ?_, ?_⟩
  · intro y x h1 h2
    by_cases h3 : y < g.rowStart + 16 * i ∨ y < g.rowStart + 16 * i + 16 ∧ x < g.colStart + 16 * j
    · exact p.some (S.done h1 h3)
    · exact p.full h1 (by omega) (by omega) (by omega) (by omega)
  · intro y x h1 h2
    exact p.none (S.fresh h1 (by omega)) (by omega)

theorem row_walk (G : GeoOk g) {t : Nat → Nat → Tree} (ho : ∀ r c, (t r c).Ok 16) {i : Nat} (hi : g.rowStart + 16 * i < g.rowEnd) : ∀ {n : Nat} {d : Frame},
    n ≤ (g.colEnd - g.colStart + 15) / 16 → Sbs g d i 0 →
    let l := (List.range n).flatMap fun j => g.partition 16 (g.rowStart + 16 * i) (g.colStart + 16 * j) (t (g.rowStart + 16 * i) (g.colStart + 16 * j))
    Walk g d l ∧ Sbs g (l.foldl Frame.store d) i n := by
  intro n
  induction n with
  | zero => intro d _ S; exact ⟨trivial, S⟩
  | succ n ih =>
    intro d hn S
    obtain ⟨w, S'⟩ := ih (by omega) S
    obtain ⟨w', S''⟩ := sb_step G (ho (g.rowStart + 16 * i) (g.colStart + 16 * n)) hi (j := n) (by omega) S'
    dsimp only
    rw [List.range_succ, List.flatMap_append, List.flatMap_singleton, List.foldl_append]
    exact ⟨walk_append w w', S''⟩

theorem rows_walk (G : GeoOk g) {t : Nat → Nat → Tree} (ho : ∀ r c, (t r c).Ok 16) : ∀ {n : Nat},
    n ≤ (g.rowEnd - g.rowStart + 15) / 16 →
    let l := (List.range n).flatMap fun i =>
      (List.range ((g.colEnd - g.colStart + 15) / 16)).flatMap fun j =>
        g.partition 16 (g.rowStart + 16 * i) (g.colStart + 16 * j) (t (g.rowStart + 16 * i) (g.colStart + 16 * j))
    Walk g (fun _ _ => none) l ∧ Sbs g (l.foldl Frame.store fun _ _ => none) n 0 := by
  intro n
  induction n with
  | zero =>
    intro _
    refine ⟨trivial, ⟨?_, ?_, ?_⟩, ?_, ?_⟩
    · intro i j s h; cases h
    · intro i j s h; cases h
    · intro i j s i' j' h; cases h
    · intro y x h1 h2; have := h1.1; have := h1.2.2.1; omega
    · intro y x h1 h2; rfl
  | succ n ih =>
    intro hn
    obtain ⟨w, S⟩ := ih (by omega)
    obtain ⟨w', S'⟩ := row_walk G ho (i := n) (by omega) (Nat.le_refl _) S
    dsimp only at w w' S S' ⊢
    rw [List.range_succ, List.flatMap_append, List.flatMap_singleton, List.foldl_append]
    refine ⟨walk_append w w', S'.wf, ?_, ?_⟩
    · intro y x h1 h2
      have := h1.2.2.1; have := h1.2.2.2
      exact S'.done h1 (by omega)
    · intro y x h1 h2
      exact S'.fresh (by omega) (.inr (by omega))

/-- What a decoder knows when it reads a block of a tile. -/
theorem tile_leaf (G : GeoOk g) {t : Nat → Nat → Tree} (ho : ∀ r c, (t r c).Ok 16) {pre post : List Blk} {b : Blk} (hb : g.tile t = pre ++ b :: post) :
    Leaf g (Spec.decoded pre) b := by
  have h := (rows_walk G ho (Nat.le_refl _)).1
  unfold Spec.Geo.tile at hb
  rw [hb] at h
  exact walk_leaf h

end Rav1e.Mvref

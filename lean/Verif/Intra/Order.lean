import Verif.Intra.OrderTree
import Verif.Intra.Sites
import Verif.Intra.Theorems

/-!
# C58: the neighbours the encoder uses are the ones a decoder has
-/

namespace Rav1e.Intra

open Spec (Geo Blk Event State)

/-- A tile of a frame: it starts at a superblock and ends at a superblock or at the end of the frame; frames have an even number of units. -/
structure Tile (g : Geo) : Prop where
  subX : g.subX = 0 ∨ g.subX = 1
  subY : g.subY = 0 ∨ g.subY = 1
  sampling : g.subY = 1 → g.subX = 1
  rows : g.miRows % 2 = 0
  cols : g.miCols % 2 = 0
  rowStart : g.rowStart % 16 = 0
  colStart : g.colStart % 16 = 0
  rowEnd : g.rowEnd ≤ g.miRows ∧ (g.rowEnd % 16 = 0 ∨ g.rowEnd = g.miRows)
  colEnd : g.colEnd ≤ g.miCols ∧ (g.colEnd % 16 = 0 ∨ g.colEnd = g.miCols)

/-- A superblock of the tile. -/
structure Superblock (g : Geo) (r0 c0 : Nat) : Prop where
  row : g.rowStart ≤ r0 ∧ r0 < g.rowEnd ∧ r0 % 16 = 0
  col : g.colStart ≤ c0 ∧ c0 < g.colEnd ∧ c0 % 16 = 0

/-- The encoder's view of a plane of the tile. -/
structure View (g : Geo) (p : Region) : Prop where
  xdec : p.xdec = g.subX
  ydec : p.ydec = g.subY
  rectX : p.rectX = (g.colStart * 4) >>> g.subX
  rectY : p.rectY = (g.rowStart * 4) >>> g.subY
  rectW : p.rectW = ((g.colEnd - g.colStart) * 4) >>> g.subX
  rectH : p.rectH = ((g.rowEnd - g.rowStart) * 4) >>> g.subY
  planeW : p.planeW = (g.miCols * 4) >>> g.subX
  planeH : p.planeH = (g.miRows * 4) >>> g.subY

/-- The arguments of `get_intra_edges` for a transform block: positions are relative to the tile. -/
def siteOf (g : Geo) (e : Event) : Site where
  x := 4 * ((e.blk.col - g.colStart) >>> g.subX + e.x)
  y := 4 * ((e.blk.row - g.rowStart) >>> g.subY + e.y)
  w := 4 * e.blk.tw
  h := 4 * e.blk.th
  boX := e.blk.col - g.colStart
  boY := e.blk.row - g.rowStart
  bw := 4 * e.blk.bw4
  bh := 4 * e.blk.bh4
  bx := e.x / e.blk.tw
  by_ := e.y / e.blk.th

section
variable {g : Geo} {r0 c0 : Nat}

theorem sb_of (T : Tile g) (B : Superblock g r0 c0) : Sb g r0 c0 := by
  obtain ⟨t1, t2, t3, t4, t5, t6, t7, t8, t9⟩ := T
  obtain ⟨b1, b2⟩ := B
  exact ⟨b1.2.2, b2.2.2, t1, t2, t3, t4, t5, t8.1, t9.1, b1.2.1, b2.2.1, by omega, by omega⟩

theorem size_mem {t W k : Nat} (hk : k = 0 ∨ k = 1) (h1 : t ∣ W) (h2 : W ∣ 16 >>> k) : 4 * t ∈ [4, 8, 16, 32, 64] := by
  have h3 : t ∣ 16 := h1.trans (h2.trans (by rcases hk with rfl | rfl <;> decide))
  have h4 := Nat.le_of_dvd (by decide) h3
  have : ∀ t ≤ 16, t ∣ 16 → 4 * t ∈ [4, 8, 16, 32, 64] := by decide
  exact this t h4 h3

/-- Position arithmetic in one direction. -/
theorem axis {sub st e0 m s0 x off t W b : Nat} (hs : sub = 0 ∨ sub = 1) (hm : m % 2 = 0) (hst : st % 16 = 0) (he : e0 ≤ m ∧ (e0 % 16 = 0 ∨ e0 = m))
    (hb : st ≤ s0 ∧ s0 < e0 ∧ s0 % 16 = 0) (hx : s0 ≤ x ∧ x < s0 + 16) (ha : Aligned sub (x - s0) b W) (hW : t ∣ W) (ht : 0 < t ∧ t ∣ off)
    (hsb : (x - s0) >>> sub + off + t ≤ 16 >>> sub) (hin : (x - s0) >>> sub + off < (m - s0) >>> sub) :
    (((x >>> sub) + off) * 4 = (st * 4) >>> sub + 4 * ((x - st) >>> sub + off)) ∧
    (4 * ((x - st) >>> sub + off) < min (((e0 - st) * 4) >>> sub) ((m * 4) >>> sub - (st * 4) >>> sub)) ∧
    min (((e0 - st) * 4) >>> sub) ((m * 4) >>> sub - (st * 4) >>> sub) = ((e0 - st) * 4) >>> sub ∧
    (4 * t ∣ 4 * ((x - st) >>> sub + off)) ∧
    ((st * 4) >>> sub + ((e0 - st) * 4) >>> sub = (m * 4) >>> sub ∨ 4 * t ∣ ((e0 - st) * 4) >>> sub) ∧
    (4 * ((x - st) >>> sub + off) + 4 * t < ((e0 - st) * 4) >>> sub ↔ (x - s0) >>> sub + off + t < (e0 - s0) >>> sub) ∧
    (((x >>> sub) + off) * 4 + 4 * t < (m * 4) >>> sub ↔ (x - s0) >>> sub + off + t < (m - s0) >>> sub) ∧
    off / t * ((4 * t) >>> 2) = off := by
  have hdiv : t ∣ 16 >>> sub := hW.trans ha.2.1
  have hpos : t ∣ (x - s0) >>> sub := hW.trans ha.1
  have e1 : (x - st) >>> sub = (s0 - st) >>> sub + (x - s0) >>> sub := by
    rcases hs with rfl | rfl <;> simp only [Nat.shiftRight_eq_div_pow] <;> omega
  have e2 : t ∣ (s0 - st) >>> sub := by
    have : 16 >>> sub ∣ (s0 - st) >>> sub := by
      rcases hs with rfl | rfl <;> simp only [Nat.shiftRight_eq_div_pow] <;> omega
    exact hdiv.trans this
  refine ⟨?_, ?_, ?_, ?_, ?_, ?_, ?_, ?_⟩
  · rcases hs with rfl | rfl <;> simp only [Nat.shiftRight_eq_div_pow] <;> omega
  · have hf := in_tile hs (show e0 = m ∨ s0 + 16 ≤ e0 by omega) hin (by omega)
    rw [e1]
    rcases hs with rfl | rfl <;> simp only [Nat.shiftRight_eq_div_pow] at * <;> omega
  · rcases hs with rfl | rfl <;> simp only [Nat.shiftRight_eq_div_pow] <;> omega
  · rw [e1]
    exact Nat.mul_dvd_mul_left 4 (Nat.dvd_add (Nat.dvd_add e2 hpos) ht.2)
  · rcases he.2 with h | h
    · right
      have : 4 * (16 >>> sub) ∣ ((e0 - st) * 4) >>> sub := by
        rcases hs with rfl | rfl <;> simp only [Nat.shiftRight_eq_div_pow] <;> omega
      exact (Nat.mul_dvd_mul_left 4 hdiv).trans this
    · left
      rcases hs with rfl | rfl <;> simp only [Nat.shiftRight_eq_div_pow] <;> omega
  · rw [e1]
    rcases hs with rfl | rfl <;> simp only [Nat.shiftRight_eq_div_pow] <;> omega
  · rcases hs with rfl | rfl <;> simp only [Nat.shiftRight_eq_div_pow] <;> omega
  · rw [Nat.shiftRight_eq_div_pow, show 4 * t / 2 ^ 2 = t by omega]
    exact Nat.div_mul_cancel ht.2

theorem avail {sub st x off b W s0 : Nat} (hs : sub = 0 ∨ sub = 1) (hst : st % 16 = 0) (hb : st ≤ s0 ∧ s0 % 16 = 0) (hx : s0 ≤ x)
    (ha : Aligned sub (x - s0) b W) (hh : x % 2 = 1 ∨ b % 2 = 0 ∨ sub = 0) :
    ((st : Int) ≤ (x : Int) - (if sub = 1 ∧ b = 1 then 2 else 1) ∨ off > 0) ↔ 4 * ((x - st) >>> sub + off) ≠ 0 := by
  have h3 := ha.2.2
  rcases hs with rfl | rfl
  · rw [if_neg (by omega)]; simp only [Nat.shiftRight_zero]; omega
  · have := h3 rfl
    simp only [Nat.shiftRight_eq_div_pow]
    by_cases hb1 : b = 1
    · rw [if_pos ⟨trivial, hb1⟩]; omega
    · rw [if_neg (by omega)]; omega

theorem hasTopRight_mod {bw bh mc mr mc' mr' txw y x ssx ssy : Nat} {a b : Bool} (h1 : mc % 16 = mc' % 16) (h2 : mr % 16 = mr' % 16) :
    hasTopRight bw bh mc mr a b txw y x ssx ssy = hasTopRight bw bh mc' mr' a b txw y x ssx ssy := by
  unfold hasTopRight; rw [h1, h2]

theorem hasBottomLeft_mod {bw bh mc mr mc' mr' txw y x ssx ssy : Nat} {a b : Bool} (h1 : mc % 16 = mc' % 16) (h2 : mr % 16 = mr' % 16) :
    hasBottomLeft bw bh mc mr a b txw y x ssx ssy = hasBottomLeft bw bh mc' mr' a b txw y x ssx ssy := by
  unfold hasBottomLeft; rw [h1, h2]

/-- Every transform block of a superblock: the encoder predicts it at the place and with the neighbours of a decoder. -/
theorem agree (T : Tile g) (B : Superblock g r0 c0) {t : Spec.Tree} (ho : g.Ok 16 t) {e : Event} (he : e ∈ g.superblock r0 c0 t) {p : Region} (V : View g p)
    {cur : Int → Int → Int} {bd : Nat} (hcur : ∀ r c : Nat, cur ((p.rectY + r : Nat) : Int) ((p.rectX + c : Nat) : Int) = p.px r c)
    (hrange : ∀ r c, p.px r c < 2 ^ bd) (hbd : bd = 8 ∨ bd = 10 ∨ bd = 12) : Agree p (siteOf g e) (g.input e cur bd) := by
  have E := superblock_ok (sb_of T B) ho e he
  obtain ⟨e1, e2, e3, e4, e5, e6, e7, e8, e9, e10, e11, e12, e13, e14⟩ := E
  obtain ⟨X1, X2, X3, X4, X5, X6, X7, X8⟩ := axis T.subX T.cols T.colStart T.colEnd B.col e2 e5 e4.1 e7 e9 e11
  obtain ⟨Y1, Y2, Y3, Y4, Y5, Y6, Y7, Y8⟩ := axis T.subY T.rows T.rowStart T.rowEnd B.row e1 e6 e4.2 e8 e10 e12
  obtain ⟨v1, v2, v3, v4, v5, v6, v7, v8⟩ := V
  have hh := e3
  unfold Spec.Geo.has at hh
  simp only [Bool.and_eq_true, Bool.or_eq_true, decide_eq_true_eq, or_assoc] at hh
  have aX := avail (off := e.x) T.subX T.colStart ⟨B.col.1, B.col.2.2⟩ e2.1 e5 hh.2
  have aY := avail (off := e.y) T.subY T.rowStart ⟨B.row.1, B.row.2.2⟩ e1.1 e6 hh.1
  have hw : p.w = ((g.colEnd - g.colStart) * 4) >>> g.subX := by unfold Region.w; rw [v5, v7, v3]; exact X3
  have hhh : p.h = ((g.rowEnd - g.rowStart) * 4) >>> g.subY := by unfold Region.h; rw [v6, v8, v4]; exact Y3
  have bX : (siteOf g e).bx4 = e.x := X8
  have bY : (siteOf g e).by4 = e.y := Y8
  have htX : (siteOf g e).x ≠ 0 → (siteOf g e).haveLeft p.xdec = true := by
    intro h
    unfold Site.haveLeft
    rw [bX, v1]
    have h' : (e.blk.col - g.colStart) >>> g.subX + e.x ≠ 0 := by
      have : (siteOf g e).x = 4 * ((e.blk.col - g.colStart) >>> g.subX + e.x) := rfl
      omega
    by_cases hx : e.x = 0
    · rw [hx]
      simp only [bne_self_eq_false, Bool.false_or, siteOf]
      rcases T.subX with h | h <;> rw [h] at h' ⊢ <;> simp only [Nat.shiftRight_eq_div_pow] at h' <;> simp <;> omega
    · simp [hx]
  have htY : (siteOf g e).y ≠ 0 → (siteOf g e).haveTop p.ydec = true := by
    intro h
    unfold Site.haveTop
    rw [bY, v2]
    have h' : (e.blk.row - g.rowStart) >>> g.subY + e.y ≠ 0 := by
      have : (siteOf g e).y = 4 * ((e.blk.row - g.rowStart) >>> g.subY + e.y) := rfl
      omega
    by_cases hx : e.y = 0
    · rw [hx]
      simp only [bne_self_eq_false, Bool.false_or, siteOf]
      rcases T.subY with h | h <;> rw [h] at h' ⊢ <;> simp only [Nat.shiftRight_eq_div_pow] at h' <;> simp <;> omega
    · simp [hx]
  have hcl := Nat.lt_of_le_of_lt (Nat.le_add_right ..) (in_tile T.subX (sb_of T B).colTile e11 (by omega))
  have hrl := Nat.lt_of_le_of_lt (Nat.le_add_right ..) (in_tile T.subY (sb_of T B).rowTile e12 (by omega))
  have hcl' : e.blk.col < g.colEnd := by
    clear * - hcl T
    rcases T.subX with h | h <;> rw [h] at hcl <;> simp only [Nat.shiftRight_eq_div_pow] at hcl <;> omega
  have hrl' : e.blk.row < g.rowEnd := by
    clear * - hrl T
    rcases T.subY with h | h <;> rw [h] at hrl <;> simp only [Nat.shiftRight_eq_div_pow] at hrl <;> omega
  have hcs := B.col.1
  have hrs := B.row.1
  refine ⟨hcur, hrange, ?_, ?_, Nat.mul_comm .., Nat.mul_comm .., ?_, ?_, ?_, ?_, hbd, size_mem T.subX e4.1 e5.2.1, size_mem T.subY e4.2 e6.2.1, ?_, ?_, X4, Y4, ?_, ?_, ?_, ?_⟩
  · show (((e.blk.col >>> g.subX + e.x) * 4 : Nat) : Int) = _
    rw [v3, X1]; rfl
  · show (((e.blk.row >>> g.subY + e.y) * 4 : Nat) : Int) = _
    rw [v4, Y1]; rfl
  · rw [v7]; rfl
  · rw [v8]; rfl
  · show (g.availL e.blk || decide (e.x > 0)) = decide (4 * ((e.blk.col - g.colStart) >>> g.subX + e.x) ≠ 0)
    rw [← decide_eq_decide.mpr aX, Bool.decide_or]
    congr 1
    unfold Spec.Geo.availL Spec.Geo.isInside
    rw [decide_eq_true (show ((g.rowStart : Int) ≤ e.blk.row) by omega), decide_eq_true (show ((e.blk.row : Int) < g.rowEnd) by omega),
      decide_eq_true (show ((e.blk.col : Int) - (if g.subX = 1 ∧ e.blk.bw4 = 1 then 2 else 1) < g.colEnd) by split <;> omega), Bool.and_true, Bool.and_true, Bool.and_true]
  · show (g.availU e.blk || decide (e.y > 0)) = decide (4 * ((e.blk.row - g.rowStart) >>> g.subY + e.y) ≠ 0)
    rw [← decide_eq_decide.mpr aY, Bool.decide_or]
    congr 1
    unfold Spec.Geo.availU Spec.Geo.isInside
    rw [decide_eq_true (show ((g.colStart : Int) ≤ e.blk.col) by omega), decide_eq_true (show ((e.blk.col : Int) < g.colEnd) by omega),
      decide_eq_true (show ((e.blk.row : Int) - (if g.subY = 1 ∧ e.blk.bh4 = 1 then 2 else 1) < g.rowEnd) by split <;> omega), Bool.and_true, Bool.true_and, Bool.true_and]
  · rw [hw, ← X3]; exact X2
  · rw [hhh, ← Y3]; exact Y2
  · rw [hw, v3, v7]; exact X5
  · rw [hhh, v4, v8]; exact Y5
  · intro hy hx
    have hF := X7.mp (by
      have : ((((e.blk.col >>> g.subX) + e.x) * 4 : Nat) : Int) + ((4 * e.blk.tw : Nat) : Int) ≤ (((g.miCols * 4) >>> g.subX : Nat) : Int) - 1 := hx
      omega)
    have := e13 hF
    unfold Site.topRight
    rw [htY hy, bX, bY, hw, v1, v2]
    simp only [siteOf, X6]
    rw [hasTopRight_mod (mc' := e.blk.col) (mr' := e.blk.row) (by have := T.colStart; have := B.col; omega) (by have := T.rowStart; have := B.row; omega)]
    exact this
  · intro hx hy
    have hF := Y7.mp (by
      have : ((((e.blk.row >>> g.subY) + e.y) * 4 : Nat) : Int) + ((4 * e.blk.th : Nat) : Int) ≤ (((g.miRows * 4) >>> g.subY : Nat) : Int) - 1 := hy
      omega)
    have := e14 hF
    unfold Site.bottomLeft
    rw [htX hx, bX, bY, hhh, v1, v2]
    simp only [siteOf, Y6]
    rw [hasBottomLeft_mod (mc' := e.blk.col) (mr' := e.blk.row) (by have := T.colStart; have := B.col; omega) (by have := T.rowStart; have := B.row; omega)]
    exact this

/-- **C58.** Intra prediction needs no knowledge the decoder does not have: for every partition of every superblock of every tile, and for every
transform block of a plane in it, the encoder, which looks up in tables whether the pixels above right and below left are there, predicts
exactly what a decoder computes from the blocks it has decoded so far. -/
theorem predictTx_superblock (T : Tile g) (B : Superblock g r0 c0) {t : Spec.Tree} (ho : g.Ok 16 t) {e : Event} (he : e ∈ g.superblock r0 c0 t)
    {p : Region} (V : View g p) {cur : Int → Int → Int} {bd tb : Nat}
    (hcur : ∀ r c : Nat, cur ((p.rectY + r : Nat) : Int) ((p.rectX + c : Nat) : Int) = p.px r c)
    (hrange : ∀ r c, p.px r c < 2 ^ bd) (hbd : bd = 8 ∨ bd = 10 ∨ bd = 12) (hb : bd ≤ tb)
    {m : Mode} {q : Param} (hq : Allowed m q) (hm : m ≠ .cfl) (ef sm : Bool) (ac : List Int) :
    ∃ px', predictTx p (siteOf g e) bd tb m ef q ac sm = some px' ∧
      (∀ r < 4 * e.blk.th, ∀ c < 4 * e.blk.tw, (px' ((siteOf g e).y + r) ((siteOf g e).x + c) : Int) = (g.input e cur bd).pred m.spec q.delta ef sm r c) ∧
      (∀ r c, ¬ ((siteOf g e).y ≤ r ∧ r < (siteOf g e).y + 4 * e.blk.th ∧ (siteOf g e).x ≤ c ∧ c < (siteOf g e).x + 4 * e.blk.tw) → px' r c = p.px r c) ∧
      (∀ r < 4 * e.blk.th, ∀ c < 4 * e.blk.tw, px' ((siteOf g e).y + r) ((siteOf g e).x + c) < 2 ^ bd) :=
  predictTx_eq_decoder (agree T B ho he V hcur hrange hbd) hq hm ef sm ac hb

/-! ### The order -/

theorem foldl_events {f : State → Nat → State} {h : Nat → List Site} {φ : Event → Site} (hf : ∀ s i, (f s i).events.map φ = s.events.map φ ++ h i) (l : List Nat) (s : State) :
    (l.foldl f s).events.map φ = s.events.map φ ++ l.flatMap h := by
  induction l generalizing s with
  | nil => simp
  | cons a l ih => rw [List.foldl_cons, ih, hf, List.flatMap_cons, List.append_assoc]

theorem foldl_events' {f : State → Nat → State} {h : Nat → List Site} {φ : Event → Site} {n : Nat} (hf : ∀ s, ∀ i < n, (f s i).events.map φ = s.events.map φ ++ h i) (s : State) :
    ((List.range n).foldl f s).events.map φ = s.events.map φ ++ (List.range n).flatMap h := by
  have key : ∀ (l : List Nat) (s : State), (∀ i ∈ l, i < n) → (l.foldl f s).events.map φ = s.events.map φ ++ l.flatMap h := by
    intro l
    induction l with
    | nil => intro s _; simp
    | cons a l ih =>
      intro s hl
      rw [List.foldl_cons, ih _ (fun i hi => hl i (List.mem_cons_of_mem _ hi)), hf _ _ (hl a (List.mem_cons_self ..)), List.flatMap_cons, List.append_assoc]
  exact key _ _ fun i hi => List.mem_range.mp hi

theorem loop_some {α : Type} {n : Nat} {f : Nat → Option (List α)} {h : Nat → List α} (hf : ∀ i < n, f i = some (h i)) : loop n f = some ((List.range n).flatMap h) := by
  unfold loop
  have key : ∀ (l : List Nat) (a : List α), (∀ i ∈ l, i < n) →
      l.foldl (fun acc i => acc.bind fun l => (f i).map fun l' => l ++ l') (some a) = some (a ++ l.flatMap h) := by
    intro l
    induction l with
    | nil => intro a _; simp
    | cons b l ih =>
      intro a hl
      rw [List.foldl_cons, Option.bind_some, hf b (hl b (List.mem_cons_self ..)), Option.map_some, ih _ (fun i hi => hl i (List.mem_cons_of_mem _ hi)), List.flatMap_cons, List.append_assoc]
  simpa using key _ [] fun i hi => List.mem_range.mp hi

/-- The blocks of a superblock: half as wide or high as they are high or wide, or squares; in 4:2:2 none is higher than wide; at multiples of
their size. -/
structure Shape (g : Geo) (r0 c0 : Nat) (b : Blk) : Prop where
  ratio : b.bw4 = b.bh4 ∨ b.bw4 = 2 * b.bh4 ∨ (b.bh4 = 2 * b.bw4 ∧ (g.subX = 1 → g.subY = 1))
  sizeW : b.bw4 ∈ [1, 2, 4, 8, 16]
  sizeH : b.bh4 ∈ [1, 2, 4, 8, 16]
  row : r0 ≤ b.row ∧ b.row + b.bh4 ≤ r0 + 16 ∧ (b.row - r0) % b.bh4 = 0
  col : c0 ≤ b.col ∧ b.col + b.bw4 ≤ c0 + 16 ∧ (b.col - c0) % b.bw4 = 0
  inRow : b.row < g.miRows
  inCol : b.col < g.miCols

/-- The transform block at column `j` and row `i` of a block. -/
def siteAt (g : Geo) (b : Blk) (i j : Nat) : Site := siteOf g ⟨b, j * b.tw, i * b.th, false, false⟩

theorem tx_events {b : Blk} {i j : Nat} {s : State} :
    (g.transformBlock b (i * b.th) (j * b.tw) s).events.map (siteOf g) = s.events.map (siteOf g) ++
      if (b.col >>> g.subX + j * b.tw) * 4 ≥ (g.miCols * 4) >>> g.subX ∨ (b.row >>> g.subY + i * b.th) * 4 ≥ (g.miRows * 4) >>> g.subY then [] else [siteAt g b i j] := by
  unfold Spec.Geo.transformBlock
  simp only
  split
  · simp
  · rw [List.map_append]; rfl

theorem block_events {b : Blk} {s : State} (hh : g.has b = true) {h : Nat → Nat → List Site}
    (hb : ∀ i < g.planeH b / b.th, ∀ j < g.planeW b / b.tw,
      (if (b.col >>> g.subX + j * b.tw) * 4 ≥ (g.miCols * 4) >>> g.subX ∨ (b.row >>> g.subY + i * b.th) * 4 ≥ (g.miRows * 4) >>> g.subY then [] else [siteAt g b i j]) = h i j) :
    (g.residual b s).events.map (siteOf g) = s.events.map (siteOf g) ++
      (List.range (g.planeH b / b.th)).flatMap fun i => (List.range (g.planeW b / b.tw)).flatMap (h i) := by
  unfold Spec.Geo.residual
  rw [if_pos hh]
  refine foldl_events' (fun s i hi => foldl_events' (fun s j hj => ?_) s) s
  rw [tx_events, hb i hi j hj]

/-- Whether a transform block is outside: the encoder asks the tile, the decoder the frame. -/
theorem outside {sub st e0 m s0 x off W b : Nat} (hs : sub = 0 ∨ sub = 1) (hm : m % 2 = 0) (hst : st % 16 = 0) (he : e0 ≤ m ∧ (e0 % 16 = 0 ∨ e0 = m))
    (hb : st ≤ s0 ∧ s0 < e0 ∧ s0 % 16 = 0) (hx : s0 ≤ x ∧ x + b ≤ s0 + 16 ∧ (x - s0) % b = 0) (hbs : b ∈ [1, 2, 4, 8, 16]) (hh : x % 2 = 1 ∨ b % 2 = 0 ∨ sub = 0)
    (hW : W = max 1 (b >>> sub)) (hoff : off < W) :
    (if b = 1 then 1 else 0) * sub ≤ x - st + off <<< sub ∧
    (((x >>> sub) + off) * 4 ≥ (m * 4) >>> sub ↔ x - st + off <<< sub - (if b = 1 then 1 else 0) * sub ≥ e0 - st) ∧
    (x - st + off <<< sub - (if b = 1 then 1 else 0) * sub) >>> sub <<< 2 = 4 * ((x - st) >>> sub + off) := by
  have hle : x - s0 + b ≤ 16 := by omega
  simp only [List.mem_cons, List.not_mem_nil, or_false] at hbs
  rcases hs with rfl | rfl
  · simp only [Nat.shiftRight_zero, Nat.mul_zero, Nat.sub_zero, Nat.zero_le, true_and, Nat.shiftLeft_eq] at hW ⊢
    have : W = b := by omega
    omega
  · simp only [Nat.shiftRight_eq_div_pow, Nat.shiftLeft_eq, Nat.mul_one] at hW ⊢
    rcases hbs with rfl | rfl | rfl | rfl | rfl
    · rw [if_pos rfl]; omega
    all_goals rw [if_neg (by decide)]; omega

theorem off_lt {i n t W : Nat} (hd : t ∣ W) (h0 : 0 < W) (hn : n = W / t) (hi : i < n) : i * t < W := by
  have ht := Nat.pos_of_dvd_of_pos hd h0
  subst hn
  have h1 : (i + 1) * t ≤ W / t * t := Nat.mul_le_mul_right _ hi
  rw [Nat.div_mul_cancel hd, Nat.add_mul] at h1
  omega

theorem flatMap_congr' {α : Type} {n : Nat} {f h : Nat → List α} (H : ∀ i < n, f i = h i) : (List.range n).flatMap f = (List.range n).flatMap h := by
  have key : ∀ l : List Nat, (∀ i ∈ l, i < n) → l.flatMap f = l.flatMap h := by
    intro l
    induction l with
    | nil => intro _; rfl
    | cons a l ih => intro hl; rw [List.flatMap_cons, List.flatMap_cons, H a (hl a (List.mem_cons_self ..)), ih fun i hi => hl i (List.mem_cons_of_mem _ hi)]
  exact key _ fun i hi => List.mem_range.mp hi

theorem has_eq (T : Tile g) (B : Superblock g r0 c0) {b : Blk} (Sh : Shape g r0 c0 b) :
    g.has b = hasChroma (b.col - g.colStart) (b.row - g.rowStart) b.bw4 b.bh4 g.subX g.subY := by
  have h1 := T.colStart
  have h2 := T.rowStart
  have h3 := Sh.col.1
  have h4 := Sh.row.1
  have h5 := B.col.1
  have h6 := B.row.1
  unfold Spec.Geo.has hasChroma
  rw [show (b.col - g.colStart) % 2 = b.col % 2 by omega, show (b.row - g.rowStart) % 2 = b.row % 2 by omega]
  exact Bool.and_comm ..

/-- **C58.** The transform blocks of a chroma plane (or of the luma plane, see `luma_sites`) are predicted in the order in which a decoder
predicts them, at the same places, and the rectangle that is written is the one whose edges were read. -/
theorem chroma_sites (T : Tile g) (B : Superblock g r0 c0) {b : Blk} (Sh : Shape g r0 c0 b) (hf : g.Fits b.bw4 b.bh4 b.tw b.th) {ltw lth : Nat}
    (hlw : ltw ∣ b.bw4) (hlh : lth ∣ b.bh4) (s : State) :
    ∃ l, chromaSites (g.colEnd - g.colStart) (g.rowEnd - g.rowStart) (b.col - g.colStart) (b.row - g.rowStart) b.bw4 b.bh4 ltw lth b.tw b.th g.subX g.subY = some l ∧
      (g.residual b s).events.map (siteOf g) = s.events.map (siteOf g) ++ l.map TxSite.site ∧
      ∀ x ∈ l, x.areaX = x.site.x ∧ x.areaY = x.site.y := by
  have hhe := has_eq T B Sh
  unfold chromaSites
  cases hh : g.has b with
  | false =>
    rw [← hhe, hh]
    refine ⟨[], rfl, ?_, fun x hx => by cases hx⟩
    rw [residual_skip hh]; simp
  | true =>
    rw [← hhe, hh]
    simp only [Bool.not_true, Bool.false_eq_true, if_false]
    rw [Nat.div_mul_cancel hlw, Nat.div_mul_cancel hlh]
    have huv : (if b.bw4 >>> g.subX = 0 ∨ b.bh4 >>> g.subY = 0 then (1, 1) else (b.bw4 >>> g.subX, b.bh4 >>> g.subY)) = (g.planeW b, g.planeH b) := by
      obtain ⟨h1, h2, h3, -, -, -, -⟩ := Sh
      unfold Spec.Geo.planeW Spec.Geo.planeH
      have hsx := T.subX
      have hsy := T.subY
      have hs := T.sampling
      simp only [List.mem_cons, List.not_mem_nil, or_false] at h2 h3
      generalize g.subX = sx at *
      generalize g.subY = sy at *
      generalize b.bw4 = w at *
      generalize b.bh4 = h at *
      rcases hsx with rfl | rfl <;> rcases hsy with rfl | rfl <;> rcases h2 with rfl | rfl | rfl | rfl | rfl <;> rcases h3 with rfl | rfl | rfl | rfl | rfl <;>
        first | rfl | (exfalso; omega)
    rw [huv]
    simp only
    have hp : 0 < g.planeW b ∧ 0 < g.planeH b := by unfold Spec.Geo.planeW Spec.Geo.planeH; omega
    have hh' := hh
    unfold Spec.Geo.has at hh'
    simp only [Bool.and_eq_true, Bool.or_eq_true, decide_eq_true_eq, or_assoc] at hh'
    have oX : ∀ j < g.planeW b / b.tw, _ := fun j hj =>
      outside (off := j * b.tw) T.subX T.cols T.colStart T.colEnd B.col Sh.col Sh.sizeW hh'.2 rfl (off_lt hf.1 hp.1 rfl hj)
    have oY : ∀ i < g.planeH b / b.th, _ := fun i hi =>
      outside (off := i * b.th) T.subY T.rows T.rowStart T.rowEnd B.row Sh.row Sh.sizeH hh'.1 rfl (off_lt hf.2 hp.2 rfl hi)
    generalize (if b.bw4 = 1 then 1 else 0) = dX at oX ⊢
    generalize (if b.bh4 = 1 then 1 else 0) = dY at oY ⊢
    let h : Nat → Nat → List TxSite := fun i j =>
      if b.col - g.colStart + (j * b.tw) <<< g.subX - dX * g.subX ≥ g.colEnd - g.colStart ∨
          b.row - g.rowStart + (i * b.th) <<< g.subY - dY * g.subY ≥ g.rowEnd - g.rowStart then []
      else [⟨siteAt g b i j, (b.col - g.colStart + (j * b.tw) <<< g.subX - dX * g.subX) >>> g.subX <<< 2,
        (b.row - g.rowStart + (i * b.th) <<< g.subY - dY * g.subY) >>> g.subY <<< 2⟩]
    have hsite : ∀ i j, (⟨(b.col - g.colStart) >>> g.subX <<< 2 + j * (4 * b.tw), (b.row - g.rowStart) >>> g.subY <<< 2 + i * (4 * b.th), 4 * b.tw, 4 * b.th,
        b.col - g.colStart, b.row - g.rowStart, 4 * b.bw4, 4 * b.bh4, j, i⟩ : Site) = siteAt g b i j := by
      intro i j
      have t1 := Nat.pos_of_dvd_of_pos hf.1 hp.1
      have t2 := Nat.pos_of_dvd_of_pos hf.2 hp.2
      unfold siteAt siteOf
      simp only [Nat.mul_div_cancel _ t1, Nat.mul_div_cancel _ t2, Nat.shiftLeft_eq, Site.mk.injEq, and_true]
      constructor <;> ring
    refine ⟨(List.range (g.planeH b / b.th)).flatMap fun i => (List.range (g.planeW b / b.tw)).flatMap (h i), ?_, ?_, ?_⟩
    · refine loop_some fun i hi => loop_some fun j hj => ?_
      obtain ⟨x1, x2, x3⟩ := oX j hj
      obtain ⟨y1, y2, y3⟩ := oY i hi
      unfold sub?
      rw [if_pos x1, if_pos y1, Option.bind_some, Option.bind_some, hsite]
      exact (apply_ite some _ _ _).symm
    · rw [block_events hh (h := fun i j => (h i j).map TxSite.site)]
      · rw [List.map_flatMap]
        congr 1
        refine flatMap_congr' fun i _ => ?_
        rw [List.map_flatMap]
      · intro i hi j hj
        obtain ⟨x1, x2, x3⟩ := oX j hj
        obtain ⟨y1, y2, y3⟩ := oY i hi
        simp only [h, x2, y2]
        split <;> rfl
    · intro x hx
      obtain ⟨i, hi, hx⟩ := List.mem_flatMap.mp hx
      obtain ⟨j, hj, hx⟩ := List.mem_flatMap.mp hx
      obtain ⟨x1, x2, x3⟩ := oX j (List.mem_range.mp hj)
      obtain ⟨y1, y2, y3⟩ := oY i (List.mem_range.mp hi)
      simp only [h] at hx
      split at hx
      · cases hx
      · rw [List.mem_singleton] at hx
        subst hx
        exact ⟨x3, y3⟩

/-- **C58.** The same for the luma plane. -/
theorem luma_sites (T : Tile g) (B : Superblock g r0 c0) (hx : g.subX = 0) (hy : g.subY = 0) {b : Blk} (Sh : Shape g r0 c0 b) (hf : g.Fits b.bw4 b.bh4 b.tw b.th)
    (s : State) :
    (g.residual b s).events.map (siteOf g) = s.events.map (siteOf g) ++
      (lumaSites (g.colEnd - g.colStart) (g.rowEnd - g.rowStart) (b.col - g.colStart) (b.row - g.rowStart) b.bw4 b.bh4 b.tw b.th).map TxSite.site ∧
    ∀ x ∈ lumaSites (g.colEnd - g.colStart) (g.rowEnd - g.rowStart) (b.col - g.colStart) (b.row - g.rowStart) b.bw4 b.bh4 b.tw b.th,
      x.areaX = x.site.x ∧ x.areaY = x.site.y := by
  have hh : g.has b = true := by unfold Spec.Geo.has; simp [hx, hy]
  have w0 : 0 < b.bw4 := by have := Sh.sizeW; simp only [List.mem_cons, List.not_mem_nil, or_false] at this; omega
  have h0 : 0 < b.bh4 := by have := Sh.sizeH; simp only [List.mem_cons, List.not_mem_nil, or_false] at this; omega
  have pw : g.planeW b = b.bw4 := by unfold Spec.Geo.planeW; rw [hx, Nat.shiftRight_zero]; omega
  have ph : g.planeH b = b.bh4 := by unfold Spec.Geo.planeH; rw [hy, Nat.shiftRight_zero]; omega
  have f1 : b.tw ∣ b.bw4 := by have : b.tw ∣ g.planeW b := hf.1; rwa [pw] at this
  have f2 : b.th ∣ b.bh4 := by have : b.th ∣ g.planeH b := hf.2; rwa [ph] at this
  have t1 := Nat.pos_of_dvd_of_pos f1 w0
  have t2 := Nat.pos_of_dvd_of_pos f2 h0
  unfold lumaSites
  simp only
  refine ⟨?_, ?_⟩
  · rw [block_events hh (h := fun i j => (if b.col - g.colStart + j * b.tw ≥ g.colEnd - g.colStart ∨ b.row - g.rowStart + i * b.th ≥ g.rowEnd - g.rowStart then []
        else [siteAt g b i j]))]
    · rw [List.map_flatMap, pw, ph]
      congr 1
      refine flatMap_congr' fun i _ => ?_
      rw [List.map_flatMap]
      refine flatMap_congr' fun j _ => ?_
      split
      · rfl
      · rw [List.map_singleton]
        simp only [siteAt, siteOf, hx, hy, Nat.mul_div_cancel _ t1, Nat.mul_div_cancel _ t2, Nat.shiftLeft_eq, Nat.shiftRight_zero, List.cons.injEq, Site.mk.injEq, and_true]
        constructor <;> ring
    · intro i hi j hj
      rw [pw] at hj
      rw [ph] at hi
      obtain ⟨x1, x2, x3⟩ := outside (off := j * b.tw) T.subX T.cols T.colStart T.colEnd B.col Sh.col Sh.sizeW (Or.inr (Or.inr hx)) rfl
        (by rw [hx, Nat.shiftRight_zero, Nat.max_eq_right (by omega)]; exact off_lt f1 w0 rfl hj)
      obtain ⟨y1, y2, y3⟩ := outside (off := i * b.th) T.subY T.rows T.rowStart T.rowEnd B.row Sh.row Sh.sizeH (Or.inr (Or.inr hy)) rfl
        (by rw [hy, Nat.shiftRight_zero, Nat.max_eq_right (by omega)]; exact off_lt f2 h0 rfl hi)
      simp only [x2, y2]
      simp only [hx, hy, Nat.shiftLeft_zero, Nat.mul_zero, Nat.sub_zero]
  · intro x hx
    obtain ⟨i, hi, hx⟩ := List.mem_flatMap.mp hx
    obtain ⟨j, hj, hx⟩ := List.mem_flatMap.mp hx
    split at hx
    · cases hx
    · rw [List.mem_singleton] at hx
      subst hx
      exact ⟨rfl, rfl⟩

end

/-! ### A superblock of a 4:2:0 chroma plane in the second tile of a frame of 160x80 pixels -/

/-- The frame has 40x20 units; the tile has the columns from 16. -/
def exGeo : Geo := ⟨20, 40, 0, 20, 16, 40, 1, 1⟩

/-- 64x64 split; the first 32x32 into a 32x16 pair, the second into four 16x16, the first of which is split down to 4x4 luma blocks. -/
def exTree : Spec.Tree :=
  .split (.horz 4 2 4 2) (.split (.split (.split (.none 1 1) (.none 1 1) (.none 1 1) (.none 1 1)) (.none 1 1) (.vert 1 1 1 1) (.horz 1 1 1 1)) (.none 2 2) (.none 2 2) (.vert 1 2 1 2))
    (.none 4 4) (.none 2 2)

theorem exTile : Tile exGeo := ⟨by decide, by decide, by decide, by decide, by decide, by decide, by decide, by decide, by decide⟩

theorem exSuperblock : Superblock exGeo 0 16 := ⟨by decide, by decide⟩

theorem exOk : exGeo.Ok 16 exTree := by
  simp only [Spec.Geo.Ok, Spec.Geo.Fits, exGeo, exTree]
  decide

/-- The flags of the transform blocks: `(row, col, x, y, aboveRt, belowLft)`. -/
example : ((exGeo.superblock 0 16 exTree).map fun e => (e.blk.row, e.blk.col, e.x, e.y, e.aboveRt, e.belowLft)) =
    [(0, 16, 0, 0, true, true), (4, 16, 0, 0, false, true), (1, 25, 0, 0, true, true), (0, 26, 0, 0, true, false), (2, 25, 0, 0, true, true),
      (3, 26, 0, 0, false, false), (0, 28, 0, 0, true, false), (4, 24, 0, 0, true, false), (4, 28, 0, 0, true, false), (4, 30, 0, 0, false, false),
      (8, 16, 0, 0, true, false), (8, 24, 0, 0, true, true), (8, 24, 2, 0, false, false), (8, 24, 0, 2, true, false), (8, 24, 2, 2, false, false)] := by
  decide +kernel

/-- The encoder's view of this tile. -/
def exView : Region := ⟨fun r c => (r * 7 + c * 3) % 256, 32, 0, 48, 40, 80, 40, 1, 1⟩

theorem exViewOk : View exGeo exView := ⟨rfl, rfl, rfl, rfl, rfl, rfl, rfl, rfl⟩

/-- The hypotheses of `predictTx_superblock` are met by the chroma of four 4x4 luma blocks. -/
example : ∃ e ∈ exGeo.superblock 0 16 exTree, e.blk = ⟨1, 25, 1, 1, 1, 1⟩ ∧
    ∃ px', predictTx exView (siteOf exGeo e) 8 8 .d45 true (.angleDelta (-1)) [] false = some px' ∧
      ∀ r < 4, ∀ c < 4, (px' ((siteOf exGeo e).y + r) ((siteOf exGeo e).x + c) : Int) =
        (exGeo.input e (fun r c => ((r.toNat * 7 + (c - 32).toNat * 3) % 256 : Nat)) 8).pred .d45 (-1) true false r c := by
  have he : (⟨⟨1, 25, 1, 1, 1, 1⟩, 0, 0, true, true⟩ : Event) ∈ exGeo.superblock 0 16 exTree := by decide +kernel
  refine ⟨_, he, rfl, ?_⟩
  obtain ⟨px', h1, h2, -⟩ := predictTx_superblock exTile exSuperblock exOk he exViewOk (cur := fun r c => ((r.toNat * 7 + (c - 32).toNat * 3) % 256 : Nat)) (bd := 8) (tb := 8)
    (fun r c => by simp [exView]) (fun r c => Nat.mod_lt _ (by decide)) (by decide) (by decide) (m := .d45) (q := .angleDelta (-1)) ⟨by decide, by decide, by decide⟩ (by decide)
    true false []
  exact ⟨px', h1, h2⟩

set_option synthInstance.maxHeartbeats 400000 in
set_option synthInstance.maxSize 1024 in
/-- The hypotheses of `chroma_sites` are met, and its list is not empty: a 32x32 block over the lower border of the frame with two of its four
transform blocks inside. -/
example : Shape exGeo 16 16 ⟨16, 24, 8, 8, 2, 2⟩ ∧ Superblock exGeo 16 16 ∧
    (chromaSites 24 20 8 16 8 8 8 8 2 2 1 1).map (fun l => l.map fun x => (x.site.x, x.site.y, x.site.bx, x.site.by_, x.areaX, x.areaY)) =
      some [(16, 32, 0, 0, 16, 32), (24, 32, 1, 0, 24, 32)] := by
  refine ⟨⟨by decide, by decide, by decide, by decide, by decide, by decide, by decide⟩, ⟨by decide, by decide⟩, by decide +kernel⟩

end Rav1e.Intra

import Verif.Intra.Order

/-!
# The choice of the smooth edge filter

The part of `TileStateMut` that remembers the modes of coded blocks, `tiling/tile_state.rs:73-124` and `226-264`, and the choice of the
filter from it, `predict.rs:534-597`.
-/

namespace Rav1e.Intra

open Spec (Geo Blk Stored Modes StoredMode)

/-- `PredictionMode`: the intra modes of `Mode`, or one of the inter modes. -/
inductive PMode
  | intra (m : Mode)
  | inter
  deriving DecidableEq, Repr

/-- `CodedBlockInfo`, `tiling/tile_state.rs:77-81`; `intra` is `reference_types[0] == INTRA_FRAME`. -/
structure Info where
  luma : PMode
  chroma : PMode
  intra : Bool
  deriving DecidableEq, Repr

/-- `MiTileState`, `tiling/tile_state.rs:94-98`: `at_ y x` is `coded_block_info[y][x]`. -/
structure MiTile where
  w : Nat
  h : Nat
  at_ : Nat → Nat → Info

/-- `coded_block_info[y][x]`; an index outside of the tile panics: `tiling/tile_state.rs:110-117`. -/
def MiTile.get (t : MiTile) (y x : Nat) : Option Info := if y < t.h ∧ x < t.w then some (t.at_ y x) else none

/-- The update in `encode_block_post_cdef`, `encoder.rs:2181-2196`, for a block of `bw`x`bh` units. -/
def MiTile.store (t : MiTile) (boX boY bw bh : Nat) (i : Info) : MiTile :=
  { t with at_ := fun y x => if boY ≤ y ∧ y < boY + bh ∧ y < t.h ∧ boX ≤ x ∧ x < boX + bw ∧ x < t.w then i else t.at_ y x }

/-- `above_block_info`, `tiling/tile_state.rs:229-244`. -/
def MiTile.above (t : MiTile) (boX boY xdec ydec : Nat) : Option (Option Info) :=
  let x := if boX % 2 = 0 then boX + xdec else boX
  (if boY % 2 = 1 then sub? boY ydec else some boY).bind fun y =>
  if y = 0 then some none else (t.get (y - 1) x).map some

/-- `left_block_info`, `tiling/tile_state.rs:249-264`. -/
def MiTile.left (t : MiTile) (boX boY xdec ydec : Nat) : Option (Option Info) :=
  (if boX % 2 = 1 then sub? boX xdec else some boX).bind fun x =>
  let y := if boY % 2 = 0 then boY + ydec else boY
  if x = 0 then some none else (t.get y (x - 1)).map some

/-- One half of `use_smooth_filter`, `predict.rs:575-593`, with the mode that `new`, `predict.rs:544-569`, takes from a neighbour. -/
def smoothSide (plane : Nat) : Option Info → Bool
  | none => false
  | some i =>
    match if plane = 0 then i.luma else i.chroma with
    | .intra .smooth | .intra .smoothV | .intra .smoothH => plane == 0 || i.intra
    | _ => false

/-- `IntraEdgeFilterParameters` of `encode_tx_block`, `encoder.rs:1458-1469`, and `use_smooth_filter`, `predict.rs:574-596`. -/
def MiTile.smooth (t : MiTile) (boX boY plane xdec ydec : Nat) : Option Bool :=
  let xd := if plane = 0 then 0 else xdec
  let yd := if plane = 0 then 0 else ydec
  (t.above boX boY xd yd).bind fun a =>
  (t.left boX boY xd yd).bind fun l =>
  some (smoothSide plane a || smoothSide plane l)

/-! ### The decoder knows the same -/

/-- A mode in the bitstream. -/
def PMode.spec : PMode → StoredMode
  | .intra .smooth => .smooth
  | .intra .smoothV => .smoothV
  | .intra .smoothH => .smoothH
  | _ => .other

/-- A block that is coded: where, how large and what `encode_block_post_cdef` remembers about it. -/
structure Coded where
  row : Nat
  col : Nat
  bw4 : Nat
  bh4 : Nat
  info : Info
  deriving DecidableEq, Repr

/-- What the decoder reads of it. -/
def Coded.spec (b : Coded) : Stored := ⟨b.row, b.col, b.bw4, b.bh4, b.info.luma.spec, b.info.chroma.spec, !b.info.intra⟩

/-- The encoder after some blocks. -/
def encodeAll (g : Geo) (t : MiTile) (l : List Coded) : MiTile :=
  l.foldl (fun t b => t.store (b.col - g.colStart) (b.row - g.rowStart) b.bw4 b.bh4 b.info) t

/-- The decoder after these blocks. -/
def decodeAll (g : Geo) (m : Modes) (l : List Coded) : Modes := l.foldl (fun m b => g.store m b.spec) m

/-- At a position that carries chroma the encoder remembers what the decoder has stored. -/
structure Same (g : Geo) (t : MiTile) (m : Modes) (r c : Nat) : Prop where
  luma : m.y r c = (t.at_ (r - g.rowStart) (c - g.colStart)).luma.spec
  inter : m.inter r c = !(t.at_ (r - g.rowStart) (c - g.colStart)).intra
  chroma : (g.subX = 1 → c % 2 = 1) → (g.subY = 1 → r % 2 = 1) → (t.at_ (r - g.rowStart) (c - g.colStart)).intra = true →
    m.uv r c = (t.at_ (r - g.rowStart) (c - g.colStart)).chroma.spec

/-- A block in the tile. -/
structure InTile (g : Geo) (b : Coded) : Prop where
  row : g.rowStart ≤ b.row
  col : g.colStart ≤ b.col
  oddW : b.bw4 % 2 = 0 ∨ b.bw4 = 1
  oddH : b.bh4 % 2 = 0 ∨ b.bh4 = 1

section
variable {g : Geo}

theorem encodeAll_dim (t : MiTile) (l : List Coded) : (encodeAll g t l).w = t.w ∧ (encodeAll g t l).h = t.h := by
  unfold encodeAll
  induction l generalizing t with
  | nil => exact ⟨rfl, rfl⟩
  | cons b l ih => rw [List.foldl_cons]; exact ih _

theorem store_same (T : Tile g) {t : MiTile} {m : Modes} {b : Coded} (hb : InTile g b) {r c : Nat} (hr : g.rowStart ≤ r) (hc : g.colStart ≤ c)
    (hr' : r - g.rowStart < t.h) (hc' : c - g.colStart < t.w) (h : b.spec.Covers r c ∨ Same g t m r c) :
    Same g (t.store (b.col - g.colStart) (b.row - g.rowStart) b.bw4 b.bh4 b.info) (g.store m b.spec) r c := by
  have h1 := hb.row
  have h2 := hb.col
  have hk : b.spec.Covers r c ↔ (b.row ≤ r ∧ r < b.row + b.bh4 ∧ b.col ≤ c ∧ c < b.col + b.bw4) := by
    unfold Spec.Stored.Covers Coded.spec; simp only; omega
  by_cases hcov : b.spec.Covers r c
  · have hin := hk.mp hcov
    have e : (t.store (b.col - g.colStart) (b.row - g.rowStart) b.bw4 b.bh4 b.info).at_ (r - g.rowStart) (c - g.colStart) = b.info := by
      unfold MiTile.store; simp only; rw [if_pos (by omega)]
    refine ⟨?_, ?_, fun ho1 ho2 hi => ?_⟩
    · rw [e]; exact if_pos hcov
    · rw [e]; exact if_pos hcov
    · rw [e] at hi ⊢
      refine if_pos ⟨hcov, by rw [Coded.spec, hi]; rfl, ?_⟩
      unfold Spec.Geo.has Coded.spec
      simp only [Bool.and_eq_true, Bool.or_eq_true, decide_eq_true_eq]
      have o1 := hb.oddW
      have := T.subX
      have := T.subY
      have o2 := hb.oddH
      omega
  · have hin := mt hk.mpr hcov
    have e : (t.store (b.col - g.colStart) (b.row - g.rowStart) b.bw4 b.bh4 b.info).at_ (r - g.rowStart) (c - g.colStart) = t.at_ (r - g.rowStart) (c - g.colStart) := by
      unfold MiTile.store; simp only; rw [if_neg (by omega)]
    obtain ⟨s1, s2, s3⟩ := h.resolve_left hcov
    refine ⟨?_, ?_, fun ho1 ho2 hi => ?_⟩
    · rw [e, ← s1]; exact if_neg hcov
    · rw [e, ← s2]; exact if_neg hcov
    · rw [e] at hi ⊢
      rw [← s3 ho1 ho2 hi]; exact if_neg fun h => hcov h.1

theorem all_same (T : Tile g) {l : List Coded} (hl : ∀ b ∈ l, InTile g b) {r c : Nat} (hr : g.rowStart ≤ r) (hc : g.colStart ≤ c) : ∀ (t : MiTile) (m : Modes),
    r - g.rowStart < t.h → c - g.colStart < t.w → ((∃ b ∈ l, b.spec.Covers r c) ∨ Same g t m r c) → Same g (encodeAll g t l) (decodeAll g m l) r c := by
  induction l with
  | nil =>
    intro t m _ _ h
    rcases h with ⟨b, hb, -⟩ | h
    · cases hb
    · exact h
  | cons b l ih =>
    intro t m h1 h2 h
    show Same g (encodeAll g (t.store (b.col - g.colStart) (b.row - g.rowStart) b.bw4 b.bh4 b.info) l) (decodeAll g (g.store m b.spec) l) r c
    refine ih (fun x hx => hl x (List.mem_cons_of_mem _ hx)) _ _ h1 h2 ?_
    by_cases hb : b.spec.Covers r c
    · exact Or.inr (store_same T (hl b (List.mem_cons_self ..)) hr hc h1 h2 (Or.inl hb))
    · rcases h with ⟨x, hx, hx'⟩ | h
      · rcases List.mem_cons.mp hx with rfl | hx
        · exact absurd hx' hb
        · exact Or.inl ⟨x, hx, hx'⟩
      · exact Or.inr (store_same T (hl b (List.mem_cons_self ..)) hr hc h1 h2 (Or.inr h))

theorem side_eq {t : MiTile} {m : Modes} {r c plane : Nat} (S : Same g t m r c) (h : plane ≠ 0 → (g.subX = 1 → c % 2 = 1) ∧ (g.subY = 1 → r % 2 = 1)) :
    smoothSide plane (some (t.at_ (r - g.rowStart) (c - g.colStart))) = m.isSmooth plane r c := by
  obtain ⟨s1, s2, s3⟩ := S
  unfold smoothSide Spec.Modes.isSmooth
  simp only
  by_cases h0 : plane = 0
  · subst h0
    rw [if_pos rfl, if_pos rfl, s1]
    cases (t.at_ (r - g.rowStart) (c - g.colStart)).luma with
    | inter => rfl
    | intra m => cases m <;> rfl
  · rw [if_neg h0, if_neg h0, s2]
    obtain ⟨h1, h2⟩ := h h0
    cases hi : (t.at_ (r - g.rowStart) (c - g.colStart)).intra with
    | false =>
      simp only [Bool.or_false, Bool.not_false, if_true]
      have : (plane == 0) = false := by simp [h0]
      rw [this]
      split <;> rfl
    | true =>
      rw [s3 h1 h2 hi]
      simp only [Bool.or_true, Bool.not_true, Bool.false_eq_true, if_false]
      cases (t.at_ (r - g.rowStart) (c - g.colStart)).chroma with
      | inter => rfl
      | intra m => cases m <;> rfl

/-- The positions next to a block of a plane: above it, or to the left of it.  The chroma of a block of four luma pixels covers the block before it,
too. -/
def NextTo (g : Geo) (plane : Nat) (b : Blk) (r c : Nat) : Prop :=
  let top := b.row - if plane ≠ 0 ∧ g.subY = 1 ∧ b.bh4 = 1 then 1 else 0
  let left := b.col - if plane ≠ 0 ∧ g.subX = 1 ∧ b.bw4 = 1 then 1 else 0
  (r + 1 = top ∧ left ≤ c ∧ c < b.col + b.bw4) ∨ (c + 1 = left ∧ top ≤ r ∧ r < b.row + b.bh4)

/-- The steps from a block to its neighbours in one direction: `dn` back, `up` forward. -/
theorem steps {d st e x b : Nat} (hd : d = 0 ∨ d = 1) (hst : st % 16 = 0) (he : e % 2 = 0) (hx : st ≤ x ∧ x < e) (hb : b = 1 ∨ (b % 2 = 0 ∧ b ≠ 0 ∧ x % 2 = 0))
    (h1 : d = 1 → x % 2 = 1 ∨ b % 2 = 0) :
    ∃ dn up : Nat, (if d = 1 ∧ b = 1 then 1 else 0) = dn ∧ (if d = 1 ∧ b = 1 then (2 : Int) else 1) = dn + 1 ∧
      (if d = 1 ∧ x % 2 = 1 then (x : Int) - 1 - 1 else (x : Int) - 1) = (x : Int) - dn - 1 ∧
      (if d = 1 ∧ x % 2 = 0 then (x : Int) + 1 else (x : Int)) = ((x + up : Nat) : Int) ∧
      (if (x - st) % 2 = 1 then sub? (x - st) d else some (x - st)) = some (x - st - dn) ∧
      (if (x - st) % 2 = 0 then x - st + d else x - st) = x - st + up ∧
      (dn ≤ x - st ∧ (d = 1 → (x - dn) % 2 = 0) ∧ dn ≤ 1) ∧ (x + up < e ∧ (d = 1 → (x + up) % 2 = 1) ∧ up < b) := by
  unfold sub?
  have hp : (x - st) % 2 = x % 2 := by omega
  rw [hp]
  rcases hd with rfl | rfl
  · refine ⟨0, 0, ?_⟩
    simp
    omega
  · rcases Nat.mod_two_eq_zero_or_one x with h | h
    · have hb' : b ≠ 1 := by have := h1 rfl; omega
      refine ⟨0, 1, ?_⟩
      simp [h, hb']
      omega
    · have hb' : b = 1 := by omega
      refine ⟨1, 0, ?_⟩
      subst hb'
      simp [h]
      omega

/-- **C58.** Whichever blocks of a tile have been coded, if they cover what is above and to the left of the next block, then the encoder chooses the
smooth filter for the edges of that block exactly when a decoder does, for each plane, and does not panic. -/
theorem smooth_eq_decoder (T : Tile g) {l : List Coded} (hl : ∀ b ∈ l, InTile g b) (i : Nat → Nat → Info) (m : Modes) {plane : Nat} {b : Blk}
    (hrow : g.rowStart ≤ b.row ∧ b.row < g.rowEnd) (hcol : g.colStart ≤ b.col ∧ b.col < g.colEnd)
    (hw : b.bw4 = 1 ∨ (b.bw4 % 2 = 0 ∧ b.bw4 ≠ 0 ∧ b.col % 2 = 0)) (hh : b.bh4 = 1 ∨ (b.bh4 % 2 = 0 ∧ b.bh4 ≠ 0 ∧ b.row % 2 = 0)) (hc : plane ≠ 0 → g.has b = true)
    (hcov : ∀ r c, g.rowStart ≤ r → r < g.rowEnd → g.colStart ≤ c → c < g.colEnd → NextTo g plane b r c → ∃ x ∈ l, x.spec.Covers r c) :
    (encodeAll g ⟨g.colEnd - g.colStart, g.rowEnd - g.rowStart, i⟩ l).smooth (b.col - g.colStart) (b.row - g.rowStart) plane g.subX g.subY =
      some (g.filterType (decodeAll g m l) plane b) := by
  obtain ⟨d1, d2⟩ := encodeAll_dim (g := g) ⟨g.colEnd - g.colStart, g.rowEnd - g.rowStart, i⟩ l
  have same : ∀ r c, g.rowStart ≤ r → r < g.rowEnd → g.colStart ≤ c → c < g.colEnd → NextTo g plane b r c →
      Same g (encodeAll g ⟨g.colEnd - g.colStart, g.rowEnd - g.rowStart, i⟩ l) (decodeAll g m l) r c := by
    intro r c h1 h2 h3 h4 h5
    exact all_same T hl h1 h3 _ _ (by simp only; omega) (by simp only; omega) (Or.inl (hcov r c h1 h2 h3 h4 h5))
  generalize encodeAll g ⟨g.colEnd - g.colStart, g.rowEnd - g.rowStart, i⟩ l = t at *
  generalize decodeAll g m l = m at *
  simp only at d1 d2
  have tX := T.subX
  have tY := T.subY
  have c16 := T.colStart
  have r16 := T.rowStart
  have rE : g.rowEnd % 2 = 0 := by have := T.rowEnd; have := T.rows; omega
  have cE : g.colEnd % 2 = 0 := by have := T.colEnd; have := T.cols; omega
  have hx : plane ≠ 0 → (b.col % 2 = 1 ∨ b.bw4 % 2 = 0 ∨ g.subX = 0) ∧ (b.row % 2 = 1 ∨ b.bh4 % 2 = 0 ∨ g.subY = 0) := by
    intro h
    have := hc h
    unfold Spec.Geo.has at this
    simp only [Bool.and_eq_true, Bool.or_eq_true, decide_eq_true_eq, or_assoc] at this
    exact ⟨this.2, this.1⟩
  unfold NextTo at same
  unfold MiTile.smooth Spec.Geo.filterType
  simp only
  have ex : (if plane = 0 then 0 else g.subX) = 1 ↔ plane ≠ 0 ∧ g.subX = 1 := by split <;> simp_all
  have ey : (if plane = 0 then 0 else g.subY) = 1 ↔ plane ≠ 0 ∧ g.subY = 1 := by split <;> simp_all
  have ex' : (if plane = 0 then 0 else g.subX) = 0 ∨ (if plane = 0 then 0 else g.subX) = 1 := by split; exact Or.inl rfl; exact tX
  have ey' : (if plane = 0 then 0 else g.subY) = 0 ∨ (if plane = 0 then 0 else g.subY) = 1 := by split; exact Or.inl rfl; exact tY
  have cond : ∀ {k : Nat} {q : Prop}, (plane > 0 ∧ k = 1 ∧ q) ↔ ((plane ≠ 0 ∧ k = 1) ∧ q) := by
    intro k q; rw [gt_iff_lt, Nat.pos_iff_ne_zero, and_assoc]
  have cond' : ∀ {k : Nat} {q : Prop}, (plane ≠ 0 ∧ k = 1 ∧ q) ↔ ((plane ≠ 0 ∧ k = 1) ∧ q) := by
    intro k q; rw [and_assoc]
  simp only [cond]
  simp only [cond'] at same
  simp only [← ex, ← ey] at same ⊢
  have hx1 : (if plane = 0 then 0 else g.subX) = 1 → (b.col % 2 = 1 ∨ b.bw4 % 2 = 0) := fun h => by
    obtain ⟨h1, h2⟩ := ex.mp h
    have := (hx h1).1; omega
  have hy1 : (if plane = 0 then 0 else g.subY) = 1 → (b.row % 2 = 1 ∨ b.bh4 % 2 = 0) := fun h => by
    obtain ⟨h1, h2⟩ := ey.mp h
    have := (hx h1).2; omega
  have side : ∀ {r c : Nat}, Same g t m r c → ((if plane = 0 then 0 else g.subX) = 1 → c % 2 = 1) → ((if plane = 0 then 0 else g.subY) = 1 → r % 2 = 1) →
      smoothSide plane (some (t.at_ (r - g.rowStart) (c - g.colStart))) = m.isSmooth plane r c := by
    intro r c S h1 h2
    exact side_eq S fun h0 => ⟨fun h => h1 (ex.mpr ⟨h0, h⟩), fun h => h2 (ey.mpr ⟨h0, h⟩)⟩
  generalize (if plane = 0 then 0 else g.subX) = xd at *
  generalize (if plane = 0 then 0 else g.subY) = yd at *
  clear ex ey cond cond' hx hcov hc
  have rS := hrow.1
  have cS := hcol.1
  obtain ⟨dy, uy, top, topI, iy, jy, py, qy, dyb, uyb⟩ := steps ey' r16 rE hrow hh hy1
  obtain ⟨dx, ux, lft, lftI, ix, jx, px, qx, dxb, uxb⟩ := steps ex' c16 cE hcol hw hx1
  rw [top, lft] at same
  rw [iy, ix, jy, jx]
  clear iy ix jy jx top lft hx1 hy1 ex' ey' tX tY c16 r16 rE cE hw hh hl T
  have hA : ∃ a, t.above (b.col - g.colStart) (b.row - g.rowStart) xd yd = some a ∧
      smoothSide plane a = if Spec.Geo.availU { g with subX := xd, subY := yd } b = true then
        m.isSmooth plane ((b.row : Int) - dy - 1) ((b.col + ux : Nat) : Int) else false := by
    unfold MiTile.above Spec.Geo.availU Spec.Geo.isInside
    simp only
    rw [py, Option.bind_some, qx, topI]
    clear py qx topI px qy lftI
    by_cases h0 : b.row - g.rowStart - dy = 0
    · rw [if_pos h0]
      refine ⟨none, rfl, ?_⟩
      rw [decide_eq_false (show ¬ (g.rowStart : Int) ≤ (b.row : Int) - (dy + 1) by omega)]
      simp [smoothSide]
    · rw [if_neg h0]
      have S := same (b.row - dy - 1) (b.col + ux) (by omega) (by omega) (by omega) uxb.1 (Or.inl ⟨by omega, by omega, by omega⟩)
      have sd := side S uxb.2.1 (by intro h; have := dyb.2.1 h; omega)
      rw [show b.row - dy - 1 - g.rowStart = b.row - g.rowStart - dy - 1 by omega, show b.col + ux - g.colStart = b.col - g.colStart + ux by omega] at sd
      refine ⟨some (t.at_ (b.row - g.rowStart - dy - 1) (b.col - g.colStart + ux)), ?_, ?_⟩
      · unfold MiTile.get
        rw [if_pos ⟨by omega, by omega⟩]; rfl
      · rw [sd, decide_eq_true (show (g.rowStart : Int) ≤ (b.row : Int) - (dy + 1) by omega), decide_eq_true (show (b.row : Int) - (dy + 1) < g.rowEnd by omega),
          decide_eq_true (show (g.colStart : Int) ≤ b.col by omega), decide_eq_true (show (b.col : Int) < g.colEnd by omega)]
        simp only [Bool.and_self, if_true]
        congr 1
        omega
  have hL : ∃ a, t.left (b.col - g.colStart) (b.row - g.rowStart) xd yd = some a ∧
      smoothSide plane a = if Spec.Geo.availL { g with subX := xd, subY := yd } b = true then
        m.isSmooth plane ((b.row + uy : Nat) : Int) ((b.col : Int) - dx - 1) else false := by
    unfold MiTile.left Spec.Geo.availL Spec.Geo.isInside
    simp only
    rw [px, Option.bind_some, qy, lftI]
    clear py qx topI px qy lftI
    by_cases h0 : b.col - g.colStart - dx = 0
    · rw [if_pos h0]
      refine ⟨none, rfl, ?_⟩
      rw [decide_eq_false (show ¬ (g.colStart : Int) ≤ (b.col : Int) - (dx + 1) by omega)]
      simp [smoothSide]
    · rw [if_neg h0]
      have S := same (b.row + uy) (b.col - dx - 1) (by omega) uyb.1 (by omega) (by omega) (Or.inr ⟨by omega, by omega, by omega⟩)
      have sd := side S (by intro h; have := dxb.2.1 h; omega) uyb.2.1
      rw [show b.col - dx - 1 - g.colStart = b.col - g.colStart - dx - 1 by omega, show b.row + uy - g.rowStart = b.row - g.rowStart + uy by omega] at sd
      refine ⟨some (t.at_ (b.row - g.rowStart + uy) (b.col - g.colStart - dx - 1)), ?_, ?_⟩
      · unfold MiTile.get
        rw [if_pos ⟨by omega, by omega⟩]; rfl
      · rw [sd, decide_eq_true (show (g.colStart : Int) ≤ (b.col : Int) - (dx + 1) by omega), decide_eq_true (show (b.col : Int) - (dx + 1) < g.colEnd by omega),
          decide_eq_true (show (g.rowStart : Int) ≤ b.row by omega), decide_eq_true (show (b.row : Int) < g.rowEnd by omega)]
        simp only [Bool.and_self, if_true]
        congr 1
        omega
  obtain ⟨a, a1, a2⟩ := hA
  obtain ⟨l, l1, l2⟩ := hL
  rw [a1, l1, Option.bind_some, Option.bind_some, a2, l2]

end

/-! ### Four 4x4 blocks in the second tile of `exGeo`, below a block with smooth chroma -/

/-- An 8x8 block with smooth chroma, an inter block to the left of the next, and the first three of four 4x4 blocks. -/
def exCoded : List Coded :=
  [⟨0, 18, 2, 2, ⟨.intra .dc, .intra .smoothH, true⟩⟩, ⟨2, 16, 2, 2, ⟨.inter, .inter, false⟩⟩, ⟨2, 18, 1, 1, ⟨.intra .smooth, .intra .dc, true⟩⟩,
    ⟨2, 19, 1, 1, ⟨.intra .d45, .intra .dc, true⟩⟩, ⟨3, 18, 1, 1, ⟨.intra .v, .intra .dc, true⟩⟩]

/-- The hypotheses of `smooth_eq_decoder` are met for the chroma of the fourth block. -/
example (i : Nat → Nat → Info) (m : Modes) :
    (encodeAll exGeo ⟨24, 20, i⟩ exCoded).smooth 3 3 1 1 1 = some (exGeo.filterType (decodeAll exGeo m exCoded) 1 ⟨3, 19, 1, 1, 1, 1⟩) := by
  refine smooth_eq_decoder (b := ⟨3, 19, 1, 1, 1, 1⟩) exTile (fun b hb => ?_) i m (by decide) (by decide) (Or.inl rfl) (Or.inl rfl) (fun _ => by decide) (fun r c h1 h2 h3 h4 h5 => ?_)
  · simp only [exCoded, List.mem_cons, List.not_mem_nil, or_false] at hb
    rcases hb with rfl | rfl | rfl | rfl | rfl <;> exact ⟨by decide, by decide, by decide, by decide⟩
  · have h6 : (r = 1 ∧ (c = 18 ∨ c = 19)) ∨ (c = 17 ∧ (r = 2 ∨ r = 3)) := by
      unfold NextTo exGeo at h5
      simp at h5
      omega
    rcases h6 with ⟨rfl, rfl | rfl⟩ | ⟨rfl, rfl | rfl⟩
    · exact ⟨⟨0, 18, 2, 2, ⟨.intra .dc, .intra .smoothH, true⟩⟩, by decide, by decide⟩
    · exact ⟨⟨0, 18, 2, 2, ⟨.intra .dc, .intra .smoothH, true⟩⟩, by decide, by decide⟩
    · exact ⟨⟨2, 16, 2, 2, ⟨.inter, .inter, false⟩⟩, by decide, by decide⟩
    · exact ⟨⟨2, 16, 2, 2, ⟨.inter, .inter, false⟩⟩, by decide, by decide⟩

/-- The flag is set for chroma because of the block above, and would not be for luma. -/
example : (encodeAll exGeo ⟨24, 20, fun _ _ => ⟨.intra .dc, .intra .dc, true⟩⟩ exCoded).smooth 3 3 1 1 1 = some true ∧
    (encodeAll exGeo ⟨24, 20, fun _ _ => ⟨.intra .dc, .intra .dc, true⟩⟩ exCoded).smooth 3 3 0 1 1 = some false ∧
    (encodeAll exGeo ⟨24, 20, fun _ _ => ⟨.intra .dc, .intra .dc, true⟩⟩ exCoded).smooth 3 2 0 1 1 = some true := by
  decide +kernel

end Rav1e.Intra

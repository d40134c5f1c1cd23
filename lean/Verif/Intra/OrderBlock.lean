import Verif.Intra.OrderSpec
import Mathlib.Tactic.Ring
import Mathlib.Tactic.Linarith

/-!
# Which neighbours are decoded: one block
-/

namespace Rav1e.Intra

open Spec (Geo Blk Event State Tree)

/-- `transform_block` in units of the plane, relative to the superblock; `FH`, `FW` is the end of the frame. -/
def relTx (FH FW Y X : Nat) (b : Blk) (y x : Nat) (s : State) : State :=
  if FW ≤ X + x ∨ FH ≤ Y + y then s
  else
    { decoded := fun i j => if ((Y + y : Nat) : Int) ≤ i ∧ i < ((Y + y : Nat) : Int) + b.th ∧ ((X + x : Nat) : Int) ≤ j ∧ j < ((X + x : Nat) : Int) + b.tw then true else s.decoded i j
      events := s.events ++ [⟨b, x, y, s.decoded (((Y + y : Nat) : Int) - 1) (((X + x : Nat) : Int) + b.tw), s.decoded (((Y + y : Nat) : Int) + b.th) (((X + x : Nat) : Int) - 1)⟩] }

/-- The decoded cells around a square or a block of `H` rows and `W` columns, before it is decoded. -/
structure Pre (D : Int → Int → Bool) (FH FW Y X H W : Nat) (tr bl : Bool) : Prop where
  above : ∀ x : Int, X ≤ x → x < X + W → x < FW → D (Y - 1) x = true
  left : ∀ y : Int, Y ≤ y → y < Y + H → y < FH → D y (X - 1) = true
  tr : X + W < FW → D (Y - 1) (X + W) = tr
  bl : Y + H < FH → D (Y + H) (X - 1) = bl
  later : ∀ y x : Int, Y ≤ y → y ≤ Y + H → X ≤ x → x ≤ X + W → D y x = false

/-- What decoding it changes. -/
structure Post (D D' : Int → Int → Bool) (FH FW Y X H W : Nat) : Prop where
  outside : ∀ y x : Int, ¬ (Y ≤ y ∧ y < Y + H ∧ X ≤ x ∧ x < X + W) → D' y x = D y x
  inside : ∀ y x : Int, Y ≤ y → y < Y + H → X ≤ x → x < X + W → y < FH → x < FW → D' y x = true

/-- The events of a row of transform blocks. -/
theorem row_ok {FH FW Y X : Nat} {b : Blk} {y : Nat} (s : State) (n : Nat) :
    let s' := (List.range n).foldl (fun s j => relTx FH FW Y X b y (j * b.tw) s) s
    Post s.decoded s'.decoded FH FW (Y + y) X b.th (n * b.tw) ∧
    ∀ e ∈ s'.events, e ∈ s.events ∨ (e.blk = b ∧ e.y = y ∧ (∃ j < n, e.x = j * b.tw) ∧ X + e.x < FW ∧ Y + y < FH ∧
      e.aboveRt = s.decoded (((Y + y : Nat) : Int) - 1) (((X + e.x : Nat) : Int) + b.tw) ∧
      e.belowLft = s.decoded (((Y + y : Nat) : Int) + b.th) (((X + e.x : Nat) : Int) - 1)) := by
  induction n with
  | zero => exact ⟨⟨fun _ _ _ => rfl, fun _ _ _ _ h1 h2 => by simp at h2; omega⟩, fun e he => Or.inl he⟩
  | succ n ih =>
    intro s'
    obtain ⟨P, E⟩ := ih
    have hs : s' = relTx FH FW Y X b y (n * b.tw) ((List.range n).foldl (fun s j => relTx FH FW Y X b y (j * b.tw) s) s) := by
      show (List.range (n + 1)).foldl _ s = _
      rw [List.range_succ, List.foldl_append]
      rfl
    generalize (List.range n).foldl (fun s j => relTx FH FW Y X b y (j * b.tw) s) s = s1 at P E hs
    have hm : ((n + 1) * b.tw : Nat) = n * b.tw + b.tw := by rw [Nat.add_mul, Nat.one_mul]
    rw [hs, hm]
    generalize hx : n * b.tw = x at *
    unfold relTx
    by_cases hf : FW ≤ X + x ∨ FH ≤ Y + y
    · rw [if_pos hf]
      refine ⟨⟨fun i j h => P.outside i j (by omega), fun i j h1 h2 h3 h4 h5 h6 => P.inside i j h1 h2 h3 (by omega) h5 h6⟩, fun e he => ?_⟩
      rcases E e he with h | ⟨h1, h2, ⟨k, hk, h3⟩, h4⟩
      · exact Or.inl h
      · exact Or.inr ⟨h1, h2, ⟨k, by omega, h3⟩, h4⟩
    · rw [if_neg hf]
      refine ⟨⟨fun i j h => ?_, fun i j h1 h2 h3 h4 h5 h6 => ?_⟩, fun e he => ?_⟩
      · show (if _ then true else s1.decoded i j) = _
        rw [if_neg (by omega)]
        exact P.outside i j (by omega)
      · show (if _ then true else s1.decoded i j) = _
        split
        · rfl
        · exact P.inside i j h1 h2 h3 (by omega) h5 h6
      · rcases List.mem_append.mp he with he | he
        · rcases E e he with h | ⟨h1, h2, ⟨k, hk, h3⟩, h4⟩
          · exact Or.inl h
          · exact Or.inr ⟨h1, h2, ⟨k, by omega, h3⟩, h4⟩
        · right
          rw [List.mem_singleton] at he
          subst he
          refine ⟨rfl, rfl, ⟨n, by omega, hx.symm⟩, by show X + x < FW; omega, by omega, ?_, ?_⟩
          · exact P.outside _ _ (by omega)
          · exact P.outside _ _ (by omega)

/-- A transform block of a block of `H` rows and `W` columns: its flags. -/
structure Flags (FH FW Y X H W : Nat) (tr bl : Bool) (b : Blk) (e : Event) : Prop where
  blk : e.blk = b
  x : b.tw ∣ e.x ∧ e.x + b.tw ≤ W
  y : b.th ∣ e.y ∧ e.y + b.th ≤ H
  inX : X + e.x < FW
  inY : Y + e.y < FH
  aboveRt : X + e.x + b.tw < FW → e.aboveRt = if e.x + b.tw < W then true else if e.y = 0 then tr else false
  belowLft : Y + e.y + b.th < FH → e.belowLft = if 0 < e.x then false else if e.y + b.th < H then true else bl

theorem loops_ok {FH FW Y X H W : Nat} {tr bl : Bool} {b : Blk} {s : State} (P : Pre s.decoded FH FW Y X H W tr bl) (n m : Nat)
    (hn : n * b.th ≤ H) (hm : m * b.tw = W) (ht : 0 < b.th) (hw : 0 < b.tw) :
    let s' := (List.range n).foldl (fun s i => (List.range m).foldl (fun s j => relTx FH FW Y X b (i * b.th) (j * b.tw) s) s) s
    Post s.decoded s'.decoded FH FW Y X (n * b.th) W ∧
    ∀ e ∈ s'.events, e ∈ s.events ∨ Flags FH FW Y X H W tr bl b e := by
  induction n with
  | zero => exact ⟨⟨fun _ _ _ => rfl, fun _ _ _ h1 _ _ => by simp at h1; omega⟩, fun e he => Or.inl he⟩
  | succ n ih =>
    intro s'
    have he2 : (n + 1) * b.th = n * b.th + b.th := by rw [Nat.add_mul, Nat.one_mul]
    obtain ⟨Q, E⟩ := ih (by omega)
    have hs : s' = (List.range m).foldl (fun s j => relTx FH FW Y X b (n * b.th) (j * b.tw) s)
        ((List.range n).foldl (fun s i => (List.range m).foldl (fun s j => relTx FH FW Y X b (i * b.th) (j * b.tw) s) s) s) := by
      show (List.range (n + 1)).foldl _ s = _
      rw [List.range_succ, List.foldl_append]
      rfl
    generalize (List.range n).foldl (fun s i => (List.range m).foldl (fun s j => relTx FH FW Y X b (i * b.th) (j * b.tw) s) s) s = s1 at Q E hs
    obtain ⟨R, F⟩ := row_ok (FH := FH) (FW := FW) (Y := Y) (X := X) (b := b) (y := n * b.th) s1 m
    rw [← hs, hm] at R
    rw [← hs] at F
    rw [he2] at hn ⊢
    have hyd : b.th ∣ n * b.th := Nat.dvd_mul_left _ _
    generalize hy : n * b.th = y at *
    refine ⟨⟨fun i j h => ?_, fun i j h1 h2 h3 h4 h5 h6 => ?_⟩, fun e he => ?_⟩
    · rw [R.outside i j (by omega)]
      exact Q.outside i j (by omega)
    · by_cases hi : (y : Int) + Y ≤ i
      · exact R.inside i j (by omega) (by omega) h3 h4 h5 h6
      · rw [R.outside i j (by omega)]
        exact Q.inside i j h1 (by omega) h3 h4 h5 h6
    · rcases F e he with he | ⟨e1, e2, ⟨k, hk, e3⟩, e4, e5, e6, e7⟩
      · exact E e he
      · right
        have hkw : e.x + b.tw ≤ W := by
          rw [e3, ← hm]
          calc k * b.tw + b.tw = (k + 1) * b.tw := by rw [Nat.add_mul, Nat.one_mul]
            _ ≤ m * b.tw := Nat.mul_le_mul_right _ hk
        refine ⟨e1, ⟨by rw [e3]; exact Nat.dvd_mul_left _ _, hkw⟩, ⟨by rw [e2]; exact hyd, by omega⟩, e4, by omega, fun hF => ?_, fun hF => ?_⟩
        · rw [e6, e2]
          by_cases hx : e.x + b.tw < W
          · rw [if_pos hx]
            by_cases hy0 : y = 0
            · rw [Q.outside _ _ (by omega)]
              have := P.above ((X + e.x : Nat) + b.tw) (by omega) (by omega) (by omega)
              rwa [show ((Y + y : Nat) : Int) - 1 = (Y : Int) - 1 by omega]
            · exact Q.inside _ _ (by omega) (by omega) (by omega) (by omega) (by omega) (by omega)
          · rw [if_neg hx, Q.outside _ _ (by omega)]
            by_cases hy0 : y = 0
            · rw [if_pos hy0, ← P.tr (by omega)]
              congr 1 <;> omega
            · rw [if_neg hy0]
              exact P.later _ _ (by omega) (by omega) (by omega) (by omega)
        · rw [e7, Q.outside _ _ (by omega)]
          by_cases hx : 0 < e.x
          · rw [if_pos hx]
            exact P.later _ _ (by omega) (by omega) (by omega) (by omega)
          · rw [if_neg hx]
            have hx1 : ((X + e.x : Nat) : Int) - 1 = (X : Int) - 1 := by omega
            rw [hx1]
            by_cases hy1 : e.y + b.th < H
            · rw [if_pos hy1]
              exact P.left _ (by omega) (by omega) (by omega)
            · rw [if_neg hy1, ← P.bl (by omega)]
              congr 1; omega

/-- The superblock at `r0`, `c0`, in the tile and in the frame. -/
structure Sb (g : Geo) (r0 c0 : Nat) : Prop where
  row0 : r0 % 16 = 0
  col0 : c0 % 16 = 0
  subX : g.subX = 0 ∨ g.subX = 1
  subY : g.subY = 0 ∨ g.subY = 1
  sampling : g.subY = 1 → g.subX = 1
  rows : g.miRows % 2 = 0
  cols : g.miCols % 2 = 0
  rowEnd : g.rowEnd ≤ g.miRows
  colEnd : g.colEnd ≤ g.miCols
  rowIn : r0 < g.rowEnd
  colIn : c0 < g.colEnd
  rowTile : g.rowEnd = g.miRows ∨ r0 + 16 ≤ g.rowEnd
  colTile : g.colEnd = g.miCols ∨ c0 + 16 ≤ g.colEnd

/-- The end of the frame in the plane, relative to the superblock. -/
def fh (g : Geo) (r0 : Nat) : Nat := (g.miRows - r0) >>> g.subY
@[inherit_doc fh] def fw (g : Geo) (c0 : Nat) : Nat := (g.miCols - c0) >>> g.subX

theorem rel_ok {g : Geo} {r0 c0 : Nat} (S : Sb g r0 c0) {b : Blk} {y x : Nat} (hr : r0 ≤ b.row) (hc : c0 ≤ b.col)
    (hy : ((b.row - r0) >>> g.subY) + y < 16 >>> g.subY) (hx : ((b.col - c0) >>> g.subX) + x < 16 >>> g.subX) (s : State) :
    g.transformBlock b y x s = relTx (fh g r0) (fw g c0) ((b.row - r0) >>> g.subY) ((b.col - c0) >>> g.subX) b y x s := by
  obtain ⟨h1, h2, h3, h4, -, h5, h6, h7, h8, h9, h10, h11, h12⟩ := S
  unfold Spec.Geo.transformBlock relTx fh fw
  simp only
  have ey : ((((b.row >>> g.subY) + y) <<< g.subY) % 16) >>> g.subY = ((b.row - r0) >>> g.subY) + y := by
    rcases h4 with h | h <;> rw [h] at hy ⊢ <;> simp only [Nat.shiftRight_eq_div_pow, Nat.shiftLeft_eq] at hy ⊢ <;> omega
  have ex : ((((b.col >>> g.subX) + x) <<< g.subX) % 16) >>> g.subX = ((b.col - c0) >>> g.subX) + x := by
    rcases h3 with h | h <;> rw [h] at hx ⊢ <;> simp only [Nat.shiftRight_eq_div_pow, Nat.shiftLeft_eq] at hx ⊢ <;> omega
  have cy : (((b.row >>> g.subY) + y) * 4 ≥ (g.miRows * 4) >>> g.subY) ↔ (g.miRows - r0) >>> g.subY ≤ ((b.row - r0) >>> g.subY) + y := by
    rcases h4 with h | h <;> rw [h] at hy ⊢ <;> simp only [Nat.shiftRight_eq_div_pow] at hy ⊢ <;> omega
  have cx : (((b.col >>> g.subX) + x) * 4 ≥ (g.miCols * 4) >>> g.subX) ↔ (g.miCols - c0) >>> g.subX ≤ ((b.col - c0) >>> g.subX) + x := by
    rcases h3 with h | h <;> rw [h] at hx ⊢ <;> simp only [Nat.shiftRight_eq_div_pow] at hx ⊢ <;> omega
  rw [ey, ex]
  simp only [cx, cy]

theorem foldl_congr {α β : Type _} {f g : α → β → α} {l : List β} (h : ∀ a, ∀ b ∈ l, f a b = g a b) (a : α) : l.foldl f a = l.foldl g a := by
  induction l generalizing a with
  | nil => rfl
  | cons b l ih =>
    rw [List.foldl_cons, List.foldl_cons, h a b (List.mem_cons_self ..), ih fun a b hb => h a b (List.mem_cons_of_mem _ hb)]

/-- A block. -/
theorem residual_ok {g : Geo} {r0 c0 : Nat} (S : Sb g r0 c0) {b : Blk} (hr : r0 ≤ b.row) (hc : c0 ≤ b.col) (hh : g.has b = true)
    (hy : ((b.row - r0) >>> g.subY) + g.planeH b ≤ 16 >>> g.subY) (hx : ((b.col - c0) >>> g.subX) + g.planeW b ≤ 16 >>> g.subX)
    (hf : g.Fits b.bw4 b.bh4 b.tw b.th) {s : State} {tr bl : Bool}
    (P : Pre s.decoded (fh g r0) (fw g c0) ((b.row - r0) >>> g.subY) ((b.col - c0) >>> g.subX) (g.planeH b) (g.planeW b) tr bl) :
    Post s.decoded (g.residual b s).decoded (fh g r0) (fw g c0) ((b.row - r0) >>> g.subY) ((b.col - c0) >>> g.subX) (g.planeH b) (g.planeW b) ∧
    ∀ e ∈ (g.residual b s).events, e ∈ s.events ∨
      Flags (fh g r0) (fw g c0) ((b.row - r0) >>> g.subY) ((b.col - c0) >>> g.subX) (g.planeH b) (g.planeW b) tr bl b e := by
  obtain ⟨f1, f2⟩ := hf
  have pw : 0 < g.planeW b := by unfold Spec.Geo.planeW; omega
  have ph : 0 < g.planeH b := by unfold Spec.Geo.planeH; omega
  have ht : 0 < b.th := Nat.pos_of_dvd_of_pos f2 ph
  have hw : 0 < b.tw := Nat.pos_of_dvd_of_pos f1 pw
  have hm : g.planeW b / b.tw * b.tw = g.planeW b := Nat.div_mul_cancel f1
  have hn : g.planeH b / b.th * b.th = g.planeH b := Nat.div_mul_cancel f2
  have hres : g.residual b s = (List.range (g.planeH b / b.th)).foldl (fun s i => (List.range (g.planeW b / b.tw)).foldl (fun s j =>
      relTx (fh g r0) (fw g c0) ((b.row - r0) >>> g.subY) ((b.col - c0) >>> g.subX) b (i * b.th) (j * b.tw) s) s) s := by
    unfold Spec.Geo.residual
    rw [if_pos hh]
    refine foldl_congr (fun s i hi => ?_) s
    refine foldl_congr (fun s j hj => ?_) s
    have hi' : (i + 1) * b.th ≤ g.planeH b := by rw [← hn]; exact Nat.mul_le_mul_right _ (List.mem_range.mp hi)
    have hj' : (j + 1) * b.tw ≤ g.planeW b := by rw [← hm]; exact Nat.mul_le_mul_right _ (List.mem_range.mp hj)
    rw [Nat.add_mul, Nat.one_mul] at hi' hj'
    exact rel_ok S hr hc (by omega) (by omega) s
  have := loops_ok P (g.planeH b / b.th) (g.planeW b / b.tw) (by omega) hm ht hw
  rw [← hres, hn] at this
  exact this

end Rav1e.Intra

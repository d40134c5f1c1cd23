import Verif.Block.Blk

/-!
# Partition contexts

The arrays of the encoder have the code of the size of the block above and to the left.
-/

namespace Rav1e.Block

open Mvref (GeoOk)
open Spec (Sym)

/-- The code of a size (src/context/partition_unit.rs:15-38). -/
def code (w h : Nat) : Nat × Nat := partitionContextLookup.getD (bsizeIdx w h) (0, 0)

theorem code_bit {w h k : Nat} (hs : Size w h) (h1 : 1 ≤ k) (h4 : k ≤ 4) :
    ((code w h).1 >>> (k - 1)) &&& 1 = (if Nat.log2 w < k then 1 else 0) ∧ ((code w h).2 >>> (k - 1)) &&& 1 = (if Nat.log2 h < k then 1 else 0) := by
  unfold Size at hs
  simp only [List.mem_cons, Prod.mk.injEq, List.not_mem_nil, or_false] at hs
  interval_cases k <;>
    (rcases hs with ⟨rfl, rfl⟩ | ⟨rfl, rfl⟩ | ⟨rfl, rfl⟩ | ⟨rfl, rfl⟩ | ⟨rfl, rfl⟩ | ⟨rfl, rfl⟩ | ⟨rfl, rfl⟩ | ⟨rfl, rfl⟩ | ⟨rfl, rfl⟩ | ⟨rfl, rfl⟩ | ⟨rfl, rfl⟩ | ⟨rfl, rfl⟩ | ⟨rfl, rfl⟩ <;>
      decide)

/-- The entries above the columns from `x` on have the codes of the blocks there. -/
def AboveOk (C : Cfg) (S : State) (x y n : Nat) : Prop :=
  ∀ j, x ≤ j → j < x + n → j < C.cols → y = 0 ∧ S.aboveP (j / 2) = 0 ∨
    0 < y ∧ ∃ b, S.dec C (C.y + (y - 1)) (C.x + j) = some b ∧ Size b.bw4 b.bh4 ∧ S.aboveP (j / 2) = (code b.bw4 b.bh4).1

/-- The entries to the left of the rows from `y` on have the codes of the blocks there. -/
def LeftOk (C : Cfg) (S : State) (x y n : Nat) : Prop :=
  ∀ i, y ≤ i → i < y + n → i < C.rows → x = 0 ∧ S.leftP (i % 16 / 2) = 0 ∨
    0 < x ∧ ∃ b, S.dec C (C.y + i) (C.x + (x - 1)) = some b ∧ Size b.bw4 b.bh4 ∧ S.leftP (i % 16 / 2) = (code b.bw4 b.bh4).2

/-- What coding a square leaves as it was. -/
structure Kept (C : Cfg) (S S' : State) (x y n : Nat) : Prop where
  above : ∀ k, k < x / 2 ∨ (x + n) / 2 ≤ k → S'.aboveP k = S.aboveP k
  left : ∀ k, k < y % 16 / 2 ∨ (y % 16 + n) / 2 ≤ k → S'.leftP k = S.leftP k
  dec : ∀ i j, i < y ∨ y + n ≤ i ∨ j < x ∨ x + n ≤ j → S'.dec C (C.y + i) (C.x + j) = S.dec C (C.y + i) (C.x + j)

variable {C : Cfg} {S S' S'' : State}

theorem Kept.refl (x y n : Nat) : Kept C S S x y n := ⟨fun _ _ => rfl, fun _ _ => rfl, fun _ _ _ => rfl⟩

theorem Kept.trans {x y n : Nat} (h : Kept C S S' x y n) (h' : Kept C S' S'' x y n) : Kept C S S'' x y n :=
  ⟨fun k hk => (h'.above k hk).trans (h.above k hk), fun k hk => (h'.left k hk).trans (h.left k hk), fun i j hij => (h'.dec i j hij).trans (h.dec i j hij)⟩

theorem Kept.mono {x y n x' y' n' : Nat} (h : Kept C S S' x' y' n') (hx : x ≤ x') (hx' : x' + n' ≤ x + n) (hy : y ≤ y') (hy' : y' + n' ≤ y + n)
    (hm : y % 16 ≤ y' % 16) (hm' : y' % 16 + n' ≤ y % 16 + n) : Kept C S S' x y n :=
  ⟨fun k hk => h.above k (by omega), fun k hk => h.left k (by omega), fun i j hij => h.dec i j (by omega)⟩

theorem AboveOk.sub {x y n x' n' : Nat} (h : AboveOk C S x y n) (hx : x ≤ x') (hn : x' + n' ≤ x + n) : AboveOk C S x' y n' :=
  fun j h1 h2 h3 => h j (by omega) (by omega) h3

theorem LeftOk.sub {x y n y' n' : Nat} (h : LeftOk C S x y n) (hy : y ≤ y') (hn : y' + n' ≤ y + n) : LeftOk C S x y' n' :=
  fun j h1 h2 h3 => h j (by omega) (by omega) h3

theorem AboveOk.keep {x y n x' y' n' : Nat} (h : AboveOk C S x y n) (K : Kept C S S' x' y' n') (e1 : x' % 2 = 0) (e2 : n' % 2 = 0)
    (hd : x + n ≤ x' ∨ x' + n' ≤ x) : AboveOk C S' x y n := by
  intro j h1 h2 h3
  rw [K.above (j / 2) (by omega), K.dec (y - 1) j (by omega)]
  exact h j h1 h2 h3

theorem LeftOk.keep {x y n x' y' n' : Nat} (h : LeftOk C S x y n) (K : Kept C S S' x' y' n') (e1 : y' % 2 = 0) (e2 : n' % 2 = 0)
    (hs : y / 16 = y' / 16) (hw : y % 16 + n ≤ 16) (hd : y + n ≤ y' ∨ y' + n' ≤ y) : LeftOk C S' x y n := by
  intro i h1 h2 h3
  rw [K.left (i % 16 / 2) (by omega), K.dec i (x - 1) (by omega)]
  exact h i h1 h2 h3

theorem AboveOk.glue {x y n m : Nat} (h : AboveOk C S x y n) (h' : AboveOk C S (x + n) y m) : AboveOk C S x y (n + m) := by
  intro j h1 h2 h3
  by_cases hj : j < x + n
  · exact h j h1 hj h3
  · exact h' j (by omega) (by omega) h3

theorem LeftOk.glue {x y n m : Nat} (h : LeftOk C S x y n) (h' : LeftOk C S x (y + n) m) : LeftOk C S x y (n + m) := by
  intro j h1 h2 h3
  by_cases hj : j < y + n
  · exact h j h1 hj h3
  · exact h' j (by omega) (by omega) h3

/-- The square is covered by blocks of one size. -/
def Filled (C : Cfg) (S : State) (x y n w h : Nat) : Prop :=
  ∀ i j, y ≤ i → i < y + n → x ≤ j → j < x + n → i < C.rows → j < C.cols → ∃ b, S.dec C (C.y + i) (C.x + j) = some b ∧ b.bw4 = w ∧ b.bh4 = h

theorem update_kept {x y n w h : Nat} : Kept C S (updatePartition S x y n w h) x y n := by
  refine ⟨fun k hk => ?_, fun k hk => ?_, fun _ _ _ => rfl⟩
  · unfold updatePartition
    dsimp only
    rw [if_neg]
    simp only [Nat.shiftRight_eq_div_pow, Nat.pow_one]
    omega
  · unfold updatePartition
    dsimp only
    rw [if_neg]
    simp only [Nat.shiftRight_eq_div_pow, Nat.pow_one]
    omega

theorem update_above {x y n w h : Nat} (hs : Size w h) (F : Filled C S x y n w h) (hx : x % 2 = 0) (hn : n % 2 = 0) (h0 : 0 < n) (hr : y + n ≤ C.rows) :
    AboveOk C (updatePartition S x y n w h) x (y + n) n := by
  intro j h1 h2 h3
  obtain ⟨b, hb, rfl, rfl⟩ := F (y + n - 1) j (by omega) (by omega) h1 h2 (by omega) h3
  refine .inr ⟨by omega, b, hb, hs, ?_⟩
  unfold updatePartition
  dsimp only
  rw [if_pos]
  · rfl
  · simp only [Nat.shiftRight_eq_div_pow, Nat.pow_one]
    omega

theorem update_left {x y n w h : Nat} (hs : Size w h) (F : Filled C S x y n w h) (hy : y % 2 = 0) (hn : n % 2 = 0) (h0 : 0 < n) (hw : y % 16 + n ≤ 16)
    (hr : x + n ≤ C.cols) : LeftOk C (updatePartition S x y n w h) (x + n) y n := by
  intro i h1 h2 h3
  obtain ⟨b, hb, rfl, rfl⟩ := F i (x + n - 1) h1 h2 (by omega) (by omega) h3 (by omega)
  refine .inr ⟨by omega, b, hb, hs, ?_⟩
  unfold updatePartition
  dsimp only
  rw [if_pos]
  · rfl
  · simp only [Nat.shiftRight_eq_div_pow, Nat.pow_one]
    omega

/-! ### The syntax -/

theorem look_some {r c : Nat} {b : Spec.Blk} (hr : r < C.rows) (hc : c < C.cols) (hb : S.dec C (C.y + r) (C.x + c) = some b) :
    C.par.look (S.dec C) ((C.y + r : Nat) : Int) ((C.x + c : Nat) : Int) = some (some b) := by
  unfold Spec.Par.look
  rw [if_pos (Mvref.isInside_iff.mpr ⟨by show C.y ≤ _; omega, by show _ < C.y + C.rows; omega, by show C.x ≤ _; omega, by show _ < C.x + C.cols; omega⟩),
    Int.toNat_natCast, Int.toNat_natCast, hb]
  rfl

theorem AboveOk.look {x y n k : Nat} (h : AboveOk C S x y n) (h0 : 0 < n) (hx : x < C.cols) (hy : y < C.rows) (h1 : 1 ≤ k) (h4 : k ≤ 4) :
    ∃ a', C.par.look (S.dec C) (((C.y + y : Nat) : Int) - 1) ((C.x + x : Nat) : Int) = some a' ∧
      (S.aboveP (x >>> 1) >>> (k - 1)) &&& 1 = if a'.any (fun b => decide (Nat.log2 b.bw4 < k)) then 1 else 0 := by
  rw [Nat.shiftRight_eq_div_pow x, Nat.pow_one]
  rcases h x (by omega) (by omega) hx with ⟨rfl, hz⟩ | ⟨h2, b, h3, h5, h6⟩
  · refine ⟨none, look_out (.inl (by omega)), ?_⟩
    rw [hz]
    simp
  · refine ⟨some b, ?_, ?_⟩
    · rw [← look_some (show y - 1 < C.rows by omega) hx h3]
      congr 1
      omega
    · rw [h6, (code_bit h5 h1 h4).1]
      simp

theorem LeftOk.look {x y n k : Nat} (h : LeftOk C S x y n) (h0 : 0 < n) (hx : x < C.cols) (hy : y < C.rows) (h1 : 1 ≤ k) (h4 : k ≤ 4) :
    ∃ l', C.par.look (S.dec C) ((C.y + y : Nat) : Int) (((C.x + x : Nat) : Int) - 1) = some l' ∧
      (S.leftP ((y % 16) >>> 1) >>> (k - 1)) &&& 1 = if l'.any (fun b => decide (Nat.log2 b.bh4 < k)) then 1 else 0 := by
  rw [Nat.shiftRight_eq_div_pow (y % 16), Nat.pow_one]
  rcases h y (by omega) (by omega) hy with ⟨rfl, hz⟩ | ⟨h2, b, h3, h5, h6⟩
  · refine ⟨none, look_out (.inr (by omega)), ?_⟩
    rw [hz]
    simp
  · refine ⟨some b, ?_, ?_⟩
    · rw [← look_some hy (show x - 1 < C.cols by omega) h3]
      congr 1
      omega
    · rw [h6, (code_bit h5 h1 h4).2]
      simp

/-- A position in a superblock that begins in the tile is in the tile if it is in the frame. -/
theorem border (G : GeoOk C.par.g) {i : Nat} : (16 * (i / 16) < C.rows → (C.y + i < C.frameRows ↔ i < C.rows)) ∧
    (16 * (i / 16) < C.cols → (C.x + i < C.frameCols ↔ i < C.cols)) := by
  have h1 : C.y % 16 = 0 := G.row0
  have h2 : C.x % 16 = 0 := G.col0
  have h3 : C.y + C.rows ≤ C.frameRows := G.rowLe
  have h4 : C.x + C.cols ≤ C.frameCols := G.colLe
  have h5 : C.y + C.rows = C.frameRows ∨ (C.y + C.rows) % 16 = 0 := G.rowEnd
  have h6 : C.x + C.cols = C.frameCols ∨ (C.x + C.cols) % 16 = 0 := G.colEnd
  omega

/-- What the halves of a square have to do with its place. -/
theorem half {k x : Nat} (hk : k ≤ 3) (hx : x % 2 ^ (k + 1) = 0) : 2 ^ (k + 1) / 2 = 2 ^ k ∧ 2 ^ (k + 1) = 2 ^ k + 2 ^ k ∧ x % 2 ^ k = 0 ∧ (x + 2 ^ k) % 2 ^ k = 0 ∧
    x % 16 + (2 ^ k + 2 ^ k) ≤ 16 ∧ (x + 2 ^ k) % 16 = x % 16 + 2 ^ k ∧ (x + 2 ^ k) / 16 = x / 16 ∧ x % 2 = 0 ∧ 0 < 2 ^ k ∧ (1 ≤ k → 2 ^ k % 2 = 0) := by
  interval_cases k <;> simp only [Nat.reduceAdd, Nat.reducePow] at * <;> refine ⟨?_, ?_, ?_, ?_, ?_, ?_, ?_, ?_, ?_, fun h => ?_⟩ <;> first | trivial | omega

theorem partition_rt (G : GeoOk C.par.g) {k x y : Nat} (hk : k ≤ 3) (hx : x % 2 ^ (k + 1) = 0) (hy : y % 2 ^ (k + 1) = 0) (ix : x < C.cols) (iy : y < C.rows)
    (A : AboveOk C S x y (2 ^ (k + 1))) (L : LeftOk C S x y (2 ^ (k + 1))) {p : Spec.Part} (hm : mayPartition C x y (2 ^ (k + 1)) p = true) {s : List Sym}
    (hw : writePartition C S x y (2 ^ (k + 1)) p = some s) (rest : List Sym) :
    Spec.readPartition C.par (S.log.map (place C)) (2 ^ (k + 1)) (C.y + y) (C.x + x) (s ++ rest) = some (p, rest) := by
  obtain ⟨a1, a2, a3, a4, a5, a6, a7, a8, a9, a10⟩ := half hk hx
  obtain ⟨b1, b2, b3, b4, b5, b6, b7, b8, b9, b10⟩ := half hk hy
  obtain ⟨a', k1, k2⟩ := A.look (k := k + 1) (by omega) ix iy (by omega) (by omega)
  obtain ⟨l', k3, k4⟩ := L.look (k := k + 1) (by omega) ix iy (by omega) (by omega)
  have hctx : partitionPlaneContext S x y (2 ^ (k + 1)) = Spec.partitionCtx (2 ^ (k + 1)) a' l' := by
    unfold partitionPlaneContext Spec.partitionCtx
    rw [Nat.log2_two_pow]
    dsimp only
    rw [k2, k4]
    split_ifs <;> rfl
  have hr : decide (C.y + y + 2 ^ (k + 1) / 2 < C.par.g.miRows) = decide (y + 2 ^ (k + 1) / 2 < C.rows) := by
    rw [decide_eq_decide, Nat.add_assoc]
    exact (border G).1 (by rw [a1, b7]; omega)
  have hc : decide (C.x + x + 2 ^ (k + 1) / 2 < C.par.g.miCols) = decide (x + 2 ^ (k + 1) / 2 < C.cols) := by
    rw [decide_eq_decide, Nat.add_assoc]
    exact (border G).2 (by rw [a1, a7]; omega)
  have e1 : Spec.decoded (S.log.map (place C)) = S.dec C := rfl
  unfold Spec.readPartition
  rw [e1]
  simp only [Option.bind_eq_bind, k1, k3, Option.bind_some, hr, hc]
  unfold writePartition at hw
  unfold mayPartition at hm
  rw [decide_eq_true_eq] at hm
  dsimp only at hw
  rw [if_neg (by omega), hctx] at hw
  rw [Nat.log2_two_pow] at hw ⊢
  generalize Spec.partitionCtx (2 ^ (k + 1)) a' l' = ctx at *
  by_cases h1 : x + 2 ^ (k + 1) / 2 < C.cols <;> by_cases h2 : y + 2 ^ (k + 1) / 2 < C.rows
  · simp only [h1, h2, decide_true, Bool.not_true, Bool.and_self, Bool.false_eq_true, if_false, if_true, Option.some.injEq] at hw
    subst hw
    simp only [h1, h2, decide_true, and_self, if_true, List.cons_append, List.nil_append]
    rw [read_cons (by unfold Spec.Cdf.size; cases p <;> simp [partIdx] <;> split_ifs <;> omega)]
    cases p <;> rfl
  · simp only [h1, h2, decide_true, decide_false, Bool.not_true, Bool.not_false, Bool.and_false, Bool.false_and, Bool.and_self, Bool.false_eq_true, if_false, if_true] at hw
    by_cases hp : (p = .split ∨ p = .horz) ∧ 2 < 2 ^ (k + 1)
    · rw [if_pos hp, Option.some.injEq] at hw
      subst hw
      simp only [h1, h2, decide_true, decide_false, Bool.false_eq_true, false_and, if_false, if_true, List.cons_append, List.nil_append]
      rw [read_bool rfl]
      rcases hp.1 with rfl | rfl <;> rfl
    · rw [if_neg hp] at hw; cases hw
  · simp only [h1, h2, decide_true, decide_false, Bool.not_true, Bool.not_false, Bool.and_false, Bool.false_and, Bool.and_self, Bool.false_eq_true, if_false, if_true] at hw
    by_cases hp : (p = .split ∨ p = .vert) ∧ 2 < 2 ^ (k + 1)
    · rw [if_pos hp, Option.some.injEq] at hw
      subst hw
      simp only [h1, h2, decide_true, decide_false, Bool.false_eq_true, and_false, if_false, if_true, List.cons_append, List.nil_append]
      rw [read_bool rfl]
      rcases hp.1 with rfl | rfl <;> rfl
    · rw [if_neg hp] at hw; cases hw
  · simp only [h1, h2, decide_false, Bool.not_false, Bool.and_self, if_true, Option.some.injEq] at hw
    subst hw
    simp only [h1, h2, decide_false, Bool.false_eq_true, and_self, if_false, List.nil_append]
    rcases hm with hm | hm | rfl
    · exact absurd hm h1
    · exact absurd hm h2
    · rfl

end Rav1e.Block

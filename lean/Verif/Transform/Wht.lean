import Mathlib.Tactic.Ring
import Mathlib.Tactic.NormNum
import Mathlib.Tactic.Linarith
/-
C37: the lossless transform (`WHT_WHT`, 4x4): `rust::forward_transform` and `rust::inverse_transform_add`
specialised to it.
-/
namespace Rav1e.Wht

/-- The result of an operation on signed integers of `w` bits; `none` is an overflow (panic in a build with
checks). -/
def chkI (w : Nat) (n : Int) : Option Int := if -2 ^ (w - 1) ≤ n ∧ n < 2 ^ (w - 1) then some n else none

/-- A cast to a signed integer of `w` bits. -/
def wrapI (w : Nat) (n : Int) : Int := (n + 2 ^ (w - 1)) % 2 ^ w - 2 ^ (w - 1)

/-- Four values: a row or a column. -/
structure V4 where
  a : Int
  b : Int
  c : Int
  d : Int
  deriving DecidableEq, Repr

/-- Four rows. -/
structure M4 where
  a : V4
  b : V4
  c : V4
  d : V4
  deriving DecidableEq, Repr

def M4.transpose (m : M4) : M4 where
  a := ⟨m.a.a, m.b.a, m.c.a, m.d.a⟩
  b := ⟨m.a.b, m.b.b, m.c.b, m.d.b⟩
  c := ⟨m.a.c, m.b.c, m.c.c, m.d.c⟩
  d := ⟨m.a.d, m.b.d, m.c.d, m.d.d⟩

def V4.map (f : Int → Int) (v : V4) : V4 := ⟨f v.a, f v.b, f v.c, f v.d⟩
def M4.map (f : Int → Int) (m : M4) : M4 := ⟨m.a.map f, m.b.map f, m.c.map f, m.d.map f⟩
def V4.zip (f : Int → Int → Int) (v w : V4) : V4 := ⟨f v.a w.a, f v.b w.b, f v.c w.c, f v.d w.d⟩
def M4.zip (f : Int → Int → Int) (m n : M4) : M4 := ⟨m.a.zip f n.a, m.b.zip f n.b, m.c.zip f n.c, m.d.zip f n.d⟩

/-- Apply a transform to every row. -/
def M4.rows (f : V4 → Option V4) (m : M4) : Option M4 := do
  let a ← f m.a
  let b ← f m.b
  let c ← f m.c
  let d ← f m.d
  some ⟨a, b, c, d⟩

/-- `fwht4`, `transform/forward_shared.rs:1778-1795`, with the operations of `i32`,
`transform/forward.rs:39-69`. -/
def fwht4 (x : V4) : Option V4 := do
  let s0 ← chkI 32 (x.a + x.b)
  let s1 ← chkI 32 (x.d - x.c)
  let df ← chkI 32 (s0 - s1)
  let s2 := df / 2
  let q1 ← chkI 32 (s2 - x.c)
  let q0 ← chkI 32 (s0 - q1)
  let q3 ← chkI 32 (s2 - x.b)
  let q2 ← chkI 32 (s1 + q3)
  some ⟨q0, q1, q2, q3⟩

/-- `av1_iwht4`, `transform/inverse.rs:35-53`. -/
def iwht4 (x : V4) : Option V4 := do
  let s0 ← chkI 32 (x.a + x.b)
  let s2 ← chkI 32 (x.c - x.d)
  let df ← chkI 32 (s0 - s2)
  let s4 := df / 2
  let s3 ← chkI 32 (s4 - x.d)
  let s1 ← chkI 32 (s4 - x.b)
  let o0 ← chkI 32 (s0 - s3)
  let o3 ← chkI 32 (s2 + s1)
  some ⟨o0, s3, s1, o3⟩

/-- `rust::forward_transform` for `TX_4X4` and `WHT_WHT`, `transform/forward.rs:71-159`: columns, then rows,
then a shift left by two (`FWD_SHIFT_4X4_WHT`, `transform/forward_shared.rs:42`) and a cast to the coefficient
type of `w` bits. Coefficients are stored column by column: the result is the transpose. -/
def forward (w : Nat) (res : M4) : Option M4 := do
  let cols ← res.transpose.rows fwht4
  let rows ← cols.transpose.rows fwht4
  some (rows.map fun v => wrapI w (wrapI 32 (v * 4))).transpose

/-- `clamp_value`, `transform/mod.rs:311-315`. -/
def clampValue (v : Int) (bit : Nat) : Int := max (-2 ^ (bit - 1)) (min v (2 ^ (bit - 1) - 1))

/-- `rust::inverse_transform_add` for `TX_4X4` and `WHT_WHT`, `transform/inverse.rs:1634-1704`: rows of
coefficients shifted right by two and clamped, then columns (no intermediate shift for this size), added to the
prediction and clamped to the pixel range. -/
def inverseAdd (bd : Nat) (coeffs pred : M4) : Option M4 := do
  let rows ← (coeffs.transpose.map fun v => clampValue (v / 4) (bd + 8)).rows iwht4
  let cols ← (rows.transpose.map fun v => clampValue v (max (bd + 6) 16)).rows iwht4
  some (pred.zip (fun p r => max 0 (min (p + r) (2 ^ bd - 1))) cols.transpose)

/-! ## Proof -/

theorem chk_some {n : Int} (h1 : -1000000 ≤ n) (h2 : n ≤ 1000000) : chkI 32 n = some n := by
  unfold chkI; rw [if_pos]; norm_num; omega

def V4.In (v : V4) (b : Int) : Prop :=
  (-b ≤ v.a ∧ v.a ≤ b) ∧ (-b ≤ v.b ∧ v.b ≤ b) ∧ (-b ≤ v.c ∧ v.c ≤ b) ∧ (-b ≤ v.d ∧ v.d ≤ b)

def M4.In (m : M4) (b : Int) : Prop := m.a.In b ∧ m.b.In b ∧ m.c.In b ∧ m.d.In b

theorem M4.In.transpose {m : M4} {b : Int} (h : m.In b) : m.transpose.In b := by
  obtain ⟨⟨a1, a2, a3, a4⟩, ⟨b1, b2, b3, b4⟩, ⟨c1, c2, c3, c4⟩, ⟨d1, d2, d3, d4⟩⟩ := h
  exact ⟨⟨a1, b1, c1, d1⟩, ⟨a2, b2, c2, d2⟩, ⟨a3, b3, c3, d3⟩, ⟨a4, b4, c4, d4⟩⟩

theorem transpose_transpose (m : M4) : m.transpose.transpose = m := rfl

theorem fwht4_ok {x : V4} {b : Int} (h : x.In b) (hb : b ≤ 100000) :
    ∃ y, fwht4 x = some y ∧ y.In (2 * b + 1) ∧ iwht4 y = some x := by
  obtain ⟨⟨a1, a2⟩, ⟨b1, b2⟩, ⟨c1, c2⟩, ⟨d1, d2⟩⟩ := h
  obtain ⟨a, bb, c, d⟩ := x
  dsimp only at *
  refine ⟨⟨a + bb - ((a + bb - (d - c)) / 2 - c), (a + bb - (d - c)) / 2 - c,
    d - c + ((a + bb - (d - c)) / 2 - bb), (a + bb - (d - c)) / 2 - bb⟩, ?_, ?_, ?_⟩
  · unfold fwht4
    dsimp only
    rw [chk_some (by omega) (by omega), Option.bind_eq_bind, Option.bind_some,
      chk_some (by omega) (by omega), Option.bind_some,
      chk_some (by omega) (by omega), Option.bind_some,
      chk_some (by omega) (by omega), Option.bind_some,
      chk_some (by omega) (by omega), Option.bind_some,
      chk_some (by omega) (by omega), Option.bind_some,
      chk_some (by omega) (by omega), Option.bind_some]
  · refine ⟨⟨?_, ?_⟩, ⟨?_, ?_⟩, ⟨?_, ?_⟩, ⟨?_, ?_⟩⟩ <;> dsimp only <;> omega
  · unfold iwht4
    dsimp only
    rw [chk_some (by omega) (by omega), Option.bind_eq_bind, Option.bind_some,
      chk_some (by omega) (by omega), Option.bind_some,
      chk_some (by omega) (by omega), Option.bind_some,
      chk_some (by omega) (by omega), Option.bind_some,
      chk_some (by omega) (by omega), Option.bind_some,
      chk_some (by omega) (by omega), Option.bind_some,
      chk_some (by omega) (by omega), Option.bind_some]
    simp only [Option.some.injEq, V4.mk.injEq]
    refine ⟨?_, ?_, ?_, ?_⟩ <;> omega

theorem rows_ok {m : M4} {b : Int} (h : m.In b) (hb : b ≤ 100000) :
    ∃ n, m.rows fwht4 = some n ∧ n.In (2 * b + 1) ∧ n.rows iwht4 = some m := by
  obtain ⟨a, a1, a2, a3⟩ := fwht4_ok h.1 hb
  obtain ⟨b', b1, b2, b3⟩ := fwht4_ok h.2.1 hb
  obtain ⟨c, c1, c2, c3⟩ := fwht4_ok h.2.2.1 hb
  obtain ⟨d, d1, d2, d3⟩ := fwht4_ok h.2.2.2 hb
  refine ⟨⟨a, b', c, d⟩, ?_, ⟨a2, b2, c2, d2⟩, ?_⟩
  · simp only [M4.rows, a1, b1, c1, d1, Option.bind_eq_bind, Option.bind_some]
  · simp only [M4.rows, a3, b3, c3, d3, Option.bind_eq_bind, Option.bind_some]

theorem map_id_of {m : M4} {b : Int} (h : m.In b) {f : Int → Int} (hf : ∀ v, -b ≤ v → v ≤ b → f v = v) :
    m.map f = m := by
  obtain ⟨⟨a1, a2, a3, a4⟩, ⟨b1, b2, b3, b4⟩, ⟨c1, c2, c3, c4⟩, ⟨d1, d2, d3, d4⟩⟩ := h
  obtain ⟨⟨_, _, _, _⟩, ⟨_, _, _, _⟩, ⟨_, _, _, _⟩, ⟨_, _, _, _⟩⟩ := m
  simp only [M4.map, V4.map] at *
  simp only [hf _ a1.1 a1.2, hf _ a2.1 a2.2, hf _ a3.1 a3.2, hf _ a4.1 a4.2, hf _ b1.1 b1.2, hf _ b2.1 b2.2,
    hf _ b3.1 b3.2, hf _ b4.1 b4.2, hf _ c1.1 c1.2, hf _ c2.1 c2.2, hf _ c3.1 c3.2, hf _ c4.1 c4.2,
    hf _ d1.1 d1.2, hf _ d2.1 d2.2, hf _ d3.1 d3.2, hf _ d4.1 d4.2]

theorem map_map (m : M4) (f g : Int → Int) : (m.map f).map g = m.map (fun v => g (f v)) := rfl
theorem map_transpose (m : M4) (f : Int → Int) : (m.map f).transpose = m.transpose.map f := rfl

theorem clampValue_id {v b : Int} {n : Nat} (h1 : -b ≤ v) (h2 : v ≤ b) (hb : b < 2 ^ (n - 1)) :
    clampValue v n = v := by
  unfold clampValue; omega

theorem wrapI_id {v : Int} {w : Nat} (hw : w = 16 ∨ w = 32) (h1 : -32768 ≤ v) (h2 : v < 32768) :
    wrapI w v = v := by
  unfold wrapI
  rcases hw with rfl | rfl <;> norm_num <;> omega

/-- **C37**: for every bit depth that AV1 has and every pair of a source block and a prediction, transforming
the residual and adding the inverse transform to the prediction gives back the source exactly, without overflow.
`w` is the width of the coefficient type: 16 for 8-bit video, else 32. -/
theorem wht_lossless (bd w : Nat) (hbd : (bd = 8 ∧ w = 16) ∨ ((bd = 10 ∨ bd = 12) ∧ w = 32)) (src pred : M4)
    (hsrc : ∀ v, (v = src.a ∨ v = src.b ∨ v = src.c ∨ v = src.d) → ∀ x, (x = v.a ∨ x = v.b ∨ x = v.c ∨ x = v.d) →
      0 ≤ x ∧ x < 2 ^ bd)
    (hpred : ∀ v, (v = pred.a ∨ v = pred.b ∨ v = pred.c ∨ v = pred.d) → ∀ x, (x = v.a ∨ x = v.b ∨ x = v.c ∨ x = v.d) →
      0 ≤ x ∧ x < 2 ^ bd) :
    ∃ coeffs, forward w (src.zip (fun s p => s - p) pred) = some coeffs ∧
      inverseAdd bd coeffs pred = some src := by
  have hS : ∃ B : Int, 2 ^ bd = B + 1 ∧ 255 ≤ B ∧ B ≤ 4095 ∧ 16 * B + 12 < 2 ^ (bd + 7) ∧ (w = 16 → B = 255) := by
    rcases hbd with ⟨rfl, rfl⟩ | ⟨rfl | rfl, rfl⟩
    · exact ⟨255, by norm_num⟩
    · exact ⟨1023, by norm_num⟩
    · exact ⟨4095, by norm_num⟩
  obtain ⟨B, hB, hB0, hB1, hB2, hB3⟩ := hS
  rw [hB] at hsrc hpred
  -- the residual
  have hres : (src.zip (fun s p => s - p) pred).In B := by
    have key : ∀ v v' : V4, (v = src.a ∨ v = src.b ∨ v = src.c ∨ v = src.d) →
        (v' = pred.a ∨ v' = pred.b ∨ v' = pred.c ∨ v' = pred.d) → (v.zip (fun s p => s - p) v').In B := by
      intro v v' h h'
      have f1 := hsrc v h; have f2 := hpred v' h'
      refine ⟨?_, ?_, ?_, ?_⟩
      · have := f1 v.a (by simp); have := f2 v'.a (by simp); simp only [V4.zip]; omega
      · have := f1 v.b (by simp); have := f2 v'.b (by simp); simp only [V4.zip]; omega
      · have := f1 v.c (by simp); have := f2 v'.c (by simp); simp only [V4.zip]; omega
      · have := f1 v.d (by simp); have := f2 v'.d (by simp); simp only [V4.zip]; omega
    exact ⟨key _ _ (by simp) (by simp), key _ _ (by simp) (by simp), key _ _ (by simp) (by simp),
      key _ _ (by simp) (by simp)⟩
  generalize hr : src.zip (fun s p => s - p) pred = res at hres
  obtain ⟨cols, c1, c2, c3⟩ := rows_ok hres.transpose (by omega)
  obtain ⟨rows, r1, r2, r3⟩ := rows_ok c2.transpose (by omega)
  have hcoef : (rows.map fun v => wrapI w (wrapI 32 (v * 4))) = rows.map fun v => v * 4 := by
    have hw : w = 16 ∨ w = 32 := by rcases hbd with h | h <;> omega
    have : ∀ v, -(2 * (2 * B + 1) + 1) ≤ v → v ≤ 2 * (2 * B + 1) + 1 → wrapI w (wrapI 32 (v * 4)) = v * 4 := by
      intro v h1 h2
      have h32 : wrapI 32 (v * 4) = v * 4 := by
        unfold wrapI; norm_num; omega
      rw [h32]
      rcases hw with h | h
      · have := hB3 h; exact wrapI_id (Or.inl h) (by omega) (by omega)
      · subst h; exact h32
    obtain ⟨⟨a1, a2, a3, a4⟩, ⟨b1, b2, b3, b4⟩, ⟨c1, c2, c3, c4⟩, ⟨d1, d2, d3, d4⟩⟩ := r2
    simp only [M4.map, V4.map]
    simp only [this _ a1.1 a1.2, this _ a2.1 a2.2, this _ a3.1 a3.2, this _ a4.1 a4.2, this _ b1.1 b1.2,
      this _ b2.1 b2.2, this _ b3.1 b3.2, this _ b4.1 b4.2, this _ c1.1 c1.2, this _ c2.1 c2.2, this _ c3.1 c3.2,
      this _ c4.1 c4.2, this _ d1.1 d1.2, this _ d2.1 d2.2, this _ d3.1 d3.2, this _ d4.1 d4.2]
  refine ⟨(rows.map fun v => v * 4).transpose, ?_, ?_⟩
  · unfold forward
    rw [c1, Option.bind_eq_bind, Option.bind_some, r1, Option.bind_some, hcoef]
  · unfold inverseAdd
    rw [transpose_transpose, map_map]
    have e1 : (rows.map fun v => clampValue (v * 4 / 4) (bd + 8)) = rows := by
      apply map_id_of r2
      intro v h1 h2
      rw [Int.mul_ediv_cancel v (by norm_num)]
      exact clampValue_id h1 h2 (by rw [show bd + 8 - 1 = bd + 7 by omega]; omega)
    rw [e1, r3, Option.bind_eq_bind, Option.bind_some]
    have e2 : (cols.transpose.transpose.map fun v => clampValue v (max (bd + 6) 16)) = cols := by
      rw [transpose_transpose]
      apply map_id_of c2
      intro v h1 h2
      apply clampValue_id h1 h2
      have : (2 : Int) ^ 15 ≤ 2 ^ (max (bd + 6) 16 - 1) := by
        apply pow_le_pow_right₀ (by norm_num); omega
      have h15 : (2 : Int) ^ 15 = 32768 := by norm_num
      omega
    rw [e2, c3, Option.bind_some, transpose_transpose, hB]
    rw [← hr]
    have fin : ∀ v v' : V4, (v = src.a ∨ v = src.b ∨ v = src.c ∨ v = src.d) →
        v'.zip (fun p r => max 0 (min (p + r) (B + 1 - 1))) (v.zip (fun s p => s - p) v') = v := by
      intro v v' h
      have f1 := hsrc v h
      have g1 := f1 v.a (by simp); have g2 := f1 v.b (by simp); have g3 := f1 v.c (by simp)
      have g4 := f1 v.d (by simp)
      obtain ⟨a, b, c, d⟩ := v
      simp only [V4.zip, V4.mk.injEq] at *
      omega
    have f1 := fin src.a pred.a (by simp)
    have f2 := fin src.b pred.b (by simp)
    have f3 := fin src.c pred.c (by simp)
    have f4 := fin src.d pred.d (by simp)
    simp only [M4.zip, f1, f2, f3, f4]

/-- A block with extreme residuals meets the hypotheses of `wht_lossless`. -/
example :
    let src : M4 := ⟨⟨255, 0, 255, 3⟩, ⟨1, 2, 3, 4⟩, ⟨0, 255, 0, 255⟩, ⟨0, 0, 0, 255⟩⟩
    let pred : M4 := ⟨⟨0, 255, 0, 3⟩, ⟨9, 9, 9, 9⟩, ⟨255, 0, 128, 255⟩, ⟨0, 0, 0, 0⟩⟩
    forward 16 (src.zip (fun s p => s - p) pred) ≠ none ∧
    ((forward 16 (src.zip (fun s p => s - p) pred)).bind fun c => inverseAdd 8 c pred) = some src := by
  decide +kernel

end Rav1e.Wht

import Verif.LoopSyn.Decide

/-!
# CDEF indices and loop restoration units: a superblock
-/

namespace Rav1e.LoopSyn

open Av1Spec
open Ec
open Lrf (Filter)
open Lrf.Spec (round2)
open Spec (Frame State Syn)

/-! ### Loops of readers -/

theorem bind_ret {α : Type} (p : Rd α) : p.bind .ret = p := by
  induction p with
  | ret a => rfl
  | read s k ih => rw [Rd.bind]; congr; funext x; exact ih x

theorem bind_assoc {α β γ : Type} (p : Rd α) (g : α → Rd β) (h : β → Rd γ) : (p.bind g).bind h = p.bind fun a => (g a).bind h := by
  induction p with
  | ret a => rfl
  | read s k ih => rw [Rd.bind, Rd.bind, Rd.bind]; congr; funext x; exact ih x

theorem loop_last {σ : Type} (g : Nat → σ → Rd σ) : ∀ (n i : Nat) (s : σ), Spec.loop g (n + 1) i s = (Spec.loop g n i s).bind (g (i + n)) := by
  intro n
  induction n with
  | zero => intro i s; show (g i s).bind (fun s => .ret s) = _; rw [bind_ret]; rfl
  | succ n ih =>
    intro i s
    rw [Spec.loop]
    conv_rhs => rw [Spec.loop, bind_assoc]
    congr
    funext t
    rw [ih, show i + 1 + n = i + (n + 1) by omega]

theorem loop_ret {σ : Type} (g : Nat → σ → Rd σ) (s : σ) : ∀ (n i : Nat), (∀ j, i ≤ j → j < i + n → g j s = .ret s) → Spec.loop g n i s = .ret s := by
  intro n
  induction n with
  | zero => intro i _; rfl
  | succ n ih =>
    intro i h
    rw [Spec.loop, h i (by omega) (by omega)]
    exact ih (i + 1) fun j h1 h2 => h j (by omega) (by omega)

/-! ### Where the decoder looks for units -/

theorem ceil_add {m n t q : Nat} : (t + q * (m * n) + m * n - 1) / (m * n) = (t + m * n - 1) / (m * n) + q ∨ m * n = 0 := by
  by_cases h : m * n = 0
  · exact .inr h
  · left
    rw [show t + q * (m * n) + m * n - 1 = t + m * n - 1 + q * (m * n) by omega, Nat.add_mul_div_right _ _ (by omega)]

/-- The rows of units that `read_lr` reads with a superblock: one if the superblock starts it, none otherwise. -/
theorem bounds {m H g y n : Nat} (hm : 0 < m) (hH : 0 < H) (hg : g % H = 0) :
    (y % H = 0 ∧ g / H + y / H < n → ((g + y) * m + m * H - 1) / (m * H) = g / H + y / H ∧
      min (((g + y + 1) * m + m * H - 1) / (m * H)) n - ((g + y) * m + m * H - 1) / (m * H) = 1) ∧
    (¬(y % H = 0 ∧ g / H + y / H < n) → min (((g + y + 1) * m + m * H - 1) / (m * H)) n - ((g + y) * m + m * H - 1) / (m * H) = 0) := by
  have hmH : 0 < m * H := Nat.mul_pos hm hH
  have e1 : g + y = y % H + (g / H + y / H) * H := by
    have h1 := Nat.div_add_mod g H
    have h2 := Nat.div_add_mod y H
    rw [Nat.mul_comm] at h1 h2
    rw [Nat.add_mul]
    omega
  have ht := Nat.mod_lt y hH
  have st : ((g + y) * m + m * H - 1) / (m * H) = (y % H * m + m * H - 1) / (m * H) + (g / H + y / H) := by
    rw [e1, Nat.add_mul, show (g / H + y / H) * H * m = (g / H + y / H) * (m * H) by rw [Nat.mul_assoc, Nat.mul_comm H m]]
    exact ceil_add.resolve_right (by omega)
  have en : ((g + y + 1) * m + m * H - 1) / (m * H) = ((y % H + 1) * m + m * H - 1) / (m * H) + (g / H + y / H) := by
    rw [e1, show y % H + (g / H + y / H) * H + 1 = (y % H + 1) + (g / H + y / H) * H by omega, Nat.add_mul,
      show (g / H + y / H) * H * m = (g / H + y / H) * (m * H) by rw [Nat.mul_assoc, Nat.mul_comm H m]]
    exact ceil_add.resolve_right (by omega)
  have up : ∀ t, 0 < t → t ≤ H → (t * m + m * H - 1) / (m * H) = 1 := by
    intro t h1 h2
    have h3 : t * m ≤ m * H := by rw [Nat.mul_comm m H]; exact Nat.mul_le_mul_right m h2
    have h4 : 0 < t * m := Nat.mul_pos h1 hm
    rw [Nat.div_eq_iff hmH]
    omega
  rw [st, en, up (y % H + 1) (by omega) (by omega)]
  generalize g / H + y / H = q
  by_cases h0 : y % H = 0
  · have : (y % H * m + m * H - 1) / (m * H) = 0 := by
      rw [h0, Nat.zero_mul, Nat.zero_add]
      exact Nat.div_eq_of_lt (by omega)
    rw [this]
    omega
  · rw [up (y % H) (by omega) (by omega)]
    omega

/-- `read_lr` reads the unit of a plane with the first superblock of it, and nothing with the others. -/
theorem readLrPlane_eq {S : Type} {C : Cfg} {f : Frame} {p : Nat} (K : PlaneOk C f p) (hty : f.lrType p ≠ .none) {k : Nat × Nat} (hy : k.1 < C.sbH)
    (hx : k.2 < C.sbW) (D : State S) : Spec.readLrPlane f (16 * C.gy + 16 * k.1) (16 * C.gx + 16 * k.2) p D =
      if In C p k ∧ Corner C p k then Spec.storeUnit f p ((C.plane p).uy + k.1 / 2 ^ (C.plane p).vShift) ((C.plane p).ux + k.2 / 2 ^ (C.plane p).hShift) D
      else .ret D := by
  obtain ⟨⟨-, fx, ux⟩, ⟨-, fy, uy⟩⟩ := K.facts
  have mx : 0 < 64 >>> f.subX p := by
    rcases (show f.subX p = 0 ∨ f.subX p = 1 by have := K.subX; omega) with h | h <;> rw [h] <;> decide
  have my : 0 < 64 >>> f.subY p := by
    rcases (show f.subY p = 0 ∨ f.subY p = 1 by have := K.subY; omega) with h | h <;> rw [h] <;> decide
  have ex : ∀ v, 16 * v * (4 >>> f.subX p) = v * (64 >>> f.subX p) := by
    intro v
    rcases (show f.subX p = 0 ∨ f.subX p = 1 by have := K.subX; omega) with h | h <;> rw [h]
    · show 16 * v * 4 = v * 64; omega
    · show 16 * v * 2 = v * 32; omega
  have ey : ∀ v, 16 * v * (4 >>> f.subY p) = v * (64 >>> f.subY p) := by
    intro v
    rcases (show f.subY p = 0 ∨ f.subY p = 1 by have := K.subY; omega) with h | h <;> rw [h]
    · show 16 * v * 4 = v * 64; omega
    · show 16 * v * 2 = v * 32; omega
  have bx := bounds (y := k.2) (n := Spec.countUnits (f.unitSize p) (round2 f.width (f.subX p))) mx (Nat.two_pow_pos (C.plane p).hShift) K.alignX
  have by' := bounds (y := k.1) (n := Spec.countUnits (f.unitSize p) (round2 f.height (f.subY p))) my (Nat.two_pow_pos (C.plane p).vShift) K.alignY
  rw [← K.sizeX] at bx
  rw [← K.sizeY] at by'
  unfold Spec.readLrPlane
  rw [if_neg hty]
  dsimp only
  rw [show 16 * C.gy + 16 * k.1 = 16 * (C.gy + k.1) by omega, show 16 * C.gx + 16 * k.2 = 16 * (C.gx + k.2) by omega,
    show 16 * (C.gy + k.1) + 16 = 16 * (C.gy + k.1 + 1) by omega, show 16 * (C.gx + k.2) + 16 = 16 * (C.gx + k.2 + 1) by omega, ex, ex, ey, ey]
  by_cases hr : k.1 % 2 ^ (C.plane p).vShift = 0 ∧ C.gy / 2 ^ (C.plane p).vShift + k.1 / 2 ^ (C.plane p).vShift <
      Spec.countUnits (f.unitSize p) (round2 f.height (f.subY p))
  · obtain ⟨r1, r2⟩ := by'.1 hr
    by_cases hc : k.2 % 2 ^ (C.plane p).hShift = 0 ∧ C.gx / 2 ^ (C.plane p).hShift + k.2 / 2 ^ (C.plane p).hShift <
        Spec.countUnits (f.unitSize p) (round2 f.width (f.subX p))
    · obtain ⟨c1, c2⟩ := bx.1 hc
      have hin : In C p k := ⟨(fx _ hx).2 hc.2, (fy _ hy).2 hr.2⟩
      rw [if_pos ⟨hin, hc.1, hr.1⟩, r2, c2, r1, c1, ux (Nat.zero_lt_of_lt hin.1), uy (Nat.zero_lt_of_lt hin.2)]
      show ((Spec.storeUnit f p _ _ D).bind .ret).bind .ret = _
      rw [bind_ret, bind_ret]
    · rw [if_neg (fun h => hc ⟨h.2.1, (fx _ hx).1 h.1.1⟩), bx.2 hc]
      exact loop_ret _ _ _ _ fun _ _ _ => rfl
  · rw [if_neg (fun h => hr ⟨h.2.2, (fy _ hy).1 h.1.2⟩), by'.2 hr]
    rfl

/-! ### The units of a superblock -/

/-- The number of the last unit written, before the superblocks of a list. -/
def CodedOk (C : Cfg) (pre : List (Nat × Nat)) (p : Nat) (v : Int) : Prop :=
  (∀ z ∈ pre, In C p z → (idx C p z : Int) ≤ v) ∧ (v = -1 ∨ ∃ z ∈ pre, In C p z ∧ v = idx C p z)

/-- A plane: the unit is written where the decoder reads it. -/
theorem plane_step {S : Type} {C : Cfg} {f : Frame} (K : CfgOk C f) (hon : C.enableRestoration = true) {pre post : List (Nat × Nat)} {k : Nat × Nat}
    (hL : pairs C.sbH C.sbW = pre ++ k :: post) {recs : Recs} {p : Nat} (hp : p < C.planes) {s : Lf} (hcd : CodedOk C pre p (s.coded p))
    (hf : FiltersOk C s.filters) (hr : RefsOk (s.refs p)) {D : State S} (hD : D.refs p = s.refs p) :
    ∃ s' ts D', entryLrf C ⟨k.2, k.1, lruOf C k.2 k.1, recs⟩ s p = some s' ∧ s'.out = s.out ++ ts ∧ s'.filters = s.filters ∧ s'.cdef = s.cdef ∧
      s'.rdoed = s.rdoed ∧ (∀ q, q ≠ p → s'.coded q = s.coded q ∧ s'.refs q = s.refs q ∧ D'.refs q = D.refs q) ∧ RefsOk (s'.refs p) ∧
      D'.refs p = s'.refs p ∧ CodedOk C (pre ++ [k]) p (s'.coded p) ∧
      (∀ rest, (Spec.readLrPlane f (16 * C.gy + 16 * k.1) (16 * C.gx + 16 * k.2) p D).onToks (ts ++ rest) = some (D', rest)) ∧
      D'.cdef = D.cdef ∧ D'.blocks = D.blocks ∧
      ∀ q i j, D'.lr q i j = if q = p ∧ In C p k ∧ Corner C p k ∧ i = (C.plane p).uy + k.1 / 2 ^ (C.plane p).vShift ∧
        j = (C.plane p).ux + k.2 / 2 ^ (C.plane p).hShift then
        some (s.filters p (k.1 / 2 ^ (C.plane p).vShift) (k.2 / 2 ^ (C.plane p).hShift)).toSpec else D.lr q i j := by
  obtain ⟨hk1, hk2, hpre⟩ := pairs_split hL
  have hty : f.lrType p ≠ .none := by
    have T := K.on hon p hp
    rw [T.ty]
    have := T.range
    rcases (show (C.plane p).lrfType = 1 ∨ (C.plane p).lrfType = 2 ∨ (C.plane p).lrfType = 3 by omega) with h | h | h <;> rw [h] <;> decide
  have RD := readLrPlane_eq (K.plane p hp) hty hk1 hk2 D
  by_cases hin : In C p k
  · have hlru : lruOf C k.2 k.1 p = idx C p k := by rw [lruOf_eq, if_pos ⟨hp, hin⟩]
    by_cases hc : Corner C p k
    · -- written
      have hlt : s.coded p < (idx C p k : Int) := by
        rcases hcd.2 with h | ⟨z, hz, hzi, h⟩
        · omega
        · have := idx_lt hc hzi ((hpre z).1 hz).2.2
          omega
      rw [if_pos ⟨hin, hc⟩] at RD
      obtain ⟨ts, r', w1, w2, w3⟩ := unit_rt (K.on hon p hp) (hf p hp _ hin.2 _ hin.1) hr
      have hE : entryLrf C ⟨k.2, k.1, lruOf C k.2 k.1, recs⟩ s p = some { s with
          coded := fun q => if q = p then (idx C p k : Int) else s.coded q
          refs := fun q => if q = p then r' else s.refs q
          out := s.out ++ ts } := by
        unfold entryLrf
        dsimp only
        rw [if_pos (show lruOf C k.2 k.1 p ≠ -1 ∧ s.coded p < lruOf C k.2 k.1 p by rw [hlru]; omega), unitIndex_true hin]
        dsimp only
        rw [w1, hlru]
        rfl
      refine ⟨_, ts, { D with
        lr := fun q i j => if q = p ∧ i = (C.plane p).uy + k.1 / 2 ^ (C.plane p).vShift ∧ j = (C.plane p).ux + k.2 / 2 ^ (C.plane p).hShift then
          some (s.filters p (k.1 / 2 ^ (C.plane p).vShift) (k.2 / 2 ^ (C.plane p).hShift)).toSpec else D.lr q i j
        refs := fun q => if q = p then r' else D.refs q }, hE, rfl, rfl, rfl, rfl, fun q hq => ?_, ?_, ?_, ?_, fun rest => ?_, rfl, rfl, fun q i j => ?_⟩
      · simp only [if_neg hq, and_self]
      · simpa using w2
      · simp
      · dsimp only
        rw [if_pos rfl]
        refine ⟨fun z hz hzi => ?_, .inr ⟨k, by simp, hin, rfl⟩⟩
        rcases List.mem_append.1 hz with hz | hz
        · have := hcd.1 z hz hzi
          omega
        · rw [List.mem_singleton.1 hz]
      · rw [RD]
        unfold Spec.storeUnit
        rw [onToks_bind, hD, w3]
        rfl
      · dsimp only
        by_cases hh : q = p ∧ i = (C.plane p).uy + k.1 / 2 ^ (C.plane p).vShift ∧ j = (C.plane p).ux + k.2 / 2 ^ (C.plane p).hShift
        · rw [if_pos hh, if_pos ⟨hh.1, hin, hc, hh.2.1, hh.2.2⟩]
        · rw [if_neg hh, if_neg (fun h => hh ⟨h.1, h.2.2.2.1, h.2.2.2.2⟩)]
    · have hle := cornerOf_le C p k
      have hm : cornerOf C p k ∈ pre := (hpre _).2 ⟨by omega, by omega, cornerOf_before hc⟩
      have hge := hcd.1 _ hm (cornerOf_in.2 hin)
      rw [cornerOf_idx] at hge
      rw [if_neg (fun h => hc h.2)] at RD
      refine ⟨s, [], D, ?_, by simp, rfl, rfl, rfl, fun _ _ => ⟨rfl, rfl, rfl⟩, hr, hD, ⟨fun z hz hzi => ?_, ?_⟩, fun rest => ?_, rfl, rfl, fun q i j => ?_⟩
      · unfold entryLrf
        dsimp only
        rw [if_neg (show ¬(lruOf C k.2 k.1 p ≠ -1 ∧ s.coded p < lruOf C k.2 k.1 p) by rw [hlru]; omega)]
      · rcases List.mem_append.1 hz with hz | hz
        · exact hcd.1 z hz hzi
        · rw [List.mem_singleton.1 hz]; exact hge
      · rcases hcd.2 with h | ⟨z, hz, h⟩
        · exact .inl h
        · exact .inr ⟨z, by simp [hz], h⟩
      · rw [RD]; rfl
      · rw [if_neg (fun h => hc h.2.2.1)]
  · have hlru : lruOf C k.2 k.1 p = -1 := by rw [lruOf_eq, if_neg (fun h => hin h.2)]
    rw [if_neg (fun h => hin h.1)] at RD
    refine ⟨s, [], D, ?_, by simp, rfl, rfl, rfl, fun _ _ => ⟨rfl, rfl, rfl⟩, hr, hD, ⟨fun z hz hzi => ?_, ?_⟩, fun rest => ?_, rfl, rfl, fun q i j => ?_⟩
    · unfold entryLrf
      dsimp only
      rw [if_neg (show ¬(lruOf C k.2 k.1 p ≠ -1 ∧ s.coded p < lruOf C k.2 k.1 p) by rw [hlru]; simp)]
    · rcases List.mem_append.1 hz with hz | hz
      · exact hcd.1 z hz hzi
      · rw [List.mem_singleton.1 hz] at hzi; exact absurd hzi hin
    · rcases hcd.2 with h | ⟨z, hz, h⟩
      · exact .inl h
      · exact .inr ⟨z, by simp [hz], h⟩
    · rw [RD]; rfl
    · rw [if_neg (fun h => hin h.2.1)]

/-- All planes. -/
theorem planes_step {S : Type} {C : Cfg} {f : Frame} (K : CfgOk C f) (hon : C.enableRestoration = true) {pre post : List (Nat × Nat)} {k : Nat × Nat}
    (hL : pairs C.sbH C.sbW = pre ++ k :: post) {recs : Recs} {s : Lf} (hcd : ∀ p < C.planes, CodedOk C pre p (s.coded p))
    (hf : FiltersOk C s.filters) {D : State S} (hr : ∀ p < C.planes, RefsOk (s.refs p) ∧ D.refs p = s.refs p) : ∀ n, n ≤ C.planes →
    ∃ s' ts D', (List.range n).foldlM (entryLrf C ⟨k.2, k.1, lruOf C k.2 k.1, recs⟩) s = some s' ∧ s'.out = s.out ++ ts ∧ s'.filters = s.filters ∧
      s'.cdef = s.cdef ∧ s'.rdoed = s.rdoed ∧ (∀ p < C.planes, RefsOk (s'.refs p) ∧ D'.refs p = s'.refs p) ∧
      (∀ p < n, CodedOk C (pre ++ [k]) p (s'.coded p)) ∧ (∀ p, n ≤ p → s'.coded p = s.coded p) ∧
      (∀ rest, (Spec.loop (fun plane s => Spec.readLrPlane f (16 * C.gy + 16 * k.1) (16 * C.gx + 16 * k.2) plane s) n 0 D).onToks (ts ++ rest) =
        some (D', rest)) ∧
      D'.cdef = D.cdef ∧ D'.blocks = D.blocks ∧
      ∀ p i j, D'.lr p i j = if p < n ∧ In C p k ∧ Corner C p k ∧ i = (C.plane p).uy + k.1 / 2 ^ (C.plane p).vShift ∧
        j = (C.plane p).ux + k.2 / 2 ^ (C.plane p).hShift then
        some (s.filters p (k.1 / 2 ^ (C.plane p).vShift) (k.2 / 2 ^ (C.plane p).hShift)).toSpec else D.lr p i j := by
  intro n
  induction n with
  | zero =>
    intro _
    refine ⟨s, [], D, rfl, by simp, rfl, rfl, rfl, hr, fun p hp => absurd hp (by omega), fun _ _ => rfl, fun rest => rfl, rfl, rfl, fun p i j => ?_⟩
    rw [if_neg (fun h => absurd h.1 (by omega))]
  | succ n ih =>
    intro hn
    obtain ⟨s1, t1, D1, a1, a2, a3, a4, a5, a6, a7, a8, a9, a10, a11, a12⟩ := ih (by omega)
    obtain ⟨s2, t2, D2, b1, b2, b3, b4, b5, b6, b7, b8, b9, b10, b11, b12, b13⟩ := plane_step K hon hL (recs := recs) (p := n) (by omega)
      (by rw [a8 n (by omega)]; exact hcd n (by omega)) (by rw [a3]; exact hf) (a6 n (by omega)).1 (a6 n (by omega)).2
    refine ⟨s2, t1 ++ t2, D2, ?_, by rw [b2, a2, List.append_assoc], by rw [b3, a3], by rw [b4, a4], by rw [b5, a5], fun p hp => ?_, fun p hp => ?_,
      fun p hp => ?_, fun rest => ?_, by rw [b11, a10], by rw [b12, a11], fun p i j => ?_⟩
    · rw [List.range_succ, List.foldlM_append, a1]
      show ((List.foldlM (entryLrf C ⟨k.2, k.1, lruOf C k.2 k.1, recs⟩) s1 [n]) : Option Lf) = _
      rw [List.foldlM_cons, b1]
      rfl
    · by_cases e : p = n
      · subst e; exact ⟨b7, b8⟩
      · obtain ⟨_, e2, e3⟩ := b6 p e
        rw [e2, e3]
        exact a6 p hp
    · by_cases e : p = n
      · subst e; exact b9
      · rw [(b6 p e).1]; exact a7 p (by omega)
    · rw [(b6 p (by omega)).1]; exact a8 p (by omega)
    · rw [loop_last, onToks_bind, List.append_assoc, a9]
      show (Spec.readLrPlane f _ _ (0 + n) D1).onToks _ = _
      rw [Nat.zero_add]
      exact b10 rest
    · rw [b13, a3, a12]
      by_cases e : p = n
      · subst e
        by_cases hh : p = p ∧ In C p k ∧ Corner C p k ∧ i = (C.plane p).uy + k.1 / 2 ^ (C.plane p).vShift ∧ j = (C.plane p).ux + k.2 / 2 ^ (C.plane p).hShift
        · rw [if_pos hh, if_pos ⟨by omega, hh.2⟩]
        · rw [if_neg hh, if_neg (fun h => absurd h.1 (by omega)), if_neg (fun h => hh ⟨rfl, h.2⟩)]
      · rw [if_neg (fun h => e h.1)]
        by_cases hh : p < n ∧ In C p k ∧ Corner C p k ∧ i = (C.plane p).uy + k.1 / 2 ^ (C.plane p).vShift ∧ j = (C.plane p).ux + k.2 / 2 ^ (C.plane p).hShift
        · rw [if_pos hh, if_pos ⟨by omega, hh.2⟩]
        · rw [if_neg hh, if_neg (fun h => hh ⟨by omega, h.2⟩)]

/-! ### A superblock -/

/-- What holds before the superblock after those of a list is written and read. -/
structure Inv {S : Type} (C : Cfg) (sbs : Nat → Nat → List Bk) (pre : List (Nat × Nat)) (s : Lf) (D : State S) : Prop where
  num : C.enableRestoration = true → NumInv C pre s
  filters : FiltersOk C s.filters
  cdef : CdefOk C s.cdef
  refs : ∀ p < C.planes, RefsOk (s.refs p) ∧ D.refs p = s.refs p
  lr : C.enableRestoration = true → ∀ p < C.planes, ∀ b < (C.plane p).rows, ∀ a < (C.plane p).cols,
    (b * 2 ^ (C.plane p).vShift, a * 2 ^ (C.plane p).hShift) ∈ pre → D.lr p ((C.plane p).uy + b) ((C.plane p).ux + a) = some (s.filters p b a).toSpec
  only : ∀ p i j, D.lr p i j ≠ none → C.enableRestoration = true ∧ p < C.planes ∧ ∃ b < (C.plane p).rows, ∃ a < (C.plane p).cols,
    i = (C.plane p).uy + b ∧ j = (C.plane p).ux + a
  idx : ∀ z ∈ pre, D.cdef (C.gy + z.1) (C.gx + z.2) = if (encodeSb C (sbs z.2 z.1)).coded then (s.cdef z.1 z.2 : Int) else -1

/-- The entry of a superblock in the queue (src/encoder.rs:3493-3502, 3547-3566). -/
def entryOf (C : Cfg) (sbs : Nat → Nat → List Bk) (k : Nat × Nat) : Entry := ⟨k.2, k.1, lruOf C k.2 k.1, encodeSb C (sbs k.2 k.1)⟩

/-- **A superblock round-trips**: it is written without a panic, and the decoder reads its restoration units, its CDEF index and its blocks. -/
theorem flush_step {S : Type} {C : Cfg} {f : Frame} (K : CfgOk C f) {R : Rdo} (hR : RdoOk C R) {sbs : Nat → Nat → List Bk} (sb : Nat → Nat → S → Syn S)
    {pre post : List (Nat × Nat)} {k : Nat × Nat} (hL : pairs C.sbH C.sbW = pre ++ k :: post) {s : Lf} {D : State S} (I : Inv C sbs pre s D) {b' : S}
    (hacc : accepts (sb (16 * C.gy + 16 * k.1) (16 * C.gx + 16 * k.2) D.blocks) (sbs k.2 k.1) = some b') :
    ∃ s' ts D', flush C R (entryOf C sbs k) s = some s' ∧ s'.out = s.out ++ ts ∧
      (∀ rest, (Spec.readSb f sb (16 * C.gy + 16 * k.1) (16 * C.gx + 16 * k.2) D).onToks (ts ++ rest) = some (D', rest)) ∧
      Inv C sbs (pre ++ [k]) s' D' ∧ D'.blocks = b' := by
  obtain ⟨hk1, hk2, hpre⟩ := pairs_split hL
  -- the blocks
  have hcd := fun v hv => cdef_rt (f := f) K.enableCdef K.cdefBits K.intrabc.1 (v := v) hv hacc []
  have hrec : (encodeSb C (sbs k.2 k.1)).coded = true → C.enableCdef = true := by
    obtain ⟨r, r1, r2, _⟩ := hcd 0 (Nat.two_pow_pos _)
    intro h
    unfold encodeSb at h
    rw [r1, r2] at h
    simp only [Bool.and_eq_true] at h
    exact h.1
  -- decisions
  obtain ⟨s1, e1, g1, g2, g3, g4, g5, g6, g7, g8⟩ := entryRdo_keeps K hR hL hrec I.num I.filters I.cdef
  -- units
  have U : ∃ s2 ts D2, entryUnits C (entryOf C sbs k) s1 = some s2 ∧
      s2.out = s1.out ++ ts ∧ s2.filters = s1.filters ∧ s2.cdef = s1.cdef ∧ s2.rdoed = s1.rdoed ∧
      (∀ p < C.planes, RefsOk (s2.refs p) ∧ D2.refs p = s2.refs p) ∧
      (C.enableRestoration = true → ∀ p < C.planes, CodedOk C (pre ++ [k]) p (s2.coded p)) ∧
      (∀ rest, (Spec.readLr f (16 * C.gy + 16 * k.1) (16 * C.gx + 16 * k.2) D).onToks (ts ++ rest) = some (D2, rest)) ∧
      D2.cdef = D.cdef ∧ D2.blocks = D.blocks ∧
      ∀ p i j, D2.lr p i j = if (C.enableRestoration = true ∧ p < C.planes) ∧ In C p k ∧ Corner C p k ∧ i = (C.plane p).uy + k.1 / 2 ^ (C.plane p).vShift ∧
        j = (C.plane p).ux + k.2 / 2 ^ (C.plane p).hShift then
        some (s1.filters p (k.1 / 2 ^ (C.plane p).vShift) (k.2 / 2 ^ (C.plane p).hShift)).toSpec else D.lr p i j := by
    have hread : Spec.readLr f (16 * C.gy + 16 * k.1) (16 * C.gx + 16 * k.2) D =
        Spec.loop (fun plane s => Spec.readLrPlane f (16 * C.gy + 16 * k.1) (16 * C.gx + 16 * k.2) plane s) C.planes 0 D := by
      unfold Spec.readLr
      rw [K.intrabc.1, if_neg (by simp), K.planes]
    unfold entryUnits
    rw [K.intrabc.2, hread]
    by_cases hr : C.enableRestoration = true
    · rw [if_pos (by rw [hr]; rfl)]
      obtain ⟨s2, ts, D2, a1, a2, a3, a4, a5, a6, a7, a8, a9, a10, a11, a12⟩ := planes_step K hr hL (recs := encodeSb C (sbs k.2 k.1)) (s := s1) (D := D)
        (by rw [g1]; exact (I.num hr).coded) g4 (by rw [g2]; exact I.refs) C.planes le_rfl
      refine ⟨s2, ts, D2, a1, a2, a3, a4, a5, a6, fun _ => a7, a9, a10, a11, fun p i j => ?_⟩
      rw [a12]
      simp only [hr, true_and]
    · have hr' : C.enableRestoration = false := Bool.eq_false_iff.2 hr
      rw [if_neg (by rw [hr']; simp)]
      refine ⟨s1, [], D, rfl, by simp, rfl, rfl, rfl, by rw [g2]; exact I.refs, fun h => absurd h hr, fun rest => ?_, rfl, rfl, fun p i j => ?_⟩
      · rw [loop_ret _ _ _ _ fun j _ hj => by
          unfold Spec.readLrPlane
          rw [if_pos (K.off hr' j (by omega))]]
        rfl
      · rw [if_neg (fun h => hr h.1.1)]
  obtain ⟨s2, t2, D2, u1, u2, u3, u4, u5, u6, u7, u8, u9, u10, u11⟩ := U
  obtain ⟨r, r1, r2, t, r3, r4, r5⟩ := hcd (s2.cdef k.1 k.2) (by rw [u4]; exact g5 k.1 hk1 k.2 hk2)
  have hre : encodeSb C (sbs k.2 k.1) = r := r1
  rw [List.nil_append] at r3
  -- what is common to both cases
  have fin : ∀ (s' : Lf) (D' : State S) (v : Int), s'.filters = s2.filters → s'.cdef = s2.cdef → s'.refs = s2.refs → s'.coded = s2.coded → s'.rdoed = s2.rdoed →
      D'.lr = D2.lr → D'.refs = D2.refs → (D'.cdef = fun i j => if i = (16 * C.gy + 16 * k.1) / 16 ∧ j = (16 * C.gx + 16 * k.2) / 16 then v else D2.cdef i j) →
      (v = if r.coded then (s2.cdef k.1 k.2 : Int) else -1) → Inv C sbs (pre ++ [k]) s' D' := by
    intro s' D' v z1 z2 z3 z4 z5 z6 z7 z8 hv
    refine ⟨fun hr => ⟨?_, ?_, ?_⟩, ?_, ?_, ?_, fun hr p hp b hb a ha hm => ?_, fun p i j hne => ?_, fun z hz => ?_⟩
    · rw [z4]; exact u7 hr
    · rw [z5, u5]; exact (g8 hr).1
    · rw [z5, u5]; exact (g8 hr).2
    · rw [z1, u3]; exact g4
    · rw [z2, u4]; exact g5
    · rw [z3, z7]; exact u6
    · rw [z6, z1, u3, u11]
      by_cases hh : (C.enableRestoration = true ∧ p < C.planes) ∧ In C p k ∧ Corner C p k ∧ (C.plane p).uy + b = (C.plane p).uy + k.1 / 2 ^ (C.plane p).vShift ∧
          (C.plane p).ux + a = (C.plane p).ux + k.2 / 2 ^ (C.plane p).hShift
      · rw [if_pos hh]
        rw [Nat.add_left_cancel hh.2.2.2.1, Nat.add_left_cancel hh.2.2.2.2]
      · rw [if_neg hh]
        rcases List.mem_append.1 hm with hm | hm
        · rw [I.lr hr p hp b hb a ha hm, g6 p hp b a ((hpre _).1 hm).2.2]
        · rw [List.mem_singleton] at hm
          have m1 : k.1 = b * 2 ^ (C.plane p).vShift := by rw [← hm]
          have m2 : k.2 = a * 2 ^ (C.plane p).hShift := by rw [← hm]
          have d1 : k.1 / 2 ^ (C.plane p).vShift = b := by rw [m1]; exact Nat.mul_div_cancel _ (Nat.two_pow_pos _)
          have d2 : k.2 / 2 ^ (C.plane p).hShift = a := by rw [m2]; exact Nat.mul_div_cancel _ (Nat.two_pow_pos _)
          exfalso
          apply hh
          refine ⟨⟨hr, hp⟩, ⟨by rw [d2]; exact ha, by rw [d1]; exact hb⟩, ⟨by rw [m2]; exact Nat.mul_mod_left _ _, by rw [m1]; exact Nat.mul_mod_left _ _⟩, by rw [d1], by rw [d2]⟩
    · rw [z6, u11] at hne
      by_cases hh : (C.enableRestoration = true ∧ p < C.planes) ∧ In C p k ∧ Corner C p k ∧ i = (C.plane p).uy + k.1 / 2 ^ (C.plane p).vShift ∧
          j = (C.plane p).ux + k.2 / 2 ^ (C.plane p).hShift
      · exact ⟨hh.1.1, hh.1.2, _, hh.2.1.2, _, hh.2.1.1, hh.2.2.2⟩
      · rw [if_neg hh] at hne
        exact I.only p i j hne
    · rw [z8, z2]
      dsimp only
      by_cases hh : C.gy + z.1 = (16 * C.gy + 16 * k.1) / 16 ∧ C.gx + z.2 = (16 * C.gx + 16 * k.2) / 16
      · have e : z = k := Prod.ext (by omega) (by omega)
        rw [if_pos hh, e, hre]
        exact hv
      · rw [if_neg hh]
        rcases List.mem_append.1 hz with hz | hz
        · rw [u9, I.idx z hz, u4, g7 z ((hpre z).1 hz).2.2]
        · rw [List.mem_singleton] at hz
          subst hz
          exact absurd ⟨by omega, by omega⟩ hh
  have hflush : flush C R (entryOf C sbs k) s =
      if r.coded = true then some { s2 with out := s2.out ++ r.wPre ++ flatToks (literal C.cdefBits (s2.cdef k.1 k.2)) ++ r.wPost }
      else some { s2 with out := s2.out ++ r.wPre } := by
    unfold flush
    have e1' : entryRdo C R (entryOf C sbs k) s = some s1 := e1
    rw [e1']
    simp only [Option.bind_eq_bind, Option.bind_some]
    rw [u1]
    simp only [Option.bind_some]
    show (if (encodeSb C (sbs k.2 k.1)).coded = true then _ else _) = _
    simp only [entryOf, hre]
  have hrd : ∀ x, (Spec.readSb f sb (16 * C.gy + 16 * k.1) (16 * C.gx + 16 * k.2) D).onToks (t2 ++ x) =
      (((sb (16 * C.gy + 16 * k.1) (16 * C.gx + 16 * k.2) D.blocks).rd f (-1)).onToks x).bind fun q =>
        some ({ D2 with
          cdef := fun i j => if i = (16 * C.gy + 16 * k.1) / 16 ∧ j = (16 * C.gx + 16 * k.2) / 16 then q.1.1 else D2.cdef i j
          blocks := q.1.2 }, q.2) := by
    intro x
    unfold Spec.readSb
    rw [onToks_bind, u8]
    simp only [Option.bind_some]
    rw [onToks_bind, u10]
    rfl
  by_cases hc : r.coded = true
  · rw [if_pos hc] at hflush
    refine ⟨_, t2 ++ (t ++ (flatToks (literal C.cdefBits (s2.cdef k.1 k.2)) ++ r.wPost)), _, hflush, ?_, fun rest => ?_,
      fin _ { D2 with
        cdef := fun i j => if i = (16 * C.gy + 16 * k.1) / 16 ∧ j = (16 * C.gx + 16 * k.2) / 16 then (s2.cdef k.1 k.2 : Int) else D2.cdef i j
        blocks := b' } (s2.cdef k.1 k.2 : Int) rfl rfl rfl rfl rfl rfl rfl rfl (by rw [if_pos hc]), rfl⟩
    · dsimp only
      rw [u2, g3, r3]
      simp only [List.append_assoc]
    · rw [List.append_assoc, hrd, List.append_assoc, List.append_assoc, r4 hc]
      rfl
  · rw [if_neg hc] at hflush
    refine ⟨_, t2 ++ t, _, hflush, ?_, fun rest => ?_,
      fin _ { D2 with
        cdef := fun i j => if i = (16 * C.gy + 16 * k.1) / 16 ∧ j = (16 * C.gx + 16 * k.2) / 16 then (-1 : Int) else D2.cdef i j
        blocks := b' } (-1) rfl rfl rfl rfl rfl rfl rfl rfl (by rw [if_neg hc]), rfl⟩
    · dsimp only
      rw [u2, g3, r3]
      simp only [List.append_assoc]
    · rw [List.append_assoc, hrd, r5 (Bool.eq_false_iff.2 hc)]
      rfl

end Rav1e.LoopSyn

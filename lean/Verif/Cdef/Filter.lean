import Verif.Cdef.Direction

/-!
# The filter of one block is the filter of the specification
-/

namespace Rav1e.Cdef

theorem constrain_eq (diff threshold damping : Int) : constrain diff threshold damping = Spec.constrain diff threshold damping := by
  unfold constrain Spec.constrain
  by_cases h : threshold = 0
  · simp [h]
  · rw [if_pos h, if_neg h]
    simp only [msb, Spec.floorLog2, shr_eq]
    generalize (2 : Int) ^ _ = q
    generalize (diff.natAbs : Int) / q = s
    rcases lt_trichotomy diff 0 with hd | hd | hd
    · rw [if_pos hd, Int.sign_eq_neg_one_of_neg hd]; omega
    · subst hd; simp
    · rw [if_neg (by omega), Int.sign_eq_one_of_pos hd]; omega

/-- Pixels that are not there do not count. -/
theorem constrain_large {x threshold damping : Int} (hx : 0 ≤ x) (hx' : x < 4096) (ht : 0 ≤ threshold) (hd : damping ≤ 10)
    (ht' : threshold < 1024) : constrain (veryLarge - x) threshold damping = 0 := by
  unfold constrain
  split
  · rename_i hne
    have hb : threshold ≤ (((veryLarge - x).natAbs : Int) >>> (max 0 (damping - msb threshold)).toNat) := by
      rw [shr_eq, Int.le_ediv_iff_mul_le (by positivity)]
      have hm : msb threshold = (threshold.toNat.log2 : Int) := rfl
      have hlt : threshold.toNat < 2 ^ (threshold.toNat.log2 + 1) := Nat.lt_log2_self
      have hle : 2 ^ threshold.toNat.log2 ≤ threshold.toNat := Nat.log2_self_le (by omega)
      have hl10 : threshold.toNat.log2 < 10 := by
        by_contra hc
        have : 2 ^ 10 ≤ 2 ^ threshold.toNat.log2 := Nat.pow_le_pow_right (by norm_num) (by omega)
        omega
      rw [hm]
      generalize threshold.toNat.log2 = l at *
      have hsh : (max 0 (damping - (l : Int))).toNat ≤ 10 - l := by omega
      have h1 : (2 : Int) ^ (max 0 (damping - (l : Int))).toNat ≤ 2 ^ (10 - l) := by
        exact_mod_cast Nat.pow_le_pow_right (by norm_num) hsh
      have h2 : threshold ≤ 2 ^ (l + 1) := by
        have : (threshold.toNat : Int) < 2 ^ (l + 1) := by exact_mod_cast hlt
        omega
      have h3 : (2 : Int) ^ (l + 1) * 2 ^ (10 - l) = 2 ^ 11 := by
        rw [← pow_add]; congr 1; omega
      have h4 : threshold * 2 ^ (max 0 (damping - (l : Int))).toNat ≤ 2 ^ (l + 1) * 2 ^ (10 - l) :=
        Int.mul_le_mul h2 h1 (by positivity) (by positivity)
      rw [h3] at h4
      refine le_trans h4 ?_
      have : (2 : Int) ^ 11 = 2048 := by norm_num
      unfold veryLarge
      omega
    have : min (max (threshold - (((veryLarge - x).natAbs : Int) >>> (max 0 (damping - msb threshold)).toNat)) 0)
        (((veryLarge - x).natAbs : Nat) : Int) = 0 := by omega
    simp only [this]
    split <;> rfl
  · rfl

/-- A tap of the code, which may not be there. -/
structure RawTap where
  v : Option Int
  strength : Int
  weight : Int

def RawTap.toTap (t : RawTap) : Option Spec.Tap := t.v.map (fun v => ⟨v, t.strength, t.weight⟩)

/-- The result of the specification from a list of taps. -/
def combine (x damping : Int) (ts : List Spec.Tap) : Int :=
  let sum := (ts.map (fun t => t.weight * Spec.constrain (t.v - x) t.strength damping)).sum
  max ((ts.map Spec.Tap.v).foldl min x) (min ((ts.map Spec.Tap.v).foldl max x)
    (x + (8 + sum - (if sum < 0 then 1 else 0)) / 16))

theorem filter_eq_combine (s : Spec.Params) (p : Nat) (y x : Int) (pri sec damping : Int) (dir : Nat) :
    Spec.filter s p y x pri sec damping dir = combine (s.cur p y x) damping (Spec.taps s p y x pri sec dir) := rfl

theorem foldl_max_le (l : List Int) (x : Int) : x ≤ l.foldl max x := by
  induction l generalizing x with
  | nil => exact le_refl _
  | cons a l ih => exact le_trans (le_max_left x a) (ih _)

theorem foldl_min_le (l : List Int) (x : Int) : l.foldl min x ≤ x := by
  induction l generalizing x with
  | nil => exact le_refl _
  | cons a l ih => exact le_trans (ih _) (min_le_left x a)

theorem combine_perm {x damping : Int} {ts ts' : List Spec.Tap} (h : ts.Perm ts') : combine x damping ts = combine x damping ts' := by
  unfold combine
  have h1 : (ts.map (fun t => t.weight * Spec.constrain (t.v - x) t.strength damping)).sum =
      (ts'.map (fun t => t.weight * Spec.constrain (t.v - x) t.strength damping)).sum := by
    induction h with
    | nil => rfl
    | cons _ _ ih => simp [ih]
    | swap a b l => simp only [List.map_cons, List.sum_cons]; ring
    | trans _ _ ih1 ih2 => exact ih1.trans ih2
  have h2 : (ts.map Spec.Tap.v).foldl min x = (ts'.map Spec.Tap.v).foldl min x :=
    (h.map _).foldl_eq' (by intro a _ b _ z; omega) x
  have h3 : (ts.map Spec.Tap.v).foldl max x = (ts'.map Spec.Tap.v).foldl max x :=
    (h.map _).foldl_eq' (by intro a _ b _ z; omega) x
  rw [h1, h2, h3]

/-- The fold of the code over taps, some of which are not there. -/
theorem tap_fold {x damping : Int} (hx : 0 ≤ x) (hx' : x < 4096) (hd : damping ≤ 10) (ts : List RawTap)
    (h : ∀ t ∈ ts, 0 ≤ t.strength ∧ t.strength < 1024 ∧ ∀ v, t.v = some v → v < 4096) (a : Acc) (ha : a.min < 4096) :
    ts.foldl (fun a t => tap x t.strength damping t.weight a (t.v.getD veryLarge)) a =
      ⟨a.sum + ((ts.filterMap RawTap.toTap).map (fun t => t.weight * Spec.constrain (t.v - x) t.strength damping)).sum,
       ((ts.filterMap RawTap.toTap).map Spec.Tap.v).foldl max a.max,
       ((ts.filterMap RawTap.toTap).map Spec.Tap.v).foldl min a.min⟩ := by
  induction ts generalizing a with
  | nil => simp
  | cons t ts ih =>
    obtain ⟨h1, h2, h3⟩ := h t (by simp)
    rw [List.foldl_cons]
    cases hv : t.v with
    | none =>
      have htap : tap x t.strength damping t.weight a ((none : Option Int).getD veryLarge) = a := by
        unfold tap
        rw [Option.getD_none, constrain_large hx hx' h1 hd h2]
        have : min veryLarge a.min = a.min := by unfold veryLarge; omega
        rw [this]
        simp
      rw [htap, ih (fun t ht => h t (by simp [ht])) a ha]
      simp [RawTap.toTap, hv]
    | some v =>
      have hv4 := h3 v hv
      have htap : tap x t.strength damping t.weight a ((some v : Option Int).getD veryLarge) =
          ⟨a.sum + t.weight * Spec.constrain (v - x) t.strength damping, max a.max v, min a.min v⟩ := by
        unfold tap
        rw [Option.getD_some, if_pos (by unfold veryLarge; omega), constrain_eq, max_comm, min_comm]
      rw [htap, ih (fun t ht => h t (by simp [ht])) _ (by simp only; omega)]
      simp [RawTap.toTap, hv]
      ring

/-- Offsets of the eight directions, in rows and columns. -/
theorem directions_eq (istride : Int) (d k : Nat) (hd : d < 8) (hk : k < 2) : ∃ l, (directions istride)[d]? = some l ∧
    l[k]? = some (((Spec.directions.getD d []).getD k (0, 0)).1 * istride + ((Spec.directions.getD d []).getD k (0, 0)).2) := by
  interval_cases d <;> interval_cases k <;> (simp [directions, Spec.directions]; try ring)

theorem offsets_small (d k : Nat) (hd : d < 8) (hk : k < 2) :
    |((Spec.directions.getD d []).getD k (0, 0)).1| ≤ 2 ∧ |((Spec.directions.getD d []).getD k (0, 0)).2| ≤ 2 := by
  interval_cases d <;> interval_cases k <;> decide

/-- The taps of the code: `look dy dx` is the pixel at that distance, if there is one. -/
def rawTaps (look : Int → Int → Option Int) (pri sec : Int) (odd : Bool) (dir : Nat) : List RawTap :=
  (List.range 2).flatMap (fun k =>
    let o (d : Nat) := (Spec.directions.getD (d % 8) []).getD k (0, 0)
    let wp : Int := (if odd then [3, 3] else [4, 2]).getD k 0
    let ws : Int := [2, 1].getD k 0
    [⟨look (o dir).1 (o dir).2, pri, wp⟩, ⟨look (-(o dir).1) (-(o dir).2), pri, wp⟩,
     ⟨look (o (dir + 2)).1 (o (dir + 2)).2, sec, ws⟩, ⟨look (-(o (dir + 2)).1) (-(o (dir + 2)).2), sec, ws⟩,
     ⟨look (o (dir + 6)).1 (o (dir + 6)).2, sec, ws⟩, ⟨look (-(o (dir + 6)).1) (-(o (dir + 6)).2), sec, ws⟩])

/-- One pixel. -/
theorem filterPixel_eq {m : Mem} {ptr istride pri sec damping : Int} {dir coeffShift : Nat}
    (look : Int → Int → Option Int) (hdir : dir < 8)
    (hlook : ∀ dy dx, |dy| ≤ 2 → |dx| ≤ 2 → m (ptr + (dy * istride + dx)) = (look dy dx).getD veryLarge)
    (hlk : ∀ dy dx v, look dy dx = some v → v < 4096)
    (hx : 0 ≤ m ptr) (hx' : m ptr < 4096) (hp : 0 ≤ pri) (hp' : pri < 1024) (hs : 0 ≤ sec) (hs' : sec < 1024) (hd : damping ≤ 10) :
    filterPixel m ptr istride pri sec dir damping coeffShift =
      some (combine (m ptr) damping ((rawTaps look pri sec (decide (pri / 2 ^ coeffShift % 2 ≠ 0)) dir).filterMap RawTap.toTap)) := by
  obtain ⟨d0, e0, f00⟩ := directions_eq istride dir 0 hdir (by omega)
  obtain ⟨d0', e0', f01⟩ := directions_eq istride dir 1 hdir (by omega)
  obtain ⟨d1, e1, f10⟩ := directions_eq istride ((dir + 2) % 8) 0 (by omega) (by omega)
  obtain ⟨d1', e1', f11⟩ := directions_eq istride ((dir + 2) % 8) 1 (by omega) (by omega)
  obtain ⟨d2, e2, f20⟩ := directions_eq istride ((dir + 6) % 8) 0 (by omega) (by omega)
  obtain ⟨d2', e2', f21⟩ := directions_eq istride ((dir + 6) % 8) 1 (by omega) (by omega)
  obtain rfl : d0' = d0 := by rw [e0] at e0'; exact (Option.some.inj e0').symm
  obtain rfl : d1' = d1 := by rw [e1] at e1'; exact (Option.some.inj e1').symm
  obtain rfl : d2' = d2 := by rw [e2] at e2'; exact (Option.some.inj e2').symm
  obtain ⟨s00, t00⟩ := offsets_small dir 0 hdir (by omega)
  obtain ⟨s01, t01⟩ := offsets_small dir 1 hdir (by omega)
  obtain ⟨s10, t10⟩ := offsets_small ((dir + 2) % 8) 0 (by omega) (by omega)
  obtain ⟨s11, t11⟩ := offsets_small ((dir + 2) % 8) 1 (by omega) (by omega)
  obtain ⟨s20, t20⟩ := offsets_small ((dir + 6) % 8) 0 (by omega) (by omega)
  obtain ⟨s21, t21⟩ := offsets_small ((dir + 6) % 8) 1 (by omega) (by omega)
  have pos : ∀ o : Int × Int, |o.1| ≤ 2 → |o.2| ≤ 2 → m (ptr + (o.1 * istride + o.2)) = (look o.1 o.2).getD veryLarge :=
    fun o h1 h2 => hlook o.1 o.2 h1 h2
  have neg : ∀ o : Int × Int, |o.1| ≤ 2 → |o.2| ≤ 2 → m (ptr + -(o.1 * istride + o.2)) = (look (-o.1) (-o.2)).getD veryLarge := by
    intro o h1 h2
    rw [← hlook (-o.1) (-o.2) (by rwa [abs_neg]) (by rwa [abs_neg])]
    congr 1; ring
  have hmod : dir % 8 = dir := Nat.mod_eq_of_lt hdir
  have hfold := tap_fold hx hx' hd (rawTaps look pri sec (decide (pri / 2 ^ coeffShift % 2 ≠ 0)) dir) (by
    intro t ht
    simp only [rawTaps, List.mem_flatMap, List.mem_cons, List.not_mem_nil, or_false] at ht
    obtain ⟨k, _, h | h | h | h | h | h⟩ := ht <;> subst h <;> simp only <;>
      exact ⟨by assumption, by assumption, fun v hv => hlk _ _ v hv⟩) ⟨0, m ptr, m ptr⟩ hx'
  have hmm : ∀ acc : Acc, acc.min ≤ m ptr → m ptr ≤ acc.max →
      min (max (m ptr + ((8 + acc.sum - (if acc.sum < 0 then 1 else 0)) >>> 4)) acc.min) acc.max =
      max acc.min (min acc.max (m ptr + ((8 + acc.sum - (if acc.sum < 0 then 1 else 0)) / 16))) := by
    intro acc h1 h2
    rw [shr_eq]
    norm_num
    omega
  have hrun : filterPixel m ptr istride pri sec dir damping coeffShift =
      some ((fun acc : Acc => min (max (m ptr + ((8 + acc.sum - (if acc.sum < 0 then 1 else 0)) >>> 4)) acc.min) acc.max)
        (List.foldl (fun a t => tap (m ptr) t.strength damping t.weight a (t.v.getD veryLarge)) ⟨0, m ptr, m ptr⟩
          (rawTaps look pri sec (decide (pri / 2 ^ coeffShift % 2 ≠ 0)) dir))) := by
    unfold filterPixel rawTaps
    rw [shr_eq]
    have hodd : pri / 2 ^ coeffShift % 2 = 0 ∨ pri / 2 ^ coeffShift % 2 = 1 := by omega
    rcases hodd with h | h <;>
    simp only [h, e0, e1, e2, f00, f01, f10, f11, f20, f21, List.range_succ, List.range_zero, List.nil_append, List.cons_append,
      List.foldlM_cons, List.foldlM_nil, List.foldl_cons, List.foldl_nil, List.flatMap_cons, List.flatMap_nil, List.append_nil,
      pos _ s00 t00, pos _ s01 t01, pos _ s10 t10, pos _ s11 t11, pos _ s20 t20, pos _ s21 t21,
      neg _ s00 t00, neg _ s01 t01, neg _ s10 t10, neg _ s11 t11, neg _ s20 t20, neg _ s21 t21, hmod,
      Int.toNat_zero, Int.toNat_one, List.getElem?_cons_zero, List.getElem?_cons_succ, Option.bind_eq_bind, Option.bind_some,
      Option.pure_def] <;> rfl
  rw [hrun]
  simp only
  rw [hmm _ (by rw [hfold]; exact foldl_min_le _ _) (by rw [hfold]; exact foldl_max_le _ _), hfold]
  simp only [combine, Int.zero_add]

theorem perm_flatMap {α β : Type} (l : List α) (f g : α → List β) (h : ∀ a, (f a).Perm (g a)) : (l.flatMap f).Perm (l.flatMap g) := by
  induction l with
  | nil => simp
  | cons a l ih => simpa using (h a).append ih

theorem perm6 {α : Type} (a b c d e f : α) : [a, b, c, d, e, f].Perm [b, f, d, a, e, c] := by
  have h : [(0 : Nat), 1, 2, 3, 4, 5].Perm [1, 5, 3, 0, 4, 2] := by decide
  simpa using h.map (fun i => [a, b, c, d, e, f].getD i a)

theorem filterMap3 {α β γ : Type} {f : α → Option γ} {g : β → Option γ} {a b c : α} {a' b' c' : β} (h1 : f a = g a')
    (h2 : f b = g b') (h3 : f c = g c') : [a, b, c].filterMap f = [a', b', c'].filterMap g := by
  simp [List.filterMap_cons, h1, h2, h3]

/-- What the specification looks at from pixel `(y, x)`. -/
def look (s : Spec.Params) (p : Nat) (y x dy dx : Int) : Option Int :=
  if Spec.available s p (y + dy) (x + dx) then some (s.cur p (y + dy) (x + dx)) else none

theorem taps_perm (s : Spec.Params) (p : Nat) (y x pri sec : Int) (dir : Nat) (hdir : dir < 8) :
    ((rawTaps (look s p y x) pri sec (decide (pri / 2 ^ (s.bitDepth - 8) % 2 ≠ 0)) dir).filterMap RawTap.toTap).Perm
      (Spec.taps s p y x pri sec dir) := by
  have hmod : dir % 8 = dir := Nat.mod_eq_of_lt hdir
  have hw : (if decide (pri / 2 ^ (s.bitDepth - 8) % 2 ≠ 0) = true then [(3 : Int), 3] else [4, 2]) =
      (if pri / 2 ^ (s.bitDepth - 8) % 2 = 0 then [4, 2] else [3, 3]) := by
    by_cases h : pri / 2 ^ (s.bitDepth - 8) % 2 = 0 <;> simp [h]
  unfold rawTaps Spec.taps
  rw [List.filterMap_flatMap]
  apply perm_flatMap
  intro k
  simp only [hw, hmod]
  refine List.Perm.trans ((perm6 _ _ _ _ _ _).filterMap _) ?_
  apply List.Perm.of_eq
  have hraw : ∀ (sign : Int) (o : Int × Int) (st w : Int),
      (RawTap.mk (look s p y x (sign * o.1) (sign * o.2)) st w).toTap =
        if Spec.available s p (y + sign * o.1) (x + sign * o.2) then
          some ⟨s.cur p (y + sign * o.1) (x + sign * o.2), st, w⟩ else none := by
    intro sign o st w
    unfold RawTap.toTap look
    split <;> rfl
  have h1 : ∀ (o : Int × Int) (st w : Int), (RawTap.mk (look s p y x o.1 o.2) st w).toTap =
        if Spec.available s p (y + 1 * o.1) (x + 1 * o.2) then
          some ⟨s.cur p (y + 1 * o.1) (x + 1 * o.2), st, w⟩ else none := by
    intro o st w
    have := hraw 1 o st w
    rwa [Int.one_mul, Int.one_mul] at this ⊢
  have h2 : ∀ (o : Int × Int) (st w : Int), (RawTap.mk (look s p y x (-o.1) (-o.2)) st w).toTap =
        if Spec.available s p (y + -1 * o.1) (x + -1 * o.2) then
          some ⟨s.cur p (y + -1 * o.1) (x + -1 * o.2), st, w⟩ else none := by
    intro o st w
    have := hraw (-1) o st w
    rwa [Int.neg_one_mul, Int.neg_one_mul] at this ⊢
  rw [show ∀ a b c d e f : RawTap, [a, b, c, d, e, f] = [a, b, c] ++ [d, e, f] from fun _ _ _ _ _ _ => rfl, List.filterMap_append]
  simp only [List.flatMap_cons, List.flatMap_nil, List.append_nil]
  congr 1
  · exact filterMap3 (h2 _ _ _) (h2 _ _ _) (h2 _ _ _)
  · exact filterMap3 (h1 _ _ _) (h1 _ _ _) (h1 _ _ _)

/-- Writes with one value per address. -/
theorem poke_fold (l : List (Int × Int)) (t : Mem) (a v : Int) (h : ∀ q ∈ l, q.1 = a → q.2 = v) :
    l.foldl (fun t q => poke t q.1 q.2) t a = if a ∈ l.map Prod.fst then v else t a := by
  induction l generalizing t with
  | nil => simp
  | cons q l ih =>
    rw [List.foldl_cons, ih _ (fun q hq => h q (by simp [hq]))]
    have hq := h q (by simp)
    simp only [poke, List.map_cons, List.mem_cons]
    by_cases h1 : a = q.1
    · simp [h1, hq h1.symm]
    · simp only [h1, false_or, if_false]

theorem foldl_flatMap' {α β γ : Type} (l : List α) (f : α → List β) (g : γ → β → γ) (c : γ) :
    (l.flatMap f).foldl g c = l.foldl (fun c a => (f a).foldl g c) c := by
  induction l generalizing c with
  | nil => rfl
  | cons a l ih => simp [ih]

/-- There is a pixel at row `a`, column `b` of the block. -/
def there (e : Edges) (bw bh : Nat) (a b : Int) : Prop :=
  (0 ≤ a ∨ e.top = true) ∧ (a < bh ∨ e.bottom = true) ∧ (0 ≤ b ∨ e.left = true) ∧ (b < bw ∨ e.right = true)

instance (e : Edges) (bw bh : Nat) (a b : Int) : Decidable (there e bw bh a b) := by unfold there; infer_instance

/-- The padded copy of a block. -/
theorem padIntoTmp_eq (m : Mem) (input istride : Int) (bw bh : Nat) (e : Edges) (a b : Int) (ha : -2 ≤ a) (ha' : a < bh + 2)
    (hb : -2 ≤ b) (hb' : b < bw + 2) :
    padIntoTmp (fun _ => veryLarge) 0 (bw + 4) m input istride bw bh e ((a + 2) * (bw + 4) + (b + 2)) =
      if there e bw bh a b then m (input + (a * istride + b)) else veryLarge := by
  unfold padIntoTmp
  generalize hw : bw + (if e.left = true then 2 else 0) + (if e.right = true then 2 else 0) = w
  generalize hh : bh + (if e.top = true then 2 else 0) + (if e.bottom = true then 2 else 0) = h
  obtain ⟨lx, hlx⟩ : ∃ lx : Int, lx = if e.left = true then 0 else 2 := ⟨_, rfl⟩
  obtain ⟨ty, hty⟩ : ∃ ty : Int, ty = if e.top = true then 0 else 2 := ⟨_, rfl⟩
  have hd : (if e.top = true then if e.left = true then (0 : Int) else 0 + 2 else
      (if e.left = true then 0 else 0 + 2) + 2 * ((bw : Int) + 4)) = ty * (bw + 4) + lx := by
    rw [hlx, hty]; split <;> split <;> ring
  have hs : (if e.top = true then (if e.left = true then input - 2 else input) + -2 * istride else
      (if e.left = true then input - 2 else input)) = input + ((ty - 2) * istride + (lx - 2)) := by
    rw [hlx, hty]; split <;> split <;> ring
  rw [hd, hs]
  have hflat : ∀ t : Mem, (List.range h).foldl (fun t (y : Nat) => (List.range w).foldl
      (fun t (x : Nat) => poke t (ty * ((bw : Int) + 4) + lx + y * ((bw : Int) + 4) + x)
        (m (input + ((ty - 2) * istride + (lx - 2)) + y * istride + x))) t) t =
      ((List.range h).flatMap (fun (y : Nat) => (List.range w).map (fun (x : Nat) =>
        (ty * ((bw : Int) + 4) + lx + y * ((bw : Int) + 4) + x, m (input + ((ty - 2) * istride + (lx - 2)) + y * istride + x))))).foldl
        (fun t q => poke t q.1 q.2) t := by
    intro t
    rw [foldl_flatMap']
    simp only [List.foldl_map]
  rw [hflat]
  have uniq : ∀ y x : Nat, y < h → x < w → ty * ((bw : Int) + 4) + lx + y * ((bw : Int) + 4) + x = (a + 2) * (bw + 4) + (b + 2) →
      (y : Int) = a + 2 - ty ∧ (x : Int) = b + 2 - lx := by
    intro y x hy hx heq
    have hxl : (x : Int) + lx < bw + 4 ∧ 0 ≤ (x : Int) + lx := by
      subst hlx hw
      split at hx <;> split at hx <;> split <;> first | (exfalso; simp_all; done) | omega
    have h1 : (ty + y - (a + 2)) * ((bw : Int) + 4) = b + 2 - (x + lx) := by linarith
    have h2 : ty + y - (a + 2) = 0 := by
      by_contra hne
      rcases lt_or_gt_of_ne hne with hl | hl
      · have : (ty + y - (a + 2)) * ((bw : Int) + 4) ≤ -1 * ((bw : Int) + 4) := by
          apply Int.mul_le_mul_of_nonneg_right <;> omega
        omega
      · have : 1 * ((bw : Int) + 4) ≤ (ty + y - (a + 2)) * ((bw : Int) + 4) := by
          apply Int.mul_le_mul_of_nonneg_right <;> omega
        omega
    rw [h2] at h1
    omega
  rw [poke_fold _ _ _ (m (input + (a * istride + b)))]
  · congr 1
    simp only [List.map_flatMap, List.map_map, List.mem_flatMap, List.mem_range, List.mem_map, Function.comp, eq_iff_iff]
    constructor
    · rintro ⟨y, hy, x, hx, heq⟩
      obtain ⟨h1, h2⟩ := uniq y x hy hx heq
      clear heq uniq hflat hd hs
      obtain ⟨el, er, et, eb⟩ := e
      unfold there
      cases el <;> cases er <;> cases et <;> cases eb <;> simp at hw hh hlx hty ⊢ <;> omega
    · intro hth
      have hxy : ∃ y x : Nat, y < h ∧ x < w ∧ (y : Int) = a + 2 - ty ∧ (x : Int) = b + 2 - lx := by
        clear uniq hflat hd hs
        obtain ⟨el, er, et, eb⟩ := e
        unfold there at hth
        refine ⟨(a + 2 - ty).toNat, (b + 2 - lx).toNat, ?_⟩
        cases el <;> cases er <;> cases et <;> cases eb <;> simp at hw hh hlx hty hth ⊢ <;> omega
      obtain ⟨y, x, hy, hx, h1, h2⟩ := hxy
      refine ⟨y, hy, x, hx, ?_⟩
      rw [h1, h2]; ring
  · intro q hq heq
    simp only [List.mem_flatMap, List.mem_range, List.mem_map] at hq
    obtain ⟨y, hy, x, hx, rfl⟩ := hq
    obtain ⟨h1, h2⟩ := uniq y x hy hx heq
    simp only [h1, h2]
    congr 1; ring

/-- One block: a pixel of the block is filtered with the pixels that are there. -/
theorem filterBlock_eq {m : Mem} {input istride pri sec damping : Int} {dir bitDepth xdec ydec : Nat} {e : Edges} {i j : Nat}
    (look : Int → Int → Option Int) (hdir : dir < 8) (hi : i < 8 >>> ydec) (hj : j < 8 >>> xdec)
    (hlook : ∀ dy dx, |dy| ≤ 2 → |dx| ≤ 2 → look dy dx =
      if there e (8 >>> xdec) (8 >>> ydec) (i + dy) (j + dx) then some (m (input + ((i + dy) * istride + (j + dx)))) else none)
    (hlk : ∀ dy dx v, look dy dx = some v → 0 ≤ v ∧ v < 4096)
    (hp : 0 ≤ pri) (hp' : pri < 1024) (hs : 0 ≤ sec) (hs' : sec < 1024) (hd : damping ≤ 10) :
    filterBlock m input istride pri sec dir damping bitDepth xdec ydec e i j =
      some (combine (m (input + (i * istride + j))) damping
        ((rawTaps look pri sec (decide (pri / 2 ^ (bitDepth - 8) % 2 ≠ 0)) dir).filterMap RawTap.toTap)) := by
  have hth : there e (8 >>> xdec) (8 >>> ydec) i j := by
    unfold there; omega
  have hx := hlk 0 0 (m (input + (i * istride + j))) (by
    rw [hlook 0 0 (by simp) (by simp)]; simp [hth])
  unfold filterBlock
  generalize 8 >>> xdec = bw at *
  generalize 8 >>> ydec = bh at *
  split
  · rename_i hne
    have hpad := padIntoTmp_eq m input istride bw bh e
    have hts : ((2 + bw + 2 : Nat) : Int) = (bw : Int) + 4 := by push_cast; ring
    simp only [hts]
    have haddr : ∀ a b : Int, (2 * ((bw : Int) + 4) + 2 + (i * ((bw : Int) + 4) + j)) + (a * ((bw : Int) + 4) + b) =
        ((i + a) + 2) * ((bw : Int) + 4) + ((j + b) + 2) := by
      intro a b; ring
    have h00 : padIntoTmp (fun _ => veryLarge) 0 ((bw : Int) + 4) m input istride bw bh e
        (2 * ((bw : Int) + 4) + 2 + (i * ((bw : Int) + 4) + j)) = m (input + (i * istride + j)) := by
      have := hpad i j (by omega) (by omega) (by omega) (by omega)
      rw [if_pos hth] at this
      rw [← this]; congr 1; ring
    rw [filterPixel_eq look hdir _ (fun dy dx v h => (hlk dy dx v h).2) (by rw [h00]; exact hx.1) (by rw [h00]; exact hx.2) hp hp'
      hs hs' hd, h00]
    intro dy dx hdy hdx
    rw [abs_le] at hdy hdx
    rw [haddr, hpad _ _ (by omega) (by omega) (by omega) (by omega), hlook dy dx (abs_le.2 hdy) (abs_le.2 hdx)]
    split <;> simp
  · rename_i he
    have he : e = .all := by simpa using he
    rw [filterPixel_eq look hdir _ (fun dy dx v h => (hlk dy dx v h).2) hx.1 hx.2 hp hp' hs hs' hd]
    intro dy dx hdy hdx
    rw [hlook dy dx hdy hdx, if_pos (by subst he; simp [there, Edges.all]), Option.getD_some]
    congr 1; ring

end Rav1e.Cdef

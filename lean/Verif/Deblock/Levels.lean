import Verif.Deblock.Theorems

/-!
# C54: the choice of the deblocking levels

The encoder chooses the levels by counting, for every level at once, the squared error that the filter would leave
(`sse_size4` and its kin add differences to a tally, `sse_optimize` sums them up).

* `optimize_spec`: the level that is chosen is at most 63, and of the levels `0 … 63` it has the least sum of squared
  errors over the lines that were counted, each filtered alone by the very function that filters the frame later
  (`inner`); of several it is the lowest.
* `fast_level_range`: with `fast_deblock` the level is at most 63 as well, so that it fits the 6 bits of the header.
* `vLines_sizes`: the lines that are counted for the vertical edges are those that `filter_v_edge` filters.
* `hLines_sizes_differ`: not so for the horizontal edges: `sse_h_edge` computes the filter size from the widths of the
  transforms instead of their heights.
-/

namespace Rav1e.Deblock

/-! ## Model -/

/-- `stride_sse`, `deblock.rs:329-331`. -/
def strideSse (a b : List Int) : Int := (List.zipWith (fun a b => (a - b) * (a - b)) a b).sum

/-- `tally[i] += x`. -/
def bump (t : Nat → Int) (i : Nat) (x : Int) : Nat → Int := fun j => if j = i then t j + x else t j

/-- `clamp(x, lo, MAX_LOOP_FILTER + 1)`. -/
def clampLevel (x lo : Nat) : Nat := if x < lo then lo else if 64 < x then 64 else x

/-- The end of the loops when a wide filter is used, `deblock.rs:616-619`, `819-822`, `1084-1091`. -/
def tallyWide (t : Nat → Int) (mask : Nat) (sseNone sseWide : Int) : Nat → Int :=
  bump (bump (bump t 0 sseNone) mask (-sseNone)) mask sseWide

/-- The end of the loops when a narrow filter is used, `deblock.rs:466-470`, `616-623`, `819-826`, `1084-1095`. -/
def tallyNarrow (t : Nat → Int) (mask nhev : Nat) (sseNone sseNarrow2 sseNarrow4 : Int) : Nat → Int :=
  bump (bump (bump (bump (bump t 0 sseNone) mask (-sseNone)) mask sseNarrow2) nhev (-sseNarrow2)) nhev sseNarrow4

/-- `sse_size4`, `deblock.rs:420-472`, one pass of its loop; `v` is the line of the reconstruction, `a` of the source. -/
def sseSize4 (v a : Nat → Int) (bd : Nat) (t : Nat → Int) : Nat → Int :=
  let src := [a 0, a 1, a 2, a 3]
  let mask := clampLevel (mask4 (v 0) (v 1) (v 2) (v 3) (bd - 8)) 1
  let nhev := clampLevel (nhev4 (v 0) (v 1) (v 2) (v 3) (bd - 8)) mask
  let sseNone := strideSse src [v 0, v 1, v 2, v 3]
  let sseNarrow2 := if nhev ≠ mask then strideSse src (filterNarrow2 (v 0) (v 1) (v 2) (v 3) (bd - 8)) else sseNone
  let sseNarrow4 := if nhev ≤ 63 then strideSse src (filterNarrow4 (v 0) (v 1) (v 2) (v 3) (bd - 8)) else sseNone
  tallyNarrow t mask nhev sseNone sseNarrow2 sseNarrow4

/-- `sse_size6`, `deblock.rs:552-625`, one pass of its loop. -/
def sseSize6 (v a : Nat → Int) (bd : Nat) (t : Nat → Int) : Nat → Int :=
  let src := [a 1, a 2, a 3, a 4]
  let mask := clampLevel (mask6 (v 0) (v 1) (v 2) (v 3) (v 4) (v 5) (bd - 8)) 1
  let flatp := decide (flat6 (v 0) (v 1) (v 2) (v 3) (v 4) (v 5) ≤ 1 <<< (bd - 8))
  let nhev := clampLevel (nhev4 (v 1) (v 2) (v 3) (v 4) (bd - 8)) mask
  let sseNone := strideSse src [v 1, v 2, v 3, v 4]
  let sseWide6 := if flatp ∧ mask ≤ 63 then strideSse src (filterWide6 (v 0) (v 1) (v 2) (v 3) (v 4) (v 5)) else sseNone
  let sseNarrow2 := if !flatp ∧ nhev ≠ mask then strideSse src (filterNarrow2 (v 1) (v 2) (v 3) (v 4) (bd - 8)) else sseNone
  let sseNarrow4 := if !flatp ∧ nhev ≤ 63 then strideSse src (filterNarrow4 (v 1) (v 2) (v 3) (v 4) (bd - 8)) else sseNone
  if flatp then tallyWide t mask sseNone sseWide6 else tallyNarrow t mask nhev sseNone sseNarrow2 sseNarrow4

/-- `sse_size8`, `deblock.rs:733-827`, one pass of its loop. -/
def sseSize8 (v a : Nat → Int) (bd : Nat) (t : Nat → Int) : Nat → Int :=
  let src := [a 1, a 2, a 3, a 4, a 5, a 6]
  let mask := clampLevel (mask8 (v 0) (v 1) (v 2) (v 3) (v 4) (v 5) (v 6) (v 7) (bd - 8)) 1
  let flatp := decide (flat8 (v 0) (v 1) (v 2) (v 3) (v 4) (v 5) (v 6) (v 7) ≤ 1 <<< (bd - 8))
  let nhev := clampLevel (nhev4 (v 2) (v 3) (v 4) (v 5) (bd - 8)) mask
  let sseNone := strideSse src [v 1, v 2, v 3, v 4, v 5, v 6]
  let sseWide8 := if flatp ∧ mask ≤ 63 then
    strideSse src (filterWide8 (v 0) (v 1) (v 2) (v 3) (v 4) (v 5) (v 6) (v 7)) else sseNone
  let sseNarrow2 := if !flatp ∧ nhev ≠ mask then
    strideSse src ([v 1] ++ filterNarrow2 (v 2) (v 3) (v 4) (v 5) (bd - 8) ++ [v 6]) else sseNone
  let sseNarrow4 := if !flatp ∧ nhev ≤ 63 then
    strideSse src ([v 1] ++ filterNarrow4 (v 2) (v 3) (v 4) (v 5) (bd - 8) ++ [v 6]) else sseNone
  if flatp then tallyWide t mask sseNone sseWide8 else tallyNarrow t mask nhev sseNone sseNarrow2 sseNarrow4

/-- `sse_size14`, `deblock.rs:934-1097`, one pass of its loop. -/
def sseSize14 (v a : Nat → Int) (bd : Nat) (t : Nat → Int) : Nat → Int :=
  let src := [a 1, a 2, a 3, a 4, a 5, a 6, a 7, a 8, a 9, a 10, a 11, a 12]
  let mask := clampLevel (mask8 (v 3) (v 4) (v 5) (v 6) (v 7) (v 8) (v 9) (v 10) (bd - 8)) 1
  let flat8p := decide (flat8 (v 3) (v 4) (v 5) (v 6) (v 7) (v 8) (v 9) (v 10) ≤ 1 <<< (bd - 8))
  let flat14p := decide (flat14Outer (v 0) (v 1) (v 2) (v 6) (v 7) (v 11) (v 12) (v 13) ≤ 1 <<< (bd - 8))
  let nhev := clampLevel (nhev4 (v 5) (v 6) (v 7) (v 8) (bd - 8)) mask
  let sseNone := strideSse src [v 1, v 2, v 3, v 4, v 5, v 6, v 7, v 8, v 9, v 10, v 11, v 12]
  let sseWide8 := if flat8p ∧ !flat14p ∧ mask ≤ 63 then
    strideSse src ([v 1, v 2, v 3] ++ filterWide8 (v 3) (v 4) (v 5) (v 6) (v 7) (v 8) (v 9) (v 10) ++ [v 10, v 11, v 12])
    else sseNone
  let sseWide14 := if flat8p ∧ flat14p ∧ mask ≤ 63 then
    strideSse src (filterWide14 (v 0) (v 1) (v 2) (v 3) (v 4) (v 5) (v 6) (v 7) (v 8) (v 9) (v 10) (v 11) (v 12) (v 13))
    else sseNone
  let sseNarrow2 := if !flat8p ∧ nhev ≠ mask then
    strideSse src ([v 1, v 2, v 3, v 4] ++ filterNarrow2 (v 5) (v 6) (v 7) (v 8) (bd - 8) ++ [v 9, v 10, v 11, v 12]) else sseNone
  let sseNarrow4 := if !flat8p ∧ nhev ≤ 63 then
    strideSse src ([v 1, v 2, v 3, v 4] ++ filterNarrow4 (v 5) (v 6) (v 7) (v 8) (bd - 8) ++ [v 9, v 10, v 11, v 12]) else sseNone
  if flat8p then (if flat14p then tallyWide t mask sseNone sseWide14 else tallyWide t mask sseNone sseWide8)
  else tallyNarrow t mask nhev sseNone sseNarrow2 sseNarrow4

/-- A line of pixels across an edge: the size of the filter, the reconstruction, the source. -/
structure SseLine where
  size : Nat
  v : Nat → Int
  a : Nat → Int

/-- The `match filter_size` of `sse_v_edge` and `sse_h_edge`, `deblock.rs:1176-1190`, `1273-1287`; `none` is
`unreachable!()`. -/
def sseLine (bd : Nat) (t : Nat → Int) (l : SseLine) : Option (Nat → Int) :=
  match l.size with
  | 4 => some (sseSize4 l.v l.a bd t)
  | 6 => some (sseSize6 l.v l.a bd t)
  | 8 => some (sseSize8 l.v l.a bd t)
  | 14 => some (sseSize14 l.v l.a bd t)
  | _ => none

/-- The lines of an edge of filter size `size` at block `(x, y)`: `deblock.rs:1162-1175` (vertical), `1259-1272`
(horizontal). -/
def linesAt (g : Params) (vertical : Bool) (x y size : Nat) (rec src : Plane) : List SseLine :=
  let px : Int := ((x >>> g.xdec <<< 2 : Nat) : Int)
  let py : Int := ((y >>> g.ydec <<< 2 : Nat) : Int)
  if 0 < size then
    [0, 1, 2, 3].map (fun (i : Nat) =>
      if vertical then
        { size := size, v := fun j => rec (py + i) (px - (size >>> 1 : Nat) + j), a := fun j => src (py + i) (px - (size >>> 1 : Nat) + j) }
      else
        { size := size, v := fun j => rec (py - (size >>> 1 : Nat) + j) (px + i), a := fun j => src (py - (size >>> 1 : Nat) + j) (px + i) })
  else []

/-- `sse_v_edge`, `deblock.rs:1145-1193`: the lines that are counted. -/
def sseVEdge (g : Params) (rec src : Plane) (y x : Nat) : Option (List SseLine) := do
  let block ← blockAt g y x
  let tx ← txOf g block
  if (x >>> g.xdec) &&& (widthMi tx - 1) = 0 then do
    let prev ← deblockLeft g y x
    let size ← deblockSize g block prev true (x &&& (block.bsize.widthMi - 1) == 0)
    some (linesAt g true x y size rec src)
  else some []

/-- `sse_h_edge`, `deblock.rs:1241-1290`: the lines that are counted.  The call of `deblock_size` has `true` for
`vertical`. -/
def sseHEdge (g : Params) (rec src : Plane) (y x : Nat) : Option (List SseLine) := do
  let block ← blockAt g y x
  let tx ← txOf g block
  if (y >>> g.ydec) &&& (heightMi tx - 1) = 0 then do
    let prev ← deblockUp g y x
    let size ← deblockSize g block prev true (y &&& (block.bsize.heightMi - 1) == 0)
    some (linesAt g false x y size rec src)
  else some []

/-- The row of vertical edges, then of horizontal edges, of one pass of the loop over the rows, `deblock.rs:1502-1538`. -/
def sseRow (g : Params) (rec src : Plane) (C : Nat) (t : List SseLine × List SseLine) (y : Nat) :
    Option (List SseLine × List SseLine) := do
  let h ← sseHEdge g rec src y 0
  (stepBy (1 <<< g.xdec) C (1 <<< g.xdec)).foldlM (fun t x => do
    let v ← sseVEdge g rec src y x
    let h ← sseHEdge g rec src y x
    some (t.1 ++ v, t.2 ++ h)) (t.1, t.2 ++ h)

/-- `sse_plane`, `deblock.rs:1461-1539`: the lines of the vertical and of the horizontal edges. -/
def ssePlane (g : Params) (rec src : Plane) : Option (List SseLine × List SseLine) := do
  let C := bound g.cols g.cropW g.xdec
  let R := bound g.rows g.cropH g.ydec
  let v ← (stepBy (1 <<< g.xdec) C (1 <<< g.xdec)).foldlM (fun t x => do
    let v ← sseVEdge g rec src 0 x
    some (t ++ v)) []
  (stepBy (1 <<< g.ydec) R (1 <<< g.ydec)).foldlM (sseRow g rec src C) (v, [])

/-- One pass of `for i in 1..=MAX_LOOP_FILTER`, `deblock.rs:1582-1585`. -/
def sumStep (t : Nat → Int) (i : Nat) : Nat → Int := bump t (i + 1) (t i)
/-- The loop. -/
def sumUp (t : Nat → Int) : Nat → Int := (List.range 63).foldl sumStep t

/-- One pass of `for i in 0..=MAX_LOOP_FILTER`, `deblock.rs:1591-1598`, `1604-1610`; `none` is 999. -/
def bestStep (t : Nat → Int) (best : Option Nat) (i : Nat) : Option Nat :=
  match best with
  | none => some i
  | some b => if t b > t i then some i else some b

/-- The choice of a level from the tallies of the lines, `sse_optimize`, `deblock.rs:1553-1617`. For luma `lines` are those
of the vertical or of the horizontal edges, for chroma both: the sums are added there. -/
def optimize (bd : Nat) (lines : List SseLine) : Option Nat := do
  let t ← lines.foldlM (sseLine bd) (fun _ => 0)
  (List.range 64).foldl (bestStep (sumUp t)) none

/-- The level with `fast_deblock`, `deblock.rs:1624-1657`; `q` is the quantizer. -/
def fastLevel (bd : Nat) (key : Bool) (q : Int) : Option Nat :=
  let r : Option Int := match bd with
    | 8 => some (if key then (q * 17563 - 421574 + 2 ^ 17) >>> 18 else (q * 6017 + 650707 + 2 ^ 17) >>> 18)
    | 10 => some (if key then ((q * 20723 + 4060632 + 2 ^ 19) >>> 20) - 4 else (q * 20723 + 4060632 + 2 ^ 19) >>> 20)
    | 12 => some (if key then ((q * 20723 + 16242526 + 2 ^ 21) >>> 22) - 4 else (q * 20723 + 16242526 + 2 ^ 21) >>> 22)
    | _ => none
  r.map (fun x => (clamp x 0 63).toNat)

/-! ## Specification -/

/-- What the filter leaves on a line with a level; level 0 is no filter. -/
def lineAfter (bd : Nat) (l : SseLine) (level : Nat) (j : Nat) : Int :=
  if level = 0 then l.v j
  else match inner l.size l.v level bd with
    | some (some data) => if outAt l.size ≤ j ∧ (j : Int) < outAt l.size + data.length then data.getD (j - outAt l.size).toNat 0 else l.v j
    | _ => l.v j

/-- The number of pixels of the line that a filter may change, and the first of them. -/
def written (size : Nat) : List Nat :=
  if size = 4 then [0, 1, 2, 3] else if size = 6 then [1, 2, 3, 4] else if size = 8 then [1, 2, 3, 4, 5, 6]
  else [1, 2, 3, 4, 5, 6, 7, 8, 9, 10, 11, 12]

/-- The squared error of a line after the filter. -/
def lineError (bd : Nat) (l : SseLine) (level : Nat) : Int :=
  ((written l.size).map (fun j => (l.a j - lineAfter bd l level j) * (l.a j - lineAfter bd l level j))).sum

/-- The sum of the squared errors. -/
def totalError (bd : Nat) (lines : List SseLine) (level : Nat) : Int := (lines.map (fun l => lineError bd l level)).sum

/-! ## Proofs -/

/-- The sum of a tally up to a level. -/
def upTo (t : Nat → Int) (L : Nat) : Int := ((List.range (L + 1)).map t).sum

theorem upTo_bump (t : Nat → Int) (i : Nat) (x : Int) (L : Nat) : upTo (bump t i x) L = upTo t L + (if i ≤ L then x else 0) := by
  unfold upTo
  induction L with
  | zero =>
    by_cases h : i = 0
    · subst h; simp [bump]
    · have : ¬i ≤ 0 := by omega
      simp [bump, this]; intro e; exact absurd e.symm h
  | succ L ih =>
    rw [List.range_succ, List.map_append, List.sum_append, ih, List.map_append, List.sum_append]
    simp only [List.map_cons, List.map_nil, List.sum_cons, List.sum_nil, Int.add_zero]
    unfold bump
    by_cases h1 : i ≤ L
    · rw [if_pos h1, if_neg (by omega), if_pos (by omega)]; omega
    · by_cases h2 : i = L + 1
      · rw [if_neg h1, if_pos h2.symm, if_pos (by omega)]; omega
      · rw [if_neg h1, if_neg (by omega), if_neg (by omega)]; omega

theorem upTo_wide (t : Nat → Int) (m : Nat) (n w : Int) (L : Nat) :
    upTo (tallyWide t m n w) L = upTo t L + (if m ≤ L then w else n) := by
  unfold tallyWide
  rw [upTo_bump, upTo_bump, upTo_bump, if_pos (Nat.zero_le L)]
  split <;> omega

theorem upTo_narrow (t : Nat → Int) (m h : Nat) (hm : m ≤ h) (n a b : Int) (L : Nat) :
    upTo (tallyNarrow t m h n a b) L = upTo t L + (if h ≤ L then b else if m ≤ L then a else n) := by
  unfold tallyNarrow
  rw [upTo_bump, upTo_bump, upTo_bump, upTo_bump, upTo_bump, if_pos (Nat.zero_le L)]
  by_cases h1 : h ≤ L
  · have : m ≤ L := by omega
    simp only [h1, this, if_true]; omega
  · by_cases h2 : m ≤ L
    · simp only [h1, h2, if_true, if_false]; omega
    · simp only [h1, h2, if_false]; omega

theorem clampLevel_ge (x lo : Nat) (h : lo ≤ 64) : lo ≤ clampLevel x lo ∧ clampLevel x lo ≤ 64 := by
  unfold clampLevel; split <;> [skip; split] <;> omega

theorem clampLevel_le (x lo L : Nat) (hL : L ≤ 63) : clampLevel x lo ≤ L ↔ x ≤ L ∧ lo ≤ L := by
  unfold clampLevel; split <;> [skip; split] <;> omega

theorem clampLevel_eq (x lo : Nat) (h : clampLevel x lo = lo) (hl : lo ≤ 63) : x ≤ lo := by
  unfold clampLevel at h; split at h <;> [skip; split at h] <;> omega

theorem len4 {l : List Int} (h : l.length = 4) : ∃ a b c d, l = [a, b, c, d] := by
  match l, h with
  | [a, b, c, d], _ => exact ⟨a, b, c, d, rfl⟩

theorem len6 {l : List Int} (h : l.length = 6) : ∃ a b c d e f, l = [a, b, c, d, e, f] := by
  match l, h with
  | [a, b, c, d, e, f], _ => exact ⟨a, b, c, d, e, f, rfl⟩

theorem len12 {l : List Int} (h : l.length = 12) : ∃ a b c d e f g i j k m n, l = [a, b, c, d, e, f, g, i, j, k, m, n] := by
  match l, h with
  | [a, b, c, d, e, f, g, i, j, k, m, n], _ => exact ⟨a, b, c, d, e, f, g, i, j, k, m, n, rfl⟩

/-- The error of a line that the filter leaves alone. -/
theorem lineError_none {bd : Nat} {size : Nat} {v a : Nat → Int} {L : Nat} (hs : size = 4 ∨ size = 6 ∨ size = 8 ∨ size = 14)
    (h : L = 0 ∨ inner size v L bd = some none) :
    lineError bd ⟨size, v, a⟩ L = strideSse ((written size).map a) ((written size).map v) := by
  have e : ∀ j, lineAfter bd ⟨size, v, a⟩ L j = v j := by
    intro j
    unfold lineAfter
    rcases h with h | h
    · rw [if_pos h]
    · split
      · rfl
      · rw [h]
  unfold lineError
  simp only [e]
  unfold strideSse
  rcases hs with rfl | rfl | rfl | rfl <;> simp [written]

/-- The error of a line that the filter changes. -/
theorem lineError_some {bd : Nat} {size : Nat} {v a : Nat → Int} {L : Nat} (hs : size = 4 ∨ size = 6 ∨ size = 8 ∨ size = 14)
    (h0 : L ≠ 0) {data : List Int} (h : inner size v L bd = some (some data)) (hl : data.length = (written size).length) :
    lineError bd ⟨size, v, a⟩ L = strideSse ((written size).map a) data := by
  have e : ∀ j, lineAfter bd ⟨size, v, a⟩ L j =
      if outAt size ≤ j ∧ (j : Int) < outAt size + data.length then data.getD (j - outAt size).toNat 0 else v j := by
    intro j
    unfold lineAfter
    rw [if_neg h0]
    simp only [h]
  unfold lineError
  simp only [e]
  unfold strideSse
  clear e h
  rcases hs with rfl | rfl | rfl | rfl
  · obtain ⟨x0, x1, x2, x3, rfl⟩ := len4 hl
    simp [written, outAt]
  · obtain ⟨x0, x1, x2, x3, rfl⟩ := len4 hl
    simp [written, outAt]
  · obtain ⟨x0, x1, x2, x3, x4, x5, rfl⟩ := len6 hl
    simp [written, outAt]
  · obtain ⟨x0, x1, x2, x3, x4, x5, x6, x7, x8, x9, x10, x11, rfl⟩ := len12 hl
    simp [written, outAt]

/-- The part with the narrow filters. -/
theorem narrow_part (m n L : Nat) (hL : L ≤ 63) (e0 e2 e4 r : Int)
    (h0 : L = 0 ∨ ¬m ≤ L → r = e0) (h4 : L ≠ 0 → m ≤ L → n ≤ L → r = e4) (h2 : L ≠ 0 → m ≤ L → ¬n ≤ L → r = e2) :
    (if clampLevel n (clampLevel m 1) ≤ L then (if clampLevel n (clampLevel m 1) ≤ 63 then e4 else e0)
      else if clampLevel m 1 ≤ L then (if clampLevel n (clampLevel m 1) ≠ clampLevel m 1 then e2 else e0) else e0) = r := by
  have a := clampLevel_le m 1 L hL
  have b := clampLevel_le n (clampLevel m 1) L hL
  by_cases hz : L = 0
  · rw [h0 (Or.inl hz), if_neg (by omega), if_neg (by omega)]
  · by_cases hm : m ≤ L
    · have hc : clampLevel m 1 ≤ L := a.2 ⟨hm, by omega⟩
      by_cases hn : n ≤ L
      · have hd := b.2 ⟨hn, hc⟩
        rw [h4 hz hm hn, if_pos hd, if_pos (by omega)]
      · have hd : ¬clampLevel n (clampLevel m 1) ≤ L := fun h => hn (b.1 h).1
        rw [h2 hz hm hn, if_neg hd, if_pos hc, if_pos (by omega)]
    · rw [h0 (Or.inr hm), if_neg (fun h => hm (a.1 (b.1 h).2).1), if_neg (fun h => hm (a.1 h).1)]

/-- The part with a wide filter. -/
theorem wide_part (m L : Nat) (hL : L ≤ 63) (e0 w r : Int)
    (h0 : L = 0 ∨ ¬m ≤ L → r = e0) (h1 : L ≠ 0 → m ≤ L → r = w) :
    (if clampLevel m 1 ≤ L then (if clampLevel m 1 ≤ 63 then w else e0) else e0) = r := by
  have a := clampLevel_le m 1 L hL
  by_cases hz : L = 0
  · rw [h0 (Or.inl hz), if_neg (by omega)]
  · by_cases hm : m ≤ L
    · have hc : clampLevel m 1 ≤ L := a.2 ⟨hm, by omega⟩
      rw [h1 hz hm, if_pos hc, if_pos (by omega)]
    · rw [h0 (Or.inr hm), if_neg (fun h => hm (a.1 h).1)]

theorem size4_error {bd : Nat} (v a t : Nat → Int) (L : Nat) (hL : L ≤ 63) :
    upTo (sseSize4 v a bd t) L = upTo t L + lineError bd ⟨4, v, a⟩ L := by
  unfold sseSize4
  simp only
  have c1 := clampLevel_ge (mask4 (v 0) (v 1) (v 2) (v 3) (bd - 8)) 1 (by omega)
  have c2 := clampLevel_ge (nhev4 (v 0) (v 1) (v 2) (v 3) (bd - 8)) _ c1.2
  rw [upTo_narrow _ _ _ c2.1]
  congr 1
  apply narrow_part _ _ _ hL
  · intro h
    apply lineError_none (Or.inl rfl)
    rcases h with h | h
    · exact Or.inl h
    · right; simp [inner, size4Inner, h]
  · intro h1 h2 h3
    apply lineError_some (Or.inl rfl) h1
    · simp [inner, size4Inner, h2, h3]
    · rfl
  · intro h1 h2 h3
    apply lineError_some (Or.inl rfl) h1
    · simp [inner, size4Inner, h2, h3]
    · rfl

theorem size6_error {bd : Nat} (v a t : Nat → Int) (L : Nat) (hL : L ≤ 63) :
    upTo (sseSize6 v a bd t) L = upTo t L + lineError bd ⟨6, v, a⟩ L := by
  unfold sseSize6
  simp only
  have c1 := clampLevel_ge (mask6 (v 0) (v 1) (v 2) (v 3) (v 4) (v 5) (bd - 8)) 1 (by omega)
  have c2 := clampLevel_ge (nhev4 (v 1) (v 2) (v 3) (v 4) (bd - 8)) _ c1.2
  have hs : (6 = 4 ∨ 6 = 6 ∨ 6 = 8 ∨ 6 = 14) := by omega
  by_cases hf : flat6 (v 0) (v 1) (v 2) (v 3) (v 4) (v 5) ≤ 1 <<< (bd - 8)
  · simp only [hf, decide_true, if_true, true_and]
    rw [upTo_wide]
    congr 1
    apply wide_part _ _ hL
    · intro h
      apply lineError_none hs
      rcases h with h | h
      · exact Or.inl h
      · right; simp [inner, size6Inner, h]
    · intro h1 h2
      apply lineError_some hs h1
      · simp [inner, size6Inner, h2, hf]
      · rfl
  · simp only [hf, decide_false, Bool.false_eq_true, if_false, Bool.not_false, true_and]
    rw [upTo_narrow _ _ _ c2.1]
    congr 1
    apply narrow_part _ _ _ hL
    · intro h
      apply lineError_none hs
      rcases h with h | h
      · exact Or.inl h
      · right; simp [inner, size6Inner, h]
    · intro h1 h2 h3
      apply lineError_some hs h1
      · simp [inner, size6Inner, h2, h3, hf]
      · rfl
    · intro h1 h2 h3
      apply lineError_some hs h1
      · simp [inner, size6Inner, h2, h3, hf]
      · rfl

theorem size8_error {bd : Nat} (v a t : Nat → Int) (L : Nat) (hL : L ≤ 63) :
    upTo (sseSize8 v a bd t) L = upTo t L + lineError bd ⟨8, v, a⟩ L := by
  unfold sseSize8
  simp only
  have c1 := clampLevel_ge (mask8 (v 0) (v 1) (v 2) (v 3) (v 4) (v 5) (v 6) (v 7) (bd - 8)) 1 (by omega)
  have c2 := clampLevel_ge (nhev4 (v 2) (v 3) (v 4) (v 5) (bd - 8)) _ c1.2
  have hs : (8 = 4 ∨ 8 = 6 ∨ 8 = 8 ∨ 8 = 14) := by omega
  by_cases hf : flat8 (v 0) (v 1) (v 2) (v 3) (v 4) (v 5) (v 6) (v 7) ≤ 1 <<< (bd - 8)
  · simp only [hf, decide_true, if_true, true_and]
    rw [upTo_wide]
    congr 1
    apply wide_part _ _ hL
    · intro h
      apply lineError_none hs
      rcases h with h | h
      · exact Or.inl h
      · right; simp [inner, size8Inner, h]
    · intro h1 h2
      apply lineError_some hs h1
      · simp [inner, size8Inner, h2, hf]
      · rfl
  · simp only [hf, decide_false, Bool.false_eq_true, if_false, Bool.not_false, true_and]
    rw [upTo_narrow _ _ _ c2.1]
    congr 1
    apply narrow_part _ _ _ hL
    · intro h
      apply lineError_none hs
      rcases h with h | h
      · exact Or.inl h
      · right; simp [inner, size8Inner, h]
    · intro h1 h2 h3
      apply lineError_some hs h1
      · simp [inner, size8Inner, h2, h3, hf]
      · rfl
    · intro h1 h2 h3
      apply lineError_some hs h1
      · simp [inner, size8Inner, h2, h3, hf]
      · rfl

theorem size14_error {bd : Nat} (v a t : Nat → Int) (L : Nat) (hL : L ≤ 63) :
    upTo (sseSize14 v a bd t) L = upTo t L + lineError bd ⟨14, v, a⟩ L := by
  unfold sseSize14
  simp only
  have c1 := clampLevel_ge (mask8 (v 3) (v 4) (v 5) (v 6) (v 7) (v 8) (v 9) (v 10) (bd - 8)) 1 (by omega)
  have c2 := clampLevel_ge (nhev4 (v 5) (v 6) (v 7) (v 8) (bd - 8)) _ c1.2
  have hs : (14 = 4 ∨ 14 = 6 ∨ 14 = 8 ∨ 14 = 14) := by omega
  by_cases hf : flat8 (v 3) (v 4) (v 5) (v 6) (v 7) (v 8) (v 9) (v 10) ≤ 1 <<< (bd - 8)
  · by_cases hg : flat14Outer (v 0) (v 1) (v 2) (v 6) (v 7) (v 11) (v 12) (v 13) ≤ 1 <<< (bd - 8)
    · simp only [hf, hg, decide_true, if_true, true_and]
      rw [upTo_wide]
      congr 1
      apply wide_part _ _ hL
      · intro h
        apply lineError_none hs
        rcases h with h | h
        · exact Or.inl h
        · right; simp [inner, size14Inner, h]
      · intro h1 h2
        apply lineError_some hs h1
        · simp [inner, size14Inner, h2, hf, hg]
        · rfl
    · simp only [hf, hg, decide_true, decide_false, if_true, true_and, Bool.false_eq_true, if_false, Bool.not_false]
      rw [upTo_wide]
      congr 1
      apply wide_part _ _ hL
      · intro h
        apply lineError_none hs
        rcases h with h | h
        · exact Or.inl h
        · right; simp [inner, size14Inner, h]
      · intro h1 h2
        apply lineError_some hs h1
        · simp [inner, size14Inner, h2, hf, hg]
        · rfl
  · simp only [hf, decide_false, Bool.false_eq_true, if_false, Bool.not_false, true_and]
    rw [upTo_narrow _ _ _ c2.1]
    congr 1
    apply narrow_part _ _ _ hL
    · intro h
      apply lineError_none hs
      rcases h with h | h
      · exact Or.inl h
      · right; simp [inner, size14Inner, h]
    · intro h1 h2 h3
      apply lineError_some hs h1
      · simp [inner, size14Inner, h2, h3, hf]
      · rfl
    · intro h1 h2 h3
      apply lineError_some hs h1
      · simp [inner, size14Inner, h2, h3, hf]
      · rfl

/-- The tally of a line, summed up to a level, is the error of the line with this level. -/
theorem sseLine_error {bd : Nat} (l : SseLine) (t u : Nat → Int) (h : sseLine bd t l = some u) (L : Nat) (hL : L ≤ 63) :
    upTo u L = upTo t L + lineError bd l L := by
  obtain ⟨size, v, a⟩ := l
  unfold sseLine at h
  simp only at h
  split at h
  · injection h with h; subst h; exact size4_error v a t L hL
  · injection h with h; subst h; exact size6_error v a t L hL
  · injection h with h; subst h; exact size8_error v a t L hL
  · injection h with h; subst h; exact size14_error v a t L hL
  · exact absurd h (by simp)

theorem sumUp_eq (t : Nat → Int) (i : Nat) (hi : i ≤ 63) : sumUp t i = upTo t i := by
  have key : ∀ n i, ((List.range n).foldl sumStep t) i = if i ≤ n then upTo t i else t i := by
    intro n
    induction n with
    | zero =>
      intro i
      by_cases h : i ≤ 0
      · have : i = 0 := by omega
        subst this; simp [upTo]
      · rw [if_neg h]; rfl
    | succ n ih =>
      intro i
      rw [List.range_succ, List.foldl_append]
      show sumStep _ n i = _
      generalize (List.range n).foldl sumStep t = w at ih
      unfold sumStep bump
      rw [ih, ih]
      by_cases h : i = n + 1
      · subst h
        rw [if_pos rfl, if_neg (by omega), if_pos (Nat.le_refl n), if_pos (Nat.le_refl _)]
        unfold upTo
        rw [List.range_succ (n := n + 1), List.map_append, List.sum_append]
        simp; omega
      · rw [if_neg h]
        by_cases h2 : i ≤ n
        · rw [if_pos h2, if_pos (by omega)]
        · rw [if_neg h2, if_neg (by omega)]
  unfold sumUp
  rw [key, if_pos hi]

theorem best_spec (t : Nat → Int) (n : Nat) : ∃ b, (List.range (n + 1)).foldl (bestStep t) none = some b ∧ b ≤ n ∧
    (∀ i, i ≤ n → t b ≤ t i) ∧ (∀ i, i < b → t b < t i) := by
  induction n with
  | zero =>
    refine ⟨0, rfl, Nat.le_refl 0, ?_, ?_⟩
    · intro i hi
      have : i = 0 := by omega
      subst this; exact Int.le_refl _
    · intro i hi; omega
  | succ n ih =>
    obtain ⟨b, h1, h2, h3, h4⟩ := ih
    rw [List.range_succ, List.foldl_append, h1]
    show ∃ c, bestStep t (some b) (n + 1) = some c ∧ _
    unfold bestStep
    simp only
    by_cases h : t b > t (n + 1)
    · rw [if_pos h]
      refine ⟨n + 1, rfl, Nat.le_refl _, ?_, ?_⟩
      · intro i hi
        by_cases e : i = n + 1
        · subst e; exact Int.le_refl _
        · have := h3 i (by omega); omega
      · intro i hi
        have := h3 i (by omega); omega
    · rw [if_neg h]
      refine ⟨b, rfl, by omega, ?_, h4⟩
      intro i hi
      by_cases e : i = n + 1
      · subst e; omega
      · exact h3 i (by omega)

/-- **C54**: the chosen level fits the header, and no other level has a smaller sum of squared errors over the lines
that are counted, each filtered alone by the function that later filters the frame; a lower level has a larger one. -/
theorem optimize_spec {bd : Nat} (lines : List SseLine) (hs : ∀ l ∈ lines, l.size = 4 ∨ l.size = 6 ∨ l.size = 8 ∨ l.size = 14) :
    ∃ level, optimize bd lines = some level ∧ level ≤ 63 ∧
      (∀ L, L ≤ 63 → totalError bd lines level ≤ totalError bd lines L) ∧
      (∀ L, L < level → totalError bd lines level < totalError bd lines L) := by
  have key : ∀ (ls : List SseLine) (t : Nat → Int), (∀ l ∈ ls, l.size = 4 ∨ l.size = 6 ∨ l.size = 8 ∨ l.size = 14) →
      ∃ u, ls.foldlM (sseLine bd) t = some u ∧ ∀ L, L ≤ 63 → upTo u L = upTo t L + totalError bd ls L := by
    intro ls
    induction ls with
    | nil =>
      intro t _
      exact ⟨t, rfl, fun L _ => by simp [totalError]⟩
    | cons l ls ih =>
      intro t h
      have hl := h l List.mem_cons_self
      have : ∃ u, sseLine bd t l = some u := by
        unfold sseLine
        rcases hl with e | e | e | e <;> rw [e] <;> exact ⟨_, rfl⟩
      obtain ⟨u, hu⟩ := this
      obtain ⟨w, hw, hw2⟩ := ih u (fun l hl => h l (List.mem_cons_of_mem _ hl))
      refine ⟨w, ?_, ?_⟩
      · rw [List.foldlM_cons, hu]; exact hw
      · intro L hL
        rw [hw2 L hL, sseLine_error l t u hu L hL]
        unfold totalError
        rw [List.map_cons, List.sum_cons]
        omega
  obtain ⟨u, hu, hu2⟩ := key lines (fun _ => 0) hs
  have z : ∀ L, upTo (fun _ => 0) L = 0 := by
    intro L; unfold upTo; simp
  have tot : ∀ L, L ≤ 63 → sumUp u L = totalError bd lines L := by
    intro L hL
    rw [sumUp_eq u L hL, hu2 L hL, z]; omega
  obtain ⟨b, h1, h2, h3, h4⟩ := best_spec (sumUp u) 63
  refine ⟨b, ?_, h2, ?_, ?_⟩
  · unfold optimize
    rw [hu]
    simp only [Option.bind_eq_bind, Option.bind_some]
    rw [show (64 : Nat) = 63 + 1 from rfl]
    exact h1
  · intro L hL
    rw [← tot b h2, ← tot L hL]
    exact h3 L hL
  · intro L hL
    rw [← tot b h2, ← tot L (by omega)]
    exact h4 L hL

/-- With `fast_deblock` the level fits the header too. -/
theorem fast_level_range (bd : Nat) (h : bd = 8 ∨ bd = 10 ∨ bd = 12) (key : Bool) (q : Int) :
    ∃ level, fastLevel bd key q = some level ∧ level ≤ 63 := by
  have c : ∀ x, (clamp x 0 63).toNat ≤ 63 := by
    intro x; unfold clamp; split <;> [skip; split] <;> omega
  rcases h with rfl | rfl | rfl <;> exact ⟨_, rfl, c _⟩

/-! ## The lines of a plane -/

/-- The sizes that the filters have. -/
def Sized (ls : List SseLine) : Prop := ∀ l ∈ ls, l.size = 4 ∨ l.size = 6 ∨ l.size = 8 ∨ l.size = 14

theorem Sized.append {a b : List SseLine} (ha : Sized a) (hb : Sized b) : Sized (a ++ b) := by
  intro l hl
  rcases List.mem_append.1 hl with h | h
  · exact ha l h
  · exact hb l h

theorem sizes (a b pli : Nat) (ha : a = 1 ∨ a = 2 ∨ a = 4 ∨ a = 8 ∨ a = 16) (hb : b = 1 ∨ b = 2 ∨ b = 4 ∨ b = 8 ∨ b = 16) :
    min (if pli = 0 then 14 else 6) (min (max a 1) (max b 1) <<< 2) = 4 ∨
    min (if pli = 0 then 14 else 6) (min (max a 1) (max b 1) <<< 2) = 6 ∨
    min (if pli = 0 then 14 else 6) (min (max a 1) (max b 1) <<< 2) = 8 ∨
    min (if pli = 0 then 14 else 6) (min (max a 1) (max b 1) <<< 2) = 14 := by
  by_cases hp : pli = 0
  · rw [if_pos hp]
    rcases ha with rfl | rfl | rfl | rfl | rfl <;> rcases hb with rfl | rfl | rfl | rfl | rfl <;> decide
  · rw [if_neg hp]
    rcases ha with rfl | rfl | rfl | rfl | rfl <;> rcases hb with rfl | rfl | rfl | rfl | rfl <;> decide

theorem widthMi_cases (t : Quant.TxSize) : widthMi t = 1 ∨ widthMi t = 2 ∨ widthMi t = 4 ∨ widthMi t = 8 ∨ widthMi t = 16 := by
  cases t <;> decide

theorem linesAt_sized (g : Params) (v : Bool) (x y size : Nat) (h : size = 0 ∨ size = 4 ∨ size = 6 ∨ size = 8 ∨ size = 14)
    (rec src : Plane) : Sized (linesAt g v x y size rec src) := by
  intro l hl
  unfold linesAt at hl
  simp only at hl
  split at hl
  · rw [List.mem_map] at hl
    obtain ⟨i, _, rfl⟩ := hl
    split <;> (simp only; omega)
  · exact absurd hl List.not_mem_nil

theorem deblockSize_ok {g : Params} {b p : Block} (v e : Bool) (hb : ∃ t, txOf g b = some t) (hp : ∃ t, txOf g p = some t)
    (hv : v = true) : ∃ size, deblockSize g b p v e = some size ∧ (size = 0 ∨ size = 4 ∨ size = 6 ∨ size = 8 ∨ size = 14) := by
  obtain ⟨t, ht⟩ := hb
  obtain ⟨t', ht'⟩ := hp
  subst hv
  unfold deblockSize
  split
  · exact ⟨0, rfl, Or.inl rfl⟩
  · rw [ht, ht']
    exact ⟨_, rfl, Or.inr (sizes _ _ _ (widthMi_cases t) (widthMi_cases t'))⟩

section
variable {g : Params} {d : Spec.Dec} {s t C R : Nat}

theorem sseVEdge_ok (h : Same g d) (k : Grid g s t C R) {x y : Nat} (hx : x % s = 0) (hy : y % t = 0) (hC : x < C)
    (hR : y < R) (rec src : Plane) : ∃ ls, sseVEdge g rec src y x = some ls ∧ Sized ls := by
  have ac := (k.ltC x hx).1 hC
  have ar := (k.ltR y hy).1 hR
  have a : At g y x := ⟨k.es ▸ hx, k.et ▸ hy, ac.1, ar.1⟩
  have hcol := a.col h
  have hrow := a.row h
  obtain ⟨u, hu, _, _⟩ := h.tx _ _ hrow hcol
  have hpc : x + g.xdec - 1 <<< g.xdec < g.cols := Nat.lt_of_le_of_lt (Nat.sub_le _ _) hcol
  obtain ⟨u', hu', _, _⟩ := h.tx (y + g.ydec) (x + g.xdec - 1 <<< g.xdec) hrow hpc
  unfold sseVEdge
  simp only [blockAt, deblockLeft, a.yr, a.xc, and_self, if_true, Option.bind_eq_bind, Option.bind_some, a.tx h, hu,
    or_dec y g.ydec h.ydec_le a.my, or_dec x g.xdec h.xdec_le a.mx, hrow, hpc]
  split
  · obtain ⟨size, hs, hz⟩ := deblockSize_ok (g := g) (b := g.blk y x) (p := g.blk (y + g.ydec) (x + g.xdec - 1 <<< g.xdec)) true
      (x &&& (g.blk y x).bsize.widthMi - 1 == 0) ⟨u, (a.tx h).trans hu⟩ ⟨u', hu'⟩ rfl
    rw [hs]
    exact ⟨_, rfl, linesAt_sized _ _ _ _ _ hz _ _⟩
  · exact ⟨[], rfl, fun _ hl => absurd hl List.not_mem_nil⟩

theorem sseHEdge_ok (h : Same g d) (k : Grid g s t C R) {x y : Nat} (hx : x % s = 0) (hy : y % t = 0) (hC : x < C)
    (hR : y < R) (rec src : Plane) : ∃ ls, sseHEdge g rec src y x = some ls ∧ Sized ls := by
  have ac := (k.ltC x hx).1 hC
  have ar := (k.ltR y hy).1 hR
  have a : At g y x := ⟨k.es ▸ hx, k.et ▸ hy, ac.1, ar.1⟩
  have hcol := a.col h
  have hrow := a.row h
  obtain ⟨u, hu, _, _⟩ := h.tx _ _ hrow hcol
  have hpc : y + g.ydec - 1 <<< g.ydec < g.rows := Nat.lt_of_le_of_lt (Nat.sub_le _ _) hrow
  obtain ⟨u', hu', _, _⟩ := h.tx (y + g.ydec - 1 <<< g.ydec) (x + g.xdec) hpc hcol
  unfold sseHEdge
  simp only [blockAt, deblockUp, a.yr, a.xc, and_self, if_true, Option.bind_eq_bind, Option.bind_some, a.tx h, hu,
    or_dec y g.ydec h.ydec_le a.my, or_dec x g.xdec h.xdec_le a.mx, hcol, hpc]
  split
  · obtain ⟨size, hs, hz⟩ := deblockSize_ok (g := g) (b := g.blk y x) (p := g.blk (y + g.ydec - 1 <<< g.ydec) (x + g.xdec)) true
      (y &&& (g.blk y x).bsize.heightMi - 1 == 0) ⟨u, (a.tx h).trans hu⟩ ⟨u', hu'⟩ rfl
    rw [hs]
    exact ⟨_, rfl, linesAt_sized _ _ _ _ _ hz _ _⟩
  · exact ⟨[], rfl, fun _ hl => absurd hl List.not_mem_nil⟩

theorem foldlM_inv {α β : Type} (P : β → Prop) (f : β → α → Option β) (l : List α)
    (h : ∀ x ∈ l, ∀ s, P s → ∃ s', f s x = some s' ∧ P s') (s : β) (hs : P s) : ∃ s', l.foldlM f s = some s' ∧ P s' := by
  induction l generalizing s with
  | nil => exact ⟨s, rfl, hs⟩
  | cons a l ih =>
    obtain ⟨s', h1, h2⟩ := h a List.mem_cons_self s hs
    obtain ⟨s'', h3, h4⟩ := ih (fun x hx => h x (List.mem_cons_of_mem _ hx)) s' h2
    exact ⟨s'', by rw [List.foldlM_cons, h1]; exact h3, h4⟩

/-- `sse_plane` finishes, and counts lines of sizes that the filters have. -/
theorem ssePlane_ok (h : Same g d) (hw : 0 < g.cropW) (hh : 0 < g.cropH) (hc : 0 < g.cols) (hr : 0 < g.rows) (rec src : Plane) :
    ∃ v w, ssePlane g rec src = some (v, w) ∧ Sized v ∧ Sized w := by
  have k := grid h
  have c0 := (k.ltC 0 (Nat.zero_mod _)).2 ⟨hc, by omega⟩
  have r0 := (k.ltR 0 (Nat.zero_mod _)).2 ⟨hr, by omega⟩
  obtain ⟨v, hv, hv2⟩ := foldlM_inv Sized (fun t x => do
      let v ← sseVEdge g rec src 0 x
      some (t ++ v)) (stepBy (1 <<< g.xdec) (bound g.cols g.cropW g.xdec) (1 <<< g.xdec)) (by
    intro x hx t ht
    rw [mem_stepBy' k.hs (Nat.mod_self _)] at hx
    obtain ⟨ls, h1, h2⟩ := sseVEdge_ok h k hx.2.2 (Nat.zero_mod _) hx.2.1 r0 rec src
    exact ⟨t ++ ls, by rw [h1]; rfl, ht.append h2⟩) [] (fun _ hl => absurd hl List.not_mem_nil)
  obtain ⟨⟨v', w'⟩, hw, hw2⟩ := foldlM_inv (fun (p : List SseLine × List SseLine) => Sized p.1 ∧ Sized p.2)
    (sseRow g rec src (bound g.cols g.cropW g.xdec)) (stepBy (1 <<< g.ydec) (bound g.rows g.cropH g.ydec) (1 <<< g.ydec)) (by
    intro y hy t ht
    rw [mem_stepBy' k.ht (Nat.mod_self _)] at hy
    obtain ⟨ls, h1, h2⟩ := sseHEdge_ok h k (Nat.zero_mod _) hy.2.2 c0 hy.2.1 rec src
    unfold sseRow
    rw [h1]
    simp only [Option.bind_eq_bind, Option.bind_some]
    apply foldlM_inv (fun (p : List SseLine × List SseLine) => Sized p.1 ∧ Sized p.2)
    · intro x hx t ht
      rw [mem_stepBy' k.hs (Nat.mod_self _)] at hx
      obtain ⟨l1, a1, a2⟩ := sseVEdge_ok h k hx.2.2 hy.2.2 hx.2.1 hy.2.1 rec src
      obtain ⟨l2, b1, b2⟩ := sseHEdge_ok h k hx.2.2 hy.2.2 hx.2.1 hy.2.1 rec src
      exact ⟨(t.1 ++ l1, t.2 ++ l2), by rw [a1, b1]; rfl, ht.1.append a2, ht.2.append b2⟩
    · exact ⟨ht.1, ht.2.append h2⟩) (v, []) ⟨hv2, fun _ hl => absurd hl List.not_mem_nil⟩
  refine ⟨v', w', ?_, hw2⟩
  unfold ssePlane
  simp only
  rw [hv]
  exact hw

end

/-- The levels of a plane: `sse_optimize`, `deblock.rs:1566-1615`: two for luma, one for chroma. -/
def planeLevels (g : Params) (rec src : Plane) : Option (List Nat) := do
  let (v, h) ← ssePlane g rec src
  if g.pli = 0 then do
    let a ← optimize g.bd v
    let b ← optimize g.bd h
    some [a, b]
  else do
    let a ← optimize g.bd (v ++ h)
    some [a]

/-- **C54**: whatever the pictures and the blocks, the choice finishes without a panic and its levels fit the 6 bits of
the header (`assert!(deblock.levels[0] < 64)`, `header.rs:1050-1057`). -/
theorem planeLevels_range {g : Params} {d : Spec.Dec} (h : Same g d) (hw : 0 < g.cropW) (hh : 0 < g.cropH) (hc : 0 < g.cols)
    (hr : 0 < g.rows) (rec src : Plane) : ∃ ls, planeLevels g rec src = some ls ∧ ∀ l ∈ ls, l < 64 := by
  obtain ⟨v, w, h1, h2, h3⟩ := ssePlane_ok h hw hh hc hr rec src
  unfold planeLevels
  rw [h1]
  simp only [Option.bind_eq_bind, Option.bind_some]
  split
  · obtain ⟨a, ha, ha2, _⟩ := optimize_spec (bd := g.bd) v h2
    obtain ⟨b, hb, hb2, _⟩ := optimize_spec (bd := g.bd) w h3
    rw [ha, hb]
    refine ⟨[a, b], rfl, ?_⟩
    intro l hl
    simp at hl
    omega
  · obtain ⟨a, ha, ha2, _⟩ := optimize_spec (bd := g.bd) (v ++ w) (h2.append h3)
    rw [ha]
    refine ⟨[a], rfl, ?_⟩
    intro l hl
    simp at hl
    omega

/-- The lines that are counted at a vertical edge are those that the filter changes: both use the same filter size. -/
theorem vLines_sizes (g : Params) (p rec src : Plane) (y x : Nat) (ls : List SseLine) (h : sseVEdge g rec src y x = some ls) :
    (ls = [] ∧ filterVEdge g y p x = some p) ∨ ∃ size, ls = linesAt g true x y size rec src ∧ filterVEdge g y p x = vApply g x y size p := by
  unfold sseVEdge at h
  unfold filterVEdge
  cases hb : blockAt g y x with
  | none => rw [hb] at h; exact absurd h (by simp)
  | some b =>
    rw [hb] at h
    simp only [Option.bind_eq_bind, Option.bind_some] at h ⊢
    cases ht : txOf g b with
    | none => rw [ht] at h; exact absurd h (by simp)
    | some t =>
      rw [ht] at h
      simp only [Option.bind_some] at h ⊢
      split at h
      · rename_i hc
        rw [if_pos hc]
        cases hp : deblockLeft g y x with
        | none => rw [hp] at h; exact absurd h (by simp)
        | some pb =>
          rw [hp] at h
          simp only [Option.bind_some] at h ⊢
          cases hs : deblockSize g b pb true (x &&& (b.bsize.widthMi - 1) == 0) with
          | none => rw [hs] at h; exact absurd h (by simp)
          | some size =>
            rw [hs] at h
            right
            exact ⟨size, (Option.some.inj h).symm, rfl⟩
      · rename_i hc
        rw [if_neg hc]
        left
        exact ⟨(Option.some.inj h).symm, rfl⟩

namespace Example

/-- Luma in blocks of 16x8, each with one transform. -/
def stacked : Params where
  levels := levels
  pli := 0
  xdec := 0
  ydec := 0
  blk := fun _ _ => { bsize := .b16x8, txsize := .tx16x8, skip := false, intra := false }
  cols := 4
  rows := 4
  cropW := 16
  cropH := 16
  bd := 8

def stackedDec : Spec.Dec where
  plane := 0
  subX := 1
  subY := 1
  bitDepth := 8
  frameWidth := 16
  frameHeight := 16
  miCols := 4
  miRows := 4
  lfLevel := levels
  sharpness := 0
  blockW := fun _ _ => 16
  blockH := fun _ _ => 8
  lumaTxW := fun _ _ => 16
  lumaTxH := fun _ _ => 8
  skip := fun _ _ => false
  isIntra := fun _ _ => false

theorem stacked_same : Same stacked stackedDec where
  plane := rfl
  pli := Nat.zero_le 2
  xdec := rfl
  ydec := rfl
  subX := Nat.le_refl 1
  subY := Nat.le_refl 1
  depth := rfl
  bd := Or.inl rfl
  width := rfl
  height := rfl
  miCols := rfl
  miRows := rfl
  evenC := (rfl : 4 % 2 = 0)
  evenR := (rfl : 4 % 2 = 0)
  lfLevel := rfl
  sharpness := rfl
  blockW := fun _ _ _ _ => rfl
  blockH := fun _ _ _ _ => rfl
  lumaTxW := fun _ _ _ _ => rfl
  lumaTxH := fun _ _ _ _ => rfl
  skip := fun _ _ _ _ => rfl
  isIntra := fun _ _ _ _ => rfl
  uniform := fun _ _ _ _ _ _ _ _ _ _ => rfl
  same8 := fun _ _ _ _ => rfl
  valid := fun h => absurd rfl h

end Example

/-- **Finding**: not so at the horizontal edges. Between two blocks of 16x8 the filter has size 8, but `sse_h_edge` counts
the lines of a filter of size 14. -/
theorem hLines_sizes_differ : ∃ (g : Params) (d : Spec.Dec) (y x : Nat), Same g d ∧
    (∀ rec src, (sseHEdge g rec src y x).map (fun ls => ls.map (fun l => l.size)) = some [14, 14, 14, 14]) ∧
    (∀ p, filterHEdge g y p x = hApply g x y 8 p) := by
  have hb : blockAt Example.stacked 2 0 = some { bsize := .b16x8, txsize := .tx16x8, skip := false, intra := false } := by
    decide +kernel
  have ht : txOf Example.stacked { bsize := .b16x8, txsize := .tx16x8, skip := false, intra := false } = some .tx16x8 := by
    decide +kernel
  have hu : deblockUp Example.stacked 2 0 = some { bsize := .b16x8, txsize := .tx16x8, skip := false, intra := false } := by
    decide +kernel
  refine ⟨Example.stacked, Example.stackedDec, 2, 0, Example.stacked_same, ?_, ?_⟩
  · intro rec src
    unfold sseHEdge
    rw [hb]
    simp only [Option.bind_eq_bind, Option.bind_some]
    rw [ht]
    simp only [Option.bind_some]
    rw [if_pos (by decide), hu]
    simp only [Option.bind_some]
    have hs : deblockSize Example.stacked { bsize := .b16x8, txsize := .tx16x8, skip := false, intra := false }
        { bsize := .b16x8, txsize := .tx16x8, skip := false, intra := false } true
        (2 &&& (({ bsize := .b16x8, txsize := .tx16x8, skip := false, intra := false } : Block).bsize.heightMi - 1) == 0) = some 14 := by decide +kernel
    rw [hs]
    rfl
  · intro p
    unfold filterHEdge
    rw [hb]
    simp only [Option.bind_eq_bind, Option.bind_some]
    rw [ht]
    simp only [Option.bind_some]
    rw [if_pos (by decide), hu]
    simp only [Option.bind_some]
    have hs : deblockSize Example.stacked { bsize := .b16x8, txsize := .tx16x8, skip := false, intra := false }
        { bsize := .b16x8, txsize := .tx16x8, skip := false, intra := false } false
        (2 &&& (({ bsize := .b16x8, txsize := .tx16x8, skip := false, intra := false } : Block).bsize.heightMi - 1) == 0) = some 8 := by decide +kernel
    rw [hs]
    rfl

/-! ## Examples -/

namespace Example

/-- A source without the step that the reconstruction has: a filter is worth its while. -/
def ramp : Plane := fun _ c => if c ≤ 6 then 100 else if c = 7 then 102 else if c = 8 then 104 else 106

example : ∃ ls, planeLevels (g 0) step ramp = some ls ∧ ∀ l ∈ ls, l < 64 :=
  planeLevels_range (same 0 (by decide)) (by decide) (by decide) (by decide) (by decide) step ramp

/-- One line of eight pixels: the best level is the lowest that filters the step. -/
def line : SseLine := { size := 8, v := fun j => if j < 4 then 100 else 106, a := fun j => ramp 0 (j + 4) }

example : optimize 8 [line] = some 4 := by decide +kernel
example : totalError 8 [line] 4 < totalError 8 [line] 3 := by decide +kernel

end Example

end Rav1e.Deblock

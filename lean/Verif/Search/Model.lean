import Verif.Obu.Model
import Verif.Seg.Model

/-!
# Motion search: the code

Vectors are in eighths of a pixel.  What the search reads of pictures is one number for each vector: the difference of the
block and the block at that vector of the reference (`sad : MV → Nat`, see `Verif.Metric` for how it is computed).
`none` is a failed assertion.
-/

namespace Rav1e.Search

open Rav1e.Seg (wrap16)

/-- `MotionVector` (src/mc.rs:27-31). -/
structure MV where
  row : Int
  col : Int
  deriving DecidableEq

/-- `ops::Add` for vectors (src/mc.rs:89-96), wrapping as release builds do. -/
def MV.add (a b : MV) : MV := ⟨wrap16 (a.row + b.row), wrap16 (a.col + b.col)⟩

/-- `ops::Mul<i16>` for vectors (src/mc.rs:53-60). -/
def MV.mul (a : MV) (k : Int) : MV := ⟨wrap16 (a.row * k), wrap16 (a.col * k)⟩

/-- The limits of vectors that searches are called with (`mvx_min`, `mvx_max`, `mvy_min`, `mvy_max`). -/
structure Lim where
  xmin : Int
  xmax : Int
  ymin : Int
  ymax : Int
  deriving DecidableEq

/-- `get_mv_range` (src/me.rs:339-362). -/
def getMvRange (wInB hInB bx byy blkW blkH : Nat) : Lim :=
  let borderW : Int := 128 + blkW * 8
  let borderH : Int := 128 + blkH * 8
  ⟨max (-(bx : Int) * 32 - borderW) (-16384 + 1), min (((wInB : Int) - bx - (blkW / 4 : Nat)) * 32 + borderW) (16384 - 1),
   max (-(byy : Int) * 32 - borderH) (-16384 + 1), min (((hInB : Int) - byy - (blkH / 4 : Nat)) * 32 + borderH) (16384 - 1)⟩

/-- The limits at a resolution (src/me.rs:557-558). -/
def Lim.shr (l : Lim) (s : Nat) : Lim := ⟨l.xmin / 2 ^ s, l.xmax / 2 ^ s, l.ymin / 2 ^ s, l.ymax / 2 ^ s⟩

/-- What a search is given besides pictures: limits, the two predicted vectors, the multiplier and whether vectors have eighths. -/
structure Ctx where
  lim : Lim
  pmv0 : MV
  pmv1 : MV
  lambda : Nat
  hp : Bool

/-- `MotionSearchResult` (src/me.rs:98-103). -/
structure Res where
  mv : MV
  cost : Nat
  sad : Nat
  deriving DecidableEq

/-- `MotionSearchResult::empty` (src/me.rs:112-117, src/me.rs:142-144). -/
def empty : Res := ⟨⟨0, 0⟩, 2 ^ 64 - 1, 2 ^ 32 - 1⟩

/-- `diff_to_rate` (src/me.rs:1516-1519). -/
def diffToRate (hp : Bool) (diff : Int) : Nat :=
  2 * Obu.ilog (if hp then diff else diff / 2).natAbs

/-- `get_mv_rate` (src/me.rs:1512-1523). -/
def mvRate (a b : MV) (hp : Bool) : Nat :=
  diffToRate hp (wrap16 (a.row - b.row)) + diffToRate hp (wrap16 (a.col - b.col))

/-- The cost of `compute_mv_rd` (src/me.rs:1456-1460). -/
def mvCost (c : Ctx) (sad : MV → Nat) (v : MV) : Nat :=
  256 * sad v + min (mvRate v c.pmv0 c.hp) (mvRate v c.pmv1 c.hp + 1) * c.lambda

/-- `get_fullpel_mv_rd` and `get_subpel_mv_rd` (src/me.rs:1386-1441): what the two differ in is `sad`. -/
def rdAt (c : Ctx) (sad : MV → Nat) (v : MV) : Res :=
  if v.col < c.lim.xmin ∨ c.lim.xmax < v.col ∨ v.row < c.lim.ymin ∨ c.lim.ymax < v.row then ⟨v, empty.cost, empty.sad⟩
  else ⟨v, mvCost c sad v, sad v⟩

/-- The loop all searches share: `best` is replaced by a candidate that costs less (src/me.rs:892-902, src/me.rs:967-979,
src/me.rs:1201-1212). -/
def tryAll (c : Ctx) (sad : MV → Nat) (best : Res) (cands : List MV) : Res :=
  cands.foldl (fun b v => if (rdAt c sad v).cost < b.cost then rdAt c sad v else b) best

/-- `get_best_predictor` (src/me.rs:884-905). -/
def bestPredictor (c : Ctx) (sad : MV → Nat) (preds : List MV) : Res := tryAll c sad empty preds

/-- `DIAMOND_R1_PATTERN_SUBPEL` (src/me.rs:932-935) times `u`; `DIAMOND_R1_PATTERN` (src/me.rs:944-947) is for `u = 8`. -/
def diamondPattern (u : Int) : List MV := [⟨u, 0⟩, ⟨0, u⟩, ⟨-u, 0⟩, ⟨0, -u⟩]

/-- The loops of `fullpel_diamond_search` (src/me.rs:964-991, `u = 8`) and of `subpel_diamond_search` (src/me.rs:1339-1380, `u = 1`). -/
def diamondLoop (c : Ctx) (sad : MV → Nat) (u : Int) (fin : Nat) (r : Nat) (cur : Res) : Option Res :=
  if cur.cost ≤ (tryAll c sad empty ((diamondPattern (u * 2 ^ r)).map cur.mv.add)).cost then
    if r = fin then some cur
    else if 0 < r then diamondLoop c sad u fin (r - 1) cur else none
  else diamondLoop c sad u fin r (tryAll c sad empty ((diamondPattern (u * 2 ^ r)).map cur.mv.add))
termination_by (cur.cost, r)
decreasing_by
  · exact Prod.Lex.right _ (by omega)
  · exact Prod.Lex.left _ _ (by omega)

/-- The assertion that ends a search (src/me.rs:993-993, src/me.rs:1136-1136, src/me.rs:1382-1382). -/
def checkFound (r : Res) : Option Res := if r.cost = empty.cost then none else some r

/-- `fullpel_diamond_search` (src/me.rs:955-994). -/
def fullpelDiamond (c : Ctx) (sad : MV → Nat) (cur : Res) : Option Res := do
  checkFound (← diamondLoop c sad 8 0 1 cur)

/-- `subpel_diamond_search` (src/me.rs:1311-1383). -/
def subpelDiamond (c : Ctx) (sad : MV → Nat) (cur : Res) : Option Res := do
  checkFound (← diamondLoop c sad 1 (if c.hp then 0 else 1) 2 cur)

/-- `HEXAGON_PATTERN` (src/me.rs:1022-1025). -/
def hexagon : List MV := [⟨-16, 0⟩, ⟨-8, 16⟩, ⟨8, 16⟩, ⟨16, 0⟩, ⟨8, -16⟩, ⟨-8, -16⟩]

/-- `SQUARE_REFINE_PATTERN` (src/me.rs:1035-1038). -/
def square : List MV := [⟨8, -8⟩, ⟨8, 0⟩, ⟨8, 8⟩, ⟨0, -8⟩, ⟨0, 8⟩, ⟨-8, -8⟩, ⟨-8, 0⟩, ⟨-8, 8⟩]

/-- One iteration of the hexagon search (src/me.rs:1071-1083, src/me.rs:1101-1115): the best of the candidates `is` and its number. -/
def hexTry (c : Ctx) (sad : MV → Nat) (center : MV) (i0 : Nat) (is : List Nat) : Nat × Res :=
  is.foldl (fun b i =>
    let r := rdAt c sad (center.add (hexagon.getD i ⟨0, 0⟩))
    if r.cost < b.2.cost then (i, r) else b) (i0, empty)

/-- The loop of `hexagon_search` (src/me.rs:1087-1116). -/
def hexLoop (c : Ctx) (sad : MV → Nat) (cur best : Res) (idx : Nat) : Res :=
  if best.cost < cur.cost then
    let n := hexTry c sad best.mv idx ([5, 6, 7].map fun k => (idx + k) % 6)
    hexLoop c sad best n.2 n.1
  else cur
termination_by cur.cost

/-- `hexagon_search` (src/me.rs:1055-1137). -/
def hexagonSearch (c : Ctx) (sad : MV → Nat) (cur : Res) : Option Res :=
  let n := hexTry c sad cur.mv 0 (List.range 6)
  let cur := hexLoop c sad cur n.2 n.1
  let best := tryAll c sad empty (square.map cur.mv.add)
  checkFound (if best.cost < cur.cost then best else cur)

/-- `UMH_PATTERN` (src/me.rs:1153-1156). -/
def umhPattern : List MV :=
  (([4, 4, 4, 4, 4, 2, 0, -2, -4, -4, -4, -4, -4, -2, 0, 2] : List Int).zip
    [-2, -1, 0, 1, 2, 3, 4, 3, 2, 1, 0, -1, -2, 3, -4, -3]).map fun p => ⟨p.1 * 8, p.2 * 8⟩

/-- The offsets of the cross search for `me_range = 24` (src/me.rs:1195-1213, src/me.rs:1216-1234). -/
def cross : List MV :=
  ((List.range 12).flatMap fun k => [⟨-8, 0⟩, ⟨8, 0⟩].map fun o => MV.mul o (2 * k + 1)) ++
  ((List.range 6).flatMap fun k => [⟨0, -8⟩, ⟨0, 8⟩].map fun o => MV.mul o (2 * k + 1))

/-- The offsets of the "5x5 full search" (src/me.rs:1238-1243): they are not multiples of a pixel. -/
def five : List MV :=
  (([-2, -1, 0, 1, 2] : List Int).flatMap fun r => ([-2, -1, 0, 1, 2] : List Int).map fun k => ⟨r, k⟩).filter fun v => v ≠ ⟨0, 0⟩

/-- The offsets of the hexagons of all scales (src/me.rs:1282-1285). -/
def umh : List MV := (List.range 6).flatMap fun k => umhPattern.map fun o => MV.mul o (k + 1)

/-- `uneven_multi_hex_search` (src/me.rs:1170-1303) for `me_range = 24`. -/
def unevenMultiHex (c : Ctx) (sad : MV → Nat) (cur : Res) : Option Res := do
  let cur ← checkFound cur
  let cur := tryAll c sad cur (cross.map cur.mv.add)
  let cur := tryAll c sad cur (five.map cur.mv.add)
  let cur := tryAll c sad cur (umh.map cur.mv.add)
  hexagonSearch c sad cur

/-- The pixels of a full search along an axis (src/me.rs:1479-1480): `lo`, `lo + step`, … to `hi`. -/
def steps (lo hi : Int) (step : Nat) : List Int :=
  (List.range ((hi - lo).toNat / step + 1)).map fun k => lo + (k * step : Nat)

/-- `full_search` (src/me.rs:1464-1509) relative to the block; the predicted vectors are zero, vectors are not compared with limits.
Panics for a region of negative size are not modelled: `fullRange_ok` shows that there is none. -/
def fullSearch (c : Ctx) (sad : MV → Nat) (xlo xhi ylo yhi : Int) (step : Nat) : Res :=
  ((steps ylo yhi step).flatMap fun y => (steps xlo xhi step).map fun x => (⟨8 * y, 8 * x⟩ : MV)).foldl
    (fun b v =>
      let cost := mvCost { c with pmv0 := ⟨0, 0⟩, pmv1 := ⟨0, 0⟩ } sad v
      if cost < b.cost then ⟨v, cost, sad v⟩ else b) empty

/-- `refine_subsampled_motion_estimate` (src/me.rs:634-690) at one resolution, before its result is scaled: `v` is the stored vector at
this resolution.  `none` is a region smaller than the block. -/
def refine (c : Ctx) (sad : MV → Nat) (v : MV) : Option Res :=
  let xlo := max (v.col.tdiv 8 - 1) (c.lim.xmin.tdiv 8)
  let xhi := min (v.col.tdiv 8 + 2) (c.lim.xmax.tdiv 8)
  let ylo := max (v.row.tdiv 8 - 1) (c.lim.ymin.tdiv 8)
  let yhi := min (v.row.tdiv 8 + 2) (c.lim.ymax.tdiv 8)
  if xhi < xlo ∨ yhi < ylo then none else some (fullSearch c sad xlo xhi ylo yhi 1)

/-- The size of a block in a pass at resolution `s`, back at full resolution (src/me.rs:250-251, src/me.rs:302-303, src/me.rs:547-547): `size`
is the size of blocks of the pass, `n` what is left of the superblock. -/
def passSize (size n s : Nat) : Nat := min size (n + 2 ^ s - 1) / 2 ^ s * 2 ^ s

/-- `process_cand` and `dec_mv` (src/me.rs:405-412, src/me.rs:521-524): a stored vector as a predictor.  It is the limits of
the searched resolution that the vector of the full resolution is clamped to. -/
def cand (l : Lim) (ssdec : Nat) (v : MV) : MV :=
  ⟨max l.ymin (min (v.row.tdiv 8 * 8) l.ymax) / 2 ^ ssdec, max l.xmin (min (v.col.tdiv 8 * 8) l.xmax) / 2 ^ ssdec⟩

/-- The predictors of a block: `MotionEstimationSubsets` (src/me.rs:364-369). -/
structure Subsets where
  median : Option MV
  b : List MV
  c : List MV

/-- `MotionEstimationSubsets::all_mvs` (src/me.rs:372-382). -/
def Subsets.all (s : Subsets) : List MV := s.median.toList ++ s.b ++ s.c

/-- `get_subset_predictors` (src/me.rs:386-534) after stored vectors were sampled: `sb` around the block, `sc` of the previous
frame, `center` inside the block (`none` for the first pass, which takes the median of three; the code takes it before `dec_mv`, which is monotone).  Which vectors are sampled is not
modelled. -/
def subsets (l : Lim) (ssdec : Nat) (center : Option MV) (sb sc : List MV) : Subsets :=
  let p := sb.map (cand l ssdec)
  let med := fun (x : List Int) => (x.mergeSort fun a b => decide (a ≤ b)).getD 1 0
  ⟨match center with
    | some v => some (cand l ssdec v)
    | none => if p.length ≠ 3 then none else some ⟨med (p.map (·.row)), med (p.map (·.col))⟩,
   p ++ [⟨0, 0⟩], sc.map (cand l ssdec)⟩

/-- `try_cands` (src/me.rs:721-759). -/
def tryCands (c : Ctx) (sad : MV → Nat) (preds : List MV) (best : Res) : Option Res := do
  let r ← fullpelDiamond c sad (bestPredictor c sad preds)
  some (if r.cost < best.cost then r else best)

/-- The first candidate of the extensive search (src/me.rs:773-774) before the threshold. -/
def tryMedian (c : Ctx) (sad : MV → Nat) : Option MV → Option Res
  | some m => tryCands c sad [m] empty
  | none => some empty

/-- `full_pixel_me` (src/me.rs:693-855).  `thresh` is the threshold that is computed in floating point, `scale` is `me_range_scale`. -/
def fullPixelMe (c : Ctx) (sad : MV → Nat) (s : Subsets) (extensive allowFull : Bool) (thresh scale ssdec : Nat) : Option Res := do
  if !extensive then tryCands c sad s.all empty
  else
    let best ← tryMedian c sad s.median
    if s.median.isSome ∧ best.sad < thresh then some best
    else
      let best ← tryCands c sad s.b best
      if best.sad < thresh then some best
      else
        let best ← tryCands c sad s.c best
        if best.sad < thresh then some best
        else
          let best ← unevenMultiHex c sad best
          if !allowFull ∨ best.sad < thresh then some best
          else
            let rx : Int := (192 * scale / 2 ^ ssdec : Nat)
            let ry : Int := (64 * scale / 2 ^ ssdec : Nat)
            let r := fullSearch c sad (max (-rx) (c.lim.xmin.tdiv 8)) (min rx (c.lim.xmax.tdiv 8))
              (max (-ry) (c.lim.ymin.tdiv 8)) (min ry (c.lim.ymax.tdiv 8)) (4 / 2 ^ ssdec)
            some (if r.cost < best.cost then r else best)

/-- `estimate_motion` (src/me.rs:536-631) as the mode decision calls it (src/rdo.rs:1183-1195): full resolution, no extensive
search.  `sadF` measures at whole pixels, `satdF` is the transformed measure there (used if `useSatd`), `sadS` is the measure of the
sub-pixel search. -/
def estimateFinal (c : Ctx) (sadF satdF sadS : MV → Nat) (useSatd : Bool) (s : Subsets) : Option Res := do
  let best ← fullPixelMe c sadF s false false 0 0 0
  subpelDiamond c sadS (if useSatd then rdAt c satdF best.mv else best)

end Rav1e.Search

import Verif.Seg.Norm

/-!
# C68: segments
-/

namespace Rav1e.Seg

open Rav1e.Quant

/-- The states that the encoder can reach, with the `base_q_idx` of the frame: a frame without a primary reference starts from the default state
(`get_initial_segmentation`, src/encoder.rs:3749-3762) and makes segments from its scores; every other frame copies the state of its primary reference and
optimizes it for its own `base_q_idx`.  `ok` restricts the scores. -/
inductive Reach (bs : Search) (bd : Nat) (ok : List Nat → Prop) : Nat → State → Prop
  | fresh {base : Nat} {scores : List Nat} {S : State} : base ≤ 255 → scores ≠ [] → (∀ s ∈ scores, 0 < s ∧ s < 2 ^ 28) → ok scores →
      optimize bs {} true base bd scores = some S → Reach bs bd ok base S
  | later {base base' : Nat} {scores : List Nat} {S S' : State} : Reach bs bd ok base S → base' ≤ 255 →
      optimize bs S false base' bd scores = some S' → Reach bs bd ok base' S'

/-- The invariant. -/
theorem reach_good {bs : Search} (hbs : bs.Ok) {bd : Nat} (hbd : bd ∈ [8, 10, 12]) {ok : List Nat → Prop} {base : Nat} {S : State} (h : Reach bs bd ok base S) :
    ∃ k, Good S k ∧ base ≤ 255 ∧ (∀ i, S.minSeg ≤ i → i < k → 1 ≤ (base : Int) + S.data.getD i 0) ∧
      ((∀ s, ok s → Centered s) → 0 ≤ S.data.getD S.maxSeg 0) := by
  induction h with
  | fresh hb hne hs hok e =>
    obtain ⟨S', k, e', hg, -, -, hr, hc⟩ := fresh_ok hbs hbd hb hne hs
    rw [e] at e'
    cases e'
    refine ⟨k, hg, hb, fun i _ hi => (hr i hi).1, fun h => ?_⟩
    rw [hg.max]
    exact hc (h _ hok)
  | @later base base' scores S S' _ hb e ih =>
    obtain ⟨k, hg, -, -, hc⟩ := ih
    obtain ⟨l1, l2⟩ := later_ok (bs := bs) (base := base') hbd hg scores
    rcases lt_or_ge ((base' : Int) + S.data.getD S.maxSeg 0) 1 with h | h
    · rw [l1 h] at e
      cases e
    · obtain ⟨S'', e'', hg', -, hd, hr, -⟩ := l2 h
      rw [e] at e''
      cases e''
      refine ⟨k, hg', hb, ?_, fun h => ?_⟩
      · rw [hd]
        exact hr
      · rw [hg'.max, hd, ← hg.max]
        exact hc h

/-- `get_qidx` is the index of the specification. -/
theorem getQidx_eq {S : State} {base i : Nat} (h : S.features.getD i false = true) : (getQidx S base i : Int) = Spec.qidx base (S.data.getD i 0) := by
  unfold getQidx Spec.qidx
  rw [if_pos h]
  split_ifs <;> omega

/-- **C68.** A frame without a primary reference never panics in `segmentation_optimize`, whatever its scores: it gets three to eight segments, from 0 on; their quantizer
indices lie between 1 and 255 without clamping, so that none of them is lossless, and do not decrease. -/
theorem fresh_total {bs : Search} (hbs : bs.Ok) {bd base : Nat} (hbd : bd ∈ [8, 10, 12]) (hb : base ≤ 255) {scores : List Nat} (hne : scores ≠ [])
    (hs : ∀ s ∈ scores, 0 < s ∧ s < 2 ^ 28) : ∃ S, optimize bs {} true base bd scores = some S ∧ S.updateData = true ∧ S.minSeg = 0 ∧ 2 ≤ S.maxSeg ∧ S.maxSeg ≤ 7 ∧
      (∀ i ≤ S.maxSeg, 1 ≤ (base : Int) + S.data.getD i 0 ∧ (base : Int) + S.data.getD i 0 ≤ 255) ∧
      ∀ i j, i ≤ j → j ≤ S.maxSeg → getQidx S base i ≤ getQidx S base j := by
  obtain ⟨S, k, e, hg, hu, hm, hr, -⟩ := fresh_ok hbs hbd hb hne hs
  have k3 := hg.k3
  have k8 := hg.k8
  have hmax := hg.max
  refine ⟨S, e, hu, hm, by omega, by omega, fun i hi => hr i (by omega), fun i j hij hj => ?_⟩
  have := hg.mono i j hij (by omega)
  unfold getQidx
  rw [hg.feature, hg.feature, if_pos (by simp; omega), if_pos (by simp; omega)]
  omega

/-- **C68.** In every frame, the header can code the segments: eight of them, the feature is on exactly in those up to the last active one, its values have nine bits, and
no segment needs to be read before the skip flag. -/
theorem header_ok {bs : Search} (hbs : bs.Ok) {bd : Nat} (hbd : bd ∈ [8, 10, 12]) {ok : List Nat → Prop} {base : Nat} {S : State} (h : Reach bs bd ok base S) :
    S.features.length = 8 ∧ S.data.length = 8 ∧ S.lastActive ≤ 7 ∧ S.preskip = false ∧ (∀ i, S.features.getD i false = true ↔ i ≤ S.lastActive) ∧
      ∀ i ≤ S.lastActive, Spec.Codable (S.data.getD i 0) := by
  obtain ⟨k, hg, -, -⟩ := reach_good hbs hbd h
  have k3 := hg.k3
  have k8 := hg.k8
  have hl := hg.last
  refine ⟨by rw [hg.feat]; simp; omega, hg.len, by omega, hg.pre, fun i => ?_, fun i hi => hg.range i (by omega)⟩
  rw [hg.feature, decide_eq_true_eq]
  omega

/-- **C68.** No block that codes its segment becomes lossless: in every frame, at every level and for every scale of the block, `select_segment` gives a range that is not empty and
ends at the last active segment or before; the quantizer index of each segment in it is the one of the specification, and not zero.  (`r` is the result of the search in the
thresholds.) -/
theorem not_lossless {bs : Search} (hbs : bs.Ok) {bd : Nat} (hbd : bd ∈ [8, 10, 12]) {ok : List Nat → Prop} {base : Nat} {S : State} (h : Reach bs bd ok base S) (level : Level)
    (scale r : Nat) (hr : IsPoint S.threshold scale r) : (selectSegment S level r).1 ≤ (selectSegment S level r).2 ∧ (selectSegment S level r).2 ≤ S.lastActive ∧
      ∀ i, (selectSegment S level r).1 ≤ i → i ≤ (selectSegment S level r).2 →
        (getQidx S base i : Int) = Spec.qidx base (S.data.getD i 0) ∧ Spec.Lossy base (S.data.getD i 0) := by
  obtain ⟨k, hg, hb, hq, -⟩ := reach_good hbs hbd h
  have k3 := hg.k3
  have k8 := hg.k8
  have hmax := hg.max
  have hl := hg.last
  have hmin := hg.min
  have hrk : r ≤ k - 1 := by
    by_contra hc
    have h1 := hr.2.1 (by omega)
    rw [hg.thr.2 (r - 1) (by omega)] at h1
    omega
  have hsel : S.minSeg ≤ (selectSegment S level r).1 ∧ (selectSegment S level r).1 ≤ (selectSegment S level r).2 ∧ (selectSegment S level r).2 ≤ k - 1 := by
    unfold selectSegment
    cases level
    · simp; omega
    · simp; omega
    · simp; omega
  refine ⟨hsel.2.1, by omega, fun i h1 h2 => ⟨getQidx_eq (by rw [hg.feature]; simp; omega), ?_⟩⟩
  have := hq i (by omega) (by omega)
  unfold Spec.Lossy Spec.qidx
  split_ifs <;> omega

/-- **C68.** A frame with a primary reference panics (the assertion `assert_ne!(min_segment, MAX_SEGMENTS)` fails) exactly if its `base_q_idx` is so low that even the segment with
the largest delta would be lossless. -/
theorem panics_iff {bs : Search} (hbs : bs.Ok) {bd : Nat} (hbd : bd ∈ [8, 10, 12]) {ok : List Nat → Prop} {base : Nat} {S : State} (h : Reach bs bd ok base S)
    (base' : Nat) (scores : List Nat) : optimize bs S false base' bd scores = none ↔ ∀ i ≤ S.lastActive, ¬ Spec.Lossy base' (S.data.getD i 0) := by
  obtain ⟨k, hg, -, -⟩ := reach_good hbs hbd h
  have k3 := hg.k3
  have hmax := hg.max
  have hl := hg.last
  obtain ⟨l1, l2⟩ := later_ok (bs := bs) (base := base') hbd hg scores
  have key : ∀ d : Int, ¬ Spec.Lossy base' d ↔ (base' : Int) + d < 1 := by
    intro d
    unfold Spec.Lossy Spec.qidx
    split_ifs <;> omega
  constructor
  · intro e i hi
    rw [key]
    rcases lt_or_ge ((base' : Int) + S.data.getD S.maxSeg 0) 1 with h | h
    · have := hg.mono i (k - 1) (by omega) (by omega)
      rw [hmax] at h
      omega
    · obtain ⟨S', e', -⟩ := l2 h
      rw [e] at e'
      cases e'
  · intro hh
    have := (key _).1 (hh S.maxSeg (by omega))
    exact l1 this

/-- No later frame panics if the scores of the frames without a primary reference have a mean near 1. -/
theorem no_panic_centered {bs : Search} (hbs : bs.Ok) {bd : Nat} (hbd : bd ∈ [8, 10, 12]) {ok : List Nat → Prop} (hok : ∀ s, ok s → Centered s) {base : Nat} {S : State}
    (h : Reach bs bd ok base S) (base' : Nat) (h1 : 1 ≤ base') (scores : List Nat) : ∃ S', optimize bs S false base' bd scores = some S' := by
  obtain ⟨k, hg, -, -, hc⟩ := reach_good hbs hbd h
  obtain ⟨-, l2⟩ := later_ok (bs := bs) (base := base') hbd hg scores
  have := hc hok
  obtain ⟨S', e, -⟩ := l2 (by omega)
  exact ⟨S', e⟩

/-- Scores as the encoder computes them from scales between 2^-14 and 2^14: it multiplies them by a factor that makes their mean 1; the factor and the results are not below 1/64. -/
def Normalised (scores : List Nat) : Prop :=
  ∃ l m, (∀ s ∈ l, 0 < s ∧ s < 2 ^ 28) ∧ invMean l = some m ∧ 256 ≤ m ∧ normalise l = some scores ∧ ∀ r ∈ scores, 256 ≤ r

/-- **C68.** If the scores of the frames without a primary reference are normalised, with a factor and scores of at least 1/64, then no later frame panics, for any sequence of
`base_q_idx` that are not zero.  Missing: smaller factors and scores, for which `later_panics` shows that it can panic. -/
theorem no_panic_partial {bs : Search} (hbs : bs.Ok) {bd : Nat} (hbd : bd ∈ [8, 10, 12]) {base : Nat} {S : State} (h : Reach bs bd Normalised base S) (base' : Nat) (h1 : 1 ≤ base')
    (scores : List Nat) : ∃ S', optimize bs S false base' bd scores = some S' := by
  refine no_panic_centered hbs hbd ?_ h base' h1 scores
  rintro s ⟨l, m, hl, em, hm, e, hr⟩
  exact (normalise_centered hl em hm e hr).1

instance (t : List Nat) (s r : Nat) : Decidable (IsPoint t s r) := by unfold IsPoint; infer_instance

/-! ### Concrete cases -/

/-- Centroids without sorting, to compute. -/
def centroidsOf (logs : List Int) : Option (List Int) := do
  let c ← [8, 7, 6, 5, 4, 3].mapM fun k => Kmeans.kmeans (-32768) 32767 k logs
  let v ← c.mapM spacing
  let p ← lastMin v
  c[p]?

theorem centroids_of {scores : List Nat} {logs : List Int} (e : scores.mapM blog16 = some logs) (h : (logs.Pairwise (· ≤ ·))) : centroids scores = centroidsOf logs := by
  have : (logs.mergeSort fun a b => decide (a ≤ b)) = logs := List.mergeSort_of_pairwise (h.imp fun h => by simpa using h)
  unfold centroids centroidsOf
  rw [e]
  simp only [Option.bind_eq_bind, Option.bind_some, this]

theorem optimize_of {bs : Search} {base bd : Nat} {scores : List Nat} {c delta : List Int} {S : State} (e : centroids scores = some c) (e1 : computeDelta bs base bd c = some delta)
    (e0 : delta.length ≠ 0)
    (e2 : updateThreshold { ({} : State) with updateData := true, minSeg := 0, maxSeg := delta.length - 1, features := List.replicate (min delta.length 8) true ++ (List.replicate 8 false).drop delta.length, data := (delta.take 8).map (max · (1 - (base : Int))) ++ (List.replicate 8 (0 : Int)).drop delta.length } base bd = some S) :
    optimize bs {} true base bd scores = some { S with preskip := false, lastActive := lastTrue S.features } := by
  unfold optimize optimizeInner
  simp only [if_true, e, e1, Option.bind_eq_bind, Option.bind_some]
  rw [if_neg e0]
  simp only [e2]
  rfl

/-- A frame with scores on both sides of 1. -/
def mixed : State where
  updateData := true
  lastActive := 2
  features := [true, true, true, false, false, false, false, false]
  data := [-69, 6, 77, 0, 0, 0, 0, 0]
  threshold := [38391, 3687, 0, 0, 0, 0, 0]
  minSeg := 0
  maxSeg := 2

/-- Its scores. -/
def mixedScores : List Nat := [1023, 5113, 9203, 16754, 16754, 30677, 61355, 204517]

/-- The scales that they are computed from. -/
def mixedScales : List Nat := [1000, 5000, 9000, 16384, 16384, 30000, 60000, 200000]

theorem mixed_fresh : optimize linearSearch {} true 120 8 mixedScores = some mixed := by
  have e : mixedScores.mapM blog16 = some ((mixedScores.mapM blog16).getD []) := by decide +kernel
  have h : ((mixedScores.mapM blog16).getD []).Pairwise (· ≤ ·) := by decide +kernel
  have e1 : centroids mixedScores = some ((centroidsOf ((mixedScores.mapM blog16).getD [])).getD []) := by
    rw [centroids_of e h]
    decide +kernel
  exact optimize_of (S := { mixed with lastActive := 0 }) e1 (delta := [-69, 6, 77]) (by decide +kernel) (by decide) (by decide +kernel)

theorem mixed_reach : Reach linearSearch 8 (fun s => s = mixedScores) 120 mixed :=
  .fresh (by norm_num) (by decide) (by decide) rfl mixed_fresh

/-- The scores come from normalisation: the hypotheses of `no_panic_partial` are met. -/
theorem mixed_normalised : Normalised mixedScores :=
  ⟨mixedScales, 16754, by decide, by decide +kernel, by norm_num, by decide +kernel, by decide⟩

example : ∃ S', optimize linearSearch mixed false 10 8 [] = some S' :=
  no_panic_partial linearSearch_ok (by decide) (.fresh (by norm_num) (by decide) (by decide) mixed_normalised mixed_fresh) 10 (by norm_num) []

example : IsPoint mixed.threshold 20000 1 := by decide

/-- For a block with a scale of 20000, the segments 1 and 2 are tried. -/
example : selectSegment mixed .complex 1 = (1, 2) := by decide

/-- The frame after it has a low quantizer index. -/
def mixedLater : State := { mixed with updateData := false, minSeg := 1, threshold := [51467, 2190, 0, 0, 0, 0, 0] }

theorem mixed_later : optimize linearSearch mixed false 10 8 [] = some mixedLater := by decide +kernel

/-- **C68.** Segment 0 itself can be lossless in such a frame: blocks that code their segment do not use it. -/
theorem segment0_lossless : ∃ S base, Reach linearSearch 8 Normalised base S ∧ 1 ≤ base ∧ S.features.getD 0 false = true ∧ getQidx S base 0 = 0 ∧ S.minSeg = 1 :=
  ⟨mixedLater, 10, .later (.fresh (by norm_num) (by decide) (by decide) mixed_normalised mixed_fresh) (by norm_num) mixed_later, by norm_num, by decide, by decide, by decide⟩

/-- A frame whose normalised scores are all above 1. -/
def bright : State where
  updateData := true
  lastActive := 2
  features := [true, true, true, false, false, false, false, false]
  data := [-7, -7, -7, 0, 0, 0, 0, 0]
  threshold := [21333, 21333, 0, 0, 0, 0, 0]
  minSeg := 0
  maxSeg := 2

/-- Its scores, before and after normalisation. -/
def brightScores : List Nat := [21606, 21606, 21606]

theorem bright_normalised : normalise [177000000, 177000000, 177000000] = some brightScores := by decide +kernel

theorem bright_fresh : optimize linearSearch {} true 200 8 brightScores = some bright := by
  have e : brightScores.mapM blog16 = some ((brightScores.mapM blog16).getD []) := by decide +kernel
  have h : ((brightScores.mapM blog16).getD []).Pairwise (· ≤ ·) := by decide +kernel
  have e1 : centroids brightScores = some ((centroidsOf ((brightScores.mapM blog16).getD [])).getD []) := by
    rw [centroids_of e h]
    decide +kernel
  exact optimize_of (S := { bright with lastActive := 0 }) e1 (delta := [-7, -7, -7]) (by decide +kernel) (by decide) (by decide +kernel)

/-- **C68.** The assertion can fail: for scores so large that the factor that normalises them is rounded from 1.5 to 2, the mean of the normalised scores is 1.3, all segments have
a negative delta, and a later frame with a low `base_q_idx` panics. -/
theorem later_panics : ∃ (scores scores' : List Nat) (base base' : Nat) (S : State), (∀ s ∈ scores, 0 < s ∧ s < 2 ^ 28) ∧ normalise scores = some scores' ∧
    1 ≤ base' ∧ base ≤ 255 ∧ optimize linearSearch {} true base 8 scores' = some S ∧ optimize linearSearch S false base' 8 [] = none :=
  ⟨[177000000, 177000000, 177000000], brightScores, 200, 7, bright, by decide, bright_normalised, by norm_num, by norm_num, bright_fresh, by decide +kernel⟩

/-- A frame with a low `base_q_idx` and small scores. -/
def dark : State where
  updateData := true
  lastActive := 4
  features := [true, true, true, true, true, false, false, false]
  data := [-9, -2, 10, 131, 203, 0, 0, 0]
  threshold := [39458, 11691, 43842, 295936, 0, 0, 0]
  minSeg := 0
  maxSeg := 4

/-- Its scores. -/
def darkScores : List Nat := [5, 10, 100, 5000, 9000, 16384, 16384, 30000, 60000, 200000]

theorem dark_fresh : optimize linearSearch {} true 10 8 darkScores = some dark := by
  have e : darkScores.mapM blog16 = some ((darkScores.mapM blog16).getD []) := by decide +kernel
  have h : ((darkScores.mapM blog16).getD []).Pairwise (· ≤ ·) := by decide +kernel
  have e1 : centroids darkScores = some ((centroidsOf ((darkScores.mapM blog16).getD [])).getD []) := by
    rw [centroids_of e h]
    decide +kernel
  exact optimize_of (S := { dark with lastActive := 0 }) e1 (delta := [-9, -2, 10, 131, 203]) (by decide +kernel) (by decide) (by decide +kernel)

/-- **C68.** The thresholds are wrong if a delta does not fit in eight bits, since `update_threshold` casts it to `i8`: they do not fall, and the binary search ends at the last segment, with the
quantizer index 213, for a block with a scale of 1.2, above those of all but the first segment. -/
theorem threshold_wraps : ∃ S, Reach linearSearch 8 (fun _ => True) 10 S ∧ ¬ S.threshold.Pairwise (· ≥ ·) ∧ IsPoint S.threshold 20000 4 ∧ getQidx S 10 4 = 213 :=
  ⟨dark, .fresh (by norm_num) (by decide) (by decide) trivial dark_fresh, by decide, by decide, by decide⟩

end Rav1e.Seg

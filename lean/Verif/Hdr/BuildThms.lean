import Verif.Hdr.Ok
import Verif.Hdr.Build
import Verif.Sched.Theorems

/-!
# The headers of a frame the encoder builds satisfy what the writer relies on
-/

namespace Rav1e.Hdr
open Av1Spec

/-! ## Segmentation -/

def featRow (r : Bool × Int) : List Bool := r.1 :: List.replicate 7 false
def dataRow (r : Bool × Int) : List Int := r.2 :: List.replicate 7 0

/-- The segmentation states the encoder builds: only quantizer deltas. -/
structure SegWf (en : Bool) (g : Segm) : Prop where
  en : g.enabled = en
  rows : ∃ rows : List (Bool × Int), rows.length = 8 ∧ g.features = rows.map featRow ∧
    g.data = rows.map dataRow ∧ ∀ r ∈ rows, -254 ≤ r.2 ∧ r.2 ≤ 254

/-- `setSegm` on rows. -/
def updRows (base : Int) : List Nat → List (Bool × Int) → List (Bool × Int)
  | q :: qs, _ :: rows => (true, max (max (q : Int) 1 - base) (1 - base)) :: updRows base qs rows
  | _, rows => rows

theorem setSegm_rows (base : Int) : ∀ (qs : List Nat) (rows : List (Bool × Int)),
    setSegm base qs (rows.map featRow) (rows.map dataRow) =
      ((updRows base qs rows).map featRow, (updRows base qs rows).map dataRow)
  | [], rows => by cases rows <;> rfl
  | _ :: _, [] => rfl
  | q :: qs, r :: rows => by
    have ih := setSegm_rows base qs rows
    simp only [List.map_cons, setSegm, ih, updRows]
    rfl

theorem updRows_length (base : Int) : ∀ (qs : List Nat) (rows : List (Bool × Int)),
    (updRows base qs rows).length = rows.length
  | [], rows => by cases rows <;> rfl
  | _ :: _, [] => rfl
  | q :: qs, r :: rows => by simp [updRows, updRows_length base qs rows]

theorem updRows_lim {base : Int} (hb : 1 ≤ base ∧ base ≤ 255) : ∀ (qs : List Nat)
    (rows : List (Bool × Int)), (∀ q ∈ qs, q ≤ 255) → (∀ r ∈ rows, -254 ≤ r.2 ∧ r.2 ≤ 254) →
    ∀ r ∈ updRows base qs rows, -254 ≤ r.2 ∧ r.2 ≤ 254
  | [], rows, _, h => by cases rows <;> exact h
  | _ :: _, [], _, _ => by simp [updRows]
  | q :: qs, r :: rows, hq, h => by
    intro x hx
    unfold updRows at hx
    rcases List.mem_cons.1 hx with rfl | hx
    · have := hq q (by simp)
      dsimp only
      omega
    · exact updRows_lim hb qs rows (fun y hy => hq y (by simp [hy])) (fun y hy => h y (by simp [hy])) x hx

theorem segWf_default : SegWf false Segm.default :=
  ⟨rfl, List.replicate 8 (false, 0), by decide, by decide, by decide, by decide⟩

/-- Rows of the segmentation in force. -/
structure FrameSeg (e : Bool) (base primary : Nat) (refs : List Nat) (rec : List (Option RefFrame))
    (g : Segm) : Prop where
  wf : SegWf e g
  upd : e = true → primary = 7 → g.updateMap = true ∧ g.updateData = true
  lossy : ∃ i < 8, g.enabled = true → (g.features.getD i []).getD 0 false = true →
    0 < (base : Int) + (g.data.getD i []).getD 0 0
  kept : g.enabled = true → g.updateData = false → ∃ (i : Nat) (r : RefFrame),
    refs[primary]? = some i ∧ rec[i]? = some (some r) ∧ r.segm.spec = g.spec

theorem frameSegm_ok {e : Bool} {base primary : Nat} {refs : List Nat} {rec : List (Option RefFrame)}
    {qis : List Nat} {g : Segm} (hb : 1 ≤ base ∧ base ≤ 255) (hq : qis ≠ []) (hq' : ∀ q ∈ qis, q ≤ 255)
    (hrec : ∀ (i : Nat) (r : RefFrame), rec[i]? = some (some r) → SegWf e r.segm)
    (h : frameSegm e base primary refs rec qis = some g) : FrameSeg e base primary refs rec g := by
  unfold frameSegm at h
  cases e with
  | false =>
    rw [if_neg (by decide)] at h
    cases h
    exact ⟨segWf_default, fun h => by simp at h, ⟨0, by decide, fun h => by simp [Segm.default] at h⟩,
      fun h => by simp [Segm.default] at h⟩
  | true =>
    rw [if_pos rfl] at h
    dsimp only at h
    by_cases hp : primary = 7
    · rw [if_pos hp] at h
      have hi : initialSegm primary refs rec = Segm.default := by rw [initialSegm, if_pos hp]
      rw [hi] at h
      have e1 : Segm.default.features = (List.replicate 8 ((false, 0) : Bool × Int)).map featRow := by decide
      have e2 : Segm.default.data = (List.replicate 8 ((false, 0) : Bool × Int)).map dataRow := by decide
      rw [e1, e2, setSegm_rows] at h
      cases h
      refine ⟨⟨rfl, _, ?_, rfl, rfl, ?_⟩, fun _ _ => ⟨rfl, rfl⟩, ⟨0, by decide, fun _ _ => ?_⟩,
        fun _ h => by simp at h⟩
      · rw [updRows_length]; rfl
      · exact updRows_lim (by omega) qis _ hq' (by decide)
      · obtain ⟨q, qs, rfl⟩ := List.exists_cons_of_ne_nil hq
        simp only [List.replicate, updRows, List.map_cons, List.getD_cons_zero, dataRow]
        omega
    · rw [if_neg hp] at h
      split at h
      · rename_i hany
        cases h
        obtain ⟨⟨f, d⟩, hmem, hfd⟩ := List.any_eq_true.1 hany
        obtain ⟨i, hi, hie⟩ := List.getElem_of_mem hmem
        simp only [Bool.and_eq_true, decide_eq_true_eq] at hfd
        have hl : i < (initialSegm primary refs rec).features.length ∧
            i < (initialSegm primary refs rec).data.length := by
          rw [List.length_zip] at hi; omega
        rw [List.getElem_zip] at hie
        simp only [Prod.mk.injEq] at hie
        have hdef : ¬ initialSegm primary refs rec = Segm.default := by
          intro hd
          rw [hd] at hany
          revert hany
          have : ∀ b : Int, ((Segm.default.features.zip Segm.default.data).any fun x =>
              x.1.getD 0 false && decide (1 - b ≤ x.2.getD 0 0)) = false := by
            intro b; simp [Segm.default]
          rw [this]; simp
        have hx : ∃ (j : Nat) (r : RefFrame), refs[primary]? = some j ∧ rec[j]? = some (some r) ∧
            initialSegm primary refs rec = r.segm := by
          unfold initialSegm at hdef ⊢
          rw [if_neg hp] at hdef ⊢
          rcases hj : refs[primary]? with _ | j
          · rw [hj] at hdef; exact absurd rfl hdef
          · rw [hj] at hdef
            dsimp only at hdef ⊢
            rcases hr : rec[j]? with _ | _ | r
            · rw [hr] at hdef; exact absurd rfl hdef
            · rw [hr] at hdef; exact absurd rfl hdef
            · exact ⟨j, r, rfl, hr, rfl⟩
        obtain ⟨j, r, x1, x2, x3⟩ := hx
        have wf := hrec j r x2
        obtain ⟨rows, w1, w2, w3, w4⟩ := wf.rows
        have hi8 : i < 8 := by
          have := hl.1; rw [x3, w2, List.length_map, w1] at this; exact this
        refine ⟨⟨rfl, rows, w1, by rw [x3]; exact w2, by rw [x3]; exact w3, w4⟩, fun _ h => absurd h hp,
          ⟨i, hi8, fun _ _ => ?_⟩, fun _ _ => ⟨j, r, x1, x2, ?_⟩⟩
        · dsimp only
          have e : (initialSegm primary refs rec).data.getD i [] = d := by
            rw [List.getD, List.getElem?_eq_getElem hl.2, Option.getD_some, hie.2]
          rw [e]
          omega
        · have := wf.en
          simp only [Segm.spec, this, if_true, x3]
      · cases h

theorem mem_seg_zip {rows : List (Bool × Int)} {fd : List Bool × List Int}
    (h : fd ∈ (rows.map featRow).zip (rows.map dataRow)) :
    ∃ r ∈ rows, fd = (featRow r, dataRow r) := by
  rw [List.zip_map'] at h
  obtain ⟨r, hr, e⟩ := List.mem_map.1 h
  exact ⟨r, hr, e.symm⟩

theorem mem_feature_zip (r : Bool × Int) (x : (Nat × Bool) × Bool × Int)
    (h : x ∈ segFeature.zip ((featRow r).zip (dataRow r))) (hon : x.2.1 = true) :
    x = ((8, true), r) := by
  obtain ⟨b, v⟩ := r
  simp only [segFeature, featRow, dataRow, List.replicate, List.zip_cons_cons, List.zip_nil_right,
    List.mem_cons, List.not_mem_nil, or_false] at h
  rcases h with rfl | rfl | rfl | rfl | rfl | rfl | rfl | rfl
  · rfl
  all_goals simp at hon

/-! ## Restoration units -/

theorem trailing_even {n : Nat} (h : 0 < n) (he : n % 2 = 0) : 1 ≤ Sched.trailingZeros n := by
  unfold Sched.trailingZeros
  rw [dif_neg (by omega), if_neg (by omega)]
  omega

theorem min_pow (a b : Nat) : min (2 ^ a) (2 ^ b) = 2 ^ min a b := by
  rcases Nat.le_total a b with h | h
  · rw [Nat.min_eq_left h, Nat.min_eq_left (Nat.pow_le_pow_right (by decide) h)]
  · rw [Nat.min_eq_right h, Nat.min_eq_right (Nat.pow_le_pow_right (by decide) h)]

/-- The exponents of the unit sizes. -/
theorem lrUnits_ok (s : Seq) (w h q : Nat) (htw : 0 < s.tiling.tileWidthSb)
    (h422 : s.chroma = .cs422 → s.tiling.tileWidthSb % 2 = 0) :
    ∃ a b, lrUnits s w h q = (2 ^ a, 2 ^ b) ∧ 6 ≤ a ∧ a ≤ 8 ∧
      (b = a ∨ s.chroma = .cs420 ∧ b + 1 = a) := by
  unfold lrUnits
  dsimp only
  generalize hxd : s.chroma.xdec = xd
  generalize hyd : s.chroma.ydec = yd
  generalize Sched.trailingZeros s.tiling.tileHeightSb = tv
  generalize hth : Sched.trailingZeros s.tiling.tileWidthSb = th
  have hth' : s.chroma = .cs422 → 1 ≤ th := by
    intro hc; rw [← hth]; exact trailing_even htw (h422 hc)
  generalize hsh : (if s.restoration = true then _ else _ : Nat × Nat) = sh
  have hs : ∃ ys d, sh = (ys, ys + d) ∧ ys ≤ 2 ∧ d ≤ 1 ∧ (s.chroma ≠ .cs420 → d = 0) := by
    rw [← hsh]
    generalize hbase : (if 200 < q then 0 else if 160 < q then 1 else 2) = base
    have hb2 : base ≤ 2 := by rw [← hbase]; split <;> [omega; (split <;> omega)]
    have hdec : s.chroma ≠ .cs420 → decide (0 < xd ∧ 0 < yd) = false := by
      intro hc; cases hch : s.chroma <;> simp_all [Chroma.xdec, Chroma.ydec] <;> omega
    split
    · refine ⟨base, _, rfl, hb2, ?_, ?_⟩
      · split_ifs
        · omega
        · exact Bool.toNat_le _
        · omega
      · intro hc; rw [if_neg (by rw [hdec hc]; simp)]
    · refine ⟨2, _, rfl, le_refl _, Bool.toNat_le _, ?_⟩
      intro hc; rw [hdec hc]; rfl
  obtain ⟨ys, d, rfl, hys, hd, hd0⟩ := hs
  dsimp only
  simp only [min_pow]
  by_cases ht : 1 < s.tiling.cols ∨ 1 < s.tiling.rows
  · rw [if_pos ht]
    dsimp only
    cases hc : s.chroma with
    | cs420 =>
      rw [hc] at hxd hyd
      simp only [Chroma.xdec, Chroma.ydec] at hxd hyd
      subst hxd hyd
      rw [if_neg (by simp)]
      refine ⟨_, _, rfl, by omega, by omega, ?_⟩
      rw [hc] at hd0
      simp only [true_and]
      omega
    | cs422 =>
      have h1 := hth' hc
      have h2 := hd0 (by rw [hc]; simp)
      subst h2
      rw [hc] at hxd hyd
      simp only [Chroma.xdec, Chroma.ydec] at hxd hyd
      subst hxd hyd
      split
      · simp only [min_pow]
        exact ⟨_, _, rfl, by omega, by omega, .inl rfl⟩
      · rename_i hn
        have hn : 2 ^ min (8 - ys) (6 + min th tv) = 2 ^ min (8 - (ys + 0)) (min (6 - 1 + th) (6 - 0 + tv)) := by
          by_contra hne; exact hn ⟨rfl, hne⟩
        have := Nat.pow_right_injective (le_refl 2) hn
        exact ⟨_, _, rfl, by omega, by omega, .inl this.symm⟩
    | cs444 =>
      have h2 := hd0 (by rw [hc]; simp)
      subst h2
      rw [hc] at hxd hyd
      simp only [Chroma.xdec, Chroma.ydec] at hxd hyd
      subst hxd hyd
      have : min (8 - ys) (6 + min th tv) = min (8 - (ys + 0)) (min (6 - 0 + th) (6 - 0 + tv)) := by omega
      rw [if_neg (by rw [this]; simp)]
      exact ⟨_, _, rfl, by omega, by omega, .inl this.symm⟩
    | cs400 =>
      have h2 := hd0 (by rw [hc]; simp)
      subst h2
      rw [hc] at hxd hyd
      simp only [Chroma.xdec, Chroma.ydec] at hxd hyd
      subst hxd hyd
      have : min (8 - ys) (6 + min th tv) = min (8 - (ys + 0)) (min (6 - 0 + th) (6 - 0 + tv)) := by omega
      rw [if_neg (by rw [this]; simp)]
      exact ⟨_, _, rfl, by omega, by omega, .inl this.symm⟩
  · rw [if_neg ht]
    dsimp only
    by_cases hc : s.chroma = .cs420
    · rw [hc] at hxd hyd
      simp only [Chroma.xdec, Chroma.ydec] at hxd hyd
      subst hxd hyd
      rw [if_neg (by simp)]
      refine ⟨_, _, rfl, by omega, by omega, ?_⟩
      by_cases h0 : d = 0
      · exact .inl (by omega)
      · exact .inr ⟨hc, by omega⟩
    · have h2 := hd0 hc
      subst h2
      rw [if_neg (by simp)]
      exact ⟨_, _, rfl, by omega, by omega, .inl (by omega)⟩

/-! ## Configurations, scheduled frames, late decisions -/

/-- The configurations considered: what `EncoderConfig` can hold, `validate` accepts
(`api/config/mod.rs`) and the AV1 format can express. -/
structure EncOk (e : EncCfg) : Prop where
  size : Tile.Size e.width e.height
  render : 1 ≤ e.renderWidth ∧ e.renderWidth ≤ 65535 ∧ 1 ≤ e.renderHeight ∧ e.renderHeight ≤ 65535
  depth : e.bitDepth = 8 ∨ e.bitDepth = 10 ∨ e.bitDepth = 12
  level : ∀ l, e.levelIdx = some l → l ≤ 31
  pos : e.chromaPos < 4
  color : ∀ d, e.color = some d → d.primaries < 256 ∧ d.transfer < 256 ∧ d.matrix < 256
  /-- `validate`: sRGB needs full range and 4:4:4 unless monochrome -/
  srgb : ∀ d, e.color = some d → d.srgb = true → e.chroma ≠ .cs400 → e.fullRange = true ∧ e.chroma = .cs444
  time : e.timeNum < 2 ^ 32 ∧ e.timeDen < 2 ^ 32
  /-- `validate`: no timing information with still pictures -/
  timing : e.sched.stillPicture = true → e.enableTiming = false

theorem newSequence_tiling {e : EncCfg} {s : Seq} (h : newSequence e = some s) :
    Tile.sequenceTiling e.width e.height e.rateLog2 e.tileCols e.tileRows e.tiles
      (e.chroma == .cs422) = some s.tiling := by
  unfold newSequence at h
  split at h
  · cases h
  · split at h
    · cases h
    · rename_i h'
      dsimp only at h
      cases h
      exact h'

/-- The fields of the sequence that do not depend on the tiling. -/
theorem newSequence_eq {e : EncCfg} {s : Seq} (h : newSequence e = some s) :
    ∃ t, s = {
      profile := if e.bitDepth = 12 ∨ e.chroma = .cs422 then 2 else (e.chroma == .cs444).toNat
      bitDepth := e.bitDepth, chroma := e.chroma, chromaPos := e.chromaPos
      fullRange := e.fullRange, color := e.color, maxWidth := e.width, maxHeight := e.height
      frameIds := false, use128 := false, orderHintBitsM1 := 5
      forceSct := if e.sched.stillPicture then 2 else 0
      forceImv := 2, still := e.sched.stillPicture, reduced := e.sched.stillPicture
      filterIntra := false, intraEdge := true, interintra := false, masked := false
      dualFilter := false, orderHint := !e.sched.stillPicture, jntComp := false
      refFrameMvs := false, warped := false, superres := false
      cdef := e.cdef && decide (32 ≤ e.width ∧ 32 ≤ e.height)
      restoration := e.lrf && decide (32 ≤ e.width ∧ 32 ≤ e.height)
      opCntM1 := 0, opIdc := 0, decModel := false, levelIdx := e.levelIdx.getD 31, tier := 0
      filmGrain := e.filmGrain, timing := e.enableTiming, timeNum := e.timeNum
      timeDen := e.timeDen, tiling := t } := by
  unfold newSequence at h
  split at h
  · cases h
  · split at h
    · cases h
    · dsimp only at h
      cases h
      exact ⟨_, rfl⟩

theorem newSequence_seqOk {e : EncCfg} {s : Seq} (ok : EncOk e) (h : newSequence e = some s) :
    SeqOk s e.width e.height := by
  obtain ⟨t, rfl⟩ := newSequence_eq h
  refine ⟨ok.size.w1, ok.size.h1, ok.depth, ?_, ?_, ?_, ?_, ?_⟩
  · dsimp only
    split
    · rfl
    · cases e.chroma <;> rfl
  · dsimp only; split <;> omega
  · exact le_refl _
  · exact fun _ => ⟨rfl, rfl⟩
  · exact ok.timing

/-- **C18**, sequence headers: no configuration makes the writer fail. -/
theorem sequence_header_written {e : EncCfg} {s : Seq} (ok : EncOk e) (h : newSequence e = some s) :
    ∃ bits, writeSequenceHeaderObu s e.width e.height = some bits := by
  rw [← ok_iff]
  have hsz := ok.size
  obtain ⟨t, rfl⟩ := newSequence_eq h
  have hlev : e.levelIdx.getD 31 ≤ 31 := by
    cases hl : e.levelIdx with
    | none => exact le_refl _
    | some l => exact ok.level l hl
  have hmax := ok_maxFrameSize (w := e.width) (h := e.height) hsz.w1 (by have := hsz.w2; omega) hsz.h1
    (by have := hsz.h2; omega)
  unfold writeSequenceHeaderObu
  dsimp only
  oks
  refine ⟨fun h => h, ?_, hlev, ⟨fun hr => ⟨ok.timing hr, by omega⟩, fun hr => ⟨fun _ => ok.time,
    by omega, by omega, by omega, fun _ => by omega⟩⟩, ?_, ?_⟩
  · split
    · omega
    · cases e.chroma <;> decide
  · unfold writeSequenceHeader
    dsimp only
    oks
    refine ⟨hmax, fun hr => ?_, fun hr => ?_⟩
    · rw [hr]; simp
    · have hr : e.sched.stillPicture = false := by simpa using hr
      rw [hr]; simp
  · unfold writeColorConfig
    have hd := ok.depth
    have hpos := ok.pos
    have hcol := ok.color
    have hsr := ok.srgb
    dsimp only
    cases hco : e.color with
    | none =>
      cases hch : e.chroma <;> rcases hd with hd | hd | hd <;> rw [hd] <;>
        simp [ok_app, ok_nil, ok_bit, ok_lit, ok_assert, ok_ite, hpos]
    | some d =>
      obtain ⟨c1, c2, c3⟩ := hcol d hco
      have hsr := hsr d hco
      cases hs : d.srgb with
      | false =>
        cases hch : e.chroma <;> rcases hd with hd | hd | hd <;> rw [hd] <;>
          simp [ok_app, ok_nil, ok_bit, ok_lit, ok_assert, ok_ite, hpos, c1, c2, c3, hs]
      | true =>
        have hsr := hsr hs
        cases hch : e.chroma <;> rw [hch] at hsr <;> simp at hsr <;> rcases hd with hd | hd | hd <;> rw [hd] <;>
          simp [ok_app, ok_nil, ok_bit, ok_lit, ok_assert, ok_ite, hpos, c1, c2, c3, hs, hsr]

/-- What holds of every frame the scheduler builds. -/
structure XOk {M : Type} (c : Sched.Cfg) (x : Sched.FI M) : Prop where
  refs : x.refs.length = 7
  refs8 : ∀ r ∈ x.refs, r < 8
  slot : x.slot < 8
  key : x.ftype = .key → x.sef = false ∧ x.shown = true ∧ x.refresh = 255 ∧ x.primary = 7 ∧
    x.errorRes = false
  err : x.errorRes = true → x.primary = 7
  sw : x.ftype = .switch → x.errorRes = true ∧ x.refresh = 255
  prim : x.primary ≤ 7
  refresh : x.refresh < 256
  sel : x.refSelect = true → c.reorder = true

theorem xok_key {M : Type} (c : Sched.Cfg) (g : Nat) (t : List M) : XOk c (Sched.newKeyFrame g t) where
  refs := by simp [Sched.newKeyFrame]
  refs8 := by simp [Sched.newKeyFrame]
  slot := by simp [Sched.newKeyFrame]
  key := by simp [Sched.newKeyFrame]
  err := by simp [Sched.newKeyFrame]
  sw := by simp [Sched.newKeyFrame]
  prim := by simp [Sched.newKeyFrame]
  refresh := by simp [Sched.newKeyFrame]
  sel := by simp [Sched.newKeyFrame]

theorem posToLvl_le (p d : Nat) : Sched.posToLvl p d ≤ d := Nat.sub_le _ _

theorem xok_inter {M : Type} {c : Sched.Cfg} {prev x : Sched.FI M} {g o n : Nat} {t : List M}
    (h : Sched.newInterFrame c prev g o n t = some x) : XOk c x := by
  unfold Sched.newInterFrame at h
  dsimp only at h
  split at h
  · cases h
  have hpd : c.pd ≤ 2 := by unfold Sched.Cfg.pd; split <;> omega
  have hidx : c.idxInGroup o < c.gol := by
    unfold Sched.Cfg.idxInGroup
    refine Nat.mod_lt _ ?_
    unfold Sched.Cfg.gol Sched.Cfg.gil
    have : 0 < 1 <<< c.pd := by rw [Nat.one_shiftLeft]; exact Nat.two_pow_pos _
    omega
  have hlev : ∀ i, c.level i ≤ 2 := by
    intro i
    unfold Sched.Cfg.level
    split
    · omega
    · split
      · omega
      · exact (posToLvl_le _ _).trans hpd
  have hslot : ∀ l h, l ≤ 2 → c.slotIdx l h < 8 := by
    intro l h hl
    unfold Sched.Cfg.slotIdx
    split
    · have := Nat.and_le_right (n := h >>> c.pd) (m := 3); omega
    · omega
  have href : ∀ oh, Sched.refSlot c oh < 8 := by
    intro oh
    unfold Sched.refSlot
    dsimp only
    have := posToLvl_le oh c.pd
    split <;> omega
  generalize hl : c.level (c.idxInGroup o) = level at h
  have hl2 : level ≤ 2 := hl ▸ hlev _
  generalize hh : c.orderHint o (c.idxInGroup o) = hint at h
  have hs8 := hslot level hint hl2
  generalize c.slotIdx level hint = slot at h hs8
  have hrefs : (Sched.refFrames c (c.idxInGroup o) level slot hint).length = 7 ∧
      ∀ r ∈ Sched.refFrames c (c.idxInGroup o) level slot hint, r < 8 := by
    unfold Sched.refFrames
    dsimp only
    have hset : ∀ (l : List Nat) (i v : Nat), (∀ r ∈ l, r < 8) → v < 8 → ∀ r ∈ l.set i v, r < 8 := by
      intro l i v hl hv r hr
      rcases List.mem_or_eq_of_mem_set hr with h | h
      · exact hl r h
      · omega
    have hrep : ∀ v, v < 8 → ∀ r ∈ List.replicate 7 v, r < 8 := by
      intro v hv r hr
      rw [(List.mem_replicate.1 hr).2]; exact hv
    split
    · split
      · exact ⟨by simp, hset _ _ _ (hrep _ (by omega)) (by omega)⟩
      · exact ⟨by simp, hrep _ (by omega)⟩
    · exact ⟨by simp, hset _ _ _ (hset _ _ _ (hrep _ (href _)) (href _)) hs8⟩
  have hsh : 1 <<< slot < 256 := by
    rw [Nat.one_shiftLeft]
    exact Nat.lt_of_lt_of_le (Nat.pow_lt_pow_right (by decide) hs8) (by decide)
  cases h
  refine ⟨hrefs.1, hrefs.2, hs8, ?_, ?_, ?_, ?_, ?_, ?_⟩
  · intro hk
    dsimp only at hk
    split at hk <;> cases hk
  · intro he
    dsimp only at he ⊢
    rw [if_pos (.inl he)]
  · intro hsw
    dsimp only at hsw ⊢
    rw [hsw]
    exact ⟨rfl, rfl⟩
  · dsimp only; split_ifs <;> omega
  · dsimp only; split_ifs <;> first | omega | exact hsh
  · intro hr
    dsimp only at hr
    by_contra hn
    have hn : c.reorder = false := by simpa using hn
    have hg : c.gol = 1 := by
      unfold Sched.Cfg.gol Sched.Cfg.gil Sched.Cfg.pd; rw [hn]; rfl
    have h0 : c.idxInGroup o = 0 := by omega
    rw [h0] at hr
    simp at hr

/-- Film grain parameters the writer can write so that a decoder reads them back. -/
structure GrainGood (chroma : Chroma) (g : Grain) : Prop where
  fits : GrainFits g
  coeffs : ∀ x ∈ g.arY ++ g.arCb ++ g.arCr, -128 ≤ x ∧ x < 128
  chroma : chroma = .cs400 ∨ g.cfl = true ∨ chroma = .cs420 ∧ g.pointsY = [] →
    g.pointsCb = [] ∧ g.pointsCr = []

/-- The ranges of the late decisions. -/
structure LateOk (s : Seq) (l : Late) : Prop where
  ac : l.acQi.length = 3
  dc : l.dcQi.length = 3
  base : 1 ≤ l.acQi.getD 0 0 ∧ l.acQi.getD 0 0 ≤ 255
  near : ∀ q, (q ∈ l.dcQi.take 1 ∨ s.chroma ≠ .cs400 ∧ q ∈ l.dcQi ++ l.acQi) →
    l.acQi.getD 0 0 ≤ q + 63 ∧ q ≤ l.acQi.getD 0 0 + 63
  cdef : l.cdefY.1 ≤ 15 ∧ l.cdefY.2 ≤ 3 ∧ l.cdefUv.1 ≤ 15 ∧ l.cdefUv.2 ≤ 3
  levels : l.levels.length = 4 ∧ ∀ x ∈ l.levels, x < 64
  segs : l.segQis ≠ [] ∧ ∀ q ∈ l.segQis, q ≤ 255
  lr : ∀ i, l.lrTypes.getD i 0 < 4
  tile : l.ctxTileId < s.tiling.cols * s.tiling.rows
  bytes : 1 ≤ l.tileSizeBytes ∧ l.tileSizeBytes ≤ 4
  grain : ∀ g, l.grain = some g → GrainGood s.chroma g

/-! ## The frame -/

/-- The decoder has followed so far: its references are the encoder's. -/
structure Rel (e : EncCfg) (s : Seq) (rec : List (Option RefFrame)) (c : Ctx) : Prop where
  seq : c.seq = s.hdr e.width e.height
  len : rec.length = 8
  slots : ∀ i < 8, ∃ r : RefFrame, rec[i]? = some (some r) ∧ SegWf e.segmentation r.segm ∧
    c.slots i = some (r.slot s)

theorem sbs_eq {w : Nat} : Tile.alignShift w 6 = Tile.Spec.sbs w := by
  unfold Tile.alignShift Tile.Spec.sbs Tile.Spec.mi
  omega

/-- What `buildFi` gives, apart from the segmentation. -/
theorem buildFi_spec {M : Type} {e : EncCfg} {s : Seq} {x : Sched.FI M} {l : Late}
    {rec : List (Option RefFrame)} {fi : Fi} (ok : EncOk e) (hs : newSequence e = some s)
    (hrows : e.chroma = .cs422 → s.tiling.tileHeightSb ≤ Tile.Spec.maxTileHeightSb e.width e.height
      (min s.tiling.tileWidthSb (Tile.Spec.sbs e.width)))
    (xok : XOk e.sched x) (hsef : x.sef = false)
    (hstill : e.sched.stillPicture = true → x.ftype = .key) (lok : LateOk s l)
    (hlen : rec.length = 8)
    (hrec : ∀ (i : Nat) (r : RefFrame), rec[i]? = some (some r) → SegWf e.segmentation r.segm)
    (h : buildFi e s x l rec = some fi) :
    FrameOk fi ∧ Ok (writeFrameHeader fi) ∧ SegWf e.segmentation fi.segm ∧ fi.seq = s ∧
      fi.width = e.width ∧ fi.height = e.height ∧ fi.recFrames = rec ∧
      fi.frameType = ftype x.ftype := by
  have htile := newSequence_tiling hs
  have F := Tile.fromTargetTiles_facts ok.size (Tile.sequenceTiling_from htile).choose_spec.choose_spec
  obtain ⟨t, hse⟩ := newSequence_eq hs
  have hred : s.reduced = e.sched.stillPicture := by rw [hse]
  have hchr : s.chroma = e.chroma := by rw [hse]
  have hmw : s.maxWidth = e.width := by rw [hse]
  have hmh : s.maxHeight = e.height := by rw [hse]
  have h128 : s.use128 = false := by rw [hse]
  have hwarp : s.warped = false := by rw [hse]
  have hsct : s.forceSct = if e.sched.stillPicture then 2 else 0 := by rw [hse]
  have himv : s.forceImv = 2 := by rw [hse]
  have hids : s.frameIds = false := by rw [hse]
  have hmod : s.decModel = false := by rw [hse]
  have hsr : s.superres = false := by rw [hse]
  obtain ⟨ua, ub, hlr, ha1, ha2, hb⟩ := lrUnits_ok s e.width e.height l.lrQ F.tw
    (fun hc => F.even (by rw [← hchr, hc]; rfl))
  have hkey := xok.key
  have hxs : ∀ t : Sched.FrameType, (ftype t = .key ↔ t = .key) ∧ (ftype t = .switch ↔ t = .switch) ∧
      ftype t ≠ .intraOnly := by
    intro t; cases t <;> simp [ftype]
  clear hse
  unfold buildFi at h
  dsimp only at h
  rw [hlr] at h
  dsimp only at h
  rcases hg : frameSegm e.segmentation (l.acQi.getD 0 0) x.primary x.refs rec l.segQis with _ | g
  · rw [hg] at h; cases h
  rw [hg] at h
  dsimp only at h
  have G := frameSegm_ok lok.base lok.segs.1 lok.segs.2 hrec hg
  clear hg
  obtain ⟨rows, r1, r2, r3, r4⟩ := G.wf.rows
  have hbase := lok.base
  have hnear := lok.near
  generalize hbq : l.acQi.getD 0 0 = base at *
  have hover : (match x.ftype with
      | .key => decide (e.width ≠ s.maxWidth ∨ e.height ≠ s.maxHeight)
      | .switch => true
      | .inter => if s.reduced then false else
          if !x.errorRes && decide (e.renderWidth ≠ e.width ∨ e.renderHeight ≠ e.height) then true
          else decide (e.width ≠ s.maxWidth ∨ e.height ≠ s.maxHeight)) = true →
      x.ftype ≠ .key := by
    intro hm hk
    rw [hk] at hm
    simp [hmw, hmh] at hm
  simp only [Option.some.injEq] at h
  subst h
  refine ⟨?_, ?_, G.wf, rfl, rfl, rfl, rfl, rfl⟩
  · constructor
    · -- start
      constructor
      · dsimp only
        rw [decide_eq_true_iff]
        have := hxs x.ftype
        constructor
        · intro hk; exact .inl (this.1.2 hk)
        · rintro (hk | hk)
          · exact this.1.1 hk
          · exact absurd hk this.2.2
      · dsimp only
        rw [decide_eq_true_iff]
        rintro (hk | he)
        · exact (hkey hk).2.2.2.1
        · exact xok.err he
      · intro hsw
        have hsw := (hxs _).2.1.1 hsw
        dsimp only
        rw [hsw]
      · intro hr
        dsimp only at hr ⊢
        rw [hred] at hr
        rw [hstill hr]
        simp [hmw, hmh]
      · intro hk; exact (hkey ((hxs _).1.1 hk)).2.1
      · rfl
      · intro hk; exact (hkey ((hxs _).1.1 hk)).2.2.1
    · -- refs
      refine ⟨ok.size.w1, ok.size.h1, ok.render.1, ok.render.2.2.1, ?_, xok.refs, xok.refs8,
        fun _ => rfl, rfl⟩
      dsimp only
      intro hd
      simpa using hd
    · -- tile
      exact ⟨sbs_eq, sbs_eq, h128, ok.size, ⟨e.rateLog2, e.tileCols, e.tileRows, e.tiles, by rw [hchr]; exact htile⟩,
        fun hc => hrows (by rw [← hchr]; exact hc)⟩
    · -- segmentation
      refine ⟨?_, ?_, ?_, ?_, ?_⟩
      · dsimp only; rw [r2, List.length_map, r1]
      · dsimp only; rw [r3, List.length_map, r1]
      · dsimp only; rw [r2]
        intro f hf
        obtain ⟨r, _, rfl⟩ := List.mem_map.1 hf
        simp [featRow]
      · dsimp only; rw [r3]
        intro f hf
        obtain ⟨r, _, rfl⟩ := List.mem_map.1 hf
        simp [dataRow]
      · dsimp only; rw [r2, r3]
        intro fd hfd y hy hon _
        obtain ⟨r, hr, rfl⟩ := mem_seg_zip hfd
        have := mem_feature_zip r y hy hon
        subst this
        have := r4 r hr
        dsimp only
        norm_num
        omega
    · exact ⟨by dsimp only; omega, rfl, rfl⟩
    · exact G.lossy
    · -- restoration
      refine ⟨fun p0 p1 h0 h1 => ?_⟩
      simp only [List.getElem?_cons_zero, List.getElem?_cons_succ, Option.some.injEq] at h0 h1
      subst h0 h1
      dsimp only
      have hpow : ∀ k, 6 ≤ k → k ≤ 8 → 2 ^ k = 64 ∨ 2 ^ k = 128 ∨ 2 ^ k = 256 := by
        intro k h1 h2
        have : k = 6 ∨ k = 7 ∨ k = 8 := by omega
        rcases this with rfl | rfl | rfl <;> decide
      refine ⟨hpow ua ha1 ha2, ?_⟩
      rcases hb with rfl | ⟨hc, hb⟩
      · exact .inl rfl
      · refine .inr ⟨hc, ?_⟩
        rw [← hb, Nat.pow_succ, Nat.mul_div_cancel _ (by decide)]
    · -- modes
      refine ⟨fun hc => ?_, fun _ => rfl⟩
      dsimp only at hc ⊢
      unfold allowedRefs
      rw [if_pos (xok.sel hc)]
    · -- grain
      intro g' hg'
      have := lok.grain g' hg'
      exact ⟨this.coeffs, this.chroma⟩
    · -- visible
      dsimp only
      cases hr : s.reduced with
      | true => exact .inl (hkey (hstill (by rw [← hred]; exact hr))).2.1
      | false => exact .inr ⟨rfl, rfl⟩
    · exact G.kept
    · exact xok.prim
  · -- the writer does not fail
    have hps := ok.render
    have hw := ok.size
    refine ok_frameHeader _ ?_ ?_ ?_ lok.tile lok.bytes ?_ ?_ ?_ ?_ ?_
    · constructor
      · exact hsef
      · intro hr
        have hk := hstill (by rw [← hred]; exact hr)
        refine ⟨by dsimp only; rw [hk]; rfl, (hkey hk).2.1, ?_⟩
        dsimp only at hr ⊢
        rw [hr]; rfl
      · exact xok.err
      · intro hsw; exact xok.sw ((hxs _).2.1.1 hsw)
      · exact .inr rfl
      · exact himv
      · dsimp only
        by_cases hk : x.ftype = .key
        · simp [hk, ftype]
        · have : ftype x.ftype ≠ .key := fun h => hk ((hxs _).1.1 h)
          simp [hk, this]
      · exact hids
      · exact hmod
      · have := xok.prim; dsimp only; omega
      · intro hk
        have := hkey ((hxs _).1.1 hk)
        exact ⟨this.2.1, this.2.2.1⟩
      · dsimp only
        rw [decide_eq_true_iff]
        exact fun hk => (hxs _).1.2 hk
      · exact xok.refresh
    · refine ⟨hw.w1, ?_, hw.h1, ?_, ?_, ?_, hsr, xok.refs8, hlen, (by decide : (0:Nat) < 4), fun hr => hr, rfl⟩
      · have := hw.w2; dsimp only; omega
      · have := hw.h2; dsimp only; omega
      · dsimp only; omega
      · dsimp only; omega
    · exact ⟨sbs_eq, sbs_eq, h128, ok.size, ⟨e.rateLog2, e.tileCols, e.tileRows, e.tiles, by rw [hchr]; exact htile⟩,
        fun hc => hrows (by rw [← hchr]; exact hc)⟩
    · -- quantizer
      have hd : ∀ q, (q ∈ l.dcQi.take 1 ∨ s.chroma ≠ .cs400 ∧ q ∈ l.dcQi ++ l.acQi) →
          -63 ≤ asI8 ((q : Int) - base) ∧ asI8 ((q : Int) - base) ≤ 63 := by
        intro q hq
        have := hnear q hq
        unfold asI8
        omega
      refine ⟨by dsimp only; omega, ?_, ?_, ?_, ?_⟩
      · dsimp only; rw [List.length_map, lok.dc]
      · dsimp only; rw [List.length_map, lok.ac]
      · dsimp only
        rw [List.getElem?_map]
        have hac := lok.ac
        match e1 : l.acQi, hac with
        | [a0, a1, a2], _ =>
          rw [e1] at hbq
          have : a0 = base := hbq
          subst this
          simp [asI8]
      · dsimp only
        rw [← List.map_append, ← List.map_take]
        rintro d (hd' | ⟨hc, hd'⟩)
        · obtain ⟨q, hq, rfl⟩ := List.mem_map.1 hd'
          exact hd q (.inl hq)
        · obtain ⟨q, hq, rfl⟩ := List.mem_map.1 hd'
          exact hd q (.inr ⟨hc, hq⟩)
    · refine ⟨G.wf.en.symm, ?_, ?_⟩
      · intro he hp; exact G.upd (by rw [← G.wf.en]; exact he) hp
      · dsimp only; rw [r2, r3]
        intro fd hfd y hy hon
        obtain ⟨r, hr, rfl⟩ := mem_seg_zip hfd
        have := mem_feature_zip r y hy hon
        subst this
        have := r4 r hr
        exact ⟨rfl, by dsimp only; omega, by dsimp only; omega⟩
    · obtain ⟨c1, c2, c3, c4⟩ := lok.cdef
      refine ⟨rfl, rfl, lok.levels.1, lok.levels.2, (by decide : (0:Nat) < 8), by dsimp only; omega, rfl,
        ⟨_, rfl, by omega⟩, ⟨_, rfl, by omega⟩, ⟨_, _, _, rfl, lok.lr 0, lok.lr 1, lok.lr 2⟩⟩
    · refine ⟨rfl, ?_, xok.refs, xok.refs8, hlen⟩
      dsimp only
      unfold allowedRefs
      split
      · simp
      · split <;> decide
    · intro g' hg'; exact (lok.grain g' hg').fits

end Rav1e.Hdr

import Verif.Hdr.Theorems

/-!
# Headers: when the writers do not panic, section by section
-/

namespace Rav1e.Hdr
open Av1Spec

/-- The writer does not panic. -/
def Ok (w : W) : Prop := w.isSome = true

section
variable {α : Type}

theorem ok_iff {w : W} : Ok w ↔ ∃ bs, w = some bs := Option.isSome_iff_exists
theorem ok_app (a b : W) : Ok (a ⊹ b) ↔ Ok a ∧ Ok b := by
  rcases a with _ | a <;> rcases b with _ | b <;> simp [Ok, W.app]
theorem ok_nil : Ok W.nil ↔ True := by simp [Ok, W.nil]
theorem ok_bit (b : Bool) : Ok (bit b) ↔ True := by simp [Ok, bit]
theorem ok_lit (n v : Nat) : Ok (lit n v) ↔ v < 2 ^ n := by
  unfold Ok lit; split <;> simp [*]
theorem ok_slit (n : Nat) (v : Int) :
    Ok (slit n v) ↔ -(2 ^ (n - 1) : Int) ≤ v ∧ v < 2 ^ (n - 1) := by
  unfold Ok slit; split
  · simpa using by assumption
  · rename_i h; simpa using h
theorem ok_assert (c : Prop) [Decidable c] : Ok (assertW c) ↔ c := by
  unfold Ok assertW; split <;> simp [*]
theorem ok_quni (n v : Nat) : Ok (quni n v) ↔ True := by simp [Ok, quni]
theorem ok_none : Ok none ↔ False := by simp [Ok]
theorem ok_ite (c : Prop) [Decidable c] (a b : W) :
    Ok (if c then a else b) ↔ (c → Ok a) ∧ (¬ c → Ok b) := by
  split <;> simp [*]
theorem ok_forW (xs : List α) (g : α → W) : Ok (forW xs g) ↔ ∀ x ∈ xs, Ok (g x) := by
  induction xs with
  | nil => simp [forW, ok_nil]
  | cons x xs ih => simp [forW, ok_app, ih]
theorem ok_withAt (xs : List α) (i : Nat) (k : α → W) :
    Ok (withAt xs i k) ↔ ∃ x, xs[i]? = some x ∧ Ok (k x) := by
  unfold withAt; split <;> simp_all [ok_none]

end

/-- Split a writer into the conditions under which its pieces do not panic. -/
macro "oks" : tactic => `(tactic| simp only [ok_app, ok_nil, ok_bit, ok_lit, ok_slit, ok_assert,
  ok_quni, ok_ite, ok_forW, true_and, and_true, implies_true])

theorem log_lt {w : Nat} (h1 : 1 ≤ w) (h : w ≤ 65536) :
    logBase2 (w - 1) + 1 ≤ 16 ∧ w - 1 < 2 ^ (logBase2 (w - 1) + 1) := by
  unfold logBase2
  refine ⟨?_, Nat.lt_log2_self⟩
  by_cases h0 : w - 1 = 0
  · rw [h0]; decide
  · have : (w - 1).log2 < 16 := (Nat.log2_lt h0).2 (by omega)
    omega

theorem ok_maxFrameSize {w h : Nat} (w1 : 1 ≤ w) (w2 : w ≤ 65536) (h1 : 1 ≤ h) (h2 : h ≤ 65536) :
    Ok (writeMaxFrameSize w h) := by
  obtain ⟨a1, a2⟩ := log_lt w1 w2
  obtain ⟨b1, b2⟩ := log_lt h1 h2
  unfold writeMaxFrameSize
  dsimp only
  oks
  refine ⟨a1, b1, ?_, ?_, a2, b2⟩ <;> omega

structure StartFits (fi : Fi) : Prop where
  sef : fi.sef = false
  red : fi.seq.reduced = true → fi.frameType = .key ∧ fi.showFrame = true ∧ fi.showable = false
  err : fi.errRes = true → fi.primaryRef = 7
  sw : fi.frameType = .switch → fi.errRes = true ∧ fi.refresh = 255
  sct : fi.seq.forceSct = 2 ∨ fi.allowSct = fi.seq.forceSct
  imv2 : fi.seq.forceImv = 2
  imv : fi.forceImv = (decide (fi.frameType = .key) || fi.intraOnly).toNat
  ids : fi.seq.frameIds = false
  model : fi.seq.decModel = false
  prim : fi.primaryRef < 8
  key : fi.frameType = .key → fi.showFrame = true ∧ fi.refresh = 255
  intra : fi.intraOnly = true → fi.frameType = .key
  refresh : fi.refresh < 256

theorem ok_start (fi : Fi) (ok : StartFits fi) : Ok (writeFrameStart fi) := by
  unfold writeFrameStart
  dsimp only
  oks
  refine ⟨⟨fun h => ⟨ok.sef, ok.red h⟩, fun _ => ⟨ok.sef, ?_, ok.err, ?_⟩⟩, ?_, ?_, ok.imv, ok.ids,
    ?_, ?_, ok.model, ?_, ?_⟩
  · cases fi.frameType <;> decide
  · exact fun h => (ok.sw h).1
  · intro h; rcases ok.sct with h' | h'
    · exact absurd h' h
    · exact h'
  · exact fun _ h => absurd ok.imv2 h
  · intro _; exact Nat.mod_lt _ (Nat.two_pow_pos _)
  · exact fun _ => ok.prim
  · refine ⟨fun h => ok.key h, fun hk => ⟨fun h => (ok.sw h).2, fun _ => ⟨fun h => absurd (ok.intra h) hk, ok.refresh⟩⟩⟩
  · intro _ r _
    cases r with
    | none => dsimp only; oks; exact Nat.two_pow_pos _
    | some r => dsimp only; oks; exact Nat.mod_lt _ (Nat.two_pow_pos _)

structure RefsFits (fi : Fi) : Prop where
  w1 : 1 ≤ fi.width
  w2 : fi.width ≤ 65536
  h1 : 1 ≤ fi.height
  h2 : fi.height ≤ 65536
  rw : fi.renderWidth ≤ 65536
  rh : fi.renderHeight ≤ 65536
  superres : fi.seq.superres = false
  refs8 : ∀ r ∈ fi.refFrames, r < 8
  recs : fi.recFrames.length = 8
  filter : fi.filter < 4
  red : fi.seq.reduced = true → fi.disableEndUpdate = true
  cdf : fi.disableCdfUpdate = false

theorem ok_frameSize (fi : Fi) (ok : RefsFits fi) : Ok (writeFrameSize fi) := by
  obtain ⟨a1, a2⟩ := log_lt ok.w1 ok.w2
  obtain ⟨b1, b2⟩ := log_lt ok.h1 ok.h2
  unfold writeFrameSize
  dsimp only
  oks
  exact ⟨fun _ => ⟨a1, b1, a2, b2⟩, ok.superres⟩

theorem ok_renderSize (fi : Fi) (ok : RefsFits fi) : Ok (writeRenderSize fi) := by
  unfold writeRenderSize
  oks
  have := ok.rw
  have := ok.rh
  intro _; constructor <;> omega

theorem ok_withRefs (fi : Fi) (ok : RefsFits fi) : ∀ rs : List Nat, (∀ r ∈ rs, r < 8) →
    Ok (writeFrameSizeWithRefs fi rs)
  | [], _ => by
    unfold writeFrameSizeWithRefs
    exact (ok_app _ _).2 ⟨ok_frameSize fi ok, ok_renderSize fi ok⟩
  | r :: rs, h => by
    have ih := ok_withRefs fi ok rs fun x hx => h x (by simp [hx])
    unfold writeFrameSizeWithRefs
    rw [ok_withAt]
    have hr : r < fi.recFrames.length := by rw [ok.recs]; exact h r (by simp)
    refine ⟨_, List.getElem?_eq_getElem hr, ?_⟩
    split
    · oks; exact ⟨fun _ => ok.superres, fun _ => ih⟩
    · oks; exact ih

theorem ok_sizeRefs (fi : Fi) (ok : RefsFits fi) : Ok (writeSizeRefs fi) := by
  unfold writeSizeRefs
  dsimp only
  oks
  refine ⟨fun _ => ⟨ok_frameSize fi ok, ok_renderSize fi ok⟩, fun _ =>
    ⟨fun r hr => ok.refs8 r hr, ⟨fun _ => ok_withRefs fi ok _ ok.refs8,
      fun _ => ⟨ok_frameSize fi ok, ok_renderSize fi ok⟩⟩, fun _ => ok.filter⟩, ?_⟩
  intro h
  rw [ok.cdf] at h
  exact ok.red (by simpa using h)

structure QuantFits (fi : Fi) : Prop where
  base : 0 < fi.baseQ ∧ fi.baseQ < 256
  dc : fi.dcDelta.length = 3
  ac : fi.acDelta.length = 3
  ac0 : fi.acDelta[0]? = some 0
  lim : ∀ d, (d ∈ fi.dcDelta.take 1 ∨ fi.seq.chroma ≠ .cs400 ∧ d ∈ fi.dcDelta ++ fi.acDelta) →
    -63 ≤ d ∧ d ≤ 63

theorem ok_deltaQ {d : Int} (h : -63 ≤ d ∧ d ≤ 63) : Ok (writeDeltaQ d) := by
  unfold writeDeltaQ
  oks
  intro _
  refine ⟨h, ?_, ?_⟩ <;> norm_num <;> omega

theorem ok_quant (fi : Fi) (ok : QuantFits fi) : Ok (writeQuant fi) := by
  have hdc := ok.dc
  have hac := ok.ac
  have hl := ok.lim
  have h0 := ok.ac0
  unfold writeQuant
  match e1 : fi.dcDelta, hdc with
  | [d0, d1, d2], _ =>
    match e2 : fi.acDelta, hac with
    | [a0, a1, a2], _ =>
      rw [e1, e2] at hl
      rw [e2] at h0
      simp only [List.getElem?_cons_zero, Option.some.injEq] at h0
      simp only [withAt, List.getElem?_cons_zero, List.getElem?_cons_succ]
      oks
      refine ⟨ok.base.1, ok.base.2, ok_deltaQ (hl _ (by simp)), fun hc => ⟨h0,
        ok_deltaQ (hl _ (.inr ⟨hc, by simp⟩)), ok_deltaQ (hl _ (.inr ⟨hc, by simp⟩)), fun _ =>
        ⟨ok_deltaQ (hl _ (.inr ⟨hc, by simp⟩)), ok_deltaQ (hl _ (.inr ⟨hc, by simp⟩))⟩⟩⟩

structure SegFits (fi : Fi) : Prop where
  en : fi.enableSegm = fi.segm.enabled
  upd : fi.segm.enabled = true → fi.primaryRef = 7 → fi.segm.updateMap = true ∧ fi.segm.updateData = true
  val : ∀ fd ∈ fi.segm.features.zip fi.segm.data, ∀ x ∈ segFeature.zip (fd.1.zip fd.2),
    x.2.1 = true → x.1 = (8, true) ∧ -256 ≤ x.2.2 ∧ x.2.2 < 256

theorem ok_segm (fi : Fi) (ok : SegFits fi) : Ok (writeSegm fi) := by
  unfold writeSegm
  dsimp only
  oks
  refine ⟨ok.en, fun he => ⟨fun hp => ok.upd he hp, fun _ fd hfd => ?_⟩⟩
  obtain ⟨f, d⟩ := fd
  dsimp only
  intro x hx
  have hv := ok.val _ hfd x hx
  obtain ⟨⟨b, s⟩, on, v⟩ := x
  unfold writeSegFeature
  dsimp only at hv ⊢
  oks
  intro hon
  obtain ⟨e, h1, h2⟩ := hv hon
  cases e
  refine ⟨fun _ => ⟨?_, ?_⟩, fun h => absurd rfl h⟩ <;> norm_num <;> omega

structure FilterFits (fi : Fi) : Prop where
  noDeltaQ : fi.deltaQ = false
  noDeltas : fi.deblock.deltasEnabled = false
  levels : fi.deblock.levels.length = 4
  lim : ∀ l ∈ fi.deblock.levels, l < 64
  sharp : fi.deblock.sharpness < 8
  damp : 3 ≤ fi.cdefDamping ∧ fi.cdefDamping ≤ 6
  bits : fi.cdefBits = 0
  y : ∃ v, fi.cdefY[0]? = some v ∧ v < 64
  uv : ∃ v, fi.cdefUv[0]? = some v ∧ v < 64
  lr : ∃ p0 p1 p2 : LrPlane, fi.lr = [p0, p1, p2] ∧ p0.type < 4 ∧ p1.type < 4 ∧ p2.type < 4

theorem ok_filters (fi : Fi) (ok : FilterFits fi) :
    Ok (writeDeblockA fi) ∧ Ok (writeDeblockB fi) ∧ Ok (writeCdef fi) ∧ Ok (writeLrf fi) := by
  refine ⟨?_, ?_, ?_, ?_⟩
  · unfold writeDeblockA
    rw [ok.noDeltaQ]
    exact ok_nil.2 trivial
  · have hl := ok.levels
    have hm := ok.lim
    unfold writeDeblockB
    dsimp only
    match e : fi.deblock.levels, hl with
    | [l0, l1, l2, l3], _ =>
      rw [e] at hm
      simp only [withAt, List.getElem?_cons_zero, List.getElem?_cons_succ, ok.noDeltas]
      oks
      have h0 := hm l0 (by simp)
      have h1 := hm l1 (by simp)
      have h2 := hm l2 (by simp)
      have h3 := hm l3 (by simp)
      have h4 := ok.sharp
      refine ⟨h0, by omega, h1, by omega, fun _ => ⟨h2, by omega, h3, by omega⟩, by omega, ?_⟩
      intro h; exact absurd h (by decide)
  · obtain ⟨y, hy, hy'⟩ := ok.y
    obtain ⟨uv, hu, hu'⟩ := ok.uv
    have := ok.damp
    unfold writeCdef
    rw [ok.bits]
    oks
    intro _
    refine ⟨this.1, this.2, by omega, by omega, by omega, fun i hi => ?_⟩
    have hi : i = 0 := by simpa using hi
    subst hi
    simp only [withAt, hy, hu]
    oks
    exact ⟨hy', hu', by omega, fun _ => by omega⟩
  · obtain ⟨p0, p1, p2, e, h0, h1, h2⟩ := ok.lr
    unfold writeLrf
    rw [e]
    simp only [withAt, List.getElem?_cons_zero, List.getElem?_cons_succ]
    oks
    intro _
    have hb : ∀ b : Bool, b.toNat < 2 ^ 1 := by decide
    refine ⟨by omega, fun _ => ⟨by omega, by omega⟩, fun _ => ⟨fun _ => hb _, fun _ => hb _, fun _ => hb _⟩⟩

structure ModesFits (fi : Fi) : Prop where
  gm : fi.gmIdentity = true
  allowed : ∀ i ∈ fi.allowedRefs, i < 7
  refs : fi.refFrames.length = 7
  refs8 : ∀ r ∈ fi.refFrames, r < 8
  recs : fi.recFrames.length = 8

theorem skipScan_some (fi : Fi) (ok : ModesFits fi) : ∀ (is : List Nat) (acc : Option Nat × Option Nat),
    (∀ i ∈ is, i < 7) → ∃ r, skipScan fi is acc = some r
  | [], acc, _ => ⟨acc, rfl⟩
  | i :: is, (fwd, bwd), h => by
    have ih := fun acc => skipScan_some fi ok is acc fun x hx => h x (by simp [hx])
    have hi : i < fi.refFrames.length := by rw [ok.refs]; exact h i (by simp)
    have hr : fi.refFrames[i] < fi.recFrames.length := by
      rw [ok.recs]; exact ok.refs8 _ (List.getElem_mem hi)
    unfold skipScan
    rw [List.getElem?_eq_getElem hi]
    dsimp only
    rw [List.getElem?_eq_getElem hr]
    rcases fi.recFrames[fi.refFrames[i]] with _ | r
    · exact ih _
    · dsimp only
      split
      · exact ih _
      · split
        · exact ih _
        · exact ih _

theorem skipScan2_some (fi : Fi) (ok : ModesFits fi) (f : Nat) : ∀ (is : List Nat) (acc : Option Nat),
    (∀ i ∈ is, i < 7) → ∃ r, skipScan2 fi f is acc = some r
  | [], acc, _ => ⟨acc, rfl⟩
  | i :: is, acc, h => by
    have ih := fun acc => skipScan2_some fi ok f is acc fun x hx => h x (by simp [hx])
    have hi : i < fi.refFrames.length := by rw [ok.refs]; exact h i (by simp)
    have hr : fi.refFrames[i] < fi.recFrames.length := by
      rw [ok.recs]; exact ok.refs8 _ (List.getElem_mem hi)
    unfold skipScan2
    rw [List.getElem?_eq_getElem hi]
    dsimp only
    rw [List.getElem?_eq_getElem hr]
    rcases fi.recFrames[fi.refFrames[i]] with _ | r
    · exact ih _
    · exact ih _

theorem ok_modes (fi : Fi) (ok : ModesFits fi) : Ok (writeModes fi) := by
  unfold writeModes
  dsimp only
  oks
  refine ⟨?_, fun _ => ok.gm⟩
  have : ∃ b, skipModeAllowed fi (!fi.intraOnly && fi.compound) = some b := by
    unfold skipModeAllowed
    split
    · exact ⟨_, rfl⟩
    · obtain ⟨⟨f, b⟩, hr⟩ := skipScan_some fi ok fi.allowedRefs (none, none) ok.allowed
      rw [hr]
      rcases f with _ | f
      · exact ⟨_, rfl⟩
      · rcases b with _ | b
        · obtain ⟨r, hr⟩ := skipScan2_some fi ok f fi.allowedRefs none ok.allowed
          simp only [hr]
          exact ⟨_, rfl⟩
        · exact ⟨_, rfl⟩
  obtain ⟨b, hb⟩ := this
  rw [hb]
  cases b
  · exact ok_nil.2 trivial
  · exact (ok_bit _).2 trivial

/-- The ranges of the fields of `GrainTableSegment` that a film grain table or the test vectors
keep to (`av1-grain`). -/
structure GrainFits (g : Grain) : Prop where
  seed : g.seed < 2 ^ 16
  y : g.pointsY.length < 16
  cb : g.pointsCb.length < 16
  cr : g.pointsCr.length < 16
  points : ∀ p ∈ g.pointsY ++ g.pointsCb ++ g.pointsCr, p.1 < 256 ∧ p.2 < 256
  scaling : 8 ≤ g.scalingShift ∧ g.scalingShift < 12
  lag : g.arLag < 4
  arY : g.arY.length = 24
  arCb : g.arCb.length = 25
  arCr : g.arCr.length = 25
  arShift : 6 ≤ g.arShift ∧ g.arShift < 10
  scale : g.scaleShift < 4
  mults : g.cbMult < 256 ∧ g.cbLumaMult < 256 ∧ g.cbOffset < 512 ∧
    g.crMult < 256 ∧ g.crLumaMult < 256 ∧ g.crOffset < 512

theorem ok_coeffs (xs : List Int) (n : Nat) (h : n ≤ xs.length) :
    Ok (forW (List.range n) fun i => withAt xs i fun x => lit 8 ((x + 128) % 256).toNat) := by
  oks
  intro i hi
  have hi : i < n := by simpa using hi
  rw [ok_withAt]
  refine ⟨_, List.getElem?_eq_getElem (by omega), ?_⟩
  oks
  omega

theorem ok_points (xs : List (Nat × Nat)) (h : ∀ p ∈ xs, p.1 < 256 ∧ p.2 < 256) :
    Ok (forW xs fun p => lit 8 p.1 ⊹ lit 8 p.2) := by
  oks
  exact h

theorem ok_grain (fi : Fi) (g : Grain) (ok : GrainFits g) : Ok (writeGrain fi g) := by
  have h1 := ok.seed
  have h2 := ok.y
  have h3 := ok.cb
  have h4 := ok.cr
  have h5 := ok.scaling
  have h6 := ok.lag
  have h7 := ok.arShift
  have h8 := ok.scale
  obtain ⟨m1, m2, m3, m4, m5, m6⟩ := ok.mults
  have hp := ok.points
  have hy := ok_points g.pointsY fun p hq => hp p (by simp [hq])
  have hcb := ok_points g.pointsCb fun p hq => hp p (by simp [hq])
  have hcr := ok_points g.pointsCr fun p hq => hp p (by simp [hq])
  have hn : 2 * g.arLag * (g.arLag + 1) ≤ 24 := by
    have : g.arLag = 0 ∨ g.arLag = 1 ∨ g.arLag = 2 ∨ g.arLag = 3 := by omega
    rcases this with e | e | e | e <;> rw [e] <;> decide
  have hn' : (if g.pointsY ≠ [] then 2 * g.arLag * (g.arLag + 1) + 1 else 2 * g.arLag * (g.arLag + 1)) ≤ 25 := by
    split <;> omega
  have c1 := ok_coeffs g.arY _ (hn.trans (le_of_eq ok.arY.symm))
  have c2 := ok_coeffs g.arCb _ (hn'.trans (le_of_eq ok.arCb.symm))
  have c3 := ok_coeffs g.arCr _ (hn'.trans (le_of_eq ok.arCr.symm))
  unfold writeGrain
  dsimp only
  generalize 2 * g.arLag * (g.arLag + 1) = n at *
  simp only [ok_app, ok_nil, ok_bit, ok_lit, ok_assert, ok_ite, true_and, and_true, implies_true]
  refine ⟨h1, by omega, hy, fun _ => ⟨by omega, hcb, by omega, hcr⟩, h5.1, by omega, by omega,
    fun _ => c1, fun _ => c2, fun _ => c3, h7.1, by omega, by omega, fun _ => ⟨by omega, by omega, by omega⟩,
    fun _ => ⟨by omega, by omega, by omega⟩⟩

theorem ok_grainOpt (fi : Fi) (h : ∀ g, fi.grain = some g → GrainFits g) : Ok (writeGrainOpt fi) := by
  unfold writeGrainOpt
  split
  · rcases e : fi.grain with _ | g
    · exact (ok_bit _).2 trivial
    · exact ok_grain fi g (h g e)
  · exact ok_nil.2 trivial

theorem ok_tileSizes {limit size total : Nat} (hs : 0 < size) : ∀ (n sofar : Nat),
    (0 < n → sofar + (n - 1) * size < total) → Ok (writeTileSizes limit size total n sofar)
  | 0, _, _ => ok_nil.2 trivial
  | n + 1, sofar, h => by
    have h := h (by omega)
    simp only [Nat.add_sub_cancel] at h
    unfold writeTileSizes
    dsimp only
    have hp : sofar < total := by
      have := Nat.zero_le (n * size); omega
    oks
    refine ⟨by omega, ok_tileSizes hs n _ fun hn => ?_⟩
    obtain ⟨m, rfl⟩ : ∃ m, n = m + 1 := ⟨n - 1, by omega⟩
    simp only [Nat.add_sub_cancel]
    rw [Nat.succ_mul] at h
    omega

theorem ok_tileInfo (fi : Fi) (ok : TileOk fi)
    (hid : fi.ctxTileId < fi.seq.tiling.cols * fi.seq.tiling.rows)
    (hb : 1 ≤ fi.tileSizeBytes ∧ fi.tileSizeBytes ≤ 4) : Ok (writeTileInfo fi) := by
  obtain ⟨rate, tc, tr, tiles, ht⟩ := ok.tiling
  obtain ⟨c, r, hb'⟩ := Tile.sequenceTiling_from ht
  have F := Tile.fromTargetTiles_facts ok.size hb'
  unfold writeTileInfo
  generalize fi.seq.tiling = ti at *
  have hsw := Tile.sbs_pos ok.size.w1
  have hsh := Tile.sbs_pos ok.size.h1
  obtain ⟨bc1, bc2⟩ := ceil_bounds F.tw hsw
  obtain ⟨br1, br2⟩ := ceil_bounds F.thp hsh
  rw [← F.cols] at bc1 bc2
  rw [← F.rows] at br1 br2
  have hcp : 0 < ti.cols := by
    rcases Nat.eq_zero_or_pos ti.cols with h0 | h0
    · rw [h0] at bc1; omega
    · exact h0
  have htw := F.tw
  dsimp only
  oks
  rw [ok.sbw, ok.sbh]
  refine ⟨⟨fun _ => ⟨by rw [F.minC]; exact F.c1, by rw [F.minR]; exact F.r1⟩, fun _ =>
    ⟨?_, ok_tileSizes F.tw _ _ bc2, ok_tileSizes F.thp _ _ br2⟩⟩, fun _ => ⟨?_, hb.1, by omega⟩⟩
  · rw [widest_first _ hcp]; omega
  · refine Nat.lt_of_lt_of_le hid ?_
    rw [Nat.pow_add]
    exact Nat.mul_le_mul F.c3 F.r3

/-- A frame header is written when every part fits. -/
theorem ok_frameHeader (fi : Fi) (h1 : StartFits fi) (h2 : RefsFits fi) (h3 : TileOk fi)
    (hid : fi.ctxTileId < fi.seq.tiling.cols * fi.seq.tiling.rows)
    (hb : 1 ≤ fi.tileSizeBytes ∧ fi.tileSizeBytes ≤ 4) (h4 : QuantFits fi) (h5 : SegFits fi)
    (h6 : FilterFits fi) (h7 : ModesFits fi) (h8 : ∀ g, fi.grain = some g → GrainFits g) :
    Ok (writeFrameHeader fi) := by
  obtain ⟨f1, f2, f3, f4⟩ := ok_filters fi h6
  unfold writeFrameHeader
  oks
  exact ⟨ok_start fi h1, ok_sizeRefs fi h2, ok_tileInfo fi h3 hid hb, ok_quant fi h4, ok_segm fi h5,
    f1, f2, f3, f4, ok_modes fi h7, ok_grainOpt fi h8⟩

end Rav1e.Hdr

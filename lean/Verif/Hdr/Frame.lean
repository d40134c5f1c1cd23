import Verif.Hdr.Seq

/-!
# Frame header: what is written is what a decoder reads (C14), section by section
-/

namespace Rav1e.Hdr
open Av1Spec

/-- The decoder's name of a frame type. -/
def FrameType.spec : FrameType → FType
  | .key => .key
  | .inter => .inter
  | .intraOnly => .intraOnly
  | .switch => .switch

/-- The features a decoder applies: nothing unless segmentation is enabled, and no value for a
disabled feature. -/
def Segm.spec (s : Segm) : SegData :=
  if s.enabled then
    ⟨s.features, s.features.zipWith (fun f d => f.zipWith (fun on v => if on then v else 0) d) s.data⟩
  else SegData.cleared

/-- What a decoder keeps of a reference frame.  The loop filter deltas it keeps are the defaults of
the specification, which are not those of the encoder's `DeblockState`; as the encoder never enables
them, they never change. -/
def RefFrame.slot (s : Seq) (r : RefFrame) : Slot where
  orderHint := if s.orderHint then r.orderHint % 2 ^ (s.orderHintBitsM1 + 1) else 0
  width := r.width
  height := r.height
  renderWidth := r.renderWidth
  renderHeight := r.renderHeight
  refDeltas := defaultRefDeltas
  modeDeltas := defaultModeDeltas
  seg := r.segm.spec

/-- The decoder has the sequence header and, except before a key frame, the references the
encoder has. -/
structure Agrees (fi : Fi) (c : Ctx) : Prop where
  seq : c.seq = fi.seq.hdr fi.width fi.height
  len : fi.frameType ≠ .key → fi.recFrames.length = 8
  slots : fi.frameType ≠ .key → ∀ i < 8, ∃ r : RefFrame,
    fi.recFrames[i]? = some (some r) ∧ c.slots i = some (r.slot fi.seq)

/-- The expected first part. -/
def Fi.start (fi : Fi) : Start where
  type := fi.frameType.spec
  showFrame := fi.showFrame
  showable := if fi.seq.reduced then false
    else if fi.showFrame then decide (fi.frameType ≠ .key) else fi.showable
  errRes := if fi.frameType = .key then true else fi.errRes
  disableCdfUpdate := fi.disableCdfUpdate
  allowSct := decide (0 < fi.allowSct)
  forceImv := fi.intraOnly
  sizeOverride := fi.sizeOverride
  orderHint := if fi.seq.orderHint then fi.orderHint % 2 ^ (fi.seq.orderHintBitsM1 + 1) else 0
  primaryRef := fi.primaryRef
  refresh := fi.refresh

/-- The relations between fields that `FrameInvariants::new`, `new_key_frame` and
`new_inter_frame` establish and no `assert!` of the writer checks: first part. -/
structure StartOk (fi : Fi) : Prop where
  intra : fi.intraOnly = true ↔ fi.frameType = .key ∨ fi.frameType = .intraOnly
  prim : fi.intraOnly = true ∨ fi.errRes = true → fi.primaryRef = 7
  swOver : fi.frameType = .switch → fi.sizeOverride = true
  redOver : fi.seq.reduced = true → fi.sizeOverride = false
  keyShown : fi.frameType = .key → fi.showFrame = true
  /-- `encoder.rs:885, 981` -/
  imv : fi.forceImv = fi.intraOnly.toNat
  keyRefresh : fi.frameType = .key → fi.refresh = 255

theorem spec_intra (fi : Fi) (ok : StartOk fi) : fi.frameType.spec.intra = fi.intraOnly := by
  have h := ok.intra
  cases ht : fi.frameType <;> cases hi : fi.intraOnly <;> simp_all [FrameType.spec, FType.intra]

theorem ofCode_code (t : FrameType) : FType.ofCode t.code = t.spec := by cases t <;> rfl

theorem spec_key (t : FrameType) : (t.spec = .key) = (t = .key) := by
  cases t <;> simp [FrameType.spec]

theorem spec_switch (t : FrameType) : (t.spec = .switch) = (t = .switch) := by
  cases t <;> simp [FrameType.spec]

theorem spec_inter (t : FrameType) : (t.spec = .inter) = (t = .inter) := by
  cases t <;> simp [FrameType.spec]

/-- The type and visibility bits after `show_existing_frame`. -/
def kindBits (fi : Fi) : W :=
  if fi.seq.reduced then
    assertW (fi.frameType = .key) ⊹ assertW (fi.showFrame = true) ⊹ assertW (fi.showable = false)
  else
    lit 2 fi.frameType.code ⊹ bit fi.showFrame ⊹
    (if fi.showFrame then W.nil else bit fi.showable) ⊹
    (if fi.errRes then assertW (fi.primaryRef = primaryNone) else W.nil) ⊹
    (if fi.frameType = .switch then assertW (fi.errRes = true)
     else if fi.frameType = .key ∧ fi.showFrame then W.nil else bit fi.errRes)

/-- `kindBits` for a frame: a key frame is shown, otherwise a later assertion fails. -/
theorem codes_kind (fi : Fi) (hk : fi.frameType = .key → fi.showFrame = true) {w h : Nat} :
    Codes (kindBits fi) (frameKind (fi.seq.hdr w h))
      (fi.frameType.spec, fi.showFrame, fi.start.showable, fi.start.errRes) := by
  unfold kindBits frameKind
  refine Codes.ite (by rfl) (fun hr => ?_) (fun hr => ?_)
  · rw [← app_nil (assertW (fi.showable = false))]
    refine Codes.assert fun h1 => Codes.assert fun h2 => Codes.assert fun h3 => ?_
    simp only [Fi.start, hr, h1, h2, if_true, FrameType.spec]
    exact Codes.pure _
  · refine Codes.bind (codes_lit _ _) (Codes.bind (codes_bit _) ?_)
    rw [ofCode_code]
    refine Codes.bind (a := fi.start.showable) ?_ ?_
    · cases hs : fi.showFrame with
      | true =>
        simp only [Fi.start, hr, hs, if_true, if_false, Bool.not_true, opt_false, ne_eq, spec_key,
          Bool.false_eq_true]
        exact Codes.pure _
      | false =>
        simp only [Fi.start, hr, hs, if_false, Bool.not_false, opt_true, Bool.false_eq_true]
        exact codes_bit _
    · have he : ∀ w : W, Codes w
          (Parser.opt (!(decide (fi.frameType.spec = .switch) ||
            (decide (fi.frameType.spec = .key) && fi.showFrame))) Parser.flag true >>= fun err =>
            (pure (fi.frameType.spec, fi.showFrame, fi.start.showable, err) : Parser _))
          (fi.frameType.spec, fi.showFrame, fi.start.showable, fi.start.errRes) →
        Codes ((if fi.errRes then assertW (fi.primaryRef = primaryNone) else W.nil) ⊹ w)
          (Parser.opt (!(decide (fi.frameType.spec = .switch) ||
            (decide (fi.frameType.spec = .key) && fi.showFrame))) Parser.flag true >>= fun err =>
            (pure (fi.frameType.spec, fi.showFrame, fi.start.showable, err) : Parser _))
          (fi.frameType.spec, fi.showFrame, fi.start.showable, fi.start.errRes) := by
        intro w hw
        split
        · exact Codes.assert fun _ => hw
        · rwa [nil_app]
      refine he _ ?_
      simp only [spec_switch, spec_key]
      by_cases h1 : fi.frameType = .switch
      · simp only [h1, if_true, decide_true, Bool.true_or, Bool.not_true, opt_false]
        rw [← app_nil (assertW _)]
        refine Codes.assert fun h2 => ?_
        have : fi.start.errRes = true := by simp [Fi.start, h1, h2]
        rw [this]
        exact Codes.pure _
      · by_cases h2 : fi.frameType = .key
        · have h3 := hk h2
          have : fi.start.errRes = true := by simp [Fi.start, h2]
          simp only [h2, h3, this, reduceCtorEq, if_false, if_true, and_self, decide_true, decide_false,
            Bool.and_self, Bool.or_true, Bool.not_true, opt_false]
          exact Codes.pure _
        · have : fi.start.errRes = fi.errRes := by simp [Fi.start, h2]
          simp only [h1, h2, if_false, false_and, decide_false, Bool.false_and, Bool.or_false,
            Bool.not_false, opt_true, this]
          exact Codes.last (codes_bit _)

/-- The rest of `writeFrameStart`. -/
def startBits (fi : Fi) : W :=
  let s := fi.seq
  bit fi.disableCdfUpdate ⊹
  (if s.forceSct = 2 then bit (fi.allowSct != 0) else assertW (fi.allowSct = s.forceSct)) ⊹
  (if 0 < fi.allowSct then
    (if s.forceImv = 2 then bit (fi.forceImv != 0) else assertW (fi.forceImv = s.forceImv))
   else W.nil) ⊹
  assertW (fi.forceImv = (decide (fi.frameType = .key) || fi.intraOnly).toNat) ⊹
  assertW (s.frameIds = false) ⊹
  (if fi.frameType ≠ .switch ∧ s.reduced = false then bit fi.sizeOverride else W.nil) ⊹
  (if s.orderHint then lit (s.orderHintBitsM1 + 1) (fi.orderHint % 2 ^ (s.orderHintBitsM1 + 1))
   else W.nil) ⊹
  (if !fi.errRes && !fi.intraOnly then lit 3 fi.primaryRef else W.nil) ⊹
  assertW (s.decModel = false) ⊹
  (if fi.frameType = .key then
    assertW (fi.showFrame = true) ⊹ assertW (fi.refresh = allRefs)
   else if fi.frameType = .switch then assertW (fi.refresh = allRefs)
   else assertW (fi.intraOnly = true → fi.refresh ≠ allRefs) ⊹ lit 8 fi.refresh) ⊹
  (if (!fi.intraOnly || fi.refresh != allRefs) && (fi.errRes && s.orderHint) then
    forW fi.recFrames fun r => match r with
      | some rec => lit (s.orderHintBitsM1 + 1) (rec.orderHint % 2 ^ (s.orderHintBitsM1 + 1))
      | none => lit (s.orderHintBitsM1 + 1) 0
   else W.nil)

theorem writeFrameStart_eq (fi : Fi) :
    writeFrameStart fi = (assertW (fi.sef = false) ⊹ (if fi.seq.reduced then W.nil else bit fi.sef) ⊹
      kindBits fi ⊹ startBits fi) := by
  unfold writeFrameStart kindBits startBits
  cases hr : fi.seq.reduced <;>
    simp only [hr, if_true, if_false, Bool.false_eq_true, app_assoc, nil_app] <;> rfl

/-- The order hint, absent without order hints. -/
theorem codes_hint (s : Seq) (w h v : Nat) :
    Codes (if s.orderHint then lit (s.orderHintBitsM1 + 1) (v % 2 ^ (s.orderHintBitsM1 + 1)) else W.nil)
      (Parser.f (s.hdr w h).orderHintBits)
      (if s.orderHint then v % 2 ^ (s.orderHintBitsM1 + 1) else 0) := by
  cases ho : s.orderHint with
  | true =>
    have : (s.hdr w h).orderHintBits = s.orderHintBitsM1 + 1 := by simp [Seq.hdr, ho]
    rw [this]
    simp only [if_true]
    exact codes_lit _ _
  | false =>
    have : (s.hdr w h).orderHintBits = 0 := by simp [Seq.hdr, ho]
    rw [this]
    exact codes_lit 0 0

/-- Flags that neither side codes. -/
theorem Codes.skip {α β : Type} {w : W} {p : Parser α} {d : α} {k : α → Parser β} {b : β}
    (h : Codes w (k d) b) : Codes (W.nil ⊹ w) (Parser.opt false p d >>= k) b := by
  rw [nil_app]; exact h

/-- The eight reference order hints of an error resilient frame. -/
theorem codes_refHints (fi : Fi) (c : Ctx) (ag : Agrees fi c) (hi : fi.frameType ≠ .key)
    (ho : fi.seq.orderHint = true) :
    Codes
      (forW fi.recFrames fun r => match r with
        | some rec => lit (fi.seq.orderHintBitsM1 + 1) (rec.orderHint % 2 ^ (fi.seq.orderHintBitsM1 + 1))
        | none => lit (fi.seq.orderHintBitsM1 + 1) 0)
      (Parser.each (fun i => do
        let h ← Parser.f c.seq.orderHintBits
        let slot ← c.slot i
        Parser.rejectIf (decide (h ≠ slot.orderHint))) (List.range 8))
      (fi.recFrames.map fun _ => ()) := by
  have hb : c.seq.orderHintBits = fi.seq.orderHintBitsM1 + 1 := by
    rw [ag.seq]; simp [Seq.hdr, ho]
  refine codes_each ?_
  refine forall₂_of_get (by simp [ag.len hi]) fun i x y h1 h2 => ?_
  have hi8 : i < 8 := by
    have := (List.getElem?_eq_some_iff.1 h2).1
    simpa using this
  have hy : y = i := by
    rw [List.getElem?_range hi8] at h2
    exact (Option.some.inj h2).symm
  obtain ⟨r, hr, hs⟩ := ag.slots hi i hi8
  have hx : x = some r := by rw [hr] at h1; exact (Option.some.inj h1).symm
  subst hx hy
  rw [hb]
  dsimp only
  rw [← app_nil (lit _ _)]
  refine Codes.bind (codes_lit _ _) ?_
  unfold Ctx.slot
  rw [hs]
  refine Codes.pure_bind ?_
  simp only [RefFrame.slot, ho, if_true, ne_eq, not_true_eq_false, decide_false]
  exact Codes.pure _

theorem codes_start (fi : Fi) (c : Ctx) (ok : StartOk fi) (ag : Agrees fi c) :
    Codes (kindBits fi ⊹ startBits fi) (frameStart c) fi.start := by
  have hint := spec_intra fi ok
  have hseq := ag.seq
  unfold frameStart startBits
  rw [hseq]
  refine Codes.bind (codes_kind fi ok.keyShown) ?_
  dsimp only
  refine Codes.bind (codes_bit _) ?_
  -- screen content tools
  refine Codes.bind (a := if fi.seq.forceSct = 2 then (fi.allowSct != 0).toNat else fi.allowSct) ?_ ?_
  · show Codes _ (Parser.opt (decide (fi.seq.forceSct = 2)) (Parser.f 1) fi.seq.forceSct) _
    by_cases h2 : fi.seq.forceSct = 2
    · simp only [h2, if_true, decide_true, opt_true]; exact codes_bit_f _
    · simp only [h2, if_false, decide_false, opt_false]
      rw [← app_nil (assertW _)]
      refine Codes.assert fun h => ?_
      rw [h]; exact Codes.pure _
  generalize hsct : (if fi.seq.forceSct = 2 then (fi.allowSct != 0).toNat else fi.allowSct) = sct
  have hpos : (0 < sct) = (0 < fi.allowSct) := by
    rw [← hsct]
    split
    · by_cases h0 : fi.allowSct = 0
      · simp [h0]
      · have : (fi.allowSct != 0) = true := by simp [h0]
        rw [this]; simp; omega
    · rfl
  -- integer motion vectors
  refine Codes.bind (a := if 0 < fi.allowSct then
    (if fi.seq.forceImv = 2 then (fi.forceImv != 0).toNat else fi.forceImv) else 0) ?_ ?_
  · show Codes _ (Parser.opt (decide (0 < sct)) (Parser.opt (decide (fi.seq.forceImv = 2)) (Parser.f 1)
      fi.seq.forceImv) 0) _
    simp only [hpos]
    by_cases h0 : 0 < fi.allowSct
    · simp only [h0, if_true, decide_true, opt_true]
      by_cases h2 : fi.seq.forceImv = 2
      · simp only [h2, if_true, decide_true, opt_true]; exact codes_bit_f _
      · simp only [h2, if_false, decide_false, opt_false]
        rw [← app_nil (assertW _)]
        refine Codes.assert fun h => ?_
        rw [h]; exact Codes.pure _
    · simp only [h0, if_false, decide_false, opt_false]; exact Codes.pure _
  refine Codes.assert fun himv => Codes.assert fun _ => ?_
  have hkimv : fi.forceImv = fi.intraOnly.toNat := by
    rw [himv]
    by_cases hk : fi.frameType = .key
    · rw [ok.intra.2 (Or.inl hk)]; simp
    · simp [hk]
  rw [hint]
  have hfimv : decide (0 < if fi.intraOnly = true then 1 else
      if 0 < fi.allowSct then
        (if fi.seq.forceImv = 2 then (fi.forceImv != 0).toNat else fi.forceImv) else 0) =
      fi.intraOnly := by
    cases hi : fi.intraOnly with
    | true => rfl
    | false => rw [hi] at hkimv; simp [hkimv]
  -- size override
  refine Codes.bind (a := fi.sizeOverride) ?_ ?_
  · show Codes _ (Parser.opt (!(decide (fi.frameType.spec = .switch) || fi.seq.reduced)) Parser.flag
      (decide (fi.frameType.spec = .switch))) _
    simp only [spec_switch]
    by_cases hs : fi.frameType = .switch
    · simp only [hs, ne_eq, not_true_eq_false, false_and, if_false, decide_true, Bool.true_or,
        Bool.not_true, opt_false, ok.swOver hs]
      exact Codes.pure _
    · cases hr : fi.seq.reduced with
      | true =>
        simp only [hs, ne_eq, Bool.true_eq_false, and_false, if_false, decide_false, Bool.or_true,
          Bool.not_true, opt_false, ok.redOver hr]
        exact Codes.pure _
      | false =>
        simp only [hs, ne_eq, not_false_eq_true, and_self, if_true, decide_false, Bool.or_self,
          Bool.not_false, opt_true]
        exact codes_bit _
  refine Codes.bind (codes_hint fi.seq _ _ fi.orderHint) ?_
  -- primary reference
  refine Codes.bind (a := fi.primaryRef) ?_ ?_
  · cases hi : fi.intraOnly with
    | true =>
      rw [ok.prim (Or.inl hi)]
      simp only [Bool.not_true, Bool.and_false, Bool.false_eq_true, if_false, Bool.true_or, opt_false]
      exact Codes.pure _
    | false =>
      have hnk : fi.frameType ≠ .key := fun h => by
        rw [ok.intra.2 (Or.inl h)] at hi; exact absurd hi (by decide)
      have : fi.start.errRes = fi.errRes := by simp [Fi.start, hnk]
      rw [this]
      cases he : fi.errRes with
      | true =>
        rw [ok.prim (Or.inr he)]
        exact Codes.pure _
      | false => exact codes_lit _ _
  refine Codes.assert fun _ => ?_
  -- refresh flags
  refine Codes.bind (a := fi.refresh) ?_ ?_
  · simp only [spec_switch, spec_key]
    by_cases hk : fi.frameType = .key
    · simp only [hk, if_true, reduceCtorEq, decide_false, decide_true, Bool.true_and, Bool.false_or,
        ok.keyShown hk, Bool.not_true, opt_false]
      refine Codes.assert fun _ => ?_
      rw [← app_nil (assertW _)]
      refine Codes.assert fun h => ?_
      rw [h]; exact Codes.pure _
    · by_cases hs : fi.frameType = .switch
      · simp only [hs, if_true, reduceCtorEq, if_false, decide_true, Bool.true_or, Bool.not_true, opt_false]
        rw [← app_nil (assertW _)]
        refine Codes.assert fun h => ?_
        rw [h]; exact Codes.pure _
      · simp only [hk, hs, if_false, decide_false, Bool.false_and, Bool.or_self, Bool.not_false, opt_true]
        exact Codes.assert fun _ => codes_lit _ _
  -- order hints of the references
  refine Codes.map (a := if ((!fi.intraOnly || fi.refresh != allRefs) && (fi.errRes && fi.seq.orderHint)) = true
    then fi.recFrames.map fun _ => () else []) ?_ ?_
  · by_cases hk : fi.frameType = .key
    · have hi := ok.intra.2 (Or.inl hk)
      simp only [hi, ok.keyRefresh hk, allRefs, Bool.not_true, bne_self_eq_false, Bool.or_self,
        Bool.false_and, Bool.false_eq_true, if_false, ne_eq, not_true_eq_false, decide_false, opt_false]
      exact Codes.pure _
    · have he : fi.start.errRes = fi.errRes := by simp [Fi.start, hk]
      have hrd : decide (fi.refresh ≠ 255) = (fi.refresh != allRefs) := by
        by_cases h : fi.refresh = 255 <;> simp [allRefs, h]
      rw [he, hrd]
      refine codes_opt (by rfl) (fun h => ?_) (fun h => by rw [if_neg h])
      rw [if_pos h]
      simp only [Bool.and_eq_true] at h
      have := codes_refHints fi c ag hk h.2.2
      rw [hseq] at this
      exact this
  · simp only [hfimv, hpos]
    simp [Fi.start]

/-! ## Sizes and references -/

/-- Second part: facts of the constructors. -/
structure RefsOk (fi : Fi) : Prop where
  width : 1 ≤ fi.width
  height : 1 ≤ fi.height
  renderW : 1 ≤ fi.renderWidth
  renderH : 1 ≤ fi.renderHeight
  /-- `encoder.rs:844-845` -/
  diff : fi.renderDifferent = false → fi.renderWidth = fi.width ∧ fi.renderHeight = fi.height
  refs : fi.refFrames.length = 7
  refs8 : ∀ r ∈ fi.refFrames, r < 8
  key : fi.frameType = .key → fi.allowHp = false
  intrabc : fi.allowIntrabc = false

/-- The expected sizes. -/
def Fi.size (fi : Fi) : Size := ⟨fi.width, fi.height, fi.renderWidth, fi.renderHeight⟩

/-- The expected second part. -/
def Fi.refsHdr (fi : Fi) : Refs where
  size := fi.size
  intrabc := fi.allowIntrabc
  refIdx := if fi.intraOnly then [] else fi.refFrames
  allowHp := if fi.intraOnly then false else fi.allowHp
  filter := if fi.intraOnly then 0 else if fi.filterSwitchable then 4 else fi.filter
  motionSwitchable := if fi.intraOnly then false else fi.motionSwitchable
  useRefMvs := if fi.intraOnly then false else if fi.errRes || !fi.seq.refFrameMvs then false
    else fi.useRefMvs
  disableEndUpdate := fi.disableEndUpdate

theorem codes_frameSize (fi : Fi) (ok : RefsOk fi) :
    Codes (writeFrameSize fi) (frameSize (fi.seq.hdr fi.width fi.height) fi.sizeOverride)
      (fi.width, fi.height) := by
  have h1 := ok.width
  have h2 := ok.height
  unfold writeFrameSize frameSize
  cases ho : fi.sizeOverride with
  | true =>
    simp only [if_true, opt_true, bind_assoc, pure_bind, app_assoc, logBase2]
    refine Codes.assert fun _ => Codes.assert fun _ => ?_
    show Codes _ (Parser.f ((fi.width - 1).log2 + 1) >>= _) _
    refine Codes.bind (codes_lit _ _) ?_
    refine Codes.bind (codes_lit _ _) ?_
    rw [← app_nil (assertW _)]
    refine Codes.assert fun hs => Codes.reject hs ?_
    refine Codes.eq (Codes.pure _) ?_
    simp [Nat.sub_add_cancel h1, Nat.sub_add_cancel h2]
  | false =>
    simp only [if_false, Bool.false_eq_true, opt_false, nil_app]
    refine Codes.pure_bind (Codes.pure_bind ?_)
    rw [← app_nil (assertW _)]
    refine Codes.assert fun hs => Codes.reject hs ?_
    exact Codes.pure _

theorem codes_renderSize (fi : Fi) (ok : RefsOk fi) :
    Codes (writeRenderSize fi) (renderSize fi.width fi.height) fi.size := by
  unfold writeRenderSize renderSize
  refine Codes.bind (codes_bit _) ?_
  refine Codes.ite Iff.rfl (fun h => ?_) (fun h => ?_)
  · refine Codes.bind (codes_lit _ _) ?_
    refine Codes.map (codes_lit _ _) ?_
    have h1 := ok.renderW
    have h2 := ok.renderH
    simp [Fi.size, Nat.sub_add_cancel h1, Nat.sub_add_cancel h2]
  · obtain ⟨h1, h2⟩ := ok.diff (by simpa using h)
    refine Codes.eq (Codes.pure _) ?_
    simp [Fi.size, h1, h2]

theorem codes_fullSize (fi : Fi) (ok : RefsOk fi) :
    Codes (writeFrameSize fi ⊹ writeRenderSize fi)
      (fullSize (fi.seq.hdr fi.width fi.height) fi.sizeOverride) fi.size :=
  Codes.bind (codes_frameSize fi ok) (codes_renderSize fi ok)

theorem codes_sizeWithRefs (fi : Fi) (c : Ctx) (ok : RefsOk fi) (ag : Agrees fi c)
    (hk : fi.frameType ≠ .key) (rs : List Nat) (hrs : ∀ r ∈ rs, r < 8) :
    Codes (writeFrameSizeWithRefs fi rs) (sizeWithRefs c fi.sizeOverride rs) fi.size := by
  induction rs with
  | nil =>
    unfold writeFrameSizeWithRefs sizeWithRefs
    rw [ag.seq]
    exact codes_fullSize fi ok
  | cons r rs ih =>
    have ih := ih fun x hx => hrs x (by simp [hx])
    obtain ⟨rec, h1, h3⟩ := ag.slots hk r (hrs r (by simp))
    unfold writeFrameSizeWithRefs sizeWithRefs withAt
    rw [h1]
    dsimp only
    by_cases he : rec.width = fi.width ∧ rec.height = fi.height ∧
        rec.renderWidth = fi.renderWidth ∧ rec.renderHeight = fi.renderHeight
    · rw [if_pos he]
      refine Codes.bind (codes_bit _) ?_
      rw [if_pos rfl, ← app_nil (assertW _)]
      refine Codes.assert fun hs => Codes.reject (by rw [ag.seq]; exact hs) ?_
      unfold Ctx.slot
      rw [h3]
      refine Codes.pure_bind ?_
      obtain ⟨e1, e2, e3, e4⟩ := he
      refine Codes.eq (Codes.pure _) ?_
      simp [Fi.size, RefFrame.slot, e1, e2, e3, e4]
    · rw [if_neg he]
      refine Codes.bind (codes_bit _) ?_
      rw [if_neg (by decide)]
      exact ih

theorem codes_endUpdate (fi : Fi) :
    Codes (if fi.seq.reduced || fi.disableCdfUpdate then assertW (fi.disableEndUpdate = true)
        else bit fi.disableEndUpdate)
      (Parser.opt (!(fi.seq.reduced || fi.disableCdfUpdate)) Parser.flag true) fi.disableEndUpdate := by
  cases h : (fi.seq.reduced || fi.disableCdfUpdate) with
  | true =>
    simp only [if_true, Bool.not_true, opt_false]
    rw [← app_nil (assertW _)]
    refine Codes.assert fun hs => ?_
    rw [hs]; exact Codes.pure _
  | false =>
    simp only [if_false, Bool.not_false, opt_true, Bool.false_eq_true]
    exact codes_bit _

theorem codes_refs (fi : Fi) (c : Ctx) (sok : StartOk fi) (ok : RefsOk fi) (ag : Agrees fi c) :
    Codes (writeSizeRefs fi) (frameRefs c fi.start) fi.refsHdr := by
  have hti : fi.start.type.intra = fi.intraOnly := spec_intra fi sok
  have himv := sok.imv
  unfold writeSizeRefs frameRefs
  rw [hti, ag.seq]
  cases hi : fi.intraOnly with
  | true =>
    simp only [if_true, or_true, nil_app]
    rw [← app_assoc, app_assoc (writeFrameSize fi ⊹ writeRenderSize fi)]
    refine Codes.bind (codes_fullSize fi ok) ?_
    refine Codes.bind (a := fi.allowIntrabc) ?_ ?_
    · have : fi.start.allowSct = decide (0 < fi.allowSct) := rfl
      rw [this]
      refine codes_opt ?_ (fun _ => codes_bit _) (fun _ => ok.intrabc.symm)
      rw [decide_eq_true_iff]; omega
    · refine Codes.map (codes_endUpdate fi) ?_
      simp [Fi.refsHdr, hi]
  | false =>
    have hnk : fi.frameType ≠ .key := fun h => by
      rw [sok.intra.2 (Or.inl h)] at hi; exact absurd hi (by decide)
    have herr : fi.start.errRes = fi.errRes := by simp [Fi.start, hnk]
    rw [hi] at himv
    simp only [if_false, Bool.false_eq_true, or_false, hnk, nil_app, app_assoc]
    refine Codes.bind (a := false) ?_ ?_
    · exact codes_opt Iff.rfl (fun _ => codes_bit _) (fun _ => rfl)
    refine Codes.reject rfl ?_
    refine Codes.bind (a := fi.refFrames) ?_ ?_
    · have := codes_times (xs := fi.refFrames) (n := 7) (g := lit 3) (p := Parser.f 3) (r := id)
        ok.refs (fun x _ => codes_lit 3 x)
      simpa using this
    have hov : fi.start.sizeOverride = fi.sizeOverride := rfl
    rw [herr, hov]
    refine Codes.bind (a := fi.size) ?_ ?_
    · refine Codes.ite (by cases fi.errRes <;> cases fi.sizeOverride <;> decide) (fun _ => ?_) (fun _ => ?_)
      · exact codes_sizeWithRefs fi c ok ag hnk _ ok.refs8
      · exact codes_fullSize fi ok
    refine Codes.bind (a := fi.allowHp) ?_ ?_
    · have : fi.start.forceImv = false := hi
      rw [this, himv]
      exact codes_bit _
    refine Codes.bind (codes_bit _) ?_
    refine Codes.bind (a := if fi.filterSwitchable then 4 else fi.filter) ?_ ?_
    · cases fi.filterSwitchable with
      | true => exact Codes.pure _
      | false => exact codes_lit _ _
    refine Codes.bind (codes_bit _) ?_
    refine Codes.bind (a := if fi.errRes || !fi.seq.refFrameMvs then false else fi.useRefMvs) ?_ ?_
    · show Codes _ (Parser.opt (!(fi.errRes || !fi.seq.refFrameMvs)) Parser.flag false) _
      cases fi.errRes <;> cases fi.seq.refFrameMvs
      all_goals first | exact Codes.pure _ | exact codes_bit _
    refine Codes.map (codes_endUpdate fi) ?_
    simp [Fi.refsHdr, hi, ok.intrabc]

end Rav1e.Hdr

import Verif.Hdr.Tac
import Verif.Hdr.Model

/-!
# Sequence header: what is written is what a decoder reads (C13)
-/

namespace Rav1e.Hdr
open Av1Spec

/-- What the sequence header of `s` for pictures of `w` by `h` should say. -/
def Seq.hdr (s : Seq) (w h : Nat) : SeqHdr where
  profile := s.profile
  still := s.still
  reduced := s.reduced
  timing := if s.timing then some (s.timeNum, s.timeDen, some 0) else none
  ops := [(0, s.levelIdx, 0)]
  widthBits := (w - 1).log2 + 1
  heightBits := (h - 1).log2 + 1
  maxWidth := w
  maxHeight := h
  use128 := s.use128
  filterIntra := s.filterIntra
  intraEdge := s.intraEdge
  interintra := s.interintra
  masked := s.masked
  warped := s.warped
  dualFilter := s.dualFilter
  orderHint := s.orderHint
  jntComp := s.jntComp
  refFrameMvs := s.refFrameMvs
  forceSct := s.forceSct
  forceImv := s.forceImv
  orderHintBits := if s.orderHint then s.orderHintBitsM1 + 1 else 0
  superres := s.superres
  cdef := s.cdef
  restoration := s.restoration
  bitDepth := s.bitDepth
  mono := s.chroma == .cs400
  primaries := match s.color with | some c => c.primaries | none => 2
  transfer := match s.color with | some c => c.transfer | none => 2
  matrix := match s.color with | some c => c.matrix | none => 2
  fullRange := s.fullRange
  subX := s.chroma != .cs444
  subY := s.chroma == .cs420 || s.chroma == .cs400
  chromaPos := if s.chroma = .cs420 then s.chromaPos else 0
  separateUv := s.chroma != .cs400
  filmGrain := s.filmGrain

/-- The relations between fields that `Sequence::new` establishes and no `assert!` of the writer
checks. -/
structure SeqOk (s : Seq) (w h : Nat) : Prop where
  w1 : 1 ≤ w
  h1 : 1 ≤ h
  depth : s.bitDepth = 8 ∨ s.bitDepth = 10 ∨ s.bitDepth = 12
  /-- `encoder.rs:211-217` -/
  prof : s.profile = if s.bitDepth = 12 ∨ s.chroma = .cs422 then 2
    else if s.chroma = .cs444 then 1 else 0
  sct : s.forceSct ≤ 2
  imv : s.forceImv ≤ 2
  jnt : s.orderHint = false → s.jntComp = false ∧ s.refFrameMvs = false
  timing : s.reduced = true → s.timing = false

theorem codes_seqOps (s : Seq) (ht : s.reduced = true → s.timing = false) :
    Codes
      (if s.reduced then
        assertW (s.timing = false) ⊹ assertW (s.decModel = false) ⊹ assertW (s.opCntM1 = 0) ⊹
        assertW (s.opIdc = 0) ⊹ lit 5 s.levelIdx ⊹ assertW (s.tier = 0)
      else
        bit s.timing ⊹
        (if s.timing then
          lit 32 s.timeNum ⊹ lit 32 s.timeDen ⊹ bit true ⊹ bit true ⊹ bit false
         else W.nil) ⊹
        bit false ⊹ lit 5 0 ⊹ lit 12 0 ⊹ lit 5 s.levelIdx ⊹
        (if 7 < s.levelIdx then lit 1 0 else W.nil))
      (seqOps s.reduced)
      (if s.timing then some (s.timeNum, s.timeDen, some 0) else none, [(0, s.levelIdx, 0)]) := by
  unfold seqOps
  refine Codes.ite Iff.rfl (fun hr => ?_) (fun hr => ?_)
  · have h2 := ht hr
    rw [h2]
    codes
    rw [← app_nil (assertW (s.tier = 0))]
    codes
  · refine Codes.bind (codes_bit _) ?_
    refine Codes.bind (a := if s.timing then some (s.timeNum, s.timeDen, some 0) else none)
      (codes_opt Iff.rfl (fun h => ?_) (fun h => by simp [h])) ?_
    · rw [if_pos h]
      simp only [timingInfo, bind_assoc]
      codes
      refine Codes.bind (a := some 0) ?_ ?_
      · simp only [Parser.opt, if_true]
        refine Codes.map (a := 0) ?_ rfl
        have : (bit true) = (bit true ⊹ (lit 0 0) ⊹ W.nil) := rfl
        rw [this]
        unfold uvlc
        refine Codes.bind (a := 0) ?_ ?_
        · show Codes (bit true) (uvlcZeros (31 + 1)) 0
          unfold uvlcZeros
          rw [← app_nil (bit true)]
          exact Codes.bind (codes_bit _) (Codes.pure 0)
        · exact Codes.bind (codes_lit 0 0) (Codes.pure _)
      · rw [← app_nil (bit false)]
        refine Codes.pure_bind ?_
        codes
    · codes
      refine Codes.map (a := [(0, s.levelIdx, 0)]) ?_ rfl
      have e : (lit 12 0 ⊹ lit 5 s.levelIdx ⊹ if 7 < s.levelIdx then lit 1 0 else W.nil) =
        forW [(0, s.levelIdx, 0)] (fun x : Nat × Nat × Nat =>
          lit 12 x.1 ⊹ lit 5 x.2.1 ⊹ if 7 < x.2.1 then lit 1 x.2.2 else W.nil) := by
        simp only [forW, app_nil]
      rw [e]
      have := codes_times (n := 1) (xs := [(0, s.levelIdx, 0)]) (p := operatingPoint)
        (g := fun x : Nat × Nat × Nat =>
          lit 12 x.1 ⊹ lit 5 x.2.1 ⊹ if 7 < x.2.1 then lit 1 x.2.2 else W.nil) (r := id) rfl
        (fun x hx => by
          have hx : x = (0, s.levelIdx, 0) := by simpa using hx
          subst hx
          unfold operatingPoint
          codes
          refine Codes.map (a := 0) (codes_opt (by simp) (fun _ => codes_lit 1 0) (fun _ => rfl)) rfl)
      exact this

theorem codes_sel (x : Nat) (hx : x ≤ 2) {α : Type} {w : W} {k : Nat → Parser α} {a : α}
    (h : Codes w (k x) a) :
    Codes ((if x = 2 then bit true else bit false ⊹ bit (x != 0)) ⊹ w)
      (Parser.flag >>= fun b => Parser.opt (!b) (Parser.f 1) 2 >>= k) a := by
  by_cases h2 : x = 2
  · rw [if_pos h2]
    refine Codes.bind (codes_bit _) ?_
    subst h2; exact h
  · rw [if_neg h2, app_assoc]
    refine Codes.bind (codes_bit _) ?_
    refine Codes.bind (codes_bit_f _) ?_
    have : (x != 0).toNat = x := by
      rcases (by omega : x = 0 ∨ x = 1) with rfl | rfl <;> rfl
    rw [this]; exact h

theorem codes_seqTools (s : Seq) {w h : Nat} (ok : SeqOk s w h) :
    Codes
      (if s.reduced then
        assertW (s.interintra = false) ⊹ assertW (s.masked = false) ⊹ assertW (s.warped = false) ⊹
        assertW (s.dualFilter = false) ⊹ assertW (s.orderHint = false) ⊹
        assertW (s.jntComp = false) ⊹
        assertW (s.refFrameMvs = false) ⊹ assertW (s.forceSct = 2) ⊹ assertW (s.forceImv = 2)
      else
        bit s.interintra ⊹ bit s.masked ⊹ bit s.warped ⊹ bit s.dualFilter ⊹ bit s.orderHint ⊹
        (if s.orderHint then bit s.jntComp ⊹ bit s.refFrameMvs else W.nil) ⊹
        (if s.forceSct = 2 then bit true else bit false ⊹ bit (s.forceSct != 0)) ⊹
        (if 0 < s.forceSct then
          (if s.forceImv = 2 then bit true else bit false ⊹ bit (s.forceImv != 0))
         else assertW (s.forceImv = 2)) ⊹
        (if s.orderHint then lit 3 s.orderHintBitsM1 else W.nil))
      (seqTools s.reduced)
      ⟨s.interintra, s.masked, s.warped, s.dualFilter, s.orderHint, s.jntComp, s.refFrameMvs,
        s.forceSct, s.forceImv, if s.orderHint then s.orderHintBitsM1 + 1 else 0⟩ := by
  unfold seqTools
  refine Codes.ite Iff.rfl (fun hr => ?_) (fun hr => ?_)
  · rw [← app_nil (assertW (s.forceImv = 2))]
    refine Codes.assert fun h1 => Codes.assert fun h2 => Codes.assert fun h3 =>
      Codes.assert fun h4 => Codes.assert fun h5 => Codes.assert fun h6 => Codes.assert fun h7 =>
      Codes.assert fun h8 => Codes.assert fun h9 => ?_
    rw [h1, h2, h3, h4, h5, h6, h7, h8, h9]
    exact Codes.pure _
  · codes
    have hend : ∀ (k : Nat → Parser SeqTools) (b : SeqTools),
        k (if s.orderHint then s.orderHintBitsM1 + 1 else 0) = pure b →
        Codes (if s.orderHint then lit 3 s.orderHintBitsM1 else W.nil)
          (Parser.opt s.orderHint (do let b ← Parser.f 3; pure (b + 1)) 0 >>= k) b := by
      intro k b hk
      rw [← app_nil (if s.orderHint then _ else _)]
      refine Codes.bind (a := if s.orderHint then s.orderHintBitsM1 + 1 else 0)
        (codes_opt Iff.rfl (fun h => ?_) (fun h => by simp [h])) ?_
      · rw [if_pos h]; exact Codes.last (codes_lit _ _)
      · rw [hk]; exact Codes.pure _
    have hrest : ∀ (k : Nat → Parser SeqTools) (b : SeqTools),
        Codes (if s.orderHint then lit 3 s.orderHintBitsM1 else W.nil) (k s.forceImv) b →
        Codes ((if 0 < s.forceSct then
            (if s.forceImv = 2 then bit true else bit false ⊹ bit (s.forceImv != 0))
           else assertW (s.forceImv = 2)) ⊹
          (if s.orderHint then lit 3 s.orderHintBitsM1 else W.nil))
          (Parser.opt (decide (0 < s.forceSct)) Parser.flag true >>= fun b =>
            Parser.opt (!b) (Parser.f 1) 2 >>= k) b := by
      intro k b hk
      by_cases h : 0 < s.forceSct
      · rw [if_pos h, decide_eq_true h, opt_true]
        exact codes_sel _ ok.imv hk
      · rw [if_neg h, decide_eq_false h, opt_false]
        refine Codes.assert fun h2 => ?_
        rw [h2] at hk; exact hk
    cases ho : s.orderHint with
    | true =>
      rw [ho] at hend hrest
      simp only [if_true, opt_true, app_assoc]
      codes
      refine codes_sel _ ok.sct ?_
      refine hrest _ _ ?_
      exact hend _ _ rfl
    | false =>
      rw [ho] at hend hrest
      obtain ⟨j1, j2⟩ := ok.jnt ho
      rw [j1, j2]
      have e : ∀ w : W, ((if false = true then bit false ⊹ bit false else W.nil) ⊹ w) = w :=
        fun w => by rw [if_neg (by decide), nil_app]
      rw [e]
      refine Codes.pure_bind (Codes.pure_bind ?_)
      refine codes_sel _ ok.sct ?_
      refine hrest _ _ ?_
      exact hend _ _ rfl

/-- The colour part of the expected header. -/
def Seq.colorHdr (s : Seq) : Color where
  bitDepth := s.bitDepth
  mono := s.chroma == .cs400
  primaries := match s.color with | some c => c.primaries | none => 2
  transfer := match s.color with | some c => c.transfer | none => 2
  matrix := match s.color with | some c => c.matrix | none => 2
  fullRange := s.fullRange
  subX := s.chroma != .cs444
  subY := s.chroma == .cs420 || s.chroma == .cs400
  chromaPos := if s.chroma = .cs420 then s.chromaPos else 0
  separateUv := s.chroma != .cs400

theorem codes_colorTail (s : Seq) {w h : Nat} (ok : SeqOk s w h) (cp tc mc : Nat)
    (srgb : Bool) (hs : srgb = true ↔ cp = 1 ∧ tc = 13 ∧ mc = 0) :
    Codes
      ((if (s.chroma == .cs400) || !srgb then bit s.fullRange else W.nil) ⊹
       (if s.chroma == .cs400 then W.nil
       else
        (if srgb then assertW (s.fullRange = true) ⊹ assertW (s.chroma = .cs444)
         else
          (if s.profile = 0 then assertW (s.chroma = .cs420)
           else if s.profile = 1 then assertW (s.chroma = .cs444)
           else if s.bitDepth = 12 then
            bit (s.chroma != .cs444) ⊹ (if s.chroma ≠ .cs444 then bit (s.chroma == .cs420) else W.nil)
           else assertW (s.chroma = .cs422)) ⊹
          (if s.chroma = .cs420 then lit 2 s.chromaPos else W.nil)) ⊹
        bit true))
      (colorTail s.profile s.bitDepth (s.chroma == .cs400) cp tc mc)
      ⟨s.bitDepth, s.chroma == .cs400, cp, tc, mc, s.fullRange, s.chroma != .cs444,
        s.chroma == .cs420 || s.chroma == .cs400, if s.chroma = .cs420 then s.chromaPos else 0,
        s.chroma != .cs400⟩ := by
  have hp := ok.prof
  unfold colorTail
  by_cases hsr : cp = 1 ∧ tc = 13 ∧ mc = 0
  · have hsr' := hs.2 hsr
    obtain ⟨rfl, rfl, rfl⟩ := hsr
    subst hsr'
    cases hc : s.chroma <;>
      simp [nil_app, app_nil, app_assoc, assertW, fail_app, app_fail] <;>
      first
      | exact Codes.fail
      | exact Codes.last (codes_bit _)
      | (split
         · rename_i hf; rw [hf]
           exact Codes.last (codes_bit _)
         · exact Codes.fail)
  · have hsr' : srgb = false := by
      cases srgb with
      | false => rfl
      | true => exact absurd (hs.1 rfl) hsr
    subst hsr'
    rw [if_neg hsr]
    cases hc : s.chroma <;> rw [hc] at hp <;> rcases ok.depth with hd | hd | hd <;>
      rw [hd] at hp <;> simp at hp <;>
      simp [hp, hd, subsampling, app_nil, app_assoc, assertW, some_nil_app] <;>
      (try simp only [Parser.opt, if_true, if_false, Bool.false_eq_true, pure_bind]) <;>
      codes

theorem codes_colorConfig (s : Seq) {w h : Nat} (ok : SeqOk s w h) :
    Codes (writeColorConfig s) (colorConfig s.profile) s.colorHdr := by
  have hdepth : ∀ {α : Type} (w : W) (k : Nat → Parser α) (a : α), Codes w (k s.bitDepth) a →
      Codes (bit (decide (8 < s.bitDepth)) ⊹
        (if s.profile = 2 ∧ decide (8 < s.bitDepth) = true then bit (s.bitDepth == 12) else W.nil) ⊹ w)
        (Parser.flag >>= fun high =>
          Parser.opt (decide (s.profile = 2) && high) Parser.flag false >>= fun twelve =>
          k (bitDepthOf s.profile high twelve)) a := by
    intro α w k a hk
    refine Codes.bind (codes_bit _) ?_
    have hp := ok.prof
    rcases ok.depth with hd | hd | hd <;> rw [hd] at hp hk ⊢
    · simp only [show decide (8 < 8) = false from rfl, Bool.and_false, Bool.false_eq_true, and_false,
        if_false, nil_app]
      refine Codes.pure_bind ?_
      unfold bitDepthOf; simpa using hk
    · have h12 : ((10 : Nat) == 12) = false := rfl
      by_cases h2 : s.profile = 2
      · simp only [h2, show decide (8 < 10) = true from rfl, if_true, and_self, decide_true, opt_true,
          Bool.and_true, h12]
        refine Codes.bind (codes_bit _) ?_
        unfold bitDepthOf; simpa using hk
      · simp only [h2, false_and, if_false, nil_app, decide_false, Bool.false_and]
        refine Codes.pure_bind ?_
        unfold bitDepthOf; simpa [h2] using hk
    · have h2 : s.profile = 2 := by simpa using hp
      have h12 : ((12 : Nat) == 12) = true := rfl
      simp only [h2, show decide (8 < 12) = true from rfl, if_true, and_self, decide_true, opt_true,
          Bool.and_true, h12]
      refine Codes.bind (codes_bit _) ?_
      unfold bitDepthOf; simpa using hk
  unfold writeColorConfig colorConfig
  refine hdepth _ _ _ ?_
  unfold colorRest
  refine Codes.bind (a := (s.chroma == .cs400)) ?_ ?_
  · by_cases h1 : s.profile = 1
    · simp only [h1, if_true, ne_eq, not_true_eq_false, decide_false, opt_false]
      rw [← app_nil (assertW _)]
      refine Codes.assert fun hm => ?_
      rw [hm]; exact Codes.pure _
    · simp only [h1, if_false, ne_eq, not_false_eq_true, decide_true, opt_true]
      exact codes_bit _
  · refine Codes.bind (codes_bit _) ?_
    unfold Seq.colorHdr
    cases hcol : s.color with
    | none =>
      simp only [Option.isSome_none, nil_app]
      refine Codes.pure_bind (Codes.pure_bind (Codes.pure_bind ?_))
      exact codes_colorTail s ok 2 2 2 false (by simp)
    | some c =>
      simp only [Option.isSome_some, app_assoc]
      refine Codes.bind (codes_lit _ _) (Codes.bind (codes_lit _ _) (Codes.bind (codes_lit _ _) ?_))
      refine codes_colorTail s ok c.primaries c.transfer c.matrix c.srgb ?_
      simp [ColorDesc.srgb, and_assoc]

/-- The size fields. -/
theorem codes_maxSize (w h : Nat) {α : Type} {x : W} {k : Nat → Nat → Nat → Nat → Parser α} {a : α}
    (hk : Codes x (k (w - 1).log2 (h - 1).log2 (w - 1) (h - 1)) a) :
    Codes (writeMaxFrameSize w h ⊹ x)
      (Parser.f 4 >>= fun wb => Parser.f 4 >>= fun hb => Parser.f (wb + 1) >>= fun w =>
        Parser.f (hb + 1) >>= fun h => k wb hb w h) a := by
  simp only [writeMaxFrameSize, logBase2, app_assoc, Nat.add_sub_cancel]
  refine Codes.assert fun _ => Codes.assert fun _ => ?_
  refine Codes.bind (codes_lit _ _) (Codes.bind (codes_lit _ _) ?_)
  refine Codes.bind (codes_lit _ _) (Codes.bind (codes_lit _ _) ?_)
  exact hk

/-- **C13.** Whatever follows it, a decoder that reads the sequence header obtains the parameters
of the sequence. -/
theorem sequence_header_round_trip (s : Seq) (w h : Nat) (ok : SeqOk s w h) :
    Codes (writeSequenceHeaderObu s w h) sequenceHeader (s.hdr w h) := by
  unfold writeSequenceHeaderObu sequenceHeader
  refine Codes.assert fun _ => ?_
  refine Codes.bind (codes_lit _ _) (Codes.bind (codes_bit _) (Codes.bind (codes_bit _) ?_))
  refine Codes.assert fun _ => ?_
  refine Codes.bind (codes_seqOps s ok.timing) ?_
  unfold writeSequenceHeader
  simp only [app_assoc]
  refine codes_maxSize w h ?_
  refine Codes.bind (a := s.frameIds) ?_ ?_
  · cases hr : s.reduced with
    | true =>
      simp only [if_true]
      rw [← app_nil (assertW _)]
      refine Codes.assert fun hf => ?_
      rw [hf]; exact Codes.pure _
    | false => exact codes_bit _
  refine Codes.assert fun hf => ?_
  refine Codes.reject hf ?_
  refine Codes.bind (codes_bit _) (Codes.bind (codes_bit _) (Codes.bind (codes_bit _) ?_))
  refine Codes.bind (codes_seqTools s ok) ?_
  refine Codes.bind (codes_bit _) (Codes.bind (codes_bit _) (Codes.bind (codes_bit _) ?_))
  refine Codes.bind (codes_colorConfig s ok) ?_
  refine Codes.map (codes_bit _) ?_
  have h1 := ok.w1
  have h2 := ok.h1
  simp [Seq.hdr, Seq.colorHdr, Nat.sub_add_cancel h1, Nat.sub_add_cancel h2]

end Rav1e.Hdr

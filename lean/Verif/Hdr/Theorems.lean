import Verif.Hdr.Modes

/-!
# Frame header: a decoder reads back what the encoder meant
-/

namespace Rav1e.Hdr
open Av1Spec

/-- Some segment of the frame is not lossless.  The encoder never codes lossless frames:
`base_q_idx` is positive and `segmentation_optimize` asserts that some segment's quantizer is at
least 1 when it keeps earlier data (`segmentation.rs:39-52`), and makes all of them so otherwise. -/
def NotLossless (fi : Fi) : Prop :=
  ∃ i < 8, fi.segm.enabled = true → (fi.segm.features.getD i []).getD 0 false = true →
    0 < (fi.baseQ : Int) + (fi.segm.data.getD i []).getD 0 0

/-- The invariants between fields of `FrameInvariants` and `FrameState`, which hold by
construction of the frame and which the writer relies on without checking them. -/
structure FrameOk (fi : Fi) : Prop where
  start : StartOk fi
  refs : RefsOk fi
  tile : TileOk fi
  seg : SegOk fi
  filter : FilterOk fi
  lossy : NotLossless fi
  lr : LrOk fi
  modes : ModesOk fi
  grain : ∀ g, fi.grain = some g → GrainOk fi g
  visible : fi.showFrame = true ∨ fi.showable = true ∧ fi.seq.reduced = false
  /-- segmentation data that is not sent is the data of the primary reference -/
  segKept : fi.segm.enabled = true → fi.segm.updateData = false →
    ∃ (i : Nat) (r : RefFrame), fi.refFrames[fi.primaryRef]? = some i ∧
      fi.recFrames[i]? = some (some r) ∧ r.segm.spec = fi.segm.spec
  /-- `primary_ref_frame` is an index into the references or `PRIMARY_REF_NONE` -/
  prim : fi.primaryRef ≤ 7

/-- What the encoder means by a frame, in the decoder's terms.  `loop_filter_delta_enabled` is 0, so
the default loop filter deltas are carried along and not used. -/
def Fi.hdr (fi : Fi) : FrameHdr where
  start := fi.start
  refs := fi.refsHdr
  tiles := fi.tileHdr
  quant := fi.quantHdr
  seg := fi.segHdr
  delta := (none, none)
  lf := fi.lfHdr defaultRefDeltas defaultModeDeltas
  cdef := fi.cdefHdr
  lr := fi.lrHdr
  modes := fi.modesHdr
  grain := fi.grainHdr

theorem getD_zipWith {α β γ : Type} (f : α → β → γ) : ∀ (xs : List α) (ys : List β) (i : Nat) (da : α)
    (db : β) (dc : γ), xs.length = ys.length → i < xs.length →
    (List.zipWith f xs ys).getD i dc = f (xs.getD i da) (ys.getD i db)
  | [], _, i, _, _, _, _, h => by simp at h
  | _ :: _, [], _, _, _, _, h, _ => by simp at h
  | x :: xs, y :: ys, 0, _, _, _, _, _ => rfl
  | x :: xs, y :: ys, i + 1, da, db, dc, hl, hi => by
    simpa using getD_zipWith f xs ys i da db dc (by simpa using hl) (by simpa using hi)

theorem not_coded_lossless (fi : Fi) (hq : 0 < fi.baseQ) (ok : SegOk fi) (h : NotLossless fi) :
    codedLossless fi.quantHdr fi.segHdr = false := by
  obtain ⟨i, hi, hd⟩ := h
  unfold codedLossless
  rw [List.all_eq_false]
  refine ⟨i, by simpa using hi, ?_⟩
  have : qidx fi.quantHdr fi.segHdr i ≠ 0 := by
    unfold qidx Fi.segHdr
    have hb : fi.quantHdr.base = fi.baseQ := rfl
    rw [hb]
    by_cases he : fi.segm.enabled = true
    · rw [if_pos he]
      simp only [Segm.spec, if_pos he, Bool.true_and]
      split
      · rename_i hf
        have hd := hd he hf
        have hl1 : (fi.segm.features.getD i []).length = 8 := by
          have : i < fi.segm.features.length := by rw [ok.rows]; exact hi
          rw [List.getD, List.getElem?_eq_getElem this, Option.getD_some]; exact ok.cols _ (List.getElem_mem this)
        have hl2 : (fi.segm.data.getD i []).length = 8 := by
          have : i < fi.segm.data.length := by rw [ok.rows']; exact hi
          rw [List.getD, List.getElem?_eq_getElem this, Option.getD_some]; exact ok.cols' _ (List.getElem_mem this)
        rw [getD_zipWith _ _ _ i [] [] [] (by rw [ok.rows, ok.rows']) (by rw [ok.rows]; exact hi),
          getD_zipWith _ _ _ 0 false 0 0 (by rw [hl1, hl2]) (by rw [hl1]; omega), hf, if_pos rfl]
        unfold clip3
        split
        · omega
        · split <;> omega
      · omega
    · rw [if_neg he]; simp; omega
  simp [this]

theorem codes_previous (fi : Fi) (c : Ctx) (ok : FrameOk fi) (ag : Agrees fi c) :
    ∃ sd, (fi.segm.enabled = true → fi.segm.updateData = false → sd = fi.segm.spec) ∧
      previous c fi.start fi.refsHdr.refIdx = pure (defaultRefDeltas, defaultModeDeltas, sd) := by
  have hp : fi.start.primaryRef = fi.primaryRef := rfl
  unfold previous
  rw [hp]
  by_cases h7 : fi.primaryRef = 7
  · refine ⟨SegData.cleared, fun he hu => ?_, by rw [if_pos h7]⟩
    obtain ⟨i, r, h1, _⟩ := ok.segKept he hu
    have := ok.refs.refs
    rw [h7, List.getElem?_eq_none (by omega)] at h1
    simp at h1
  · have hlt : fi.primaryRef < 7 := by have := ok.prim; omega
    have hi : fi.intraOnly = false := by
      by_contra hn
      exact h7 (ok.start.prim (.inl (by simpa using hn)))
    have hk : fi.frameType ≠ .key := by
      intro hk; have := ok.start.intra.2 (.inl hk); rw [hi] at this; simp at this
    have hl : fi.primaryRef < fi.refFrames.length := by rw [ok.refs.refs]; exact hlt
    obtain ⟨r, s1, s3⟩ := ag.slots hk _ (ok.refs.refs8 _ (List.getElem_mem hl))
    have hr : fi.refsHdr.refIdx = fi.refFrames := by simp [Fi.refsHdr, hi]
    refine ⟨r.segm.spec, fun he hu => ?_, ?_⟩
    · obtain ⟨i, r', h1, h2, h3⟩ := ok.segKept he hu
      rw [List.getElem?_eq_getElem hl, Option.some.injEq] at h1
      rw [h1] at s1
      rw [s1] at h2
      simp only [Option.some.injEq] at h2
      rw [h2]; exact h3
    · rw [if_neg h7, hr, List.getElem?_eq_getElem hl]
      dsimp only
      unfold Ctx.slot
      rw [s3]
      rfl

/-- `uncompressed_header()` after `show_existing_frame`. -/
theorem codes_coded (fi : Fi) (c : Ctx) (ok : FrameOk fi) (ag : Agrees fi c) :
    Codes (kindBits fi ⊹ startBits fi ⊹ writeSizeRefs fi ⊹ writeTileInfo fi ⊹ writeQuant fi ⊹
      writeSegm fi ⊹ bit false ⊹ writeDeblockA fi ⊹ writeDeblockB fi ⊹ writeCdef fi ⊹ writeLrf fi ⊹
      writeModes fi ⊹ writeGrainOpt fi) (codedHeader c) fi.hdr := by
  obtain ⟨sd, hsd, hprev⟩ := codes_previous fi c ok ag
  unfold codedHeader
  rw [← app_assoc]
  refine Codes.bind (codes_start fi c ok.start ag) ?_
  refine Codes.bind (codes_refs fi c ok.start ok.refs ag) ?_
  rw [hprev, pure_bind]
  dsimp only
  rw [ag.seq]
  have hw : fi.refsHdr.size.width = fi.width := rfl
  have hh : fi.refsHdr.size.height = fi.height := rfl
  have hp : fi.start.primaryRef = fi.primaryRef := rfl
  have hb : fi.quantHdr.base = fi.baseQ := rfl
  have hib : fi.refsHdr.intrabc = false := ok.refs.intrabc
  rw [hw, hh, hp]
  refine Codes.bind (codes_tileInfo fi ok.tile) ?_
  refine Codes.bind (codes_quant fi) ?_
  refine Codes.bind (codes_seg fi ok.seg sd hsd) ?_
  rw [hb, hib, not_coded_lossless fi ok.filter.baseQ ok.seg ok.lossy, ← app_assoc]
  refine Codes.bind (codes_delta fi ok.filter false) ?_
  refine Codes.bind (codes_lf fi ok.filter _ _) ?_
  refine Codes.bind (codes_cdef fi ok.refs.intrabc) ?_
  refine Codes.bind (codes_lr fi ok.refs.intrabc ok.lr ok.tile.no128) ?_
  refine Codes.bind (codes_modes fi c ok.start ok.refs ok.modes ag) ?_
  exact Codes.map (codes_grain fi ok.grain ok.visible) rfl

/-- **C14.** For every frame, a decoder that has the sequence header and the references the encoder
has parses the frame header completely and gets exactly what the encoder meant: type and
visibility, sizes, references, tiles, quantizers, segmentation, filters, modes and film grain.
Whatever follows the header is left for the tile group. -/
theorem frame_header_round_trip (fi : Fi) (c : Ctx) (ok : FrameOk fi) (ag : Agrees fi c)
    (bits : List Bool) (hw : writeFrameHeader fi = some bits) :
    ∀ rest, frameHeader c (bits ++ rest) = some (.coded fi.hdr, rest) := by
  have hcod := codes_coded fi c ok ag
  intro rest
  have hw' : (assertW (fi.sef = false) ⊹ (if fi.seq.reduced then W.nil else bit fi.sef) ⊹
      (kindBits fi ⊹ startBits fi ⊹ writeSizeRefs fi ⊹ writeTileInfo fi ⊹ writeQuant fi ⊹
        writeSegm fi ⊹ bit false ⊹ writeDeblockA fi ⊹ writeDeblockB fi ⊹ writeCdef fi ⊹ writeLrf fi ⊹
        writeModes fi ⊹ writeGrainOpt fi)) = some bits := by
    rw [← hw, writeFrameHeader, writeFrameStart_eq]
    simp only [app_assoc]
  refine Codes.assert (p := frameHeader c) (a := Header.coded fi.hdr) (fun hs => ?_) bits hw' rest
  unfold frameHeader
  have hr : c.seq.reduced = fi.seq.reduced := by rw [ag.seq]; rfl
  rw [hr]
  refine Codes.bind (a := false) ?_ (Codes.map hcod rfl)
  cases fi.seq.reduced with
  | true => exact Codes.pure _
  | false => rw [hs]; exact codes_bit _

/-- **C14**, show-existing frames: the decoder reads the slot to show. -/
theorem show_existing_round_trip (s : Seq) (sef : Bool) (idx : Nat) (c : Ctx)
    (hseq : c.seq.reduced = s.reduced) (bits : List Bool)
    (hw : writeShowExisting s sef idx = some bits) (rest : List Bool) :
    frameHeader c (bits ++ rest) = some (.existing idx, rest) := by
  refine (Codes.assert (fun hr => Codes.assert fun hs => ?_) :
    Codes (writeShowExisting s sef idx) (frameHeader c) (.existing idx)) bits hw rest
  unfold frameHeader
  rw [hseq, hr, hs]
  refine Codes.bind (codes_bit _) ?_
  rw [if_pos rfl]
  exact Codes.map (codes_lit _ _) rfl

end Rav1e.Hdr

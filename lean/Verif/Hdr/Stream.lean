import Verif.Hdr.BuildThms

/-!
# The frame headers of a whole video

The encoder writes one header per frame or repeated frame, each from the references the frames
before it left.  A decoder that keeps its own references parses them all and gets what was meant.
-/

namespace Rav1e.Hdr

open Av1Spec

/-- **C13.**  For every configuration the encoder accepts, the sequence header is written, and a
decoder that reads it, whatever follows, gets the size, bit depth, chroma format, range, colours,
timing, level and still picture flag that were configured. -/
theorem configured_sequence_header {e : EncCfg} {s : Seq} (ok : EncOk e)
    (hs : newSequence e = some s) :
    ∃ bits, writeSequenceHeaderObu s e.width e.height = some bits ∧
      ∀ rest, ∃ h, sequenceHeader (bits ++ rest) = some (h, rest) ∧
        h = s.hdr e.width e.height ∧
        h.maxWidth = e.width ∧ h.maxHeight = e.height ∧ h.bitDepth = e.bitDepth ∧
        h.mono = (e.chroma == .cs400) ∧
        (h.subX, h.subY) = (match e.chroma with
          | .cs420 | .cs400 => (true, true)
          | .cs422 => (true, false)
          | .cs444 => (false, false)) ∧
        (e.chroma = .cs420 → h.chromaPos = e.chromaPos) ∧
        h.fullRange = e.fullRange ∧
        (h.primaries, h.transfer, h.matrix) = (match e.color with
          | some d => (d.primaries, d.transfer, d.matrix)
          | none => (2, 2, 2)) ∧
        h.timing = (if e.enableTiming then some (e.timeNum, e.timeDen, some 0) else none) ∧
        (∀ l, e.levelIdx = some l → h.ops = [(0, l, 0)]) ∧
        h.still = e.sched.stillPicture ∧ h.filmGrain = e.filmGrain := by
  obtain ⟨bits, hb⟩ := sequence_header_written ok hs
  refine ⟨bits, hb, fun rest => ⟨_, sequence_header_round_trip s _ _ (newSequence_seqOk ok hs) bits hb rest,
    rfl, ?_⟩⟩
  obtain ⟨t, rfl⟩ := newSequence_eq hs
  refine ⟨rfl, rfl, rfl, rfl, ?_, ?_, rfl, ?_, rfl, ?_, rfl, rfl⟩
  · simp only [Seq.hdr]; cases e.chroma <;> rfl
  · intro h; simp [Seq.hdr, h]
  · simp only [Seq.hdr]; cases e.color <;> rfl
  · intro l hl; simp [Seq.hdr, hl]

/-- Why no header is written. -/
inductive HErr where
  /-- the `assert_ne!` of `segmentation_optimize`, `segmentation.rs:52` -/
  | segmentation
  /-- an assertion of `write_frame_header_obu` or a value too large for its field -/
  | writer
deriving Repr, DecidableEq

/-- What a header says: a frame, or the slot to show. -/
inductive Meant where
  | coded (fi : Fi)
  | existing (slot : Nat)

/-- The header a decoder should get. -/
def Meant.spec : Meant → Header
  | .coded fi => .coded fi.hdr
  | .existing i => .existing i

variable {M : Type}

/-- One frame: `encode_show_existing_frame`, `encoder.rs:3693-3747`, or `encode_frame`,
`encoder.rs:3768-3820`, and `update_rec_buffer`.  A key frame starts with no references
(`encoder.rs:920`); the others have those the frames before them left (`internal.rs:1448-1464`). -/
def encodeHeader (e : EncCfg) (s : Seq) (rec : List (Option RefFrame)) (x : Sched.FI M) (l : Late) :
    Except HErr (Meant × List Bool × List (Option RefFrame)) :=
  if x.sef then
    match writeShowExisting s x.sef x.slot with
    | none => .error .writer
    | some bits => .ok (.existing x.slot, bits, rec)
  else
    match buildFi e s x l (if x.ftype = .key then List.replicate 8 none else rec) with
    | none => .error .segmentation
    | some fi =>
      match writeFrameHeader fi with
      | none => .error .writer
      | some bits => .ok (.coded fi, bits, updateRec fi)

/-- All frames, in coded order. -/
def encodeHeaders (e : EncCfg) (s : Seq) :
    List (Option RefFrame) → List (Sched.FI M × Late) → Except HErr (List (Meant × List Bool))
  | _, [] => .ok []
  | rec, (x, l) :: more =>
    match encodeHeader e s rec x l with
    | .error err => .error err
    | .ok (m, bits, rec') =>
      match encodeHeaders e s rec' more with
      | .error err => .error err
      | .ok out => .ok ((m, bits) :: out)

/-- Everything known about a video: the configuration, and what is known of each frame. -/
structure VideoOk (e : EncCfg) (s : Seq) (items : List (Sched.FI M × Late)) : Prop where
  enc : EncOk e
  seq : newSequence e = some s
  rows : e.chroma = .cs422 → s.tiling.tileHeightSb ≤ Tile.Spec.maxTileHeightSb e.width e.height
    (min s.tiling.tileWidthSb (Tile.Spec.sbs e.width))
  frames : ∀ x ∈ items, XOk e.sched x.1 ∧ LateOk s x.2
  still : e.sched.stillPicture = true → ∀ x ∈ items, x.1.ftype = .key

/-- One frame keeps encoder and decoder together. -/
theorem encodeHeader_spec {e : EncCfg} {s : Seq} {x : Sched.FI M} {l : Late}
    {rec : List (Option RefFrame)} {c : Ctx} (v : VideoOk e s [(x, l)])
    (hseq : c.seq = s.hdr e.width e.height) (hrel : x.ftype ≠ .key → Rel e s rec c) :
    encodeHeader e s rec x l ≠ .error .writer ∧
    (e.segmentation = false → ∃ r, encodeHeader e s rec x l = .ok r) ∧
    ∀ m bits rec', encodeHeader e s rec x l = .ok (m, bits, rec') →
      (∀ rest, frameHeader c (bits ++ rest) = some (m.spec, rest)) ∧
      Rel e s rec' (match m with | .coded fi => c.update fi.hdr | .existing _ => c) := by
  obtain ⟨xok, lok⟩ := v.frames (x, l) (by simp)
  have hst : e.sched.stillPicture = true → x.ftype = .key := fun h => v.still h (x, l) (by simp)
  have hred : s.reduced = e.sched.stillPicture := by
    obtain ⟨t, h⟩ := newSequence_eq v.seq; rw [h]
  unfold encodeHeader
  by_cases hs : x.sef = true
  · have hk : x.ftype ≠ .key := fun h => by have := (xok.key h).1; rw [hs] at this; cases this
    have hr : s.reduced = false := by
      rw [hred]; by_contra hn; exact hk (hst (by simpa using hn))
    rw [if_pos hs]
    have hok : Ok (writeShowExisting s x.sef x.slot) := by
      have := xok.slot
      unfold writeShowExisting
      simp [ok_app, ok_assert, ok_bit, ok_lit, hr, hs]
      omega
    obtain ⟨bits, hb⟩ := Option.isSome_iff_exists.1 hok
    rw [hb]
    dsimp only
    refine ⟨by simp, fun _ => ⟨_, rfl⟩, ?_⟩
    intro m bits' rec' h
    simp only [Except.ok.injEq, Prod.mk.injEq] at h
    obtain ⟨rfl, rfl, rfl⟩ := h
    refine ⟨fun rest => show_existing_round_trip s x.sef x.slot c ?_ _ hb rest, hrel hk⟩
    rw [hseq]; rfl
  · have hs : x.sef = false := by simpa using hs
    rw [if_neg (by simp [hs])]
    generalize hrc : (if x.ftype = .key then List.replicate 8 none else rec) = rc
    have hlen : rc.length = 8 := by
      rw [← hrc]
      split
      · simp
      · rename_i h; exact (hrel h).len
    have hrec : ∀ (i : Nat) (r : RefFrame), rc[i]? = some (some r) → SegWf e.segmentation r.segm := by
      intro i r hi
      rw [← hrc] at hi
      split at hi
      · rw [List.getElem?_replicate] at hi
        split at hi <;> cases hi
      · rename_i hk
        have hl := (hrel hk).len
        have hi8 : i < 8 := by
          rw [← hl]; exact (List.getElem?_eq_some_iff.1 hi).1
        obtain ⟨r', h1, h2, _⟩ := (hrel hk).slots i hi8
        rw [h1] at hi
        cases hi
        exact h2
    rcases hb : buildFi e s x l rc with _ | fi
    · dsimp only
      refine ⟨by simp, fun hseg => ?_, by simp⟩
      exfalso
      unfold buildFi at hb
      dsimp only at hb
      rw [hseg] at hb
      simp [frameSegm] at hb
    · have S := buildFi_spec v.enc v.seq v.rows xok hs hst lok hlen hrec hb
      obtain ⟨fok, hwr, swf, fseq, fw, fh, frec, ft⟩ := S
      obtain ⟨bits, hbits⟩ := Option.isSome_iff_exists.1 hwr
      dsimp only
      rw [hbits]
      dsimp only
      refine ⟨by simp, fun _ => ⟨_, rfl⟩, ?_⟩
      intro m bits' rec' h
      simp only [Except.ok.injEq, Prod.mk.injEq] at h
      obtain ⟨rfl, rfl, rfl⟩ := h
      have hkk : fi.frameType ≠ .key → x.ftype ≠ .key := by
        intro h1 h2; rw [ft, h2] at h1; exact h1 rfl
      have ag : Agrees fi c := by
        refine ⟨by rw [fseq, fw, fh]; exact hseq, fun _ => by rw [frec]; exact hlen, fun hk i hi => ?_⟩
        obtain ⟨r, h1, h2, h3⟩ := (hrel (hkk hk)).slots i hi
        refine ⟨r, ?_, by rw [fseq]; exact h3⟩
        rw [frec, ← hrc, if_neg (hkk hk)]
        exact h1
      refine ⟨frame_header_round_trip fi c fok ag bits hbits, ?_⟩
      refine ⟨hseq, ?_, fun i hi => ?_⟩
      · unfold updateRec
        rw [List.length_mapIdx, frec, hlen]
      · have hl : i < fi.recFrames.length := by rw [frec, hlen]; exact hi
        unfold updateRec
        rw [List.getElem?_mapIdx, List.getElem?_eq_getElem hl]
        simp only [Option.map_some]
        have hrf : fi.hdr.start.refresh = fi.refresh := rfl
        unfold Ctx.update
        dsimp only
        rw [hrf]
        by_cases ht : fi.refresh.testBit i = true
        · rw [if_pos ht, if_pos ht]
          refine ⟨_, rfl, swf, ?_⟩
          congr 1
          unfold RefFrame.slot
          rw [fseq.symm]
          have hseg : fi.hdr.seg.features = fi.segm.spec := by
            show fi.segHdr.features = _
            unfold Fi.segHdr Segm.spec
            split
            · rfl
            · rfl
          rw [hseg]
          rfl
        · rw [if_neg ht, if_neg ht]
          have hk : fi.frameType ≠ .key := by
            intro h
            rw [fok.start.keyRefresh h] at ht
            have : i = 0 ∨ i = 1 ∨ i = 2 ∨ i = 3 ∨ i = 4 ∨ i = 5 ∨ i = 6 ∨ i = 7 := by omega
            rcases this with rfl | rfl | rfl | rfl | rfl | rfl | rfl | rfl <;> exact ht (by decide)
          obtain ⟨r, h1, h2, h3⟩ := (hrel (hkk hk)).slots i hi
          refine ⟨r, ?_, h2, h3⟩
          rw [← List.getElem?_eq_getElem hl, frec, ← hrc, if_neg (hkk hk), h1]

theorem VideoOk.tail {e : EncCfg} {s : Seq} {x : Sched.FI M × Late} {items : List (Sched.FI M × Late)}
    (v : VideoOk e s (x :: items)) : VideoOk e s items :=
  ⟨v.enc, v.seq, v.rows, fun y hy => v.frames y (by simp [hy]),
    fun h y hy => v.still h y (by simp [hy])⟩

theorem VideoOk.head {e : EncCfg} {s : Seq} {x : Sched.FI M × Late} {items : List (Sched.FI M × Late)}
    (v : VideoOk e s (x :: items)) : VideoOk e s [x] :=
  ⟨v.enc, v.seq, v.rows, fun y hy => v.frames y (by simp at hy; simp [hy]),
    fun h y hy => v.still h y (by simp at hy; simp [hy])⟩

theorem encodeHeaders_spec {e : EncCfg} {s : Seq} :
    ∀ (items : List (Sched.FI M × Late)) (rec : List (Option RefFrame)) (c : Ctx),
    VideoOk e s items → c.seq = s.hdr e.width e.height →
    ((∀ x ∈ items.head?, x.1.ftype = .key) ∨ Rel e s rec c) →
    encodeHeaders e s rec items ≠ .error .writer ∧
    (e.segmentation = false → ∃ out, encodeHeaders e s rec items = .ok out) ∧
    ∀ out, encodeHeaders e s rec items = .ok out →
      ∀ tails : List (List Bool), tails.length = out.length →
        frameHeaders c (List.zipWith (fun o t => o.2 ++ t) out tails) =
          some (List.zipWith (fun o t => (o.1.spec, t)) out tails)
  | [], rec, c, _, _, _ => by
    refine ⟨by simp [encodeHeaders], fun _ => ⟨[], rfl⟩, ?_⟩
    intro out h tails ht
    simp only [encodeHeaders, Except.ok.injEq] at h
    subst h
    simp [frameHeaders]
  | (x, l) :: more, rec, c, v, hseq, hrel => by
    have hrel' : x.ftype ≠ .key → Rel e s rec c := by
      intro hk
      rcases hrel with h | h
      · exact absurd (h (x, l) (by simp)) hk
      · exact h
    obtain ⟨h1, h2, h3⟩ := encodeHeader_spec v.head hseq hrel'
    unfold encodeHeaders
    rcases hh : encodeHeader e s rec x l with err | ⟨m, bits, rec'⟩
    · dsimp only
      rw [hh] at h1 h2
      refine ⟨?_, ?_, by simp⟩
      · intro h; cases h; exact h1 rfl
      · intro h; obtain ⟨r, hr⟩ := h2 h; cases hr
    · obtain ⟨g1, g2⟩ := h3 m bits rec' hh
      dsimp only
      have hseq' : (match m with | .coded fi => c.update fi.hdr | .existing _ => c).seq =
          s.hdr e.width e.height := g2.seq
      obtain ⟨i1, i2, i3⟩ := encodeHeaders_spec more rec' _ v.tail hseq' (.inr g2)
      rcases he : encodeHeaders e s rec' more with err | out
      · dsimp only
        rw [he] at i1 i2
        refine ⟨?_, ?_, by simp⟩
        · intro h; cases h; exact i1 rfl
        · intro h; obtain ⟨r, hr⟩ := i2 h; cases hr
      · dsimp only
        refine ⟨by simp, fun _ => ⟨_, rfl⟩, ?_⟩
        intro out' h tails ht
        simp only [Except.ok.injEq] at h
        subst h
        match tails, ht with
        | t :: tails, ht =>
          have i3 := i3 out he tails (by simpa using ht)
          simp only [List.zipWith_cons_cons]
          unfold frameHeaders
          rw [g1 t]
          dsimp only
          cases m with
          | coded fi =>
            simp only [Meant.spec] at i3 ⊢
            rw [i3]
          | existing k =>
            simp only [Meant.spec] at i3 ⊢
            rw [i3]

/-- **C14, for a whole video.**  From a key frame on, for every sequence of frames, the encoder never
fails to write a frame header: only the assertion of the segmentation search can stop it, and not
without segmentation.  A decoder that starts there with no references, keeps its own references as
it goes and finds anything at all after each header, parses every header and gets exactly what was
meant. -/
theorem stream_headers_round_trip {e : EncCfg} {s : Seq} (items : List (Sched.FI M × Late))
    (v : VideoOk e s items) (first : ∀ x ∈ items.head?, x.1.ftype = .key)
    (rec : List (Option RefFrame)) (slots : Nat → Option Slot) :
    encodeHeaders e s rec items ≠ .error .writer ∧
    (e.segmentation = false → ∃ out, encodeHeaders e s rec items = .ok out) ∧
    ∀ out, encodeHeaders e s rec items = .ok out →
      ∀ tails : List (List Bool), tails.length = out.length →
        frameHeaders ⟨s.hdr e.width e.height, slots⟩
            (List.zipWith (fun o t => o.2 ++ t) out tails) =
          some (List.zipWith (fun o t => (o.1.spec, t)) out tails) :=
  encodeHeaders_spec items rec _ v rfl (.inl first)

/-! ## The frames the scheduler builds -/

theorem xok_plan {c : Sched.Cfg} {K : Nat → Bool} {lim : Option Nat} {o : Nat} {p : Sched.FI Unit}
    (h : Sched.plan c K lim o = some p) : XOk c p := by
  unfold Sched.plan at h
  dsimp only at h
  split at h
  · simp only [Option.some.injEq] at h
    subst h
    have := xok_key c (Sched.sched c K lim o).1 ([] : List Unit)
    exact ⟨this.1, this.2, this.3, this.4, this.5, this.6, this.7, this.8, this.9⟩
  · simp only [Option.map_eq_some_iff] at h
    obtain ⟨x, hx, rfl⟩ := h
    have := xok_inter hx
    exact ⟨this.1, this.2, this.3, this.4, this.5, this.6, this.7, this.8, this.9⟩

/-- The frames at the first `n` output positions, with the late decisions `l` for each. -/
def planned (c : Sched.Cfg) (K : Nat → Bool) (lim : Option Nat) (l : Nat → Late) (n : Nat) :
    List (Sched.FI Unit × Late) :=
  (List.range n).filterMap fun o => (Sched.plan c K lim o).map fun p => (p, l o)

/-- **C14, for every video the scheduler makes**: whatever frames are forced or detected to be key
frames, wherever the video ends and whatever the encoder decides about quantizers, filters,
segments and tiles, all headers are written and a decoder reads back what was meant. -/
theorem scheduled_headers_round_trip {e : EncCfg} {s : Seq} (ok : EncOk e)
    (hs : newSequence e = some s)
    (hrows : e.chroma = .cs422 → s.tiling.tileHeightSb ≤ Tile.Spec.maxTileHeightSb e.width e.height
      (min s.tiling.tileWidthSb (Tile.Spec.sbs e.width)))
    (K : Nat → Bool) (lim : Option Nat) (l : Nat → Late) (hl : ∀ o, LateOk s (l o)) (n : Nat)
    (hstill : e.sched.stillPicture = true → n ≤ 1) :
    encodeHeaders e s (List.replicate 8 none) (planned e.sched K lim l n) ≠ .error .writer ∧
    (e.segmentation = false → ∃ out,
      encodeHeaders e s (List.replicate 8 none) (planned e.sched K lim l n) = .ok out) ∧
    ∀ out, encodeHeaders e s (List.replicate 8 none) (planned e.sched K lim l n) = .ok out →
      ∀ tails : List (List Bool), tails.length = out.length →
        frameHeaders ⟨s.hdr e.width e.height, fun _ => none⟩
            (List.zipWith (fun o t => o.2 ++ t) out tails) =
          some (List.zipWith (fun o t => (o.1.spec, t)) out tails) := by
  have h0 : ∃ p, Sched.plan e.sched K lim 0 = some p ∧ p.ftype = .key := by
    refine ⟨_, by simp [Sched.plan, Sched.sched]; rfl, rfl⟩
  obtain ⟨p0, h0, hk0⟩ := h0
  have hmem : ∀ x ∈ planned e.sched K lim l n, ∃ o, o < n ∧ Sched.plan e.sched K lim o = some x.1 ∧
      x.2 = l o := by
    intro x hx
    simp only [planned, List.mem_filterMap, List.mem_range, Option.map_eq_some_iff] at hx
    obtain ⟨o, ho, p, hp, rfl⟩ := hx
    exact ⟨o, ho, hp, rfl⟩
  refine stream_headers_round_trip _ ⟨ok, hs, hrows, ?_, ?_⟩ ?_ _ _
  · intro x hx
    obtain ⟨o, _, hp, he⟩ := hmem x hx
    exact ⟨xok_plan hp, by rw [he]; exact hl o⟩
  · intro hst x hx
    obtain ⟨o, ho, hp, _⟩ := hmem x hx
    have : o = 0 := by have := hstill hst; omega
    subst this
    rw [h0] at hp
    cases hp
    exact hk0
  · intro x hx
    cases n with
    | zero => simp [planned] at hx
    | succ n =>
      rw [planned, List.range_succ_eq_map, List.filterMap_cons, h0] at hx
      simp at hx
      rw [← hx]
      exact hk0

end Rav1e.Hdr

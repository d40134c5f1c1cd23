import Verif.Block.Rt

/-!
# Blocks

A block is read back, and the arrays of the encoder go on to say what the decoder has stored.
-/

namespace Rav1e.Block

open Mvref (refInt modeOf Small I16 GeoOk In Leaf inputAt)
open Spec (Sym)

/-! ### What is read -/

/-- The motion of a block. -/
def infoOf (ch : Choice) : Mvref.Spec.Info := if ch.mode = .intra then Spec.intraInfo else ⟨modeOf ch.mode, refInt ch.ref0, refInt ch.ref1, ch.mv0, ch.mv1⟩

/-- What a decoder gets for a block. -/
def hdrOf (C : Cfg) (e : Entry) : Spec.Hdr :=
  if e.ch.mode = .intra then
    ⟨e.ch.skip, e.ch.seg, Spec.intraInfo, e.ch.intraMode, e.ch.angleY, (uvOf C e.x e.y e.w e.h e.ch).1, (uvOf C e.x e.y e.w e.h e.ch).2.1,
      (uvOf C e.x e.y e.w e.h e.ch).2.2.1, (uvOf C e.x e.y e.w e.h e.ch).2.2.2⟩
  else ⟨e.ch.skip, e.ch.seg, ⟨modeOf e.ch.mode, refInt e.ch.ref0, refInt e.ch.ref1, e.ch.mv0, e.ch.mv1⟩, 0, 0, 0, 0, 0, 0⟩

/-- A block at its place in the frame. -/
def place (C : Cfg) (e : Entry) : Spec.Blk := ⟨C.y + e.y, C.x + e.x, e.w, e.h, hdrOf C e⟩

theorem place_motion (C : Cfg) (e : Entry) : (place C e).motion = ⟨C.y + e.y, C.x + e.x, e.w, e.h, infoOf e.ch⟩ := by
  unfold place Spec.Blk.motion hdrOf infoOf
  split_ifs <;> rfl

/-- What has been decided for an inter block: references as above, a mode for so many vectors, vectors that are what the mode says about the candidates, and
new ones that may be coded. -/
structure InterOk (e : Entry) : Prop where
  refs : RefsOk e.ch.ref0 e.ch.ref1
  compound : e.ch.mode.isCompound = decide (e.ch.ref1 ≠ 8)
  single : e.ch.ref1 = 8 → e.ch.mv1 = (0, 0)
  mv0 : Small e.ch.mv0
  mv1 : Small e.ch.mv1
  vectors : Mvref.Says e.ch.mode e.ch.mv0 e.ch.mv1 e.stack
  news : Mvref.NewsOk e.ch.mode e.ch.mv0 e.ch.mv1 e.stack

/-- What has been decided for a block. -/
structure EntryOk (C : Cfg) (e : Entry) : Prop where
  seg : C.segEnabled = false → e.ch.seg = 0
  intra : e.ch.mode = .intra → IntraOk C e.x e.y e.w e.h e.ch
  inter : e.ch.mode ≠ .intra → InterOk e

/-! ### What has been decoded -/

/-- What the decoder has stored when the encoder is in this state. -/
def State.dec (C : Cfg) (S : State) : Nat → Nat → Option Spec.Blk := Spec.decoded (S.log.map (place C))

theorem decoded_snoc (l : List Spec.Blk) (b : Spec.Blk) (r c : Nat) : Spec.decoded (l ++ [b]) r c = if b.Covers r c then some b else Spec.decoded l r c := by
  unfold Spec.decoded
  rw [List.foldl_append]
  rfl

theorem decoded_motion (l : List Spec.Blk) (r c : Nat) : Mvref.Spec.decoded (l.map Spec.Blk.motion) r c = (Spec.decoded l r c).map Spec.Blk.motion := by
  have key : ∀ (l : List Spec.Blk) (d : Nat → Nat → Option Spec.Blk) (d' : Mvref.Spec.Frame), (∀ r c, d' r c = (d r c).map Spec.Blk.motion) → ∀ r c,
      (l.map Spec.Blk.motion).foldl Mvref.Spec.Frame.store d' r c = (l.foldl (fun d b r c => if b.Covers r c then some b else d r c) d r c).map Spec.Blk.motion := by
    intro l
    induction l with
    | nil => intro d d' h r c; exact h r c
    | cons b l ih =>
      intro d d' h r c
      rw [List.map_cons, List.foldl_cons, List.foldl_cons]
      refine ih _ _ (fun r c => ?_) r c
      unfold Mvref.Spec.Frame.store
      have e : b.motion.Covers r c ↔ b.Covers r c := Iff.rfl
      by_cases hb : b.Covers r c
      · rw [if_pos (e.mpr hb), if_pos hb]; rfl
      · rw [if_neg (fun h => hb (e.mp h)), if_neg hb]; exact h r c
  exact key l (fun _ _ => none) (fun _ _ => none) (fun _ _ => rfl) r c

/-- The encoder's arrays say what the decoder has stored; elsewhere there may be anything that fits. -/
structure DataOk (C : Cfg) (S : State) : Prop where
  shows : ∀ {r c : Nat} {b : Spec.Blk}, r < C.rows → c < C.cols → S.dec C (C.y + r) (C.x + c) = some b → Shows C.lastActiveSegid (S.data r c) b
  i16 : ∀ r c, I16 (S.data r c).blk.mv0 ∧ I16 (S.data r c).blk.mv1

variable {C : Cfg} {S S' : State}

theorem DataOk.look (D : DataOk C S) {r c : Nat} (hr : r < C.rows) (hc : c < C.cols) (hs : (S.dec C (C.y + r) (C.x + c)).isSome) :
    ∃ b, C.par.look (S.dec C) ((C.y + r : Nat) : Int) ((C.x + c : Nat) : Int) = some (some b) ∧ Shows C.lastActiveSegid (S.data r c) b := by
  obtain ⟨b, hb⟩ := Option.isSome_iff_exists.mp hs
  refine ⟨b, ?_, D.shows hr hc hb⟩
  unfold Spec.Par.look
  rw [if_pos (Mvref.isInside_iff.mpr ⟨by show C.y ≤ _; omega, by show _ < C.y + C.rows; omega, by show C.x ≤ _; omega, by show _ < C.x + C.cols; omega⟩),
    Int.toNat_natCast, Int.toNat_natCast, hb]
  rfl

theorem look_out {d : Nat → Nat → Option Spec.Blk} {r c : Int} (h : r < C.y ∨ c < C.x) : C.par.look d r c = some none := by
  unfold Spec.Par.look
  rw [if_neg]
  unfold Mvref.Spec.Geo.isInside Cfg.par
  simp only [Bool.and_eq_true, decide_eq_true_eq]
  omega

/-- The neighbours. -/
theorem DataOk.nbs (D : DataOk C S) {x y : Nat} (hx : x < C.cols) (hy : y < C.rows)
    (ha : ∀ {j}, j ≤ x → 0 < y → (S.dec C (C.y + (y - 1)) (C.x + j)).isSome) (hl : 0 < x → (S.dec C (C.y + y) (C.x + (x - 1))).isSome) :
    ∃ a' l' ul', C.par.look (S.dec C) (((C.y + y : Nat) : Int) - 1) ((C.x + x : Nat) : Int) = some a' ∧
      C.par.look (S.dec C) ((C.y + y : Nat) : Int) (((C.x + x : Nat) : Int) - 1) = some l' ∧
      C.par.look (S.dec C) (((C.y + y : Nat) : Int) - 1) (((C.x + x : Nat) : Int) - 1) = some ul' ∧
      Nb C.lastActiveSegid (S.above x y) a' ∧ Nb C.lastActiveSegid (S.left x y) l' ∧
      ((S.above x y).isSome = true → (S.left x y).isSome = true → Nb C.lastActiveSegid (S.aboveLeft x y) ul') := by
  have A : ∃ a', C.par.look (S.dec C) (((C.y + y : Nat) : Int) - 1) ((C.x + x : Nat) : Int) = some a' ∧ Nb C.lastActiveSegid (S.above x y) a' := by
    unfold State.above
    by_cases h : y > 0
    · obtain ⟨b, h1, h2⟩ := D.look (r := y - 1) (c := x) (by omega) hx (ha (Nat.le_refl _) h)
      refine ⟨some b, ?_, by rw [if_pos h]; exact .one h2⟩
      rw [← h1]; congr 1; omega
    · exact ⟨none, look_out (.inl (by omega)), by rw [if_neg h]; exact .out⟩
  have L : ∃ l', C.par.look (S.dec C) ((C.y + y : Nat) : Int) (((C.x + x : Nat) : Int) - 1) = some l' ∧ Nb C.lastActiveSegid (S.left x y) l' := by
    unfold State.left
    by_cases h : x > 0
    · obtain ⟨b, h1, h2⟩ := D.look (r := y) (c := x - 1) hy (by omega) (hl h)
      refine ⟨some b, ?_, by rw [if_pos h]; exact .one h2⟩
      rw [← h1]; congr 1; omega
    · exact ⟨none, look_out (.inr (by omega)), by rw [if_neg h]; exact .out⟩
  have U : ∃ ul', C.par.look (S.dec C) (((C.y + y : Nat) : Int) - 1) (((C.x + x : Nat) : Int) - 1) = some ul' ∧ Nb C.lastActiveSegid (S.aboveLeft x y) ul' := by
    unfold State.aboveLeft
    by_cases h : x > 0 ∧ y > 0
    · obtain ⟨b, h1, h2⟩ := D.look (r := y - 1) (c := x - 1) (by omega) (by omega) (ha (by omega) h.2)
      refine ⟨some b, ?_, by rw [if_pos h]; exact .one h2⟩
      rw [← h1]; congr 1 <;> omega
    · exact ⟨none, look_out (by omega), by rw [if_neg h]; exact .out⟩
  obtain ⟨a', a1, a2⟩ := A
  obtain ⟨l', l1, l2⟩ := L
  obtain ⟨u', u1, u2⟩ := U
  exact ⟨a', l', u', a1, l1, u1, a2, l2, fun _ _ => u2⟩

/-! ### A block -/

theorem motionPart_append (l : List Mvref.Spec.Sym) (rest : List Sym) :
    Spec.motionPart (l.map (fun s => (Spec.Cdf.motion s.1, s.2)) ++ rest) = l ++ Spec.motionPart rest ∧
      Spec.motionRest (l.map (fun s => (Spec.Cdf.motion s.1, s.2)) ++ rest) = Spec.motionRest rest := by
  induction l with
  | nil => exact ⟨rfl, rfl⟩
  | cons s l ih =>
    simp only [List.map_cons, List.cons_append, Spec.motionPart, Spec.motionRest, ih, and_self]

theorem motion_split : ∀ rest : List Sym, (Spec.motionPart rest).map (fun s => (Spec.Cdf.motion s.1, s.2)) ++ Spec.motionRest rest = rest
  | [] => rfl
  | (c, v) :: rest => by
    have ih := motion_split rest
    cases c <;> simp [Spec.motionPart, Spec.motionRest]
    exact ih

/-- What is stored for the block shows what a decoder stores. -/
theorem shows_blockOf {e : Entry} (E : EntryOk C e) (hs : e.ch.seg ≤ C.lastActiveSegid) : Shows C.lastActiveSegid (blockOf e.w e.h e.ch) (place C e) := by
  have hz : Small (0, 0) := by unfold Small; decide
  by_cases hm : e.ch.mode = .intra
  · have I := E.intra hm
    have hh : hdrOf C e = _ := if_pos hm
    refine ⟨?_, ?_, ?_, hs, ?_, .inl ⟨hm, I.ref0, I.ref1⟩⟩
    · rw [place_motion]
      refine ⟨rfl, rfl, ?_, ?_, ?_, ?_, ?_⟩
      · unfold infoOf
        rw [if_pos hm]
        simp only [Mvref.infoOf, blockOf, hm, I.ref0, I.ref1, I.mv0, I.mv1]
        rfl
      · show e.ch.ref0 ≤ 8; have := I.ref0; omega
      · show e.ch.ref1 ≤ 8; have := I.ref1; omega
      · show Small e.ch.mv0; rw [I.mv0]; exact hz
      · show Small e.ch.mv1; rw [I.mv1]; exact hz
    · show _ = (hdrOf C e).skip; rw [hh]; rfl
    · show _ = (hdrOf C e).segmentId; rw [hh]; rfl
    · intro _; show _ = (hdrOf C e).yMode; rw [hh]; rfl
  · have I := E.inter hm
    have hh : hdrOf C e = _ := if_neg hm
    have hr := I.refs
    unfold RefsOk at hr
    refine ⟨?_, ?_, ?_, hs, fun h => absurd h hm, .inr ⟨hm, ?_, ?_⟩⟩
    · rw [place_motion]
      refine ⟨rfl, rfl, ?_, ?_, ?_, I.mv0, I.mv1⟩
      · unfold infoOf; rw [if_neg hm]; rfl
      · show e.ch.ref0 ≤ 8; omega
      · show e.ch.ref1 ≤ 8; omega
    · show _ = (hdrOf C e).skip; rw [hh]; rfl
    · show _ = (hdrOf C e).segmentId; rw [hh]; rfl
    · show 1 ≤ e.ch.ref0 ∧ e.ch.ref0 ≤ 7; omega
    · show e.ch.ref1 = 8 ∨ 1 ≤ e.ch.ref1 ∧ e.ch.ref1 ≤ 7; omega

/-- Storing a block. -/
theorem DataOk.set (D : DataOk C S) {e : Entry} (E : EntryOk C e) (hs : e.ch.seg ≤ C.lastActiveSegid) {aboveP leftP : Nat → Nat} :
    DataOk C ⟨setBlock C S.data e.x e.y e.w e.h (blockOf e.w e.h e.ch), aboveP, leftP, S.log ++ [e]⟩ := by
  have hsh := shows_blockOf E hs
  constructor
  · intro r c b hr hc hb
    unfold State.dec at hb
    rw [List.map_append, List.map_singleton, decoded_snoc] at hb
    unfold setBlock
    dsimp only
    have hcov : (place C e).Covers (C.y + r) (C.x + c) ↔ (e.y ≤ r ∧ r < e.y + e.h ∧ e.x ≤ c ∧ c < e.x + e.w) := by
      unfold Spec.Blk.Covers place
      dsimp only
      omega
    by_cases h : (place C e).Covers (C.y + r) (C.x + c)
    · rw [if_pos h, Option.some.injEq] at hb
      subst hb
      obtain ⟨h1, h2, h3, h4⟩ := hcov.mp h
      rw [if_pos ⟨h1, h2, h3, h4, hr, hc⟩]
      exact hsh
    · rw [if_neg h] at hb
      rw [if_neg (fun h' => h (hcov.mpr ⟨h'.1, h'.2.1, h'.2.2.1, h'.2.2.2.1⟩))]
      exact D.shows hr hc hb
  · intro r c
    unfold setBlock
    dsimp only
    split_ifs
    · have h1 := hsh.motion.mv0
      have h2 := hsh.motion.mv1
      unfold Small at h1 h2
      unfold I16
      omega
    · exact D.i16 r c

/-- **A block.**  Where the encoder's arrays say what the decoder has stored, and the block comes next in the tile: the decoder reads back what has been decided for
it, and nothing more. -/
theorem block_rt (G : GeoOk C.par.g) (h7 : C.lastActiveSegid ≤ 7) {T : Nat → Nat → Mvref.Spec.Tree} (ht : ∀ r c, (T r c).Ok 16) (D : DataOk C S)
    {x y w h : Nat} {ch : Choice} (hw : Size w h) (hx : x < C.cols) (hy : y < C.rows) {s : List Sym} (he : encodeBlock C S x y w h ch = some (s, S')) :
    ∃ e : Entry, S'.log = S.log ++ [e] ∧ (e.x = x ∧ e.y = y ∧ e.w = w ∧ e.h = h) ∧ (e.ch.mode = ch.mode ∧ infoOf e.ch = infoOf ch) ∧
      S'.aboveP = S.aboveP ∧ S'.leftP = S.leftP ∧
      ∀ {post : List Mvref.Spec.Blk}, C.par.g.tile T = (S.log.map (place C)).map Spec.Blk.motion ++ (place C e).motion :: post → EntryOk C e →
        DataOk C S' ∧ ∀ rest, Spec.readBlock C.par (S.log.map (place C)) (C.y + y) (C.x + x) w h (s ++ rest) = some (place C e, rest) := by
  unfold encodeBlock at he
  simp only [Option.bind_eq_bind, Option.bind_eq_some_iff, Option.some.injEq, Prod.mk.injEq] at he
  obtain ⟨⟨s0, seg⟩, h0, ⟨s1, stack⟩, h1, rfl, rfl⟩ := he
  dsimp only at h1
  refine ⟨⟨x, y, w, h, { ch with seg := seg }, stack⟩, rfl, ⟨rfl, rfl, rfl, rfl⟩, ⟨rfl, rfl⟩, rfl, rfl, ?_⟩
  intro post hb E
  have L := Mvref.tile_leaf G ht hb
  have hdm := decoded_motion (S.log.map (place C))
  have hsome : ∀ {r c}, (Mvref.Spec.decoded ((S.log.map (place C)).map Spec.Blk.motion) r c).isSome → (S.dec C r c).isSome := by
    intro r c h
    rw [hdm] at h
    unfold State.dec
    cases hh : Spec.decoded (S.log.map (place C)) r c with
    | none => rw [hh] at h; cases h
    | some b => rfl
  have hinv := L.inv
  have hg : C.par.g = ⟨C.frameRows, C.frameCols, C.y, C.y + C.rows, C.x, C.x + C.cols⟩ := rfl
  have hin : ∀ {r c : Nat}, r < C.rows → c < C.cols → In C.par.g (C.y + r) (C.x + c) := by
    intro r c h1 h2
    rw [hg]
    unfold In
    dsimp only
    omega
  have hpm := place_motion C ⟨x, y, w, h, { ch with seg := seg }, stack⟩
  rw [hpm] at hinv
  obtain ⟨a', l', ul', k1, k2, k3, na, nl, nul⟩ := D.nbs hx hy
    (fun {j} hj hy0 => hsome (hinv.above (hin (by omega) (by omega)) (by dsimp only; omega) (by
      have : 0 < w := by unfold Size at hw; simp only [List.mem_cons, Prod.mk.injEq, List.not_mem_nil, or_false] at hw; omega
      dsimp only; omega)))
    (fun hx0 => hsome (hinv.left (hin hy (by omega)) (by dsimp only; omega) (by
      have : 0 < h := by unfold Size at hw; simp only [List.mem_cons, Prod.mk.injEq, List.not_mem_nil, or_false] at hw; omega
      dsimp only; omega)))
  have hx2 : C.x % 2 = 0 := by have := G.col0; rw [hg] at this; dsimp only at this; omega
  have hy2 : C.y % 2 = 0 := by have := G.row0; rw [hg] at this; dsimp only at this; omega
  have hseg0 : C.segEnabled = false → ch.seg = 0 := by
    intro hf
    have := E.seg hf
    unfold encodePre at h0
    rw [hf] at h0
    simp only [Bool.false_and, Bool.false_eq_true, if_false, Option.bind_eq_bind, Option.bind_some, Option.some.injEq, Prod.mk.injEq] at h0
    rw [h0.2]
    exact this
  have hsl : seg ≤ C.lastActiveSegid := (pre_rt na nl nul h7 hseg0 h0 []).2
  refine ⟨D.set E hsl, fun rest => ?_⟩
  unfold Spec.readBlock
  have e1 : Spec.decoded (S.log.map (place C)) = S.dec C := rfl
  rw [e1]
  simp only [k1, k2, k3, Option.bind_eq_bind, Option.bind_some, List.append_assoc, (pre_rt na nl nul h7 hseg0 h0 _).1]
  unfold encodePost at h1
  dsimp only at h1
  have hii := is_inter_ctx na nl
  by_cases hm : ch.mode = .intra
  · have I := E.intra hm
    rw [show decide (ch.mode ≠ .intra) = false by simp [hm], Bool.and_false, if_neg (by simp), if_neg (by simp)] at h1
    simp only [Option.bind_eq_bind, Option.bind_eq_some_iff, Option.some.injEq, Prod.mk.injEq] at h1
    obtain ⟨s2, h2, rfl, rfl⟩ := h1
    have hr := intra_rt hx2 hy2 na nl hw I h2 rest
    have hp : place C ⟨x, y, w, h, { ch with seg := seg }, []⟩ = ⟨C.y + y, C.x + x, w, h, ⟨ch.skip, seg, Spec.intraInfo, ch.intraMode, ch.angleY,
        (uvOf C x y w h { ch with seg := seg }).1, (uvOf C x y w h { ch with seg := seg }).2.1, (uvOf C x y w h { ch with seg := seg }).2.2.1,
        (uvOf C x y w h { ch with seg := seg }).2.2.2⟩⟩ := by
      unfold place hdrOf
      rw [if_pos hm]
    rw [hp]
    by_cases hi : C.hasInter = true
    · rw [if_pos hi, if_neg (by show ¬ (!C.hasInter) = true; simp [hi]), hii, List.cons_append, List.nil_append, List.cons_append, read_cons (by decide : 0 < 2)]
      simp only [Option.bind_some]
      rw [if_neg (by decide)]
      rw [hr]
      rfl
    · rw [if_neg hi, if_pos (by show (!C.hasInter) = true; simp [hi]), List.nil_append]
      rw [if_neg (by decide), hr]
      rfl
  · have I := E.inter hm
    rw [show decide (ch.mode ≠ .intra) = true by simp [hm]] at h1
    by_cases hi : C.hasInter = true
    · rw [if_pos (by simp [hi])] at h1
      simp only [Option.bind_eq_bind, Option.bind_eq_some_iff, Option.some.injEq, Prod.mk.injEq] at h1
      obtain ⟨f, h2, s2, h3, ⟨st, ctx⟩, h4, s3, h5, rfl, rfl⟩ := h1
      dsimp only at h5
      rw [if_neg (by show ¬ (!C.hasInter) = true; simp [hi]), hii]
      simp only [List.cons_append, List.append_assoc]
      rw [read_cons (by decide : 1 < 2)]
      simp only [Option.bind_some, if_true]
      obtain ⟨f', g1, g2⟩ := ref_counts na nl
      rw [h2, Option.some.injEq] at g1
      subst g1
      have hrr : RefsOk ch.ref0 ch.ref1 := I.refs
      rw [show C.par.referenceSelect = C.multiref from rfl, refs_rt na nl g2 hrr h3]
      simp only [Option.bind_some]
      have R : Mvref.Rel (S.env C x y w h { ch with seg := seg })
          (inputAt C.par.g ((S.log.map (place C)).map Spec.Blk.motion) (place C ⟨x, y, w, h, { ch with seg := seg }, st⟩).motion (refInt ch.ref0) (refInt ch.ref1)
            C.par.signBias) := by
        rw [hpm]
        unfold RefsOk at hrr
        refine ⟨rfl, rfl, rfl, rfl, rfl, rfl, rfl, rfl, rfl, rfl, rfl, rfl, ?_, ?_, ?_, ?_, ?_⟩
        · show 1 ≤ ch.ref0 ∧ ch.ref0 ≤ 7; omega
        · show decide (ch.ref1 ≠ 8) = true ∧ 1 ≤ ch.ref1 ∧ ch.ref1 ≤ 7 ∨ decide (ch.ref1 ≠ 8) = false ∧ ch.ref1 = 8
          rcases hrr with hrr | hrr
          · exact .inr ⟨by simp [hrr.2], hrr.2⟩
          · exact .inl ⟨by rw [decide_eq_true_eq]; omega, by omega⟩
        · intro r h1 h2
          show C.signBias ((r : Int) - 1).toNat = C.signBias (r - 1)
          congr 1
          omega
        · exact D.i16
        · intro r c b hr hc hb
          have hb : Mvref.Spec.decoded ((S.log.map (place C)).map Spec.Blk.motion) (C.y + r) (C.x + c) = some b := hb
          rw [hdm, Option.map_eq_some_iff] at hb
          obtain ⟨b', hb', rfl⟩ := hb
          exact (D.shows hr hc hb').motion
      obtain ⟨out, lm, m1, m2, m3⟩ := Mvref.motion_decoder G ht hb R h4 (m := ch.mode) (mv0 := ch.mv0) (mv1 := ch.mv1) I.compound I.vectors I.news
      rw [h5, Option.some.injEq] at m2
      subst m2
      have hmo : ∀ pre, Spec.readMotion C.par (S.log.map (place C)) (C.y + y) (C.x + x) w h (refInt ch.ref0) (refInt ch.ref1)
          (s3.map (fun s => (Spec.Cdf.motion s.1, s.2)) ++ pre) = some (⟨modeOf ch.mode, refInt ch.ref0, refInt ch.ref1, ch.mv0, ch.mv1⟩, pre) := by
        intro pre
        unfold Spec.readMotion
        have hI : (Mvref.Spec.Input.mk C.par.g (Mvref.Spec.decoded ((S.log.map (place C)).map Spec.Blk.motion)) (C.y + y) (C.x + x) w h (refInt ch.ref0)
            (refInt ch.ref1) C.par.signBias).findMvStack = some out := by
          rw [← m1, hpm]; rfl
        rw [hI]
        simp only [Option.bind_eq_bind, Option.bind_some]
        rw [(motionPart_append s3 pre).1, (motionPart_append s3 pre).2, m3]
        simp only [Option.bind_some]
        rw [motion_split]
        congr 3
        unfold RefsOk at hrr
        by_cases h8 : ch.ref1 = 8
        · have : ¬ refInt ch.ref1 > 0 := by rw [h8]; decide
          rw [if_neg this]
          exact (I.single h8).symm
        · have : refInt ch.ref1 > 0 := by unfold refInt; rw [if_neg h8]; omega
          rw [if_pos this]
          rfl
      rw [hmo]
      simp only [Option.bind_some]
      unfold place hdrOf
      rw [if_neg hm]
    · rw [if_neg (by simp [hi]), if_pos rfl] at h1
      cases h1

end Rav1e.Block

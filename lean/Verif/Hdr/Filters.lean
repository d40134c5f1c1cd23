import Verif.Hdr.Params

/-!
# Frame header: loop filter, CDEF, restoration, modes
-/

namespace Rav1e.Hdr
open Av1Spec

/-- What `FrameInvariants::new` and `DeblockState::default` fix. -/
structure FilterOk (fi : Fi) : Prop where
  baseQ : 0 < fi.baseQ
  noDeltaQ : fi.deltaQ = false
  noDeltas : fi.deblock.deltasEnabled = false

theorem codes_delta (fi : Fi) (ok : FilterOk fi) (ibc : Bool) :
    Codes (bit false ⊹ writeDeblockA fi) (deltaParams fi.baseQ ibc) (none, none) := by
  unfold deltaParams writeDeblockA
  rw [ok.noDeltaQ, decide_eq_true ok.baseQ]
  refine Codes.bind (codes_bit _) ?_
  exact Codes.pure _

/-- The expected loop filter parameters. -/
def Fi.lfHdr (fi : Fi) (refDeltas modeDeltas : List Int) : Lf :=
  let l := fun i => fi.deblock.levels.getD i 0
  let chroma := fi.seq.chroma ≠ .cs400 ∧ (0 < l 0 ∨ 0 < l 1)
  { level0 := l 0, level1 := l 1, levelU := if chroma then l 2 else 0,
    levelV := if chroma then l 3 else 0, sharpness := fi.deblock.sharpness,
    deltaEnabled := false, refDeltas, modeDeltas }

theorem codes_lf (fi : Fi) (ok : FilterOk fi) {w h : Nat} (rd md : List Int) :
    Codes (writeDeblockB fi) (loopFilter (fi.seq.hdr w h) false rd md) (fi.lfHdr rd md) := by
  unfold writeDeblockB loopFilter
  dsimp only
  refine codes_withAt fun l0 h0 => codes_withAt fun l1 h1 => codes_withAt fun l2 h2 =>
    codes_withAt fun l3 h3 => ?_
  rw [if_neg (show ¬ (false = true) by decide)]
  refine Codes.assert fun _ => Codes.bind (codes_lit _ _) (Codes.assert fun _ =>
    Codes.bind (codes_lit _ _) ?_)
  refine Codes.bind (a := (if fi.seq.chroma ≠ .cs400 ∧ (0 < l0 ∨ 0 < l1) then l2 else 0,
    if fi.seq.chroma ≠ .cs400 ∧ (0 < l0 ∨ 0 < l1) then l3 else 0)) ?_ ?_
  · refine codes_opt ?_ (fun hc => ?_) (fun hc => by rw [if_neg hc, if_neg hc])
    · simp [Seq.hdr]; omega
    · rw [if_pos hc, if_pos hc]
      exact Codes.assert fun _ => Codes.bind (codes_lit _ _) (Codes.assert fun _ =>
        Codes.map (codes_lit _ _) rfl)
  · refine Codes.bind (codes_lit _ _) ?_
    rw [ok.noDeltas]
    refine Codes.bind (codes_bit _) ?_
    refine Codes.eq (Codes.pure _) ?_
    simp [Fi.lfHdr, List.getD, h0, h1, h2, h3]

/-! ## CDEF -/

/-- Primary and secondary strength of a packed value. -/
def cdefPair (v : Nat) : Nat × Nat := (v / 4, if v % 4 = 3 then 4 else v % 4)

/-- The expected CDEF parameters. -/
def Fi.cdefHdr (fi : Fi) : Cdef :=
  if fi.seq.cdef then
    { damping := fi.cdefDamping, bits := fi.cdefBits,
      y := (List.range (2 ^ fi.cdefBits)).map fun i => cdefPair (fi.cdefY.getD i 0),
      uv := (List.range (2 ^ fi.cdefBits)).map fun i =>
        if fi.seq.chroma = .cs400 then (0, 0) else cdefPair (fi.cdefUv.getD i 0) }
  else ⟨3, 0, [(0, 0)], [(0, 0)]⟩

theorem lit6_split : ∀ y < 64, lit 6 y = (lit 4 (y / 4) ⊹ lit 2 (y % 4)) := by decide +kernel

theorem codes_strength {v : Nat} (h : v < 64) : Codes (lit 6 v) cdefStrength (cdefPair v) := by
  rw [lit6_split v h]
  unfold cdefStrength
  refine Codes.bind (codes_lit _ _) (Codes.map (codes_lit _ _) ?_)
  unfold cdefPair
  congr 1
  split
  · omega
  · rfl

theorem codes_cdef (fi : Fi) (hi : fi.allowIntrabc = false) {w h : Nat} :
    Codes (writeCdef fi) (cdefParams (fi.seq.hdr w h) false) fi.cdefHdr := by
  unfold writeCdef cdefParams Fi.cdefHdr
  have hc : (fi.seq.hdr w h).cdef = fi.seq.cdef := rfl
  have hm : (fi.seq.hdr w h).mono = (fi.seq.chroma == .cs400) := rfl
  rw [hi, hc]
  cases hcd : fi.seq.cdef with
  | false => exact Codes.pure _
  | true =>
    simp only [Bool.not_true, Bool.not_false, Bool.and_self, Bool.or_self, Bool.false_eq_true, if_true,
      if_false]
    refine Codes.assert fun h3 => Codes.assert fun h6 => Codes.bind (codes_lit _ _)
      (Codes.assert fun _ => Codes.bind (codes_lit _ _) ?_)
    have := codes_times (n := 2 ^ fi.cdefBits) (xs := List.range (2 ^ fi.cdefBits))
      (g := fun i => withAt fi.cdefY i fun y => withAt fi.cdefUv i fun uv =>
        assertW (y < 64) ⊹ assertW (uv < 64) ⊹ lit 6 y ⊹
        (if fi.seq.chroma ≠ .cs400 then lit 6 uv else W.nil))
      (p := do
        let y ← cdefStrength
        let uv ← Parser.opt (!(fi.seq.hdr w h).mono) cdefStrength (0, 0)
        pure (y, uv))
      (r := fun i => (cdefPair (fi.cdefY.getD i 0),
        if fi.seq.chroma = .cs400 then (0, 0) else cdefPair (fi.cdefUv.getD i 0)))
      (by simp)
      (fun i _ => by
        refine codes_withAt fun y hy => codes_withAt fun uv huv => ?_
        refine Codes.assert fun h1 => Codes.assert fun h2 => ?_
        refine Codes.bind (codes_strength h1) ?_
        simp only [List.getD, hy, huv, Option.getD_some, hm]
        refine Codes.map (a := if fi.seq.chroma = .cs400 then (0, 0) else cdefPair uv) ?_ rfl
        refine codes_opt (by simp) (fun hn => ?_) (fun hn => ?_)
        · rw [if_neg hn]; exact codes_strength h2
        · rw [if_pos (by simpa using hn)])
    refine Codes.map this ?_
    simp only [List.map_map, Cdef.mk.injEq]
    exact ⟨by omega, trivial, rfl, rfl⟩

/-! ## Loop restoration -/

/-- The plane configurations of `RestorationState::new` (`lrf.rs:1321-1427`): unit sizes of 64, 128
or 256, and chroma units of the same size, or of half the size in 4:2:0. -/
structure LrOk (fi : Fi) : Prop where
  unit : ∀ p0 p1 : LrPlane, fi.lr[0]? = some p0 → fi.lr[1]? = some p1 →
    (p0.unitSize = 64 ∨ p0.unitSize = 128 ∨ p0.unitSize = 256) ∧
    (p1.unitSize = p0.unitSize ∨ fi.seq.chroma = .cs420 ∧ p1.unitSize = p0.unitSize / 2)

/-- Is a chroma plane restored? -/
def Fi.lrChroma (fi : Fi) : Bool :=
  !(fi.seq.chroma == .cs400) && ((fi.lr[1]?.map (·.type)).getD 0 != 0 ||
    (fi.lr[2]?.map (·.type)).getD 0 != 0)

/-- The expected restoration parameters. -/
def Fi.lrHdr (fi : Fi) : Lr :=
  let type := fun i => (fi.lr[i]?.map (·.type)).getD 0
  let unit := fun i => (fi.lr[i]?.map (·.unitSize)).getD 0
  if fi.seq.restoration then
    { types := if fi.seq.chroma = .cs400 then [LrType.ofCode (type 0)]
        else [LrType.ofCode (type 0), LrType.ofCode (type 1), LrType.ofCode (type 2)],
      sizes := if type 0 != 0 || fi.lrChroma then
          some (unit 0, if fi.lrChroma then unit 1 else unit 0) else none }
  else { types := List.replicate (if fi.seq.chroma = .cs400 then 1 else 3) .off, sizes := none }

theorem ofCode_off {n : Nat} (h : n < 4) : (LrType.ofCode n ≠ .off) = (n ≠ 0) := by
  interval_cases n <;> simp [LrType.ofCode]

theorem codes_lrSizes (fi : Fi) (use uv : Bool) (types : List LrType) (u0 u1 : Nat)
    (h0 : u0 = 64 ∨ u0 = 128 ∨ u0 = 256)
    (h1 : u1 = u0 ∨ fi.seq.chroma = .cs420 ∧ u1 = u0 / 2) (h128 : fi.seq.use128 = false) {w h : Nat}
    (huv : uv = true → fi.seq.chroma ≠ .cs400) :
    Codes
      (if use then
        (if fi.seq.use128 then W.nil else lit 1 (decide (64 < u0)).toNat) ⊹
        (if 64 < u0 then lit 1 (decide (128 < u0)).toNat else W.nil) ⊹
        (if uv && fi.seq.chroma == .cs420 then lit 1 (decide (u1 < u0)).toNat else W.nil)
       else W.nil)
      (if use then do
        Parser.rejectIf (fi.seq.hdr w h).use128
        let shift ← Parser.f 1
        let extra ← Parser.opt (decide (shift ≠ 0)) (Parser.f 1) 0
        let uvs ← Parser.opt ((fi.seq.hdr w h).subX && (fi.seq.hdr w h).subY && uv) (Parser.f 1) 0
        let y := 256 / 2 ^ (2 - (shift + extra))
        pure (Lr.mk types (some (y, y / 2 ^ uvs)))
      else pure (Lr.mk types none))
      (Lr.mk types (if use then some (u0, if uv then u1 else u0) else none)) := by
  refine Codes.ite Iff.rfl (fun hu => ?_) (fun hu => ?_)
  · rw [hu, h128, if_pos rfl, if_neg (by decide)]
    refine Codes.reject h128 ?_
    refine Codes.bind (codes_lit _ _) ?_
    have hxy : ((fi.seq.hdr w h).subX && (fi.seq.hdr w h).subY && uv) =
        (uv && fi.seq.chroma == .cs420) := by
      cases uv <;> rcases hc : fi.seq.chroma <;> simp_all [Seq.hdr] <;> rfl
    rw [hxy]
    refine Codes.bind (a := if 64 < u0 then (decide (128 < u0)).toNat else 0) ?_ ?_
    · refine codes_opt ?_ (fun hc => ?_) (fun hc => ?_)
      · by_cases h : 64 < u0 <;> simp [h]
      · rw [if_pos hc]; exact codes_lit _ _
      · rw [if_neg hc]
    · refine Codes.map (a := if uv && fi.seq.chroma == .cs420 then (decide (u1 < u0)).toNat else 0) ?_ ?_
      · refine codes_opt Iff.rfl (fun hc => ?_) (fun hc => ?_)
        · rw [if_pos hc]; exact codes_lit _ _
        · rw [if_neg hc]
      · rcases h1 with rfl | ⟨hc, rfl⟩
        · rcases h0 with rfl | rfl | rfl <;> simp
        · rw [hc]
          rcases h0 with rfl | rfl | rfl <;> cases uv <;> simp
  · rw [if_neg hu]
    exact Codes.pure _

/-- A literal that was written fits. -/
theorem Codes.bound {α : Type} {n v : Nat} {w : W} {p : Parser α} {a : α}
    (h : v < 2 ^ n → Codes (lit n v ⊹ w) p a) : Codes (lit n v ⊹ w) p a := by
  intro bs hbs tail
  exact h (lit_lt hbs) bs hbs tail

theorem codes_lrTypes (ts : List Nat) (n : Nat) (hn : ts.length = n) :
    Codes (forW ts (lit 2)) (Parser.times n (do let c ← Parser.f 2; pure (LrType.ofCode c)))
      (ts.map LrType.ofCode) :=
  codes_times hn fun _ _ => Codes.last (codes_lit _ _)

theorem codes_lr (fi : Fi) (hi : fi.allowIntrabc = false) (ok : LrOk fi)
    (h128 : fi.seq.use128 = false) {w h : Nat} :
    Codes (writeLrf fi) (lrParams (fi.seq.hdr w h) false) fi.lrHdr := by
  unfold writeLrf lrParams Fi.lrHdr
  have hr : (fi.seq.hdr w h).restoration = fi.seq.restoration := rfl
  have hm : (fi.seq.hdr w h).mono = (fi.seq.chroma == .cs400) := rfl
  rw [hi, hr, hm]
  cases hre : fi.seq.restoration with
  | false =>
    refine Codes.eq (Codes.pure _) ?_
    by_cases hc : fi.seq.chroma = .cs400 <;> simp [hc]
  | true =>
    simp only [Bool.not_true, Bool.not_false, Bool.and_self, Bool.or_self, Bool.false_eq_true, if_true,
      if_false]
    refine codes_withAt fun p0 h0 => codes_withAt fun p1 h1 => codes_withAt fun p2 h2 => ?_
    obtain ⟨u0, u1⟩ := ok.unit p0 p1 h0 h1
    by_cases hc : fi.seq.chroma = .cs400
    · have hcb : (fi.seq.chroma == .cs400) = true := by simp [hc]
      have huv : fi.lrChroma = false := by simp [Fi.lrChroma, hc]
      simp only [hcb, if_true, Bool.not_true, Bool.false_and, nil_app, Bool.or_false, huv, h0,
        Option.map_some, Option.getD_some]
      rw [if_pos hc]
      refine Codes.bound fun hl => ?_
      have e : lit 2 p0.type = forW [p0.type] (lit 2) := by simp [forW, app_nil]
      rw [e]
      refine Codes.bind (codes_lrTypes [p0.type] 1 rfl) ?_
      have := codes_lrSizes fi (p0.type != 0) false [LrType.ofCode p0.type] p0.unitSize p1.unitSize
        u0 u1 h128 (w := w) (h := h) (by simp)
      have a1 : ([p0.type].map LrType.ofCode).any (fun t => decide (t ≠ .off)) = (p0.type != 0) := by
        simp only [List.map_cons, List.map_nil, List.any_cons, List.any_nil, Bool.or_false,
          ofCode_off hl]
        by_cases hz : p0.type = 0 <;> simp [hz]
      rw [a1]
      exact this
    · have hcb : (fi.seq.chroma == .cs400) = false := by simp [hc]
      have huv : fi.lrChroma = (p1.type != 0 || p2.type != 0) := by simp [Fi.lrChroma, hc, h1, h2]
      simp only [hcb, Bool.not_false, Bool.true_and, huv, h0, h1, h2,
        Option.map_some, Option.getD_some]
      rw [if_neg hc]
      refine Codes.bound fun hl0 => ?_
      have e : ∀ (x : W), (lit 2 p0.type ⊹ (if false = true then W.nil else lit 2 p1.type ⊹ lit 2 p2.type) ⊹ x)
          = (forW [p0.type, p1.type, p2.type] (lit 2) ⊹ x) := by
        intro x; simp [forW, app_nil, app_assoc]
      rw [e]
      have hl : ∀ {α : Type} {x : W} {p : Parser α} {a : α},
          (p1.type < 4 → p2.type < 4 → Codes (forW [p0.type, p1.type, p2.type] (lit 2) ⊹ x) p a) →
          Codes (forW [p0.type, p1.type, p2.type] (lit 2) ⊹ x) p a := by
        intro α x p a hk bs hbs
        have hbs' := hbs
        simp only [forW, app_assoc] at hbs'
        obtain ⟨_, y1, _, hb1, _⟩ := app_some.1 hbs'
        obtain ⟨_, y2, _, hb2, _⟩ := app_some.1 hb1
        exact hk (lit_lt hb1) (lit_lt hb2) bs hbs
      refine hl fun hl1 hl2 => ?_
      refine Codes.bind (codes_lrTypes [p0.type, p1.type, p2.type] 3 rfl) ?_
      have := codes_lrSizes fi (p0.type != 0 || (p1.type != 0 || p2.type != 0))
        (p1.type != 0 || p2.type != 0)
        [LrType.ofCode p0.type, LrType.ofCode p1.type, LrType.ofCode p2.type] p0.unitSize p1.unitSize
        u0 u1 h128 (w := w) (h := h) (fun _ => hc)
      have d : ∀ t, t < 4 → decide (LrType.ofCode t ≠ .off) = (t != 0) := by decide
      have a1 : ([p0.type, p1.type, p2.type].map LrType.ofCode).any (fun t => decide (t ≠ .off)) =
          (p0.type != 0 || (p1.type != 0 || p2.type != 0)) := by
        simp only [List.map_cons, List.map_nil, List.any_cons, List.any_nil, Bool.or_false,
          d _ hl0, d _ hl1, d _ hl2]
      have a2 : ([p0.type, p1.type, p2.type].map LrType.ofCode).tail.any (fun t => decide (t ≠ .off)) =
          (p1.type != 0 || p2.type != 0) := by
        simp only [List.map_cons, List.map_nil, List.tail_cons, List.any_cons, List.any_nil,
          Bool.or_false, d _ hl1, d _ hl2]
      rw [a1, a2]
      exact this

end Rav1e.Hdr

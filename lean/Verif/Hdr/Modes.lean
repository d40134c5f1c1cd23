import Verif.Hdr.Filters

/-!
# Frame header: transform, reference and skip modes, film grain
-/

namespace Rav1e.Hdr
open Av1Spec

/-! ## Relative distances -/

theorem relDist_eq (s : Seq) (a b a' b' : Nat)
    (ha : a' = a % 2 ^ (s.orderHintBitsM1 + 1)) (hb : b' = b % 2 ^ (s.orderHintBitsM1 + 1)) :
    relDist s a b = relativeDist (s.orderHintBitsM1 + 1) a' b' := by
  subst ha hb
  unfold relDist relativeDist
  dsimp only
  rw [Nat.add_sub_cancel]
  generalize hm : (2 : Nat) ^ s.orderHintBitsM1 = m
  have hm0 : 0 < m := by rw [← hm]; positivity
  have e1 : (2 : Int) ^ s.orderHintBitsM1 = (m : Int) := by rw [← hm]; push_cast; rfl
  have e2 : (2 : Nat) ^ (s.orderHintBitsM1 + 1) = 2 * m := by rw [Nat.pow_succ, hm, Nat.mul_comm]
  rw [e1, e2]
  have key : ∃ k : Int, ((a % (2 * m) : Nat) : Int) - ((b % (2 * m) : Nat) : Int) =
      ((a : Int) - b) + (m : Int) * (2 * k) := by
    refine ⟨((b / (2 * m) : Nat) : Int) - ((a / (2 * m) : Nat) : Int), ?_⟩
    have h1 := Nat.div_add_mod a (2 * m)
    have h2 := Nat.div_add_mod b (2 * m)
    generalize a / (2 * m) = qa at *
    generalize b / (2 * m) = qb at *
    generalize a % (2 * m) = ra at *
    generalize b % (2 * m) = rb at *
    subst h1 h2
    push_cast
    ring
  obtain ⟨k, hk⟩ := key
  rw [hk]
  generalize (a : Int) - b = d
  have hm' : (m : Int) ≠ 0 := by omega
  rw [Int.add_mul_emod_self_left, Int.add_mul_ediv_left _ _ hm', Int.add_mul_emod_self_left]
  generalize d / (m : Int) = q
  rcases Int.emod_two_eq_zero_or_one q with h | h <;> simp [h]

/-- The references the encoder has for a list of indices. -/
inductive RefHints (fi : Fi) : List Nat → List Nat → Prop
  | nil : RefHints fi [] []
  | cons {i is r hs} {rec : RefFrame} (h1 : fi.refFrames[i]? = some r)
      (h2 : fi.recFrames[r]? = some (some rec)) (h3 : RefHints fi is hs) :
      RefHints fi (i :: is) (rec.orderHint % 2 ^ (fi.seq.orderHintBitsM1 + 1) :: hs)

/-- The scans agree: same forward hint up to the mask, a backward one in the same cases. -/
def SameAcc (fi : Fi) (a b : Option Nat × Option Nat) : Prop :=
  b.1 = a.1.map (· % 2 ^ (fi.seq.orderHintBitsM1 + 1)) ∧ a.2.isSome = b.2.isSome

theorem skipScan_same (fi : Fi) {is hs : List Nat} (h : RefHints fi is hs) :
    ∀ acc acc', SameAcc fi acc acc' → ∃ out, skipScan fi is acc = some out ∧
      SameAcc fi out (skipNearest (fi.seq.orderHintBitsM1 + 1)
        (fi.orderHint % 2 ^ (fi.seq.orderHintBitsM1 + 1)) hs acc') := by
  induction h with
  | nil => intro acc acc' ha; exact ⟨acc, rfl, ha⟩
  | @cons i is r hs rec h1 h2 h3 ih =>
    rintro ⟨f, b⟩ ⟨f', b'⟩ ⟨hf, hb⟩
    simp only at hf hb
    unfold skipScan skipNearest
    rw [h1]
    dsimp only
    rw [h2]
    dsimp only
    rw [relDist_eq fi.seq rec.orderHint fi.orderHint _ _ rfl rfl]
    split
    · refine ih _ _ ⟨?_, hb⟩
      subst hf
      cases f with
      | none => rfl
      | some g =>
        have e := relDist_eq fi.seq rec.orderHint g _ _ rfl rfl
        by_cases hlt : 0 < relDist fi.seq rec.orderHint g
        · have hlt' := e ▸ hlt
          simp [hlt, hlt']
        · have hlt' := e ▸ hlt
          simp [hlt, hlt']
    · split
      · refine ih _ _ ⟨hf, ?_⟩
        cases b <;> cases b' <;> simp at hb ⊢
        · split <;> split <;> rfl
      · exact ih _ _ ⟨hf, hb⟩

theorem skipScan2_same (fi : Fi) (fwd : Nat) {is hs : List Nat} (h : RefHints fi is hs) :
    ∀ acc, ∃ out, skipScan2 fi fwd is acc = some out ∧
      out.isSome = (acc.isSome || hs.any fun x => decide
        (relativeDist (fi.seq.orderHintBitsM1 + 1) x
          (fwd % 2 ^ (fi.seq.orderHintBitsM1 + 1)) < 0)) := by
  induction h with
  | nil => intro acc; exact ⟨acc, rfl, by simp⟩
  | @cons i is r hs rec h1 h2 h3 ih =>
    intro acc
    unfold skipScan2
    rw [h1]
    dsimp only
    rw [h2]
    dsimp only
    rw [relDist_eq fi.seq rec.orderHint fwd _ _ rfl rfl]
    obtain ⟨out, ho, hs'⟩ := ih _
    refine ⟨out, ho, ?_⟩
    rw [hs', List.any_cons]
    generalize (hs.any fun x => _) = rest
    by_cases hlt : relativeDist (fi.seq.orderHintBitsM1 + 1)
        (rec.orderHint % 2 ^ (fi.seq.orderHintBitsM1 + 1))
        (fwd % 2 ^ (fi.seq.orderHintBitsM1 + 1)) < 0
    · cases acc with
      | none => simp [hlt]
      | some s => simp only [hlt, decide_true, Bool.true_and]; split <;> simp
    · simp [hlt]

theorem skipAllowed_same (fi : Fi) {hs : List Nat} (h : RefHints fi fi.allowedRefs hs) :
    (match skipScan fi fi.allowedRefs (none, none) with
      | none => none
      | some (none, _) => some false
      | some (some _, some _) => some true
      | some (some f, none) => match skipScan2 fi f fi.allowedRefs none with
        | none => none
        | some s => some s.isSome) =
    some (skipAllowed (fi.seq.orderHintBitsM1 + 1)
      (fi.orderHint % 2 ^ (fi.seq.orderHintBitsM1 + 1)) hs) := by
  obtain ⟨⟨f, b⟩, ho, h1, h2⟩ := skipScan_same fi h (none, none) (none, none) ⟨rfl, rfl⟩
  rw [ho]
  unfold skipAllowed
  generalize skipNearest _ _ hs (none, none) = n at *
  obtain ⟨nf, nb⟩ := n
  simp only at h1 h2
  subst h1
  cases f with
  | none => rfl
  | some f =>
    cases b with
    | some b =>
      cases nb with
      | none => simp at h2
      | some _ => rfl
    | none =>
      cases nb with
      | some _ => simp at h2
      | none =>
        obtain ⟨out, h3, h4⟩ := skipScan2_same fi f h none
        simp only [Option.map_some, h3]
        rw [h4]; rfl

/-! ## Modes -/

structure ModesOk (fi : Fi) : Prop where
  /-- `encoder.rs:1096` and `api/internal.rs:194-201`: compound references only with all
  references -/
  refs : fi.compound = true → fi.allowedRefs = List.range 7
  /-- `encoder.rs:893` and never changed -/
  warp : fi.intraOnly = true ∨ fi.errRes = true ∨ fi.seq.warped = false → fi.allowWarped = false

/-- The expected modes. -/
def Fi.modesHdr (fi : Fi) : Modes where
  txSelect := fi.txSelect
  refSelect := !fi.intraOnly && fi.compound
  skipMode := false
  warped := fi.allowWarped
  reducedTx := fi.reducedTx

theorem refHints_of (fi : Fi) (c : Ctx) (hl : fi.refFrames.length = 7)
    (h8 : ∀ r ∈ fi.refFrames, r < 8) (ag : Agrees fi c) (hk : fi.frameType ≠ .key)
    (ho : fi.seq.orderHint = true) :
    ∃ hs, RefHints fi (List.range 7) hs ∧
      Parser.each (fun r => do let slot ← c.slot r; pure slot.orderHint) fi.refFrames = pure hs := by
  have gen : ∀ (n k : Nat), k + n = 7 → ∃ hs, RefHints fi (List.range' k n) hs ∧
      Parser.each (fun r => do let slot ← c.slot r; pure slot.orderHint) (fi.refFrames.drop k) =
        pure hs := by
    intro n
    induction n with
    | zero =>
      intro k hk7
      refine ⟨[], .nil, ?_⟩
      rw [List.drop_eq_nil_of_le (by omega)]
      rfl
    | succ n ih =>
      intro k hk7
      obtain ⟨hs, h1, h2⟩ := ih (k + 1) (by omega)
      have hlt : k < fi.refFrames.length := by omega
      have hr := h8 _ (List.getElem_mem hlt)
      obtain ⟨r, s1, s3⟩ := ag.slots hk _ hr
      refine ⟨_, .cons (List.getElem?_eq_getElem hlt) s1 h1, ?_⟩
      rw [List.drop_eq_getElem_cons hlt]
      have e : (do let slot ← c.slot fi.refFrames[k]; pure slot.orderHint : Parser Nat) =
          pure (r.orderHint % 2 ^ (fi.seq.orderHintBitsM1 + 1)) := by
        unfold Ctx.slot
        rw [s3]
        simp [RefFrame.slot, ho]
      unfold Parser.each
      rw [h2, e, pure_bind, pure_bind]
  have := gen 7 0 rfl
  simpa [List.range_eq_range'] using this

theorem allowed_same (fi : Fi) (c : Ctx) (sok : StartOk fi) (rok : RefsOk fi) (ok : ModesOk fi)
    (ag : Agrees fi c) :
    ∃ b, skipModeAllowed fi (!fi.intraOnly && fi.compound) = some b ∧
      Parser.opt (!fi.intraOnly && (!fi.intraOnly && fi.compound) && c.seq.orderHint) (do
        let hints ← Parser.each (fun r => do let slot ← c.slot r; pure slot.orderHint) fi.refsHdr.refIdx
        pure (skipAllowed c.seq.orderHintBits fi.start.orderHint hints)) false = pure b := by
  have ho : c.seq.orderHint = fi.seq.orderHint := by rw [ag.seq]; rfl
  have hob : c.seq.orderHintBits = if fi.seq.orderHint then fi.seq.orderHintBitsM1 + 1 else 0 := by
    rw [ag.seq]; rfl
  rw [ho]
  unfold skipModeAllowed
  cases hi : fi.intraOnly with
  | true => exact ⟨false, rfl, rfl⟩
  | false => cases hc : fi.compound with
    | false => exact ⟨false, rfl, rfl⟩
    | true => cases hh : fi.seq.orderHint with
      | false => exact ⟨false, rfl, rfl⟩
      | true =>
        have hk : fi.frameType ≠ .key := by
          intro hk; have := sok.intra.2 (.inl hk); rw [hi] at this; simp at this
        obtain ⟨hs, h1, h2⟩ := refHints_of fi c rok.refs rok.refs8 ag hk hh
        rw [← ok.refs hc] at h1
        refine ⟨_, skipAllowed_same fi h1, ?_⟩
        have hr : fi.refsHdr.refIdx = fi.refFrames := by simp [Fi.refsHdr, hi]
        have hs' : fi.start.orderHint = fi.orderHint % 2 ^ (fi.seq.orderHintBitsM1 + 1) := by
          simp [Fi.start, hh]
        rw [hr, h2, hob, hh, hs', pure_bind]
        rfl

theorem codes_modes (fi : Fi) (c : Ctx) (sok : StartOk fi) (rok : RefsOk fi) (ok : ModesOk fi)
    (ag : Agrees fi c) :
    Codes (writeModes fi) (frameModes c fi.start fi.refsHdr.refIdx false) fi.modesHdr := by
  unfold writeModes frameModes
  have hi : fi.start.type.intra = fi.intraOnly := spec_intra fi sok
  have hw : c.seq.warped = fi.seq.warped := by rw [ag.seq]; rfl
  have ho : c.seq.orderHint = fi.seq.orderHint := by rw [ag.seq]; rfl
  have hob : c.seq.orderHintBits = if fi.seq.orderHint then fi.seq.orderHintBitsM1 + 1 else 0 := by
    rw [ag.seq]; rfl
  rw [hi, ho, hw]
  dsimp only
  refine Codes.bind (codes_bit _) ?_
  refine Codes.bind (a := !fi.intraOnly && fi.compound) ?_ ?_
  · cases hio : fi.intraOnly with
    | true => exact Codes.pure _
    | false => exact codes_bit _
  obtain ⟨b, hb1, hb2⟩ := allowed_same fi c sok rok ok ag
  rw [ho] at hb2
  rw [hb1, hb2, pure_bind]
  refine Codes.bind (a := false) ?_ ?_
  · cases b with
    | true => exact codes_bit _
    | false => exact Codes.pure _
  refine Codes.bind (a := fi.allowWarped) ?_ ?_
  · have he : (if fi.intraOnly || fi.errRes || !fi.seq.warped then W.nil else bit fi.allowWarped) =
        if (fi.intraOnly || fi.errRes || !fi.seq.warped) = false then bit fi.allowWarped else W.nil := by
      cases (fi.intraOnly || fi.errRes || !fi.seq.warped) <;> rfl
    rw [he]
    refine codes_opt ?_ (fun _ => codes_bit _) (fun hn => ?_)
    · have hk := sok.intra
      by_cases hkey : fi.frameType = .key
      · have : fi.intraOnly = true := hk.2 (.inl hkey)
        simp [this]
      · simp [Fi.start, hkey]
    · refine (ok.warp ?_).symm
      revert hn
      cases fi.intraOnly <;> cases fi.errRes <;> cases fi.seq.warped <;> simp
  refine Codes.bind (codes_bit _) ?_
  cases hio : fi.intraOnly with
  | true =>
    refine Codes.eq (Codes.pure _) ?_
    simp [Fi.modesHdr, hio]
  | false =>
    simp only [Bool.false_eq_true, if_false]
    refine Codes.assert fun _ => ?_
    have hg := codes_times (xs := List.range 7) (n := 7) (g := fun _ => bit false)
      (p := Parser.flag) (r := fun _ => false) rfl (fun _ _ => codes_bit _)
    simp only [Bool.not_false, opt_true]
    rw [← app_nil (forW _ _)]
    refine Codes.bind hg ?_
    refine Codes.reject (by decide) ?_
    refine Codes.eq (Codes.pure _) ?_
    simp [Fi.modesHdr, hio]

/-! ## Film grain -/

/-- What the film grain parameters of a frame must satisfy beyond what the writer checks.
`chroma` does not follow from the parameters' type: see `Findings`. -/
structure GrainOk (fi : Fi) (g : Grain) : Prop where
  /-- `i8` -/
  coeffs : ∀ x ∈ g.arY ++ g.arCb ++ g.arCr, -128 ≤ x ∧ x < 128
  chroma : fi.seq.chroma = .cs400 ∨ g.cfl = true ∨ fi.seq.chroma = .cs420 ∧ g.pointsY = [] →
    g.pointsCb = [] ∧ g.pointsCr = []

/-- The expected film grain parameters. -/
def Grain.spec (fi : Fi) (g : Grain) : FilmGrain :=
  let cfl := fi.seq.chroma != .cs400 && g.cfl
  let numLuma := 2 * g.arLag * (g.arLag + 1)
  let numChroma := if g.pointsY ≠ [] then numLuma + 1 else numLuma
  let cb := g.pointsCb ≠ []
  let cr := g.pointsCr ≠ []
  { seed := g.seed
    pointsY := g.pointsY
    cfl
    pointsCb := g.pointsCb
    pointsCr := g.pointsCr
    scalingShift := g.scalingShift
    arLag := g.arLag
    arY := if g.pointsY ≠ [] then g.arY.take numLuma else []
    arCb := if cfl || !g.pointsCb.isEmpty then g.arCb.take numChroma else []
    arCr := if cfl || !g.pointsCr.isEmpty then g.arCr.take numChroma else []
    arShift := g.arShift
    scaleShift := g.scaleShift
    cbMult := if cb then g.cbMult else 0
    cbLumaMult := if cb then g.cbLumaMult else 0
    cbOffset := if cb then g.cbOffset else 0
    crMult := if cr then g.crMult else 0
    crLumaMult := if cr then g.crLumaMult else 0
    crOffset := if cr then g.crOffset else 0
    overlap := g.overlap
    clip := !fi.seq.fullRange }

theorem codes_points (ps : List (Nat × Nat)) :
    Codes (lit 4 ps.length ⊹ forW ps fun p => lit 8 p.1 ⊹ lit 8 p.2) grainPoints ps := by
  unfold grainPoints
  refine Codes.bind (codes_lit _ _) ?_
  have := codes_times (xs := ps) (n := ps.length) (g := fun p => lit 8 p.1 ⊹ lit 8 p.2)
    (p := do let a ← Parser.f 8; let b ← Parser.f 8; pure (a, b)) (r := id) rfl
    (fun p _ => Codes.bind (codes_lit _ _) (Codes.map (codes_lit _ _) rfl))
  simpa using this

theorem codes_coeffs (xs : List Int) (n : Nat) (h : ∀ x ∈ xs, -128 ≤ x ∧ x < 128) :
    Codes (forW (List.range n) fun i => withAt xs i fun x => lit 8 ((x + 128) % 256).toNat)
      (grainCoeffs n) (xs.take n) := by
  have key := codes_times (xs := List.range n) (n := n)
    (g := fun i => withAt xs i fun x => lit 8 ((x + 128) % 256).toNat)
    (p := do let v ← Parser.f 8; pure ((v : Int) - 128)) (r := fun i => xs.getD i 0) (by simp)
    (fun i _ => codes_withAt fun x hx => by
      have := h x (List.mem_of_getElem? hx)
      refine Codes.map (codes_lit _ _) ?_
      simp only [List.getD, hx, Option.getD_some]
      omega)
  intro bs hbs tail
  have hlen : n ≤ xs.length := by
    by_contra hlt
    have : ∀ (l : List Nat), xs.length ∈ l →
        (forW l fun i => withAt xs i fun x => lit 8 ((x + 128) % 256).toNat) = none := by
      intro l
      induction l with
      | nil => simp
      | cons a l ih =>
        intro hm
        simp only [forW]
        rcases List.mem_cons.1 hm with rfl | hm
        · have : (withAt xs xs.length fun x => lit 8 ((x + 128) % 256).toNat) = none := by
            simp [withAt]
          rw [this]; exact fail_app _
        · rw [ih hm]; exact app_fail _
    rw [this _ (by simp; omega)] at hbs
    simp at hbs
  have e : (List.range n).map (fun i => xs.getD i 0) = xs.take n := by
    apply List.ext_getElem
    · simp; omega
    · intro i h1 h2
      simp at h1 h2
      simp [List.getD, List.getElem?_eq_getElem (show i < xs.length by omega)]
  rw [← e]
  exact key bs hbs tail

theorem codes_mults (a b c : Nat) : Codes (lit 8 a ⊹ lit 8 b ⊹ lit 9 c) grainMults (a, b, c) := by
  unfold grainMults
  exact Codes.bind (codes_lit _ _) (Codes.bind (codes_lit _ _) (Codes.map (codes_lit _ _) rfl))

theorem codes_grainBody (fi : Fi) (g : Grain) (ok : GrainOk fi g) {w h : Nat} :
    Codes (writeGrain fi g) (do
      let apply ← Parser.flag
      (if apply then do
        let g ← grainBody (fi.seq.hdr w h) fi.frameType.spec
        pure (some g)
      else pure none)) (some (g.spec fi)) := by
  unfold writeGrain
  dsimp only
  refine Codes.bind (codes_bit _) ?_
  rw [if_pos rfl]
  refine Codes.map (a := g.spec fi) ?_ rfl
  unfold grainBody
  have hm : (fi.seq.hdr w h).mono = (fi.seq.chroma == .cs400) := rfl
  have hx : (fi.seq.hdr w h).subX = (fi.seq.chroma != .cs444) := rfl
  have hy : (fi.seq.hdr w h).subY = (fi.seq.chroma == .cs420 || fi.seq.chroma == .cs400) := rfl
  rw [hm, hx, hy]
  refine Codes.bind (codes_lit _ _) ?_
  refine Codes.bind (a := true) ?_ ?_
  · exact codes_opt (by simp [spec_inter]) (fun _ => codes_bit _) (fun _ => rfl)
  refine Codes.reject rfl ?_
  rw [← app_assoc]
  refine Codes.bind (codes_points _) ?_
  refine Codes.bind (a := fi.seq.chroma != .cs400 && g.cfl) ?_ ?_
  · by_cases hc : fi.seq.chroma = .cs400
    · simp only [hc, beq_self_eq_true, if_true]; exact Codes.pure _
    · have : (fi.seq.chroma == .cs400) = false := by simp [hc]
      simp only [this, Bool.false_eq_true, if_false, bne, Bool.not_false, Bool.true_and]
      exact codes_bit _
  have hcfl : (if fi.seq.chroma == .cs400 then false else g.cfl) =
      (fi.seq.chroma != .cs400 && g.cfl) := by
    by_cases hc : fi.seq.chroma = .cs400 <;> simp [hc]
  rw [hcfl]
  refine Codes.bind (a := (g.pointsCb, g.pointsCr)) ?_ ?_
  · refine Codes.ite ?_ (fun hc => ?_) (fun hc => ?_)
    · rcases hc : fi.seq.chroma <;> simp
    · have : g.pointsCb = [] ∧ g.pointsCr = [] := ok.chroma (by
        rcases hch : fi.seq.chroma <;> simp_all)
      rw [this.1, this.2]; exact Codes.pure _
    · rw [← app_assoc]
      exact Codes.bind (codes_points _) (Codes.map (codes_points _) rfl)
  refine Codes.assert fun h8 => ?_
  refine Codes.bind (codes_lit _ _) ?_
  refine Codes.bind (codes_lit _ _) ?_
  dsimp only
  have hco := ok.coeffs
  have hn : (if g.pointsY.isEmpty then 2 * g.arLag * (g.arLag + 1) else 2 * g.arLag * (g.arLag + 1) + 1)
      = (if g.pointsY ≠ [] then 2 * g.arLag * (g.arLag + 1) + 1 else 2 * g.arLag * (g.arLag + 1)) := by
    rcases g.pointsY <;> simp
  rw [hn]
  refine Codes.bind (a := if g.pointsY ≠ [] then g.arY.take (2 * g.arLag * (g.arLag + 1)) else []) ?_ ?_
  · refine codes_opt (by rcases g.pointsY <;> simp) (fun hp => ?_) (fun hp => by rw [if_neg hp])
    rw [if_pos hp]
    exact codes_coeffs _ _ fun x hx => hco x (by simp [hx])
  refine Codes.bind (a := if (fi.seq.chroma != .cs400 && g.cfl) || !g.pointsCb.isEmpty then g.arCb.take
    (if g.pointsY ≠ [] then 2 * g.arLag * (g.arLag + 1) + 1 else 2 * g.arLag * (g.arLag + 1))
    else []) ?_ ?_
  · refine codes_opt Iff.rfl (fun hp => ?_) (fun hp => by rw [if_neg hp])
    rw [if_pos hp]
    exact codes_coeffs _ _ fun x hx => hco x (by simp [hx])
  refine Codes.bind (a := if (fi.seq.chroma != .cs400 && g.cfl) || !g.pointsCr.isEmpty then g.arCr.take
    (if g.pointsY ≠ [] then 2 * g.arLag * (g.arLag + 1) + 1 else 2 * g.arLag * (g.arLag + 1))
    else []) ?_ ?_
  · refine codes_opt Iff.rfl (fun hp => ?_) (fun hp => by rw [if_neg hp])
    rw [if_pos hp]
    exact codes_coeffs _ _ fun x hx => hco x (by simp [hx])
  refine Codes.assert fun h6 => ?_
  refine Codes.bind (codes_lit _ _) ?_
  refine Codes.bind (codes_lit _ _) ?_
  refine Codes.bind (a := if g.pointsCb ≠ [] then (g.cbMult, g.cbLumaMult, g.cbOffset) else (0, 0, 0)) ?_ ?_
  · refine codes_opt (by rcases g.pointsCb <;> simp) (fun hp => ?_) (fun hp => by rw [if_neg hp])
    rw [if_pos hp]; exact codes_mults _ _ _
  refine Codes.bind (a := if g.pointsCr ≠ [] then (g.crMult, g.crLumaMult, g.crOffset) else (0, 0, 0)) ?_ ?_
  · refine codes_opt (by rcases g.pointsCr <;> simp) (fun hp => ?_) (fun hp => by rw [if_neg hp])
    rw [if_pos hp]; exact codes_mults _ _ _
  refine Codes.bind (codes_bit _) ?_
  refine Codes.map (codes_bit _) ?_
  unfold Grain.spec
  rcases g.pointsCb <;> rcases g.pointsCr <;> simp <;> omega

/-- Film grain as the decoder sees it. -/
def Fi.grainHdr (fi : Fi) : Option FilmGrain :=
  if fi.seq.filmGrain then fi.grain.map (·.spec fi) else none

theorem codes_grain (fi : Fi) (ok : ∀ g, fi.grain = some g → GrainOk fi g)
    (hv : fi.showFrame = true ∨ fi.showable = true ∧ fi.seq.reduced = false) {w h : Nat} :
    Codes (writeGrainOpt fi) (filmGrain (fi.seq.hdr w h) fi.start) fi.grainHdr := by
  unfold writeGrainOpt filmGrain Fi.grainHdr
  have hf : (fi.seq.hdr w h).filmGrain = fi.seq.filmGrain := rfl
  have hs : (!fi.start.showFrame && !fi.start.showable) = false := by
    rcases hv with hv | ⟨hv, hr⟩
    · simp [Fi.start, hv]
    · cases hsf : fi.showFrame <;> simp [Fi.start, hv, hr, hsf]
  rw [hf, hs]
  cases hfg : fi.seq.filmGrain with
  | false => exact Codes.pure _
  | true =>
    simp only [Bool.not_true, Bool.or_self, Bool.false_eq_true, if_false, if_true]
    cases hg : fi.grain with
    | none =>
      rw [← app_nil (bit false)]
      exact Codes.bind (codes_bit _) (Codes.pure _)
    | some g => exact codes_grainBody fi g (ok g hg)

end Rav1e.Hdr

import Verif.Rate.Safe
/-
The format of the two-pass data, as a specification, and its parsing.
-/
namespace Rav1e.Rate
open Rav1e.Ivf (le unle le_length unle_le)

/-! ## Specification -/

/-- The metrics of a frame that can be stored: one of five types, and a log scale of 32 bits. -/
structure MOk (m : Metrics) : Prop where
  fti : m.fti ≤ 4
  lo : -2147483648 ≤ m.logScale
  hi : m.logScale < 2147483648

/-- The record of a frame: its type with the top bit set if it is shown, and its log scale as a two's complement
number, both little endian in four bytes. -/
def recordBytes (m : Metrics) : List Nat :=
  le 4 (m.fti + (if m.shown then 2 ^ 31 else 0)) ++ le 4 (m.logScale % 2 ^ 32).toNat

def recs (ms : List Metrics) : List Nat := ms.flatMap recordBytes

/-- How many frames of a type there are. -/
def typeCount (ms : List Metrics) (t : Nat) : Nat := ms.countP (·.fti = t)

/-- The sum of the scales of the frames of a type. -/
def scaleOf (bx : Int → Int) (ms : List Metrics) (t : Nat) : Int :=
  ((ms.filter (·.fti = t)).map fun m => bx m.logScale).sum

/-- The summary: magic number, version, the number of shown frames, the number of frames of each type, the
exponents, and the sum of the scales for each type that has one. -/
def summaryBytes (bx : Int → Int) (exp : List Int) (ms : List Metrics) : List Nat :=
  le 4 0x50324156 ++ le 4 1 ++ le 4 (ms.countP (·.shown)) ++
    [0, 1, 2, 3, 4].flatMap (fun t => le 4 (typeCount ms t)) ++ exp.flatMap (fun e => le 1 e.toNat) ++
    [0, 1, 2, 3].flatMap (fun t => le 8 (scaleOf bx ms t).toNat)

/-! ## Parsing -/

theorem record_length (m : Metrics) : (recordBytes m).length = 8 := by
  simp [recordBytes, le_length]

theorem recs_length (ms : List Metrics) : (recs ms).length = 8 * ms.length := by
  induction ms with
  | nil => rfl
  | cons m ms ih =>
    simp only [recs, List.flatMap_cons, List.length_append, record_length, List.length_cons] at ih ⊢
    rw [ih]; omega

theorem wrap64_small {n : Int} (h0 : 0 ≤ n) (h1 : n < 9223372036854775808) : wrapI 64 n = n := by
  unfold wrapI
  have e1 : (2 : Int) ^ 64 = 18446744073709551616 := by norm_num
  have e2 : (2 : Int) ^ (64 - 1) = 9223372036854775808 := by norm_num
  rw [e1, e2]
  rw [Int.emod_eq_of_lt (by omega) (by omega)]
  omega

theorem wrap32_back {n : Int} (h0 : -2147483648 ≤ n) (h1 : n < 2147483648) : wrapI 32 (n % 2 ^ 32) = n := by
  unfold wrapI
  have e1 : (2 : Int) ^ 32 = 4294967296 := by norm_num
  have e2 : (2 : Int) ^ (32 - 1) = 2147483648 := by norm_num
  rw [e1, e2]
  omega

theorem wrap32_small {n : Int} (h0 : 0 ≤ n) (h1 : n < 2147483648) : wrapI 32 n = n := by
  unfold wrapI
  have e1 : (2 : Int) ^ 32 = 4294967296 := by norm_num
  have e2 : (2 : Int) ^ (32 - 1) = 2147483648 := by norm_num
  rw [e1, e2]
  omega

theorem unbufferVal_le {n v : Nat} {d : Des} {rest : List Nat} (h : d.buf.drop d.pos = le n v ++ rest)
    (hv : v < 256 ^ n) (h63 : (v : Int) < 9223372036854775808) (hp : d.pos ≤ d.buf.length) :
    unbufferVal n d = some ((v : Int), { d with pos := d.pos + n }) := by
  have hl : d.pos + n ≤ d.buf.length := by
    have := congrArg List.length h
    rw [List.length_drop, List.length_append, le_length] at this
    omega
  rw [unbufferVal_ok hl, h, List.take_left' (le_length n v), unle_le n v hv, wrap64_small (by omega) h63]

theorem drop_step {n v p : Nat} {buf rest : List Nat} (h : buf.drop p = le n v ++ rest) :
    buf.drop (p + n) = rest := by
  rw [← List.drop_drop, h, List.drop_left' (le_length n v)]

theorem unbufferVals_le {n : Nat} (vs : List Nat) (d : Des) (rest : List Nat)
    (h : d.buf.drop d.pos = vs.flatMap (le n) ++ rest) (hv : ∀ v ∈ vs, v < 256 ^ n)
    (h63 : ∀ v ∈ vs, (v : Int) < 9223372036854775808) (hp : d.pos + n * vs.length ≤ d.buf.length) :
    unbufferVals n vs.length d = some (vs.map (fun v : Nat => (v : Int)), { d with pos := d.pos + n * vs.length }) ∧
      d.buf.drop (d.pos + n * vs.length) = rest := by
  induction vs generalizing d with
  | nil => exact ⟨by simp [unbufferVals], by simpa using h⟩
  | cons v vs ih =>
    rw [List.flatMap_cons, List.append_assoc] at h
    rw [List.length_cons, Nat.mul_succ] at hp
    have hd := drop_step h
    have e1 := unbufferVal_le h (hv v List.mem_cons_self) (h63 v List.mem_cons_self) (by omega)
    obtain ⟨e2, e3⟩ := ih { d with pos := d.pos + n } hd (fun x hx => hv x (List.mem_cons_of_mem _ hx))
      (fun x hx => h63 x (List.mem_cons_of_mem _ hx)) (by dsimp only; omega)
    have e4 : d.pos + n + n * vs.length = d.pos + n * (vs.length + 1) := by rw [Nat.mul_succ]; omega
    dsimp only at e2 e3
    rw [e4] at e2 e3
    refine ⟨?_, by rw [List.length_cons]; exact e3⟩
    rw [List.length_cons]
    unfold unbufferVals
    rw [e1]
    simp only [Option.bind_eq_bind, Option.bind_some]
    rw [e2]
    rfl

theorem parse_record {d : Des} {m : Metrics} (hm : MOk m) (hl : DesOk d) (h : d.buf.take 8 = recordBytes m) :
    parseMetrics { d with pos := 0 } = some (some m, { d with pos := 8 }) := by
  have hb : d.buf = recordBytes m ++ d.buf.drop 8 := by rw [← h, List.take_append_drop]
  have hfti := hm.fti
  have h31 : (2 : Nat) ^ 31 = 2147483648 := by norm_num
  have hfl : m.fti + (if m.shown = true then 2 ^ 31 else 0) < 4294967296 := by rw [h31]; split <;> omega
  have hln : (m.logScale % 2 ^ 32).toNat < 4294967296 := by
    have e1 : (2 : Int) ^ 32 = 4294967296 := by norm_num
    rw [e1]; omega
  have h256 : (256 : Nat) ^ 4 = 4294967296 := by norm_num
  rw [recordBytes, List.append_assoc] at hb
  have hd1 : ({ d with pos := 0 } : Des).buf.drop ({ d with pos := 0 } : Des).pos =
      le 4 (m.fti + (if m.shown = true then 2 ^ 31 else 0)) ++
        (le 4 (m.logScale % 2 ^ 32).toNat ++ d.buf.drop 8) := by
    dsimp only
    rw [List.drop_zero]
    exact hb
  have hd2 := drop_step hd1
  unfold parseMetrics
  rw [unbufferVal_le hd1 (by rw [h256]; exact hfl) (by push_cast; omega) (by simp)]
  simp only [Option.bind_eq_bind, Option.bind_some]
  have hq : ((m.fti + (if m.shown = true then 2 ^ 31 else 0) : Nat) : Int) % 2 ^ 31 = m.fti := by
    rw [p31]; push_cast; split
    · omega
    · omega
  have hs : ((m.fti + (if m.shown = true then 2 ^ 31 else 0) : Nat) : Int) / 2 ^ 31 ≠ 0 ↔ m.shown = true := by
    rw [p31]; push_cast; cases m.shown
    · simp; omega
    · simp; omega
  rw [hq, if_neg (by omega), unbufferVal_le (d := { d with pos := 0 + 4 }) hd2 (by rw [h256]; exact hln) (by omega)
    (by dsimp only; rw [hl.len]; omega)]
  simp only [Option.bind_some]
  have e1 : (2 : Int) ^ 32 = 4294967296 := by norm_num
  have e2 : (((m.logScale % 2 ^ 32).toNat : Nat) : Int) = m.logScale % 2 ^ 32 := by
    rw [e1]; omega
  rw [e2, wrap32_back hm.lo hm.hi]
  simp only [Option.some.injEq, Prod.mk.injEq]
  refine ⟨?_, by simp⟩
  cases m with
  | mk ls fti shown =>
    simp only [Metrics.mk.injEq, true_and] at *
    refine ⟨by omega, ?_⟩
    cases shown with
    | false => simpa using hs
    | true => simpa using hs

/-- What a first pass must have seen for its summary to be accepted: a shown frame, and sums that fit. -/
structure SOk (bx : Int → Int) (exp : List Int) (ms : List Metrics) : Prop where
  all : ∀ m ∈ ms, MOk m
  len : ms.length < 2147483647
  shown : ∃ m ∈ ms, m.shown = true
  elen : exp.length = 4
  ex : ∀ e ∈ exp, 0 ≤ e ∧ e < 256
  sums : ∀ t, t < 4 → 0 ≤ scaleOf bx ms t ∧ scaleOf bx ms t < 9223372036854775808

/-- The summary of the frames `ms`. -/
def summaryOf (bx : Int → Int) (exp : List Int) (ms : List Metrics) : Summary :=
  { ntus := shownCount ms, nframes := counts ms, exp, scaleSum := [0, 1, 2, 3].map (scaleOf bx ms),
    total := ms.length }

theorem summaryBytes_length {bx : Int → Int} {exp : List Int} {ms : List Metrics} (h : exp.length = 4) :
    (summaryBytes bx exp ms).length = 68 := by
  have : (exp.flatMap fun e => le 1 e.toNat).length = exp.length := by
    induction exp with
    | nil => rfl
    | cons e es ih => simp [List.flatMap_cons, le_length, Nat.add_comm]
  simp [summaryBytes, le_length, this, h]

/-- The values that are read from a header. -/
theorem parse_values {M V nt : Nat} {nf ex ss : List Nat} (hM : M < 4294967296) (hV : V < 4294967296)
    (hnt : nt < 4294967296) (hnf : ∀ v ∈ nf, v < 4294967296) (hex : ∀ v ∈ ex, v < 256)
    (hss : ∀ v ∈ ss, (v : Int) < 9223372036854775808) (l1 : nf.length = 5) (l2 : ex.length = 4) (l3 : ss.length = 4)
    {d : Des} (hl : d.buf.length = 68)
    (hb : d.buf = le 4 M ++ (le 4 V ++ (le 4 nt ++ (nf.flatMap (le 4) ++ (ex.flatMap (le 1) ++
      (ss.flatMap (le 8) ++ [])))))) :
    parseSummary { d with pos := 0 } =
      if badSummary M V (wrapI 32 nt) ((nf.map fun v : Nat => (v : Int)).map (wrapI 32))
          (ss.map fun v : Nat => (v : Int)) = true then
        some (none, { d with pos := 68 })
      else some (some { ntus := wrapI 32 nt, nframes := (nf.map fun v : Nat => (v : Int)).map (wrapI 32),
                        exp := ex.map fun v : Nat => (v : Int), scaleSum := ss.map fun v : Nat => (v : Int),
                        total := ((nf.map fun v : Nat => (v : Int)).map (wrapI 32)).sum }, { d with pos := 68 }) := by
  have h4 : (256 : Nat) ^ 4 = 4294967296 := by norm_num
  have h8 : (256 : Nat) ^ 8 = 18446744073709551616 := by norm_num
  have e1 : ({ d with pos := 0 } : Des).buf.drop ({ d with pos := 0 } : Des).pos =
      le 4 M ++ (le 4 V ++ (le 4 nt ++ (nf.flatMap (le 4) ++ (ex.flatMap (le 1) ++
      (ss.flatMap (le 8) ++ []))))) := by
    dsimp only
    rw [List.drop_zero]
    exact hb
  have e2 := drop_step e1
  have e3 := drop_step e2
  have e4 := drop_step e3
  dsimp only at e1 e2 e3 e4
  unfold parseSummary
  rw [unbufferVal_le (d := { d with pos := 0 }) e1 (by rw [h4]; exact hM) (by omega) (by simp)]
  simp only [Option.bind_eq_bind, Option.bind_some]
  rw [unbufferVal_le (d := { d with pos := 0 + 4 }) e2 (by rw [h4]; exact hV) (by omega)
    (by dsimp only; omega)]
  simp only [Option.bind_some]
  rw [unbufferVal_le (d := { d with pos := 0 + 4 + 4 }) e3 (by rw [h4]; exact hnt) (by omega)
    (by dsimp only; omega)]
  simp only [Option.bind_some]
  obtain ⟨f1, f2⟩ := unbufferVals_le nf { d with pos := 0 + 4 + 4 + 4 } _ e4
    (by rw [h4]; exact hnf) (fun v hv => by have := hnf v hv; omega) (by dsimp only; omega)
  rw [l1] at f1 f2
  rw [f1]
  simp only [Option.bind_some]
  obtain ⟨g1, g2⟩ := unbufferVals_le ex { d with pos := 0 + 4 + 4 + 4 + 4 * 5 } _ f2
    (fun v hv => by have := hex v hv; omega) (fun v hv => by have := hex v hv; omega) (by dsimp only; omega)
  rw [l2] at g1 g2
  rw [g1]
  simp only [Option.bind_some]
  obtain ⟨k1, k2⟩ := unbufferVals_le ss { d with pos := 0 + 4 + 4 + 4 + 4 * 5 + 1 * 4 } _ g2
    (fun v hv => by have := hss v hv; rw [h8]; omega) hss (by dsimp only; omega)
  rw [l3] at k1
  rw [k1]
  simp only [Option.bind_some]

theorem wrap_list {l : List Nat} (h : ∀ v ∈ l, (v : Int) < 2147483648) :
    (l.map fun v : Nat => (v : Int)).map (wrapI 32) = l.map fun v : Nat => (v : Int) := by
  induction l with
  | nil => rfl
  | cons v l ih =>
    have e := wrap32_small (Int.natCast_nonneg v) (h v List.mem_cons_self)
    have ih := ih fun x hx => h x (List.mem_cons_of_mem _ hx)
    generalize wrapI 32 = w at e ih ⊢
    rw [List.map_cons, List.map_cons, e, ih]

theorem badSummary_ok {M V nt : Int} {nf ss : List Int} (h1 : M = magic) (h2 : V = version) (h3 : 1 ≤ nt)
    (h4 : ∀ v ∈ nf, 0 ≤ v) (h5 : nf.sum < 2147483648) (h6 : nt ≤ nf.sum) (h7 : ∀ v ∈ ss, 0 ≤ v) :
    badSummary M V nt nf ss = false := by
  unfold badSummary
  rw [p31]
  simp only [Bool.or_eq_false_iff, decide_eq_false_iff_not, List.any_eq_false, decide_eq_true_eq]
  exact ⟨⟨⟨⟨⟨⟨by simp [h1], by simp [h2]⟩, by omega⟩, fun v hv => by have := h4 v hv; omega⟩, by omega⟩, by omega⟩,
    fun v hv => by have := h7 v hv; omega⟩

theorem counts_eq (ms : List Metrics) :
    ([0, 1, 2, 3, 4].map (typeCount ms)).map (fun v : Nat => (v : Int)) = counts ms := rfl

theorem parse_summary {bx : Int → Int} {exp : List Int} {ms : List Metrics} (h : SOk bx exp ms) {d : Des}
    (hb : d.buf = summaryBytes bx exp ms) :
    parseSummary { d with pos := 0 } = some (some (summaryOf bx exp ms), { d with pos := 68 }) := by
  have hl : d.buf.length = 68 := by rw [hb]; exact summaryBytes_length h.elen
  have hlen := h.len
  have hc : ∀ p : Metrics → Bool, ms.countP p ≤ ms.length := fun p => List.countP_le_length
  have hs := hc (·.shown)
  have hpos : 1 ≤ ms.countP (·.shown) := by
    obtain ⟨m, hm, hs⟩ := h.shown
    exact List.countP_pos_iff.2 ⟨m, hm, hs⟩
  have e1 : d.buf = le 4 magic ++ (le 4 version ++ (le 4 (ms.countP (·.shown)) ++
        (([0, 1, 2, 3, 4].map (typeCount ms)).flatMap (le 4) ++ ((exp.map Int.toNat).flatMap (le 1) ++
          (([0, 1, 2, 3].map fun t => (scaleOf bx ms t).toNat).flatMap (le 8) ++ []))))) := by
    rw [hb, summaryBytes]
    simp only [List.append_assoc, List.flatMap_map, List.append_nil, magic, version]
  have hty : ∀ v ∈ [0, 1, 2, 3, 4].map (typeCount ms), (v : Int) < 2147483648 := by
    intro v hv
    simp only [List.mem_map] at hv
    obtain ⟨t, -, rfl⟩ := hv
    have := hc (fun m => decide (m.fti = t)); unfold typeCount; omega
  have hsc : ∀ v ∈ ([0, 1, 2, 3].map fun t => (scaleOf bx ms t).toNat), (v : Int) < 9223372036854775808 := by
    intro v hv
    simp only [List.mem_map] at hv
    obtain ⟨t, ht, rfl⟩ := hv
    have := h.sums t (by simp at ht; omega); omega
  have hM : magic < 4294967296 := by unfold magic; norm_num
  have hV : version < 4294967296 := by unfold version; norm_num
  rw [parse_values hM hV (by omega) (fun v hv => by have := hty v hv; omega)
    (by intro v hv
        simp only [List.mem_map] at hv
        obtain ⟨e, he, rfl⟩ := hv
        have := h.ex e he; omega) hsc rfl (by rw [List.length_map]; exact h.elen) rfl hl e1]
  have hexp : (exp.map Int.toNat).map (fun v : Nat => (v : Int)) = exp := by
    rw [List.map_map]
    conv_rhs => rw [← List.map_id exp]
    apply List.map_congr_left
    intro e he
    have := h.ex e he
    simp only [Function.comp, id]; omega
  have hsum : ([0, 1, 2, 3].map fun t => (scaleOf bx ms t).toNat).map (fun v : Nat => (v : Int)) =
      [0, 1, 2, 3].map (scaleOf bx ms) := by
    rw [List.map_map]
    apply List.map_congr_left
    intro t ht
    have := h.sums t (by simp at ht; omega)
    simp only [Function.comp]; omega
  rw [wrap_list hty, counts_eq, hexp, hsum, wrap32_small (by omega) (by omega)]
  have hcs : (counts ms).sum = ms.length := counts_sum fun m hm => (h.all m hm).fti
  rw [badSummary_ok rfl rfl (by omega)
    (by intro v hv
        simp only [counts, List.mem_cons, List.not_mem_nil, or_false] at hv
        rcases hv with rfl | rfl | rfl | rfl | rfl <;> omega)
    (by rw [hcs]; omega) (by rw [hcs]; omega)
    (by intro v hv
        simp only [List.mem_map] at hv
        obtain ⟨t, ht, rfl⟩ := hv
        exact (h.sums t (by simp at ht; omega)).1), if_neg (by simp), hcs]
  rfl

end Rav1e.Rate

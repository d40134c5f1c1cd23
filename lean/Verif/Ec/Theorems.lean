import Verif.Ec.Adapt
/-
Properties C01, C02 and C06 (range coder round trip, finished tile data, CDF adaptation).
-/
namespace Rav1e.Ec
open Av1Spec

/-- Concrete symbols used for the non-vacuity examples: three CDFs of different sizes. -/
def demo : List Sym :=
  [⟨0, [16384, 0]⟩, ⟨2, [28160, 21120, 10240, 5]⟩, ⟨1, [16384, 32]⟩, ⟨3, [28160, 21120, 10240, 9]⟩,
   ⟨1, [24000, 100, 0]⟩]

theorem demo_valid : ∀ x ∈ demo, x.Valid := by
  intro x hx
  have h : ∀ c : List Nat, c = [16384, 0] ∨ c = [28160, 21120, 10240, 5] ∨ c = [16384, 32] ∨
      c = [28160, 21120, 10240, 9] ∨ c = [24000, 100, 0] → ValidCdf c := by
    rintro c (rfl | rfl | rfl | rfl | rfl)
    all_goals
      refine ⟨by decide, by decide, ?_, ?_, by decide⟩
      all_goals
        intro i hi
        simp only [List.length_cons, List.length_nil] at hi
        have hi' : i < 3 := by omega
        interval_cases i <;> simp_all
  simp only [demo, List.mem_cons, List.not_mem_nil, or_false] at hx
  rcases hx with rfl | rfl | rfl | rfl | rfl <;> exact ⟨h _ (by simp), by decide⟩

/-- **C01.** Every sequence of symbols, each in range of a well-formed CDF, encoded by rav1e's
range encoder and finished with `done`, is decoded by the AV1 specification's symbol decoder
(given the same probabilities in the specification's representation) to the same sequence. -/
theorem encode_decode (xs : List Sym) (hx : ∀ x ∈ xs, x.Valid) :
    ((Dec.init (encodeTile xs)).symbols (xs.map fun x => toSpec x.cdf)).1 = xs.map (·.s) := by
  obtain ⟨k, h⟩ := rel_symbols rel_new hx
  obtain ⟨hb, hl, hv, h1, h2⟩ := done_spec h
  have hb : ∀ b ∈ encodeTile xs, b < 256 := hb
  have hle : (bits (encodeTile xs)).length ≤ 15 + (Ideal.new.symbols xs).n := by
    rw [bits_length]; unfold encodeTile; omega
  have hs : 15 + (Ideal.new.symbols xs).n - (bits (encodeTile xs)).length = lastShift k := by
    rw [bits_length]; unfold encodeTile; omega
  have e := xval_all (bits (encodeTile xs)) _ hle
  rw [hs, bits_val hb] at e
  exact (drel_symbols (drel_init _) hx (by rw [e]; exact h1) (by rw [e]; exact h2)).1

example : demo ≠ [] ∧ (∀ x ∈ demo, x.Valid) ∧
    ((Dec.init (encodeTile demo)).symbols (demo.map fun x => toSpec x.cdf)).1 = [0, 2, 1, 3, 1] :=
  ⟨by decide, demo_valid, encode_decode demo demo_valid⟩

theorem bitsVal_testBit (L : List Bool) (j : Nat) (hj : j < L.length) :
    L[j]? = some ((bitsVal L).testBit (L.length - 1 - j)) := by
  induction L generalizing j with
  | nil => simp at hj
  | cons b L ih =>
    rw [bitsVal_cons]
    have hlt := bitsVal_lt L
    cases j with
    | zero =>
      simp only [List.getElem?_cons_zero, List.length_cons, Nat.add_sub_cancel, Nat.sub_zero]
      rw [Nat.mul_comm, Nat.testBit_two_pow_mul_add _ hlt, if_neg (by omega)]
      cases b <;> simp
    | succ j =>
      simp only [List.length_cons] at hj
      rw [List.getElem?_cons_succ, ih j (by omega), Nat.mul_comm,
        Nat.testBit_two_pow_mul_add _ hlt, if_pos (by simp; omega)]
      congr 2; simp; omega

/-- **C02.** After decoding all symbols of a finished tile, the specification's exit
requirements hold: at most 14 bits were read beyond the end, the trailing bit is 1 and only
zero bits follow it; and every output element is a byte. -/
theorem done_exit_ok (xs : List Sym) (hx : ∀ x ∈ xs, x.Valid) :
    (∀ b ∈ encodeTile xs, b < 256) ∧
    ExitOk (encodeTile xs) ((Dec.init (encodeTile xs)).symbols (xs.map fun x => toSpec x.cdf)).2 := by
  obtain ⟨k, h⟩ := rel_symbols rel_new hx
  obtain ⟨hb, hl, hv, h1, h2⟩ := done_spec h
  have hb : ∀ b ∈ encodeTile xs, b < 256 := hb
  have hlen : (bits (encodeTile xs)).length = 8 * (encodeTile xs).length := bits_length _
  have hl' : 8 * (encodeTile xs).length + lastShift k = 15 + (Ideal.new.symbols xs).n := hl
  have e := xval_all (bits (encodeTile xs)) (15 + (Ideal.new.symbols xs).n) (by omega)
  have hs : 15 + (Ideal.new.symbols xs).n - (bits (encodeTile xs)).length = lastShift k := by
    omega
  rw [hs, bits_val hb] at e
  have hd := (drel_symbols (drel_init _) hx (by rw [e]; exact h1) (by rw [e]; exact h2)).2
  refine ⟨hb, ?_⟩
  have hls : 7 ≤ lastShift k ∧ lastShift k ≤ 14 := by
    have := h.klo; have := h.khi; unfold lastShift; split <;> omega
  have hmb := hd.maxBits
  have hrest : (((Dec.init (encodeTile xs)).symbols (xs.map fun x => toSpec x.cdf)).2).rest = [] := by
    rw [hd.rest]; exact List.drop_eq_nil_of_le (by omega)
  unfold ExitOk
  simp only [hrest, List.length_nil]
  rw [hmb]
  -- the emitted number
  have hval : val (encodeTile xs) * 2 ^ lastShift k =
      2 ^ 14 * (val (Enc.new.symbols xs).precarry * 2 ^ (k - 14) +
        (2 * (((Enc.new.symbols xs).low + 0x3FFF) / 0x4000 / 2) + 1)) := by
    have : 2 ^ k = 2 ^ 14 * 2 ^ (k - 14) := by
      rw [← Nat.pow_add]; congr 1; have := h.klo; omega
    refine hv.trans ?_
    rw [doneE_eq, this]; ring
  have hodd : (val (Enc.new.symbols xs).precarry * 2 ^ (k - 14) +
        (2 * (((Enc.new.symbols xs).low + 0x3FFF) / 0x4000 / 2) + 1)) % 2 = 1 := by
    have : 2 ^ (k - 14) = 2 * 2 ^ (k - 15) := by
      rw [← Nat.pow_succ']; congr 1; have := h.klo; omega
    rw [this, show ∀ a b c : Nat, a * (2 * b) + (2 * c + 1) = 2 * (a * b + c) + 1 by
      intro a b c; ring]
    omega
  generalize (val (Enc.new.symbols xs).precarry * 2 ^ (k - 14) +
        (2 * (((Enc.new.symbols xs).low + 0x3FFF) / 0x4000 / 2) + 1)) = q at hval hodd
  have hbit : ∀ j, j < (bits (encodeTile xs)).length →
      (bits (encodeTile xs))[j]? =
        some ((2 ^ 14 * q).testBit ((bits (encodeTile xs)).length - 1 - j + lastShift k)) := by
    intro j hj
    rw [bitsVal_testBit _ j hj, bits_val hb, ← hval, Nat.mul_comm (val _), Nat.testBit_two_pow_mul]
    simp
  have hn : (Ideal.new.symbols xs).n < (bits (encodeTile xs)).length := by omega
  refine ⟨by omega, by omega, ?_, ?_⟩
  · have et : (((bits (encodeTile xs)).length : Int) - ((0 : Nat) : Int) -
        min 15 (((bits (encodeTile xs)).length : Int) - ((15 + (Ideal.new.symbols xs).n : Nat) : Int)
          + 15)).toNat = (Ideal.new.symbols xs).n := by omega
    rw [et, hbit _ hn]
    rw [show (bits (encodeTile xs)).length - 1 - (Ideal.new.symbols xs).n + lastShift k = 14 by omega]
    rw [Nat.testBit_two_pow_mul]
    simp [Nat.testBit_zero, hodd]
  · intro j hj1 hj2
    rw [hbit j hj2, Nat.testBit_two_pow_mul]
    have : ¬ 14 ≤ (bits (encodeTile xs)).length - 1 - j + lastShift k := by omega
    simp [this]

example : (∀ x ∈ demo, x.Valid) ∧ encodeTile demo ≠ [] := ⟨demo_valid, by decide⟩

/-- The comment in `done` (src/ec.rs:435-436) says the emitted bits decode "regardless of the
bits that follow".  That is false: here the four symbols do not survive trailing 0xFF bytes.
AV1 tile data is delimited by its size and the decoder pads with zeros, for which
`encode_decode` holds. -/
theorem done_not_regardless :
    let xs : List Sym := [⟨0, [30000, 0]⟩, ⟨1, [16384, 0]⟩, ⟨0, [16384, 0]⟩, ⟨0, [16384, 0]⟩]
    ((Dec.init (encodeTile xs ++ [255, 255, 255])).symbols (xs.map fun x => toSpec x.cdf)).1
      ≠ xs.map (·.s) := by
  decide +kernel

/-- **C18 (range coder part).** In every state reachable by coding valid symbols, coding one
more valid symbol performs no out-of-range arithmetic: no subtraction goes below zero and every
value fits the machine type that holds it in `/repo/src/ec.rs` (`u32` window, `u16` range and
digits, `i16` count). -/
theorem store_no_overflow (xs : List Sym) (hx : ∀ x ∈ xs, x.Valid) (x : Sym) (hv : x.Valid) :
    let e := Enc.new.symbols xs
    let t := x.triple
    let u := lrU e.rng t.1 t.2.2
    let v := lrV e.rng t.2.1 t.2.2
    let d := clz16 (u - v)
    32768 ≤ e.rng ∧ e.rng < 2 ^ 16 ∧ 1 ≤ t.2.2 ∧ v < u ∧ u ≤ e.rng ∧ d ≤ 15 ∧
    (u - v) <<< d < 2 ^ 16 ∧ -9 ≤ e.cnt ∧ e.cnt ≤ -1 ∧
    e.rng - u + e.low < 2 ^ 25 ∧
    (e.cnt + d < 0 → (e.rng - u + e.low) <<< d < 2 ^ 32) ∧
    (e.rng - u + e.low) >>> (e.cnt + 16).toNat < 2 ^ 16 ∧
    ((e.rng - u + e.low) % 2 ^ (e.cnt + 16).toNat) <<< d < 2 ^ 32 ∧
    (8 ≤ e.cnt + d → 8 ≤ (e.cnt + 16).toNat) ∧
    (∀ p ∈ (e.symbol x).precarry, p < 512) := by
  obtain ⟨k, h⟩ := rel_symbols rel_new hx
  have h' := rel_step h hv
  obtain ⟨k', h'⟩ := h'
  have hb := bnd_lt hv.cdf h.rlo hv.lt
  have hu := bndU_le hv.cdf h.rlo hv.lt
  have hlt := hv.lt
  obtain ⟨hcnt, hklo, hkhi, hrng, hrlo, hrhi, hA, hn, hlow, hdig, htop⟩ := h
  simp only
  rw [hrng, lrU_triple hv, lrV_triple]
  rw [hrng] at hlow
  generalize bndU (Ideal.new.symbols xs).R x.cdf x.s = u at *
  generalize bndV (Ideal.new.symbols xs).R x.cdf x.s = v at *
  generalize (Ideal.new.symbols xs).R = R at *
  generalize (Enc.new.symbols xs).low = low at *
  obtain ⟨c1, c2, c3⟩ := clz16_spec (r := u - v) (by omega) (by omega)
  have h25 : low + R ≤ 2 ^ 24 := Nat.le_trans hlow (Nat.pow_le_pow_right (by decide) (by omega))
  have hl : R - u + low < 2 ^ (k + 1) := by omega
  generalize R - u + low = l at *
  generalize clz16 (u - v) = d at *
  have hk8 : ((Enc.new.symbols xs).cnt + 16).toNat = k - 8 := by omega
  rw [hk8]
  refine ⟨hrlo, by omega, by simp [Sym.triple]; omega, by omega, hu, c1, ?_, by omega, by omega,
    ?_, ?_, ?_, ?_, by omega, h'.digits⟩
  · rw [Nat.shiftLeft_eq]; exact c3
  · exact Nat.lt_of_lt_of_le hl (Nat.pow_le_pow_right (by decide) (by omega))
  · intro hneg
    rw [Nat.shiftLeft_eq]
    have : 2 ^ (k + 1) * 2 ^ d ≤ 2 ^ 32 := by
      rw [← Nat.pow_add]; exact Nat.pow_le_pow_right (by decide) (by omega)
    exact Nat.lt_of_lt_of_le (Nat.mul_lt_mul_of_pos_right hl (Nat.two_pow_pos _)) this
  · rw [Nat.shiftRight_eq_div_pow]
    refine Nat.lt_of_lt_of_le (div_lt_pow (a := k - 8) (b := 9) ?_) (by decide)
    rw [show k - 8 + 9 = k + 1 by omega]; exact hl
  · rw [Nat.shiftLeft_eq]
    have : 2 ^ (k - 8) * 2 ^ d ≤ 2 ^ 32 := by
      rw [← Nat.pow_add]; exact Nat.pow_le_pow_right (by decide) (by omega)
    exact Nat.lt_of_lt_of_le
      (Nat.mul_lt_mul_of_pos_right (Nat.mod_lt _ (Nat.two_pow_pos _)) (Nat.two_pow_pos _)) this

/-- The digit loop of `done` never runs out of the model's fuel, and its shifts never go
negative: with `s = 10 + cnt ≤ 9` bits to emit it stops after at most two digits. -/
theorem done_digits_fuel (xs : List Sym) (hx : ∀ x ∈ xs, x.Valid) (extra : Nat) :
    let e := Enc.new.symbols xs
    doneLoop (3 + extra) (doneE e.low) ((e.cnt + 16).toNat) (10 + e.cnt) =
      doneLoop 3 (doneE e.low) ((e.cnt + 16).toNat) (10 + e.cnt) := by
  obtain ⟨k, h⟩ := rel_symbols rel_new hx
  have := h.cnt; have := h.khi
  intro e
  rw [show 3 + extra = (1 + extra) + 1 + 1 by omega]
  simp only [doneLoop]
  have : 10 + e.cnt - 8 - 8 ≤ 0 := by
    show 10 + (Enc.new.symbols xs).cnt - 8 - 8 ≤ 0
    omega
  simp only [this, if_true]

/-- **C06 (validity).** Adaptation keeps a well-formed CDF well-formed: values stay below 32768,
stay monotone, and the counter never exceeds 32. -/
theorem adaptation_preserves_validity (c : List Nat) (h : WfCdf c) (s : Nat) :
    WfCdf (updateCdf c s) ∧ (updateCdf c s).length = c.length :=
  ⟨updateCdf_wf h s, updateCdf_length (by have := h.two_le; omega) s⟩

/-- **C06 (agreement).** rav1e's `update_cdf` computes exactly the specification's symbol
adaptation process. -/
theorem adaptation_matches_spec (c : List Nat) (h : WfCdf c) (s : Nat) :
    toSpec (updateCdf c s) = adapt (toSpec c) s :=
  updateCdf_spec h s

theorem demo_wf : ∀ c ∈ [[16384, 0], [28160, 21120, 10240, 5]], WfCdf c := by
  intro c hc
  simp only [List.mem_cons, List.not_mem_nil, or_false] at hc
  rcases hc with rfl | rfl
  · exact ⟨(demo_valid ⟨0, [16384, 0]⟩ (by decide)).cdf, by decide⟩
  · exact ⟨(demo_valid ⟨2, [28160, 21120, 10240, 5]⟩ (by decide)).cdf, by decide⟩

example : WfCdf [28160, 21120, 10240, 5] ∧
    updateCdf [28160, 21120, 10240, 5] 1 = [28304, 20460, 9920, 6] :=
  ⟨demo_wf _ (by decide), by decide⟩

/-- Outside the reachable counter values the two rules differ (counter 48): the hypothesis
`count ≤ 32` of `adaptation_matches_spec` is needed. -/
theorem adaptation_needs_cap :
    toSpec (updateCdf [16384, 48] 0) ≠ adapt (toSpec [16384, 48]) 0 := by decide

/-- **C01 + C06.** Adaptive coding: starting from any array of well-formed CDFs, with any
context-selection rule that depends only on the symbols coded so far, a decoder that follows
the specification (adapting its own copy of the CDFs) recovers the coded symbols. -/
theorem adaptive_encode_decode (pick : List Nat → Nat) (cdfs : List (List Nat))
    (hw : ∀ c ∈ cdfs, WfCdf c) (ss : List Nat) (hok : AdaptOk pick cdfs [] ss) :
    decodeAdaptive pick ss.length (Dec.init (encodeTile (adaptiveSyms pick cdfs [] ss)))
      (cdfs.map toSpec) [] = ss := by
  have hv := adaptive_valid hw hok
  have h := encode_decode _ hv
  rw [adaptive_map] at h
  simpa using decode_adaptive_eq hw hok h

example : (∀ c ∈ [[16384, 0], [28160, 21120, 10240, 5]], WfCdf c) ∧
    AdaptOk (fun h => h.length % 2) [[16384, 0], [28160, 21120, 10240, 5]] [] [1, 3, 0, 2, 1] :=
  ⟨demo_wf, by simp [AdaptOk, updateCdf]⟩

end Rav1e.Ec

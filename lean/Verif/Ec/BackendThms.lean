import Verif.Ec.Backends
import Verif.Ec.Theorems
/-
Properties C03, C04, C05, C45: record/replay, bit counts, checkpoint/rollback, cost queries.
-/
namespace Rav1e.Ec
open Backend

/-! ### Specification of histories -/

/-- The symbols that remain written after a sequence of operations, by the meaning of
checkpoints: restoring returns to the history at the time of the save. -/
def surviving : List Sym → List (List Sym) → List Op → List Sym
  | h, _, [] => h
  | h, hs, .sym x :: ops => surviving (h ++ [x]) hs ops
  | h, hs, .save :: ops => surviving h (hs ++ [h]) ops
  | h, hs, .restore i :: ops => surviving (hs.getD i h) hs ops

/-- The caller's obligation (`/repo/src/ec.rs` 799-802): a checkpoint is only restored on a writer
that still has the saved content as a prefix, i.e. it was not rolled back past that point and
then extended differently. -/
def Legal : List Sym → List (List Sym) → List Op → Prop
  | _, _, [] => True
  | h, hs, .sym x :: ops => Legal (h ++ [x]) hs ops
  | h, hs, .save :: ops => Legal h (hs ++ [h]) ops
  | h, hs, .restore i :: ops =>
    ∃ h0, hs[i]? = some h0 ∧ h0 <+: h ∧ Legal h0 hs ops

/-! ### Backends that can be rolled back -/

/-- What has to be true of a backend: rolling back across any further symbols restores the
state exactly. -/
def Undo (W : Type) [Backend W] : Prop :=
  ∀ (w : W) (xs : List Sym), rollback (wsymbols w xs) (checkpoint w) = w

theorem wsymbols_append {W} [Backend W] (w : W) (xs ys : List Sym) :
    wsymbols w (xs ++ ys) = wsymbols (wsymbols w xs) ys := by
  simp [wsymbols, List.foldl_append]

theorem runOps_surviving {W} [Backend W] (hu : Undo W) (w0 : W) (ops : List Op) :
    ∀ (h : List Sym) (hs : List (List Sym)), Legal h hs ops →
      runOps (wsymbols w0 h) (hs.map fun h => checkpoint (wsymbols w0 h)) ops =
        wsymbols w0 (surviving h hs ops) := by
  induction ops with
  | nil => intro h hs _; rfl
  | cons op ops ih =>
    intro h hs hl
    cases op with
    | sym x =>
      have := ih (h ++ [x]) hs hl
      rw [wsymbols_append] at this
      exact this
    | save =>
      have := ih h (hs ++ [h]) hl
      rw [List.map_append] at this
      exact this
    | restore i =>
      obtain ⟨h0, e1, ⟨t, rfl⟩, hl'⟩ := hl
      simp only [runOps, surviving, List.getElem?_map, e1, Option.map_some]
      rw [wsymbols_append, hu, List.getD_eq_getElem?_getD, e1]
      exact ih h0 hs hl'

theorem counter_undo : Undo Counter := by
  have h : ∀ (xs : List Sym) (w : Counter), (wsymbols w xs).cnt = w.cnt ∧
      (wsymbols w xs).fake = w.fake := by
    intro xs
    induction xs with
    | nil => intro w; exact ⟨rfl, rfl⟩
    | cons x xs ih => intro w; exact ih (wsymbol w x)
  intro w xs
  obtain ⟨h1, h2⟩ := h xs w
  show ({ wsymbols w xs with rng := w.rng, bits := w.bits } : Counter) = w
  simp only [h1, h2]

theorem recorder_state (xs : List Sym) : ∀ w : Recorder,
    (wsymbols w xs).storage = w.storage ++ xs.map Sym.triple ∧
    (wsymbols w xs).fake = w.fake ∧ (wsymbols w xs).cnt = w.cnt := by
  induction xs with
  | nil => intro w; exact ⟨by simp [wsymbols], rfl, rfl⟩
  | cons x xs ih =>
    intro w
    obtain ⟨h1, h2, h3⟩ := ih (wsymbol w x)
    refine ⟨?_, h2, h3⟩
    show (wsymbols (wsymbol w x) xs).storage = _
    rw [h1]
    simp [wsymbol, store]

theorem recorder_undo : Undo Recorder := by
  intro w xs
  obtain ⟨h1, h2, h3⟩ := recorder_state xs w
  show ({ wsymbols w xs with
    rng := w.rng, cnt := w.cnt, bits := w.bits,
    storage := (wsymbols w xs).storage.take w.storage.length } : Recorder) = w
  simp [h1, h2]

theorem enc_prefix (e : Enc) (fl fh nms : Nat) : e.precarry <+: (e.store fl fh nms).precarry := by
  simp only [Enc.store]
  split
  · split <;> exact List.prefix_append _ _
  · exact List.prefix_refl _

theorem encoder_state (xs : List Sym) : ∀ w : Encoder,
    w.enc.precarry <+: (wsymbols w xs).enc.precarry ∧ (wsymbols w xs).fake = w.fake := by
  induction xs with
  | nil => intro w; exact ⟨List.prefix_refl _, rfl⟩
  | cons x xs ih =>
    intro w
    obtain ⟨h1, h2⟩ := ih (wsymbol w x)
    exact ⟨List.IsPrefix.trans (enc_prefix w.enc _ _ _) h1, h2⟩

theorem encoder_undo : Undo Encoder := by
  intro w xs
  obtain ⟨⟨t, h1⟩, h2⟩ := encoder_state xs w
  show ({ wsymbols w xs with
    enc := { rng := w.enc.rng, cnt := w.enc.cnt, low := w.enc.low,
             precarry := (wsymbols w xs).enc.precarry.take w.enc.precarry.length } } : Encoder) = w
  simp [← h1, h2]

theorem encoder_symbols (xs : List Sym) : ∀ w : Encoder,
    (wsymbols w xs).enc = w.enc.symbols xs := by
  induction xs with
  | nil => intro w; rfl
  | cons x xs ih => intro w; exact ih (wsymbol w x)

/-! ### C05 -/

/-- **C05.** For each of the three writers: after any history of symbols, checkpoints and (legal)
rollbacks, nested and repeated in any way, the writer is in exactly the state of a fresh writer
that was given only the surviving symbols. -/
theorem rollback_exact (ops : List Op) (hl : Legal [] [] ops) :
    runOps (Backend.new : Counter) [] ops = wsymbols Backend.new (surviving [] [] ops) ∧
    runOps (Backend.new : Recorder) [] ops = wsymbols Backend.new (surviving [] [] ops) ∧
    runOps (Backend.new : Encoder) [] ops = wsymbols Backend.new (surviving [] [] ops) :=
  ⟨runOps_surviving counter_undo _ ops [] [] hl, runOps_surviving recorder_undo _ ops [] [] hl,
    runOps_surviving encoder_undo _ ops [] [] hl⟩

/-- A legal history with nested checkpoints, a checkpoint restored twice and writes between. -/
def demoOps : List Op :=
  [.sym ⟨0, [16384, 0]⟩, .save, .sym ⟨1, [16384, 0]⟩, .save, .sym ⟨2, [28160, 21120, 10240, 5]⟩,
   .restore 1, .sym ⟨3, [28160, 21120, 10240, 5]⟩, .restore 0, .sym ⟨0, [24000, 100, 0]⟩,
   .restore 0, .sym ⟨1, [24000, 100, 0]⟩]

example : Legal [] [] demoOps ∧
    surviving [] [] demoOps = [⟨0, [16384, 0]⟩, ⟨1, [24000, 100, 0]⟩] := by
  refine ⟨?_, by decide⟩
  refine ⟨_, rfl, ?_, _, rfl, ?_, _, rfl, ?_, trivial⟩ <;> simp [List.prefix_iff_eq_take]

/-- **C05 (observable form).** The bytes produced after any legal history are those of the
surviving symbols encoded on their own, and decode to them. -/
theorem rollback_bytes (ops : List Op) (hl : Legal [] [] ops)
    (hv : ∀ x ∈ surviving [] [] ops, x.Valid) :
    (runOps (Backend.new : Encoder) [] ops).enc.done = encodeTile (surviving [] [] ops) ∧
    ((Av1Spec.Dec.init (runOps (Backend.new : Encoder) [] ops).enc.done).symbols
      ((surviving [] [] ops).map fun x => toSpec x.cdf)).1 = (surviving [] [] ops).map (·.s) := by
  have e : (runOps (Backend.new : Encoder) [] ops).enc.done = encodeTile (surviving [] [] ops) := by
    rw [(rollback_exact ops hl).2.2, encoder_symbols]; rfl
  exact ⟨e, by rw [e]; exact encode_decode _ hv⟩

/-- A checkpoint does not cover the estimated bits added with `add_bits_frac`: rolling back leaves
them in place, so the reported cost after a rollback differs from the cost at the checkpoint.
(The only caller, src/encoder.rs:1651, runs in the `TxDistEstRate` mode.) -/
theorem rollback_keeps_fake_bits :
    ∃ w : Encoder, tellFrac (rollback (addFake w 100) (checkpoint w)) ≠ tellFrac w :=
  ⟨Backend.new, by decide⟩

/-- Rollback does restore everything else: with `fake` additions interleaved, the state is the
checkpointed one except for that counter. -/
theorem rollback_with_fake (w : Encoder) (b : Nat) (xs : List Sym) :
    rollback (wsymbols (addFake w b) xs) (checkpoint w) = addFake w b :=
  encoder_undo (addFake w b) xs

/-! ### C03 -/

/-- **C03.** Recording symbols, with any legal checkpoints and rollbacks, and replaying the recorder
into a fresh encoder gives exactly the state, hence the bytes, of encoding the surviving symbols
directly; the recorder is left as a fresh one. -/
theorem replay_equals_direct (ops : List Op) (hl : Legal [] [] ops) :
    ((runOps (Backend.new : Recorder) [] ops).replay (Backend.new : Encoder)).2 =
      wsymbols Backend.new (surviving [] [] ops) ∧
    ((runOps (Backend.new : Recorder) [] ops).replay (Backend.new : Encoder)).2.enc.done =
      encodeTile (surviving [] [] ops) ∧
    ((runOps (Backend.new : Recorder) [] ops).replay (Backend.new : Encoder)).1 = Backend.new := by
  rw [(rollback_exact ops hl).2.1]
  generalize surviving [] [] ops = xs
  obtain ⟨h1, h2, h3⟩ := recorder_state xs Backend.new
  have e : ((wsymbols (Backend.new : Recorder) xs).replay (Backend.new : Encoder)).2 =
      wsymbols Backend.new xs := by
    simp only [Recorder.replay]
    rw [h1]
    show List.foldl _ _ ([] ++ xs.map Sym.triple) = _
    rw [List.nil_append, List.foldl_map]; rfl
  refine ⟨e, ?_, ?_⟩
  · rw [e, encoder_symbols]; rfl
  · simp only [Recorder.replay]; rw [h2]; rfl

/-- **C03 (into any writer).** Replaying into a writer of any kind, in any state, is the same as
writing the recorded symbols to it. -/
theorem replay_into {W} [Backend W] (xs : List Sym) (dest : W) :
    ((wsymbols (Backend.new : Recorder) xs).replay dest).2 = wsymbols dest xs := by
  simp only [Recorder.replay]
  rw [(recorder_state xs Backend.new).1]
  show List.foldl _ _ ([] ++ xs.map Sym.triple) = _
  rw [List.nil_append, List.foldl_map]; rfl

example : Legal [] [] demoOps ∧ surviving [] [] demoOps ≠ [] := by
  refine ⟨?_, by decide⟩
  refine ⟨_, rfl, ?_, _, rfl, ?_, _, rfl, ?_, trivial⟩ <;> simp [List.prefix_iff_eq_take]

/-- Replay forgets the estimated bits of the recorder in the destination and keeps them in the
cleared recorder. -/
theorem replay_keeps_fake_bits :
    tellFrac ((addFake (Backend.new : Recorder) 100).replay (Backend.new : Encoder)).1 ≠
      tellFrac (Backend.new : Recorder) := by decide

/-! ### C04 -/

/-- Counter and recorder follow the ideal range and shift count. -/
theorem counter_ideal {xs : List Sym} (hx : ∀ x ∈ xs, x.Valid) : ∀ (w : Counter) (i : Ideal),
    w.rng = i.R → 32768 ≤ i.R → i.R < 65536 →
    (wsymbols w xs).rng = (i.symbols xs).R ∧
    (wsymbols w xs).bits + i.n = w.bits + (i.symbols xs).n := by
  induction xs with
  | nil => intro w i h _ _; exact ⟨h, rfl⟩
  | cons x xs ih =>
    intro w i h h1 h2
    have hv := hx x (by simp)
    have hr := ideal_range hv h1 h2
    have hb := bnd_lt hv.cdf h1 hv.lt
    have hu := bndU_le hv.cdf h1 hv.lt
    have e : (lrCompute w.rng x.triple.1 x.triple.2.1 x.triple.2.2).2 =
        bndU i.R x.cdf x.s - bndV i.R x.cdf x.s := by
      simp only [lrCompute]
      rw [h, lrU_triple hv, lrV_triple, Nat.mod_eq_of_lt (by omega)]
    have hc := clz16_spec (r := bndU i.R x.cdf x.s - bndV i.R x.cdf x.s) (by omega) (by omega)
    have e1 : (wsymbol w x).rng = (i.symbol x).R := by
      show ((lrCompute w.rng _ _ _).2 <<< clz16 (lrCompute w.rng _ _ _).2) % 65536 = _
      rw [e, Nat.shiftLeft_eq, Nat.mod_eq_of_lt hc.2.2]; rfl
    have e2 : (wsymbol w x).bits + i.n = w.bits + (i.symbol x).n := by
      show w.bits + clz16 (lrCompute w.rng _ _ _).2 + i.n = w.bits + (i.n + clz16 _)
      rw [e]; omega
    obtain ⟨g1, g2⟩ := ih (fun y hy => hx y (by simp [hy])) (wsymbol w x) (i.symbol x) e1 hr.1 hr.2
    refine ⟨g1, ?_⟩
    show (wsymbols (wsymbol w x) xs).bits + i.n = w.bits + ((i.symbol x).symbols xs).n
    omega

theorem recorder_counter (xs : List Sym) : ∀ (r : Recorder) (c : Counter),
    r.rng = c.rng → r.bits = c.bits →
    (wsymbols r xs).rng = (wsymbols c xs).rng ∧ (wsymbols r xs).bits = (wsymbols c xs).bits := by
  induction xs with
  | nil => intro r c h1 h2; exact ⟨h1, h2⟩
  | cons x xs ih =>
    intro r c h1 h2
    apply ih (wsymbol r x) (wsymbol c x)
    · show ((lrCompute r.rng _ _ _).2 <<< clz16 (lrCompute r.rng _ _ _).2) % 65536 = _
      rw [h1]; rfl
    · show r.bits + clz16 (lrCompute r.rng _ _ _).2 = _
      rw [h1, h2]; rfl

theorem counter_fake (xs : List Sym) : ∀ w : Counter, (wsymbols w xs).fake = w.fake ∧
    (wsymbols w xs).cnt = w.cnt := by
  induction xs with
  | nil => intro w; exact ⟨rfl, rfl⟩
  | cons x xs ih => intro w; exact ih (wsymbol w x)

/-- The total shift of the idealised coder as reported by each backend. -/
theorem tell_values (xs : List Sym) (hx : ∀ x ∈ xs, x.Valid) :
    tell (wsymbols (Backend.new : Counter) xs) = (Ideal.new.symbols xs).n + 1 ∧
    tell (wsymbols (Backend.new : Recorder) xs) = (Ideal.new.symbols xs).n + 1 ∧
    tell (wsymbols (Backend.new : Encoder) xs) = (Ideal.new.symbols xs).n + 1 ∧
    rng (wsymbols (Backend.new : Counter) xs) = (Ideal.new.symbols xs).R ∧
    rng (wsymbols (Backend.new : Recorder) xs) = (Ideal.new.symbols xs).R ∧
    rng (wsymbols (Backend.new : Encoder) xs) = (Ideal.new.symbols xs).R := by
  obtain ⟨c1, c2⟩ := counter_ideal hx Backend.new Ideal.new rfl (by decide) (by decide)
  obtain ⟨c3, c4⟩ := counter_fake xs Backend.new
  obtain ⟨r1, r2⟩ := recorder_counter xs Backend.new Backend.new rfl rfl
  obtain ⟨r3, r4, r5⟩ := recorder_state xs Backend.new
  obtain ⟨k, hr⟩ := rel_symbols rel_new hx
  have he := encoder_symbols xs Backend.new
  obtain ⟨_, e2⟩ := encoder_state xs Backend.new
  have hn : (Backend.new : Counter).bits = 0 := rfl
  have hn' : Ideal.new.n = 0 := rfl
  refine ⟨?_, ?_, ?_, c1, r1.trans c1, ?_⟩
  · show (((wsymbols (Backend.new : Counter) xs).bits : Int) + (wsymbols Backend.new xs : Counter).cnt
      + 10).toNat + ((wsymbols Backend.new xs : Counter).fake >>> 8) = _
    rw [c3, c4]
    show (((wsymbols (Backend.new : Counter) xs).bits : Int) + (-9) + 10).toNat + 0 = _
    omega
  · show (((wsymbols (Backend.new : Recorder) xs).bits : Int) + (wsymbols Backend.new xs : Recorder).cnt
      + 10).toNat + ((wsymbols Backend.new xs : Recorder).fake >>> 8) = _
    rw [r4, r5]
    show (((wsymbols (Backend.new : Recorder) xs).bits : Int) + (-9) + 10).toNat + 0 = _
    omega
  · show ((((wsymbols (Backend.new : Encoder) xs).enc.precarry.length * 8 : Nat) : Int) +
      (wsymbols Backend.new xs : Encoder).enc.cnt
      + 10).toNat + ((wsymbols Backend.new xs : Encoder).fake >>> 8) = _
    rw [e2, he]
    have h1 := hr.cnt
    have h2 := hr.n
    have h3 := hr.klo
    show ((((Enc.new.symbols xs).precarry.length * 8 : Nat) : Int) + (Enc.new.symbols xs).cnt
      + 10).toNat + 0 = _
    omega
  · show (wsymbols (Backend.new : Encoder) xs).enc.rng = _
    rw [he]; exact hr.rng

/-- **C04.** The counting, recording and encoding writers report the same `tell` and `tell_frac`
for the same symbols. -/
theorem tell_agree (xs : List Sym) (hx : ∀ x ∈ xs, x.Valid) :
    tell (wsymbols (Backend.new : Counter) xs) = tell (wsymbols (Backend.new : Encoder) xs) ∧
    tell (wsymbols (Backend.new : Recorder) xs) = tell (wsymbols (Backend.new : Encoder) xs) ∧
    tellFrac (wsymbols (Backend.new : Counter) xs) = tellFrac (wsymbols (Backend.new : Encoder) xs) ∧
    tellFrac (wsymbols (Backend.new : Recorder) xs) =
      tellFrac (wsymbols (Backend.new : Encoder) xs) := by
  obtain ⟨h1, h2, h3, h4, h5, h6⟩ := tell_values xs hx
  have f1 : fake (wsymbols (Backend.new : Counter) xs) = 0 := (counter_fake xs _).1
  have f2 : fake (wsymbols (Backend.new : Recorder) xs) = 0 := (recorder_state xs _).2.1
  have f3 : fake (wsymbols (Backend.new : Encoder) xs) = 0 := (encoder_state xs _).2
  refine ⟨h1.trans h3.symm, h2.trans h3.symm, ?_, ?_⟩
  · unfold tellFrac; rw [h1, h3, h4, h6, f1, f3]
  · unfold tellFrac; rw [h2, h3, h5, h6, f2, f3]

/-- **C04 (meaning of the count).** `tell`, rounded up to whole bytes, is exactly the number of bytes
`done` would produce at that point. -/
theorem tell_is_size (xs : List Sym) (hx : ∀ x ∈ xs, x.Valid) :
    (encodeTile xs).length = (tell (wsymbols (Backend.new : Counter) xs) + 7) / 8 := by
  obtain ⟨h1, _⟩ := tell_values xs hx
  obtain ⟨k, hr⟩ := rel_symbols rel_new hx
  obtain ⟨_, hl, _⟩ := done_spec hr
  have hls : 7 ≤ lastShift k ∧ lastShift k ≤ 14 := by
    have := hr.klo; have := hr.khi; unfold lastShift; split <;> omega
  rw [h1]
  have hl' : 8 * (encodeTile xs).length + lastShift k = 15 + (Ideal.new.symbols xs).n := hl
  omega

example : (∀ x ∈ demo, x.Valid) ∧ tell (wsymbols (Backend.new : Counter) demo) = 7 ∧
    (encodeTile demo).length = 1 := ⟨demo_valid, by decide, by decide⟩

/-! ### Fractional bits -/

theorem fracStep_spec {r l r' l' : Nat} (h1 : 32768 ≤ r) (h2 : r < 65536)
    (e : fracStep (r, l) = (r', l')) :
    32768 ≤ r' ∧ r' < 65536 ∧ ∃ b, b ≤ 1 ∧ l' = 2 * l + b ∧ r' * 2 ^ b * 32768 ≤ r * r := by
  have hq1 : 32768 * 32768 ≤ r * r := Nat.mul_le_mul h1 h1
  have hq2 : r * r ≤ 65535 * 65535 := Nat.mul_le_mul (by omega) (by omega)
  have hle : r * r / 32768 * 32768 ≤ r * r := Nat.div_mul_le_self _ _
  have e' : fracStep (r, l) =
      ((r * r / 2 ^ 15) / 2 ^ (r * r / 2 ^ 15 / 2 ^ 16), (l <<< 1) ||| (r * r / 2 ^ 15 / 2 ^ 16)) := by
    simp only [fracStep, Nat.shiftRight_eq_div_pow]
  rw [e'] at e
  simp only [Nat.reducePow] at e
  generalize hq : r * r / 32768 = q at *
  have q1 : 32768 ≤ q := by omega
  have q2 : q < 131072 := by omega
  have or_bit : ∀ b, b < 2 → (l <<< 1) ||| b = 2 * l + b := by
    intro b hb
    rw [← Nat.shiftLeft_add_eq_or_of_lt (by simpa using hb), Nat.shiftLeft_eq]; omega
  by_cases hb : q < 65536
  · have h0 : q / 65536 = 0 := Nat.div_eq_of_lt hb
    rw [h0, or_bit 0 (by omega)] at e
    injection e with ea eb
    refine ⟨by omega, by omega, 0, by omega, by omega, ?_⟩
    have e2 : r' = q := by omega
    rw [Nat.pow_zero, Nat.mul_one, e2]; exact hle
  · have h0 : q / 65536 = 1 := by omega
    rw [h0, or_bit 1 (by omega)] at e
    injection e with ea eb
    refine ⟨by omega, by omega, 1, by omega, by omega, ?_⟩
    have e2 : r' * 2 ≤ q := by omega
    rw [Nat.pow_one]; exact Nat.le_trans (Nat.mul_le_mul_right _ e2) hle

/-- The fractional estimate never exceeds the information content of the range. -/
theorem fracL_spec {r : Nat} (h1 : 32768 ≤ r) (h2 : r < 65536) :
    fracL r < 8 ∧ 2 ^ fracL r * (2 ^ 15) ^ 8 ≤ r ^ 8 := by
  rcases hs1 : fracStep (r, 0) with ⟨r1, l1⟩
  rcases hs2 : fracStep (r1, l1) with ⟨r2, l2⟩
  rcases hs3 : fracStep (r2, l2) with ⟨r3, l3⟩
  obtain ⟨a1, a2, b1, hb1, e1, g1⟩ := fracStep_spec h1 h2 hs1
  obtain ⟨a3, a4, b2, hb2, e2, g2⟩ := fracStep_spec a1 a2 hs2
  obtain ⟨a5, a6, b3, hb3, e3, g3⟩ := fracStep_spec a3 a4 hs3
  have hl : fracL r = 2 * (2 * (2 * 0 + b1) + b2) + b3 := by
    unfold fracL; rw [hs1, hs2, hs3]; subst e1 e2 e3; rfl
  rw [hl]
  refine ⟨by omega, ?_⟩
  have e15 : (32768 : Nat) = 2 ^ 15 := by norm_num
  rw [e15] at g1 g2 g3 a5
  generalize (2 : Nat) ^ 15 = K at *
  have g3' : K * 2 ^ b3 * K ≤ r2 * r2 :=
    Nat.le_trans (Nat.mul_le_mul_right _ (Nat.mul_le_mul_right _ a5)) g3
  have s2 : (r2 * 2 ^ b2 * K) ^ 2 ≤ (r1 * r1) ^ 2 := Nat.pow_le_pow_left g2 2
  have s1 : (r1 * 2 ^ b1 * K) ^ 4 ≤ (r * r) ^ 4 := Nat.pow_le_pow_left g1 4
  have e0 : 2 ^ (2 * (2 * (2 * 0 + b1) + b2) + b3) = (2 ^ b1) ^ 4 * (2 ^ b2) ^ 2 * 2 ^ b3 := by
    rw [← Nat.pow_mul, ← Nat.pow_mul, ← Nat.pow_add, ← Nat.pow_add]; congr 1; ring
  rw [e0]
  generalize 2 ^ b1 = x at *
  generalize 2 ^ b2 = y at *
  generalize 2 ^ b3 = z at *
  calc x ^ 4 * y ^ 2 * z * K ^ 8
      = (x * K) ^ 4 * ((y * K) ^ 2 * (K * z * K)) / K ^ 0 := by rw [Nat.pow_zero, Nat.div_one]; ring
    _ ≤ (x * K) ^ 4 * ((y * K) ^ 2 * (r2 * r2)) := by
        rw [Nat.pow_zero, Nat.div_one]
        exact Nat.mul_le_mul_left _ (Nat.mul_le_mul_left _ g3')
    _ = (x * K) ^ 4 * (r2 * y * K) ^ 2 := by ring
    _ ≤ (x * K) ^ 4 * (r1 * r1) ^ 2 := Nat.mul_le_mul_left _ s2
    _ = (r1 * x * K) ^ 4 := by ring
    _ ≤ (r * r) ^ 4 := s1
    _ = r ^ 8 := by ring

/-- **C04 (fractional bits round up).** With `n = tell`, the exact number of bits is
`n - log2 (rng / 2^15)`.  `tell_frac / 8` is at least that and at most `n`: stated without
logarithms, `2^(8 n - tell_frac) ≤ (rng / 2^15)^8`.  In particular `tell_frac` never underflows. -/
theorem tell_frac_bounds (xs : List Sym) (hx : ∀ x ∈ xs, x.Valid) :
    let w : Encoder := wsymbols Backend.new xs
    ∃ f : Nat, (f : Int) = 8 * tell w - tellFrac w ∧ f < 8 ∧ 0 < tellFrac w ∧
      2 ^ f * (2 ^ 15) ^ 8 ≤ (rng w) ^ 8 := by
  obtain ⟨_, _, h3, _, _, h6⟩ := tell_values xs hx
  obtain ⟨k, hr⟩ := rel_symbols rel_new hx
  have f3 : fake (wsymbols (Backend.new : Encoder) xs) = 0 := (encoder_state xs _).2
  intro w
  obtain ⟨g1, g2⟩ := fracL_spec (r := rng w) (by show 32768 ≤ rng w; rw [h6]; exact hr.rlo)
    (by show rng w < _; rw [h6]; exact hr.rhi)
  have ht : tellFrac w = 8 * tell w - (fracL (rng w) : Int) := by
    show fracCompute (tell w) (rng w) + (fake w : Int) = _
    rw [f3]
    simp only [fracCompute, OD_BITRES, Nat.shiftLeft_eq]
    push_cast; ring
  refine ⟨fracL (rng w), by rw [ht]; ring, g1, ?_, g2⟩
  rw [ht, h3]; push_cast; omega

example : ∃ xs : List Sym, (∀ x ∈ xs, x.Valid) ∧
    8 * (tell (wsymbols (Backend.new : Encoder) xs) : Int) - tellFrac (wsymbols (Backend.new : Encoder) xs) = 2 :=
  ⟨demo, demo_valid, by decide⟩

/-- Estimated bits: the description "extra offset added to `tell()` and `tell_frac()`" does not
hold: adding `b` eighth-bits raises `tell_frac` by more than `b` (they enter both directly and,
shifted by 8, through `tell`). -/
theorem fake_bits_counted_twice :
    tellFrac (addFake (Backend.new : Encoder) 256) = tellFrac (Backend.new : Encoder) + 256 + 8 := by
  decide

/-! ### C45: `symbol_bits` -/

/-- The range width computed by `symbol_bits` is the one `store` uses. -/
theorem symbolBits_width {x : Sym} (hv : x.Valid) {R : Nat} (h1 : 32768 ≤ R) :
    (if x.s > 0 then
      (((R >>> 8) * (x.cdf.getD (x.s - 1) 0 >>> EC_PROB_SHIFT)) >>> (7 - EC_PROB_SHIFT)) -
        (((R >>> 8) * (x.cdf.getD x.s 0 >>> EC_PROB_SHIFT)) >>> (7 - EC_PROB_SHIFT)) + EC_MIN_PROB
    else
      R - (((R >>> 8) * (x.cdf.getD x.s 0 >>> EC_PROB_SHIFT)) >>> (7 - EC_PROB_SHIFT)) -
        (x.cdf.length - x.s - 1) * EC_MIN_PROB) = bndU R x.cdf x.s - bndV R x.cdf x.s := by
  have hlt := hv.lt
  have hb := bnd_lt hv.cdf h1 hv.lt
  unfold bndU bndV scaled at *
  by_cases h0 : x.s = 0
  · simp only [h0, gt_iff_lt, Nat.lt_irrefl, if_false, if_true] at *
    rw [Nat.sub_sub, Nat.mul_comm (_ - _) EC_MIN_PROB]
  · rw [if_pos (by omega), if_neg h0]
    rw [if_neg h0] at hb
    have hm : ((R >>> 8) * (x.cdf.getD x.s 0 >>> EC_PROB_SHIFT)) >>> (7 - EC_PROB_SHIFT) ≤
        ((R >>> 8) * (x.cdf.getD (x.s - 1) 0 >>> EC_PROB_SHIFT)) >>> (7 - EC_PROB_SHIFT) := by
      apply shr1_mono
      apply Nat.mul_le_mul_left
      by_cases hlast : x.s = x.cdf.length - 1
      · have hc := count_shr hv.cdf.count
        rw [← hlast] at hc
        unfold EC_PROB_SHIFT; rw [hc]; exact Nat.zero_le _
      · apply shr6_mono
        have := hv.cdf.mono (x.s - 1) (by omega)
        rwa [show x.s - 1 + 1 = x.s by omega] at this
    unfold EC_MIN_PROB at *
    generalize ((R >>> 8) * (x.cdf.getD x.s 0 >>> EC_PROB_SHIFT)) >>> (7 - EC_PROB_SHIFT) = a at *
    generalize ((R >>> 8) * (x.cdf.getD (x.s - 1) 0 >>> EC_PROB_SHIFT)) >>> (7 - EC_PROB_SHIFT) = b at *
    omega

/-- Before any bit has been shifted out the range is still the initial one. -/
theorem cnt_or_initial {xs : List Sym} (hx : ∀ x ∈ xs, x.Valid) :
    -8 ≤ (Enc.new.symbols xs).cnt ∨ (Enc.new.symbols xs).rng = 32768 := by
  have key : ∀ (ys : List Sym) (e : Enc) (i : Ideal) (k : Nat), (∀ x ∈ ys, x.Valid) → Rel e i k →
      (-8 ≤ e.cnt ∨ e.rng = 32768) → (-8 ≤ (e.symbols ys).cnt ∨ (e.symbols ys).rng = 32768) := by
    intro ys
    induction ys with
    | nil => intro e i k _ _ h; exact h
    | cons x ys ih =>
      intro e i k hx hr h
      obtain ⟨k', hr'⟩ := rel_step hr (hx x (by simp))
      refine ih (e.symbol x) (i.symbol x) k' (fun y hy => hx y (by simp [hy])) hr' ?_
      have hv := hx x (by simp)
      have hb := bnd_lt hv.cdf hr.rlo hv.lt
      have hu := bndU_le hv.cdf hr.rlo hv.lt
      have hc := hr.cnt
      have hk := hr.klo
      have hrlo := hr.rlo
      have hrhi := hr.rhi
      -- width strictly below the range
      have hw : bndU i.R x.cdf x.s - bndV i.R x.cdf x.s < i.R := by
        by_cases h0 : x.s = 0
        · have h2 := hv.cdf.two_le
          have : 4 ≤ bndV i.R x.cdf x.s := by
            unfold bndV scaled EC_MIN_PROB; rw [h0]
            exact Nat.le_trans (by omega : 4 ≤ 4 * (x.cdf.length - 0 - 1)) (Nat.le_add_left _ _)
          omega
        · have := bndU_anti hv.cdf hr.rlo (Nat.zero_le (x.s - 1)) (by have := hv.lt; omega)
          have h3 := bnd_lt hv.cdf hr.rlo (i := x.s - 1) (by have := hv.lt; omega)
          have h4 := bndU_succ i.R x.cdf (x.s - 1)
          rw [show x.s - 1 + 1 = x.s by omega] at h4
          simp only [bndU, if_true] at this
          unfold bndU at h3 h4 ⊢
          omega
      have ew : (lrCompute e.rng x.triple.1 x.triple.2.1 x.triple.2.2).2 =
          bndU i.R x.cdf x.s - bndV i.R x.cdf x.s := by
        simp only [lrCompute]
        rw [hr.rng, lrU_triple hv, lrV_triple, Nat.mod_eq_of_lt (by omega)]
      have hcz := clz16_spec (r := bndU i.R x.cdf x.s - bndV i.R x.cdf x.s) (by omega) (by omega)
      left
      rw [hr.rng] at h
      simp only [Enc.symbol, Enc.store, ew]
      have hd : e.cnt = -9 → 1 ≤ clz16 (bndU i.R x.cdf x.s - bndV i.R x.cdf x.s) := by
        intro h9
        rcases h with h | h
        · omega
        · rcases Nat.eq_zero_or_pos (clz16 (bndU i.R x.cdf x.s - bndV i.R x.cdf x.s)) with h0 | h0
          · rw [h0] at hcz; omega
          · exact h0
      generalize clz16 (bndU i.R x.cdf x.s - bndV i.R x.cdf x.s) = d at *
      split
      · split
        · simp only; omega
        · simp only; omega
      · simp only; omega
  exact key xs Enc.new Ideal.new 15 hx rel_new (Or.inr rfl)

/-- **C45.** On the encoder, `symbol_bits` reports exactly the increase of `tell_frac` that writing
the symbol would cause, for every state reachable by valid symbols and every valid next symbol;
and neither of its intermediate `u32` values underflows. -/
theorem symbol_bits_exact (xs : List Sym) (hx : ∀ x ∈ xs, x.Valid) (x : Sym) (hv : x.Valid) :
    let w : Encoder := wsymbols Backend.new xs
    symbolBits w x = tellFrac (wsymbol w x) - tellFrac w ∧
      0 ≤ fracCompute (cnt w + 9).toNat (rng w) := by
  obtain ⟨k, hr⟩ := rel_symbols rel_new hx
  have hx' : ∀ y ∈ xs ++ [x], y.Valid := by
    intro y hy
    rcases List.mem_append.1 hy with h | h
    · exact hx y h
    · rw [List.mem_singleton.1 h]; exact hv
  obtain ⟨_, _, t1, _, _, t2⟩ := tell_values xs hx
  obtain ⟨_, _, t3, _, _, t4⟩ := tell_values (xs ++ [x]) hx'
  have hi : Ideal.new.symbols (xs ++ [x]) = (Ideal.new.symbols xs).symbol x := by
    simp [Ideal.symbols, List.foldl_append]
  rw [hi] at t3 t4
  have hw : wsymbols (Backend.new : Encoder) (xs ++ [x]) = wsymbol (wsymbols Backend.new xs) x := by
    simp [wsymbols, List.foldl_append]
  rw [hw] at t3 t4
  have f1 : fake (wsymbols (Backend.new : Encoder) xs) = 0 := (encoder_state xs _).2
  have f2 : fake (wsymbol (wsymbols (Backend.new : Encoder) xs) x) = 0 := by
    have := (encoder_state (xs ++ [x]) Backend.new).2
    rw [hw] at this; exact this
  have hc : cnt (wsymbols (Backend.new : Encoder) xs) = (k : Int) - 24 := by
    show (wsymbols (Backend.new : Encoder) xs).enc.cnt = _
    rw [encoder_symbols]; exact hr.cnt
  have hci := cnt_or_initial hx
  have hk := hr.klo
  have hk2 := hr.khi
  have hcz := clz16_spec (r := bndU (Ideal.new.symbols xs).R x.cdf x.s -
    bndV (Ideal.new.symbols xs).R x.cdf x.s)
    (by have := bnd_lt hv.cdf hr.rlo hv.lt; omega)
    (by have := bndU_le hv.cdf hr.rlo hv.lt; have := hr.rhi; omega)
  have hfl := fracL_spec hr.rlo hr.rhi
  intro w
  refine ⟨?_, ?_⟩
  · simp only [symbolBits]
    show _ = fracCompute (tell _) (rng _) + ((fake (wsymbol _ x) : Nat) : Int) -
      (fracCompute (tell _) (rng _) + ((fake (wsymbols _ xs) : Nat) : Int))
    rw [f1, f2, t1, t2, t3, t4, symbolBits_width hv hr.rlo, hc]
    simp only [Ideal.symbol]
    generalize clz16 (bndU (Ideal.new.symbols xs).R x.cdf x.s -
      bndV (Ideal.new.symbols xs).R x.cdf x.s) = d at *
    simp only [fracCompute, OD_BITRES, Nat.shiftLeft_eq]
    generalize bndU (Ideal.new.symbols xs).R x.cdf x.s -
      bndV (Ideal.new.symbols xs).R x.cdf x.s = r at *
    by_cases h1 : (k : Int) - 24 + d ≥ 0
    · by_cases h2 : (k : Int) - 24 + d ≥ 8
      · simp only [h1, h2, if_true]; omega
      · simp only [h1, h2, if_true, if_false]; omega
    · simp only [h1, if_false]; omega
  · rw [hc, t2]
    have hci' : -8 ≤ (k : Int) - 24 ∨ (Ideal.new.symbols xs).R = 32768 := by
      rw [← hr.cnt, ← hr.rng]; exact hci
    rcases hci' with h | h
    · simp only [fracCompute, OD_BITRES, Nat.shiftLeft_eq]
      have := hfl.1
      have h8 : ((k : Int) - 24 + 9).toNat ≥ 1 := by omega
      generalize ((k : Int) - 24 + 9).toNat = a at *
      clear hfl
      have : a * 2 ^ 3 = 8 * a := by ring
      rw [this]; omega
    · rw [h]
      have : fracL 32768 = 0 := by decide
      simp only [fracCompute, this]; exact Int.sub_nonneg_of_le (Int.natCast_nonneg _)

example : (∀ x ∈ demo, x.Valid) ∧ (⟨2, [28160, 21120, 10240, 5]⟩ : Sym).Valid ∧
    symbolBits (wsymbols (Backend.new : Encoder) demo) ⟨2, [28160, 21120, 10240, 5]⟩ = 13 :=
  ⟨demo_valid, demo_valid _ (by decide), by decide⟩

/-- On the counting and recording writers `cnt` stays at its initial value, and the first
`frac_compute` of `symbol_bits` underflows its `u32` as soon as the range is large: with overflow
checks the call would panic.  (Its only caller passes the encoder.) -/
theorem symbol_bits_counter_underflows :
    ∃ xs : List Sym, (∀ x ∈ xs, x.Valid) ∧
      fracCompute (cnt (wsymbols (Backend.new : Counter) xs) + 9).toNat
        (rng (wsymbols (Backend.new : Counter) xs)) < 0 :=
  ⟨demo, demo_valid, by decide⟩

end Rav1e.Ec

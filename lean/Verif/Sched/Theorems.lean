import Verif.Sched.Run

/-!
# What an application can rely on

All theorems are about a history: any sequence of `send_frame`, `flush` and
`receive_packet` calls on a fresh encoder, in any order, with any parameters, any
scene-cut decisions `cut`, and any pattern of the rate controller not being ready.
`rs` is the list of the outcomes of the calls, one per call.

The only hypotheses are a valid configuration (`Cfg.Valid`) and that fewer than
`c.maxFrames` (`i32::MAX` in the code) frames are sent.
-/

namespace Rav1e.Sched

open Spec

variable {F O M : Type}

/-- The outcomes of a sequence of calls on a fresh encoder. -/
def outcomes (c : Cfg) (cut : Nat → Bool) (ops : List (Op F O M)) : List (Res F O M) :=
  (run c cut init ops).2

/-- Where a key frame is requested: by the application or by the scene detection. -/
def Spec.requested (A : List (F × Option (Params O M))) (cut : Nat → Bool) (n : Nat) : Bool :=
  (A[n]?).any forced || cut n

theorem requested_eq (A : List (F × Option (Params O M))) (cut : Nat → Bool) (n : Nat) :
    requested A cut n = (forcedAt A n || cut n) := by
  unfold requested forcedAt
  cases A[n]? <;> rfl

theorem wanted_le (still fl : Bool) (n : Nat) (ops : List (Op F O M)) :
    (wanted still fl n ops).length ≤ ops.countP Op.isSend := by
  induction ops generalizing fl n with
  | nil => simp [wanted]
  | cons op ops ih =>
    rw [List.countP_cons]
    cases op with
    | send f p =>
      rw [wanted]
      split
      · have := ih fl n; omega
      · have := ih fl (n + 1)
        simp only [List.length_cons, Op.isSend, if_true]; omega
    | flush => have := ih true n; rw [wanted]; omega
    | receive r => have := ih fl n; rw [wanted]; omega

/-- All invariants at the end of a history in which fewer than `maxFrames` frames are accepted. -/
theorem history' (c : Cfg) (cut : Nat → Bool) (ops : List (Op F O M)) (hv : c.Valid)
    (hmax : (wanted c.stillPicture false 0 ops).length < c.maxFrames) :
    ∃ (K : Nat → Bool) (lim : Option Nat) (A : List (F × Option (Params O M))),
      A = accepted ops (outcomes c cut ops) ∧ K = requested A cut ∧
      A = wanted c.stillPicture false 0 ops ∧
      lim = (if ops.any Op.isFlush then some A.length else none) ∧
      (∃ qs ds fd, Base c cut K lim A (run c cut init ops).1 qs ds fd) ∧
      Timing c K lim A (run c cut init ops).1 ∧
      (run c cut init ops).1.isFlushing = ops.any Op.isFlush ∧
      Hist c K lim A (run c cut init ops).1 (packets (outcomes c cut ops)) ∧
      (∀ r ∈ outcomes c cut ops, r.sound = true) := by
  have h := run_inv (F := F) (O := O) (M := M) (cut := cut) hv
    (requested (wanted c.stillPicture false 0 ops) cut)
    (if ops.any Op.isFlush then some (wanted c.stillPicture false 0 ops).length else none)
    (wanted c.stillPicture false 0 ops) ops init [] 0 0 (fun _ => none) []
    (base_init _ _) (timing_init _ _) rfl
    (fun n _ _ => requested_eq _ _ _) rfl hmax Hist.zero
  obtain ⟨h1, h2, h3, h4, h5, h6, h7⟩ := h
  exact ⟨_, _, _, h6.symm, rfl, rfl, rfl, h1, h2, h3, h4, h5⟩

/-- All invariants at the end of a history. -/
theorem history (c : Cfg) (cut : Nat → Bool) (ops : List (Op F O M)) (hv : c.Valid)
    (hmax : ops.countP Op.isSend < c.maxFrames) :
    ∃ (K : Nat → Bool) (lim : Option Nat) (A : List (F × Option (Params O M))),
      A = accepted ops (outcomes c cut ops) ∧ K = requested A cut ∧
      A = wanted c.stillPicture false 0 ops ∧
      lim = (if ops.any Op.isFlush then some A.length else none) ∧
      (∃ qs ds fd, Base c cut K lim A (run c cut init ops).1 qs ds fd) ∧
      Timing c K lim A (run c cut init ops).1 ∧
      (run c cut init ops).1.isFlushing = ops.any Op.isFlush ∧
      Hist c K lim A (run c cut init ops).1 (packets (outcomes c cut ops)) ∧
      (∀ r ∈ outcomes c cut ops, r.sound = true) :=
  history' c cut ops hv (Nat.lt_of_le_of_lt (wanted_le _ _ _ _) hmax)

/-- Between two packets there are at most two calls that only code a hidden frame. -/
theorem encoded_bound' (c : Cfg) (cut : Nat → Bool) (ops : List (Op F O M)) (hv : c.Valid)
    (hmax : (wanted c.stillPicture false 0 ops).length < c.maxFrames) :
    (outcomes c cut ops).countP Res.isEncoded ≤ 2 * (packets (outcomes c cut ops)).length + 2 := by
  have h := run_inv (F := F) (O := O) (M := M) (cut := cut) hv
    (requested (wanted c.stillPicture false 0 ops) cut)
    (if ops.any Op.isFlush then some (wanted c.stillPicture false 0 ops).length else none)
    (wanted c.stillPicture false 0 ops) ops init [] 0 0 (fun _ => none) []
    (base_init _ _) (timing_init _ _) rfl
    (fun n _ _ => requested_eq _ _ _) rfl hmax Hist.zero
  obtain ⟨-, -, -, -, -, -, h7⟩ := h
  have := hid_le c (requested (wanted c.stillPicture false 0 ops) cut)
    (if ops.any Op.isFlush then some (wanted c.stillPicture false 0 ops).length else none) hv
    (run c cut init ops).1.outputFrameno
  unfold outcomes
  omega

section
variable (c : Cfg) (cut : Nat → Bool) (ops : List (Op F O M))

/-- **C18 (scheduler)**: no call panics and every call returns. -/
theorem run_no_crash (hv : c.Valid) (hmax : ops.countP Op.isSend < c.maxFrames) :
    ∀ e, Res.crash e ∉ outcomes c cut ops := by
  obtain ⟨K, lim, A, -, -, -, -, -, -, -, -, h⟩ := history c cut ops hv hmax
  intro e he
  have := h _ he
  cases this

/-- **C16, C21**: packet `n` belongs to the `n`-th accepted frame: it carries its
number, its source, its own reconstruction and its opaque value.  No frame is
skipped, repeated or reordered, and there are never more packets than frames. -/
theorem packets_in_order (hv : c.Valid) (hmax : ops.countP Op.isSend < c.maxFrames) :
    (packets (outcomes c cut ops)).length ≤ (accepted ops (outcomes c cut ops)).length ∧
    ∀ (n : Nat) (pk : Packet F O M), (packets (outcomes c cut ops))[n]? = some pk →
      ∃ (f : F) (params : Option (Params O M)), (accepted ops (outcomes c cut ops))[n]? = some (f, params) ∧
        pk.input = n ∧ pk.source = some f ∧ pk.recPic = some (.recon n) ∧
        pk.user = params.bind (·.user) := by
  obtain ⟨K, lim, A, hA, -, -, -, ⟨_, _, _, hb⟩, -, -, hh, -⟩ := history c cut ops hv hmax
  rw [← hA]
  refine ⟨by rw [hh.len]; exact hb.fpLe, ?_⟩
  intro n pk hpk
  obtain ⟨o, p, t, pre, f, -, -, -, e, hf, -⟩ := hh.pk n pk hpk
  unfold qf at hf
  cases hx : A[n]? with
  | none => rw [hx] at hf; cases hf
  | some x =>
    rw [hx] at hf
    simp only [Option.map_some, Option.some.injEq] at hf
    refine ⟨x.1, x.2, rfl, ?_⟩
    rw [e]
    simp [userAt, hx, hf]

/-! ## The bitstream -/

theorem out_step (n : Bool) (d : Dec) (u : Obu M) :
    ∃ l, (d.step n u).out = d.out ++ l ∧ l.length = if displays u then 1 else 0 := by
  cases u with
  | td => exact ⟨[], by simp [Dec.step], by simp [displays]⟩
  | seqHdr => exact ⟨[], by simp [Dec.step], by simp [displays]⟩
  | t35 m => exact ⟨[], by simp [Dec.step], by simp [displays]⟩
  | frame ft sh h rf rs pr src b =>
    cases sh
    · exact ⟨[], by simp [Dec.step], by simp [displays]⟩
    · exact ⟨_, by simp only [Dec.step, if_true]; rfl, by simp [displays]⟩
  | showExisting i =>
    simp only [Dec.step]
    split
    · exact ⟨_, rfl, by simp [displays]⟩
    · exact ⟨_, rfl, by simp [displays]⟩

theorem out_run (n : Bool) (d : Dec) (us : List (Obu M)) :
    ∃ l, (d.run n us).out = d.out ++ l ∧ l.length = us.countP displays := by
  induction us generalizing d with
  | nil => exact ⟨[], by simp [Dec.run], rfl⟩
  | cons u us ih =>
    obtain ⟨l1, e1, f1⟩ := out_step n d u
    obtain ⟨l2, e2, f2⟩ := ih (d.step n u)
    refine ⟨l1 ++ l2, ?_, ?_⟩
    · show ((d.step n u).run n us).out = _
      rw [e2, e1, List.append_assoc]
    · rw [List.length_append, f1, f2, List.countP_cons]; omega

theorem displays_obuOf (K : Nat → Bool) (lim : Option Nat) (hv : c.Valid) {o : Nat} {p : FI Unit}
    (hp : plan c K lim o = some p) : displays (obuOf c K lim o p : Obu M) = p.shown := by
  unfold obuOf
  cases hs : p.sef with
  | true =>
    simp only [if_true, displays]
    exact ((plan_facts c K lim hv hp).2.2.2.2.2.2.1 hs).symm
  | false => simp [displays]

/-- **C11 (scheduler part)**: a packet is one temporal unit.  It starts with the
temporal delimiter, contains no other, and ends with the one unit that is
displayed.  A sequence header is present exactly in key frame packets, and those
consist of delimiter, sequence header, metadata and the key frame, nothing else. -/
theorem packet_is_temporal_unit (hv : c.Valid) (hmax : ops.countP Op.isSend < c.maxFrames)
    (pk : Packet F O M) (hpk : pk ∈ packets (outcomes c cut ops)) :
    (∃ pre u, pk.data = .td :: pre ++ [u] ∧ displays u = true ∧
      ∀ v ∈ pre, v ≠ .td ∧ displays v = false) ∧
    (.seqHdr ∈ pk.data ↔ pk.ftype = .key) ∧
    (pk.ftype = .key → ∃ (ms : List M) (h r : Nat) (rs : List Nat) (pr : Nat) (b : Basis),
      pk.data = [.td, .seqHdr] ++ ms.map .t35 ++ [.frame .key true h r rs pr pk.input b]) := by
  obtain ⟨K, lim, A, hA, -, -, -, ⟨_, _, _, hb⟩, -, -, hh, -⟩ := history c cut ops hv hmax
  obtain ⟨n, hn⟩ := List.mem_iff_getElem?.1 hpk
  obtain ⟨o, p, t, pre, f, hp, hs, hi, e, hf, hpre, hk, -⟩ := hh.pk n pk hn
  have hd := displays_obuOf (M := M) c K lim hv hp
  rw [e]
  have hne : (obuOf c K lim o p : Obu M) ≠ .seqHdr := by
    unfold obuOf; split <;> simp
  refine ⟨⟨pre ++ ((if p.ftype = .key then [.seqHdr] else []) ++ t.map .t35), obuOf c K lim o p,
    by simp [unitsOf], by rw [hd, hs], ?_⟩, ?_, ?_⟩
  · intro v hv
    rcases List.mem_append.1 hv with hv | hv
    · rcases hpre v hv with ⟨m, rfl⟩ | ⟨_, _, _, _, _, _, rfl⟩ <;> simp [displays]
    · rcases List.mem_append.1 hv with hv | hv
      · split at hv
        · simp only [List.mem_singleton] at hv; rw [hv]; simp [displays]
        · simp at hv
      · obtain ⟨m, _, rfl⟩ := List.mem_map.1 hv
        simp [displays]
  · simp only [unitsOf, List.cons_append, List.mem_cons, List.mem_append]
    constructor
    · rintro (h | h | (h | h) | h | h)
      · cases h
      · rcases hpre _ h with ⟨m, h⟩ | ⟨_, _, _, _, _, _, h⟩ <;> cases h
      · split at h
        · assumption
        · simp at h
      · obtain ⟨m, _, h⟩ := List.mem_map.1 h; cases h
      · exact absurd h.symm hne
      · simp at h
    · intro h
      right; right; left; left
      rw [if_pos h]; simp
  · intro h
    have hf := (plan_facts c K lim hv hp).2.2.2.2.2.1 h
    simp only at h
    refine ⟨t, p.orderHint % 64, p.refresh, p.refs, p.primary, ⟨[], []⟩, ?_⟩
    rw [hk h]
    simp [unitsOf, obuOf, hf.1, h, hf.2.1, hi]

theorem countP_packet (hv : c.Valid) (hmax : ops.countP Op.isSend < c.maxFrames)
    (pk : Packet F O M) (hpk : pk ∈ packets (outcomes c cut ops)) :
    pk.data.countP displays = 1 := by
  obtain ⟨⟨pre, u, e, hu, h⟩, -⟩ := packet_is_temporal_unit c cut ops hv hmax pk hpk
  rw [e, List.cons_append, List.countP_cons, List.countP_append]
  have : pre.countP displays = 0 := by
    rw [List.countP_eq_zero]
    intro v hv; rw [(h v hv).2]; simp
  rw [this, List.countP_singleton, hu]
  rfl

theorem countP_stream (hv : c.Valid) (hmax : ops.countP Op.isSend < c.maxFrames)
    (l : List (Packet F O M)) (hl : ∀ pk ∈ l, pk ∈ packets (outcomes c cut ops)) :
    (stream l).countP displays = l.length := by
  induction l with
  | nil => rfl
  | cons pk l ih =>
    simp only [stream, List.flatMap_cons, List.countP_append, List.length_cons]
    rw [countP_packet c cut ops hv hmax pk (hl pk (List.mem_cons_self ..))]
    have := ih (fun q hq => hl q (List.mem_cons_of_mem _ hq))
    simp only [stream] at this
    omega

/-- The general statement behind the next two. -/
theorem decode_from (hv : c.Valid) (hmax : ops.countP Op.isSend < c.maxFrames)
    (n : Nat) (hn : n = 0 ∨ ∃ pk, (packets (outcomes c cut ops))[n]? = some pk ∧ pk.ftype = .key)
    (k : Nat) (hk : n + k ≤ (packets (outcomes c cut ops)).length) :
    Conforms c.stillPicture Dec.init
      (stream (((packets (outcomes c cut ops)).drop n).take k)) ∧
    (Dec.run c.stillPicture Dec.init
      (stream (((packets (outcomes c cut ops)).drop n).take k))).out =
      (List.range' n k).map (fun i => some (.recon i)) := by
  obtain ⟨K, lim, A, hA, -, -, -, ⟨_, _, _, hb⟩, -, -, hh, -⟩ := history c cut ops hv hmax
  have hlen := hh.len
  obtain ⟨d1, d2⟩ := hh.dec n hn
  have hmem : ∀ l : List (Packet F O M), l = ((packets (outcomes c cut ops)).drop n).take k →
      (stream l).countP displays = l.length := by
    intro l e
    apply countP_stream c cut ops hv hmax
    intro pk hpk
    rw [e] at hpk
    exact List.mem_of_mem_drop (List.mem_of_mem_take hpk)
  generalize packets (outcomes c cut ops) = pks at *
  have hsplit : stream (pks.drop n) = stream ((pks.drop n).take k) ++
      stream ((pks.drop n).drop k) := by
    unfold stream
    rw [← List.flatMap_append, List.take_append_drop]
  rw [hsplit, List.append_assoc] at d1 d2
  have d1' := (conforms_append _ _ _ _).1 d1
  refine ⟨d1'.1, ?_⟩
  rw [run_append] at d2
  obtain ⟨l1, e1, f1⟩ := out_run c.stillPicture Dec.init (stream ((pks.drop n).take k))
  obtain ⟨l2, e2, f2⟩ := out_run c.stillPicture
    (Dec.run c.stillPicture Dec.init (stream ((pks.drop n).take k)))
    (stream ((pks.drop n).drop k) ++ (run c cut init ops).1.packetData)
  rw [d2] at e2
  simp only at e2
  have hc := hmem _ rfl
  have hl1 : (Dec.run c.stillPicture Dec.init (stream ((pks.drop n).take k))).out.length = k := by
    rw [e1, List.length_append, f1, hc]
    simp only [Dec.init, List.length_nil, List.length_take, List.length_drop]
    omega
  have ht := congrArg (List.take k) e2
  rw [List.take_left' hl1] at ht
  rw [← ht, ← List.map_take]
  congr 1
  obtain ⟨m, hm⟩ : ∃ m, (run c cut init ops).1.framesProcessed - n = k + m :=
    ⟨(run c cut init ops).1.framesProcessed - n - k, by omega⟩
  rw [hm, ← List.range'_append_1, List.take_left' (by simp)]

/-- **C16, C22, C23**: a decoder that gets the first `k` packets displays exactly
the encoder's reconstructions of frames `0 … k-1`, in this order, and every
unit it is given is admissible (`Conforms`): references exist and hold the pictures
the encoder used, order hints give the true distances, show-existing-frame shows a
frame that is there. -/
theorem decoder_sees_reconstructions (hv : c.Valid)
    (hmax : ops.countP Op.isSend < c.maxFrames) (k : Nat)
    (hk : k ≤ (packets (outcomes c cut ops)).length) :
    Conforms c.stillPicture Dec.init (stream ((packets (outcomes c cut ops)).take k)) ∧
    (Dec.run c.stillPicture Dec.init (stream ((packets (outcomes c cut ops)).take k))).out =
      (List.range k).map (fun i => some (.recon i)) := by
  have := decode_from c cut ops hv hmax 0 (Or.inl rfl) k (by omega)
  rw [List.drop_zero] at this
  rw [List.range_eq_range']
  exact this

/-- **Random access**: decoding may start at any key frame packet, with an empty
decoder, and gives the same pictures. -/
theorem random_access (hv : c.Valid) (hmax : ops.countP Op.isSend < c.maxFrames)
    (n : Nat) (pk : Packet F O M) (hn : (packets (outcomes c cut ops))[n]? = some pk)
    (hkey : pk.ftype = .key) (k : Nat) (hk : n + k ≤ (packets (outcomes c cut ops)).length) :
    Conforms c.stillPicture Dec.init
      (stream (((packets (outcomes c cut ops)).drop n).take k)) ∧
    (Dec.run c.stillPicture Dec.init
      (stream (((packets (outcomes c cut ops)).drop n).take k))).out =
      (List.range' n k).map (fun i => some (.recon i)) :=
  decode_from c cut ops hv hmax n (Or.inr ⟨pk, hn, hkey⟩) k hk

/-! ## Key frames -/

/-- **C19, C20**: packet `n` is a key frame exactly when one is due: at the start,
where one is requested, and when the maximum interval is reached. -/
theorem key_frames_exact (hv : c.Valid) (hmax : ops.countP Op.isSend < c.maxFrames)
    (n : Nat) (pk : Packet F O M) (hpk : (packets (outcomes c cut ops))[n]? = some pk) :
    pk.ftype = .key ↔
      sinceKey (requested (accepted ops (outcomes c cut ops)) cut) c.maxKey n = 0 := by
  obtain ⟨K, lim, A, hA, hK, -, hl, ⟨_, _, _, hb⟩, -, -, hh, -⟩ := history c cut ops hv hmax
  rw [← hA, ← hK]
  obtain ⟨o, p, t, pre, f, hp, hs, hi, e, hf, -⟩ := hh.pk n pk hpk
  have hlt := qf_lt hf
  have := key_iff c K lim hv hp (by
    intro l hl'
    rw [hl] at hl'
    split at hl'
    · cases hl'; omega
    · cases hl')
  rw [e]
  simp only
  rw [this, hi]

theorem sinceKey_lt (K : Nat → Bool) (m : Nat) (hm : 1 ≤ m) (n : Nat) :
    sinceKey K m n < m := by
  induction n with
  | zero => exact hm
  | succ n ih =>
    rw [sinceKey]
    split
    · omega
    · rename_i h
      simp only [Bool.or_eq_true, beq_iff_eq, not_or] at h
      omega

theorem sinceKey_exists (K : Nat → Bool) (m n : Nat) (k : Nat)
    (h : m ≤ sinceKey K m n + k + 1) (hm : 1 ≤ m) : 
    sinceKey K m n = 0 ∨ ∃ i, n < i ∧ i ≤ n + k + 1 ∧ sinceKey K m i = 0 := by
  induction k generalizing n with
  | zero =>
    right
    have := sinceKey_lt K m hm n
    refine ⟨n + 1, by omega, by omega, ?_⟩
    have e : (sinceKey K m n + 1 == m) = true := by
      simp only [beq_iff_eq]; omega
    rw [sinceKey, e]; simp
  | succ k ih =>
    right
    by_cases h0 : sinceKey K m (n + 1) = 0
    · exact ⟨n + 1, by omega, by omega, h0⟩
    · have h1 : sinceKey K m (n + 1) = sinceKey K m n + 1 := by
        rw [sinceKey] at h0 ⊢
        split
        · rename_i hc; rw [if_pos hc] at h0; exact absurd rfl h0
        · rfl
      rcases ih (n + 1) (by omega) with h2 | ⟨i, a, b, d⟩
      · exact absurd h2 h0
      · exact ⟨i, by omega, by omega, d⟩

/-- **C19**: among any `maxKey` consecutive packets there is a key frame. -/
theorem key_interval (hv : c.Valid) (hmax : ops.countP Op.isSend < c.maxFrames)
    (n : Nat) (hn : n + c.maxKey ≤ (packets (outcomes c cut ops)).length) :
    ∃ i pk, n ≤ i ∧ i < n + c.maxKey ∧ (packets (outcomes c cut ops))[i]? = some pk ∧
      pk.ftype = .key := by
  have hm := hv.maxKey
  generalize hK : requested (accepted ops (outcomes c cut ops)) cut = K
  have hex : ∃ i, n ≤ i ∧ i < n + c.maxKey ∧ sinceKey K c.maxKey i = 0 := by
    by_cases h1 : c.maxKey = 1
    · refine ⟨n, by omega, by omega, ?_⟩
      have := sinceKey_lt K c.maxKey hm n
      omega
    · by_cases h0 : sinceKey K c.maxKey n = 0
      · exact ⟨n, by omega, by omega, h0⟩
      · rcases sinceKey_exists K c.maxKey n (c.maxKey - 2) (by omega) hm with h | ⟨i, a, b, d⟩
        · exact absurd h h0
        · exact ⟨i, by omega, by omega, d⟩
  obtain ⟨i, h1, h2, h3⟩ := hex
  have hlt : i < (packets (outcomes c cut ops)).length := by omega
  refine ⟨i, _, h1, h2, List.getElem?_eq_getElem hlt, ?_⟩
  rw [key_frames_exact c cut ops hv hmax i _ (List.getElem?_eq_getElem hlt), hK]
  exact h3

/-- **C20**: a frame sent with a forced key frame, and a frame at a scene cut, is a
key frame. -/
theorem requested_is_key (hv : c.Valid) (hmax : ops.countP Op.isSend < c.maxFrames)
    (n : Nat) (pk : Packet F O M) (hpk : (packets (outcomes c cut ops))[n]? = some pk)
    (hr : requested (accepted ops (outcomes c cut ops)) cut n = true) : pk.ftype = .key := by
  rw [key_frames_exact c cut ops hv hmax n pk hpk]
  cases n with
  | zero => rfl
  | succ n => rw [sinceKey, hr]; simp

/-! ## Metadata -/

/-- **C21**: without frame reordering, each packet carries exactly the T.35
messages its frame was sent with. -/
theorem t35_travels_partial (hv : c.Valid) (hmax : ops.countP Op.isSend < c.maxFrames)
    (hr : c.reorder = false) (n : Nat) (pk : Packet F O M)
    (hpk : (packets (outcomes c cut ops))[n]? = some pk) :
    ∃ (f : F) (params : Option (Params O M)), (accepted ops (outcomes c cut ops))[n]? = some (f, params) ∧
      messages pk.data = (params.map (·.t35)).getD [] := by
  obtain ⟨K, lim, A, hA, hK, -, hl, ⟨_, _, _, hb⟩, -, -, hh, -⟩ := history c cut ops hv hmax
  rw [← hA]
  obtain ⟨o, p, t, pre, f, hp, hs, hi, e, hf, -, -, ht, -⟩ := hh.pk n pk hpk
  obtain ⟨h1, h2⟩ := ht hr
  have hm : messages pk.data = t := by
    rw [e, h1]
    have hobu : messages [(obuOf c K lim o p : Obu M)] = [] := by
      unfold obuOf; split <;> rfl
    have happ : ∀ a b : List (Obu M), messages (a ++ b) = messages a ++ messages b :=
      fun a b => List.filterMap_append
    have ht : ∀ l : List M, messages (l.map .t35) = l := by
      intro l
      induction l with
      | nil => rfl
      | cons x l ih =>
        unfold messages at *
        rw [List.map_cons, List.filterMap_cons]
        simp only
        rw [ih]
    simp only [unitsOf]
    rw [happ, happ, happ, hobu, ht]
    split <;> simp [messages]
  cases hx : A[n]? with
  | none => unfold qf at hf; rw [hx] at hf; cases hf
  | some x =>
    refine ⟨x.1, x.2, rfl, ?_⟩
    rw [hm, h2]
    unfold t35At
    rw [hx]
    obtain ⟨a, b⟩ := x
    cases b <;> rfl

/-! ## Flushing and draining -/

/-- **C25**: which frames are accepted: every frame sent before the first flush
(only the first one for a still picture), and no other. -/
theorem accepted_exactly (hv : c.Valid) (hmax : ops.countP Op.isSend < c.maxFrames) :
    accepted ops (outcomes c cut ops) = wanted c.stillPicture false 0 ops := by
  obtain ⟨K, lim, A, hA, -, hw, -⟩ := history c cut ops hv hmax
  rw [← hA, hw]

/-- **C25**: once the encoder is flushing, `send_frame` returns `EnoughData` and
changes nothing; so does the second frame of a still picture. -/
theorem flushed_rejects (hv : c.Valid) (hmax : ops.countP Op.isSend < c.maxFrames)
    (f : F) (p : Option (Params O M))
    (h : ops.any Op.isFlush = true ∨
      (c.stillPicture = true ∧ accepted ops (outcomes c cut ops) ≠ [])) :
    step c cut (run c cut init ops).1 (.send f p) =
      ((run c cut init ops).1, .enoughData) := by
  obtain ⟨K, lim, A, hA, hK, -, hl, ⟨_, _, _, hb⟩, -, hfl, hh, -⟩ := history c cut ops hv hmax
  rw [← hA] at h
  simp only [step, send]
  rw [if_pos]
  rw [hfl, hb.count]
  rcases h with h | ⟨h1, h2⟩
  · rw [h]; rfl
  · rw [h1]
    have : 0 < A.length := List.length_pos_iff.2 h2
    simp [this]

/-- **C17**: while flushing, `receive_packet` never asks for more data; while not
flushing it never reports the end. -/
theorem receive_outcome (hv : c.Valid) (hmax : ops.countP Op.isSend < c.maxFrames)
    (ready : Bool) :
    (ops.any Op.isFlush = true →
      (receive c ready (run c cut init ops).1).2 ≠ .needMoreData) ∧
    (ops.any Op.isFlush = false →
      (receive c ready (run c cut init ops).1).2 ≠ .limitReached) ∧
    (ready = true → (receive c ready (run c cut init ops).1).2 ≠ .notReady) := by
  obtain ⟨K, lim, A, hA, hK, -, hl, ⟨_, _, _, hb⟩, ht, hfl, hh, -⟩ := history c cut ops hv hmax
  obtain ⟨_, _, _, -, -, -, hr⟩ := receive_inv hb hv ht ready
  rw [← hfl]
  generalize (run c cut init ops).1 = s at *
  generalize receive c ready s = x at hr
  obtain ⟨s', r⟩ := x
  simp only at hr ⊢
  cases hr with
  | limit _ h _ => simp [h]
  | wait r h =>
    rcases h with ⟨e, h, -⟩ | ⟨e, h⟩ <;> rw [e, h] <;> simp
  | hidden => simp
  | shown => simp

theorem drain_aux {K : Nat → Bool} {A : List (F × Option (Params O M))} (hv : c.Valid)
    (rdy : List Bool) (s : St F O M) (qs ds : Nat) (fd : Nat → Option (FD F M))
    (hb : Base c cut K (some A.length) A s qs ds fd)
    (ht : Timing c K (some A.length) A s) (hf : s.isFlushing = true)
    (hm : 3 * (A.length - s.framesProcessed) - hid c K (some A.length) s.outputFrameno ≤
      rdy.count true) :
    (run c cut s (rdy.map .receive)).1.framesProcessed = A.length := by
  induction rdy generalizing s qs ds fd with
  | nil =>
    have h1 := hid_le c K (some A.length) hv s.outputFrameno
    have h2 := hb.fpLe
    simp only [List.count_nil] at hm
    simp only [List.map_nil, run]
    omega
  | cons ready rdy ih =>
    obtain ⟨qs', ds', fd', b, t, e, r⟩ := receive_inv hb hv ht ready
    rw [List.map_cons, run_cons]
    simp only
    have hstep : step c cut s (.receive ready : Op F O M) = receive c ready s := rfl
    rw [hstep]
    have h0 := hid_le c K (some A.length) hv s.outputFrameno
    have hfp := hb.fpLe
    refine ih _ qs' ds' fd' b t (e.trans hf) ?_
    rw [List.count_cons] at hm
    generalize receive c ready s = x at *
    obtain ⟨s', r'⟩ := x
    simp only at *
    cases r with
    | limit e1 _ e3 =>
      rw [e1, e3]; omega
    | wait r h h1 h2 h3 h4 =>
      rcases h with ⟨_, h, _⟩ | ⟨_, h⟩
      · rw [hf] at h; cases h
      · subst h
        rw [hid_hole c K _ h3 h4, h2]
        simp at hm
        omega
    | hidden o p t' hp hs hsh ho hn h1 h2 h3 =>
      have hh : hid c K (some A.length) s'.outputFrameno =
          hid c K (some A.length) s.outputFrameno + 1 := by
        rw [h1, hid, hp]
        simp only [hsh, Bool.false_eq_true, if_false]
        rw [hid_hole c K _ ho hn]
      rw [hh, h2]
      split at hm <;> omega
    | shown o p t' f hp hs hi ho hn h1 h2 h3 =>
      have hb' := b.fpLe
      rw [h2] at hb' ⊢
      split at hm <;> omega

theorem run_append' (s : St F O M) (a b : List (Op F O M)) :
    run c cut s (a ++ b) = ((run c cut (run c cut s a).1 b).1,
      (run c cut s a).2 ++ (run c cut (run c cut s a).1 b).2) := by
  induction a generalizing s with
  | nil => rfl
  | cons op a ih => simp only [List.cons_append, run_cons, ih]

theorem wanted_receives (still fl : Bool) (n : Nat) (x : List (Op F O M)) (rdy : List Bool) :
    wanted still fl n (x ++ rdy.map .receive) = wanted still fl n x := by
  induction x generalizing fl n with
  | nil =>
    simp only [List.nil_append, wanted]
    induction rdy with
    | nil => rfl
    | cons y ys ih => rw [List.map_cons, wanted]; exact ih
  | cons op x ih => cases op <;> simp [wanted, ih]

/-- **C17**: after a flush, `receive_packet` delivers every accepted frame and then
reports the end, for good.  Three calls per frame are always enough, not counting
those that find the rate controller not ready. -/
theorem drain (hv : c.Valid) (hmax : ops.countP Op.isSend < c.maxFrames)
    (hf : ops.any Op.isFlush = true) (rdy : List Bool)
    (hr : 3 * (accepted ops (outcomes c cut ops)).length ≤ rdy.count true) :
    (packets (outcomes c cut (ops ++ rdy.map .receive))).length =
      (accepted ops (outcomes c cut ops)).length ∧
    ∀ ready, step c cut (run c cut init (ops ++ rdy.map .receive)).1 (.receive ready) =
      ((run c cut init (ops ++ rdy.map .receive)).1, .limitReached) := by
  obtain ⟨K, lim, A, hA, hK, hw, hl, ⟨_, _, _, hb⟩, ht, hfl, hh, -⟩ := history c cut ops hv hmax
  rw [hf, if_pos rfl] at hl
  subst hl
  rw [← hA] at hr ⊢
  have hfp : (run c cut init (ops ++ rdy.map .receive)).1.framesProcessed = A.length := by
    rw [run_append']
    exact drain_aux c cut hv rdy _ _ _ _ hb ht (hfl.trans hf) (by omega)
  have hc : (ops ++ rdy.map (Op.receive (F := F) (O := O) (M := M))).countP Op.isSend =
      ops.countP Op.isSend := by
    rw [List.countP_append]
    have : (rdy.map (Op.receive (F := F) (O := O) (M := M))).countP Op.isSend = 0 := by
      rw [List.countP_eq_zero]
      intro x hx
      obtain ⟨b, _, rfl⟩ := List.mem_map.1 hx
      simp [Op.isSend]
    omega
  obtain ⟨K', lim', A', hA', hK', hw', hl', ⟨_, _, _, hb'⟩, ht', hfl', hh', -⟩ :=
    history c cut (ops ++ rdy.map .receive) hv (by rw [hc]; exact hmax)
  refine ⟨by rw [hh'.len, hfp], ?_⟩
  intro ready
  show receive c ready _ = _
  have hdone : doneProcessing (run c cut init (ops ++ rdy.map .receive)).1 = true := by
    have h1 := hb'.flush
    rw [hfl', List.any_append, hf, Bool.true_or] at h1
    obtain ⟨l, hl⟩ := Option.isSome_iff_exists.1 h1.symm
    have h2 := (hb'.limS l hl).1
    have h3 := hb'.fpLe
    have hle : A'.length = A.length := by
      rw [hw, hw']
      rw [wanted_receives]
    unfold doneProcessing
    rw [hl, hfp, h2, hle]
    simp
  unfold receive
  rw [if_pos hdone]

end
end Rav1e.Sched

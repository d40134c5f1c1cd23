import Verif.Rate.FirstPass
/-
C29, second half: the second pass sees the metrics of the first, however its data is cut into pieces.
-/
namespace Rav1e.Rate
open Rav1e.Ivf (le unle le_length unle_le)

/-- The number of records that were parsed but whose frames are not encoded yet. -/
def Rc.held (r : Rc) : Nat := if r.ring = [] then (if r.ready2 then 1 else 0) else r.nring

/-- The second pass is in step with the data: `E` frames are encoded, and `rest` is what it was not given yet. -/
structure Sync (s : Bool) (F : Int) (ms : List Metrics) (rest : List Nat) (E : Nat) (r : Rc) : Prop where
  inv : Inv s F r
  act : r.active = true
  pass : ¬ r.pass < 2
  all : ∀ m ∈ ms, MOk m
  len : (ms.length : Int) < 2147483647
  tot : r.nframesTotal = counts ms
  key : 0 < (counts ms).headD 0
  ttot : r.totalTotal = ms.length
  enc : r.nencoded + r.nsef = E
  left : r.nframesLeft = counts (ms.drop E)
  fit : r.ring ≠ [] → ∀ i n, shownCount ((ms.drop i).take n) < r.delay → ((ms.drop i).take n).length < r.ring.length
  fill : r.des.fill < 8
  fill0 : s = true → r.des.fill = 0
  hle : E + r.held ≤ ms.length
  data : r.des.buf.take r.des.fill ++ rest = recs (ms.drop (E + r.held))
  win : r.ring ≠ [] → window r.ring r.head r.nring = (ms.drop E).take r.nring
  cur : r.ready2 = true → ms[E]? = some r.cur

theorem held_ne {r : Rc} (h : r.ring ≠ []) : r.held = r.nring := by unfold Rc.held; rw [if_neg h]

theorem Sync.lsum {s : Bool} {F : Int} {ms : List Metrics} {rest : List Nat} {E : Nat} {r : Rc}
    (h : Sync s F ms rest E r) : r.nframesLeft.sum = (ms.length - E : Nat) := by
  rw [h.left, counts_sum fun m hm => (h.all m (List.mem_of_mem_drop hm)).fti, List.length_drop]

theorem recs_cons (m : Metrics) (l : List Metrics) : recs (m :: l) = recordBytes m ++ recs l := by simp [recs]

theorem recs_drop {ms : List Metrics} {i : Nat} (h : i < ms.length) :
    recs (ms.drop i) = recordBytes ms[i] ++ recs (ms.drop (i + 1)) := by
  rw [List.drop_eq_getElem_cons h, recs_cons]

/-- Filling the buffer of the deserialiser. -/
theorem fill_sync {d : Des} (hd : DesOk d) (hf : d.fill < 8) {b later X : List Nat}
    (h : d.buf.take d.fill ++ (b ++ later) = X) :
    ∃ d' b', bufferFill packetSz b d = some (d', b') ∧ DesOk d' ∧ d'.fill ≤ 8 ∧ b' <:+ b ∧
      d'.buf.take d'.fill ++ (b' ++ later) = X ∧ (d'.fill < 8 → b' = []) ∧
      ∀ (m : Metrics) (Y : List Nat), d'.fill = 8 → X = recordBytes m ++ Y →
        d'.buf.take 8 = recordBytes m ∧ b' ++ later = Y := by
  obtain ⟨d', e, hd', hf', -, ht⟩ := bufferFill_ok (goal := packetSz) (by decide) b d hd
  simp only [packetSz] at hf' ht e
  have hX : d'.buf.take d'.fill ++ (b.drop (8 - d.fill) ++ later) = X := by
    rw [ht, List.append_assoc, ← List.append_assoc (b.take _), List.take_append_drop, h]
  refine ⟨d', b.drop (8 - d.fill), e, hd', by omega, List.drop_suffix _ _, hX, ?_, ?_⟩
  · intro hl; exact List.drop_eq_nil_of_le (by omega)
  · intro m Y h8 hXY
    rw [hXY, h8] at hX
    exact List.append_inj hX (by rw [List.length_take, record_length, hd'.len]; rfl)

/-- The result of feeding a piece of data. -/
structure Fed (F : Int) (ms : List Metrics) (b later : List Nat) (E : Nat) (r' : Rc) (b' : List Nat) : Prop where
  suff : b' <:+ b
  sync : Sync false F ms (b' ++ later) E r'
  live : later = [] → r'.ready2 = true ∨ E = ms.length

theorem short_recs {d : Des} {l : List Metrics} (hd : DesOk d) (hf : d.fill < 8)
    (h : d.buf.take d.fill ++ [] = recs l) : l = [] := by
  have := congrArg List.length h
  rw [List.append_nil, List.length_take, recs_length, hd.len] at this
  have : l.length = 0 := by omega
  exact List.eq_nil_of_length_eq_zero this

theorem take_succ_drop {ms : List Metrics} {E n : Nat} (h : E + n < ms.length) :
    (ms.drop E).take (n + 1) = (ms.drop E).take n ++ [ms[E + n]] := by
  rw [List.take_add_one, List.getElem?_drop, List.getElem?_eq_getElem h]
  rfl

theorem Sync.pushed {s : Bool} {F : Int} {ms : List Metrics} {rest : List Nat} {E : Nat} {r : Rc} {bx : Int → Int}
    (h : Sync s F ms rest E r) (hr : r.ring ≠ []) (hn : r.nring < r.ring.length) (hl : E + r.nring < ms.length)
    (hi : Inv s F (r.pushed bx ms[E + r.nring])) {d : Des} (hd : DesOk d) (hf : d.fill < 8)
    (h0 : s = true → d.fill = 0) {rest' : List Nat}
    (hdat : d.buf.take d.fill ++ rest' = recs (ms.drop (E + (r.nring + 1)))) :
    Sync s F ms rest' E { r.pushed bx ms[E + r.nring] with des := d } := by
  have hp := pushed_ring (bx := bx) (m := ms[E + r.nring]) hr
  have f := h.inv.fin hr
  have eh : Rc.held { r.pushed bx ms[E + r.nring] with des := d } = r.nring + 1 := held_ne hp
  refine ⟨hi.des8 hd (by omega), h.act, h.pass, h.all, h.len, h.tot, h.key, h.ttot, h.enc, h.left, ?_, hf, h0, ?_, ?_, ?_,
    h.cur⟩
  · intro _ i n hs
    have := h.fit hr i n hs
    simpa [Rc.pushed, List.length_set] using this
  · rw [eh]; omega
  · rw [eh]; exact hdat
  · intro _
    show window (r.pushed bx _).ring r.head (r.nring + 1) = _
    simp only [Rc.pushed]
    rw [window_push f.head hn, h.win hr, ← take_succ_drop hl]

theorem Sync.des {s : Bool} {F : Int} {ms : List Metrics} {rest : List Nat} {E : Nat} {r : Rc}
    (h : Sync s F ms rest E r) {d : Des} (hd : DesOk d) (hf : d.fill < 8)
    (h0 : s = true → d.fill = 0) {rest' : List Nat}
    (hdat : d.buf.take d.fill ++ rest' = recs (ms.drop (E + r.held))) :
    Sync s F ms rest' E { r with des := d } :=
  { h with inv := h.inv.des8 hd (by omega), fill := hf, fill0 := h0, data := hdat }

/-- The loop over records with a finite buffer. -/
theorem feedLoop_sync {F : Int} {ms : List Metrics} (bx : Int → Int) {E : Nat} {later : List Nat} (n : Nat)
    (k : Int) (b : List Nat) (r : Rc) (h : Sync false F ms (b ++ later) E r) (hr : r.ring ≠ [])
    (hk : k = max 0 (min (r.delay - r.winNtus) (r.nframesLeft.sum - r.nring)))
    (hn : r.nframesLeft.sum - r.nring < n) (hE : E < ms.length) (hr2 : r.ready2 = false) :
    ∃ r' k' b', r.feedLoop bx (ms.length - E : Nat) n k b = some (r', k', b', true) ∧ b' <:+ b ∧
      Sync false F ms (b' ++ later) E r' ∧ r'.ring ≠ [] ∧
      k' = max 0 (min (r'.delay - r'.winNtus) (r'.nframesLeft.sum - r'.nring)) ∧ (k' ≤ 0 ∨ b' = []) ∧
      r'.ready2 = false := by
  induction n generalizing k b r with
  | zero =>
    unfold Rc.feedLoop
    rw [if_pos (by omega)]
    exact ⟨_, _, _, rfl, List.suffix_refl _, h, hr, hk, Or.inl (by omega), hr2⟩
  | succ n ih =>
    unfold Rc.feedLoop
    by_cases hk0 : k ≤ 0
    · rw [if_pos hk0]; exact ⟨_, _, _, rfl, List.suffix_refl _, h, hr, hk, Or.inl hk0, hr2⟩
    · rw [if_neg hk0]
      simp only [Option.bind_eq_bind]
      have hls := h.lsum
      have hnr : E + r.nring < ms.length := by omega
      have hd0 := h.data
      rw [held_ne hr] at hd0
      obtain ⟨d, b', e, hd, hd8, hsuf, hX, hshort, hrec⟩ := fill_sync h.inv.des h.fill hd0
      rw [e, Option.bind_some]
      dsimp only
      by_cases hlt : d.fill < packetSz
      · rw [if_pos hlt]
        have hb : b' = [] := hshort hlt
        exact ⟨_, _, _, rfl, hsuf, h.des hd hlt (by simp) (by rw [held_ne hr]; exact hX), hr, hk, Or.inr hb, hr2⟩
      · rw [if_neg hlt]
        have h8 : d.fill = 8 := by simp only [packetSz] at hlt; omega
        obtain ⟨hbuf, hY⟩ := hrec _ _ h8 (recs_drop hnr)
        have hm := h.all _ (List.getElem_mem hnr)
        rw [parse_record hm hd hbuf, Option.bind_some]
        dsimp only
        have hinv : Inv false F { r with des := { d with pos := 8 } } := h.inv.des8 ⟨hd.len, hd.fill⟩ hd8
        have f := h.inv.fin hr
        have hwt := f.winT
        rw [h.win hr] at hwt
        have hfit := h.fit hr E r.nring (by rw [← hwt]; omega)
        have hn' : r.nring < r.ring.length := by
          rw [List.length_take, List.length_drop] at hfit; omega
        have hs2 : false = true ∨ 0 < r.nframesTotal.headD 0 := Or.inr (by rw [h.tot]; exact h.key)
        have hpi := pushed_inv bx hinv hr hs2 hm.fti hn' (by dsimp only; omega)
        rw [push_eq bx (hinv.fin hr) hm.fti, if_neg (by dsimp only; omega), Option.bind_some]
        dsimp only
        have hh : Sync false F ms (d.buf.take d.fill ++ (b' ++ later)) E { r with des := { d with pos := 8, fill := 0 } } :=
          h.des (d := { d with pos := 8, fill := 0 }) ⟨hd.len, Nat.zero_le _⟩ (show (0 : Nat) < 8 by omega) (fun _ => rfl) (by rw [held_ne hr]; simpa using hX)
        have hinv0 := pushed_inv bx hh.inv hr hs2 hm.fti hn' (by dsimp only; omega)
        have hsy := hh.pushed (bx := bx) hr hn' hnr hinv0 (d := { d with pos := 8, fill := 0 })
          ⟨hd.len, Nat.zero_le _⟩ (show (0 : Nat) < 8 by omega) (fun _ => rfl) (rest' := b' ++ later) (by simpa [Nat.add_assoc] using hY)
        have hp7 := pushed_ring (bx := bx) (m := ms[E + r.nring]) (r := { r with des := { d with pos := 8 } }) hr
        have f3 := hpi.fin hp7
        have e3 : (({ r with des := { d with pos := 8 } } : Rc).pushed bx ms[E + r.nring]).nframesLeft.sum =
          (ms.length - E : Nat) := hls
        have := f3.wnt; have := hpi.delay; have := f3.left; have := hpi.lsum; have := f3.rlen; have := f3.nring
        have e4 : (({ r with des := { d with pos := 8 } } : Rc).pushed bx ms[E + r.nring]).nring = r.nring + 1 := rfl
        rw [f3.wsum, chk32_some (by omega) (by omega), Option.bind_some, chk32_some (by omega) (by omega),
          Option.bind_some, chk32_some (by omega) (by omega), Option.bind_some, clamp0_some (by omega),
          Option.bind_some]
        obtain ⟨r', k', b'', ee, q1, q2, q3, q4, q5, q6⟩ := ih
          (max 0 (min ((({ r with des := { d with pos := 8 } } : Rc).pushed bx ms[E + r.nring]).delay -
            (({ r with des := { d with pos := 8 } } : Rc).pushed bx ms[E + r.nring]).winNtus)
            ((ms.length - E : Nat) - (({ r with des := { d with pos := 8 } } : Rc).pushed bx ms[E + r.nring]).nring)))
          b' _ hsy hp7 (by rw [← e3]; rfl) (by
            show r.nframesLeft.sum - ((r.nring + 1 : Nat) : Int) < n
            push_cast; omega) hr2
        exact ⟨r', k', b'', ee, q1.trans hsuf, q2, q3, q4, q5, q6⟩

theorem Sync.ready {s : Bool} {F : Int} {ms : List Metrics} {rest : List Nat} {E : Nat} {r : Rc}
    (h : Sync s F ms rest E r) (hr : r.ring ≠ []) (hp : 0 < r.nring) :
    ∃ c, r.ring[r.head]? = some c ∧ Sync s F ms rest E { r with cur := c, ready2 := true } := by
  have f := h.inv.fin hr
  obtain ⟨e, hf⟩ := f.head_get
  have eh : ∀ c, Rc.held { r with cur := c, ready2 := true } = r.held := fun c => by
    rw [held_ne hr]; exact held_ne (r := { r with cur := c, ready2 := true }) hr
  refine ⟨_, e, { h with inv := h.inv.set_cur hf fun _ _ => ⟨hp, rfl⟩, hle := ?_, data := ?_, cur := fun _ => ?_ }⟩
  · rw [eh]; exact h.hle
  · rw [eh]; exact h.data
  · have hw := h.win hr
    obtain ⟨n, hn⟩ : ∃ n, r.nring = n + 1 := ⟨r.nring - 1, by omega⟩
    rw [hn, window_pop f.head] at hw
    have hl := h.hle
    rw [held_ne hr] at hl
    have hE : E < ms.length := by omega
    rw [List.drop_eq_getElem_cons hE, List.take_succ_cons] at hw
    rw [List.getElem?_eq_getElem hE]
    exact congrArg some (List.cons.inj hw).1.symm

theorem Sync.needs {s : Bool} {F : Int} {ms : List Metrics} {rest : List Nat} {E : Nat} {r : Rc}
    (h : Sync s F ms rest E r) (hr : r.ring ≠ []) (hE : E < ms.length)
    (hk : max 0 (min (r.delay - r.winNtus) (r.nframesLeft.sum - r.nring)) ≤ 0) : 0 < r.nring := by
  have f := h.inv.fin hr
  have := f.wnt; have := h.inv.delay; have := h.lsum
  omega

/-- Feeding a piece of the records. -/
theorem parseFrameData_sync {F : Int} {ms : List Metrics} (bx : Int → Int) {E : Nat} {b later : List Nat}
    {r : Rc} (h : Sync false F ms (b ++ later) E r) (hr2 : r.ready2 = false) (hE : E < ms.length) (total : Nat) :
    ∃ r' b', r.parseFrameData bx total (some b) = some (r', some (total - b'.length)) ∧ Fed F ms b later E r' b' := by
  unfold Rc.parseFrameData
  simp only [Option.bind_eq_bind]
  by_cases hr : r.ring = []
  · rw [if_pos hr]
    have e0 : r.held = 0 := by unfold Rc.held; rw [if_pos hr, hr2]; rfl
    have hd0 := h.data
    rw [e0] at hd0
    obtain ⟨d, b', e, hd, hd8, hsuf, hX, hshort, hrec⟩ := fill_sync h.inv.des h.fill hd0
    rw [e, Option.bind_some]
    dsimp only
    by_cases hlt : packetSz ≤ d.fill
    · rw [if_pos hlt]
      have h8 : d.fill = 8 := by simp only [packetSz] at hlt; omega
      obtain ⟨hbuf, hY⟩ := hrec _ _ h8 (recs_drop hE)
      have hm := h.all _ (List.getElem_mem hE)
      rw [parse_record hm hd hbuf, Option.bind_some]
      dsimp only
      refine ⟨_, _, rfl, hsuf, ?_, fun _ => Or.inl rfl⟩
      have hinv : Inv false F { r with des := { d with pos := 8, fill := 0 } } :=
        h.inv.des8 ⟨hd.len, Nat.zero_le _⟩ (Nat.zero_le _)
      have eh : Rc.held { r with cur := ms[E], des := { d with pos := 8, fill := 0 }, ready2 := true } = 1 := by
        unfold Rc.held; rw [if_pos hr]; rfl
      refine { h with inv := hinv.set_cur hm.fti fun e => absurd hr e, fill := ?_, fill0 := fun _ => rfl, hle := ?_, data := ?_, cur := ?_ }
      · show (0 : Nat) < 8; omega
      · rw [eh]; omega
      · rw [eh]; simpa using hY
      · intro _; exact List.getElem?_eq_getElem hE
    · rw [if_neg hlt]
      have hlt : d.fill < 8 := by simp only [packetSz] at hlt; omega
      refine ⟨_, _, rfl, hsuf, h.des hd hlt (by simp) (by rw [e0]; exact hX), ?_⟩
      intro hl
      rw [hl, hshort hlt] at hX
      have := short_recs hd hlt hX
      have := congrArg List.length this
      rw [List.length_drop] at this
      simp at this
      omega
  · rw [if_neg hr]
    have f := h.inv.fin hr
    have hls := h.lsum
    have := f.wnt; have := h.inv.delay; have := f.left; have := h.inv.lsum; have := f.rlen; have := f.nring
    rw [f.wsum, chk32_some (by omega) (by omega), Option.bind_some, chk32_some (by omega) (by omega),
      Option.bind_some, h.inv.framesNeeded h.act hr, Option.bind_some]
    obtain ⟨r', k', b', e, q1, q2, q3, q4, q5, q6⟩ := feedLoop_sync bx ((r.nframesLeft.sum - r.nring).toNat + 1) _ b r h hr
      rfl (by omega) hE hr2
    rw [hls] at e ⊢
    rw [e, Option.bind_some]
    dsimp only
    rw [if_pos rfl]
    by_cases hk : k' ≤ 0
    · rw [if_pos hk]
      obtain ⟨c, ec, hc⟩ := q2.ready q3 (q2.needs q3 hE (by omega))
      rw [ec, Option.bind_some]
      exact ⟨_, _, rfl, q1, hc, fun _ => Or.inl rfl⟩
    · rw [if_neg hk]
      refine ⟨_, _, rfl, q1, q2, ?_⟩
      intro hl
      have hb : b' = [] := by rcases q5 with q | q
                              · exact absurd q hk
                              · exact q
      have hd' := q2.data
      rw [hl, hb] at hd'
      have := congrArg List.length (short_recs q2.inv.des q2.fill hd')
      rw [List.length_drop, held_ne q3] at this
      simp at this
      have := q2.lsum
      omega

/-- Asking for the number of bytes needed. -/
theorem parseFrameNone_sync {s : Bool} {F : Int} {ms : List Metrics} (bx : Int → Int) {E : Nat} {rest : List Nat}
    {r : Rc} (h : Sync s F ms rest E r) (hE : E < ms.length) (total : Nat) :
    ∃ r' o, r.parseFrameData bx total none = some (r', o) ∧ Sync s F ms rest E r' ∧
      (r'.ready2 = true ∨ r' = r ∧ (r.ring ≠ [] → 0 < max 0 (min (r.delay - r.winNtus) (r.nframesLeft.sum - r.nring)))) := by
  have h8 := h.fill
  unfold Rc.parseFrameData
  simp only [Option.bind_eq_bind]
  by_cases hr : r.ring = []
  · rw [if_pos hr]
    rw [if_pos (by simp only [packetSz]; omega)]; exact ⟨_, _, rfl, h, Or.inr ⟨rfl, fun e => absurd hr e⟩⟩
  · rw [if_neg hr]
    have f := h.inv.fin hr
    have := f.wnt; have := h.inv.delay; have := f.left; have := h.inv.lsum; have := f.rlen; have := f.nring
    rw [f.wsum, chk32_some (by omega) (by omega), Option.bind_some, chk32_some (by omega) (by omega),
      Option.bind_some, h.inv.framesNeeded h.act hr, Option.bind_some]
    by_cases hk : max 0 (min (r.delay - r.winNtus) (r.nframesLeft.sum - r.nring)) ≤ 0
    · rw [if_pos hk]
      obtain ⟨c, ec, hc⟩ := h.ready hr (h.needs hr hE hk)
      rw [ec, Option.bind_some]
      exact ⟨_, _, rfl, hc, Or.inl rfl⟩
    · rw [if_neg hk, if_pos (by simp only [packetSz]; omega)]; exact ⟨_, _, rfl, h, Or.inr ⟨rfl, fun _ => by omega⟩⟩

theorem Sync.end_unready {s : Bool} {F : Int} {ms : List Metrics} {rest : List Nat} {E : Nat} {r : Rc}
    (h : Sync s F ms rest E r) (hE : ms.length ≤ E) : r.ready2 = false := by
  cases hr : r.ready2 with
  | false => rfl
  | true => have := h.cur hr; rw [List.getElem?_eq_none hE] at this; simp at this

theorem unready_eq {r : Rc} (h : r.ready2 = false) : ({ r with ready2 := false } : Rc) = r := by
  cases r; simp only at h; rw [h]

theorem tail_some {F : Int} {ms : List Metrics} (bx : Int → Int) {E : Nat} {b later : List Nat}
    {r : Rc} (h : Sync false F ms (b ++ later) E r) (total : Nat) :
    ∃ r' b', r.twopassTail bx total (some b) (total - b.length) = some (r', some (total - b'.length)) ∧
      Fed F ms b later E r' b' := by
  unfold Rc.twopassTail
  rw [if_pos (by rw [h.tot]; exact h.key)]
  have ht := h.ttot; have he := h.enc
  by_cases hE : E < ms.length
  · rw [if_neg (by omega)]
    cases hr : r.ready2 with
    | false => rw [if_pos (by simp)]; exact parseFrameData_sync bx h hr hE total
    | true =>
      rw [if_neg (by simp)]
      exact ⟨r, b, rfl, List.suffix_refl _, h, fun _ => Or.inl hr⟩
  · rw [if_pos (by omega), unready_eq (h.end_unready (by omega))]
    have := h.hle
    exact ⟨r, b, rfl, List.suffix_refl _, h, fun _ => Or.inr (by omega)⟩

/-- In the second pass with data at hand, a frame can be encoded unless more data is needed. -/
def Rc.lively (r : Rc) (E L : Nat) : Prop :=
  E < L → r.ready2 = false → r.ring ≠ [] → 0 < max 0 (min (r.delay - r.winNtus) (r.nframesLeft.sum - r.nring))

theorem tail_none {s : Bool} {F : Int} {ms : List Metrics} (bx : Int → Int) {E : Nat} {rest : List Nat}
    {r : Rc} (h : Sync s F ms rest E r) (total c : Nat) :
    ∃ r' o, r.twopassTail bx total none c = some (r', o) ∧ Sync s F ms rest E r' ∧ r'.lively E ms.length := by
  unfold Rc.twopassTail
  rw [if_pos (by rw [h.tot]; exact h.key)]
  have ht := h.ttot; have he := h.enc
  by_cases hE : E < ms.length
  · rw [if_neg (by omega)]
    cases hr : r.ready2 with
    | false =>
      rw [if_pos (by simp)]
      obtain ⟨r', o, e, h1, h2⟩ := parseFrameNone_sync bx h hE total
      refine ⟨r', o, e, h1, fun _ hx hy => ?_⟩
      rcases h2 with h2 | ⟨h2, h3⟩
      · rw [h2] at hx; simp at hx
      · rw [h2] at hy ⊢; exact h3 hy
    | true => rw [if_neg (by simp)]; exact ⟨r, _, rfl, h, fun _ hx => by rw [hr] at hx; simp at hx⟩
  · rw [if_pos (by omega), unready_eq (h.end_unready (by omega))]
    exact ⟨r, _, rfl, h, fun hx => absurd hx hE⟩

theorem in_none {s : Bool} {F : Int} {ms : List Metrics} (bx : Int → Int) {E : Nat} {rest : List Nat}
    {r : Rc} (h : Sync s F ms rest E r) :
    ∃ r' o, r.twopassIn bx none = some (r', o) ∧ Sync s F ms rest E r' ∧ r'.lively E ms.length := by
  unfold Rc.twopassIn
  dsimp only
  rw [initSecond_ge h.pass]
  have := h.key; rw [← h.tot] at this
  rw [if_neg (by omega)]
  exact tail_none bx h _ _

theorem in_some {F : Int} {ms : List Metrics} (bx : Int → Int) {E : Nat} {b later : List Nat}
    {r : Rc} (h : Sync false F ms (b ++ later) E r) :
    ∃ r' b', r.twopassIn bx (some b) = some (r', some (b.length - b'.length)) ∧ Fed F ms b later E r' b' := by
  unfold Rc.twopassIn
  dsimp only
  rw [initSecond_ge h.pass]
  have := h.key; rw [← h.tot] at this
  rw [if_neg (by omega)]
  have := tail_some bx h b.length
  rw [Nat.sub_self] at this
  exact this

end Rav1e.Rate

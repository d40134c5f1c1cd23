import Verif.Rate.Lemmas
/-
C30: feeding arbitrary bytes as two-pass data never makes the encoder panic.
-/
namespace Rav1e.Rate
open Rav1e.Ivf (le unle)

/-- What a caller can do, as far as the two-pass data is concerned. `done` is whether the encoder has finished. -/
inductive Op where
  /-- `Context::twopass_in` -/
  | feed (b : List Nat)
  /-- `Context::twopass_bytes_needed` -/
  | need
  /-- `Context::rc_send_pass_data` -/
  | send (b : List Nat)
  /-- `Context::rc_second_pass_data_required` -/
  | required (done : Bool)
  /-- A frame of the given size, type and log scale is encoded, if the rate control is ready for one. -/
  | frame (bits : Int) (fti : Nat) (shown : Bool) (ls : Int)
  /-- `Context::twopass_out` -/
  | out (done : Bool)
  /-- `Context::rc_receive_pass_data` -/
  | receive (done : Bool)
  deriving DecidableEq, Repr

/-- `none` is a panic. A frame is refused (`NotReady`) unless `ready`, `api/internal.rs:1273-1290`. -/
def step (bx : Int → Int) (r : Rc) : Op → Option Rc
  | .feed b => (r.twopassIn bx (some b)).map (·.1)
  | .need => (r.twopassIn bx none).map (·.1)
  | .send b => (r.sendPacket bx b).map (·.1)
  | .required done => (r.dataRequired done).map fun _ => r
  | .frame bits fti shown ls =>
    if r.active && r.ready then r.update bx bits fti shown ls else some r
  | .out done => some (r.twopassOut bx done).1
  | .receive done => (r.receivePassData bx done).map (·.1)

def run (bx : Int → Int) : Rc → List Op → Option Rc
  | r, [] => some r
  | r, o :: os => (step bx r o).bind fun r => run bx r os

/-- An encoded frame has a size above zero and one of the five types; a Show Existing Frame is a shown packet of
three bytes (`debug_assert` in `update_state`, `rate.rs:1098-1099`). -/
def Op.Valid : Op → Prop
  | .frame bits fti shown _ => 0 < bits ∧ fti ≤ 4 ∧ (fti = 4 → bits = 24 ∧ shown = true)
  | _ => True

def Op.isFeed : Op → Bool
  | .feed _ => true
  | _ => false

def Op.isSend : Op → Bool
  | .send _ => true
  | _ => false

/-- The limits that `Config::validate` puts on the delay, `api/config/mod.rs:378-382`. -/
structure CfgOk (c : Cfg) : Prop where
  delay : ∀ d, c.delay = some d → 12 ≤ d ∧ d ≤ 131072

/-! ## Invariant -/

/-- The invariant for a finite buffer. -/
structure Fin (r : Rc) : Prop where
  head : r.head < r.ring.length
  nring : r.nring ≤ r.ring.length
  rlen : (r.ring.length : Int) < 2147483000
  ent : ∀ m ∈ r.ring, m.fti ≤ 4
  winN : r.winNframes = counts (window r.ring r.head r.nring)
  winT : r.winNtus = shownCount (window r.ring r.head r.nring)
  left : (r.nring : Int) ≤ r.nframesLeft.sum
  ready : r.active = true → r.ready2 = true → 0 < r.nring ∧ r.cur = r.ring.getD r.head Metrics.new
  prog : 0 < r.nframesTotal.headD 0 → r.totalTotal - (r.nencoded + r.nsef) ≤ r.nframesLeft.sum

structure Inv (sends : Bool) (F : Int) (r : Rc) : Prop where
  des : DesOk r.des
  left : Tab F r.nframesLeft
  lsum : -F ≤ r.nframesLeft.sum ∧ r.nframesLeft.sum < 2147483648
  win : Tab F r.winNframes
  cur : r.cur.fti ≤ 4
  delay : 1 ≤ r.delay ∧ r.delay < 2147483648
  dset : r.delaySet = true → r.delay ≤ 131072 ∧ (¬ r.pass < 2 → r.ring ≠ [])
  ntl : -F ≤ r.ntusLeft ∧ r.ntusLeft < 2147483648
  wnt : -F ≤ r.winNtus ∧ r.winNtus < 2147483648
  tot : r.nframesTotal.length = 5
  nfr : r.nframes.length = 5
  fin : r.ring ≠ [] → Fin r
  nofin : r.ring = [] → r.head = 0 ∧ r.nring = 0
  pass : r.pass < 2 → r.ring = [] ∧ r.winNframes = List.replicate 5 0 ∧ r.winNtus = 0 ∧
    r.nframesTotal = List.replicate 5 0 ∧ r.nframesLeft = List.replicate 5 0
  pass3 : r.pass ≤ 3
  enc : 0 ≤ r.nencoded + r.nsef ∧ r.nencoded + r.nsef ≤ F
  fillS : sends = true → r.des.fill ≤ 8
  fillF : sends = false → 0 < r.nframesTotal.headD 0 → r.des.fill ≤ 8
  apart : sends = false → r.nframesTotal.headD 0 ≤ 0 → r.nring = 0
  retr : r.pass1Retrieved = false → r.pass = 1 ∨ r.pass = 3

theorem Fin.fti {r : Rc} (h : Fin r) : ∀ m ∈ window r.ring r.head r.nring, m.fti ≤ 4 := by
  intro m hm
  simp only [window, List.mem_map] at hm
  obtain ⟨i, -, rfl⟩ := hm
  have hi : (r.head + i) % r.ring.length < r.ring.length := Nat.mod_lt _ (by have := h.head; omega)
  rw [List.getD_eq_getElem?_getD, List.getElem?_eq_getElem hi]
  exact h.ent _ (List.getElem_mem hi)

theorem Fin.wsum {r : Rc} (h : Fin r) : r.winNframes.sum = r.nring := by
  rw [h.winN, counts_sum h.fti, window_length]

theorem Fin.ring_ne {r : Rc} (h : Fin r) : r.ring ≠ [] := by
  intro e; have := h.head; rw [e] at this; simp at this

theorem Fin.wnt {r : Rc} (h : Fin r) : 0 ≤ r.winNtus ∧ r.winNtus ≤ r.nring := by
  rw [h.winT]
  exact ⟨shown_nonneg _, by have := shown_le (window r.ring r.head r.nring); rw [window_length] at this; exact this⟩

theorem Inv.framesNeeded {s : Bool} {F : Int} {r : Rc} (h : Inv s F r) (ha : r.active = true) (hr : r.ring ≠ [])
    : r.framesNeeded = some (max 0 (min (r.delay - r.winNtus) (r.nframesLeft.sum - r.nring))) := by
  have f := h.fin hr
  have := f.wnt; have := h.delay; have := f.left; have := h.lsum; have := f.rlen; have := f.nring
  unfold Rc.framesNeeded
  rw [if_neg (by simp [ha]), if_neg hr, f.wsum, chk32_some (by omega) (by omega), Option.bind_eq_bind,
    Option.bind_some, chk32_some (by omega) (by omega), Option.bind_some, chk32_some (by omega) (by omega),
    Option.bind_some, chk32_some (by omega) (by omega), Option.bind_some, clamp0_some (by omega)]

theorem Inv.framesNeeded_some {s : Bool} {F : Int} {r : Rc} (h : Inv s F r) : ∃ k, r.framesNeeded = some k := by
  by_cases ha : r.active = true
  · by_cases hr : r.ring = []
    · unfold Rc.framesNeeded; rw [if_neg (by simp [ha]), if_pos hr]; exact ⟨_, rfl⟩
    · exact ⟨_, h.framesNeeded ha hr⟩
  · unfold Rc.framesNeeded; rw [if_pos (by simpa using ha)]; exact ⟨_, rfl⟩

/-! ## Steps -/

/-- The state after a metric entered the window. -/
def Rc.pushed (bx : Int → Int) (r : Rc) (m : Metrics) : Rc :=
  { r with
    nring := r.nring + 1, ring := r.ring.set ((r.head + r.nring) % r.ring.length) m
    winNframes := counts (window r.ring r.head r.nring ++ [m])
    winSum := bumpSum r.winSum m.fti (bx m.logScale)
    winNtus := if m.shown then r.winNtus + 1 else r.winNtus }

theorem push_eq (bx : Int → Int) {r : Rc} (h : Fin r) {m : Metrics} (hm : m.fti ≤ 4) :
    r.push bx m = if r.ring.length ≤ r.nring then some none else some (some (r.pushed bx m)) := by
  unfold Rc.push
  split
  · rfl
  · rename_i hn
    have hn : r.nring < r.ring.length := by omega
    have hw := h.wnt; have hl := h.rlen
    dsimp only
    rw [ring_index h.head hn, if_pos (Nat.mod_lt _ (by omega)), h.winN,
      bump_counts_append hm (by rw [window_length]; omega), Option.bind_eq_bind, Option.bind_some]
    cases hs : m.shown
    · simp only [Bool.false_eq_true, if_false, Rc.pushed, hs]; rfl
    · simp only [if_true, Rc.pushed, hs]
      rw [chk32_some (by omega) (by omega)]; rfl

theorem pushed_ring {bx : Int → Int} {r : Rc} {m : Metrics} (hr : r.ring ≠ []) : (r.pushed bx m).ring ≠ [] := by
  intro e
  apply hr
  have : (r.pushed bx m).ring.length = 0 := by rw [e]; rfl
  simp only [Rc.pushed, List.length_set] at this
  exact List.eq_nil_of_length_eq_zero this

theorem pushed_fin (bx : Int → Int) {r : Rc} (h : Fin r) {m : Metrics} (hm : m.fti ≤ 4)
    (hn : r.nring < r.ring.length) (hl : (r.nring : Int) + 1 ≤ r.nframesLeft.sum) :
    Fin (r.pushed bx m) ∧ (r.pushed bx m).winNtus ≤ r.winNtus + 1 := by
  have hw : window (r.pushed bx m).ring (r.pushed bx m).head (r.pushed bx m).nring =
      window r.ring r.head r.nring ++ [m] := window_push h.head hn m
  refine ⟨⟨?_, ?_, ?_, ?_, ?_, ?_, ?_, ?_, h.prog⟩, ?_⟩
  · simp only [Rc.pushed, List.length_set]; exact h.head
  · simp only [Rc.pushed, List.length_set]; omega
  · simp only [Rc.pushed, List.length_set]; exact h.rlen
  · intro x hx
    rcases List.mem_or_eq_of_mem_set hx with hx | hx
    · exact h.ent x hx
    · rw [hx]; exact hm
  · rw [hw]; rfl
  · rw [hw, shown_append, ← h.winT]; rfl
  · simp only [Rc.pushed]; push_cast; exact hl
  · intro ha hr
    have := h.ready ha hr
    refine ⟨by simp only [Rc.pushed]; omega, ?_⟩
    simp only [Rc.pushed, List.getD_eq_getElem?_getD]
    rw [this.2, List.getElem?_set_ne, List.getD_eq_getElem?_getD]
    rw [← ring_index h.head hn]
    split <;> omega
  · simp only [Rc.pushed]; split <;> omega

theorem tab_counts {F : Int} (hF : 0 ≤ F) {l : List Metrics} (hl : (l.length : Int) < 2147483648) :
    Tab F (counts l) := by
  refine ⟨rfl, ?_⟩
  intro v hv
  have hc : ∀ p : Metrics → Bool, ((l.countP p : Nat) : Int) ≤ l.length := fun p => by
    exact_mod_cast countP_le_length l p
  simp only [counts, List.mem_cons, List.not_mem_nil, or_false] at hv
  rcases hv with rfl | rfl | rfl | rfl | rfl
  · have := hc fun m => decide (m.fti = 0); omega
  · have := hc fun m => decide (m.fti = 1); omega
  · have := hc fun m => decide (m.fti = 2); omega
  · have := hc fun m => decide (m.fti = 3); omega
  · have := hc fun m => decide (m.fti = 4); omega

theorem pushed_inv {s : Bool} {F : Int} (bx : Int → Int) {r : Rc} (h : Inv s F r) (hr : r.ring ≠ [])
    (hs : s = true ∨ 0 < r.nframesTotal.headD 0) {m : Metrics} (hm : m.fti ≤ 4)
    (hn : r.nring < r.ring.length) (hl : (r.nring : Int) + 1 ≤ r.nframesLeft.sum) :
    Inv s F (r.pushed bx m) := by
  have f := h.fin hr
  have hF : 0 ≤ F := by have := h.enc; omega
  have hw := f.wnt
  have hrl := f.rlen
  refine { h with win := ?_, dset := fun hd => ⟨(h.dset hd).1, fun _ => pushed_ring hr⟩,
                  wnt := ?_, fin := ?_, nofin := ?_, pass := ?_, apart := ?_ }
  · exact tab_counts hF (by rw [List.length_append, window_length]; simp; omega)
  · simp only [Rc.pushed]; split <;> omega
  · intro _; exact (pushed_fin bx f hm hn hl).1
  · intro e
    exfalso
    have : (r.pushed bx m).ring.length = 0 := by rw [e]; rfl
    simp only [Rc.pushed, List.length_set] at this
    omega
  · intro hp; exact absurd (h.pass hp).1 hr
  · intro h1 h2; rcases hs with hs | hs
    · rw [hs] at h1; simp at h1
    · simp only [Rc.pushed] at h2; omega

theorem Inv.des_set {s : Bool} {F : Int} {r : Rc} (h : Inv s F r) {d : Des} (hd : DesOk d)
    (h1 : s = true → d.fill ≤ 8) (h2 : s = false → 0 < r.nframesTotal.headD 0 → d.fill ≤ 8) :
    Inv s F { r with des := d } :=
  { h with des := hd, fillS := h1, fillF := h2, fin := fun e => { h.fin e with } }

theorem Inv.des8 {s : Bool} {F : Int} {r : Rc} (h : Inv s F r) {d : Des} (hd : DesOk d) (h1 : d.fill ≤ 8) :
    Inv s F { r with des := d } := h.des_set hd (fun _ => h1) fun _ _ => h1

theorem Inv.set_cur {s : Bool} {F : Int} {r : Rc} (h : Inv s F r) {m : Metrics} (hm : m.fti ≤ 4)
    (hf : r.ring ≠ [] → r.active = true → 0 < r.nring ∧ m = r.ring.getD r.head Metrics.new) :
    Inv s F { r with cur := m, ready2 := true } :=
  { h with cur := hm, fin := fun e => { h.fin e with ready := fun ha _ => hf e ha } }

theorem Inv.unready {s : Bool} {F : Int} {r : Rc} (h : Inv s F r) : Inv s F { r with ready2 := false } :=
  { h with fin := fun e => { h.fin e with ready := fun _ hr => by simp at hr } }

theorem Fin.head_get {r : Rc} (h : Fin r) :
    r.ring[r.head]? = some (r.ring.getD r.head Metrics.new) ∧ (r.ring.getD r.head Metrics.new).fti ≤ 4 := by
  rw [List.getD_eq_getElem?_getD, List.getElem?_eq_getElem h.head]
  exact ⟨rfl, h.ent _ (List.getElem_mem h.head)⟩

theorem sendPacket_inv {F : Int} (bx : Int → Int) {r : Rc} (h : Inv true F r) (b : List Nat) :
    ∃ r' ok, r.sendPacket bx b = some (r', ok) ∧ Inv true F r' := by
  unfold Rc.sendPacket
  by_cases hb : b.length ≠ packetSz
  · rw [if_pos hb]; exact ⟨_, _, rfl, h⟩
  · rw [if_neg hb]
    obtain ⟨d, e, hd, hf, hp, -⟩ := bufferFill_ok (goal := packetSz) (by decide) b r.des h.des
    have hd8 : d.fill ≤ 8 := by have := h.fillS rfl; simp only [packetSz] at hf; omega
    obtain ⟨m, p, em, hm⟩ := parseMetrics_ok (d := { d with pos := 0 }) ⟨hd.len, hd.fill⟩ rfl
    simp only [Option.bind_eq_bind]
    rw [e, Option.bind_some]
    dsimp only
    rw [em, Option.bind_some]
    cases m with
    | none => exact ⟨_, _, rfl, h.des8 ⟨hd.len, hd.fill⟩ hd8⟩
    | some m =>
      have hm := hm m rfl
      dsimp only
      have h1 : Inv true F { r with des := { buf := d.buf, pos := p, fill := 0 } } :=
        h.des8 ⟨hd.len, by simp⟩ (by simp)
      unfold Rc.accept
      simp only [Option.bind_eq_bind]
      by_cases hr : r.ring = []
      · rw [if_pos hr]
        exact ⟨_, _, rfl, h1.set_cur hm fun e => absurd hr e⟩
      · rw [if_neg hr]
        obtain ⟨k, hk⟩ := h1.framesNeeded_some
        by_cases ha : r.active = true
        · have hk' := h1.framesNeeded ha hr
          rw [hk'] at hk
          rw [hk', Option.bind_some]
          generalize hkk : max 0 (min (r.delay - r.winNtus) (r.nframesLeft.sum - (r.nring : Int))) = kk
          by_cases h0 : 0 < kk
          · rw [if_pos h0, push_eq bx (h1.fin hr) hm]
            dsimp only
            by_cases hn : r.ring.length ≤ r.nring
            · rw [if_pos hn]; exact ⟨_, _, rfl, h1⟩
            · rw [if_neg hn]
              have hi := pushed_inv bx h1 hr (Or.inl rfl) hm (by dsimp only; omega) (by dsimp only; omega)
              simp only [Option.bind_some]
              generalize hr' : Rc.pushed bx _ m = r' at hi
              have hne : r'.ring ≠ [] := by rw [← hr']; exact pushed_ring hr
              have hpos : 0 < r'.nring := by rw [← hr']; simp only [Rc.pushed]; omega
              have hg := (hi.fin hne).head_get
              by_cases h1k : kk = 1
              · rw [if_pos h1k, hg.1]
                exact ⟨_, _, rfl, hi.set_cur hg.2 fun _ _ => ⟨hpos, rfl⟩⟩
              · rw [if_neg h1k]; exact ⟨_, _, rfl, hi⟩
          · rw [if_neg h0]; exact ⟨_, _, rfl, h1⟩
        · have : Rc.framesNeeded { r with des := { buf := d.buf, pos := p, fill := 0 } } = some 0 := by
            unfold Rc.framesNeeded; rw [if_pos (by simpa using ha)]
          rw [this, Option.bind_some, if_neg (by omega)]
          exact ⟨_, _, rfl, h1⟩

/-- What the loop keeps. -/
structure Loop (s : Bool) (F : Int) (r0 r : Rc) (k : Int) : Prop where
  inv : Inv s F r
  ring : r.ring ≠ []
  tot : r.nframesTotal = r0.nframesTotal
  act : r.active = r0.active
  lsum : r.nframesLeft.sum = r0.nframesLeft.sum
  kk : k ≤ 0 ∨ k = max 0 (min (r.delay - r.winNtus) (r.nframesLeft.sum - r.nring))
  pos : k ≤ 0 → r.active = true → 0 < r.nring

theorem feedLoop_inv {s : Bool} {F : Int} (bx : Int → Int) {r0 : Rc}
    (hs : s = true ∨ 0 < r0.nframesTotal.headD 0) (n : Nat) (k : Int) (b : List Nat) (r : Rc) (h : Loop s F r0 r k)
    (hn : r.nframesLeft.sum - r.nring < n) :
    ∃ r' k' b' ok, r.feedLoop bx r0.nframesLeft.sum n k b = some (r', k', b', ok) ∧ Loop s F r0 r' k' := by
  induction n generalizing k b r with
  | zero =>
    unfold Rc.feedLoop
    have hk : k ≤ 0 := by rcases h.kk with h1 | h1 <;> omega
    rw [if_pos hk]
    exact ⟨_, _, _, _, rfl, h⟩
  | succ n ih =>
    unfold Rc.feedLoop
    by_cases hk : k ≤ 0
    · rw [if_pos hk]; exact ⟨_, _, _, _, rfl, h⟩
    · rw [if_neg hk]
      simp only [Option.bind_eq_bind]
      have h0 := h.inv
      have hs' : s = true ∨ 0 < r.nframesTotal.headD 0 := by rw [h.tot]; exact hs
      have hf8 : r.des.fill ≤ 8 := by
        cases s with
        | true => exact h0.fillS rfl
        | false => rcases hs' with h1 | h1
                   · simp at h1
                   · exact h0.fillF rfl h1
      obtain ⟨d, e, hd, hf, hp, -⟩ := bufferFill_ok (goal := packetSz) (by decide) b r.des h0.des
      have hd8 : d.fill ≤ 8 := by simp only [packetSz] at hf; omega
      rw [e, Option.bind_some]
      dsimp only
      have h1 : ∀ d' : Des, DesOk d' → d'.fill ≤ 8 → Loop s F r0 { r with des := d' } k := fun d' a b =>
        { h with inv := h0.des8 a b }
      by_cases hlt : d.fill < packetSz
      · rw [if_pos hlt]; exact ⟨_, _, _, _, rfl, h1 d hd hd8⟩
      · rw [if_neg hlt]
        obtain ⟨m, p, em, hm⟩ := parseMetrics_ok (d := { d with pos := 0 }) ⟨hd.len, hd.fill⟩ rfl
        rw [em, Option.bind_some]
        cases m with
        | none => exact ⟨_, _, _, _, rfl, h1 _ ⟨hd.len, hd.fill⟩ hd8⟩
        | some m =>
          have hm := hm m rfl
          dsimp only
          have h2 := h1 { d with pos := p } ⟨hd.len, hd.fill⟩ hd8
          generalize hr2 : ({ r with des := { d with pos := p } } : Rc) = r2 at h2 ⊢
          have hr2' : ({ r with des := { pos := p, fill := d.fill, buf := d.buf } } : Rc) = r2 := hr2
          have g1 : r2.nring = r.nring := by rw [← hr2]
          have g2 : r2.nframesLeft = r.nframesLeft := by rw [← hr2]
          have hkk : k = max 0 (min (r2.delay - r2.winNtus) (r2.nframesLeft.sum - r2.nring)) := by
            rcases h2.kk with h3 | h3
            · omega
            · exact h3
          rw [push_eq bx (h2.inv.fin h2.ring) hm]
          by_cases hfull : r2.ring.length ≤ r2.nring
          · rw [if_pos hfull]; exact ⟨_, _, _, _, rfl, h2⟩
          · rw [if_neg hfull, Option.bind_some]
            have hs2 : s = true ∨ 0 < r2.nframesTotal.headD 0 := by rw [h2.tot]; exact hs
            have h3 := pushed_inv bx h2.inv h2.ring hs2 hm (by omega) (by omega)
            have hp3 : (r2.pushed bx m).nring = r2.nring + 1 := rfl
            have hp4 : (r2.pushed bx m).nframesLeft = r2.nframesLeft := rfl
            have hp5 : (r2.pushed bx m).nframesTotal = r2.nframesTotal := rfl
            have hp6 : (r2.pushed bx m).active = r2.active := rfl
            have hp7 := pushed_ring (bx := bx) (m := m) h2.ring
            have hp8 : (r2.pushed bx m).des = { d with pos := p } := by rw [← hr2]; rfl
            dsimp only
            generalize r2.pushed bx m = r3 at h3 hp3 hp4 hp5 hp6 hp7 hp8
            have f3 := h3.fin hp7
            have := f3.wnt; have := h3.delay; have := f3.left; have := h3.lsum; have := f3.rlen; have := f3.nring
            have hl0 : r0.nframesLeft.sum = r3.nframesLeft.sum := by rw [hp4, h2.lsum]
            rw [f3.wsum, chk32_some (by omega) (by omega), Option.bind_some, 
              chk32_some (by omega) (by omega), Option.bind_some, chk32_some (by omega) (by omega), Option.bind_some,
              clamp0_some (by omega), Option.bind_some]
            apply ih
            · refine ⟨h3.des8 (d := { r3.des with fill := 0 }) ⟨by show r3.des.buf.length = 68; rw [hp8]; exact hd.len, by simp⟩
                  (by simp), hp7, by rw [← h2.tot]; exact hp5,
                by rw [← h2.act]; exact hp6, hl0.symm, Or.inr ?_, ?_⟩
              · dsimp only; rw [hl0]
              · intro _ _; dsimp only; omega
            · dsimp only; rw [hp4, hp3, g1, g2]; push_cast; omega

theorem parseFrameData_inv {s : Bool} {F : Int} (bx : Int → Int) {r : Rc} (h : Inv s F r)
    (hs : 0 < r.nframesTotal.headD 0) (hp : r.totalTotal - (r.nencoded + r.nsef) ≥ 1) (total : Nat)
    (buf : Option (List Nat)) :
    ∃ r' o, r.parseFrameData bx total buf = some (r', o) ∧ Inv s F r' ∧ r'.nframesTotal = r.nframesTotal := by
  have hf8 : r.des.fill ≤ 8 := by
    cases s with
    | true => exact h.fillS rfl
    | false => exact h.fillF rfl hs
  unfold Rc.parseFrameData
  simp only [Option.bind_eq_bind]
  by_cases hr : r.ring = []
  · rw [if_pos hr]
    cases buf with
    | none => dsimp only; rw [if_pos (by simp only [packetSz]; exact hf8)]; exact ⟨_, _, rfl, h, rfl⟩
    | some b =>
      dsimp only
      obtain ⟨d, e, hd, hf, -, -⟩ := bufferFill_ok (goal := packetSz) (by decide) b r.des h.des
      have hd8 : d.fill ≤ 8 := by simp only [packetSz] at hf; omega
      rw [e, Option.bind_some]
      dsimp only
      by_cases hlt : packetSz ≤ d.fill
      · rw [if_pos hlt]
        obtain ⟨m, p, em, hm⟩ := parseMetrics_ok (d := { d with pos := 0 }) ⟨hd.len, hd.fill⟩ rfl
        rw [em, Option.bind_some]
        cases m with
        | none => exact ⟨_, _, rfl, h.des8 ⟨hd.len, hd.fill⟩ hd8, rfl⟩
        | some m =>
          have h1 : Inv s F { r with des := { buf := d.buf, pos := p, fill := 0 } } :=
            h.des8 ⟨hd.len, by simp⟩ (by simp)
          exact ⟨_, _, rfl, h1.set_cur (hm m rfl) fun e => absurd hr e, rfl⟩
      · rw [if_neg hlt]; exact ⟨_, _, rfl, h.des8 hd hd8, rfl⟩
  · rw [if_neg hr]
    have f := h.fin hr
    have := f.wnt; have := h.delay; have := f.left; have := h.lsum; have := f.rlen; have := f.nring
    have hprog := f.prog hs
    rw [f.wsum, chk32_some (by omega) (by omega), Option.bind_some, chk32_some (by omega) (by omega),
      Option.bind_some]
    have hk : ∃ k, r.framesNeeded = some k ∧ Loop s F r r k := by
      by_cases ha : r.active = true
      · exact ⟨_, h.framesNeeded ha hr, h, hr, rfl, rfl, rfl, Or.inr rfl, fun h1 _ => by omega⟩
      · refine ⟨0, ?_, h, hr, rfl, rfl, rfl, Or.inl (by omega), fun _ h2 => absurd h2 ha⟩
        unfold Rc.framesNeeded; rw [if_pos (by simpa using ha)]
    obtain ⟨k, ek, hl⟩ := hk
    rw [ek, Option.bind_some]
    have fin : ∀ r' k', Loop s F r r' k' → k' ≤ 0 → ∀ c : Nat,
        ∃ r'' o, ((r'.ring[r'.head]?).bind fun c' => some (({ r' with cur := c', ready2 := true } : Rc), some c)) =
          some (r'', o) ∧ Inv s F r'' ∧ r''.nframesTotal = r.nframesTotal := by
      intro r' k' hl' hk' c
      have f' := hl'.inv.fin hl'.ring
      rw [f'.head_get.1, Option.bind_some]
      exact ⟨_, _, rfl, hl'.inv.set_cur f'.head_get.2 fun _ ha => ⟨hl'.pos hk' ha, rfl⟩, hl'.tot⟩
    cases buf with
    | none =>
      dsimp only
      by_cases hk : k ≤ 0
      · rw [if_pos hk]; exact fin r k hl hk _
      · rw [if_neg hk, if_pos (by simp only [packetSz]; omega)]; exact ⟨_, _, rfl, h, rfl⟩
    | some b =>
      dsimp only
      obtain ⟨r', k', b', ok, e, hl'⟩ := feedLoop_inv bx (Or.inr hs) ((r.nframesLeft.sum - r.nring).toNat + 1) k b r hl
        (by omega)
      rw [e, Option.bind_some]
      dsimp only
      cases ok with
      | false => exact ⟨_, _, rfl, hl'.inv, hl'.tot⟩
      | true =>
        rw [if_pos rfl]
        by_cases hk : k' ≤ 0
        · rw [if_pos hk]; exact fin r' k' hl' hk _
        · rw [if_neg hk]; exact ⟨_, _, rfl, hl'.inv, hl'.tot⟩

theorem initSecond_ge {r : Rc} (h : ¬ r.pass < 2) : r.initSecond = r := by
  unfold Rc.initSecond; rw [if_neg (by omega)]

theorem initSecond_inv {s : Bool} {F : Int} {r : Rc} (h : Inv s F r) (hp : r.pass < 2) :
    Inv s F { r.initSecond with ready2 := false } := by
  obtain ⟨p1, p2, p3, p4, p5⟩ := h.pass hp
  have hno := h.nofin p1
  unfold Rc.initSecond
  rw [if_pos (by omega), p1]
  refine { h with dset := ?_, fin := ?_, nofin := ?_, pass := ?_, pass3 := ?_, retr := ?_ }
  · intro hd; refine ⟨(h.dset hd).1, fun _ => ?_⟩; dsimp only at hd ⊢; rw [if_pos hd]; simp
  · intro hne
    have hds : r.delaySet = true := by
      cases hd : r.delaySet with
      | true => rfl
      | false => dsimp only at hne; rw [if_neg (by simp [hd])] at hne; exact absurd rfl hne
    have hd := (h.dset hds).1; have hd1 := h.delay
    constructor
    · dsimp only; rw [if_pos hds, hno.1]; simp
    · dsimp only; rw [hno.2]; omega
    · dsimp only; rw [if_pos hds]; simp; omega
    · dsimp only; rw [if_pos hds]; intro m hm; simp at hm; rw [hm]; decide
    · dsimp only; rw [hno.2, p2]; rfl
    · dsimp only; rw [hno.2, p3]; rfl
    · dsimp only; rw [hno.2, p5]; decide
    · intro _ hx; simp at hx
    · intro hx; dsimp only at hx; rw [p4] at hx; simp at hx
  · intro _; exact hno
  · intro hx; dsimp only at hx; omega
  · dsimp only; omega
  · intro hx; have := h.retr hx; dsimp only; omega

theorem sum_nonneg {l : List Int} (h : ∀ v ∈ l, 0 ≤ v) : 0 ≤ l.sum := by
  induction l with
  | nil => simp
  | cons a l ih =>
    have := ih fun v hv => h v (List.mem_cons_of_mem _ hv)
    have := h a List.mem_cons_self
    rw [List.sum_cons]; omega

theorem sum_ge_of_mem {l : List Int} (h : ∀ v ∈ l, 0 ≤ v) {v : Int} (hv : v ∈ l) : v ≤ l.sum := by
  induction l with
  | nil => simp at hv
  | cons a l ih =>
    have h0 : ∀ v ∈ l, 0 ≤ v := fun v hv => h v (List.mem_cons_of_mem _ hv)
    have ha := h a List.mem_cons_self
    have hs := sum_nonneg h0
    rw [List.sum_cons]
    rcases List.mem_cons.1 hv with rfl | hv
    · omega
    · have := ih h0 hv; omega

theorem SumOk.tab {F : Int} (hF : 0 ≤ F) {x : Summary} (h : SumOk x) : Tab F x.nframes :=
  ⟨h.len, fun v hv => by
    have := sum_ge_of_mem h.nonneg hv; have := h.nonneg v hv; have := h.lt; omega⟩

theorem setup_inv {s : Bool} {F : Int} {r : Rc} (h : Inv s F r) (hp : ¬ r.pass < 2) {x : Summary} (hx : SumOk x)
    (hr : r.ready2 = false) (hn : r.ring ≠ [] → r.nring = 0) (hf : r.des.fill ≤ 8) : Inv s F (r.setupSecond x) := by
  have hF : 0 ≤ F := by have := h.enc; omega
  have ht := hx.tab hF
  have := hx.ntus; have := hx.le; have := hx.lt
  have hl : -F ≤ x.nframes.sum ∧ x.nframes.sum < 2147483648 := by omega
  have hnt : -F ≤ x.ntus ∧ x.ntus < 2147483648 := by omega
  have hd : 1 ≤ x.ntus ∧ x.ntus < 2147483648 := by omega
  unfold Rc.setupSecond
  dsimp only
  by_cases he : r.ring = []
  · rw [if_pos he]
    refine { h with left := ht, lsum := hl, win := ht, delay := hd, dset := ?_, ntl := hnt, tot := hx.len,
                    fin := fun e => absurd he e, pass := fun hq => absurd hq hp, fillF := fun _ _ => hf,
                    apart := fun _ _ => (h.nofin he).2 }
    intro hs; exact absurd he ((h.dset hs).2 hp)
  · rw [if_neg he]
    have f := h.fin he
    have hd' := h.delay
    refine { h with left := ht, lsum := hl, delay := by dsimp only; omega, ntl := hnt, tot := hx.len,
                    dset := ?_, fin := ?_, pass := fun hq => absurd hq hp, fillF := fun _ _ => hf,
                    apart := fun _ _ => hn he }
    · intro hs; have := (h.dset hs).1; exact ⟨by dsimp only; omega, fun _ => he⟩
    · intro _
      refine { f with left := ?_, ready := ?_, prog := ?_ }
      · dsimp only; rw [hn he]; simp; omega
      · intro _ hx; dsimp only at hx; rw [hr] at hx; simp at hx
      · intro _; have := h.enc; dsimp only; omega

theorem twopassTail_inv {s : Bool} {F : Int} (bx : Int → Int) {r : Rc} (h : Inv s F r) (total : Nat)
    (buf : Option (List Nat)) (c : Nat) :
    ∃ r' o, r.twopassTail bx total buf c = some (r', o) ∧ Inv s F r' := by
  unfold Rc.twopassTail
  by_cases h1 : 0 < r.nframesTotal.headD 0
  · rw [if_pos h1]
    by_cases h2 : r.totalTotal ≤ r.nencoded + r.nsef
    · rw [if_pos h2]; exact ⟨_, _, rfl, h.unready⟩
    · rw [if_neg h2]
      by_cases h3 : (!r.ready2) = true
      · rw [if_pos h3]
        obtain ⟨r', o, e, hi, -⟩ := parseFrameData_inv bx h h1 (by omega) total buf
        exact ⟨r', o, e, hi⟩
      · rw [if_neg h3]; exact ⟨_, _, rfl, h⟩
  · rw [if_neg h1]; exact ⟨_, _, rfl, h⟩

theorem setup_des (r : Rc) (d : Des) (x : Summary) :
    ({ r with des := d } : Rc).setupSecond x = { r.setupSecond x with des := d } := by
  unfold Rc.setupSecond; dsimp only; split <;> rfl

theorem setup_des_get (r : Rc) (x : Summary) : (r.setupSecond x).des = r.des := by
  unfold Rc.setupSecond; dsimp only; split <;> rfl

theorem parseSummaryIn_inv {F : Int} {r : Rc} (h : Inv false F r) (hp : ¬ r.pass < 2)
    (h0 : r.nframesTotal.headD 0 = 0) (hr : r.ready2 = false) (b : List Nat) :
    ∃ r' o, r.parseSummaryIn b = some (r', o) ∧ Inv false F r' := by
  unfold Rc.parseSummaryIn
  simp only [Option.bind_eq_bind]
  obtain ⟨d, e, hd, hf, -, -⟩ := bufferFill_ok (goal := headerSz) (by decide) b r.des h.des
  rw [e, Option.bind_some]
  dsimp only
  have h1 : ∀ d', DesOk d' → Inv false F { r with des := d' } := fun d' hd' =>
    h.des_set hd' (fun hx => by simp at hx) fun _ hx => by omega
  by_cases hge : headerSz ≤ d.fill
  · rw [if_pos hge]
    obtain ⟨x, p, ex, hx⟩ := parseSummary_ok (d := { d with pos := 0 }) ⟨hd.len, hd.fill⟩ rfl
    rw [ex, Option.bind_some]
    cases x with
    | none => exact ⟨_, _, rfl, h1 _ ⟨hd.len, hd.fill⟩⟩
    | some x =>
      dsimp only
      refine ⟨_, _, rfl, ?_⟩
      have h2 := setup_inv (h1 { d with pos := p, fill := 0 } ⟨hd.len, by simp⟩) hp (hx x rfl) hr
        (fun hne => h.apart rfl (by omega)) (by simp)
      rw [setup_des] at h2
      rw [setup_des]
      exact h2
  · rw [if_neg hge]; exact ⟨_, _, rfl, h1 _ hd⟩

theorem twopassIn_inv {s : Bool} {F : Int} (bx : Int → Int) {r : Rc} (h : Inv s F r) (buf : Option (List Nat))
    (hs : s = false ∨ buf = none) : ∃ r' o, r.twopassIn bx buf = some (r', o) ∧ Inv s F r' := by
  unfold Rc.twopassIn
  simp only [Option.bind_eq_bind]
  have h1 : r.initSecond.nframesTotal = r.nframesTotal := by unfold Rc.initSecond; split <;> rfl
  have hp2 : ¬ r.initSecond.pass < 2 := by
    unfold Rc.initSecond; split
    · dsimp only; omega
    · omega
  have h2 : r.pass < 2 → r.nframesTotal.headD 0 = 0 := fun hp => by rw [(h.pass hp).2.2.2.1]; rfl
  by_cases h0 : r.initSecond.nframesTotal.headD 0 = 0
  · rw [if_pos h0]
    have hi : Inv s F { r.initSecond with ready2 := false } := by
      by_cases hp : r.pass < 2
      · exact initSecond_inv h hp
      · rw [initSecond_ge hp]; exact h.unready
    cases buf with
    | none => exact ⟨_, _, rfl, hi⟩
    | some b =>
      have hs : s = false := by
        rcases hs with hs | hs
        · exact hs
        · simp at hs
      subst hs
      obtain ⟨r', o, e, hi'⟩ := parseSummaryIn_inv hi hp2 h0 rfl b
      dsimp only
      rw [e, Option.bind_some]
      cases o with
      | none => exact ⟨_, _, rfl, hi'⟩
      | some rest => exact twopassTail_inv bx hi' _ _ _
  · rw [if_neg h0]
    have hp : ¬ r.pass < 2 := fun hp => h0 (by rw [h1]; exact h2 hp)
    rw [initSecond_ge hp]
    exact twopassTail_inv bx h _ _ _

theorem Tab.mono {F G : Int} {l : List Int} (h : Tab F l) (hg : F ≤ G) : Tab G l :=
  ⟨h.len, fun v hv => by have := h.ent v hv; omega⟩

theorem Inv.mono {s : Bool} {F G : Int} {r : Rc} (h : Inv s F r) (hg : F ≤ G) : Inv s G r :=
  { h with left := h.left.mono hg, win := h.win.mono hg,
           lsum := by have := h.lsum; omega, ntl := by have := h.ntl; omega, wnt := by have := h.wnt; omega,
           enc := by have := h.enc; omega }

theorem dec_ok {b : Bool} {v : Int} (h1 : -2147483647 ≤ v) (h2 : v < 2147483648) :
    ∃ w, dec b v = some w ∧ v - 1 ≤ w ∧ w ≤ v ∧
      w = if b = true then v - 1 else v := by
  cases b with
  | false => exact ⟨v, rfl, by omega, by omega, rfl⟩
  | true => exact ⟨v - 1, by unfold dec; rw [if_pos rfl, chk32_some (by omega) (by omega)], by omega, by omega, rfl⟩

/-- The state before the last call of `twopass_in` in `advance`. -/
structure Popped (r r1 : Rc) (a b : Int) : Prop where
  left : bump r.nframesLeft r.cur.fti (-1) = some r1.nframesLeft
  ready2 : r1.ready2 = false
  same : r1.active = r.active ∧ r1.pass = r.pass ∧ r1.des = r.des ∧ r1.ring = r.ring ∧ r1.delay = r.delay ∧
    r1.nframesTotal = r.nframesTotal ∧ r1.totalTotal = r.totalTotal ∧ r1.nencoded = a ∧ r1.nsef = b
  win : r.ring ≠ [] → r.nring = r1.nring + 1 ∧
    window r.ring r.head r.nring = r.cur :: window r1.ring r1.head r1.nring

theorem advance_pre {s : Bool} {F : Int} (bx : Int → Int) {r : Rc} (h : Inv s F r) (hF : F < 1073741824)
    (hp : ¬ r.pass < 2) (ha : r.active = true) (hr : r.ready2 = true) (a b : Int)
    (hab : a + b = r.nencoded + r.nsef + 1) :
    ∃ r1, Rc.advance bx { r with nencoded := a, nsef := b } = (r1.twopassIn bx none).bind (fun x => some x.1) ∧
      Inv s (F + 1) r1 ∧ Popped r r1 a b := by
  have hF0 : 0 ≤ F := by have := h.enc; omega
  obtain ⟨left, el, tl, sl⟩ := bump_tab h.left (by omega) h.cur
  obtain ⟨nl, en, n1, n2, -⟩ := dec_ok (b := r.cur.shown) (v := r.ntusLeft) (by have := h.ntl; omega) h.ntl.2
  obtain ⟨wt, ew, w1, w2, w3⟩ := dec_ok (b := r.cur.shown) (v := r.winNtus) (by have := h.wnt; omega) h.wnt.2
  have hls := h.lsum; have hnt := h.ntl; have hwn := h.wnt; have hen := h.enc
  unfold Rc.advance
  simp only [Option.bind_eq_bind]
  rw [el, Option.bind_some]
  by_cases he : r.ring = []
  · obtain ⟨wf, ef, tf, -⟩ := bump_tab h.win (by omega) h.cur
    rw [ef, Option.bind_some, en, Option.bind_some, ew, Option.bind_some, Rc.pop, if_pos he, Option.bind_some]
    have hi : Inv s (F + 1) { r with
        nencoded := a, nsef := b, prev := r.cur, nframesLeft := left, winNframes := wf,
        winSum := bumpSum r.winSum r.cur.fti (-bx r.cur.logScale), ntusLeft := nl, winNtus := wt,
        ready2 := false } :=
      { h with left := tl, lsum := by dsimp only; omega, win := tf, ntl := by dsimp only; omega,
               wnt := by dsimp only; omega, fin := fun e => absurd he e, pass := fun e => absurd e hp,
               enc := by dsimp only; omega }
    exact ⟨_, rfl, hi, el, rfl, ⟨rfl, rfl, rfl, rfl, rfl, rfl, rfl, rfl, rfl⟩, fun e => absurd he e⟩
  · have f := h.fin he
    obtain ⟨hpos, hcur⟩ := f.ready ha hr
    obtain ⟨n, hn⟩ : ∃ n, r.nring = n + 1 := ⟨r.nring - 1, by omega⟩
    have hwin : window r.ring r.head r.nring =
        r.cur :: window r.ring (if r.ring.length ≤ r.head + 1 then 0 else r.head + 1) n := by
      rw [hn, hcur]; exact window_pop f.head
    have hlen := f.rlen; have hnl := f.nring
    rw [f.winN, hwin, bump_counts_cons h.cur (by rw [window_length]; omega), Option.bind_some, en, Option.bind_some,
      ew, Option.bind_some, Rc.pop, if_neg he, if_neg (by dsimp only; omega), Option.bind_some]
    have hnp : 0 < r.nframesTotal.headD 0 ∨ s = true := by
      cases s with
      | true => exact Or.inr rfl
      | false => by_cases hx : 0 < r.nframesTotal.headD 0
                 · exact Or.inl hx
                 · exact absurd (h.apart rfl (by omega)) (by omega)
    have hi : Inv s (F + 1) { r with
        nencoded := a, nsef := b, prev := r.cur, nframesLeft := left,
        winNframes := counts (window r.ring (if r.ring.length ≤ r.head + 1 then 0 else r.head + 1) n),
        winSum := bumpSum r.winSum r.cur.fti (-bx r.cur.logScale), ntusLeft := nl, winNtus := wt,
        nring := r.nring - 1, head := if r.ring.length ≤ r.head + 1 then 0 else r.head + 1,
        ready2 := false } := by
      have hl := f.left
      refine { h with left := tl, lsum := by dsimp only; omega, win := tab_counts (by omega) ?_,
                      ntl := by dsimp only; omega, wnt := by dsimp only; omega,
                      fin := ?_, nofin := fun e => absurd e he, pass := fun e => absurd e hp,
                      enc := by dsimp only; omega, apart := ?_ }
      · rw [window_length]; omega
      · intro _
        have hn' : r.nring - 1 = n := by omega
        constructor
        · dsimp only; have := f.head; split <;> omega
        · dsimp only; omega
        · exact hlen
        · exact f.ent
        · dsimp only; rw [hn']
        · dsimp only; rw [hn', w3]
          have := f.winT; rw [hwin, shown_cons] at this
          rw [this]; cases r.cur.shown <;> simp
        · dsimp only; rw [sl, hn']; omega
        · intro _ hx; simp at hx
        · intro hx; have := f.prog hx; dsimp only; omega
      · intro h1 h2; have := h.apart h1 h2; dsimp only; omega
    refine ⟨_, rfl, hi, el, rfl, ⟨rfl, rfl, rfl, rfl, rfl, rfl, rfl, rfl, rfl⟩, fun _ => ⟨?_, ?_⟩⟩
    · dsimp only; omega
    · dsimp only
      have : r.nring - 1 = n := by omega
      rw [this]; exact hwin

theorem advance_inv {s : Bool} {F : Int} (bx : Int → Int) {r : Rc} (h : Inv s F r) (hF : F < 1073741824)
    (hp : ¬ r.pass < 2) (ha : r.active = true) (hr : r.ready2 = true) (a b : Int)
    (hab : a + b = r.nencoded + r.nsef + 1) :
    ∃ r', Rc.advance bx { r with nencoded := a, nsef := b } = some r' ∧ Inv s (F + 1) r' := by
  obtain ⟨r1, e1, hi, -⟩ := advance_pre bx h hF hp ha hr a b hab
  obtain ⟨r', o, e, hi'⟩ := twopassIn_inv bx hi none (Or.inr rfl)
  rw [e1, e]
  exact ⟨_, rfl, hi'⟩

theorem record_inv {s : Bool} {F : Int} {r : Rc} (h : Inv s F r) (fti : Nat) (shown : Bool) (ls : Int) :
    Inv s F (r.record fti shown ls) := by
  unfold Rc.record
  split
  · rename_i hp
    exact { h with retr := fun _ => hp, fin := fun e => { h.fin e with } }
  · exact h

theorem settle_inv {s : Bool} {F : Int} {r : Rc} (h : Inv s F r) (bits : Int) {fti : Nat} (hf : fti ≤ 4)
    (shown : Bool) : ∃ r', r.settle bits fti shown = some r' ∧ Inv s F r' := by
  have hl : fti < r.nframes.length := by have := h.nfr; omega
  unfold Rc.settle
  rw [List.getElem?_eq_getElem hl, Option.map_some]
  refine ⟨_, rfl, { h with nfr := ?_, fin := fun e => { h.fin e with } }⟩
  have := h.nfr
  dsimp only
  split
  · rw [List.length_set]; exact this
  · exact this

theorem special_inv {s : Bool} {F : Int} (bx : Int → Int) {r : Rc} (h : Inv s F r) (hF : F < 1073741824)
    (ha : r.active = true) (hr : r.ready = true) (a b : Int) (hab : a + b = r.nencoded + r.nsef + 1) :
    ∃ r', Rc.special bx { r with nencoded := a, nsef := b } = some r' ∧ Inv s (F + 1) r' := by
  unfold Rc.special
  by_cases hp : r.pass = 2 ∨ r.pass = 3
  · rw [if_pos hp]
    refine advance_inv bx h hF (by omega) ha ?_ a b hab
    unfold Rc.ready at hr
    rw [if_neg (by omega), if_neg (by omega)] at hr
    split at hr
    · exact hr
    · simp only [Bool.and_eq_true] at hr; exact hr.2
  · rw [if_neg hp]
    have hm := h.mono (G := F + 1) (by omega)
    have h3 := h.pass3
    refine ⟨_, rfl, { hm with fin := ?_, enc := ?_ }⟩
    · intro e; exact absurd (h.pass (by omega)).1 e
    · have := h.enc; dsimp only; omega

theorem update_inv {s : Bool} {F : Int} (bx : Int → Int) {r : Rc} (h : Inv s F r) (hF : F < 1073741824)
    (ha : r.active = true) (hr : r.ready = true) {bits : Int} {fti : Nat} {shown : Bool} (ls : Int) (hb : 0 < bits)
    (hf : fti ≤ 4) (h4 : fti = 4 → bits = 24 ∧ shown = true) :
    ∃ r', r.update bx bits fti shown ls = some r' ∧ Inv s (F + 1) r' := by
  unfold Rc.update Rc.count
  simp only [Option.bind_eq_bind]
  by_cases e4 : fti = 4
  · rw [if_pos e4, if_pos (h4 e4), Option.bind_some]
    obtain ⟨r1, e1, h1⟩ := special_inv bx h hF ha hr r.nencoded (r.nsef + 1) (by omega)
    rw [e1, Option.bind_some]
    exact settle_inv (record_inv h1 _ _ _) _ hf _
  · rw [if_neg e4, if_neg (by omega), Option.bind_some]
    obtain ⟨r1, e1, h1⟩ := special_inv bx h hF ha hr (r.nencoded + 1) r.nsef (by omega)
    rw [e1, Option.bind_some]
    exact settle_inv (record_inv h1 _ _ _) _ hf _

theorem Inv.emit {s : Bool} {F : Int} {r : Rc} (h : Inv s F r) (bx : Int → Int) : Inv s F (r.emitFrame bx).1 := by
  unfold Rc.emitFrame
  dsimp only
  split
  · exact { h with fin := fun e => { h.fin e with } }
  · exact { h with retr := fun e => by simp at e, fin := fun e => { h.fin e with } }

theorem step_inv {s : Bool} {F : Int} (bx : Int → Int) {r : Rc} (h : Inv s F r) (hF : F < 1073741824) (o : Op)
    (ho : o.Valid) (h1 : o.isFeed = true → s = false) (h2 : o.isSend = true → s = true) :
    ∃ r', step bx r o = some r' ∧ Inv s (F + 1) r' := by
  have hm : F ≤ F + 1 := by omega
  cases o with
  | feed b =>
    obtain ⟨r', x, e, hi⟩ := twopassIn_inv bx h (some b) (Or.inl (h1 rfl))
    exact ⟨r', by rw [step, e]; rfl, hi.mono hm⟩
  | need =>
    obtain ⟨r', x, e, hi⟩ := twopassIn_inv bx h none (Or.inr rfl)
    exact ⟨r', by rw [step, e]; rfl, hi.mono hm⟩
  | send b =>
    have := h2 rfl
    subst this
    obtain ⟨r', x, e, hi⟩ := sendPacket_inv bx h b
    exact ⟨r', by rw [step, e]; rfl, hi.mono hm⟩
  | required done =>
    refine ⟨r, ?_, h.mono hm⟩
    simp only [step, Rc.dataRequired]
    cases done with
    | true => rfl
    | false => obtain ⟨k, e⟩ := h.framesNeeded_some; rw [if_neg (by simp), e]; rfl
  | frame bits fti shown ls =>
    simp only [step]
    by_cases hr : (r.active && r.ready) = true
    · rw [if_pos hr]
      simp only [Bool.and_eq_true] at hr
      exact update_inv bx h hF hr.1 hr.2 ls ho.1 ho.2.1 ho.2.2
    · rw [if_neg hr]; exact ⟨r, rfl, h.mono hm⟩
  | out done =>
    refine ⟨_, rfl, ?_⟩
    unfold Rc.twopassOut
    split
    · split
      · exact Inv.mono { h with retr := fun e => by simp [Rc.emitPlaceholder] at e,
                                fin := fun e => { h.fin e with } } hm
      · exact (h.emit bx).mono hm
    · split
      · exact Inv.mono { h with fin := fun e => { h.fin e with } } hm
      · exact h.mono hm
  | receive done =>
    simp only [step, Rc.receivePassData]
    split
    · exact ⟨_, rfl, Inv.mono { h with fin := fun e => { h.fin e with } } hm⟩
    · split
      · exact ⟨_, rfl, h.mono hm⟩
      · have hen := h.enc
        have he := h.emit bx
        have hx : ∃ r' b, r.emitFrame bx = (r', some b) := by
          unfold Rc.emitFrame
          dsimp only
          rw [p31, if_neg (by omega)]
          exact ⟨_, _, rfl⟩
        obtain ⟨r', b, e⟩ := hx
        rw [e] at he ⊢
        exact ⟨_, rfl, he.mono hm⟩

theorem run_inv {s : Bool} (bx : Int → Int) (ops : List Op) {F : Int} {r : Rc} (h : Inv s F r)
    (hF : F + ops.length ≤ 1073741824) (ho : ∀ o ∈ ops, o.Valid) (h1 : ∀ o ∈ ops, o.isFeed = true → s = false)
    (h2 : ∀ o ∈ ops, o.isSend = true → s = true) : ∃ r', run bx r ops = some r' ∧ Inv s (F + ops.length) r' := by
  induction ops generalizing F r with
  | nil => exact ⟨r, rfl, by simpa using h⟩
  | cons o ops ih =>
    rw [List.length_cons] at hF ⊢
    push_cast at hF ⊢
    obtain ⟨r1, e1, i1⟩ := step_inv bx h (by omega) o (ho o List.mem_cons_self) (h1 o List.mem_cons_self)
      (h2 o List.mem_cons_self)
    obtain ⟨r2, e2, i2⟩ := ih i1 (by omega) (fun o ho' => ho o (List.mem_cons_of_mem _ ho'))
      (fun o ho' => h1 o (List.mem_cons_of_mem _ ho')) (fun o ho' => h2 o (List.mem_cons_of_mem _ ho'))
    refine ⟨r2, by rw [run, e1]; exact e2, ?_⟩
    have : F + (ops.length + 1) = F + 1 + ops.length := by omega
    rw [this]; exact i2

theorem new_inv (s : Bool) {c : Cfg} (hc : CfgOk c) : Inv s 0 (Rc.new c) := by
  have hd : 12 ≤ (Rc.new c).delay ∧ (Rc.new c).delay ≤ 131072 := by
    unfold Rc.new
    dsimp only
    cases h : c.delay with
    | none => dsimp only; omega
    | some d => have := hc.delay d h; dsimp only; omega
  have ht : Tab 0 (List.replicate 5 0) := ⟨rfl, fun v hv => by simp at hv; omega⟩
  exact {
    des := ⟨rfl, show (0 : Nat) ≤ 68 by omega⟩
    left := ht
    lsum := show -(0 : Int) ≤ 0 ∧ (0 : Int) < 2147483648 by omega
    win := ht
    cur := by show (0 : Nat) ≤ 4; omega
    delay := by omega
    dset := fun _ => ⟨hd.2, fun h => absurd (show (0 : Nat) < 2 by omega) h⟩
    ntl := show -(0 : Int) ≤ 0 ∧ (0 : Int) < 2147483648 by omega
    wnt := show -(0 : Int) ≤ 0 ∧ (0 : Int) < 2147483648 by omega
    tot := rfl
    nfr := rfl
    fin := fun e => absurd rfl e
    nofin := fun _ => ⟨rfl, rfl⟩
    pass := fun _ => ⟨rfl, rfl, rfl, rfl, rfl⟩
    pass3 := by show (0 : Nat) ≤ 3; omega
    enc := show (0 : Int) ≤ 0 + 0 ∧ (0 : Int) + 0 ≤ 0 by omega
    fillS := fun _ => by show (0 : Nat) ≤ 8; omega
    fillF := fun _ _ => by show (0 : Nat) ≤ 8; omega
    apart := fun _ _ => rfl
    retr := fun e => by simp [Rc.new] at e }

theorem initSecond_keeps {r : Rc} (h : r.pass = 0) :
    r.initSecond.pass = 2 ∧ r.initSecond.ready2 = r.ready2 ∧ r.initSecond.nring = r.nring ∧
      r.initSecond.des = r.des := by
  unfold Rc.initSecond; rw [if_pos (Or.inl h)]; exact ⟨by dsimp only; omega, rfl, rfl, rfl⟩

theorem start_inv (s : Bool) {c : Cfg} (hc : CfgOk c) {x : Option Summary} (hx : ∀ y, x = some y → SumOk y)
    (emit : Bool) : Inv s 0 (Rc.start c x emit) := by
  have h := new_inv s hc
  have h1 : ∀ r : Rc, Inv s 0 r → (r.pass = 0 ∨ r.pass = 2) → Inv s 0 (if emit = true then r.initFirst else r) := by
    intro r hr hp
    split
    · refine { hr with dset := ?_, pass := ?_, pass3 := ?_, retr := ?_, fin := fun e => { hr.fin e with } }
      · intro hd; exact ⟨(hr.dset hd).1, fun hx => (hr.dset hd).2 (by simp only [Rc.initFirst] at hx; omega)⟩
      · intro hx; exact hr.pass (by simp only [Rc.initFirst] at hx; omega)
      · simp only [Rc.initFirst]; omega
      · intro hx; have := hr.retr hx; simp only [Rc.initFirst]; omega
    · exact hr
  unfold Rc.start
  dsimp only
  cases x with
  | none => exact h1 _ h (Or.inl rfl)
  | some y =>
    obtain ⟨q1, q2, q3, q4⟩ := initSecond_keeps (r := Rc.new c) rfl
    have e : (Rc.new c).initSecond = { (Rc.new c).initSecond with ready2 := false } := by
      generalize (Rc.new c).initSecond = r at q2
      have q2 : r.ready2 = false := q2
      cases r; simp only at q2; rw [q2]
    have h2 := initSecond_inv h (show (0 : Nat) < 2 by omega)
    have h3 : Inv s 0 ((Rc.new c).initSecond.setupSecond y) := by
      rw [e]
      refine setup_inv h2 ?_ (hx y rfl) rfl (fun _ => ?_) ?_
      · dsimp only; omega
      · exact q3
      · dsimp only; rw [q4]; show (0 : Nat) ≤ 8; omega
    refine h1 _ h3 (Or.inr ?_)
    have : ∀ r : Rc, (r.setupSecond y).pass = r.pass := fun r => by
      unfold Rc.setupSecond; dsimp only; split <;> rfl
    rw [this]; exact q1

theorem summaryFromSlice_ok (b : List Nat) :
    ∃ x, summaryFromSlice b = some x ∧ ∀ y, x = some y → SumOk y := by
  unfold summaryFromSlice
  obtain ⟨d, e, hd, -, hp, -⟩ := bufferFill_ok (goal := headerSz) (by decide) b Des.new ⟨rfl, by decide⟩
  obtain ⟨x, p, ex, hx⟩ := parseSummary_ok hd hp
  simp only [Option.bind_eq_bind]
  rw [e, Option.bind_some]
  dsimp only
  rw [ex, Option.bind_some]
  exact ⟨x, rfl, hx⟩

/-! ## C30 -/

/-- The summary that an encoder is configured with, if any: `RateControlConfig::from_summary_slice` of some bytes.
If they are not accepted, the encoder is one without a summary. -/
def configured (slice : Option (List Nat)) : Option (Option Summary) :=
  match slice with
  | none => some none
  | some b => summaryFromSlice b

/-- Whatever bytes are passed as a summary or as two-pass data, in whatever pieces, interleaved with encoded frames
and the other calls, nothing panics. A caller uses one of the two ways of passing data, `twopass_in` or
`rc_send_pass_data`; what happens otherwise is shown in `Findings.lean`. There are at most 2^30 calls. -/
theorem twopass_never_panics (bx : Int → Int) {c : Cfg} (hc : CfgOk c) (slice : Option (List Nat)) (emit : Bool)
    (ops : List Op) (hv : ∀ o ∈ ops, o.Valid) (hn : ops.length ≤ 2 ^ 30)
    (ha : (∀ o ∈ ops, o.isFeed = false) ∨ (∀ o ∈ ops, o.isSend = false)) :
    ∃ x r, configured slice = some x ∧ run bx (Rc.start c x emit) ops = some r := by
  have hx : ∃ x, configured slice = some x ∧ ∀ y, x = some y → SumOk y := by
    cases slice with
    | none => exact ⟨none, rfl, fun y hy => by simp at hy⟩
    | some b => exact summaryFromSlice_ok b
  obtain ⟨x, ex, hx⟩ := hx
  have e30 : (2 : Nat) ^ 30 = 1073741824 := by norm_num
  rw [e30] at hn
  rcases ha with ha | ha
  · obtain ⟨r, er, -⟩ := run_inv bx ops (start_inv true hc hx emit) (by omega) hv
      (fun o ho h => by rw [ha o ho] at h; simp at h) fun _ _ _ => rfl
    exact ⟨x, r, ex, er⟩
  · obtain ⟨r, er, -⟩ := run_inv bx ops (start_inv false hc hx emit) (by omega) hv
      (fun _ _ _ => rfl) fun o ho h => by rw [ha o ho] at h; simp at h
    exact ⟨x, r, ex, er⟩

/-! A configuration with a finite buffer, a summary and a record, for the examples. -/

def exCfg (delay : Option Int) : Cfg :=
  { bitrate := 1000000, rateNum := 25, rateDen := 1, maxKeyInterval := 240, delay, exp := [1, 1, 1, 1] }

def exSummary (ntus : Int) (nframes : List Int) : List Nat :=
  bufferVal magic 4 ++ bufferVal version 4 ++ bufferVal ntus 4 ++ nframes.flatMap (bufferVal · 4) ++ [1, 1, 1, 1] ++
    List.replicate 32 0

def exRecord (fti : Int) : List Nat := bufferVal (2 ^ 31 + fti) 4 ++ bufferVal 5 4

theorem exCfg_ok (d : Option Int) (h : d = none ∨ d = some 12) : CfgOk (exCfg d) := by
  refine ⟨fun x hx => ?_⟩
  rcases h with rfl | rfl
  · simp [exCfg] at hx
  · simp [exCfg] at hx; omega

/-- A history with a finite buffer: the summary in two pieces, a record, a malformed record (type 5), and frames. -/
def exOps : List Op :=
  [.feed ((exSummary 3 [1, 2, 0, 0, 0]).take 30), .need, .feed ((exSummary 3 [1, 2, 0, 0, 0]).drop 30),
   .feed (exRecord 0 ++ exRecord 1 ++ exRecord 1), .frame 5000 0 true 7, .frame 100 1 true 3, .need,
   .feed (exRecord 5), .frame 24 4 true 0, .required false, .out false, .receive true]

example : (∀ o ∈ exOps, o.isSend = false) ∧ exOps.length ≤ 2 ^ 30 := by decide +kernel

example : ∀ o ∈ exOps, o.Valid := by
  intro o ho
  simp only [exOps, List.mem_cons, List.not_mem_nil, or_false] at ho
  rcases ho with rfl | rfl | rfl | rfl | rfl | rfl | rfl | rfl | rfl | rfl | rfl | rfl <;> simp [Op.Valid]

/-- The frames of that history really are encoded, with the data of the records. -/
example : (run id (Rc.start (exCfg (some 12)) none false) exOps).map
    (fun r => (r.nencoded, r.nsef, r.prev.fti, r.winNtus, r.nring)) = some (2, 1, 1, 0, 0) := by decide +kernel

end Rav1e.Rate

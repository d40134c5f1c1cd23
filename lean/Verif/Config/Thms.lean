import Verif.Config.Model
import Verif.Hdr.BuildThms
import Verif.Rate.Safe
import Verif.Tile.Theorems

/-!
# Configuration: what is accepted, and that an accepted configuration starts an encoder (C28)
-/

namespace Rav1e.Conf
open Hdr

/-! ## Specification -/

/-- A power of two that is a 64 bit number, or 0 for "not set". -/
def TileCount (n : Nat) : Prop := n = 0 ∨ ∃ k < 64, n = 2 ^ k

/-- The limits of a level in the tables of `levels.rs`. -/
structure LevelFits (e : EncCfg) (l : Nat) : Prop where
  defined : levelDefined.getD l false = true
  pic : e.width * e.height ≤ levelMaxPic.getD l 0
  h : e.width ≤ levelMaxH.getD l 0
  v : e.height ≤ levelMaxV.getD l 0
  /-- numerator and denominator of the time base as in the code; see `level_rate_inverted` -/
  rate : e.width * e.height * e.timeNum ≤ levelMaxRate.getD l 0 * e.timeDen

/-- What `validate` is documented to accept. -/
structure Acceptable (c : Config) : Prop where
  width : (if c.enc.sched.stillPicture then 1 else 16) ≤ c.enc.width ∧ c.enc.width ≤ 65535
  height : (if c.enc.sched.stillPicture then 1 else 16) ≤ c.enc.height ∧ c.enc.height ≤ 65535
  sar : 1 ≤ c.sarNum ∧ 1 ≤ c.sarDen
  renderW : 1 ≤ c.enc.renderWidth ∧ c.enc.renderWidth ≤ 65535
  renderH : 1 ≤ c.enc.renderHeight ∧ c.enc.renderHeight ≤ 65535
  lookahead : 1 ≤ c.enc.sched.rdoLookahead ∧ c.enc.sched.rdoLookahead ≤ 2 ^ 64 - 2
  maxKey : c.enc.sched.maxKey ≤ 715827882
  cols : TileCount c.enc.tileCols
  rows : TileCount c.enc.tileRows
  timeNum : 1 ≤ c.enc.timeNum ∧ c.enc.timeNum < 2 ^ 32
  timeDen : 1 ≤ c.enc.timeDen ∧ c.enc.timeDen < 2 ^ 32
  delay : ∀ d, c.delay = some d → 12 ≤ d ∧ d ≤ 131072
  switch : c.enc.sched.switchInterval ≠ 0 → c.enc.sched.lowLatency = true
  still : c.enc.sched.stillPicture = true → c.enc.enableTiming = false
  srgb : ∀ d, c.enc.color = some d → d.srgb = true → c.enc.chroma ≠ .cs400 →
    c.enc.fullRange = true ∧ c.enc.chroma = .cs444
  level : ∀ l, c.enc.levelIdx = some l → l = 31 ∨ (l < 31 ∧ LevelFits c.enc l)
  bitrate : c.emit = true ∨ c.summary.isSome = true → c.bitrate ≠ 0

/-! ## Tile counts -/

theorem tileLog2From_none {n : Nat} (h : ∀ j < 64, 2 ^ j < n) : ∀ (fuel k : Nat), k + fuel = 64 →
    Tile.tileLog2From 1 n fuel k = none
  | 0, _, _ => rfl
  | fuel + 1, k, hk => by
    unfold Tile.tileLog2From
    have h1 : (2 : Nat) ^ k < 2 ^ 64 := Nat.pow_lt_pow_right (by omega) (by omega)
    rw [Nat.one_mul, Nat.mod_eq_of_lt h1, if_pos (h k (by omega))]
    exact tileLog2From_none h fuel (k + 1) (by omega)

theorem checkTileLog2_eq (n : Nat) : ∃ b, checkTileLog2 n = some b ∧ (b = true ↔ TileCount n) := by
  unfold checkTileLog2
  by_cases h : n ≤ 2 ^ 63
  · obtain ⟨m, e, -, hm, h1, h2⟩ := Tile.log2_lt h (by omega)
    rw [e]
    dsimp only
    rw [if_neg (by omega)]
    refine ⟨_, rfl, ?_⟩
    rw [Bool.or_eq_true, beq_iff_eq, beq_iff_eq]
    constructor
    · rintro (h | h)
      · exact Or.inr ⟨m, by omega, by omega⟩
      · exact Or.inl h
    · rintro (h | ⟨k, hk, rfl⟩)
      · exact Or.inr h
      · refine Or.inl ?_
        rcases Nat.lt_or_ge k m with hlt | hge
        · exact absurd (h2 k hlt) (by omega)
        · have := Nat.pow_le_pow_right (show 0 < 2 by omega) hge
          omega
  · have : Tile.tileLog2 1 n = none := tileLog2From_none (fun j hj => by
      have : (2 : Nat) ^ j ≤ 2 ^ 63 := Nat.pow_le_pow_right (by omega) (by omega)
      omega) 64 0 rfl
    rw [this]
    refine ⟨false, rfl, by simp, ?_⟩
    rintro (h' | ⟨k, hk, rfl⟩)
    · subst h'; simp at h
    · exact absurd (Nat.pow_le_pow_right (show 0 < 2 by omega) (show k ≤ 63 by omega)) h

/-! ## Levels -/

theorem tab32 {α : Type} {t : List α} (ht : t.length = 32) {l : Nat} (hl : l < 31) (d : α) :
    t[l]? = some (t.getD l d) := by
  rw [List.getD_eq_getElem?_getD]
  obtain ⟨x, hx⟩ : ∃ x, t[l]? = some x := ⟨_, List.getElem?_eq_getElem (by omega)⟩
  rw [hx]; rfl

theorem divCeil_le {p d r : Nat} (hd : 0 < d) : Tile.divCeil p d ≤ r ↔ p ≤ r * d := by
  unfold Tile.divCeil
  rw [Nat.div_le_iff_le_mul_add_pred hd, Nat.mul_comm]
  omega

theorem checkLevel_eq {e : EncCfg} (hw : e.width ≤ 65535) (hh : e.height ≤ 65535) (hn : e.timeNum < 2 ^ 32)
    (hd : 1 ≤ e.timeDen) (l : Nat) :
    ∃ r, checkLevel e l = some r ∧ (r = none ↔ (l = 31 ∨ (l < 31 ∧ LevelFits e l))) := by
  unfold checkLevel
  by_cases h1 : 31 < l
  · rw [if_pos h1]; exact ⟨_, rfl, by simp; omega⟩
  rw [if_neg h1]
  by_cases h2 : l < 31
  swap
  · rw [if_neg h2]; exact ⟨_, rfl, by simp; omega⟩
  rw [if_pos h2]
  have hA : e.width * e.height ≤ 65535 * 65535 := Nat.mul_le_mul hw hh
  have m1 : mul64 e.width e.height = some (e.width * e.height) := if_pos (by omega)
  have hB : e.width * e.height * e.timeNum ≤ 65535 * 65535 * (2 ^ 32 - 1) := Nat.mul_le_mul hA (by omega)
  have m2 : mul64 (e.width * e.height) e.timeNum = some (e.width * e.height * e.timeNum) := if_pos (by omega)
  have fits : LevelFits e l ↔ (levelDefined.getD l false = true ∧ e.width * e.height ≤ levelMaxPic.getD l 0 ∧
      e.width ≤ levelMaxH.getD l 0 ∧ e.height ≤ levelMaxV.getD l 0 ∧
      Tile.divCeil (e.width * e.height * e.timeNum) e.timeDen ≤ levelMaxRate.getD l 0) := by
    rw [divCeil_le (by omega)]
    exact ⟨fun h => ⟨h.1, h.2, h.3, h.4, h.5⟩, fun ⟨a, b, c, d, f⟩ => ⟨a, b, c, d, f⟩⟩
  rw [fits]
  rw [tab32 rfl h2 false, tab32 (t := levelMaxPic) rfl h2 0, tab32 (t := levelMaxH) rfl h2 0,
    tab32 (t := levelMaxV) rfl h2 0, tab32 (t := levelMaxRate) rfl h2 0, m1]
  simp only [Option.bind_eq_bind, Option.bind_some, m2, Option.pure_def]
  generalize levelDefined.getD l false = b
  generalize levelMaxPic.getD l 0 = x1
  generalize levelMaxH.getD l 0 = x2
  generalize levelMaxV.getD l 0 = x3
  generalize levelMaxRate.getD l 0 = x4
  generalize Tile.divCeil (e.width * e.height * e.timeNum) e.timeDen = q
  generalize e.width * e.height = a
  cases b with
  | false => exact ⟨_, rfl, by simp; omega⟩
  | true =>
    rw [if_neg (by simp)]
    by_cases g1 : x1 < a
    · rw [if_pos g1]; exact ⟨_, rfl, by simp; omega⟩
    rw [if_neg g1]
    by_cases g2 : x2 < e.width
    · rw [if_pos g2]; exact ⟨_, rfl, by simp; omega⟩
    rw [if_neg g2]
    by_cases g3 : x3 < e.height
    · rw [if_pos g3]; exact ⟨_, rfl, by simp; omega⟩
    rw [if_neg g3, if_neg (by omega)]
    by_cases g4 : x4 < q
    · rw [if_pos g4]; exact ⟨_, rfl, by simp; omega⟩
    rw [if_neg g4]
    exact ⟨_, rfl, by simp; omega⟩

/-! ## C28 -/

/-- **C28**: `validate` never panics, and it accepts exactly the configurations described by `Acceptable`. -/
theorem validate_exact (c : Config) : ∃ r, validate c = some r ∧ (r = none ↔ Acceptable c) := by
  unfold validate
  obtain ⟨bc, ec, hc⟩ := checkTileLog2_eq c.enc.tileCols
  obtain ⟨br, er, hr⟩ := checkTileLog2_eq c.enc.tileRows
  simp only [Option.bind_eq_bind]
  rw [ec, Option.bind_some, er, Option.bind_some]
  cases hf : (checks c bc br).find? (·.1) with
  | some x =>
    refine ⟨_, rfl, by simp, fun h => ?_⟩
    exfalso
    obtain ⟨hp, -⟩ := List.find?_eq_some_iff_append.1 hf
    have hm := List.mem_of_find?_eq_some hf
    rcases x with ⟨b, i⟩
    simp only at hp
    subst hp
    have t1 := hc.2 h.cols; have t2 := hr.2 h.rows
    have a1 := h.width; have a2 := h.height; have a3 := h.sar; have a4 := h.renderW; have a5 := h.renderH
    have a6 := h.lookahead; have a7 := h.maxKey; have a8 := h.timeNum; have a9 := h.timeDen
    have a10 := h.switch; have a11 := h.still
    simp only [checks, List.mem_cons, Prod.mk.injEq, List.not_mem_nil, or_false] at hm
    rcases hm with hm | hm | hm | hm | hm | hm | hm | hm | hm | hm | hm | hm | hm | hm | hm | hm <;> replace hm := hm.1
    · have hm := of_decide_eq_true hm.symm
      cases hs : c.enc.sched.stillPicture <;> rw [hs] at hm a1 <;> simp at hm a1 <;> omega
    · have hm := of_decide_eq_true hm.symm
      cases hs : c.enc.sched.stillPicture <;> rw [hs] at hm a2 <;> simp at hm a2 <;> omega
    · have hm := of_decide_eq_true hm.symm; omega
    · have hm := of_decide_eq_true hm.symm; omega
    · have hm := of_decide_eq_true hm.symm; omega
    · have hm := of_decide_eq_true hm.symm; omega
    · have hm := of_decide_eq_true hm.symm; omega
    · have hm := of_decide_eq_true hm.symm; omega
    · rw [t1] at hm; simp at hm
    · rw [t2] at hm; simp at hm
    · have hm := of_decide_eq_true hm.symm; omega
    · have hm := of_decide_eq_true hm.symm; omega
    · cases hd : c.delay with
      | none => rw [hd] at hm; simp at hm
      | some d =>
        rw [hd] at hm
        exact of_decide_eq_true hm.symm (h.delay d hd)
    · have hm := hm.symm
      rw [Bool.and_eq_true, decide_eq_true_eq] at hm
      rw [a10 (by omega)] at hm; simp at hm
    · have hm := hm.symm
      rw [Bool.and_eq_true] at hm
      rw [a11 hm.2] at hm; simp at hm
    · cases hd : c.enc.color with
      | none => rw [hd] at hm; simp at hm
      | some d =>
        rw [hd] at hm
        have hm := hm.symm
        simp only [Bool.and_eq_true, bne_iff_ne, ne_eq, Bool.or_eq_true, Bool.not_eq_true'] at hm
        obtain ⟨⟨p1, p2⟩, p3⟩ := hm
        obtain ⟨q1, q2⟩ := h.srgb d hd p2 p1
        rcases p3 with p3 | p3
        · rw [q1] at p3; simp at p3
        · exact p3 q2
  | none =>
    dsimp only
    have hn : ∀ x ∈ checks c bc br, x.1 = false := fun x hx => by
      simpa using List.find?_eq_none.1 hf x hx
    simp only [checks, List.forall_mem_cons, decide_eq_false_iff_not, Bool.not_eq_false'] at hn
    obtain ⟨b1, b2, b3, b4, b5, b6, b7, b8, b9, b10, b11, b12, b13, b14, b15, b16, -⟩ := hn
    have w : (if c.enc.sched.stillPicture then 1 else 16) ≤ c.enc.width ∧ c.enc.width ≤ 65535 := by
      cases hs : c.enc.sched.stillPicture <;> rw [hs] at b1 <;> simp at b1 ⊢ <;> omega
    have h : (if c.enc.sched.stillPicture then 1 else 16) ≤ c.enc.height ∧ c.enc.height ≤ 65535 := by
      cases hs : c.enc.sched.stillPicture <;> rw [hs] at b2 <;> simp at b2 ⊢ <;> omega
    have lv : ∃ r, levelErr c.enc = some r ∧
        (r = none ↔ ∀ l, c.enc.levelIdx = some l → l = 31 ∨ (l < 31 ∧ LevelFits c.enc l)) := by
      unfold levelErr
      cases c.enc.levelIdx with
      | none => exact ⟨none, rfl, by simp⟩
      | some l =>
        obtain ⟨r, e, hr⟩ := checkLevel_eq w.2 h.2 (by omega) (by omega) l
        exact ⟨r, e, by rw [hr]; simp⟩
    obtain ⟨r, e, hr'⟩ := lv
    rw [e, Option.bind_some]
    cases r with
    | some x => exact ⟨_, rfl, by simp, fun a => by have := hr'.2 a.level; simp at this⟩
    | none =>
      dsimp only
      by_cases hb : ((c.emit || c.summary.isSome) && c.bitrate == 0) = true
      · rw [if_pos hb]
        refine ⟨_, rfl, by simp, fun a => ?_⟩
        simp only [Bool.and_eq_true, Bool.or_eq_true, beq_iff_eq] at hb
        exact absurd hb.2 (a.bitrate hb.1)
      · rw [if_neg hb]
        refine ⟨_, rfl, fun _ => ?_, by simp⟩
        simp only [Bool.and_eq_true, Bool.or_eq_true, beq_iff_eq, not_and] at hb
        refine ⟨w, h, by omega, by omega, by omega, by omega, by omega, hc.1 b9, hr.1 b10, by omega, by omega,
          ?_, ?_, ?_, ?_, hr'.1 rfl, hb⟩
        · intro d hd
          rw [hd] at b13
          simpa using b13
        · intro hs
          have : decide (0 < c.enc.sched.switchInterval) = true := decide_eq_true (by omega)
          rw [this] at b14
          simpa using b14
        · intro hs
          rw [hs] at b15
          simpa using b15
        · intro d hd h1 h2
          rw [hd] at b16
          simp only [h1, Bool.and_true, Bool.and_eq_false_iff, bne_eq_false_iff_eq, Bool.or_eq_false_iff,
            Bool.not_eq_false'] at b16
          rcases b16 with b | b
          · exact absurd b h2
          · exact b

theorem accepted_iff (c : Config) : validate c = some none ↔ Acceptable c := by
  obtain ⟨r, e, h⟩ := validate_exact c
  rw [e, Option.some.injEq, h]

/-- The parts of a configuration that are in range because of their types: the colour description consists of 8 bit
enumerations and the chroma position of one with four values. -/
structure Typed (c : Config) : Prop where
  color : ∀ d, c.enc.color = some d → d.primaries < 256 ∧ d.transfer < 256 ∧ d.matrix < 256
  pos : c.enc.chromaPos < 4

/-- **C28**: an accepted configuration meets the assumptions of the headers, of the scheduler and of rate control,
provided its bit depth is one that AV1 has (`validate` does not look at it, see `depth_not_validated`). -/
theorem accepted_fits {c : Config} (h : validate c = some none) (ht : Typed c)
    (hd : c.enc.bitDepth = 8 ∨ c.enc.bitDepth = 10 ∨ c.enc.bitDepth = 12) (exp : List Int) :
    EncOk (adjusted c.enc) ∧ (adjusted c.enc).sched.Valid ∧ Rate.CfgOk (rateCfg c exp) := by
  have a := (accepted_iff c).1 h
  have one : ∀ b : Bool, 1 ≤ (if b then 1 else 16) := by decide
  refine ⟨⟨⟨le_trans (one _) a.width.1, a.width.2, le_trans (one _) a.height.1, a.height.2⟩,
    ⟨a.renderW.1, a.renderW.2, a.renderH.1, a.renderH.2⟩, hd, ?_, ht.pos, ht.color, a.srgb,
    ⟨a.timeNum.2, a.timeDen.2⟩, a.still⟩, ⟨?_, a.lookahead.1, a.switch⟩, ⟨a.delay⟩⟩
  · intro l hl
    rcases a.level l hl with h | h <;> omega
  · show 1 ≤ keyInterval _
    unfold keyInterval
    split <;> omega

/-- The numbers `RCState::new` computes from an accepted configuration are in range: 1.5 times the key frame
interval in `i32`, the bits per temporal unit and the size of the reservoir in `i64` (`rate.rs:598-620`). -/
theorem accepted_rate_in_range {c : Config} (h : validate c = some none) (exp : List Int)
    (hb : -2147483648 ≤ c.bitrate ∧ c.bitrate < 2147483648) :
    (rateCfg c exp).maxKeyInterval * 3 < 2147483648 ∧
    (rateCfg c exp).bitrate * (rateCfg c exp).rateDen < 9223372036854775808 ∧
    -9223372036854775808 ≤ (rateCfg c exp).bitrate * (rateCfg c exp).rateDen ∧
    (rateCfg c exp).rateNum ≠ 0 ∧
    0 < (Rate.Rc.new (rateCfg c exp)).bitsPerTu ∧
    (Rate.Rc.new (rateCfg c exp)).cap < 9223372036854775808 := by
  have a := (accepted_iff c).1 h
  have hk : keyInterval c.enc.sched.maxKey ≤ 715827882 := by
    unfold keyInterval; have := a.maxKey; split <;> omega
  have hd := a.delay
  have ht := a.timeNum; have ht' := a.timeDen
  have e1 : (rateCfg c exp).bitrate = c.bitrate := rfl
  have e2 : (rateCfg c exp).rateDen = (c.enc.timeNum : Int) := rfl
  have p1 : c.bitrate * (c.enc.timeNum : Int) ≤ 2147483647 * 4294967295 := by
    rcases le_total 0 c.bitrate with h0 | h0
    · exact mul_le_mul (by omega) (by omega) (by omega) (by omega)
    · have : c.bitrate * (c.enc.timeNum : Int) ≤ 0 := mul_nonpos_of_nonpos_of_nonneg h0 (by omega)
      omega
  have p2 : -2147483648 * 4294967295 ≤ c.bitrate * (c.enc.timeNum : Int) := by
    rcases le_total 0 c.bitrate with h0 | h0
    · have : 0 ≤ c.bitrate * (c.enc.timeNum : Int) := mul_nonneg h0 (by omega)
      omega
    · have : (-c.bitrate) * (c.enc.timeNum : Int) ≤ 2147483648 * 4294967295 :=
        mul_le_mul (by omega) (by omega) (by omega) (by omega)
      rw [neg_mul] at this
      omega
  have hbits : ∀ x : Int, 24 ≤ max 40 (min x 0x400000000000) - 16 ∧
      max 40 (min x 0x400000000000) - 16 ≤ 70368744177648 := by intro x; omega
  refine ⟨?_, ?_, ?_, ?_, ?_, ?_⟩
  · show (keyInterval _ : Int) * 3 < _; omega
  · rw [e1, e2]; omega
  · rw [e1, e2]; omega
  · show (c.enc.timeDen : Int) ≠ 0; omega
  · have := (hbits (Int.tdiv ((rateCfg c exp).bitrate * (rateCfg c exp).rateDen) (rateCfg c exp).rateNum)).1
    show 0 < max 40 (min (Int.tdiv _ _) 0x400000000000) - 16
    omega
  · have hq := hbits (Int.tdiv ((rateCfg c exp).bitrate * (rateCfg c exp).rateDen) (rateCfg c exp).rateNum)
    have hdel : ∀ d : Int, d ≤ 131072 → 12 ≤ d →
        (max 40 (min (Int.tdiv ((rateCfg c exp).bitrate * (rateCfg c exp).rateDen) (rateCfg c exp).rateNum)
          0x400000000000) - 16) * d < 9223372036854775808 := by
      intro d h1 h2
      refine lt_of_le_of_lt (mul_le_mul hq.2 h1 (by omega) (by omega)) (by norm_num)
    unfold Rate.Rc.new
    dsimp only
    apply hdel
    · show max (match c.delay with | some d => d | none => _) 12 ≤ _
      cases hc : c.delay with
      | none => dsimp only; omega
      | some d => have := hd d hc; dsimp only; omega
    · exact le_max_right _ _

/-- **C28**: the start of an encoder with an accepted configuration and a bit depth that fits the pixel type does
not panic, as long as the rate limit of Annex A can be met by the tiles of the frame (`Tile.rate_limit_panics`
shows what happens otherwise); and its sequence header is written and says what was configured. -/
theorem accepted_starts {c : Config} {pixelBits : Nat} (h : validate c = some none) (ht : Typed c)
    (hd : c.enc.bitDepth = 8 ∨ c.enc.bitDepth = 10 ∨ c.enc.bitDepth = 12) (hp : c.enc.bitDepth ≤ pixelBits)
    (hr : c.enc.rateLog2 ≤ Tile.Spec.minLog2TileCols c.enc.width + Tile.Spec.maxLog2TileRows c.enc.height)
    (exp : List Int) :
    ∃ s r, newInner pixelBits c exp = some (.ok (adjusted c.enc, s, r)) ∧
      (∃ bits, writeSequenceHeaderObu s c.enc.width c.enc.height = some bits ∧
        ∀ rest, Av1Spec.sequenceHeader (bits ++ rest) = some (s.hdr c.enc.width c.enc.height, rest)) ∧
      s.maxWidth = c.enc.width ∧ s.maxHeight = c.enc.height ∧ s.bitDepth = c.enc.bitDepth ∧
      s.chroma = c.enc.chroma ∧
      (c.enc.chroma = .cs422 → (adjusted c.enc).rdoTx = false) := by
  have a := (accepted_iff c).1 h
  obtain ⟨ok, -, -⟩ := accepted_fits h ht hd exp
  have t63 : ∀ n, TileCount n → n ≤ 2 ^ 63 := by
    rintro n (rfl | ⟨k, hk, rfl⟩)
    · omega
    · exact Nat.pow_le_pow_right (by omega) (by omega)
  obtain ⟨ti, hti⟩ := Tile.tiling_exists ok.size hr (t63 _ a.cols) (t63 _ a.rows) c.enc.tiles
    (c.enc.chroma == .cs422)
  have hs : ∃ s, newSequence (adjusted c.enc) = some s := by
    unfold newSequence
    rw [if_neg (by have h1 := ok.size.w2; have h2 := ok.size.h2; omega)]
    have : Tile.sequenceTiling (adjusted c.enc).width (adjusted c.enc).height (adjusted c.enc).rateLog2
      (adjusted c.enc).tileCols (adjusted c.enc).tileRows (adjusted c.enc).tiles
      ((adjusted c.enc).chroma == .cs422) = some ti := hti
    rw [this]
    exact ⟨_, rfl⟩
  obtain ⟨s, hs⟩ := hs
  refine ⟨s, Rate.Rc.start (rateCfg c exp) c.summary c.emit, ?_, ?_, ?_⟩
  · unfold newInner
    rw [if_neg (by omega), h]
    simp only [Option.bind_eq_bind, Option.bind_some]
    rw [hs]
    rfl
  · obtain ⟨bits, hb⟩ := sequence_header_written ok hs
    refine ⟨bits, hb, fun rest => ?_⟩
    exact sequence_header_round_trip s _ _ (newSequence_seqOk ok hs) bits hb rest
  · obtain ⟨t, rfl⟩ := newSequence_eq hs
    exact ⟨rfl, rfl, rfl, rfl, fun h => if_pos h⟩

end Rav1e.Conf

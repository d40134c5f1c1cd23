import Verif.Lrf.Loop

/-!
# Loop restoration of a frame

The plane after `lrf_filter_frame` is the plane that a decoder computes, and nothing panics on the way.
-/

namespace Rav1e.Lrf

/-- The unit as the decoder reads it. -/
def Filter.toSpec : Filter → Spec.Unit
  | .none => .none
  | .wiener v h => .wiener v h
  | .sgrproj set w0 w1 => .sgrproj set w0 w1

/-- The units that the encoder writes: no Wiener filter, weights in the range of the bit stream (`lrf.rs:1086-1095`,
`solve_ok` in `Setup`), the first weight zero for the sets without radius 2 (`lrf.rs:1059-1066`), and only if CDEF is on, see `no_cdef_differs`. -/
def Filter.Ok (cdef : Bool) : Filter → Prop
  | .none => True
  | .wiener _ _ => False
  | .sgrproj set w0 w1 => cdef = true ∧ set < 16 ∧ (-96 ≤ w0 ∧ w0 ≤ 31) ∧ (-32 ≤ w1 ∧ w1 ≤ 95) ∧
      ((paramsS.getD set (0, 0)).1 = 0 → w0 = 0)

/-- Encoder and decoder have the same plane, depth and units. -/
structure Same (g : Params) (d : Spec.Dec) : Prop where
  subX : d.subX = g.xdec
  subY : d.subY = g.ydec
  xdec : g.xdec ≤ 1
  ydec : g.ydec ≤ 1
  depth : g.bd = 8 ∨ g.bd = 10 ∨ g.bd = 12
  bitDepth : d.bitDepth = g.bd
  frameWidth : d.frameWidth = g.width
  frameHeight : d.frameHeight = g.height
  width : 0 < g.width
  height : 0 < g.height
  unitSize : d.unitSize = g.unitSize
  unit0 : 0 < g.unitSize
  unit256 : g.unitSize ≤ 256
  stripeHeight : g.stripeHeight = 64 >>> g.ydec
  multiple : g.unitSize % g.stripeHeight = 0
  cols : g.cols = d.unitCols
  rows : g.rows = d.unitRows
  units : ∀ r c, d.lrUnit r c = (g.unit r c).toSpec
  ok : ∀ r c, (g.unit r c).Ok g.enableCdef

/-- The planes that encoder and decoder start from are the same, and their pixels are in range. -/
structure SamePlanes (g : Params) (d : Spec.Dec) (cdeffed deblocked : Plane) : Prop where
  cdef : d.cdef = cdeffed
  curr : d.curr = deblocked
  px : ∀ y x : Nat, y < g.cropH → x < g.cropW → cdeffed y x < 2 ^ g.bd ∧ deblocked y x < 2 ^ g.bd
  px16 : ∀ y x, cdeffed y x < 65536

section
variable {g : Params} {d : Spec.Dec} (S : Same g d)

include S in
theorem cropW_eq : g.cropW = d.planeW := by
  unfold Params.cropW Spec.Dec.planeW Spec.round2
  rw [S.subX, S.frameWidth]
  have := S.xdec
  rcases (show g.xdec = 0 ∨ g.xdec = 1 by omega) with h | h <;> rw [h]
  · simp
  · rw [Nat.shiftRight_eq_div_pow]; rfl

include S in
theorem cropH_eq : g.cropH = d.planeH := by
  unfold Params.cropH Spec.Dec.planeH Spec.round2
  rw [S.subY, S.frameHeight]
  have := S.ydec
  rcases (show g.ydec = 0 ∨ g.ydec = 1 by omega) with h | h <;> rw [h]
  · simp
  · rw [Nat.shiftRight_eq_div_pow]; rfl

/-- The row of a pixel in luma rows. -/
theorem cropH_two (h : g.ydec ≤ 1) : g.cropH = if g.ydec = 0 then g.height else (g.height + 1) / 2 := by
  unfold Params.cropH
  rcases (show g.ydec = 0 ∨ g.ydec = 1 by omega) with h | h <;> rw [h]
  · simp
  · rw [Nat.shiftRight_eq_div_pow]; rfl

theorem cropW_two (h : g.xdec ≤ 1) : g.cropW = if g.xdec = 0 then g.width else (g.width + 1) / 2 := by
  unfold Params.cropW
  rcases (show g.xdec = 0 ∨ g.xdec = 1 by omega) with h | h <;> rw [h]
  · simp
  · rw [Nat.shiftRight_eq_div_pow]; rfl

include S in
theorem stripeNum_eq (y : Nat) : d.stripeNum y = if g.ydec = 0 then (y + 8) / 64 else (y + 4) / 32 := by
  unfold Spec.Dec.stripeNum Spec.Dec.row
  rw [S.subY]
  have := S.ydec
  rcases (show g.ydec = 0 ∨ g.ydec = 1 by omega) with h | h <;> rw [h]
  · rw [if_pos rfl, Nat.pow_zero]; omega
  · rw [if_neg (by omega), Nat.pow_one]; omega

include S in
theorem sh_eq : g.stripeHeight = if g.ydec = 0 then 64 else 32 := by
  rw [S.stripeHeight]
  have := S.ydec
  rcases (show g.ydec = 0 ∨ g.ydec = 1 by omega) with h | h <;> rw [h] <;> rfl

include S in
theorem unit_mult : ∃ m, 0 < m ∧ g.unitSize = g.stripeHeight * m := by
  have h0 := S.unit0
  have := Nat.div_add_mod g.unitSize g.stripeHeight
  rw [S.multiple, Nat.add_zero] at this
  refine ⟨g.unitSize / g.stripeHeight, ?_, this.symm⟩
  rcases Nat.eq_zero_or_pos (g.unitSize / g.stripeHeight) with h | h
  · rw [h, Nat.mul_zero] at this; omega
  · exact h

include S in
theorem unitRow_eq (y : Nat) : d.unitRow y = min (d.stripeNum y * g.stripeHeight / g.unitSize) (g.rows - 1) := by
  obtain ⟨m, hm, e⟩ := unit_mult S
  have hsh := sh_eq S
  unfold Spec.Dec.unitRow
  rw [← S.rows, Nat.min_comm, S.unitSize, e]
  have h1 : d.stripeNum y * g.stripeHeight / (g.stripeHeight * m) = d.stripeNum y / m := by
    rw [Nat.mul_comm, Nat.mul_div_mul_left]
    rw [hsh]; split <;> omega
  have h2 : (d.row y * 4 + 8) / 2 ^ d.subY / (g.stripeHeight * m) = d.stripeNum y / m := by
    rw [← Nat.div_div_eq_div_mul]
    congr 1
    unfold Spec.Dec.stripeNum
    rw [S.subY, hsh]
    have := S.ydec
    rcases (show g.ydec = 0 ∨ g.ydec = 1 by omega) with h | h <;> rw [h]
    · rw [if_pos rfl, Nat.pow_zero, Nat.div_one]
    · rw [if_neg (by omega), Nat.pow_one, Nat.div_div_eq_div_mul]
  rw [h1, h2]

include S in
theorem unitCol_eq (x : Nat) : d.unitCol x = min (x / g.unitSize) (g.cols - 1) := by
  obtain ⟨m, hm, e⟩ := unit_mult S
  have hsh := sh_eq S
  unfold Spec.Dec.unitCol Spec.Dec.col
  rw [← S.cols, Nat.min_comm, S.unitSize, S.subX]
  congr 1
  have e4 : ∃ q, g.unitSize = 4 * q := by
    rw [e, hsh]
    split
    · exact ⟨16 * m, by omega⟩
    · exact ⟨8 * m, by omega⟩
  obtain ⟨q, hq⟩ := e4
  have := S.xdec
  rcases (show g.xdec = 0 ∨ g.xdec = 1 by omega) with h | h <;> rw [h, hq]
  · rw [Nat.pow_zero, Nat.mul_one, Nat.div_one, ← Nat.div_div_eq_div_mul, ← Nat.div_div_eq_div_mul, Nat.mul_div_cancel _ (by omega)]
  · rw [Nat.pow_one, ← Nat.div_div_eq_div_mul, ← Nat.div_div_eq_div_mul]
    congr 1
    omega

include S in
/-- The columns of a unit. -/
theorem unit_cols (rux : Nat) (hr : rux < g.cols) (c : Nat) (hc : c < g.cropW) :
    (rux * g.unitSize ≤ g.cropW) ∧
    rux * g.unitSize + (if rux = g.cols - 1 then g.cropW - rux * g.unitSize else g.unitSize) ≤ g.cropW ∧
    0 < (if rux = g.cols - 1 then g.cropW - rux * g.unitSize else g.unitSize) ∧
    (if rux = g.cols - 1 then g.cropW - rux * g.unitSize else g.unitSize) ≤ 384 ∧
    (d.unitCol c = rux ↔ rux * g.unitSize ≤ c ∧
      c < rux * g.unitSize + (if rux = g.cols - 1 then g.cropW - rux * g.unitSize else g.unitSize)) := by
  have h0 := S.unit0
  have h256 := S.unit256
  have hev : 32 ≤ g.unitSize := by
    obtain ⟨m, hm, e⟩ := unit_mult S
    rw [e, sh_eq S]; split <;> omega
  have hcols : g.cols = max ((g.cropW + g.unitSize / 2) / g.unitSize) 1 := by
    rw [S.cols]
    unfold Spec.Dec.unitCols Spec.Dec.countUnits
    rw [← cropW_eq S, S.unitSize]
  have hdm := Nat.div_add_mod (g.cropW + g.unitSize / 2) g.unitSize
  have hml := Nat.mod_lt (g.cropW + g.unitSize / 2) h0
  generalize hn : (g.cropW + g.unitSize / 2) / g.unitSize = n at hcols hdm
  rw [unitCol_eq S]
  have hcd := Nat.div_add_mod c g.unitSize
  have hcl := Nat.mod_lt c h0
  generalize hk : c / g.unitSize = k at hcd
  rw [Nat.mul_comm] at hdm hcd
  generalize g.unitSize = u at *
  by_cases hlast : rux = g.cols - 1
  · rw [if_pos hlast]
    have e1 : rux * u + u = (rux + 1) * u := by rw [Nat.add_mul, Nat.one_mul]
    have hx : rux * u < g.cropW ∧ g.cropW - rux * u ≤ 384 := by
      by_cases hn0 : n = 0
      · have : rux = 0 := by omega
        subst this
        subst hn0
        omega
      · have : n = rux + 1 := by omega
        subst this
        omega
    refine ⟨by omega, by omega, by omega, hx.2, ?_⟩
    constructor
    · intro hm
      have : rux ≤ k := by omega
      have := Nat.mul_le_mul_right u this
      omega
    · intro hm
      have : rux ≤ k := by
        by_contra hlt
        have : k + 1 ≤ rux := by omega
        have := Nat.mul_le_mul_right u this
        rw [Nat.add_mul, Nat.one_mul] at this
        omega
      omega
  · rw [if_neg hlast]
    have hn1 : rux + 2 ≤ n := by omega
    have h2 := Nat.mul_le_mul_right u hn1
    rw [Nat.add_mul] at h2
    refine ⟨by omega, by omega, by omega, by omega, ?_⟩
    constructor
    · intro hm
      have : k = rux := by omega
      subst this
      omega
    · intro hm
      have : k = rux := by
        rcases Nat.lt_trichotomy k rux with h | h | h
        · have := Nat.mul_le_mul_right u (show k + 1 ≤ rux from h)
          rw [Nat.add_mul, Nat.one_mul] at this
          omega
        · exact h
        · have := Nat.mul_le_mul_right u (show rux + 1 ≤ k from h)
          rw [Nat.add_mul, Nat.one_mul] at this
          omega
      omega

include S in
/-- The rows of a stripe. -/
theorem stripe_rows (si : Nat) (hsi : si < (g.height + 7) / 64 + 1) :
    ∃ y h, stripeAt g si = some (y, h) ∧ y < g.cropH ∧ h ≤ 64 ∧ (∀ r, y ≤ r → r < y + h → d.stripeNum r = si) ∧ 0 < h ∧
      (∀ r, r < g.cropH → d.stripeNum r = si → y ≤ r ∧ r < y + h) ∧ y % 2 = 0 ∧
      (d.stripeStartY y = y ∨ y = 0 ∧ d.stripeStartY y ≤ 0) ∧
      (d.stripeEndY y = y + h - 1 ∧ h % 2 = 0 ∨ g.cropH = y + h ∧ (g.cropH : Int) - 1 ≤ d.stripeEndY y) := by
  have hH := S.height
  have hch := cropH_two S.ydec
  have hnum := stripeNum_eq S
  have hy := S.ydec
  unfold Spec.Dec.stripeEndY Spec.Dec.stripeStartY
  rw [S.subY]
  unfold stripeAt
  rcases (show g.ydec = 0 ∨ g.ydec = 1 by omega) with h | h
  · rw [h] at hch hnum ⊢
    rw [if_pos rfl] at hch
    by_cases hz : si = 0
    · rw [if_pos hz]
      refine ⟨0, 56, rfl, by omega, by omega, fun r h1 h2 => ?_, by omega, fun r h1 h2 => ?_, rfl, ?_, ?_⟩
      · rw [hnum, if_pos rfl]; omega
      · rw [hnum, if_pos rfl] at h2; omega
      · rw [hnum, if_pos rfl]; exact Or.inr ⟨rfl, by decide⟩
      · rw [hnum, if_pos rfl]; exact Or.inl ⟨by decide, rfl⟩
    · rw [if_neg hz]
      simp only [Nat.shiftRight_zero]
      rw [if_pos (by omega)]
      refine ⟨_, _, rfl, by omega, by omega, fun r h1 h2 => ?_, by omega, fun r h1 h2 => ?_, by omega, ?_, ?_⟩
      · rw [hnum, if_pos rfl]; omega
      · rw [hnum, if_pos rfl] at h2; omega
      · rw [hnum, if_pos rfl]; left; simp only [pow_zero, Int.ediv_one]; omega
      · rw [hnum, if_pos rfl]; simp only [pow_zero, Int.ediv_one, Nat.div_one]; omega
  · rw [h] at hch hnum ⊢
    rw [if_neg (by omega)] at hch
    by_cases hz : si = 0
    · rw [if_pos hz]
      refine ⟨0, 28, rfl, by omega, by omega, fun r h1 h2 => ?_, by omega, fun r h1 h2 => ?_, rfl, ?_, ?_⟩
      · rw [hnum, if_neg (by omega)]; omega
      · rw [hnum, if_neg (by omega)] at h2; omega
      · rw [hnum, if_neg (by omega)]; exact Or.inr ⟨rfl, by decide⟩
      · rw [hnum, if_neg (by omega)]; exact Or.inl ⟨by decide, rfl⟩
    · rw [if_neg hz]
      simp only [Nat.shiftRight_succ, Nat.shiftRight_zero]
      rw [if_pos (by omega)]
      refine ⟨_, _, rfl, by omega, by omega, fun r h1 h2 => ?_, by omega, fun r h1 h2 => ?_, by omega, ?_, ?_⟩
      · rw [hnum, if_neg (by omega)]; omega
      · rw [hnum, if_neg (by omega)] at h2; omega
      · rw [hnum, if_neg (by omega)]; left; simp only [pow_one]; omega
      · rw [hnum, if_neg (by omega)]; simp only [pow_one]; omega

include S in
theorem parity_ok (y : Nat) : d.inBlock y % 2 = y % 2 := by
  unfold Spec.Dec.inBlock Spec.Dec.row
  rw [S.subY]
  have := S.ydec
  rcases (show g.ydec = 0 ∨ g.ydec = 1 by omega) with h | h <;> rw [h]
  · rw [Nat.pow_zero, Nat.div_one]; omega
  · rw [Nat.pow_one]; omega

/-- The rectangle of a unit in a stripe. -/
def unitRect (g : Params) (cdeffed deblocked : Plane) (y h rux : Nat) : Stripe where
  cdeffed := cdeffed
  deblocked := deblocked
  x := rux * g.unitSize
  y := y
  w := if rux = g.cols - 1 then g.cropW - rux * g.unitSize else g.unitSize
  h := h
  cropW := g.cropW
  cropH := g.cropH

include S in
theorem cropW_pos : 0 < g.cropW := by
  have := S.width
  rw [cropW_two S.xdec]; split <;> omega

include S in
theorem fits_ok {cdeffed deblocked : Plane} (P : SamePlanes g d cdeffed deblocked) (si y h rux : Nat) (hr : rux < g.cols)
    (h1 : y < g.cropH) (h2 : h ≤ 64) (h3 : ∀ r, y ≤ r → r < y + h → d.stripeNum r = si) (h0 : 0 < h) (he : y % 2 = 0)
    (h4 : d.stripeStartY y = y ∨ y = 0 ∧ d.stripeStartY y ≤ 0)
    (h5 : d.stripeEndY y = y + h - 1 ∧ h % 2 = 0 ∨ g.cropH = y + h ∧ (g.cropH : Int) - 1 ≤ d.stripeEndY y) :
    Fits d (unitRect g cdeffed deblocked y h rux) (2 ^ g.bd - 1) := by
  obtain ⟨c1, c2, c3, c4, -⟩ := unit_cols S rux hr 0 (cropW_pos S)
  have hev : 32 ≤ g.unitSize := by
    obtain ⟨m, hm, e⟩ := unit_mult S
    rw [e, sh_eq S]; split <;> omega
  refine ⟨?_, ?_, c2, c3, c4, h2, h1, cropW_eq S, cropH_eq S, P.cdef, P.curr, fun r hr => ?_, h4, h5, fun r hr => ?_,
    fun r c hr hc => ?_, P.px16⟩
  · rw [S.bitDepth]
    rcases S.depth with h | h | h <;> rw [h] <;> decide
  · show rux * g.unitSize = 0 ∨ 4 ≤ rux * g.unitSize
    rcases Nat.eq_zero_or_pos rux with h | h
    · left; rw [h, Nat.zero_mul]
    · right
      have := Nat.mul_le_mul_right g.unitSize h
      omega
  · show d.stripeNum (y + r) = d.stripeNum y
    have hr : r < h := hr
    rw [h3 (y + r) (by omega) (by omega), h3 y (Nat.le_refl _) (by omega)]
  · show d.inBlock (y + r) % 2 = r % 2
    rw [parity_ok S]; omega
  · have := P.px r c hr hc
    constructor
    · exact Nat.le_sub_one_of_lt this.1
    · exact Nat.le_sub_one_of_lt this.2

/-- The plane when the stripes before `si` and the units before `rux` of stripe `si` are done. -/
def Done (g : Params) (d : Spec.Dec) (out : Plane) (si rux : Nat) : Prop :=
  ∀ r c : Nat, r < g.cropH → c < g.cropW → out r c =
    if d.stripeNum r < si ∨ d.stripeNum r = si ∧ d.unitCol c < rux then d.lrFrame r c else d.cdef r c

include S in
theorem unitStep_ok {cdeffed deblocked : Plane} (P : SamePlanes g d cdeffed deblocked) (si y h rux : Nat) (hr : rux < g.cols)
    (h1 : y < g.cropH) (h2 : h ≤ 64) (h3 : ∀ r, y ≤ r → r < y + h → d.stripeNum r = si) (h0 : 0 < h)
    (h6 : ∀ r, r < g.cropH → d.stripeNum r = si → y ≤ r ∧ r < y + h) (he : y % 2 = 0)
    (h4 : d.stripeStartY y = y ∨ y = 0 ∧ d.stripeStartY y ≤ 0)
    (h5 : d.stripeEndY y = y + h - 1 ∧ h % 2 = 0 ∨ g.cropH = y + h ∧ (g.cropH : Int) - 1 ≤ d.stripeEndY y)
    (st : Images × Plane) (hd : Done g d st.2 si rux) :
    ∃ st', unitStep g cdeffed deblocked si y h st rux = some st' ∧ Done g d st'.2 si (rux + 1) := by
  have F := fits_ok S P si y h rux hr h1 h2 h3 h0 he h4 h5
  have hrows : 0 < g.rows := by rw [S.rows]; unfold Spec.Dec.unitRows Spec.Dec.countUnits; omega
  have hunit : ∀ r c : Nat, d.stripeNum r = si → d.unitCol c = rux → d.lrUnit (d.unitRow r) (d.unitCol c) =
      (g.unit (min (si * g.stripeHeight / g.unitSize) (g.rows - 1)) (min rux (g.cols - 1))).toSpec := by
    intro r c e1 e2
    rw [S.units, unitRow_eq S, e1, e2, show min rux (g.cols - 1) = rux by omega]
  unfold unitStep
  simp only []
  rw [if_neg (by have := (unit_cols S rux hr 0 (cropW_pos S)).1; omega)]
  unfold unitByStripe
  rw [if_pos ⟨by omega, hrows, S.unit0⟩]
  simp only [Option.bind_eq_bind, Option.bind_some]
  have hok := S.ok (min (si * g.stripeHeight / g.unitSize) (g.rows - 1)) (min rux (g.cols - 1))
  generalize g.unit (min (si * g.stripeHeight / g.unitSize) (g.rows - 1)) (min rux (g.cols - 1)) = f at hok hunit
  have hcell : ∀ r c : Nat, ¬ (d.stripeNum r = si ∧ d.unitCol c = rux) →
      (d.stripeNum r < si ∨ d.stripeNum r = si ∧ d.unitCol c < rux + 1 ↔
        d.stripeNum r < si ∨ d.stripeNum r = si ∧ d.unitCol c < rux) := by
    intro r c hn
    omega
  match f, hok, hunit with
  | .none, _, hunit =>
    refine ⟨st, rfl, fun r c hr' hc' => ?_⟩
    rw [hd r c hr' hc']
    by_cases e : d.stripeNum r = si ∧ d.unitCol c = rux
    · rw [if_neg (by omega), if_pos (by omega)]
      unfold Spec.Dec.lrFrame
      rw [hunit r c e.1 e.2]
      rfl
    · simp only [hcell r c e]
  | .wiener _ _, hok, _ => exact absurd hok id
  | .sgrproj set w0 w1, hok, hunit =>
    obtain ⟨hce, hset, hw0, hw1, hz⟩ := hok
    simp only [hce, Bool.not_true, Bool.false_eq_true, if_false]
    obtain ⟨s, hs, hp⟩ := par_ok set hset
    obtain ⟨im, hi, hi'⟩ := setupImages_ok F st.1
    have hz' : s.1 = 0 → w0 = 0 := by
      have e : paramsS.getD set (0, 0) = s := by
        rw [List.getD_eq_getElem?_getD, hs]; rfl
      rw [e] at hz
      exact hz
    obtain ⟨ws, hws, ho⟩ := sgrStripe_ok F hp ⟨hw0, hw1, hz'⟩ hs hi'
    refine ⟨(im, write (unitRect g cdeffed deblocked y h rux) st.2 ws), ?_, fun r c hr' hc' => ?_⟩
    · refine Option.bind_eq_some_iff.mpr ⟨im, hi, ?_⟩
      refine Option.bind_eq_some_iff.mpr ⟨ws, ?_, rfl⟩
      rw [← S.bitDepth]
      exact hws
    · show write (unitRect g cdeffed deblocked y h rux) st.2 ws r c = _
      rw [write_ok ho st.2 r c]
      have hcol := (unit_cols S rux hr c hc').2.2.2.2
      by_cases e : d.stripeNum r = si ∧ d.unitCol c = rux
      · have hin := h6 r hr' e.1
        have hco := hcol.mp e.2
        refine (if_pos ⟨hin.1, hin.2, hco.1, hco.2⟩).trans ?_
        rw [if_pos (by omega)]
        unfold Spec.Dec.lrFrame
        rw [hunit r c e.1 e.2]
        rfl
      · have hnot : ¬ (y ≤ r ∧ r < y + h ∧ rux * g.unitSize ≤ c ∧
            c < rux * g.unitSize + (if rux = g.cols - 1 then g.cropW - rux * g.unitSize else g.unitSize)) := by
          rintro ⟨a1, a2, a3, a4⟩
          exact e ⟨h3 r a1 a2, hcol.mpr ⟨a3, a4⟩⟩
        refine (if_neg hnot).trans ?_
        rw [hd r c hr' hc']
        simp only [hcell r c e]

include S in
/-- **Loop restoration in the encoder is loop restoration in the decoder**, and it does not panic: no overflow in the
`u32` and `i32` arithmetic, no index out of the integral images. -/
theorem filterPlane_eq_decoder {cdeffed deblocked : Plane} (P : SamePlanes g d cdeffed deblocked) (buf : Images) :
    ∃ out, filterPlane g cdeffed deblocked buf = some out ∧
      ∀ y x : Nat, y < g.cropH → x < g.cropW → out y x = d.lrFrame y x := by
  have hcols : ∀ c, d.unitCol c < g.cols := by
    intro c
    have : 0 < g.cols := by rw [S.cols]; unfold Spec.Dec.unitCols Spec.Dec.countUnits; omega
    rw [unitCol_eq S]; omega
  obtain ⟨r, hr, hD⟩ := foldlM_inv (stripeStep g cdeffed deblocked) (fun si st => Done g d st.2 si 0)
    ((g.height + 7) / 64 + 1) (buf, cdeffed)
    (fun r c _ _ => by rw [if_neg (by omega), P.cdef])
    (by
      intro si st hsi hd
      obtain ⟨y, h, e, h1, h2, h3, h0, h6, he, h4, h5⟩ := stripe_rows S si hsi
      obtain ⟨st', q1, q2⟩ := foldlM_inv (unitStep g cdeffed deblocked si y h) (fun rux st => Done g d st.2 si rux) g.cols st hd
        (fun rux st1 hrux hd1 => unitStep_ok S P si y h rux hrux h1 h2 h3 h0 h6 he h4 h5 st1 hd1)
      refine ⟨st', ?_, fun r c hr hc => ?_⟩
      · unfold stripeStep
        exact Option.bind_eq_some_iff.mpr ⟨_, e, q1⟩
      · have := hcols c
        rw [q2 r c hr hc]
        congr 1
        apply propext
        omega)
  refine ⟨r.2, Option.bind_eq_some_iff.mpr ⟨r, hr, rfl⟩, fun y x hy hx => ?_⟩
  rw [hD y x hy hx, if_pos]
  left
  rw [stripeNum_eq S]
  have hch := cropH_two S.ydec
  have := S.ydec
  split <;> rename_i hz
  · rw [if_pos hz] at hch; omega
  · rw [if_neg hz] at hch; omega

include S in
/-- The pixels stay in the range of the bit depth. -/
theorem filterPlane_range {cdeffed deblocked : Plane} (P : SamePlanes g d cdeffed deblocked) (buf : Images) :
    ∃ out, filterPlane g cdeffed deblocked buf = some out ∧ ∀ y x : Nat, y < g.cropH → x < g.cropW → out y x < 2 ^ g.bd := by
  obtain ⟨out, h1, h2⟩ := filterPlane_eq_decoder S P buf
  refine ⟨out, h1, fun y x hy hx => ?_⟩
  rw [h2 y x hy hx]
  unfold Spec.Dec.lrFrame
  rw [S.units]
  have hok := S.ok (d.unitRow y) (d.unitCol x)
  generalize g.unit (d.unitRow y) (d.unitCol x) = f at hok
  have hclip : ∀ v : Int, (Spec.clip3 0 (2 ^ d.bitDepth - 1) v).toNat < 2 ^ g.bd := by
    intro v
    rw [S.bitDepth]
    unfold Spec.clip3
    have hpos : (0 : Int) < ((2 ^ g.bd : Nat) : Int) := by exact_mod_cast Nat.pow_pos (by decide)
    have e : ((2 ^ g.bd : Nat) : Int) = (2 : Int) ^ g.bd := by push_cast; rfl
    rw [← e]
    split
    · omega
    · split <;> omega
  match f, hok with
  | .none, _ =>
    show d.cdef y x < _
    rw [P.cdef]
    exact (P.px y x hy hx).1
  | .wiener _ _, hok => exact absurd hok id
  | .sgrproj set w0 w1, _ => exact hclip _

end

/-! ## Examples -/

/-- A plane with little texture. -/
def exPlane : Plane := fun y x => (100 + 3 * ((x + 2 * y) % 3) + 2 * (x % 4)).toNat % 256

/-- The same before CDEF. -/
def exDeblocked : Plane := fun y x => (100 + 5 * ((x + 2 * y) % 3) + 4 * (x % 4)).toNat % 256

/-- A plane of 10x9 pixels with one unit. -/
def exParams (cdef : Bool) (f : Filter) : Params where
  width := 10
  height := 9
  xdec := 0
  ydec := 0
  bd := 8
  enableCdef := cdef
  unitSize := 64
  stripeHeight := 64
  cols := 1
  rows := 1
  unit := fun _ _ => f

/-- Its decoder. -/
def exDec (f : Filter) : Spec.Dec where
  subX := 0
  subY := 0
  bitDepth := 8
  frameWidth := 10
  frameHeight := 9
  unitSize := 64
  lrUnit := fun _ _ => f.toSpec
  cdef := exPlane
  curr := exDeblocked

theorem ex_same (f : Filter) (hf : f.Ok true) : Same (exParams true f) (exDec f) where
  subX := rfl
  subY := rfl
  xdec := Nat.zero_le 1
  ydec := Nat.zero_le 1
  depth := Or.inl rfl
  bitDepth := rfl
  frameWidth := rfl
  frameHeight := rfl
  width := show 0 < 10 by decide
  height := show 0 < 9 by decide
  unitSize := rfl
  unit0 := show 0 < 64 by decide
  unit256 := show 64 ≤ 256 by decide
  stripeHeight := rfl
  multiple := show 64 % 64 = 0 by decide
  cols := show 1 = max ((10 + 64 / 2) / 64) 1 by decide
  rows := show 1 = max ((9 + 64 / 2) / 64) 1 by decide
  units := fun _ _ => rfl
  ok := fun _ _ => hf

theorem ex_planes (cdef : Bool) (f : Filter) : SamePlanes (exParams cdef f) (exDec f) exPlane exDeblocked where
  cdef := rfl
  curr := rfl
  px := fun _ _ _ _ => ⟨Nat.mod_lt _ (by decide), Nat.mod_lt _ (by decide)⟩
  px16 := fun _ _ => Nat.lt_of_lt_of_le (Nat.mod_lt _ (by decide : 0 < 256)) (by decide)

/-- Set 3 with the weights that the search starts from. -/
def exUnit : Filter := .sgrproj 3 (-32) 31

/-- The hypotheses of `filterPlane_eq_decoder` are met and the filter changes pixels: 100 becomes 102. -/
example : (∃ out, filterPlane (exParams true exUnit) exPlane exDeblocked ⟨fun _ => 0, fun _ => 0⟩ = some out ∧
      out 4 4 = (exDec exUnit).lrFrame 4 4) ∧ (exDec exUnit).lrFrame 4 4 = 102 ∧ exPlane 4 4 = 100 := by
  refine ⟨?_, by decide +kernel⟩
  obtain ⟨out, h1, h2⟩ := filterPlane_eq_decoder (ex_same exUnit (by unfold exUnit Filter.Ok; decide)) (ex_planes true exUnit)
    ⟨fun _ => 0, fun _ => 0⟩
  exact ⟨out, h1, h2 4 4 (by decide) (by decide)⟩

/-- **Without CDEF the encoder does not apply the self-guided filter** (`lrf.rs:1545-1547`): it leaves a frame that differs
from the one that the decoder computes from the same units, which the encoder chooses and writes also without CDEF. -/
theorem no_cdef_differs : Same (exParams true exUnit) (exDec exUnit) ∧
    SamePlanes (exParams false exUnit) (exDec exUnit) exPlane exDeblocked ∧
    ∃ out, filterPlane (exParams false exUnit) exPlane exDeblocked ⟨fun _ => 0, fun _ => 0⟩ = some out ∧
      out 4 4 ≠ (exDec exUnit).lrFrame 4 4 :=
  ⟨ex_same exUnit (by unfold exUnit Filter.Ok; decide), ex_planes false exUnit, exPlane, rfl, by decide +kernel⟩

/-- **The Wiener filter reads other rows than a decoder** at the top and bottom of a frame: rows outside of the frame are
taken from the deblocked plane (`lrf.rs:1157-1169`), the decoder repeats the row after CDEF.  No unit that the encoder
writes uses the filter. -/
theorem wiener_differs : ∃ out, filterPlane (exParams true (.wiener (3, -7, 15) (3, -7, 15))) exPlane exDeblocked
      ⟨fun _ => 0, fun _ => 0⟩ = some out ∧ out 0 3 ≠ (exDec (.wiener (3, -7, 15) (3, -7, 15))).lrFrame 0 3 :=
  ⟨_, rfl, by decide +kernel⟩

end Rav1e.Lrf

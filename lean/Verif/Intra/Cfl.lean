import Verif.Intra.Theorems

/-!
# Chroma from luma
-/

namespace Rav1e.Intra

/-- One direction of the luma block: its side `n`, its transforms `2 ^ t`, its position `bo` in the tile in units of four pixels, the start
`rect` of the tile and the size `rectN` of its region, and the size `inB` of the frame in units of four pixels. -/
structure Side (n t dec bo rect rectN inB : Nat) : Prop where
  side : n ∈ [4, 8, 16, 32]
  tx : t ∈ [2, 3, 4, 5]
  fits : 2 ^ t ∣ n
  sampling : dec = 0 ∨ dec = 1
  aligned : n ∣ 4 * bo
  /-- a block of four pixels that has chroma is the second one of its pair -/
  odd : dec = 1 → n = 4 → bo % 2 = 1
  tile : rect % 8 = 0
  frame : inB % 2 = 0
  inside : rect + 4 * bo < 4 * inB
  room : 4 * bo + n ≤ rectN

theorem maxLumaAt_small {n cl t dec : Nat} (hn : n ≤ 8) : maxLumaAt n cl t dec = some (max (planeSide n dec <<< dec) 8 - (1 <<< dec)) := by
  unfold maxLumaAt maxLuma sub?
  rw [if_neg (show ¬ n > 8 by omega), if_pos (Nat.le_refl n)]
  simp only [Nat.sub_self, Nat.zero_shiftRight, Nat.zero_mul, Option.bind_some, Nat.zero_le, if_true, Nat.sub_zero, Option.map_some]

theorem maxLumaAt_big {n cl t dec E : Nat} (hd : dec = 0 ∨ dec = 1) (hn : 8 < n) (hE : ((cl + (1 <<< t) - 1) >>> t) <<< t = E) (hle : E ≤ n)
    (h8 : 8 ≤ E) (hm : n % 8 = 0) (hEm : E % 8 = 0) : maxLumaAt n cl t dec = some (E - (1 <<< dec)) := by
  unfold maxLumaAt maxLuma sub? planeSide
  rw [if_pos (show n > 8 by omega), hE, if_pos hle, Option.bind_some]
  rcases hd with rfl | rfl
  · simp only [Nat.shiftLeft_eq, Nat.shiftRight_eq_div_pow]
    rw [if_pos (by omega)]
    simp only [Option.map_some]
    congr 1
    omega
  · simp only [Nat.shiftLeft_eq, Nat.shiftRight_eq_div_pow]
    rw [if_pos (by omega)]
    simp only [Option.map_some]
    congr 1
    omega

theorem ceil_luma {n t L F k : Nat} (ht : t ∈ [2, 3, 4, 5]) (k1 : k * 2 ^ t < n) (k2 : L + k * 2 ^ t < F)
    (k4 : ∀ j, j * 2 ^ t < n → L + j * 2 ^ t < F → j ≤ k) :
    ((min (F - L) n + (1 <<< t) - 1) >>> t) <<< t = k * 2 ^ t + 2 ^ t := by
  have k5 := k4 (k + 1)
  rw [Nat.shiftLeft_eq, Nat.shiftLeft_eq, Nat.shiftRight_eq_div_pow]
  simp only [List.mem_cons, List.not_mem_nil, or_false] at ht
  rcases ht with rfl | rfl | rfl | rfl <;> omega

theorem side_luma {n t dec bo rect rectN inB m : Nat} (h : Side n t dec bo rect rectN inB)
    (hm : Spec.IsMaxLuma (rect + 4 * bo) n (2 ^ t) (4 * inB) m) :
    ∃ b rest mx, sub8 bo n dec = some b ∧ sub? inB (rect / 4 + b) = some rest ∧ maxLumaAt n (min (rest <<< 2) n) t dec = some mx ∧
      (rect + 4 * b) % 2 ^ dec = 0 ∧
      ∀ c < planeSide n dec, rect + (b * 4 + min (c <<< dec) mx) = min (((rect + 4 * b) / 2 ^ dec + c) * 2 ^ dec) (m - 2 ^ dec) ∧
        b * 4 + min (c <<< dec) mx + dec < rectN := by
  obtain ⟨h1, h2, h3, h4, h5, h6, h7, h8, h9, h10⟩ := h
  obtain ⟨k, k1, k2, k3, k4⟩ := hm
  have k5 := k4 (k + 1)
  have hce := ceil_luma h2 k1 k2 k4
  have hs : 4 * bo % n = 0 := Nat.mod_eq_zero_of_dvd h5
  have hT : n % 2 ^ t = 0 := Nat.mod_eq_zero_of_dvd h3
  simp only [List.mem_cons, List.not_mem_nil, or_false] at h1 h2
  by_cases hz : dec = 1 ∧ n = 4
  · obtain ⟨rfl, rfl⟩ := hz
    have ho := h6 rfl rfl
    have ht : t = 2 := by
      rcases h2 with rfl | rfl | rfl | rfl
      · rfl
      all_goals revert h3; decide
    subst ht
    refine ⟨bo - 1, inB - (rect / 4 + (bo - 1)), 6, ?_, ?_, ?_, ?_, ?_⟩
    · unfold sub8 sub?; rw [if_pos ⟨by decide, rfl⟩, if_pos (by omega)]
    · unfold sub?; rw [if_pos (by omega)]
    · rw [maxLumaAt_small (by decide)]; rfl
    · omega
    · intro c hc
      have hc' : c < 4 := hc
      rw [Nat.shiftLeft_eq]
      omega
  · have e8 : sub8 bo n dec = some bo := by
      unfold sub8; rw [if_neg (by omega)]
    have er : sub? inB (rect / 4 + bo) = some (inB - (rect / 4 + bo)) := by
      unfold sub?; rw [if_pos (by omega)]
    have hcl : (inB - (rect / 4 + bo)) <<< 2 = 4 * inB - (rect + 4 * bo) := by rw [Nat.shiftLeft_eq]; omega
    by_cases hn : n ≤ 8
    · refine ⟨bo, _, _, e8, er, maxLumaAt_small hn, ?_, fun c hc => ?_⟩
      · rcases h4 with rfl | rfl <;> omega
      · unfold planeSide at hc ⊢
        have ht : t = 2 ∨ t = 3 := by
          rcases h2 with rfl | rfl | rfl | rfl
          · exact Or.inl rfl
          · exact Or.inr rfl
          all_goals (exfalso; omega)
        rcases h1 with rfl | rfl | rfl | rfl
        · rcases h4 with rfl | rfl
          · rcases ht with rfl | rfl <;> simp only [Nat.shiftLeft_eq, Nat.shiftRight_eq_div_pow] at hc ⊢ <;> omega
          · exfalso; omega
        · rcases h4 with rfl | rfl <;> rcases ht with rfl | rfl <;> simp only [Nat.shiftLeft_eq, Nat.shiftRight_eq_div_pow] at hc ⊢ <;> omega
        · omega
        · omega
    · have hn16 : n % 16 = 0 := by omega
      have hE8 : (k * 2 ^ t + 2 ^ t) % 8 = 0 ∧ 8 ≤ k * 2 ^ t + 2 ^ t ∧ k * 2 ^ t + 2 ^ t ≤ n := by
        rcases h1 with rfl | rfl | rfl | rfl <;> rcases h2 with rfl | rfl | rfl | rfl <;> omega
      have mE : maxLumaAt n (min ((inB - (rect / 4 + bo)) <<< 2) n) t dec = some (k * 2 ^ t + 2 ^ t - (1 <<< dec)) := by
        refine maxLumaAt_big h4 (by omega) (by rw [hcl]; exact hce) hE8.2.2 hE8.2.1 (by omega) hE8.1
      refine ⟨bo, _, _, e8, er, mE, ?_, fun c hc => ?_⟩
      · rcases h4 with rfl | rfl <;> omega
      · unfold planeSide at hc
        generalize k * 2 ^ t = u at *
        generalize 2 ^ t = v at *
        rcases h4 with rfl | rfl <;> simp only [Nat.shiftLeft_eq, Nat.shiftRight_eq_div_pow] at hc ⊢ <;> omega

theorem sum_grid (g : Nat → Nat → Int) {w : Nat} (hw : 0 < w) (h : Nat) :
    ((List.range (w * h)).map fun k => g (k / w) (k % w)).sum = Spec.sum h fun r => Spec.sum w fun c => g r c := by
  unfold Spec.sum
  induction h with
  | zero => simp
  | succ n ih =>
    rw [Nat.mul_succ, List.range_add, List.map_append, List.sum_append, ih, List.range_succ, List.map_append, List.sum_append, List.map_map]
    congr 1
    rw [List.map_singleton, List.sum_singleton]
    congr 1
    refine List.map_congr_left fun c hc => ?_
    have hc' : c < w := List.mem_range.mp hc
    simp only [Function.comp]
    rw [Nat.mul_add_div hw, Nat.div_eq_of_lt hc', Nat.add_zero, Nat.mul_add_mod, Nat.mod_eq_of_lt hc']

theorem sum1 (g : Nat → Int) : Spec.sum (0 + 1) g = g 0 := by simp [Spec.sum]
theorem sum2 (g : Nat → Int) : Spec.sum (1 + 1) g = g 0 + g 1 := by simp [Spec.sum, List.range_succ]

variable {p : Region} {luma : Int → Int → Int} {bd : Nat}

theorem get_ok (cur : ∀ r c : Nat, luma ((p.rectY + r : Nat) : Int) ((p.rectX + c : Nat) : Int) = p.px r c) (range : ∀ r c, p.px r c < 2 ^ bd)
    {r c : Nat} (hr : r < p.rectH) (hc : c < p.rectW) :
    ∃ n : Nat, p.get r c = some n ∧ (n : Int) = luma ((p.rectY + r : Nat) : Int) ((p.rectX + c : Nat) : Int) ∧ n < 2 ^ bd :=
  ⟨p.px r c, by unfold Region.get; rw [if_pos ⟨hr, hc⟩], (cur r c).symm, range r c⟩

theorem sample_ok (cur : ∀ r c : Nat, luma ((p.rectY + r : Nat) : Int) ((p.rectX + c : Nat) : Int) = p.px r c) (range : ∀ r c, p.px r c < 2 ^ bd)
    (hbd : bd = 8 ∨ bd = 10 ∨ bd = 12) {xdec ydec x0 y0 mx my r c : Nat} (hxd : xdec = 0 ∨ xdec = 1) (hyd : ydec = 0 ∨ ydec = 1) (hdec : ydec = 1 → xdec = 1)
    {sx sy mW mH : Nat} (hx : p.rectX + (x0 + min (c <<< xdec) mx) = min ((sx + c) * 2 ^ xdec) (mW - 2 ^ xdec))
    (hy : p.rectY + (y0 + min (r <<< ydec) my) = min ((sy + r) * 2 ^ ydec) (mH - 2 ^ ydec))
    (ix : x0 + min (c <<< xdec) mx + xdec < p.rectW) (iy : y0 + min (r <<< ydec) my + ydec < p.rectH) (hmW : 2 ^ xdec ≤ mW) (hmH : 2 ^ ydec ≤ mH) :
    cflSample p x0 y0 mx my xdec ydec r c = some (Spec.lumaSample luma sx sy mW mH xdec ydec r c) := by
  have hM : 2 ^ bd ≤ 4096 := by rcases hbd with rfl | rfl | rfl <;> decide
  unfold cflSample Spec.lumaSample
  simp only
  have ey : min ((sy : Int) * 2 ^ ydec + (r : Int) * 2 ^ ydec) ((mH : Int) - 2 ^ ydec) = ((p.rectY + (y0 + min (r <<< ydec) my) : Nat) : Int) := by
    rw [hy]
    rcases hyd with rfl | rfl <;> omega
  have ex : min (((sx : Int) + (c : Int)) * 2 ^ xdec) ((mW : Int) - 2 ^ xdec) = ((p.rectX + (x0 + min (c <<< xdec) mx) : Nat) : Int) := by
    rw [hx]
    rcases hxd with rfl | rfl <;> omega
  rw [ex, ey]
  generalize y0 + min (r <<< ydec) my = Y at *
  generalize x0 + min (c <<< xdec) mx = X at *
  have cast1 : ∀ a b : Nat, ((a + b : Nat) : Int) + ((1 : Nat) : Int) = ((a + (b + 1) : Nat) : Int) := fun a b => by omega
  have cast0 : ∀ a b : Nat, ((a + b : Nat) : Int) + ((0 : Nat) : Int) = ((a + b : Nat) : Int) := fun a b => by omega
  obtain ⟨n0, g0, e0, l0⟩ := get_ok cur range (show Y < p.rectH by omega) (show X < p.rectW by omega)
  rcases hxd with rfl | rfl
  · rcases hyd with rfl | rfl
    · rw [g0]
      simp only [Option.bind_some, sum1, cast0, ← e0, ne_eq, not_true, if_false]
      rw [if_pos (by rw [Nat.shiftLeft_eq]; omega), Nat.shiftLeft_eq]
      simp
    · exact absurd (hdec rfl) (by decide)
  · obtain ⟨n1, g1, e1, l1⟩ := get_ok cur range (show Y < p.rectH by omega) (show X + 1 < p.rectW by omega)
    rcases hyd with rfl | rfl
    · rw [g0, g1]
      simp only [Option.bind_some, sum1, sum2, cast0, cast1, ← e0, ← e1, ne_eq, not_true, if_false, if_true, Nat.one_ne_zero, not_false_eq_true]
      rw [if_pos (by rw [Nat.shiftLeft_eq]; omega), Nat.shiftLeft_eq]
      push_cast
      simp
    · obtain ⟨n2, g2, e2, l2⟩ := get_ok cur range (show Y + 1 < p.rectH by omega) (show X < p.rectW by omega)
      obtain ⟨n3, g3, e3, l3⟩ := get_ok cur range (show Y + 1 < p.rectH by omega) (show X + 1 < p.rectW by omega)
      rw [g0, g1, g2, g3]
      simp only [Option.bind_some, Option.map_some, sum2, cast0, cast1, ← e0, ← e1, ← e2, ← e3, ne_eq, if_true, Nat.one_ne_zero, not_false_eq_true]
      rw [if_pos (by rw [Nat.shiftLeft_eq]; omega), Nat.shiftLeft_eq]
      push_cast
      simp

theorem log2_side {n dec : Nat} (h : n ∈ [4, 8, 16, 32]) (hd : dec = 0 ∨ dec = 1) : 2 ^ (planeSide n dec).log2 = planeSide n dec ∧ 2 ≤ (planeSide n dec).log2 ∧
    4 ≤ planeSide n dec := by
  simp only [List.mem_cons, List.not_mem_nil, or_false] at h
  rcases hd with rfl | rfl <;> rcases h with rfl | rfl | rfl | rfl <;> decide

/-- The coefficients a chroma block is predicted from are the differences between its luma and the average of its luma. -/
theorem lumaAc_ok {b : LumaBlock} {xdec ydec mW mH : Nat}
    (cur : ∀ r c : Nat, luma ((p.rectY + r : Nat) : Int) ((p.rectX + c : Nat) : Int) = p.px r c) (range : ∀ r c, p.px r c < 2 ^ bd)
    (hbd : bd = 8 ∨ bd = 10 ∨ bd = 12) (hdec : ydec = 1 → xdec = 1)
    (hx : Side b.bw b.txW xdec b.boX p.rectX p.rectW b.wInB) (hy : Side b.bh b.txH ydec b.boY p.rectY p.rectH b.hInB)
    (mx : Spec.IsMaxLuma (p.rectX + 4 * b.boX) b.bw (2 ^ b.txW) (4 * b.wInB) mW)
    (my : Spec.IsMaxLuma (p.rectY + 4 * b.boY) b.bh (2 ^ b.txH) (4 * b.hInB) mH) :
    let w := planeSide b.bw xdec
    let h := planeSide b.bh ydec
    let L := Spec.lumaSample luma (((p.rectX / 4 + b.boX) / 2 ^ xdec * 4 : Nat) : Int) (((p.rectY / 4 + b.boY) / 2 ^ ydec * 4 : Nat) : Int) mW mH xdec ydec
    ∃ ac, lumaAc p b xdec ydec = some ac ∧ ∀ r < h, ∀ c < w,
      ac[r * w + c]? = some (L r c - Spec.round2 (Spec.sum h fun r => Spec.sum w fun c => L r c) (w.log2 + h.log2)) := by
  intro w h L
  obtain ⟨bX, rX, mX, x1, x2, x3, x4, x5⟩ := side_luma hx mx
  obtain ⟨bY, rY, mY, y1, y2, y3, y4, y5⟩ := side_luma hy my
  have start : ∀ {n t dec bo rect rectN inB bb : Nat}, Side n t dec bo rect rectN inB → sub8 bo n dec = some bb →
      (rect + 4 * bb) / 2 ^ dec = (rect / 4 + bo) / 2 ^ dec * 4 := by
    intro n t dec bo rect rectN inB bb hs he
    obtain ⟨s1, s2, s3, s4, s5, s6, s7, s8, s9, s10⟩ := hs
    have s5' := Nat.mod_eq_zero_of_dvd s5
    simp only [List.mem_cons, List.not_mem_nil, or_false] at s1
    unfold sub8 sub? at he
    rcases s4 with rfl | rfl
    · simp at he; subst he; omega
    · split at he
      · next hc =>
        have := s6 rfl hc.2
        rw [if_pos (by omega)] at he
        cases he
        omega
      · next hc =>
        cases he
        have : n ≠ 4 := fun h => hc ⟨by decide, h⟩
        rcases s1 with rfl | rfl | rfl | rfl <;> omega
  have sX := start hx x1
  have sY := start hy y1
  obtain ⟨lw1, lw2, lw3⟩ := log2_side hx.side hx.sampling
  obtain ⟨lh1, lh2, lh3⟩ := log2_side hy.side hy.sampling
  have big : ∀ {n t dec bo rect rectN inB m : Nat}, Side n t dec bo rect rectN inB → Spec.IsMaxLuma (rect + 4 * bo) n (2 ^ t) (4 * inB) m → 2 ^ dec ≤ m := by
    intro n t dec bo rect rectN inB m hs hm
    obtain ⟨k, k1, k2, k3, k4⟩ := hm
    have ht := hs.tx
    simp only [List.mem_cons, List.not_mem_nil, or_false] at ht
    rcases hs.sampling with rfl | rfl <;> rcases ht with rfl | rfl | rfl | rfl <;> omega
  have hsm : ∀ r < h, ∀ c < w, cflSample p (bX * 4) (bY * 4) mX mY xdec ydec r c = some (L r c) := by
    intro r hr c hc
    obtain ⟨a1, a2⟩ := x5 c hc
    obtain ⟨b1, b2⟩ := y5 r hr
    rw [sX] at a1
    rw [sY] at b1
    exact sample_ok cur range hbd hx.sampling hy.sampling hdec a1 b1 a2 b2 (big hx mx) (big hy my)
  have hk : ∀ k < w * h, cflSample p (bX * 4) (bY * 4) mX mY xdec ydec (k / w) (k % w) = some (L (k / w) (k % w)) := by
    intro k hk
    exact hsm _ (Nat.div_lt_of_lt_mul hk) _ (Nat.mod_lt _ (by show 0 < planeSide b.bw xdec; omega))
  unfold lumaAc
  simp only
  rw [x1, y1, Option.bind_some, Option.bind_some, x2, y2, Option.bind_some, Option.bind_some, x3, y3, Option.bind_some, Option.bind_some]
  rw [if_pos (fun k hk' => by rw [hk k hk']; rfl)]
  refine ⟨_, rfl, fun r hr c hc => ?_⟩
  have hlt : r * w + c < w * h := by
    have : (r + 1) * w ≤ h * w := Nat.mul_le_mul_right _ hr
    rw [Nat.mul_comm w h]
    rw [Nat.add_mul, Nat.one_mul] at this
    omega
  have hw0 : 0 < w := by show 0 < planeSide b.bw xdec; omega
  have e1 : (r * w + c) / w = r := by rw [Nat.mul_comm, Nat.mul_add_div hw0, Nat.div_eq_of_lt hc, Nat.add_zero]
  have e2 : (r * w + c) % w = c := by rw [Nat.mul_comm, Nat.mul_add_mod, Nat.mod_eq_of_lt hc]
  have hsum : ((List.range (w * h)).map fun k => (cflSample p (bX * 4) (bY * 4) mX mY xdec ydec (k / w) (k % w)).getD 0).sum =
      Spec.sum h fun r => Spec.sum w fun c => L r c := by
    rw [← sum_grid L hw0 h]
    congr 1
    refine List.map_congr_left fun k hk' => ?_
    rw [hk k (List.mem_range.mp hk')]
    rfl
  show (List.map (fun k => (cflSample p (bX * 4) (bY * 4) mX mY xdec ydec (k / w) (k % w)).getD 0 -
    ((((List.range (w * h)).map fun k => (cflSample p (bX * 4) (bY * 4) mX mY xdec ydec (k / w) (k % w)).getD 0).sum +
      ((1 <<< (w.log2 + h.log2 - 1) : Nat) : Int)) >>> (w.log2 + h.log2))) (List.range (w * h)))[r * w + c]? = _
  rw [hsum, List.getElem?_map, List.getElem?_range hlt, Option.map_some, e1, e2, hsm r hr c hc]
  unfold Spec.round2
  rw [if_neg (by show ¬ (planeSide b.bw xdec).log2 + (planeSide b.bh ydec).log2 = 0; omega), Nat.shiftLeft_eq, Nat.one_mul]
  push_cast
  rfl

theorem scaledLuma_eq (a l : Int) : scaledLuma a l = Spec.round2Signed (a * l) 6 := by
  unfold scaledLuma Spec.round2Signed Spec.round2
  simp only
  generalize a * l = v
  simp only [if_neg (show ¬ (6 : Nat) = 0 by decide)]
  rw [Nat.shiftRight_eq_div_pow, Int.shiftRight_eq_div_pow, Int.shiftRight_eq_div_pow]
  by_cases hv : v < 0
  · rw [if_pos hv, if_neg (by omega)]; omega
  · rw [if_neg hv, if_pos (by omega)]; omega

variable {s : Site} {S : Spec.Input}

/-- **C57**, chroma from luma.  `uv` is a chroma plane of the tile, `p` the luma plane, `b` the luma block. -/
theorem cfl_eq_decoder {uv : Region} (A : Agree uv s S) {b : LumaBlock} {mW mH : Nat}
    (cur : ∀ r c : Nat, luma ((p.rectY + r : Nat) : Int) ((p.rectX + c : Nat) : Int) = p.px r c) (range : ∀ r c, p.px r c < 2 ^ S.bitDepth)
    (hdec : uv.ydec = 1 → uv.xdec = 1)
    (hx : Side b.bw b.txW uv.xdec b.boX p.rectX p.rectW b.wInB) (hy : Side b.bh b.txH uv.ydec b.boY p.rectY p.rectH b.hInB)
    (mx : Spec.IsMaxLuma (p.rectX + 4 * b.boX) b.bw (2 ^ b.txW) (4 * b.wInB) mW)
    (my : Spec.IsMaxLuma (p.rectY + 4 * b.boY) b.bh (2 ^ b.txH) (4 * b.hInB) mH)
    (hw : s.w = planeSide b.bw uv.xdec) (hh : s.h = planeSide b.bh uv.ydec)
    (sx : S.x = (((p.rectX / 4 + b.boX) / 2 ^ uv.xdec * 4 : Nat) : Int)) (sy : S.y = (((p.rectY / 4 + b.boY) / 2 ^ uv.ydec * 4 : Nat) : Int))
    (alpha : Int) (ef sm : Bool) {tb : Nat} (hb : S.bitDepth ≤ tb) :
    ∃ ac px', lumaAc p b uv.xdec uv.ydec = some ac ∧ predictTx uv s S.bitDepth tb .cfl ef (.alpha alpha) ac sm = some px' ∧
      (∀ r < s.h, ∀ c < s.w, (px' (s.y + r) (s.x + c) : Int) =
        Spec.cfl (Spec.lumaSample luma S.x S.y mW mH uv.xdec uv.ydec) alpha S.dc s.w.log2 s.h.log2 S.bitDepth r c) ∧
      (∀ r c, ¬ (s.y ≤ r ∧ r < s.y + s.h ∧ s.x ≤ c ∧ c < s.x + s.w) → px' r c = uv.px r c) ∧
      (∀ r < s.h, ∀ c < s.w, px' (s.y + r) (s.x + c) < 2 ^ S.bitDepth) := by
  obtain ⟨ac, hac, hget⟩ := lumaAc_ok cur range A.bitDepth hdec hx hy mx my
  rw [← hw, ← hh, ← sx, ← sy] at hget
  have hpm : paethMode .cfl s.x s.y = .cfl := by simp [paethMode]
  have hang : edgeAngle (paethMode .cfl s.x s.y) (.alpha alpha) = 0 := by rw [hpm]; rfl
  obtain ⟨e, he, hA, hL, -⟩ := intraEdges_ok A .cfl ef (.alpha alpha) (fun _ => hang)
  rw [hang, hpm] at hA hL
  have hdc := dc_ok A hA (by omega) (left := e.left.last s.h) fun h0 => by
    refine hL.last' ?_
    unfold leftLen
    rw [if_pos (Or.inl (Or.inr h0))]
    omega
  have l1 := (log2_side hx.side hx.sampling).1
  have l2 := (log2_side hy.side hy.sampling).1
  rw [← hw] at l1
  rw [← hh] at l2
  have hf : ∃ f, predictIntra e .cfl s.x s.y s.w s.h S.bitDepth ac (.alpha alpha) (if (Mode.cfl.directional && ef) = true then some sm else none)
        (uv.rectX + s.x) (uv.rectY + s.y) uv.planeW uv.planeH = some f ∧
      ∀ r < s.h, ∀ c < s.w, Good S.bitDepth (f r c)
        (Spec.cfl (Spec.lumaSample luma S.x S.y mW mH uv.xdec uv.ydec) alpha S.dc s.w.log2 s.h.log2 S.bitDepth r c) := by
    have hM : 0 < 2 ^ S.bitDepth := Nat.pow_pos (by decide)
    by_cases ha : alpha = 0
    · subst ha
      refine ⟨_, pi_cfl0 (hm := hpm) .., fun r _ c _ => ?_⟩
      obtain ⟨n, g1, g2, g3⟩ := hdc r c
      refine ⟨n, g1, ?_, g3⟩
      unfold Spec.cfl Spec.clip1 Spec.round2Signed Spec.round2
      simp
      rw [show (32 : Int) >>> 6 = 0 from rfl, Int.add_zero]
      have : ((2 ^ S.bitDepth : Nat) : Int) = 2 ^ S.bitDepth := by push_cast; rfl
      omega
    · refine ⟨_, pi_cfl (hm := hpm) (ha := ha) .., fun r hr c hc => ?_⟩
      obtain ⟨n, g1, g2, g3⟩ := hdc 0 0
      have hg := hget r hr c hc
      unfold predCflInner
      rw [if_neg ha, g1, Option.bind_some, hg, Option.map_some, scaledLuma_eq, g2]
      unfold Spec.cfl Spec.clip1
      simp only
      rw [l1, l2, Nat.shiftLeft_eq, Nat.one_mul]
      generalize Spec.round2Signed _ 6 = v
      have : ((2 ^ S.bitDepth : Nat) : Int) = 2 ^ S.bitDepth := by push_cast; rfl
      refine ⟨_, rfl, ?_, ?_⟩
      · rw [← this]; omega
      · omega
  obtain ⟨f, hf1, hf2⟩ := hf
  obtain ⟨px', w1, w2⟩ := writeBlock_ok (px := uv.px) (x := s.x) (y := s.y) hb hf2
  refine ⟨ac, px', hac, ?_, w2⟩
  unfold predictTx
  rw [he, Option.bind_some]
  rw [hf1, Option.bind_some]
  exact w1

/-- A chroma plane of 32x32 pixels, half of the size of `exRegion` in each direction. -/
def exChroma : Region := ⟨fun r c => (r * 5 + c * 2) % 256, 0, 0, 32, 32, 32, 32, 1, 1⟩

/-- The chroma of a 16x16 luma block. -/
def exChromaSite : Site := ⟨8, 8, 8, 8, 4, 4, 16, 16, 0, 0⟩

@[inherit_doc exChromaSite] def exLumaBlock : LumaBlock := ⟨4, 4, 16, 16, 4, 4, 16, 16⟩

@[inherit_doc exChromaSite] def exChromaInput : Spec.Input :=
  ⟨fun r c => (((r.toNat * 5 + c.toNat * 2) % 256 : Nat) : Int), 8, 8, 8, 8, 31, 31, true, true, false, false, 8⟩

theorem exChromaAgree : Agree exChroma exChromaSite exChromaInput where
  cur := fun r c => by simp [exChromaInput, exChroma]
  range := fun r c => Nat.mod_lt _ (by decide)
  x := rfl
  y := rfl
  w := rfl
  h := rfl
  maxX := rfl
  maxY := rfl
  haveLeft := rfl
  haveAbove := rfl
  bitDepth := Or.inl rfl
  sizeW := by decide
  sizeH := by decide
  insideX := by decide
  insideY := by decide
  alignX := by decide
  alignY := by decide
  endX := Or.inl rfl
  endY := Or.inl rfl
  topRight := fun _ _ => by decide +kernel
  bottomLeft := fun _ _ => by decide +kernel

/-- The hypotheses of `cfl_eq_decoder` are met. -/
example : ∃ ac px', lumaAc exRegion exLumaBlock 1 1 = some ac ∧ predictTx exChroma exChromaSite 8 8 .cfl false (.alpha 9) ac false = some px' ∧
      ∀ r < 8, ∀ c < 8, (px' (8 + r) (8 + c) : Int) =
        Spec.cfl (Spec.lumaSample exInput.cur 8 8 32 32 1 1) 9 exChromaInput.dc 3 3 8 r c := by
  have hs : Side 16 4 1 4 0 64 16 := ⟨by decide, by decide, by decide, by decide, by decide, by decide, by decide, by decide, by decide, by decide⟩
  have hm : Spec.IsMaxLuma 16 16 (2 ^ 4) 64 32 := ⟨0, by decide, by decide, by decide, fun j h1 _ => by omega⟩
  obtain ⟨ac, px', h1, h2, h3, -⟩ := cfl_eq_decoder (p := exRegion) (luma := exInput.cur) (b := exLumaBlock) exChromaAgree exAgree.cur exAgree.range (by decide)
    hs hs hm hm rfl rfl rfl rfl 9 false false (tb := 8) (by decide)
  exact ⟨ac, px', h1, h2, fun r hr c hc => h3 r hr c hc⟩

/-- The prediction is not a constant one. -/
example : ((lumaAc exRegion exLumaBlock 1 1).bind fun ac => predictTx exChroma exChromaSite 8 8 .cfl false (.alpha 9) ac false).map
    (fun px => (px 8 8, px 8 15, px 15 8, px 15 15)) = some (77, 125, 0, 0) := by decide +kernel

end Rav1e.Intra

import Verif.Quant.Select
import Verif.Hdr.BuildThms
/-
C32: the quantizer indices chosen for a frame can be coded.
-/
namespace Rav1e.Quant

/-- What the frame header can code: the base index of luma is 1 to 255, the index of luma DC and, unless the
video is monochrome, those of chroma are 1 to 255 and at most 63 away from the base (`delta_q` has six bits
and a sign, section 5.9.13 of the specification); for monochrome the chroma entries are zero and not coded. -/
structure Codable (mono : Bool) (dc ac : List Nat) : Prop where
  dcLen : dc.length = 3
  acLen : ac.length = 3
  base : 1 ≤ ac.getD 0 0 ∧ ac.getD 0 0 ≤ 255
  luma : ∀ q ∈ dc.take 1, 1 ≤ q ∧ q ≤ 255 ∧ ac.getD 0 0 ≤ q + 63 ∧ q ≤ ac.getD 0 0 + 63
  chroma : mono = false → ∀ q ∈ dc ++ ac, 1 ≤ q ∧ q ≤ 255 ∧ ac.getD 0 0 ≤ q + 63 ∧ q ≤ ac.getD 0 0 + 63
  none : mono = true → ∀ q ∈ dc.drop 1 ++ ac.drop 1, q = 0

theorem clampQi_ok {lo hi q : Nat} (h : lo ≤ hi) :
    ∃ r, clampQi lo hi q = some r ∧ lo ≤ r ∧ r ≤ hi := by
  refine ⟨_, by rw [clampQi, if_pos h], ?_, ?_⟩ <;> omega

/-- C32: whatever the three target quantizers (any integers), bit depth and sampling, the choice of indices
does not panic and its result can be coded. -/
theorem chooseQi_codable (bs : Search) (hbs : bs.Ok) (qy qu qv : Int) (bd : Nat)
    (hbd : bd = 8 ∨ bd = 10 ∨ bd = 12) (mono : Bool) :
    ∃ dc ac, chooseQi bs qy qu qv bd mono = some (dc, ac) ∧ Codable mono dc ac := by
  obtain ⟨⟨_, d1, _, hd1, _⟩, ⟨_, a1, _, ha1, hlt, _⟩⟩ := select_nearest bs hbs qy bd hbd
  obtain ⟨⟨_, d2, _, hd2, _⟩, ⟨_, a2, _, ha2, _⟩⟩ := select_nearest bs hbs qu bd hbd
  obtain ⟨⟨_, d3, _, hd3, _⟩, ⟨_, a3, _, ha3, _⟩⟩ := select_nearest bs hbs qv bd hbd
  unfold chooseQi
  simp only [ha1, hd1, hd2, ha2, hd3, ha3, Option.bind_eq_bind, Option.bind_some]
  generalize hb : max a1 1 = base
  have hlh : max (base - 63) 1 ≤ min (base + 63) 255 := by omega
  obtain ⟨r1, e1, r1l, r1h⟩ := clampQi_ok (q := d1) hlh
  obtain ⟨r2, e2, r2l, r2h⟩ := clampQi_ok (q := d2) hlh
  obtain ⟨r3, e3, r3l, r3h⟩ := clampQi_ok (q := d3) hlh
  obtain ⟨r4, e4, r4l, r4h⟩ := clampQi_ok (q := a2) hlh
  obtain ⟨r5, e5, r5l, r5h⟩ := clampQi_ok (q := a3) hlh
  simp only [e1, e2, e3, e4, e5, Option.bind_some]
  cases mono
  · refine ⟨_, _, rfl, rfl, rfl, by simp; omega, by simp; omega, fun _ => ?_, by simp⟩
    simp; omega
  · refine ⟨_, _, rfl, rfl, rfl, by simp; omega, by simp; omega, by simp, by simp⟩

/-- The same fact as the header theorems (C14) need it: the part of their assumption about the late decisions
that concerns the quantizers holds of every choice. -/
theorem chooseQi_late (bs : Search) (hbs : bs.Ok) (qy qu qv : Int) (s : Hdr.Seq) (l : Hdr.Late)
    (hbd : s.bitDepth = 8 ∨ s.bitDepth = 10 ∨ s.bitDepth = 12)
    (h : chooseQi bs qy qu qv s.bitDepth (decide (s.chroma = .cs400)) = some (l.dcQi, l.acQi)) :
    l.acQi.length = 3 ∧ l.dcQi.length = 3 ∧ (1 ≤ l.acQi.getD 0 0 ∧ l.acQi.getD 0 0 ≤ 255) ∧
    ∀ q, (q ∈ l.dcQi.take 1 ∨ s.chroma ≠ .cs400 ∧ q ∈ l.dcQi ++ l.acQi) →
      l.acQi.getD 0 0 ≤ q + 63 ∧ q ≤ l.acQi.getD 0 0 + 63 := by
  obtain ⟨dc, ac, h1, h2⟩ := chooseQi_codable bs hbs qy qu qv s.bitDepth hbd (decide (s.chroma = .cs400))
  rw [h] at h1
  injection h1 with h1
  injection h1 with hd ha
  subst hd ha
  refine ⟨h2.acLen, h2.dcLen, h2.base, fun q hq => ?_⟩
  rcases hq with hq | ⟨hm, hq⟩
  · exact (h2.luma q hq).2.2
  · exact (h2.chroma (by simpa using hm) q hq).2.2

/-- A case where both clamps act, and a monochrome one. -/
example : chooseQi linearSearch 200 8 20000 8 false = some ([152, 73, 199], [136, 73, 199]) ∧
    chooseQi linearSearch 0 0 0 10 true = some ([1, 0, 0], [1, 0, 0]) := by
  decide +kernel

end Rav1e.Quant

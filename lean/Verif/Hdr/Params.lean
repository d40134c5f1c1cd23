import Verif.Hdr.TileHdr

/-!
# Frame header: quantizer, segmentation, filters
-/

namespace Rav1e.Hdr
open Av1Spec

theorem codes_withAt {α β : Type} {xs : List α} {i : Nat} {k : α → W} {p : Parser β} {b : β}
    (h : ∀ x, xs[i]? = some x → Codes (k x) p b) : Codes (withAt xs i k) p b := by
  unfold withAt
  cases hx : xs[i]? with
  | none => exact Codes.fail
  | some x => exact h x hx

theorem zipWith_eq_zip_map {α β γ : Type} (f : α → β → γ) : ∀ (xs : List α) (ys : List β),
    xs.zipWith f ys = (xs.zip ys).map fun p => f p.1 p.2
  | [], _ => by simp
  | _ :: _, [] => by simp
  | x :: xs, y :: ys => by simp [zipWith_eq_zip_map f xs ys]

/-! ## Quantizer -/

/-- The expected quantizer. -/
def Fi.quantHdr (fi : Fi) : Quant where
  base := fi.baseQ
  yDc := fi.dcDelta.getD 0 0
  uDc := if fi.seq.chroma = .cs400 then 0 else fi.dcDelta.getD 1 0
  uAc := if fi.seq.chroma = .cs400 then 0 else fi.acDelta.getD 1 0
  vDc := if fi.seq.chroma = .cs400 then 0 else fi.dcDelta.getD 2 0
  vAc := if fi.seq.chroma = .cs400 then 0 else fi.acDelta.getD 2 0

theorem codes_deltaQ (d : Int) : Codes (writeDeltaQ d) deltaQ d := by
  unfold writeDeltaQ deltaQ
  refine Codes.bind (codes_bit _) ?_
  refine codes_opt (by simp) (fun _ => ?_) (fun h => by simpa using (not_not.1 h).symm)
  exact Codes.assert fun _ => codes_slit (by decide) d

theorem codes_quant (fi : Fi) {w h : Nat} :
    Codes (writeQuant fi) (quantParams (fi.seq.hdr w h)) fi.quantHdr := by
  unfold writeQuant quantParams
  refine codes_withAt fun d0 hd0 => codes_withAt fun d1 hd1 => codes_withAt fun d2 hd2 =>
    codes_withAt fun a0 ha0 => codes_withAt fun a1 ha1 => codes_withAt fun a2 ha2 => ?_
  refine Codes.assert fun _ => ?_
  refine Codes.bind (codes_lit _ _) (Codes.bind (codes_deltaQ d0) ?_)
  refine Codes.bind (a := (if fi.seq.chroma = .cs400 then 0 else d1,
    if fi.seq.chroma = .cs400 then 0 else a1, if fi.seq.chroma = .cs400 then 0 else d2,
    if fi.seq.chroma = .cs400 then 0 else a2)) ?_ ?_
  · refine codes_opt ?_ (fun hc => ?_) (fun hc => ?_)
    · simp [Seq.hdr]
    · have hs : (fi.seq.hdr w h).separateUv = true := by simp [Seq.hdr, hc]
      simp only [hs, opt_true, hc, if_false]
      refine Codes.assert fun _ => Codes.bind (codes_bit _) ?_
      refine Codes.bind (codes_deltaQ d1) (Codes.bind (codes_deltaQ a1) ?_)
      refine Codes.ite Iff.rfl (fun _ => ?_) (fun hd => ?_)
      · refine Codes.bind (codes_deltaQ d2) (Codes.map (codes_deltaQ a2) rfl)
      · simp only [Bool.or_eq_true, bne_iff_ne, ne_eq, not_or, not_not] at hd
        rw [hd.1, hd.2]
        exact Codes.pure _
    · have hc : fi.seq.chroma = .cs400 := by simpa using hc
      simp [hc]
  · rw [← app_nil (bit false)]
    refine Codes.bind (codes_bit _) (Codes.reject rfl ?_)
    refine Codes.eq (Codes.pure _) ?_
    simp [Fi.quantHdr, List.getD, hd0, hd1, hd2, ha1, ha2]

/-! ## Segmentation -/

/-- Shape and range of the segmentation parameters. -/
structure SegOk (fi : Fi) : Prop where
  rows : fi.segm.features.length = 8
  rows' : fi.segm.data.length = 8
  cols : ∀ f ∈ fi.segm.features, f.length = 8
  cols' : ∀ d ∈ fi.segm.data, d.length = 8
  /-- the values stay within the limits of the specification, not only within their bits -/
  lim : ∀ fd ∈ fi.segm.features.zip fi.segm.data, ∀ x ∈ segFeature.zip (fd.1.zip fd.2),
    x.2.1 = true → x.1.2 = true → -(2 ^ x.1.1 - 1 : Int) ≤ x.2.2

/-- The expected segmentation parameters. -/
def Fi.segHdr (fi : Fi) : Seg :=
  if fi.segm.enabled then ⟨true, fi.segm.updateMap, false, fi.segm.updateData, fi.segm.spec⟩
  else ⟨false, false, false, false, SegData.cleared⟩

/-- One feature: entry of the encoder's table against the decoder's. -/
theorem codes_segFeature (bits limit : Nat) (signed on : Bool) (v : Int) (hl : limit = 2 ^ bits - 1)
    (hr : on = true → signed = true → -(2 ^ bits - 1 : Int) ≤ v) :
    Codes (writeSegFeature ((bits, signed), on, v)) (Av1Spec.segFeature (bits, signed, limit))
      (on, if on then v else 0) := by
  have hcast : ((limit : Nat) : Int) = 2 ^ bits - 1 := by
    have : 1 ≤ 2 ^ bits := Nat.one_le_two_pow
    rw [hl, Nat.cast_sub this]; push_cast; rfl
  unfold writeSegFeature Av1Spec.segFeature
  dsimp only
  refine Codes.bind (codes_bit _) ?_
  refine Codes.ite Iff.rfl (fun ho => ?_) (fun ho => ?_)
  · rw [ho, if_pos rfl]
    refine Codes.ite Iff.rfl (fun hs => ?_) (fun hs => ?_)
    · intro bs hbs tail
      have hv : v < 2 ^ bits := by
        unfold slit at hbs
        split at hbs
        · rename_i h; simpa using h.2
        · exact absurd hbs (by simp)
      have hlo := hr ho hs
      have := Codes.map (b := (true, v)) (g := fun x : Int => (true, clip3 (-(limit : Int)) limit x))
        (codes_slit (n := bits + 1) (by omega) v)
        (by
          unfold clip3
          rw [hcast]
          rw [if_neg (by omega), if_neg (by omega)])
      rw [Nat.add_comm 1 bits]
      exact this bs hbs tail
    · refine Codes.assert fun h0 => ?_
      intro bs hbs tail
      have hv : v.toNat < 2 ^ bits := by
        unfold lit at hbs
        split at hbs
        · assumption
        · exact absurd hbs (by simp)
      have := Codes.map (b := (true, v)) (g := fun x : Nat => (true, clip3 0 limit x))
        (codes_lit bits v.toNat)
        (by
          have hz : ((v.toNat : Nat) : Int) = v := by omega
          have : v < 2 ^ bits := by zify at hv; rw [hz] at hv; exact hv
          unfold clip3
          rw [hcast, hz, if_neg (by omega), if_neg (by omega)])
      exact this bs hbs tail
  · have : on = false := by simpa using ho
    rw [this]
    exact Codes.pure _

/-- The encoder's table against the decoder's. -/
theorem segTables : featureTable = segFeature.map fun x => (x.1, x.2, 2 ^ x.1 - 1) := by decide

theorem codes_segRow (f : List Bool) (d : List Int) (hf : f.length = 8) (hd : d.length = 8)
    (hl : ∀ x ∈ segFeature.zip (f.zip d), x.2.1 = true → x.1.2 = true →
      -(2 ^ x.1.1 - 1 : Int) ≤ x.2.2) :
    Codes (forW (segFeature.zip (f.zip d)) writeSegFeature)
      (Parser.each Av1Spec.segFeature featureTable)
      ((f.zip d).map fun x => (x.1, if x.1 then x.2 else 0)) := by
  have hlen : (f.zip d).length = 8 := by simp [hf, hd]
  have e : (f.zip d).map (fun x => (x.1, if x.1 then x.2 else 0)) =
      (segFeature.zip (f.zip d)).map fun x => (x.2.1, if x.2.1 then x.2.2 else 0) := by
    have : (segFeature.zip (f.zip d)).map Prod.snd = f.zip d :=
      List.map_snd_zip (by rw [hlen]; decide)
    conv_lhs => rw [← this]
    rw [List.map_map]; rfl
  rw [e]
  refine codes_each (r := fun x : (Nat × Bool) × Bool × Int => (x.2.1, if x.2.1 then x.2.2 else 0)) ?_
  refine forall₂_of_get (by rw [List.length_zip, hlen]; decide) fun i x y hx hy => ?_
  obtain ⟨⟨bits, signed⟩, on, v⟩ := x
  have hmem := List.mem_of_getElem? hx
  have h1 : segFeature[i]? = some (bits, signed) := by
    rw [List.getElem?_zip_eq_some] at hx; exact hx.1
  have hy' : y = (bits, signed, 2 ^ bits - 1) := by
    rw [segTables, List.getElem?_map, h1] at hy
    exact (Option.some.inj hy).symm
  rw [hy']
  exact codes_segFeature bits _ signed on v rfl (hl _ hmem)

theorem codes_seg (fi : Fi) (ok : SegOk fi) (prev : SegData)
    (hp : fi.segm.enabled = true → fi.segm.updateData = false → prev = fi.segm.spec) :
    Codes (writeSegm fi) (segParams fi.primaryRef prev) fi.segHdr := by
  unfold writeSegm segParams
  refine Codes.assert fun he => ?_
  rw [he]
  refine Codes.bind (codes_bit _) ?_
  refine Codes.ite Iff.rfl (fun hen => ?_) (fun hen => ?_)
  · refine Codes.bind (a := (fi.segm.updateMap, false, fi.segm.updateData)) ?_ ?_
    · refine Codes.ite (by rfl) (fun h7 => ?_) (fun h7 => ?_)
      · refine Codes.assert fun h1 => ?_
        rw [← app_nil (assertW _)]
        refine Codes.assert fun h2 => ?_
        rw [h1, h2]; exact Codes.pure _
      · refine Codes.bind (codes_bit _) ?_
        refine Codes.bind (a := false) (codes_opt Iff.rfl (fun _ => codes_bit _) (fun _ => rfl)) ?_
        exact Codes.map (codes_bit _) rfl
    · refine Codes.map (a := fi.segm.spec) ?_ (by simp [Fi.segHdr, hen])
      refine codes_opt Iff.rfl (fun hu => ?_) (fun hu => hp hen (by simpa using hu))
      have hrows := codes_times (n := 8) (xs := fi.segm.features.zip fi.segm.data)
        (g := fun x : List Bool × List Int => forW (segFeature.zip (x.1.zip x.2)) writeSegFeature)
        (p := Parser.each Av1Spec.segFeature featureTable)
        (r := fun x => (x.1.zip x.2).map fun y => (y.1, if y.1 then y.2 else 0))
        (by simp [ok.rows, ok.rows'])
        (fun x hx => codes_segRow x.1 x.2 (ok.cols _ (List.of_mem_zip hx).1)
          (ok.cols' _ (List.of_mem_zip hx).2) (ok.lim x hx))
      refine Codes.map hrows ?_
      unfold Segm.spec
      rw [if_pos hen]
      congr 1
      · rw [List.map_map]
        have : ∀ (xs : List (List Bool)) (ys : List (List Int)), xs.length = ys.length →
            (∀ f ∈ xs, f.length = 8) → (∀ d ∈ ys, d.length = 8) →
            (xs.zip ys).map ((fun x : List (Bool × Int) => x.map (·.1)) ∘
              fun x => (x.1.zip x.2).map fun y => (y.1, if y.1 then y.2 else 0)) = xs := by
          intro xs
          induction xs with
          | nil => intros; rfl
          | cons x xs ih =>
            intro ys hl h1 h2
            cases ys with
            | nil => simp at hl
            | cons y ys =>
              simp only [List.zip_cons_cons, List.map_cons, Function.comp_apply, List.map_map]
              congr 1
              · have : (x.zip y).map ((fun z : Bool × Int => z.1) ∘
                    fun y => (y.1, if y.1 then y.2 else 0)) = (x.zip y).map Prod.fst := rfl
                rw [this]
                exact List.map_fst_zip (by rw [h1 x (by simp), h2 y (by simp)])
              · have := ih ys (by simpa using hl) (fun f hf => h1 f (by simp [hf]))
                  (fun d hd => h2 d (by simp [hd]))
                simpa [Function.comp_def] using this
        exact this _ _ (by rw [ok.rows, ok.rows']) ok.cols ok.cols'
      · rw [List.map_map, zipWith_eq_zip_map]
        apply List.map_congr_left
        intro x _
        simp only [Function.comp_apply, List.map_map]
        rw [zipWith_eq_zip_map]; rfl
  · refine Codes.eq (Codes.pure _) ?_
    simp [Fi.segHdr, hen]

end Rav1e.Hdr

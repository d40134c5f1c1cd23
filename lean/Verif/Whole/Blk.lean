import Verif.Whole.Rt

/-!
# Every block, with all that is written for it
-/

namespace Rav1e.Whole

open Spec (Tok Out St takeKind on)
open Coef (num Cx)
open Resid (px args txbOf CoefsOk)
open Block (Size EntryOk Entry place LeafOk)
open Mvref (GeoOk)
open TxSize (Good TileOk Rect updF updG)

variable {C : Cfg} {X : Nat → Nat → Extra}

theorem inter_eq {e : Entry} (E : EntryOk C.toCfg e) : (residOf C X e).inter = Spec.inter (place C.toCfg e) := by
  unfold residOf codedOf Resid.Coded.inter Spec.inter place Block.hdrOf
  dsimp only
  by_cases h : e.ch.mode = .intra
  · have := (E.intra h).mode
    simp only [h, if_true]
    rw [decide_eq_decide]
    have hi : Block.Spec.intraInfo.mode = .intra := rfl
    simp only [hi, ne_eq, not_true_eq_false, iff_false]
    omega
  · simp only [h, if_false]
    rw [decide_eq_decide]
    have := modeOf_intra e.ch.mode
    unfold modeIdx
    constructor
    · intro _; exact fun hm => h (this.1 hm)
    · intro _; omega

theorem skip_eq (e : Entry) : (place C.toCfg e).hdr.skip = e.ch.skip := by
  unfold place Block.hdrOf
  split_ifs <;> rfl

theorem placed (G : GeoOk C.toCfg.par.g) {e : Entry} (hs : Size e.w e.h) (hx : e.x < C.cols) (hy : e.y < C.rows) (mx : e.x % e.w = 0) (my : e.y % e.h = 0) :
    Resid.Placed C.toCfg.par.g (residOf C X e) := by
  obtain ⟨s1, s2, s3⟩ := bsOf_size hs
  have g1 : C.y % 16 = 0 := G.row0
  have g2 : C.x % 16 = 0 := G.col0
  refine ⟨?_, ?_, ?_, ?_, ?_, ?_, s3⟩
  · show C.y ≤ C.y + e.y; omega
  · show C.y + e.y < C.y + C.rows; omega
  · show C.x ≤ C.x + e.x; omega
  · show C.x + e.x < C.x + C.cols; omega
  · show (C.y + e.y) % (bsOf e.w e.h).heightMi = 0
    rw [s2]
    unfold Size at hs
    simp only [List.mem_cons, Prod.mk.injEq, List.not_mem_nil, or_false] at hs
    have : e.h = 1 ∨ e.h = 2 ∨ e.h = 4 ∨ e.h = 8 ∨ e.h = 16 := by omega
    rcases this with h | h | h | h | h <;> rw [h] at my ⊢ <;> omega
  · show (C.x + e.x) % (bsOf e.w e.h).widthMi = 0
    rw [s1]
    unfold Size at hs
    simp only [List.mem_cons, Prod.mk.injEq, List.not_mem_nil, or_false] at hs
    have : e.w = 1 ∨ e.w = 2 ∨ e.w = 4 ∨ e.w = 8 ∨ e.w = 16 := by omega
    rcases this with h | h | h | h | h <;> rw [h] at mx ⊢ <;> omega

theorem sizeHdr_eq {e : Entry} (E : EntryOk C.toCfg e) (hs : Size e.w e.h) : Spec.sizeHdr (place C.toCfg e) = (residOf C X e).base.hdr := by
  obtain ⟨s1, s2, -⟩ := bsOf_size hs
  unfold Spec.sizeHdr
  rw [← inter_eq (X := X) E, skip_eq]
  show _ = (⟨C.y + e.y, C.x + e.x, (bsOf e.w e.h).widthMi, (bsOf e.w e.h).heightMi, (residOf C X e).inter, e.ch.skip⟩ : TxSize.Spec.Hdr)
  rw [s1, s2]
  rfl

theorem resid_read (G : GeoOk C.toCfg.par.g) {e : Entry} (E : EntryOk C.toCfg e) (hs : Size e.w e.h)
    (itx : Nat → Nat → TxSize.Spec.Tx) (D : Resid.Spec.Dec) :
    C.head.frame.readBlock num itx (Spec.residHdr (place C.toCfg e) (px (X e.x e.y).tx)) D = C.head.frame.readBlock num itx (residOf C X e).hdr D := by
  obtain ⟨s1, s2, -⟩ := bsOf_size hs
  have hh : Spec.residHdr (place C.toCfg e) (px (X e.x e.y).tx) =
      { (residOf C X e).hdr with yMode := (Block.hdrOf C.toCfg e).yMode, uvMode := (Block.hdrOf C.toCfg e).uvMode } := by
    unfold Spec.residHdr
    rw [← inter_eq (X := X) E, skip_eq]
    show _ = (⟨C.y + e.y, C.x + e.x, (bsOf e.w e.h).widthMi, (bsOf e.w e.h).heightMi, (residOf C X e).inter, e.ch.skip, px (X e.x e.y).tx,
      (Block.hdrOf C.toCfg e).yMode, (Block.hdrOf C.toCfg e).uvMode⟩ : Resid.Spec.Hdr)
    rw [s1, s2]
    rfl
  have hi : (residOf C X e).inter = false → e.ch.mode = .intra := by
    intro h
    rw [inter_eq E] at h
    unfold Spec.inter place Block.hdrOf at h
    by_contra hm
    simp only [hm, if_false, decide_eq_false_iff_not, not_not] at h
    exact hm ((modeOf_intra _).1 h)
  rw [hh]
  refine readBlock_congr num itx (fun h => ?_) (fun h hc => ?_) D
  · have hm := hi h
    show (Block.hdrOf C.toCfg e).yMode = if e.ch.mode = .intra then e.ch.intraMode else modeIdx e.ch.mode
    unfold Block.hdrOf
    rw [if_pos hm, if_pos hm]
  · have hm := hi h
    have g1 : C.y % 16 = 0 := G.row0
    have g2 : C.x % 16 = 0 := G.col0
    have hc' : Block.hasChroma C.toCfg e.x e.y e.w e.h = true := by
      rw [← Block.chroma_eq (by omega) (by omega)]
      unfold Resid.Spec.Frame.hasChroma at hc
      unfold Block.Spec.hasChroma
      have p1 : (residOf C X e).hdr.bh4 = e.h := s2
      have p2 : (residOf C X e).hdr.bw4 = e.w := s1
      have p3 : (residOf C X e).hdr.row = C.y + e.y := rfl
      have p4 : (residOf C X e).hdr.col = C.x + e.x := rfl
      have p5 : C.head.frame.subY = 1 ↔ C.toCfg.par.subY = true := by
        show C.toCfg.par.subY.toNat = 1 ↔ _
        cases C.toCfg.par.subY <;> simp
      have p6 : C.head.frame.subX = 1 ↔ C.toCfg.par.subX = true := by
        show C.toCfg.par.subX.toNat = 1 ↔ _
        cases C.toCfg.par.subX <;> simp
      have p7 : C.head.frame.mono = C.toCfg.par.monochrome := rfl
      simp only [p1, p2, p3, p4, p5, p6, p7] at hc
      exact hc
    show (Block.hdrOf C.toCfg e).uvMode = e.ch.uvMode
    unfold Block.hdrOf
    rw [if_pos hm]
    dsimp only
    unfold Block.uvOf
    rw [if_pos hc']

/-- One block. -/
theorem block_step (G : GeoOk C.toCfg.par.g) (hd : (C.xdec, C.ydec) ∈ [(0, 0), (1, 0), (1, 1)]) (hw : C.cols ≤ 1024) {lo hi : Nat} {F H : Nat → Nat} {S : State} {D : St}
    (I : Inv C X lo F H S D) (T : TileOk C.toCfg.par.g C.resid.toCfg lo hi) {x y w h : Nat} (hs : Size w h) (hx : x < C.cols) (hy : y < C.rows) (mx : x % w = 0)
    (my : y % h = 0) {ch : Block.Choice} {s : List Block.Spec.Sym} {B : Block.State} (he : Block.encodeBlock C.toCfg S.blk x y w h ch = some (s, B))
    {i : Mvref.Spec.Info} {b : Block.Spec.Blk} (L : LeafOk C.toCfg S.blk B s x y w h i b) (hE : ∀ e ∈ B.log, Decided C X e)
    (K : Good C.toCfg.par.g lo hi F H ⟨C.y + y, C.x + x, w, h⟩) :
    Done C X lo (updF F ⟨C.y + y, C.x + x, w, h⟩) (updG H ⟨C.y + y, C.x + x, w, h⟩) (encodeBlock C X S x y w h ch) B
      (Spec.readBlock num C.head D (C.y + y) (C.x + x) w h) := by
  have hlog : ∃ seg stack, B.log = S.blk.log ++ [⟨x, y, w, h, { ch with seg := seg }, stack⟩] := by
    unfold Block.encodeBlock at he
    simp only [Option.bind_eq_bind, Option.bind_eq_some_iff, Option.some.injEq, Prod.mk.injEq] at he
    obtain ⟨⟨s0, seg⟩, -, ⟨s1, stack⟩, -, -, rfl⟩ := he
    exact ⟨seg, stack, rfl⟩
  obtain ⟨seg, stack, hlog⟩ := hlog
  have hb : b = place C.toCfg ⟨x, y, w, h, { ch with seg := seg }, stack⟩ := by
    have := L.places
    rw [hlog, List.map_append, List.map_cons, List.map_nil] at this
    exact (List.singleton_inj.1 (List.append_cancel_left this)).symm
  obtain ⟨E, HC, HK⟩ := hE ⟨x, y, w, h, { ch with seg := seg }, stack⟩ (by rw [hlog]; simp)
  have hres : codedOf C (X x y) x y w h ch = residOf C X ⟨x, y, w, h, { ch with seg := seg }, stack⟩ := rfl
  have P := placed (X := X) (e := ⟨x, y, w, h, { ch with seg := seg }, stack⟩) G hs hx hy mx my
  have hsz := sizeHdr_eq (X := X) E hs
  have hrd := resid_read (X := X) G E hs
  obtain ⟨s1, s2, -⟩ := bsOf_size hs
  have hrow : (residOf C X ⟨x, y, w, h, { ch with seg := seg }, stack⟩).row = C.y + y := rfl
  have hcol : (residOf C X ⟨x, y, w, h, { ch with seg := seg }, stack⟩).col = C.x + x := rfl
  have hwm : (residOf C X ⟨x, y, w, h, { ch with seg := seg }, stack⟩).bs.widthMi = w := s1
  have hhm : (residOf C X ⟨x, y, w, h, { ch with seg := seg }, stack⟩).bs.heightMi = h := s2
  have htx : (residOf C X ⟨x, y, w, h, { ch with seg := seg }, stack⟩).tx = (X x y).tx := rfl
  have hsk : (residOf C X ⟨x, y, w, h, { ch with seg := seg }, stack⟩).skip = ch.skip := rfl
  have hout : outOf C X ⟨x, y, w, h, { ch with seg := seg }, stack⟩ =
      ⟨b, px (X x y).tx, txbsOf C (residOf C X ⟨x, y, w, h, { ch with seg := seg }, stack⟩)⟩ := by rw [hb]; rfl
  rw [← hb] at hsz hrd
  generalize residOf C X ⟨x, y, w, h, { ch with seg := seg }, stack⟩ = r at *
  have hrect : r.base.rect = ⟨C.y + y, C.x + x, w, h⟩ := by
    unfold Resid.Coded.base TxSize.Coded.rect
    rw [hrow, hcol, hwm, hhm]
  rw [← hrect] at K ⊢
  obtain ⟨D1, rd1, A⟩ := TxSize.block_rt K T HC.tx I.rel I.data
  have hat : TxSize.encodeAt C.resid.toCfg C.toCfg.par.g.rowStart C.toCfg.par.g.colStart S.size r.base =
      TxSize.encodeTx C.resid.toCfg S.size x y ⟨w, h, r.inter, r.skip⟩ (r.tx.width, r.tx.height) := by
    unfold TxSize.encodeAt
    have e1 : r.base.col - C.toCfg.par.g.colStart = x := by
      show r.col - C.x = x
      rw [hcol]; omega
    have e2 : r.base.row - C.toCfg.par.g.rowStart = y := by
      show r.row - C.y = y
      rw [hrow]; omega
    rw [e1, e2]
    show TxSize.encodeTx C.resid.toCfg S.size x y ⟨r.bs.widthMi, r.bs.heightMi, r.inter, r.skip⟩ _ = _
    rw [hwm, hhm]
    rfl
  rw [hat] at rd1 A
  have O := cor (C := C) G hd hw
  obtain ⟨jobs, hj, Bk⟩ := Resid.block_rt (itx := D1.itx) O P HC HK (fun q c h1 h2 h3 => A.inn q c h1 h2 h3)
  obtain ⟨t, cx', c', types', j1, -, j3, j4⟩ := Bk S.cx D.resid.ctx D.resid.types I.cx
  have j1' : Resid.runJobs jobs S.cx = some (t, cx') := by
    have := j1 []
    rw [List.append_nil] at this
    rw [this, Resid.runJobs]
    simp
  have hsize : D1.txSize = px (X x y).tx := by rw [A.size, ← htx]; rfl
  refine ⟨s.map .mode ++ (TxSize.encodeTx C.resid.toCfg S.size x y ⟨w, h, r.inter, r.skip⟩ (r.tx.width, r.tx.height)).1.map .size ++ t.map .coef,
    ⟨B, (TxSize.encodeTx C.resid.toCfg S.size x y ⟨w, h, r.inter, r.skip⟩ (r.tx.width, r.tx.height)).2, cx'⟩, ?_, rfl, ⟨D.out ++ [⟨b, px (X x y).tx, (args jobs).map (txbOf C.resid)⟩], D1.store (Spec.sizeHdr b), ⟨c', types'⟩⟩, fun rest => ?_, ?_⟩
  · unfold encodeBlock
    rw [he]
    simp only [Option.bind_eq_bind, Option.bind_some]
    rw [hres, hj]
    simp only [Option.bind_some]
    rw [j1']
    rfl
  · unfold Spec.readBlock
    simp only [List.append_assoc]
    rw [on_mode (b := b) (fun rest => by rw [I.blocks]; exact L.read rest)]
    simp only [Option.bind_eq_bind, Option.bind_some]
    rw [on_size (b := D1) (fun rest => by rw [hsz]; exact rd1 rest)]
    simp only [Option.bind_some]
    rw [hsize, on_coef (b := ((args jobs).map (txbOf C.resid), ⟨c', types'⟩)) (fun rest => by rw [hrd]; exact j4 rest)]
    simp only [Option.bind_some]
  · refine ⟨?_, ?_, ?_, j3⟩
    · show D.out ++ _ = _
      rw [hlog, List.map_append, ← I.out, List.map_cons, List.map_nil, hout]
      unfold txbsOf
      rw [hj]
      rfl
    · intro h
      have := A.rel h
      exact ⟨this.above, this.left⟩
    · show TxSize.DataRel _ _ _ _ (D1.store (Spec.sizeHdr b))
      rw [hsz]
      exact I.data.next K T A

end Rav1e.Whole

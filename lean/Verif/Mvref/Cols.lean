import Verif.Mvref.Area

/-!
# The columns to the left of a block

They are the rows above it when rows and columns change places.
-/

namespace Rav1e.Mvref

open Spec (Entry St Info Input Blk Geo)

def Geo.T (g : Geo) : Geo := ⟨g.miCols, g.miRows, g.colStart, g.colEnd, g.rowStart, g.rowEnd⟩

def Blk.T (b : Blk) : Blk := ⟨b.col, b.row, b.bh4, b.bw4, b.info⟩

def Input.T (p : Input) : Input where
  g := Geo.T p.g
  d := fun r c => (p.d c r).map Blk.T
  miRow := p.miCol
  miCol := p.miRow
  bw4 := p.bh4
  bh4 := p.bw4
  ref0 := p.ref0
  ref1 := p.ref1
  signBias := p.signBias

def Block.T (b : Block) : Block := { b with n4w := b.n4h, n4h := b.n4w }

def Tile.T (t : Tile) : Tile := ⟨t.y, t.x, t.rows, t.cols, t.frameRows, t.frameCols, fun r c => (t.data c r).T⟩

def Env.T (e : Env) : Env := { e with t := e.t.T, x := e.y, y := e.x, w := e.h, h := e.w }

variable {e : Env} {p : Input}

theorem in_T {g : Geo} {i j : Nat} : In (Geo.T g) i j ↔ In g j i := by
  unfold In Geo.T
  constructor <;> (rintro ⟨h1, h2, h3, h4⟩; exact ⟨h3, h4, h1, h2⟩)

theorem some_T {r c : Nat} {b : Blk} : (Input.T p).d r c = some b ↔ p.d c r = some (Blk.T b) := by
  show (p.d c r).map Blk.T = some b ↔ _
  cases h : p.d c r with
  | none => simp
  | some b' =>
    simp only [Option.map_some, Option.some.injEq]
    constructor <;> (rintro h; first | rw [← h] | rw [h]) <;> rfl

theorem isSome_T {r c : Nat} : ((Input.T p).d r c).isSome = (p.d c r).isSome := by
  show ((p.d c r).map Blk.T).isSome = _
  rw [Option.isSome_map]

theorem ctx_T (C : Ctx p) : Ctx (Input.T p) where
  geo := ⟨C.geo.col0, C.geo.row0, C.geo.cols, C.geo.rows, C.geo.colLe, C.geo.rowLe, C.geo.colEnd, C.geo.rowEnd⟩
  wf := {
    covers := fun h => by
      have := C.wf.covers (some_T.mp h)
      exact ⟨this.2.2.1, this.2.2.2, this.1, this.2.1⟩
    sized := fun h => by
      have := C.wf.sized (some_T.mp h)
      exact ⟨this.high, this.wide, this.col, this.row⟩
    same := fun h hc => some_T.mpr (C.wf.same (some_T.mp h) ⟨hc.2.2.1, hc.2.2.2, hc.1, hc.2.1⟩) }
  sized := ⟨C.sized.high, C.sized.wide, C.sized.col, C.sized.row⟩
  inTile := in_T.mpr C.inTile
  above := fun hi h1 h2 => by rw [isSome_T]; exact C.left (in_T.mp hi) h1 h2
  left := fun hi h1 h2 => by rw [isSome_T]; exact C.above (in_T.mp hi) h1 h2
  above2 := fun hi h1 h2 => by rw [isSome_T]; exact C.left2 (in_T.mp hi) h1 h2
  left2 := fun hi h1 h2 => by rw [isSome_T]; exact C.above2 (in_T.mp hi) h1 h2
  fresh := fun {i j} h1 h2 => by
    show (p.d j i).map Blk.T = none
    rw [C.fresh h2 h1]; rfl

theorem rel_T (R : Rel e p) : Rel e.T (Input.T p) where
  x := R.y
  y := R.x
  w := R.h
  h := R.w
  tx := R.ty
  ty := R.tx
  cols := R.rows
  rows := R.cols
  frameCols := R.frameRows
  frameRows := R.frameCols
  ref0 := R.ref0
  ref1 := R.ref1
  ref0ok := R.ref0ok
  compound := R.compound
  sign := R.sign
  i16 := fun r c => R.i16 c r
  shows := fun h1 h2 h3 => by
    have S := R.shows h2 h1 (some_T.mp h3)
    exact ⟨S.h, S.w, S.info, S.ref0, S.ref1, S.mv0, S.mv1⟩

theorem isInside_T (g : Geo) (r c : Int) : (Geo.T g).isInside r c = g.isInside c r := by
  unfold Spec.Geo.isInside Geo.T
  dsimp only
  cases decide ((g.rowStart : Int) ≤ c) <;> cases decide (c < (g.rowEnd : Int)) <;> cases decide ((g.colStart : Int) ≤ r) <;>
    cases decide (r < (g.colEnd : Int)) <;> rfl

theorem colLoop_T (dr dc : Int) (end4 : Nat) : ∀ (fuel i : Nat) (s : St), p.colLoop dr dc end4 fuel i s = (Input.T p).rowLoop dc dr end4 fuel i s := by
  intro fuel
  induction fuel with
  | zero => intro i s; rfl
  | succ fuel ih =>
    intro i s
    rw [Spec.Input.colLoop, Spec.Input.rowLoop]
    by_cases hl : i < end4
    · rw [if_pos hl, if_pos hl]
      dsimp only
      have e1 : (Input.T p).g.isInside (((Input.T p).miRow : Int) + dc) (((Input.T p).miCol : Int) + dr + i) =
        p.g.isInside ((p.miRow : Int) + dr + i) ((p.miCol : Int) + dc) := isInside_T ..
      rw [e1]
      by_cases hI : p.g.isInside ((p.miRow : Int) + dr + i) ((p.miCol : Int) + dc) = false
      · rw [if_pos hI, if_pos hI]
      · rw [if_neg hI, if_neg hI]
        have e2 : (Input.T p).d (((Input.T p).miRow : Int) + dc).toNat (((Input.T p).miCol : Int) + dr + i).toNat =
          (p.d ((p.miRow : Int) + dr + i).toNat ((p.miCol : Int) + dc).toNat).map Blk.T := rfl
        rw [e2]
        cases p.d ((p.miRow : Int) + dr + i).toNat ((p.miCol : Int) + dc).toNat with
        | none => rfl
        | some b =>
          simp only [Option.map_some, Option.bind_eq_bind, Option.bind_some, ih]
          rfl
    · rw [if_neg hl, if_neg hl]

theorem scanCol_T (d : Int) (s : St) : p.scanCol d s = (Input.T p).scanRow d s := by
  unfold Spec.Input.scanCol Spec.Input.scanRow
  dsimp only
  simp only [colLoop_T]
  rfl

theorem at_T (t : Tile) (x y : Nat) (a b : Int) : t.T.atOffset y x b a = (t.atOffset x y a b).map Block.T := by
  unfold Tile.atOffset Tile.at
  by_cases h : 0 ≤ (x : Int) + a ∧ 0 ≤ (y : Int) + b
  · rw [if_pos h, if_pos h.symm]
    by_cases h2 : ((y : Int) + b).toNat < t.rows ∧ ((x : Int) + a).toNat < t.cols
    · rw [if_pos h2, if_pos (show ((x : Int) + a).toNat < t.T.rows ∧ ((y : Int) + b).toNat < t.T.cols from h2.symm)]; rfl
    · rw [if_neg h2, if_neg (show ¬ (((x : Int) + a).toNat < t.T.rows ∧ ((y : Int) + b).toNat < t.T.cols) from fun h => h2 h.symm)]; rfl
  · rw [if_neg h, if_neg (fun h' => h h'.symm)]; rfl

theorem addRef_T (r0 r1 : Nat) (b : Block) (w : Nat) (c : Bool) (s : Scan) : addRefMvCandidate r0 r1 b.T w c s = addRefMvCandidate r0 r1 b w c s := rfl

theorem mcolLoop_T (dr dc M : Int) (end4 : Nat) : ∀ (fuel i : Nat) (s : Scan) (P : Int) (f : Bool),
    e.colLoop dr dc M end4 fuel i s P f = e.T.rowLoop dc dr M end4 fuel i s P f := by
  intro fuel
  induction fuel with
  | zero => intro i s P f; rfl
  | succ fuel ih =>
    intro i s P f
    rw [Env.colLoop, Env.rowLoop]
    by_cases hl : i < end4
    · rw [if_pos hl, if_pos hl]
      have e1 : e.T.t.atOffset e.T.x e.T.y (dr + i) dc = (e.t.atOffset e.x e.y dc (dr + i)).map Block.T := at_T ..
      rw [e1]
      cases e.t.atOffset e.x e.y dc (dr + i) with
      | none => rfl
      | some b =>
        simp only [Option.map_some, Option.bind_eq_bind, Option.bind_some, ih]
        rfl
    · rw [if_neg hl, if_neg hl]

theorem mscanCol_T (d M : Int) (s : Scan) (P : Int) : e.scanCol d M s P = e.T.scanRow d M s P := by
  unfold Env.scanCol Env.scanRow
  dsimp only
  simp only [mcolLoop_T]
  rfl

/-- **The columns to the left**: the encoder's scans come to what the decoder's come to. -/
theorem cols_same (R : Rel e p) (C : Ctx p) : ∃ v1 v3 v5 t1 t3 t5 P1 P3 P5, Same p v1 v3 v5 t1 t3 t5 P1 P3 P5
    (p.scanCol (-1)) (p.scanCol (-3)) (fun s => if p.bw4 > 1 then p.scanCol (-5) s else some s)
    (e.T.first e.T.maxRow) (e.T.further e.T.maxRow e.T.rowAdj 2) (e.T.further e.T.maxRow e.T.rowAdj 3) := by
  obtain ⟨v1, v3, v5, t1, t3, t5, P1, P3, P5, S⟩ := rows_same (rel_T R) (ctx_T C)
  refine ⟨v1, v3, v5, t1, t3, t5, P1, P3, P5, fun s => ?_, fun s => ?_, fun s => ?_, S.model1, S.model3, S.model5, S.same1, S.same3, S.same5, S.weight,
    S.small1, S.small3, S.small5⟩
  · rw [scanCol_T]; exact S.spec1 s
  · rw [scanCol_T]; exact S.spec3 s
  · have h := S.spec5 s
    rw [scanCol_T]; exact h

end Rav1e.Mvref

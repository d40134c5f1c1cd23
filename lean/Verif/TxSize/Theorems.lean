import Verif.TxSize.Tile

/-!
# C63: a decoder reads back the transform sizes of every block
-/

namespace Rav1e.TxSize

open Mvref (GeoOk)
open Mvref.Spec (Geo Tree Info)
open Spec (Tx Sym Hdr Dec Inside)

variable {g : Geo} {C : Cfg}

/-- For every tile, every partition of it, every choice of `is_inter`, `skip` and transform size for its blocks that the settings of the frame allow, and
whatever follows: a decoder that knows `is_inter` and `skip` of the blocks reads, from the symbols that the encoder writes, the value of `TxSize` of every block,
and has in `InterTxSizes`, at every place of a block inside the frame, the size that the encoder chose for it.  `rows` are the rows of superblocks; what they
contain is by `tile_rows` the blocks of the tile in the order in which they are decoded. -/
theorem tx_sizes_decoder (O : GeoOk g) {t : Nat → Nat → Tree} (ht : ∀ r c, (t r c).Ok 16) (hr : C.rows = g.rowEnd - g.rowStart)
    (hc : C.cols = g.colEnd - g.colStart) (rows : List (List Coded))
    (hl : rows.map (·.map Coded.rect) = (List.range ((g.rowEnd - g.rowStart + 15) / 16)).map fun i => (sbRow g t i).map rectOf)
    (H : ∀ l ∈ rows, ∀ e ∈ l, Chosen C e) (rest : List Sym) :
    ∃ D, Spec.readTile g C.select (rows.flatten.map Coded.hdr) Spec.start ((encodeRows C g.rowStart g.colStart rows init).1 ++ rest) =
        some (rows.flatten.map Coded.tx, D, rest) ∧
      ∀ e ∈ rows.flatten, ∀ r c, Inside e.row e.col e.bw4 e.bh4 r c → r < g.miRows → c < g.miCols → D.itx r c = e.tx := by
  have hlen : rows.length = (g.rowEnd - g.rowStart + 15) / 16 := by simpa using congrArg List.length hl
  obtain ⟨F', D, L⟩ := rows_rt (C := C) O ht hr hc rows (i := 0) (F := fun _ => g.rowStart) (G := fun _ => g.colStart) (S := init) (D := Spec.start)
    (by omega)
    (fun k hk => by
      have h1 : (rows.map (·.map Coded.rect))[k]? = ((List.range ((g.rowEnd - g.rowStart + 15) / 16)).map fun i => (sbRow g t i).map rectOf)[k]? := by rw [hl]
      rw [List.getElem?_map, List.getElem?_map, List.getElem?_eq_getElem hk, List.getElem?_range (by omega)] at h1
      simpa using h1)
    H (by intros; omega) (fun _ c _ _ h => absurd h (Nat.lt_irrefl _))
    (fun r c a b _ _ h => by exfalso; simp only at h; omega) rest
  refine ⟨D, ?_, fun e he r c h a b => (L.inn e he r c h a b).1⟩
  have := L.read []
  simp only [List.append_nil, Spec.readTile, Option.map_some] at this
  rw [this]

/-- Transform sizes are coded in frames in which the encoder chooses among them, and in no others. -/
theorem tx_sizes_silent (h : C.select = false) (row0 col0 : Nat) (rows : List (List Coded)) (S : State) : (encodeRows C row0 col0 rows S).1 = [] := by
  have one : ∀ (l : List Coded) (S : State), (encodeRow C row0 col0 l S).1 = [] := by
    intro l
    induction l with
    | nil => intro S; rfl
    | cons e l ih => intro S; simp [encodeRow, encodeTx, h, ih]
  induction rows generalizing S with
  | nil => rfl
  | cons l ls ih => simp [encodeRows, one, ih]

/-! ### An inter frame of 56x40 pixels: the superblock reaches beyond the right and the lower edge -/

/-- The tile. -/
def exGeo : Geo := ⟨10, 14, 0, 10, 0, 14⟩

/-- What motion vectors the blocks have does not matter. -/
def exInfo : Info := ⟨.newmv, 1, -1, (0, 0), (0, 0)⟩

/-- The partition of the superblock. -/
def exTree : Tree :=
  .split (.none exInfo) (.vert exInfo exInfo)
    (.split (.none exInfo) (.horz exInfo exInfo) (.none exInfo) (.none exInfo))
    (.split (.split (.none exInfo) (.horz exInfo exInfo) (.none exInfo) (.none exInfo)) (.none exInfo) (.none exInfo) (.none exInfo))

/-- The settings: `enable_inter_txfm_split` and `rdo_tx_decision`. -/
def exCfg : Cfg := ⟨10, 14, false, true, true⟩

/-- The blocks: inter blocks whose transforms are split, a skipped inter block, and intra blocks with transforms of all depths. -/
def exRows : List (List Coded) :=
  [[⟨0, 0, 8, 8, true, false, (16, 16)⟩, ⟨0, 8, 4, 8, false, false, (8, 8)⟩, ⟨0, 12, 4, 8, true, false, (16, 16)⟩,
    ⟨8, 0, 4, 4, true, true, (16, 16)⟩, ⟨8, 4, 4, 2, true, false, (8, 8)⟩,
    ⟨8, 8, 2, 2, false, true, (8, 8)⟩, ⟨8, 10, 2, 1, false, false, (4, 4)⟩, ⟨9, 10, 2, 1, true, false, (4, 4)⟩,
    ⟨8, 12, 4, 4, false, false, (4, 4)⟩]]

theorem exGeo_ok : GeoOk exGeo := by constructor <;> decide

theorem exTree_ok : exTree.Ok 16 := by simp only [exTree, Tree.Ok]; decide

theorem exRows_ok : exRows.map (·.map Coded.rect) =
    (List.range ((exGeo.rowEnd - exGeo.rowStart + 15) / 16)).map fun i => (sbRow exGeo (fun _ _ => exTree) i).map rectOf := by decide +kernel

theorem exRows_chosen : ∀ l ∈ exRows, ∀ e ∈ l, Chosen exCfg e := by unfold Chosen; decide +kernel

example : (encodeRows exCfg 0 0 exRows init).1 =
    [(.txfmSplit 6, 1), (.txfmSplit 9, 0), (.txfmSplit 9, 0), (.txfmSplit 9, 0), (.txfmSplit 9, 0), (.txDepth 2 1, 2),
      (.txfmSplit 7, 1), (.txfmSplit 10, 0), (.txfmSplit 10, 0), (.txfmSplit 12, 1), (.txfmSplit 15, 0), (.txfmSplit 15, 0),
      (.txDepth 0 2, 0), (.txDepth 0 2, 1), (.txfmSplit 19, 1), (.txDepth 1 1, 2)] := by decide +kernel

/-- The hypotheses of `tx_sizes_decoder` hold of these blocks. -/
example (rest : List Sym) : ∃ D, Spec.readTile exGeo true (exRows.flatten.map Coded.hdr) Spec.start ((encodeRows exCfg 0 0 exRows init).1 ++ rest) =
      some (exRows.flatten.map Coded.tx, D, rest) ∧
    ∀ e ∈ exRows.flatten, ∀ r c, Inside e.row e.col e.bw4 e.bh4 r c → r < exGeo.miRows → c < exGeo.miCols → D.itx r c = e.tx :=
  tx_sizes_decoder (g := exGeo) (C := exCfg) (t := fun _ _ => exTree) exGeo_ok (fun _ _ => exTree_ok) rfl rfl exRows exRows_ok exRows_chosen rest

/-- A frame in which transform sizes are not coded. -/
example : (⟨10, 14, true, false, true⟩ : Cfg).select = false := rfl

end Rav1e.TxSize

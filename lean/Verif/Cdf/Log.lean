/-
Model of the CDF storage and its rollback log: `/repo/src/context/cdf_context.rs` (`CDFContext`
layout, `CDFContextLog`) and `/repo/src/context/block_unit.rs` (`NMVContext` layout).

The `CDFContext` structure is `repr(C)` and consists of `u16` only, so it is modelled as a memory
of words; a CDF is a run of words inside it.  `push` copies a *fixed* number of words (4 or 16)
starting at the CDF, whatever the CDF's own length, through raw pointers; the model keeps exactly
that behaviour, so overlaps and overruns are visible.
-/
namespace Rav1e.Cdf

/-- Word-addressed memory of one `CDFContext`. -/
abbrev Mem := Nat → Nat

/-- `CDF_LEN_SMALL`, `CDF_LEN_MAX`: cdf_context.rs:13, 645. -/
def CDF_LEN_SMALL : Nat := 4
def CDF_LEN_MAX : Nat := 16

/-- A CDF: word offset in the structure and length. `CDFOffset<CDF_LEN>`: cdf_context.rs:98-101. -/
structure Loc where
  off : Nat
  len : Nat
deriving DecidableEq, Repr

/-- A log entry: the saved words and the byte offset, stored as a `u16`.
cdf_context.rs:587-589 (`[u16; CDF_LEN_MAX_PLUS_1]`, last element is the offset). -/
structure Entry where
  data : List Nat
  byteOff : Nat
deriving DecidableEq, Repr

/-- `dst.copy_from_nonoverlapping(src, W)` reading: `W` words from word offset `off`. -/
def readWin (m : Mem) (off w : Nat) : List Nat := (List.range w).map fun i => m (off + i)

/-- Writing a list of words at `off`. -/
def writeWin (m : Mem) (off : Nat) (d : List Nat) : Mem :=
  fun a => if off ≤ a ∧ a < off + d.length then d.getD (a - off) 0 else m a

/-- One partition of the log with its vector capacity: cdf_context.rs:587-596. -/
structure Part where
  entries : List Entry
  cap : Nat

/-- `CDFContextLogPartition::push`: cdf_context.rs:598-623.  `w` is `CDF_LEN_MAX_PLUS_1 - 1`.
The vector is grown by `reserve(w + 1)` when fewer than `w + 1` spare slots remain; `grow` is the
amount by which the allocator over-allocates (any value). -/
def Part.push (p : Part) (w : Nat) (m : Mem) (l : Loc) (grow : Nat) : Part :=
  let entries := p.entries ++ [⟨readWin m l.off w, (2 * l.off) % 65536⟩]
  { entries := entries
    cap := if w + 1 > p.cap - entries.length then max p.cap (entries.length + (w + 1) + grow)
           else p.cap }

/-- Restore one entry: cdf_context.rs:635-638. -/
def restore (m : Mem) (e : Entry) : Mem := writeWin m (e.byteOff / 2) e.data

/-- `CDFContextLogPartition::rollback`: cdf_context.rs:625-642: entries from the last down to
`checkpoint`, then truncation. -/
def Part.rollback (p : Part) (m : Mem) (checkpoint : Nat) : Part × Mem :=
  ({ p with entries := p.entries.take checkpoint },
    (p.entries.drop checkpoint).reverse.foldl restore m)

/-- `CDFContext` memory and `CDFContextLog`: cdf_context.rs:647-650. -/
structure State where
  mem : Mem
  small : Part
  large : Part

/-- `CDFContextLog::default`: cdf_context.rs:652-659. -/
def State.init (m : Mem) : State := ⟨m, ⟨[], 1 <<< 16⟩, ⟨[], 1 <<< 9⟩⟩

/-- `CDFContextLog::push` followed by an update of the CDF in place, as in
`symbol_with_update` (src/ec.rs:548-562): `new` is whatever the update leaves in the `CDF_LEN`
words of the CDF.  cdf_context.rs:669-677. -/
def State.update (s : State) (l : Loc) (new : List Nat) (grow : Nat) : State :=
  let s' : State :=
    if l.len ≤ CDF_LEN_SMALL then { s with small := s.small.push CDF_LEN_SMALL s.mem l grow }
    else { s with large := s.large.push CDF_LEN_MAX s.mem l grow }
  { s' with mem := writeWin s.mem l.off (new.take l.len) }

/-- `CDFContextCheckpoint`: cdf_context.rs:16-19, 662-667. -/
structure Ckpt where
  small : Nat
  large : Nat
deriving DecidableEq, Repr

def State.checkpoint (s : State) : Ckpt := ⟨s.small.entries.length, s.large.entries.length⟩

/-- `CDFContextLog::rollback`: cdf_context.rs:679-684: first the small partition, then the large. -/
def State.rollback (s : State) (c : Ckpt) : State :=
  let (sm, m) := s.small.rollback s.mem c.small
  let (lg, m) := s.large.rollback m c.large
  ⟨m, sm, lg⟩

/-! ### Layout -/

/-- A field of the structure: a multi-dimensional array of `count` CDFs of `len` words each. `len = 0`
marks padding of `count` words. -/
structure Field where
  name : String
  count : Nat
  len : Nat
deriving DecidableEq, Repr

def Field.words (f : Field) : Nat := if f.len = 0 then f.count else f.count * f.len

/-- `NMVComponent`: block_unit.rs:531-544, with `CLASS0_SIZE = 2`, `MV_OFFSET_BITS = 10`,
`MV_FP_SIZE = 4`, `MV_CLASSES = 11` (context/mod.rs:105-124). -/
def nmvComponent (i : String) : List Field :=
  [⟨"nmv_context.comps[" ++ i ++ "].sign_cdf", 1, 2⟩,
   ⟨"nmv_context.comps[" ++ i ++ "].class0_hp_cdf", 1, 2⟩,
   ⟨"nmv_context.comps[" ++ i ++ "].hp_cdf", 1, 2⟩,
   ⟨"nmv_context.comps[" ++ i ++ "].class0_cdf", 1, 2⟩,
   ⟨"nmv_context.comps[" ++ i ++ "].bits_cdf", 10, 2⟩,
   ⟨"nmv_context.comps[" ++ i ++ "].class0_fp_cdf", 2, 4⟩,
   ⟨"nmv_context.comps[" ++ i ++ "].fp_cdf", 1, 4⟩,
   ⟨"nmv_context.comps[" ++ i ++ "].classes_cdf", 1, 11⟩,
   ⟨"nmv_context.comps[" ++ i ++ "].padding", 5, 0⟩]

/-- The fields of `CDFContext` in declaration order: cdf_context.rs:23-96, followed by those of
`NMVContext` (block_unit.rs:548-553).  Dimensions are the constants of partition.rs, entropymode.rs,
transform/mod.rs and context/*.rs. -/
def fields : List Field :=
  [⟨"comp_bwd_ref_cdf", 2 * 3, 2⟩, ⟨"comp_mode_cdf", 5, 2⟩, ⟨"comp_ref_cdf", 3 * 3, 2⟩,
   ⟨"comp_ref_type_cdf", 5, 2⟩, ⟨"dc_sign_cdf", 3 * 2, 2⟩, ⟨"drl_cdfs", 3, 2⟩,
   ⟨"eob_extra_cdf", 9 * 2 * 5, 2⟩, ⟨"filter_intra_cdfs", 22, 2⟩, ⟨"intra_inter_cdfs", 4, 2⟩,
   ⟨"lrf_sgrproj_cdf", 1, 2⟩, ⟨"lrf_wiener_cdf", 1, 2⟩, ⟨"newmv_cdf", 7, 2⟩,
   ⟨"palette_uv_mode_cdfs", 2, 2⟩, ⟨"palette_y_mode_cdfs", 3 * 7, 2⟩, ⟨"refmv_cdf", 6, 2⟩,
   ⟨"single_ref_cdfs", 6 * 3, 2⟩, ⟨"skip_cdfs", 3, 2⟩, ⟨"txb_skip_cdf", 13 * 5, 2⟩,
   ⟨"txfm_partition_cdf", 21, 2⟩, ⟨"zeromv_cdf", 2, 2⟩, ⟨"tx_size_8x8_cdf", 3, 2⟩,
   ⟨"inter_tx_3_cdf", 4, 2⟩,
   ⟨"coeff_base_eob_cdf", 4 * 2 * 5, 3⟩, ⟨"lrf_switchable_cdf", 1, 3⟩, ⟨"tx_size_cdf", 3 * 3, 3⟩,
   ⟨"coeff_base_cdf", 42 * 2 * 5, 4⟩, ⟨"coeff_br_cdf", 21 * 2 * 5, 4⟩, ⟨"deblock_delta_cdf", 1, 4⟩,
   ⟨"deblock_delta_multi_cdf", 4, 4⟩, ⟨"partition_w8_cdf", 4, 4⟩,
   ⟨"eob_flag_cdf16", 2 * 2, 5⟩, ⟨"intra_tx_2_cdf", 13 * 4, 5⟩,
   ⟨"eob_flag_cdf32", 2 * 2, 6⟩,
   ⟨"angle_delta_cdf", 8, 7⟩, ⟨"eob_flag_cdf64", 2 * 2, 7⟩, ⟨"intra_tx_1_cdf", 13 * 4, 7⟩,
   ⟨"cfl_sign_cdf", 1, 8⟩, ⟨"compound_mode_cdf", 8, 8⟩, ⟨"eob_flag_cdf128", 2 * 2, 8⟩,
   ⟨"spatial_segmentation_cdfs", 3, 8⟩, ⟨"partition_w128_cdf", 4, 8⟩,
   ⟨"eob_flag_cdf256", 2 * 2, 9⟩,
   ⟨"eob_flag_cdf512", 2 * 2, 10⟩, ⟨"partition_cdf", 3 * 4, 10⟩,
   ⟨"eob_flag_cdf1024", 2 * 2, 11⟩,
   ⟨"inter_tx_2_cdf", 4, 12⟩,
   ⟨"kf_y_cdf", 5 * 5, 13⟩, ⟨"y_mode_cdf", 4, 13⟩, ⟨"uv_mode_cdf", 13, 13⟩,
   ⟨"uv_mode_cfl_cdf", 13, 14⟩,
   ⟨"cfl_alpha_cdf", 6, 16⟩, ⟨"inter_tx_1_cdf", 4, 16⟩,
   ⟨"nmv_context.joints_cdf", 1, 4⟩, ⟨"nmv_context.padding", 12, 0⟩]
  ++ nmvComponent "0" ++ nmvComponent "1"

/-- `repr(C)` placement: each field starts where the previous one ends (all are `u16`). -/
def place : Nat → List Field → List (Field × Nat)
  | _, [] => []
  | o, f :: fs => (f, o) :: place (o + f.words) fs

def layout : List (Field × Nat) := place 0 fields

/-- Size of the structure in words. -/
def size : Nat := (fields.map Field.words).sum

/-- `l` is one of the CDFs of the structure (`CDFContext::offset`: cdf_context.rs:548-555). -/
def IsCdf (l : Loc) : Prop :=
  ∃ f o i, (f, o) ∈ layout ∧ f.len ≠ 0 ∧ i < f.count ∧ l = ⟨o + i * f.len, f.len⟩

/-- The fields visited by `CDFContext::reset_counts`, in source order: cdf_context.rs:202-275. -/
def resetNames : List String :=
  ["partition_w8_cdf", "partition_w128_cdf", "partition_cdf", "kf_y_cdf", "y_mode_cdf",
   "uv_mode_cdf", "uv_mode_cfl_cdf", "cfl_sign_cdf", "cfl_alpha_cdf", "newmv_cdf", "zeromv_cdf",
   "refmv_cdf", "intra_tx_2_cdf", "intra_tx_1_cdf", "inter_tx_3_cdf", "inter_tx_2_cdf",
   "inter_tx_1_cdf", "tx_size_8x8_cdf", "tx_size_cdf", "txfm_partition_cdf", "skip_cdfs",
   "intra_inter_cdfs", "angle_delta_cdf", "filter_intra_cdfs", "palette_y_mode_cdfs",
   "palette_uv_mode_cdfs", "comp_mode_cdf", "comp_ref_type_cdf", "comp_ref_cdf",
   "comp_bwd_ref_cdf", "single_ref_cdfs", "drl_cdfs", "compound_mode_cdf",
   "deblock_delta_multi_cdf", "deblock_delta_cdf", "spatial_segmentation_cdfs",
   "lrf_switchable_cdf", "lrf_sgrproj_cdf", "lrf_wiener_cdf", "nmv_context.joints_cdf",
   "nmv_context.comps[0].classes_cdf", "nmv_context.comps[0].class0_fp_cdf",
   "nmv_context.comps[0].fp_cdf", "nmv_context.comps[0].sign_cdf",
   "nmv_context.comps[0].class0_hp_cdf", "nmv_context.comps[0].hp_cdf",
   "nmv_context.comps[0].class0_cdf", "nmv_context.comps[0].bits_cdf",
   "nmv_context.comps[1].classes_cdf", "nmv_context.comps[1].class0_fp_cdf",
   "nmv_context.comps[1].fp_cdf", "nmv_context.comps[1].sign_cdf",
   "nmv_context.comps[1].class0_hp_cdf", "nmv_context.comps[1].hp_cdf",
   "nmv_context.comps[1].class0_cdf", "nmv_context.comps[1].bits_cdf", "txb_skip_cdf",
   "dc_sign_cdf", "eob_extra_cdf", "eob_flag_cdf16", "eob_flag_cdf32", "eob_flag_cdf64",
   "eob_flag_cdf128", "eob_flag_cdf256", "eob_flag_cdf512", "eob_flag_cdf1024",
   "coeff_base_eob_cdf", "coeff_base_cdf", "coeff_br_cdf"]

/-- `CDFContext::reset_counts`: cdf_context.rs:172-276: the last word of each CDF of each visited field
becomes 0. -/
def resetCounts (m : Mem) : Mem := fun a =>
  if ∃ p ∈ layout, p.1.name ∈ resetNames ∧ ∃ i < p.1.count, a = p.2 + i * p.1.len + p.1.len - 1
  then 0 else m a

end Rav1e.Cdf

import Verif.Hdr.Stream

/-!
# Packets: OBU framing, metadata and tile groups

`header.rs` and `encoder.rs`; bytes are numbers below 256, `none` is a panic.
-/

namespace Rav1e.Obu

open Rav1e.Hdr

/-- Bits followed by the zeros of `BitWriter::byte_align`. -/
def align (bs : List Bool) : List Bool := bs ++ List.replicate ((8 - bs.length % 8) % 8) false

/-- The bytes of a `BitWriter<_, BigEndian>`, first bit on top. -/
def toBytes : List Bool → List Nat
  | b7 :: b6 :: b5 :: b4 :: b3 :: b2 :: b1 :: b0 :: rest =>
    (128 * b7.toNat + 64 * b6.toNat + 32 * b5.toNat + 16 * b4.toNat + 8 * b3.toNat + 4 * b2.toNat +
      2 * b1.toNat + b0.toNat) :: toBytes rest
  | _ => []

/-- The loop of `write_uleb128`, `header.rs:104-117`; a `u32` takes at most five rounds. -/
def ulebLoop : (fuel : Nat) → (value : Nat) → List Nat
  | 0, _ => []
  | n + 1, value =>
    let byte := value % 128
    let value := value / 128
    if value ≠ 0 then (byte + 128) :: ulebLoop n value else [byte]

/-- `write_uleb128`, `header.rs:95-122`: `payload as u32`. -/
def uleb128 (payload : Nat) : List Nat := ulebLoop 5 (payload % 2 ^ 32)

/-- `write_le`, `header.rs:131-136`: least significant byte first; a value that does not fit is an
error, which the caller unwraps (`encoder.rs:3360`). -/
def writeLe : (bytes : Nat) → (value : Nat) → Option (List Nat)
  | 0, v => if v = 0 then some [] else none
  | n + 1, v => (writeLe n (v / 256)).map (v % 256 :: ·)

/-- `write_obu_header`, `header.rs:194-209`, with `obu_extension` 0 (`encoder.rs:3697, 3772`). -/
def obuHeader (type : Nat) : W := bit false ⊹ lit 4 type ⊹ bit false ⊹ bit true ⊹ bit false

/-- A `BitWriter` that ends aligned. -/
def bytesOf (w : W) : Option (List Nat) := w.map fun bs => toBytes (align bs)

/-- One buffer after another: `packet.write_all(..)`. -/
def cat : List (Option (List Nat)) → Option (List Nat)
  | [] => some []
  | none :: _ => none
  | some a :: more => (cat more).map (a ++ ·)

/-- An OBU: header, size, payload. -/
def obu (type : Nat) (payload : List Nat) : Option (List Nat) :=
  cat [bytesOf (obuHeader type), some (uleb128 payload.length), some payload]

/-- `ContentLight`, `api/color.rs:238-243`. -/
structure Cll where
  maxCll : Nat
  maxFall : Nat
deriving Repr, DecidableEq

/-- `MasteringDisplay`, `api/color.rs:260-270`. -/
structure Mdcv where
  primaries : List (Nat × Nat)
  white : Nat × Nat
  maxLum : Nat
  minLum : Nat
deriving Repr, DecidableEq

/-- `T35`, `api/util.rs:140-149`. -/
structure T35 where
  country : Nat
  extension : Nat
  data : List Nat
deriving Repr, DecidableEq

/-- `write_sequence_metadata_obu` for `OBU_META_HDR_CLL`, `header.rs:211-253`: the size is the
constant of `ObuMetaType::size`, `header.rs:79-88`, and 2. -/
def cllObu (c : Cll) : Option (List Nat) :=
  cat [bytesOf (obuHeader 5), some (uleb128 (4 + 2)), some (uleb128 1),
    bytesOf (lit 16 c.maxCll ⊹ lit 16 c.maxFall ⊹ bit true)]

/-- `write_sequence_metadata_obu` for `OBU_META_HDR_MDCV`, `header.rs:211-253`. -/
def mdcvObu (m : Mdcv) : Option (List Nat) :=
  cat [bytesOf (obuHeader 5), some (uleb128 (24 + 2)), some (uleb128 2),
    bytesOf (forW (List.range 3) (fun i => withAt m.primaries i fun p => lit 16 p.1 ⊹ lit 16 p.2) ⊹
      lit 16 m.white.1 ⊹ lit 16 m.white.2 ⊹ lit 32 m.maxLum ⊹ lit 32 m.minLum ⊹ bit true)]

/-- `write_t35_metadata_obu`, `header.rs:255-276`. -/
def t35Obu (t : T35) : Option (List Nat) :=
  cat [bytesOf (obuHeader 5), some (uleb128 (t.data.length + if t.country = 255 then 4 else 3)),
    some (uleb128 4), bytesOf (lit 8 t.country),
    if t.country = 255 then bytesOf (lit 8 t.extension) else some [],
    some t.data, bytesOf (bit true)]

/-- `write_key_frame_obus`, `encoder.rs:1301-1352`. -/
def keyFrameObus (s : Seq) (w h : Nat) (cll : Option Cll) (mdcv : Option Mdcv) : Option (List Nat) :=
  match bytesOf (writeSequenceHeaderObu s w h ⊹ bit true) with
  | none => none
  | some payload => cat [obu 1 payload,
      match cll with | some c => cllObu c | none => some [],
      match mdcv with | some m => mdcvObu m | none => some []]

/-- `max_by_key` over the tile sizes, `encoder.rs:3324-3329`: index and size of the last largest. -/
def maxTile : List Nat → Option (Nat × Nat)
  | lens => lens.zipIdx.foldl (fun (acc : Option (Nat × Nat)) (x : Nat × Nat) =>
      match acc with
      | none => some (x.2, x.1)
      | some (i, m) => if m ≤ x.1 then some (x.2, x.1) else some (i, m)) none

/-- `ILog::ilog` (crate `v_frame`): the bit length. -/
def ilog (n : Nat) : Nat := Ec.bitLen n

/-- `context_update_tile_id` (0 unless set) and `max_tile_size_bytes`, `encoder.rs:3324-3340`. -/
def tileFields (disableEndUpdate : Bool) (tiles : List (List Nat)) : Option (Nat × Nat) :=
  (maxTile (tiles.map List.length)).map fun (idx, len) =>
    (if disableEndUpdate then 0 else idx, (ilog len + 7) / 8)

/-- The loop of `build_raw_tile_group`, `encoder.rs:3355-3362`. -/
def rawTiles (sizeBytes : Nat) : List (List Nat) → Option (List Nat)
  | [] => some []
  | [t] => some t
  | t :: u :: more =>
    if t.length = 0 then none
    else cat [writeLe sizeBytes (t.length - 1), some t, rawTiles sizeBytes (u :: more)]

/-- `build_raw_tile_group`, `encoder.rs:3345-3364`. -/
def rawTileGroup (cols rows sizeBytes : Nat) (tiles : List (List Nat)) : Option (List Nat) :=
  cat [bytesOf (if 1 < cols * rows then bit false else W.nil), rawTiles sizeBytes tiles]

/-- A frame to encode: its place in the schedule with its T.35 messages, the decisions about it, and
the bytes of its tiles. -/
structure Item where
  x : Sched.FI T35
  l : Late
  tiles : List (List Nat)

/-- The metadata of the configuration, `encoder.rs:289-290`. -/
structure Hdr10 where
  cll : Option Cll
  mdcv : Option Mdcv
deriving Repr, DecidableEq

/-- What a unit of the stream says. -/
inductive Unit where
  | sequence
  | cll (c : Cll)
  | mdcv (m : Mdcv)
  | t35 (t : T35)
  | frame (fi : Fi) (tiles : List (List Nat))
  | shown (slot : Nat)

/-- The units before a frame, `encoder.rs:3701-3711, 3781-3791`. -/
def headUnits (m : Hdr10) (x : Sched.FI T35) : List Unit :=
  (if x.ftype = .key then
    .sequence :: (m.cll.toList.map .cll ++ m.mdcv.toList.map .mdcv)
   else []) ++ x.t35.map .t35

/-- Their bytes. -/
def headBytes (e : EncCfg) (s : Seq) (m : Hdr10) (x : Sched.FI T35) : Option (List Nat) :=
  cat ((if x.ftype = .key then keyFrameObus s e.width e.height m.cll m.mdcv else some []) ::
    x.t35.map t35Obu)

/-- The bytes of a coded frame from its header on, `encoder.rs:3793-3818`. -/
def frameBytes (s : Seq) (fi : Fi) (tiles : List (List Nat)) : Option (List Nat) :=
  match bytesOf (writeFrameHeader fi),
    rawTileGroup s.tiling.cols s.tiling.rows fi.tileSizeBytes tiles with
  | some header, some group =>
    cat [bytesOf (obuHeader 6), some (uleb128 (header.length + group.length)), some header,
      some group]
  | _, _ => none

/-- `encode_show_existing_frame`, `encoder.rs:3693-3747`, and `encode_frame`, `encoder.rs:3768-3820`,
with `update_rec_buffer`: what is said, the bytes, and the references for the next frame. -/
def encodeUnit (e : EncCfg) (s : Seq) (m : Hdr10) (rec : List (Option RefFrame)) (i : Item) :
    Except HErr (List Unit × List Nat × List (Option RefFrame)) :=
  if i.x.sef then
    match bytesOf (writeShowExisting s i.x.sef i.x.slot ⊹ bit true) with
    | none => .error .writer
    | some payload =>
      match cat [headBytes e s m i.x, obu 3 payload] with
      | none => .error .writer
      | some bytes => .ok (headUnits m i.x ++ [.shown i.x.slot], bytes, rec)
  else
    match tileFields s.reduced i.tiles with
    | none => .error .writer
    | some (ctx, size) =>
      match buildFi e s i.x { i.l with ctxTileId := ctx, tileSizeBytes := size }
          (if i.x.ftype = .key then List.replicate 8 none else rec) with
      | none => .error .segmentation
      | some fi =>
        match cat [headBytes e s m i.x, frameBytes s fi i.tiles] with
        | none => .error .writer
        | some bytes => .ok (headUnits m i.x ++ [.frame fi i.tiles], bytes, updateRec fi)

/-- `TEMPORAL_DELIMITER`, `encoder.rs:64`. -/
def temporalDelimiter : List Nat := [0x12, 0x00]

/-- The packets of a video: `encode_packet` for one frame after the other, with `packet_data`
(`internal.rs:266`) handed out after every frame that is shown (`internal.rs:1539-1561`). -/
def encodePackets (e : EncCfg) (s : Seq) (m : Hdr10) :
    List (Option RefFrame) → (units : List Unit) → (data : List Nat) → List Item →
    Except HErr (List (List Unit × List Nat))
  | _, _, _, [] => .ok []
  | rec, units, data, i :: more =>
    match encodeUnit e s m rec i with
    | .error err => .error err
    | .ok (u, bytes, rec') =>
      if i.x.shown then
        match encodePackets e s m rec' [] temporalDelimiter more with
        | .error err => .error err
        | .ok out => .ok ((units ++ u, data ++ bytes) :: out)
      else encodePackets e s m rec' (units ++ u) (data ++ bytes) more

end Rav1e.Obu

import Verif.Hdr.Spec

/-!
# Temporal units, as a decoder reads them

Sections 5.3 to 5.11 of the AV1 specification, in the low overhead format: OBU headers and sizes,
sequence headers, metadata, frame headers and tile groups.  Bytes are numbers below 256.
-/

namespace Av1Spec


/-- The loop of `leb128()` (4.10.5). -/
def leb128Loop : (n i : Nat) → List Nat → Option (Nat × List Nat)
  | 0, _, bs => some (0, bs)
  | _ + 1, _, [] => none
  | n + 1, i, b :: bs =>
    if 128 ≤ b then
      match leb128Loop n (i + 1) bs with
      | none => none
      | some (v, rest) => some (b % 128 * 2 ^ (7 * i) + v, rest)
    else some (b * 2 ^ (7 * i), bs)

/-- `leb128()`: at most eight bytes, at most `2^32 - 1`. -/
def leb128 (bs : List Nat) : Option (Nat × List Nat) :=
  match leb128Loop 8 0 bs with
  | some (v, rest) => if v < 2 ^ 32 then some (v, rest) else none
  | none => none

/-- An OBU with its type. -/
structure RawObu where
  type : Nat
  payload : List Nat
deriving Repr, DecidableEq

/-- `open_bitstream_unit()` (5.3.1) up to the payload; the format needs `obu_has_size_field`. -/
def rawObu : List Nat → Option (RawObu × List Nat)
  | [] => none
  | b :: bs =>
    let forbidden := b / 128 % 2
    let type := b / 8 % 16
    let extension := b / 4 % 2
    let hasSize := b / 2 % 2
    if forbidden = 1 ∨ hasSize = 0 then none
    else match leb128 (if extension = 1 then bs.drop 1 else bs) with
      | none => none
      | some (size, rest) =>
        if size ≤ rest.length then some (⟨type, rest.take size⟩, rest.drop size) else none

/-- A sequence of OBUs; `fuel` is at least their number. -/
def rawObus : (fuel : Nat) → List Nat → Option (List RawObu)
  | _, [] => some []
  | 0, _ => none
  | n + 1, bs => match rawObu bs with
    | none => none
    | some (o, rest) => match rawObus n rest with
      | none => none
      | some os => some (o :: os)

/-- `trailing_bits()` (5.3.4). -/
def trailingBits : List Bool → Bool
  | true :: zeros => zeros.all (!·)
  | _ => false

/-- A message of 5.8. -/
inductive Metadata where
  | cll (maxCll maxFall : Nat)
  | mdcv (primaries : List (Nat × Nat)) (white : Nat × Nat) (maxLum minLum : Nat)
  | t35 (country : Nat) (extension : Option Nat) (payload : List Nat)
  | unknown (type : Nat)
deriving Repr, DecidableEq

/-- `metadata_hdr_cll()` (5.8.3). -/
def metaCll : Parser Metadata := do
  let a ← Parser.f 16
  let b ← Parser.f 16
  pure (.cll a b)

/-- `metadata_hdr_mdcv()` (5.8.4). -/
def metaMdcv : Parser Metadata := do
  let p ← Parser.times 3 (do
    let x ← Parser.f 16
    let y ← Parser.f 16
    pure (x, y))
  let wx ← Parser.f 16
  let wy ← Parser.f 16
  let mx ← Parser.f 32
  let mn ← Parser.f 32
  pure (.mdcv p (wx, wy) mx mn)

/-- Everything before the last byte that is not zero: the payload of a message whose end is only
known from the trailing bits (6.7.1). -/
def beforeTrailing (bs : List Nat) : Option (List Nat) :=
  match bs.reverse.dropWhile (· == 0) with
  | 128 :: rest => some rest.reverse
  | _ => none

/-- `metadata_itut_t35()` (5.8.2). -/
def metaT35 : List Nat → Option Metadata
  | [] => none
  | country :: bs =>
    if country = 255 then
      match bs with
      | [] => none
      | ext :: bs => (beforeTrailing bs).map (.t35 country (some ext))
    else (beforeTrailing bs).map (.t35 country none)

/-- A parser followed by trailing bits to the end of the OBU. -/
def whole {α : Type} (p : Parser α) (payload : List Nat) : Option α :=
  match p (bits payload) with
  | some (a, rest) => if trailingBits rest then some a else none
  | none => none

/-- `metadata_obu()` (5.8.1). -/
def metadataObu (payload : List Nat) : Option Metadata :=
  match leb128 payload with
  | none => none
  | some (type, bs) =>
    if type = 1 then whole metaCll bs
    else if type = 2 then whole metaMdcv bs
    else if type = 4 then metaT35 bs
    else some (.unknown type)

/-- `le(n)` (4.10.4). -/
def le : (n : Nat) → List Nat → Option (Nat × List Nat)
  | 0, bs => some (0, bs)
  | _ + 1, [] => none
  | n + 1, b :: bs => match le n bs with
    | none => none
    | some (v, rest) => some (b + 256 * v, rest)

/-- The loop of `tile_group_obu()` (5.11.1): every tile but the last has its size before it. -/
def tileLoop (sizeBytes : Nat) : (tiles : Nat) → List Nat → Option (List (List Nat))
  | 0, _ => none
  | 1, bs => if bs = [] then none else some [bs]
  | n + 2, bs => match le sizeBytes bs with
    | none => none
    | some (sizeM1, rest) =>
      if sizeM1 + 1 ≤ rest.length then
        match tileLoop sizeBytes (n + 1) (rest.drop (sizeM1 + 1)) with
        | none => none
        | some ts => some (rest.take (sizeM1 + 1) :: ts)
      else none

/-- Skip to the next byte; the bits skipped are zero (5.3.5). -/
def byteAlignment (payload : List Nat) (rest : List Bool) : Option (List Nat) :=
  let used := 8 * payload.length - rest.length
  let pad := (8 - used % 8) % 8
  if (rest.take pad).all (!·) then some (payload.drop ((used + pad) / 8)) else none

/-- `tile_group_obu()` for a group that holds all tiles. -/
def tileGroup (t : TileHdr) (bs : List Nat) : Option (List (List Nat)) :=
  let n := t.colStarts.length * t.rowStarts.length
  let header : Parser Unit :=
    if 1 < n then do
      let present ← Parser.flag
      if present then do
        let s ← Parser.f (t.colsLog2 + t.rowsLog2)
        let e ← Parser.f (t.colsLog2 + t.rowsLog2)
        if s = 0 ∧ e + 1 = n then pure () else Parser.unsupported
      else pure ()
    else pure ()
  match header (bits bs) with
  | none => none
  | some (_, rest) => match byteAlignment bs rest with
    | none => none
    | some data => tileLoop t.sizeBytes n data

/-- What a decoder gets from an OBU. -/
inductive Event where
  | delimiter
  | sequence (h : SeqHdr)
  | metadata (m : Metadata)
  | frame (h : FrameHdr) (tiles : List (List Nat))
  | shown (slot : Nat)

/-- The state of a decoder: the sequence header, if one was seen, and the references. -/
structure DecSt where
  seq : Option SeqHdr
  slots : Nat → Option Slot

def DecSt.init : DecSt := ⟨none, fun _ => none⟩

/-- One OBU.  As in `frameHeaders`, showing a frame again leaves the references alone. -/
def interpret (d : DecSt) (o : RawObu) : Option (Event × DecSt) :=
  if o.type = 1 then
    (whole sequenceHeader o.payload).map fun h => (.sequence h, { d with seq := some h })
  else if o.type = 2 then
    if o.payload = [] then some (.delimiter, d) else none
  else if o.type = 3 then
    match d.seq with
    | none => none
    | some s => match whole (frameHeader ⟨s, d.slots⟩) o.payload with
      | some (.existing i) => some (.shown i, d)
      | _ => none
  else if o.type = 5 then (metadataObu o.payload).map fun m => (.metadata m, d)
  else if o.type = 6 then
    match d.seq with
    | none => none
    | some s => match frameHeader ⟨s, d.slots⟩ (bits o.payload) with
      | some (.coded h, rest) => match byteAlignment o.payload rest with
        | none => none
        | some data => match tileGroup h.tiles data with
          | none => none
          | some tiles =>
            some (.frame h tiles, { d with slots := (Ctx.update ⟨s, d.slots⟩ h).slots })
      | _ => none
  else none

/-- All OBUs of a packet in turn. -/
def interpretAll (d : DecSt) : List RawObu → Option (List Event × DecSt)
  | [] => some ([], d)
  | o :: os => match interpret d o with
    | none => none
    | some (e, d') => match interpretAll d' os with
      | none => none
      | some (es, d'') => some (e :: es, d'')

/-- A packet. -/
def packet (d : DecSt) (bs : List Nat) : Option (List Event × DecSt) :=
  match rawObus bs.length bs with
  | none => none
  | some os => interpretAll d os

/-- A sequence of packets. -/
def decodePackets (d : DecSt) : List (List Nat) → Option (List (List Event))
  | [] => some []
  | p :: ps => match packet d p with
    | none => none
    | some (es, d') => match decodePackets d' ps with
      | none => none
      | some out => some (es :: out)

end Av1Spec

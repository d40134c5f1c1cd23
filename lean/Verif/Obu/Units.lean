import Verif.Obu.Lemmas

/-!
# Metadata, sequence headers, tile groups and frames
-/

namespace Rav1e.Obu

open Rav1e.Hdr Av1Spec

theorem bytesOf_some {w : W} {bs : List Nat} (h : bytesOf w = some bs) :
    ∃ b, w = some b ∧ bs = toBytes (align b) := by
  unfold bytesOf at h
  rw [Option.map_eq_some_iff] at h
  obtain ⟨b, h1, rfl⟩ := h
  exact ⟨b, h1, rfl⟩

theorem bits_bytesOf {w : W} {bs : List Nat} (h : bytesOf w = some bs) :
    ∃ b, w = some b ∧ bits bs = align b ∧ bs.length = (b.length + 7) / 8 := by
  obtain ⟨b, h1, rfl⟩ := bytesOf_some h
  exact ⟨b, h1, bits_align b, bytes_align b⟩

theorem all_replicate (n : Nat) : (List.replicate n false).all (!·) = true := by
  simp

/-- A header and its trailing bits fill the OBU. -/
theorem whole_codes {α : Type} {w : W} {p : Parser α} {a : α} {bs : List Nat} (h : Codes w p a)
    (hb : bytesOf (w ⊹ bit true) = some bs) : whole p bs = some a := by
  obtain ⟨b, h1, h2, _⟩ := bits_bytesOf hb
  cases w with
  | none => cases h1
  | some w =>
    have : w ++ [true] = b := by simpa [W.app, bit] using h1
    subst this
    unfold whole
    rw [h2]
    unfold align
    rw [List.append_assoc, h w rfl]
    dsimp only
    rw [if_pos]
    show (List.replicate _ false).all (!·) = true
    exact all_replicate _

/-! ## Metadata -/

theorem uleb_small {v : Nat} (hv : v < 128) : uleb128 v = [v] := by
  unfold uleb128
  rw [Nat.mod_eq_of_lt (by omega)]
  unfold ulebLoop
  dsimp only
  rw [if_neg (by omega), Nat.mod_eq_of_lt hv]

theorem metadata_type {t : Nat} (ht : t < 128) (bs : List Nat) : leb128 (t :: bs) = some (t, bs) := by
  have := (uleb128_round_trip t (by omega) bs).1
  rwa [uleb_small ht] at this

theorem length_lit {n v : Nat} {b : List Bool} (h : lit n v = some b) : b.length = n := by
  unfold lit at h
  split at h
  · cases h
    unfold Ec.toBits
    rw [List.length_map]
    generalize n = k
    induction k with
    | zero => rfl
    | succ k ih => simp [Ec.literal, ih]
  · cases h

theorem app_some {a b : W} {bs : List Bool} (h : (a ⊹ b) = some bs) :
    ∃ x y, a = some x ∧ b = some y ∧ bs = x ++ y := by
  cases a with
  | none => cases h
  | some x => cases b with
    | none => cases h
    | some y => exact ⟨x, y, rfl, rfl, by simpa [W.app] using h.symm⟩

/-- An OBU of metadata whose size was computed in advance. -/
theorem metadata_splits {t n : Nat} (ht : t < 128) {m bs : List Nat} (hn : m.length + 1 = n) (hs : n < 2 ^ 32)
    (h : cat [bytesOf (obuHeader 5), some (uleb128 n), some (uleb128 t), some m] = some bs) :
    Splits bs [⟨5, t :: m⟩] := by
  rw [obuHeader_byte 5 (by decide)] at h
  simp only [cat, Option.map_some, Option.some.injEq, List.append_nil] at h
  subst h
  have := Splits.one (t := 5) (by decide) (t :: m) (by rw [List.length_cons]; omega)
  rw [List.length_cons, hn] at this
  rw [uleb_small ht]
  exact this

theorem cllObu_splits {c : Cll} {bs : List Nat} (h : cllObu c = some bs) :
    ∃ payload, Splits bs [⟨5, payload⟩] ∧ metadataObu payload = some (.cll c.maxCll c.maxFall) := by
  unfold cllObu at h
  rcases hm : bytesOf (lit 16 c.maxCll ⊹ lit 16 c.maxFall ⊹ bit true) with _ | m
  · rw [hm, obuHeader_byte 5 (by decide)] at h; simp [cat] at h
  rw [hm] at h
  have hw : whole metaCll m = some (.cll c.maxCll c.maxFall) := by
    refine whole_codes (w := lit 16 c.maxCll ⊹ lit 16 c.maxFall) ?_ (by rw [app_assoc]; exact hm)
    unfold metaCll
    codes
  obtain ⟨b, hb, _, hl⟩ := bits_bytesOf hm
  obtain ⟨x, y', hx, hy', rfl⟩ := app_some hb
  obtain ⟨y, z, hy, hz, rfl⟩ := app_some hy'
  have hx := length_lit hx
  have hy := length_lit hy
  have hz : z = [true] := by simpa [bit] using hz.symm
  subst hz
  simp only [List.length_append, List.length_singleton] at hl
  have hl : m.length = 5 := by omega
  refine ⟨1 :: m, metadata_splits (by decide) (by omega) (by decide) h, ?_⟩
  unfold metadataObu
  rw [metadata_type (by decide)]
  exact hw

theorem mdcvObu_splits {c : Mdcv} {bs : List Nat} (hp : c.primaries.length = 3) (h : mdcvObu c = some bs) :
    ∃ payload, Splits bs [⟨5, payload⟩] ∧
      metadataObu payload = some (.mdcv c.primaries c.white c.maxLum c.minLum) := by
  unfold mdcvObu at h
  obtain ⟨pr, ⟨wx, wy⟩, mx, mn⟩ := c
  match pr, hp with
  | [(x0, y0), (x1, y1), (x2, y2)], _ =>
    dsimp only at h ⊢
    have hrange : List.range 3 = [0, 1, 2] := rfl
    rw [hrange] at h
    simp only [forW, withAt, List.getElem?_cons_zero, List.getElem?_cons_succ, app_nil, app_assoc] at h
    generalize hb : (lit 16 x0 ⊹ lit 16 y0 ⊹ lit 16 x1 ⊹ lit 16 y1 ⊹ lit 16 x2 ⊹ lit 16 y2 ⊹
      lit 16 wx ⊹ lit 16 wy ⊹ lit 32 mx ⊹ lit 32 mn ⊹ bit true) = w at h
    rcases hm : bytesOf w with _ | m
    · rw [hm, obuHeader_byte 5 (by decide)] at h; simp [cat] at h
    rw [hm] at h
    have hw : whole metaMdcv m = some (.mdcv [(x0, y0), (x1, y1), (x2, y2)] (wx, wy) mx mn) := by
      refine whole_codes (w := lit 16 x0 ⊹ lit 16 y0 ⊹ lit 16 x1 ⊹ lit 16 y1 ⊹ lit 16 x2 ⊹ lit 16 y2 ⊹
        lit 16 wx ⊹ lit 16 wy ⊹ lit 32 mx ⊹ lit 32 mn) ?_ (by simp only [app_assoc]; rw [hb]; exact hm)
      have : metaMdcv = (do
          let x0 ← Parser.f 16; let y0 ← Parser.f 16
          let x1 ← Parser.f 16; let y1 ← Parser.f 16
          let x2 ← Parser.f 16; let y2 ← Parser.f 16
          let wx ← Parser.f 16; let wy ← Parser.f 16
          let mx ← Parser.f 32; let mn ← Parser.f 32
          pure (.mdcv [(x0, y0), (x1, y1), (x2, y2)] (wx, wy) mx mn)) := by
        unfold metaMdcv Parser.times
        rw [hrange]
        simp only [Parser.each, bind_assoc, pure_bind]
      rw [this]
      codes
    obtain ⟨b, hb', _, hl⟩ := bits_bytesOf hm
    rw [← hb] at hb'
    obtain ⟨b1, r1, h1, hr1, rfl⟩ := app_some hb'
    obtain ⟨b2, r2, h2, hr2, rfl⟩ := app_some hr1
    obtain ⟨b3, r3, h3, hr3, rfl⟩ := app_some hr2
    obtain ⟨b4, r4, h4, hr4, rfl⟩ := app_some hr3
    obtain ⟨b5, r5, h5, hr5, rfl⟩ := app_some hr4
    obtain ⟨b6, r6, h6, hr6, rfl⟩ := app_some hr5
    obtain ⟨b7, r7, h7, hr7, rfl⟩ := app_some hr6
    obtain ⟨b8, r8, h8, hr8, rfl⟩ := app_some hr7
    obtain ⟨b9, r9, h9, hr9, rfl⟩ := app_some hr8
    obtain ⟨b10, r10, h10, hr10, rfl⟩ := app_some hr9
    have hz : r10 = [true] := by simpa [bit] using hr10.symm
    subst hz
    simp only [List.length_append, List.length_singleton, length_lit h1, length_lit h2, length_lit h3,
      length_lit h4, length_lit h5, length_lit h6, length_lit h7, length_lit h8, length_lit h9,
      length_lit h10] at hl
    refine ⟨2 :: m, metadata_splits (by decide) (by omega) (by decide) h, ?_⟩
    unfold metadataObu
    rw [metadata_type (by decide)]
    exact hw

theorem lit8_byte : ∀ v < 256, bytesOf (lit 8 v) = some [v] := by decide +kernel

theorem lit8_lt {v : Nat} {bs : List Nat} (h : bytesOf (lit 8 v) = some bs) : v < 256 ∧ bs = [v] := by
  have hv : v < 256 := by
    obtain ⟨b, h1, _⟩ := bytesOf_some h
    exact lit_lt (n := 8) (w := W.nil) (bs := b) (by rw [app_nil]; exact h1)
  rw [lit8_byte v hv] at h
  exact ⟨hv, by simpa using h.symm⟩

theorem trailing_byte : bytesOf (bit true) = some [128] := by decide +kernel

theorem beforeTrailing_append (d : List Nat) : beforeTrailing (d ++ [128]) = some d := by
  unfold beforeTrailing
  rw [List.reverse_append]
  simp

/-- **C15.**  A T.35 message is one OBU; whatever its bytes (zeros and 0x80 at the end included), a
decoder gets country code, extension byte (present exactly when the country code is 0xFF) and
payload back. -/
theorem t35Obu_splits {t : T35} {bs : List Nat} (h : t35Obu t = some bs) (hl : bs.length < 2 ^ 32) :
    ∃ payload, Splits bs [⟨5, payload⟩] ∧ metadataObu payload =
      some (.t35 t.country (if t.country = 255 then some t.extension else none) t.data) := by
  unfold t35Obu at h
  rw [trailing_byte] at h
  rcases hc : bytesOf (lit 8 t.country) with _ | cb
  · rw [hc, obuHeader_byte 5 (by decide)] at h; simp [cat] at h
  obtain ⟨_, rfl⟩ := lit8_lt hc
  rw [hc] at h
  by_cases hff : t.country = 255
  · rw [if_pos hff, if_pos hff] at h
    rcases he : bytesOf (lit 8 t.extension) with _ | eb
    · rw [he, obuHeader_byte 5 (by decide)] at h; simp [cat] at h
    obtain ⟨_, rfl⟩ := lit8_lt he
    rw [he] at h
    have h' : cat [bytesOf (obuHeader 5), some (uleb128 (t.data.length + 4)), some (uleb128 4),
        some (t.country :: t.extension :: (t.data ++ [128]))] = some bs := by
      rw [← h, obuHeader_byte 5 (by decide)]
      simp [cat]
    have hlen : t.data.length + 4 < 2 ^ 32 := by
      rw [obuHeader_byte 5 (by decide)] at h'
      simp only [cat, Option.map_some, Option.some.injEq, List.append_nil] at h'
      rw [← h'] at hl
      have := (uleb_length 5 ((t.data.length + 4) % 2 ^ 32) (by decide)).1
      have := (uleb_length 5 (4 % 2 ^ 32) (by decide)).1
      simp only [uleb128, List.length_append, List.length_cons, List.length_nil] at hl
      omega
    refine ⟨_, metadata_splits (by decide) (by simp) hlen h', ?_⟩
    unfold metadataObu
    rw [metadata_type (by decide)]
    simp [metaT35, hff, beforeTrailing_append]
  · rw [if_neg hff, if_neg hff] at h
    have h' : cat [bytesOf (obuHeader 5), some (uleb128 (t.data.length + 3)), some (uleb128 4),
        some (t.country :: (t.data ++ [128]))] = some bs := by
      rw [← h, obuHeader_byte 5 (by decide)]
      simp [cat]
    have hlen : t.data.length + 3 < 2 ^ 32 := by
      rw [obuHeader_byte 5 (by decide)] at h'
      simp only [cat, Option.map_some, Option.some.injEq, List.append_nil] at h'
      rw [← h'] at hl
      have := (uleb_length 5 ((t.data.length + 3) % 2 ^ 32) (by decide)).1
      have := (uleb_length 5 (4 % 2 ^ 32) (by decide)).1
      simp only [uleb128, List.length_append, List.length_cons, List.length_nil] at hl
      omega
    refine ⟨_, metadata_splits (by decide) (by simp) hlen h', ?_⟩
    unfold metadataObu
    rw [metadata_type (by decide)]
    simp [metaT35, hff, beforeTrailing_append]

/-! ## Tile groups -/

theorem le_writeLe : ∀ (n v : Nat) (bs rest : List Nat), writeLe n v = some bs →
    le n (bs ++ rest) = some (v, rest) ∧ bs.length = n
  | 0, v, bs, rest, h => by
    unfold writeLe at h
    split at h
    · rename_i hv; subst hv; cases h; exact ⟨rfl, rfl⟩
    · cases h
  | n + 1, v, bs, rest, h => by
    unfold writeLe at h
    rw [Option.map_eq_some_iff] at h
    obtain ⟨b, h1, rfl⟩ := h
    obtain ⟨ih, hl⟩ := le_writeLe n (v / 256) b rest h1
    refine ⟨?_, by simp [hl]⟩
    rw [List.cons_append]
    unfold le
    rw [ih]
    have := Nat.mod_add_div v 256
    simp [this]

theorem writeLe_isSome : ∀ (n v : Nat), v < 256 ^ n → ∃ bs, writeLe n v = some bs
  | 0, v, h => by
    have : v = 0 := by simpa using h
    exact ⟨[], by simp [writeLe, this]⟩
  | n + 1, v, h => by
    obtain ⟨bs, hb⟩ := writeLe_isSome n (v / 256) (by
      rw [Nat.div_lt_iff_lt_mul (by decide)]; rwa [Nat.pow_succ] at h)
    exact ⟨v % 256 :: bs, by simp [writeLe, hb]⟩

theorem tileLoop_rawTiles (k : Nat) : ∀ (tiles : List (List Nat)) (bs : List Nat), tiles ≠ [] →
    (∀ t ∈ tiles, t ≠ []) → rawTiles k tiles = some bs → tileLoop k tiles.length bs = some tiles
  | [], _, h, _, _ => absurd rfl h
  | [t], bs, _, hne, h => by
    unfold rawTiles at h
    cases h
    show (if t = [] then none else some [t]) = _
    rw [if_neg (hne t (by simp))]
  | t :: u :: more, bs, _, hne, h => by
    unfold rawTiles at h
    have ht : t ≠ [] := hne t (by simp)
    have hl : 0 < t.length := List.length_pos_iff.2 ht
    rw [if_neg (by omega)] at h
    rcases hw : writeLe k (t.length - 1) with _ | sz
    · rw [hw] at h; cases h
    rcases hr : rawTiles k (u :: more) with _ | rest
    · rw [hw, hr] at h; cases h
    rw [hw, hr] at h
    simp only [cat, Option.map_some, Option.some.injEq, List.append_nil] at h
    subst h
    have ih := tileLoop_rawTiles k (u :: more) rest (by simp) (fun x hx => hne x (by simp [hx])) hr
    show tileLoop k (more.length + 2) _ = _
    unfold tileLoop
    rw [(le_writeLe k _ sz (t ++ rest) hw).1]
    dsimp only
    have he : t.length - 1 + 1 = t.length := by omega
    rw [he, if_pos (by simp), List.drop_left, List.take_left]
    rw [show more.length + 1 = (u :: more).length from rfl, ih]

/-- The alignment after bits that were written aligned. -/
theorem byteAlignment_align (b : List Bool) (rest : List Nat) :
    byteAlignment (toBytes (align b) ++ rest)
      (List.replicate ((8 - b.length % 8) % 8) false ++ bits rest) = some rest := by
  have hl := bytes_align b
  unfold byteAlignment
  dsimp only
  rw [List.length_append, List.length_append, List.length_replicate, Ec.bits_length, hl]
  have hu : 8 * ((b.length + 7) / 8 + rest.length) -
      ((8 - b.length % 8) % 8 + 8 * rest.length) = b.length := by omega
  rw [hu, List.take_left' (by simp), all_replicate, if_pos rfl]
  congr 1
  rw [List.drop_left']
  rw [hl]
  omega

/-- **C12.**  From the bytes of a tile group and the size of the size fields the frame header
announces, a decoder gets every tile back. -/
theorem tile_group_round_trip (t : TileHdr) (cols rows : Nat) (tiles : List (List Nat)) (k : Nat)
    (hc : t.colStarts.length = cols) (hr : t.rowStarts.length = rows)
    (hk : 1 < cols * rows → t.sizeBytes = k) (hn : tiles.length = cols * rows) (h0 : tiles ≠ [])
    (hne : ∀ x ∈ tiles, x ≠ []) (bs : List Nat) (h : rawTileGroup cols rows k tiles = some bs) :
    tileGroup t bs = some tiles := by
  unfold rawTileGroup at h
  rcases hr' : rawTiles k tiles with _ | data
  · rw [hr'] at h
    split at h
    · have : bytesOf (bit false) = some [0] := by decide +kernel
      rw [this] at h; simp [cat] at h
    · simp [cat, bytesOf, W.nil] at h
  rw [hr'] at h
  unfold tileGroup
  dsimp only
  rw [hc, hr]
  by_cases h1 : 1 < cols * rows
  · rw [if_pos h1] at h
    have hb : bytesOf (bit false) = some (toBytes (align [false])) := rfl
    rw [hb] at h
    simp only [cat, Option.map_some, Option.some.injEq, List.append_nil] at h
    rw [← h, bits_append, bits_align, if_pos h1]
    have := byteAlignment_align [false] data
    show (match byteAlignment _ (List.replicate ((8 - [false].length % 8) % 8) false ++ bits data) with
      | none => none
      | some data => tileLoop t.sizeBytes (cols * rows) data) = _
    rw [this]
    dsimp only
    rw [hk h1, ← hn]
    exact tileLoop_rawTiles k tiles data h0 hne hr'
  · rw [if_neg h1] at h
    have hb : bytesOf W.nil = some (toBytes (align [])) := rfl
    rw [hb] at h
    simp only [cat, Option.map_some, Option.some.injEq, List.append_nil] at h
    rw [if_neg h1, ← h]
    have := byteAlignment_align [] data
    show (match byteAlignment (toBytes (align []) ++ data)
        (List.replicate ((8 - ([] : List Bool).length % 8) % 8) false ++ bits data) with
      | none => none
      | some data => tileLoop t.sizeBytes (cols * rows) data) = _
    rw [this]
    dsimp only
    rw [← hn]
    match tiles, hn, h0, hr', hne with
    | [x], _, _, hr', hne =>
      exact tileLoop_rawTiles t.sizeBytes [x] data (by simp) hne hr'
    | _ :: _ :: _, hn, _, _, _ => simp only [List.length_cons] at hn; omega

end Rav1e.Obu

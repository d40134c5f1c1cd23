import Verif.Obu.Units

/-!
# Packets are read back
-/

namespace Rav1e.Obu

open Rav1e.Hdr Av1Spec

/-- What a decoder should get from a unit. -/
def Unit.spec (e : EncCfg) (s : Seq) : Unit → Event
  | .sequence => .sequence (s.hdr e.width e.height)
  | .cll c => .metadata (.cll c.maxCll c.maxFall)
  | .mdcv m => .metadata (.mdcv m.primaries m.white m.maxLum m.minLum)
  | .t35 t => .metadata (.t35 t.country (if t.country = 255 then some t.extension else none) t.data)
  | .frame fi tiles => .frame fi.hdr tiles
  | .shown slot => .shown slot

/-- The ranges of the types of `ContentLight`, `MasteringDisplay`. -/
structure Hdr10.Ok (m : Hdr10) : Prop where
  cll : ∀ c, m.cll = some c → c.maxCll < 2 ^ 16 ∧ c.maxFall < 2 ^ 16
  mdcv : ∀ d, m.mdcv = some d → d.primaries.length = 3 ∧
    (∀ p ∈ d.primaries, p.1 < 2 ^ 16 ∧ p.2 < 2 ^ 16) ∧ d.white.1 < 2 ^ 16 ∧ d.white.2 < 2 ^ 16 ∧
    d.maxLum < 2 ^ 32 ∧ d.minLum < 2 ^ 32

/-- The decisions of a frame but for the fields that follow from its tiles. -/
def Item.late (i : Item) : Late := { i.l with ctxTileId := 0, tileSizeBytes := 1 }

/-- A frame with one piece of data per tile, none empty and none over 4 GiB, and bytes where bytes are
expected. -/
structure Item.Ok (s : Seq) (i : Item) : Prop where
  count : i.tiles.length = s.tiling.cols * s.tiling.rows
  tiles : ∀ t ∈ i.tiles, t ≠ [] ∧ t.length < 2 ^ 32
  t35 : ∀ t ∈ i.x.t35, t.country < 256 ∧ t.extension < 256

/-! ## The tile fields -/

theorem maxTile_aux : ∀ (lens : List Nat) (k i m : Nat), i < k →
    ∃ i' m', (lens.zipIdx k).foldl (fun (acc : Option (Nat × Nat)) (x : Nat × Nat) =>
      match acc with
      | none => some (x.2, x.1)
      | some (i, m) => if m ≤ x.1 then some (x.2, x.1) else some (i, m)) (some (i, m)) = some (i', m') ∧
      i' < k + lens.length ∧ m ≤ m' ∧ (∀ l ∈ lens, l ≤ m') ∧ (m' = m ∨ m' ∈ lens)
  | [], k, i, m, h => ⟨i, m, rfl, by simpa using h, Nat.le_refl _, by simp, .inl rfl⟩
  | l :: lens, k, i, m, h => by
    simp only [List.zipIdx_cons, List.foldl_cons]
    by_cases hm : m ≤ l
    · rw [if_pos hm]
      obtain ⟨i', m', h1, h2, h3, h4, h5⟩ := maxTile_aux lens (k + 1) k l (by omega)
      refine ⟨i', m', h1, by rw [List.length_cons]; omega, by omega, ?_, ?_⟩
      · intro x hx; rcases List.mem_cons.1 hx with rfl | hx
        · exact h3
        · exact h4 x hx
      · rcases h5 with rfl | h5
        · exact .inr (by simp)
        · exact .inr (by simp [h5])
    · rw [if_neg hm]
      obtain ⟨i', m', h1, h2, h3, h4, h5⟩ := maxTile_aux lens (k + 1) i m (by omega)
      refine ⟨i', m', h1, by rw [List.length_cons]; omega, h3, ?_, ?_⟩
      · intro x hx; rcases List.mem_cons.1 hx with rfl | hx
        · omega
        · exact h4 x hx
      · rcases h5 with h5 | h5
        · exact .inl h5
        · exact .inr (by simp [h5])

theorem maxTile_spec (lens : List Nat) (h : lens ≠ []) :
    ∃ i m, maxTile lens = some (i, m) ∧ i < lens.length ∧ (∀ l ∈ lens, l ≤ m) ∧ m ∈ lens := by
  match lens, h with
  | l :: lens, _ =>
    unfold maxTile
    simp only [List.zipIdx_cons, List.foldl_cons]
    obtain ⟨i', m', h1, h2, h3, h4, h5⟩ := maxTile_aux lens (0 + 1) 0 l (by omega)
    refine ⟨i', m', h1, by rw [List.length_cons]; omega, ?_, ?_⟩
    · intro x hx; rcases List.mem_cons.1 hx with rfl | hx
      · exact h3
      · exact h4 x hx
    · rcases h5 with rfl | h5
      · simp
      · simp [h5]

theorem lt_two_pow_ilog (n : Nat) : n < 2 ^ ilog n := by
  unfold ilog Ec.bitLen
  split
  · omega
  · exact Nat.lt_log2_self

theorem ilog_le {n k : Nat} (h : n < 2 ^ k) : ilog n ≤ k := by
  unfold ilog Ec.bitLen
  split
  · omega
  · rename_i h0
    have := (Nat.log2_lt h0).2 h
    omega

theorem ilog_pos {n : Nat} (h : 0 < n) : 1 ≤ ilog n := by
  unfold ilog Ec.bitLen
  rw [if_neg (by omega)]
  omega

/-- The size field is wide enough for every tile, and no wider than four bytes. -/
theorem tileFields_spec {s : Seq} {i : Item} (ok : i.Ok s) (h0 : i.tiles ≠ []) (d : Bool) :
    ∃ ctx size, tileFields d i.tiles = some (ctx, size) ∧ ctx < i.tiles.length ∧ 1 ≤ size ∧ size ≤ 4 ∧
      ∀ t ∈ i.tiles, t.length - 1 < 256 ^ size := by
  obtain ⟨k, m, h1, h2, h3, h4⟩ := maxTile_spec (i.tiles.map List.length) (by simpa using h0)
  obtain ⟨t, ht, rfl⟩ := List.mem_map.1 h4
  obtain ⟨t1, t2⟩ := ok.tiles t ht
  have tp : 0 < t.length := List.length_pos_iff.2 t1
  have hlen : 0 < i.tiles.length := List.length_pos_iff.2 h0
  refine ⟨_, _, by unfold tileFields; rw [h1]; rfl, ?_, ?_, ?_, ?_⟩
  · rw [List.length_map] at h2
    split <;> omega
  · have := ilog_pos tp; omega
  · have := ilog_le t2; omega
  · intro u hu
    have h5 := h3 u.length (List.mem_map.2 ⟨u, hu, rfl⟩)
    have h6 := lt_two_pow_ilog t.length
    have h7 : 2 ^ ilog t.length ≤ 256 ^ ((ilog t.length + 7) / 8) := by
      rw [show (256 : Nat) = 2 ^ 8 from rfl, ← Nat.pow_mul]
      exact Nat.pow_le_pow_right (by decide) (by omega)
    omega

theorem rawTiles_isSome {k : Nat} : ∀ tiles : List (List Nat), (∀ t ∈ tiles, t ≠ [] ∧ t.length - 1 < 256 ^ k) →
    ∃ bs, rawTiles k tiles = some bs
  | [], _ => ⟨[], rfl⟩
  | [t], _ => ⟨t, rfl⟩
  | t :: u :: more, h => by
    obtain ⟨h1, h2⟩ := h t (by simp)
    obtain ⟨bs, hb⟩ := rawTiles_isSome (u :: more) (fun x hx => h x (by simp [hx]))
    obtain ⟨sz, hs⟩ := writeLe_isSome k _ h2
    have : 0 < t.length := List.length_pos_iff.2 h1
    exact ⟨sz ++ (t ++ (bs ++ [])), by rw [rawTiles, if_neg (by omega), hs, hb]; rfl⟩

theorem rawTileGroup_isSome {c r k : Nat} {tiles : List (List Nat)}
    (h : ∀ t ∈ tiles, t ≠ [] ∧ t.length - 1 < 256 ^ k) : ∃ bs, rawTileGroup c r k tiles = some bs := by
  obtain ⟨bs, hb⟩ := rawTiles_isSome tiles h
  unfold rawTileGroup
  rw [hb]
  split
  · exact ⟨_, rfl⟩
  · exact ⟨_, rfl⟩

/-! ## The units before a frame -/

theorem interpretAll_append {d d' d'' : DecSt} {a b : List RawObu} {x y : List Event}
    (h1 : interpretAll d a = some (x, d')) (h2 : interpretAll d' b = some (y, d'')) :
    interpretAll d (a ++ b) = some (x ++ y, d'') := by
  induction a generalizing d x with
  | nil =>
    simp only [interpretAll, Option.some.injEq, Prod.mk.injEq] at h1
    obtain ⟨rfl, rfl⟩ := h1
    exact h2
  | cons o os ih =>
    rw [List.cons_append]
    unfold interpretAll at h1 ⊢
    rcases ho : interpret d o with _ | ⟨ev, d1⟩
    · rw [ho] at h1; cases h1
    rw [ho] at h1
    dsimp only at h1 ⊢
    rcases hr : interpretAll d1 os with _ | ⟨es, d2⟩
    · rw [hr] at h1; cases h1
    rw [hr] at h1
    simp only [Option.some.injEq, Prod.mk.injEq] at h1
    obtain ⟨rfl, rfl⟩ := h1
    rw [ih hr]
    rfl

theorem interpretAll_one {d d' : DecSt} {o : RawObu} {ev : Event} (h : interpret d o = some (ev, d')) :
    interpretAll d [o] = some ([ev], d') := by
  unfold interpretAll
  rw [h]
  rfl

theorem interpret_meta {d : DecSt} {p : List Nat} {m : Metadata} (h : metadataObu p = some m) :
    interpret d ⟨5, p⟩ = some (.metadata m, d) := by
  unfold interpret
  dsimp only
  rw [if_neg (by decide), if_neg (by decide), if_neg (by decide), if_pos rfl, h]
  rfl

/-- The bytes are OBUs that take a decoder from `d` to `d'` and tell it `evs`. -/
def Reads (bs : List Nat) (d : DecSt) (evs : List Event) (d' : DecSt) : Prop :=
  ∃ os, Splits bs os ∧ interpretAll d os = some (evs, d')

theorem Reads.nil (d : DecSt) : Reads [] d [] d := ⟨[], Splits.nil, rfl⟩

theorem Reads.append {a b : List Nat} {d d' d'' : DecSt} {x y : List Event} (h1 : Reads a d x d')
    (h2 : Reads b d' y d'') : Reads (a ++ b) d (x ++ y) d'' := by
  obtain ⟨o1, s1, i1⟩ := h1
  obtain ⟨o2, s2, i2⟩ := h2
  exact ⟨o1 ++ o2, s1.append s2, interpretAll_append i1 i2⟩

theorem cat_append {xs ys : List (Option (List Nat))} {bs : List Nat} (h : cat (xs ++ ys) = some bs) :
    ∃ a b, cat xs = some a ∧ cat ys = some b ∧ bs = a ++ b := by
  induction xs generalizing bs with
  | nil => exact ⟨[], bs, rfl, h, rfl⟩
  | cons x xs ih =>
    cases x with
    | none => cases h
    | some x =>
      simp only [List.cons_append, cat, Option.map_eq_some_iff] at h
      obtain ⟨c, hc, rfl⟩ := h
      obtain ⟨a, b, h1, h2, rfl⟩ := ih hc
      exact ⟨x ++ a, b, by simp [cat, h1], h2, by simp⟩

theorem cat_cons {x : Option (List Nat)} {ys : List (Option (List Nat))} {bs : List Nat}
    (h : cat (x :: ys) = some bs) : ∃ a b, x = some a ∧ cat ys = some b ∧ bs = a ++ b := by
  cases x with
  | none => cases h
  | some a =>
    obtain ⟨b, h1, h2⟩ := cat_some h
    exact ⟨a, b, rfl, h1, h2⟩

theorem t35s_read (e : EncCfg) (s : Seq) (d : DecSt) : ∀ (ts : List T35) (bs : List Nat),
    cat (ts.map t35Obu) = some bs → bs.length < 2 ^ 32 →
    Reads bs d ((ts.map Unit.t35).map (Unit.spec e s)) d
  | [], bs, h, _ => by
    simp only [List.map_nil, cat, Option.some.injEq] at h
    subst h; exact Reads.nil d
  | t :: ts, bs, h, hl => by
    obtain ⟨a, b, h1, h2, rfl⟩ := cat_cons h
    rw [List.length_append] at hl
    have ih := t35s_read e s d ts b h2 (by omega)
    obtain ⟨p, hs, hm⟩ := t35Obu_splits h1 (by omega)
    exact Reads.append (x := [_]) ⟨_, hs, interpretAll_one (interpret_meta hm)⟩ ih

theorem head_read {e : EncCfg} {s : Seq} {m : Hdr10} (mok : m.Ok) {x : Sched.FI T35} (enc : EncOk e)
    (hs : newSequence e = some s) {d : DecSt} {bs : List Nat} (h : headBytes e s m x = some bs)
    (hl : bs.length < 2 ^ 32) :
    Reads bs d ((headUnits m x).map (Unit.spec e s))
      (if x.ftype = .key then { d with seq := some (s.hdr e.width e.height) } else d) := by
  unfold headBytes at h
  obtain ⟨a, b, h1, h2, rfl⟩ := cat_cons h
  rw [List.length_append] at hl
  unfold headUnits
  rw [List.map_append]
  by_cases hk : x.ftype = .key
  · rw [if_pos hk] at h1 ⊢
    rw [if_pos hk]
    refine Reads.append ?_ (t35s_read e s _ x.t35 b h2 (by omega))
    unfold keyFrameObus at h1
    rcases hp : bytesOf (writeSequenceHeaderObu s e.width e.height ⊹ bit true) with _ | payload
    · rw [hp] at h1; cases h1
    rw [hp] at h1
    dsimp only at h1
    obtain ⟨a1, r1, ha1, hr1, rfl⟩ := cat_cons h1
    obtain ⟨a2, r2, ha2, hr2, rfl⟩ := cat_cons hr1
    obtain ⟨a3, r3, ha3, hr3, rfl⟩ := cat_cons hr2
    simp only [cat, Option.some.injEq] at hr3
    subst hr3
    simp only [List.length_append] at hl
    rw [List.append_nil, List.map_cons, List.map_append]
    refine Reads.append (x := [_]) (d' := { d with seq := some (s.hdr e.width e.height) })
      ⟨_, obu_splits (by decide) ha1 (by omega), interpretAll_one ?_⟩
      (Reads.append (d' := { d with seq := some (s.hdr e.width e.height) }) ?_ ?_)
    · have := whole_codes (sequence_header_round_trip s _ _ (newSequence_seqOk enc hs)) hp
      unfold interpret
      dsimp only
      rw [if_pos rfl, this]
      rfl
    · cases hc : m.cll with
      | none =>
        rw [hc] at ha2
        simp only [Option.some.injEq] at ha2
        subst ha2
        exact Reads.nil _
      | some c =>
        rw [hc] at ha2
        obtain ⟨p, hs, hm⟩ := cllObu_splits ha2
        exact ⟨_, hs, interpretAll_one (interpret_meta hm)⟩
    · cases hc : m.mdcv with
      | none =>
        rw [hc] at ha3
        simp only [Option.some.injEq] at ha3
        subst ha3
        exact Reads.nil _
      | some c =>
        rw [hc] at ha3
        obtain ⟨p, hs, hm⟩ := mdcvObu_splits (mok.mdcv c hc).1 ha3
        exact ⟨_, hs, interpretAll_one (interpret_meta hm)⟩
  · rw [if_neg hk] at h1 ⊢
    rw [if_neg hk]
    simp only [Option.some.injEq] at h1
    subst h1
    exact t35s_read e s d x.t35 b h2 (by omega)

theorem bytesOf_isSome {w : W} (h : Ok w) : ∃ bs, bytesOf w = some bs := by
  obtain ⟨b, hb⟩ := Option.isSome_iff_exists.1 h
  exact ⟨_, by unfold bytesOf; rw [hb]; rfl⟩

theorem cat_isSome : ∀ xs : List (Option (List Nat)), (∀ x ∈ xs, ∃ b, x = some b) → ∃ bs, cat xs = some bs
  | [], _ => ⟨[], rfl⟩
  | x :: xs, h => by
    obtain ⟨a, rfl⟩ := h x (by simp)
    obtain ⟨b, hb⟩ := cat_isSome xs (fun y hy => h y (by simp [hy]))
    exact ⟨a ++ b, by simp [cat, hb]⟩

theorem head_isSome {e : EncCfg} {s : Seq} {m : Hdr10} (mok : m.Ok) {x : Sched.FI T35} (enc : EncOk e)
    (hs : newSequence e = some s) (ht : ∀ t ∈ x.t35, t.country < 256 ∧ t.extension < 256) :
    ∃ bs, headBytes e s m x = some bs := by
  unfold headBytes
  refine cat_isSome _ fun y hy => ?_
  rcases List.mem_cons.1 hy with rfl | hy
  · split
    · unfold keyFrameObus
      obtain ⟨w, hw⟩ := sequence_header_written enc hs
      rw [hw]
      have : bytesOf (some w ⊹ bit true) = some (toBytes (align (w ++ [true]))) := rfl
      rw [this]
      refine cat_isSome _ fun y hy => ?_
      simp only [List.mem_cons, List.not_mem_nil, or_false] at hy
      rcases hy with rfl | rfl | rfl
      · exact obu_isSome (by decide) _
      · cases hc : m.cll with
        | none => exact ⟨_, rfl⟩
        | some c =>
          dsimp only
          obtain ⟨c1, c2⟩ := mok.cll c hc
          unfold cllObu
          refine cat_isSome _ fun y hy => ?_
          simp only [List.mem_cons, List.not_mem_nil, or_false] at hy
          rcases hy with rfl | rfl | rfl | rfl
          · exact ⟨_, obuHeader_byte 5 (by decide)⟩
          · exact ⟨_, rfl⟩
          · exact ⟨_, rfl⟩
          · exact bytesOf_isSome (by oks; exact ⟨c1, c2⟩)
      · cases hc : m.mdcv with
        | none => exact ⟨_, rfl⟩
        | some c =>
          dsimp only
          obtain ⟨c1, c2, c3, c4, c5, c6⟩ := mok.mdcv c hc
          unfold mdcvObu
          refine cat_isSome _ fun y hy => ?_
          simp only [List.mem_cons, List.not_mem_nil, or_false] at hy
          rcases hy with rfl | rfl | rfl | rfl
          · exact ⟨_, obuHeader_byte 5 (by decide)⟩
          · exact ⟨_, rfl⟩
          · exact ⟨_, rfl⟩
          · refine bytesOf_isSome ?_
            oks
            refine ⟨fun i hi => ?_, c3, c4, c5, c6⟩
            have hi : i < c.primaries.length := by rw [c1]; simpa using hi
            rw [ok_withAt]
            refine ⟨_, List.getElem?_eq_getElem hi, ?_⟩
            oks
            exact c2 _ (List.getElem_mem hi)
    · exact ⟨_, rfl⟩
  · obtain ⟨t, htm, rfl⟩ := List.mem_map.1 hy
    obtain ⟨t1, t2⟩ := ht t htm
    unfold t35Obu
    refine cat_isSome _ fun y hy => ?_
    simp only [List.mem_cons, List.not_mem_nil, or_false] at hy
    rcases hy with rfl | rfl | rfl | rfl | rfl | rfl | rfl
    · exact ⟨_, obuHeader_byte 5 (by decide)⟩
    · exact ⟨_, rfl⟩
    · exact ⟨_, rfl⟩
    · exact ⟨_, lit8_byte _ t1⟩
    · split
      · exact ⟨_, lit8_byte _ t2⟩
      · exact ⟨_, rfl⟩
    · exact ⟨_, rfl⟩
    · exact ⟨_, trailing_byte⟩

/-! ## One frame -/

/-- The decoder has the sequence header, and its references are the encoder's. -/
structure DecRel (e : EncCfg) (s : Seq) (rec : List (Option RefFrame)) (d : DecSt) : Prop where
  seq : d.seq = some (s.hdr e.width e.height)
  rel : Rel e s rec ⟨s.hdr e.width e.height, d.slots⟩

/-- What the units `u` of the frame `i` must say: on key frames the sequence header and the metadata
of the configuration, then the frame's own T.35 messages in order, then either the slot to show again
or a frame with the scheduled parameters and with the given tile data. -/
def Says (m : Hdr10) (i : Item) (u : List Unit) : Prop :=
  ∃ last, u = headUnits m i.x ++ [last] ∧
    if i.x.sef = true then last = .shown i.x.slot
    else ∃ fi, last = .frame fi i.tiles ∧ fi.showFrame = i.x.shown ∧ fi.orderHint = i.x.orderHint ∧
      fi.frameType = ftype i.x.ftype ∧ fi.refresh = i.x.refresh ∧ fi.refFrames = i.x.refs ∧
      fi.primaryRef = i.x.primary ∧ fi.errRes = i.x.errorRes ∧ fi.baseQ = i.l.acQi.getD 0 0 ∧
      fi.deblock.levels = i.l.levels ∧ fi.grain = i.l.grain

theorem buildFi_fields {e : EncCfg} {s : Seq} {x : Sched.FI T35} {l : Late}
    {rec : List (Option RefFrame)} {fi : Fi} (h : buildFi e s x l rec = some fi) :
    fi.seq = s ∧ fi.tileSizeBytes = l.tileSizeBytes ∧
    fi.showFrame = x.shown ∧ fi.orderHint = x.orderHint ∧
      fi.frameType = ftype x.ftype ∧ fi.refresh = x.refresh ∧ fi.refFrames = x.refs ∧
      fi.primaryRef = x.primary ∧ fi.errRes = x.errorRes ∧ fi.baseQ = l.acQi.getD 0 0 ∧
      fi.deblock.levels = l.levels ∧ fi.grain = l.grain := by
  unfold buildFi at h
  dsimp only at h
  generalize frameSegm _ _ _ _ _ _ = o at h
  cases o with
  | none => cases h
  | some segm =>
    simp only [Option.some.injEq] at h
    subst h
    exact ⟨rfl, rfl, rfl, rfl, rfl, rfl, rfl, rfl, rfl, rfl, rfl, rfl⟩

theorem cols_rows {e : EncCfg} {s : Seq} (enc : EncOk e) (hs : newSequence e = some s) :
    1 ≤ s.tiling.cols * s.tiling.rows ∧
    (1 < s.tiling.cols * s.tiling.rows → 0 < s.tiling.tileColsLog2 + s.tiling.tileRowsLog2) := by
  have F := Tile.fromTargetTiles_facts enc.size
    (Tile.sequenceTiling_from (newSequence_tiling hs)).choose_spec.choose_spec
  have c := F.cols
  have r := F.rows
  have w1 := Tile.sbs_pos enc.size.w1
  have h1 := Tile.sbs_pos enc.size.h1
  have c1 : 1 ≤ s.tiling.cols := by rw [c]; exact (Nat.one_le_div_iff F.tw).2 (by omega)
  have r1 : 1 ≤ s.tiling.rows := by rw [r]; exact (Nat.one_le_div_iff F.thp).2 (by omega)
  refine ⟨Nat.mul_pos c1 r1, fun h => ?_⟩
  by_contra hn
  have h1 : s.tiling.tileColsLog2 = 0 := by omega
  have h2 : s.tiling.tileRowsLog2 = 0 := by omega
  have c3 := F.c3
  have r3 := F.r3
  rw [h1] at c3
  rw [h2] at r3
  have h3 : s.tiling.cols = 1 := by omega
  have h4 : s.tiling.rows = 1 := by omega
  rw [h3, h4] at h
  omega

/-- One frame: it is written, it says what it should, and a decoder that has followed so far reads it
and can follow on. -/
theorem encodeUnit_spec {e : EncCfg} {s : Seq} {m : Hdr10} {i : Item} {rec : List (Option RefFrame)}
    {d : DecSt} (v : VideoOk e s [(i.x, i.late)]) (mok : m.Ok) (ok : i.Ok s)
    (hrel : i.x.ftype ≠ .key → DecRel e s rec d) :
    encodeUnit e s m rec i ≠ .error .writer ∧
    (e.segmentation = false → ∃ r, encodeUnit e s m rec i = .ok r) ∧
    ∀ u bytes rec', encodeUnit e s m rec i = .ok (u, bytes, rec') →
      Says m i u ∧ ∃ d', DecRel e s rec' d' ∧
        (bytes.length < 2 ^ 32 → Reads bytes d (u.map (Unit.spec e s)) d') := by
  obtain ⟨head, hhead⟩ := head_isSome (s := s) (x := i.x) mok v.enc v.seq ok.t35
  obtain ⟨hn1, hn2⟩ := cols_rows v.enc v.seq
  have hne : i.tiles ≠ [] := by
    intro h; have := ok.count; rw [h, List.length_nil] at this; omega
  obtain ⟨ctx, size, hf, f1, f2, f3, f4⟩ := tileFields_spec ok hne s.reduced
  rw [ok.count] at f1
  obtain ⟨xok, lok⟩ := v.frames (i.x, i.late) (by simp)
  have v' : VideoOk e s [(i.x, { i.l with ctxTileId := ctx, tileSizeBytes := size })] := by
    refine ⟨v.enc, v.seq, v.rows, ?_, ?_⟩
    · intro y hy
      simp only [List.mem_singleton] at hy
      subst hy
      exact ⟨xok, ⟨lok.ac, lok.dc, lok.base, lok.near, lok.cdef, lok.levels, lok.segs, lok.lr, f1,
        ⟨f2, f3⟩, lok.grain⟩⟩
    · intro h y hy
      simp only [List.mem_singleton] at hy
      subst hy
      exact v.still h (i.x, i.late) (by simp)
  -- the decoder after the units before the frame
  obtain ⟨d1, hd1, hdseq, hdslots, hdrel⟩ : ∃ d1 : DecSt,
      (if i.x.ftype = .key then { d with seq := some (s.hdr e.width e.height) } else d) = d1 ∧
      d1.seq = some (s.hdr e.width e.height) ∧ d1.slots = d.slots ∧
      (i.x.ftype ≠ .key → Rel e s rec ⟨s.hdr e.width e.height, d1.slots⟩) := by
    refine ⟨_, rfl, ?_, ?_, ?_⟩
    · split
      · rfl
      · rename_i h; exact (hrel h).seq
    · split <;> rfl
    · intro h
      rw [if_neg h]
      exact (hrel h).rel
  obtain ⟨e1, e2, e3⟩ := encodeHeader_spec (c := ⟨s.hdr e.width e.height, d1.slots⟩) v' rfl hdrel
  unfold encodeHeader at e1 e2 e3
  unfold encodeUnit
  by_cases hs : i.x.sef = true
  · rw [if_pos hs] at e1 e2 e3
    rw [if_pos hs]
    rcases hw : writeShowExisting s i.x.sef i.x.slot with _ | w
    · rw [hw] at e1; exact absurd rfl e1
    rw [hw] at e3
    dsimp only at e3
    obtain ⟨g1, g2⟩ := e3 _ _ _ rfl
    have hb : bytesOf (some w ⊹ bit true) = some (toBytes (align (w ++ [true]))) := rfl
    rw [hb]
    dsimp only
    obtain ⟨ob, hob⟩ := obu_isSome (t := 3) (by decide) (toBytes (align (w ++ [true])))
    rw [hhead, hob]
    simp only [cat, Option.map_some, List.append_nil]
    refine ⟨by simp, fun _ => ⟨_, rfl⟩, ?_⟩
    intro u bytes rec' h
    simp only [Except.ok.injEq, Prod.mk.injEq] at h
    obtain ⟨rfl, rfl, rfl⟩ := h
    refine ⟨⟨_, rfl, by rw [if_pos hs]⟩, d1, ⟨hdseq, g2⟩, fun hl => ?_⟩
    rw [List.length_append] at hl
    rw [List.map_append]
    refine Reads.append (d' := d1) ?_ ⟨_, obu_splits (by decide) hob (by omega), interpretAll_one ?_⟩
    · rw [← hd1]; exact head_read mok v.enc v.seq hhead (by omega)
    · have hc : Codes (some w) (frameHeader ⟨s.hdr e.width e.height, d1.slots⟩)
          (.existing i.x.slot) := by
        intro b hb tail
        cases hb
        exact g1 tail
      have := whole_codes hc hb
      unfold interpret
      dsimp only
      rw [if_neg (by decide), if_neg (by decide), if_pos rfl, hdseq]
      dsimp only
      rw [this]
      rfl
  · rw [if_neg hs] at e1 e2 e3
    rw [if_neg hs, hf]
    dsimp only
    rcases hb : buildFi e s i.x { i.l with ctxTileId := ctx, tileSizeBytes := size }
        (if i.x.ftype = .key then List.replicate 8 none else rec) with _ | fi
    · rw [hb] at e1 e2 e3
      refine ⟨by simp, fun h => ?_, by simp⟩
      obtain ⟨r, hr⟩ := e2 h
      cases hr
    rw [hb] at e1 e2 e3
    dsimp only at e1 e2 e3 ⊢
    rcases hw : writeFrameHeader fi with _ | w
    · rw [hw] at e1; exact absurd rfl e1
    rw [hw] at e3
    dsimp only at e3
    obtain ⟨g1, g2⟩ := e3 _ _ _ rfl
    dsimp only at g2
    obtain ⟨b1, b2, b3⟩ := buildFi_fields hb
    obtain ⟨grp, hgrp⟩ := rawTileGroup_isSome (c := s.tiling.cols) (r := s.tiling.rows) (k := size)
      (tiles := i.tiles) (fun t ht => ⟨(ok.tiles t ht).1, f4 t ht⟩)
    have hbytes : bytesOf (writeFrameHeader fi) = some (toBytes (align w)) := by rw [hw]; rfl
    have hframe : frameBytes s fi i.tiles = obu 6 (toBytes (align w) ++ grp) := by
      unfold frameBytes
      rw [hbytes, b2]
      dsimp only
      rw [hgrp]
      unfold obu
      rw [obuHeader_byte 6 (by decide), List.length_append]
      simp [cat]
    obtain ⟨ob, hob⟩ := obu_isSome (t := 6) (by decide) (toBytes (align w) ++ grp)
    rw [hhead, hframe, hob]
    simp only [cat, Option.map_some, List.append_nil]
    refine ⟨by simp, fun _ => ⟨_, rfl⟩, ?_⟩
    intro u bytes rec' h
    simp only [Except.ok.injEq, Prod.mk.injEq] at h
    obtain ⟨rfl, rfl, rfl⟩ := h
    refine ⟨⟨_, rfl, by rw [if_neg hs]; exact ⟨fi, rfl, b3⟩⟩,
      { d1 with slots := (Ctx.update ⟨s.hdr e.width e.height, d1.slots⟩ fi.hdr).slots },
      ⟨hdseq, g2⟩, fun hl => ?_⟩
    rw [List.length_append] at hl
    rw [List.map_append]
    refine Reads.append (d' := d1) ?_ ⟨_, obu_splits (by decide) hob (by omega), interpretAll_one ?_⟩
    · rw [← hd1]; exact head_read mok v.enc v.seq hhead (by omega)
    · have htg : tileGroup fi.hdr.tiles grp = some i.tiles := by
        refine tile_group_round_trip _ s.tiling.cols s.tiling.rows i.tiles size ?_ ?_ ?_ ok.count hne
          (fun x hx => (ok.tiles x hx).1) grp hgrp
        · show (List.map _ _).length = _
          rw [List.length_map, List.length_range, b1]
        · show (List.map _ _).length = _
          rw [List.length_map, List.length_range, b1]
        · intro h
          show (if _ then _ else _) = _
          rw [b1, if_pos (hn2 h), b2]
      unfold interpret
      dsimp only
      rw [if_neg (by decide), if_neg (by decide), if_neg (by decide), if_neg (by decide), if_pos rfl,
        hdseq]
      dsimp only
      rw [bits_append, bits_align]
      unfold align
      rw [List.append_assoc, g1]
      dsimp only [Meant.spec]
      have := byteAlignment_align w grp
      unfold align at this
      rw [this]
      dsimp only
      rw [htg]
      rfl

/-! ## The packets -/

/-- The frames of each packet: a packet ends with a shown frame. -/
def groups : List Item → List Item → List (List Item)
  | _, [] => []
  | acc, i :: more => if i.x.shown then (acc ++ [i]) :: groups [] more else groups (acc ++ [i]) more

/-- What all units of a packet must say. -/
inductive SaysAll (m : Hdr10) : List Item → List Unit → Prop
  | nil : SaysAll m [] []
  | snoc {is us i u} : SaysAll m is us → Says m i u → SaysAll m (is ++ [i]) (us ++ u)

theorem temporalDelimiter_reads (d : DecSt) : Reads temporalDelimiter d [.delimiter] d :=
  ⟨[⟨2, []⟩], Splits.one (t := 2) (by decide) [] (by decide), rfl⟩

theorem Reads.packet {bs : List Nat} {d d' : DecSt} {evs : List Event} (h : Reads bs d evs d') :
    packet d bs = some (evs, d') := by
  obtain ⟨os, hs, hi⟩ := h
  unfold Av1Spec.packet
  rw [hs.packet]
  exact hi

theorem encodePackets_spec {e : EncCfg} {s : Seq} {m : Hdr10} (mok : m.Ok) :
    ∀ (items : List Item) (rec : List (Option RefFrame)) (units : List Unit) (data : List Nat)
      (acc : List Item) (d0 d : DecSt),
    VideoOk e s (items.map fun i => (i.x, i.late)) → (∀ i ∈ items, i.Ok s) →
    SaysAll m acc units →
    (data.length < 2 ^ 32 → Reads data d0 (.delimiter :: units.map (Unit.spec e s)) d) →
    ((∀ i, items.head? = some i → i.x.ftype = .key) ∨ DecRel e s rec d) →
    encodePackets e s m rec units data items ≠ .error .writer ∧
    (e.segmentation = false → ∃ out, encodePackets e s m rec units data items = .ok out) ∧
    ∀ out, encodePackets e s m rec units data items = .ok out →
      List.Forall₂ (SaysAll m) (groups acc items) (out.map (·.1)) ∧
      ((∀ p ∈ out, p.2.length < 2 ^ 32) → decodePackets d0 (out.map (·.2)) =
        some (out.map fun p => .delimiter :: p.1.map (Unit.spec e s)))
  | [], rec, units, data, acc, d0, d, _, _, _, _, _ => by
    refine ⟨by simp [encodePackets], fun _ => ⟨_, rfl⟩, ?_⟩
    intro out h
    simp only [encodePackets, Except.ok.injEq] at h
    subst h
    exact ⟨.nil, fun _ => rfl⟩
  | i :: more, rec, units, data, acc, d0, d, v, oks, hsays, hreads, hrel => by
    have hrel' : i.x.ftype ≠ .key → DecRel e s rec d := by
      intro h
      rcases hrel with h' | h'
      · exact absurd (h' i rfl) h
      · exact h'
    obtain ⟨h1, h2, h3⟩ := encodeUnit_spec (d := d) v.head mok (oks i (by simp)) hrel'
    unfold encodePackets
    rcases hu : encodeUnit e s m rec i with err | ⟨u, bytes, rec'⟩
    · rw [hu] at h1 h2
      dsimp only
      refine ⟨?_, ?_, by simp⟩
      · intro h; cases h; exact h1 rfl
      · intro h; obtain ⟨r, hr⟩ := h2 h; cases hr
    obtain ⟨g1, d', g2, g3⟩ := h3 u bytes rec' hu
    dsimp only
    have hdata : (data ++ bytes).length < 2 ^ 32 →
        Reads (data ++ bytes) d0 (.delimiter :: (units ++ u).map (Unit.spec e s)) d' := by
      intro hl
      rw [List.length_append] at hl
      rw [List.map_append]
      exact (hreads (by omega)).append (g3 (by omega))
    by_cases hsh : i.x.shown = true
    · rw [if_pos hsh]
      obtain ⟨i1, i2, i3⟩ := encodePackets_spec mok more rec' [] temporalDelimiter [] d' d' v.tail
        (fun j hj => oks j (by simp [hj])) .nil (fun _ => temporalDelimiter_reads d') (.inr g2)
      rcases he : encodePackets e s m rec' [] temporalDelimiter more with err | out
      · rw [he] at i1 i2
        dsimp only
        refine ⟨?_, ?_, by simp⟩
        · intro h; cases h; exact i1 rfl
        · intro h; obtain ⟨r, hr⟩ := i2 h; cases hr
      · dsimp only
        refine ⟨by simp, fun _ => ⟨_, rfl⟩, ?_⟩
        intro out' h
        simp only [Except.ok.injEq] at h
        subst h
        obtain ⟨j1, j2⟩ := i3 out he
        refine ⟨?_, fun hp => ?_⟩
        · rw [groups, if_pos hsh, List.map_cons]
          exact .cons (.snoc hsays g1) j1
        · rw [List.map_cons, List.map_cons, decodePackets,
            (hdata (hp (units ++ u, data ++ bytes) (by simp))).packet]
          dsimp only
          rw [j2 (fun p hpm => hp p (by simp [hpm]))]
    · rw [if_neg hsh]
      have := encodePackets_spec mok more rec' (units ++ u) (data ++ bytes) (acc ++ [i]) d0 d' v.tail
        (fun j hj => oks j (by simp [hj])) (.snoc hsays g1) hdata (.inr g2)
      rwa [groups, if_neg hsh]

/-- **C11.**  For every video that starts with a key frame, whatever the encoder decides about it:
all packets are written; each says, after a temporal delimiter, exactly what it should of the frames
up to the next shown one; and a decoder gets from its bytes, nothing missing and nothing left over,
the OBUs that say so. -/
theorem packets_round_trip {e : EncCfg} {s : Seq} {m : Hdr10} (mok : m.Ok) (items : List Item)
    (v : VideoOk e s (items.map fun i => (i.x, i.late))) (oks : ∀ i ∈ items, i.Ok s)
    (hkey : ∀ i, items.head? = some i → i.x.ftype = .key) (rec : List (Option RefFrame)) :
    encodePackets e s m rec [] temporalDelimiter items ≠ .error .writer ∧
    (e.segmentation = false → ∃ out, encodePackets e s m rec [] temporalDelimiter items = .ok out) ∧
    ∀ out, encodePackets e s m rec [] temporalDelimiter items = .ok out →
      List.Forall₂ (SaysAll m) (groups [] items) (out.map (·.1)) ∧
      ((∀ p ∈ out, p.2.length < 2 ^ 32) → decodePackets DecSt.init (out.map (·.2)) =
        some (out.map fun p => .delimiter :: p.1.map (Unit.spec e s))) :=
  encodePackets_spec mok items rec [] temporalDelimiter [] DecSt.init DecSt.init v oks .nil
    (fun _ => temporalDelimiter_reads _) (.inl hkey)

theorem xok_strip {c : Sched.Cfg} {x : Sched.FI T35} (h : XOk c x.strip) : XOk c x :=
  ⟨h.1, h.2, h.3, h.4, h.5, h.6, h.7, h.8, h.9⟩

/-- **C11, for every video the scheduler makes**: whatever frames are forced or detected to be key
frames, wherever the video ends, whatever T.35 messages come along and whatever the encoder decides
about quantizers, filters, segments and tile contents. -/
theorem scheduled_packets_round_trip {e : EncCfg} {s : Seq} {m : Hdr10} (enc : EncOk e)
    (hs : newSequence e = some s)
    (hrows : e.chroma = .cs422 → s.tiling.tileHeightSb ≤ Tile.Spec.maxTileHeightSb e.width e.height
      (min s.tiling.tileWidthSb (Tile.Spec.sbs e.width)))
    (mok : m.Ok) (K : Nat → Bool) (lim : Option Nat) (n : Nat) (items : List Item)
    (hplan : items.map (·.x.strip) = (List.range n).filterMap (Sched.plan e.sched K lim))
    (hlate : ∀ i ∈ items, LateOk s i.late) (hitem : ∀ i ∈ items, i.Ok s)
    (hstill : e.sched.stillPicture = true → n ≤ 1) :
    encodePackets e s m (List.replicate 8 none) [] temporalDelimiter items ≠ .error .writer ∧
    (e.segmentation = false → ∃ out,
      encodePackets e s m (List.replicate 8 none) [] temporalDelimiter items = .ok out) ∧
    ∀ out, encodePackets e s m (List.replicate 8 none) [] temporalDelimiter items = .ok out →
      List.Forall₂ (SaysAll m) (groups [] items) (out.map (·.1)) ∧
      ((∀ p ∈ out, p.2.length < 2 ^ 32) → decodePackets DecSt.init (out.map (·.2)) =
        some (out.map fun p => .delimiter :: p.1.map (Unit.spec e s))) := by
  have h0 : ∃ p, Sched.plan e.sched K lim 0 = some p ∧ p.ftype = .key :=
    ⟨_, by simp [Sched.plan, Sched.sched]; rfl, rfl⟩
  obtain ⟨p0, h0, hk0⟩ := h0
  have hmem : ∀ i ∈ items, ∃ o, o < n ∧ Sched.plan e.sched K lim o = some i.x.strip := by
    intro i hi
    have : i.x.strip ∈ (List.range n).filterMap (Sched.plan e.sched K lim) := by
      rw [← hplan]; exact List.mem_map.2 ⟨i, hi, rfl⟩
    obtain ⟨o, ho, hp⟩ := List.mem_filterMap.1 this
    exact ⟨o, List.mem_range.1 ho, hp⟩
  refine packets_round_trip mok items ⟨enc, hs, hrows, ?_, ?_⟩ hitem ?_ _
  · intro x hx
    obtain ⟨i, hi, rfl⟩ := List.mem_map.1 hx
    obtain ⟨o, _, hp⟩ := hmem i hi
    exact ⟨xok_strip (xok_plan hp), hlate i hi⟩
  · intro hst x hx
    obtain ⟨i, hi, rfl⟩ := List.mem_map.1 hx
    obtain ⟨o, ho, hp⟩ := hmem i hi
    have : o = 0 := by have := hstill hst; omega
    subst this
    rw [h0] at hp
    simp only [Option.some.injEq] at hp
    rw [hp] at hk0
    exact hk0
  · intro i hi
    cases n with
    | zero =>
      simp only [List.range_zero, List.filterMap_nil, List.map_eq_nil_iff] at hplan
      rw [hplan] at hi; cases hi
    | succ n =>
      rw [List.range_succ_eq_map, List.filterMap_cons, h0] at hplan
      match items, hplan, hi with
      | j :: more, hplan, hi =>
        simp only [List.map_cons, List.cons.injEq] at hplan
        simp only [List.head?_cons, Option.some.injEq] at hi
        subst hi
        rw [← hplan.1] at hk0
        exact hk0

/-! ## A packet size a decoder misreads -/

/-- Sizes are cut to 32 bits: of an OBU of 4 GiB the size field says 0.  `write_uleb128`
(`header.rs:95-122`) takes a `u64`, but starts with `payload as u32`. -/
theorem uleb128_truncates : uleb128 (2 ^ 32) = uleb128 0 := by decide

end Rav1e.Obu

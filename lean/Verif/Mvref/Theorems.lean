import Verif.Mvref.Extra

/-!
# C60: motion vector prediction

For every tile, every way to partition it, every block of it and every reference: the list of candidate motion vectors and the contexts that the encoder
computes are those that the decoder computes.
-/

namespace Rav1e.Mvref

open Spec (Entry St Info Input Blk Geo Tree)

variable {e : Env} {p : Input}

/-- The sorting: the stack has entries with a high weight first, so that sorting it all is sorting both parts. -/
theorem sorted (N F : Visits) (hF : total F ≤ 260) :
    ((run (near (ops p N)) (ops p F)).map ofE).mergeSort (fun a b => decide (b.weight ≤ a.weight)) =
      (Spec.sort (run [] (ops p N)).length ((run (near (ops p N)) (ops p F)).take (run [] (ops p N)).length) ++
        Spec.sort ((run (near (ops p N)) (ops p F)).length - (run [] (ops p N)).length) ((run (near (ops p N)) (ops p F)).drop (run [] (ops p N)).length)).map ofE := by
  have hm : ∀ l : List Entry, (l.map ofE).mergeSort (fun a b => decide (b.weight ≤ a.weight)) = (l.mergeSort fun x y => decide (y.weight ≤ x.weight)).map ofE := by
    intro l
    exact (List.map_mergeSort (f := ofE) (r := fun x y : Entry => decide (y.weight ≤ x.weight)) (s := fun a b : Cand => decide (b.weight ≤ a.weight))
      (fun _ _ _ _ => rfl)).symm
  rw [hm]
  congr 1
  have hn : (run [] (ops p N)).length = (krun [] ((ops p N).map Prod.fst)).length := by
    have := congrArg List.length (near_mk (ops p N))
    rw [mk_length] at this
    unfold near at this
    rwa [List.length_map] at this
  rw [hn, final_mk]
  obtain ⟨l', hl'⟩ := krun_prefix ((ops p F).map Prod.fst) (krun [] ((ops p N).map Prod.fst))
  have hnd : (krun (krun [] ((ops p N).map Prod.fst)) ((ops p F).map Prod.fst)).Nodup := krun_nodup _ (krun_nodup _ List.nodup_nil)
  have h8 : (krun (krun [] ((ops p N).map Prod.fst)) ((ops p F).map Prod.fst)).length ≤ 8 := krun_le _ (krun_le _ (by simp))
  have hz := W_zero (ops p N) (l := [])
  rw [← hl'] at hnd h8 ⊢
  generalize krun [] ((ops p N).map Prod.fst) = l at *
  generalize hf : (fun k => W (ops p N) k + (if k ∈ l then 640 else 0) + W (ops p F) k) = f
  have e1 : (mk (l ++ l') f).take l.length = mk l f := by
    unfold mk
    rw [← List.map_take, List.take_left]
  have e2 : (mk (l ++ l') f).drop l.length = mk l' f := by
    unfold mk
    rw [← List.map_drop, List.drop_left]
  have e3 : mk (l ++ l') f = mk l f ++ mk l' f := by unfold mk; rw [List.map_append]
  have e4 : (mk (l ++ l') f).length - l.length = (mk l' f).length := by
    rw [mk_length, mk_length, List.length_append]; omega
  rw [e1, e2, e4, e3]
  have := sort_eq (a := mk l f) (b := mk l' f) ?_ ?_
  · rw [this, mk_length, mk_length]
  · intro x hx
    unfold mk at hx
    obtain ⟨k, hk, rfl⟩ := List.mem_map.mp hx
    rw [← hf]
    dsimp only
    rw [if_pos hk]
    omega
  · intro x hx
    unfold mk at hx
    obtain ⟨k, hk, rfl⟩ := List.mem_map.mp hx
    rw [← hf]
    dsimp only
    have hkl : k ∉ l := fun h => (List.nodup_append.mp hnd).2.2 k h k hk rfl
    have hlen : l.length < 8 := by
      rw [List.length_append] at h8
      have := List.length_pos_of_mem hk
      omega
    rw [if_neg hkl, hz hlen k hkl]
    have := W_le p F k
    omega

/-- The contexts. -/
theorem context_eq (a l a' l' : Bool) (n : Nat) (ha : a = true → a' = true) (hl : l = true → l' = true) :
    modeContext (a.toNat + l.toNat) (a'.toNat + l'.toNat) n =
      some ((Spec.contexts (a.toNat + l.toNat) (a'.toNat + l'.toNat) n).1 + (Spec.contexts (a.toNat + l.toNat) (a'.toNat + l'.toNat) n).2 * 16) := by
  have hge : a'.toNat + l'.toNat ≥ a.toNat + l.toNat := by
    have h1 : a.toNat ≤ a'.toNat := by
      cases a with
      | false => simp
      | true => rw [ha rfl]
    have h2 : l.toNat ≤ l'.toNat := by
      cases l with
      | false => simp
      | true => rw [hl rfl]
    omega
  unfold modeContext Spec.contexts
  rw [if_pos hge]
  simp only [Nat.shiftLeft_eq]
  cases a <;> cases l <;> cases a' <;> cases l' <;> simp

/-- The prediction, where the surroundings of the block are known. -/
theorem predict (R : Rel e p) (C : Ctx p) (T : TrOk p) :
    ∃ out, p.findMvStack = some out ∧ e.findMvrefs = some (out.stack.map ofE, out.newMvContext + out.refMvContext * 16) ∧
      ∃ s, Low s ∧ out.stack = s.map p.clampEntry ∧ out.drl = Spec.drlCtx s := by
  obtain ⟨N, F, a, l, a', l', D⟩ := found R C T
  obtain ⟨f, hn⟩ := D.nearest
  obtain ⟨n2, f2, ho⟩ := D.outer (newCount p N) f
  obtain ⟨st, P, Q, n', m1, m2⟩ := D.model
  have A : AllI16 e := R.i16
  have hfit := scan_fits A m1 m2
  have hS := sorted (p := p) N F D.smallF
  generalize hst : run (near (ops p N)) (ops p F) = S at *
  have hplain : Plain p S := by rw [← hst]; exact plain_run (plain_near p N) F
  have hi16 : ∀ q ∈ S, I16 q.mv0 ∧ I16 q.mv1 := fun q hq => hfit (ofE q) (List.mem_map_of_mem hq)
  generalize hsort : Spec.sort (run [] (ops p N)).length (S.take (run [] (ops p N)).length) ++
        Spec.sort (S.length - (run [] (ops p N)).length) (S.drop (run [] (ops p N)).length) = Z at *
  have hperm : ∀ c, c ∈ Z.map ofE ↔ c ∈ S.map ofE := fun c => by rw [← hS]; exact (List.mergeSort_perm _ _).mem_iff
  have hmem : ∀ q, q ∈ Z → q ∈ S := by
    intro q hq
    obtain ⟨q', h1, h2⟩ := List.mem_map.mp ((hperm (ofE q)).mp (List.mem_map_of_mem hq))
    have : q' = q := by
      cases q; cases q'; simpa [ofE] using h2
    rw [← this]; exact h1
  have hlow : Low Z := by
    have h1 : (Z.map ofE).Pairwise fun a b => decide (b.weight ≤ a.weight) = true := by
      rw [← hS]
      refine List.pairwise_mergeSort (fun a b c h1 h2 => ?_) (fun a b => ?_) _
      · rw [decide_eq_true_iff] at *; omega
      · rw [Bool.or_eq_true, decide_eq_true_iff, decide_eq_true_iff]; omega
    rw [List.pairwise_map] at h1
    refine h1.imp fun {a b} h2 h3 => ?_
    have h4 : b.weight ≤ a.weight := of_decide_eq_true h2
    omega
  have hZp : Plain p Z := fun hc q hq => hplain hc q (hmem q hq)
  have hZi : ∀ q ∈ Z, I16 q.mv0 ∧ I16 q.mv1 := fun q hq => hi16 q (hmem q hq)
  -- the extra search
  obtain ⟨Y, y1, y2, y3, y4, y5⟩ : ∃ Y, (if Z.length < 2 then p.extraSearch Z else some Z) = some Y ∧
      (if (Z.map ofE).length < 2 then e.extraSearch (Z.map ofE) else some (Z.map ofE)) = some (Y.map ofE) ∧ Plain p Y ∧ Low Y ∧ ∀ q ∈ Y, I16 q.mv0 ∧ I16 q.mv1 := by
    rw [List.length_map]
    by_cases h2 : Z.length < 2
    · rw [if_pos h2, if_pos h2]
      exact extraSearch_eq R C hZp hZi h2 hlow
    · rw [if_neg h2, if_neg h2]
      exact ⟨Z, rfl, rfl, hZp, hlow, hZi⟩
  have hctx := context_eq a l a' l' (newCount p N) D.mono.1 D.mono.2
  refine ⟨⟨Y.map p.clampEntry, (Spec.contexts (a.toNat + l.toNat) (a'.toNat + l'.toNat) (newCount p N)).1,
    (Spec.contexts (a.toNat + l.toNat) (a'.toNat + l'.toNat) (newCount p N)).2, Spec.drlCtx Y⟩, ?_, ?_, Y, y4, rfl, rfl⟩
  · unfold Spec.Input.findMvStack
    rw [hn]
    simp only [Option.bind_eq_bind, Option.bind_some]
    have hnear : (run [] (ops p N)).map (fun e : Entry => { e with weight := e.weight + 640 }) = near (ops p N) := rfl
    rw [hnear, ho]
    simp only [Option.bind_some]
    rw [hsort]
    split_ifs at y1 ⊢ <;> (first | rw [y1] | rw [Option.some.inj y1]) <;> rfl
  · unfold Env.findMvrefs Env.setupMvrefList
    have r0 := R.ref0ok
    rw [if_neg (by omega), if_neg (by omega)]
    have d1 : maxOffs e.y e.h e.t.rows (decide (e.h < 2) && decide (e.y % 2 ≠ 0)) = e.maxRow := rfl
    have d2 : maxOffs e.x e.w e.t.cols (decide (e.w < 2) && decide (e.x % 2 ≠ 0)) = e.T.maxRow := rfl
    have d3 : (decide (e.h < 2) && decide (e.y % 2 ≠ 0)) = e.rowAdj := rfl
    have d4 : (decide (e.w < 2) && decide (e.x % 2 ≠ 0)) = e.T.rowAdj := rfl
    dsimp only
    rw [d1, d2, d3, d4, m1]
    simp only [Option.bind_eq_bind, Option.bind_some]
    rw [m2]
    simp only [Option.bind_some]
    rw [hctx]
    simp only [Option.bind_some]
    rw [hS]
    have hcl := clampAll_eq R C y5 y3
    split_ifs at y2 ⊢ <;> (first | rw [y2] | rw [Option.some.inj y2]) <;> (try simp only [Option.bind_some]) <;> rw [hcl] <;> rfl

/-! ### The theorems -/

/-- The block `b` of a tile, for which motion vectors are predicted after the blocks `pre` have been decoded. -/
def inputAt (g : Geo) (pre : List Blk) (b : Blk) (ref0 ref1 : Int) (signBias : Int → Bool) : Input :=
  ⟨g, Spec.decoded pre, b.row, b.col, b.bw4, b.bh4, ref0, ref1, signBias⟩

variable {g : Geo} {t : Nat → Nat → Tree} {pre post : List Blk} {b : Blk} {ref0 ref1 : Int} {sb : Int → Bool}

theorem ctx_of (G : GeoOk g) (ht : ∀ r c, (t r c).Ok 16) (hb : g.tile t = pre ++ b :: post) :
    Ctx (inputAt g pre b ref0 ref1 sb) ∧ TrOk (inputAt g pre b ref0 ref1 sb) := by
  have L := tile_leaf G ht hb
  exact ⟨⟨G, L.wf, L.sized, L.inTile, L.inv.above, L.inv.left, L.inv.above2, L.inv.left2, L.inv.fresh⟩, ⟨L.inv.tr⟩⟩

/-- **C60.**  For every tile, every way to partition it, every block `b` of it, every choice of references, and every state of the encoder that shows the
blocks before `b` as the decoder has stored them (whatever it holds elsewhere): the decoder's process looks at nothing that has not been decoded; the
encoder's does not panic; the candidates have the same motion vectors and weights in the same order; and the context the encoder codes with holds the
decoder's `NewMvContext` and `RefMvContext`. -/
theorem mvrefs_decoder (G : GeoOk g) (ht : ∀ r c, (t r c).Ok 16) (hb : g.tile t = pre ++ b :: post) {e : Env} (R : Rel e (inputAt g pre b ref0 ref1 sb)) :
    ∃ out, (inputAt g pre b ref0 ref1 sb).findMvStack = some out ∧
      e.findMvrefs = some (out.stack.map fun q => ⟨q.mv0, q.mv1, q.weight⟩, out.newMvContext + out.refMvContext * 16) := by
  obtain ⟨C, T⟩ := ctx_of (ref0 := ref0) (ref1 := ref1) (sb := sb) G ht hb
  obtain ⟨out, h1, h2, _⟩ := predict R C T
  exact ⟨out, h1, h2⟩

/-- The context of `drl_mode` (src/encoder.rs:2012-2013 and 2057-2058). -/
def drlModeCtx (a b : Cand) : Nat := (decide (a.weight < 640)).toNat + (decide (b.weight < 640)).toNat

theorem drl_get : ∀ {s : List Entry}, Low s → ∀ {i : Nat} {q r : Entry}, s[i]? = some q → s[i + 1]? = some r →
    (Spec.drlCtx s)[i]? = some ((decide (q.weight < 640)).toNat + (decide (r.weight < 640)).toNat)
  | [], _, i, q, r, h, _ => by simp at h
  | [_], _, i, q, r, _, h => by simp at h
  | a :: b :: l, hl, 0, q, r, h1, h2 => by
    simp only [List.getElem?_cons_zero, List.getElem?_cons_succ, Option.some.injEq] at h1 h2
    subst h1 h2
    rw [Spec.drlCtx, List.getElem?_cons_zero]
    have : a.weight < 640 → b.weight < 640 := (List.pairwise_cons.mp hl).1 b (by simp)
    by_cases ha : a.weight < 640
    · rw [if_pos ha]; simp [ha, this ha]
    · rw [if_neg ha]
      by_cases hb : b.weight < 640 <;> simp [ha, hb]
  | a :: b :: l, hl, i + 1, q, r, h1, h2 => by
    rw [Spec.drlCtx, List.getElem?_cons_succ]
    rw [List.getElem?_cons_succ] at h1 h2
    exact drl_get (List.pairwise_cons.mp hl).2 h1 h2

/-- **C60.**  The contexts of `drl_mode` are the decoder's. -/
theorem drl_decoder (G : GeoOk g) (ht : ∀ r c, (t r c).Ok 16) (hb : g.tile t = pre ++ b :: post) {e : Env} (R : Rel e (inputAt g pre b ref0 ref1 sb))
    {out : Spec.Result} (ho : (inputAt g pre b ref0 ref1 sb).findMvStack = some out) {stack : List Cand} {ctx : Nat} (hm : e.findMvrefs = some (stack, ctx))
    {i : Nat} {q r : Cand} (hq : stack[i]? = some q) (hr : stack[i + 1]? = some r) : out.drl[i]? = some (drlModeCtx q r) := by
  obtain ⟨C, T⟩ := ctx_of (ref0 := ref0) (ref1 := ref1) (sb := sb) G ht hb
  obtain ⟨out', h1, h2, s, hl, h3, h4⟩ := predict R C T
  rw [ho, Option.some.injEq] at h1
  subst h1
  rw [hm, Option.some.injEq, Prod.mk.injEq] at h2
  rw [h2.1, h3, List.getElem?_map, List.getElem?_map] at hq hr
  obtain ⟨q1, hq1, rfl⟩ := Option.map_eq_some_iff.mp hq
  obtain ⟨r1, hr1, rfl⟩ := Option.map_eq_some_iff.mp hr
  obtain ⟨q', hq', rfl⟩ := Option.map_eq_some_iff.mp hq1
  obtain ⟨r', hr', rfl⟩ := Option.map_eq_some_iff.mp hr1
  rw [h4, drl_get hl hq' hr']
  rfl

/-- **C60.**  Whether the block above and to the right has been decoded, for which the encoder has a rule, is as the encoder assumes. -/
theorem has_tr_decoded (G : GeoOk g) (ht : ∀ r c, (t r c).Ok 16) (hb : g.tile t = pre ++ b :: post) (hr : g.rowStart < b.row)
    (hx : b.col + b.bw4 < g.colEnd) :
    hasTr b.col b.row b.bw4 b.bh4 = true ↔ ∃ s ∈ pre, s.Covers (b.row - 1) (b.col + b.bw4) := by
  have L := tile_leaf G ht hb
  have hin := L.inTile
  unfold In at hin
  rw [← L.inv.tr hr ⟨by omega, by omega, by omega, hx⟩]
  have key : ∀ (l : List Blk) (d : Spec.Frame) i j, ((l.foldl Spec.Frame.store d) i j).isSome = true ↔ (d i j).isSome = true ∨ ∃ s ∈ l, s.Covers i j := by
    intro l
    induction l with
    | nil => intro d i j; simp
    | cons s l ih =>
      intro d i j
      rw [List.foldl_cons, ih]
      unfold Spec.Frame.store
      by_cases hs : s.Covers i j
      · simp [hs]
      · simp [hs]
  unfold Spec.decoded
  rw [key]
  simp

/-- Weights stay small: nothing overflows `u32`. -/
theorem weight_lt (R : Rel e p) (C : Ctx p) (T : TrOk p) {s : Scan} {P Q : Int} {a l : Bool} (hn : e.nearest e.maxRow e.T.maxRow = some (s, P, Q, a, l))
    {o : Scan × Bool × Bool} (ho : e.outer e.maxRow e.T.maxRow e.rowAdj e.T.rowAdj (addOffset s.stack) P Q a l = some o) :
    ∀ c ∈ o.1.stack, c.weight ≤ 1424 := by
  obtain ⟨N, F, a1, l1, a2, l2, D⟩ := found R C T
  obtain ⟨st, P', Q', n', m1, m2⟩ := D.model
  rw [hn, Option.some.injEq, Prod.mk.injEq, Prod.mk.injEq, Prod.mk.injEq, Prod.mk.injEq] at m1
  obtain ⟨rfl, rfl, rfl, rfl, rfl⟩ := m1
  rw [ho, Option.some.injEq] at m2
  rw [m2]
  intro c hc
  obtain ⟨q, hq, rfl⟩ := List.mem_map.mp hc
  rw [final_mk] at hq
  unfold mk at hq
  obtain ⟨k, _, rfl⟩ := List.mem_map.mp hq
  have h1 := W_le p N k
  have h2 := W_le p F k
  have h3 := D.smallN
  have h4 := D.smallF
  dsimp only [ofE]
  split_ifs <;> omega

/-! ### The hypotheses can be met -/

/-- The encoder's mode. -/
def ofMode : Spec.YMode → Mode
  | .intra => .intra
  | .nearestmv => .nearestmv
  | .nearmv => .near0mv
  | .globalmv => .globalmv
  | .newmv => .newmv
  | .nearest_nearestmv => .nearest_nearestmv
  | .near_nearmv => .near_near0mv
  | .nearest_newmv => .nearest_newmv
  | .new_nearestmv => .new_nearestmv
  | .near_newmv => .near_new0mv
  | .new_nearmv => .new_near0mv
  | .global_globalmv => .global_globalmv
  | .new_newmv => .new_newmv

/-- What the encoder stores for a block. -/
def blockOf (b : Blk) : Block :=
  ⟨ofMode b.info.mode, if b.info.ref0 = -1 then 8 else b.info.ref0.toNat, if b.info.ref1 = -1 then 8 else b.info.ref1.toNat, b.info.mv0, b.info.mv1, b.bw4, b.bh4⟩

/-- What blocks may say. -/
def Good (i : Info) : Prop := (-1 ≤ i.ref0 ∧ i.ref0 ≤ 7) ∧ (-1 ≤ i.ref1 ∧ i.ref1 ≤ 7) ∧ Small i.mv0 ∧ Small i.mv1

/-- An encoder in the decoder's state. -/
def envOf (p : Input) : Env where
  t := ⟨p.g.colStart, p.g.rowStart, p.g.colEnd - p.g.colStart, p.g.rowEnd - p.g.rowStart, p.g.miCols, p.g.miRows,
    fun r c => ((p.d (p.g.rowStart + r) (p.g.colStart + c)).map blockOf).getD ⟨.intra, 0, 8, (0, 0), (0, 0), 16, 16⟩⟩
  x := p.miCol - p.g.colStart
  y := p.miRow - p.g.rowStart
  w := p.bw4
  h := p.bh4
  ref0 := p.ref0.toNat
  ref1 := if p.ref1 = -1 then 8 else p.ref1.toNat
  signBias := fun r => p.signBias (r + 1)
  isCompound := decide (p.ref1 > 0)

/-- Every state of the decoder is one of the encoder. -/
theorem rel_envOf (hd : ∀ i j b, p.d i j = some b → Good b.info) (h0 : 1 ≤ p.ref0 ∧ p.ref0 ≤ 7) (h1 : p.ref1 = -1 ∨ 1 ≤ p.ref1 ∧ p.ref1 ≤ 7)
    (hin : In p.g p.miRow p.miCol) : Rel (envOf p) p := by
  unfold In at hin
  have hgood : ∀ b : Blk, Good b.info → Shows (blockOf b) b := by
    intro b ⟨⟨a1, a2⟩, ⟨a3, a4⟩, a5, a6⟩
    refine ⟨rfl, rfl, ?_, ?_, ?_, a5, a6⟩
    · unfold infoOf blockOf
      have e1 : modeOf (ofMode b.info.mode) = b.info.mode := by cases b.info.mode <;> rfl
      have e2 : ∀ r : Int, -1 ≤ r → r ≤ 7 → refInt (if r = -1 then 8 else r.toNat) = r := by
        intro r _ _
        unfold refInt
        split_ifs <;> omega
      dsimp only
      rw [e1, e2 _ a1 a2, e2 _ a3 a4]
    · unfold blockOf; dsimp only; split_ifs <;> omega
    · unfold blockOf; dsimp only; split_ifs <;> omega
  refine ⟨?_, ?_, rfl, rfl, rfl, rfl, ?_, ?_, rfl, rfl, ?_, ?_, ?_, ?_, ?_, ?_, ?_⟩
  · dsimp only [envOf]; omega
  · dsimp only [envOf]; omega
  · dsimp only [envOf]; omega
  · dsimp only [envOf]; omega
  · dsimp only [envOf]; unfold refInt; split_ifs <;> omega
  · dsimp only [envOf]; unfold refInt; split_ifs <;> omega
  · dsimp only [envOf]; omega
  · dsimp only [envOf]
    rcases h1 with h1 | h1
    · right
      rw [h1]
      exact ⟨rfl, rfl⟩
    · left
      rw [if_neg (by omega)]
      refine ⟨decide_eq_true (by omega), by omega, by omega⟩
  · intro r hr _
    dsimp only [envOf]
    congr 1
    omega
  · intro r c
    dsimp only [envOf]
    cases h : p.d (p.g.rowStart + r) (p.g.colStart + c) with
    | none => exact ⟨by unfold I16; simp, by unfold I16; simp⟩
    | some b =>
      have := hgood b (hd _ _ _ h)
      obtain ⟨a1, a2⟩ := And.intro this.mv0 this.mv1
      unfold Small at a1 a2
      unfold I16
      simp only [Option.map_some, Option.getD_some]
      omega
  · intro r c b _ _ hb
    dsimp only [envOf]
    rw [hb]
    exact hgood b (hd _ _ _ hb)

/-- A tile that is neither the first nor the last one of its frame. -/
def exGeo : Geo := ⟨52, 60, 16, 48, 16, 60⟩

example : GeoOk exGeo := ⟨rfl, rfl, rfl, rfl, by decide, by decide, .inr rfl, .inl rfl⟩

/-- A superblock with blocks of several sizes, an intra block, single and compound prediction. -/
def exTree : Tree :=
  .split (.none ⟨.newmv, 1, -1, (16, -8), (0, 0)⟩)
    (.split (.none ⟨.intra, 0, -1, (0, 0), (0, 0)⟩) (.horz ⟨.nearestmv, 1, -1, (16, -8), (0, 0)⟩ ⟨.newmv, 4, -1, (-24, 2), (0, 0)⟩)
      (.vert ⟨.new_newmv, 1, 4, (40, 8), (-6, 10)⟩ ⟨.nearmv, 1, -1, (-400, 8), (0, 0)⟩) (.none ⟨.globalmv, 2, -1, (0, 0), (0, 0)⟩))
    (.none ⟨.newmv, 1, -1, (2, 2), (0, 0)⟩)
    (.split (.none ⟨.newmv, 1, -1, (2, 4), (0, 0)⟩) (.none ⟨.newmv, 1, -1, (2, 6), (0, 0)⟩) (.none ⟨.newmv, 1, 4, (2, 8), (4, 4)⟩) (.none ⟨.newmv, 1, -1, (2, 8), (0, 0)⟩))

example : exTree.Ok 16 := by simp [exTree, Tree.Ok]

/-- What is decoded of the second superblock before its last four blocks. -/
def exPre : List Blk := (exGeo.tile fun _ _ => exTree).take 20

/-- The block that comes next. -/
def exBlk : Blk := ⟨24, 40, 4, 4, ⟨.newmv, 1, -1, (2, 4), (0, 0)⟩⟩

example : (exGeo.tile fun _ _ => exTree) = exPre ++ exBlk :: (exGeo.tile fun _ _ => exTree).drop 21 := by decide +kernel

theorem decoded_good (l : List Blk) (hl : ∀ b ∈ l, Good b.info) : ∀ i j b, Spec.decoded l i j = some b → Good b.info := by
  have key : ∀ (l : List Blk) (d : Spec.Frame), (∀ b ∈ l, Good b.info) → (∀ i j b, d i j = some b → Good b.info) →
      ∀ i j b, l.foldl Spec.Frame.store d i j = some b → Good b.info := by
    intro l
    induction l with
    | nil => intro d _ hd i j b h; exact hd i j b h
    | cons s l ih =>
      intro d hl hd
      rw [List.foldl_cons]
      refine ih _ (fun b hb => hl b (List.mem_cons_of_mem _ hb)) ?_
      intro i j b h
      unfold Spec.Frame.store at h
      split_ifs at h
      · rw [Option.some.injEq] at h
        subst h
        exact hl s (by simp)
      · exact hd i j b h
  exact key l _ hl (by simp)

theorem exPre_good : ∀ i j b, Spec.decoded exPre i j = some b → Good b.info := by
  refine decoded_good exPre ?_
  unfold Good Small
  decide +kernel

/-- The candidates for single prediction, in the decoder and so in the encoder. -/
example : (inputAt exGeo exPre exBlk 1 (-1) fun r => decide (r = 4)).findMvStack = some
      ⟨[⟨(2, 2), (0, 0), 664⟩, ⟨(40, 8), (0, 0), 648⟩, ⟨(-400, 8), (0, 0), 648⟩, ⟨(16, -8), (0, 0), 4⟩], 4, 5, [0, 0, 1, 0]⟩ ∧
    Rel (envOf (inputAt exGeo exPre exBlk 1 (-1) fun r => decide (r = 4))) (inputAt exGeo exPre exBlk 1 (-1) fun r => decide (r = 4)) :=
  ⟨by decide +kernel, rel_envOf exPre_good (by decide) (by decide) (by unfold In; decide)⟩

/-- The candidates for compound prediction, one of them found by the extra search. -/
example : (inputAt exGeo exPre exBlk 1 4 fun r => decide (r = 4)).findMvStack = some
      ⟨[⟨(40, 8), (-6, 10), 648⟩, ⟨(-400, 8), (-40, -8), 2⟩], 2, 3, [1, 0]⟩ ∧
    Rel (envOf (inputAt exGeo exPre exBlk 1 4 fun r => decide (r = 4))) (inputAt exGeo exPre exBlk 1 4 fun r => decide (r = 4)) :=
  ⟨by decide +kernel, rel_envOf exPre_good (by decide) (by decide) (by unfold In; decide)⟩

/-- The block above and to the right of this one has been decoded, that of the block after the next has not. -/
example : hasTr exBlk.col exBlk.row exBlk.bw4 exBlk.bh4 = true ∧ hasTr 44 28 4 4 = false := by decide +kernel

end Rav1e.Mvref

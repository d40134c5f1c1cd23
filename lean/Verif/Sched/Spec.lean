import Verif.Sched.Model

/-!
# What a decoder does with the packets

A decoder, reduced to what the AV1 specification prescribes for reference
handling: eight slots, each holding a picture and its 6-bit order hint; the
reference frame update process (7.20), the sign biases derived from order hints
(5.9.2), and show-existing-frame (7.21).  It is written independently of
the encoder model: the only thing it shares with it is the type of the bitstream
units.

A coded frame reconstructs to the picture the encoder meant only if the decoder
predicts from the very pictures the encoder predicted from, with the same sign
biases; otherwise the result is unknown (`none`).
-/

namespace Rav1e.Sched.Spec

open Rav1e.Sched

/-- One decoder slot. -/
structure Slot where
  hint : Nat
  isKey : Bool
  /-- the picture, `none` when it drifted from the encoder's -/
  pic : Option Pic
deriving Repr, DecidableEq

/-- Decoder state: slots and the pictures output so far. -/
structure Dec where
  slots : List (Option Slot)
  out : List (Option Pic)
deriving Repr, DecidableEq

def Dec.init : Dec := ⟨List.replicate 8 none, []⟩

/-- Signed distance between two 6-bit order hints: the representative of
`a - b` modulo 64 in `[-32, 32)`. -/
def dist (a b : Nat) : Int := Int.bmod ((a : Int) - b) 64

/-- Reference `i`, if the slot is filled. -/
def Dec.ref (d : Dec) (i : Nat) : Option Slot := d.slots.getD i none

/-- Does the decoder see the same references as the encoder did? -/
def agrees (noHints : Bool) (d : Dec) (hint : Nat) (refs : List Nat) (b : Basis) :
    Prop :=
  -- every reference is there, undamaged, and is the encoder's picture
  refs.map (fun i => (d.ref i).bind (·.pic)) = b.refs.map (fun r => r.map (·.pic))
  ∧ (∀ i ∈ refs, ((d.ref i).bind (·.pic)).isSome)
  -- and the sign biases agree
  ∧ b.signBias = refs.map (fun i => match d.ref i with
      | some s => !noHints && decide (0 < dist s.hint hint)
      | none => false)

instance (n d h r b) : Decidable (agrees n d h r b) := by
  unfold agrees; infer_instance

/-- Reference frame update process: slots named by the flags take the frame. -/
def update (slots : List (Option Slot)) (flags : Nat) (s : Slot) :
    List (Option Slot) :=
  slots.mapIdx fun i x => if flags.testBit i then some s else x

/-- Decode one bitstream unit. -/
def Dec.step {M : Type} (noHints : Bool) (d : Dec) : Obu M → Dec
  | .td => d
  | .seqHdr => d
  | .t35 _ => d
  | .frame ftype shown hint refresh refs _ src basis =>
    let pic : Option Pic :=
      if ftype = .key ∨ agrees noHints d hint refs basis then some (.recon src)
      else none
    let s : Slot := ⟨hint, ftype = .key, pic⟩
    ⟨update d.slots refresh s, if shown then d.out ++ [pic] else d.out⟩
  | .showExisting i =>
    match d.ref i with
    | none => ⟨d.slots, d.out ++ [none]⟩
    | some s =>
      -- showing a stored key frame reloads every slot with it
      ⟨if s.isKey then List.replicate 8 (some s) else d.slots, d.out ++ [s.pic]⟩

/-- Decode a sequence of units. -/
def Dec.run {M : Type} (noHints : Bool) (d : Dec) (l : List (Obu M)) : Dec :=
  l.foldl (Dec.step noHints) d

/-- May this unit be sent to a decoder in this state?
* An inter frame must reference seven filled slots; the decoder must see there the
  pictures the encoder predicted from; and the order hints must give the true
  distance in display order: positive for later frames, negative for earlier ones.
* Show-existing-frame must name a filled, undamaged slot that does not hold a key
  frame. -/
def unitOk {M : Type} (noHints : Bool) (d : Dec) : Obu M → Prop
  | .frame ftype _ hint _ refs _ src basis =>
    ftype = .key ∨
    (refs.length = 7 ∧ agrees noHints d hint refs basis ∧
     ∀ i ∈ refs, ∃ sl m, d.ref i = some sl ∧ sl.pic = some (.recon m) ∧
       dist sl.hint hint = (m : Int) - src)
  | .showExisting i =>
    ∃ sl, d.ref i = some sl ∧ sl.isKey = false ∧ sl.pic.isSome
  | _ => True

/-- Every unit of the stream is admissible when its turn comes. -/
def Conforms {M : Type} (noHints : Bool) : Dec → List (Obu M) → Prop
  | _, [] => True
  | d, u :: l => unitOk noHints d u ∧ Conforms noHints (d.step noHints u) l

/-- Is this unit one that a decoder displays? -/
def displays {M : Type} : Obu M → Bool
  | .frame _ shown _ _ _ _ _ _ => shown
  | .showExisting _ => true
  | _ => false

/-- The metadata messages among the units of a packet. -/
def messages {M : Type} (l : List (Obu M)) : List M :=
  l.filterMap fun | .t35 m => some m | _ => none

/-- How many frames ago the last key frame was, when a key frame is due where one
is requested (`K`) and when the distance would reach `maxKey`. -/
def sinceKey (K : Nat → Bool) (maxKey : Nat) : Nat → Nat
  | 0 => 0
  | n + 1 => if K (n + 1) || sinceKey K maxKey n + 1 == maxKey then 0
    else sinceKey K maxKey n + 1

/-- The packets among the outcomes of a run. -/
def packets {F O M : Type} (rs : List (Res F O M)) : List (Packet F O M) :=
  rs.filterMap fun | .packet p => some p | _ => none

/-- The frames accepted by a run, with their parameters: each `send` whose
outcome was `Ok`. -/
def accepted {F O M : Type} :
    List (Op F O M) → List (Res F O M) → List (F × Option (Params O M))
  | .send f p :: ops, .accepted :: rs => (f, p) :: accepted ops rs
  | _ :: ops, _ :: rs => accepted ops rs
  | _, _ => []

/-- Was this frame sent with a forced key frame override? -/
def forced {F O M : Type} (x : F × Option (Params O M)) : Bool :=
  match x.2 with
  | some p => p.forceKey
  | none => false

end Rav1e.Sched.Spec

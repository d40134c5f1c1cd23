import Verif.Hdr.Build
import Verif.Rate.Model

/-!
# Configuration: model of `Config::validate` and of the start of an encoder

Floating point enters only through `EncoderConfig::render_size` and the rate limit of the tiler; their results are
fields of `EncCfg`, and every theorem quantifies over them.
-/

namespace Rav1e.Conf
open Hdr

/-- `InvalidConfig`, `api/config/mod.rs:37-130`, without the offending values. -/
inductive Invalid where
  | width | height | aspectNum | aspectDen | renderWidth | renderHeight | lookahead | maxKey | tileCols | tileRows
  | rateNum | rateDen | delay | switch | still | color | levelUndefined | levelExceeded | bitrate
deriving Repr, DecidableEq

/-- `Config` (`api/config/mod.rs:134-146`): the encoder settings, what else `validate` looks at, and the rate
control configuration. `enc.sched.maxKey` and `enc.sched.rdoLookahead` are the values the user gave. -/
structure Config where
  enc : EncCfg
  sarNum : Nat
  sarDen : Nat
  delay : Option Int
  bitrate : Int
  emit : Bool
  summary : Option Rate.Summary

/-- `check_tile_log2`, `api/config/mod.rs:204-212`; `none` is a panic of the subtraction. -/
def checkTileLog2 (n : Nat) : Option Bool :=
  match Tile.tileLog2 1 n with
  | none => some false
  | some k => if 2 ^ k < n then none else some (2 ^ k - n == 0 || n == 0)

/-- `AV1_LEVEL_DEFINED`, `levels.rs:10-27`. -/
def levelDefined : List Bool :=
  [true, true, false, false, true, true, false, false, true, true, false, false, true, true, true, true,
   true, true, true, true, false, false, false, false, false, false, false, false, false, false, false, false]

/-- `AV1_LEVEL_MAX_PIC_SIZE`, `levels.rs:29-45`. -/
def levelMaxPic : List Nat :=
  [147456, 278784, 0, 0, 665856, 1065024, 0, 0, 2359296, 23592960, 0, 0, 8912896, 8912896, 8912896, 8912896,
   35651584, 35651584, 35651584, 35651584, 0, 0, 0, 0, 0, 0, 0, 0, 0, 0, 0, 0]

/-- `AV1_LEVEL_MAX_H_SIZE`, `levels.rs:47-63`. -/
def levelMaxH : List Nat :=
  [2048, 2816, 0, 0, 4352, 5504, 0, 0, 6144, 6144, 0, 0, 8192, 8192, 8192, 8192,
   16384, 16384, 16384, 16384, 0, 0, 0, 0, 0, 0, 0, 0, 0, 0, 0, 0]

/-- `AV1_LEVEL_MAX_V_SIZE`, `levels.rs:65-81`. -/
def levelMaxV : List Nat :=
  [1152, 1584, 0, 0, 2448, 3096, 0, 0, 3456, 3456, 0, 0, 4352, 4352, 4352, 4352,
   8704, 8704, 8704, 8704, 0, 0, 0, 0, 0, 0, 0, 0, 0, 0, 0, 0]

/-- `AV1_LEVEL_MAX_DISPLAY_RATE`, `levels.rs:83-116`. -/
def levelMaxRate : List Nat :=
  [4423680, 8363520, 0, 0, 19975680, 31950720, 0, 0, 70778880, 141557760, 0, 0,
   267386880, 534773760, 1069547520, 1069547520, 1069547520, 2139095040, 4278190080, 4278190080,
   0, 0, 0, 0, 0, 0, 0, 0, 0, 0, 0, 0]

/-- A `u64` (or 64 bit `usize`) product; `none` is an overflow. -/
def mul64 (a b : Nat) : Option Nat := if a * b < 2 ^ 64 then some (a * b) else none

/-- The level checks of `validate`, `api/config/mod.rs:406-432`. -/
def checkLevel (e : EncCfg) (level : Nat) : Option (Option Invalid) :=
  if 31 < level then some (some .levelUndefined)
  else if level < 31 then do
    let ok ← levelDefined[level]?
    if ok = false then return some .levelUndefined
    let area ← mul64 e.width e.height
    let pic ← levelMaxPic[level]?
    if pic < area then return some .levelExceeded
    let h ← levelMaxH[level]?
    if h < e.width then return some .levelExceeded
    let v ← levelMaxV[level]?
    if v < e.height then return some .levelExceeded
    let p ← mul64 area e.timeNum
    let rate ← levelMaxRate[level]?
    if e.timeDen = 0 then none
    else if rate < Tile.divCeil p e.timeDen then return some .levelExceeded
    else return none
  else some none

/-- The checks of `validate` before the level, `api/config/mod.rs:310-404`, in their order: the first condition
that holds gives the error. `MAX_RDO_LOOKAHEAD_FRAMES` and `MAX_MAX_KEY_FRAME_INTERVAL` are
`api/config/encoder.rs:20-23`. -/
def checks (c : Config) (cols rows : Bool) : List (Bool × Invalid) :=
  let e := c.enc
  [(decide ((e.sched.stillPicture = true ∧ e.width < 1) ∨ (e.sched.stillPicture = false ∧ e.width < 16) ∨
      65535 < e.width), .width),
   (decide ((e.sched.stillPicture = true ∧ e.height < 1) ∨ (e.sched.stillPicture = false ∧ e.height < 16) ∨
      65535 < e.height), .height),
   (decide (c.sarNum = 0), .aspectNum),
   (decide (c.sarDen = 0), .aspectDen),
   (decide (e.renderWidth = 0 ∨ 65535 < e.renderWidth), .renderWidth),
   (decide (e.renderHeight = 0 ∨ 65535 < e.renderHeight), .renderHeight),
   (decide (2 ^ 64 - 2 < e.sched.rdoLookahead ∨ e.sched.rdoLookahead < 1), .lookahead),
   (decide (2147483647 / 3 < e.sched.maxKey), .maxKey),
   (!cols, .tileCols),
   (!rows, .tileRows),
   (decide (e.timeNum = 0 ∨ 2 ^ 32 - 1 < e.timeNum), .rateNum),
   (decide (e.timeDen = 0 ∨ 2 ^ 32 - 1 < e.timeDen), .rateDen),
   (match c.delay with | some d => decide (¬ (12 ≤ d ∧ d ≤ 131072)) | none => false, .delay),
   (decide (0 < e.sched.switchInterval) && !e.sched.lowLatency, .switch),
   (e.enableTiming && e.sched.stillPicture, .still),
   (match e.color with
    | some d => e.chroma != .cs400 && d.srgb && (!e.fullRange || e.chroma != .cs444)
    | none => false, .color)]

/-- The level part of `validate`, `api/config/mod.rs:406-432`. -/
def levelErr (e : EncCfg) : Option (Option Invalid) :=
  match e.levelIdx with
  | some l => checkLevel e l
  | none => some none

/-- `Config::validate`, `api/config/mod.rs:305-442`. `none` is a panic, `some none` is `Ok`. -/
def validate (c : Config) : Option (Option Invalid) := do
  let cols ← checkTileLog2 c.enc.tileCols
  let rows ← checkTileLog2 c.enc.tileRows
  match (checks c cols rows).find? (·.1) with
  | some (_, e) => some (some e)
  | none =>
    match ← levelErr c.enc with
    | some e => some (some e)
    | none => if (c.emit || c.summary.isSome) && c.bitrate == 0 then some (some .bitrate) else some none

/-- `set_key_frame_interval`, `api/config/encoder.rs:178-189`: 0 stands for the maximum. -/
def keyInterval (n : Nat) : Nat := if n = 0 then 2147483647 / 3 else n

/-- The settings after `new_inner` has adjusted them, `api/config/mod.rs:227-239`. -/
def adjusted (e : EncCfg) : EncCfg :=
  { e with
    sched := { e.sched with maxKey := keyInterval e.sched.maxKey }
    rdoTx := if e.chroma = .cs422 then false else e.rdoTx }

/-- What `RCState::new` is given, `api/internal.rs:318-328`. The exponents that it derives from the size and the
rate are given, as in `Rate.Cfg`. -/
def rateCfg (c : Config) (exp : List Int) : Rate.Cfg :=
  { bitrate := c.bitrate, rateNum := c.enc.timeDen, rateDen := c.enc.timeNum,
    maxKeyInterval := keyInterval c.enc.sched.maxKey, delay := c.delay, exp }

/-- `Config::new_inner`, `api/config/mod.rs:215-257`, for pixels of `pixelBits` bits: the settings, the sequence and
the rate control state it starts with. The scene change detector (another crate) and the quantizer of the first pass
are left out. -/
def newInner (pixelBits : Nat) (c : Config) (exp : List Int) :
    Option (Except Invalid (EncCfg × Seq × Rate.Rc)) := do
  if pixelBits < c.enc.bitDepth then none
  else match ← validate c with
    | some e => some (.error e)
    | none =>
      let e := adjusted c.enc
      let s ← newSequence e
      some (.ok (e, s, Rate.Rc.start (rateCfg c exp) c.summary c.emit))

end Rav1e.Conf

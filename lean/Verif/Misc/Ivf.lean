import Mathlib.Data.Nat.Bits
import Mathlib.Tactic.Ring
import Mathlib.Tactic.NormNum
/-
C36: the IVF container, crate `ivf` (`ivf/src/lib.rs`). A file is a list of bytes (naturals below 256).

`bitstream_io` is not part of the repository. Every access of this file is byte aligned, so its little-endian
`write::<8n, _>` appends the `n` bytes of the value from the lowest on, and `read::<8n, _>` reads them back; both
are modelled so. A `write` of a typed value cannot fail for lack of bits; an I/O error of the output is not
modelled. A read past the end of the file is an error (`none`).
-/
namespace Rav1e.Ivf

/-- The `n` low bytes of a value, lowest first: `BitWriter<_, LittleEndian>::write`. -/
def le : Nat → Nat → List Nat
  | 0, _ => []
  | n + 1, v => v % 256 :: le n (v / 256)

/-- The value of bytes, lowest first. -/
def unle : List Nat → Nat
  | [] => 0
  | b :: bs => b + 256 * unle bs

/-- `BitReader::read_bytes`, and the bytes of a `read`. -/
def take (n : Nat) (f : List Nat) : Option (List Nat × List Nat) :=
  if n ≤ f.length then some (f.take n, f.drop n) else none

/-- `BitReader<_, LittleEndian>::read` of `8 * n` bits. -/
def readLe (n : Nat) (f : List Nat) : Option (Nat × List Nat) :=
  (take n f).map fun p => (unle p.1, p.2)

/-- `b"DKIF"`, `ivf/src/lib.rs:25`. -/
def dkif : List Nat := [0x44, 0x4B, 0x49, 0x46]
/-- `b"AV01"`, `ivf/src/lib.rs:28`. -/
def av01 : List Nat := [0x41, 0x56, 0x30, 0x31]

/-- `write_ivf_header`, `ivf/src/lib.rs:20-35`: what is appended to the output. The casts drop high bits. -/
def writeHeader (width height rateNum rateDen : Nat) : List Nat :=
  dkif ++ le 2 0 ++ le 2 32 ++ av01 ++ le 2 (width % 2 ^ 16) ++ le 2 (height % 2 ^ 16) ++
    le 4 (rateNum % 2 ^ 32) ++ le 4 (rateDen % 2 ^ 32) ++ le 4 0 ++ le 4 0

/-- `write_ivf_frame`, `ivf/src/lib.rs:40-47`. -/
def writeFrame (pts : Nat) (data : List Nat) : List Nat :=
  le 4 (data.length % 2 ^ 32) ++ le 8 pts ++ data

/-- `Header`, `ivf/src/lib.rs:50-56`. -/
structure Header where
  tag : List Nat
  w : Nat
  h : Nat
  timebaseNum : Nat
  timebaseDen : Nat
  deriving DecidableEq, Repr

/-- `read_header`, `ivf/src/lib.rs:62-88`; `none` is `Err`. -/
def readHeader (f : List Nat) : Option (Header × List Nat) := do
  let (sig, f) ← take 4 f
  if sig = dkif then
    let (_, f) ← readLe 2 f
    let (_, f) ← readLe 2 f
    let (tag, f) ← take 4 f
    let (w, f) ← readLe 2 f
    let (h, f) ← readLe 2 f
    let (den, f) ← readLe 4 f
    let (num, f) ← readLe 4 f
    let (_, f) ← readLe 4 f
    let (_, f) ← readLe 4 f
    some ({ tag, w, h, timebaseNum := num, timebaseDen := den }, f)
  else none

/-- `read_packet`, `ivf/src/lib.rs:98-108`. -/
def readPacket (f : List Nat) : Option ((Nat × List Nat) × List Nat) := do
  let (len, f) ← readLe 4 f
  let (pts, f) ← readLe 8 f
  let (data, f) ← take len f
  some ((pts, data), f)

/-- Reading packets until the end of the file (how a caller uses `read_packet`), with a bound on their
number. `none` when a packet cannot be read. -/
def readAll : Nat → List Nat → Option (List (Nat × List Nat))
  | _, [] => some []
  | 0, _ => none
  | n + 1, f => do
    let (p, f) ← readPacket f
    let ps ← readAll n f
    some (p :: ps)

/-- The muxer of the command line program, `bin/muxer/ivf.rs:26-42`: the header, then each frame. -/
def mux (width height rateNum rateDen : Nat) (frames : List (Nat × List Nat)) : List Nat :=
  writeHeader width height rateNum rateDen ++ frames.flatMap fun p => writeFrame p.1 p.2

/-! ## Lemmas -/

theorem le_length (n v : Nat) : (le n v).length = n := by
  induction n generalizing v with
  | zero => rfl
  | succ n ih => simp [le, ih]

theorem unle_le (n v : Nat) (h : v < 256 ^ n) : unle (le n v) = v := by
  induction n generalizing v with
  | zero => simp at h; subst h; rfl
  | succ n ih =>
    have : v / 256 < 256 ^ n := by
      rw [Nat.div_lt_iff_lt_mul (by norm_num)]; rw [Nat.pow_succ] at h; exact h
    rw [le, unle, ih _ this]; omega

theorem take_append {n : Nat} {a f : List Nat} (h : a.length = n) : take n (a ++ f) = some (a, f) := by
  subst h; simp [take]

theorem readLe_append {n v : Nat} {f : List Nat} (h : v < 256 ^ n) : readLe n (le n v ++ f) = some (v, f) := by
  rw [readLe, take_append (le_length n v)]
  simp [unle_le n v h]

theorem readHeader_write (width height rateNum rateDen : Nat) (f : List Nat) :
    readHeader (writeHeader width height rateNum rateDen ++ f) =
      some ({ tag := av01, w := width % 2 ^ 16, h := height % 2 ^ 16, timebaseNum := rateDen % 2 ^ 32,
              timebaseDen := rateNum % 2 ^ 32 }, f) := by
  have h2 : ∀ v, v % 2 ^ 16 < 256 ^ 2 := fun v => Nat.mod_lt _ (by norm_num)
  have h4 : ∀ v, v % 2 ^ 32 < 256 ^ 4 := fun v => Nat.mod_lt _ (by norm_num)
  unfold readHeader writeHeader
  simp only [List.append_assoc]
  rw [take_append (by rfl)]
  simp only [Option.bind_eq_bind, Option.bind_some, if_true]
  rw [readLe_append (by norm_num)]; simp only [Option.bind_some]
  rw [readLe_append (by norm_num)]; simp only [Option.bind_some]
  rw [take_append (by rfl)]; simp only [Option.bind_some]
  rw [readLe_append (h2 _)]; simp only [Option.bind_some]
  rw [readLe_append (h2 _)]; simp only [Option.bind_some]
  rw [readLe_append (h4 _)]; simp only [Option.bind_some]
  rw [readLe_append (h4 _)]; simp only [Option.bind_some]
  rw [readLe_append (by norm_num)]; simp only [Option.bind_some]
  rw [readLe_append (by norm_num)]; simp only [Option.bind_some]

theorem readPacket_write {pts : Nat} {data : List Nat} (hp : pts < 2 ^ 64) (hd : data.length < 2 ^ 32)
    (f : List Nat) : readPacket (writeFrame pts data ++ f) = some ((pts, data), f) := by
  have hp' : pts < 256 ^ 8 := lt_of_lt_of_le hp (by norm_num)
  have hd' : data.length % 2 ^ 32 < 256 ^ 4 := Nat.mod_lt _ (by norm_num)
  unfold readPacket writeFrame
  simp only [List.append_assoc]
  rw [readLe_append hd']; simp only [Option.bind_eq_bind, Option.bind_some]
  rw [readLe_append hp']; simp only [Option.bind_some]
  rw [take_append (by rw [Nat.mod_eq_of_lt hd])]; simp only [Option.bind_some]

theorem writeFrame_ne_nil (pts : Nat) (data : List Nat) : writeFrame pts data ≠ [] := by
  simp [writeFrame, le]

theorem readAll_write (frames : List (Nat × List Nat)) (n : Nat) (hn : frames.length ≤ n)
    (hp : ∀ p ∈ frames, p.1 < 2 ^ 64 ∧ p.2.length < 2 ^ 32) :
    readAll n (frames.flatMap fun p => writeFrame p.1 p.2) = some frames := by
  induction frames generalizing n with
  | nil => cases n <;> rfl
  | cons p ps ih =>
    cases n with
    | zero => simp at hn
    | succ n =>
      obtain ⟨h1, h2⟩ := hp p (by simp)
      have hrp := readPacket_write h1 h2 (ps.flatMap fun p => writeFrame p.1 p.2)
      have hrec := ih n (by simpa using hn) (fun q hq => hp q (by simp [hq]))
      rw [List.flatMap_cons]
      rw [readAll]
      · rw [hrp]
        simp only [Option.bind_eq_bind, Option.bind_some]
        rw [hrec]; rfl
      · intro h
        exact writeFrame_ne_nil _ _ (List.append_eq_nil_iff.1 h).1

/-! ## C36 -/

/-- **C36**: a file written from any header and any list of frames is parsed to the same header fields (the
time base is the inverse of the frame rate) and the same frames, if the dimensions fit 16 bits, the frame rate
32 bits, the time stamps 64 bits and no frame has 4 GiB. -/
theorem ivf_round_trip (width height rateNum rateDen : Nat) (frames : List (Nat × List Nat))
    (hw : width < 2 ^ 16) (hh : height < 2 ^ 16) (hn : rateNum < 2 ^ 32) (hd : rateDen < 2 ^ 32)
    (hp : ∀ p ∈ frames, p.1 < 2 ^ 64 ∧ p.2.length < 2 ^ 32) :
    ∃ rest, readHeader (mux width height rateNum rateDen frames) =
        some ({ tag := av01, w := width, h := height, timebaseNum := rateDen, timebaseDen := rateNum }, rest) ∧
      ∀ n, frames.length ≤ n → readAll n rest = some frames := by
  refine ⟨_, ?_, fun n hn' => readAll_write frames n hn' hp⟩
  rw [mux, readHeader_write, Nat.mod_eq_of_lt hw, Nat.mod_eq_of_lt hh, Nat.mod_eq_of_lt hn, Nat.mod_eq_of_lt hd]

/-- The bytes written are bytes, if the data are. -/
theorem mux_bytes (width height rateNum rateDen : Nat) (frames : List (Nat × List Nat))
    (hb : ∀ p ∈ frames, ∀ b ∈ p.2, b < 256) : ∀ b ∈ mux width height rateNum rateDen frames, b < 256 := by
  have hle : ∀ n v, ∀ b ∈ le n v, b < 256 := by
    intro n
    induction n with
    | zero => intro v b hb; simp [le] at hb
    | succ n ih =>
      intro v b hb
      rw [le, List.mem_cons] at hb
      rcases hb with rfl | hb
      · exact Nat.mod_lt _ (by norm_num)
      · exact ih _ b hb
  have hd : ∀ b ∈ dkif, b < 256 := by decide
  have ha : ∀ b ∈ av01, b < 256 := by decide
  intro b hm
  simp only [mux, writeHeader, List.mem_append, List.mem_flatMap, writeFrame] at hm
  rcases hm with ((((((((( h | h) | h) | h) | h) | h) | h) | h) | h) | h) | ⟨p, hp, (h | h) | h⟩
  all_goals first
    | exact hd b h
    | exact ha b h
    | exact hb p hp b h
    | exact hle _ _ b h

/-- Every truncation of a frame is reported: `read_packet` never returns a packet with fewer bytes than the
length field announces. -/
theorem truncated_packet {pts : Nat} {data : List Nat} (hd : data.length < 2 ^ 32) (k : Nat)
    (hk : k < (writeFrame pts data).length) : readPacket ((writeFrame pts data).take k) = none := by
  have hlen : (writeFrame pts data).length = 12 + data.length := by
    simp [writeFrame, le_length]; omega
  by_contra hcon
  obtain ⟨⟨p, f⟩, hr⟩ := Option.ne_none_iff_exists'.1 hcon
  unfold readPacket at hr
  simp only [Option.bind_eq_bind, Option.bind_eq_some_iff, Prod.exists] at hr
  obtain ⟨len, f1, h1, pts', f2, h2, dat, f3, h3, _⟩ := hr
  simp only [readLe, take, Option.map_eq_some_iff, Prod.exists] at h1 h2
  obtain ⟨a, b, h1, h1'⟩ := h1
  obtain ⟨c, d, h2, h2'⟩ := h2
  split_ifs at h1 with hl1
  split_ifs at h2 with hl2
  unfold take at h3
  split_ifs at h3 with hl3
  simp only [Option.some.injEq, Prod.mk.injEq] at h1 h2 h1' h2'
  obtain ⟨rfl, rfl⟩ := h1
  obtain ⟨rfl, rfl⟩ := h1'
  obtain ⟨rfl, rfl⟩ := h2
  obtain ⟨rfl, rfl⟩ := h2'
  rw [List.length_take] at hl1
  have h4 : 4 ≤ k := by omega
  have hfirst : ((writeFrame pts data).take k).take 4 = le 4 (data.length % 2 ^ 32) := by
    rw [List.take_take, Nat.min_eq_left h4, writeFrame, List.append_assoc]
    rw [List.take_append_of_le_length (by rw [le_length]), List.take_of_length_le (by rw [le_length])]
  rw [hfirst, unle_le _ _ (lt_of_lt_of_le (Nat.mod_lt _ (by norm_num)) (by norm_num)),
    Nat.mod_eq_of_lt hd] at hl3
  simp only [List.length_drop, List.length_take] at hl3 hl2
  omega

/-- A file with the wrong signature is rejected. -/
theorem wrong_signature {f : List Nat} (h : f.take 4 ≠ dkif) : readHeader f = none := by
  unfold readHeader take
  split_ifs with hl
  · simp [h]
  · rfl

example : readHeader (mux 1920 1080 24 1 [(0, [1, 2, 3]), (1, [])]) =
    some ({ tag := av01, w := 1920, h := 1080, timebaseNum := 1, timebaseDen := 24 },
      writeFrame 0 [1, 2, 3] ++ writeFrame 1 []) ∧
    readAll 2 (writeFrame 0 [1, 2, 3] ++ writeFrame 1 []) = some [(0, [1, 2, 3]), (1, [])] := by decide

/-- Finding: a dimension of 65536 or more is cut to 16 bits in the container's header (the encoder itself
accepts at most 65535). -/
theorem ivf_width_truncates : (readHeader (mux 65536 16 25 1 [])).map (fun p => p.1.w) = some 0 := by decide

end Rav1e.Ivf

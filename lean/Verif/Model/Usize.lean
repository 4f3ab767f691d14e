import Verif.Model.Basic
/-
The arithmetic on `usize` in the decoder once more, with the overflow checks that Rust performs on a
target whose `usize` has `w` bits. In the rest of the model `usize` is `Nat`. The places where the
decoder computes are: `length`, `parse_fixed_header`, `frame_length`, `check` (here repeated) and
the cursors of the thirteen property loops (here the loop is repeated).
-/
namespace Mqtt

/-- Sequencing of Rust calls that do not touch a buffer: `?` and panics. -/
instance : Monad Out where
  pure := .ok
  bind o f :=
    match o with
    | .ok a => f a
    | .err e => .err e
    | .panic => .panic
    | .diverge => .diverge

/-- `a + b` in `usize`: panics on overflow (debug builds; release builds wrap, which this model does
not need to distinguish because neither happens). -/
def addW (w a b : Nat) : Out Nat := if a + b < 2 ^ w then .ok (a + b) else .panic

/-- `a - b` in `usize`: panics on underflow. -/
def subW (a b : Nat) : Out Nat := if b ≤ a then .ok (a - b) else .panic

/-- `a << s` in `usize`: panics if `s` is at least the number of bits, and loses the upper bits. -/
def shlW (w a s : Nat) : Out Nat := if s < w then .ok ((a <<< s) % 2 ^ w) else .panic

/-- src/lib.rs:449-473, the loop of `fn length`. `len_len` and `shift` are `usize`, too (`shift` is
an `i32` in the code, as nothing else fixes its type; its values are the same). -/
def lengthLoopW (w : Nat) : Bytes → (len len_len shift : Nat) → Out (Nat × Nat)
  | [], _, _, _ => .err (.InsufficientBytes 1)
  | b :: bs, len, len_len, shift => do
    let len_len ← addW w len_len 1
    let byte := b.toNat
    let part ← shlW w (byte &&& 0x7F) shift
    let len ← addW w len part
    if (byte &&& 0x80) = 0 then .ok (len_len, len)
    else
      let shift ← addW w shift 7
      if shift > 21 then .err .MalformedRemainingLength
      else lengthLoopW w bs len len_len shift

/-- src/lib.rs:439-476 `fn length`. -/
def lengthW (w : Nat) (stream : Bytes) : Out (Nat × Nat) := lengthLoopW w stream 0 0 0

/-- src/lib.rs:423-434 `parse_fixed_header`, with src/lib.rs:318-324 `FixedHeader::new`. -/
def parse_fixed_headerW (w : Nat) (stream : Bytes) : Out FixedHeader :=
  let stream_len := stream.length
  if stream_len < 2 then do
    let n ← subW 2 stream_len
    .err (.InsufficientBytes n)
  else
    match stream with
    | [] => .panic
    | byte1 :: stream => do
      let (len_len, len) ← lengthW w stream
      let fixed_header_len ← addW w len_len 1
      .ok { byte1 := byte1, fixed_header_len := fixed_header_len, remaining_len := len }

/-- src/lib.rs:395-420 `check`, with src/lib.rs:350-352 `frame_length`. -/
def checkW (w : Nat) (stream : Bytes) (max_packet_size : Option Nat) : Out FixedHeader := do
  let stream_len := stream.length
  let fixed_header ← parse_fixed_headerW w stream
  let too_big : Option Nat :=
    match max_packet_size with
    | some max_size => if fixed_header.remaining_len > max_size then some max_size else none
    | none => none
  match too_big with
  | some max_size => .err (.PayloadSizeLimitExceeded fixed_header.remaining_len max_size)
  | none => do
    let frame_length ← addW w fixed_header.fixed_header_len fixed_header.remaining_len
    if stream_len < frame_length then do
      let n ← subW frame_length stream_len
      .err (.InsufficientBytes n)
    else .ok fixed_header

/-- `length(bytes.iter())?` (see `lengthM`). -/
def lengthMW (w : Nat) : M (Nat × Nat) := fun b => (lengthW w b, b)

/-- A value of type `usize`. -/
def fitsW (w n : Nat) : Out Unit := if n < 2 ^ w then .ok () else .panic

/-- The property loop (see `propLoop`). What a `match` adds to the cursor is a sum; the sum and all
its parts are in range if the new cursor is. -/
def propLoopW {σ : Type} (w : Nat) (step : UInt8 → PropertyType → σ → Nat → M (σ × Nat))
    (properties_len : Nat) : (fuel cursor : Nat) → σ → M σ
  | 0, _, _ => fun b => (.diverge, b)
  | fuel + 1, cursor, s =>
    if cursor < properties_len then do
      let prop ← read_u8
      let cursor ← liftOut (addW w cursor 1)
      let ty ← liftOut (property prop)
      let (s, cursor) ← step prop ty s cursor
      liftOut (fitsW w cursor)
      propLoopW w step properties_len fuel cursor s
    else pure s

/-- The property section (see `readProps`). -/
def readPropsW {σ : Type} (w : Nat) (step : UInt8 → PropertyType → σ → Nat → M (σ × Nat))
    (init : σ) : M (Option σ) := do
  let (properties_len_len, properties_len) ← lengthMW w
  advance properties_len_len
  if properties_len = 0 then pure none
  else do
    let bytes ← getBuf
    let s ← propLoopW w step properties_len (bytes.length + 1) 0 init
    pure (some s)

end Mqtt

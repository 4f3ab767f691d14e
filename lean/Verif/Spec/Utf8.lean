import Verif.Model.Basic
/-
UTF-8 (RFC 3629, section 3) over Lean's `Char` (Unicode scalar values: 0..0xD7FF and
0xE000..0x10FFFF), written arithmetically and independently of the validator in the model.
-/
namespace Spec

open Mqtt (Bytes StrMode)

/-- UTF-8 encoding of one scalar value. -/
def utf8Char (c : Char) : Bytes :=
  let v := c.toNat
  if v < 0x80 then [UInt8.ofNat v]
  else if v < 0x800 then [UInt8.ofNat (0xC0 + v / 64), UInt8.ofNat (0x80 + v % 64)]
  else if v < 0x10000 then
    [UInt8.ofNat (0xE0 + v / 4096), UInt8.ofNat (0x80 + v / 64 % 64), UInt8.ofNat (0x80 + v % 64)]
  else
    [UInt8.ofNat (0xF0 + v / 262144), UInt8.ofNat (0x80 + v / 4096 % 64),
     UInt8.ofNat (0x80 + v / 64 % 64), UInt8.ofNat (0x80 + v % 64)]

/-- The bytes are the UTF-8 encoding of some text. -/
def IsUtf8 (bs : Bytes) : Prop := ∃ cs : List Char, bs = cs.flatMap utf8Char

/-- What an `MqttString` of the given build feature can hold. -/
def TextOk (mode : StrMode) (s : Bytes) : Prop := mode = .utf8 → IsUtf8 s

end Spec

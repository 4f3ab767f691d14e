import Verif.Model.Basic
/-
Model of the topic helpers of /repo/mod.rs. That file lies outside src/ and is named by no
`mod` declaration, so it is not compiled into the crate; it is modelled as written.
A `&str` is modelled by its UTF-8 bytes. `str::contains(c)`, `str::split(c)` and `==` on strings
with an ASCII `c` are modelled on the bytes.
-/
namespace Mqtt.Topic

/-- '+', used at mod.rs:37, 43, 69, 84, 117. -/
def plus : UInt8 := 0x2B
/-- '#', used at mod.rs:37, 43, 69, 78, 107, 116. -/
def hash : UInt8 := 0x23
/-- '/', used at mod.rs:59, 102, 103. -/
def slash : UInt8 := 0x2F
/-- '$', used at mod.rs:98. -/
def dollar : UInt8 := 0x24

/-- `str::split(c)` for an ASCII `c` (used at mod.rs:59, 102, 103): the pieces between the
separators, at least one. The iterator is modelled by the list of what it yields. -/
def split (c : UInt8) : Bytes → List Bytes
  | [] => [[]]
  | b :: r =>
    if b = c then [] :: split c r
    else match split c r with
      | [] => [[b]]
      | l :: ls => (b :: l) :: ls

/-- mod.rs:36-38 -/
def has_wildcards (s : Bytes) : Bool := s.contains plus || s.contains hash

/-- mod.rs:41-48 -/
def valid_topic (topic : Bytes) : Bool :=
  if topic.contains plus || topic.contains hash then false else true

/-- mod.rs:74-87, the `for entry in hirerarchy` loop. -/
def valid_entries : List Bytes → Bool
  | [] => true
  | entry :: rest =>
    if entry.contains hash then false
    else if entry.length > 1 && entry.contains plus then false
    else valid_entries rest

/-- mod.rs:53-90. `panic` is the `unwrap` of line 64 on an empty iterator. -/
def valid_filter (filter : Bytes) : Out Bool :=
  if filter.isEmpty then .ok false
  else match (split slash filter).reverse with
    | [] => .panic
    | last :: hirerarchy =>
      if last.length != 1 && (last.contains hash || last.contains plus) then .ok false
      else .ok (valid_entries hirerarchy)

/-- `str::is_char_boundary(1)` of a non-empty string: the end, or not a continuation byte.
Used by the slice of mod.rs:98. -/
def boundary1 : Bytes → Bool
  | [] => false
  | [_] => true
  | _ :: b :: _ => !(0x80 ≤ b && b < 0xC0)

/-- mod.rs:105-129, the loop over the filter levels `fs` with the iterator `ts` of topic
levels, and the check after it. -/
def matchLoop : (fs ts : List Bytes) → Bool
  | [], ts => ts.isEmpty
  | f :: fs, ts =>
    if f == [hash] then true
    else match ts with
      | [] => false
      | t :: ts =>
        if t == [hash] then false
        else if f == [plus] then matchLoop fs ts
        else if f != t then false
        else matchLoop fs ts

/-- mod.rs:97-130. `topic[..1]` (line 98) panics unless byte 1 is a character boundary. -/
def matches_ (topic filter : Bytes) : Out Bool :=
  if !topic.isEmpty then
    if boundary1 topic then
      if (topic.take 1).contains dollar then .ok false
      else .ok (matchLoop (split slash filter) (split slash topic))
    else .panic
  else .ok (matchLoop (split slash filter) (split slash topic))

end Mqtt.Topic

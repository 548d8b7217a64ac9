import Verif.Model.Json

/-!
# Common part of the key container parsers (`typej.c`, `soc_key_container.c`) and base64 (`json.c:1139-1220`)

A parser run is the list of its memory events and its result.  Events are recorded in program order; after an event that is undefined behaviour in C (a write outside
an object, a second free, the use of an unset variable) the model goes on in one of the ways the program may go on, so that a run without such events is exact and
the first such event of a run is real.

Simplifications: `memory_internal_alloc` and `memory_secure_alloc` succeed in the parsers (inside `b64_decode` they may fail, which is a failure of `bio` below);
lengths are below 2^31, so the `int` casts of json.c:1188, 1197 do not matter; the scratch buffer and the BIO objects of `b64_decode`, which are released on each path
(json.c:1209-1216), are not represented.
-/

namespace Sa.Kc

/-- Heap blocks allocated by the parsers; the name is the variable or member holding the pointer. -/
inductive Blk where
  | unpacked | header | payload | mac | headerJson | headerFields | payloadJson | payloadFields | encryptedKey | taIds | key | rights | contentKey | iv
  deriving DecidableEq, Repr

/-- Fixed-size objects written by the parsers: members of `soc_kc_payload_t` (soc_key_container.c:63-75), the buffer `aad` (line 770), `sa_rights.id`. -/
inductive Fld where
  | iv | c1 | c2 | c3 | taIds | aad | rightsId
  deriving DecidableEq, Repr

inductive Ev where
  /-- allocation of a block of `size` bytes -/
  | alloc (b : Blk) (size : Nat)
  | free (b : Blk)
  /-- `n` bytes written at offset `off` of a fixed-size object -/
  | write (f : Fld) (off n : Nat)
  /-- `n` bytes written at the beginning of a block -/
  | fill (b : Blk) (n : Nat)
  /-- the first `n` bytes read of a string literal occupying `size` bytes -/
  | readLit (size n : Nat)
  /-- access through a NULL pointer -/
  | null
  /-- use of the value of a variable or of memory that was never set -/
  | uninit
  /-- access outside of a block -/
  | outside
  deriving DecidableEq, Repr

/-- What the parsers depend on. -/
structure Env where
  /-- `BIO_read` of base64 text whose length is a multiple of four (json.c:1182-1204); `none`: it or one of the allocations before it fails -/
  bio : Bytes → Option Bytes
  /-- contents of memory that was never set -/
  junk : Nat → Bytes
  /-- value of a length that was never set -/
  junkLength : Nat
  /-- memory behind a string literal -/
  beyond : Bytes → Bytes
  /-- events of yajl for a text; `none`: not JSON -/
  yajl : Bytes → Option (List Js.Event)

/-- Assumptions on the environment. -/
structure Env.Good (env : Env) : Prop where
  /-- base64 decoding gives at most three bytes for four characters -/
  bio : ∀ d r, env.bio d = some r → r.length ≤ d.length / 4 * 3
  junk : ∀ n, (env.junk n).length = n

/-- A run of a parser function: its events, and its result or the status it fails with. -/
structure P (α : Type) where
  evs : List Ev
  res : Except Status α

namespace P
def pure (a : α) : P α := ⟨[], .ok a⟩
def bind (m : P α) (f : α → P β) : P β :=
  match m.res with
  | .error s => ⟨m.evs, .error s⟩
  | .ok a => ⟨m.evs ++ (f a).evs, (f a).res⟩
instance : Monad P where
  pure := P.pure
  bind := P.bind
def fail (s : Status) : P α := ⟨[], .error s⟩
def emit (es : List Ev) : P Unit := ⟨es, .ok ()⟩
/-- The code behind a `do { … } while (false)`: executed on success and on failure. -/
def after (m : P α) (es : List Ev) : P α := ⟨m.evs ++ es, m.res⟩
end P

/-- Characters of a C string literal. -/
def ascii (s : String) : Bytes := s.toList.map fun c => UInt8.ofNat c.toNat

/-- `b64_decoded_length`, json.h:42. -/
def b64DecodedLength (n : Nat) : Nat := (n / 4 + if n % 4 > 0 then 1 else 0) * 3

/-- json.c:1164-1180: the text given to the decoder.  Without `url_decode` a text whose length is not a multiple of four is followed by unset memory. -/
def b64Data (env : Env) (s : Bytes) (url : Bool) : Bytes :=
  let missing := (s.length / 4 + if s.length % 4 > 0 then 1 else 0) * 4 - s.length
  if url then (s.map fun c => if c = 0x2d then 0x2b else if c = 0x5f then 0x2f else c) ++ List.replicate missing 0x3d
  else s ++ env.junk missing

/-- `b64_decode`, json.c:1139-1220, with `*out_length == b64_decoded_length(in_length)` as in all calls; `none` for `s` is NULL.
`dst n` is the event of writing `n` bytes to `out`.  Result: the decoded bytes, or `none` for false (then `*out_length` is unchanged). -/
def b64Decode (env : Env) (dst : Nat → Ev) (s : Option Bytes) (url : Bool) : List Ev × Option Bytes :=
  match s with
  | none => ([], none)
  | some s =>
    let un := if url = false ∧ s.length % 4 ≠ 0 then [Ev.uninit] else []
    match env.bio (b64Data env s url) with
    | none => (un, none)
    | some r => (un ++ [dst r.length], some r)

/-- typej.c:135-165 and soc_key_container.c:119-147: the three parts between the first two dots.  The second and the third part must begin before the end
of the text. -/
def splitDots (s : Bytes) : Option (Bytes × Bytes × Bytes) :=
  match s.findIdx? (· == 0x2e) with
  | none => none
  | some i =>
    let rest := s.drop (i + 1)
    if rest.length = 0 then none
    else match rest.findIdx? (· == 0x2e) with
      | none => none
      | some j =>
        let mac := rest.drop (j + 1)
        if mac.length = 0 then none else some (s.take i, rest.take j, mac)

/-- Looking up a field that must exist. -/
def need (name : String) (fields : List (Bytes × Js.Json)) : P Js.Json :=
  match Js.find (ascii name) fields with
  | none => .fail .INVALID_KEY_FORMAT
  | some e => .pure e.2

/-- `memory_memcmp_constant(s, lit, s_length) == 0`: the bytes of the literal, its terminating zero, and what is behind it. -/
def cmpLit (env : Env) (s : Bytes) (lit : String) : P Bool :=
  ⟨[.readLit ((ascii lit).length + 1) s.length], .ok (((ascii lit ++ [0] ++ env.beyond (ascii lit)).take s.length) == s)⟩

/-- `json_parse_bytes`. -/
def parseJson (env : Env) (text : Bytes) : Option Js.Json := (env.yajl text).bind Js.parseBytes

end Sa.Kc

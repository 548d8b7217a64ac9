/-
The key store of the reference implementation, from which the root keys and the device ID come: util/src/pkcs12.c:46-266 and taimpl/src/porting/otp.c:36-143,
234-330 and 630-644.

Opening the file, checking its MAC and unpacking its safes are OpenSSL's: the model starts from the safes that they give (`none`: any of them failed,
pkcs12.c:204-226).  Taking octets for an encrypted key and decrypting it with the password are parameters.  The statics are used without a lock; the model is of one
thread.  Allocations succeed.

`none` stands for undefined behaviour.
-/
import Verif.Model.SafeBag
import Verif.Model.Crypto

namespace Sa.Ks

/-- COMMON_ROOT_NAME, util/include/common.h:71: "commonroot". -/
def commonRoot : Bytes := [99, 111, 109, 109, 111, 110, 114, 111, 111, 116]

/-- The friendly name of a bag: not there, not convertible to UTF-8, or its UTF-8.  That the attribute is a string is not checked (pkcs12.c:93); the model takes it
to be one. -/
inductive Name where
  | absent
  | bad
  | utf8 (b : Bytes)
  deriving DecidableEq

/-- A bag as OpenSSL has it: its name, whether it is a secret bag, and its DER. -/
structure Bag where
  name : Name
  secret : Bool
  der : Bytes

/-- A safe: of an unknown kind, not to be unpacked, or its bags (pkcs12.c:231-240). -/
inductive Safe where
  | unknown
  | shut
  | opened (bags : List Bag)

/-- The part of OpenSSL that is used: `ASN1_item_unpack` to an X509_SIG; `PKCS8_decrypt` with the password and `PKCS8_pkey_get0`. -/
structure Lib (σ : Type) where
  unpack : Bytes → Option σ
  decrypt : σ → Option Bytes

/-- `memcpy(buffer, b, |b|)`. -/
def over (b buffer : Bytes) : Bytes := b ++ buffer.drop b.length

/-- What `load_pkcs12_secret_key` works on: the caller's key, name and lengths, and its own flags `status` and `pkcs12_parse_failed`. -/
structure St where
  key : Bytes
  klen : Nat
  name : Bytes
  nlen : Nat
  status : Bool
  failed : Bool
  deriving DecidableEq

/-- pkcs12.c:93-99: the name is copied if it fits what was last put in `name_length`. -/
def putName (n : Name) (s : St) : St :=
  match n with
  | .utf8 b => if 0 < b.length ∧ b.length ≤ s.nlen then { s with name := over b s.name, nlen := b.length } else { s with nlen := 0 }
  | _ => { s with nlen := 0 }

/-- `parse_pkcs12_safe_bag`, pkcs12.c:46-181, with pointers that are not NULL.  `room`: the size of the caller's key buffer, which the copy at pkcs12.c:164 does not
ask for.  `PKCS8_decrypt` dereferences what `ASN1_item_unpack` gave without a check (pkcs12.c:143-144). -/
def parse {σ : Type} (lib : Lib σ) (room : Nat) (b : Bag) (s : St) : Option (Bool × St) :=
  if b.name = .absent then some (false, s)
  else
    let s := putName b.name s
    if b.secret = false then some (false, s)
    else match Sb.secret b.der with
      | none => none
      | some none => some (false, s)
      | some (some v) =>
        match lib.unpack v with
        | none => none
        | some x =>
          match lib.decrypt x with
          | none => some (false, s)
          | some k => if room < k.length then none else some (true, { s with key := over k s.key, klen := k.length })

/-- pkcs12.c:249: `strncmp` over the 10 characters of "commonroot".  The callers' name buffers have 16 and 50 bytes. -/
def isCommon (name : Bytes) : Bool := name.take 10 == commonRoot

/-- The loop over the bags of a safe, pkcs12.c:242-254. -/
def bagsLoop {σ : Type} (lib : Lib σ) (room : Nat) (common : Bool) : List Bag → St → Option St
  | [], s => some s
  | b :: bs, s =>
    match parse lib room b s with
    | none => none
    | some (ok, s) =>
      let s := { s with failed := !ok }
      if isCommon s.name = common then some { s with status := true }
      else if s.failed then some s
      else bagsLoop lib room common bs s

/-- The loop over the safes, pkcs12.c:229-257.  The `break` at 252 leaves only the inner loop.  `freed`: `pkcs12_safebags` points to a stack that has been released;
a safe of an unknown kind has it released again (pkcs12.c:256). -/
def safesLoop {σ : Type} (lib : Lib σ) (room : Nat) (common : Bool) : List Safe → (freed : Bool) → St → Option St
  | [], _, s => some s
  | f :: fs, freed, s =>
    if s.failed then some s
    else match f with
      | .unknown => if freed then none else some { s with failed := true }
      | .shut => safesLoop lib room common fs false s
      | .opened bags =>
        match bagsLoop lib room common bags s with
        | none => none
        | some s => safesLoop lib room common fs true s

/-- `strncmp(a, b, n) == 0` for strings that end with a NUL or reach up to `n`. -/
def strncmpEq : Nat → Bytes → Bytes → Bool
  | 0, _, _ => true
  | n + 1, a :: as, b :: bs => if a ≠ b then false else if a = 0 then true else strncmpEq n as bs
  | _ + 1, _, _ => false

/-- `load_pkcs12_secret_key`, pkcs12.c:183-266. -/
def load {σ : Type} (lib : Lib σ) (room : Nat) (file : Option (List Safe)) (key : Bytes) (klen : Nat) (name : Bytes) (nlen : Nat) : Option (Bool × St) :=
  let s : St := ⟨key, klen, name, nlen, false, false⟩
  match file with
  | none => some (false, s)
  | some safes =>
    match safesLoop lib room (strncmpEq nlen name (commonRoot ++ [0])) safes false s with
    | none => none
    | some s => some (s.status, s)

/-- The static variables: `key` and `key_length` of `get_root_key` (otp.c:70-71), `device_id` (otp.c:36), `key` and `key_length` of `get_common_root_key`
(otp.c:112-113). -/
structure World where
  dkey : Bytes
  dlen : Nat
  dev : Nat
  ckey : Bytes
  clen : Nat
  deriving DecidableEq

/-- The statics at the start. -/
def World.init : World := ⟨List.replicate 16 0, 0, 0, List.replicate 16 0, 0⟩

/-- `tolower` of an ASCII character. -/
def lower (c : UInt8) : UInt8 := if 65 ≤ c ∧ c ≤ 90 then c + 32 else c

/-- The table of digits, otp.c:41. -/
def lookup : Bytes := [48, 49, 50, 51, 52, 53, 54, 55, 56, 57, 97, 98, 99, 100, 101, 102]

/-- The loop over the characters, otp.c:49-62, with a `uint64_t` value. -/
def convertLoop : Bytes → Nat → Nat
  | [], value => value
  | c :: cs, value =>
    match lookup.findIdx? (· == lower c) with
    | some j => convertLoop cs ((value * 16 + j) % 2 ^ 64)
    | none => 0

/-- `convert_str_to_int`, otp.c:38-65. -/
def convert (s : Bytes) : Nat := if 16 < s.length then 0 else convertLoop s 0

/-- `get_root_key`, otp.c:67-107, with pointers that are not NULL and room for `room` bytes; the key, or `none` for false.  `junk`: what is in `device_name` after its first
byte. -/
def getRoot {σ : Type} (lib : Lib σ) (file : Option (List Safe)) (junk : Bytes) (room : Nat) (w : World) : Option (Option Bytes × World) :=
  let last (w : World) : Option (Option Bytes × World) := if room < w.dlen then some (none, w) else some (some (w.dkey.take w.dlen), w)
  if w.dlen = 0 then
    match load lib 16 file w.dkey w.dlen (0 :: junk.take 15) 16 with
    | none => none
    | some (ok, s) =>
      let w := { w with dkey := s.key, dlen := s.klen }
      if ok = false then some (none, w)
      else
        let w := { w with dev := convert (s.name.take s.nlen) }
        if w.dev = 0 then some (none, w) else last w
  else last w

/-- `get_common_root_key`, otp.c:109-143.  The name buffer has 50 bytes, of which the first eleven are set. -/
def getCommon {σ : Type} (lib : Lib σ) (file : Option (List Safe)) (junk : Bytes) (room : Nat) (w : World) : Option (Option Bytes × World) :=
  let last (w : World) : Option (Option Bytes × World) := if room < w.clen then some (none, w) else some (some (w.ckey.take w.clen), w)
  if w.clen = 0 then
    match load lib 16 file w.ckey w.clen (commonRoot ++ 0 :: junk.take 39) 50 with
    | none => none
    | some (ok, s) =>
      let w := { w with ckey := s.key, clen := s.klen }
      if ok = false then some (none, w) else last w
  else last w

/-- `sa_root_key_type`: UNIQUE or COMMON (taimpl/include/porting/otp.h). -/
inductive Kind where
  | unique
  | common
  deriving DecidableEq

/-- `otp_hw_key_ladder`, otp.c:234-330, over the keys of the key store; `none` in the answer for any status but OK.  `unwrap_aes_ecb_internal` (otp.c:332-407) takes
keys of 16 and of 32 bytes. -/
def ladder {σ : Type} (lib : Lib σ) (p : Prims) (file : Option (List Safe)) (junk : Bytes) (kind : Kind) (k : KeyLadderInputs) (w : World) :
    Option (Option Bytes × World) :=
  match (if kind = .unique then getRoot lib file junk 32 w else getCommon lib file junk 32 w) with
  | none => none
  | some (none, w) => some (none, w)
  | some (some root, w) =>
    if root.length ≠ 16 ∧ root.length ≠ 32 then some (none, w) else some (some (otpHwKeyLadder p root k), w)

/-- `otp_device_id`, otp.c:630-644, and with it `ta_sa_get_device_id` (ta_sa_get_device_id.c:23-45): the ID, with the status OK. -/
def deviceId {σ : Type} (lib : Lib σ) (file : Option (List Safe)) (junk : Bytes) (w : World) : Option (Nat × World) :=
  if w.dev = 0 then
    match getRoot lib file junk 32 w with
    | none => none
    | some (_, w) => some (w.dev, w)
  else some (w.dev, w)

/-- What is done with the key store, each time with the file as it is then. -/
inductive Op where
  | ladder (kind : Kind) (k : KeyLadderInputs)
  | deviceId

/-- What is answered. -/
inductive Ans where
  | derived (key : Option Bytes)
  | id (n : Nat)
  deriving DecidableEq

/-- A request: what the key store file gives at that time, what is left in the name buffers, the operation. -/
structure Req where
  file : Option (List Safe)
  junk : Bytes
  op : Op

/-- One request. -/
def step {σ : Type} (lib : Lib σ) (p : Prims) (r : Req) (w : World) : Option (Ans × World) :=
  match r.op with
  | .ladder kind k => (ladder lib p r.file r.junk kind k w).map fun (a, w) => (.derived a, w)
  | .deviceId => (deviceId lib r.file r.junk w).map fun (n, w) => (.id n, w)

/-- Requests, the first first; their answers. -/
def run {σ : Type} (lib : Lib σ) (p : Prims) : List Req → World → Option (List Ans × World)
  | [], w => some ([], w)
  | r :: rs, w =>
    match step lib p r w with
    | none => none
    | some (a, w) =>
      match run lib p rs w with
      | none => none
      | some (as, w) => some (a :: as, w)

end Sa.Ks

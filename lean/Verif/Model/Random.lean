/-
Random numbers: `rand_bytes` (taimpl/src/porting/rand.c:23-35) and who calls it: `sa_crypto_random` (clientimpl/src/sa_crypto_random.c:24-71, ta.c:1028-1059,
ta_sa_crypto_random.c:23-46), the generation of symmetric keys (symmetric.c:36-87) and the wrapping of keys for the key store (key_store.c:315, 421).

OpenSSL's generator is a stream of bytes, of which each call takes the next ones.  `none` stands for undefined behaviour.
-/
import Verif.Model.KeyMake

namespace Sa.Rnd

/-- The generator: its output; what the calls of `RAND_bytes` return, by number (1 for success, -1 for "not supported", 0 otherwise); whether a negative count is refused (OpenSSL 3)
or taken for a large one (OpenSSL 1.1.1, `drbg_bytes`). -/
structure Gen where
  byte : Nat → UInt8
  ret : Nat → Int
  strict : Bool

/-- Number of calls made and of bytes taken. -/
structure St where
  calls : Nat
  pos : Nat
  deriving DecidableEq

/-- The next `n` bytes from `p` on. -/
def Gen.part (g : Gen) (p n : Nat) : Bytes := (List.range n).map fun i => g.byte (p + i)

/-- `rand_bytes`, rand.c:23-35, into a buffer: result and buffer.  The length becomes an `int`; the result of `RAND_bytes` is only compared with 0. -/
def randBytes (g : Gen) (s : St) (buf : Bytes) : Option (Bool × Bytes × St) :=
  let n := intOfSize (UInt64.ofNat buf.length)
  if n < 0 then if g.strict then some (false, buf, ⟨s.calls + 1, s.pos⟩) else none
  else if g.ret s.calls = 1 then some (true, g.part s.pos n.toNat ++ buf.drop n.toNat, ⟨s.calls + 1, s.pos + n.toNat⟩)
  else if g.ret s.calls = 0 then some (false, buf, ⟨s.calls + 1, s.pos⟩)
  else some (true, buf, ⟨s.calls + 1, s.pos⟩)

/-- What is around a call: the session; the memory of the command and of the parameter; with shared memory, what is in it (of the length asked for). -/
structure Around where
  session : Bool
  memory : Bool
  shared : Option (Nat → Bytes)

/-- `sa_crypto_random`, sa_crypto_random.c:24-71: status and the caller's buffer (`none`: NULL). -/
def cryptoRandom (g : Gen) (a : Around) (s : St) (out : Option Bytes) : Option (Status × Option Bytes × St) :=
  if a.session = false then some (.INTERNAL_ERROR, out, s)
  else match out with
    | none => some (.NULL_PARAMETER, none, s)
    | some o =>
      if a.memory = false then some (.INTERNAL_ERROR, some o, s)
      else if o.length = 0 then some (.NULL_PARAMETER, some o, s)
      else match a.shared with
        | none =>
          match randBytes g s o with
          | none => none
          | some (true, b, s) => some (.OK, some b, s)
          | some (false, b, s) => some (.INTERNAL_ERROR, some b, s)
        | some junk =>
          match randBytes g s (junk o.length) with
          | none => none
          | some (true, b, s) => some (.OK, some b, s)
          | some (false, _, s) => some (.INTERNAL_ERROR, some o, s)

/-- What a key in the store is made of: for generated keys the key; the inputs of the key ladders for wrapping and integrity; the IV. -/
structure Made where
  key : Option Bytes
  inputs : Bytes
  iv : Bytes
  deriving DecidableEq

/-- Storing a key: `key_store_import_stored_key` and `wrapped_key_create`, key_store.c:421, 315.  `junk`: what is in memory. -/
def store (g : Gen) (junk : Nat → Bytes) (s : St) (key : Option Bytes) : Option (Option Made × St) :=
  match randBytes g s (junk 96) with
  | none => none
  | some (false, _, s) => some (none, s)
  | some (true, inputs, s) =>
    match randBytes g s (junk 16) with
    | none => none
    | some (false, _, s) => some (none, s)
    | some (true, iv, s) => some (some ⟨key, inputs, iv⟩, s)

/-- Generating a symmetric key: ta_sa_key_generate.c:65-68, symmetric.c:36-87, and storing it. -/
def generate (g : Gen) (junk : Nat → Bytes) (s : St) (length : Nat) : Option (Option Made × St) :=
  if length < 16 ∨ 512 < length then some (none, s)
  else match randBytes g s (junk length) with
    | none => none
    | some (false, _, s) => some (none, s)
    | some (true, key, s) => store g junk s (some key)

/-- Requests. -/
inductive Op where
  | random (a : Around) (out : Option Bytes)
  | generate (length : Nat)
  | store

/-- Their answers. -/
inductive Ans where
  | random (s : Status) (out : Option Bytes)
  | made (m : Option Made)
  deriving DecidableEq

/-- A request, with what is in memory. -/
def step (g : Gen) (junk : Nat → Bytes) (s : St) : Op → Option (Ans × St)
  | .random a out =>
    match cryptoRandom g a s out with
    | none => none
    | some (st, o, s) => some (.random st o, s)
  | .generate n => (generate g junk s n).map fun (m, s) => (.made m, s)
  | .store => (store g junk s none).map fun (m, s) => (.made m, s)

/-- Requests one after the other. -/
def run (g : Gen) : List (Op × (Nat → Bytes)) → St → Option (List Ans × St)
  | [], s => some ([], s)
  | (op, junk) :: ops, s =>
    match step g junk s op with
    | none => none
    | some (a, s) =>
      match run g ops s with
      | none => none
      | some (as, s) => some (a :: as, s)

end Sa.Rnd

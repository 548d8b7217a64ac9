import Verif.Model.KeyType
import Verif.Model.ProviderExch

/-!
# Loading keys and key exchange with the OpenSSL 1.1 engine (`client/src/sa_engine_pkey.c`, `sa_engine_pkey_data.c`)

`ENGINE_load_private_key` with the engine gives an `EVP_PKEY` whose key structure of OpenSSL (`RSA`, `EC_KEY`, `DH`, `ECX_KEY`) has been moved to a larger block of
memory that also holds the handle of the key of the API.  The API is a parameter; its state may change between the operations.  Which calls fail is
part of an operation.  Of OpenSSL 1.1.1 are modelled the references and blocks of memory, the checks of `EVP_PKEY_derive_set_peer`, and that
a method with `EVP_PKEY_FLAG_AUTOARGLEN` is called only with room for `EVP_PKEY_size` bytes.
-/

namespace Sa.Ekey

open Sa.Px (PKEY_DH PKEY_EC PKEY_X25519 PKEY_X448)

/-! More key types: evp.h, obj_mac.h, sa_engine_internal.h:41. -/
def PKEY_RSA : Nat := 6
def PKEY_ED25519 : Nat := 1087
def PKEY_ED448 : Nat := 1088
def PKEY_SYM : Nat := 0x83655100

/-- `MAX_KEY_DATA_LEN`, sa_engine_internal.h:46. -/
def MAX_KEY_DATA_LEN : Nat := 512

/-- A public key as OpenSSL reads it: its type, `EVP_PKEY_size`, `malloc_usable_size` of its structure, and its encoding. -/
structure Pub where
  type : Nat
  bytes : Nat
  size : Nat
  der : List UInt8
  deriving DecidableEq

/-- The API: the type in the header of a key (`none`: `sa_key_header` fails), the public key (`none`: `sa_get_public_key` fails, sa_public_key.c:176-214), and
`sa_key_exchange`. -/
structure Api (ω : Type) where
  type : ω → Nat → Option Nat
  pub : ω → Nat → Option Pub
  exchange : ω → Rights → Nat → Nat → List UInt8 → ω × Option Nat

/-- A key structure: the public key in it (`none`: a symmetric key), and the handle if it is in a `pkey_data`, sa_engine_internal.h:48-53. -/
structure Obj where
  pub : Option Pub
  handle : Option Nat
  deriving DecidableEq

/-- An `EVP_PKEY`. -/
structure Pkey where
  type : Nat
  obj : Option Obj
  engine : Bool
  deriving DecidableEq

/-- What is allocated: `EVP_PKEY`s, key structures, the numbers in structures, and references to the engine. -/
structure Heap where
  pkeys : Int
  objs : Int
  contents : Int
  engines : Int
  deriving DecidableEq

/-- Structures of RSA, EC and DH keys point to numbers; those of the other curves and symmetric keys hold the key. -/
def numbers (type : Nat) : Int := if type = PKEY_RSA ∨ type = PKEY_EC ∨ type = PKEY_DH then 1 else 0

/-- Calls that succeed, in order: `EVP_PKEY_new_raw_private_key`, `EVP_PKEY_get1_…` or `EVP_PKEY_get0`, `EVP_PKEY_new`, `OPENSSL_malloc`, `EVP_PKEY_assign`, `EVP_PKEY_set1_engine`. -/
structure Calls where
  raw : Bool := true
  get : Bool := true
  new : Bool := true
  malloc : Bool := true
  assign : Bool := true
  engine : Bool := true
  deriving DecidableEq

/-- What `sa_set_pkey_data` leaves: the `EVP_PKEY` (`none`: NULL) and its result; or the structure did not fit. -/
inductive Set'
  | done (m : Heap) (p : Option Pkey) (ok : Bool)
  | damaged

/-- `sa_set_pkey_data`, sa_engine_pkey_data.c:66-173, for a key structure `o` in an `EVP_PKEY` without engine, or with it if it is symmetric.  `EVP_PKEY_free` gives back the reference of the
`EVP_PKEY`, `EVP_PKEY_get1_…` took one; the structure is moved, with its numbers, and if assigning fails the new block is released without them.
`EVP_PKEY_assign` releases the structure that was there (that of the other curves) and fails for NULL; that it fails for the other curves is allowed here, and then leaves the key as it was. -/
def setPkeyData (ok : Calls) (m : Heap) (p : Pkey) (o : Obj) (h : Nat) : Set' :=
  if p.type = PKEY_RSA ∨ p.type = PKEY_EC ∨ p.type = PKEY_DH then
    if !ok.get then .done m (some p) false
    else
      let q : Option Pkey := if ok.new then some ⟨0, none, false⟩ else none
      let m := if ok.new then m else { m with pkeys := m.pkeys - 1 }
      if !ok.malloc then .done m q false
      else if MAX_KEY_DATA_LEN < (o.pub.map (·.size)).getD 0 then .damaged
      else match q with
        | none => .done { m with objs := m.objs - 1 } none false
        | some q =>
          if !ok.assign then .done { m with objs := m.objs - 1 } (some q) false
          else .done m (some { q with type := p.type, obj := some { o with handle := some h } }) true
  else if p.type = PKEY_ED25519 ∨ p.type = PKEY_ED448 ∨ p.type = PKEY_X25519 ∨ p.type = PKEY_X448 then
    if !ok.get then .done m (some p) false
    else if !ok.malloc then .done m (some p) false
    else if MAX_KEY_DATA_LEN < (o.pub.map (·.size)).getD 0 then .damaged
    else if !ok.assign then .done m (some p) false
    else .done m (some { p with obj := some { o with handle := some h } }) true
  else if p.type = PKEY_SYM then
    if !ok.get then .done m (some p) false
    else .done m (some { p with obj := some { o with handle := some h } }) true
  else .done m (some p) false

/-- What `sa_load_engine_private_pkey` returns; `none` is NULL. -/
inductive Loaded
  | key (m : Heap) (p : Option Pkey)
  | damaged
  | null

/-- `EVP_PKEY_set1_engine`, and returning the key whether or not it succeeds, sa_engine_pkey.c:1300-1321. -/
def finish (ok : Calls) : Set' → Loaded
  | .damaged => .damaged
  | .done m p false => .key m p
  | .done m none true => .key m none
  | .done m (some p) true =>
    if !ok.engine then .key m (some p)
    else .key { m with engines := m.engines + if p.engine then 0 else 1 } (some { p with engine := true })

/-- `sa_load_engine_private_pkey`, sa_engine_pkey.c:1268-1322; `v11`: OpenSSL 1.1.  Before, the key stays NULL for a symmetric key and `EVP_PKEY_id` follows it.
A raw private key is made with the engine, whose `pkey_asn1_set_priv_key`, sa_engine_pkey_asn1_method.c:80-119, copies the data. -/
def load (api : Api ω) (w : ω) (v11 : Bool) (ok : Calls) (m : Heap) (h : Nat) : Loaded :=
  match api.type w h with
  | none => .key m none
  | some t =>
    if t ≠ KEY_TYPE_SYMMETRIC then
      match api.pub w h with
      | none => .key m none
      | some p =>
        finish ok (setPkeyData ok { m with pkeys := m.pkeys + 1, objs := m.objs + 1, contents := m.contents + numbers p.type } ⟨p.type, some ⟨some p, none⟩, false⟩ ⟨some p, none⟩ h)
    else if !v11 then .null
    else if !ok.raw then .key m none
    else finish ok (setPkeyData ok { m with pkeys := m.pkeys + 1, objs := m.objs + 1, engines := m.engines + 1 } ⟨PKEY_SYM, some ⟨none, none⟩, true⟩ ⟨none, none⟩ h)

/-- `EVP_PKEY_free`: the structure with its numbers, the reference to the engine. -/
def free (m : Heap) (p : Pkey) : Heap :=
  { pkeys := m.pkeys - 1
    objs := m.objs - if p.obj.isSome then 1 else 0
    contents := m.contents - if p.obj.isSome then numbers p.type else 0
    engines := m.engines - if p.engine then 1 else 0 }

/-! ## Key exchange -/

/-- A peer's key: its type, whether its parameters (curve, group) are those of the key, and what `i2d_PUBKEY` makes of it (`none`: it fails). -/
structure Peer where
  type : Nat
  same : Bool
  der : Option (List UInt8)
  deriving DecidableEq

/-- What deriving does: give a length, store the handle of a new key, fail, write behind the buffer, follow NULL, or leave it to OpenSSL's own methods. -/
inductive Ret
  | length (n : Nat)
  | secret (h : Nat)
  | fail
  | overflow
  | null
  | own
  deriving DecidableEq

/-- `pkey_pderive`, sa_engine_pkey.c:975-1079, without NULL arguments; `room`: `none` when the buffer is NULL, or its size, which the function does not look at. -/
def pderive (api : Api ω) (w : ω) (p : Pkey) (peer : Option Peer) (room : Option Nat) : ω × Ret :=
  match room with
  | none => (w, .length 8)
  | some n => match peer with
    | none => (w, .fail)
    | some q =>
      if q.type ≠ p.type then (w, .fail)
      else match Px.algOf p.type with
        | none => (w, .fail)
        | some alg => match q.der with
          | none => (w, .fail)
          | some der => match p.obj.bind (·.handle) with
            | none => (w, .null)
            | some h => match api.exchange w rightsAllowAll alg h der with
              | (w, none) => (w, .fail)
              | (w, some x) => (w, if n < 8 then .overflow else .secret x)

/-- `EVP_PKEY_derive_init`, `EVP_PKEY_derive_set_peer` (left out if `peer` is `none`) and `EVP_PKEY_derive` of OpenSSL 1.1.1 with `pkey_pderive_init`, sa_engine_pkey.c:955-972, `pkey_ctrl` and
the methods of sa_engine_pkey.c:1354-1412: that of EC is without `EVP_PKEY_FLAG_AUTOARGLEN`. -/
def derive (api : Api ω) (w : ω) (p : Pkey) (peer : Option Peer) (room : Option Nat) : ω × Ret :=
  if !p.engine then (w, .own)
  else if (Px.algOf p.type).isNone then (w, .fail)
  else if (peer.map fun q => q.type != p.type || !q.same).getD false then (w, .fail)
  else if p.type = PKEY_EC then pderive api w p peer room
  else
    let bytes := ((p.obj.bind (·.pub)).map (·.bytes)).getD 0
    match room with
    | none => (w, .length bytes)
    | some n => if n < bytes then (w, .fail) else pderive api w p peer (some n)

/-! ## Many operations -/

structure World (ω : Type) where
  api : ω
  keys : List (Option Pkey)
  heap : Heap

def empty (w : ω) : World ω := ⟨w, [], ⟨0, 0, 0, 0⟩⟩

/-- Operations of the application; `other`: whatever is done with the API. -/
inductive Op (ω : Type)
  | load (h : Nat) (ok : Calls)
  | free (i : Nat)
  | derive (i : Nat) (peer : Option Peer) (room : Option Nat)
  | other (f : ω → ω)

inductive Ans
  | loaded (i : Nat)
  | null
  | ok
  | ret (r : Ret)
  | crash
  | invalid
  deriving DecidableEq

/-- An operation; one on a key that there is not is the application's mistake and does nothing here.  After a crash nothing is said of the world. -/
def step (api : Api ω) (v11 : Bool) (w : World ω) : Op ω → World ω × Ans
  | .load h ok => match load api w.api v11 ok w.heap h with
    | .damaged => (w, .crash)
    | .null => (w, .crash)
    | .key m none => ({ w with keys := w.keys ++ [none], heap := m }, .null)
    | .key m (some p) => ({ w with keys := w.keys ++ [some p], heap := m }, .loaded w.keys.length)
  | .free i => match w.keys[i]? with
    | some (some p) => ({ w with keys := w.keys.set i none, heap := free w.heap p }, .ok)
    | _ => (w, .invalid)
  | .derive i peer room => match w.keys[i]? with
    | some (some p) => ({ w with api := (derive api w.api p peer room).1 }, .ret (derive api w.api p peer room).2)
    | _ => (w, .invalid)
  | .other f => ({ w with api := f w.api }, .ok)

/-- Many operations, the first first, with their answers. -/
def run (api : Api ω) (v11 : Bool) (w : World ω) : List (Op ω) → World ω × List Ans
  | [] => (w, [])
  | op :: ops =>
    let r := step api v11 w op
    let q := run api v11 r.1 ops
    (q.1, r.2 :: q.2)

/-- What can be seen of a key: its public part, as `i2d_PUBKEY` gives it, and whose methods with which handle its operations use (`none`: OpenSSL's own). -/
def pubAt (w : World ω) (i : Nat) : Option (List UInt8) := (w.keys[i]?.join.bind fun p => p.obj.bind (·.pub)).map (·.der)

def usesAt (w : World ω) (i : Nat) : Option Nat :=
  w.keys[i]?.join.bind fun p => if p.engine then p.obj.bind (·.handle) else none

end Sa.Ekey

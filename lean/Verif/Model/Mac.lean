import Verif.Model.ObjectStore
import Verif.Model.StoredKey

/-!
# MAC contexts (`taimpl/src/internal/hmac_context.c`, `cmac_context.c`, `mac_store.c`, `taimpl/src/ta_sa_crypto_mac_*.c`)

The MAC store holds pointers to `mac_t` objects: the store is an `ObjectStore Nat` and the objects are in a heap.  The session has been
acquired by the caller; `key_store_unwrap` (modelled in `KeyStore`) is a parameter: its status and the key it hands out.  The calls are
executed one after the other: a `mac_t` is locked while it is used (mac_store.c:301-304).
-/

namespace Sa

/-! `sa_mac_algorithm`, sa_types.h:194-199. -/
def MAC_CMAC : Nat := 0
def MAC_HMAC : Nat := 1

/-- `digest_length`, util/src/digest_util.c:85-102; `none` is `SIZE_MAX`. -/
def digestLength (digest : Nat) : Option Nat :=
  match digest with
  | 0 => some 20
  | 1 => some 32
  | 2 => some 48
  | 3 => some 64
  | _ => none

/-- Which MAC OpenSSL is asked for: HMAC with a digest, or AES-CMAC. -/
inductive MacKind where
  | hmac (digest : Nat)
  | cmac
  deriving DecidableEq, Repr

/-- OpenSSL's MAC functions: `EVP_MAC_init` (or failure of anything in `*_context_create`), `EVP_MAC_update` (state and whether it
succeeded) and `EVP_MAC_final`. -/
structure MacPrim (σ : Type) where
  create : MacKind → Bytes → Option σ
  update : σ → Bytes → σ × Bool
  final : σ → σ × Option Bytes

/-- `struct mac_s`, mac_store.c:25-30, with its `hmac_context_s` (hmac_context.c:30-38) or `cmac_context_s` (cmac_context.c:33-40). -/
structure MacObj (σ : Type) where
  kind : MacKind
  done : Bool
  ctx : σ

/-- The session's MAC contexts. -/
structure MacWorld (σ : Type) where
  store : ObjectStore Nat
  heap : Nat → Option (MacObj σ)
  /-- the next fresh pointer -/
  next : Nat

variable {σ : Type}

/-- Calls.  `key` is what `key_store_unwrap` gives for the key handle of the call; `digest` is `parameters->digest_algorithm`, `none` is a
NULL `parameters`; `env`: the clock and the
video output when the rights are checked; `allocOk`: `mac_allocate` succeeds; `input` `none` is NULL with a positive length; `out` `none` is NULL, otherwise the value
of `*out_length`. -/
inductive MacOp where
  | init (alg : Nat) (digest : Option Nat) (key : Status × Option StoredKey) (env : RightsEnv) (allocOk : Bool) (caller : Uuid)
  | process (context : Nat) (input : Option Bytes) (caller : Uuid)
  | processKey (context : Nat) (key : Status × Option StoredKey) (caller : Uuid)
  | compute (context : Nat) (out : Option Nat) (caller : Uuid)
  | release (context : Nat) (caller : Uuid)

/-- What the caller gets. -/
structure MacResp where
  status : Status
  handle : Nat := SLOT_INVALID
  outLength : Option Nat := none
  out : Option Bytes := none
  deriving DecidableEq, Repr

/-- `mac_store_add_hmac_context`/`mac_store_add_cmac_context`, mac_store.c:139-235. -/
def macStoreAdd (w : MacWorld σ) (o : MacObj σ) (allocOk : Bool) (caller : Uuid) : MacWorld σ × MacResp :=
  if !allocOk then (w, ⟨.INTERNAL_ERROR, SLOT_INVALID, none, none⟩)
  else
    let r := objectStoreAdd w.store w.next caller
    if r.2.1 ≠ .OK then ({ w with store := r.1 }, ⟨r.2.1, r.2.2, none, none⟩)
    else ({ store := r.1, heap := fun x => if x = w.next then some o else w.heap x, next := w.next + 1 }, ⟨.OK, r.2.2, none, none⟩)

/-- `ta_sa_crypto_mac_init`, ta_sa_crypto_mac_init.c:27-245 (the HMAC branch 27-116, the CMAC branch 118-191). -/
def macInit (p : MacPrim σ) (w : MacWorld σ) (alg : Nat) (digest : Option Nat) (key : Status × Option StoredKey)
    (env : RightsEnv) (allocOk : Bool) (caller : Uuid) : MacWorld σ × MacResp :=
  let fail s : MacWorld σ × MacResp := (w, ⟨s, SLOT_INVALID, none, none⟩)
  if alg = MAC_HMAC then
    match digest with
    | none => fail .NULL_PARAMETER
    | some d =>
      if key.1 ≠ .OK then fail key.1
      else match key.2 with
        | none => fail .NULL_PARAMETER
        | some sk =>
          if !rightsAllowedSign env sk.header.rights then fail .OPERATION_NOT_ALLOWED
          else if !keyTypeSupportsHmac sk.header.type.toNat sk.header.size.toNat then fail .INVALID_KEY_TYPE
          else if d > 3 then fail .INVALID_PARAMETER
          else match p.create (.hmac d) sk.key with
            | none => fail .INTERNAL_ERROR
            | some ctx => macStoreAdd w ⟨.hmac d, false, ctx⟩ allocOk caller
  else if alg = MAC_CMAC then
    if key.1 ≠ .OK then fail key.1
    else match key.2 with
      | none => fail .NULL_PARAMETER
      | some sk =>
        if !rightsAllowedSign env sk.header.rights then fail .OPERATION_NOT_ALLOWED
        else if !keyTypeSupportsAes sk.header.type.toNat sk.header.size.toNat then fail .INVALID_KEY_TYPE
        else match p.create .cmac sk.key with
          | none => fail .INTERNAL_ERROR
          | some ctx => macStoreAdd w ⟨.cmac, false, ctx⟩ allocOk caller
  else fail .INVALID_PARAMETER

/-- `hmac_context_update`, hmac_context.c:159-194, and `cmac_context_update`, cmac_context.c:134-169. -/
def macContextUpdate (p : MacPrim σ) (m : MacObj σ) (input : Option Bytes) : MacObj σ × Status :=
  if m.done then (m, .OPERATION_NOT_ALLOWED)
  else match input with
    | none => (m, .NULL_PARAMETER)
    | some bs =>
      if bs.length > 0 then
        let r := p.update m.ctx bs
        ({ m with ctx := r.1 }, if r.2 then .OK else .INTERNAL_ERROR)
      else (m, .OK)

/-- `hmac_context_update_key`, hmac_context.c:196-235, and `cmac_context_update_key`, cmac_context.c:171-214 (which skips an empty
key). -/
def macContextUpdateKey (p : MacPrim σ) (m : MacObj σ) (key : Bytes) : MacObj σ × Status :=
  if m.done then (m, .OPERATION_NOT_ALLOWED)
  else if m.kind = .cmac ∧ ¬ key.length > 0 then (m, .OK)
  else
    let r := p.update m.ctx key
    ({ m with ctx := r.1 }, if r.2 then .OK else .INTERNAL_ERROR)

/-- The length of the MAC: `digest_length` for HMAC, `AES_BLOCK_SIZE` for CMAC. -/
def MacKind.length : MacKind → Option Nat
  | .hmac d => digestLength d
  | .cmac => some 16

/-- `hmac_context_compute`, hmac_context.c:237-284, and `cmac_context_compute`, cmac_context.c:216-249, called with an output buffer that is
long enough. -/
def macContextCompute (p : MacPrim σ) (m : MacObj σ) : MacObj σ × Status × Option Bytes :=
  if m.done then (m, .OPERATION_NOT_ALLOWED, none)
  else
    let r := p.final m.ctx
    ({ m with done := true, ctx := r.1 }, if r.2.isSome then .OK else .INTERNAL_ERROR, r.2)

/-- The common frame of the calls on a context: `mac_store_acquire_exclusive`, a body working on the object, `mac_store_release_exclusive`.
`none`: the pointer in the store is dangling. -/
def withMac (w : MacWorld σ) (context : Nat) (caller : Uuid) (body : MacObj σ → MacObj σ × MacResp) : Option (MacWorld σ × MacResp) :=
  match objectStoreAcquire w.store context caller with
  | (st1, .OK, some ptr) =>
    match w.heap ptr with
    | none => none
    | some m =>
      let r := body m
      some ({ w with store := (objectStoreRelease st1 context ptr caller).1, heap := fun x => if x = ptr then some r.1 else w.heap x }, r.2)
  | (st1, status, _) => some ({ w with store := st1 }, ⟨status, SLOT_INVALID, none, none⟩)

/-- `ta_sa_crypto_mac_process`, ta_sa_crypto_mac_process.c:24-100. -/
def macProcess (p : MacPrim σ) (w : MacWorld σ) (context : Nat) (input : Option Bytes) (caller : Uuid) : Option (MacWorld σ × MacResp) :=
  if input = none then some (w, ⟨.NULL_PARAMETER, SLOT_INVALID, none, none⟩)
  else withMac w context caller fun m =>
    if m.done then (m, ⟨.INVALID_PARAMETER, SLOT_INVALID, none, none⟩)
    else let r := macContextUpdate p m input; (r.1, ⟨r.2, SLOT_INVALID, none, none⟩)

/-- `ta_sa_crypto_mac_process_key`, ta_sa_crypto_mac_process_key.c:25-117. -/
def macProcessKey (p : MacPrim σ) (w : MacWorld σ) (context : Nat) (key : Status × Option StoredKey) (caller : Uuid) :
    Option (MacWorld σ × MacResp) :=
  withMac w context caller fun m =>
    let fail s : MacObj σ × MacResp := (m, ⟨s, SLOT_INVALID, none, none⟩)
    if key.1 ≠ .OK then fail key.1
    else match key.2 with
      | none => fail .NULL_PARAMETER
      | some sk =>
        if sk.header.type.toNat ≠ KEY_TYPE_SYMMETRIC then fail .INVALID_PARAMETER
        else if m.done then fail .INVALID_PARAMETER
        else let r := macContextUpdateKey p m sk.key; (r.1, ⟨r.2, SLOT_INVALID, none, none⟩)

/-- `ta_sa_crypto_mac_compute`, ta_sa_crypto_mac_compute.c:27-137. -/
def macCompute (p : MacPrim σ) (w : MacWorld σ) (context : Nat) (out : Option Nat) (caller : Uuid) : Option (MacWorld σ × MacResp) :=
  withMac w context caller fun m =>
    match out with
    | none => match m.kind.length with
      | none => (m, ⟨.INVALID_PARAMETER, SLOT_INVALID, none, none⟩)
      | some n => (m, ⟨.OK, SLOT_INVALID, some n, none⟩)
    | some outLength =>
      if m.done then (m, ⟨.INVALID_PARAMETER, SLOT_INVALID, none, none⟩)
      else match m.kind.length with
        | none => (m, ⟨.INVALID_PARAMETER, SLOT_INVALID, none, none⟩)
        | some n =>
          if outLength < n then (m, ⟨.INVALID_PARAMETER, SLOT_INVALID, none, none⟩)
          else let r := macContextCompute p m; (r.1, ⟨r.2.1, SLOT_INVALID, some n, r.2.2⟩)

/-- `ta_sa_crypto_mac_release`, ta_sa_crypto_mac_release.c:23-60: `mac_store_remove`, whose destructor is `mac_free`
(mac_store.c:85-100).  `none`: the call does not return. -/
def macRelease (w : MacWorld σ) (context : Nat) (caller : Uuid) : Option (MacWorld σ × MacResp) :=
  match objectStoreRemove w.store context caller with
  | .returned st status freed =>
    some ({ w with store := st, heap := fun x => if some x = freed then none else w.heap x }, ⟨status, SLOT_INVALID, none, none⟩)
  | .blocks _ => none

/-- One call. -/
def macStep (p : MacPrim σ) (w : MacWorld σ) : MacOp → Option (MacWorld σ × MacResp)
  | .init alg digest key env allocOk u => some (macInit p w alg digest key env allocOk u)
  | .process h input u => macProcess p w h input u
  | .processKey h key u => macProcessKey p w h key u
  | .compute h out u => macCompute p w h out u
  | .release h u => macRelease w h u

/-- A sequence of calls: the final world and the list of calls with their responses. -/
def macRun (p : MacPrim σ) (w : MacWorld σ) : List MacOp → Option (MacWorld σ × List (MacOp × MacResp))
  | [] => some (w, [])
  | op :: ops =>
    match macStep p w op with
    | none => none
    | some (w1, r) => match macRun p w1 ops with
      | none => none
      | some (w2, rs) => some (w2, (op, r) :: rs)

/-- The MAC store of a new session (`mac_store_init`, mac_store.c:125-133). -/
def macNew (σ : Type) (slots : Nat) : Option (MacWorld σ) := (objectStoreInit Nat slots).map fun st => ⟨st, fun _ => none, 0⟩

end Sa

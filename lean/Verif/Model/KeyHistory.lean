import Verif.Model.KeyStore

/-!
# Histories of calls on one key store

The device (its primitives and root keys, `Prims`) is the same for the whole history; everything else in the environment may
differ from call to call.
-/

namespace Sa

/-- A call on the key store. -/
inductive KsOp where
  /-- any function that makes a key: `stored_key_create` followed by `key_store_import_stored_key` (ta_sa_key_import.c:63-90,
  ta_sa_key_derive.c, ta_sa_key_exchange.c, ta_sa_key_generate.c, ta_sa_key_unwrap.c) -/
  | create (env : Env) (rights : Rights) (parent : Option Rights) (keyType : Nat) (tp : Vector UInt8 1040) (size : Nat)
      (key : Bytes) (caller : Uuid)
  | importExported (env : Env) (bytes : Bytes) (caller : Uuid)
  | unwrap (env : Env) (key : Nat) (caller : Uuid)
  | header (key : Nat) (caller : Uuid)
  | export (env : Env) (key : Nat) (mixin : Option Bytes) (out : Option Bytes) (outLength : Nat) (caller : Uuid)
  | remove (key : Nat) (caller : Uuid)

/-- What the caller observes. -/
inductive KsResp where
  | imported (status : Status) (key : Nat)
  | unwrapped (status : Status) (key : Option StoredKey)
  | header (status : Status) (header : Option Header)
  | exported (status : Status) (outLength : Nat) (out : Option Bytes)
  | removed (status : Status)
  /-- the call does not return -/
  | waits

/-- Execute one call (dispatch to stored_key.c:75-160 and key_store.c:379-830); `none`: memory error. -/
def ksStep (p : Prims) (st : KeyStore) : KsOp → Option (KeyStore × KsResp)
  | .create env rights parent keyType tp size key caller =>
    match storedKeyCreate (env.ok .storedKeyAlloc) rights parent keyType tp size key with
    | (.OK, some sk) =>
      let r := keyStoreImportStoredKey { env with prims := p } st sk caller
      some (r.1, .imported r.2.1 r.2.2)
    | (s, _) => some (st, .imported s SLOT_INVALID)
  | .importExported env bytes caller =>
    (keyStoreImportExported { env with prims := p } st bytes caller).map fun r => (r.1, .imported r.2.1 r.2.2)
  | .unwrap env key caller =>
    (keyStoreUnwrap { env with prims := p } st key caller).map fun r => (r.1, .unwrapped r.2.1 r.2.2)
  | .header key caller => let r := keyStoreGetHeader st key caller; some (r.1, .header r.2.1 r.2.2)
  | .export env key mixin out outLength caller =>
    (keyStoreExport { env with prims := p } st key mixin out outLength caller).map fun r =>
      (r.store, .exported r.status r.outLength r.out)
  | .remove key caller =>
    match keyStoreRemove st key caller with
    | .returned st' s _ => some (st', .removed s)
    | .blocks st' => some (st', .waits)

/-- Lengths fit in memory: byte strings are shorter than 2^64, and the length passed for an output buffer is its length. -/
def KsOp.Fits : KsOp → Prop
  | .create _ _ _ _ _ _ key _ => key.length + 16 < 2 ^ 64
  | .importExported _ bytes _ => bytes.length < 2 ^ 64
  | .export _ _ _ out outLength _ => ∀ b, out = some b → b.length = outLength
  | _ => True

/-- Store after a history; `none`: a memory error occurred. -/
def ksAfter (p : Prims) (st : KeyStore) : List KsOp → Option KeyStore
  | [] => some st
  | op :: ops => match ksStep p st op with
    | none => none
    | some r => ksAfter p r.1 ops

/-- A key store reached from an empty one (of `n` handles, key_store.c:365-377) by any history on device `p`. -/
def KsReachable (p : Prims) (st : KeyStore) : Prop :=
  ∃ n st0 ops, n < 2 ^ 64 ∧ objectStoreInit WrappedKey n = some st0 ∧ (∀ op ∈ ops, KsOp.Fits op) ∧ ksAfter p st0 ops = some st

end Sa

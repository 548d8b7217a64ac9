import Verif.Model.Basic

/-!
# Keys of the OpenSSL 3 provider and the contexts that use them

`client/src/sa_provider_keymgt.c` (`keymgmt_new`, `_free`, `_dup`, `_import`, `_gen`) and the functions that make, copy and free contexts in
`client/src/sa_provider_signature.c`, `sa_provider_keyexch.c` and `sa_provider_asym_cipher.c`: who holds which key data, and which keys of the
API are released.  The application uses them through OpenSSL, which makes new key data for every import (`evp_keymgmt_util_fromdata`) and a new
context for every initialisation (`evp_pkey_ctx_free_old_ops`), so that `keymgmt_import` sees key data that are new and `*_init` contexts that
are.  What the API answers is part of an operation.  Failing allocations are left out.
-/

namespace Sa.Pk

/-- `sa_provider_key_data`, sa_provider_internal.h:37-46: `private_key` (`none`: `INVALID_HANDLE`), `reference_count` and `delete_key`. -/
structure KeyData where
  refs : Nat
  key : Option Nat
  own : Bool
  deriving DecidableEq

/-- How a context was initialised: `EVP_PKEY_sign_init`/`verify_init`, `EVP_DigestSignInit`/`VerifyInit` with a digest, the same for Ed25519 and
Ed448 (no digest), `EVP_PKEY_derive_init`, `EVP_PKEY_encrypt_init`/`decrypt_init`. -/
inductive Kind
  | sign | digest | edwards | derive | cipher
  deriving DecidableEq

/-- `sa_provider_signature_context`, sa_provider_signature.c:40-48, `sa_provider_keyexch_context`, sa_provider_keyexch.c:33-37, and
`sa_provider_asym_cipher_context`, sa_provider_asym_cipher.c:40-49: the key data they point to, whether there is an `evp_md_ctx`, and
`oaep_label_length`.  Only the second has a peer. -/
structure Ctx where
  kind : Kind
  key : Option Nat
  peer : Option Nat
  mdCtx : Bool
  label : Nat
  deriving DecidableEq

/-- What the application holds: an `EVP_PKEY` with its key data, an `EVP_PKEY_CTX` with its context, or an `EVP_PKEY_CTX` whose context is
memory that has been freed. -/
inductive Obj
  | pkey (addr : Nat)
  | ctx (c : Ctx)
  | dangling
  deriving DecidableEq

/-- `heap`: the key data by address, `none` when freed.  `objs`: what the application holds or held, by the order of creation.  `released`: the
keys given to `sa_key_release` by the provider. -/
structure World where
  heap : List (Option KeyData)
  objs : List (Option Obj)
  released : List Nat
  deriving DecidableEq

def empty : World := { heap := [], objs := [], released := [] }

/-- Memory that has been freed is used, or NULL is. -/
inductive Fault
  | freed | null
  deriving DecidableEq

/-- What the API answers about a key: `sa_get_public_key` and `sa_key_header` succeed. -/
structure Reply where
  pub : Bool
  header : Bool
  deriving DecidableEq

/-- Operations of the application. -/
inductive Op
  /-- `EVP_PKEY_fromdata` with `OSSL_PARAM_SA_KEY` and perhaps `OSSL_PARAM_SA_KEY_DELETE` -/
  | lend (h : Nat) (delete : Option Bool) (r : Reply)
  /-- `EVP_PKEY_fromdata` with a private key in the clear; what `sa_key_import` gives -/
  | raw (h : Option Nat) (delete : Option Bool) (r : Reply)
  /-- `EVP_PKEY_fromdata` with a public key -/
  | pub
  /-- `EVP_PKEY_generate`; what `sa_key_generate` gives -/
  | gen (h : Option Nat) (r : Reply)
  /-- `EVP_PKEY_dup` -/
  | dupKey (i : Nat)
  /-- `EVP_PKEY_CTX_new` and an initialisation; `label` is the OAEP label that is set -/
  | init (i : Nat) (k : Kind) (label : Nat)
  /-- `EVP_DigestSignInit` with a digest that cannot be fetched, or with a digest for Ed25519 or Ed448 -/
  | initBad (i : Nat)
  /-- `EVP_PKEY_derive_set_peer` -/
  | setPeer (c i : Nat)
  /-- `EVP_PKEY_CTX_dup`, `EVP_MD_CTX_copy`; also the first part of `EVP_DigestSignFinal` and `EVP_DigestVerifyFinal` -/
  | dupCtx (c : Nat)
  /-- the operation itself: sign, update, derive, encrypt, decrypt -/
  | use (c : Nat)
  /-- `EVP_PKEY_free`, `EVP_PKEY_CTX_free` -/
  | free (i : Nat)
  deriving DecidableEq

/-- `keymgmt_new`, sa_provider_keymgt.c:207-233, with what is stored into it, given to the application. -/
def newKey (w : World) (key : Option Nat) (own : Bool) : World :=
  { w with heap := w.heap ++ [some { refs := 1, key := key, own := own }], objs := w.objs ++ [some (.pkey w.heap.length)] }

/-- `sa_provider_key_data_dup`, sa_provider_keymgt.c:1080-1083, of a pointer that may be NULL. -/
def dupData (w : World) : Option Nat → Except Fault World
  | none => .error .null
  | some a => match w.heap[a]? with
    | some (some d) => .ok { w with heap := w.heap.set a (some { d with refs := d.refs + 1 }) }
    | _ => .error .freed

/-- sa_provider_keymgt.c:242-243. -/
def releasing (d : KeyData) (l : List Nat) : List Nat :=
  match d.own, d.key with
  | true, some h => l ++ [h]
  | _, _ => l

/-- `keymgmt_free`, sa_provider_keymgt.c:235-250. -/
def freeData (w : World) : Option Nat → Except Fault World
  | none => .ok w
  | some a => match w.heap[a]? with
    | some (some d) =>
      if d.refs - 1 = 0 then
        .ok { w with heap := w.heap.set a none, released := releasing d w.released }
      else .ok { w with heap := w.heap.set a (some { d with refs := d.refs - 1 }) }
    | _ => .error .freed

/-- `keymgmt_import` of a key of the API into new key data, sa_provider_keymgt.c:323-330, 404-423 and 497-523.  When the API refuses, the
function fails, and OpenSSL frees the key data, whose `private_key` is still `INVALID_HANDLE`. -/
def lend (w : World) (h : Nat) (delete : Option Bool) (r : Reply) : World :=
  if r.pub && r.header then newKey w (some h) (delete.getD false) else w

/-- `keymgmt_import` of a private key in the clear, sa_provider_keymgt.c:331-423 and 497-523: `delete_key` is 1 unless a parameter says
otherwise.  When the API refuses after the import, the new key is in a local variable and is forgotten. -/
def raw (w : World) (h : Option Nat) (delete : Option Bool) (r : Reply) : World :=
  match h with
  | none => w
  | some h => if r.pub && r.header then newKey w (some h) (delete.getD true) else w

/-- `keymgmt_gen`, sa_provider_keymgt.c:907-933: when the API refuses after the key has been generated, `keymgmt_free` releases it. -/
def gen (w : World) (h : Option Nat) (r : Reply) : World :=
  match h with
  | none => w
  | some h => if r.pub && r.header then newKey w (some h) true else { w with released := w.released ++ [h] }

/-- The address of the key data of an `EVP_PKEY`. -/
def addrOf (w : World) (i : Nat) : Option Nat :=
  match w.objs[i]? with
  | some (some (.pkey a)) => some a
  | _ => none

def give (w : World) (o : Obj) : World := { w with objs := w.objs ++ [some o] }

def put (w : World) (i : Nat) (o : Option Obj) : World := { w with objs := w.objs.set i o }

/-- `signature_dupctx`, sa_provider_signature.c:132-188: `EVP_MD_CTX_copy` fails when there is no digest to be copied; the copy is then freed
and returned all the same, and its reference to the key data is kept. -/
def dupSignature (w : World) (c : Ctx) : Except Fault World :=
  match dupData w c.key with
  | .error f => .error f
  | .ok w => if c.mdCtx then .ok (give w (.ctx { c with peer := none })) else .ok (give w .dangling)

/-- `keyexch_dupctx`, sa_provider_keyexch.c:83-101. -/
def dupExchange (w : World) (c : Ctx) : Except Fault World :=
  match dupData w c.key with
  | .error f => .error f
  | .ok w => match dupData w c.peer with
    | .error f => .error f
    | .ok w => .ok (give w (.ctx c))

/-- `asym_cipher_dupctx`, sa_provider_asym_cipher.c:107-140: `OPENSSL_malloc(0)` is NULL, so that a context without a label is not copied; the
reference to the key data is kept. -/
def dupCipher (w : World) (c : Ctx) : Except Fault World :=
  match dupData w c.key with
  | .error f => .error f
  | .ok w => if c.label = 0 then .ok w else .ok (give w (.ctx { c with peer := none }))

/-- A pointer to key data is followed. -/
def touch (w : World) : Option Nat → Except Fault World
  | none => .error .null
  | some a => match w.heap[a]? with
    | some (some _) => .ok w
    | _ => .error .freed

/-- The operation a context is for: `signature_sign` and `signature_verify` check `key_data`, sa_provider_signature.c:232-235 and 368-371;
`EVP_DigestUpdate` follows `evp_md_ctx`, 525; `keyexch_derive` follows `key_data` and `peer_key_data` without checking them,
sa_provider_keyexch.c:155-166; so do `asym_cipher_encrypt` and `_decrypt`, sa_provider_asym_cipher.c:186-189 and 287-290. -/
def useCtx (w : World) (c : Ctx) : Except Fault World :=
  match c.kind with
  | .sign | .edwards => if c.key = none then .ok w else touch w c.key
  | .digest => if !c.mdCtx then .error .null else if c.key = none then .ok w else touch w c.key
  | .derive => match touch w c.key with
    | .error f => .error f
    | .ok w => touch w c.peer
  | .cipher => touch w c.key

/-- One operation.  Operations on things the application does not hold, or that are of another kind, do nothing. -/
def step (w : World) : Op → Except Fault World
  | .lend h delete r => .ok (lend w h delete r)
  | .raw h delete r => .ok (raw w h delete r)
  | .pub => .ok (newKey w none false)
  | .gen h r => .ok (gen w h r)
  | .dupKey i => match addrOf w i with
    | none => .ok w
    | some a => match dupData w (some a) with
      | .error f => .error f
      | .ok w => .ok (give w (.pkey a))
  -- `signature_sign_init`, sa_provider_signature.c:190-208, `signature_digest_sign_init`, 436-507, `keyexch_init`, sa_provider_keyexch.c:103-121,
  -- `asym_cipher_encrypt_init`, sa_provider_asym_cipher.c:142-160
  | .init i k label => match addrOf w i with
    | none => .ok w
    | some a => match dupData w (some a) with
      | .error f => .error f
      | .ok w => .ok (give w (.ctx { kind := k, key := some a, peer := none, mdCtx := k == .digest, label := if k = .cipher then label else 0 }))
  -- `signature_digest_sign_init` when it goes wrong, sa_provider_signature.c:498-506: `key_data` is set to NULL and 1 is returned
  | .initBad i => match addrOf w i with
    | none => .ok w
    | some a => match dupData w (some a) with
      | .error f => .error f
      | .ok w => .ok (give w (.ctx { kind := .digest, key := none, peer := none, mdCtx := false, label := 0 }))
  -- `keyexch_set_peer`, sa_provider_keyexch.c:207-224: what was there is overwritten
  | .setPeer c i => match w.objs[c]?, addrOf w i with
    | some (some (.ctx x)), some a =>
      if x.kind = .derive then match dupData w (some a) with
        | .error f => .error f
        | .ok w => .ok (put w c (some (.ctx { x with peer := some a })))
      else .ok w
    | _, _ => .ok w
  | .dupCtx c => match w.objs[c]? with
    | some (some (.ctx x)) => match x.kind with
      | .sign | .digest | .edwards => dupSignature w x
      | .derive => dupExchange w x
      | .cipher => dupCipher w x
    | some (some .dangling) => .error .freed
    | _ => .ok w
  | .use c => match w.objs[c]? with
    | some (some (.ctx x)) => useCtx w x
    | some (some .dangling) => .error .freed
    | _ => .ok w
  -- `keymgmt_free`; `signature_freectx`, sa_provider_signature.c:117-130, `keyexch_freectx`, sa_provider_keyexch.c:73-81, `asym_cipher_freectx`,
  -- sa_provider_asym_cipher.c:92-105
  | .free i => match w.objs[i]? with
    | some (some (.pkey a)) => freeData (put w i none) (some a)
    | some (some (.ctx x)) => match freeData (put w i none) x.key with
      | .error f => .error f
      | .ok w => freeData w x.peer
    | some (some .dangling) => .error .freed
    | _ => .ok w

def run (w : World) : List Op → Except Fault World
  | [] => .ok w
  | op :: ops => match step w op with
    | .error f => .error f
    | .ok w => run w ops

end Sa.Pk

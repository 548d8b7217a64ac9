import Verif.Model.Rights

/-!
# Key exchange of the OpenSSL 3 provider (`client/src/sa_provider_keyexch.c`)

`sa_key_exchange` is a parameter, and so is what it does to the keys.  Who holds the key data is modelled in `ProviderKey`; here a context has
its keys.  NULL contexts and lengths and failing allocations are left out.
-/

namespace Sa.Px

/-! Key types of OpenSSL: evp.h, obj_mac.h. -/
def PKEY_DH : Nat := 28
def PKEY_EC : Nat := 408
def PKEY_X25519 : Nat := 1034
def PKEY_X448 : Nat := 1035

/-- `sa_key_exchange_algorithm`, sa_types.h:244-252. -/
def EXCHANGE_DH : Nat := 0
def EXCHANGE_ECDH : Nat := 1

/-- What is used of `sa_provider_key_data`, sa_provider_internal.h:37-46: `type`, `private_key` (`none`: `INVALID_HANDLE`) and what `i2d_PUBKEY`
makes of `public_key` (`none`: it fails). -/
structure KeyData where
  type : Nat
  handle : Option Nat
  pub : Option (List UInt8)
  deriving DecidableEq

/-- `sa_provider_keyexch_context`, sa_provider_keyexch.c:33-37. -/
structure XCtx where
  key : Option KeyData
  peer : Option KeyData
  deriving DecidableEq

/-- `sa_key_exchange` with `other_public` and without parameters; `none` is any status other than `SA_STATUS_OK`. -/
structure Api (ω : Type) where
  exchange : ω → Rights → Nat → Option Nat → List UInt8 → ω × Option Nat

/-- `keyexch_newctx`, sa_provider_keyexch.c:51-71. -/
def newctx : XCtx := ⟨none, none⟩

/-- `keyexch_init`, sa_provider_keyexch.c:103-121; parameters are ignored. -/
def init (c : XCtx) (k : KeyData) : XCtx := { c with key := some k }

/-- `keyexch_set_peer`, sa_provider_keyexch.c:207-224. -/
def setPeer (c : XCtx) (k : KeyData) : XCtx := { c with peer := some k }

/-- `keyexch_dupctx`, sa_provider_keyexch.c:83-101, of a context that has both keys; of another it uses NULL (`ProviderKey`). -/
def dupctx (c : XCtx) : XCtx := { key := c.key, peer := c.peer }

/-- sa_provider_keyexch.c:153-163. -/
def algOf (type : Nat) : Option Nat :=
  if type = PKEY_DH then some EXCHANGE_DH
  else if type = PKEY_EC ∨ type = PKEY_X25519 ∨ type = PKEY_X448 then some EXCHANGE_ECDH
  else none

/-- What `keyexch_derive` does: answer with a length, store the handle of a new key, fail, or use NULL. -/
inductive Ret
  | length (n : Nat)
  | secret (h : Nat)
  | fail
  | null
  deriving DecidableEq

/-- `keyexch_derive`, sa_provider_keyexch.c:123-205; `room` is `outlen`, `none` when `secret` is NULL. -/
def derive (api : Api ω) (w : ω) (c : XCtx) (room : Option Nat) : ω × Ret :=
  match room with
  | none => (w, .length 8)
  | some n =>
    if n < 8 then (w, .fail)
    else match c.key with
      | none => (w, .null)
      | some k => match algOf k.type with
        | none => (w, .fail)
        | some alg => match c.peer with
          | none => (w, .null)
          | some p => match p.pub with
            | none => (w, .fail)
            | some pub => match api.exchange w rightsAllowAll alg k.handle pub with
              | (w, some h) => (w, .secret h)
              | (w, none) => (w, .fail)

end Sa.Px

import Verif.Model.Kdf

/-!
# Key derivation and MACs of the OpenSSL 3 provider (`client/src/sa_provider_kdf.c`, `client/src/sa_provider_mac.c`, `util/src/digest_util.c`)

The calls of the API are a parameter.  NULL contexts, failing allocations and `OSSL_PARAM`s of the wrong type are left out.
-/

namespace Sa.Pv

/-- `strncmp(name, s, strlen(prefix)) == 0` for a string `s` that begins with `prefix` and is at least as long. -/
def startsWith (name pre : String) : Bool := pre.toList.isPrefixOf name.toList

/-- `digest_algorithm_from_name`, digest_util.c:106-120; `none` is `UINT32_MAX`.  Of "SHA2-256" only seven characters are compared. -/
def digestFromName (name : String) : Option Nat :=
  if startsWith name "SHA1" || startsWith name "SHA-1" then some 0
  else if startsWith name "SHA256" || startsWith name "SHA2-25" || startsWith name "SHA-256" then some 1
  else if startsWith name "SHA384" || startsWith name "SHA2-38" || startsWith name "SHA-384" then some 2
  else if startsWith name "SHA512" || startsWith name "SHA2-51" || startsWith name "SHA-512" then some 3
  else none

/-- `sa_provider_kdf_context`, sa_provider_kdf.c:39-51.  The pointers and the lengths are apart. -/
structure KdfCtx where
  alg : Nat
  key : Option Nat
  deleteKey : Bool
  digest : Option Nat
  salt : Option Bytes
  saltLength : Nat
  info : Option Bytes
  infoLength : Nat
  useSeparator : Int
  useL : Int
  deriving DecidableEq

/-! `sa_kdf_algorithm`, sa_types.h. -/
def KDF_ROOT_KEY_LADDER : Nat := 0
def KDF_HKDF : Nat := 1
def KDF_CONCAT : Nat := 2
def KDF_X963 : Nat := 3
def KDF_CMAC : Nat := 4

/-- `kdf_newctx`, sa_provider_kdf.c:68-90. -/
def kdfNew (alg : Nat) : KdfCtx :=
  { alg := alg, key := none, deleteKey := false, digest := none, salt := none, saltLength := 0, info := none, infoLength := 0,
    useSeparator := 0, useL := 0 }

/-- The API as these parts use it. -/
structure KdfApi (ω : Type) where
  /-- `sa_key_header` succeeds -/
  keyOk : ω → Nat → Bool
  keyRelease : ω → Nat → ω
  /-- `sa_key_derive` with all rights; `none` is any status other than `SA_STATUS_OK` -/
  derive : ω → KdfParams → ω × Option Nat

variable {ω : Type}

/-- `kdf_freectx`, sa_provider_kdf.c:92-107. -/
def kdfFree (api : KdfApi ω) (w : ω) (c : KdfCtx) : ω :=
  match c.deleteKey, c.key with
  | true, some k => api.keyRelease w k
  | _, _ => w

/-- `kdf_dupctx`, sa_provider_kdf.c:109-187: algorithm, key and `delete_key` are not copied and are 0 in the new context (`OPENSSL_zalloc`), so
that the part that copies the key is never reached.  `none`: `memcpy` from NULL. -/
def kdfDup (c : KdfCtx) : Option KdfCtx :=
  if (c.saltLength > 0 ∧ c.salt = none) ∨ (c.infoLength > 0 ∧ c.info = none) then none
  else some
    { alg := 0, key := some 0, deleteKey := false, digest := c.digest
      salt := if c.saltLength > 0 then c.salt else none
      saltLength := c.saltLength
      info := if c.infoLength > 0 then c.info else none
      infoLength := c.infoLength
      useSeparator := c.useSeparator
      useL := c.useL }

/-- `kdf_reset`, sa_provider_kdf.c:189-207: the lengths stay. -/
def kdfReset (api : KdfApi ω) (w : ω) (c : KdfCtx) : ω × KdfCtx :=
  (kdfFree api w c, { c with key := none, deleteKey := false, salt := none, info := none, useSeparator := 0, useL := 0 })

/-- The `OSSL_PARAM`s of `kdf_set_ctx_params`; `key` is `OSSL_KDF_PARAM_KEY` with the eight bytes of a handle. -/
structure KdfPrm where
  key : Option Nat := none
  saKey : Option Nat := none
  deleteKey : Option Bool := none
  digest : Option String := none
  salt : Option Bytes := none
  info : Option Bytes := none
  useSeparator : Option Int := none
  useL : Option Int := none

/-- A key is set, sa_provider_kdf.c:385-404 and 407-424: the old one is released, whoever owns it. -/
def kdfSetKey (api : KdfApi ω) (w : ω) (c : KdfCtx) : Option Nat → ω × KdfCtx × Bool
  | none => (w, c, true)
  | some k =>
    if !api.keyOk w k then (w, c, false)
    else (match c.key with | none => w | some old => api.keyRelease w old, { c with key := some k }, true)

/-- The rest of `kdf_set_ctx_params`, sa_provider_kdf.c:426-482. -/
def kdfSetRest (c : KdfCtx) (p : KdfPrm) : KdfCtx :=
  { c with
    deleteKey := p.deleteKey.getD c.deleteKey
    digest := match p.digest with | none => c.digest | some n => digestFromName n
    salt := match p.salt with | none => c.salt | some b => some b
    saltLength := match p.salt with | none => c.saltLength | some b => b.length
    info := match p.info with | none => c.info | some b => some b
    infoLength := match p.info with | none => c.infoLength | some b => b.length
    useSeparator := p.useSeparator.getD c.useSeparator
    useL := p.useL.getD c.useL }

/-- `kdf_set_ctx_params`, sa_provider_kdf.c:368-485; no parameters at all (NULL) are an error. -/
def kdfSet (api : KdfApi ω) (w : ω) (c : KdfCtx) : Option KdfPrm → ω × KdfCtx × Bool
  | none => (w, c, false)
  | some p => match kdfSetKey api w c p.key with
    | (w, c, false) => (w, c, false)
    | (w, c, true) => match kdfSetKey api w c p.saKey with
      | (w, c, false) => (w, c, false)
      | (w, c, true) => (w, kdfSetRest c p, true)

/-- A pointer and a length as `sa_key_derive` gets them. -/
def toBuf : Option Bytes → Nat → Buf
  | none, 0 => .null
  | none, _ => .bad
  | some b, n => .bytes (b.take n)

/-- A 32-bit number, big-endian (`htobe32`), sa_provider_kdf.c:283-284. -/
def htobe32 (n : Nat) : Bytes :=
  [UInt8.ofNat (n / 2 ^ 24), UInt8.ofNat (n / 2 ^ 16), UInt8.ofNat (n / 2 ^ 8), UInt8.ofNat n]

/-- `other_data` of CMAC, sa_provider_kdf.c:258-287; `none`: written behind the end of the allocated memory. -/
def otherData (c : KdfCtx) (keylen : Nat) : Option Bytes :=
  let length := c.saltLength + (if c.useSeparator = 1 then 1 else 0) + c.infoLength + (if c.useL = 1 then 4 else 0)
  let data := c.salt.getD [] ++ (if c.useSeparator = 1 then [0] else []) ++ c.info.getD [] ++ (if c.useL ≠ 0 then htobe32 keylen else [])
  if data.length > length then none else some data

/-- The parameters of `sa_key_derive`, sa_provider_kdf.c:228-300; `.ok none`: `kdf_derive` fails without calling it; `none`: undefined
behaviour.  A context without a key passes `INVALID_HANDLE`. -/
def kdfParams (c : KdfCtx) (keylen : Nat) : Option (Option KdfParams) :=
  let parent := c.key.getD (2 ^ 64 - 1)
  let digest := c.digest.getD (2 ^ 32 - 1)
  if c.alg = KDF_HKDF then some (some (.hkdf keylen digest parent (toBuf c.salt c.saltLength) (toBuf c.info c.infoLength)))
  else if c.alg = KDF_CONCAT then some (some (.concat keylen digest parent (toBuf c.info c.infoLength)))
  else if c.alg = KDF_X963 then some (some (.x963 keylen digest parent (toBuf c.info c.infoLength)))
  else if c.alg = KDF_CMAC then
    if keylen > 64 then some none
    else match otherData c keylen with
      | none => none
      | some d => some (some (.cmac keylen (keylen / 16 + (if keylen % 16 = 0 then 0 else 1)) parent (.bytes d)))
  else some none

/-- `kdf_derive`, sa_provider_kdf.c:209-317: the handle of the derived key, which is copied to the output buffer of `keylen` bytes; `none`
(outer): undefined behaviour, also if the handle does not fit. -/
def kdfDerive (api : KdfApi ω) (w : ω) (c : KdfCtx) (keylen : Nat) (p : Option KdfPrm) : Option (ω × KdfCtx × Option Nat) :=
  match kdfSet api w c p with
  | (w, c, false) => some (w, c, none)
  | (w, c, true) => match kdfParams c keylen with
    | none => none
    | some none => some (w, c, none)
    | some (some q) => match api.derive w q with
      | (w, none) => some (w, c, none)
      | (w, some h) => if keylen < 8 then none else some (w, c, some h)

/-! ## MACs -/

/-- `sa_provider_mac_context`, sa_provider_mac.c:36-43; `md` is the name of the fetched digest (`EVP_MD_get0_name`). -/
structure MacCtx where
  hmac : Bool
  mac : Option Nat
  md : Option String
  key : Option Nat
  deleteKey : Bool
  deriving DecidableEq

/-- `mac_newctx`, sa_provider_mac.c:57-79. -/
def macNew (hmac : Bool) : MacCtx := { hmac := hmac, mac := none, md := none, key := none, deleteKey := false }

/-- The API for MACs. -/
structure MacApi (ω : Type) where
  keyImport : ω → Bytes → ω × Option Nat
  keyOk : ω → Nat → Bool
  keyRelease : ω → Nat → ω
  /-- `sa_crypto_mac_init`: HMAC with a digest (`some`) or CMAC, key -/
  macInit : ω → Option Nat → Nat → ω × Option Nat
  macProcess : ω → Nat → Bytes → ω × Bool
  /-- `sa_crypto_mac_compute`: room; the MAC -/
  macCompute : ω → Nat → Nat → ω × Option Bytes
  macRelease : ω → Nat → ω
  /-- `EVP_MD_fetch`: the canonical name of a digest -/
  fetch : String → Option String

/-- `mac_freectx`, sa_provider_mac.c:81-97. -/
def macFree (api : MacApi ω) (w : ω) (c : MacCtx) : ω :=
  let w := match c.mac with
    | some h => api.macRelease w h
    | none => w
  match c.deleteKey, c.key with
  | true, some k => api.keyRelease w k
  | _, _ => w

/-- The `OSSL_PARAM`s of `mac_set_ctx_params`. -/
structure MacPrm where
  digest : Option String := none
  key : Option Nat := none
  deleteKey : Option Bool := none

/-- The key of `mac_set_ctx_params`, sa_provider_mac.c:304-321: the old key is released and the new one is kept even if it is not valid. -/
def macSetKey (api : MacApi ω) (w : ω) (c : MacCtx) : Option Nat → ω × MacCtx × Bool
  | none => (w, c, true)
  | some k =>
    let w := match c.key with
      | none => w
      | some old => api.keyRelease w old
    (w, { c with key := some k }, api.keyOk w k)

/-- `mac_set_ctx_params`, sa_provider_mac.c:265-335. -/
def macSet (api : MacApi ω) (w : ω) (c : MacCtx) : Option MacPrm → ω × MacCtx × Bool
  | none => (w, c, true)
  | some p =>
    let c1 := match p.digest with
      | none => c
      | some n => { c with md := api.fetch n }
    if p.digest.isSome && c1.md.isNone then (w, c1, false)
    else match macSetKey api w c1 p.key with
      | (w, c, false) => (w, c, false)
      | (w, c, true) => (w, { c with deleteKey := p.deleteKey.getD c.deleteKey }, true)

/-- The key bytes given to `mac_init`, sa_provider_mac.c:117-137. -/
def macInitKey (api : MacApi ω) (w : ω) (c : MacCtx) : Option Bytes → ω × MacCtx × Bool
  | none => (w, c, true)
  | some bytes =>
    let w := match c.key with
      | none => w
      | some old => api.keyRelease w old
    match api.keyImport w bytes with
    | (w, none) => (w, c, false)
    | (w, some k) =>
      if !api.keyOk w k then (w, { c with key := some k }, false)
      else (w, { c with key := some k, deleteKey := true }, true)

/-- The end of `mac_init`, sa_provider_mac.c:144-168; `none`: `strncmp` of NULL, as HMAC has no digest yet. -/
def macStart (api : MacApi ω) (w : ω) (c : MacCtx) : Option (ω × MacCtx × Bool) :=
  match c.key with
  | none => some (w, c, false)
  | some k =>
    let go d := match api.macInit w d k with
      | (w, none) => some (w, c, false)
      | (w, some h) => some (w, { c with mac := some h }, true)
    if c.hmac then match c.md with
      | none => none
      | some n => go (some ((digestFromName n).getD (2 ^ 32 - 1)))
    else go none

/-- `mac_init`, sa_provider_mac.c:99-175. -/
def macInit (api : MacApi ω) (w : ω) (c : MacCtx) (key : Option Bytes) (p : Option MacPrm) : Option (ω × MacCtx × Bool) :=
  let w := match c.mac with
    | none => w
    | some h => api.macRelease w h
  match macInitKey api w { c with mac := none } key with
  | (w, c, false) => some (w, c, false)
  | (w, c, true) => match macSet api w c p with
    | (w, c, false) => some (w, c, false)
    | (w, c, true) => macStart api w c

/-- `mac_update`, sa_provider_mac.c:177-194; without a context the API is called with `INVALID_HANDLE` and refuses. -/
def macUpdate (api : MacApi ω) (w : ω) (c : MacCtx) (m : Bytes) : ω × Bool :=
  match c.mac with
  | none => (w, false)
  | some h => api.macProcess w h m

/-- `mac_final`, sa_provider_mac.c:196-220. -/
def macFinal (api : MacApi ω) (w : ω) (c : MacCtx) (room : Nat) : ω × Option Bytes :=
  match c.mac with
  | none => (w, none)
  | some h => api.macCompute w h room

/-! ## With the TA below -/

/-- The API for one application: the calls reach the TA's functions as they are (client library: C63, C70).  `sa_key_header` leaves the store
as it is; while a key is in use elsewhere, `sa_key_release` waits. -/
def taKdf (env : Env) (k : KdfEnv) (caller : Uuid) : KdfApi KeyStore :=
  { keyOk := fun st h => (keyStoreGetHeader st h caller).2.1 == .OK
    keyRelease := fun st h => match keyStoreRemove st h caller with
      | .returned st' _ _ => st'
      | .blocks st' => st'
    derive := fun st q => match keyDerive env k st rightsAllowAll q caller with
      | some (st', .OK, h) => (st', some h)
      | some (st', _, _) => (st', none)
      | none => (st, none) }

end Sa.Pv

import Verif.Model.Unwrap

/-!
# Key exchange (`taimpl/src/ta_sa_key_exchange.c`, `dh.c: dh_compute_shared_secret`, `ec.c: ec_compute_ecdh_shared_secret`,
`netflix.c: kdf_netflix_shared_secret`)

The session has been acquired by the caller.
-/

namespace Sa

/-- Outcome of the OpenSSL part of a key agreement.  `silent`: `dh_compute_shared_secret` returns `false`, that is `SA_STATUS_OK`, and no key
(dh.c:195). -/
inductive Agreed where
  | secret (z : Bytes)
  | failed (s : Status)
  | silent

/-- Outside world of a key agreement: private key, public key of the other side. -/
structure AgreeEnv where
  dh : Bytes → Bytes → Agreed
  ecdh : Bytes → Nat → Bytes → Agreed

/-- A failing key agreement fails, and shared secrets have a sane length. -/
structure AgreeEnv.Good (a : AgreeEnv) : Prop where
  dhFail : ∀ k o s, a.dh k o = .failed s → s ≠ .OK
  ecdhFail : ∀ k c o s, a.ecdh k c o = .failed s → s ≠ .OK
  dhLen : ∀ k o z, a.dh k o = .secret z → z.length ≤ 2 ^ 32
  ecdhLen : ∀ k c o z, a.ecdh k c o = .secret z → z.length ≤ 2 ^ 32

/-- `dh_compute_shared_secret`, dh.c:120-251. -/
def dhComputeSharedSecret (env : Env) (a : AgreeEnv) (rights : Rights) (other : Bytes) (sk : StoredKey) : Status × Option StoredKey :=
  match a.dh sk.key other with
  | .failed s => (s, none)
  | .silent => (.OK, none)
  | .secret z => storedKeyCreate (env.ok .storedKeyAlloc) rights (some sk.header.rights) KEY_TYPE_SYMMETRIC (Vector.replicate 1040 0) z.length z

/-- `ec_compute_ecdh_shared_secret`, ec.c:598-717. -/
def ecComputeSharedSecret (env : Env) (a : AgreeEnv) (rights : Rights) (other : Bytes) (sk : StoredKey) : Status × Option StoredKey :=
  let curve := curveOf sk.header.typeParameters
  if curve = CURVE_ED25519 ∨ curve = CURVE_ED448 then (.OPERATION_NOT_ALLOWED, none)
  else match a.ecdh sk.key curve other with
    | .failed s => (s, none)
    | .silent => (.INTERNAL_ERROR, none)
    | .secret z =>
      storedKeyCreate (env.ok .storedKeyAlloc) rights (some sk.header.rights) KEY_TYPE_SYMMETRIC (Vector.replicate 1040 0) z.length z

/-- `ta_sa_key_exchange_dh`, ta_sa_key_exchange.c:30-114. -/
def exchangeDh (env : Env) (a : AgreeEnv) (st : KeyStore) (rights : Rights) (private_ : Nat) (other : Bytes) (caller : Uuid) :
    Option (KeyStore × Status × Nat) :=
  withKey env st private_ caller fun sk =>
    if !rightsAllowedExchange env.rights sk.header.rights then some (.OPERATION_NOT_ALLOWED, none)
    else if !keyTypeSupportsDh sk.header.type.toNat sk.header.size.toNat then some (.INVALID_KEY_TYPE, none)
    else match dhComputeSharedSecret env a rights other sk with
      | (.OK, k) => some (.OK, k)
      | (_, _) => some (.INVALID_PARAMETER, none)

/-- `ta_sa_key_exchange_ecdh`, ta_sa_key_exchange.c:116-199. -/
def exchangeEcdh (env : Env) (a : AgreeEnv) (st : KeyStore) (rights : Rights) (private_ : Nat) (other : Bytes) (caller : Uuid) :
    Option (KeyStore × Status × Nat) :=
  withKey env st private_ caller fun sk =>
    if !rightsAllowedExchange env.rights sk.header.rights then some (.OPERATION_NOT_ALLOWED, none)
    else if !keyTypeSupportsEc sk.header.type.toNat (curveOf sk.header.typeParameters) sk.header.size.toNat then
      some (.INVALID_KEY_TYPE, none)
    else some (ecComputeSharedSecret env a rights other sk)

/-- The bytes computed by `kdf_netflix_shared_secret`, netflix.c:212-268: HMAC-SHA384 under SHA384(in_key) of the shared secret, with a zero
byte in front unless it starts with one.  Digest 2 is SHA-384. -/
def netflixKeyBytes (k : KdfPrims) (inKey z : Bytes) : Bytes :=
  k.hmac 2 (k.hash 2 inKey) ((if z.headD 0 ≠ 0 then [0] else []) ++ z)

/-- `kdf_netflix_shared_secret`, netflix.c:152-298: status, encryption key, HMAC key.  The two `stored_key_create` calls may fail
separately (`enc.ok`, `hm.ok`). -/
def kdfNetflixSharedSecret (encEnv hmEnv : Env) (k : KdfEnv) (rightsEnc rightsHmac : Rights) (inKey : StoredKey) (secret : Option StoredKey) :
    Status × Option StoredKey × Option StoredKey :=
  if inKey.key.length ≠ 16 then (.INVALID_PARAMETER, none, none)
  else match secret with
    | none => (.NULL_PARAMETER, none, none)
    | some secret =>
      if !k.allocOk then (.INTERNAL_ERROR, none, none)
      else if !k.ok 0 then (.INTERNAL_ERROR, none, none)
      -- the status is still OK from the digest (netflix.c:250-260): no key, but no failure either
      else if secret.key.length = 0 then (.OK, none, none)
      else if !k.ok 1 then (.INTERNAL_ERROR, none, none)
      else
        let bytes := netflixKeyBytes k.prims inKey.key secret.key
        match storedKeyCreate (encEnv.ok .storedKeyAlloc) rightsEnc (some inKey.header.rights) KEY_TYPE_SYMMETRIC (Vector.replicate 1040 0) 16
            (bytes.take 16) with
        | (.OK, enc) =>
          match storedKeyCreate (hmEnv.ok .storedKeyAlloc) rightsHmac (some inKey.header.rights) KEY_TYPE_SYMMETRIC (Vector.replicate 1040 0) 32
              ((bytes.drop 16).take 32) with
          | (.OK, hm) => (.OK, enc, hm)
          | (s, _) => (s, enc, none)
        | (s, _) => (s, none, none)

/-- `key_store_import_stored_key` of a possibly NULL key. -/
def importOpt (env : Env) (st : KeyStore) (sk : Option StoredKey) (caller : Uuid) : KeyStore × Status × Nat :=
  match sk with
  | none => (st, .NULL_PARAMETER, SLOT_INVALID)
  | some sk => keyStoreImportStoredKey env st sk caller

/-- What the Netflix exchange leaves: the store, the status and the three output variables `*key`, `*out_ke`, `*out_kh`. -/
structure NetflixOut where
  store : KeyStore
  status : Status
  key : Nat
  ke : Nat
  kh : Nat

/-- Parameters of the Netflix exchange (sa_types.h): handle of Kw and the two rights. -/
structure NetflixParams where
  kw : Nat
  rightsKe : Rights
  rightsKh : Rights

/-- `if (handle != INVALID_HANDLE) key_store_remove(...)`, its status ignored.  `none`: the call does not return. -/
def removeIfValid (st : KeyStore) (h : Nat) (caller : Uuid) : Option KeyStore :=
  if h ≠ SLOT_INVALID then
    match keyStoreRemove st h caller with
    | .returned st' _ _ => some st'
    | .blocks _ => none
  else some st

/-- The cleanup, ta_sa_key_exchange.c:367-382: the keys that were added are removed again.  The output variables keep their values. -/
def netflixCleanup (o : NetflixOut) (caller : Uuid) : Option NetflixOut :=
  if o.status ≠ .OK then
    (removeIfValid o.store o.ke caller).bind fun st =>
      (removeIfValid st o.kh caller).bind fun st =>
        (removeIfValid st o.key caller).map fun st => { o with store := st }
  else some o

/-- The body of `ta_sa_key_exchange_netflix_dh`, ta_sa_key_exchange.c:270-358.  `envs i` is the outside world of the i-th step (unwrap Kw,
unwrap the private key, the shared secret, the two keys, the three imports).  `none`: out-of-bounds access. -/
def netflixBody (envs : Nat → Env) (k : KdfEnv) (a : AgreeEnv) (st : KeyStore) (rights : Rights) (private_ : Nat) (other : Bytes)
    (params : NetflixParams) (caller : Uuid) : Option NetflixOut :=
  let fail (st : KeyStore) (s : Status) : Option NetflixOut := some ⟨st, s, SLOT_INVALID, SLOT_INVALID, SLOT_INVALID⟩
  match keyStoreUnwrap (envs 0) st params.kw caller with
  | none => none
  | some (st1, .OK, some inKey) =>
    if !rightsAllowedDerive (envs 0).rights inKey.header.rights then fail st1 .OPERATION_NOT_ALLOWED
    else if inKey.header.type.toNat ≠ KEY_TYPE_SYMMETRIC then fail st1 .INVALID_KEY_TYPE
    else match keyStoreUnwrap (envs 1) st1 private_ caller with
      | none => none
      | some (st2, .OK, some sk) =>
        if !rightsAllowedExchange (envs 1).rights sk.header.rights then fail st2 .OPERATION_NOT_ALLOWED
        else if !keyTypeSupportsDh sk.header.type.toNat sk.header.size.toNat then fail st2 .INVALID_KEY_TYPE
        else match dhComputeSharedSecret (envs 2) a inKey.header.rights other sk with
          | (.OK, secret) =>
            match kdfNetflixSharedSecret (envs 3) (envs 4) k params.rightsKe params.rightsKh inKey secret with
            | (.OK, enc, hm) =>
              let r1 := importOpt (envs 5) st2 enc caller
              if r1.2.1 ≠ .OK then some ⟨r1.1, r1.2.1, SLOT_INVALID, r1.2.2, SLOT_INVALID⟩
              else
                let r2 := importOpt (envs 6) r1.1 hm caller
                if r2.2.1 ≠ .OK then some ⟨r2.1, r2.2.1, SLOT_INVALID, r1.2.2, r2.2.2⟩
                else match enc, hm with
                  | some enc, some hm =>
                    match kdfNetflixWrapping (envs 7) { k with ok := fun i => k.ok (i + 2) } rights inKey.header.rights enc hm with
                    | (.OK, wrap) =>
                      let r3 := importOpt (envs 8) r2.1 wrap caller
                      some ⟨r3.1, r3.2.1, r3.2.2, r1.2.2, r2.2.2⟩
                    | (s, _) => some ⟨r2.1, s, SLOT_INVALID, r1.2.2, r2.2.2⟩
                  -- not reached: a NULL key is not imported
                  | _, _ => some ⟨r2.1, .NULL_PARAMETER, SLOT_INVALID, r1.2.2, r2.2.2⟩
            | (s, _, _) => fail st2 s
          | (_, _) => fail st2 .INVALID_PARAMETER
      | some (st2, .OK, none) => fail st2 .NULL_PARAMETER
      | some (st2, s, _) => fail st2 s
  | some (st1, .OK, none) => fail st1 .NULL_PARAMETER
  | some (st1, s, _) => fail st1 s

/-- `ta_sa_key_exchange_netflix_dh`, ta_sa_key_exchange.c:201-385, with non-NULL parameters.  `none`: out-of-bounds access or the call does
not return. -/
def exchangeNetflix (envs : Nat → Env) (k : KdfEnv) (a : AgreeEnv) (st : KeyStore) (rights : Rights) (private_ : Nat) (other : Bytes)
    (params : NetflixParams) (caller : Uuid) : Option NetflixOut :=
  (netflixBody envs k a st rights private_ other params caller).bind (netflixCleanup · caller)

/-- What the application's three variables hold afterwards (clientimpl/src/sa_key_exchange.c:129-140): they are written on success only. -/
def clientHandles (old : Nat × Nat × Nat) (o : NetflixOut) : Nat × Nat × Nat := if o.status ≠ .OK then old else (o.key, o.ke, o.kh)

end Sa

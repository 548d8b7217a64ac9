import Verif.Model.KeyStore
import Verif.Model.Mac

/-!
# Key derivation (`taimpl/src/internal/kdf.c`, `netflix.c`, `taimpl/src/ta_sa_key_derive.c`)

The session has been acquired by the caller (`client_store_acquire`, modelled in `Client`).
-/

namespace Sa

/-- Digests and MACs: digest, (key,) message. -/
structure KdfPrims where
  hash : Nat → Bytes → Bytes
  hmac : Nat → Bytes → Bytes → Bytes
  cmac : Bytes → Bytes → Bytes

/-- What is assumed of them: the lengths, and that HMAC fills a short key with zeros (RFC 2104). -/
structure KdfPrims.Good (k : KdfPrims) : Prop where
  hashLen : ∀ d n m, digestLength d = some n → (k.hash d m).length = n
  hmacLen : ∀ d n key m, digestLength d = some n → (k.hmac d key m).length = n
  cmacLen : ∀ key m, (k.cmac key m).length = 16
  hmacPad : ∀ d n m, digestLength d = some n → k.hmac d [0] m = k.hmac d (List.replicate n 0) m

/-- Outside world of a derivation. -/
structure KdfEnv where
  prims : KdfPrims
  /-- the allocations in kdf.c succeed -/
  allocOk : Bool
  /-- the n-th OpenSSL computation of the call succeeds -/
  ok : Nat → Bool
  /-- contents of freshly allocated memory -/
  garbage : Nat → UInt8

/-- `memcpy(dst + pos, src, length)` where `dst` points to `dst.length` bytes; `none`: out of bounds. -/
def kdfWrite (dst : Bytes) (pos : Nat) (src : Bytes) : Option Bytes :=
  if pos + src.length ≤ dst.length then some (dst.take pos ++ src ++ dst.drop (pos + src.length)) else none

/-- The loops kdf.c:118-134 (HKDF), 241-256 (concat) and 361-376 (X9.63).  `block i tag` is the i-th block given the previous contents of
the block buffer, or failure.  The outer `none` is an out-of-bounds access, the inner one a failure. -/
def expandLoop (block : Nat → Bytes → Option Bytes) (r remainder : Nat) :
    (fuel i : Nat) → (tag derived : Bytes) → (pos : Nat) → Option (Option Bytes)
  | 0, _, _, derived, _ => some (some derived)
  | fuel + 1, i, tag, derived, pos =>
    if i ≤ r then
      match block i tag with
      | none => some none
      | some tag' =>
        let copyLength := if i = r ∧ remainder > 0 then remainder else tag'.length
        if copyLength > tag'.length then none
        else match kdfWrite derived pos (tag'.take copyLength) with
          | none => none
          | some d => expandLoop block r remainder fuel (i + 1) tag' d (pos + copyLength)
    else some (some derived)

/-- The end of the functions in kdf.c: `stored_key_create` with the derived bytes and the rights of the parent (kdf.c:145-151, 267-273, 387-393, 497-503). -/
def kdfFinish (env : Env) (rights : Rights) (parent : Rights) (keyLength : Nat) (derived : Bytes) : Status × Option StoredKey :=
  storedKeyCreate (env.ok .storedKeyAlloc) rights (some parent) KEY_TYPE_SYMMETRIC (Vector.replicate 1040 0) keyLength derived

/-- Number of blocks, kdf.c:110-111, 231-232, 351-352. -/
def blockCount (keyLength hashLength : Nat) : Nat := keyLength / hashLength + (if keyLength % hashLength ≠ 0 then 1 else 0)

/-- `kdf_hkdf_hmac`, kdf.c:30-174; `salt` and `info` `none`: NULL with length 0.  When too many blocks are needed (kdf.c:112-115) the function
returns the status of the extraction, that is OK, and no key.  `none`: out-of-bounds access. -/
def kdfHkdf (env : Env) (k : KdfEnv) (rights : Rights) (keyLength digest : Nat) (salt info : Option Bytes) (parent : StoredKey) :
    Option (Status × Option StoredKey) :=
  match digestLength digest with
  | none => some (.INVALID_PARAMETER, none)
  | some hashLength =>
    if !k.allocOk then some (.INTERNAL_ERROR, none)
    else if !k.ok 0 then some (.INTERNAL_ERROR, none)
    else
      -- hmac_internal: a NULL key is replaced by one zero byte, hmac_context.c:348-349
      let prk := k.prims.hmac digest (salt.getD [0]) parent.key
      let remainder := keyLength % hashLength
      let r := blockCount keyLength hashLength
      if r > 0xff then some (.OK, none)
      else
        let block i tag := if k.ok i then
            some (k.prims.hmac digest prk ((if i = 1 then [] else tag) ++ info.getD [] ++ [UInt8.ofNat i]))
          else none
        match expandLoop block r remainder r 1 [] ((List.range keyLength).map k.garbage) 0 with
        | none => none
        | some none => some (.INTERNAL_ERROR, none)
        | some (some derived) => some (kdfFinish env rights parent.header.rights keyLength derived)

/-- `kdf_concat_kdf`, kdf.c:176-294. -/
def kdfConcat (env : Env) (k : KdfEnv) (rights : Rights) (keyLength digest : Nat) (info : Option Bytes) (parent : StoredKey) :
    Option (Status × Option StoredKey) :=
  match digestLength digest with
  | none => some (.INVALID_PARAMETER, none)
  | some hashLength =>
    if !k.allocOk then some (.INTERNAL_ERROR, none)
    else
      let remainder := keyLength % hashLength
      let r := blockCount keyLength hashLength
      if r > 0xff then some (.INTERNAL_ERROR, none)
      else
        let block i (_ : Bytes) :=
          if k.ok i then some (k.prims.hash digest ([0, 0, 0, UInt8.ofNat i] ++ parent.key ++ info.getD [])) else none
        match expandLoop block r remainder r 1 [] ((List.range keyLength).map k.garbage) 0 with
        | none => none
        | some none => some (.INTERNAL_ERROR, none)
        | some (some derived) => some (kdfFinish env rights parent.header.rights keyLength derived)

/-- `kdf_ansi_x963`, kdf.c:296-414. -/
def kdfX963 (env : Env) (k : KdfEnv) (rights : Rights) (keyLength digest : Nat) (info : Option Bytes) (parent : StoredKey) :
    Option (Status × Option StoredKey) :=
  match digestLength digest with
  | none => some (.INVALID_PARAMETER, none)
  | some hashLength =>
    if !k.allocOk then some (.INTERNAL_ERROR, none)
    else
      let remainder := keyLength % hashLength
      let r := blockCount keyLength hashLength
      if r > 0xff then some (.INTERNAL_ERROR, none)
      else
        let block i (_ : Bytes) :=
          if k.ok i then some (k.prims.hash digest (parent.key ++ [0, 0, 0, UInt8.ofNat i] ++ info.getD [])) else none
        match expandLoop block r remainder r 1 [] ((List.range keyLength).map k.garbage) 0 with
        | none => none
        | some none => some (.INTERNAL_ERROR, none)
        | some (some derived) => some (kdfFinish env rights parent.header.rights keyLength derived)

/-- The loop kdf.c:476-485: blocks `i .. 4` are written to `full_key`. -/
def cmacLoop (k : KdfEnv) (key other : Bytes) : (fuel i : Nat) → (fullKey : Bytes) → Option (Option Bytes)
  | 0, _, fullKey => some (some fullKey)
  | fuel + 1, i, fullKey =>
    if i ≤ 4 then
      if !k.ok i then some none
      else match kdfWrite fullKey ((i - 1) * 16) (k.prims.cmac key ([UInt8.ofNat i] ++ other)) with
        | none => none
        | some f => cmacLoop k key other fuel (i + 1) f
    else some (some fullKey)

/-- `kdf_ctr_cmac`, kdf.c:416-524; `counter` is a `uint8_t`.  `cmac` requires a 16 or 32 byte key (cmac_context.c:319-322). -/
def kdfCmac (env : Env) (k : KdfEnv) (rights : Rights) (keyLength counter : Nat) (other : Option Bytes) (parent : StoredKey) :
    Option (Status × Option StoredKey) :=
  if keyLength % 16 ≠ 0 then some (.INVALID_PARAMETER, none)
  else if counter < 1 ∨ counter > 4 then some (.INVALID_PARAMETER, none)
  else if keyLength / 16 > 5 - counter then some (.INVALID_PARAMETER, none)
  else if !k.allocOk then some (.INTERNAL_ERROR, none)
  else if ¬ (parent.key.length = 16 ∨ parent.key.length = 32) then some (.INTERNAL_ERROR, none)
  else
    match cmacLoop k parent.key (other.getD []) 4 1 ((List.range 64).map k.garbage) with
    | none => none
    | some none => some (.INTERNAL_ERROR, none)
    | some (some fullKey) =>
      -- memcpy(derived, full_key + (counter - 1) * 16, key_length)
      if (counter - 1) * 16 + keyLength > fullKey.length then none
      else match kdfWrite ((List.range keyLength).map k.garbage) 0 ((fullKey.drop ((counter - 1) * 16)).take keyLength) with
        | none => none
        | some derived => some (kdfFinish env rights parent.header.rights keyLength derived)

/-- Salt of `kdf_netflix_wrapping`, netflix.c:86-88. -/
def netflixSalt : Bytes :=
  0x02 :: 0x76 :: 0x17 :: 0x98 :: 0x4f :: 0x62 :: 0x27 :: 0x53 :: 0x9a :: 0x63 :: 0x0b :: 0x89 :: 0x7c :: 0x01 :: 0x7d :: 0x69 :: []
/-- Info of `kdf_netflix_wrapping`, netflix.c:112-114. -/
def netflixInfo : Bytes :=
  0x80 :: 0x9f :: 0x82 :: 0xa7 :: 0xad :: 0xdf :: 0x54 :: 0x8d :: 0x3e :: 0xa9 :: 0xdd :: 0x06 :: 0x7f :: 0xf9 :: 0xbb :: 0x91 :: []

/-- `kdf_netflix_wrapping`, netflix.c:27-150. -/
def kdfNetflixWrapping (env : Env) (k : KdfEnv) (rights parent : Rights) (enc hmac : StoredKey) : Status × Option StoredKey :=
  if enc.key.length ≠ 16 then (.INVALID_PARAMETER, none)
  else if hmac.key.length ≠ 32 then (.INVALID_PARAMETER, none)
  else if !k.allocOk then (.INTERNAL_ERROR, none)
  else if !k.ok 0 ∨ !k.ok 1 then (.INTERNAL_ERROR, none)
  else
    let temp := k.prims.hmac 1 netflixSalt (enc.key ++ hmac.key)
    let wrapping := k.prims.hmac 1 temp netflixInfo
    storedKeyCreate (env.ok .storedKeyAlloc) rights (some parent) KEY_TYPE_SYMMETRIC (Vector.replicate 1040 0) 16 (wrapping.take 16)

/-- `otp_root_key_ladder`, porting/otp.c:646-738. -/
def otpRootKeyLadder (env : Env) (k : KdfEnv) (rights : Rights) (root : Bytes) (c : KeyLadderInputs) (c4 : Vector UInt8 16) :
    Status × Option StoredKey :=
  if !k.allocOk then (.INTERNAL_ERROR, none)
  else if !k.ok 0 then (.INTERNAL_ERROR, none)
  else
    let derived := env.prims.aesDec (otpHwKeyLadder env.prims root c) c4.toList
    storedKeyCreate (env.ok .storedKeyAlloc) rights none KEY_TYPE_SYMMETRIC (Vector.replicate 1040 0) 16 derived

/-- Parameters of the key derivations (sa_types.h:903-1010).  For the buffers `none` is NULL; `nullInfo` etc. (NULL with a positive length)
are rejected before anything else and are represented by `Buf.bad`. -/
inductive Buf where
  | bad
  | null
  | bytes (b : Bytes)

def Buf.get : Buf → Option Bytes
  | .bytes b => some b
  | _ => none

def Buf.isBad : Buf → Bool
  | .bad => true
  | _ => false

inductive KdfParams where
  | rootKeyLadder (common : Bool) (c1 c2 c3 c4 : Option Bytes)
  | hkdf (keyLength digest parent : Nat) (salt info : Buf)
  | concat (keyLength digest parent : Nat) (info : Buf)
  | x963 (keyLength digest parent : Nat) (info : Buf)
  | cmac (keyLength counter parent : Nat) (other : Buf)
  | netflix (kenc khmac : Nat)
  | unknown

/-- Common shape of ta_sa_key_derive.c:194-238, 299-346, 402-446, 508-557: unwrap the parent, check it, derive, import. -/
def deriveFrom (env : Env) (st : KeyStore) (parent : Nat) (caller : Uuid) (typeOk : Header → Bool)
    (kdf : StoredKey → Option (Status × Option StoredKey)) : Option (KeyStore × Status × Nat) :=
  match keyStoreUnwrap env st parent caller with
  | none => none
  | some (st1, .OK, some sk) =>
    if !rightsAllowedDerive env.rights sk.header.rights then some (st1, .OPERATION_NOT_ALLOWED, SLOT_INVALID)
    else if sk.header.type.toNat ≠ KEY_TYPE_SYMMETRIC then some (st1, .INVALID_KEY_TYPE, SLOT_INVALID)
    else if !typeOk sk.header then some (st1, .INVALID_KEY_TYPE, SLOT_INVALID)
    else match kdf sk with
      | none => none
      | some (.OK, some d) => some (keyStoreImportStoredKey env st1 d caller)
      | some (.OK, none) => some (st1, .NULL_PARAMETER, SLOT_INVALID)
      | some (s, _) => some (st1, s, SLOT_INVALID)
  | some (st1, .OK, none) => some (st1, .NULL_PARAMETER, SLOT_INVALID)
  | some (st1, s, _) => some (st1, s, SLOT_INVALID)

/-- A 16 byte component of the root key ladder: `none` if NULL or of another length (ta_sa_key_derive.c:64-102). -/
def rklComponent (c : Option Bytes) : Status × Vector UInt8 16 :=
  match c with
  | none => (.NULL_PARAMETER, Vector.replicate 16 0)
  | some b => if h : b.length = 16 then (.OK, ⟨b.toArray, by simpa using h⟩) else (.INVALID_PARAMETER, Vector.replicate 16 0)

/-- `ta_sa_key_derive_root_key_ladder`, ta_sa_key_derive.c:30-139. -/
def deriveRootKeyLadder (env : Env) (k : KdfEnv) (st : KeyStore) (rights : Rights) (common : Bool) (c1 c2 c3 c4 : Option Bytes)
    (caller : Uuid) : Option (KeyStore × Status × Nat) :=
  let fail s := some (st, s, SLOT_INVALID)
  if (rklComponent c1).1 ≠ .OK then fail (rklComponent c1).1
  else if (rklComponent c2).1 ≠ .OK then fail (rklComponent c2).1
  else if (rklComponent c3).1 ≠ .OK then fail (rklComponent c3).1
  else if (rklComponent c4).1 ≠ .OK then fail (rklComponent c4).1
  else match otpRootKeyLadder env k rights (if common then env.prims.commonRootKey else env.prims.rootKey)
      ⟨(rklComponent c1).2, (rklComponent c2).2, (rklComponent c3).2⟩ (rklComponent c4).2 with
    | (.OK, some d) => some (keyStoreImportStoredKey env st d caller)
    | (.OK, none) => fail .NULL_PARAMETER
    | (s, _) => fail s

/-- `ta_sa_key_derive_netflix`, ta_sa_key_derive.c:560-668. -/
def deriveNetflix (env : Env) (k : KdfEnv) (st : KeyStore) (rights : Rights) (kenc khmac : Nat) (caller : Uuid) :
    Option (KeyStore × Status × Nat) :=
  match keyStoreUnwrap env st kenc caller with
  | none => none
  | some (st1, .OK, some enc) =>
    if !rightsAllowedDerive env.rights enc.header.rights then some (st1, .OPERATION_NOT_ALLOWED, SLOT_INVALID)
    else if enc.header.type.toNat ≠ KEY_TYPE_SYMMETRIC then some (st1, .INVALID_KEY_TYPE, SLOT_INVALID)
    else match keyStoreUnwrap env st1 khmac caller with
      | none => none
      | some (st2, .OK, some hmac) =>
        if !rightsAllowedDerive env.rights hmac.header.rights then some (st2, .OPERATION_NOT_ALLOWED, SLOT_INVALID)
        else if hmac.header.type.toNat ≠ KEY_TYPE_SYMMETRIC then some (st2, .INVALID_KEY_TYPE, SLOT_INVALID)
        else match kdfNetflixWrapping env k rights enc.header.rights enc hmac with
          | (.OK, some d) => some (keyStoreImportStoredKey env st2 d caller)
          | (.OK, none) => some (st2, .NULL_PARAMETER, SLOT_INVALID)
          | (s, _) => some (st2, s, SLOT_INVALID)
      | some (st2, .OK, none) => some (st2, .NULL_PARAMETER, SLOT_INVALID)
      | some (st2, s, _) => some (st2, s, SLOT_INVALID)
  | some (st1, .OK, none) => some (st1, .NULL_PARAMETER, SLOT_INVALID)
  | some (st1, s, _) => some (st1, s, SLOT_INVALID)

/-- `ta_sa_key_derive`, ta_sa_key_derive.c:670-777, and the per-algorithm functions 141-558: new store, status, key. -/
def keyDerive (env : Env) (k : KdfEnv) (st : KeyStore) (rights : Rights) (params : KdfParams) (caller : Uuid) :
    Option (KeyStore × Status × Nat) :=
  let fail s := some (st, s, SLOT_INVALID)
  match params with
  | .rootKeyLadder common c1 c2 c3 c4 => deriveRootKeyLadder env k st rights common c1 c2 c3 c4 caller
  | .hkdf keyLength digest parent salt info =>
    if info.isBad then fail .NULL_PARAMETER
    else if salt.isBad then fail .NULL_PARAMETER
    else if keyLength > 512 then fail .INVALID_PARAMETER
    else if digest > 3 then fail .INVALID_PARAMETER
    else deriveFrom env st parent caller (fun h => keyTypeSupportsHmac h.type.toNat h.size.toNat)
      (kdfHkdf env k rights keyLength digest salt.get info.get)
  | .concat keyLength digest parent info =>
    if info.isBad then fail .NULL_PARAMETER
    else if keyLength > 512 then fail .INVALID_PARAMETER
    else if digest > 3 then fail .INVALID_PARAMETER
    else deriveFrom env st parent caller (fun _ => true) (kdfConcat env k rights keyLength digest info.get)
  | .x963 keyLength digest parent info =>
    if info.isBad then fail .NULL_PARAMETER
    else if keyLength > 512 then fail .INVALID_PARAMETER
    else if digest > 3 then fail .INVALID_PARAMETER
    else deriveFrom env st parent caller (fun _ => true) (kdfX963 env k rights keyLength digest info.get)
  | .cmac keyLength counter parent other =>
    if other.isBad then fail .NULL_PARAMETER
    else if counter < 1 ∨ counter > 4 then fail .INVALID_PARAMETER
    else if keyLength % 16 ≠ 0 then fail .INVALID_PARAMETER
    else if keyLength / 16 > 5 - counter then fail .INVALID_PARAMETER
    else deriveFrom env st parent caller (fun h => keyTypeSupportsAes h.type.toNat h.size.toNat)
      (kdfCmac env k rights keyLength counter other.get)
  | .netflix kenc khmac => deriveNetflix env k st rights kenc khmac caller
  | .unknown => fail .INVALID_PARAMETER

end Sa

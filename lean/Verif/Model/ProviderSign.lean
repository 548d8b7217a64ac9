import Verif.Model.Sign

/-!
# Signatures of the OpenSSL 3 provider (`client/src/sa_provider_signature.c`, `client/src/sa_public_key.c`, `util/src/digest_util.c`)

`sa_crypto_sign` and the digests of OpenSSL are parameters.  Who holds the key data is modelled in `ProviderKey`; here a context has its key.
NULL contexts and lengths, failing allocations, and `OSSL_PARAM`s of the wrong type are left out.  That `i2d_ECDSA_SIG` writes DER (X.690) is an
assumption about OpenSSL.
-/

namespace Sa.Psig

/-! Numbers of OpenSSL: obj_mac.h, rsa.h. -/
def NID_sha1 : Nat := 64
def NID_sha256 : Nat := 672
def NID_sha384 : Nat := 673
def NID_sha512 : Nat := 674
def RSA_PKCS1_PADDING : Int := 1
def RSA_PKCS1_PSS_PADDING : Int := 6
def SALTLEN_DIGEST : Int := -1
def SALTLEN_AUTO : Int := -2
def SALTLEN_MAX : Int := -3

/-- `digest_algorithm_from_md`, digest_util.c:25-43; a digest is its NID, `none` NULL, and a result `none` `UINT32_MAX`. -/
def digestFromMd : Option Nat → Option Nat
  | none => none
  | some nid =>
    if nid = NID_sha1 then some 0
    else if nid = NID_sha256 then some 1
    else if nid = NID_sha384 then some 2
    else if nid = NID_sha512 then some 3
    else none

/-- `digest_length`, digest_util.c:85-105. -/
def digestLen : Nat → Nat
  | 0 => 20
  | 1 => 32
  | 2 => 48
  | _ => 64

/-- The digests of OpenSSL. -/
structure Lib where
  /-- `EVP_MD_fetch` -/
  fetch : String → Option Nat
  hash : Nat → Bytes → Bytes
  /-- `EVP_MD_get_size` -/
  size : Nat → Nat

/-- `sa_crypto_sign` with a buffer of `MAX_SIGNATURE_LENGTH` bytes, and with NULL; `none` is any status other than `SA_STATUS_OK`. -/
structure Api where
  sign : Nat → SignParams → Bytes → Option Bytes
  len : Nat → SignParams → Option Nat

/-- What the context knows of its key: handle, `type` and `curve` of the header, `EVP_PKEY_bits` and `EVP_PKEY_base_id`-like kind of the public
key (`key_data->type`: 6 RSA, 408 EC, 1087 Ed25519, 1088 Ed448). -/
structure Key where
  handle : Nat
  type : Nat
  curve : Nat
  bits : Nat
  evp : Nat
  deriving DecidableEq

def EVP_RSA : Nat := 6
def EVP_EC : Nat := 408
def EVP_ED25519 : Nat := 1087
def EVP_ED448 : Nat := 1088

/-- `sa_provider_signature_context`, sa_provider_signature.c:40-48; `data` is what has been given to `evp_md_ctx`, `none` if that is NULL. -/
structure SCtx where
  key : Option Key
  data : Option Bytes
  md : Option Nat
  mgf1 : Option Nat
  pad : Int
  salt : Int
  deriving DecidableEq

/-- `signature_newctx`, sa_provider_signature.c:90-115. -/
def newctx : SCtx := { key := none, data := none, md := none, mgf1 := none, pad := RSA_PKCS1_PADDING, salt := SALTLEN_AUTO }

/-- The `OSSL_PARAM`s of `signature_set_ctx_params`; padding and salt length as numbers (strings are turned into the numbers). -/
structure Prm where
  digest : Option String := none
  pad : Option Int := none
  mgf1 : Option String := none
  salt : Option Int := none

/-- sa_provider_signature.c:933-958. -/
def setDigest (lib : Lib) (c : SCtx) : Option String → SCtx × Bool
  | none => (c, true)
  | some n => match lib.fetch n with
    | none => (c, false)
    | some m => ({ c with md := some m }, true)

/-- sa_provider_signature.c:960-997: a number that is not supported is stored nevertheless. -/
def setPad (c : SCtx) : Option Int → SCtx × Bool
  | none => (c, true)
  | some p => ({ c with pad := p }, p == RSA_PKCS1_PADDING || p == RSA_PKCS1_PSS_PADDING)

/-- sa_provider_signature.c:999-1024. -/
def setMgf1 (lib : Lib) (c : SCtx) : Option String → SCtx × Bool
  | none => (c, true)
  | some n => match lib.fetch n with
    | none => (c, false)
    | some m => ({ c with mgf1 := some m }, true)

/-- `signature_set_ctx_params`, sa_provider_signature.c:918-1051. -/
def setParams (lib : Lib) (c : SCtx) : Option Prm → SCtx × Bool
  | none => (c, true)
  | some p => match setDigest lib c p.digest with
    | (c, false) => (c, false)
    | (c, true) => match setPad c p.pad with
      | (c, false) => (c, false)
      | (c, true) => match setMgf1 lib c p.mgf1 with
        | (c, false) => (c, false)
        | (c, true) => ({ c with salt := p.salt.getD c.salt }, true)

/-- `signature_sign_init`, sa_provider_signature.c:190-208. -/
def signInit (lib : Lib) (c : SCtx) (k : Key) (p : Option Prm) : SCtx × Bool := setParams lib { c with key := some k } p

def isEdwards (k : Key) : Bool := k.type == 1 && (k.curve == CURVE_ED25519 || k.curve == CURVE_ED448)

/-- `signature_digest_sign_init`, sa_provider_signature.c:436-507: it always succeeds, with a context without a key if something is wrong. -/
def digestInit (lib : Lib) (c : SCtx) (name : Option String) (k : Key) (p : Option Prm) : SCtx × Bool :=
  let bad (c : SCtx) : SCtx := { c with md := none, data := none, key := none }
  match signInit lib c k p with
  | (c, false) => (bad c, true)
  | (c, true) =>
    if isEdwards k then
      if name.getD "" ≠ "" then (bad c, true) else ({ c with md := none, data := none }, true)
    else match name.bind lib.fetch with
      | none => (bad c, true)
      | some m => ({ c with md := some m, data := some [] }, true)

/-- What the functions return: `wrote b`: the bytes `b` are written to the buffer and `*siglen` is their number; `len n`: nothing is written and
`*siglen` is `n`; `overflow`: bytes are written behind the end of the buffer; `null`: NULL is followed. -/
inductive Ret
  | fail
  | len (n : Nat)
  | wrote (b : Bytes)
  | overflow
  | null
  deriving DecidableEq

/-- `signature_digest_sign_update`, sa_provider_signature.c:509-531; also `signature_digest_verify_update`, 631-636. -/
def update (c : SCtx) (b : Bytes) : SCtx × Ret :=
  match c.data with
  | none => (c, .null)
  | some d => ({ c with data := some (d ++ b) }, .len 0)

/-- The length of the salt, sa_provider_signature.c:263-280; `none`: the key is too short. -/
def saltLength (salt : Int) (digest bits : Nat) : Option Int :=
  if salt = SALTLEN_DIGEST then some (digestLen digest)
  else if salt = SALTLEN_AUTO ∨ salt = SALTLEN_MAX then
    let n : Int := ((bits + 7) / 8 : Nat) - (digestLen digest : Int) - 2
    let n := if bits % 8 = 1 then n - 1 else n
    if n < 0 then none else some n
  else some salt

/-- Algorithm and parameters of `sa_crypto_sign`, sa_provider_signature.c:237-307; `none`: the function fails.  A salt length that is negative
becomes a `size_t`. -/
def signParams (c : SCtx) (k : Key) : Option SignParams :=
  let digest := (digestFromMd c.md).getD 1
  if k.type = 2 then
    if c.pad = RSA_PKCS1_PADDING then some (.pkcs1 (some (digest, true)))
    else if c.pad = RSA_PKCS1_PSS_PADDING then
      match saltLength c.salt digest k.bits with
      | none => none
      | some n => some (.pss (some (digest, (digestFromMd c.mgf1).getD 1, UInt64.ofInt n, true)))
    else none
  else if k.type = 1 then
    if isPCurve k.curve then some (.ecdsa (some (digest, true))) else none
  else none

/-- The length octets of DER. -/
def derLen (n : Nat) : Bytes :=
  if n < 128 then [UInt8.ofNat n]
  else if n < 256 then [0x81, UInt8.ofNat n]
  else [0x82, UInt8.ofNat (n / 256), UInt8.ofNat n]

/-- A number in as few bytes as possible, most significant first (`BN_bn2bin`). -/
def minBytes (n : Nat) : Bytes := if _h : n = 0 then [] else minBytes (n / 256) ++ [UInt8.ofNat n]
termination_by n
decreasing_by omega

/-- The contents of an INTEGER that is not negative. -/
def derInt (n : Nat) : Bytes :=
  match minBytes n with
  | [] => [0]
  | b :: bs => if b ≥ 128 then 0 :: b :: bs else b :: bs

def tlv (tag : UInt8) (b : Bytes) : Bytes := tag :: derLen b.length ++ b

/-- `BN_bin2bn`. -/
def number (b : Bytes) : Nat := b.foldl (fun n x => n * 256 + x.toNat) 0

/-- `ec_encode_signature`, sa_public_key.c:107-160. -/
def encodeSignature (raw : Bytes) : Bytes :=
  let half := raw.length / 2
  tlv 0x30 (tlv 0x02 (derInt (number (raw.take half))) ++ tlv 0x02 (derInt (number ((raw.drop half).take half))))

/-- `signature_sign`, sa_provider_signature.c:210-343; `out`: NULL, or the size of the buffer, which the function does not look at. -/
def sign (api : Api) (c : SCtx) (out : Option Nat) (tbs : Bytes) : Ret :=
  match c.key with
  | none => .fail
  | some k => match signParams c k with
    | none => .fail
    | some p => match out with
      | none => match api.len k.handle p with
        | none => .fail
        | some n => .len (if k.type = 1 then n + 9 else n)
      | some size => match api.sign k.handle p tbs with
        | none => .fail
        | some raw =>
          let b := if k.type = 1 then encodeSignature raw else raw
          if b.length > size then .overflow else .wrote b

/-- `signature_digest_sign_final`, sa_provider_signature.c:533-567.  OpenSSL calls it with a copy of the context when there is a buffer. -/
def final (lib : Lib) (api : Api) (c : SCtx) (out : Option Nat) : Ret :=
  match out with
  | none => sign api c none []
  | some size => match c.data, c.md with
    | some d, some m => sign api c (some size) (lib.hash m d)
    | _, _ => .null

/-- `signature_digest_sign`, sa_provider_signature.c:569-621, which only Ed25519 and Ed448 have.  Here the size of the buffer is passed on. -/
def digestSign (api : Api) (c : SCtx) (out : Option Nat) (tbs : Bytes) : Ret :=
  match c.key with
  | none => .fail
  | some k =>
    if k.type ≠ 1 ∧ ¬ (k.curve = CURVE_ED25519 ∨ k.curve = CURVE_ED448) then .fail
    else match out with
      | none => match api.len k.handle .eddsa with
        | none => .fail
        | some n => .len n
      | some size => match api.sign k.handle .eddsa tbs with
        | none => .fail
        | some b => if b.length > size then .fail else .wrote b

/-- What OpenSSL is told to verify with, sa_provider_signature.c:352-434: for RSA padding, digest, and for PSS MGF1 digest and length of the salt.
OpenSSL takes the digest for MGF1 if it is not told one. -/
structure Verify where
  pss : Bool
  digest : Option Nat
  mgf1 : Option Nat
  salt : Int
  deriving DecidableEq

def verifyWith (c : SCtx) : Verify :=
  if c.pad = RSA_PKCS1_PSS_PADDING then
    { pss := true, digest := c.md, mgf1 := match c.mgf1 with | some m => some m | none => c.md, salt := c.salt }
  else { pss := false, digest := c.md, mgf1 := none, salt := 0 }

/-! sa_provider_signature.c:75-88. -/
def rsa_sha1_oid : Bytes := [0x30, 0x0d, 0x06, 0x09, 0x2a, 0x86, 0x48, 0x86, 0xf7, 0x0d, 0x01, 0x01, 0x0b, 0x05, 0x00]
def rsa_sha256_oid : Bytes := [0x30, 0x0d, 0x06, 0x09, 0x2a, 0x86, 0x48, 0x86, 0xf7, 0x0d, 0x01, 0x01, 0x0b, 0x05, 0x00]
def rsa_sha384_oid : Bytes := [0x30, 0x0d, 0x06, 0x09, 0x2a, 0x86, 0x48, 0x86, 0xf7, 0x0d, 0x01, 0x01, 0x0c, 0x05, 0x00]
def rsa_sha512_oid : Bytes := [0x30, 0x0d, 0x06, 0x09, 0x2a, 0x86, 0x48, 0x86, 0xf7, 0x0d, 0x01, 0x01, 0x0d, 0x05, 0x00]
def ecdsa_sha1_oid : Bytes := [0x30, 0x09, 0x06, 0x07, 0x2a, 0x86, 0x48, 0xce, 0x3d, 0x04, 0x01]
def ecdsa_sha256_oid : Bytes := [0x30, 0x0a, 0x06, 0x08, 0x2a, 0x86, 0x48, 0xce, 0x3d, 0x04, 0x03, 0x02]
def ecdsa_sha384_oid : Bytes := [0x30, 0x0a, 0x06, 0x08, 0x2a, 0x86, 0x48, 0xce, 0x3d, 0x04, 0x03, 0x03]
def ecdsa_sha512_oid : Bytes := [0x30, 0x0a, 0x06, 0x08, 0x2a, 0x86, 0x48, 0xce, 0x3d, 0x04, 0x03, 0x04]
def eddsa_ed25519_oid : Bytes := [0x30, 0x05, 0x06, 0x03, 0x2b, 0x65, 0x70]
def eddsa_ed448_oid : Bytes := [0x30, 0x05, 0x06, 0x03, 0x2b, 0x65, 0x71]

/-- `OSSL_SIGNATURE_PARAM_ALGORITHM_ID` of `signature_get_ctx_params`, sa_provider_signature.c:744-811; `none`: nothing is set. -/
def algorithmId (c : SCtx) (k : Key) : Option Bytes :=
  if k.evp = EVP_RSA then
    match digestFromMd c.md with
    | some 0 => some rsa_sha1_oid
    | some 1 => some rsa_sha256_oid
    | some 2 => some rsa_sha384_oid
    | some 3 => some rsa_sha512_oid
    | _ => none
  else if k.evp = EVP_EC then
    match digestFromMd c.md with
    | some 0 => some ecdsa_sha1_oid
    | some 1 => some ecdsa_sha256_oid
    | some 2 => some ecdsa_sha384_oid
    | some 3 => some ecdsa_sha512_oid
    | _ => none
  else if k.evp = EVP_ED25519 then some eddsa_ed25519_oid
  else if k.evp = EVP_ED448 then some eddsa_ed448_oid
  else none

end Sa.Psig

import Verif.Model.Unwrap
import Verif.Model.Mac

/-!
# Signatures (`taimpl/src/ta_sa_crypto_sign.c`, the signing functions of `taimpl/src/internal/rsa.c` and `ec.c`)

`key_store_unwrap` (modelled in `KeyStore`) is a parameter: its status and the key it hands out.  A precomputed digest is part of the message
given to OpenSSL.  The checks of `out_length == NULL` and of NULL arguments passed by the functions to each other are left out.
-/

namespace Sa

/-- OpenSSL's signing functions; `none`: anything on the way fails (parsing the private key, creating a context, a digest of the wrong length). -/
structure SignPrims where
  /-- key, digest, precomputed, message: the numbers `r` and `s` -/
  ecdsa : Bytes → Nat → Bool → Bytes → Option (Nat × Nat)
  /-- key, message -/
  eddsa : Bytes → Bytes → Option Bytes
  /-- key, digest, precomputed, message -/
  pkcs1 : Bytes → Nat → Bool → Bytes → Option Bytes
  /-- key, digest, MGF1 digest, length of the salt, precomputed, message -/
  pss : Bytes → Nat → Nat → Nat → Bool → Bytes → Option Bytes
  /-- `EVP_PKEY_bits(evp_pkey) / 8`; `none`: the key is not an RSA key -/
  rsaSize : Bytes → Option Nat

/-- Algorithm and parameters, sa_types.h:179-189 and 866-901; an `Option` that is `none` is a NULL pointer. -/
inductive SignParams where
  /-- digest, precomputed -/
  | ecdsa (p : Option (Nat × Bool))
  | eddsa
  /-- digest, MGF1 digest, salt length, precomputed -/
  | pss (p : Option (Nat × Nat × UInt64 × Bool))
  /-- digest, precomputed -/
  | pkcs1 (p : Option (Nat × Bool))
  | unknown
  deriving DecidableEq

/-- What the caller gets: the status, `*out_length`, the bytes written to `out`. -/
structure SignResp where
  status : Status
  outLength : Nat
  out : Option Bytes
  deriving DecidableEq

/-- `n` as `len` bytes, most significant first (`BN_bn2bin` after the zeros). -/
def beBytes : (len : Nat) → (n : Nat) → Bytes
  | 0, _ => []
  | len + 1, n => beBytes len (n / 256) ++ [UInt8.ofNat n]

/-- `bn_export`, ec.c:231-258. -/
def bnExport (len n : Nat) : Option Bytes := if n ≥ 256 ^ len then none else some (beBytes len n)

/-- `ec_sign_ecdsa`, ec.c:724-877, with a buffer of `n` bytes. -/
def ecSignEcdsa (p : SignPrims) (digest : Nat) (sk : StoredKey) (msg : Bytes) (pre : Bool) (n : Nat) : SignResp :=
  let size := sk.header.size.toNat
  if !isPCurve (curveOf sk.header.typeParameters) then ⟨.OPERATION_NOT_ALLOWED, n, none⟩
  else if n < size * 2 then ⟨.INVALID_PARAMETER, n, none⟩
  else match p.ecdsa sk.key digest pre msg with
    | none => ⟨.INTERNAL_ERROR, size * 2, none⟩
    | some (r, s) =>
      -- bn_export clears its part of the buffer before it fails
      match bnExport size r with
      | none => ⟨.INTERNAL_ERROR, size * 2, some (List.replicate size 0)⟩
      | some rb => match bnExport size s with
        | none => ⟨.INTERNAL_ERROR, size * 2, some (rb ++ List.replicate size 0)⟩
        | some sb => ⟨.OK, size * 2, some (rb ++ sb)⟩

/-- `ta_sa_crypto_sign_ecdsa`, ta_sa_crypto_sign.c:29-112.  `out` `none` is NULL, otherwise the value of `*out_length` is its size. -/
def signEcdsa (p : SignPrims) (params : Option (Nat × Bool)) (sk : StoredKey) (msg : Bytes) (out : Option Nat) (outLength : Nat) : SignResp :=
  match params with
  | none => ⟨.NULL_PARAMETER, outLength, none⟩
  | some (digest, pre) =>
    let curve := curveOf sk.header.typeParameters
    let size := sk.header.size.toNat
    if digest > 3 then ⟨.INVALID_PARAMETER, outLength, none⟩
    else if !isPCurve curve then ⟨.INVALID_PARAMETER, outLength, none⟩
    else if !keyTypeSupportsEc sk.header.type.toNat curve size then ⟨.INVALID_KEY_TYPE, outLength, none⟩
    else match out with
      | none => ⟨.OK, size * 2, none⟩
      | some n =>
        if n < size * 2 then ⟨.INVALID_PARAMETER, outLength, none⟩
        else ecSignEcdsa p digest sk msg pre n

/-- `ta_sa_crypto_sign_eddsa`, ta_sa_crypto_sign.c:114-187, with `ec_sign_eddsa`, ec.c:879-973 (whose own checks are the same;
`EVP_DigestSign` sets `*signature_length`). -/
def signEddsa (p : SignPrims) (sk : StoredKey) (msg : Bytes) (out : Option Nat) (outLength : Nat) : SignResp :=
  let curve := curveOf sk.header.typeParameters
  let size := sk.header.size.toNat
  if curve ≠ CURVE_ED25519 ∧ curve ≠ CURVE_ED448 then ⟨.INVALID_PARAMETER, outLength, none⟩
  else if !keyTypeSupportsEc sk.header.type.toNat curve size then ⟨.INVALID_KEY_TYPE, outLength, none⟩
  else if ecKeySizeFromCurve curve * 2 = 0 then ⟨.OPERATION_NOT_SUPPORTED, outLength, none⟩
  else match out with
    | none => ⟨.OK, ecKeySizeFromCurve curve * 2, none⟩
    | some n =>
      if n < ecKeySizeFromCurve curve * 2 then ⟨.INVALID_PARAMETER, outLength, none⟩
      else if n < size * 2 then ⟨.INVALID_PARAMETER, n, none⟩
      else match p.eddsa sk.key msg with
        | none => ⟨.INTERNAL_ERROR, n, none⟩
        | some sig => ⟨.OK, sig.length, some sig⟩

/-- `rsa_sign_pkcs1v15`, rsa.c:329-442. -/
def rsaSignPkcs1 (p : SignPrims) (digest : Nat) (sk : StoredKey) (msg : Bytes) (pre : Bool) (n : Nat) : SignResp :=
  match p.rsaSize sk.key with
  | none => ⟨.INTERNAL_ERROR, n, none⟩
  | some size =>
    if n < size then ⟨.INTERNAL_ERROR, n, none⟩
    else match p.pkcs1 sk.key digest pre msg with
      | none => ⟨.INTERNAL_ERROR, n, none⟩
      | some sig => ⟨.OK, sig.length, some sig⟩

/-- `rsa_sign_pss`, rsa.c:444-579.  The status is OK from the beginning (rsa.c:470), also if something fails. -/
def rsaSignPss (p : SignPrims) (digest mgf1 salt : Nat) (sk : StoredKey) (msg : Bytes) (pre : Bool) (n : Nat) : SignResp :=
  match p.rsaSize sk.key with
  | none => ⟨.OK, n, none⟩
  | some size =>
    if n < size then ⟨.OK, n, none⟩
    else match p.pss sk.key digest mgf1 salt pre msg with
      | none => ⟨.OK, n, none⟩
      | some sig => ⟨.OK, sig.length, some sig⟩

/-- `ta_sa_crypto_sign_rsa_pss`, ta_sa_crypto_sign.c:189-290. -/
def signPss (p : SignPrims) (params : Option (Nat × Nat × UInt64 × Bool)) (sk : StoredKey) (msg : Bytes) (out : Option Nat) (outLength : Nat) :
    SignResp :=
  match params with
  | none => ⟨.NULL_PARAMETER, outLength, none⟩
  | some (digest, mgf1, salt, pre) =>
    let size := sk.header.size.toNat
    if digest > 3 then ⟨.INVALID_PARAMETER, outLength, none⟩
    else if mgf1 > 3 then ⟨.INVALID_PARAMETER, outLength, none⟩
    else if !keyTypeSupportsRsa sk.header.type.toNat size then ⟨.INVALID_KEY_TYPE, outLength, none⟩
    else match out with
      | none => ⟨.OK, size, none⟩
      | some n =>
        if n < size then ⟨.INVALID_PARAMETER, outLength, none⟩
        else match digestLength digest with
          | none => ⟨.INVALID_PARAMETER, outLength, none⟩
          | some d =>
            -- `size_t` arithmetic
            if salt > sk.header.size.toUInt64 - UInt64.ofNat d - 2 then ⟨.INVALID_PARAMETER, outLength, none⟩
            else rsaSignPss p digest mgf1 salt.toNat sk msg pre n

/-- `ta_sa_crypto_sign_rsa_pkcs1v15`, ta_sa_crypto_sign.c:292-359. -/
def signPkcs1 (p : SignPrims) (params : Option (Nat × Bool)) (sk : StoredKey) (msg : Bytes) (out : Option Nat) (outLength : Nat) : SignResp :=
  match params with
  | none => ⟨.NULL_PARAMETER, outLength, none⟩
  | some (digest, pre) =>
    let size := sk.header.size.toNat
    if digest > 3 then ⟨.INVALID_PARAMETER, outLength, none⟩
    else if !keyTypeSupportsRsa sk.header.type.toNat size then ⟨.INVALID_KEY_TYPE, outLength, none⟩
    else match out with
      | none => ⟨.OK, size, none⟩
      | some n =>
        if n < size then ⟨.INVALID_PARAMETER, outLength, none⟩
        else rsaSignPkcs1 p digest sk msg pre n

/-- `ta_sa_crypto_sign`, ta_sa_crypto_sign.c:361-460.  `out`: NULL or not; `outLength` is `*out_length` and the size of the buffer. -/
def cryptoSign (p : SignPrims) (env : RightsEnv) (params : SignParams) (key : Status × Option StoredKey) (msg : Buf) (out : Bool)
    (outLength : Nat) : SignResp :=
  let fail s : SignResp := ⟨s, outLength, none⟩
  let buf := if out then some outLength else none
  if params = .unknown then fail .INVALID_PARAMETER
  else if msg.isBad then fail .NULL_PARAMETER
  else if key.1 ≠ .OK then fail key.1
  else match key.2 with
    | none => fail .NULL_PARAMETER
    | some sk =>
      if !rightsAllowedSign env sk.header.rights then fail .OPERATION_NOT_ALLOWED
      else match params with
        | .ecdsa q => signEcdsa p q sk (msg.get.getD []) buf outLength
        | .eddsa => signEddsa p sk (msg.get.getD []) buf outLength
        | .pss q => signPss p q sk (msg.get.getD []) buf outLength
        | .pkcs1 q => signPkcs1 p q sk (msg.get.getD []) buf outLength
        | .unknown => fail .INVALID_PARAMETER

end Sa

import Verif.Model.Kdf

/-!
# Key unwrapping (`taimpl/src/internal/unwrap.c`, `taimpl/src/ta_sa_key_unwrap.c`, `unwrap_*_internal` in `porting/otp.c`)

The session has been acquired by the caller.  Lengths are assumed to fit a C `int` (the conversions `(int) in_length` are not modelled).
The wrapping key's bytes are passed to the primitives as a whole.
-/

namespace Sa

/-- External functions used by the unwrapping code.  The authenticated ciphers are a decryption and a 16 byte tag: OpenSSL compares as many
bytes of it as the caller sets with `EVP_CTRL_*_SET_TAG`. -/
structure UnwrapPrims where
  /-- AES-CTR: key, counter block, data -/
  aesCtr : Bytes → Bytes → Bytes → Bytes
  /-- AES-GCM decryption: key, iv, data -/
  gcmDec : Bytes → Bytes → Bytes → Bytes
  /-- AES-GCM tag: key, iv, aad, data -/
  gcmTag : Bytes → Bytes → Bytes → Bytes → Bytes
  /-- ChaCha20: key, counter and nonce, data -/
  chacha20 : Bytes → Bytes → Bytes → Bytes
  /-- ChaCha20-Poly1305 decryption: key, nonce, data -/
  polyDec : Bytes → Bytes → Bytes → Bytes
  /-- ChaCha20-Poly1305 tag: key, nonce, aad, data -/
  polyTag : Bytes → Bytes → Bytes → Bytes → Bytes
  /-- RSA PKCS#1 v1.5 decryption (`rsa_decrypt_pkcs1v15`): private key, data; `none`: failure -/
  rsaPkcs1 : Bytes → Bytes → Option Bytes
  /-- RSA OAEP decryption (`rsa_decrypt_oaep`): private key, digest, MGF1 digest, label, data -/
  rsaOaep : Bytes → Nat → Nat → Option Bytes → Bytes → Option Bytes
  /-- message point of EC ElGamal, X and Y coordinates (ec.c:472-575): private key, curve, data -/
  elgamal : Bytes → Nat → Bytes → Option Bytes
  /-- the key is a private key on the curve (`ec_validate_private`, ec.c:246-310) -/
  ecValid : Nat → Bytes → Bool
  /-- size of an RSA private key, 0 if it is none (`rsa_validate_private`, rsa.c) -/
  rsaSize : Bytes → Nat

/-- What is assumed of them: lengths. -/
structure UnwrapPrims.Good (u : UnwrapPrims) : Prop where
  ctrLen : ∀ k iv m, (u.aesCtr k iv m).length = m.length
  gcmLen : ∀ k iv m, (u.gcmDec k iv m).length = m.length
  gcmTagLen : ∀ k iv a m, (u.gcmTag k iv a m).length = 16
  chachaLen : ∀ k iv m, (u.chacha20 k iv m).length = m.length
  polyLen : ∀ k iv m, (u.polyDec k iv m).length = m.length
  polyTagLen : ∀ k iv a m, (u.polyTag k iv a m).length = 16
  rsaPkcs1Len : ∀ k m r, u.rsaPkcs1 k m = some r → r.length ≤ m.length
  rsaOaepLen : ∀ k d g l m r, u.rsaOaep k d g l m = some r → r.length ≤ m.length

/-- Outside world of an unwrapping: the primitives, whether the allocation and the OpenSSL calls succeed. -/
structure UnwrapEnv where
  prims : UnwrapPrims
  allocOk : Bool
  ok : Bool

/-- `sa_type_parameters` with the curve set and everything else zero, unwrap.c:72-85. -/
def tpOfCurve (curve : Nat) : Vector UInt8 1040 :=
  ((((Vector.replicate 1040 0).set 0 (UInt8.ofNat curve)).set 1 (UInt8.ofNat (curve / 256))).set 2 (UInt8.ofNat (curve / 65536))).set 3
    (UInt8.ofNat (curve / 16777216))

/-- `import_key`, unwrap.c:37-102; `curve` is `none` if the type parameters are NULL. -/
def unwrapImportKey (env : Env) (u : UnwrapPrims) (rights wrapping : Rights) (keyType : Nat) (curve : Option Nat) (input : Bytes) :
    Status × Option StoredKey :=
  if keyType ≠ KEY_TYPE_EC ∧ keyType ≠ KEY_TYPE_SYMMETRIC ∧ keyType ≠ KEY_TYPE_RSA then (.INVALID_PARAMETER, none)
  else if keyType = KEY_TYPE_EC then
    match curve with
    | none => (.NULL_PARAMETER, none)
    | some c =>
      let size := if u.ecValid c input then ecKeySizeFromCurve c else 0
      if size = 0 then (.INTERNAL_ERROR, none)
      else storedKeyCreate (env.ok .storedKeyAlloc) rights (some wrapping) keyType (tpOfCurve c) size input
  else if keyType = KEY_TYPE_RSA then
    if u.rsaSize input = 0 then (.INTERNAL_ERROR, none)
    else storedKeyCreate (env.ok .storedKeyAlloc) rights (some wrapping) keyType (Vector.replicate 1040 0) (u.rsaSize input) input
  else storedKeyCreate (env.ok .storedKeyAlloc) rights (some wrapping) keyType (Vector.replicate 1040 0) input.length input

/-- AES-ECB decryption of `n` blocks. -/
def ecbDec (dec : Bytes → Bytes) : (n : Nat) → Bytes → Bytes
  | 0, _ => []
  | n + 1, c => dec (c.take 16) ++ ecbDec dec n (c.drop 16)

/-- What is asked for: rights, type and type parameters (curve) of the new key. -/
structure UnwrapTarget where
  rights : Rights
  keyType : Nat
  curve : Option Nat

/-- Common end of `unwrap_aes_ecb` (unwrap.c:156-180) and `unwrap_aes_cbc` (unwrap.c:247-271): padding, import.  `none`: out-of-bounds
access, when the buffer has no last block. -/
def unwrapPadded (env : Env) (u : UnwrapPrims) (t : UnwrapTarget) (wrapping : Rights) (pkcs7 : Bool) (clear : Bytes) :
    Option (Status × Option StoredKey) :=
  if pkcs7 then
    if clear.length < 16 then none
    else match padCheckPkcs7 (clear.drop (clear.length - 16)) with
      | none => none
      | some (false, _) => some (.INVALID_KEY_FORMAT, none)
      | some (true, v) =>
        some (unwrapImportKey env u t.rights wrapping t.keyType t.curve (clear.take (clear.length - v.toNat)))
  else some (unwrapImportKey env u t.rights wrapping t.keyType t.curve clear)

/-- The length checks of `unwrap_aes_ecb_internal` (otp.c:341-365) and `unwrap_aes_cbc_internal` (otp.c:427-451). -/
def blocksAndKeyOk (input key : Bytes) : Bool := decide (input.length % 16 = 0 ∧ (key.length = 16 ∨ key.length = 32))

/-- `unwrap_aes_ecb`, unwrap.c:104-187, and `unwrap_aes_ecb_internal`, otp.c:332-407. -/
def unwrapAesEcb (env : Env) (u : UnwrapEnv) (t : UnwrapTarget) (pkcs7 : Bool) (input : Bytes) (wk : StoredKey) :
    Option (Status × Option StoredKey) :=
  if !u.allocOk then some (.INTERNAL_ERROR, none)
  else if !blocksAndKeyOk input wk.key then some (.INVALID_PARAMETER, none)
  else if !u.ok then some (.INTERNAL_ERROR, none)
  else unwrapPadded env u.prims t wk.header.rights pkcs7 (ecbDec (env.prims.aesDec wk.key) (input.length / 16) input)

/-- `unwrap_aes_cbc`, unwrap.c:189-278, and `unwrap_aes_cbc_internal`, otp.c:409-491. -/
def unwrapAesCbc (env : Env) (u : UnwrapEnv) (t : UnwrapTarget) (pkcs7 : Bool) (iv input : Bytes) (wk : StoredKey) :
    Option (Status × Option StoredKey) :=
  if !u.allocOk then some (.INTERNAL_ERROR, none)
  else if !blocksAndKeyOk input wk.key then some (.INVALID_PARAMETER, none)
  else if !u.ok then some (.INTERNAL_ERROR, none)
  else unwrapPadded env u.prims t wk.header.rights pkcs7 (cbcDec (env.prims.aesDec wk.key) (input.length / 16) iv input)

/-- `unwrap_aes_ctr`, unwrap.c:280-394. -/
def unwrapAesCtr (env : Env) (u : UnwrapEnv) (t : UnwrapTarget) (ctr input : Bytes) (wk : StoredKey) : Status × Option StoredKey :=
  if !u.allocOk ∨ !u.ok then (.INTERNAL_ERROR, none)
  else unwrapImportKey env u.prims t.rights wk.header.rights t.keyType t.curve (u.prims.aesCtr wk.key ctr input)

/-- `unwrap_aes_gcm`, unwrap.c:396-479, and `unwrap_aes_gcm_internal`, otp.c:493-628.  OpenSSL refuses an empty tag
(`EVP_CTRL_GCM_SET_TAG` with a length of 0) and otherwise compares the given bytes with the beginning of the tag. -/
def unwrapAesGcm (env : Env) (u : UnwrapEnv) (t : UnwrapTarget) (iv aad tag input : Bytes) (wk : StoredKey) : Status × Option StoredKey :=
  if !u.allocOk then (.INTERNAL_ERROR, none)
  else if iv.length ≠ 12 then (.INVALID_PARAMETER, none)
  else if tag.length > 16 then (.INVALID_PARAMETER, none)
  else if ¬ (wk.key.length = 16 ∨ wk.key.length = 32) then (.INVALID_PARAMETER, none)
  else if !u.ok then (.INTERNAL_ERROR, none)
  else if tag.length = 0 then (.INTERNAL_ERROR, none)
  else if tag ≠ (u.prims.gcmTag wk.key iv aad input).take tag.length then (.INTERNAL_ERROR, none)
  else unwrapImportKey env u.prims t.rights wk.header.rights t.keyType t.curve (u.prims.gcmDec wk.key iv input)

/-- `unwrap_chacha20`, unwrap.c:483-594. -/
def unwrapChacha20 (env : Env) (u : UnwrapEnv) (t : UnwrapTarget) (counter nonce input : Bytes) (wk : StoredKey) : Status × Option StoredKey :=
  if !u.allocOk ∨ !u.ok then (.INTERNAL_ERROR, none)
  else unwrapImportKey env u.prims t.rights wk.header.rights t.keyType t.curve (u.prims.chacha20 wk.key (counter ++ nonce) input)

/-- `unwrap_chacha20_poly1305`, unwrap.c:596-745. -/
def unwrapPoly (env : Env) (u : UnwrapEnv) (t : UnwrapTarget) (nonce aad tag input : Bytes) (wk : StoredKey) : Status × Option StoredKey :=
  if !u.allocOk ∨ !u.ok then (.INTERNAL_ERROR, none)
  else if tag.length = 0 then (.INTERNAL_ERROR, none)
  else if tag ≠ (u.prims.polyTag wk.key nonce aad input).take tag.length then (.INTERNAL_ERROR, none)
  else unwrapImportKey env u.prims t.rights wk.header.rights t.keyType t.curve (u.prims.polyDec wk.key nonce input)

/-- `unwrap_rsa`, unwrap.c:749-844.  `oaep`: the outer `none` is PKCS#1 v1.5, the inner one NULL parameters, otherwise the two digests and
the label.  With a NULL label of positive length the function returns without freeing its buffer (unwrap.c:797-800). -/
def unwrapRsa (env : Env) (u : UnwrapEnv) (t : UnwrapTarget) (oaep : Option (Option (Nat × Nat × Buf))) (input : Bytes) (wk : StoredKey) :
    Status × Option StoredKey :=
  if !u.allocOk then (.INTERNAL_ERROR, none)
  else
    let finish (r : Option Bytes) : Status × Option StoredKey :=
      match r with
      | none => (.INTERNAL_ERROR, none)
      | some clear => unwrapImportKey env u.prims t.rights wk.header.rights KEY_TYPE_SYMMETRIC none clear
    match oaep with
    | none => finish (u.prims.rsaPkcs1 wk.key input)
    | some none => (.INVALID_PARAMETER, none)
    | some (some (d, mgf1, label)) =>
      if label.isBad then (.INVALID_PARAMETER, none)
      else finish (u.prims.rsaOaep wk.key d mgf1 label.get input)

/-- `is_pcurve`, ec.c: the NIST curves. -/
def isPCurve (curve : Nat) : Bool :=
  curve == CURVE_P256 || curve == CURVE_P384 || curve == CURVE_P521 || curve == CURVE_P192 || curve == CURVE_P224

/-- `ec_decrypt_elgamal`, ec.c:422-596, with an output buffer of `outLength` bytes: status and what is written to it.  The check of the curve
(ec.c:464-467) only sets the status that later failures return. -/
def ecDecryptElgamal (u : UnwrapPrims) (outLength : Nat) (sk : StoredKey) (input : Bytes) : Status × Bytes :=
  let curve := curveOf sk.header.typeParameters
  let size := sk.header.size.toNat
  let failed : Status := if isPCurve curve then .INTERNAL_ERROR else .OPERATION_NOT_ALLOWED
  if outLength < size then (failed, [])
  else if input.length ≠ size * 2 * 2 then (failed, [])
  else match u.elgamal sk.key curve input with
    | none => (failed, [])
    | some point => if point.length ≠ size * 2 then (failed, []) else (.OK, point.take size)

/-- `unwrap_ec`, unwrap.c:846-957; `offset` and `key_length` are 64-bit.  `none`: out-of-bounds access. -/
def unwrapEc (env : Env) (u : UnwrapEnv) (t : UnwrapTarget) (offset keyLength : UInt64) (input : Bytes) (wk : StoredKey) :
    Option (Status × Option StoredKey) :=
  let size := ecKeySizeFromCurve (curveOf wk.header.typeParameters)
  if size = 0 then some (.OPERATION_NOT_SUPPORTED, none)
  else if keyLength < 16 then some (.INVALID_PARAMETER, none)
  else if (addOverflow offset keyLength).1 then some (.INVALID_PARAMETER, none)
  else if (addOverflow offset keyLength).2.toNat > size then some (.INVALID_PARAMETER, none)
  else if input.length ≠ size * 4 then some (.INVALID_PARAMETER, none)
  else if !u.allocOk then some (.INTERNAL_ERROR, none)
  else match ecDecryptElgamal u.prims size wk input with
    | (.OK, clear) =>
      if clear.length ≠ size then some (.INTERNAL_ERROR, none)
      -- import_key(unwrapped_key + offset, key_length)
      else if offset.toNat + keyLength.toNat > clear.length then none
      else some (unwrapImportKey env u.prims t.rights wk.header.rights KEY_TYPE_SYMMETRIC none
        ((clear.drop offset.toNat).take keyLength.toNat))
    | (s, _) => some (s, none)

/-- Common shape of the functions of ta_sa_key_unwrap.c, ta_sa_key_exchange.c (DH and ECDH): unwrap a key, run `body` (checks and
computation), import the result.  `none`: out-of-bounds access. -/
def withKey (env : Env) (st : KeyStore) (key : Nat) (caller : Uuid) (body : StoredKey → Option (Status × Option StoredKey)) :
    Option (KeyStore × Status × Nat) :=
  match keyStoreUnwrap env st key caller with
  | none => none
  | some (st1, .OK, some sk) =>
    match body sk with
    | none => none
    | some (.OK, some d) => some (keyStoreImportStoredKey env st1 d caller)
    | some (.OK, none) => some (st1, .NULL_PARAMETER, SLOT_INVALID)
    | some (s, _) => some (st1, s, SLOT_INVALID)
  | some (st1, .OK, none) => some (st1, .NULL_PARAMETER, SLOT_INVALID)
  | some (st1, s, _) => some (st1, s, SLOT_INVALID)

/-- The checks of the wrapping key: the unwrap right, then the type (ta_sa_key_unwrap.c:88-98, 176-186, 278-288, 416-426 and so on). -/
def unwrapGate (env : Env) (typeOk : Header → Bool) (f : StoredKey → Option (Status × Option StoredKey)) (wk : StoredKey) :
    Option (Status × Option StoredKey) :=
  if !rightsAllowedUnwrap env.rights wk.header.rights then some (.OPERATION_NOT_ALLOWED, none)
  else if !typeOk wk.header then some (.INVALID_KEY_TYPE, none)
  else f wk

/-- Algorithm and parameters (sa_types.h); an `Option` that is `none` is a NULL pointer. -/
inductive UnwrapParams where
  | ecb (pkcs7 : Bool)
  | cbc (pkcs7 : Bool) (p : Option (Option Bytes))
  | ctr (p : Option (Option Bytes))
  /-- iv, aad, tag -/
  | gcm (p : Option (Option Bytes × Buf × Option Bytes))
  /-- counter, nonce -/
  | chacha20 (p : Option (Option Bytes × Option Bytes))
  /-- nonce, aad, tag -/
  | poly (p : Option (Option Bytes × Buf × Option Bytes))
  | rsa (oaep : Option (Option (Nat × Nat × Buf)))
  /-- offset, key length -/
  | elgamal (p : Option (UInt64 × UInt64))
  | unknown

/-- A pointer to a buffer that must have the given length: its check (for instance ta_sa_key_unwrap.c:150-158). -/
def fixedBuf (b : Option Bytes) (n : Nat) : Status :=
  match b with
  | none => .NULL_PARAMETER
  | some b => if b.length ≠ n then .INVALID_PARAMETER else .OK

/-- `ta_sa_key_unwrap`, ta_sa_key_unwrap.c:886-1004, and the functions for the algorithms (29-884): new store, status, key. -/
def keyUnwrapOp (env : Env) (u : UnwrapEnv) (st : KeyStore) (t : UnwrapTarget) (params : UnwrapParams) (wrapping : Nat) (input : Bytes)
    (caller : Uuid) : Option (KeyStore × Status × Nat) :=
  let fail s := some (st, s, SLOT_INVALID)
  let aes h := keyTypeSupportsAes h.type.toNat h.size.toNat
  let chacha h := keyTypeSupportsChacha20 h.type.toNat h.size.toNat
  match params with
  | .ecb pkcs7 =>
    if input.length % 16 ≠ 0 then fail .INVALID_PARAMETER
    else withKey env st wrapping caller (unwrapGate env aes (unwrapAesEcb env u t pkcs7 input))
  | .cbc pkcs7 p =>
    match p with
    | none => fail .NULL_PARAMETER
    | some iv =>
      if fixedBuf iv 16 ≠ .OK then fail (fixedBuf iv 16)
      else if input.length % 16 ≠ 0 then fail .INVALID_PARAMETER
      else withKey env st wrapping caller (unwrapGate env aes (unwrapAesCbc env u t pkcs7 (iv.getD []) input))
  | .ctr p =>
    match p with
    | none => fail .NULL_PARAMETER
    | some ctr =>
      if fixedBuf ctr 16 ≠ .OK then fail (fixedBuf ctr 16)
      else withKey env st wrapping caller (unwrapGate env aes fun wk => some (unwrapAesCtr env u t (ctr.getD []) input wk))
  | .gcm p =>
    match p with
    | none => fail .NULL_PARAMETER
    | some (iv, aad, tag) =>
      if fixedBuf iv 12 ≠ .OK then fail (fixedBuf iv 12)
      else if aad.isBad then fail .NULL_PARAMETER
      else match tag with
        | none => fail .NULL_PARAMETER
        | some tag =>
          if tag.length > 16 then fail .INVALID_PARAMETER
          else withKey env st wrapping caller (unwrapGate env aes fun wk =>
            some (unwrapAesGcm env u t (iv.getD []) (aad.get.getD []) tag input wk))
  | .chacha20 p =>
    match p with
    | none => fail .NULL_PARAMETER
    | some (counter, nonce) =>
      if fixedBuf counter 4 ≠ .OK then fail (fixedBuf counter 4)
      else if fixedBuf nonce 12 ≠ .OK then fail (fixedBuf nonce 12)
      else withKey env st wrapping caller (unwrapGate env chacha fun wk =>
        some (unwrapChacha20 env u t (counter.getD []) (nonce.getD []) input wk))
  | .poly p =>
    match p with
    | none => fail .NULL_PARAMETER
    | some (nonce, aad, tag) =>
      if fixedBuf nonce 12 ≠ .OK then fail (fixedBuf nonce 12)
      else if aad.isBad then fail .NULL_PARAMETER
      else if fixedBuf tag 16 ≠ .OK then fail (fixedBuf tag 16)
      else withKey env st wrapping caller (unwrapGate env chacha fun wk =>
        some (unwrapPoly env u t (nonce.getD []) (aad.get.getD []) (tag.getD []) input wk))
  | .rsa oaep =>
    if t.keyType ≠ KEY_TYPE_SYMMETRIC then fail .INVALID_PARAMETER
    else withKey env st wrapping caller fun wk =>
      -- the type is checked before the right, ta_sa_key_unwrap.c:741-757
      if !keyTypeSupportsRsa wk.header.type.toNat wk.header.size.toNat then some (.INVALID_KEY_TYPE, none)
      else if !rightsAllowedUnwrap env.rights wk.header.rights then some (.OPERATION_NOT_ALLOWED, none)
      else if input.length ≠ wk.header.size.toNat then some (.INVALID_PARAMETER, none)
      else some (unwrapRsa env u t oaep input wk)
  | .elgamal p =>
    if t.keyType ≠ KEY_TYPE_SYMMETRIC then fail .INVALID_PARAMETER
    else match p with
      | none => fail .NULL_PARAMETER
      | some (offset, keyLength) =>
        withKey env st wrapping caller (unwrapGate env
          (fun h => keyTypeSupportsEc h.type.toNat (curveOf h.typeParameters) h.size.toNat) (unwrapEc env u t offset keyLength input))
  | .unknown => fail .INVALID_PARAMETER

end Sa

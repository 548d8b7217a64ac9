import Verif.Model.Basic

/-!
# Cryptographic primitives and the modes built on them

The primitives themselves (AES block cipher, HMAC-SHA256) are parameters (`Prims`); the assumptions made about them are in
`Prims.Good`.  The modes of operation implemented by OpenSSL's EVP interface are written out.
-/

namespace Sa

/-- External primitives. -/
structure Prims where
  /-- AES encryption of one block: key, block -/
  aesEnc : Bytes → Bytes → Bytes
  /-- AES decryption of one block -/
  aesDec : Bytes → Bytes → Bytes
  /-- HMAC-SHA256: key, message -/
  hmac256 : Bytes → Bytes → Bytes
  /-- device-unique root key (porting/otp.c:67-107) -/
  rootKey : Bytes
  /-- root key common to all devices (porting/otp.c:109-143) -/
  commonRootKey : Bytes

/-- What is assumed about the primitives: block sizes are kept, decryption inverts encryption, HMAC-SHA256 has 32 bytes. -/
structure Prims.Good (p : Prims) : Prop where
  encLen : ∀ k b, b.length = 16 → (p.aesEnc k b).length = 16
  decLen : ∀ k b, b.length = 16 → (p.aesDec k b).length = 16
  decEnc : ∀ k b, b.length = 16 → p.aesDec k (p.aesEnc k b) = b
  macLen : ∀ k m, (p.hmac256 k m).length = 32

/-- Exclusive or of two strings of the same length; `xor`, key_store.c:84-93. -/
def xorBytes (a b : Bytes) : Bytes := List.zipWith (· ^^^ ·) a b

/-- AES-CBC encryption of `n` blocks (EVP_EncryptUpdate without padding). -/
def cbcEnc (enc : Bytes → Bytes) : (n : Nat) → (iv : Bytes) → Bytes → Bytes
  | 0, _, _ => []
  | n + 1, iv, m =>
    let c := enc (xorBytes (m.take 16) iv)
    c ++ cbcEnc enc n c (m.drop 16)

/-- AES-CBC decryption of `n` blocks. -/
def cbcDec (dec : Bytes → Bytes) : (n : Nat) → (iv : Bytes) → Bytes → Bytes
  | 0, _, _ => []
  | n + 1, iv, c =>
    xorBytes (dec (c.take 16)) iv ++ cbcDec dec n (c.take 16) (c.drop 16)

/-- `key_ladder_inputs_t` (taimpl/include/porting/otp.h). -/
structure KeyLadderInputs where
  c1 : Vector UInt8 16
  c2 : Vector UInt8 16
  c3 : Vector UInt8 16
  deriving DecidableEq

/-- `otp_hw_key_ladder`, porting/otp.c:234-330: three AES-ECB decryptions of one block each. -/
def otpHwKeyLadder (p : Prims) (root : Bytes) (k : KeyLadderInputs) : Bytes :=
  let k1 := p.aesDec root k.c1.toList
  let k2 := p.aesDec k1 k.c2.toList
  p.aesDec k2 k.c3.toList

/-- `otp_wrap_aes_cbc`, porting/otp.c:740-805, and `wrap_aes_cbc`, otp.c:145-226, given that OpenSSL succeeds; the length has been
checked to be a multiple of 16 (otp.c:762).  The conversion of the length to `int` (otp.c:214) is not modelled. -/
def otpWrapAesCbc (p : Prims) (k : KeyLadderInputs) (input : Bytes) (iv : Bytes) : Option Bytes :=
  if input.length % 16 ≠ 0 then none
  else some (cbcEnc (p.aesEnc (otpHwKeyLadder p p.rootKey k)) (input.length / 16) iv input)

/-- `otp_unwrap_aes_cbc`, porting/otp.c:807-872, and `unwrap_aes_cbc_internal`, otp.c:409-491. -/
def otpUnwrapAesCbc (p : Prims) (k : KeyLadderInputs) (input : Bytes) (iv : Bytes) : Option Bytes :=
  if input.length % 16 ≠ 0 then none
  else some (cbcDec (p.aesDec (otpHwKeyLadder p p.rootKey k)) (input.length / 16) iv input)

/-- `otp_hmac_sha256`, porting/otp.c:953-1023. -/
def otpHmacSha256 (p : Prims) (k : KeyLadderInputs) (in1 in2 in3 : Bytes) : Bytes :=
  p.hmac256 (otpHwKeyLadder p p.rootKey k) (in1 ++ in2 ++ in3)

end Sa

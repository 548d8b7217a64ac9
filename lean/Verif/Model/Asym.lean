/-
What OpenSSL does with the private keys of the TA when it signs and decrypts: rsa.c:130-579, ec.c:422-596 and 724-973, for OpenSSL 3.  This fills the parameters `SignPrims` and
`UnwrapPrims` of Model/Sign.lean and Model/Unwrap.lean, and `der` of Model/Inquiry.lean.

A context of an RSA key has settings, which are set one after the other and say what is done in the end; the operations themselves are parameters.
-/
import Verif.Model.Agree
import Verif.Model.Sign

namespace Sa.Asym

open Sa Sa.Agree

/-- RSA_PKCS1_PADDING, RSA_PKCS1_PSS_PADDING, RSA_PKCS1_OAEP_PADDING. -/
inductive Padding where
  | pkcs1
  | pss
  | oaep
  deriving DecidableEq

/-- An EVP_PKEY_CTX of an RSA key: padding, digest (of the signature or of OAEP), digest of MGF1, length of the salt and label that have been set. -/
structure Ctx where
  padding : Padding
  md : Option Nat
  mgf1 : Option Nat
  salt : Int
  label : Bytes

/-- `EVP_PKEY_CTX_new` with `EVP_PKEY_sign_init` or `EVP_PKEY_decrypt_init`: PKCS#1, and a salt as long as possible (RSA_PSS_SALTLEN_AUTO, -2). -/
def Ctx.new : Ctx := ⟨.pkcs1, none, none, -2, []⟩

/-- `EVP_PKEY_CTX_set_rsa_padding`: PSS and OAEP have SHA-1 unless there is another digest. -/
def setPadding (p : Padding) (c : Ctx) : Option Ctx := some { c with padding := p, md := if p ≠ .pkcs1 ∧ c.md = none then some 0 else c.md }

/-- `EVP_PKEY_CTX_set_signature_md`. -/
def setMd (d : Nat) (c : Ctx) : Option Ctx := some { c with md := some d }

/-- `EVP_PKEY_CTX_set_rsa_oaep_md`; `digest_mechanism` gives NULL for other digests than the four. -/
def setOaepMd (d : Nat) (c : Ctx) : Option Ctx := if c.padding = .oaep ∧ d ≤ 3 then some { c with md := some d } else none

/-- `EVP_PKEY_CTX_set_rsa_mgf1_md`. -/
def setMgf1 (d : Nat) (c : Ctx) : Option Ctx := if c.padding = .pkcs1 ∨ 3 < d then none else some { c with mgf1 := some d }

/-- `EVP_PKEY_CTX_set_rsa_pss_saltlen`: from RSA_PSS_SALTLEN_MAX, -3. -/
def setSalt (n : Int) (c : Ctx) : Option Ctx := if c.padding = .pss ∧ -3 ≤ n then some { c with salt := n } else none

/-- `EVP_PKEY_CTX_set0_rsa_oaep_label`. -/
def setLabel (b : Bytes) (c : Ctx) : Option Ctx := if c.padding = .oaep then some { c with label := b } else none

/-- A way to sign a digest with RSA. -/
inductive Scheme where
  | pkcs1 (md : Nat)
  | pss (md mgf1 salt : Nat)
  deriving DecidableEq

/-- A way to encrypt with RSA. -/
inductive Enc where
  | pkcs1
  | oaep (md mgf1 : Nat) (label : Bytes)
  deriving DecidableEq

/-- The part of OpenSSL that is used.  κ: private keys, ρ: public keys, π: points.  The operations get a `seed` where they use random numbers. -/
structure Lib (κ ρ π : Type) where
  /-- `evp_pkey_from_pkcs8`: what kind of key it has to be, and its PKCS#8 -/
  priv : Nat → Bytes → Option κ
  /-- `i2d_PUBKEY`, and its inverse -/
  encPub : ρ → Bytes
  decPub : Bytes → Option ρ
  pubOf : κ → ρ
  /-- `EVP_PKEY_bits` -/
  bits : κ → Nat
  /-- digests -/
  hash : Nat → Bytes → Bytes
  rsaSign : (seed : Nat) → κ → Scheme → Bytes → Option Bytes
  ecdsaSign : (seed : Nat) → κ → Bytes → Option (Nat × Nat)
  eddsaSign : κ → Bytes → Option Bytes
  rsaDecrypt : κ → Enc → Bytes → Option Bytes
  /-- the private number of a key on a curve: `EVP_PKEY_get_bn_param` -/
  number : κ → Option Nat
  /-- points of a curve from their coordinates and back; `none` for what is no point, and for the point at infinity -/
  point : Nat → Bytes → Option π
  coordinates : Nat → π → Option Bytes
  add : Nat → π → π → π
  neg : Nat → π → π
  mul : Nat → Nat → π → π

variable {κ ρ π : Type}

/-- EVP_PKEY_RSA. -/
def RSA_ID : Nat := 100

/-- The length of the salt that a setting stands for: RSA_PSS_SALTLEN_DIGEST (-1) is that of the digest, the other negative ones are as long as possible. -/
def saltOf (n : Int) (digest size : Nat) : Nat := if 0 ≤ n then n.toNat else if n = -1 then digest else size - digest - 2

/-- `EVP_PKEY_sign` and the end of `EVP_DigestSignFinal`: a digest of another length than the one set is refused. -/
def pkeySign (l : Lib κ ρ π) (seed : Nat) (k : κ) (c : Ctx) (digest : Bytes) : Option Bytes :=
  match c.md with
  | none => none
  | some md =>
    if digestLength md ≠ some digest.length then none
    else match c.padding with
      | .pkcs1 => l.rsaSign seed k (.pkcs1 md) digest
      | .pss => l.rsaSign seed k (.pss md (c.mgf1.getD md) (saltOf c.salt digest.length (l.bits k / 8))) digest
      | .oaep => none

/-- `EVP_PKEY_decrypt`. -/
def pkeyDecrypt (l : Lib κ ρ π) (k : κ) (c : Ctx) (data : Bytes) : Option Bytes :=
  match c.padding with
  | .pkcs1 => l.rsaDecrypt k .pkcs1 data
  | .oaep => match c.md with
    | none => none
    | some md => l.rsaDecrypt k (.oaep md (c.mgf1.getD md) c.label) data
  | .pss => none

/-- `EVP_DigestSignInit` with an RSA key: a context with the digest set. -/
def digestSignInit (d : Nat) : Ctx := { Ctx.new with md := some d }

/-- `rsa_sign_pkcs1v15`, rsa.c:354-436, after the check of the length of the buffer.  `ok`: making and starting the contexts, and digesting, succeed. -/
def signPkcs1 (l : Lib κ ρ π) (seed : Nat) (ok : Bool) (key : Bytes) (digest : Nat) (pre : Bool) (msg : Bytes) : Option Bytes :=
  (l.priv RSA_ID key).bind fun k =>
    if !ok then none
    else if pre then (setPadding .pkcs1 Ctx.new).bind fun c => (setMd digest c).bind fun c => pkeySign l seed k c msg
    else (setPadding .pkcs1 (digestSignInit digest)).bind fun c => pkeySign l seed k c (l.hash digest msg)

/-- `rsa_sign_pss`, rsa.c:470-574; the length of the salt is made an `int` (rsa.c:516, 553). -/
def signPss (l : Lib κ ρ π) (seed : Nat) (ok : Bool) (key : Bytes) (digest mgf1 salt : Nat) (pre : Bool) (msg : Bytes) : Option Bytes :=
  (l.priv RSA_ID key).bind fun k =>
    if !ok then none
    else if pre then
      (setPadding .pss Ctx.new).bind fun c => (setMgf1 mgf1 c).bind fun c => (setSalt (intOfSize (UInt64.ofNat salt)) c).bind fun c =>
        (setMd digest c).bind fun c => pkeySign l seed k c msg
    else
      (setPadding .pss (digestSignInit digest)).bind fun c => (setMgf1 mgf1 c).bind fun c => (setSalt (intOfSize (UInt64.ofNat salt)) c).bind fun c =>
        pkeySign l seed k c (l.hash digest msg)

/-- `ec_sign_ecdsa`, ec.c:774-845: the numbers that `d2i_ECDSA_SIG` takes out of the signature.  A precomputed digest of another length than that of the algorithm is refused. -/
def signEcdsa (l : Lib κ ρ π) (seed : Nat) (ok : Bool) (curve : Nat) (key : Bytes) (digest : Nat) (pre : Bool) (msg : Bytes) : Option (Nat × Nat) :=
  (l.priv (ecId curve) key).bind fun k =>
    if !ok then none
    else if pre then if digestLength digest ≠ some msg.length then none else l.ecdsaSign seed k msg
    else l.ecdsaSign seed k (l.hash digest msg)

/-- `ec_sign_eddsa`, ec.c:921-964. -/
def signEddsa (l : Lib κ ρ π) (ok : Bool) (curve : Nat) (key msg : Bytes) : Option Bytes :=
  (l.priv (ecId curve) key).bind fun k => if !ok then none else l.eddsaSign k msg

/-- The signing functions, for a key on `curve` (if it is on one). -/
def Lib.signing (l : Lib κ ρ π) (seed : Nat) (ok : Bool) (curve : Nat) : SignPrims where
  ecdsa := signEcdsa l seed ok curve
  eddsa := signEddsa l ok curve
  pkcs1 := signPkcs1 l seed ok
  pss := signPss l seed ok
  rsaSize key := (l.priv RSA_ID key).map fun k => l.bits k / 8

/-- `rsa_decrypt_pkcs1v15`, rsa.c:156-213.  The callers' buffers are as long as the data. -/
def decryptPkcs1 (l : Lib κ ρ π) (ok : Bool) (key data : Bytes) : Option Bytes :=
  (l.priv RSA_ID key).bind fun k =>
    if data.length ≠ l.bits k / 8 then none
    else if !ok then none
    else (setPadding .pkcs1 Ctx.new).bind fun c => pkeyDecrypt l k c data

/-- `rsa_decrypt_oaep`, rsa.c:245-327.  `label`: `none` is NULL; an empty one is not set. -/
def decryptOaep (l : Lib κ ρ π) (ok : Bool) (key : Bytes) (digest mgf1 : Nat) (label : Option Bytes) (data : Bytes) : Option Bytes :=
  (l.priv RSA_ID key).bind fun k =>
    if data.length ≠ l.bits k / 8 then none
    else if !ok then none
    else (setPadding .oaep Ctx.new).bind fun c => (setOaepMd digest c).bind fun c => (setMgf1 mgf1 c).bind fun c =>
      match label with
      | some (b :: bs) => (setLabel (b :: bs) c).bind fun c => pkeyDecrypt l k c data
      | _ => pkeyDecrypt l k c data

/-- `ec_decrypt_elgamal`, ec.c:469-575, and `export_point`, ec.c:182-229: C2 - x·C1.  There is no group for the other curves. -/
def decryptElgamal (l : Lib κ ρ π) (ok : Bool) (key : Bytes) (curve : Nat) (data : Bytes) : Option Bytes :=
  (l.priv (ecId curve) key).bind fun k =>
    if !isPCurve curve then none
    else if !ok then none
    else (l.point curve (data.take (data.length / 2))).bind fun c1 => (l.point curve (data.drop (data.length / 2))).bind fun c2 =>
      (l.number k).bind fun x => l.coordinates curve (l.add curve c2 (l.neg curve (l.mul curve x c1)))

/-- The decryption functions; the rest is `u`. -/
def Lib.unwrapping (l : Lib κ ρ π) (ok : Bool) (u : UnwrapPrims) : UnwrapPrims :=
  { u with rsaPkcs1 := decryptPkcs1 l ok, rsaOaep := decryptOaep l ok, elgamal := decryptElgamal l ok }

/-- The public key of a private key, encoded (rsa.c:66-97, ec.c:348-387). -/
def Lib.der (l : Lib κ ρ π) (type curve : Nat) (key : Bytes) : Option Bytes :=
  if type = KEY_TYPE_RSA then (l.priv RSA_ID key).map fun k => l.encPub (l.pubOf k)
  else if type = KEY_TYPE_EC then (l.priv (ecId curve) key).map fun k => l.encPub (l.pubOf k)
  else none

/-- `ta_sa_crypto_sign`, ta_sa_crypto_sign.c:361-460, with the key of a handle.  `out`: NULL or a buffer of `outLength` bytes. -/
def taSign (l : Lib κ ρ π) (seed : Nat) (ok : Bool) (env : Env) (st : KeyStore) (params : SignParams) (key : Nat) (msg : Buf) (out : Bool) (outLength : Nat) (caller : Uuid) :
    Option (KeyStore × SignResp) :=
  match keyStoreUnwrap env st key caller with
  | none => none
  | some (st, s, k) =>
    let curve := match k with
      | none => 0
      | some k => curveOf k.header.typeParameters
    some (st, cryptoSign (l.signing seed ok curve) env.rights params (s, k) msg out outLength)

end Sa.Asym

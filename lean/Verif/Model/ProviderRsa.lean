import Verif.Model.ProviderSign

/-!
# RSA encryption of the OpenSSL 3 provider (`client/src/sa_provider_asym_cipher.c`)

Encryption is done by OpenSSL with the public key, decryption by the API; both are parameters.  Digests are those of `ProviderSign`.  NULL arguments, failing
allocations and parameters of the wrong type are left out; so is the leak of the default digest.
-/

namespace Sa.Pr

open Sa.Psig (Lib digestFromMd)

def RSA_NO_PADDING : Int := 3
def RSA_PKCS1_OAEP_PADDING : Int := 4

/-- `sa_provider_asym_cipher_context`, sa_provider_asym_cipher.c:40-49, without the key. -/
structure ACtx where
  pad : Int
  md : Option Nat
  mgf1 : Option Nat
  label : Option Bytes
  deriving DecidableEq

/-- `asym_cipher_newctx`, sa_provider_asym_cipher.c:69-90. -/
def newctx : ACtx := { pad := Psig.RSA_PKCS1_PADDING, md := none, mgf1 := none, label := none }

/-- The padding as a number or as a string. -/
inductive Pad
  | int (n : Int)
  | name (s : String)

/-- `padding_values`, sa_provider_asym_cipher.c:51-55 and 481-505: a string that is not in the table is 0. -/
def padOf : Pad → Int
  | .int n => n
  | .name s =>
    if s = "pkcs1" then Psig.RSA_PKCS1_PADDING
    else if s = "none" then RSA_NO_PADDING
    else if s = "oaep" then RSA_PKCS1_OAEP_PADDING
    else 0

/-- `OSSL_PARAM`s of `asym_cipher_set_ctx_params`. -/
structure Prm where
  digest : Option String := none
  pad : Option Pad := none
  mgf1 : Option String := none
  label : Option Bytes := none

/-- sa_provider_asym_cipher.c:453-477. -/
def setDigest (lib : Lib) (c : ACtx) : Option String → ACtx × Bool
  | none => (c, true)
  | some n => ({ c with md := lib.fetch n }, (lib.fetch n).isSome)

/-- sa_provider_asym_cipher.c:479-508. -/
def setPad (c : ACtx) : Option Pad → ACtx
  | none => c
  | some p => { c with pad := padOf p }

/-- sa_provider_asym_cipher.c:510-534. -/
def setMgf1 (lib : Lib) (c : ACtx) : Option String → ACtx × Bool
  | none => (c, true)
  | some n => ({ c with mgf1 := lib.fetch n }, (lib.fetch n).isSome)

/-- `asym_cipher_set_ctx_params`, sa_provider_asym_cipher.c:438-551. -/
def setParams (lib : Lib) (c : ACtx) (p : Prm) : ACtx × Bool :=
  match setDigest lib c p.digest with
  | (c, false) => (c, false)
  | (c, true) => match setMgf1 lib (setPad c p.pad) p.mgf1 with
    | (c, false) => (c, false)
    | (c, true) => ({ c with label := match p.label with | none => c.label | some l => some l }, true)

/-- sa_provider_asym_cipher.c:211-215, 297-301. -/
def oaepMd (lib : Lib) (c : ACtx) : Option Nat := match c.md with | some m => some m | none => lib.fetch "SHA1"

/-- sa_provider_asym_cipher.c:217, 303: the digest of MGF1 itself is never taken. -/
def oaepMgf1 (lib : Lib) (c : ACtx) : Option Nat := if c.mgf1.isSome then oaepMd lib c else c.md

/-- What OpenSSL or the API is told. -/
inductive Scheme
  | pkcs1
  | oaep (digest mgf1 : Option Nat) (label : Bytes)
  | other (pad : Int)
  deriving DecidableEq

/-- What OpenSSL is told to encrypt with, in terms of OpenSSL's numbers: `asym_cipher_encrypt`, sa_provider_asym_cipher.c:205-243. -/
def encryptWith (lib : Lib) (c : ACtx) : Scheme :=
  if c.pad = RSA_PKCS1_OAEP_PADDING then .oaep (oaepMd lib c) (oaepMgf1 lib c) (c.label.getD [])
  else if c.pad = Psig.RSA_PKCS1_PADDING then .pkcs1
  else .other c.pad

/-- What the API is told to decrypt with, in terms of the API's numbers, `none` being `UINT32_MAX`: `asym_cipher_decrypt`, sa_provider_asym_cipher.c:292-311. -/
def decryptWith (lib : Lib) (c : ACtx) : Scheme :=
  if c.pad = RSA_PKCS1_OAEP_PADDING then .oaep (digestFromMd (oaepMd lib c)) (digestFromMd (oaepMgf1 lib c)) (c.label.getD [])
  else .pkcs1

/-- The digest that the provider says is MGF1's: sa_provider_asym_cipher.c:401-411. -/
def toldMgf1 (c : ACtx) : Option Nat := if c.mgf1.isNone then c.md else c.mgf1

/-- `OSSL_ASYM_CIPHER_PARAM_PAD_MODE` as a number, sa_provider_asym_cipher.c:363-369: the number (`stored`, if there is room for it) and whether the function
succeeds. -/
def getPadInt (c : ACtx) (room : Bool) : Option Int × Bool := if room then (some c.pad, false) else (none, true)

/-- The padding as a string, sa_provider_asym_cipher.c:371-383; `none`: nothing is set. -/
def getPadName (c : ACtx) : Option String :=
  if c.pad = Psig.RSA_PKCS1_PADDING then some "pkcs1"
  else if c.pad = RSA_NO_PADDING then some "none"
  else if c.pad = RSA_PKCS1_OAEP_PADDING then some "oaep"
  else none

/-- What becomes of a copy. -/
inductive Copy
  | ctx (c : ACtx)
  | fail
  | null
  deriving DecidableEq

/-- `asym_cipher_dupctx`, sa_provider_asym_cipher.c:107-140: `junk` is what is in the memory that `OPENSSL_malloc` gives; `OPENSSL_malloc(0)` is NULL, and
`EVP_MD_up_ref` follows its argument. -/
def dup (junk : Nat → Bytes) (c : ACtx) : Copy :=
  if c.md.isNone ∨ c.mgf1.isNone then .null
  else if (c.label.getD []).length = 0 then .fail
  else .ctx { c with label := some (junk (c.label.getD []).length) }

end Sa.Pr

import Verif.Model.Unwrap

/-!
# Key generation and import (`taimpl/src/ta_sa_key_generate.c`, `ta_sa_key_import.c`)

Pointers that the dispatcher passes on (`key`, `client`, `caller_uuid`) are not NULL.  The command handlers (ta.c:121-373) always pass
parameters; they are `none` here if NULL.  The client session is fixed: what is modelled is the effect on its key store.
-/

namespace Sa

/-- OpenSSL and random numbers in the generation functions; `none` is a failure. -/
structure GenEnv where
  /-- `memory_secure_alloc` and `rand_bytes` in `symmetric_generate_key`: a buffer of the given length -/
  random : Nat → Option Bytes
  /-- `EVP_PKEY_keygen` for a curve, as PKCS#8 (ec.c:1008-1075) -/
  ecKey : Nat → Option Bytes
  /-- `EVP_PKEY_keygen` for a number of bits, as PKCS#8 (rsa.c:606-643) -/
  rsaKey : Int → Option Bytes
  /-- `EVP_PKEY_generate` for p and g, as PKCS#8 (dh.c:306-431), or the status of the failure -/
  dhKey : Bytes → Bytes → Except Status Bytes

/-- What is assumed of it. -/
structure GenEnv.Good (g : GenEnv) : Prop where
  randomLen : ∀ n r, g.random n = some r → r.length = n
  ecLen : ∀ c r, g.ecKey c = some r → r.length + 16 < 2 ^ 64
  rsaLen : ∀ c r, g.rsaKey c = some r → r.length + 16 < 2 ^ 64
  dhLen : ∀ p q r, g.dhKey p q = .ok r → r.length + 16 < 2 ^ 64
  dhFail : ∀ p q s, g.dhKey p q = .error s → s ≠ .OK

/-- Parameters of `sa_key_generate`: key length; curve; modulus length; p and g (`none`: NULL). -/
inductive GenParams where
  | symmetric (keyLength : UInt64)
  | ec (curve : Nat)
  | rsa (modulusLength : UInt64)
  | dh (p g : Option Bytes)

/-- `(int) modulus_length`: the low 32 bits as a signed number. -/
def intOfSize (n : UInt64) : Int := let m : Nat := n.toNat % 2 ^ 32; if m < 2 ^ 31 then m else (m : Int) - 2 ^ 32

/-- A value of type `int`. -/
def FitsInt (i : Int) : Prop := -(2 ^ 31) ≤ i ∧ i < 2 ^ 31

instance (i : Int) : Decidable (FitsInt i) := by unfold FitsInt; infer_instance

/-- Type parameters of a DH key: p at 0, its length at 512, g at 520, its length at 1032 (sa_types.h:500-521, dh.c:433-438). -/
def tpOfDh (p g : Bytes) : Vector UInt8 1040 :=
  Vector.ofFn fun i =>
    if i.val < 512 then p.getD i.val 0
    else if i.val < 520 then UInt8.ofNat (p.length / 256 ^ (i.val - 512))
    else if i.val < 1032 then g.getD (i.val - 520) 0
    else UInt8.ofNat (g.length / 256 ^ (i.val - 1032))

/-- `symmetric_generate_key`, `ec_generate_key`, `rsa_generate_key`, `dh_generate_key` (symmetric.c:36-87, ec.c:975-1098, rsa.c:581-663,
dh.c:253-471) with the length checks of ta_sa_key_generate.c:65-68, 242-260.  `none`: signed overflow (rsa.c:619). -/
def generateKey (allocOk : Bool) (g : GenEnv) (rights : Rights) : GenParams → Option (Status × Option StoredKey)
  | .symmetric n =>
    if n < 16 ∨ n > 512 then some (.INVALID_PARAMETER, none)
    else
      match g.random n.toNat with
      | none => some (.INTERNAL_ERROR, none)
      | some r => some (storedKeyCreate allocOk rights none KEY_TYPE_SYMMETRIC (Vector.replicate 1040 0) n.toNat r)
  | .ec c =>
    if ecKeySizeFromCurve c = 0 then some (.INVALID_PARAMETER, none)
    else
      match g.ecKey c with
      | none => some (.INTERNAL_ERROR, none)
      | some r => some (storedKeyCreate allocOk rights none KEY_TYPE_EC (tpOfCurve c) (ecKeySizeFromCurve c) r)
  | .rsa n =>
    if ¬ FitsInt (intOfSize n * 8) then none
    else
      match g.rsaKey (intOfSize n * 8) with
      | none => some (.INTERNAL_ERROR, none)
      | some r => some (storedKeyCreate allocOk rights none KEY_TYPE_RSA (Vector.replicate 1040 0) n.toNat r)
  | .dh p q =>
    match p with
    | none => some (.NULL_PARAMETER, none)
    | some p =>
      if !keyTypeSupportsDh KEY_TYPE_DH p.length then some (.INVALID_PARAMETER, none)
      else
        match q with
        | none => some (.NULL_PARAMETER, none)
        | some q =>
          if q.length < 1 ∨ q.length > p.length then some (.INVALID_PARAMETER, none)
          else
            match g.dhKey p q with
            | .error s => some (s, none)
            | .ok r => some (storedKeyCreate allocOk rights none KEY_TYPE_DH (tpOfDh p q) p.length r)

/-- The common end of the functions of both files: import if there is a key. -/
def importMade (env : Env) (st : KeyStore) (caller : Uuid) : Option (Status × Option StoredKey) → Option (KeyStore × Status × Nat)
  | none => none
  | some (.OK, some d) => some (keyStoreImportStoredKey env st d caller)
  | some (.OK, none) => some (st, .NULL_PARAMETER, SLOT_INVALID)
  | some (s, _) => some (st, s, SLOT_INVALID)

/-- `ta_sa_key_generate`, ta_sa_key_generate.c:284-356. -/
def keyGenerate (env : Env) (g : GenEnv) (st : KeyStore) (rights : Rights) (params : Option GenParams) (caller : Uuid) :
    Option (KeyStore × Status × Nat) :=
  match params with
  | none => some (st, .NULL_PARAMETER, SLOT_INVALID)
  | some params => importMade env st caller (generateKey (env.ok .storedKeyAlloc) g rights params)

/-- Formats of `sa_key_import` handled here, with their parameters. -/
inductive ImportFormat where
  | symmetricBytes (rights : Rights)
  | ecPrivateBytes (curve : Nat) (rights : Rights)
  | rsaPrivateKeyInfo (rights : Rights)

/-- ta_sa_key_import.c:32-258 up to `stored_key_import`. -/
def importKeyBytes (allocOk : Bool) (u : UnwrapPrims) (input : Bytes) : ImportFormat → Status × Option StoredKey
  | .symmetricBytes rights =>
    if input.length < 16 ∨ input.length > 512 then (.INVALID_PARAMETER, none)
    else storedKeyImport allocOk rights KEY_TYPE_SYMMETRIC (Vector.replicate 1040 0) input.length input
  | .ecPrivateBytes c rights =>
    let size := if u.ecValid c input then ecKeySizeFromCurve c else 0
    if size = 0 then (.INVALID_PARAMETER, none)
    else storedKeyImport allocOk rights KEY_TYPE_EC (tpOfCurve c) size input
  | .rsaPrivateKeyInfo rights =>
    let size := u.rsaSize input
    if size = 0 then (.INVALID_KEY_FORMAT, none)
    else if size ≠ 128 ∧ size ≠ 256 ∧ size ≠ 384 ∧ size ≠ 512 then (.INVALID_PARAMETER, none)
    else storedKeyImport allocOk rights KEY_TYPE_RSA (Vector.replicate 1040 0) size input

/-- `ta_sa_key_import` for these formats, ta_sa_key_import.c:527-623. -/
def keyImport (env : Env) (u : UnwrapPrims) (st : KeyStore) (input : Bytes) (format : ImportFormat) (caller : Uuid) :
    Option (KeyStore × Status × Nat) :=
  importMade env st caller (some (importKeyBytes (env.ok .storedKeyAlloc) u input format))

end Sa

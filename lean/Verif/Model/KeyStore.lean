import Verif.Model.ObjectStore
import Verif.Model.Layout
import Verif.Model.Pad
import Verif.Model.Crypto

/-!
# Key store (`taimpl/src/internal/key_store.c`)

Pointer arguments are values (no NULL checks except where NULL has a meaning).  Calls that can fail for external reasons
(allocation, random numbers, OpenSSL) have a `Site`; `Env.ok` says which of them succeed.
-/

namespace Sa

/-- Fallible external calls of key_store.c. -/
inductive Site where
  /-- stored_key.c:131,139 -/
  | storedKeyAlloc
  /-- key_store.c:214 -/
  | unwrapAlloc
  /-- key_store.c:201 -/
  | unwrapHmac
  /-- key_store.c:221 -/
  | unwrapCbc
  /-- key_store.c:281 -/
  | wrapAlloc
  /-- key_store.c:140 -/
  | padAlloc
  /-- key_store.c:315 -/
  | wrapRand
  /-- key_store.c:322 -/
  | wrapCbc
  /-- key_store.c:330 -/
  | wrapHmac
  /-- key_store.c:421 -/
  | inputsRand
  deriving DecidableEq, Repr

/-- `derivation_inputs_t`, key_store.c:38-41. -/
structure DerivationInputs where
  wrappingKeyInputs : KeyLadderInputs
  integrityKeyInputs : KeyLadderInputs
  deriving DecidableEq

/-- Outside world of one call. -/
structure Env where
  prims : Prims
  rights : RightsEnv
  ok : Site → Bool
  /-- `rand_bytes` at key_store.c:421 -/
  randInputs : DerivationInputs
  /-- `rand_bytes` at key_store.c:315 -/
  randIv : Vector UInt8 16
  /-- contents of freshly allocated memory -/
  garbage : Nat → UInt8

/-- `cipher_parameters_t`, key_store.c:63-66: 24 bytes. -/
structure CipherParameters where
  iv : Vector UInt8 16
  ciphertextLength : UInt64
  deriving DecidableEq

def SIZEOF_CIPHER_PARAMETERS : Nat := 24
def SIZEOF_SIGNATURE : Nat := 32

def encodeCipherParameters (c : CipherParameters) : Bytes := c.iv.toList ++ encodeU64 c.ciphertextLength

def decodeCipherParameters (bs : Bytes) : CipherParameters :=
  let (iv, bs) := takeVec 16 bs
  let (len, _) := takeVec 8 bs
  { iv := iv, ciphertextLength := decodeU64 len }

/-- `wrapped_key_t`, key_store.c:75-81. -/
structure WrappedKey where
  header : Header
  cipherParameters : CipherParameters
  ciphertext : Bytes
  signature : Bytes
  derivationInputs : DerivationInputs
  deriving DecidableEq

abbrev KeyStore := ObjectStore WrappedKey

/-- `global_key_store.export_derivation_inputs`, key_store.c:43-61. -/
def exportDerivationInputs : DerivationInputs :=
  { wrappingKeyInputs :=
      { c1 := #v[0x91, 0xa4, 0x5a, 0xc9, 0x2b, 0x5e, 0xd7, 0x40, 0x20, 0x33, 0x6e, 0x47, 0xad, 0x48, 0x56, 0xba]
        c2 := #v[0x82, 0x1b, 0x1f, 0x0c, 0x52, 0x04, 0x8b, 0x28, 0xbe, 0xa0, 0x59, 0x34, 0xb4, 0xd9, 0xa8, 0xae]
        c3 := #v[0x80, 0x46, 0xd8, 0xdc, 0xf3, 0xfb, 0xcd, 0xfb, 0x85, 0x05, 0x30, 0x6d, 0x07, 0x33, 0x5b, 0x8c] }
    integrityKeyInputs :=
      { c1 := #v[0xe5, 0x46, 0xb9, 0x91, 0xb5, 0x2c, 0x79, 0xf8, 0xab, 0x9f, 0x34, 0xb8, 0x85, 0x9a, 0xec, 0x19]
        c2 := #v[0x77, 0x48, 0xbf, 0xc6, 0x21, 0x6d, 0x89, 0x19, 0x7c, 0x51, 0xc9, 0xaf, 0x52, 0xe3, 0xed, 0x2a]
        c3 := #v[0x11, 0x5b, 0xb8, 0xf6, 0x1a, 0xe1, 0xbe, 0x28, 0x03, 0xb1, 0x98, 0x4a, 0xde, 0xff, 0x57, 0x08] } }

/-- Mixin applied to both ladders, key_store.c:520-527 and 767-773. -/
def mixedInputs (mixin : Vector UInt8 16) : DerivationInputs :=
  let d := exportDerivationInputs
  { wrappingKeyInputs := { d.wrappingKeyInputs with c3 := Vector.zipWith (· ^^^ ·) d.wrappingKeyInputs.c3 mixin }
    integrityKeyInputs := { d.integrityKeyInputs with c3 := Vector.zipWith (· ^^^ ·) d.integrityKeyInputs.c3 mixin } }

/-- `validate_header_format`, key_store.c:95-121. -/
def validateHeaderFormat (h : Header) : Bool :=
  if memcmpConstant h.magic.toList MAGIC.toList 4 ≠ some 0 then false
  else if !rightsValidateFormat h.rights then false
  else if !keyTypeSupportsAny h.type.toNat (curveOf h.typeParameters) h.size.toNat then false
  else true

/-- `pad`, key_store.c:124-156. -/
def keyPad (env : Env) (input : Bytes) : Option Bytes :=
  let paddedLength := paddedSize input.length
  if !env.ok .padAlloc then none
  else
    let padded := (List.range paddedLength).map env.garbage
    let padValue := UInt8.ofNat (paddedLength - input.length)
    match padApplyPkcs7 (padded.drop (paddedLength - 16)) padValue with
    | none => none
    | some block =>
      let padded := padded.take (paddedLength - 16) ++ block
      -- memcpy(padded, in, in_length)
      some (input ++ padded.drop input.length)

/-- `unwrap`, key_store.c:158-247.  `ciphertext` is the memory from the ciphertext pointer on.  Outer `none`: out-of-bounds
access; inner `none`: NULL result. -/
def keyUnwrap (env : Env) (d : DerivationInputs) (header : Header) (cp : CipherParameters) (ciphertext signature : Bytes) :
    Option (Option StoredKey) :=
  let len := cp.ciphertextLength.toNat
  if len < 16 ∨ len % 16 ≠ 0 then some none
  else if ciphertext.length < len then none
  else
    let ct := ciphertext.take len
    if !env.ok .unwrapHmac then some none
    else
      let mac := otpHmacSha256 env.prims d.integrityKeyInputs (encodeHeader header) (encodeCipherParameters cp) ct
      match memcmpConstant mac signature 32 with
      | none => none
      | some r =>
        if r ≠ 0 then some none
        else if !env.ok .unwrapAlloc then some none
        else if !env.ok .unwrapCbc then some none
        else match otpUnwrapAesCbc env.prims d.wrappingKeyInputs ct cp.iv.toList with
          | none => some none
          | some cleartext =>
            match padCheckPkcs7 (cleartext.drop (len - 16)) with
            | none => none
            | some (false, _) => some none
            | some (true, padValue) =>
              some (storedKeyCreate (env.ok .storedKeyAlloc) header.rights none header.type.toNat header.typeParameters
                header.size.toNat (cleartext.take (len - padValue.toNat))).2

/-- `wrapped_key_create`, key_store.c:263-347. -/
def wrappedKeyCreate (env : Env) (d : DerivationInputs) (sk : StoredKey) : Option WrappedKey :=
  if !env.ok .wrapAlloc then none
  else match keyPad env sk.key with
    | none => none
    | some padded =>
      if !env.ok .wrapRand then none
      else
        let cp : CipherParameters := { iv := env.randIv, ciphertextLength := UInt64.ofNat (paddedSize sk.key.length) }
        if !env.ok .wrapCbc then none
        else match otpWrapAesCbc env.prims d.wrappingKeyInputs padded cp.iv.toList with
          | none => none
          | some ciphertext =>
            if !env.ok .wrapHmac then none
            else
              let mac := otpHmacSha256 env.prims d.integrityKeyInputs (encodeHeader sk.header) (encodeCipherParameters cp)
                ciphertext
              some { header := sk.header, cipherParameters := cp, ciphertext := ciphertext, signature := mac,
                     derivationInputs := d }

/-- `wrapped_key_unwrap`, key_store.c:349-363. -/
def wrappedKeyUnwrap (env : Env) (w : WrappedKey) : Option (Option StoredKey) :=
  keyUnwrap env w.derivationInputs w.header w.cipherParameters w.ciphertext w.signature

/-- `key_store_import_stored_key`, key_store.c:379-446: new store, status, `*key`. -/
def keyStoreImportStoredKey (env : Env) (st : KeyStore) (sk : StoredKey) (caller : Uuid) : KeyStore × Status × Nat :=
  if !validateHeaderFormat sk.header then (st, .INVALID_KEY_FORMAT, SLOT_INVALID)
  else if !env.ok .inputsRand then (st, .INTERNAL_ERROR, SLOT_INVALID)
  else match wrappedKeyCreate env env.randInputs sk with
    | none => (st, .INTERNAL_ERROR, SLOT_INVALID)
    | some w => objectStoreAdd st w caller

/-- `key_store_import_exported`, key_store.c:448-547.  `exported` is the caller's memory; `none`: out-of-bounds access.
Lengths are 64-bit. -/
def keyStoreImportExported (env : Env) (st : KeyStore) (exported : Bytes) (caller : Uuid) :
    Option (KeyStore × Status × Nat) :=
  let exportedLength : UInt64 := UInt64.ofNat exported.length
  let minLength : UInt64 := 16 + 1672 + 24 + 16 + 32
  if exportedLength < minLength then some (st, .INVALID_KEY_FORMAT, SLOT_INVALID)
  else if exported.length < 16 + 1672 then none
  else
    let mixin := (takeVec 16 exported).1
    let header := decodeHeader (exported.drop 16)
    if !validateHeaderFormat header then some (st, .INVALID_KEY_FORMAT, SLOT_INVALID)
    else if exported.length < 16 + 1672 + 24 then none
    else
      let cp := decodeCipherParameters (exported.drop (16 + 1672))
      if cp.ciphertextLength < 16 ∨ cp.ciphertextLength % 16 ≠ 0 then some (st, .INVALID_KEY_FORMAT, SLOT_INVALID)
      else
        let required : UInt64 := 16 + 1672 + 24 + cp.ciphertextLength + 32
        if exportedLength ≠ required then some (st, .INVALID_KEY_FORMAT, SLOT_INVALID)
        else
          let rest := exported.drop (16 + 1672 + 24)
          let signature := rest.drop cp.ciphertextLength.toNat
          match keyUnwrap env (mixedInputs mixin) header cp rest signature with
          | none => none
          | some none => some (st, .INVALID_KEY_FORMAT, SLOT_INVALID)
          | some (some sk) => some (keyStoreImportStoredKey env st sk caller)

/-- `key_store_unwrap`, key_store.c:549-625: new store, status, `*stored_key`.  `none`: out-of-bounds access. -/
def keyStoreUnwrap (env : Env) (st : KeyStore) (key : Nat) (caller : Uuid) :
    Option (KeyStore × Status × Option StoredKey) :=
  if key ≥ st.slotCount then some (st, .INVALID_PARAMETER, none)
  else match objectStoreAcquire st key caller with
    | (st1, .OK, some w) =>
      let finish (status : Status) (sk : Option StoredKey) := some ((objectStoreRelease st1 key w caller).1, status, sk)
      if !rightsAllowedUuid w.header.rights caller then finish .OPERATION_NOT_ALLOWED none
      else if !rightsAllowedTime w.header.rights env.rights.time then finish .OPERATION_NOT_ALLOWED none
      else match env.rights.video with
        | none => finish .OPERATION_NOT_ALLOWED none
        | some v =>
          if !rightsAllowedVideoOutputState w.header.rights v then finish .OPERATION_NOT_ALLOWED none
          else match wrappedKeyUnwrap env w with
            | none => none
            | some none => finish .INTERNAL_ERROR none
            | some (some sk) => finish .OK (some sk)
    | (st1, status, _) => some (st1, status, none)

/-- `key_store_get_header`, key_store.c:627-680. -/
def keyStoreGetHeader (st : KeyStore) (key : Nat) (caller : Uuid) : KeyStore × Status × Option Header :=
  if key ≥ st.slotCount then (st, .INVALID_PARAMETER, none)
  else match objectStoreAcquire st key caller with
    | (st1, .OK, some w) =>
      ((objectStoreRelease st1 key w caller).1, .OK,
        some { magic := MAGIC, pad0 := Vector.replicate 4 0, rights := w.header.rights, type := w.header.type,
               pad1 := Vector.replicate 7 0, typeParameters := w.header.typeParameters, size := w.header.size,
               pad2 := Vector.replicate 6 0 })
    | (st1, status, _) => (st1, status, none)

/-- Result of `key_store_export`: new store, status, `*out_length`, memory of `out`. -/
structure ExportResult where
  store : KeyStore
  status : Status
  outLength : Nat
  out : Option Bytes

/-- `key_store_export`, key_store.c:682-806.  `out = none` is a NULL pointer; otherwise it is the caller's buffer of
`outLength` bytes.  `mixin = none` is NULL.  Outer `none`: out-of-bounds access. -/
def keyStoreExport (env : Env) (st : KeyStore) (key : Nat) (mixin : Option Bytes) (out : Option Bytes) (outLength : Nat)
    (caller : Uuid) : Option ExportResult :=
  let fail (st : KeyStore) (status : Status) : Option ExportResult := some ⟨st, status, outLength, out⟩
  if key ≥ st.slotCount then fail st .INVALID_PARAMETER
  else
    let mixinBytes := mixin.getD (List.replicate 16 0)
    if mixinBytes.length ≠ 16 then fail st .INVALID_PARAMETER
    else
      let mixinVec := (takeVec 16 mixinBytes).1
      match objectStoreAcquire st key caller with
      | (st1, .OK, some w) =>
        let st2 := (objectStoreRelease st1 key w caller).1
        if !bitTest w.header.rights.usageFlags FLAG_CACHEABLE then fail st2 .OPERATION_NOT_ALLOWED
        else
          let required := 16 + 1672 + 24 + w.cipherParameters.ciphertextLength.toNat + 32
          match out with
          | none => some ⟨st2, .OK, required, none⟩
          | some buffer =>
            if required > outLength then fail st2 .INVALID_PARAMETER
            else match wrappedKeyUnwrap env w with
              | none => none
              | some none => fail st2 .INTERNAL_ERROR
              | some (some sk) =>
                match wrappedKeyCreate env (mixedInputs mixinVec) sk with
                | none => fail st2 .INTERNAL_ERROR
                | some rw =>
                  let written := mixinBytes ++ encodeHeader rw.header ++ encodeCipherParameters rw.cipherParameters ++
                    rw.ciphertext.take rw.cipherParameters.ciphertextLength.toNat ++ rw.signature.take 32
                  if buffer.length < written.length then none
                  else some ⟨st2, .OK, required, some (written ++ buffer.drop written.length)⟩
      | (st1, status, _) => fail st1 status

/-- `key_store_remove`, key_store.c:808-830. -/
def keyStoreRemove (st : KeyStore) (key : Nat) (caller : Uuid) : RemoveResult WrappedKey := objectStoreRemove st key caller

end Sa

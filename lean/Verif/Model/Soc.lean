import Verif.Model.Kc
import Verif.Model.Container
import Verif.Model.Unwrap

/-!
# SoC key containers (`taimpl/src/internal/soc_key_container.c`)

See `Model/Kc.lean` for how runs are represented.  Not represented: NULL checks of pointers that are never NULL; the contents of memory that is overwritten by
writes outside the fixed-size fields (the event of the write is).
-/

namespace Sa.Kc

/-- `sa_root_key_type`, otp.h:49-53. -/
inductive Root where
  | undefined | unique | common
  deriving DecidableEq, Repr

/-- `soc_kc_payload_t`, soc_key_container.c:63-75.  `c1`, `c2`, `c3` hold the bytes that were written to the 16 byte members. -/
structure Payload where
  version : UInt8
  root : Root
  keyType : Bytes
  encKey : Bytes
  iv : Bytes
  usage : UInt8
  decUsage : UInt8
  taIds : List Bytes
  c1 : Bytes
  c2 : Bytes
  c3 : Bytes

/-- `soc_kc_unpacked_t`, soc_key_container.c:38-53. -/
structure Unpacked where
  header : Bytes
  payload : Bytes
  mac : Bytes

/-- One of the three members of soc_key_container.c:149-187: allocation and decoding.  `b64_decode` failing leaves the block to `soc_kc_unpacked_free`. -/
def socUnpackPart (env : Env) (b : Blk) (s : Bytes) : P Bytes :=
  let d := b64Decode env (.fill b) (some s) true
  ⟨.alloc b (b64DecodedLength s.length) :: d.1, match d.2 with | none => .error .INVALID_KEY_FORMAT | some r => .ok r⟩

/-- The frees of `soc_kc_unpacked_free`, soc_key_container.c:88-97, where the blocks in `bs` have been allocated; freeing NULL does nothing. -/
def socUnpackedFree (bs : List Blk) : List Ev := ([Blk.mac, .header, .payload].filter (· ∈ bs)).map .free ++ [.free .unpacked]

/-- The loop `do { … } while (false)` of `unpack_soc_kc`, soc_key_container.c:112-190. -/
def socUnpackBody (env : Env) (s : Bytes) : P Unpacked :=
  match splitDots s with
  | none => .fail .INVALID_KEY_FORMAT
  | some (h, p, m) => do
    let header ← socUnpackPart env .header h
    let payload ← socUnpackPart env .payload p
    let mac ← socUnpackPart env .mac m
    pure ⟨header, payload, mac⟩

/-- Blocks allocated in a run. -/
def allocated (es : List Ev) : List Blk := es.filterMap fun | .alloc b _ => some b | _ => none

/-- `unpack_soc_kc`, soc_key_container.c:99-197; the result NULL makes the caller fail with INVALID_KEY_FORMAT (lines 901-906). -/
def socUnpack (env : Env) (s : Bytes) : P Unpacked :=
  let b := socUnpackBody env s
  let evs := .alloc .unpacked 112 :: b.evs
  match b.res with
  | .ok u => ⟨evs, .ok u⟩
  | .error e => ⟨evs ++ socUnpackedFree (allocated b.evs), .error e⟩

/-- A field that must be a string. -/
def stringOf (v : Js.Json) : P Bytes :=
  match Js.asString v with
  | none => .fail .INVALID_KEY_FORMAT
  | some s => .pure s

/-- `parse_header`, soc_key_container.c:276-304: the algorithm name. -/
def socParseHeader (fields : List (Bytes × Js.Json)) : P Bytes := do
  let v ← need "alg" fields
  stringOf v

/-- Conversion of `int64_t` to `uint8_t`. -/
def toU8 (n : Int) : UInt8 := UInt8.ofNat (n % 256).toNat

/-- soc_key_container.c:329-350, the root key type of a container of version 5 and later. -/
def socRootKeyType (env : Env) (fields : List (Bytes × Js.Json)) : P Root :=
  match Js.find (ascii "rootKeyType") fields with
  | none => .pure .undefined
  | some (_, v) =>
    match Js.asString v with
    | none => do
      -- the length is not set; the first comparison goes through a NULL pointer unless the length happens to be zero
      .emit [.uninit]
      if env.junkLength = 0 then pure .unique else do
        .emit [.null]
        .fail .INVALID_KEY_FORMAT
    | some s => do
      if ← cmpLit env s "unique" then pure .unique
      else if ← cmpLit env s "common" then pure .common
      else .fail .INVALID_KEY_FORMAT

/-- The length set by `json_value_as_string`; if it returns NULL, the variable is not set. -/
def stringLength (env : Env) : Option Bytes → P Nat
  | some s => .pure s.length
  | none => ⟨[.uninit], .ok env.junkLength⟩

/-- soc_key_container.c:371-392, the encrypted key.  The member keeps the pointer to the block if the decoding fails. -/
def socEncryptedKey (env : Env) (v : Js.Json) : P Bytes := do
  let s := Js.asString v
  let len ← stringLength env s
  .emit [.alloc .encryptedKey (b64DecodedLength len)]
  let d := b64Decode env (.fill .encryptedKey) s false
  .emit d.1
  match d.2 with
  | none => do
    .emit [.free .encryptedKey]
    .fail .INVALID_KEY_FORMAT
  | some r => pure r

/-- soc_key_container.c:401-407, 459-465, 474-480, 489-495: decoding into a member of `size` bytes.  The call fails only if the decoding failed *and* the expected length
is different from `size`.  The result is what was written. -/
def socFixed (env : Env) (f : Fld) (size : Nat) (url : Bool) (v : Js.Json) : P Bytes := do
  let s := Js.asString v
  let len ← stringLength env s
  let d := b64Decode env (.write f 0) s url
  .emit d.1
  match d.2 with
  | none => if b64DecodedLength len ≠ size then .fail .INVALID_KEY_FORMAT else pure []
  | some r => pure r

/-- The loop soc_key_container.c:438-449 from index `i`. -/
def socTaIds (env : Env) : (i : Nat) → List Js.Json → P (List Bytes)
  | _, [] => .pure []
  | i, v :: rest => do
    match Js.asString v with
    | none => do
      -- the length is not set
      .emit [.uninit]
      if env.junkLength ≠ UUID_LENGTH then do
        .emit [.free .taIds]
        .fail .INVALID_KEY_FORMAT
      else do
        .emit [.null]
        .fail .INVALID_KEY_FORMAT
    | some s =>
      if s.length ≠ UUID_LENGTH then do
        .emit [.free .taIds]
        .fail .INVALID_KEY_FORMAT
      else do
        .emit [.write .taIds (i * UUID_LENGTH) s.length]
        let l ← socTaIds env (i + 1) rest
        pure (s :: l)

/-- soc_key_container.c:432-452.  If the field is not an array, the length stays zero, as `payload` was zeroed there (line 897). -/
def socEntitledTaIds (env : Env) (fields : List (Bytes × Js.Json)) : P (List Bytes) :=
  match Js.find (ascii "entitledTaIds") fields with
  | none => .pure []
  | some (_, v) =>
    match Js.asArray v with
    | none => .pure []
    | some l => do
      .emit [.alloc .taIds (8 * l.length)]
      let ids ← socTaIds env 0 l
      .emit [.free .taIds]
      pure ids

/-- soc_key_container.c:328-353. -/
def socRoot (env : Env) (version : UInt8) (fields : List (Bytes × Js.Json)) : P Root :=
  if version ≥ 5 then socRootKeyType env fields else .pure .undefined

/-- `parse_payload`, soc_key_container.c:306-498. -/
def socParsePayload (env : Env) (fields : List (Bytes × Js.Json)) : P Payload := do
  let v ← need "containerVersion" fields
  let version := toU8 (Js.asInteger v)
  let root ← socRoot env version fields
  let v ← need "keyType" fields
  let keyType ← stringOf v
  let v ← need "encryptedKey" fields
  let encKey ← socEncryptedKey env v
  let v ← need "iv" fields
  let iv ← socFixed env .iv 12 false v
  let v ← need "keyUsage" fields
  let usage := toU8 (Js.asInteger v)
  let decUsage := if usage = 2 then
      match Js.find (ascii "decryptedKeyUsage") fields with
      | none => 0
      | some e => toU8 (Js.asInteger e.2)
    else 0
  let taIds ← socEntitledTaIds env fields
  let v ← need "c1" fields
  let c1 ← socFixed env .c1 16 false v
  let v ← need "c2" fields
  let c2 ← socFixed env .c2 16 true v
  let v ← need "c3" fields
  let c3 ← socFixed env .c3 16 false v
  -- `iv` was zeroed before (line 897), the ladder inputs were not
  pure ⟨version, root, keyType, encKey, (iv ++ List.replicate 12 0).take 12, usage, decUsage, taIds, c1.take 16, c2.take 16, c3.take 16⟩

/-- `memcpy(aad + length, src, n); length += n;`. -/
def aadPut (aad src : Bytes) : P Bytes := ⟨[.write .aad aad.length src.length], .ok (aad ++ src)⟩

/-- The 16 bytes of a ladder input: what was written, and unset memory behind it. -/
def ladderInput (env : Env) (c : Bytes) : P Bytes :=
  ⟨if c.length < 16 then [.uninit] else [], .ok (c ++ env.junk (16 - c.length))⟩

/-- soc_key_container.c:611-615. -/
def aadTaIds (aad : Bytes) : List Bytes → P Bytes
  | [] => .pure aad
  | id :: rest => do
    let aad ← aadPut aad (id.map lowerChar)
    aadTaIds aad rest

/-- The test of soc_key_container.c:567-572. -/
def isHmacName (env : Env) (s : Bytes) : P Bool := do
  if ← cmpLit env s "HMAC-128" then pure true
  else if ← cmpLit env s "HMAC-160" then pure true
  else cmpLit env s "HMAC-256"

/-- soc_key_container.c:522-527. -/
def isA128Gcm (env : Env) (alg : Bytes) : P Bool := if alg.length ≠ 7 then .pure false else cmpLit env alg "A128GCM"

/-- soc_key_container.c:541-549. -/
def aadRoot (aad : Bytes) (p : Payload) : P Bytes :=
  if p.version ≥ 5 then
    match p.root with
    | .unique => aadPut aad (ascii "unique")
    | .common => aadPut aad (ascii "common")
    | .undefined => .pure aad
  else .pure aad

/-- soc_key_container.c:566-576. -/
def isKeyOnlyHmac (env : Env) (p : Payload) : P Bool := if p.usage = 2 then isHmacName env p.keyType else .pure false

/-- soc_key_container.c:581-589. -/
def aadDecUsage (aad : Bytes) (p : Payload) : P Bytes :=
  if p.usage = 2 then
    if p.decUsage = 0 ∨ p.decUsage > 3 then .fail .INVALID_KEY_FORMAT else aadPut aad [p.decUsage]
  else .pure aad

/-- `build_aad`, soc_key_container.c:500-619.  The result 0 makes the caller fail with INVALID_KEY_FORMAT (lines 771-775). -/
def socBuildAad (env : Env) (alg : Bytes) (p : Payload) : P Bytes := do
  let algOk ← isA128Gcm env alg
  if !algOk then .fail .INVALID_KEY_FORMAT else do
  let aad ← aadPut [] alg
  if p.version < 4 then .fail .INVALID_KEY_FORMAT else do
  let aad ← aadPut aad [p.version]
  let aad ← aadRoot aad p
  if p.keyType.length = 0 then .fail .INVALID_KEY_FORMAT else do
  let aad ← aadPut aad p.keyType
  if p.usage = 0 ∨ p.usage > 3 then .fail .INVALID_KEY_FORMAT else do
  let hmac ← isKeyOnlyHmac env p
  if hmac then .fail .INVALID_KEY_FORMAT else do
  let aad ← aadPut aad [p.usage]
  let aad ← aadDecUsage aad p
  let aad ← aadPut aad p.iv
  let c1 ← ladderInput env p.c1
  let aad ← aadPut aad c1
  let c2 ← ladderInput env p.c2
  let aad ← aadPut aad c2
  let c3 ← ladderInput env p.c3
  let aad ← aadPut aad c3
  if p.taIds.length > 32 then .fail .INVALID_KEY_FORMAT else
  aadTaIds aad p.taIds

/-- What a key type string stands for. -/
structure KeyInfo where
  keyType : Nat
  size : Nat
  subtype : Nat
  /-- `none` is `UINT32_MAX` -/
  curve : Option Nat
  deriving DecidableEq, Repr

/-- The comparisons of `get_key_type_and_size`, in their order, soc_key_container.c:644-739. -/
def socKeyTypes : List (String × KeyInfo) :=
  [ ("AES-128", ⟨KEY_TYPE_SYMMETRIC, 16, AES_SUBTYPE, none⟩),
    ("HMAC-128", ⟨KEY_TYPE_SYMMETRIC, 16, HMAC_SUBTYPE, none⟩),
    ("AES-256", ⟨KEY_TYPE_SYMMETRIC, 32, AES_SUBTYPE, none⟩),
    ("CHACHA20-256", ⟨KEY_TYPE_SYMMETRIC, 32, CHACHA20_SUBTYPE, none⟩),
    ("HMAC-256", ⟨KEY_TYPE_SYMMETRIC, 32, HMAC_SUBTYPE, none⟩),
    ("HMAC-160", ⟨KEY_TYPE_SYMMETRIC, 20, HMAC_SUBTYPE, none⟩),
    ("RSA-1024", ⟨KEY_TYPE_RSA, 128, PRIVATE_SUBTYPE, none⟩),
    ("RSA-2048", ⟨KEY_TYPE_RSA, 256, PRIVATE_SUBTYPE, none⟩),
    ("RSA-3072", ⟨KEY_TYPE_RSA, 384, PRIVATE_SUBTYPE, none⟩),
    ("RSA-4096", ⟨KEY_TYPE_RSA, 512, PRIVATE_SUBTYPE, none⟩),
    ("ECC-P192", ⟨KEY_TYPE_EC, 24, PRIVATE_SUBTYPE, some CURVE_P192⟩),
    ("ECC-P224", ⟨KEY_TYPE_EC, 28, PRIVATE_SUBTYPE, some CURVE_P224⟩),
    ("ECC-P256", ⟨KEY_TYPE_EC, 32, PRIVATE_SUBTYPE, some CURVE_P256⟩),
    ("ECC-P384", ⟨KEY_TYPE_EC, 48, PRIVATE_SUBTYPE, some CURVE_P384⟩),
    ("ECC-P521", ⟨KEY_TYPE_EC, 66, PRIVATE_SUBTYPE, some CURVE_P521⟩),
    ("ECC-ED25519", ⟨KEY_TYPE_EC, 32, PRIVATE_SUBTYPE, some CURVE_ED25519⟩),
    ("ECC-ED448", ⟨KEY_TYPE_EC, 57, PRIVATE_SUBTYPE, some CURVE_ED448⟩),
    ("ECC-X25519", ⟨KEY_TYPE_EC, 32, PRIVATE_SUBTYPE, some CURVE_X25519⟩),
    ("ECC-X448", ⟨KEY_TYPE_EC, 56, PRIVATE_SUBTYPE, some CURVE_X448⟩) ]

/-- The chain of `else if`. -/
def socKeyTypeFrom (env : Env) (s : Bytes) : List (String × KeyInfo) → P KeyInfo
  | [] => .fail .INVALID_KEY_FORMAT
  | (name, info) :: rest => do
    if ← cmpLit env s name then pure info else socKeyTypeFrom env s rest

/-- `get_key_type_and_size`, soc_key_container.c:621-744; the result false makes the caller fail with INVALID_KEY_FORMAT (lines 781-785). -/
def socKeyTypeAndSize (env : Env) (s : Bytes) : P KeyInfo := socKeyTypeFrom env s socKeyTypes

/-- `sa_import_parameters_soc`, sa_types.h:609-627, as far as it is used: the length bytes, the version, the object id. -/
structure SocParams where
  length : Nat
  version : Nat
  objectId : UInt64

/-- soc_key_container.c:230-237: big endian. -/
def idOfObjectId (n : UInt64) : Vector UInt8 64 :=
  Vector.ofFn fun i => if i.val < 8 then (n >>> UInt64.ofNat (8 * (7 - i.val))).toUInt8 else 0

/-- `convert_uuid` of a string of a container into zeroed memory; both callers ignore its result (typej.c:492, soc_key_container.c:268), so after a failure the
bytes converted so far stay. -/
def containerUuid (s : Bytes) : Uuid :=
  match convertUuid s (List.replicate 16 0) with
  | none => NO_MATCH
  | some (_, id) => Vector.ofFn fun i => id.getD i.val 0

/-- `allowed_tas` of zeroed rights with the first entries set. -/
def allowedTasOf (ids : List Bytes) : Vector Uuid 32 := Vector.ofFn fun i => (ids.map containerUuid).getD i.val NO_MATCH

/-- soc_key_container.c:217-238: the identifier. -/
def socId (params : Option SocParams) : Except Status (Vector UInt8 64) :=
  match params with
  | none => .ok (Vector.replicate 64 0)
  | some q =>
    if q.length ≠ 624 then .error .INVALID_PARAMETER
    else if q.version ≠ 2 ∧ q.version ≠ 3 then .error .INVALID_PARAMETER
    else .ok (idOfObjectId q.objectId)

/-- soc_key_container.c:244-256: the usage flags and those of child keys. -/
def socFlags (keyType subtype : Nat) (p : Payload) : Except Status (UInt64 × UInt64) :=
  let f := keyUsageToUsageFlags (bitSet 0 FLAG_CACHEABLE ||| OUTPUT_PROTECTIONS_MASK) p.usage.toNat keyType subtype
  if f.2 ≠ .OK then .error f.2
  else if p.usage = 2 then
    let c := keyUsageToUsageFlags 0 p.decUsage.toNat keyType subtype
    if c.2 ≠ .OK then .error c.2 else .ok (f.1, c.1)
  else .ok (f.1, 0)

/-- `fields_to_rights`, soc_key_container.c:199-274. -/
def socFieldsToRights (keyType subtype : Nat) (p : Payload) (params : Option SocParams) : Except Status Rights :=
  match socId params with
  | .error e => .error e
  | .ok id =>
    match socFlags keyType subtype p with
    | .error e => .error e
    | .ok (flags, child) =>
      if p.taIds.length > 32 then .error .INVALID_KEY_FORMAT
      else .ok { id := id, usageFlags := flags, childUsageFlags := child, notBefore := 0, notOnOrAfter := 0xFFFFFFFFFFFFFFFF
                 allowedTas := if p.taIds.length = 0 then (allowedTasOf []).set 0 ALL_MATCH else allowedTasOf p.taIds }

/-- What decrypting depends on. -/
structure SocEnv where
  kc : Env
  /-- `otp_hw_key_ladder`: root key, c1, c2, c3 -/
  ladder : Root → Bytes → Bytes → Bytes → Except Status Bytes
  prims : UnwrapPrims
  allocOk : Bool
  ok : Bool

/-- `otp_unwrap_aes_gcm`, otp.c:874-951, and `unwrap_aes_gcm_internal`, otp.c:493-628. -/
def otpUnwrapAesGcm (e : SocEnv) (root : Root) (c1 c2 c3 wrapped iv aad tag : Bytes) : Except Status Bytes :=
  match e.ladder root c1 c2 c3 with
  | .error s => .error s
  | .ok key =>
    if tag.length > 16 then .error .INVALID_PARAMETER
    else if !e.ok then .error .INTERNAL_ERROR
    else if tag.length = 0 then .error .INTERNAL_ERROR
    else if tag ≠ (e.prims.gcmTag key iv aad wrapped).take tag.length then .error .INTERNAL_ERROR
    else .ok (e.prims.gcmDec key iv wrapped)

/-- soc_key_container.c:817-853: the key must have the size of its type; then it is stored.  A key that is not valid for its curve gives the status of
`fields_to_rights`, which is OK, and no key (lines 832-836). -/
def socStore (e : SocEnv) (info : KeyInfo) (rights : Rights) (key : Bytes) : Status × Option StoredKey :=
  if info.keyType = KEY_TYPE_RSA then
    if e.prims.rsaSize key = 0 then (.INVALID_KEY_FORMAT, none)
    else if e.prims.rsaSize key ≠ info.size then (.INVALID_KEY_FORMAT, none)
    else storedKeyCreate e.allocOk rights none info.keyType (Vector.replicate 1040 0) info.size key
  else if info.keyType = KEY_TYPE_EC then
    let curve := info.curve.getD (2 ^ 32 - 1)
    let size := if e.prims.ecValid curve key then ecKeySizeFromCurve curve else 0
    if size = 0 then (.OK, none)
    else if size ≠ info.size then (.INVALID_KEY_FORMAT, none)
    else storedKeyCreate e.allocOk rights none info.keyType (tpOfCurve curve) info.size key
  else if key.length ≠ info.size then (.INVALID_KEY_FORMAT, none)
  else storedKeyCreate e.allocOk rights none info.keyType (Vector.replicate 1040 0) info.size key

/-- The root key used for a container without a root key type, soc_key_container.c:801. -/
def Root.orUnique : Root → Root
  | .undefined => .unique
  | r => r

/-- soc_key_container.c:790-868, where the authenticated data and the kind of key are known.  The buffer `key` is allocated and freed on every path. -/
def socDecrypt (e : SocEnv) (p : Payload) (tag aad : Bytes) (info : KeyInfo) (c1 c2 c3 : Bytes) (params : Option SocParams) : P (Option StoredKey) :=
  let r : Status × Option StoredKey :=
    match otpUnwrapAesGcm e p.root.orUnique c1 c2 c3 p.encKey p.iv aad tag with
    | .error s => (s, none)
    | .ok key =>
      match socFieldsToRights info.keyType info.subtype p params with
      | .error s => (s, none)
      | .ok rights => socStore e info rights key
  ⟨[.alloc .key p.encKey.length, .free .key], match r with | (.OK, k) => .ok k | (s, _) => .error s⟩

/-- `decrypt_key_and_verify_mac`, soc_key_container.c:746-871.  (The ladder inputs given to the key ladder are the same memory as those copied by `build_aad`.) -/
def socDecryptKeyAndVerifyMac (e : SocEnv) (alg : Bytes) (p : Payload) (tag : Bytes) (params : Option SocParams) : P (Option StoredKey) := do
  let aad ← socBuildAad e.kc alg p
  let info ← socKeyTypeAndSize e.kc p.keyType
  let full := fun c : Bytes => c ++ e.kc.junk (16 - c.length)
  socDecrypt e p tag aad info (full p.c1) (full p.c2) (full p.c3) params

/-- `json_parse_bytes` and `json_value_as_map` of the header or the payload, soc_key_container.c:909-919, 928-941. -/
def socJson (env : Env) (value fields : Blk) (text : Bytes) : P (List (Bytes × Js.Json)) :=
  match parseJson env text with
  | none => .fail .INVALID_KEY_FORMAT
  | some v =>
    match Js.asMap v with
    | none => ⟨[.alloc value 0], .error .INVALID_KEY_FORMAT⟩
    | some l => ⟨[.alloc value 0, .alloc fields 0], .ok l⟩

/-- soc_key_container.c:908-951. -/
def socUnwrapBody (e : SocEnv) (u : Unpacked) (params : Option SocParams) : P (Option StoredKey) := do
  let hf ← socJson e.kc .headerJson .headerFields u.header
  let alg ← socParseHeader hf
  let pf ← socJson e.kc .payloadJson .payloadFields u.payload
  let p ← socParsePayload e.kc pf
  socDecryptKeyAndVerifyMac e alg p u.mac params

/-- The frees at the end of `soc_kc_unwrap`, soc_key_container.c:955-965.  A pointer is not NULL if something was allocated for it. -/
def socFinalFree (es : List Ev) : List Ev :=
  ([Blk.mac, .header, .payload, .unpacked, .headerJson, .headerFields, .payloadJson, .payloadFields, .encryptedKey].filter (· ∈ allocated es)).map .free

/-- `soc_kc_unwrap`, soc_key_container.c:873-967. -/
def socUnwrap (e : SocEnv) (s : Bytes) (params : Option SocParams) : P (Option StoredKey) :=
  let u := socUnpack e.kc s
  match u.res with
  | .error st => ⟨u.evs, .error st⟩
  | .ok up =>
    let b := socUnwrapBody e up params
    ⟨u.evs ++ b.evs ++ socFinalFree (u.evs ++ b.evs), b.res⟩

end Sa.Kc

import Verif.Model.Soc
import Verif.Model.TypejRights
import Verif.Model.Iso8601
import Verif.Model.Kdf
import Verif.Model.KeyMake

/-!
# Type-J key containers (`taimpl/src/internal/typej.c`) and their import (`taimpl/src/ta_sa_key_import.c:417-525`)

See `Model/Kc.lean` for how runs are represented; the blocks are those of the SoC parser with the same role.  `contentKey` and `iv` are the local buffers of
`unwrap_key_v2`.  Not represented: NULL checks of pointers that are never NULL; failing allocations.
-/

namespace Sa.Kc

/-- What `typej_unwrap` depends on. -/
structure TjEnv where
  kc : Env
  strptime : Bytes → Option (Tm × Nat)
  kdf : KdfPrims
  /-- the HMAC computation succeeds -/
  hmacOk : Bool
  /-- AES, and whether the stored key can be allocated -/
  ks : Sa.Env
  u : UnwrapEnv

/-- One of the three parts of typej.c:168-197: allocation, decoding, and the free after a failure (the member keeps the pointer). -/
def tjUnpackPart (env : Env) (b : Blk) (s : Bytes) : P Bytes :=
  let d := b64Decode env (.fill b) (some s) true
  match d.2 with
  | none => ⟨.alloc b (b64DecodedLength s.length) :: (d.1 ++ [.free b]), .error .INVALID_KEY_FORMAT⟩
  | some r => ⟨.alloc b (b64DecodedLength s.length) :: d.1, .ok r⟩

/-- The frees of `typej_unpacked_free`, typej.c:75-85, where the blocks in `bs` have been allocated. -/
def tjUnpackedFree (bs : List Blk) : List Ev := ([Blk.header, .payload, .mac].filter (· ∈ bs)).map .free ++ [.free .unpacked]

/-- typej.c:136-200: the texts of header and payload, and the three decoded parts. -/
def tjUnpackBody (env : Env) (s : Bytes) : P (Bytes × Bytes × Unpacked) :=
  match splitDots s with
  | none => .fail .INVALID_KEY_FORMAT
  | some (h, p, m) => do
    let header ← tjUnpackPart env .header h
    let payload ← tjUnpackPart env .payload p
    let mac ← tjUnpackPart env .mac m
    pure (h, p, ⟨header, payload, mac⟩)

/-- `unpack_typej`, typej.c:125-209; the result NULL makes the caller fail with INVALID_KEY_FORMAT (lines 778-782). -/
def tjUnpack (env : Env) (s : Bytes) : P (Bytes × Bytes × Unpacked) :=
  let b := tjUnpackBody env s
  let evs := .alloc .unpacked 112 :: b.evs
  match b.res with
  | .ok u => ⟨evs, .ok u⟩
  | .error e => ⟨evs ++ tjUnpackedFree (allocated b.evs), .error e⟩

def DIGEST_SHA256 : Nat := 1

/-- `verify_mac`, typej.c:211-261; every failure becomes INVALID_KEY_FORMAT (lines 786-790). -/
def tjVerifyMac (e : TjEnv) (h p mac macKey : Bytes) : P Unit :=
  if mac.length ≠ 32 then .fail .INVALID_KEY_FORMAT
  else if !e.hmacOk then .fail .INVALID_KEY_FORMAT
  else if e.kdf.hmac DIGEST_SHA256 macKey (h ++ [0x2e] ++ p) ≠ mac then .fail .INVALID_KEY_FORMAT
  else .pure ()

/-- `strncpy` of at most 63 bytes into the 64 bytes of `rights->id`, typej.c:370. -/
def tjId (s : Bytes) : Vector UInt8 64 := Vector.ofFn fun i => (s.takeWhile (· ≠ 0)).getD i.val 0

/-- typej.c:356-370. -/
def tjContentKeyId (fields : List (Bytes × Js.Json)) : P (Vector UInt8 64) := do
  let v ← need "contentKeyId" fields
  let s ← stringOf v
  if s.length > 63 then .fail .INVALID_KEY_FORMAT else pure (tjId s)

/-- typej.c:387-402: decoding the rights and converting them. -/
def tjRightsFlags (env : Env) (s : Bytes) : P UInt64 := do
  .emit [.alloc .rights (b64DecodedLength s.length)]
  let d := b64Decode env (.fill .rights) (some s) false
  .emit d.1
  .emit [.free .rights]
  match d.2 with
  | none => .fail .INVALID_KEY_FORMAT
  | some r =>
    match contentKeyRightsToUsageFlags 0 r with
    | none => .fail .INVALID_KEY_FORMAT
    | some f => pure f

/-- typej.c:411-416. -/
def tjUsage (flags : UInt64) (v : Js.Json) : P UInt64 :=
  let f := keyUsageToUsageFlags flags (Js.asInteger v) KEY_TYPE_SYMMETRIC AES_SUBTYPE
  if f.2 ≠ .OK then .fail f.2 else .pure f.1

/-- typej.c:424-436, 444-458. -/
def tjDate (e : TjEnv) (v : Js.Json) : P UInt64 := do
  let s ← stringOf v
  match iso8601ToEpochTime e.strptime s with
  | none => .fail .INVALID_KEY_FORMAT
  | some t => pure t

/-- The loop typej.c:483-493: the texts of the identifiers.  `convert_uuid` (whose result is ignored) reads through the NULL pointer of an element that is not a string, if
the length, which is not set then, happens to be right. -/
def tjTaIds (env : Env) : List Js.Json → P (List Bytes)
  | [] => .pure []
  | v :: rest => do
    match Js.asString v with
    | none => do
      .emit [.uninit]
      if env.junkLength ≠ UUID_LENGTH then do
        .emit [.free .taIds]
        .fail .INVALID_KEY_FORMAT
      else do
        .emit [.null]
        .fail .INVALID_KEY_FORMAT
    | some s =>
      if s.length ≠ UUID_LENGTH then do
        .emit [.free .taIds]
        .fail .INVALID_KEY_FORMAT
      else do
        let l ← tjTaIds env rest
        pure (s :: l)

/-- typej.c:473-497: `rights->allowed_tas`. -/
def tjEntitledTaIds (env : Env) (fields : List (Bytes × Js.Json)) : P (Vector Uuid 32) :=
  match Js.find (ascii "entitledTaIds") fields with
  | none => .pure ((allowedTasOf []).set 0 ALL_MATCH)
  | some (_, v) =>
    match Js.asArray v with
    | none => do
      -- the length is not set
      .emit [.uninit]
      if env.junkLength > 32 then .fail .INVALID_KEY_FORMAT
      else if env.junkLength = 0 then pure (allowedTasOf [])
      else do
        .emit [.null]
        .fail .INVALID_KEY_FORMAT
    | some l => do
      .emit [.alloc .taIds (8 * l.length)]
      if l.length > 32 then do
        .emit [.free .taIds]
        .fail .INVALID_KEY_FORMAT
      else do
        let ids ← tjTaIds env l
        .emit [.free .taIds]
        pure (allowedTasOf ids)

/-- `fields_to_rights`, typej.c:334-499. -/
def tjFieldsToRights (e : TjEnv) (fields : List (Bytes × Js.Json)) : P Rights := do
  let id ← tjContentKeyId fields
  let v ← need "contentKeyRights" fields
  let s ← stringOf v
  let flags ← tjRightsFlags e.kc s
  let v ← need "contentKeyUsage" fields
  let flags ← tjUsage flags v
  let v ← need "contentKeyNotBefore" fields
  let notBefore ← tjDate e v
  let v ← need "contentKeyNotOnOrAfter" fields
  let notOnOrAfter ← tjDate e v
  let v ← need "contentKeyCacheable" fields
  let flags := if Js.asBool v then bitSet flags FLAG_CACHEABLE else flags
  let tas ← tjEntitledTaIds e.kc fields
  pure { id := id, usageFlags := flags, childUsageFlags := 0, notBefore := notBefore, notOnOrAfter := notOnOrAfter, allowedTas := tas }

/-- typej.c:525-548, 640-663: allocating and decoding the wrapped key. -/
def tjContentKey (env : Env) (fields : List (Bytes × Js.Json)) : P Bytes := do
  let v ← need "contentKey" fields
  let s ← stringOf v
  .emit [.alloc .contentKey (b64DecodedLength s.length)]
  let d := b64Decode env (.fill .contentKey) (some s) false
  .emit d.1
  match d.2 with
  | none => do
    .emit [.free .contentKey]
    .fail .INVALID_KEY_FORMAT
  | some r => pure r

/-- A result of `unwrap_aes_ecb` or `unwrap_aes_cbc` (`none`: they read before the beginning of a buffer). -/
def ofUnwrap : Option (Status × Option StoredKey) → P (Option StoredKey)
  | none => ⟨[.outside], .error .INTERNAL_ERROR⟩
  | some (.OK, k) => .pure k
  | some (s, _) => .fail s

/-- The frees behind the loops of `unwrap_key_v1` and `unwrap_key_v2`, typej.c:564, 729-730. -/
def tjClose (m : P α) : P α := m.after (([Blk.contentKey, .iv].filter (· ∈ allocated m.evs)).map .free)

/-- A symmetric key with these rights. -/
def tjTarget (rights : Rights) : UnwrapTarget := ⟨rights, KEY_TYPE_SYMMETRIC, none⟩

/-- `unwrap_key_v1`, typej.c:501-567. -/
def tjUnwrapV1 (e : TjEnv) (fields : List (Bytes × Js.Json)) (rights : Rights) (wk : StoredKey) : P (Option StoredKey) :=
  tjClose do
    let ck ← tjContentKey e.kc fields
    if ck.length % 16 ≠ 0 then .fail .INVALID_KEY_FORMAT else
    ofUnwrap (unwrapAesEcb e.ks e.u (tjTarget rights) false ck wk)

/-- `parse_cipher_algorithm`, typej.c:569-594: `none` is -1, otherwise (CBC?, padding?). -/
def tjAlgorithm (s : Option Bytes) : Option (Bool × Bool) :=
  match s with
  | none => none
  | some s =>
    if s = ascii "aesEcbNone" then some (false, false)
    else if s = ascii "aesEcbPkcs5" then some (false, true)
    else if s = ascii "aesCbcNone" then some (true, false)
    else if s = ascii "aesCbcPkcs5" then some (true, true)
    else none

/-- typej.c:685-709: the initialisation vector. -/
def tjIv (env : Env) (fields : List (Bytes × Js.Json)) : P Bytes := do
  let v ← need "contentKeyTransportIv" fields
  let s ← stringOf v
  .emit [.alloc .iv (b64DecodedLength s.length)]
  let d := b64Decode env (.fill .iv) (some s) false
  .emit d.1
  match d.2 with
  | none => do
    .emit [.free .iv]
    .fail .INVALID_KEY_FORMAT
  | some r =>
    if r.length ≠ 16 then do
      .emit [.free .iv]
      .fail .INVALID_KEY_FORMAT
    else pure r

/-- typej.c:676-721: unwrapping by the algorithm. -/
def tjUnwrapWith (e : TjEnv) (fields : List (Bytes × Js.Json)) (rights : Rights) (wk : StoredKey) (ck : Bytes) : Option (Bool × Bool) → P (Option StoredKey)
  | none => .fail .INVALID_KEY_FORMAT
  | some (false, pad) => ofUnwrap (unwrapAesEcb e.ks e.u (tjTarget rights) pad ck wk)
  | some (true, pad) => do
    let iv ← tjIv e.kc fields
    let r := ofUnwrap (unwrapAesCbc e.ks e.u (tjTarget rights) pad iv ck wk)
    match r.res with
    | .ok _ => r
    | .error _ => ⟨r.evs, .error .INTERNAL_ERROR⟩

/-- `unwrap_key_v2`, typej.c:596-733, and `unwrap_key_v3`, lines 735-744. -/
def tjUnwrapV2 (e : TjEnv) (fields : List (Bytes × Js.Json)) (rights : Rights) (wk : StoredKey) : P (Option StoredKey) :=
  tjClose do
    let v ← need "contentKeyTransportAlgorithm" fields
    let alg := tjAlgorithm (Js.asString v)
    let ck ← tjContentKey e.kc fields
    let v ← need "contentKeyLength" fields
    let length := (Js.asInteger v % 2 ^ 64).toNat
    let k ← tjUnwrapWith e fields rights wk ck alg
    if (k.map (·.key.length)).getD 0 ≠ length then .fail .INVALID_KEY_FORMAT else pure k

/-- typej.c:813-814. -/
def tjVersion (fields : List (Bytes × Js.Json)) : Int :=
  match Js.find (ascii "contentKeyContainerVersion") fields with
  | none => 1
  | some e => Js.asInteger e.2

/-- typej.c:815-839. -/
def tjUnwrapKey (e : TjEnv) (fields : List (Bytes × Js.Json)) (rights : Rights) (wk : StoredKey) : P (Option StoredKey) :=
  if tjVersion fields = 1 then tjUnwrapV1 e fields rights wk
  else if tjVersion fields = 2 then tjUnwrapV2 e fields rights wk
  else if tjVersion fields = 3 then tjUnwrapV2 e fields rights wk
  else .fail .INVALID_KEY_FORMAT

/-- typej.c:784-841, behind unpacking. -/
def tjUnwrapBody (e : TjEnv) (h p : Bytes) (u : Unpacked) (mk wk : StoredKey) : P (Option StoredKey) := do
  tjVerifyMac e h p u.mac mk.key
  let fields ← socJson e.kc .payloadJson .payloadFields u.payload
  let rights ← tjFieldsToRights e fields
  tjUnwrapKey e fields rights wk

/-- The frees at the end of `typej_unwrap`, typej.c:844-846. -/
def tjFinalFree (es : List Ev) : List Ev :=
  ([Blk.header, .payload, .mac, .unpacked, .payloadJson, .payloadFields].filter (· ∈ allocated es)).map .free

/-- `typej_unwrap`, typej.c:746-850, with the keys `mk` for the MAC and `wk` for the decryption. -/
def typejUnwrap (e : TjEnv) (s : Bytes) (mk wk : StoredKey) : P (Option StoredKey) :=
  let u := tjUnpack e.kc s
  match u.res with
  | .error st => ⟨u.evs, .error st⟩
  | .ok (h, p, up) =>
    let b := tjUnwrapBody e h p up mk wk
    ⟨u.evs ++ b.evs ++ tjFinalFree (u.evs ++ b.evs), b.res⟩

/-- Status and key of a run (if its events are harmless). -/
def P.status (m : P (Option StoredKey)) : Status × Option StoredKey :=
  match m.res with
  | .ok k => (.OK, k)
  | .error s => (s, none)

/-- The checks of the MAC key, ta_sa_key_import.c:469-479. -/
def tjMacKeyOk (e : TjEnv) (mk : StoredKey) : Status :=
  if !rightsAllowedSign e.ks.rights mk.header.rights then .OPERATION_NOT_ALLOWED
  else if !keyTypeSupportsHmac mk.header.type.toNat mk.header.size.toNat then .INVALID_KEY_TYPE
  else .OK

/-- The checks of the decryption key, ta_sa_key_import.c:494-504. -/
def tjCipherKeyOk (e : TjEnv) (wk : StoredKey) : Status :=
  if !rightsAllowedUnwrap e.ks.rights wk.header.rights then .OPERATION_NOT_ALLOWED
  else if !keyTypeSupportsAes wk.header.type.toNat wk.header.size.toNat then .INVALID_KEY_TYPE
  else .OK

/-- `ta_sa_key_import_typej`, ta_sa_key_import.c:417-525: new store, status, key.  (Whether the events of the run are harmless is a separate matter.) -/
def keyImportTypej (e : TjEnv) (st : KeyStore) (input : Bytes) (khmac kcipher : Nat) (caller : Uuid) : Option (KeyStore × Status × Nat) :=
  match keyStoreUnwrap e.ks st khmac caller with
  | none => none
  | some (st1, .OK, some mk) =>
    if tjMacKeyOk e mk ≠ .OK then some (st1, tjMacKeyOk e mk, SLOT_INVALID)
    else withKey e.ks st1 kcipher caller fun wk =>
      if tjCipherKeyOk e wk ≠ .OK then some (tjCipherKeyOk e wk, none) else some (typejUnwrap e input mk wk).status
  | some (st1, .OK, none) => some (st1, .NULL_PARAMETER, SLOT_INVALID)
  | some (st1, s, _) => some (st1, s, SLOT_INVALID)

/-- `ta_sa_key_import_soc`, ta_sa_key_import.c:301-355, and `ta_sa_key_provision`, lines 357-415. -/
def keyImportSoc (env : Sa.Env) (e : SocEnv) (st : KeyStore) (input : Bytes) (params : Option SocParams) (caller : Uuid) : Option (KeyStore × Status × Nat) :=
  importMade env st caller (some (socUnwrap e input params).status)

end Sa.Kc

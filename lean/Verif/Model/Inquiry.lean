import Verif.Model.Unwrap
import Verif.Model.Svp
import Verif.Model.Mac

/-!
# Checks and inquiries (`taimpl/src/ta_sa_svp_key_check.c`, `ta_sa_svp_buffer_check.c`, `ta_sa_key_digest.c`, `ta_sa_key_get_public.c`)

The functions run inside a session that the caller has acquired (`client_store_acquire`, modelled in `Client`).  `none` is undefined behaviour.  A `sa_buffer` is modelled by its
type and the three words of its union, because `ta_sa_svp_key_check` does not check the type: what one part of the code stores as an SVP buffer another part can read as a clear one.
-/

namespace Sa

/-! `sa_buffer_type`, sa_types.h. -/
def BUFFER_TYPE_CLEAR : Nat := 0
def BUFFER_TYPE_SVP : Nat := 1

/-- `sa_buffer`, sa_types.h:542-570: the type and the words of the union `context`: `clear` is (buffer, length, offset), `svp` is (buffer, offset), and then nothing. -/
structure CheckBuffer where
  type : Nat
  w0 : UInt64
  w1 : UInt64
  w2 : UInt64
  deriving DecidableEq, Repr

/-- Which member of the union `convert_buffer` uses, buffer.c:58-120. -/
def CheckBuffer.view (b : CheckBuffer) : SaBuffer := if b.type = BUFFER_TYPE_SVP then .svp b.w0.toNat b.w1 else .clear b.w0 b.w1 b.w2

/-- `n` bytes of memory at `a`. -/
def memRead (m : Mem) (a n : Nat) : Bytes := (List.range n).map fun i => m (a + i)

/-- A load of eight bytes, little endian. -/
def load64 (m : Mem) (a : Nat) : UInt64 := UInt64.ofNat ((memRead m a 8).foldr (fun b n => b.toNat + 256 * n) 0)

/-- The `sa_buffer` that `ta_invoke_svp_key_check` makes from the command, ta.c:1750-1761: `param` and `paramSize` are `params[1]`, `stack` is what the third word of the variable
holds, which is not initialised. -/
def keyCheckBuffer (m : Mem) (bufferType : Nat) (param paramSize inOffset stack : UInt64) : CheckBuffer :=
  if bufferType = BUFFER_TYPE_CLEAR then ⟨bufferType, param, paramSize, inOffset⟩ else ⟨bufferType, load64 m param.toNat, inOffset, stack⟩

/-- What a check depends on besides the keys: the memory, whether allocation and OpenSSL succeed, whether the caller is the REE (`is_ree`, transport.c:49-51). -/
structure CheckEnv where
  mem : Mem
  allocOk : Bool
  ok : Bool
  /-- hash: algorithm, message -/
  hash : Nat → Bytes → Bytes
  ree : Uuid

/-- `is_ree`, transport.c:49-51. -/
def CheckEnv.isRee (e : CheckEnv) (u : Uuid) : Bool := uuidMatches u e.ree

/-- `svp_key_check`, svp.c:238-294, with `unwrap_aes_ecb_internal`, otp.c:332-407.  `none`: the length does not fit the `int` that OpenSSL is given (otp.c:394-395), so that not all
of `decrypted` is written, or `expected` is too short. -/
def svpKeyCheck (p : Prims) (e : CheckEnv) (inBytes : Nat) (n : Nat) (expected key : Bytes) : Option Bool :=
  if inBytes = 0 then some false
  else if !e.allocOk then some false
  else if key.length ≠ 16 ∧ key.length ≠ 32 then some false
  else if n % 16 ≠ 0 then some false
  else if !e.ok then some false
  else if n ≥ 2 ^ 31 then none
  else match memcmpConstant (ecbDec (p.aesDec key) (n / 16) (memRead e.mem inBytes n)) expected n with
    | none => none
    | some r => some (r == 0)

/-- ta_sa_svp_key_check.c:79-102: rights and type of the key. -/
def keyCheckGate (env : Env) (e : CheckEnv) (bufferType : Nat) (caller : Uuid) (h : Header) : Status :=
  if !rightsAllowedDecrypt env.rights h.rights (h.type.toNat == KEY_TYPE_SYMMETRIC) then .OPERATION_NOT_ALLOWED
  else if bufferType = BUFFER_TYPE_CLEAR ∧ rightsAllowedClear h.rights = false then .OPERATION_NOT_ALLOWED
  else if bufferType = BUFFER_TYPE_SVP ∧ e.isRee caller = true then .OPERATION_NOT_ALLOWED
  else if !keyTypeSupportsAes h.type.toNat h.size.toNat then .INVALID_KEY_TYPE
  else .OK

/-- ta_sa_svp_key_check.c:126-127: the SVP buffer, if one was acquired, is given back. -/
def giveUp (c : Converted) (handle : Nat) (caller : Uuid) : SvpStore :=
  match c.svp with
  | none => c.store
  | some svp => (svpStoreReleaseExclusive c.store handle svp caller).1

/-- ta_sa_svp_key_check.c:104-129: the buffer, the comparison, and giving back the SVP buffer. -/
def keyCheckBody (env : Env) (e : CheckEnv) (sv : SvpStore) (input : CheckBuffer) (bytes : UInt64) (expected : Bytes) (caller : Uuid) (k : StoredKey) : Option (SvpStore × Status) :=
  let c := convertBuffer sv input.view bytes caller
  let give := giveUp c input.w0.toNat caller
  if c.status ≠ .OK then some (give, c.status)
  else match svpKeyCheck env.prims e (c.bytes.getD 0).toNat bytes.toNat expected k.key with
    | none => none
    | some b => some (give, if b then .OK else .VERIFICATION_FAILED)

/-- `ta_sa_svp_key_check`, ta_sa_svp_key_check.c:29-136: the key table, the SVP table and the status. -/
def taSvpKeyCheck (env : Env) (e : CheckEnv) (ks : KeyStore) (sv : SvpStore) (key : Nat) (input : Option CheckBuffer) (bytes : UInt64) (expected : Option Bytes) (caller : Uuid) :
    Option (KeyStore × SvpStore × Status) :=
  match input with
  | none => some (ks, sv, .NULL_PARAMETER)
  | some b =>
    if bytes.toNat % 16 ≠ 0 then some (ks, sv, .INVALID_PARAMETER)
    else match expected with
      | none => some (ks, sv, .NULL_PARAMETER)
      | some x =>
        if x.length ≠ bytes.toNat then some (ks, sv, .INVALID_PARAMETER)
        else match keyStoreUnwrap env ks key caller with
          | none => none
          | some (ks1, .OK, some k) =>
            if keyCheckGate env e b.type caller k.header ≠ .OK then some (ks1, sv, keyCheckGate env e b.type caller k.header)
            else (keyCheckBody env e sv b bytes x caller k).map fun r => (ks1, r.1, r.2)
          | some (ks1, .OK, none) => some (ks1, sv, .NULL_PARAMETER)
          | some (ks1, s, _) => some (ks1, sv, s)

/-- `ta_sa_svp_buffer_check`, ta_sa_svp_buffer_check.c:26-96, with `svp_digest` (svp.c:296-332) and `digest_sha`.  `hash` is the memory given, `hashLength` the length that the
caller states.  For an unknown algorithm `digest_length` is `SIZE_MAX`; if the length given is `SIZE_MAX`, too, an array of `SIZE_MAX` bytes is declared (`none`). -/
def svpBufferCheck (e : CheckEnv) (sv : SvpStore) (h : Nat) (offset length : UInt64) (digest : Nat) (hash : Option Bytes) (hashLength : UInt64) (caller : Uuid) :
    Option (SvpStore × Status) :=
  match hash with
  | none => some (sv, .NULL_PARAMETER)
  | some x =>
    if e.isRee caller then some (sv, .OPERATION_NOT_ALLOWED)
    else if hashLength.toNat ≠ (digestLength digest).getD (2 ^ 64 - 1) then some (sv, .INVALID_PARAMETER)
    else match svpStoreAcquireExclusive sv h caller with
      | (sv1, status, none) => some (sv1, status)
      | (sv1, status, some svp) =>
        let give := (svpStoreReleaseExclusive sv1 h svp caller).1
        if status ≠ .OK then some (give, status)
        else if digestLength digest = none then none
        else match svpDigest svp.buffer offset length with
          | none => none
          | some (false, _, _) => some (give, .INTERNAL_ERROR)
          | some (true, a, n) =>
            if !e.ok then some (give, .INTERNAL_ERROR)
            else match memcmpConstant (e.hash digest (memRead e.mem a n)) x hashLength.toNat with
              | none => none
              | some r => some (give, if r = 0 then .OK else .VERIFICATION_FAILED)

/-- What a call leaves in `*out_length` and in the memory of `out`. -/
structure Answer where
  status : Status
  outLength : Nat
  out : Option Bytes
  deriving DecidableEq, Repr

/-- `bytes` written to the start of the buffer; `none`: it does not fit. -/
def writeOut (out bytes : Bytes) : Option Bytes := if bytes.length ≤ out.length then some (bytes ++ out.drop bytes.length) else none

/-- `digest_key`, digest.c:125-195.  `out = none` is NULL.  For an unknown algorithm the required length is `SIZE_MAX`, and `digest_mechanism` fails.  `ok`: the calls of OpenSSL
succeed. -/
def digestKey (ok : Bool) (hash : Nat → Bytes → Bytes) (out : Option Bytes) (outLength digest : Nat) (key : Bytes) : Option Answer :=
  let required := (digestLength digest).getD (2 ^ 64 - 1)
  match out with
  | none => some ⟨if required = 2 ^ 64 - 1 then .INVALID_PARAMETER else .OK, required, none⟩
  | some o =>
    if outLength < required then some ⟨.INVALID_PARAMETER, outLength, out⟩
    else if !ok then some ⟨.INTERNAL_ERROR, required, out⟩
    else match digestLength digest with
      | none => some ⟨.INTERNAL_ERROR, required, out⟩
      | some _ => (writeOut o (hash digest key)).map fun o' => ⟨.OK, required, some o'⟩

/-- `rsa_get_public`, rsa.c:48-110, `ec_get_public`, ec.c:332-400, `dh_get_public`, dh.c:56-118: `der` is the encoded public key that OpenSSL makes from the private key, if it can. -/
def getPublic (der : Option Bytes) (out : Option Bytes) (outLength : Nat) : Option Answer :=
  match der with
  | none => some ⟨.INTERNAL_ERROR, outLength, out⟩
  | some d =>
    if d.length = 0 then some ⟨.INTERNAL_ERROR, outLength, out⟩
    else match out with
      | none => some ⟨.OK, d.length, none⟩
      | some o =>
        if outLength < d.length then some ⟨.INVALID_PARAMETER, outLength, out⟩
        else (writeOut o d).map fun o' => ⟨.OK, d.length, some o'⟩

/-- Common part of ta_sa_key_digest.c:47-85 and ta_sa_key_get_public.c:139-193: unwrap the key, answer, free. -/
def inquire (env : Env) (ks : KeyStore) (key : Nat) (caller : Uuid) (out : Option Bytes) (outLength : Nat) (answer : StoredKey → Option Answer) : Option (KeyStore × Answer) :=
  match keyStoreUnwrap env ks key caller with
  | none => none
  | some (ks1, .OK, some k) => (answer k).map fun a => (ks1, a)
  | some (ks1, .OK, none) => some (ks1, ⟨.NULL_PARAMETER, outLength, out⟩)
  | some (ks1, s, _) => some (ks1, ⟨s, outLength, out⟩)

/-- ta_sa_key_digest.c:63-78. -/
def keyDigestAnswer (ok : Bool) (hash : Nat → Bytes → Bytes) (out : Option Bytes) (outLength digest : Nat) (k : StoredKey) : Option Answer :=
  if k.header.type.toNat ≠ KEY_TYPE_SYMMETRIC then some ⟨.INVALID_PARAMETER, outLength, out⟩
  else (digestKey ok hash out outLength digest k.key).map fun a => if a.status ≠ .OK then { a with status := .INTERNAL_ERROR } else a

/-- `ta_sa_key_digest`, ta_sa_key_digest.c:24-85 (`out_length` is not NULL: it is a field of the command). -/
def taKeyDigest (env : Env) (ok : Bool) (hash : Nat → Bytes → Bytes) (ks : KeyStore) (out : Option Bytes) (outLength key digest : Nat) (caller : Uuid) :
    Option (KeyStore × Answer) :=
  inquire env ks key caller out outLength (keyDigestAnswer ok hash out outLength digest)

/-- ta_sa_key_get_public.c:155-187.  `der`: type, curve and bytes of the private key. -/
def keyPublicAnswer (der : Nat → Nat → Bytes → Option Bytes) (out : Option Bytes) (outLength : Nat) (k : StoredKey) : Option Answer :=
  if k.header.type.toNat = KEY_TYPE_EC then getPublic (der KEY_TYPE_EC (curveOf k.header.typeParameters) k.key) out outLength
  else if k.header.type.toNat = KEY_TYPE_DH then getPublic (der KEY_TYPE_DH 0 k.key) out outLength
  else if k.header.type.toNat = KEY_TYPE_RSA then getPublic (der KEY_TYPE_RSA 0 k.key) out outLength
  else some ⟨.INVALID_PARAMETER, outLength, out⟩

/-- `ta_sa_key_get_public`, ta_sa_key_get_public.c:122-197. -/
def taKeyGetPublic (env : Env) (der : Nat → Nat → Bytes → Option Bytes) (ks : KeyStore) (out : Option Bytes) (outLength key : Nat) (caller : Uuid) : Option (KeyStore × Answer) :=
  inquire env ks key caller out outLength (keyPublicAnswer der out outLength)

end Sa

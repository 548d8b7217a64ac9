import Verif.Model.Unwrap
import Verif.Model.Cenc

/-!
# Cipher contexts (`taimpl/src/internal/cipher_store.c`, the context functions of `internal/symmetric.c`,
`taimpl/src/ta_sa_crypto_cipher_{init,process,process_last,update_iv,release}.c`)

The cipher store holds pointers: it is an `ObjectStore Nat`, and the `cipher_t` objects, the symmetric contexts and the clear copies of the
keys are cells of a heap, so that freeing twice and using freed memory show (`none`).  The session has been acquired by the caller;
`key_store_unwrap` (modelled in `KeyStore`) is a parameter: its status and the key it hands out.  The calls are executed one after the
other: a `cipher_t` is locked while it is used (cipher_store.c:460-465).  NULL checks of pointers that are never NULL here are left out.
The OAEP label is part of its `cipher_t`.
-/

namespace Sa

/-! `sa_cipher_algorithm`, sa_types.h:140-165 (`CIPHER_AES_CBC` and `CIPHER_AES_CTR` are in `Cenc`). -/
def CIPHER_AES_ECB : Nat := 0
def CIPHER_AES_ECB_PKCS7 : Nat := 1
def CIPHER_AES_CBC_PKCS7 : Nat := 3
def CIPHER_AES_GCM : Nat := 5
def CIPHER_RSA_PKCS1V15 : Nat := 6
def CIPHER_RSA_OAEP : Nat := 7
def CIPHER_EC_ELGAMAL : Nat := 8
def CIPHER_CHACHA20 : Nat := 9
def CIPHER_CHACHA20_POLY1305 : Nat := 10

/-! `sa_cipher_mode`, sa_types.h:170-175. -/
def MODE_DECRYPT : Nat := 0
def MODE_ENCRYPT : Nat := 1

/-- The parameters of a symmetric context: IV (or counter block, or nonce), ChaCha20 counter, additional data. -/
structure SymParams where
  iv : Bytes
  counter : Bytes
  aad : Bytes

/-- OpenSSL's cipher contexts: creation (or failure of anything in `symmetric_create_*_context`), `EVP_*Update`, `EVP_*Final`,
`EVP_*Init_ex` with a new IV, reading and setting the tag.  `none` is failure. -/
structure CipherPrim (σ : Type) where
  create : (alg mode : Nat) → (key : Bytes) → SymParams → Option σ
  update : σ → Bytes → σ × Option Bytes
  final : σ → σ × Option Bytes
  setIv : σ → Bytes → Option σ
  getTag : σ → Option Bytes
  setTag : σ → Bytes → Option σ

/-- The algorithms whose input need not be a multiple of the block size. -/
def isStreamAlg (alg : Nat) : Bool :=
  alg == CIPHER_AES_CTR || alg == CIPHER_AES_GCM || alg == CIPHER_CHACHA20 || alg == CIPHER_CHACHA20_POLY1305

def isPkcs7Alg (alg : Nat) : Bool := alg == CIPHER_AES_ECB_PKCS7 || alg == CIPHER_AES_CBC_PKCS7

/-- What matters of OpenSSL's contexts for the lengths of their output: algorithm, mode, number of bytes held back. -/
structure CipherView where
  alg : Nat
  mode : Nat
  held : Nat
  deriving DecidableEq

/-- What is assumed of OpenSSL's contexts.  Without padding every byte is output at once.  When encrypting with padding, complete blocks are
output and the rest is held back, and finishing outputs one block and leaves nothing held back (this is so in OpenSSL 3; in OpenSSL 1.1.1
`EVP_EncryptFinal_ex` leaves the rest in the context, see C34).  When decrypting with padding, the last block is held back. -/
structure CipherPrim.Good {σ : Type} (p : CipherPrim σ) (view : σ → CipherView) : Prop where
  create : ∀ alg mode key sp s, p.create alg mode key sp = some s → view s = ⟨alg, mode, 0⟩
  updateKind : ∀ s b, (view (p.update s b).1).alg = (view s).alg ∧ (view (p.update s b).1).mode = (view s).mode
  updateFail : ∀ s b, (p.update s b).2 = none → view (p.update s b).1 = view s
  updatePlain : ∀ s b o, isPkcs7Alg (view s).alg = false → (view s).held = 0 → (isStreamAlg (view s).alg = true ∨ b.length % 16 = 0) →
    (p.update s b).2 = some o → o.length = b.length ∧ (view (p.update s b).1).held = 0
  updateEnc : ∀ s b o, isPkcs7Alg (view s).alg = true → (view s).mode = MODE_ENCRYPT → (p.update s b).2 = some o →
    o.length = ((view s).held + b.length) / 16 * 16 ∧ (view (p.update s b).1).held = ((view s).held + b.length) % 16
  updateDec : ∀ s b o, isPkcs7Alg (view s).alg = true → (view s).mode ≠ MODE_ENCRYPT → (p.update s b).2 = some o →
    (b = [] → o = [] ∧ (view (p.update s b).1).held = (view s).held) ∧
    (b ≠ [] → o.length = ((view s).held + b.length - 1) / 16 * 16 ∧ (view (p.update s b).1).held + o.length = (view s).held + b.length)
  finalKind : ∀ s, (view (p.final s).1).alg = (view s).alg ∧ (view (p.final s).1).mode = (view s).mode
  finalPlain : ∀ s, isPkcs7Alg (view s).alg = false → (view (p.final s).1).held = (view s).held ∧ ∀ f, (p.final s).2 = some f → f = []
  finalEnc : ∀ s, isPkcs7Alg (view s).alg = true → (view s).mode = MODE_ENCRYPT → (view s).held < 16 →
    (view (p.final s).1).held = 0 ∧ ∃ f, (p.final s).2 = some f ∧ f.length = 16
  finalDec : ∀ s, isPkcs7Alg (view s).alg = true → (view s).mode ≠ MODE_ENCRYPT →
    ((view (p.final s).1).held = 0 ∨ (view (p.final s).1).held = (view s).held) ∧ ∀ f, (p.final s).2 = some f → f.length ≤ 16
  setIv : ∀ s iv s', p.setIv s iv = some s' → view s' = ⟨(view s).alg, (view s).mode, 0⟩
  setTag : ∀ s t s', p.setTag s t = some s' → view s' = view s

/-- `struct symmetric_context_s`, symmetric.c:37-41. -/
structure SymCtx (σ : Type) where
  alg : Nat
  mode : Nat
  evp : σ

/-- `struct cipher_s`, cipher_store.c:25-35 (without the mutex); `none` is NULL, the others are pointers. -/
structure CipherObj where
  alg : Nat
  mode : Nat
  sym : Option Nat
  key : Option Nat
  /-- digest, MGF1 digest, label -/
  oaep : Option (Nat × Nat × Option Bytes)
  deriving DecidableEq

/-- What is on the heap. -/
inductive Cell (σ : Type) where
  | key (sk : StoredKey)
  | sym (c : SymCtx σ)
  | obj (o : CipherObj)

/-- The session's cipher contexts. -/
structure CipherWorld (σ : Type) where
  store : ObjectStore Nat
  heap : Nat → Option (Cell σ)
  /-- the next fresh pointer -/
  next : Nat

variable {σ : Type}

/-- Set a cell. -/
def CipherWorld.put (w : CipherWorld σ) (p : Nat) (c : Option (Cell σ)) : CipherWorld σ :=
  { w with heap := fun x => if x = p then c else w.heap x }

/-- Allocation: the new cell has the pointer `w.next`. -/
def CipherWorld.alloc (w : CipherWorld σ) (c : Cell σ) : CipherWorld σ :=
  { w.put w.next (some c) with next := w.next + 1 }

/-- `free`; `none` if the pointer is not allocated. -/
def CipherWorld.free (w : CipherWorld σ) (p : Nat) : Option (CipherWorld σ) :=
  match w.heap p with
  | none => none
  | some _ => some (w.put p none)

/-- `free` of a pointer that may be NULL. -/
def CipherWorld.freeOpt (w : CipherWorld σ) : Option Nat → Option (CipherWorld σ)
  | none => some w
  | some p => w.free p

/-- `cipher_free`, cipher_store.c:201-217: the symmetric context, the key copy, the object itself. -/
def cipherFree (w : CipherWorld σ) (p : Nat) : Option (CipherWorld σ) :=
  match w.heap p with
  | some (.obj o) => ((w.freeOpt o.sym).bind fun w => w.freeOpt o.key).bind fun w => w.free p
  | _ => none

/-- `cipher_store_add_symmetric_context`, cipher_store.c:261-339, and `cipher_store_add_asymmetric_key`, cipher_store.c:341-413: if the
object cannot be added it is freed without what it refers to.  `allocOk`: `cipher_alloc` succeeds. -/
def cipherStoreAdd (w : CipherWorld σ) (o : CipherObj) (allocOk : Bool) (caller : Uuid) : CipherWorld σ × Status × Nat :=
  if !allocOk then (w, .INTERNAL_ERROR, SLOT_INVALID)
  else
    let w1 := w.alloc (.obj o)
    let r := objectStoreAdd w1.store w.next caller
    if r.2.1 ≠ .OK then ({ w1.put w.next none with store := r.1 }, r.2.1, r.2.2)
    else ({ w1 with store := r.1 }, .OK, r.2.2)

/-- External events of `ta_sa_crypto_cipher_init`: `cipher_alloc` succeeds, the object is locked, the label is allocated. -/
structure InitEnv where
  rights : RightsEnv
  allocOk : Bool
  lockOk : Bool
  labelOk : Bool

/-- Common end of the functions for the symmetric algorithms, for instance ta_sa_crypto_cipher_init.c:72-115: create a context, add it to the
store, free it if it was not added.  `byHandle`: success is recognised by the handle and not by the status (GCM and ChaCha20-Poly1305,
ta_sa_crypto_cipher_init.c:411 and 642). -/
def initSymmetric (p : CipherPrim σ) (w : CipherWorld σ) (alg mode : Nat) (byHandle : Bool) (keyPtr : Nat) (sk : StoredKey)
    (sp : SymParams) (env : InitEnv) (caller : Uuid) : Option (CipherWorld σ × Status × Nat) :=
  match p.create alg mode sk.key sp with
  | none => some (w, .INTERNAL_ERROR, SLOT_INVALID)
  | some evp =>
    let w1 := w.alloc (.sym ⟨alg, mode, evp⟩)
    let r := cipherStoreAdd w1 ⟨alg, mode, some w.next, some keyPtr, none⟩ env.allocOk caller
    if if byHandle then r.2.2 = SLOT_INVALID else r.2.1 ≠ .OK then (r.1.free w.next).map fun w => (w, r.2)
    else some (r.1, .OK, r.2.2)

/-- Algorithm and parameters (sa_types.h); an `Option` that is `none` is a NULL pointer. -/
inductive InitParams where
  | ecb (pkcs7 : Bool)
  | cbc (pkcs7 : Bool) (iv : Option (Option Bytes))
  | ctr (ctr : Option (Option Bytes))
  /-- iv, aad -/
  | gcm (p : Option (Option Bytes × Buf))
  /-- counter, nonce -/
  | chacha20 (p : Option (Option Bytes × Option Bytes))
  /-- nonce, aad -/
  | poly (p : Option (Option Bytes × Buf))
  | pkcs1v15
  /-- digest, MGF1 digest, label -/
  | oaep (p : Option (Nat × Nat × Buf))
  | elgamal
  | unknown

/-- The algorithm as a number. -/
def InitParams.alg : InitParams → Option Nat
  | .ecb pkcs7 => some (if pkcs7 then CIPHER_AES_ECB_PKCS7 else CIPHER_AES_ECB)
  | .cbc pkcs7 _ => some (if pkcs7 then CIPHER_AES_CBC_PKCS7 else CIPHER_AES_CBC)
  | .ctr _ => some CIPHER_AES_CTR
  | .gcm _ => some CIPHER_AES_GCM
  | .chacha20 _ => some CIPHER_CHACHA20
  | .poly _ => some CIPHER_CHACHA20_POLY1305
  | .pkcs1v15 => some CIPHER_RSA_PKCS1V15
  | .oaep _ => some CIPHER_RSA_OAEP
  | .elgamal => some CIPHER_EC_ELGAMAL
  | .unknown => none

/-- End of `ta_sa_crypto_cipher_init_rsa_oaep`, ta_sa_crypto_cipher_init.c:774-807, with `cipher_set_oaep_parameters`
(cipher_store.c:103-136): the key is added to the store, then the new object is acquired to set the parameters. -/
def initOaep (w : CipherWorld σ) (mode keyPtr : Nat) (d mgf1 : Nat) (label : Option Bytes) (env : InitEnv) (caller : Uuid) :
    Option (CipherWorld σ × Status × Nat) :=
  let r := cipherStoreAdd w ⟨CIPHER_RSA_OAEP, mode, none, some keyPtr, none⟩ env.allocOk caller
  if r.2.1 ≠ .OK then some r
  else
    match objectStoreAcquire r.1.store r.2.2 caller with
    | (st1, .OK, some ptr) =>
      let back := (objectStoreRelease st1 r.2.2 ptr caller).1
      if !env.lockOk then some ({ r.1 with store := back }, .INTERNAL_ERROR, r.2.2)
      else match r.1.heap ptr with
        | some (.obj o) =>
          if label.isSome && !env.labelOk then
            some ({ r.1 with store := back }.put ptr (some (.obj { o with oaep := some (d, mgf1, none) })), .INTERNAL_ERROR, r.2.2)
          else some ({ r.1 with store := back }.put ptr (some (.obj { o with oaep := some (d, mgf1, label) })), .OK, r.2.2)
        | _ => none
    | (st1, s, _) => some ({ r.1 with store := st1 }, s, r.2.2)

/-- The functions for the algorithms, ta_sa_crypto_cipher_init.c:30-872, for a key copy at `keyPtr`.  `symmetric_verify_cipher` and
`rsa_verify_cipher` accept everything that gets there. -/
def initAlgorithm (p : CipherPrim σ) (w : CipherWorld σ) (params : InitParams) (mode keyPtr : Nat) (sk : StoredKey) (env : InitEnv)
    (caller : Uuid) : Option (CipherWorld σ × Status × Nat) :=
  let fail s := some (w, s, SLOT_INVALID)
  let type := sk.header.type.toNat
  let size := sk.header.size.toNat
  match params with
  | .ecb pkcs7 =>
    if !keyTypeSupportsAes type size then fail .INVALID_KEY_TYPE
    else initSymmetric p w (if pkcs7 then CIPHER_AES_ECB_PKCS7 else CIPHER_AES_ECB) mode false keyPtr sk ⟨[], [], []⟩ env caller
  | .cbc pkcs7 iv =>
    if !keyTypeSupportsAes type size then fail .INVALID_KEY_TYPE
    else match iv with
      | none => fail .NULL_PARAMETER
      | some iv =>
        if fixedBuf iv 16 ≠ .OK then fail (fixedBuf iv 16)
        else initSymmetric p w (if pkcs7 then CIPHER_AES_CBC_PKCS7 else CIPHER_AES_CBC) mode false keyPtr sk ⟨iv.getD [], [], []⟩ env caller
  | .ctr ctr =>
    if !keyTypeSupportsAes type size then fail .INVALID_KEY_TYPE
    else match ctr with
      | none => fail .NULL_PARAMETER
      | some ctr =>
        if fixedBuf ctr 16 ≠ .OK then fail (fixedBuf ctr 16)
        else initSymmetric p w CIPHER_AES_CTR mode false keyPtr sk ⟨ctr.getD [], [], []⟩ env caller
  | .gcm q =>
    if !keyTypeSupportsAes type size then fail .INVALID_KEY_TYPE
    else match q with
      | none => fail .NULL_PARAMETER
      | some (iv, aad) =>
        if fixedBuf iv 12 ≠ .OK then fail (fixedBuf iv 12)
        else if aad.isBad then fail .NULL_PARAMETER
        else initSymmetric p w CIPHER_AES_GCM mode true keyPtr sk ⟨iv.getD [], [], aad.get.getD []⟩ env caller
  | .chacha20 q =>
    if !keyTypeSupportsChacha20 type size then fail .INVALID_KEY_TYPE
    else match q with
      | none => fail .NULL_PARAMETER
      | some (counter, nonce) =>
        if fixedBuf nonce 12 ≠ .OK then fail (fixedBuf nonce 12)
        else if fixedBuf counter 4 ≠ .OK then fail (fixedBuf counter 4)
        else initSymmetric p w CIPHER_CHACHA20 mode false keyPtr sk ⟨nonce.getD [], counter.getD [], []⟩ env caller
  | .poly q =>
    if !keyTypeSupportsChacha20 type size then fail .INVALID_KEY_TYPE
    else match q with
      | none => fail .NULL_PARAMETER
      | some (nonce, aad) =>
        if fixedBuf nonce 12 ≠ .OK then fail (fixedBuf nonce 12)
        else if aad.isBad then fail .NULL_PARAMETER
        else initSymmetric p w CIPHER_CHACHA20_POLY1305 mode true keyPtr sk ⟨nonce.getD [], [], aad.get.getD []⟩ env caller
  | .pkcs1v15 =>
    if !keyTypeSupportsRsa type size then fail .INVALID_KEY_TYPE
    else if mode ≠ MODE_DECRYPT then fail .INVALID_PARAMETER
    else some (cipherStoreAdd w ⟨CIPHER_RSA_PKCS1V15, mode, none, some keyPtr, none⟩ env.allocOk caller)
  | .oaep q =>
    match q with
    | none => fail .NULL_PARAMETER
    | some (d, mgf1, label) =>
      if label.isBad then fail .INVALID_PARAMETER
      else if !keyTypeSupportsRsa type size then fail .INVALID_KEY_TYPE
      else if mode ≠ MODE_DECRYPT then fail .INVALID_PARAMETER
      else initOaep w mode keyPtr d mgf1 label.get env caller
  | .elgamal =>
    if !keyTypeSupportsEc type (curveOf sk.header.typeParameters) size then fail .INVALID_KEY_TYPE
    else if mode ≠ MODE_DECRYPT then fail .INVALID_PARAMETER
    else if !isPCurve (curveOf sk.header.typeParameters) then fail .OPERATION_NOT_ALLOWED
    else some (cipherStoreAdd w ⟨CIPHER_EC_ELGAMAL, mode, none, some keyPtr, none⟩ env.allocOk caller)
  | .unknown => fail .INVALID_PARAMETER

/-- `ta_sa_crypto_cipher_init`, ta_sa_crypto_cipher_init.c:874-1025: new world, status, `*context`.  The copy of the key made by
`key_store_unwrap` has the pointer `w.next`. -/
def cipherInit (p : CipherPrim σ) (w : CipherWorld σ) (params : InitParams) (mode : Nat) (key : Status × Option StoredKey) (env : InitEnv)
    (caller : Uuid) : Option (CipherWorld σ × Status × Nat) :=
  let fail s := some (w, s, SLOT_INVALID)
  if params.alg = none then fail .INVALID_PARAMETER
  else if mode ≠ MODE_ENCRYPT ∧ mode ≠ MODE_DECRYPT then fail .INVALID_PARAMETER
  else if key.1 ≠ .OK then fail key.1
  else match key.2 with
    | none => fail .NULL_PARAMETER
    | some sk =>
      let w1 := w.alloc (.key sk)
      let symmetric := sk.header.type.toNat == KEY_TYPE_SYMMETRIC
      let allowed := if mode = MODE_ENCRYPT then rightsAllowedEncrypt env.rights sk.header.rights symmetric
        else rightsAllowedDecrypt env.rights sk.header.rights symmetric
      if !allowed then (w1.free w.next).map fun w => (w, .OPERATION_NOT_ALLOWED, SLOT_INVALID)
      else match initAlgorithm p w1 params mode w.next sk env caller with
        | none => none
        | some (w2, .OK, h) => some (w2, .OK, h)
        | some (w2, s, h) => (w2.free w.next).map fun w => (w, s, h)

/-- `ta_sa_crypto_cipher_release`, ta_sa_crypto_cipher_release.c:24-52: `cipher_store_remove`, whose destructor is `cipher_free`.  No status:
the call does not return as long as the context is referenced. -/
def cipherRelease (w : CipherWorld σ) (context : Nat) (caller : Uuid) : Option (CipherWorld σ × Option Status) :=
  match objectStoreRemove w.store context caller with
  | .returned st status none => some ({ w with store := st }, some status)
  | .returned st status (some ptr) => (cipherFree w ptr).map fun w => ({ w with store := st }, some status)
  | .blocks st => some ({ w with store := st }, none)

/-! ## The context functions of symmetric.c -/

/-- Result of the context functions: the context, the memory, the status, `*out_length`. -/
structure SymResult (σ : Type) where
  ctx : SymCtx σ
  mem : Mem
  status : Status
  outLength : UInt64

/-- `symmetric_context_encrypt`, symmetric.c:1239-1284, and `symmetric_context_decrypt`, symmetric.c:1347-1392 (`mode` says which).  The
length is converted to `int`: of a length of 2^31 or more only the low 32 bits count, and a negative value is an error for OpenSSL.  Input
and output may be the same memory: the input is read first. -/
def symContextUpdate (p : CipherPrim σ) (mode : Nat) (c : SymCtx σ) (mem : Mem) (outA inA : Nat) (len : UInt64) : SymResult σ :=
  if c.mode ≠ mode then ⟨c, mem, .INVALID_PARAMETER, len⟩
  else if !isStreamAlg c.alg && len % 16 ≠ 0 then ⟨c, mem, .INVALID_PARAMETER, len⟩
  else
    let n := len.toNat % 2 ^ 32
    if n ≥ 2 ^ 31 then ⟨c, mem, .INTERNAL_ERROR, len⟩
    else match p.update c.evp (readAt mem inA n) with
      | (e, none) => ⟨{ c with evp := e }, mem, .INTERNAL_ERROR, len⟩
      | (e, some o) => ⟨{ c with evp := e }, writeAt mem outA o, .OK, UInt64.ofNat o.length⟩

/-- The limits on the length of the last chunk: symmetric.c:1310-1316 for encryption, symmetric.c:1419-1422 for decryption. -/
def lastTooLong (mode alg : Nat) (len : UInt64) : Bool :=
  if mode = MODE_ENCRYPT then isPkcs7Alg alg && decide (len > 16)
  else alg != CIPHER_CHACHA20_POLY1305 && decide (len > 16)

/-- `symmetric_context_encrypt_last`, symmetric.c:1286-1345, and `symmetric_context_decrypt_last`, symmetric.c:1394-1451, with a non-NULL
output. -/
def symContextLast (p : CipherPrim σ) (mode : Nat) (c : SymCtx σ) (mem : Mem) (outA inA : Nat) (outLength len : UInt64) : SymResult σ :=
  if c.mode ≠ mode then ⟨c, mem, .INVALID_PARAMETER, outLength⟩
  else if c.alg = CIPHER_AES_ECB ∨ c.alg = CIPHER_AES_CBC then ⟨c, mem, .INVALID_PARAMETER, outLength⟩
  else if lastTooLong mode c.alg len then ⟨c, mem, .INVALID_PARAMETER, outLength⟩
  else
    let n := len.toNat % 2 ^ 32
    if n ≥ 2 ^ 31 then ⟨c, mem, .INTERNAL_ERROR, outLength⟩
    else match p.update c.evp (readAt mem inA n) with
      | (e, none) => ⟨{ c with evp := e }, mem, .INTERNAL_ERROR, outLength⟩
      | (e, some o) =>
        let mem := writeAt mem outA o
        match p.final e with
        | (e, none) => ⟨{ c with evp := e }, mem, .INTERNAL_ERROR, outLength⟩
        | (e, some f) => ⟨{ c with evp := e }, writeAt mem (outA + o.length) f, .OK, UInt64.ofNat (o.length + f.length)⟩

/-! ## Processing -/

/-- An `sa_buffer` as received: its type may be neither clear nor SVP. -/
inductive RawBuffer where
  | buf (b : SaBuffer)
  | badType
  deriving DecidableEq

/-- What a processing call leaves. -/
structure ProcResult (σ : Type) where
  world : CipherWorld σ
  svp : SvpStore
  mem : Mem
  out : Option RawBuffer
  input : RawBuffer
  /-- `*bytes_to_process` -/
  bytes : UInt64
  /-- `parameters->tag` -/
  tag : Option Bytes
  status : Status

/-- `get_required_length`, ta_sa_crypto_cipher_process.c:30-57. -/
def processRequired (alg : Nat) (keySize : UInt64) (bytes : UInt64) (applyPadding : Bool) : UInt64 :=
  if alg == CIPHER_AES_CBC || isStreamAlg alg || alg == CIPHER_AES_ECB then bytes
  else if isPkcs7Alg alg then bytes + (if applyPadding then 16 else 0)
  else if alg == CIPHER_RSA_PKCS1V15 || alg == CIPHER_RSA_OAEP || alg == CIPHER_EC_ELGAMAL then keySize
  else 0

/-- `get_required_length`, ta_sa_crypto_cipher_process_last.c:29-48; `PADDED_SIZE`, pad.h:39. -/
def lastRequired (alg : Nat) (bytes : UInt64) : UInt64 :=
  if isPkcs7Alg alg then 16 * (bytes / 16 + 1)
  else if isStreamAlg alg then bytes
  else 0

/-- The algorithms that do not take SVP buffers, ta_sa_crypto_cipher_process.c:440-449. -/
def noSvpAlg (alg : Nat) : Bool :=
  alg == CIPHER_AES_GCM || alg == CIPHER_CHACHA20_POLY1305 || alg == CIPHER_RSA_OAEP || alg == CIPHER_RSA_PKCS1V15 ||
    alg == CIPHER_EC_ELGAMAL

/-- What the functions for the algorithms leave: the symmetric context (if any), the memory, the status, `*bytes_to_process`, the tag. -/
structure AlgResult (σ : Type) where
  ctx : Option (SymCtx σ)
  mem : Mem
  status : Status
  bytes : UInt64
  tag : Option Bytes

/-- `rights_allowed_encrypt` or `rights_allowed_decrypt` for the mode of the context. -/
def modeAllowed (env : RightsEnv) (mode : Nat) (r : Rights) (symmetric : Bool) : Bool :=
  if mode = MODE_ENCRYPT then rightsAllowedEncrypt env r symmetric else rightsAllowedDecrypt env r symmetric

/-- `ta_sa_crypto_cipher_process_symmetric`, ta_sa_crypto_cipher_process.c:59-147 (the mode is one of the two, as the store only holds
those). -/
def processSymmetric (p : CipherPrim σ) (env : RightsEnv) (o : CipherObj) (sk : StoredKey) (ctx : Option (SymCtx σ)) (mem : Mem)
    (outA inA : Nat) (bytes : UInt64) : AlgResult σ :=
  if !isStreamAlg o.alg && bytes % 16 ≠ 0 then ⟨ctx, mem, .INVALID_PARAMETER, bytes, none⟩
  else match ctx with
    | none => ⟨none, mem, .NULL_PARAMETER, bytes, none⟩
    | some c =>
      if !modeAllowed env o.mode sk.header.rights true then ⟨some c, mem, .OPERATION_NOT_ALLOWED, bytes, none⟩
      else
        let r := symContextUpdate p o.mode c mem outA inA bytes
        if r.status ≠ .OK then ⟨some r.ctx, r.mem, r.status, bytes, none⟩
        else ⟨some r.ctx, r.mem, .OK, r.outLength, none⟩

/-- `ta_sa_crypto_cipher_process_rsa_pkcs1v15` and `…_rsa_oaep`, ta_sa_crypto_cipher_process.c:149-302, with `rsa_decrypt_pkcs1v15` and
`rsa_decrypt_oaep` (all their failures are shown as `VERIFICATION_FAILED`). -/
def processRsa (u : UnwrapPrims) (env : RightsEnv) (o : CipherObj) (sk : StoredKey) (mem : Mem) (outA inA : Nat) (bytes : UInt64) :
    AlgResult σ :=
  let size := sk.header.size.toUInt64
  let fail s : AlgResult σ := ⟨none, mem, s, bytes, none⟩
  if size = 0 then fail .NULL_PARAMETER
  else if bytes ≠ size then fail .INVALID_PARAMETER
  else if o.mode ≠ MODE_DECRYPT then fail .INVALID_PARAMETER
  else if !rightsAllowedDecrypt env sk.header.rights false then fail .OPERATION_NOT_ALLOWED
  else
    let input := readAt mem inA bytes.toNat
    let r := if o.alg = CIPHER_RSA_PKCS1V15 then u.rsaPkcs1 sk.key input else match o.oaep with
      | none => u.rsaOaep sk.key 0 0 none input
      | some (d, mgf1, label) => u.rsaOaep sk.key d mgf1 label input
    match r with
    | none => fail .VERIFICATION_FAILED
    | some clear => ⟨none, writeAt mem outA clear, .OK, UInt64.ofNat clear.length, none⟩

/-- `ta_sa_crypto_cipher_process_ec_elgamal`, ta_sa_crypto_cipher_process.c:304-373. -/
def processElgamal (u : UnwrapPrims) (env : RightsEnv) (o : CipherObj) (sk : StoredKey) (mem : Mem) (outA inA : Nat) (bytes : UInt64) :
    AlgResult σ :=
  let size := sk.header.size.toUInt64
  let fail s : AlgResult σ := ⟨none, mem, s, bytes, none⟩
  if size = 0 then fail .NULL_PARAMETER
  else if bytes ≠ size * 4 then fail .INVALID_PARAMETER
  else if o.mode ≠ MODE_DECRYPT then fail .INVALID_PARAMETER
  else if !rightsAllowedDecrypt env sk.header.rights false then fail .OPERATION_NOT_ALLOWED
  else match ecDecryptElgamal u bytes.toNat sk (readAt mem inA bytes.toNat) with
    | (.OK, clear) => ⟨none, writeAt mem outA clear, .OK, UInt64.ofNat clear.length, none⟩
    | _ => fail .VERIFICATION_FAILED

/-- The choice of the algorithm, ta_sa_crypto_cipher_process.c:487-522. -/
def processAlgorithm (p : CipherPrim σ) (u : UnwrapPrims) (env : RightsEnv) (o : CipherObj) (sk : StoredKey) (ctx : Option (SymCtx σ))
    (mem : Mem) (outA inA : Nat) (bytes : UInt64) : AlgResult σ :=
  if isStreamAlg o.alg || isPkcs7Alg o.alg || o.alg == CIPHER_AES_ECB || o.alg == CIPHER_AES_CBC then
    processSymmetric p env o sk ctx mem outA inA bytes
  else if o.alg = CIPHER_RSA_PKCS1V15 ∨ o.alg = CIPHER_RSA_OAEP then processRsa u env o sk mem outA inA bytes
  else if o.alg = CIPHER_EC_ELGAMAL then processElgamal u env o sk mem outA inA bytes
  else ⟨none, mem, .INVALID_PARAMETER, bytes, none⟩

/-- `ta_sa_crypto_cipher_process_last_aes_pkcs7`, ta_sa_crypto_cipher_process_last.c:50-137. -/
def lastPkcs7 (p : CipherPrim σ) (env : RightsEnv) (o : CipherObj) (sk : StoredKey) (ctx : Option (SymCtx σ)) (mem : Mem)
    (outA inA : Nat) (required bytes : UInt64) : AlgResult σ :=
  if bytes > 16 then ⟨ctx, mem, .INVALID_PARAMETER, bytes, none⟩
  else match ctx with
    | none => ⟨none, mem, .NULL_PARAMETER, bytes, none⟩
    | some c =>
      if o.mode ≠ MODE_ENCRYPT ∧ bytes % 16 ≠ 0 then ⟨some c, mem, .INVALID_PARAMETER, bytes, none⟩
      else if !modeAllowed env o.mode sk.header.rights true then ⟨some c, mem, .OPERATION_NOT_ALLOWED, bytes, none⟩
      else
        let r := symContextLast p o.mode c mem outA inA required bytes
        if r.status ≠ .OK then
          -- when encrypting, `*bytes_to_process` is set even so (line 108)
          ⟨some r.ctx, r.mem, r.status, if o.mode = MODE_ENCRYPT then r.outLength else bytes, none⟩
        else ⟨some r.ctx, r.mem, .OK, r.outLength, none⟩

/-- `ta_sa_crypto_cipher_process_last_aes_ctr` and `…_chacha20`, ta_sa_crypto_cipher_process_last.c:139-289. -/
def lastStream (p : CipherPrim σ) (env : RightsEnv) (o : CipherObj) (sk : StoredKey) (ctx : Option (SymCtx σ)) (mem : Mem)
    (outA inA : Nat) (bytes : UInt64) : AlgResult σ :=
  match ctx with
  | none => ⟨none, mem, .NULL_PARAMETER, bytes, none⟩
  | some c =>
    if !modeAllowed env o.mode sk.header.rights true then ⟨some c, mem, .OPERATION_NOT_ALLOWED, bytes, none⟩
    else
      let r := symContextLast p o.mode c mem outA inA bytes bytes
      if r.status ≠ .OK then ⟨some r.ctx, r.mem, r.status, bytes, none⟩
      else ⟨some r.ctx, r.mem, .OK, r.outLength, none⟩

/-- `symmetric_context_get_tag`, symmetric.c:1498-1547: the first `n` bytes of the tag. -/
def symGetTag (p : CipherPrim σ) (c : SymCtx σ) (n : Nat) : Status × Option Bytes :=
  match p.getTag c.evp with
  | none => (.INTERNAL_ERROR, none)
  | some t => (.OK, some (t.take n))

/-- `ta_sa_crypto_cipher_process_last_aes_gcm` and `…_chacha20_poly1305`, ta_sa_crypto_cipher_process_last.c:291-502.  `tag` is
`parameters` (`none` is NULL) with its `tag` (`none` is NULL); its length is `tag_length`. -/
def lastAead (p : CipherPrim σ) (env : RightsEnv) (o : CipherObj) (sk : StoredKey) (ctx : Option (SymCtx σ)) (mem : Mem)
    (outA inA : Nat) (bytes : UInt64) (tag : Option (Option Bytes)) : AlgResult σ :=
  let fail s : AlgResult σ := ⟨ctx, mem, s, bytes, none⟩
  if o.alg = CIPHER_AES_GCM ∧ bytes > 16 then fail .INVALID_PARAMETER
  else match ctx with
    | none => fail .NULL_PARAMETER
    | some c => match tag with
      | none => fail .NULL_PARAMETER
      | some none => fail .NULL_PARAMETER
      | some (some tag) =>
        if if o.alg = CIPHER_AES_GCM then tag.length > 16 else tag.length ≠ 16 then fail .INVALID_PARAMETER
        else if !modeAllowed env o.mode sk.header.rights true then fail .OPERATION_NOT_ALLOWED
        else if o.mode = MODE_ENCRYPT then
          let r := symContextLast p MODE_ENCRYPT c mem outA inA bytes bytes
          if r.status ≠ .OK then ⟨some r.ctx, r.mem, r.status, bytes, none⟩
          else match symGetTag p r.ctx tag.length with
            | (.OK, t) => ⟨some r.ctx, r.mem, .OK, r.outLength, t⟩
            | (s, _) => ⟨some r.ctx, r.mem, s, bytes, none⟩
        else match p.setTag c.evp tag with
          | none => fail .INTERNAL_ERROR
          | some e =>
            let r := symContextLast p MODE_DECRYPT { c with evp := e } mem outA inA bytes bytes
            if r.status ≠ .OK then ⟨some r.ctx, r.mem, r.status, bytes, none⟩
            else ⟨some r.ctx, r.mem, .OK, r.outLength, none⟩

/-- The choice of the algorithm, ta_sa_crypto_cipher_process_last.c:614-660. -/
def lastAlgorithm (p : CipherPrim σ) (env : RightsEnv) (o : CipherObj) (sk : StoredKey) (ctx : Option (SymCtx σ)) (mem : Mem)
    (outA inA : Nat) (required bytes : UInt64) (tag : Option (Option Bytes)) : AlgResult σ :=
  if isPkcs7Alg o.alg then lastPkcs7 p env o sk ctx mem outA inA required bytes
  else if o.alg = CIPHER_AES_CTR ∨ o.alg = CIPHER_CHACHA20 then lastStream p env o sk ctx mem outA inA bytes
  else if o.alg = CIPHER_AES_GCM ∨ o.alg = CIPHER_CHACHA20_POLY1305 then lastAead p env o sk ctx mem outA inA bytes tag
  else ⟨ctx, mem, .INVALID_PARAMETER, bytes, none⟩

/-- Which of the two calls: `process`, or `process_last` with its parameters. -/
inductive ProcKind where
  | more
  | last (tag : Option (Option Bytes))

def ProcKind.required (k : ProcKind) (o : CipherObj) (sk : StoredKey) (bytes : UInt64) (outNull : Bool) : UInt64 :=
  match k with
  | .more => processRequired o.alg sk.header.size.toUInt64 bytes (outNull && o.mode == MODE_ENCRYPT)
  | .last _ => lastRequired o.alg bytes

def ProcKind.run (k : ProcKind) (p : CipherPrim σ) (u : UnwrapPrims) (env : RightsEnv) (o : CipherObj) (sk : StoredKey)
    (ctx : Option (SymCtx σ)) (mem : Mem) (outA inA : Nat) (required bytes : UInt64) : AlgResult σ :=
  match k with
  | .more => processAlgorithm p u env o sk ctx mem outA inA bytes
  | .last tag => lastAlgorithm p env o sk ctx mem outA inA required bytes tag

/-- The symmetric context of an object; `none`: a dangling pointer. -/
def CipherWorld.symOf (w : CipherWorld σ) (o : CipherObj) : Option (Option (SymCtx σ)) :=
  match o.sym with
  | none => some none
  | some ptr => match w.heap ptr with
    | some (.sym c) => some (some c)
    | _ => none

/-- The key copy of an object; `none`: a dangling pointer (the pointer is never NULL in the store). -/
def CipherWorld.keyOf (w : CipherWorld σ) (o : CipherObj) : Option StoredKey :=
  match o.key with
  | none => none
  | some ptr => match w.heap ptr with
    | some (.key sk) => some sk
    | _ => none

/-- The context changed by processing is written back. -/
def CipherWorld.setSym (w : CipherWorld σ) (o : CipherObj) (c : Option (SymCtx σ)) : CipherWorld σ :=
  match o.sym, c with
  | some ptr, some c => w.put ptr (some (.sym c))
  | _, _ => w

/-- The part of `ta_sa_crypto_cipher_process` (ta_sa_crypto_cipher_process.c:410-549) and of `ta_sa_crypto_cipher_process_last`
(ta_sa_crypto_cipher_process_last.c:537-678) after the context was acquired: `o` is the context, `sk` its key, `ctx` its symmetric context.
`wHeld` is the world with the context acquired and `wBack` the one with it given back. -/
def processAcquired (k : ProcKind) (p : CipherPrim σ) (u : UnwrapPrims) (env : RightsEnv) (wBack wHeld : CipherWorld σ) (o : CipherObj)
    (sk : StoredKey) (ctx : Option (SymCtx σ)) (svp : SvpStore) (mem : Mem) (out : Option RawBuffer) (input : RawBuffer) (bytes : UInt64)
    (caller : Uuid) : ProcResult σ :=
  let required := k.required o sk bytes out.isNone
  let fail svp s : ProcResult σ := ⟨wBack, svp, mem, out, input, bytes, none, s⟩
  match out, input with
  | none, _ => ⟨wBack, svp, mem, out, input, required, none, .OK⟩
  -- `return` without giving back the session and the context (lines 429-437; process_last 556-564)
  | some .badType, _ => ⟨wHeld, svp, mem, out, input, bytes, none, .INVALID_PARAMETER⟩
  | _, .badType => ⟨wHeld, svp, mem, out, input, bytes, none, .INVALID_PARAMETER⟩
  | some (.buf ob), .buf ib =>
    if (!ob.isClear || !ib.isClear) && noSvpAlg o.alg then fail svp .OPERATION_NOT_ALLOWED
    else if ob.isClear && !ib.isClear then fail svp .INVALID_PARAMETER
    else if ob.isClear && !rightsAllowedClear sk.header.rights then fail svp .OPERATION_NOT_ALLOWED
    else
      let c1 := convertBuffer svp ob required caller
      if c1.status ≠ .OK then fail (giveBack c1.store c1.svp ob caller) c1.status
      else
        let c2 := convertBuffer c1.store ib bytes caller
        let svp := giveBack (giveBack c2.store c2.svp ib caller) c1.svp ob caller
        if c2.status ≠ .OK then fail svp c2.status
        else
          let r := k.run p u env o sk ctx mem c1.addr c2.addr required bytes
          let w2 := wBack.setSym o r.ctx
          if r.status ≠ .OK then ⟨w2, svp, r.mem, out, input, r.bytes, r.tag, r.status⟩
          else ⟨w2, svp, r.mem, some (.buf (ob.advance r.bytes)), .buf (ib.advance bytes), r.bytes, r.tag, .OK⟩

/-- `ta_sa_crypto_cipher_process`, ta_sa_crypto_cipher_process.c:375-549, and `ta_sa_crypto_cipher_process_last`,
ta_sa_crypto_cipher_process_last.c:504-678.  The `sa_buffer`s are those of the TA interface, which are distinct objects.  `none`:
undefined behaviour. -/
def cipherProcess (k : ProcKind) (p : CipherPrim σ) (u : UnwrapPrims) (env : RightsEnv) (w : CipherWorld σ) (svp : SvpStore) (mem : Mem)
    (context : Nat) (out : Option RawBuffer) (input : RawBuffer) (bytes : UInt64) (caller : Uuid) : Option (ProcResult σ) :=
  match objectStoreAcquire w.store context caller with
  | (st1, .OK, some ptr) =>
    match w.heap ptr with
    | some (.obj o) =>
      match w.keyOf o, w.symOf o with
      | some sk, some ctx =>
        some (processAcquired k p u env { w with store := (objectStoreRelease st1 context ptr caller).1 } { w with store := st1 } o sk ctx svp
          mem out input bytes caller)
      | _, _ => none
    | _ => none
  | (st1, s, _) =>
    some ⟨{ w with store := st1 }, svp, mem, out, input, bytes, none, match k with | .more => .INVALID_PARAMETER | .last _ => s⟩

/-- `ta_sa_crypto_cipher_update_iv`, ta_sa_crypto_cipher_update_iv.c:25-96, with `symmetric_context_set_iv`, symmetric.c:1453-1496. -/
def cipherUpdateIv (p : CipherPrim σ) (w : CipherWorld σ) (context : Nat) (iv : Option Bytes) (caller : Uuid) :
    Option (CipherWorld σ × Status) :=
  match iv with
  | none => some (w, .NULL_PARAMETER)
  | some iv =>
    match objectStoreAcquire w.store context caller with
    | (st1, .OK, some ptr) =>
      match w.heap ptr with
      | some (.obj o) =>
        match w.symOf o with
        | some ctx =>
          let wBack := { w with store := (objectStoreRelease st1 context ptr caller).1 }
          if o.alg = CIPHER_AES_CBC ∨ o.alg = CIPHER_AES_CBC_PKCS7 ∨ o.alg = CIPHER_AES_CTR then
            if iv.length ≠ 16 then some (wBack, .INVALID_PARAMETER)
            else match ctx with
              | none => some (wBack, .NULL_PARAMETER)
              | some c => match p.setIv c.evp iv with
                | none => some (wBack, .INTERNAL_ERROR)
                | some e => some (wBack.setSym o (some { c with evp := e }), .OK)
          else some (wBack, .INVALID_PARAMETER)
        | none => none
      | _ => none
    | (st1, s, _) => some ({ w with store := st1 }, s)

/-- Calls on the cipher contexts of a session.  What the calls are given by the rest of the TA (key, SVP table, memory) is arbitrary. -/
inductive CipherOp where
  | init (params : InitParams) (mode : Nat) (key : Status × Option StoredKey) (env : InitEnv) (caller : Uuid)
  | process (k : ProcKind) (u : UnwrapPrims) (env : RightsEnv) (svp : SvpStore) (mem : Mem) (context : Nat) (out : Option RawBuffer)
      (input : RawBuffer) (bytes : UInt64) (caller : Uuid)
  | updateIv (context : Nat) (iv : Option Bytes) (caller : Uuid)
  | release (context : Nat) (caller : Uuid)

/-- One call: the new world and the status (none if the call does not return); `none`: undefined behaviour. -/
def cipherStep (p : CipherPrim σ) (w : CipherWorld σ) : CipherOp → Option (CipherWorld σ × Option Status)
  | .init params mode key env u => (cipherInit p w params mode key env u).map fun r => (r.1, some r.2.1)
  | .process k u env svp mem context out input bytes caller =>
    (cipherProcess k p u env w svp mem context out input bytes caller).map fun r => (r.world, some r.status)
  | .updateIv context iv u => (cipherUpdateIv p w context iv u).map fun r => (r.1, some r.2)
  | .release context u => cipherRelease w context u

/-- A sequence of calls. -/
def cipherRun (p : CipherPrim σ) (w : CipherWorld σ) : List CipherOp → Option (CipherWorld σ)
  | [] => some w
  | op :: ops => (cipherStep p w op).bind fun r => cipherRun p r.1 ops

/-- The cipher store of a new session (`cipher_store_init`, cipher_store.c:242-250). -/
def cipherNew (σ : Type) (slots : Nat) : Option (CipherWorld σ) := (objectStoreInit Nat slots).map fun st => ⟨st, fun _ => none, 0⟩

end Sa

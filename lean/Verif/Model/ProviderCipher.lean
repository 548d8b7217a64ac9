import Verif.Model.Cipher

/-!
# Ciphers of the OpenSSL 3 provider (`client/src/sa_provider_cipher.c`)

The provider sits above the API: the calls of the API are a parameter (`Api`).  NULL contexts and failing allocations are left out, as are
`OSSL_PARAM`s of the wrong type.  Lengths are natural numbers.  What is left in `remaining_block` behind `remaining_block_length` is never
read before it is overwritten and is not modelled.
-/

namespace Sa.Pv

/-- The API as the provider uses it; `ω` is everything behind it.  `none` is any status other than `SA_STATUS_OK`; then the arguments that
are also results are as they were (sa_key_import.c:176-182, sa_crypto_cipher_process.c:127-151 of the client library). -/
structure Api (ω : Type) where
  /-- `sa_key_import` of symmetric bytes with all rights -/
  keyImport : ω → Bytes → ω × Option Nat
  /-- `sa_key_header`: the size -/
  keySize : ω → Nat → Option Nat
  keyRelease : ω → Nat → ω
  /-- `sa_crypto_cipher_init`: algorithm, mode, key, parameters -/
  cipherInit : ω → Nat → Nat → Nat → SymParams → ω × Option Nat
  /-- `sa_crypto_cipher_process`: context, input, room in the output buffer; the output -/
  process : ω → Nat → Bytes → Nat → ω × Option Bytes
  /-- `sa_crypto_cipher_process_last`: context, input, room, tag; the output and the tag -/
  processLast : ω → Nat → Bytes → Nat → Option Bytes → ω × Option (Bytes × Option Bytes)
  cipherRelease : ω → Nat → ω

/-- `sa_provider_cipher_context`, sa_provider_cipher.c:37-53; `none` is `INVALID_HANDLE`. -/
structure Ctx where
  alg : Nat
  mode : Nat
  keySize : Nat
  blockSize : Nat
  ivLength : Nat
  key : Option Nat
  cipher : Option Nat
  iv : Bytes
  padded : Bool
  aead : Bool
  tag : Bytes
  deleteKey : Bool
  /-- `remaining_block` and `remaining_block_length`.  The code uses `AES_BLOCK_SIZE` with them, the model `blockSize`: bytes only remain for
  block sizes other than 1, that is 16 -/
  rem : Bytes
  deriving DecidableEq

/-- `cipher_newctx`, sa_provider_cipher.c:87-119. -/
def newctx (alg keySize blockSize ivLength : Nat) (aead : Bool) : Ctx :=
  { alg := alg, mode := 0, keySize := keySize, blockSize := blockSize, ivLength := ivLength, key := none, cipher := none,
    iv := List.replicate 16 0, padded := alg == CIPHER_AES_CBC_PKCS7 || alg == CIPHER_AES_ECB_PKCS7, aead := aead,
    tag := List.replicate 16 0, deleteKey := false, rem := [] }

/-- The ciphers of the provider, sa_provider_cipher.c:724-741. -/
inductive Name where
  | ecb (bits : Nat)
  | cbc (bits : Nat)
  | ctr (bits : Nat)
  | gcm (bits : Nat)
  | chacha20
  | poly
  deriving DecidableEq

/-- `cipher_…_newctx`, sa_provider_cipher.c:701-704 with 724-741. -/
def Name.ctx : Name → Ctx
  | .ecb bits => newctx CIPHER_AES_ECB_PKCS7 (bits / 8) 16 16 false
  | .cbc bits => newctx CIPHER_AES_CBC_PKCS7 (bits / 8) 16 16 false
  | .ctr bits => newctx CIPHER_AES_CTR (bits / 8) 1 16 false
  | .gcm bits => newctx CIPHER_AES_GCM (bits / 8) 1 12 true
  | .chacha20 => newctx CIPHER_CHACHA20 32 1 16 false
  | .poly => newctx CIPHER_CHACHA20_POLY1305 32 1 12 true

variable {ω : Type}

/-- `cipher_freectx`, sa_provider_cipher.c:121-135. -/
def freectx (api : Api ω) (w : ω) (c : Ctx) : ω :=
  let w := match c.cipher with
    | some h => api.cipherRelease w h
    | none => w
  match c.deleteKey, c.key with
  | true, some k => api.keyRelease w k
  | _, _ => w

/-- The `OSSL_PARAM`s for `cipher_set_ctx_params`.  The length of the IV is not looked at. -/
structure Params where
  padding : Option Bool := none
  tag : Option Bytes := none
  key : Option Nat := none
  deleteKey : Option Bool := none
  ivLength : Option Nat := none

/-- `memcpy` of `src` to the start of `dst`. -/
def overwrite (dst src : Bytes) : Bytes := src ++ dst.drop src.length

/-- The padding, sa_provider_cipher.c:600-620: the algorithm. -/
def withPadding (alg : Nat) (padded : Bool) : Nat :=
  if padded then
    if alg = CIPHER_AES_ECB then CIPHER_AES_ECB_PKCS7 else if alg = CIPHER_AES_CBC then CIPHER_AES_CBC_PKCS7 else alg
  else if alg = CIPHER_AES_ECB_PKCS7 then CIPHER_AES_ECB else if alg = CIPHER_AES_CBC_PKCS7 then CIPHER_AES_CBC else alg

/-- First part of `cipher_set_ctx_params`, sa_provider_cipher.c:599-630: padding and tag. -/
def setPlain (c : Ctx) (p : Params) : Option Ctx :=
  let c := match p.padding with
    | none => c
    | some b => { c with padded := b, alg := withPadding c.alg b }
  match p.tag with
  | none => some c
  | some t => if t.length > 16 then none else some { c with tag := overwrite c.tag t }

/-- The key, sa_provider_cipher.c:632-656: the old key is released, whoever owns it. -/
def setKey (api : Api ω) (w : ω) (c : Ctx) : Option Nat → ω × Option Ctx
  | none => (w, some c)
  | some k =>
    if api.keySize w k ≠ some c.keySize then (w, none)
    else match c.key with
      | none => (w, some { c with key := some k })
      | some old => (api.keyRelease w old, some { c with key := some k })

/-- `cipher_set_ctx_params`, sa_provider_cipher.c:586-670: new context and success.  (What was set before a failure stays set.) -/
def setParams (api : Api ω) (w : ω) (c : Ctx) (p : Params) : ω × Ctx × Bool :=
  match setPlain c p with
  | none => (w, { c with padded := p.padding.getD c.padded, alg := (p.padding.map (withPadding c.alg)).getD c.alg }, false)
  | some c1 => match setKey api w c1 p.key with
    | (w, none) => (w, c1, false)
    | (w, some c2) => (w, match p.deleteKey with | none => c2 | some b => { c2 with deleteKey := b }, true)

/-- The key bytes given to `cipher_init`, sa_provider_cipher.c:169-193. -/
def initKey (api : Api ω) (w : ω) (c : Ctx) : Option Bytes → ω × Ctx × Bool
  | none => (w, c, true)
  | some bytes =>
    let w := match c.key with
      | none => w
      | some old => api.keyRelease w old
    match api.keyImport w bytes with
    | (w, none) => (w, c, false)
    | (w, some k) =>
      if api.keySize w k ≠ some c.keySize then (w, { c with key := some k }, false)
      else (w, { c with key := some k, deleteKey := true }, true)

/-- The SA context of before is released, sa_provider_cipher.c:154-157. -/
def dropCipher (api : Api ω) (w : ω) (c : Ctx) : ω :=
  match c.cipher with
  | none => w
  | some h => api.cipherRelease w h

/-- `cipher_init`, sa_provider_cipher.c:137-204. -/
def init (api : Api ω) (w : ω) (c : Ctx) (mode : Nat) (key iv : Option Bytes) (params : Option Params) : ω × Ctx × Bool :=
  let w := dropCipher api w c
  let c := { c with mode := mode, cipher := none }
  if (iv.getD []).length > 16 then (w, c, false)
  else
    let c := { c with iv := overwrite c.iv (iv.getD []) }
    match initKey api w c key with
    | (w, c, false) => (w, c, false)
    | (w, c, true) => match params with
      | none => (w, c, true)
      | some p => setParams api w c p

/-- The parameters of the SA context, sa_provider_cipher.c:286-330; `none`: an algorithm the provider does not have. -/
def saParams (c : Ctx) (aad : Bytes) : Option SymParams :=
  if c.alg = CIPHER_AES_ECB ∨ c.alg = CIPHER_AES_ECB_PKCS7 then some ⟨[], [], []⟩
  else if c.alg = CIPHER_AES_CBC ∨ c.alg = CIPHER_AES_CBC_PKCS7 ∨ c.alg = CIPHER_AES_CTR then some ⟨c.iv.take c.ivLength, [], []⟩
  else if c.alg = CIPHER_CHACHA20 then some ⟨(c.iv.drop 4).take 12, c.iv.take 4, []⟩
  else if c.alg = CIPHER_AES_GCM ∨ c.alg = CIPHER_CHACHA20_POLY1305 then some ⟨c.iv.take c.ivLength, [], aad⟩
  else none

/-- The SA context is made by the first call, sa_provider_cipher.c:273-340. -/
def ensure (api : Api ω) (w : ω) (c : Ctx) (key : Nat) (aad : Bytes) : ω × Option (Ctx × Nat) :=
  match c.cipher with
  | some h => (w, some (c, h))
  | none => match saParams c aad with
    | none => (w, none)
    | some sp => match api.cipherInit w c.alg c.mode key sp with
      | (w, none) => (w, none)
      | (w, some h) => (w, some ({ c with cipher := some h }, h))

/-- State of the loop: the API's state, `total_length`, `position`, the remaining bytes, the status of the last call, what was written to the
output, `total_processed`. -/
structure Loop (ω : Type) where
  world : ω
  total : Nat
  position : Nat
  rem : Bytes
  ok : Bool
  out : Bytes
  processed : Nat

/-- One call of `sa_crypto_cipher_process`, sa_provider_cipher.c:377-382: a failing call leaves the output buffer and
`bytes_to_process` as they were. -/
def Loop.feed (api : Api ω) (h room : Nat) (s : Loop ω) (b : Bytes) : Loop ω :=
  match api.process s.world h b (room - s.out.length) with
  | (w, none) => { s with world := w, total := s.total - b.length, ok := false, processed := s.processed + b.length }
  | (w, some o) => { s with world := w, total := s.total - b.length, ok := true, out := s.out ++ o, processed := s.processed + o.length }

/-- The loop, sa_provider_cipher.c:357-384.  The fuel is never used up (`Lemmas/ProviderCipher`). -/
def loop (api : Api ω) (h room bs : Nat) (inp : Bytes) : Nat → Loop ω → Loop ω
  | 0, s => s
  | n + 1, s =>
    if s.total < bs then s
    else if s.rem.length > 0 then
      let take := bs - s.rem.length
      loop api h room bs inp n
        ({ s with rem := [], position := s.position + take }.feed api h room (s.rem ++ (inp.drop s.position).take take))
    else
      let n' := (inp.length - s.position) / bs * bs
      loop api h room bs inp n ({ s with position := s.position + n' }.feed api h room ((inp.drop s.position).take n'))

/-- What a call returns: success, what is in the output buffer from its start, `*outl`. -/
structure Ret where
  ok : Bool
  out : Bytes
  outl : Nat
  deriving DecidableEq

/-- An update with output, sa_provider_cipher.c:347-391. -/
def update (api : Api ω) (w : ω) (c : Ctx) (h room : Nat) (inp : Bytes) : ω × Ctx × Ret :=
  let s := loop api h room c.blockSize inp 3 ⟨w, c.rem.length + inp.length, 0, c.rem, true, [], 0⟩
  let rem := if s.position < inp.length then inp.drop s.position else s.rem
  (s.world, { c with rem := rem }, ⟨s.ok, s.out, if s.ok then s.processed else 0⟩)

/-- A final call with output, sa_provider_cipher.c:392-420. -/
def final (api : Api ω) (w : ω) (c : Ctx) (h room : Nat) : ω × Ctx × Ret :=
  if c.alg ≠ CIPHER_AES_CBC ∧ c.alg ≠ CIPHER_AES_ECB then
    match api.processLast w h c.rem room (if c.aead then some c.tag else none) with
    | (w, none) => (w, c, ⟨false, [], 0⟩)
    | (w, some (o, t)) => (w, { c with tag := if c.aead then t.getD c.tag else c.tag }, ⟨true, o, o.length⟩)
  else if c.rem.length > 0 then (w, c, ⟨false, [], 0⟩)
  else (w, c, ⟨true, [], 0⟩)

/-- `cipher_cipher`, sa_provider_cipher.c:247-438, which is also `cipher_update` and `cipher_final` (lines 226-245).  `out` is the size of
the output buffer (`none`: NULL), `inp` the input (`none`: NULL). -/
def call (api : Api ω) (w : ω) (c : Ctx) (out : Option Nat) (inp : Option Bytes) : ω × Ctx × Ret :=
  match c.key with
  | none => (w, c, ⟨false, [], 0⟩)
  | some k => match ensure api w c k (if out.isNone then inp.getD [] else []) with
    | (w, none) => (w, c, ⟨false, [], 0⟩)
    | (w, some (c, h)) => match out, inp with
      | none, _ => (w, c, ⟨true, [], 0⟩)
      | some room, some m => update api w c h room m
      | some room, none => final api w c h room

/-- What `cipher_get_ctx_params` reports, sa_provider_cipher.c:528-584. -/
structure Report where
  padding : Bool
  keyLength : Nat
  tag : Bytes
  ivLength : Nat
  iv : Bytes
  key : Option Nat
  deleteKey : Bool
  deriving DecidableEq

/-- `cipher_get_ctx_params`, sa_provider_cipher.c:528-584, with buffers that are large enough. -/
def getCtx (c : Ctx) : Report := ⟨c.padded, c.keySize, c.tag, c.ivLength, c.iv.take c.ivLength, c.key, c.deleteKey⟩

/-- What `cipher_get_params` reports, sa_provider_cipher.c:440-510 (without the mode and the fixed zeros). -/
structure Kind where
  keyLength : Nat
  ivLength : Nat
  blockSize : Nat
  aead : Bool
  deriving DecidableEq

/-- `cipher_…_get_params`, sa_provider_cipher.c:706-712 with 724-741: the same constants of the table as for the contexts. -/
def Name.get : Name → Kind
  | .ecb bits => ⟨bits / 8, 16, 16, false⟩
  | .cbc bits => ⟨bits / 8, 16, 16, false⟩
  | .ctr bits => ⟨bits / 8, 16, 1, false⟩
  | .gcm bits => ⟨bits / 8, 12, 1, true⟩
  | .chacha20 => ⟨32, 16, 1, false⟩
  | .poly => ⟨32, 12, 1, true⟩

end Sa.Pv

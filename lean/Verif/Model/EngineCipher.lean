import Verif.Model.ProviderCipher

/-!
# Ciphers of the OpenSSL 1.1 engine (`client/src/sa_engine_cipher.c`) and the part of OpenSSL above them

The engine keeps pointers to the key handle and the IV of the application and reads them later: the memory of the application (`Mem`) is an
argument of the calls.  The calls of the API are a parameter.  Failing allocations are left out.

OpenSSL's `EVP_CipherInit_ex`, `EVP_EncryptUpdate` and `EVP_EncryptFinal_ex` (crypto/evp/evp_enc.c of OpenSSL 1.1.1) are not part of the
repository; how they call the engine is an assumption, written down in `evpInit`, `evpUpdate` and `evpFinal`.
-/

namespace Sa.Eng

open Sa.Pv (Api Name)

/-- The memory of the application, as far as the engine reads it: key handles and IVs. -/
structure Mem where
  key : Nat → Nat
  iv : Nat → Bytes

/-- `cipher_app_data`, sa_engine_cipher.c:104-112; `key` and `iv` are addresses.  `tag` `none`: as `malloc` left it.  `padding` is never
read. -/
structure Data where
  key : Option Nat
  iv : Option Nat
  mode : Nat
  alg : Nat
  cipher : Option Nat
  tag : Option Bytes
  deriving DecidableEq

/-- `cipher_get_cipher_algorithm`, sa_engine_cipher.c:131-161. -/
def algOf : Name → Nat
  | .ecb _ => CIPHER_AES_ECB
  | .cbc _ => CIPHER_AES_CBC
  | .ctr _ => CIPHER_AES_CTR
  | .gcm _ => CIPHER_AES_GCM
  | .chacha20 => CIPHER_CHACHA20
  | .poly => CIPHER_CHACHA20_POLY1305

/-- Block sizes, sa_engine_cipher.c:28-33. -/
def blockOf : Name → Nat
  | .ecb _ | .cbc _ => 16
  | _ => 1

/-- IV lengths, sa_engine_cipher.c:34-39. -/
def ivLenOf : Name → Nat
  | .ecb _ => 0
  | .cbc _ | .ctr _ | .chacha20 => 16
  | .gcm _ | .poly => 12

/-- Key lengths, sa_engine_cipher.c:393-411. -/
def keyLenOf : Name → Nat
  | .ecb bits | .cbc bits | .ctr bits | .gcm bits => bits / 8
  | _ => 32

/-- `EVP_CIPH_FLAG_CUSTOM_CIPHER`, sa_engine_cipher.c:399-410. -/
def custom : Name → Bool
  | .gcm _ | .poly => true
  | _ => false

variable {ω : Type}

/-- `cipher_init`, sa_engine_cipher.c:163-206: direction, cipher context and tag are set only when there is no data yet. -/
def init (api : Api ω) (w : ω) (mem : Mem) (n : Name) (d : Option Data) (key iv : Option Nat) (enc : Bool) : Data × Bool :=
  let d := d.getD { key := none, iv := none, mode := if enc then MODE_ENCRYPT else MODE_DECRYPT, alg := algOf n, cipher := none, tag := none }
  match key with
  | none => ({ d with iv := iv.or d.iv }, true)
  | some a =>
    if api.keySize w (mem.key a) = some (keyLenOf n) then ({ d with key := some a, iv := iv.or d.iv }, true)
    else ({ d with key := some a }, false)

/-- The parameters of the API, sa_engine_cipher.c:235-283; `none`: no IV was given, the API gets NULL and refuses. -/
def params (mem : Mem) (n : Name) (d : Data) (aad : Bytes) : Option SymParams :=
  if d.alg = CIPHER_AES_ECB then some ⟨[], [], []⟩
  else match d.iv with
    | none => none
    | some a =>
      let iv := (mem.iv a).take (ivLenOf n)
      if d.alg = CIPHER_AES_CBC ∨ d.alg = CIPHER_AES_CTR then some ⟨iv, [], []⟩
      else if d.alg = CIPHER_CHACHA20 then some ⟨((mem.iv a).drop 4).take 12, (mem.iv a).take 4, []⟩
      else some ⟨iv, [], aad⟩

/-- The cipher context of the API is made by the first call, sa_engine_cipher.c:222-292. -/
def ensure (api : Api ω) (w : ω) (mem : Mem) (n : Name) (d : Data) (key : Nat) (aad : Bytes) : ω × Option (Data × Nat) :=
  match d.cipher with
  | some h => (w, some (d, h))
  | none => match params mem n d aad with
    | none => (w, none)
    | some sp => match api.cipherInit w d.alg d.mode (mem.key key) sp with
      | (w, none) => (w, none)
      | (w, some h) => (w, some ({ d with cipher := some h }, h))

/-- The last call, sa_engine_cipher.c:304-317; `none`: to decipher, a tag is read that was never set (what is in the memory is not
determined).  When enciphering the API does not use what it gets as the tag. -/
def last (api : Api ω) (w : ω) (n : Name) (d : Data) (h : Nat) : Option (ω × Data × Int × Bytes) :=
  if d.alg ≠ CIPHER_AES_CBC ∧ d.alg ≠ CIPHER_AES_ECB ∧ d.alg ≠ CIPHER_CHACHA20 then
    if d.tag = none ∧ d.mode = MODE_DECRYPT then none
    else match api.processLast w h [] (blockOf n) (some (d.tag.getD (List.replicate 16 0))) with
      | (w, none) => some (w, d, -1, [])
      | (w, some (o, t)) => some (w, { d with tag := t.or d.tag }, o.length, o)
  else some (w, d, 0, [])

/-- `cipher_do_cipher`, sa_engine_cipher.c:208-331: what it returns and what it writes.  `out` says whether there is an output buffer, whose
length is that of the input. -/
def doCipher (api : Api ω) (w : ω) (mem : Mem) (n : Name) (d : Option Data) (out : Bool) (inp : Option Bytes) :
    Option (ω × Option Data × Int × Bytes) :=
  match d with
  | none => some (w, none, -1, [])
  | some d => match d.key with
    | none => some (w, some d, -1, [])
    | some a => match ensure api w mem n d a (if out then [] else inp.getD []) with
      | (w, none) => some (w, some d, -1, [])
      | (w, some (d, h)) =>
        if !out then some (w, some d, 1, [])
        else match inp with
          | some m => match api.process w h m m.length with
            | (w, none) => some (w, some d, -1, [])
            | (w, some o) => some (w, some d, o.length, o)
          | none => match last api w n d h with
            | none => none
            | some (w, d, r, o) => some (w, some d, r, o)

/-- `cipher_ctrl` with `EVP_CTRL_AEAD_SET_TAG`, sa_engine_cipher.c:362-390. -/
def setTag (d : Option Data) (t : Bytes) : Option Data × Bool :=
  if t.length > 16 then (d, false)
  else match d with
    | none => (none, false)
    | some d => (some { d with tag := some (t ++ List.replicate (16 - t.length) 0) }, true)

/-- `cipher_ctrl` with `EVP_CTRL_AEAD_GET_TAG`, sa_engine_cipher.c:333-360; `none` (inner): bytes that were never set are given out. -/
def getTag (d : Option Data) (n : Nat) : Option (Option Bytes) :=
  if n > 16 then none
  else match d with
    | none => none
    | some d => some (d.tag.map (·.take n))

/-- `cipher_cleanup`, sa_engine_cipher.c:395-405. -/
def cleanup (api : Api ω) (w : ω) (d : Option Data) : ω :=
  match d with
  | some { cipher := some h, .. } => api.cipherRelease w h
  | _ => w

/-! ## OpenSSL above the engine -/

/-- `EVP_CIPHER_CTX` with the cipher set: the data of the engine, `buf`, and whether `EVP_CIPH_NO_PADDING` is off. -/
structure Evp where
  name : Name
  data : Option Data
  buf : Bytes
  padding : Bool
  deriving DecidableEq

/-- After `EVP_CIPHER_CTX_new` or `EVP_CIPHER_CTX_reset`. -/
def evpNew (n : Name) : Evp := ⟨n, none, [], true⟩

/-- `EVP_CipherInit_ex` with the cipher that the context has, or none: as an engine provides the cipher nothing is freed, all ciphers are
called (`EVP_CIPH_ALWAYS_CALL_INIT`), the buffer is emptied. -/
def evpInit (api : Api ω) (w : ω) (mem : Mem) (e : Evp) (key iv : Option Nat) (enc : Bool) : Evp × Bool :=
  let r := init api w mem e.name e.data key iv enc
  ({ e with data := some r.1, buf := if r.2 then [] else e.buf }, r.2)

/-- What an application gets: success, what was written to its buffer, the length it is told. -/
structure Ret where
  ok : Bool
  out : Bytes
  outl : Nat
  deriving DecidableEq

/-- One call of the engine for a cipher that is not custom: everything but 0 is success. -/
def feed (api : Api ω) (w : ω) (mem : Mem) (e : Evp) (b : Bytes) : Option (ω × Evp × Ret) :=
  match doCipher api w mem e.name e.data true (some b) with
  | none => none
  | some (w, d, r, o) => some (w, { e with data := d }, ⟨r != 0, o, b.length⟩)

/-- `evp_EncryptDecryptUpdate`: `EVP_EncryptUpdate`, and `EVP_DecryptUpdate` if the cipher is custom, has no blocks or no padding. -/
def evpUpdate (api : Api ω) (w : ω) (mem : Mem) (e : Evp) (m : Bytes) : Option (ω × Evp × Ret) :=
  let bs := blockOf e.name
  if custom e.name then
    match doCipher api w mem e.name e.data true (some m) with
    | none => none
    | some (w, d, r, o) => some (w, { e with data := d }, if r < 0 then ⟨false, o, 0⟩ else ⟨true, o, r.toNat⟩)
  else if m.length = 0 then some (w, e, ⟨true, [], 0⟩)
  else if e.buf.length = 0 ∧ m.length % bs = 0 then
    match feed api w mem e m with
    | none => none
    | some (w, e, r) => some (w, e, if r.ok then r else ⟨false, r.out, 0⟩)
  else if bs - e.buf.length > m.length then some (w, { e with buf := e.buf ++ m }, ⟨true, [], 0⟩)
  else
    let j := if e.buf.length = 0 then 0 else bs - e.buf.length
    let first := if e.buf.length = 0 then some (w, e, (⟨true, [], 0⟩ : Ret)) else feed api w mem e (e.buf ++ m.take j)
    match first with
    | none => none
    | some (w, e, r1) =>
      if !r1.ok then some (w, e, ⟨false, r1.out, 0⟩)
      else
        let m := m.drop j
        let n := m.length / bs * bs
        if n > 0 then match feed api w mem e (m.take n) with
          | none => none
          | some (w, e, r2) =>
            if r2.ok then some (w, { e with buf := m.drop n }, ⟨true, r1.out ++ r2.out, r1.outl + n⟩)
            else some (w, e, ⟨false, r1.out ++ r2.out, r1.outl⟩)
        else some (w, { e with buf := m }, r1)

/-- Additional data: `EVP_EncryptUpdate` or `EVP_DecryptUpdate` of a custom cipher without output. -/
def evpAad (api : Api ω) (w : ω) (mem : Mem) (e : Evp) (aad : Bytes) : Option (ω × Evp × Bool) :=
  match doCipher api w mem e.name e.data false (some aad) with
  | none => none
  | some (w, d, r, _) => some (w, { e with data := d }, !(r < 0))

/-- `EVP_EncryptFinal_ex`, and `EVP_DecryptFinal_ex` if the cipher is custom, has no blocks or no padding; `out`: there is an output buffer.
The padded last block of the others: what the engine returns is returned to the application, so that -1 is not 1. -/
def evpFinal (api : Api ω) (w : ω) (mem : Mem) (e : Evp) (out : Bool) : Option (ω × Evp × Ret) :=
  let bs := blockOf e.name
  if custom e.name then
    match doCipher api w mem e.name e.data out none with
    | none => none
    | some (w, d, r, o) => some (w, { e with data := d }, if r < 0 then ⟨false, o, 0⟩ else ⟨true, o, r.toNat⟩)
  else if bs = 1 then some (w, e, ⟨true, [], 0⟩)
  else if !e.padding then some (w, e, ⟨e.buf.length == 0, [], 0⟩)
  else
    let k := bs - e.buf.length
    match doCipher api w mem e.name e.data true (some (e.buf ++ List.replicate k (UInt8.ofNat k))) with
    | none => none
    | some (w, d, r, o) => some (w, { e with data := d }, ⟨r > 0, o, bs⟩)

end Sa.Eng

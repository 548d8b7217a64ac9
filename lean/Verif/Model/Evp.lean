import Verif.Model.Cipher

/-!
# Making symmetric contexts (`symmetric_create_*_context` of `taimpl/src/internal/symmetric.c`) above OpenSSL's EVP

OpenSSL is not part of the repository: what `EVP_EncryptInit_ex` and the other functions do is an assumption, written down in the first part
of this file after the documentation of OpenSSL 3.  The block cipher, the key streams and the tags are parameters (`Algos`).  What the
functions of symmetric.c call, and in which order, is the second part.
-/

namespace Sa.Evp

inductive BlockMode
  | ecb | cbc
  deriving DecidableEq

/-- `EVP_aes_128_ecb()` and so on. -/
inductive Cipher
  | block (m : BlockMode) (bits : Nat)
  | ctr (bits : Nat)
  | gcm (bits : Nat)
  | chacha20
  | poly
  deriving DecidableEq

/-- Length of the key that is read. -/
def Cipher.keyLen : Cipher → Nat
  | .block _ bits | .ctr bits | .gcm bits => bits / 8
  | .chacha20 | .poly => 32

/-- Length of the IV that is read, unless it is set. -/
def Cipher.ivLen : Cipher → Nat
  | .block .ecb _ => 0
  | .block .cbc _ | .ctr _ | .chacha20 => 16
  | .gcm _ | .poly => 12

def Cipher.isAead : Cipher → Bool
  | .gcm _ | .poly => true
  | _ => false

/-- What is computed: AES on one block; byte `i` of the key stream of a stream cipher for key and IV; the tag of additional data and
ciphertext. -/
structure Algos where
  enc : Bytes → Bytes → Bytes
  dec : Bytes → Bytes → Bytes
  stream : Cipher → Bytes → Bytes → Nat → UInt8
  tag : Cipher → Bytes → Bytes → Bytes → Bytes → Bytes

/-- Blocks stay blocks, decryption inverts encryption, tags have 16 bytes. -/
structure Algos.Good (A : Algos) : Prop where
  encLen : ∀ k b, b.length = 16 → (A.enc k b).length = 16
  decLen : ∀ k b, b.length = 16 → (A.dec k b).length = 16
  decEnc : ∀ k b, b.length = 16 → A.dec k (A.enc k b) = b
  tagLen : ∀ c k iv aad m, (A.tag c k iv aad m).length = 16

/-- `EVP_CIPHER_CTX`.  `chain`: the last block of ciphertext (at first the IV); `held`: bytes held back; `done`: ciphertext so far, for
ciphers that are not block ciphers; `oob`: something was read behind the end of a buffer. -/
structure Ctx where
  cipher : Option Cipher
  enc : Bool
  key : Bytes
  iv : Bytes
  ivLen : Nat
  padding : Bool
  aad : Bytes
  chain : Bytes
  held : Bytes
  done : Bytes
  tag : Option Bytes
  finished : Bool
  oob : Bool

/-- `EVP_CIPHER_CTX_new`: padding is on. -/
def new : Ctx :=
  { cipher := none, enc := false, key := [], iv := [], ivLen := 0, padding := true, aad := [], chain := [], held := [], done := [], tag := none,
    finished := false, oob := false }

/-- A key, if there is one, is read. -/
def withKey (s : Ctx) (n : Nat) : Option Bytes → Ctx
  | none => s
  | some k => { s with key := k.take n, oob := s.oob || decide (k.length < n) }

def withIv (s : Ctx) : Option Bytes → Ctx
  | none => s
  | some v => { s with iv := v.take s.ivLen, chain := v.take s.ivLen, oob := s.oob || decide (v.length < s.ivLen) }

/-- `EVP_EncryptInit_ex` and `EVP_DecryptInit_ex`: what was processed is forgotten; a cipher sets the length of the IV, unless it is the cipher
the context has. -/
def init (enc : Bool) (cipher : Option Cipher) (key iv : Option Bytes) (s : Ctx) : Option Ctx :=
  match cipher.or s.cipher with
  | none => none
  | some c =>
    let s1 := { s with cipher := some c, enc := enc, ivLen := if s.cipher = some c then s.ivLen else c.ivLen, held := [], done := [], tag := none,
                       aad := [], finished := false }
    some (withIv (withKey s1 c.keyLen key) iv)

/-- `EVP_CIPHER_CTX_ctrl` with `EVP_CTRL_AEAD_SET_IVLEN`. -/
def setIvLen (n : Nat) (s : Ctx) : Option Ctx :=
  match s.cipher with
  | some c => if c.isAead ∧ 0 < n then some { s with ivLen := n } else none
  | none => none

/-- `EVP_CIPHER_CTX_set_padding`. -/
def setPadding (on : Bool) (s : Ctx) : Option Ctx := some { s with padding := on }

/-- `EVP_EncryptUpdate` and `EVP_DecryptUpdate` without output.  The length is an `int`: of longer data only as many bytes as the low 32 bits
say, and negative lengths are errors (for ChaCha20-Poly1305 OpenSSL does not check them). -/
def addAad (b : Bytes) (s : Ctx) : Option Ctx :=
  match s.cipher with
  | some c => if c.isAead ∧ b.length % 2 ^ 32 < 2 ^ 31 then some { s with aad := s.aad ++ b.take (b.length % 2 ^ 32) } else none
  | none => none

/-- Exclusive or of `b` with `c`. -/
def xorWith (c b : Bytes) : Bytes := b.mapIdx fun i x => x ^^^ c.getD i 0

/-- `n` blocks are encrypted: output and last block. -/
def encBlocks (A : Algos) (m : BlockMode) (key : Bytes) : (n : Nat) → (chain b : Bytes) → Bytes × Bytes
  | 0, chain, _ => ([], chain)
  | n + 1, chain, b =>
    let x := A.enc key (match m with | .ecb => b.take 16 | .cbc => xorWith chain (b.take 16))
    let r := encBlocks A m key n x (b.drop 16)
    (x ++ r.1, r.2)

/-- `n` blocks are decrypted. -/
def decBlocks (A : Algos) (m : BlockMode) (key : Bytes) : (n : Nat) → (chain b : Bytes) → Bytes × Bytes
  | 0, chain, _ => ([], chain)
  | n + 1, chain, b =>
    let y := A.dec key (b.take 16)
    let x := match m with | .ecb => y | .cbc => xorWith chain y
    let r := decBlocks A m key n (b.take 16) (b.drop 16)
    (x ++ r.1, r.2)

/-- Bytes from position `i` of the key stream on. -/
def xorStream (ks : Nat → UInt8) (i : Nat) (b : Bytes) : Bytes := b.mapIdx fun j x => x ^^^ ks (i + j)

/-- Blocks of what is held back and the input; `n` of them. -/
def blockUpdate (A : Algos) (m : BlockMode) (s : Ctx) (b : Bytes) (n : Nat) : Ctx × Option Bytes :=
  let t := s.held ++ b
  let r := if s.enc then encBlocks A m s.key n s.chain t else decBlocks A m s.key n s.chain t
  ({ s with held := t.drop (n * 16), chain := r.2 }, some r.1)

/-- `EVP_EncryptUpdate` and `EVP_DecryptUpdate`. -/
def update (A : Algos) (s : Ctx) (b : Bytes) : Ctx × Option Bytes :=
  match s.cipher with
  | none => (s, none)
  | some (.block m _) =>
    if s.enc || !s.padding then blockUpdate A m s b ((s.held ++ b).length / 16)
    else if b = [] then (s, some [])
    else blockUpdate A m s b (((s.held ++ b).length - 1) / 16)
  | some c =>
    let o := xorStream (A.stream c s.key s.iv) s.done.length b
    ({ s with done := s.done ++ if s.enc then o else b }, some o)

/-- The padding of PKCS #7 is taken off. -/
def unpad (x : Bytes) : Option Bytes :=
  let n := (x.getD 15 0).toNat
  if 1 ≤ n ∧ n ≤ 16 ∧ x.drop (16 - n) = List.replicate n (UInt8.ofNat n) then some (x.take (16 - n)) else none

/-- `EVP_EncryptFinal` and `EVP_DecryptFinal`. -/
def final (A : Algos) (s : Ctx) : Ctx × Option Bytes :=
  match s.cipher with
  | none => (s, none)
  | some (.block m _) =>
    if !s.padding then (s, if s.held = [] then some [] else none)
    else if s.enc then
      let k := 16 - s.held.length
      let r := encBlocks A m s.key 1 s.chain (s.held ++ List.replicate k (UInt8.ofNat k))
      ({ s with held := [], chain := r.2 }, some r.1)
    else if s.held.length = 16 then
      match unpad (decBlocks A m s.key 1 s.chain s.held).1 with
      | none => (s, none)
      | some x => ({ s with held := [] }, some x)
    else (s, none)
  | some c =>
    if !c.isAead then (s, some [])
    else if s.enc then ({ s with finished := true }, some [])
    else match s.tag with
      | none => (s, none)
      | some t => if t = (A.tag c s.key s.iv s.aad s.done).take t.length then ({ s with finished := true }, some []) else (s, none)

/-- `EVP_CTRL_AEAD_GET_TAG` with 16 bytes. -/
def getTag (A : Algos) (s : Ctx) : Option Bytes :=
  match s.cipher with
  | some c => if c.isAead && s.enc && s.finished then some (A.tag c s.key s.iv s.aad s.done) else none
  | none => none

/-- `EVP_CTRL_AEAD_SET_TAG`. -/
def setTag (s : Ctx) (t : Bytes) : Option Ctx :=
  if !s.enc ∧ 1 ≤ t.length ∧ t.length ≤ 16 then some { s with tag := some t } else none

/-! ## symmetric.c -/

/-- What a function that makes a context leaves: the context, if it returns one, and how many blocks of memory it has allocated and not
freed. -/
structure Made where
  ctx : Option (SymCtx Ctx)
  live : Nat

/-- Calls one after the other up to the first that fails; `ok n`: call number `n` does not fail for another reason (memory). -/
def calls (ok : Nat → Bool) : Nat → List (Ctx → Option Ctx) → Ctx → Option Ctx
  | _, [], s => some s
  | n, f :: fs, s => if !ok n then none else (f s).bind (calls ok (n + 1) fs)

/-- The part that all the functions have, for instance symmetric.c:147-194: the context is allocated, then OpenSSL's; if something goes wrong
`symmetric_context_free` (1597-1605) frees both. -/
def make (ok : Nat → Bool) (alg mode : Nat) (fs : List (Ctx → Option Ctx)) : Made :=
  if !ok 0 then ⟨none, 0⟩
  else if !ok 1 then ⟨none, 1 - 1⟩
  else match calls ok 2 fs new with
    | none => ⟨none, 2 - 2⟩
    | some s => ⟨some ⟨alg, mode, s⟩, 2⟩

/-- The length of an AES key, for instance symmetric.c:141-145 and 164-168. -/
def aesBits (key : Bytes) : Option Nat := if key.length = 16 then some 128 else if key.length = 32 then some 256 else none

/-- `symmetric_create_aes_ecb_encrypt_context`, symmetric.c:126-195, and `…_decrypt_context`, 683-751 (`mode` says which). -/
def aesEcb (ok : Nat → Bool) (mode : Nat) (key : Bytes) (padded : Bool) : Made :=
  match aesBits key with
  | none => ⟨none, 0⟩
  | some bits => make ok (if padded then CIPHER_AES_ECB_PKCS7 else CIPHER_AES_ECB) mode
    [init (mode == MODE_ENCRYPT) (some (.block .ecb bits)) (some key) none, setPadding padded]

/-- `symmetric_create_aes_cbc_encrypt_context`, symmetric.c:197-278, and `…_decrypt_context`, 753-834. -/
def aesCbc (ok : Nat → Bool) (mode : Nat) (key iv : Bytes) (padded : Bool) : Made :=
  match aesBits key with
  | none => ⟨none, 0⟩
  | some bits =>
    if iv.length ≠ 16 then ⟨none, 0⟩
    else make ok (if padded then CIPHER_AES_CBC_PKCS7 else CIPHER_AES_CBC) mode
      [init (mode == MODE_ENCRYPT) (some (.block .cbc bits)) (some key) (some iv), setPadding padded]

/-- `symmetric_create_aes_ctr_encrypt_context`, symmetric.c:280-361, and `…_decrypt_context`, 836-917. -/
def aesCtr (ok : Nat → Bool) (mode : Nat) (key counter : Bytes) : Made :=
  match aesBits key with
  | none => ⟨none, 0⟩
  | some bits =>
    if counter.length ≠ 16 then ⟨none, 0⟩
    else make ok CIPHER_AES_CTR mode [init (mode == MODE_ENCRYPT) (some (.ctr bits)) (some key) (some counter), setPadding false]

/-- `symmetric_create_aes_gcm_encrypt_context`, symmetric.c:363-473, and `…_decrypt_context`, 919-1029.  (Additional data that is NULL is
not added: that is as adding nothing.) -/
def aesGcm (ok : Nat → Bool) (mode : Nat) (key iv aad : Bytes) : Made :=
  match aesBits key with
  | none => ⟨none, 0⟩
  | some bits =>
    if iv.length ≠ 12 then ⟨none, 0⟩
    else make ok CIPHER_AES_GCM mode
      [init (mode == MODE_ENCRYPT) (some (.gcm bits)) none none, setIvLen iv.length,
       init (mode == MODE_ENCRYPT) (some (.gcm bits)) (some key) (some iv), setPadding false, addAad aad]

/-- `symmetric_create_chacha20_encrypt_context`, symmetric.c:475-570, and `…_decrypt_context`, 1031-1126: the IV is the counter followed by
the nonce. -/
def chacha20 (ok : Nat → Bool) (mode : Nat) (key nonce counter : Bytes) : Made :=
  if key.length ≠ 32 then ⟨none, 0⟩
  else if counter.length ≠ 4 then ⟨none, 0⟩
  else if nonce.length ≠ 12 then ⟨none, 0⟩
  else make ok CIPHER_CHACHA20 mode [init (mode == MODE_ENCRYPT) (some .chacha20) (some key) (some (counter ++ nonce)), setPadding false]

/-- `symmetric_create_chacha20_poly1305_encrypt_context`, symmetric.c:572-681, and `…_decrypt_context`, 1128-1237. -/
def poly (ok : Nat → Bool) (mode : Nat) (key nonce aad : Bytes) : Made :=
  if key.length ≠ 32 then ⟨none, 0⟩
  else if nonce.length ≠ 12 then ⟨none, 0⟩
  else make ok CIPHER_CHACHA20_POLY1305 mode
    [init (mode == MODE_ENCRYPT) (some .poly) none none, setIvLen nonce.length,
     init (mode == MODE_ENCRYPT) (some .poly) (some key) (some nonce), setPadding false, addAad aad]

/-- Which of the functions `ta_sa_crypto_cipher_init` calls, ta_sa_crypto_cipher_init.c:79-99, 183-203, 286-306, 394-414, 508-528, 614-634. -/
def create (ok : Nat → Bool) (alg mode : Nat) (key : Bytes) (p : SymParams) : Made :=
  if mode ≠ MODE_ENCRYPT ∧ mode ≠ MODE_DECRYPT then ⟨none, 0⟩
  else if alg = CIPHER_AES_ECB ∨ alg = CIPHER_AES_ECB_PKCS7 then aesEcb ok mode key (alg == CIPHER_AES_ECB_PKCS7)
  else if alg = CIPHER_AES_CBC ∨ alg = CIPHER_AES_CBC_PKCS7 then aesCbc ok mode key p.iv (alg == CIPHER_AES_CBC_PKCS7)
  else if alg = CIPHER_AES_CTR then aesCtr ok mode key p.iv
  else if alg = CIPHER_AES_GCM then aesGcm ok mode key p.iv p.aad
  else if alg = CIPHER_CHACHA20 then chacha20 ok mode key p.iv p.counter
  else if alg = CIPHER_CHACHA20_POLY1305 then poly ok mode key p.iv p.aad
  else ⟨none, 0⟩

/-- OpenSSL's contexts as the rest of the model uses them. -/
def prim (A : Algos) (ok : Nat → Bool) : CipherPrim Ctx where
  create alg mode key p := (create ok alg mode key p).ctx.map (·.evp)
  update := update A
  final := final A
  setIv s iv := init s.enc none none (some iv) s
  getTag := getTag A
  setTag := setTag

end Sa.Evp

import Verif.Model.Cipher

/-!
# What a cipher call should output
-/

namespace Sa

variable {σ : Type}

/-- The algorithms with a tag. -/
def isAead (alg : Nat) : Bool := alg == CIPHER_AES_GCM || alg == CIPHER_CHACHA20_POLY1305

/-- `out` is what the cipher gives for `input` in this state: the output of OpenSSL's context (for the last chunk with what finishing adds,
and for decryption with a tag after the tag was set), or the decryption by the private key. -/
def CipherOutputs (p : CipherPrim σ) (u : UnwrapPrims) (k : ProcKind) (o : CipherObj) (sk : StoredKey) (ctx : Option (SymCtx σ))
    (input out : Bytes) : Prop :=
  match ctx, k with
  | some c, .more => (p.update c.evp input).2 = some out
  | some c, .last tag => ∃ e x y,
      (if isAead o.alg = true ∧ o.mode ≠ MODE_ENCRYPT then ∃ t, tag = some (some t) ∧ p.setTag c.evp t = some e else e = c.evp) ∧
      (p.update e input).2 = some x ∧ (p.final (p.update e input).1).2 = some y ∧ out = x ++ y
  | none, .more =>
    if o.alg = CIPHER_RSA_PKCS1V15 then u.rsaPkcs1 sk.key input = some out
    else if o.alg = CIPHER_RSA_OAEP then
      u.rsaOaep sk.key ((o.oaep.map (·.1)).getD 0) ((o.oaep.map (·.2.1)).getD 0) (o.oaep.bind (·.2.2)) input = some out
    else ∃ point, u.elgamal sk.key (curveOf sk.header.typeParameters) input = some point ∧ out = point.take sk.header.size.toNat
  | none, .last _ => False

/-- What is assumed of OpenSSL for C35: decryption inverts encryption.  `pair e d q` says that `e` and `d` are contexts for encryption and
decryption with the same algorithm, key and parameters, `d` has been given the output of `e`, and has output all of the input of `e` except
`q` (which is held back). -/
structure CipherPrim.Inverse (p : CipherPrim σ) (view : σ → CipherView) (pair : σ → σ → Bytes → Prop) : Prop where
  create : ∀ alg key sp e d, p.create alg MODE_ENCRYPT key sp = some e → p.create alg MODE_DECRYPT key sp = some d → pair e d []
  /-- Complete blocks, or any length for the algorithms that allow it. -/
  update : ∀ e d q m e' c, pair e d q → (isStreamAlg (view e).alg = true ∨ isPkcs7Alg (view e).alg = true ∨ m.length % 16 = 0) →
    p.update e m = (e', some c) → ∃ d' o q', p.update d c = (d', some o) ∧ q ++ m = o ++ q' ∧ pair e' d' q'
  /-- Nothing is done for no input. -/
  updateNil : ∀ e d q, pair e d q → isPkcs7Alg (view e).alg = true → p.update d [] = (d, some [])
  /-- The padding is accepted. -/
  finalPad : ∀ e d q e' f, pair e d q → isPkcs7Alg (view e).alg = true → p.final e = (e', some f) →
    ∃ d1 o d2 o2, p.update d f = (d1, some o) ∧ p.final d1 = (d2, some o2) ∧ q = o ++ o2
  finalPlain : ∀ e d q e' f, pair e d q → isPkcs7Alg (view e).alg = false → isAead (view e).alg = false → p.final e = (e', some f) →
    ∃ d' f', p.final d = (d', some f')
  tagLen : ∀ e t, p.getTag e = some t → t.length = 16
  /-- A tag is accepted for what it was made for. -/
  finalTag : ∀ e d q m e1 c e2 f t n, pair e d q → isAead (view e).alg = true → p.update e m = (e1, some c) → p.final e1 = (e2, some f) →
    p.getTag e2 = some t → 1 ≤ n → n ≤ 16 →
    ∃ d0 d1 d2 f', p.setTag d (t.take n) = some d0 ∧ p.update d0 c = (d1, some (q ++ m)) ∧ p.final d1 = (d2, some f')

/-- Where a client puts the data. -/
structure ClientBufs where
  svp : SvpStore
  mem : Mem
  inA : UInt64
  outA : UInt64

/-- There is room for 4 GB. -/
def ClientBufs.Ok (b : ClientBufs) : Prop := b.inA ≠ 0 ∧ b.outA ≠ 0 ∧ b.inA.toNat + 2 ^ 32 < 2 ^ 64 ∧ b.outA.toNat + 2 ^ 32 < 2 ^ 64

/-- A client processes `m` with clear buffers (16 bytes longer for the output): the new world and, if the call succeeds, the output it reads
from its buffer and the tag. -/
def clearCall (k : ProcKind) (p : CipherPrim σ) (u : UnwrapPrims) (env : RightsEnv) (w : CipherWorld σ) (h : Nat) (caller : Uuid) (b : ClientBufs)
    (m : Bytes) : Option (CipherWorld σ × Option (Bytes × Option Bytes)) :=
  let n := UInt64.ofNat m.length
  (cipherProcess k p u env w b.svp (writeAt b.mem b.inA.toNat m) h (some (.buf (.clear b.outA (n + 16) 0))) (.buf (.clear b.inA n 0)) n caller).map
    fun r => (r.world, if r.status = .OK then some (readAt r.mem b.outA.toNat r.bytes.toNat, r.tag) else none)

/-- A client processes chunk by chunk: the outputs, if all calls succeed. -/
def clearCalls (p : CipherPrim σ) (u : UnwrapPrims) (env : RightsEnv) (h : Nat) (caller : Uuid) (b : ClientBufs) :
    CipherWorld σ → List Bytes → Option (CipherWorld σ × Option (List Bytes))
  | w, [] => some (w, some [])
  | w, m :: ms => (clearCall .more p u env w h caller b m).bind fun r => match r.2 with
    | none => some (r.1, none)
    | some (c, _) => (clearCalls p u env h caller b r.1 ms).map fun r => (r.1, r.2.map (c :: ·))

end Sa

import Verif.Model.Evp
import Verif.Model.CipherSpec

/-!
# What the symmetric algorithms of the interface are (C85)

ECB, CBC and the padding after NIST SP 800-38A and PKCS #7; what AES, the key streams and the tags are is given by `Algos`.
-/

namespace Sa.Evp

/-- Block number `i`. -/
def blk (b : Bytes) (i : Nat) : Bytes := (b.drop (16 * i)).take 16

/-- Exclusive or of blocks. -/
def xor (a b : Bytes) : Bytes := List.zipWith (· ^^^ ·) a b

/-- `c` is `p` in ECB mode: every block goes through `f`. -/
def IsEcb (f : Bytes → Bytes) (p c : Bytes) : Prop := c.length = p.length ∧ p.length % 16 = 0 ∧ ∀ i < p.length / 16, blk c i = f (blk p i)

/-- `c` is `p` in CBC mode: every block is xored with the block of ciphertext before it and goes through `enc`. -/
def IsCbc (enc : Bytes → Bytes) (iv p c : Bytes) : Prop :=
  c.length = p.length ∧ p.length % 16 = 0 ∧ ∀ i < p.length / 16, blk c i = enc (xor (blk p i) (if i = 0 then iv else blk c (i - 1)))

/-- `p` is `c` decrypted in CBC mode. -/
def IsCbcDec (dec : Bytes → Bytes) (iv c p : Bytes) : Prop :=
  p.length = c.length ∧ c.length % 16 = 0 ∧ ∀ i < c.length / 16, blk p i = xor (dec (blk c i)) (if i = 0 then iv else blk c (i - 1))

/-- `c` is `p` xored with the key stream. -/
def IsXored (ks : Nat → UInt8) (p c : Bytes) : Prop := c.length = p.length ∧ ∀ i x, p[i]? = some x → c[i]? = some (x ^^^ ks i)

/-- The padding of PKCS #7 is added. -/
def padded (p : Bytes) : Bytes := p ++ List.replicate (16 - p.length % 16) (UInt8.ofNat (16 - p.length % 16))

def withPadding (pkcs7 : Bool) (p : Bytes) : Bytes := if pkcs7 then padded p else p

/-- `c` is the ciphertext of `p` for the key and the parameters given to `sa_crypto_cipher_init`. -/
def Encrypts (A : Algos) (key : Bytes) : InitParams → (p c : Bytes) → Prop
  | .ecb pkcs7, p, c => IsEcb (A.enc key) (withPadding pkcs7 p) c
  | .cbc pkcs7 (some (some iv)), p, c => IsCbc (A.enc key) iv (withPadding pkcs7 p) c
  | .ctr (some (some ctr)), p, c => IsXored (A.stream (.ctr (key.length * 8)) key ctr) p c
  | .gcm (some (some iv, _)), p, c => IsXored (A.stream (.gcm (key.length * 8)) key iv) p c
  | .chacha20 (some (some counter, some nonce)), p, c => IsXored (A.stream .chacha20 key (counter ++ nonce)) p c
  | .poly (some (some nonce, _)), p, c => IsXored (A.stream .poly key nonce) p c
  | _, _, _ => False

/-- `p` is the data that `c` decrypts to. -/
def Decrypts (A : Algos) (key : Bytes) : InitParams → (c p : Bytes) → Prop
  | .ecb pkcs7, c, p => IsEcb (A.dec key) c (withPadding pkcs7 p)
  | .cbc pkcs7 (some (some iv)), c, p => IsCbcDec (A.dec key) iv c (withPadding pkcs7 p)
  | params, c, p => Encrypts A key params c p

/-- The tag for the ciphertext `c` with the additional data given to `sa_crypto_cipher_init`. -/
def tagFor (A : Algos) (key : Bytes) : InitParams → Bytes → Option Bytes
  | .gcm (some (some iv, aad)), c => some (A.tag (.gcm (key.length * 8)) key iv (aad.get.getD []) c)
  | .poly (some (some nonce, aad)), c => some (A.tag .poly key nonce (aad.get.getD []) c)
  | _, _ => none

/-- How many bytes of additional data are given. -/
def aadLen : InitParams → Nat
  | .gcm (some (_, aad)) => (aad.get.getD []).length
  | .poly (some (_, aad)) => (aad.get.getD []).length
  | _ => 0

/-- The parameters with another IV or counter. -/
def newIv : InitParams → Bytes → InitParams
  | .cbc pkcs7 _, iv => .cbc pkcs7 (some (some iv))
  | .ctr _, iv => .ctr (some (some iv))
  | params, _ => params

/-- Padding is asked for. -/
def pads : InitParams → Bool
  | .ecb b => b
  | .cbc b _ => b
  | _ => false

/-- There is a tag. -/
def aead : InitParams → Bool
  | .gcm _ => true
  | .poly _ => true
  | _ => false

/-- Not RSA and not ElGamal. -/
def symmetric : InitParams → Bool
  | .pkcs1v15 => false
  | .oaep _ => false
  | .elgamal => false
  | _ => true

/-- A client has used its context before: chunks were processed and then a new IV was set, several times; all calls succeeded. -/
def used {σ : Type} (p : CipherPrim σ) (u : UnwrapPrims) (env : RightsEnv) (h : Nat) (caller : Uuid) (b : ClientBufs) :
    CipherWorld σ → List (List Bytes × Bytes) → Option (CipherWorld σ)
  | w, [] => some w
  | w, (ms, iv) :: rest => match clearCalls p u env h caller b w ms with
    | some (w1, some _) => match cipherUpdateIv p w1 h (some iv) caller with
      | some (w2, .OK) => used p u env h caller b w2 rest
      | _ => none
    | _ => none

/-- The parameters then. -/
def lastIv (params : InitParams) (before : List (List Bytes × Bytes)) : InitParams := before.foldl (fun q x => newIv q x.2) params

end Sa.Evp

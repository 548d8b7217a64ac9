import Verif.Model.Unwrap

/-!
# What unwrapping should give

Written from the definitions of the modes (NIST SP 800-38A, PKCS#7), not from the code.
-/

namespace Sa

/-- The i-th block of a message. -/
def blk (m : Bytes) (i : Nat) : Bytes := (m.drop (16 * i)).take 16

/-- `clear` is the ECB decryption of `input`: P_i = D(C_i). -/
def EcbClear (dec : Bytes → Bytes) (input clear : Bytes) : Prop :=
  clear.length = input.length ∧ ∀ i, i < input.length / 16 → blk clear i = dec (blk input i)

/-- `clear` is the CBC decryption of `input`: P_i = D(C_i) ⊕ C_{i-1}, C_{-1} = IV. -/
def CbcClear (dec : Bytes → Bytes) (iv input clear : Bytes) : Prop :=
  clear.length = input.length ∧
    ∀ i, i < input.length / 16 → blk clear i = xorBytes (dec (blk input i)) (if i = 0 then iv else blk input (i - 1))

/-- `m` is `key` with PKCS#7 padding. -/
def Padded (key m : Bytes) : Prop := ∃ v, 1 ≤ v ∧ v ≤ 16 ∧ m = key ++ List.replicate v (UInt8.ofNat v)

/-- `key` is what the wrapped data contains. -/
def UnwrapClear (p : Prims) (u : UnwrapPrims) (wk : StoredKey) (params : UnwrapParams) (input key : Bytes) : Prop :=
  match params with
  | .ecb false => EcbClear (p.aesDec wk.key) input key
  | .ecb true => ∃ m, EcbClear (p.aesDec wk.key) input m ∧ Padded key m
  | .cbc false (some (some iv)) => CbcClear (p.aesDec wk.key) iv input key
  | .cbc true (some (some iv)) => ∃ m, CbcClear (p.aesDec wk.key) iv input m ∧ Padded key m
  | .ctr (some (some iv)) => key = u.aesCtr wk.key iv input
  | .gcm (some (some iv, aad, some tag)) =>
    key = u.gcmDec wk.key iv input ∧ 1 ≤ tag.length ∧ tag <+: u.gcmTag wk.key iv (aad.get.getD []) input
  | .chacha20 (some (some counter, some nonce)) => key = u.chacha20 wk.key (counter ++ nonce) input
  | .poly (some (some nonce, aad, some tag)) =>
    key = u.polyDec wk.key nonce input ∧ tag = u.polyTag wk.key nonce (aad.get.getD []) input
  | .rsa none => u.rsaPkcs1 wk.key input = some key
  | .rsa (some (some (d, mgf1, label))) => u.rsaOaep wk.key d mgf1 label.get input = some key
  | .elgamal (some (offset, length)) =>
    ∃ point, u.elgamal wk.key (curveOf wk.header.typeParameters) input = some point ∧
      offset.toNat + length.toNat ≤ wk.header.size.toNat ∧ key.length = length.toNat ∧
      ∀ i, i < length.toNat → key[i]? = point[offset.toNat + i]?
  | _ => False

/-- The wrapping key has a type and size the algorithm can use. -/
def WrappingFits (params : UnwrapParams) (h : Header) : Prop :=
  match params with
  | .ecb _ | .cbc _ _ | .ctr _ | .gcm _ => h.type.toNat = KEY_TYPE_SYMMETRIC ∧ (h.size.toNat = 16 ∨ h.size.toNat = 32)
  | .chacha20 _ | .poly _ => h.type.toNat = KEY_TYPE_SYMMETRIC ∧ h.size.toNat = 32
  | .rsa _ => h.type.toNat = KEY_TYPE_RSA ∧ (h.size.toNat = 128 ∨ h.size.toNat = 256 ∨ h.size.toNat = 384 ∨ h.size.toNat = 512)
  | .elgamal _ => h.type.toNat = KEY_TYPE_EC
  | .unknown => False

/-- The parameters and lengths are acceptable, whatever the key. -/
def UnwrapAcceptable (t : UnwrapTarget) (params : UnwrapParams) (input : Bytes) : Prop :=
  match params with
  | .ecb _ => input.length % 16 = 0
  | .cbc _ (some (some iv)) => iv.length = 16 ∧ input.length % 16 = 0
  | .ctr (some (some ctr)) => ctr.length = 16
  | .gcm (some (some iv, aad, some tag)) => iv.length = 12 ∧ aad ≠ .bad ∧ tag.length ≤ 16
  | .chacha20 (some (some counter, some nonce)) => counter.length = 4 ∧ nonce.length = 12
  | .poly (some (some nonce, aad, some tag)) => nonce.length = 12 ∧ aad ≠ .bad ∧ tag.length = 16
  | .rsa _ => t.keyType = KEY_TYPE_SYMMETRIC
  | .elgamal (some _) => t.keyType = KEY_TYPE_SYMMETRIC
  | _ => False

/-- With PKCS#7 padding there is at least one block. -/
def UnwrapParams.HasBlock (params : UnwrapParams) (input : Bytes) : Prop :=
  match params with
  | .ecb true => input ≠ []
  | .cbc true _ => input ≠ []
  | _ => True

end Sa

/-
What OpenSSL does with Diffie-Hellman and elliptic-curve keys in the TA: their generation (dh.c:306-431, ec.c:975-1098), their public keys (dh.c:56-118, ec.c:332-400) and the agreement
on a secret (dh.c:146-218, ec.c:624-699), for OpenSSL 1.1 and later.  This fills the parameters `GenEnv`, `der` and `AgreeEnv` of Model/KeyMake.lean, Model/Inquiry.lean and
Model/Exchange.lean.

Diffie-Hellman is that of numbers; the curves are a parameter: a multiplication of points and a base point for each curve.  Keys are encoded by PKCS#8 and SubjectPublicKeyInfo,
which are parameters, too.
-/
import Verif.Model.KeyMake
import Verif.Model.Exchange
import Verif.Model.Inquiry

namespace Sa.Agree

open Sa

/-- The number that bytes stand for, most significant first: `BN_bin2bn`. -/
def number (b : Bytes) : Nat := b.foldl (fun n c => n * 256 + c.toNat) 0

/-- `BN_num_bytes`. -/
def numBytes (n : Nat) : Nat := if n = 0 then 0 else Nat.log2 n / 8 + 1

/-- `BN_bn2binpad`: a number in so many bytes. -/
def bytesOf : (length : Nat) → Nat → Bytes
  | 0, _ => []
  | n + 1, v => bytesOf n (v / 256) ++ [UInt8.ofNat v]

/-- A public key. -/
inductive Pub (π : Type) where
  | dh (p g y : Nat)
  | ec (curve : Nat) (point : π)
  | other

/-- The part of OpenSSL that is used. -/
structure Lib (π : Type) where
  /-- `evp_pkey_from_pkcs8` for DH keys: p, g and the private number; its inverse -/
  dhPriv : Bytes → Option (Nat × Nat × Nat)
  encDhPriv : Nat → Nat → Nat → Bytes
  /-- the same for keys on curves: the curve and the private number -/
  ecPriv : Bytes → Option (Nat × Nat)
  encEcPriv : Nat → Nat → Bytes
  /-- `d2i_PUBKEY` and `i2d_PUBKEY` -/
  pub : Bytes → Option (Pub π)
  encPub : Pub π → Bytes
  base : Nat → π
  mul : Nat → Nat → π → π
  /-- the secret of a point; `none` for the point at infinity -/
  secret : Nat → π → Option Bytes

/-- `EVP_PKEY_id` of keys on a curve (`ec_get_type`, ec.c:41-60): one for the NIST curves, one for each of the others. -/
def ecId (curve : Nat) : Nat := if curve = CURVE_ED25519 ∨ curve = CURVE_ED448 ∨ curve = CURVE_X25519 ∨ curve = CURVE_X448 then curve + 1 else 0

/-- Calls of OpenSSL that fail for other reasons: making or starting the context, `EVP_PKEY_CTX_set_dh_pad`, memory. -/
structure Fail where
  context : Bool
  pad : Bool
  memory : Bool

/-- dh.c:146-218: `set_dh_pad` that fails returns `false`, which is OK, at line 195.  `EVP_PKEY_derive_set_peer` compares the groups; `EVP_PKEY_derive` refuses numbers that are not
between 1 and p - 1 and a secret that is 0 or 1. -/
def dhAgree {π : Type} (l : Lib π) (f : Fail) (key other : Bytes) : Agreed :=
  match l.dhPriv key with
  | none => .failed .INTERNAL_ERROR
  | some (p, g, x) =>
    match l.pub other with
    | none => .failed .INTERNAL_ERROR
    | some (.dh p' g' y) =>
      if f.context then .failed .INTERNAL_ERROR
      else if f.pad then .silent
      else if p ≠ p' ∨ g ≠ g' then .failed .INTERNAL_ERROR
      else if f.memory then .failed .INTERNAL_ERROR
      else if y ≤ 1 ∨ p - 1 ≤ y then .failed .INTERNAL_ERROR
      else if y ^ x % p ≤ 1 then .failed .INTERNAL_ERROR
      else .secret (bytesOf (numBytes p) (y ^ x % p))
    | some _ => .failed .INVALID_PARAMETER

/-- ec.c:644-699. -/
def ecAgree {π : Type} (l : Lib π) (f : Fail) (key : Bytes) (curve : Nat) (other : Bytes) : Agreed :=
  match l.ecPriv key with
  | none => .failed .INTERNAL_ERROR
  | some (c, x) =>
    if ecId c ≠ ecId curve then .failed .INTERNAL_ERROR
    else match l.pub other with
      | none => .failed .INTERNAL_ERROR
      | some (.ec c' q) =>
        if ecId c ≠ ecId c' then .failed .INVALID_PARAMETER
        else if f.context then .failed .INTERNAL_ERROR
        else if c ≠ c' then .failed .INTERNAL_ERROR
        else if f.memory then .failed .INTERNAL_ERROR
        else match l.secret c (l.mul c x q) with
          | none => .failed .INTERNAL_ERROR
          | some z => .secret z
      | some _ => .failed .INVALID_PARAMETER

/-- The agreements. -/
def Lib.agree {π : Type} (l : Lib π) (f : Fail) : AgreeEnv := ⟨dhAgree l f, ecAgree l f⟩

/-- Generation with the private number `x` (`none`: it fails).  p and g are given as bytes.  OpenSSL does not raise to a power modulo an even number. -/
def Lib.gen {π : Type} (l : Lib π) (x : Option Nat) : GenEnv where
  random _ := none
  ecKey c := x.map (l.encEcPriv c)
  rsaKey _ := none
  dhKey p g := match x with
    | none => .error .INVALID_PARAMETER
    | some x => if number p % 2 = 0 then .error .INVALID_PARAMETER else .ok (l.encDhPriv (number p) (number g) x)

/-- The public key of a private key, encoded. -/
def Lib.der {π : Type} (l : Lib π) (type curve : Nat) (key : Bytes) : Option Bytes :=
  if type = KEY_TYPE_DH then
    match l.dhPriv key with
    | none => none
    | some (p, g, x) => some (l.encPub (.dh p g (g ^ x % p)))
  else if type = KEY_TYPE_EC then
    match l.ecPriv key with
    | none => none
    | some (c, x) => if ecId c ≠ ecId curve then none else some (l.encPub (.ec c (l.mul c x (l.base c))))
  else none

end Sa.Agree

import Verif.Model.Basic

/-!
# The key derivation functions as the standards define them
-/

namespace Sa

/-- Number of blocks of `hashLen` bytes needed for `L` bytes: the least `n` with `L ≤ n * hashLen`. -/
def blocksFor (L hashLen : Nat) : Nat := (L + hashLen - 1) / hashLen

/-- RFC 5869, section 2.3: T(0) is empty, T(n) = HMAC(PRK, T(n-1) | info | n). -/
def hkdfT (hmac : Bytes → Bytes → Bytes) (prk info : Bytes) : Nat → Bytes
  | 0 => []
  | n + 1 => hmac prk (hkdfT hmac prk info n ++ info ++ [UInt8.ofNat (n + 1)])

/-- RFC 5869: PRK = HMAC(salt, IKM), where a missing salt is `hashLen` zero bytes; the output is the first `L` bytes of T(1) | T(2) | ... -/
def hkdfSpec (hmac : Bytes → Bytes → Bytes) (hashLen : Nat) (salt : Option Bytes) (ikm info : Bytes) (L : Nat) : Bytes :=
  let prk := hmac (salt.getD (List.replicate hashLen 0)) ikm
  (((List.range (blocksFor L hashLen)).map fun i => hkdfT hmac prk info (i + 1)).flatten).take L

/-- A 32-bit big-endian counter. -/
def be32 (n : Nat) : Bytes :=
  [UInt8.ofNat (n / 2 ^ 24), UInt8.ofNat (n / 2 ^ 16), UInt8.ofNat (n / 2 ^ 8), UInt8.ofNat n]

/-- NIST SP 800-56A concatenation KDF: hash(counter | Z | OtherInfo). -/
def concatSpec (hash : Bytes → Bytes) (hashLen : Nat) (z info : Bytes) (L : Nat) : Bytes :=
  (((List.range (blocksFor L hashLen)).map fun i => hash (be32 (i + 1) ++ z ++ info)).flatten).take L

/-- ANSI X9.63: hash(Z | counter | SharedInfo). -/
def x963Spec (hash : Bytes → Bytes) (hashLen : Nat) (z info : Bytes) (L : Nat) : Bytes :=
  (((List.range (blocksFor L hashLen)).map fun i => hash (z ++ be32 (i + 1) ++ info)).flatten).take L

/-- The CMAC schedule: block `i` is CMAC(key, i | other_data); the key is blocks `counter .. counter + L / 16 - 1`. -/
def cmacSpec (cmac : Bytes → Bytes) (other : Bytes) (counter L : Nat) : Bytes :=
  ((List.range (L / 16)).map fun j => cmac ([UInt8.ofNat (counter + j)] ++ other)).flatten

end Sa

import Verif.Model.Crypto

/-!
# What common encryption should do (specification, independent of the code)

ISO/IEC 23001-7: which bytes of a sample are encrypted, and how the output is put together from the clear bytes and the decrypted ones.
-/

namespace Sa.CencSpec

/-- Which of the `n` protected bytes of a subsample are encrypted.  Without a pattern: all (CTR), or all whole blocks (CBC).  With the
pattern `crypt`:`skip`: of the whole blocks, those whose number modulo `crypt + skip` is below `crypt`. -/
def protectedMask (ctr : Bool) (crypt skip n : Nat) : List Bool :=
  (List.range n).map fun j =>
    if crypt = 0 then ctr || decide (j < n / 16 * 16)
    else decide (j < n / 16 * 16) && decide (j / 16 % (crypt + skip) < crypt)

/-- The mask of one subsample: clear bytes, then the protected bytes. -/
def subMask (ctr : Bool) (crypt skip : Nat) (sub : Nat × Nat) : List Bool :=
  List.replicate sub.1 false ++ protectedMask ctr crypt skip sub.2

/-- The mask of a sample given as the list of its (clear, protected) lengths. -/
def sampleMask (ctr : Bool) (crypt skip : Nat) (subs : List (Nat × Nat)) : List Bool := subs.flatMap (subMask ctr crypt skip)

/-- Number of bytes of a sample. -/
def total (subs : List (Nat × Nat)) : Nat := (subs.map fun s => s.1 + s.2).sum

/-- The encrypted bytes, in order. -/
def gather : List Bool → Bytes → Bytes
  | true :: m, x :: xs => x :: gather m xs
  | false :: m, _ :: xs => gather m xs
  | _, _ => []

/-- The sample with its encrypted bytes replaced, in order, by `ds`. -/
def merge : List Bool → Bytes → Bytes → Bytes
  | false :: m, x :: xs, ds => x :: merge m xs ds
  | true :: m, _ :: xs, d :: ds => d :: merge m xs ds
  | _, _, _ => []

/-- Byte `j` of the AES-CTR keystream with a 64-bit block counter: the upper half of the IV is fixed, the lower half counts blocks modulo
2^64.  `E v i` is byte `i` of the encryption of the block that is the big-endian form of `v`. -/
def keystream64 (E : Nat → Nat → UInt8) (hi lo : Nat) (j : Nat) : UInt8 := E (hi * 2 ^ 64 + (lo + j / 16) % 2 ^ 64) (j % 16)

/-- One CTR pass over a string. -/
def ctrPass (E : Nat → Nat → UInt8) (hi lo : Nat) (bs : Bytes) : Bytes := bs.mapIdx fun i b => b ^^^ keystream64 E hi lo i

/-- One CBC pass over a string of whole blocks. -/
def cbcPass (dec : Bytes → Bytes) (iv : Bytes) (bs : Bytes) : Bytes := cbcDec dec (bs.length / 16) iv bs

end Sa.CencSpec

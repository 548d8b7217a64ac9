/-
How the reference implementation finds the encrypted key in a secret bag of its key store: util/src/pkcs12.c:31-44 and 107-142.  OpenSSL has no support for secret
bags, so that the code has the bag written out as DER and walks over the bytes.

`none` stands for undefined behaviour: a read outside the bytes that OpenSSL wrote, or a length that does not fit an `int`.
-/
import Verif.Model.Basic

namespace Sa.Sb

/-- The loop over the bytes of a long length, pkcs12.c:35-37.  `length << 8` on an `int` is undefined once the result is not below 2^31. -/
def lengthBytes (d : Bytes) : (n o length : Nat) → Option (Nat × Nat)
  | 0, o, length => some (length, o)
  | n + 1, o, length =>
    match d[o + 1]? with
    | none => none
    | some b => if 2 ^ 23 ≤ length then none else lengthBytes d n (o + 1) (length * 256 + b.toNat)

/-- `find_asn1_item_length`, pkcs12.c:31-44: the length and the offset after it. -/
def itemLength (d : Bytes) (o : Nat) : Option (Nat × Nat) :=
  match d[o]? with
  | none => none
  | some b =>
    if b &&& 0x80 = 0x80 then
      match lengthBytes d (b &&& 0x7f).toNat o 0 with
      | none => none
      | some (length, o) => some (length, o + 1)
    else some (b.toNat, o + 1)

/-- The inner loop, pkcs12.c:118-125: over elements, into sequences, until the tag is A0.  Every turn moves on by two bytes at least, so that after as many turns as
there are bytes the next read is outside them: `n` turns, and none left over, is undefined. -/
def findA0 (d : Bytes) : (n o : Nat) → Option Nat
  | 0, _ => none
  | n + 1, o =>
    match d[o]? with
    | none => none
    | some tag =>
      if tag = 0xa0 then some o
      else match itemLength d (o + 1) with
        | none => none
        | some (length, o) => findA0 d n (if tag &&& 0x1f ≠ 0x10 then o + length else o)

/-- One turn of the outer loop, pkcs12.c:117-129: to the next A0 and past its length. -/
def pastA0 (d : Bytes) (o : Nat) : Option Nat :=
  match findA0 d (d.length + 1) o with
  | none => none
  | some o =>
    match itemLength d (o + 1) with
    | none => none
    | some (_, o) => some o

/-- pkcs12.c:107-142: the octets that are handed to `ASN1_item_unpack`; `some none`: "Malformed secret bag".  A length that reaches past the end has
`ASN1_OCTET_STRING_set` copy bytes outside the buffer.  An `i2d_PKCS12_SAFEBAG` that fails is an empty `d` (pkcs12.c:109-113). -/
def secret (d : Bytes) : Option (Option Bytes) :=
  if d = [] then some none
  else match pastA0 d 0 with
    | none => none
    | some o =>
      match pastA0 d o with
      | none => none
      | some o =>
        match d[o]? with
        | none => none
        | some tag =>
          if tag ≠ 0x04 then some none
          else match itemLength d (o + 1) with
            | none => none
            | some (length, o) => if d.length < o + length then none else some (some ((d.drop o).take length))

end Sa.Sb

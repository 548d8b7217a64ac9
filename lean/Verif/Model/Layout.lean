import Verif.Model.StoredKey

/-!
# Memory layout of `sa_header` (LP64, little endian)

`encodeHeader` gives the bytes of an `sa_header` in memory, `decodeHeader` reads a header from memory.
-/

namespace Sa

/-- The eight bytes of a `uint64_t` in memory. -/
def encodeU64 (x : UInt64) : Bytes :=
  [UInt8.ofNat x.toNat, UInt8.ofNat (x.toNat / 256), UInt8.ofNat (x.toNat / 256 ^ 2), UInt8.ofNat (x.toNat / 256 ^ 3),
   UInt8.ofNat (x.toNat / 256 ^ 4), UInt8.ofNat (x.toNat / 256 ^ 5), UInt8.ofNat (x.toNat / 256 ^ 6),
   UInt8.ofNat (x.toNat / 256 ^ 7)]

def decodeU64 (v : Vector UInt8 8) : UInt64 :=
  UInt64.ofNat ((v[0]).toNat + 256 * (v[1]).toNat + 256 ^ 2 * (v[2]).toNat + 256 ^ 3 * (v[3]).toNat +
    256 ^ 4 * (v[4]).toNat + 256 ^ 5 * (v[5]).toNat + 256 ^ 6 * (v[6]).toNat + 256 ^ 7 * (v[7]).toNat)

/-- The two bytes of a `uint16_t` in memory. -/
def encodeU16 (x : UInt16) : Bytes := [UInt8.ofNat x.toNat, UInt8.ofNat (x.toNat / 256)]

def decodeU16 (v : Vector UInt8 2) : UInt16 := UInt16.ofNat ((v[0]).toNat + 256 * (v[1]).toNat)

/-- Read `n` bytes from the front.  Only used on memory that is known to be large enough. -/
def takeVec (n : Nat) (bs : Bytes) : Vector UInt8 n × Bytes :=
  (Vector.ofFn fun i => bs.getD i 0, bs.drop n)

/-- The `i`-th group of 16 bytes. -/
def uuidAt (bs : Bytes) (i : Nat) : Uuid := (takeVec 16 (bs.drop (16 * i))).1

/-- `sa_rights` in memory, 608 bytes. -/
def encodeRights (r : Rights) : Bytes :=
  r.id.toList ++ encodeU64 r.usageFlags ++ encodeU64 r.childUsageFlags ++ encodeU64 r.notBefore ++
    encodeU64 r.notOnOrAfter ++ (r.allowedTas.toList.map Vector.toList).flatten

def decodeRights (bs : Bytes) : Rights × Bytes :=
  let (id, bs) := takeVec 64 bs
  let (usage, bs) := takeVec 8 bs
  let (child, bs) := takeVec 8 bs
  let (nb, bs) := takeVec 8 bs
  let (na, bs) := takeVec 8 bs
  ({ id := id, usageFlags := decodeU64 usage, childUsageFlags := decodeU64 child, notBefore := decodeU64 nb,
     notOnOrAfter := decodeU64 na, allowedTas := Vector.ofFn fun i => uuidAt bs i }, bs.drop 512)

/-- `sa_header` in memory, `sizeof(sa_header)` = 1672 bytes. -/
def encodeHeader (h : Header) : Bytes :=
  h.magic.toList ++ h.pad0.toList ++ encodeRights h.rights ++ [h.type] ++ h.pad1.toList ++ h.typeParameters.toList ++
    encodeU16 h.size ++ h.pad2.toList

def SIZEOF_HEADER : Nat := 1672

def decodeHeader (bs : Bytes) : Header :=
  let (magic, bs) := takeVec 4 bs
  let (pad0, bs) := takeVec 4 bs
  let (rights, bs) := decodeRights bs
  let (type, bs) := takeVec 1 bs
  let (pad1, bs) := takeVec 7 bs
  let (tp, bs) := takeVec 1040 bs
  let (size, bs) := takeVec 2 bs
  let (pad2, _) := takeVec 6 bs
  { magic := magic, pad0 := pad0, rights := rights, type := type.get ⟨0, by decide⟩, pad1 := pad1, typeParameters := tp,
    size := decodeU16 size, pad2 := pad2 }

end Sa

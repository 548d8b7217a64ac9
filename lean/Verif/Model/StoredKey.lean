import Verif.Model.Rights
import Verif.Model.KeyType

/-!
# Stored keys (`taimpl/src/internal/stored_key.c`)
-/

namespace Sa

/-- `sa_header`, sa_types.h:538-556, with its padding bytes (LP64 layout: magic at 0, rights at 8, type at 616,
type_parameters at 624, size at 1664, total 1672). -/
structure Header where
  magic : Vector UInt8 4
  pad0 : Vector UInt8 4
  rights : Rights
  type : UInt8
  pad1 : Vector UInt8 7
  /-- the union `sa_type_parameters` as raw bytes -/
  typeParameters : Vector UInt8 1040
  size : UInt16
  pad2 : Vector UInt8 6
  deriving DecidableEq

/-- `type_parameters.curve`: the first four bytes of the union, little endian. -/
def curveOf (tp : Vector UInt8 1040) : Nat :=
  (tp[0]).toNat + 256 * (tp[1]).toNat + 65536 * (tp[2]).toNat + 16777216 * (tp[3]).toNat

/-- `struct stored_key_s`, stored_key.c:27-31; `key_length` is the length of `key`. -/
structure StoredKey where
  header : Header
  key : Bytes
  deriving DecidableEq

/-- `MAGIC`, stored_key.c:148: `sak0`. -/
def MAGIC : Vector UInt8 4 := #v[0x73, 0x61, 0x6b, 0x30]

/-- `KEY_ONLY_MASK`, stored_key.c:33. -/
def KEY_ONLY_MASK : UInt64 := ~~~(bitMask FLAG_UNWRAP) &&& KEY_USAGE_MASK

/-- `restrict_child_rights`, stored_key.c:35-52; `none` is a NULL parent. -/
def restrictChildRights (rights : Rights) (root : Option Rights) : Rights :=
  match root with
  | none => rights
  | some root =>
    if root.usageFlags &&& KEY_ONLY_MASK ≠ 0 ∨ root.childUsageFlags = 0 then
      let disallowed := ~~~root.usageFlags &&& OUTPUT_PROTECTIONS_MASK
      { rights with usageFlags := rights.usageFlags &&& ~~~disallowed }
    else
      let disallowed := ~~~root.childUsageFlags &&& KEY_USAGE_MASK
      { rights with usageFlags := rights.usageFlags &&& ~~~disallowed }

/-- `stored_key_create`, stored_key.c:92-165.  `allocOk`: both allocations (lines 131 and 139) succeed. -/
def storedKeyCreate (allocOk : Bool) (rights : Rights) (parent : Option Rights) (keyType : Nat)
    (typeParameters : Vector UInt8 1040) (size : Nat) (input : Bytes) : Status × Option StoredKey :=
  if !keyTypeSupportsAny keyType (curveOf typeParameters) size then (.INVALID_PARAMETER, none)
  else if !rightsValidateFormat rights then (.INVALID_PARAMETER, none)
  else if !allocOk then (.INTERNAL_ERROR, none)
  else
    (.OK, some
      { header :=
          { magic := MAGIC, pad0 := Vector.replicate 4 0
            rights := restrictChildRights rights parent
            type := UInt8.ofNat keyType, pad1 := Vector.replicate 7 0
            typeParameters := typeParameters
            size := UInt16.ofNat size, pad2 := Vector.replicate 6 0 }
        key := input })

/-- `stored_key_import`, stored_key.c:81-90. -/
def storedKeyImport (allocOk : Bool) (rights : Rights) (keyType : Nat) (typeParameters : Vector UInt8 1040) (size : Nat)
    (input : Bytes) : Status × Option StoredKey :=
  storedKeyCreate allocOk rights none keyType typeParameters size input

end Sa

import Verif.Model.StoredKey

/-!
# Parts of rights.c used by the key container parsers (`taimpl/src/internal/rights.c:326-425`)
-/

namespace Sa

/-! Usage codes of containers, rights.h:53-58, and key subtypes, rights.h:60-65. -/
def TYPEJ_DATA_AND_KEY : Int := 0
def DATA_ONLY : Int := 1
def KEY_ONLY : Int := 2
def SOC_DATA_AND_KEY : Int := 3
def PRIVATE_SUBTYPE : Nat := 0
def AES_SUBTYPE : Nat := 1
def HMAC_SUBTYPE : Nat := 2
def CHACHA20_SUBTYPE : Nat := 3

/-- `key_usage_to_usage_flags`, rights.c:326-381: new flags word and status. -/
def keyUsageToUsageFlags (usageFlags : UInt64) (keyUsage : Int) (keyType subtype : Nat) : UInt64 × Status :=
  let f := bitClear usageFlags FLAG_KEY_EXCHANGE
  let f := bitClear f FLAG_DERIVE
  let f := bitClear f FLAG_UNWRAP
  let f := bitClear f FLAG_DECRYPT
  let f := bitClear f FLAG_ENCRYPT
  let f := bitClear f FLAG_SIGN
  if keyUsage = TYPEJ_DATA_AND_KEY ∨ keyUsage = SOC_DATA_AND_KEY then
    let f := if keyType = KEY_TYPE_DH ∨ keyType = KEY_TYPE_EC then bitSet f FLAG_KEY_EXCHANGE else f
    let f := bitSet f FLAG_UNWRAP
    let f := bitSet f FLAG_DECRYPT
    let f := bitSet f FLAG_ENCRYPT
    let f := bitSet f FLAG_SIGN
    let f := bitSet f FLAG_DERIVE
    (f, .OK)
  else if keyUsage = DATA_ONLY then
    let f := if keyType = KEY_TYPE_DH ∨ keyType = KEY_TYPE_EC then bitSet f FLAG_KEY_EXCHANGE else f
    let f := if subtype ≠ HMAC_SUBTYPE then bitSet (bitSet f FLAG_DECRYPT) FLAG_ENCRYPT else f
    let f := bitSet f FLAG_SIGN
    let f := bitSet f FLAG_DERIVE
    (f, .OK)
  else if keyUsage = KEY_ONLY then (bitSet f FLAG_UNWRAP, .OK)
  else (f, .INVALID_KEY_FORMAT)

/-- `UUID_LENGTH`, rights.h:48. -/
def UUID_LENGTH : Nat := 36

/-- `if ('A' <= c && c <= 'Z') c += 32;`, rights.c:403-404.  (C `char`s of value 128 and above are negative if `char` is
signed; neither this test nor the tests for digits below distinguish the two readings.) -/
def lowerChar (c : UInt8) : UInt8 := if 0x41 ≤ c ∧ c ≤ 0x5a then c + 32 else c

/-- The rejecting condition of rights.c:406 and 415: not in `0-9` and not in `a-f`. -/
def notHex (c : UInt8) : Bool := (c < 0x30 || c > 0x39) && (c < 0x61 || c > 0x66)

/-- Digit value, rights.c:420-421. -/
def hexDigit (c : UInt8) : UInt8 := if 0x30 ≤ c ∧ c ≤ 0x39 then c - 0x30 else c - 0x61 + 10

/-- Loop of `convert_uuid`, rights.c:393-422; `fuel = 16 - j`.  Result: return value and `uuid->id`; `none` is an out-of-bounds
read of the string. -/
def convertUuidLoop (s : Bytes) : (fuel i j : Nat) → (id : Bytes) → Option (Bool × Bytes)
  | 0, _, _, id => some (true, id)
  | fuel + 1, i, j, id =>
    if i ≥ s.length then some (true, id) else
    match s[i]? with
    | none => none
    | some c =>
      let i := if c = 0x2d then i + 1 else i
      if i ≥ s.length then some (false, id) else
      match s[i]? with
      | none => none
      | some c1 =>
        let c1 := lowerChar c1
        let i := i + 1
        if i ≥ s.length || notHex c1 then some (false, id) else
        match s[i]? with
        | none => none
        | some c2 =>
          let c2 := lowerChar c2
          if notHex c2 then some (false, id) else
          convertUuidLoop s fuel (i + 1) (j + 1) (id.set j (hexDigit c1 * 16 + hexDigit c2))

/-- `convert_uuid`, rights.c:383-425, applied to the string `s` (of length `uuid_str_length`) and the previous contents `id` of
the 16 byte result: return value and new contents.  `none` is an out-of-bounds read. -/
def convertUuid (s : Bytes) (id : Bytes) : Option (Bool × Bytes) :=
  if s.length ≠ UUID_LENGTH then some (false, id) else convertUuidLoop s 16 0 0 id

end Sa

import Verif.Model.Memory

/-!
# Key rights (`taimpl/src/internal/rights.c`, `client/include/sa_types.h`)

NULL checks of pointer arguments are left out: the model passes values.
-/

namespace Sa

/-! Usage flag numbers, sa_types.h:367-438. -/
def FLAG_KEY_EXCHANGE : Nat := 0
def FLAG_DERIVE : Nat := 1
def FLAG_UNWRAP : Nat := 2
def FLAG_ENCRYPT : Nat := 3
def FLAG_DECRYPT : Nat := 4
def FLAG_SIGN : Nat := 5
def FLAG_ANALOG_UNPROTECTED : Nat := 6
def FLAG_ANALOG_CGMSA : Nat := 7
def FLAG_DIGITAL_UNPROTECTED : Nat := 8
def FLAG_DIGITAL_HDCP14 : Nat := 9
def FLAG_DIGITAL_HDCP22 : Nat := 10
def FLAG_DIGITAL_DTCP : Nat := 11
def FLAG_SVP_OPTIONAL : Nat := 12
def FLAG_CACHEABLE : Nat := 13

/-- `SA_USAGE_BIT_MASK`, sa_types.h:49. -/
def bitMask (b : Nat) : UInt64 := 1 <<< (UInt64.ofNat (b % 64))

/-- `SA_USAGE_BIT_SET`, sa_types.h:54. -/
def bitSet (a : UInt64) (b : Nat) : UInt64 := a ||| bitMask b

/-- `SA_USAGE_BIT_CLEAR`, sa_types.h:59. -/
def bitClear (a : UInt64) (b : Nat) : UInt64 := a &&& ~~~(bitMask b)

/-- `SA_USAGE_BIT_TEST`, sa_types.h:64. -/
def bitTest (a : UInt64) (b : Nat) : Bool := (a &&& bitMask b) != 0

/-- `SA_USAGE_OUTPUT_PROTECTIONS_MASK`, sa_types.h:69-76. -/
def OUTPUT_PROTECTIONS_MASK : UInt64 :=
  bitMask FLAG_ANALOG_UNPROTECTED ||| bitMask FLAG_ANALOG_CGMSA ||| bitMask FLAG_DIGITAL_UNPROTECTED |||
    bitMask FLAG_DIGITAL_HDCP14 ||| bitMask FLAG_DIGITAL_HDCP22 ||| bitMask FLAG_DIGITAL_DTCP ||| bitMask FLAG_SVP_OPTIONAL

/-- `SA_KEY_USAGE_MASK`, sa_types.h:80-86. -/
def KEY_USAGE_MASK : UInt64 :=
  bitMask FLAG_KEY_EXCHANGE ||| bitMask FLAG_DERIVE ||| bitMask FLAG_UNWRAP ||| bitMask FLAG_ENCRYPT |||
    bitMask FLAG_DECRYPT ||| bitMask FLAG_SIGN

/-- `sa_rights`, sa_types.h:455-498. -/
structure Rights where
  id : Vector UInt8 64
  usageFlags : UInt64
  childUsageFlags : UInt64
  notBefore : UInt64
  notOnOrAfter : UInt64
  allowedTas : Vector Uuid 32
  deriving DecidableEq

/-- `video_output_state_t`, taimpl/include/porting/video_output.h:45-58 (counters are C `int`s). -/
structure VideoOutputState where
  analogUnprotectedCount : Int
  analogCgmsaCount : Int
  digitalUnprotectedCount : Int
  digitalHdcp14Count : Int
  digitalHdcp22Count : Int
  svpEnabled : Bool
  deriving DecidableEq, Repr

/-- What the functions of rights.c read from the outside world: `time(NULL)` and `video_output_poll`
(porting/video_output.c:35-46; `none` is a failed poll). -/
structure RightsEnv where
  time : UInt64
  video : Option VideoOutputState

/-- `NO_MATCH`, rights.c:25-28. -/
def NO_MATCH : Uuid := Vector.replicate 16 0
/-- `ALL_MATCH`, rights.c:30-33. -/
def ALL_MATCH : Uuid := Vector.replicate 16 0xff

/-- `rights_validate_format`, rights.c:55-67: `strnlen(id, 64) == 64` exactly if no byte of `id` is zero. -/
def rightsValidateFormat (r : Rights) : Bool := r.id.toList.contains 0

/-- `rights_allowed_time`, rights.c:220-240. -/
def rightsAllowedTime (r : Rights) (time : UInt64) : Bool :=
  if time < r.notBefore then false
  else if time ≥ r.notOnOrAfter then false
  else true

/-- `rights_allowed_video_output_state`, rights.c:242-293. -/
def rightsAllowedVideoOutputState (r : Rights) (v : VideoOutputState) : Bool :=
  if !bitTest r.usageFlags FLAG_SVP_OPTIONAL && !v.svpEnabled then false
  else if !bitTest r.usageFlags FLAG_ANALOG_UNPROTECTED && decide (v.analogUnprotectedCount > 0) then false
  else if !bitTest r.usageFlags FLAG_ANALOG_CGMSA && decide (v.analogCgmsaCount > 0) then false
  else if !bitTest r.usageFlags FLAG_DIGITAL_UNPROTECTED && decide (v.digitalUnprotectedCount > 0) then false
  else if !bitTest r.usageFlags FLAG_DIGITAL_HDCP14 && decide (v.digitalHdcp14Count > 0) then false
  else if !bitTest r.usageFlags FLAG_DIGITAL_HDCP22 && decide (v.digitalHdcp22Count > 0) then false
  else true

/-- `validate_video_output_state`, rights.c:35-53. -/
def validateVideoOutputState (env : RightsEnv) (r : Rights) : Bool :=
  match env.video with
  | none => false
  | some v => rightsAllowedVideoOutputState r v

/-- Loop of `rights_allowed_uuid`, rights.c:309-321, over the remaining entries. -/
def rightsAllowedUuidLoop (caller : Uuid) : List Uuid → Bool
  | [] => false
  | ta :: rest =>
    if uuidMatches ta NO_MATCH then rightsAllowedUuidLoop caller rest
    else if uuidMatches ta ALL_MATCH then true
    else if uuidMatches ta caller then true
    else rightsAllowedUuidLoop caller rest

/-- `rights_allowed_uuid`, rights.c:295-324. -/
def rightsAllowedUuid (r : Rights) (caller : Uuid) : Bool := rightsAllowedUuidLoop caller r.allowedTas.toList

/-- `rights_allowed_derive`, rights.c:69-86. -/
def rightsAllowedDerive (env : RightsEnv) (r : Rights) : Bool :=
  if !bitTest r.usageFlags FLAG_DERIVE then false
  else if !rightsAllowedTime r env.time then false
  else true

/-- `rights_allowed_exchange`, rights.c:88-105. -/
def rightsAllowedExchange (env : RightsEnv) (r : Rights) : Bool :=
  if !bitTest r.usageFlags FLAG_KEY_EXCHANGE then false
  else if !rightsAllowedTime r env.time then false
  else true

/-- `rights_allowed_unwrap`, rights.c:107-124. -/
def rightsAllowedUnwrap (env : RightsEnv) (r : Rights) : Bool :=
  if !bitTest r.usageFlags FLAG_UNWRAP then false
  else if !rightsAllowedTime r env.time then false
  else true

/-- `rights_allowed_decrypt`, rights.c:126-153 (`symmetric`: `key_type == SA_KEY_TYPE_SYMMETRIC`). -/
def rightsAllowedDecrypt (env : RightsEnv) (r : Rights) (symmetric : Bool) : Bool :=
  if !bitTest r.usageFlags FLAG_DECRYPT then false
  else if !rightsAllowedTime r env.time then false
  else if symmetric then
    if !validateVideoOutputState env r then false else true
  else true

/-- `rights_allowed_encrypt`, rights.c:155-182. -/
def rightsAllowedEncrypt (env : RightsEnv) (r : Rights) (symmetric : Bool) : Bool :=
  if !bitTest r.usageFlags FLAG_ENCRYPT then false
  else if !rightsAllowedTime r env.time then false
  else if symmetric then
    if !validateVideoOutputState env r then false else true
  else true

/-- `rights_allowed_clear`, rights.c:184-198. -/
def rightsAllowedClear (r : Rights) : Bool :=
  if !bitTest r.usageFlags FLAG_SVP_OPTIONAL then false else true

/-- `rights_allowed_sign`, rights.c:200-218. -/
def rightsAllowedSign (env : RightsEnv) (r : Rights) : Bool :=
  if !bitTest r.usageFlags FLAG_SIGN then false
  else if !rightsAllowedTime r env.time then false
  else true

/-- `sa_rights_set_allow_all`, util/src/sa_rights.c:22-46. -/
def rightsAllowAll : Rights :=
  { id := Vector.replicate 64 0
    usageFlags := bitSet (bitSet (bitSet (bitSet (bitSet (bitSet (bitSet 0 FLAG_KEY_EXCHANGE) FLAG_DERIVE) FLAG_UNWRAP)
      FLAG_ENCRYPT) FLAG_DECRYPT) FLAG_SIGN ||| OUTPUT_PROTECTIONS_MASK) FLAG_CACHEABLE
    childUsageFlags := 0
    notBefore := 0
    notOnOrAfter := 0xFFFFFFFFFFFFFFFF
    allowedTas := (Vector.replicate 32 NO_MATCH).set 0 ALL_MATCH }

end Sa

/-!
# Basic types shared by the whole model
-/

namespace Sa

/-- `sa_status`, `reference/src/client/include/sa_types.h` (enumeration `sa_status_e`, same order). -/
inductive Status where
  | OK
  | NO_AVAILABLE_RESOURCE_SLOT
  | INVALID_KEY_FORMAT
  | INVALID_KEY_TYPE
  | NULL_PARAMETER
  | INVALID_PARAMETER
  | OPERATION_NOT_ALLOWED
  | INVALID_SVP_BUFFER
  | OPERATION_NOT_SUPPORTED
  | SELF_TEST
  | VERIFICATION_FAILED
  | INTERNAL_ERROR
  | HW_ERROR
  deriving DecidableEq, Repr, Inhabited

/-- One byte of memory. -/
abbrev Byte := UInt8

/-- A region of memory of known size. -/
abbrev Bytes := List UInt8

/-- `sa_uuid` (`sa_types.h`): 16 bytes. -/
abbrev Uuid := Vector UInt8 16

/-- `SLOT_INVALID` (`taimpl/include/internal/slots.h`) and `INVALID_HANDLE` (`sa_types.h`): `ULONG_MAX`. -/
def SLOT_INVALID : Nat := 2 ^ 64 - 1

end Sa

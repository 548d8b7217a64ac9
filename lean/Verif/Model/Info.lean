import Verif.Model.ClientRet

/-!
# Name, version and UUID

The functions of the TA that tell what it is and who calls, behind the client library of `Model/ClientRet.lean`.
-/

namespace Sa.Info
open Sa.Cl

/-- What the TA knows: `get_implementation_name` and `get_implementation_version`, internal/saimpl.c:22-40, and the UUID of the caller, which the TA's framework gives. -/
structure Known where
  name : Bytes
  version : Bytes
  caller : Bytes

/-- `SA_IMPLEMENTATION_NAME`, saimpl.c:22: "Reference". -/
def refName : Bytes := [0x52, 0x65, 0x66, 0x65, 0x72, 0x65, 0x6e, 0x63, 0x65]
/-- saimpl.c:25-29 with sa.h:45-55: 3.4.0, revision 0; four `size_t`. -/
def refVersion : Bytes := le 8 3 ++ le 8 4 ++ le 8 0 ++ le 8 0

def none_ : Out := ⟨0, 0, 0, [], [], []⟩

/-- `ta_sa_get_name`, ta_sa_get_name.c:24-58.  `strlen` and `memcpy` copy the name with its terminating zero.  The length is an input and an output: it is set only if there is no
buffer. -/
def taGetName (k : Known) (out : Bool) (nameLength : Nat) : Status × Out :=
  let required := k.name.length + 1
  if !out then (.OK, { none_ with value := required })
  else if nameLength < required then (.INVALID_PARAMETER, { none_ with value := nameLength })
  else (.OK, { none_ with value := nameLength, mem := k.name ++ [0] })

/-- The functions of the TA: `ta_sa_get_name`, `ta_sa_get_version` (ta_sa_get_version.c:24-44), `ta_sa_get_ta_uuid` (ta_sa_get_ta_uuid.c:23-43).  Others are not of interest here. -/
def ta (k : Known) : Call → Status × Out
  | .getName out n => taGetName k out n
  | .getVersion _ => (.OK, { none_ with blob := k.version })
  | .getTaUuid _ => (.OK, { none_ with blob := k.caller })
  | _ => (.OPERATION_NOT_SUPPORTED, none_)

end Sa.Info

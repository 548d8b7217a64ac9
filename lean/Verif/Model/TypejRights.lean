import Verif.Model.Rights

/-!
# Content key rights of Type-J containers (`taimpl/src/internal/typej.c:37-45, 263-332`)
-/

namespace Sa

/-! `typej_right_e`, typej.c:37-45. -/
def TYPEJ_RIGHT_NOT_SET : UInt8 := 0
def TYPEJ_RIGHT_SVP_REQUIRED : UInt8 := 1
def TYPEJ_RIGHT_DTCP : UInt8 := 2
def TYPEJ_RIGHT_HDCP_1_4 : UInt8 := 3
def TYPEJ_RIGHT_HDCP_2_2 : UInt8 := 4
def TYPEJ_RIGHT_ANALOG : UInt8 := 5
def TYPEJ_RIGHT_CGMSA_REQUIRED : UInt8 := 8

/-- The variables of the loop: `*usage_flags`, `cgmsa_required`, `analog_allowed`. -/
structure CkrState where
  flags : UInt64
  cgmsa : Bool
  analog : Bool

/-- One iteration, typej.c:284-329; `none` is `return SA_STATUS_INVALID_KEY_FORMAT`. -/
def ckrStep (s : CkrState) (c : UInt8) : Option CkrState :=
  if c = TYPEJ_RIGHT_NOT_SET then some s
  else if c = TYPEJ_RIGHT_SVP_REQUIRED then some { s with flags := bitClear s.flags FLAG_SVP_OPTIONAL }
  else if c = TYPEJ_RIGHT_DTCP then some { s with flags := bitSet s.flags FLAG_DIGITAL_DTCP }
  else if c = TYPEJ_RIGHT_HDCP_1_4 then some { s with flags := bitSet s.flags FLAG_DIGITAL_HDCP14 }
  else if c = TYPEJ_RIGHT_HDCP_2_2 then some { s with flags := bitSet s.flags FLAG_DIGITAL_HDCP22 }
  else if c = TYPEJ_RIGHT_ANALOG then
    let f := if s.cgmsa then bitClear s.flags FLAG_ANALOG_UNPROTECTED else bitSet s.flags FLAG_ANALOG_UNPROTECTED
    some { s with analog := true, flags := bitSet f FLAG_ANALOG_CGMSA }
  else if c = TYPEJ_RIGHT_CGMSA_REQUIRED then
    if s.analog then some { s with cgmsa := true, flags := bitSet (bitClear s.flags FLAG_ANALOG_UNPROTECTED) FLAG_ANALOG_CGMSA }
    else some { s with cgmsa := true }
  else none

/-- The loop, typej.c:283-330.  On failure the flags written so far stay in `*usage_flags`; the caller gives up the rights then, so they are dropped. -/
def ckrLoop (s : CkrState) : List UInt8 → Option CkrState
  | [] => some s
  | c :: rest =>
    match ckrStep s c with
    | none => none
    | some s' => ckrLoop s' rest

/-- `content_key_rights_to_usage_flags`, typej.c:263-332 (the pointers are not NULL in the only call, typej.c:390). -/
def contentKeyRightsToUsageFlags (usageFlags : UInt64) (codes : List UInt8) : Option UInt64 :=
  let f := bitSet (usageFlags &&& ~~~OUTPUT_PROTECTIONS_MASK) FLAG_SVP_OPTIONAL
  (ckrLoop ⟨f, false, false⟩ codes).map (·.flags)

end Sa

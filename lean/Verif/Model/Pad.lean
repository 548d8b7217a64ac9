import Verif.Model.Basic

/-!
# PKCS#7 padding of one AES block (`taimpl/src/internal/pad.c`)
-/

namespace Sa

/-- Loop of `pad_check_pkcs7`, pad.c:45-50, with `fuel = 16 - i` iterations left.  `none` is an out-of-bounds read. -/
def padCheckLoop (block : Bytes) (padValue : UInt8) : (fuel i : Nat) → Option Bool
  | 0, _ => some true
  | fuel + 1, i =>
    match block[i]? with
    | none => none
    | some b => if b ≠ padValue then some false else padCheckLoop block padValue fuel (i + 1)

/-- `pad_check_pkcs7`, pad.c:23-53: returned flag and `*pad_value`.  `none` is an out-of-bounds read. -/
def padCheckPkcs7 (block : Bytes) : Option (Bool × UInt8) :=
  match block[15]? with
  | none => none
  | some padValue =>
    if padValue < 1 ∨ padValue > 16 then some (false, padValue)
    else (padCheckLoop block padValue padValue.toNat (16 - padValue.toNat)).map (·, padValue)

/-- Loop of `pad_apply_pkcs7`, pad.c:71-73. -/
def padApplyLoop (padValue : UInt8) : (fuel i : Nat) → Bytes → Bytes
  | 0, _, block => block
  | fuel + 1, i, block => padApplyLoop padValue fuel (i + 1) (block.set i padValue)

/-- `pad_apply_pkcs7`, pad.c:55-76; `none` is the return value `false` (block unchanged).  `block` is the 16 byte block. -/
def padApplyPkcs7 (block : Bytes) (padValue : UInt8) : Option Bytes :=
  if padValue < 1 ∨ padValue > 16 then none
  else some (padApplyLoop padValue padValue.toNat (16 - padValue.toNat) block)

/-- `PADDED_SIZE`, taimpl/include/internal/pad.h:39. -/
def paddedSize (size : Nat) : Nat := 16 * (size / 16 + 1)

end Sa

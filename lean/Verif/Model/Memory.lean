import Verif.Model.Basic

/-!
# Memory helpers (`taimpl/src/porting/memory.c`, `taimpl/src/porting/overflow.c`)
-/

namespace Sa

/-- Loop of `memory_memcmp_constant`, memory.c:53-55, from index `i` with `fuel = length - i` iterations left.  The second
component of the result is the list of indices inspected.  `none` is an out-of-bounds read. -/
def memcmpLoop (a b : Bytes) : (fuel i : Nat) → (result : UInt8) → (log : List Nat) → Option (UInt8 × List Nat)
  | 0, _, result, log => some (result, log)
  | fuel + 1, i, result, log =>
    match a[i]?, b[i]? with
    | some x, some y => memcmpLoop a b fuel (i + 1) (result ||| (x ^^^ y)) (log ++ [i])
    | _, _ => none

/-- `memory_memcmp_constant`, memory.c:48-58.  (The C accumulator is an `int`, but only its low 8 bits can be set.) -/
def memcmpConstant (a b : Bytes) (length : Nat) : Option UInt8 :=
  (memcmpLoop a b length 0 0 []).map (·.1)

/-- `memory_memcmp_constant(a, b, sizeof(sa_uuid)) == 0`. -/
def uuidMatches (a b : Uuid) : Bool := memcmpConstant a.toList b.toList 16 == some 0

/-- `add_overflow`, overflow.c:21-26: `__builtin_uaddl_overflow`; returns (overflowed, wrapped sum). -/
def addOverflow (a b : UInt64) : Bool × UInt64 :=
  (decide (a.toNat + b.toNat ≥ 2 ^ 64), a + b)

/-- `memory_is_valid_svp`, memory.c:70-88; `location = 0` is NULL. -/
def memoryIsValidSvp (location size : UInt64) : Bool :=
  if location = 0 then false
  else if (addOverflow location size).1 then false
  else true

/-- `memory_is_valid_clear`, memory.c:90-108. -/
def memoryIsValidClear (location size : UInt64) : Bool :=
  if location = 0 then false
  else if (addOverflow location size).1 then false
  else true

end Sa

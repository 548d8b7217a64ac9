import Verif.Model.Basic

/-!
# Slot bit field (`taimpl/src/internal/slots.c`)

Allocation failures of `memory_internal_alloc` and NULL `slots` pointers are not modelled (the object store never passes
NULL).  `int` is 32 bits wide.
-/

namespace Sa

/-- `struct slots_s`, slots.c:29-34 (without the debugging name; `block_count` is the length of the list). -/
structure Slots where
  bitfield : List (BitVec 32)
  slotCount : Nat
  deriving DecidableEq, Repr

/-- POSIX `ffs`: one plus the index of the least significant set bit, 0 if no bit is set. -/
def ffs (x : BitVec 32) : Nat :=
  match (List.range 32).find? (fun i => x.getLsbD i) with
  | some i => i + 1
  | none => 0

/-- `BLOCK_IDX`, slots.c:25. -/
def blockIdx (slot : Nat) : Nat := slot / 32

/-- `BLOCK_BIT`, slots.c:26. -/
def blockBit (slot : Nat) : Nat := slot % 32

/-- `BLOCK_BITMASK`, slots.c:27. -/
def blockBitmask (slot : Nat) : BitVec 32 := 1#32 <<< (32 - blockBit slot - 1)

/-- `slots_init`, slots.c:36-82: NULL (`none`) unless the count is a multiple of 32; all bits cleared. -/
def slotsInit (count : Nat) : Option Slots :=
  if count % 32 ≠ 0 then none
  else some { bitfield := List.replicate (count / 32) 0#32, slotCount := count }

/-- Loop of `slots_allocate`, slots.c:106-115: `i` is the loop index, the list is `bitfield[i..]`. -/
def slotsAllocateLoop : List (BitVec 32) → Nat → List (BitVec 32) × Nat
  | [], _ => ([], SLOT_INVALID)
  | b :: bs, i =>
    let leastSignificantAvailable := ffs (~~~b)
    if leastSignificantAvailable ≠ 0 then
      ((b ||| (1#32 <<< (leastSignificantAvailable - 1))) :: bs, (i + 1) * 32 - leastSignificantAvailable)
    else
      let r := slotsAllocateLoop bs (i + 1)
      (b :: r.1, r.2)

/-- `slots_allocate`, slots.c:99-124. -/
def slotsAllocate (s : Slots) : Slots × Nat :=
  let r := slotsAllocateLoop s.bitfield 0
  ({ s with bitfield := r.1 }, r.2)

/-- `slots_free`, slots.c:126-155.  The index `BLOCK_IDX(slot)` is in bounds because `slot < slot_count`; should it not be,
`set`/`getD` leave the field unchanged (never reached: see `slotWF` in `Verif.Lemmas.Slots`). -/
def slotsFree (s : Slots) (slot : Nat) : Slots :=
  if slot = SLOT_INVALID then s
  else if slot ≥ s.slotCount then s
  else if (s.bitfield.getD (blockIdx slot) 0) &&& blockBitmask slot = 0#32 then s
  else { s with bitfield :=
          s.bitfield.set (blockIdx slot) (s.bitfield.getD (blockIdx slot) 0 &&& ~~~ blockBitmask slot) }

end Sa

import Verif.Model.Slots
import Verif.Model.Memory

/-!
# Object store (`taimpl/src/internal/object_store.c`)

Every function is split, as in the C code, into the checks made before taking the mutex and the body executed while holding
it.  The bodies (`...Body`) are the atomic steps of the concurrent model (`Verif.Model.StoreConc`); the functions without
suffix are the complete calls, as executed when no other thread interferes.

Simplifications: `mtx_lock`/`mtx_unlock` never fail; pointers passed by the callers are not NULL (`store`, `slot`,
`caller_uuid`; a NULL `caller_uuid` is how `store_remove` is told that it runs on behalf of shutdown); the type parameter
`α` stands for object pointers (compared with `==`); reference counts are natural numbers (a 64-bit counter is never
incremented 2^64 times).
-/

namespace Sa

/-- `store_object_t`, object_store.c:28-32. -/
structure StoreObject (α : Type) where
  object : Option α
  referenceCount : Nat
  ownerUuid : Uuid
  deriving DecidableEq, Repr

/-- `struct object_store_s`, object_store.c:34-45. -/
structure ObjectStore (α : Type) where
  slots : Slots
  objects : List (StoreObject α)
  slotCount : Nat
  isShuttingDown : Bool
  releaseCount : Nat
  deriving DecidableEq, Repr

/-- An all-zero `store_object_t` (object_store.c:79). -/
def StoreObject.zero {α : Type} : StoreObject α :=
  { object := none, referenceCount := 0, ownerUuid := Vector.replicate 16 0 }

/-- `object_store_init`, object_store.c:47-115 (allocation failures not modelled). -/
def objectStoreInit (α : Type) (count : Nat) : Option (ObjectStore α) :=
  if count % 32 ≠ 0 then none
  else match slotsInit count with
    | none => none
    | some slots =>
      some { slots := slots, objects := List.replicate count StoreObject.zero, slotCount := count,
             isShuttingDown := false, releaseCount := 0 }

variable {α : Type}

/-- `store->objects[slot]`; out of bounds is never reached because of the `slot >= slot_count` checks. -/
def ObjectStore.obj (st : ObjectStore α) (slot : Nat) : StoreObject α :=
  st.objects.getD slot StoreObject.zero

/-- Replace `store->objects[slot]`. -/
def ObjectStore.setObj (st : ObjectStore α) (slot : Nat) (o : StoreObject α) : ObjectStore α :=
  { st with objects := st.objects.set slot o }

/-- Body of `increment_release_count`, object_store.c:128-137. -/
def incrementReleaseCount (st : ObjectStore α) : ObjectStore α × Bool :=
  if st.isShuttingDown then (st, false)
  else ({ st with releaseCount := st.releaseCount + 1 }, true)

/-- Body of `decrement_release_count`, object_store.c:156. -/
def decrementReleaseCount (st : ObjectStore α) : ObjectStore α :=
  { st with releaseCount := st.releaseCount - 1 }

/-- What one iteration of the loop in `store_remove` (object_store.c:190-234) may do. -/
inductive RemoveIter (α : Type) where
  /-- leave the loop with this status and `object_to_free` -/
  | done (status : Status) (objectToFree : Option α)
  /-- reference count is not zero: sleep and try again -/
  | again
  deriving DecidableEq, Repr

/-- One iteration of the loop of `store_remove`, object_store.c:191-225, executed while holding the mutex.
`caller = none` is the shutdown variant. -/
def storeRemoveBody (st : ObjectStore α) (slot : Nat) (caller : Option Uuid) : ObjectStore α × RemoveIter α :=
  let so := st.obj slot
  match so.object with
  | none => (st, .done .INVALID_PARAMETER none)
  | some o =>
    let uuidOk := match caller with
      | none => true
      | some u => uuidMatches so.ownerUuid u
    if !uuidOk then (st, .done .OPERATION_NOT_ALLOWED none)
    else if so.referenceCount = 0 then
      let st1 := st.setObj slot { so with object := none }
      ({ st1 with slots := slotsFree st1.slots slot }, .done .OK (some o))
    else (st, .again)

/-- Result of a complete remove call executed alone. -/
inductive RemoveResult (α : Type) where
  /-- returned `status`; `freed` is the object handed to `object_free` -/
  | returned (st : ObjectStore α) (status : Status) (freed : Option α)
  /-- the call spins because the object is still referenced; `st` is the store while it does -/
  | blocks (st : ObjectStore α)
  deriving DecidableEq, Repr

/-- `object_store_remove`/`store_remove` (caller given), object_store.c:162-251, 364-386, run to completion without
interference. -/
def objectStoreRemove (st : ObjectStore α) (slot : Nat) (caller : Uuid) : RemoveResult α :=
  if slot ≥ st.slotCount then .returned st .INVALID_PARAMETER none
  else
    let (st1, counted) := incrementReleaseCount st
    if !counted then .returned st1 .OK none
    else
      match storeRemoveBody st1 slot (some caller) with
      | (st2, .again) => .blocks st2
      | (st2, .done status freed) => .returned (decrementReleaseCount st2) status freed

/-- `object_store_add`, object_store.c:304-362: new store, status, and `*slot`. -/
def objectStoreAdd (st : ObjectStore α) (object : α) (caller : Uuid) : ObjectStore α × Status × Nat :=
  if st.isShuttingDown then (st, .INTERNAL_ERROR, SLOT_INVALID)
  else
    let (slots', slot) := slotsAllocate st.slots
    let st1 := { st with slots := slots' }
    if slot = SLOT_INVALID then (st1, .NO_AVAILABLE_RESOURCE_SLOT, slot)
    else
      let so := st1.obj slot
      (st1.setObj slot { so with object := some object, ownerUuid := caller }, .OK, slot)

/-- Body of `object_store_acquire`, object_store.c:420-451. -/
def acquireBody (st : ObjectStore α) (slot : Nat) (caller : Uuid) : ObjectStore α × Status × Option α :=
  let so := st.obj slot
  if st.isShuttingDown then (st, .INTERNAL_ERROR, none)
  else match so.object with
    | none => (st, .INVALID_PARAMETER, none)
    | some o =>
      if !uuidMatches so.ownerUuid caller then (st, .OPERATION_NOT_ALLOWED, none)
      else (st.setObj slot { so with referenceCount := so.referenceCount + 1 }, .OK, some o)

/-- `object_store_acquire`, object_store.c:388-458: new store, status, `*object`. -/
def objectStoreAcquire (st : ObjectStore α) (slot : Nat) (caller : Uuid) : ObjectStore α × Status × Option α :=
  if slot ≥ st.slotCount then (st, .INVALID_PARAMETER, none)
  else acquireBody st slot caller

/-- Body of `object_store_release`, object_store.c:486-508. -/
def releaseBody [DecidableEq α] (st : ObjectStore α) (slot : Nat) (object : α) (caller : Uuid) :
    ObjectStore α × Status :=
  let so := st.obj slot
  if !uuidMatches so.ownerUuid caller then (st, .OPERATION_NOT_ALLOWED)
  else if so.object ≠ some object then (st, .INTERNAL_ERROR)
  else if so.referenceCount = 0 then (st, .INTERNAL_ERROR)
  else (st.setObj slot { so with referenceCount := so.referenceCount - 1 }, .OK)

/-- `object_store_release`, object_store.c:460-515. -/
def objectStoreRelease [DecidableEq α] (st : ObjectStore α) (slot : Nat) (object : α) (caller : Uuid) :
    ObjectStore α × Status :=
  if slot ≥ st.slotCount then (st, .INVALID_PARAMETER)
  else releaseBody st slot object caller

end Sa

import Verif.Model.ObjectStore

/-!
# Sequential histories of calls on one object store
-/

namespace Sa

/-- A call on a handle table. -/
inductive StoreOp (α : Type) where
  | add (object : α) (caller : Uuid)
  | acquire (slot : Nat) (caller : Uuid)
  | release (slot : Nat) (object : α) (caller : Uuid)
  | remove (slot : Nat) (caller : Uuid)
  deriving DecidableEq, Repr

/-- What the caller observes. -/
inductive StoreResp (α : Type) where
  | added (status : Status) (slot : Nat)
  | acquired (status : Status) (object : Option α)
  | released (status : Status)
  /-- `destroyed` is the object passed to the destructor -/
  | removed (status : Status) (destroyed : Option α)
  /-- the call does not return as long as the object stays referenced -/
  | waits
  deriving DecidableEq, Repr

variable {α : Type} [DecidableEq α]

/-- Execute one call (dispatch to the functions of object_store.c:304-515). -/
def storeStep (st : ObjectStore α) : StoreOp α → ObjectStore α × StoreResp α
  | .add o u => let r := objectStoreAdd st o u; (r.1, .added r.2.1 r.2.2)
  | .acquire h u => let r := objectStoreAcquire st h u; (r.1, .acquired r.2.1 r.2.2)
  | .release h o u => let r := objectStoreRelease st h o u; (r.1, .released r.2)
  | .remove h u => match objectStoreRemove st h u with
    | .returned st' s f => (st', .removed s f)
    | .blocks st' => (st', .waits)

/-- Execute a sequence of calls; the result is the list of calls with the observed responses. -/
def storeRun (st : ObjectStore α) : List (StoreOp α) → List (StoreOp α × StoreResp α)
  | [] => []
  | op :: ops => let r := storeStep st op; (op, r.2) :: storeRun r.1 ops

/-- Store after a sequence of calls. -/
def storeAfter (st : ObjectStore α) : List (StoreOp α) → ObjectStore α
  | [] => st
  | op :: ops => storeAfter (storeStep st op).1 ops

end Sa

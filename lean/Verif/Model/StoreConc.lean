import Verif.Model.ObjectStore

/-!
# Concurrent use of one object store

A transition system for any number of threads calling the functions of `object_store.c` on one table.  One step is one
mutex-protected region (or one access outside of the mutex that matters).  Object pointers are natural numbers.
Two ghost fields (`added`, `destroyed`) record which pointers were handed to the table and to the destructor.

Simplifications: `mtx_lock`/`mtx_unlock` do not fail and are not themselves instructions (the window between `mtx_unlock` in
one thread and `mtx_destroy` in the shutting down thread is not modelled); a release call is only made for a reference the
thread holds (that is how all callers in `taimpl` use it); a pointer handed to `add` is fresh (never handed in before);
at most one thread calls shutdown (`client_store.c:168` and `client_free`, `client_store.c:78`).
-/

namespace Sa.Conc

/-- A reference obtained by a successful acquire and not yet released. -/
structure Ref where
  thread : Nat
  slot : Nat
  object : Nat
  caller : Uuid
  deriving DecidableEq, Repr

/-- Program counter of a thread. -/
inductive Pc where
  /-- not inside a call -/
  | idle
  /-- inside `object_store_add`, before line 331 -/
  | add (object : Nat) (caller : Uuid)
  /-- inside `object_store_acquire`, before line 410 -/
  | acquire (slot : Nat) (caller : Uuid)
  /-- inside `object_store_release`, before line 471 -/
  | release (r : Ref)
  /-- inside `store_remove`, before line 172 -/
  | removeEnter (slot : Nat) (caller : Uuid)
  /-- inside `store_remove`, at the loop (lines 190-234) -/
  | removeLoop (slot : Nat) (caller : Uuid)
  /-- inside `store_remove`, before `decrement_release_count` (line 242) -/
  | removeDec (objectToFree : Option Nat)
  /-- inside `store_remove`, before `store->object_free(object_to_free)` (line 247) -/
  | removeFree (objectToFree : Nat)
  /-- inside `object_store_shutdown`, before line 259 -/
  | shutFlag
  /-- inside `object_store_shutdown`, waiting loop (lines 271-287) -/
  | shutWait
  /-- inside `object_store_shutdown`, for loop (lines 290-292), about to remove slot `i` -/
  | shutLoop (i : Nat)
  /-- inside `store_remove` called by shutdown for slot `i`, before line 247 -/
  | shutDestroy (i : Nat) (objectToFree : Nat)
  /-- inside `object_store_shutdown`, before line 294 -/
  | shutFree
  deriving DecidableEq, Repr

/-- Global state. -/
structure CState where
  store : ObjectStore Nat
  threads : List Pc
  /-- outstanding references -/
  refs : List Ref
  /-- ghost: all pointers whose ownership passed to the table -/
  added : List Nat
  /-- ghost: all pointers passed to the destructor, in order -/
  destroyed : List Nat
  /-- a shutdown was started -/
  shutdownStarted : Bool
  /-- the memory of the table has been freed (line 301) -/
  storeFreed : Bool
  /-- some thread accessed the table after it was freed: undefined behaviour, the system makes no further step -/
  uaf : Bool
  deriving DecidableEq, Repr

/-- Which call an idle thread makes next; `go` continues the call a thread is in. -/
inductive Choice where
  | callAdd (object : Nat) (caller : Uuid)
  | callAcquire (slot : Nat) (caller : Uuid)
  | callRelease (r : Ref)
  | callRemove (slot : Nat) (caller : Uuid)
  | callShutdown
  | go
  deriving DecidableEq, Repr

def CState.setPc (s : CState) (i : Nat) (pc : Pc) : CState := { s with threads := s.threads.set i pc }

/-- Initial state: an empty table and `threads` idle threads. -/
def cinit (store : ObjectStore Nat) (threads : Nat) : CState :=
  { store := store, threads := List.replicate threads .idle, refs := [], added := [], destroyed := [],
    shutdownStarted := false, storeFreed := false, uaf := false }

/-- A step of a thread that accesses the table: undefined behaviour if the table has been freed. -/
def CState.touch (s : CState) (next : Option CState) : Option CState :=
  if s.storeFreed then some { s with uaf := true } else next

/-- One step of thread `i`.  `none`: the step is not possible. -/
def cstep (s : CState) (i : Nat) (c : Choice) : Option CState :=
  if s.uaf then none
  else match s.threads[i]?, c with
  | some .idle, .callAdd o u => some (s.setPc i (.add o u))
  | some .idle, .callAcquire h u => some (s.setPc i (.acquire h u))
  | some .idle, .callRelease r => if r ∈ s.refs ∧ r.thread = i then some (s.setPc i (.release r)) else none
  | some .idle, .callRemove h u => some (s.setPc i (.removeEnter h u))
  | some .idle, .callShutdown =>
      if s.shutdownStarted then none else some { s.setPc i .shutFlag with shutdownStarted := true }
  | some (.add o u), .go => s.touch <|
      -- object_store.c:331-361; `o` is fresh
      if o ∈ s.added then none
      else
        let r := objectStoreAdd s.store o u
        if r.2.1 = .OK then some { s.setPc i .idle with store := r.1, added := o :: s.added }
        else some { s.setPc i .idle with store := r.1 }
  | some (.acquire h u), .go => s.touch <|
      -- object_store.c:410-457
      match objectStoreAcquire s.store h u with
      | (st, .OK, some o) => some { s.setPc i .idle with store := st, refs := ⟨i, h, o, u⟩ :: s.refs }
      | (st, _, _) => some { s.setPc i .idle with store := st }
  | some (.release r), .go => s.touch <|
      -- object_store.c:471-514
      match objectStoreRelease s.store r.slot r.object r.caller with
      | (st, .OK) => some { s.setPc i .idle with store := st, refs := s.refs.erase r }
      | (st, _) => some { s.setPc i .idle with store := st }
  | some (.removeEnter h u), .go => s.touch <|
      -- object_store.c:172-186
      if h ≥ s.store.slotCount then some (s.setPc i .idle)
      else match incrementReleaseCount s.store with
        | (st, true) => some { s.setPc i (.removeLoop h u) with store := st }
        | (_, false) => some (s.setPc i .idle)
  | some (.removeLoop h u), .go => s.touch <|
      -- object_store.c:190-238
      match storeRemoveBody s.store h (some u) with
      | (st, .done _ f) => some { s.setPc i (.removeDec f) with store := st }
      | (_, .again) => some s
  | some (.removeDec f), .go => s.touch <|
      -- object_store.c:241-246
      match f with
      | none => some { s.setPc i .idle with store := decrementReleaseCount s.store }
      | some o => some { s.setPc i (.removeFree o) with store := decrementReleaseCount s.store }
  | some (.removeFree o), .go => s.touch <|
      -- object_store.c:247: reads `store->object_free`, then destroys the object
      some { s.setPc i .idle with destroyed := o :: s.destroyed }
  | some .shutFlag, .go => s.touch <|
      -- object_store.c:259-267
      some { s.setPc i .shutWait with store := { s.store with isShuttingDown := true } }
  | some .shutWait, .go => s.touch <|
      -- object_store.c:271-287
      if s.store.releaseCount = 0 then some (s.setPc i (.shutLoop 0)) else some s
  | some (.shutLoop k), .go => s.touch <|
      -- object_store.c:290-292 and store_remove with caller_uuid == NULL
      if k ≥ s.store.slotCount then some (s.setPc i .shutFree)
      else match storeRemoveBody s.store k none with
        | (st, .done _ none) => some { s.setPc i (.shutLoop (k + 1)) with store := st }
        | (st, .done _ (some o)) => some { s.setPc i (.shutDestroy k o) with store := st }
        | (_, .again) => some s
  | some (.shutDestroy k o), .go => s.touch <|
      -- object_store.c:247 on behalf of shutdown
      some { s.setPc i (.shutLoop (k + 1)) with destroyed := o :: s.destroyed }
  | some .shutFree, .go => s.touch <|
      -- object_store.c:294-301
      some { s.setPc i .idle with storeFreed := true }
  | _, _ => none

/-- States reachable from a new table of `n` handles with any number of threads, by any schedule. -/
inductive Reachable (n : Nat) : CState → Prop where
  | init (store threads) : objectStoreInit Nat n = some store → Reachable n (cinit store threads)
  | step (s s' i c) : Reachable n s → cstep s i c = some s' → Reachable n s'

end Sa.Conc

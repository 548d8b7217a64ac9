import Verif.Model.StoreConc

/-!
# Exclusive use of the objects of a table by concurrent threads

Extends `Sa.Conc` by the mutex inside every cipher, MAC and SVP object and by the functions `*_store_acquire_exclusive` and
`*_store_release_exclusive` (`cipher_store.c:439-508`, `mac_store.c:279-348`, `svp_store.c:254-331`; the three are the same up to names), and by
`svp_store_release` (`svp_store.c:197-252`).

Simplifications: all references to objects of the table are taken by `*_acquire_exclusive` (true for the cipher, MAC and SVP tables; the key and
client tables have no such mutex and are covered by `Sa.Conc`); `mtx_lock` does not fail; a thread may hold several objects in any combination,
in any order, also the same object several times (the mutexes are recursive, e.g. `svp_store.c:67`).
-/

namespace Sa.Conc

/-- How far a reference is. -/
inductive Phase where
  /-- inside `*_acquire_exclusive`, the object is acquired, before `mtx_lock` returns (`svp_store.c:288`) -/
  | want
  /-- `*_acquire_exclusive` has returned: the thread operates on the object -/
  | locked
  /-- inside `*_release_exclusive`, after `mtx_unlock` (`svp_store.c:320`), the reference is not released yet -/
  | unlocked
  /-- locked, but the call that took it has returned without unlocking and releasing it -/
  | leaked
  deriving DecidableEq, Repr

structure XState where
  c : CState
  /-- the outstanding references with their phase -/
  xrefs : List (Ref × Phase)
  /-- the recursive mutex of each object: owning thread, number of locks -/
  owner : Nat → Option (Nat × Nat)
  /-- `svp->buffer != NULL` (`svp_store.c:26`); only for the SVP table -/
  buffer : Nat → Bool
  /-- ghost: which thread was given the memory of which SVP buffer -/
  given : List (Nat × Nat)

inductive XChoice where
  /-- a step of `Sa.Conc` -/
  | base (c : Choice)
  /-- `mtx_lock` returns -/
  | lock (r : Ref)
  /-- `mtx_unlock` in `*_release_exclusive` -/
  | unlock (r : Ref)
  /-- `svp_store_release`, lines 233-238: take the memory out of the buffer -/
  | take (r : Ref)
  deriving DecidableEq, Repr

def XState.has (s : XState) (i : Nat) (p : Phase) : Bool := s.xrefs.any fun e => e.1.thread == i && e.2 == p

/-- Initial state; every object that will be added has its buffer (`svp_store.c:49-75`). -/
def xinit (store : ObjectStore Nat) (threads : Nat) : XState := ⟨cinit store threads, [], fun _ => none, fun _ => true, []⟩

/-- The thread is between calls of the table's functions. -/
def XState.free (s : XState) (i : Nat) : Bool := s.c.threads[i]? == some .idle && !s.has i .want && !s.has i .unlocked

/-- The `Choice`s a thread has: inside a call it goes on; after `mtx_unlock` it releases the reference; a waiting thread has none. -/
def XState.allowed (s : XState) (i : Nat) : Choice → Bool
  | .go => !s.has i .want
  | .callRelease r => !s.has i .want && s.xrefs.elem (r, .unlocked)
  | _ => s.free i

/-- One step of thread `i`.  `none`: the step is not possible (for `lock`: the thread waits). -/
def xstep (s : XState) (i : Nat) (x : XChoice) : Option XState :=
  if s.c.uaf then none
  else match x with
  | .base c =>
    if !s.allowed i c then none
    else match cstep s.c i c with
    | none => none
    | some c' =>
      match s.c.threads[i]?, c'.refs with
      | some (.acquire _ _), r :: _ => if c'.refs.length = s.c.refs.length + 1 then some { s with c := c', xrefs := (r, .want) :: s.xrefs } else some { s with c := c' }
      | some (.release r), _ => if c'.refs.length + 1 = s.c.refs.length then some { s with c := c', xrefs := s.xrefs.erase (r, .unlocked) } else some { s with c := c' }
      | _, _ => some { s with c := c' }
  | .lock r =>
    if (r, .want) ∈ s.xrefs ∧ r.thread = i then
      match s.owner r.object with
      | none => some { s with xrefs := (r, .locked) :: s.xrefs.erase (r, .want), owner := fun o => if o = r.object then some (i, 1) else s.owner o }
      | some (t, d) =>
        if t = i then some { s with xrefs := (r, .locked) :: s.xrefs.erase (r, .want), owner := fun o => if o = r.object then some (i, d + 1) else s.owner o }
        else none
    else none
  | .unlock r =>
    if (r, .locked) ∈ s.xrefs ∧ r.thread = i ∧ s.free i = true then
      some { s with
        xrefs := (r, .unlocked) :: s.xrefs.erase (r, .locked)
        owner := fun o => if o = r.object then (match s.owner o with
          | some (t, d) => if t = i then (if d = 1 then none else some (t, d - 1)) else some (t, d)
          | none => none) else s.owner o }
    else none
  | .take r =>
    if (r, .locked) ∈ s.xrefs ∧ r.thread = i ∧ s.free i = true then
      if s.buffer r.object then some { s with buffer := fun o => if o = r.object then false else s.buffer o, given := (i, r.object) :: s.given }
      -- svp_store.c:233-236: returns `status`, which is OK, and leaves the object locked and acquired
      else some { s with xrefs := (r, .leaked) :: s.xrefs.erase (r, .locked) }
    else none

/-- States reachable from a new table of `n` handles with any number of threads, by any schedule. -/
inductive XReachable (n : Nat) : XState → Prop where
  | init (store threads) : objectStoreInit Nat n = some store → XReachable n (xinit store threads)
  | step (s s' i x) : XReachable n s → xstep s i x = some s' → XReachable n s'

end Sa.Conc

import Verif.Model.Basic

/-!
# Getting the OpenSSL provider (`sa_get_provider`, `client/src/sa_provider.c`)

Any number of threads call `sa_get_provider` any number of times.  A step is one call that is visible to other threads: `call_once`, `mtx_lock`
(of a recursive mutex), a call of OpenSSL, `mtx_unlock`.  Whether a call fails is part of the step.  `sa_provider_shutdown`, which runs when the
process exits, and a failing `mtx_init` are left out.
-/

namespace Sa.Pl

/-- `once_flag`. -/
inductive Once
  | fresh | running | done
  deriving DecidableEq

/-- Where a thread is: outside, before `call_once`, in `sa_provider_load` (sa_provider.c:229-265) before the call named, or in the rest of
`sa_get_provider` (270-282). -/
inductive Pc
  | idle | once | lock0 | new | builtin | base | sa | atexit | unlock0 | lock | read | unlock (v : Option Nat)
  deriving DecidableEq

/-- `flag`, `mutex` (its owner and how often it is locked), `lib_ctx`, how many contexts there are, whether `base_provider` and `sa_provider` are
loaded, and where the threads are.  `given`: what `sa_get_provider` returned, and to whom. -/
structure State where
  once : Once
  owner : Option Nat
  depth : Nat
  lib : Option Nat
  made : Nat
  base : Bool
  sa : Bool
  pcs : Nat → Pc
  given : List (Nat × Option Nat)

def start : State :=
  { once := .fresh, owner := none, depth := 0, lib := none, made := 0, base := false, sa := false, pcs := fun _ => .idle, given := [] }

/-- The thread goes on. -/
def State.goto (s : State) (t : Nat) (p : Pc) : State := { s with pcs := fun u => if u = t then p else s.pcs u }

/-- `mtx_lock` of a recursive mutex; `none`: the thread waits. -/
def State.take (s : State) (t : Nat) : Option State :=
  match s.owner with
  | none => some { s with owner := some t, depth := 1 }
  | some u => if u = t then some { s with depth := s.depth + 1 } else none

/-- `mtx_unlock`. -/
def State.give (s : State) : State :=
  if s.depth ≤ 1 then { s with owner := none, depth := 0 } else { s with depth := s.depth - 1 }

/-- `sa_provider_load` returns, and with it `call_once`. -/
def State.loaded (s : State) (t : Nat) : State := { s with once := .done }.goto t .lock

/-- One step of thread `t`, whose call succeeds or fails; `none`: it waits. -/
def step (s : State) (t : Nat) (ok : Bool) : Option State :=
  match s.pcs t with
  | .idle => some (s.goto t .once)
  | .once => match s.once with
    | .fresh => some ({ s with once := .running }.goto t .lock0)
    | .running => none
    | .done => some (s.goto t .lock)
  | .lock0 => if !ok then some (s.loaded t) else (s.take t).map (·.goto t .new)
  | .new => if !ok then some (s.loaded t) else some ({ s with lib := some s.made, made := s.made + 1 }.goto t .builtin)
  | .builtin => if !ok then some (s.loaded t) else some (s.goto t .base)
  | .base => if !ok then some (s.loaded t) else some ({ s with base := true }.goto t .sa)
  | .sa => if !ok then some (s.loaded t) else some ({ s with sa := true }.goto t .atexit)
  | .atexit => some (s.goto t .unlock0)
  | .unlock0 => some (s.give.loaded t)
  | .lock => if !ok then some ({ s with given := (t, none) :: s.given }.goto t .idle) else (s.take t).map (·.goto t .read)
  | .read => some (s.goto t (.unlock s.lib))
  | .unlock v => some ({ s.give with given := (t, v) :: s.given }.goto t .idle)

/-- Steps of threads, in order; `none` when one of them has to wait. -/
def run (s : State) : List (Nat × Bool) → Option State
  | [] => some s
  | (t, ok) :: rest => match step s t ok with
    | none => none
    | some s => run s rest

end Sa.Pl

/-!
# The session of the client library

clientimpl/src/internal/client.c:26-87 by any number of threads.  Steps are single accesses to the shared variables, interleaved arbitrarily; the unsynchronised
read of `session` (line 54) is taken to be atomic.  `call_once` lets exactly one thread run the function and the others wait for it, so it is one step.
`ta_open_session` (ta_client.c, ta.c:2141-2170) writes `session` only when it succeeds.  `exit` runs the function registered with `atexit`; afterwards no
thread runs.
-/

namespace Sa.Sess

/-- Where a thread is. -/
inductive Pc where
  | out                 -- not in `client_session`
  | once                -- line 58: `call_once`
  | lock                -- line 60: `mtx_lock`
  | check               -- line 67: `if (session != NULL)`
  | openS               -- line 71: `ta_open_session`
  | register            -- line 79: `call_once(&shutdown_flag, …)`
  | unlock              -- line 82: `mtx_unlock`
  | ret                 -- lines 55 and 86: `return session`
  deriving DecidableEq

/-- The static variables, the threads, and what has happened. -/
structure St where
  session : Option Nat
  made : Option Bool          -- `mutex_flag`: not yet, or whether `mtx_init` succeeded
  owner : Option Nat          -- `mutex`
  once : Bool                 -- `shutdown_flag`
  registered : Bool           -- whether `atexit` succeeded: the handler will run
  refused : Bool              -- whether `atexit` has failed
  pc : Nat → Pc
  opened : Nat                -- number of sessions opened so far; they are numbered
  closed : List Nat
  returned : List (Nat × Option Nat × Bool)     -- calls that have returned: thread, result, whether something has failed in the call
  failed : Nat → Bool         -- whether something has failed in the present call of a thread
  undefined : Bool            -- an uninitialised mutex was used
  exited : Bool

def St.init : St := ⟨none, none, none, false, false, false, fun _ => .out, 0, [], [], fun _ => false, false, false⟩

/-- Thread `i` goes on to `p`. -/
def St.goto (s : St) (i : Nat) (p : Pc) : St := { s with pc := fun j => if j = i then p else s.pc j }

def St.fail (s : St) (i : Nat) (b : Bool) : St := { s with failed := fun j => if j = i then b else s.failed j }

/-- Thread `i` returns from `client_session`. -/
def St.give (s : St) (i : Nat) (r : Option Nat) : St := { s.goto i .out with returned := (i, r, s.failed i) :: s.returned }

/-- The next step of thread `i`; `ok`: whether the function called succeeds.  `none`: the thread waits. -/
def step (s : St) (i : Nat) (ok : Bool) : Option St :=
  if s.exited then none
  else match s.pc i with
  | .out =>                                                                       -- 54-56
    let s := s.fail i false
    match s.session with
    | some _ => some (s.goto i .ret)
    | none => some (s.goto i .once)
  | .once =>                                                                      -- 58, 38-43
    match s.made with
    | some _ => some (s.goto i .lock)
    | none => some ({ s with made := some ok }.goto i .lock)
  | .lock =>                                                                      -- 60-63
    match s.made with
    | some true =>
      match s.owner with
      | some _ => none
      | none => if ok then some ({ s with owner := some i }.goto i .check) else some ((s.fail i true).give i none)
    | _ => some ({ s with undefined := true }.goto i .out)
  | .check =>                                                                     -- 67-69
    match s.session with
    | some _ => some (s.goto i .unlock)
    | none => some (s.goto i .openS)
  | .openS =>                                                                     -- 71-75
    if ok then some ({ s with session := some s.opened, opened := s.opened + 1 }.goto i .register)
    else some ((s.fail i true).goto i .unlock)
  | .register =>                                                                  -- 79, 45-51
    if s.once then some (s.goto i .unlock) else some ({ s with once := true, registered := ok, refused := !ok }.goto i .unlock)
  | .unlock => some ({ s with owner := none }.goto i .ret)                        -- 82-84
  | .ret => some (s.give i s.session)                                             -- 55, 86

/-- The application ends, 31-36. -/
def exit (s : St) : St :=
  let s := { s with exited := true }
  if s.registered then
    match s.session with
    | some x => { s with closed := x :: s.closed, session := none }
    | none => s
  else s

inductive Reachable : St → Prop
  | init : Reachable St.init
  | step {s s' : St} (h : Reachable s) (i : Nat) (ok : Bool) : step s i ok = some s' → Reachable s'
  | exit {s : St} (h : Reachable s) : s.exited = false → Reachable (exit s)

end Sa.Sess

import Verif.Model.Basic

/-!
# Getting the OpenSSL engine (`sa_get_engine`, `client/src/sa_engine.c`)

Any number of threads get, give back and use the engine.  A step is one call that is visible to other threads: `call_once`, `mtx_lock` (of a
recursive mutex), a call of OpenSSL, `mtx_unlock`.  Whether a call fails is part of the step.  OpenSSL's list of engines and its counting of
references are those of OpenSSL 1.1.1 (`crypto/engine/eng_list.c`, `eng_lib.c`, `eng_init.c`, `tb_asnmth.c`), which is not in this repository:
`ENGINE_new` makes an engine with one structural reference, the list holds one, `ENGINE_by_id` adds one, `ENGINE_init` adds a structural and a
functional one, `ENGINE_finish` takes those, and `ENGINE_free` takes a structural one and, when it was the last, frees the methods that the engine
has.  `sa_engine_shutdown`, which runs when the process exits, and a failing `mtx_init` are left out.
-/

namespace Sa.El

/-- `once_flag`. -/
inductive Once
  | fresh | done
  deriving DecidableEq

/-- Where a thread is: outside, in `sa_get_engine` (sa_engine.c:70-133) before the call named, in `sa_get_engine_pkey_methods`
(sa_engine_pkey.c:1325-1418) or in one of the functions made by `DECLARE_CIPHER` (sa_engine_cipher.c:47-69), which lock and unlock too, or in
`sa_engine_free` (sa_engine.c:135-140). -/
inductive Pc
  | idle | once | lock | byId | new | set (e : Nat) | add (e : Nat) | register (e : Nat) | init (e : Option Nat) | unlock (e : Nat)
  | useLock | useGet | useUnlock | finish (e : Nat) | free (e : Nat)
  deriving DecidableEq

/-- A method that is made when it is first needed: none, one that may be used, or one that was freed. -/
inductive Meth
  | absent | alive | freed
  deriving DecidableEq

/-- `flag`, `engine_mutex` (its owner and how often it is locked), the engine that OpenSSL's list has under our name, how many engines were made,
their structural and functional references, the methods that `sa_get_engine_pkey_methods` made, and where the threads are.  `given`: what
`sa_get_engine` returned, and to whom; `returned`: what `sa_engine_free` was called with; `wild`: a freed method was given to OpenSSL. -/
structure State where
  once : Once
  owner : Option Nat
  depth : Nat
  listed : Option Nat
  made : Nat
  struct : Nat → Int
  funct : Nat → Int
  meth : Meth
  wild : Bool
  pcs : Nat → Pc
  given : List (Nat × Option Nat)
  returned : List (Nat × Nat)

def start : State :=
  { once := .fresh, owner := none, depth := 0, listed := none, made := 0, struct := fun _ => 0, funct := fun _ => 0, meth := .absent, wild := false
    pcs := fun _ => .idle, given := [], returned := [] }

/-- The thread goes on. -/
def State.goto (s : State) (t : Nat) (p : Pc) : State := { s with pcs := fun u => if u = t then p else s.pcs u }

/-- `mtx_lock` of a recursive mutex; `none`: the thread waits. -/
def State.take (s : State) (t : Nat) : Option State :=
  match s.owner with
  | none => some { s with owner := some t, depth := 1 }
  | some u => if u = t then some { s with depth := s.depth + 1 } else none

/-- `mtx_unlock`. -/
def State.give (s : State) : State :=
  if s.depth ≤ 1 then { s with owner := none, depth := 0 } else { s with depth := s.depth - 1 }

/-- References of OpenSSL. -/
def State.ref (s : State) (e : Nat) (n : Int) : State := { s with struct := fun x => if x = e then s.struct x + n else s.struct x }
def State.fref (s : State) (e : Nat) (n : Int) : State := { s with funct := fun x => if x = e then s.funct x + n else s.funct x }

/-- `sa_get_engine_pkey_asn1_meths` asked for the list of types, sa_engine_pkey_asn1_method.c:146-160: it locks and returns without unlocking. -/
def State.asn1List (s : State) (t : Nat) : Option State := s.take t

/-- What `ENGINE_free` does with the last reference to an engine that has our functions (`engine_pkey_meths_free` and `engine_pkey_asn1_meths_free`
of OpenSSL): it asks for every method, which makes those that there are not (sa_engine_pkey.c:1344-1414), and frees them; the static variables go
on pointing to them.  With OpenSSL 1.1 it also asks for the list of types of the ASN.1 methods. -/
def State.lastFree (s : State) (asn1 : Bool) (t : Nat) : Option State :=
  let s := { s with wild := s.wild || s.meth == .freed, meth := .freed }
  if asn1 then s.asn1List t else some s

/-- `ENGINE_free` of an engine. -/
def State.engineFree (s : State) (asn1 : Bool) (t : Nat) (e : Nat) (ours : Bool) : Option State :=
  let s := s.ref e (-1)
  if s.struct e = 0 ∧ ours then s.lastFree asn1 t else some s

/-- `sa_get_engine_pkey_methods`, sa_engine_pkey.c:1344-1414, for a type it has: the method is made when there is none. -/
def State.method (s : State) : State :=
  { s with wild := s.wild || s.meth == .freed, meth := if s.meth = .absent then Meth.alive else s.meth }

/-- What a thread does next: goes on with the call it is in, which succeeds or fails, or, when outside, calls a function. -/
inductive Act
  | go (ok : Bool)
  | get
  | use
  | back (e : Nat)
  deriving DecidableEq

/-- One step of thread `t`; `none`: it waits, or the act is not one for where it is.  `asn1`: whether OpenSSL is 1.1 or later, which has ASN.1
methods of engines (sa_engine.c:94-96, 111-118). -/
def step (asn1 : Bool) (s : State) (t : Nat) (act : Act) : Option State :=
  match s.pcs t, act with
  | .idle, .get => some (s.goto t .once)
  | .idle, .use => some (s.goto t .useLock)
  | .idle, .back e => some ({ s with returned := (t, e) :: s.returned }.goto t (.finish e))
  | .once, .go _ => some ({ s with once := .done }.goto t .lock)
  | .lock, .go ok => if !ok then some ({ s with given := (t, none) :: s.given }.goto t .idle) else (s.take t).map (·.goto t .byId)
  | .byId, .go _ => match s.listed with
    | some e => some ((s.ref e 1).goto t (.init (some e)))
    | none => some (s.goto t .new)
  | .new, .go ok => if !ok then some (s.goto t (.init none)) else some (({ s with made := s.made + 1 }.ref s.made 1).goto t (.set s.made))
  | .set e, .go ok =>
    if !ok then (s.engineFree asn1 t e false).map (·.goto t (.init none)) else some (s.goto t (.add e))
  | .add e, .go ok =>
    if !ok then (s.engineFree asn1 t e true).map (·.goto t (.init none))
    else some (({ s with listed := some e }.ref e 1).goto t (if asn1 then .register e else .init (some e)))
  | .register e, .go ok => match s.asn1List t with
    | none => none
    | some s => if !ok then (s.engineFree asn1 t e true).map (·.goto t (.init none)) else some (s.goto t (.init (some e)))
  | .init none, .go _ => some ({ s with given := (t, none) :: s.given }.goto t .idle)
  | .init (some e), .go ok =>
    if !ok then (s.engineFree asn1 t e true).map fun s => { s with given := (t, none) :: s.given }.goto t .idle
    else some (((s.ref e 1).fref e 1).goto t (.unlock e))
  | .unlock e, .go _ => some ({ s.give with given := (t, some e) :: s.given }.goto t .idle)
  | .useLock, .go ok => if !ok then some (s.goto t .idle) else (s.take t).map (·.goto t .useGet)
  | .useGet, .go _ => some (s.method.goto t .useUnlock)
  | .useUnlock, .go _ => some (s.give.goto t .idle)
  | .finish e, .go _ => ((s.fref e (-1)).engineFree asn1 t e true).map (·.goto t (.free e))
  | .free e, .go _ => (s.engineFree asn1 t e true).map (·.goto t .idle)
  | _, _ => none

/-- Steps of threads, in order; `none` when one of them has to wait. -/
def run (asn1 : Bool) (s : State) : List (Nat × Act) → Option State
  | [] => some s
  | (t, a) :: rest => match step asn1 s t a with
    | none => none
    | some s => run asn1 s rest

end Sa.El

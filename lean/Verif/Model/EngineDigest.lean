import Verif.Model.Basic

/-!
# Digests of the engine

`sa_get_engine_digests` and `sa_free_engine_digests`, client/src/sa_engine_digest.c, called by any number of threads: OpenSSL 1.1 calls the function of the engine without a lock each time a
digest is looked up by its number.
-/

namespace Sa.Ed

/-- An `EVP_MD` on the heap: the digest it computes, and the size of the memory for its state. -/
structure Md where
  digest : Nat
  size : Nat
  deriving DecidableEq, Repr

/-- `digest_nids`, sa_engine_digest.c:25-30, with the numbers of OpenSSL's obj_mac.h: SHA-1, SHA-256, SHA-384, SHA-512, and `NID_undef`, which is counted (line 32). -/
def nids : List Nat := [64, 672, 673, 674, 0]

/-- The sizes set, sa_engine_digest.c:69, 76, 83, 90, 97. -/
def appSize (n : Nat) : Nat := if n = 64 then 104 else if n = 672 then 120 else if n = 673 then 224 else if n = 674 then 224 else 64

/-- Where a thread is in `sa_get_engine_digests`; `n` is the number of the digest asked for. -/
inductive Pc where
  | idle
  /-- `if (digest_… == NULL)`, lines 67, 74, 81, 88, 95 -/
  | check (n : Nat)
  /-- `EVP_MD_meth_dup` -/
  | dup (n : Nat)
  /-- the pointer it gave is about to be stored in the static variable -/
  | store (n : Nat) (ptr : Option Nat)
  /-- `EVP_MD_meth_set_app_datasize`, which reads the static variable again -/
  | size (n : Nat)
  /-- `*evp_md = digest_…` and the return, lines 72, 79, 86, 93, 100, 105 -/
  | load (n : Nat)
  deriving DecidableEq, Repr

structure State where
  /-- the static variables, lines 34-38 -/
  cur : Nat → Option Nat
  heap : Nat → Option Md
  next : Nat
  pc : Nat → Pc
  /-- the answers so far: the number asked for, and the digest given (`none`: 0 is returned) -/
  told : List (Nat × Option Nat)
  /-- a NULL pointer was used -/
  crashed : Bool

def init : State := ⟨fun _ => none, fun _ => none, 0, fun _ => .idle, [], false⟩

inductive Act where
  /-- the thread calls `sa_get_engine_digests` for a number -/
  | ask (n : Nat)
  /-- the thread goes on by one step; `ok`: memory is there -/
  | run (ok : Bool)
  deriving DecidableEq, Repr

def State.goto (s : State) (t : Nat) (c : Pc) : State := { s with pc := fun x => if x = t then c else s.pc x }

/-- One step of thread `t`.  `own n` is the size of the state of the library's digest.  `none`: it cannot be taken.  Steps are atomic here; in C, reading a variable while another thread writes it
is undefined. -/
def step (own : Nat → Nat) (s : State) (t : Nat) : Act → Option State
  | .ask n =>
    if s.crashed = false ∧ s.pc t = .idle then
      if n ∈ nids then some (s.goto t (.check n)) else some { s with told := (n, none) :: s.told }
    else none
  | .run ok =>
    if s.crashed = true then none
    else match s.pc t with
      | .idle => none
      | .check n => some (s.goto t (if s.cur n = none then .dup n else .load n))
      | .dup n =>
        if ok then some (State.goto { s with heap := fun p => if p = s.next then some ⟨n, own n⟩ else s.heap p, next := s.next + 1 } t (.store n (some s.next)))
        else some (s.goto t (.store n none))
      | .store n ptr => some (State.goto { s with cur := fun m => if m = n then ptr else s.cur m } t (.size n))
      | .size n =>
        match s.cur n with
        | none => some { s with crashed := true }
        | some p => some (State.goto { s with heap := fun q => if q = p then (s.heap p).map (fun m => ⟨m.digest, appSize n⟩) else s.heap q } t (.load n))
      | .load n => some (State.goto { s with told := (n, s.cur n) :: s.told } t .idle)

/-- `sa_free_engine_digests`, sa_engine_digest.c:108-123.  Called by `sa_engine_shutdown` (sa_engine.c:42) at exit; theorems use it where no thread is in the function above. -/
def freeAll (s : State) : State :=
  { s with heap := fun p => if ∃ n ∈ nids, s.cur n = some p then none else s.heap p, cur := fun n => if n ∈ nids then none else s.cur n }

def run (own : Nat → Nat) : State → List (Nat × Act) → Option State
  | s, [] => some s
  | s, (t, a) :: l => (step own s t a).bind fun s => run own s l

end Sa.Ed

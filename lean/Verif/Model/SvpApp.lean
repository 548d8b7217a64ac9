import Verif.Model.Svp

/-!
# SVP buffers with their memory, as an application sees them

clientimpl/src/sa_svp_buffer_alloc.c, sa_svp_buffer_free.c, sa_svp_buffer_create.c, sa_svp_buffer_release.c, porting/sa_svp_memory_alloc.c and
porting/sa_svp_memory_free.c, with the table of the TA (`Model/Svp.lean`) behind them.  One application with one session, call after call.  `ok` says whether
the session and the command structure are there (`client_session`, `CREATE_COMMAND`); that values travel between application and TA unchanged is C63 and C70.
-/

namespace Sa.SvpApp

/-- The table of the TA, the blocks of SVP memory that are allocated (address ↦ size), and whether something was freed that is no such block. -/
structure App where
  caller : Uuid
  store : SvpStore
  heap : UInt64 → Option UInt64
  fault : Bool

/-- `malloc` has returned address `a`. -/
def App.got (w : App) (a n : UInt64) : App := { w with heap := fun x => if x = a then some n else w.heap x }

/-- `sa_svp_memory_alloc`, sa_svp_memory_alloc.c:24-42; `m`: what `malloc` returns. -/
def memoryAlloc (w : App) (n : UInt64) (m : Option UInt64) : App × Status × Option UInt64 :=
  match m with
  | none => (w, .INTERNAL_ERROR, none)
  | some a => (w.got a n, .OK, some a)

/-- `sa_svp_memory_free`, sa_svp_memory_free.c:22-30. -/
def memoryFree (w : App) (a : UInt64) : App × Status :=
  if a = 0 then (w, .OK)
  else if (w.heap a).isNone then ({ w with fault := true }, .OK)
  else ({ w with heap := fun x => if x = a then none else w.heap x }, .OK)

/-- `sa_svp_buffer_create`, sa_svp_buffer_create.c:24-71: status and `*svp_buffer` if it is written. -/
def bufferCreate (w : App) (a n : UInt64) (ok : Bool) : App × Status × Option Nat :=
  if a = 0 then (w, .NULL_PARAMETER, none)
  else if !ok then (w, .INTERNAL_ERROR, none)
  else
    let r := svpStoreCreate w.store a n w.caller
    ({ w with store := r.1 }, r.2.1, if r.2.1 = .OK then some r.2.2 else none)

/-- What `sa_svp_buffer_release` gives back: status and, if written, `*svp_memory`. -/
inductive Released where
  | returned (w : App) (s : Status) (memory : Option UInt64)
  | waits (w : App)

/-- `sa_svp_buffer_release`, sa_svp_buffer_release.c:25-71.  `junk`: what the memory of the command contains at `svp_memory`, which is not initialised and comes
back if the TA does not write it. -/
def bufferRelease (w : App) (h : Nat) (ok : Bool) (junk : UInt64) : Released :=
  if !ok then .returned w .INTERNAL_ERROR none
  else match svpStoreRelease w.store h w.caller with
  | .blocks st => .waits { w with store := st }
  | .returned st s out => .returned { w with store := st } s (if s = .OK then some ((out.map (·.1)).getD junk) else none)

/-- `sa_svp_buffer_alloc`, sa_svp_buffer_alloc.c:22-49. -/
def bufferAlloc (w : App) (n : UInt64) (m : Option UInt64) (ok : Bool) : App × Status × Option Nat :=
  match memoryAlloc w n m with
  | (w1, .OK, some a) =>
    match bufferCreate w1 a n ok with
    | (w2, .OK, h) => (w2, .OK, h)
    | (w2, s, h) => ((memoryFree w2 a).1, s, h)
  | (w1, s, _) => (w1, s, none)

/-- `sa_svp_buffer_free`, sa_svp_buffer_free.c:22-43; `none`: the call does not return. -/
def bufferFree (w : App) (h : Nat) (ok : Bool) (junk : UInt64) : Option (App × Status) :=
  match bufferRelease w h ok junk with
  | .waits _ => none
  | .returned w1 .OK a => some (memoryFree w1 (a.getD 0))
  | .returned w1 s _ => some (w1, s)

end Sa.SvpApp

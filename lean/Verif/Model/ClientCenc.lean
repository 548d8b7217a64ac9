import Verif.Model.ClientRet

/-!
# `sa_process_common_encryption` of the client library with all its samples

clientimpl/src/sa_process_common_encryption.c:25-210.  `Cl.cenc` and `Cl.finish` are one round of the loop, for a sample given by values.  Here the samples
are what the application has: structures with pointers to `sa_buffer` structures and to memory.  Several samples may use the same buffers.  The arrays of the
subsamples and the structures themselves do not overlap with the output memory (simplified); the IVs are read from memory.
-/

namespace Sa.Cl
open Sa.Ta

/-- `sa_buffer`, sa_types.h:542-570. -/
inductive Dsc where
  | clear (addr : Option Nat) (len off : Nat)
  | svp (handle off : Nat)
  deriving DecidableEq

/-- Memory of the application, and the `sa_buffer` structures in it. -/
structure World where
  mem : Nat → UInt8
  dsc : Nat → Dsc

/-- `sa_sample`, sa_types.h; `none` is NULL. -/
structure SmpPtr where
  iv : Option Nat
  ivLen : Nat
  crypt : Nat
  skip : Nat
  subs : Option (List (Nat × Nat))
  context : Nat
  out : Option Nat
  src : Option Nat

/-- `n` bytes from address `a` on. -/
def bytesAt (m : Nat → UInt8) (a n : Nat) : Bytes := (List.range n).map fun k => m (a + k)

/-- `memcpy(a, w, …)` -/
def writeAt (m : Nat → UInt8) (a : Nat) (w : Bytes) : Nat → UInt8 := fun k => if a ≤ k ∧ k < a + w.length then w.getD (k - a) 0 else m k

/-- What a buffer stands for. -/
def World.buf (w : World) (d : Nat) : Buf :=
  match w.dsc d with
  | .clear a len off => .clear ⟨a.map fun x => bytesAt w.mem x len, len⟩ off
  | .svp h off => .svp h off

/-- `buffer->context.….offset = off` -/
def Dsc.setOff : Dsc → Nat → Dsc
  | .clear a len _, off => .clear a len off
  | .svp h _, off => .svp h off

def World.setOff (w : World) (d off : Nat) : World := { w with dsc := fun x => if x = d then (w.dsc d).setOff off else w.dsc x }

/-- Writing to the memory of a clear buffer, behind its offset. -/
def World.store (w : World) (d : Nat) (b : Bytes) : World :=
  match w.dsc d with
  | .clear (some a) _ off => { w with mem := writeAt w.mem (a + off) b }
  | _ => w

/-- The library: how it was built, what its memory contains in each round, and which of its allocations succeed. -/
structure Lib where
  shared : Bool
  junk : Nat → Nat → Bytes
  alloc : Nat → Bool

/-- The library in round `i`. -/
def Lib.env (l : Lib) (i : Nat) : CEnv := ⟨l.shared, l.junk i⟩

/-- `ta_alloc_shared_memory`, or nothing, ta_client.h:65-81, 109-113. -/
def Lib.param (l : Lib) (n : Nat) : Bool := !l.shared || l.alloc n

/-- Allocations of a parameter. -/
def Lib.next (l : Lib) (n : Nat) : Nat := if l.shared then n + 1 else n

/-- The variables of the loop: the application's memory, the state of the TA, the number of allocations so far, the round, and `status`. -/
structure LoopSt (σ : Type) where
  world : World
  ta : σ
  allocs : Nat
  round : Nat
  status : Status

variable {σ : Type}

/-- Lines 170-186, after `ta_invoke_command` has been called with parameters `p`. -/
def settle (l : Lib) (ta : σ → Call → σ × Status × Out) (out src : Nat) (id : Nat) (p : Params) (st : LoopSt σ) : Bool × LoopSt σ :=
  match received id p with
  | .error x => (true, { st with status := x })
  | .ok c =>
    let r := ta st.ta c
    let o := r.2.2
    let w := if l.shared then st.world else st.world.store out o.mem          -- the TA writes to the memory of the application
    if r.2.1 ≠ .OK then (true, { st with world := w, ta := r.1, status := r.2.1 })
    else
      let q := respond id p o
      let cmd := (q 0).mem.getD []
      let w := if l.shared then w.store out (((q 2).mem.getD []).take (fld cmd 64 8)) else w
      let w := w.setOff out (advance (w.buf out) (fld cmd 64 8))
      let w := w.setOff src (advance (w.buf src) (fld cmd 80 8))
      (false, { st with world := w, ta := r.1, status := .OK })

/-- One round of the loop, lines 53-197.  The result says whether the loop ends.  `CREATE_PARAM` and `CREATE_OUT_PARAM` (ta_client.h:65-81) end with `continue`,
which belongs to the `for` loop here. -/
def roundOf (l : Lib) (ta : σ → Call → σ × Status × Out) (s : SmpPtr) (st : LoopSt σ) : Bool × LoopSt σ :=
  let stop (x : Status) (n : Nat) : Bool × LoopSt σ := (true, { st with status := x, allocs := n })
  let skip (n : Nat) : Bool × LoopSt σ := (false, { st with status := .INTERNAL_ERROR, allocs := n, round := st.round + 1 })
  let e := l.env st.round
  let w := st.world
  match s.iv with
  | none => stop .NULL_PARAMETER st.allocs                                               -- 54-58
  | some iv =>
  if s.ivLen ≠ 16 then stop .INVALID_PARAMETER st.allocs                                 -- 60-64
  else match s.subs with
  | none => stop .NULL_PARAMETER st.allocs                                               -- 66-70
  | some subs =>
  match s.out with
  | none => stop .NULL_PARAMETER st.allocs                                               -- 72-76
  | some out =>
  match s.src with
  | none => stop .NULL_PARAMETER st.allocs                                               -- 78-82
  | some src =>
  let n := st.allocs
  if l.alloc n = false then stop .NULL_PARAMETER (n + 1)                                 -- 94-99
  else if l.param (n + 1) = false then skip (n + 2)                                      -- 106
  else
  let n := l.next (n + 1)
  match bufPrm e true (w.buf out) with                                                   -- 110-135
  | .error x => stop x n
  | .ok _ =>
  if l.param n = false then skip (n + 1)
  else
  let n := l.next n
  match bufPrm e false (w.buf src) with                                                  -- 139-161
  | .error x => stop x n
  | .ok _ =>
  if l.param n = false then skip (n + 1)
  else
  let n := l.next n
  match request e (.cenc ⟨⟨some (bytesAt w.mem iv 16), 16⟩, s.crypt, s.skip, subs, s.context, w.buf out, w.buf src⟩) with
  | .error x => stop x n
  | .ok (id, p) => settle l ta out src id p { st with allocs := n, round := st.round + 1 }

/-- The loop. -/
def loopOf (l : Lib) (ta : σ → Call → σ × Status × Out) : List SmpPtr → LoopSt σ → LoopSt σ
  | [], st => st
  | s :: ss, st =>
    let r := roundOf l ta s st
    if r.1 then r.2 else loopOf l ta ss r.2

/-- sa_process_common_encryption.c:25-210.  `session`: whether `client_session` gives one; `status0`: what the uninitialised variable `status` contains. -/
def processCenc (l : Lib) (session : Bool) (status0 : Status) (ta : σ → Call → σ × Status × Out) (samples : Option (List SmpPtr)) (w : World) (t : σ) :
    Status × World × σ :=
  match samples with
  | none => (.NULL_PARAMETER, w, t)                                                      -- 29-32
  | some ss =>
    if ss.length < 1 then (.INVALID_PARAMETER, w, t)                                     -- 34-37
    else if session = false then (.INTERNAL_ERROR, w, t)                                 -- 39-43
    else if l.alloc 0 = false then (.INTERNAL_ERROR, w, t)                               -- 52
    else
      let r := loopOf l ta ss ⟨w, t, 1, 0, status0⟩
      (r.status, r.world, r.ta)

end Sa.Cl

import Verif.Model.ObjectStore

/-!
# SVP buffers (`taimpl/src/porting/svp.c`, `taimpl/src/internal/svp_store.c`, `taimpl/src/internal/buffer.c`,
`taimpl/src/ta_sa_svp_buffer_{create,release,write,copy,check}.c`)

Memory is modelled by addresses: a function that copies returns the list of `memcpy` calls it makes; `runCopies` gives their effect on
a memory.  Simplifications: allocation and `mtx_init`/`mtx_lock` do not fail; the per-object mutex is not part of this sequential model
(it is in `Verif.Model.Exclusive`); the session (client store) acquire/release around every call is modelled in `Verif.Model.Client`;
NULL checks of pointers that the callers in `ta_sa_*.c` never pass as NULL are left out, the others are kept.
-/

namespace Sa

/-- `struct svp_buffer_s`, svp.c:29-32. -/
structure SvpBuffer where
  svpMemory : UInt64
  size : UInt64
  deriving DecidableEq, Repr

/-- `struct svp_s`, svp_store.c:25-28 (without the mutex); `none` is a NULL `buffer`. -/
structure Svp where
  buffer : Option SvpBuffer
  deriving DecidableEq, Repr

/-- `sa_svp_offset`, sa_types.h. -/
structure SvpOffset where
  outOffset : UInt64
  inOffset : UInt64
  length : UInt64
  deriving DecidableEq, Repr

/-- One call `memcpy(dst, src, len)`; the addresses are mathematical integers, so that a wrapped address shows. -/
structure Memcpy where
  dst : Nat
  src : Nat
  len : Nat
  deriving DecidableEq, Repr

/-- Contents of the address space. -/
abbrev Mem := Nat → UInt8

/-- Effect of a `memcpy`; `none` if source and destination overlap (undefined behaviour). -/
def Memcpy.run (c : Memcpy) (m : Mem) : Option Mem :=
  if c.len ≠ 0 ∧ c.dst < c.src + c.len ∧ c.src < c.dst + c.len then none
  else some fun a => if c.dst ≤ a ∧ a < c.dst + c.len then m (c.src + (a - c.dst)) else m a

/-- Effect of a sequence of `memcpy` calls. -/
def runCopies (m : Mem) : List Memcpy → Option Mem
  | [] => some m
  | c :: cs => (c.run m).bind fun m' => runCopies m' cs

/-- `svp_validate_buffer`, svp.c:34-46.  If the region is not valid SVP memory the function returns `SA_STATUS_INVALID_PARAMETER`, which
as a `bool` is `true`. -/
def svpValidateBuffer : Option SvpBuffer → Bool
  | none => false
  | some b => if !memoryIsValidSvp b.svpMemory b.size then true else true

/-- `svp_create_buffer`, svp.c:48-79: return value and `*svp_buffer` (initially NULL, svp_store.c:59).  If the region is not valid SVP
memory the function returns `SA_STATUS_INVALID_PARAMETER`, which as a `bool` is `true`, without creating a buffer. -/
def svpCreateBuffer (svpMemory size : UInt64) : Bool × Option SvpBuffer :=
  if svpMemory = 0 then (false, none)
  else if !memoryIsValidSvp svpMemory size then (true, none)
  else (true, some { svpMemory := svpMemory, size := size })

/-- `svp_create`, svp_store.c:46-82. -/
def svpCreate (svpMemory size : UInt64) : Option Svp :=
  let r := svpCreateBuffer svpMemory size
  if !r.1 then none else some { buffer := r.2 }

/-- Loop of `svp_write`, svp.c:136-157: all segments are in bounds. -/
def svpWriteCheck (outSize inLength : UInt64) : List SvpOffset → Bool
  | [] => true
  | o :: os =>
    let r := addOverflow o.outOffset o.length
    if r.1 then false
    else if r.2 > outSize then false
    else
      let r := addOverflow o.inOffset o.length
      if r.1 then false
      else if r.2 > inLength then false
      else svpWriteCheck outSize inLength os

/-- `svp_write`, svp.c:109-164: return value and the copies made.  `input` is the address of the input buffer. -/
def svpWrite (out : Option SvpBuffer) (input inLength : UInt64) (offsets : List SvpOffset) : Bool × List Memcpy :=
  match out with
  | none => (false, [])
  | some b =>
    if !svpValidateBuffer (some b) then (false, [])
    else if !svpWriteCheck b.size inLength offsets then (false, [])
    else (true, offsets.map fun o =>
      { dst := b.svpMemory.toNat + o.outOffset.toNat, src := input.toNat + o.inOffset.toNat, len := o.length.toNat })

/-- Second loop of `svp_copy`, svp.c:220-235: return value and the copies made. -/
def svpCopyLoop (out input : SvpBuffer) : List SvpOffset → Bool × List Memcpy
  | [] => (true, [])
  | o :: os =>
    let r := addOverflow out.svpMemory o.outOffset
    if r.1 then (false, [])
    else
      let r' := addOverflow input.svpMemory o.inOffset
      if r'.1 then (false, [])
      else
        let rest := svpCopyLoop out input os
        (rest.1, { dst := r.2.toNat, src := r'.2.toNat, len := o.length.toNat } :: rest.2)

/-- `svp_copy`, svp.c:166-236 (its checking loop 197-218 is the one of `svp_write` with the size of the input buffer). -/
def svpCopy (out input : Option SvpBuffer) (offsets : List SvpOffset) : Bool × List Memcpy :=
  match out, input with
  | some b, some i =>
    if !svpValidateBuffer (some b) then (false, [])
    else if !svpValidateBuffer (some i) then (false, [])
    else if !svpWriteCheck b.size i.size offsets then (false, [])
    else svpCopyLoop b i offsets
  | _, _ => (false, [])

/-- `svp_digest`, svp.c:296-332: `none` is a NULL dereference (line 310); otherwise the return value and, if it is true, the address
and number of the bytes hashed. -/
def svpDigest (b : Option SvpBuffer) (offset length : UInt64) : Option (Bool × Nat × Nat) :=
  let r := addOverflow offset length
  if r.1 then some (false, 0, 0)
  else match b with
    | none => none
    | some b =>
      if r.2 > b.size then some (false, 0, 0)
      else if !svpValidateBuffer (some b) then some (false, 0, 0)
      else
        let p := addOverflow b.svpMemory offset
        if p.1 then some (false, 0, 0)
        else some (true, p.2.toNat, length.toNat)

/-- `svp_get_svp_memory`, svp.c:334-344 (`0` is NULL). -/
def svpGetSvpMemory : Option SvpBuffer → UInt64
  | none => 0
  | some b => if !svpValidateBuffer (some b) then 0 else b.svpMemory

/-- `svp_get_size`, svp.c:346-351. -/
def svpGetSize : Option SvpBuffer → UInt64
  | none => 0
  | some b => b.size

/-- `svp_store_t`. -/
abbrev SvpStore := ObjectStore Svp

/-- `svp_store_create`, svp_store.c:138-193: new store, status and `*svp_buffer`. -/
def svpStoreCreate (st : SvpStore) (svpMemory size : UInt64) (caller : Uuid) : SvpStore × Status × Nat :=
  if svpMemory = 0 then (st, .NULL_PARAMETER, SLOT_INVALID)
  else match svpCreate svpMemory size with
    | none => (st, .INTERNAL_ERROR, SLOT_INVALID)
    | some svp => objectStoreAdd st svp caller

/-- `svp_store_acquire_exclusive`, svp_store.c:254-295. -/
def svpStoreAcquireExclusive (st : SvpStore) (h : Nat) (caller : Uuid) : SvpStore × Status × Option Svp :=
  objectStoreAcquire st h caller

/-- `svp_store_release_exclusive`, svp_store.c:297-331. -/
def svpStoreReleaseExclusive (st : SvpStore) (h : Nat) (svp : Svp) (caller : Uuid) : SvpStore × Status :=
  objectStoreRelease st h svp caller

/-- Result of `svp_store_release`. -/
inductive SvpReleaseResult where
  /-- returned with this status; `out` is what was written to `*svp_memory`, `*size` -/
  | returned (st : SvpStore) (status : Status) (out : Option (UInt64 × UInt64))
  /-- waits for another reference to be returned -/
  | blocks (st : SvpStore)
  deriving DecidableEq, Repr

/-- `svp_store_release`, svp_store.c:195-252, with `svp_release_buffer` (svp.c:81-107) inlined. -/
def svpStoreRelease (st : SvpStore) (h : Nat) (caller : Uuid) : SvpReleaseResult :=
  match svpStoreAcquireExclusive st h caller with
  | (st1, status, none) => .returned st1 status none
  | (st1, status, some svp) =>
    if status ≠ .OK then .returned st1 status none
    else match svp.buffer with
      -- svp_release_buffer fails: `return status`, which is OK; neither unlocked nor released (line 233-236)
      | none => .returned st1 status none
      | some b =>
        let svp' : Svp := { buffer := none }
        let st2 := st1.setObj h { st1.obj h with object := some svp' }
        match svpStoreReleaseExclusive st2 h svp' caller with
        | (st3, .OK) =>
          match objectStoreRemove st3 h caller with
          | .blocks st4 => .blocks st4
          | .returned st4 status _ => .returned st4 status (some (b.svpMemory, b.size))
        | (st3, s) => .returned st3 s (some (b.svpMemory, b.size))

/-- `ta_sa_svp_buffer_write`, ta_sa_svp_buffer_write.c:23-80 (inside the session). -/
def taSvpBufferWrite (st : SvpStore) (out : Nat) (input inLength : UInt64) (offsets : List SvpOffset) (caller : Uuid) :
    SvpStore × Status × List Memcpy :=
  if input = 0 then (st, .NULL_PARAMETER, [])
  else match svpStoreAcquireExclusive st out caller with
    | (st1, status, none) => (st1, status, [])
    | (st1, status, some svp) =>
      let r := if status ≠ .OK then (status, []) else
        let w := svpWrite svp.buffer input inLength offsets
        (if !w.1 then Status.INVALID_SVP_BUFFER else status, w.2)
      ((svpStoreReleaseExclusive st1 out svp caller).1, r.1, r.2)

/-- `ta_sa_svp_buffer_copy`, ta_sa_svp_buffer_copy.c:23-85 (inside the session). -/
def taSvpBufferCopy (st : SvpStore) (out input : Nat) (offsets : List SvpOffset) (caller : Uuid) :
    SvpStore × Status × List Memcpy :=
  match svpStoreAcquireExclusive st out caller with
  | (st1, status, none) => (st1, status, [])
  | (st1, status, some outSvp) =>
    if status ≠ .OK then ((svpStoreReleaseExclusive st1 out outSvp caller).1, status, [])
    else match svpStoreAcquireExclusive st1 input caller with
      | (st2, status, none) => ((svpStoreReleaseExclusive st2 out outSvp caller).1, status, [])
      | (st2, status, some inSvp) =>
        let r := if status ≠ .OK then (status, []) else
          let w := svpCopy outSvp.buffer inSvp.buffer offsets
          (if !w.1 then Status.INVALID_SVP_BUFFER else status, w.2)
        let st3 := (svpStoreReleaseExclusive st2 input inSvp caller).1
        ((svpStoreReleaseExclusive st3 out outSvp caller).1, r.1, r.2)

/-- `ta_sa_svp_buffer_check`, ta_sa_svp_buffer_check.c:26-96 (inside the session; `ree` is `is_ree(caller_uuid)`, `hashMatches` the
comparison of the hash of the given bytes, `hashLengthOk` the check of the length; hashing does not fail).  `none` is a NULL
dereference. -/
def taSvpBufferCheck (st : SvpStore) (h : Nat) (offset length : UInt64) (ree hashLengthOk : Bool)
    (hashMatches : Nat → Nat → Bool) (caller : Uuid) : Option (SvpStore × Status) :=
  if ree then some (st, .OPERATION_NOT_ALLOWED)
  else if !hashLengthOk then some (st, .INVALID_PARAMETER)
  else match svpStoreAcquireExclusive st h caller with
    | (st1, status, none) => some (st1, status)
    | (st1, status, some svp) =>
      if status ≠ .OK then some ((svpStoreReleaseExclusive st1 h svp caller).1, status)
      else match svpDigest svp.buffer offset length with
        | none => none
        | some (false, _, _) => some ((svpStoreReleaseExclusive st1 h svp caller).1, .INTERNAL_ERROR)
        | some (true, a, n) =>
          some ((svpStoreReleaseExclusive st1 h svp caller).1, if hashMatches a n then .OK else .VERIFICATION_FAILED)

/-- `sa_buffer`, sa_types.h; `buffer = 0` is NULL. -/
inductive SaBuffer where
  | clear (buffer length offset : UInt64)
  | svp (handle : Nat) (offset : UInt64)
  deriving DecidableEq, Repr

/-- Result of `convert_buffer`: `*bytes` and `*svp` as left for the caller. -/
structure Converted where
  store : SvpStore
  status : Status
  bytes : Option UInt64
  svp : Option Svp

/-- `convert_buffer`, buffer.c:25-121. -/
def convertBuffer (st : SvpStore) (buffer : SaBuffer) (bytesToProcess : UInt64) (caller : Uuid) : Converted :=
  match buffer with
  | .svp handle offset =>
    match svpStoreAcquireExclusive st handle caller with
    | (st1, status, svp) =>
      if status ≠ .OK then ⟨st1, status, none, svp⟩
      else
        let r := addOverflow offset bytesToProcess
        if r.1 then ⟨st1, .INVALID_PARAMETER, none, svp⟩
        else
          let b := svp.bind (·.buffer)
          let location := svpGetSvpMemory b
          if location = 0 then ⟨st1, .INVALID_PARAMETER, none, svp⟩
          else if r.2 > svpGetSize b then ⟨st1, .INVALID_PARAMETER, none, svp⟩
          else
            let p := addOverflow location offset
            if p.1 then ⟨st1, .INVALID_PARAMETER, some p.2, svp⟩
            else ⟨st1, .OK, some p.2, svp⟩
  | .clear buffer length offset =>
    if buffer = 0 then ⟨st, .NULL_PARAMETER, none, none⟩
    else
      let r := addOverflow offset bytesToProcess
      if r.1 then ⟨st, .INVALID_PARAMETER, none, none⟩
      else if r.2 > length then ⟨st, .INVALID_PARAMETER, none, none⟩
      else if !memoryIsValidClear buffer length then ⟨st, .INVALID_PARAMETER, none, none⟩
      else
        let p := addOverflow buffer offset
        if p.1 then ⟨st, .INVALID_PARAMETER, some p.2, none⟩
        else ⟨st, .OK, some p.2, none⟩

/-- Calls on the SVP table of a session. -/
inductive SvpOp where
  | create (svpMemory size : UInt64) (caller : Uuid)
  | release (h : Nat) (caller : Uuid)
  | acquire (h : Nat) (caller : Uuid)
  | give (h : Nat) (svp : Svp) (caller : Uuid)
  | write (out : Nat) (input inLength : UInt64) (offsets : List SvpOffset) (caller : Uuid)
  | copy (out input : Nat) (offsets : List SvpOffset) (caller : Uuid)
  deriving DecidableEq, Repr

/-- State after a call (`acquire`/`give` are the brackets put around any use of a buffer by cipher and sample processing). -/
def svpStep (st : SvpStore) : SvpOp → SvpStore
  | .create m n u => (svpStoreCreate st m n u).1
  | .release h u => match svpStoreRelease st h u with
    | .returned st' _ _ => st'
    | .blocks st' => st'
  | .acquire h u => (svpStoreAcquireExclusive st h u).1
  | .give h s u => (svpStoreReleaseExclusive st h s u).1
  | .write o i n os u => (taSvpBufferWrite st o i n os u).1
  | .copy o i os u => (taSvpBufferCopy st o i os u).1

/-- State after a list of calls. -/
def svpAfter (st : SvpStore) : List SvpOp → SvpStore
  | [] => st
  | op :: ops => svpAfter (svpStep st op) ops

/-- A state of the SVP table of a session (`client_create`, client_store.c:120-160, creates it with 256 slots; any number is allowed
here) after some calls. -/
def SvpReachable (st : SvpStore) : Prop :=
  ∃ n st0 ops, n < 2 ^ 64 ∧ objectStoreInit Svp n = some st0 ∧ svpAfter st0 ops = st

end Sa

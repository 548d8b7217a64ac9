import Verif.Model.Cipher
import Verif.Model.Cenc

/-!
# Common encryption with the cipher contexts of a session

`Model/Cenc.lean` takes the cipher contexts that a caller can acquire as a function; here it is the one given by the session's table of cipher contexts
(`taimpl/src/internal/cipher_store.c`), and what becomes of the contexts is kept in that table.
-/

namespace Sa

variable {σ : Type}

/-- `symmetric_context_decrypt` and `symmetric_context_set_iv` on a context of the library, symmetric.c:1347-1392,1453-1496.  Simplified: after a call of the library that fails its context is
taken to be what it was; a missing context (NULL) is a failure of the library. -/
def cencOps (p : CipherPrim σ) : SymOps (Option (SymCtx σ)) where
  decrypt x b :=
    match x with
    | none => none
    | some c =>
      match p.update c.evp b with
      | (e, some o) => some (some { c with evp := e }, o)
      | (_, none) => none
  setIv x iv :=
    match x with
    | none => none
    | some c =>
      match p.setIv c.evp iv.bytes with
      | some e => some (some { c with evp := e })
      | none => none

/-- What `cipher_store_acquire_exclusive` (cipher_store.c:439-476) gives to `verify_sample` (ta_sa_process_common_encryption.c:67-91) and `cenc_process_sample` (cenc.c:167-176). -/
def cencView (w : CipherWorld σ) (caller : Uuid) (h : Nat) : Option (CencCipher (Option (SymCtx σ))) :=
  match objectStoreAcquire w.store h caller with
  | (_, .OK, some ptr) =>
    match w.heap ptr with
    | some (.obj o) =>
      match w.keyOf o, w.symOf o with
      | some sk, some ctx => some ⟨o.mode == MODE_DECRYPT, sk.header.rights, o.alg, ctx⟩
      | _, _ => none
    | _ => none
  | _ => none

/-- The context exists, but not all of what it refers to: its use is undefined. -/
def cencDangling (w : CipherWorld σ) (caller : Uuid) (h : Nat) : Bool :=
  match objectStoreAcquire w.store h caller with
  | (_, .OK, some _) => (cencView w caller h).isNone
  | _ => false

/-- The state of the library's context is that of the context in the table: both are the same object in memory (cipher_store.c:29,47-106). -/
def cencPut (w : CipherWorld σ) (caller : Uuid) (h : Nat) (ctx : Option (SymCtx σ)) : CipherWorld σ :=
  match objectStoreAcquire w.store h caller with
  | (_, .OK, some ptr) =>
    match w.heap ptr with
    | some (.obj o) => w.setSym o ctx
    | _ => w
  | _ => w

/-- What `ta_sa_process_common_encryption` leaves. -/
structure CencOut (σ : Type) where
  world : CipherWorld σ
  svp : SvpStore
  mem : Mem
  bufs : Nat → SaBuffer
  status : Status

/-- The states of the contexts used by the samples are written to the table. -/
def cencBack (caller : Uuid) (after : Nat → Option (CencCipher (Option (SymCtx σ)))) : List Sample → CipherWorld σ → CipherWorld σ
  | [], w => w
  | s :: ss, w =>
    match after s.context with
    | some c => cencBack caller after ss (cencPut w caller s.context c.ctx)
    | none => cencBack caller after ss w

/-- `ta_sa_process_common_encryption`, ta_sa_process_common_encryption.c:178-225, in a session with the cipher contexts `w` and the SVP buffers `svp`.  Every context is released again before
the next is acquired (ta_sa_process_common_encryption.c:174, cenc.c:323), so that the table itself stays as it is.  `none`: undefined behaviour, or more than `fuel` rounds of the loop over the
pattern. -/
def cencCall (p : CipherPrim σ) (env : RightsEnv) (fuel : Nat) (w : CipherWorld σ) (svp : SvpStore) (mem : Mem) (bufs : Nat → SaBuffer) (samples : List Sample) (caller : Uuid) :
    Option (CencOut σ) :=
  if samples.any (fun s => cencDangling w caller s.context) then none
  else
    match processCommonEncryption env (cencOps p) fuel ⟨svp, bufs, mem, cencView w caller⟩ samples caller with
    | none => none
    | some (cw, st, _) => some ⟨cencBack caller cw.ciphers samples w, cw.svp, cw.mem, cw.bufs, st⟩

end Sa

import Verif.Model.ObjectStore

/-!
# What the API functions acquire and give back

A model of every `ta_sa_*` entry point that looks only at the references and locks it takes: acquisitions, the points where it may leave its
`do { ... } while (false)` block (`break`) or return, and the clean-up behind the block.  All data dependent decisions are taken by an oracle (a
list of Booleans), so that every path through the function is covered, and some that the code does not have.  The references are taken in
the tables of `Sa.ObjectStore`; the tables are those of the session the call is made on, and the table of sessions.

Simplifications: single thread (see `Sa.Conc` for the concurrent tables); `mtx_lock` does not fail.
-/

namespace Sa

/-- The tables. -/
inductive TKind where
  | client | cipher | mac | svp | key
  deriving DecidableEq, Repr

/-- The local pointer variables that hold references. -/
inductive PVar where
  | client | cipher | mac | svp | out | in_ | key
  deriving DecidableEq, Repr

def PVar.kind : PVar → TKind
  | .client => .client
  | .cipher => .cipher
  | .mac => .mac
  | .svp | .out | .in_ => .svp
  | .key => .key

/-- Objects with a mutex, taken by `*_acquire_exclusive` (cipher_store.c:35, mac_store.c:28, svp_store.c:27). -/
def TKind.mutex : TKind → Bool
  | .cipher | .mac | .svp => true
  | .client | .key => false

structure BWorld where
  store : TKind → ObjectStore Nat
  /-- how often the thread has locked the mutex of an object -/
  lock : TKind → Nat → Nat

structure Frame where
  ptr : PVar → Option Nat
  /-- the handle that belongs to the pointer -/
  handle : PVar → Nat
  /-- address of the object made by `Op.add` -/
  fresh : Nat

inductive Op where
  /-- `status = *_acquire(&v, ...); if (status != OK) break;` -/
  | acquire (v : PVar)
  /-- the same in `convert_buffer` (buffer.c:58-64): only if the buffer is an SVP buffer -/
  | acquireIf (v : PVar)
  /-- `*_release_exclusive(v)` in the middle of the function -/
  | release (v : PVar)
  /-- `if (...) break;` -/
  | check
  /-- `if (...) return ...;` -/
  | checkReturn
  /-- a new object is put into the table of `v`, `break` if that fails -/
  | add (v : PVar)
  /-- the object is removed from the table, `break` if that fails -/
  | remove (v : PVar)
  deriving DecidableEq, Repr

inductive Flow where
  | next | brk | ret
  deriving DecidableEq, Repr

def upd1 {α β : Type} [DecidableEq α] (g : α → β) (a : α) (b : β) : α → β := fun x => if x = a then b else g x

def BWorld.setStore (w : BWorld) (k : TKind) (st : ObjectStore Nat) : BWorld := { w with store := upd1 w.store k st }

/-- `*_acquire(_exclusive)`: client_store.c:286-327, cipher_store.c:439-476, mac_store.c:279-316, svp_store.c:254-295, key_store.c:580. -/
def acquireVar (u : Uuid) (w : BWorld) (f : Frame) (v : PVar) : Bool × BWorld × Frame :=
  match objectStoreAcquire (w.store v.kind) (f.handle v) u with
  | (st, .OK, some o) =>
    let w1 := w.setStore v.kind st
    (true, if v.kind.mutex then { w1 with lock := fun k o' => if k = v.kind ∧ o' = o then w.lock k o' + 1 else w.lock k o' } else w1,
      { f with ptr := upd1 f.ptr v (some o) })
  | (st, _, _) => (false, w.setStore v.kind st, { f with ptr := upd1 f.ptr v none })

/-- `*_release(_exclusive)`: does nothing for a NULL pointer (client_store.c:329-357, cipher_store.c:478-508, mac_store.c:318-348,
svp_store.c:297-331, object_store.c:460-515). -/
def releaseVar (u : Uuid) (w : BWorld) (f : Frame) (v : PVar) : BWorld :=
  match f.ptr v with
  | none => w
  | some o =>
    let w1 := w.setStore v.kind (objectStoreRelease (w.store v.kind) (f.handle v) o u).1
    if v.kind.mutex then { w1 with lock := fun k o' => if k = v.kind ∧ o' = o then w.lock k o' - 1 else w.lock k o' } else w1

/-- One statement.  `none`: it does not return (`object_store_remove` waits for a reference to be given back). -/
def stepOp (u : Uuid) (op : Op) (w : BWorld) (f : Frame) (orc : List Bool) : Option (Flow × BWorld × Frame × List Bool) :=
  match op with
  | .acquire v =>
    if orc.headD false then some (.brk, w, { f with ptr := upd1 f.ptr v none }, orc.tail)
    else
      let (ok, w1, f1) := acquireVar u w f v
      some (if ok then .next else .brk, w1, f1, orc.tail)
  | .acquireIf v =>
    if orc.headD false then some (.next, w, f, orc.tail)
    else
      let (ok, w1, f1) := acquireVar u w f v
      some (if ok then .next else .brk, w1, f1, orc.tail)
  | .release v => some (.next, releaseVar u w f v, f, orc)
  | .check => some (if orc.headD false then .brk else .next, w, f, orc.tail)
  | .checkReturn => some (if orc.headD false then .ret else .next, w, f, orc.tail)
  | .add v =>
    let (st, s, h) := objectStoreAdd (w.store v.kind) f.fresh u
    some (if s = .OK then .next else .brk, w.setStore v.kind st, { f with handle := upd1 f.handle v h, fresh := f.fresh + 1 }, orc)
  | .remove v =>
    match objectStoreRemove (w.store v.kind) (f.handle v) u with
    | .blocks _ => none
    | .returned st s _ => some (if s = .OK then .next else .brk, w.setStore v.kind st, f, orc)

def runOps (u : Uuid) : List Op → BWorld → Frame → List Bool → Option (Flow × BWorld × Frame × List Bool)
  | [], w, f, orc => some (.next, w, f, orc)
  | op :: rest, w, f, orc =>
    match stepOp u op w f orc with
    | none => none
    | some (.next, w1, f1, orc1) => runOps u rest w1 f1 orc1
    | some r => some r

def runCleanup (u : Uuid) (vs : List PVar) (w : BWorld) (f : Frame) : BWorld := vs.foldl (fun w v => releaseVar u w f v) w

/-- A function called by an entry point: its body and the releases behind its block. -/
structure Sub where
  body : List Op
  cleanup : List PVar
  deriving DecidableEq, Repr

def frame (args : PVar → Nat) (fresh : Nat) : Frame := ⟨fun _ => none, args, fresh⟩

/-- Runs a function; the Boolean: it returned out of its block, without the clean-up. -/
def runSub (u : Uuid) (s : Sub) (args : PVar → Nat) (fresh : Nat) (w : BWorld) (orc : List Bool) : Option (Bool × BWorld × List Bool) :=
  match runOps u s.body w (frame args fresh) orc with
  | none => none
  | some (.ret, w1, _, orc1) => some (true, w1, orc1)
  | some (_, w1, f1, orc1) => some (false, runCleanup u s.cleanup w1 f1, orc1)

inductive Stmt where
  | op (o : Op)
  /-- call of a function, on which `break` may follow -/
  | call (s : Sub) (args : PVar → Nat)

structure Prog where
  body : List Stmt
  cleanup : List PVar

def runStmts (u : Uuid) : List Stmt → BWorld → Frame → List Bool → Bool → Option (Flow × BWorld × Frame × List Bool × Bool)
  | [], w, f, orc, early => some (.next, w, f, orc, early)
  | .op o :: rest, w, f, orc, early =>
    match stepOp u o w f orc with
    | none => none
    | some (.next, w1, f1, orc1) => runStmts u rest w1 f1 orc1 early
    | some (fl, w1, f1, orc1) => some (fl, w1, f1, orc1, early || fl == .ret)
  | .call s args :: rest, w, f, orc, early =>
    match runSub u s args f.fresh w orc with
    | none => none
    | some (e, w1, orc1) =>
      if orc1.headD false then some (.brk, w1, f, orc1.tail, early || e)
      else runStmts u rest w1 { f with fresh := f.fresh + 8 } orc1.tail (early || e)

/-- Runs an entry point.  The Boolean: some function returned out of its block. -/
def runProg (u : Uuid) (p : Prog) (args : PVar → Nat) (fresh : Nat) (w : BWorld) (orc : List Bool) : Option (Bool × BWorld) :=
  match runStmts u p.body w (frame args fresh) orc false with
  | none => none
  | some (.ret, w1, _, _, e) => some (e, w1)
  | some (_, w1, f1, _, e) => some (e, runCleanup u p.cleanup w1 f1)

/-! ## The functions -/

/-- key_store.c:549-625. -/
def keyUnwrapSub : Sub := ⟨[.checkReturn, .acquire .key, .check, .check, .check, .check, .check], [.key]⟩
/-- key_store.c:627-680. -/
def keyHeaderSub : Sub := ⟨[.checkReturn, .acquire .key], [.key]⟩
/-- key_store.c:682-806. -/
def keyExportSub : Sub := ⟨[.checkReturn, .acquire .key, .check, .check, .check, .check, .check], [.key]⟩
/-- key_store.c:379-446. -/
def keyImportSub : Sub := ⟨[.checkReturn, .check, .check, .add .key], []⟩
/-- key_store.c:808-830. -/
def keyRemoveSub : Sub := ⟨[.checkReturn, .remove .key], []⟩

/-- A call of a function that may not be made on this path. -/
def optional (s : Sub) : Sub := { s with body := .checkReturn :: s.body }

/-- ta_sa_process_common_encryption.c:25-176. -/
def verifySampleSub : Sub :=
  ⟨[.checkReturn, .checkReturn, .checkReturn, .checkReturn, .checkReturn, .checkReturn, .checkReturn, .acquire .cipher, .check, .check, .check,
    .check, .check, .check, .check, .check, .check, .acquireIf .out, .check, .acquireIf .in_, .check, .check], [.in_, .out, .cipher]⟩
/-- cenc.c:154-327. -/
def processSampleSub : Sub :=
  ⟨[.acquire .cipher, .check, .acquireIf .out, .check, .acquireIf .in_, .check, .check, .check], [.in_, .out, .cipher]⟩
/-- ta_sa_crypto_cipher_init.c:718-808. -/
def cipherInitOaepSub : Sub := ⟨[.checkReturn, .check, .add .cipher, .acquire .cipher, .check], [.cipher]⟩
/-- The other functions of ta_sa_crypto_cipher_init.c (24-717, 810-872): `cipher_store_add_*` at the end. -/
def cipherInitSub : Sub := ⟨[.checkReturn, .check, .check, .add .cipher], []⟩
/-- ta_sa_crypto_mac_init.c:25-192. -/
def macInitSub : Sub := ⟨[.checkReturn, .check, .check, .add .mac], []⟩
/-- svp_store.c:197-252: the second check is line 233. -/
def svpReleaseSub : Sub := ⟨[.checkReturn, .acquire .svp, .checkReturn, .release .svp, .checkReturn, .remove .svp], []⟩
/-- svp_store.c:138-195. -/
def svpCreateSub : Sub := ⟨[.checkReturn, .check, .add .svp], []⟩

/-- The arguments of a call: handles, for `sa_process_common_encryption` the handles of each sample. -/
structure CallArgs where
  handle : PVar → Nat
  samples : List (PVar → Nat)

/-- A statement of an entry point. -/
def sop (x : Op) : Stmt := .op x

/-- The entry points. -/
def apiProgs (a : CallArgs) : List (String × Prog) :=
  let call (s : Sub) : Stmt := .call s a.handle
  let chk := sop .check
  let ret := sop .checkReturn
  let cl := sop (.acquire .client)
  [ -- ta_sa_crypto_cipher_init.c:874-1025
    ("ta_sa_crypto_cipher_init", ⟨[ret, cl, call keyUnwrapSub, chk, chk, call (optional cipherInitSub), call (optional cipherInitOaepSub)], [.client]⟩),
    -- ta_sa_crypto_cipher_release.c:24-51
    ("ta_sa_crypto_cipher_release", ⟨[ret, cl, sop (.remove .cipher)], [.client]⟩),
    -- ta_sa_crypto_cipher_update_iv.c:25-96
    ("ta_sa_crypto_cipher_update_iv", ⟨[ret, cl, sop (.acquire .cipher), chk, chk, chk, chk], [.cipher, .client]⟩),
    -- ta_sa_crypto_mac_compute.c:27-137
    ("ta_sa_crypto_mac_compute", ⟨[ret, cl, sop (.acquire .mac), chk, chk, chk, chk, chk], [.mac, .client]⟩),
    -- ta_sa_crypto_mac_init.c:194-245
    ("ta_sa_crypto_mac_init", ⟨[ret, cl, call (optional keyUnwrapSub), call macInitSub], [.client]⟩),
    -- ta_sa_crypto_mac_process.c:24-100
    ("ta_sa_crypto_mac_process", ⟨[ret, cl, sop (.acquire .mac), chk, chk, chk], [.mac, .client]⟩),
    -- ta_sa_crypto_mac_process_key.c:25-117
    ("ta_sa_crypto_mac_process_key", ⟨[ret, cl, sop (.acquire .mac), call keyUnwrapSub, chk, chk, chk, chk], [.mac, .client]⟩),
    -- ta_sa_crypto_mac_release.c:24-51
    ("ta_sa_crypto_mac_release", ⟨[ret, cl, sop (.remove .mac)], [.client]⟩),
    -- ta_sa_crypto_sign.c:361-460
    ("ta_sa_crypto_sign", ⟨[ret, cl, call keyUnwrapSub, chk, chk, chk], [.client]⟩),
    -- ta_sa_key_derive.c:670-777 with the derivations (25-668)
    ("ta_sa_key_derive", ⟨[ret, cl, call (optional keyUnwrapSub), chk, call (optional keyUnwrapSub), chk, call (optional keyImportSub)], [.client]⟩),
    -- ta_sa_key_digest.c:24-85
    ("ta_sa_key_digest", ⟨[ret, cl, call keyUnwrapSub, chk, chk, chk], [.client]⟩),
    -- ta_sa_key_exchange.c:387-466 with the exchanges (25-385)
    ("ta_sa_key_exchange", ⟨[ret, cl, call (optional keyUnwrapSub), chk, call (optional keyUnwrapSub), chk, call (optional keyImportSub),
      call (optional keyImportSub), call (optional keyImportSub), call (optional keyRemoveSub), call (optional keyRemoveSub),
      call (optional keyRemoveSub)], [.client]⟩),
    -- ta_sa_key_export.c:25-70
    ("ta_sa_key_export", ⟨[ret, cl, call keyExportSub], [.client]⟩),
    -- ta_sa_key_generate.c:284-356
    ("ta_sa_key_generate", ⟨[ret, cl, chk, call keyImportSub], [.client]⟩),
    -- ta_sa_key_get_public.c:120-191
    ("ta_sa_key_get_public", ⟨[ret, cl, call keyUnwrapSub, chk, chk], [.client]⟩),
    -- ta_sa_key_header.c:25-64
    ("ta_sa_key_header", ⟨[ret, cl, call keyHeaderSub], [.client]⟩),
    -- ta_sa_key_import.c:527-623
    ("ta_sa_key_import", ⟨[ret, cl, chk, call keyImportSub], [.client]⟩),
    -- ta_sa_key_release.c:24-51
    ("ta_sa_key_release", ⟨[ret, cl, call keyRemoveSub], [.client]⟩),
    -- ta_sa_key_unwrap.c:886-1004
    ("ta_sa_key_unwrap", ⟨[ret, cl, call (optional keyUnwrapSub), chk, call (optional keyImportSub)], [.client]⟩),
    -- ta_sa_process_common_encryption.c:178-225
    ("ta_sa_process_common_encryption",
      ⟨[ret, cl] ++ a.samples.map (Stmt.call verifySampleSub) ++ a.samples.map (Stmt.call processSampleSub), [.client]⟩),
    -- ta_sa_svp_buffer_check.c:26-96
    ("ta_sa_svp_buffer_check", ⟨[ret, cl, sop (.acquire .svp), chk, chk], [.svp, .client]⟩),
    -- ta_sa_svp_buffer_copy.c:23-85
    ("ta_sa_svp_buffer_copy", ⟨[ret, cl, sop (.acquire .out), sop (.acquire .in_), chk], [.in_, .out, .client]⟩),
    -- ta_sa_svp_buffer_create.c:24-62
    ("ta_sa_svp_buffer_create", ⟨[ret, cl, call svpCreateSub], [.client]⟩),
    -- ta_sa_svp_buffer_write.c:23-80
    ("ta_sa_svp_buffer_write", ⟨[ret, cl, sop (.acquire .svp), chk], [.svp, .client]⟩),
    -- ta_sa_svp_key_check.c:29-136
    ("ta_sa_svp_key_check", ⟨[ret, cl, call keyUnwrapSub, chk, chk, chk, chk, chk, sop (.acquireIf .in_), chk, chk], [.in_, .client]⟩) ]

/-- `ta_sa_crypto_cipher_process`, ta_sa_crypto_cipher_process.c:375-549, and `ta_sa_crypto_cipher_process_last`,
ta_sa_crypto_cipher_process_last.c:504-678, which agree in what they acquire.  The two checks that return are lines 429-437 and 556-564. -/
def cipherProcessProg : Prog :=
  ⟨[sop .checkReturn, sop (.acquire .client), sop (.acquire .cipher), sop .check, sop .checkReturn, sop .checkReturn, sop .check, sop .check, sop .check, sop .check,
    sop (.acquireIf .out), sop .check, sop (.acquireIf .in_), sop .check, sop .check], [.in_, .out, .cipher, .client]⟩

/-- ta_sa_svp_buffer_release.c:23-66. -/
def svpBufferReleaseProg (a : CallArgs) : Prog := ⟨[sop .checkReturn, sop (.acquire .client), .call svpReleaseSub a.handle], [.client]⟩

end Sa

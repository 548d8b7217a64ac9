import Verif.Model.KeyHistory
import Verif.Model.KeyMake
import Verif.Model.Kdf
import Verif.Model.Unwrap
import Verif.Model.Exchange
import Verif.Model.Inquiry
import Verif.Model.Typej
import Verif.Model.Provision
import Verif.Model.Asym
import Verif.Model.Cipher
import Verif.Model.WholeCenc

/-!
# The TA as a whole (`taimpl/src/ta_sa_*.c`, `taimpl/src/internal/client_store.c`)

The tables of a session (keys, cipher contexts, MAC contexts, SVP buffers) with the calls on them, by the functions of the other modules, and the table of sessions around them.
Each call brings its outside world with it: time, video outputs, random numbers, what fails, and the memory that it is given addresses of.  Not here:
calls without tables (random numbers, device ID, names and versions).
-/

namespace Sa.Whole

variable {κ ρ π σ τ : Type}

/-- A call of the TA that uses the table of keys and nothing else. -/
inductive Call (κ ρ π : Type) where
  /-- ta_sa_key_generate.c:284-356 -/
  | generate (env : Env) (g : GenEnv) (rights : Rights) (params : Option GenParams)
  /-- ta_sa_key_import.c:32-258 -/
  | «import» (env : Env) (u : UnwrapPrims) (input : Bytes) (format : ImportFormat)
  /-- ta_sa_key_import.c:260-299 -/
  | importExported (env : Env) (input : Bytes)
  /-- ta_sa_key_import.c:301-355 -/
  | importSoc (env : Env) (e : Kc.SocEnv) (input : Bytes) (params : Option Kc.SocParams)
  /-- ta_sa_key_import.c:417-525 -/
  | importTypej (e : Kc.TjEnv) (input : Bytes) (khmac kcipher : Nat)
  /-- ta_sa_key_unwrap.c:886-1004 -/
  | unwrap (env : Env) (u : UnwrapEnv) (t : UnwrapTarget) (params : UnwrapParams) (wrapping : Nat) (input : Bytes)
  /-- ta_sa_key_derive.c:670-777 -/
  | derive (env : Env) (k : KdfEnv) (rights : Rights) (params : KdfParams)
  /-- ta_sa_key_exchange.c:30-114 -/
  | exchangeDh (env : Env) (a : AgreeEnv) (rights : Rights) (key : Nat) (other : Bytes)
  /-- ta_sa_key_exchange.c:116-199 -/
  | exchangeEcdh (env : Env) (a : AgreeEnv) (rights : Rights) (key : Nat) (other : Bytes)
  /-- ta_sa_key_exchange.c:201-385 -/
  | exchangeNetflix (envs : Nat → Env) (k : KdfEnv) (a : AgreeEnv) (rights : Rights) (key : Nat) (other : Bytes) (params : NetflixParams)
  /-- ta_sa_key_export.c:24-60 -/
  | «export» (env : Env) (key : Nat) (mixin : Option Bytes) (out : Option Bytes) (outLength : Nat)
  /-- ta_sa_key_header.c:24-52 -/
  | header (key : Nat)
  /-- ta_sa_key_release.c:24-47 -/
  | release (key : Nat)
  /-- ta_sa_key_get_public.c:122-197 -/
  | getPublic (env : Env) (der : Nat → Nat → Bytes → Option Bytes) (out : Option Bytes) (outLength key : Nat)
  /-- ta_sa_key_digest.c:24-85 -/
  | digest (env : Env) (ok : Bool) (hash : Nat → Bytes → Bytes) (out : Option Bytes) (outLength key digest : Nat)
  /-- ta_sa_crypto_sign.c:361-460 -/
  | sign (l : Asym.Lib κ ρ π) (seed : Nat) (ok : Bool) (env : Env) (params : SignParams) (key : Nat) (msg : Buf) (out : Bool) (outLength : Nat)
  /-- ta.c:375-509 -/
  | provision (v : Prov.Env2) (e : Kc.SocEnv) (c : Prov.Call)

/-- What the caller is told. -/
inductive Reply where
  | made (status : Status) (handle : Nat)
  | three (status : Status) (key ke kh : Nat)
  | exported (status : Status) (outLength : Nat) (out : Option Bytes)
  | header (status : Status) (header : Option Header)
  | answer (a : Answer)
  | signed (r : SignResp)
  | status (status : Status)
  | mac (r : MacResp)
  /-- status, the memory afterwards, the two buffers (with their offsets moved on), the number of bytes and the tag -/
  | processed (status : Status) (mem : Mem) (out : Option RawBuffer) (input : RawBuffer) (bytes : UInt64) (tag : Option Bytes)
  /-- status, the memory afterwards, the buffers of the caller (with their offsets moved on) -/
  | samples (status : Status) (mem : Mem) (bufs : Nat → SaBuffer)
  /-- status and the copies made in SVP memory -/
  | copied (status : Status) (copies : List Memcpy)
  /-- status, address and size of the region that is given back -/
  | region (status : Status) (region : Option (UInt64 × UInt64))
  /-- the call does not return -/
  | waits

/-- A call on the table of keys: the new table and the reply.  `none`: an access out of bounds, or (Netflix exchange and provisioning) a wait for ever within the call. -/
def serveKeys (st : KeyStore) (caller : Uuid) : Call κ ρ π → Option (KeyStore × Reply)
  | .generate env g rights params => (keyGenerate env g st rights params caller).map fun r => (r.1, .made r.2.1 r.2.2)
  | .import env u input format => (keyImport env u st input format caller).map fun r => (r.1, .made r.2.1 r.2.2)
  | .importExported env input => (keyStoreImportExported env st input caller).map fun r => (r.1, .made r.2.1 r.2.2)
  | .importSoc env e input params => (Kc.keyImportSoc env e st input params caller).map fun r => (r.1, .made r.2.1 r.2.2)
  | .importTypej e input khmac kcipher => (Kc.keyImportTypej e st input khmac kcipher caller).map fun r => (r.1, .made r.2.1 r.2.2)
  | .unwrap env u t params wrapping input => (keyUnwrapOp env u st t params wrapping input caller).map fun r => (r.1, .made r.2.1 r.2.2)
  | .derive env k rights params => (keyDerive env k st rights params caller).map fun r => (r.1, .made r.2.1 r.2.2)
  | .exchangeDh env a rights key other => (Sa.exchangeDh env a st rights key other caller).map fun r => (r.1, .made r.2.1 r.2.2)
  | .exchangeEcdh env a rights key other => (Sa.exchangeEcdh env a st rights key other caller).map fun r => (r.1, .made r.2.1 r.2.2)
  | .exchangeNetflix envs k a rights key other params =>
    (Sa.exchangeNetflix envs k a st rights key other params caller).map fun o => (o.store, .three o.status o.key o.ke o.kh)
  | .export env key mixin out outLength =>
    (keyStoreExport env st key mixin out outLength caller).map fun r => (r.store, .exported r.status r.outLength r.out)
  | .header key => some ((keyStoreGetHeader st key caller).1, .header (keyStoreGetHeader st key caller).2.1 (keyStoreGetHeader st key caller).2.2)
  | .release key =>
    match keyStoreRemove st key caller with
    | .returned st s _ => some (st, .status s)
    | .blocks st => some (st, .waits)
  | .getPublic env der out outLength key => (taKeyGetPublic env der st out outLength key caller).map fun r => (r.1, .answer r.2)
  | .digest env ok hash out outLength key digest => (taKeyDigest env ok hash st out outLength key digest caller).map fun r => (r.1, .answer r.2)
  | .sign l seed ok env params key msg out outLength => (Asym.taSign l seed ok env st params key msg out outLength caller).map fun r => (r.1, .signed r.2)
  | .provision v e c => (Prov.provision v e st c caller).map fun r => (r.1, .status r.2)

/-- The tables of a session, `struct client_s`, client_store.c:35-40. -/
structure Tables (σ τ : Type) where
  keys : KeyStore
  ciphers : CipherWorld σ
  macs : MacWorld τ
  svps : SvpStore

/-- `client_init`, client_store.c:93-148, given the memory for the client: four new tables of 256 handles. -/
def newTables (σ τ : Type) : Option (Tables σ τ) :=
  match objectStoreInit WrappedKey 256, cipherNew σ 256, macNew τ 256, objectStoreInit Svp 256 with
  | some k, some c, some m, some s => some ⟨k, c, m, s⟩
  | _, _, _, _ => none

/-- A call in a session. -/
inductive Cmd (κ ρ π : Type) where
  | keys (c : Call κ ρ π)
  /-- ta_sa_crypto_cipher_init.c:874-1025 -/
  | cipherInit (env : Env) (params : InitParams) (mode key : Nat) (ienv : InitEnv)
  /-- ta_sa_crypto_cipher_process.c:375-549, ta_sa_crypto_cipher_process_last.c:504-678 -/
  | cipherProcess (k : ProcKind) (u : UnwrapPrims) (env : RightsEnv) (mem : Mem) (context : Nat) (out : Option RawBuffer) (input : RawBuffer) (bytes : UInt64)
  /-- ta_sa_crypto_cipher_update_iv.c:25-96 -/
  | cipherUpdateIv (context : Nat) (iv : Option Bytes)
  /-- ta_sa_crypto_cipher_release.c:24-51 -/
  | cipherRelease (context : Nat)
  /-- ta_sa_process_common_encryption.c:178-225; `fuel` bounds the rounds of the loop over a pattern -/
  | cenc (env : RightsEnv) (fuel : Nat) (mem : Mem) (bufs : Nat → SaBuffer) (samples : List Sample)
  /-- ta_sa_crypto_mac_init.c:27-245 -/
  | macInit (env : Env) (alg : Nat) (digest : Option Nat) (key : Nat) (allocOk : Bool)
  /-- ta_sa_crypto_mac_process.c:24-100 -/
  | macProcess (context : Nat) (input : Option Bytes)
  /-- ta_sa_crypto_mac_process_key.c:25-117 -/
  | macProcessKey (env : Env) (context key : Nat)
  /-- ta_sa_crypto_mac_compute.c:27-137 -/
  | macCompute (context : Nat) (out : Option Nat)
  /-- ta_sa_crypto_mac_release.c:24-51 -/
  | macRelease (context : Nat)
  /-- ta_sa_svp_buffer_create.c:24-62 -/
  | svpCreate (svpMemory size : UInt64)
  /-- ta_sa_svp_buffer_write.c:23-80 -/
  | svpWrite (out : Nat) (input inLength : UInt64) (offsets : List SvpOffset)
  /-- ta_sa_svp_buffer_copy.c:23-85 -/
  | svpCopy (out input : Nat) (offsets : List SvpOffset)
  /-- ta_sa_svp_buffer_check.c:26-96 -/
  | svpCheck (e : CheckEnv) (svp : Nat) (offset length : UInt64) (digest : Nat) (hash : Option Bytes) (hashLength : UInt64)
  /-- ta_sa_svp_key_check.c:29-136 -/
  | svpKeyCheck (env : Env) (e : CheckEnv) (key : Nat) (input : Option CheckBuffer) (bytes : UInt64) (expected : Option Bytes)
  /-- ta_sa_svp_buffer_release.c:23-66 -/
  | svpRelease (svp : Nat)

/-- The primitives of the device for contexts. -/
structure Device (σ τ : Type) where
  cipher : CipherPrim σ
  mac : MacPrim τ

/-- One call in a session whose tables are `t`: the key of a handle comes from the table of keys (ta_sa_crypto_cipher_init.c:922, ta_sa_crypto_mac_init.c:60,145,
ta_sa_crypto_mac_process_key.c:57), the SVP buffers from the table of SVP buffers.  `none`: undefined behaviour, or a wait for ever within the call. -/
def serve (d : Device σ τ) (t : Tables σ τ) (caller : Uuid) : Cmd κ ρ π → Option (Tables σ τ × Reply)
  | .keys c => (serveKeys t.keys caller c).map fun r => ({ t with keys := r.1 }, r.2)
  | .cipherInit env params mode key ienv =>
    match keyStoreUnwrap env t.keys key caller with
    | none => none
    | some (ks, s, k) => (Sa.cipherInit d.cipher t.ciphers params mode (s, k) ienv caller).map fun r => ({ t with keys := ks, ciphers := r.1 }, .made r.2.1 r.2.2)
  | .cipherProcess k u env mem context out input bytes =>
    (Sa.cipherProcess k d.cipher u env t.ciphers t.svps mem context out input bytes caller).map fun r =>
      ({ t with ciphers := r.world, svps := r.svp }, .processed r.status r.mem r.out r.input r.bytes r.tag)
  | .cipherUpdateIv context iv => (Sa.cipherUpdateIv d.cipher t.ciphers context iv caller).map fun r => ({ t with ciphers := r.1 }, .status r.2)
  | .cipherRelease context =>
    (Sa.cipherRelease t.ciphers context caller).map fun r => ({ t with ciphers := r.1 }, match r.2 with | some s => .status s | none => .waits)
  | .cenc env fuel mem bufs samples =>
    (cencCall d.cipher env fuel t.ciphers t.svps mem bufs samples caller).map fun r => ({ t with ciphers := r.world, svps := r.svp }, .samples r.status r.mem r.bufs)
  | .macInit env alg digest key allocOk =>
    match keyStoreUnwrap env t.keys key caller with
    | none => none
    | some (ks, s, k) =>
      let r := Sa.macInit d.mac t.macs alg digest (s, k) env.rights allocOk caller
      some ({ t with keys := ks, macs := r.1 }, .mac r.2)
  | .macProcess context input => (Sa.macProcess d.mac t.macs context input caller).map fun r => ({ t with macs := r.1 }, .mac r.2)
  | .macProcessKey env context key =>
    match keyStoreUnwrap env t.keys key caller with
    | none => none
    | some (ks, s, k) => (Sa.macProcessKey d.mac t.macs context (s, k) caller).map fun r => ({ t with keys := ks, macs := r.1 }, .mac r.2)
  | .macCompute context out => (Sa.macCompute d.mac t.macs context out caller).map fun r => ({ t with macs := r.1 }, .mac r.2)
  | .macRelease context => (Sa.macRelease t.macs context caller).map fun r => ({ t with macs := r.1 }, .mac r.2)
  | .svpCreate svpMemory size =>
    let r := svpStoreCreate t.svps svpMemory size caller
    some ({ t with svps := r.1 }, .made r.2.1 r.2.2)
  | .svpWrite out input inLength offsets =>
    let r := taSvpBufferWrite t.svps out input inLength offsets caller
    some ({ t with svps := r.1 }, .copied r.2.1 r.2.2)
  | .svpCopy out input offsets =>
    let r := taSvpBufferCopy t.svps out input offsets caller
    some ({ t with svps := r.1 }, .copied r.2.1 r.2.2)
  | .svpCheck e svp offset length digest hash hashLength =>
    (svpBufferCheck e t.svps svp offset length digest hash hashLength caller).map fun r => ({ t with svps := r.1 }, .status r.2)
  | .svpKeyCheck env e key input bytes expected =>
    (taSvpKeyCheck env e t.keys t.svps key input bytes expected caller).map fun r => ({ t with keys := r.1, svps := r.2.1 }, .status r.2.2)
  | .svpRelease svp =>
    match svpStoreRelease t.svps svp caller with
    | .returned sv s r => some ({ t with svps := sv }, .region s r)
    | .blocks sv => some ({ t with svps := sv }, .waits)

/-- The TA: the table of sessions (client_store.c:182-217) and the memory in which their tables are. -/
structure Ta (σ τ : Type) where
  clients : ObjectStore Nat
  heap : Nat → Option (Tables σ τ)

/-- `client_store_global`, client_store.c:182-217: no session, 256 handles. -/
def start (σ τ : Type) : Option (Ta σ τ) := (objectStoreInit Nat 256).map fun st => ⟨st, fun _ => none⟩

/-- What a TA or the application (`caller`, as the operating system tells) asks for.  `ptr` is the address that the allocator gives. -/
inductive Request (κ ρ π : Type) where
  | open (caller : Uuid) (ptr : Nat)
  | close (session : Nat) (caller : Uuid)
  | call (session : Nat) (caller : Uuid) (cmd : Cmd κ ρ π)

/-- The caller of a request. -/
def Request.caller : Request κ ρ π → Uuid
  | .open u _ => u
  | .close _ u => u
  | .call _ u _ => u

/-- What the caller is told. -/
inductive Told where
  | opened (status : Status) (session : Nat)
  | closed (status : Status)
  /-- `client_store_acquire` failed -/
  | refused (status : Status)
  | reply (r : Reply)
  | waits

/-- One request.
* open: ta.c:2142-2170, ta_sa_init.c:24-53, `client_store_add`, client_store.c:219-262 (an address in use is never returned by the allocator; the model treats it like a failed allocation)
* close: ta.c:2172-2190, ta_sa_close.c:24-50, `client_store_remove`, client_store.c:264-290; `client_free`, client_store.c:78-91
* call: `client_store_acquire`, the call, `client_store_release`, client_store.c:292-357, the frame of every `ta_sa_*` function.
`none`: undefined behaviour, or a wait for ever within the call. -/
def handle (d : Device σ τ) (w : Ta σ τ) : Request κ ρ π → Option (Ta σ τ × Told)
  | .open caller ptr =>
    if (w.heap ptr).isSome then some (w, .opened .INTERNAL_ERROR SLOT_INVALID)
    else match newTables σ τ with
      | none => some (w, .opened .INTERNAL_ERROR SLOT_INVALID)
      | some t =>
        match objectStoreAdd w.clients ptr caller with
        | (st, .OK, slot) => some (⟨st, fun p => if p = ptr then some t else w.heap p⟩, .opened .OK slot)
        | (st, s, slot) => some (⟨st, w.heap⟩, .opened s slot)
  | .close session caller =>
    match objectStoreRemove w.clients session caller with
    | .returned st s none => some (⟨st, w.heap⟩, .closed s)
    | .returned st s (some ptr) => some (⟨st, fun p => if p = ptr then none else w.heap p⟩, .closed s)
    | .blocks st => some (⟨st, w.heap⟩, .waits)
  | .call session caller cmd =>
    match objectStoreAcquire w.clients session caller with
    | (st, .OK, some ptr) =>
      match w.heap ptr with
      | none => none
      | some t =>
        match serve d t caller cmd with
        | none => none
        | some (t, r) => some (⟨(objectStoreRelease st session ptr caller).1, fun p => if p = ptr then some t else w.heap p⟩, .reply r)
    | (st, s, _) => some (⟨st, w.heap⟩, .refused s)

/-- Requests one after the other, with what the callers are told. -/
def handleAll (d : Device σ τ) (w : Ta σ τ) : List (Request κ ρ π) → Option (Ta σ τ × List (Uuid × Told))
  | [] => some (w, [])
  | r :: rs =>
    match handle d w r with
    | none => none
    | some (w1, told) =>
      match handleAll d w1 rs with
      | none => none
      | some (w2, tolds) => some (w2, (r.caller, told) :: tolds)

end Sa.Whole

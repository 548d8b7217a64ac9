import Verif.Model.StoreHistory

/-!
# Clients and sessions (`taimpl/src/internal/client_store.c`, `ta.c: ta_open_session_handler, ta_close_session_handler`)

A session is a client object in the global client table.  Client objects live in a heap of addresses, each holding four handle
tables.  Objects in those tables are opaque.  `global_shutdown` (process exit) is not modelled: histories end before it.
-/

namespace Sa

variable {α : Type} [DecidableEq α]

/-- `struct client_s`, client_store.c:35-40. -/
structure Client (α : Type) where
  keyStore : ObjectStore α
  cipherStore : ObjectStore α
  macStore : ObjectStore α
  svpStore : ObjectStore α

/-- `client_init`, client_store.c:93-148, given the memory for the client: four new tables of 256 handles. -/
def clientInit (α : Type) : Option (Client α) :=
  match objectStoreInit α 256, objectStoreInit α 256, objectStoreInit α 256, objectStoreInit α 256 with
  | some k, some c, some m, some s => some ⟨k, c, m, s⟩
  | _, _, _, _ => none

/-- A call on one of the four tables reached through `client_get_key_store` … `client_get_svp_store`, client_store.c:42-76. -/
inductive ClientOp (α : Type) where
  | key (op : StoreOp α)
  | cipher (op : StoreOp α)
  | mac (op : StoreOp α)
  | svp (op : StoreOp α)

/-- Execute one table call of a client (client_store.c:42-76 select the table). -/
def clientStep (c : Client α) : ClientOp α → Client α × StoreResp α
  | .key op => let r := storeStep c.keyStore op; ({ c with keyStore := r.1 }, r.2)
  | .cipher op => let r := storeStep c.cipherStore op; ({ c with cipherStore := r.1 }, r.2)
  | .mac op => let r := storeStep c.macStore op; ({ c with macStore := r.1 }, r.2)
  | .svp op => let r := storeStep c.svpStore op; ({ c with svpStore := r.1 }, r.2)

/-- The table calls one TA function makes while it holds the client. -/
def clientSteps (c : Client α) : List (ClientOp α) → Client α × List (StoreResp α)
  | [] => (c, [])
  | op :: ops =>
    let r := clientStep c op
    let rs := clientSteps r.1 ops
    (rs.1, r.2 :: rs.2)

/-- The TA: client table (client_store.c:182-217) and heap of clients. -/
structure World (α : Type) where
  clients : ObjectStore Nat
  heap : Nat → Option (Client α)

/-- `client_store_global`, client_store.c:182-217: empty table with 256 handles. -/
def worldInit (α : Type) : Option (World α) := (objectStoreInit Nat 256).map fun st => ⟨st, fun _ => none⟩

/-- A call on the TA.  `ptr` is the address returned by the allocator. -/
inductive WOp (α : Type) where
  | open (caller : Uuid) (ptr : Nat)
  | close (session : Nat) (caller : Uuid)
  | call (session : Nat) (caller : Uuid) (ops : List (ClientOp α))

inductive WResp (α : Type) where
  | opened (status : Status) (session : Nat)
  | closed (status : Status)
  | called (status : Status) (resps : List (StoreResp α))
  /-- the call does not return -/
  | waits

/-- One call on the TA.
* open: ta.c:2142-2170, `client_store_add`, client_store.c:219-262 (an address in use is never returned by the allocator; the model
  treats it like a failed allocation)
* close: ta.c:2172-2190, `client_store_remove`, client_store.c:264-290; `client_free`, client_store.c:78-91
* call: `client_store_acquire`, the table calls, `client_store_release`, client_store.c:292-357, the frame of every
  `ta_sa_*` function.
`none`: use of a freed client. -/
def wstep (w : World α) : WOp α → Option (World α × WResp α)
  | .open caller ptr =>
    if (w.heap ptr).isSome then some (w, .opened .INTERNAL_ERROR SLOT_INVALID)
    else match clientInit α with
      | none => some (w, .opened .INTERNAL_ERROR SLOT_INVALID)
      | some c =>
        match objectStoreAdd w.clients ptr caller with
        | (st, .OK, slot) => some (⟨st, fun p => if p = ptr then some c else w.heap p⟩, .opened .OK slot)
        | (st, s, slot) => some (⟨st, w.heap⟩, .opened s slot)
  | .close session caller =>
    match objectStoreRemove w.clients session caller with
    | .returned st s none => some (⟨st, w.heap⟩, .closed s)
    | .returned st s (some ptr) => some (⟨st, fun p => if p = ptr then none else w.heap p⟩, .closed s)
    | .blocks st => some (⟨st, w.heap⟩, .waits)
  | .call session caller ops =>
    match objectStoreAcquire w.clients session caller with
    | (st, .OK, some ptr) =>
      match w.heap ptr with
      | none => none
      | some c =>
        let r := clientSteps c ops
        some (⟨(objectStoreRelease st session ptr caller).1, fun p => if p = ptr then some r.1 else w.heap p⟩,
          .called .OK r.2)
    | (st, s, _) => some (⟨st, w.heap⟩, .called s [])

/-- A history with its responses. -/
def wrun (w : World α) : List (WOp α) → Option (World α × List (WOp α × WResp α))
  | [] => some (w, [])
  | op :: ops =>
    match wstep w op with
    | none => none
    | some r => match wrun r.1 ops with
      | none => none
      | some rs => some (rs.1, (op, r.2) :: rs.2)

end Sa

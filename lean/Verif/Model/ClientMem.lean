/-!
# Memory of the client library

The functions of clientimpl/src/sa_*.c have one shape: a block `do { … } while (false)` that allocates a command and parameters, checks arguments and invokes
the TA, and behind it the releases.  Here only allocations, releases and the ways out of the block are modelled: every condition may hold or not, every
allocation may fail or not, independently (more executions than the code has).  The branches of `switch` are separate paths.  `ta_free_shared_memory`
(ta_client.c:96-99) does nothing for NULL, as `free` does.
-/

namespace Sa.Cl.Mem

/-- The kind of an allocation. -/
inductive Heap where
  | malloc
  | shm
  deriving DecidableEq

/-- The value of a pointer variable of the library. -/
inductive Ptr where
  | null
  | own (h : Heap) (id : Nat)     -- memory allocated by this call
  | app                           -- memory of the application
  deriving DecidableEq

/-- What a step in the block does; `v` is a variable (0 the command, 1 to 3 the parameters, 4 an array). -/
inductive Step where
  | command (v : Nat)             -- CREATE_COMMAND, ta_client.h:53-60, 96-103
  | param (v : Nat)               -- CREATE_PARAM, CREATE_OUT_PARAM, ta_client.h:65-81, 109-113
  | maybe (v : Nat)               -- the same if the argument is not NULL
  | array (v : Nat)               -- malloc; `break` if it fails
  | check                         -- a condition with `break` or `continue`
  | invoke                        -- ta_invoke_command; `break` if it fails
  | invokeReturn                  -- ta_invoke_command; `return` if it fails
  deriving DecidableEq

/-- What is done behind the block. -/
inductive Rel where
  | command (v : Nat)             -- RELEASE_COMMAND, ta_client.h:62-63, 105-107
  | param (v : Nat)               -- RELEASE_PARAM, ta_client.h:86-87, 120-121
  | array (v : Nat)               -- `if (v != NULL) free(v)`
  | use (v : Nat)                 -- `v->…`
  deriving DecidableEq

/-- The state of a call: variables, live memory, number of allocations, and whether something undefined was done. -/
structure St where
  var : Nat → Ptr
  live : List (Heap × Nat)
  next : Nat
  fault : Bool

def St.init : St := ⟨fun _ => .null, [], 0, false⟩

def St.set (s : St) (v : Nat) (p : Ptr) : St := { s with var := fun x => if x = v then p else s.var x }

/-- Allocation of memory for variable `v`. -/
def St.alloc (s : St) (h : Heap) (v : Nat) : St := { s.set v (.own h s.next) with live := (h, s.next) :: s.live, next := s.next + 1 }

/-- `free` or `ta_free_shared_memory`. -/
def St.free (s : St) (h : Heap) (p : Ptr) : St :=
  match p with
  | .null => s
  | .own k i => if k = h ∧ (k, i) ∈ s.live then { s with live := s.live.erase (k, i) } else { s with fault := true }
  | .app => { s with fault := true }

/-- How a step ends. -/
inductive Flow where
  | go
  | leave
  | ret
  deriving DecidableEq

/-- The memory of `CREATE_COMMAND`. -/
def heapOf (shared : Bool) : Heap := if shared then .shm else .malloc

/-- One step.  `ok`: whether the allocation or the invocation succeeds or the condition holds; `yes`: whether an argument is not NULL. -/
def step (shared ok yes : Bool) (a : Step) (s : St) : Flow × St :=
  match a with
  | .command v => if ok then (.go, s.alloc (heapOf shared) v) else (.leave, s.set v .null)
  | .param v => param v
  | .maybe v => if yes then param v else (.go, s)
  | .array v => if ok then (.go, s.alloc .malloc v) else (.leave, s.set v .null)
  | .check => (if ok then .go else .leave, s)
  | .invoke => (if ok then .go else .leave, s)
  | .invokeReturn => (if ok then .go else .ret, s)
where
  param (v : Nat) : Flow × St :=
    if shared then (if ok then (.go, s.alloc .shm v) else (.leave, s.set v .null)) else (.go, s.set v .app)

/-- The block.  `d`: the decisions of each step. -/
def block (shared : Bool) : List Step → (Nat → Bool × Bool) → St → Bool × St
  | [], _, s => (false, s)
  | a :: l, d, s =>
    let r := step shared (d 0).1 (d 0).2 a s
    match r.1 with
    | .go => block shared l (fun n => d (n + 1)) r.2
    | .leave => (false, r.2)
    | .ret => (true, r.2)

/-- What is done behind the block. -/
def release (shared : Bool) (a : Rel) (s : St) : St :=
  match a with
  | .command v => s.free (heapOf shared) (s.var v)
  | .param v => if shared then s.free .shm (s.var v) else s
  | .array v => s.free .malloc (s.var v)
  | .use v => if s.var v = .null then { s with fault := true } else s

/-- A call on one path: the steps of the block, then the releases. -/
structure Path where
  steps : List Step
  rels : List Rel

def call (shared : Bool) (p : Path) (d : Nat → Bool × Bool) : St :=
  let r := block shared p.steps d St.init
  if r.1 then r.2 else p.rels.foldl (fun s a => release shared a s) r.2

/-- A function: its name and its paths. -/
structure Fn where
  name : String
  paths : List Path

/-- Functions with a command and at most the parameters 1 to 3, all of them given by `CREATE_PARAM`. -/
def simple (name : String) (steps : List Step) (params : List Nat) : Fn := ⟨name, [⟨steps, .command 0 :: params.map .param⟩]⟩

/-- clientimpl/src/sa_*.c: the parts behind `client_session`. -/
def functions : List Fn := [
  simple "sa_get_version" [.command 0, .invoke] [],                                                            -- sa_get_version.c:40-61
  simple "sa_get_name" [.command 0, .maybe 1, .invoke] [1],                                                   -- sa_get_name.c:43-76
  ⟨"sa_get_device_id", [⟨[.command 0, .invokeReturn], [.command 0]⟩]⟩,                                        -- sa_get_device_id.c:40-62
  simple "sa_get_ta_uuid" [.command 0, .invoke] [],                                                            -- sa_get_ta_uuid.c:40-61
  ⟨"sa_key_generate", [                                                                                       -- sa_key_generate.c:56-122
    ⟨[.command 0, .check, .invoke], [.command 0, .param 1, .param 2]⟩,
    ⟨[.command 0, .check, .param 1, .param 2, .invoke], [.command 0, .param 1, .param 2]⟩]⟩,
  simple "sa_key_export" [.command 0, .maybe 1, .maybe 2, .invoke] [1, 2],                                    -- sa_key_export.c:57-106
  ⟨"sa_key_import", [                                                                                         -- sa_key_import.c:52-188
    ⟨[.command 0, .maybe 1, .check, .check, .param 2, .invoke], [.command 0, .param 1, .param 2]⟩,
    ⟨[.command 0, .maybe 1, .check, .invoke], [.command 0, .param 1, .param 2]⟩,
    ⟨[.command 0, .maybe 1, .maybe 2, .invoke], [.command 0, .param 1, .param 2]⟩]⟩,
  ⟨"sa_key_provision_ta", [                                                                                   -- sa_key_provision.c:47-110
    ⟨[.command 0, .maybe 1, .maybe 2, .param 3, .invoke], [.use 0, .command 0, .param 1, .param 2, .param 3]⟩]⟩,
  ⟨"sa_key_unwrap", [                                                                                         -- sa_key_unwrap.c:62-416
    ⟨[.command 0, .check, .maybe 1, .check, .invoke], [.command 0, .param 1, .command 2, .param 3]⟩,
    ⟨[.command 0, .check, .maybe 1, .check, .check, .check, .command 2, .invoke], [.command 0, .param 1, .command 2, .param 3]⟩,
    ⟨[.command 0, .check, .maybe 1, .check, .check, .check, .check, .check, .check, .command 2, .maybe 3, .invoke],
      [.command 0, .param 1, .command 2, .param 3]⟩]⟩,
  simple "sa_key_get_public" [.command 0, .maybe 1, .invoke] [1],                                             -- sa_key_get_public.c:44-81
  ⟨"sa_key_derive", [                                                                                         -- sa_key_derive.c:52-338
    ⟨[.command 0, .check, .invoke], [.command 0, .command 1, .param 2, .param 3]⟩,
    ⟨[.command 0, .check, .check, .check, .check, .check, .check, .check, .check, .check, .command 1, .invoke],
      [.command 0, .command 1, .param 2, .param 3]⟩,
    ⟨[.command 0, .check, .check, .check, .command 1, .maybe 2, .maybe 3, .invoke], [.command 0, .command 1, .param 2, .param 3]⟩]⟩,
  ⟨"sa_key_exchange", [                                                                                       -- sa_key_exchange.c:59-146
    ⟨[.command 0, .param 1, .invoke], [.command 0, .param 1, .command 2]⟩,
    ⟨[.command 0, .param 1, .check, .check, .check, .check, .check, .command 2, .invoke], [.command 0, .param 1, .command 2]⟩]⟩,
  simple "sa_key_release" [.command 0, .invoke] [],                                                           -- sa_key_release.c:35-55
  simple "sa_key_header" [.command 0, .param 1, .invoke] [],                                                  -- sa_key_header.c:45-82
  simple "sa_key_digest" [.command 0, .maybe 1, .invoke] [1],                                                 -- sa_key_digest.c:45-83
  simple "sa_crypto_random" [.command 0, .param 1, .invoke] [1],                                              -- sa_crypto_random.c:43-69
  ⟨"sa_crypto_cipher_init", [                                                                                 -- sa_crypto_cipher_init.c:47-274
    ⟨[.command 0, .check, .check, .check, .invoke], [.command 0, .param 1, .param 2]⟩,
    ⟨[.command 0, .check, .check, .check, .param 1, .maybe 2, .invoke], [.command 0, .param 1, .param 2]⟩,
    ⟨[.command 0, .check, .check, .command 1, .maybe 2, .invoke], [.command 0, .command 1, .param 2]⟩]⟩,
  simple "sa_crypto_cipher_update_iv" [.command 0, .param 1, .invoke] [1],                                    -- sa_crypto_cipher_update_iv.c:44-69
  simple "sa_crypto_cipher_process" [.command 0, .check, .check, .maybe 1, .check, .check, .param 2, .invoke] [1, 2],      -- sa_crypto_cipher_process.c:51-153
  simple "sa_crypto_cipher_process_last" [.command 0, .check, .check, .maybe 1, .check, .check, .param 2, .check, .maybe 3, .invoke] [1, 2, 3],  -- 53-178
  simple "sa_crypto_cipher_release" [.command 0, .invoke] [],                                                 -- sa_crypto_cipher_release.c:35-55
  simple "sa_crypto_mac_init" [.command 0, .check, .invoke] [],                                               -- sa_crypto_mac_init.c:44-81
  simple "sa_crypto_mac_process" [.command 0, .maybe 1, .invoke] [1],                                         -- sa_crypto_mac_process.c:44-76
  simple "sa_crypto_mac_process_key" [.command 0, .invoke] [],                                                -- sa_crypto_mac_process_key.c:37-58
  simple "sa_crypto_mac_compute" [.command 0, .maybe 1, .invoke] [1],                                         -- sa_crypto_mac_compute.c:44-81
  simple "sa_crypto_mac_release" [.command 0, .invoke] [],                                                    -- sa_crypto_mac_release.c:35-55
  simple "sa_crypto_sign" [.command 0, .check, .maybe 1, .maybe 2, .invoke] [1, 2],                           -- sa_crypto_sign.c:54-145
  simple "sa_svp_supported" [.command 0, .invoke] [],                                                         -- sa_svp_supported.c:35-54
  simple "sa_svp_buffer_create" [.command 0, .invoke] [],                                                     -- sa_svp_buffer_create.c:47-71
  simple "sa_svp_buffer_release" [.command 0, .invoke] [],                                                    -- sa_svp_buffer_release.c:48-71
  ⟨"sa_svp_buffer_write", [                                                                                   -- sa_svp_buffer_write.c:55-97
    ⟨[.command 0, .param 1, .array 4, .param 2, .invoke], [.array 4, .command 0, .param 1, .param 2]⟩]⟩,
  ⟨"sa_svp_buffer_copy", [                                                                                    -- sa_svp_buffer_copy.c:47-88
    ⟨[.command 0, .array 4, .param 1, .invoke], [.array 4, .command 0, .param 1]⟩]⟩,
  simple "sa_svp_key_check" [.command 0, .check, .param 1, .param 2, .invoke] [1, 2],                         -- sa_svp_key_check.c:52-105
  simple "sa_svp_buffer_check" [.command 0, .param 1, .invoke] [1]]                                           -- sa_svp_buffer_check.c:47-75

/-! ## The loop of `sa_process_common_encryption`, sa_process_common_encryption.c:51-208 -/

/-- The body of the loop up to the invocation: variables 1 to 3 and the array 4. -/
def cencSteps : List Step := [.check, .check, .check, .check, .check, .array 4, .param 1, .check, .check, .param 2, .check, .check, .param 3, .invoke]

/-- One round.  `continue` of the macros and `break` of the checks are told apart: `leave` of a `param` step goes on with the next round.  At the end of a
round the memory is released and the variables are reset, lines 187-197. -/
def cencRound (shared : Bool) : List Step → (Nat → Bool × Bool) → St → Bool × St
  | [], _, s =>
    let s := (s.free .malloc (s.var 4)).set 4 .null
    let rel (s : St) (v : Nat) : St := (release shared (.param v) s).set v .null
    (true, rel (rel (rel s 1) 2) 3)
  | a :: l, d, s =>
    let r := step shared (d 0).1 (d 0).2 a s
    match r.1 with
    | .go => cencRound shared l (fun n => d (n + 1)) r.2
    | _ => (match a with | .param _ => true | _ => false, r.2)

/-- `n` rounds at most. -/
def cencLoop (shared : Bool) : Nat → (Nat → Nat → Bool × Bool) → St → St
  | 0, _, s => s
  | n + 1, d, s =>
    let r := cencRound shared cencSteps (d 0) s
    if r.1 then cencLoop shared n (fun k => d (k + 1)) r.2 else r.2

/-- The whole function, for `n` samples; `first`: whether the command can be allocated. -/
def cencCall (shared first : Bool) (n : Nat) (d : Nat → Nat → Bool × Bool) : St :=
  let r := step shared first true (.command 0) St.init
  let s := if r.1 = .go then cencLoop shared n d r.2 else r.2
  [Rel.array 4, .command 0, .param 1, .param 2, .param 3].foldl (fun s a => release shared a s) s

end Sa.Cl.Mem

import Verif.Model.Basic

/-!
# The command dispatcher of the TA, `taimpl/src/internal/ta.c`

The untrusted side sends a command identifier and four parameters, each with a type word, a memory reference (or NULL) and a size.  The dispatcher copies
the command structure (parameter 0), checks the parameters and calls the API function.  The model lists, in order, the memory accesses of the dispatcher
itself and the (pointer, length) pairs it hands to the API functions.

Simplifications: the API functions are not part of this model (they are modelled in the other files); accesses to local variables and to the fields of the
cached command structure are in bounds once the structure has its size (`Ev.cmd`); LP64 layout of the structures; `transport_authenticate_caller`
succeeds; the session context is not NULL.
-/

namespace Sa.Ta

/-- `ta_param`, sa_ta_types.h:104-107, with its type word.  `mem` is the memory behind `mem_ref`, `none` for NULL. -/
structure TaParam where
  ty : Nat
  mem : Option Bytes
  size : Nat

/-- What the transport guarantees: the size is a 64-bit number and is the size of the memory. -/
def TaParam.WF (q : TaParam) : Prop := q.size < 2 ^ 64 ∧ ∀ b, q.mem = some b → b.length = q.size

abbrev Params := Fin 4 → TaParam

/-- ta.c:28-29 -/
def notNull (q : TaParam) : Bool := q.ty != 0 || q.mem.isSome || q.size != 0
/-- ta.c:30-31 -/
def isNull (q : TaParam) : Bool := q.ty == 0 || q.mem.isNone || q.size == 0
/-- ta.c:32-33; TEEC_MEMREF_TEMP_INPUT 5, TEEC_MEMREF_PARTIAL_INPUT 13 (sa_ta_types.h:89-99) -/
def notIn (q : TaParam) : Bool := q.ty != 5 && q.ty != 13
/-- ta.c:34-35 -/
def isIn (q : TaParam) : Bool := q.ty == 5 || q.ty == 13
/-- ta.c:36-37 -/
def notOut (q : TaParam) : Bool := q.ty != 6 && q.ty != 14
/-- ta.c:38-39 -/
def notInOut (q : TaParam) : Bool := q.ty != 7 && q.ty != 15
/-- ta.c:40-41 -/
def isInOut (q : TaParam) : Bool := q.ty == 7 || q.ty == 15

/-- Memory accesses and other events. -/
inductive Ev where
  /-- the fields of the command structure, of size `n`, are accessed in the cached copy -/
  | cmd (n : Nat)
  /-- `memcpy(&local, params[i].mem_ref, n)` into a variable of size `dst` -/
  | copyIn (i : Fin 4) (n dst : Nat)
  /-- `memcpy(params[i].mem_ref, &local, n)` from a variable of size `src` -/
  | copyOut (i : Fin 4) (n src : Nat)
  /-- `*(T*) params[i].mem_ref` is read, `sizeof(T) = n` -/
  | deref (i : Fin 4) (n : Nat)
  /-- `*(T*) params[i].mem_ref` is written -/
  | store (i : Fin 4) (n : Nat)
  /-- `for (j = 0; j < count; j++) local[j] = params[i].mem_ref[j]`, elements of `elt` bytes, `local` has `alloc` bytes -/
  | table (i : Fin 4) (count elt alloc : Nat)
  /-- `params[i].mem_ref` is handed to the API function with a length of `n` bytes; `w`: in order to be written -/
  | pass (i : Fin 4) (n : Nat) (w : Bool)
  /-- a pointer found in the memory of a parameter is handed to the API function -/
  | foreign
  /-- the API function is called -/
  | call (name : String)
  | ret (s : Status)

/-- Little endian field of the command structure. -/
def fld (cmd : Bytes) (off n : Nat) : Nat := ((cmd.drop off).take n).foldr (fun b acc => b.toNat + 256 * acc) 0

/-- `if (x->api_version != API_VERSION) return SA_STATUS_INVALID_PARAMETER;` -/
def version (cmd : Bytes) (size : Nat) (k : List Ev) : List Ev :=
  .cmd size :: if fld cmd 0 1 ≠ 1 then [.ret .INVALID_PARAMETER] else k

/-- `return SA_STATUS_INVALID_PARAMETER;` -/
def bad : List Ev := [.ret .INVALID_PARAMETER]
/-- `return SA_STATUS_NULL_PARAMETER;` -/
def nul : List Ev := [.ret .NULL_PARAMETER]

/-- ta_invoke_get_version, ta.c:47-68, and get_device_id 104-125, get_ta_uuid 127-148, crypto_mac_init 1334-1367, svp_buffer_create 1562-1585,
svp_buffer_release 1587-1614: INOUT structure of the given size, no other parameters. -/
def invokeOnly (name : String) (size : Nat) (cmd : Bytes) (p : Params) : List Ev :=
  if notInOut (p 0) || (p 0).size != size || notNull (p 1) || notNull (p 2) || notNull (p 3) then bad
  else version cmd size [.call name]

/-- ta_invoke_key_release, ta.c:931-952, crypto_cipher_release 1310-1332, crypto_mac_process_key 1394-1418, crypto_mac_release 1453-1475,
svp_supported 1541-1560: the same with an IN structure. -/
def invokeOnlyIn (name : String) (size : Nat) (cmd : Bytes) (p : Params) : List Ev :=
  if notIn (p 0) || (p 0).size != size || notNull (p 1) || notNull (p 2) || notNull (p 3) then bad
  else version cmd size [.call name]

/-- ta_invoke_get_name, ta.c:70-102, key_get_public 703-735, key_digest 995-1025, crypto_mac_compute 1420-1451: an output buffer in parameter 1 whose
length is also at offset 8 of the structure. -/
def invokeOut (name : String) (size : Nat) (cmd : Bytes) (p : Params) : List Ev :=
  if notInOut (p 0) || (p 0).size != size || (notOut (p 1) && notNull (p 1)) || notNull (p 2) || notNull (p 3) then bad
  else .cmd size :: if notNull (p 1) && (p 1).size != fld cmd 8 8 then bad
  else version cmd size [.pass 1 (fld cmd 8 8) true, .call name]

/-- ta_invoke_key_generate, ta.c:150-210. -/
def invokeKeyGenerate (cmd : Bytes) (p : Params) : List Ev :=
  if notInOut (p 0) || (p 0).size != 640 || (notIn (p 1) && notNull (p 1)) || (notIn (p 2) && notNull (p 2)) || notNull (p 3) then bad
  else version cmd 640 <|
    if fld cmd 624 4 = 3 then
      if (p 1).mem.isNone || (p 2).mem.isNone then nul
      else [.pass 1 (p 1).size false, .pass 2 (p 2).size false, .call "key_generate"]
    else [.call "key_generate"]

/-- ta_invoke_key_export, ta.c:212-245, and ta_invoke_crypto_sign, 1477-1539: output in parameter 1, input in parameter 2. -/
def invokeOutIn (name : String) (size : Nat) (cmd : Bytes) (p : Params) : List Ev :=
  if notInOut (p 0) || (p 0).size != size || (notOut (p 1) && notNull (p 1)) || (notIn (p 2) && notNull (p 2)) || notNull (p 3) then bad
  else .cmd size :: if notNull (p 1) && (p 1).size != fld cmd 8 8 then bad
  else version cmd size [.pass 1 (fld cmd 8 8) true, .pass 2 (p 2).size false, .call name]

/-- The `sa_rights` of the three formats of clear keys, ta.c:285-332. -/
def importRights (p : Params) (k : List Ev) : List Ev :=
  if notIn (p 2) || (p 2).mem.isNone then nul else if (p 2).size != 608 then bad else .copyIn 2 (p 2).size 608 :: k

/-- ta_invoke_key_import, ta.c:247-373.  Formats: sa_types.h `sa_key_format`. -/
def invokeKeyImport (cmd : Bytes) (p : Params) : List Ev :=
  if notInOut (p 0) || (p 0).size != 24 || notIn (p 1) || (notIn (p 2) && notNull (p 2)) || notNull (p 3) then bad
  else if (p 1).mem.isNone || (p 1).size == 0 then nul
  else version cmd 24 <|
    let call := [.pass 1 (p 1).size false, .call "key_import"]
    match fld cmd 16 4 with
    | 0 => importRights p call                                                          -- SYMMETRIC_BYTES
    | 1 => importRights p call                                                          -- EC_PRIVATE_BYTES
    | 2 => importRights p call                                                          -- RSA_PRIVATE_KEY_INFO
    | 3 => if notNull (p 2) then nul else call                                          -- EXPORTED
    | 4 =>                                                                              -- SOC, 353-365
      if isIn (p 2) then
        if (p 2).mem.isNone || (p 2).size == 0 then nul else .copyIn 2 (p 2).size 624 :: call
      else call
    | 5 =>                                                                              -- TYPEJ, 338-351
      if notIn (p 2) || (p 2).mem.isNone then nul else if (p 2).size != 16 then bad else .copyIn 2 (p 2).size 16 :: call
    | _ => call

/-- ta_invoke_key_provision, ta.c:375-509. -/
def invokeKeyProvision (cmd : Bytes) (p : Params) : List Ev :=
  if notInOut (p 0) || (p 0).size != 24 || notIn (p 1) || (notIn (p 2) && notNull (p 2)) || (notIn (p 3) && notNull (p 3)) then bad
  else if (p 1).mem.isNone || (p 1).size == 0 then nul
  else version cmd 24 <|
    let rest : List Ev :=
      .deref 3 4 ::                                                                     -- line 412
      match (p 3).mem.map (fun b => fld b 0 4) with
      | some 0 => [.deref 1 32, .foreign, .call "key_import"]                           -- WidevineOemProvisioning
      | some 1 => [.deref 1 32, .foreign, .call "key_import"]                           -- PlayReadyProvisioning
      | some 4 => [.deref 1 48, .foreign, .call "key_import", .call "key_release", .foreign, .call "key_import"]  -- NetflixProvisioning
      | _ => [.ret .OK]
    if isIn (p 2) then
      if (p 2).mem.isNone || (p 2).size == 0 then nul else .copyIn 2 (p 2).size 624 :: rest   -- line 408
    else rest

/-- Parameter 2 of an unwrap command: not NULL and of the size of the structure, then copied (ta.c:553-692). -/
def unwrapStruct (p : Params) (size : Nat) (k : List Ev) : List Ev :=
  if (p 2).mem.isNone then nul else if (p 2).size != size then bad else .copyIn 2 (p 2).size size :: k

/-- The same for the algorithms with additional data: parameter 3 is checked before the copy (ta.c:589-611, 635-659). -/
def unwrapStructAad (p : Params) (size : Nat) (k : List Ev) : List Ev :=
  if (p 2).mem.isNone then nul else if (p 2).size != size then bad
  else if (p 3).mem.isNone then nul else .copyIn 2 (p 2).size size :: .pass 3 (p 3).size false :: k

/-- ta_invoke_key_unwrap, ta.c:511-701. -/
def invokeKeyUnwrap (cmd : Bytes) (p : Params) : List Ev :=
  if notInOut (p 0) || (p 0).size != 648 || (notIn (p 1) && notNull (p 1)) || (notIn (p 2) && notNull (p 2)) || (notIn (p 3) && notNull (p 3)) then bad
  else version cmd 648 <|
    let call := [.pass 1 (p 1).size false, .call "key_unwrap"]
    match fld cmd 632 4 with
    | 2 => unwrapStruct p 16 call                                                       -- AES_CBC
    | 3 => unwrapStruct p 16 call                                                       -- AES_CBC_PKCS7
    | 4 => unwrapStruct p 16 call                                                       -- AES_CTR
    | 5 => unwrapStructAad p 48 call                                                    -- AES_GCM
    | 7 => unwrapStruct p 8 (.pass 3 (p 3).size false :: call)                          -- RSA_OAEP
    | 8 => unwrapStruct p 16 (.pass 2 16 false :: call)                                 -- EC_ELGAMAL
    | 9 => unwrapStruct p 40 call                                                       -- CHACHA20
    | 10 => unwrapStructAad p 48 call                                                   -- CHACHA20_POLY1305
    | _ => call

/-- ta_invoke_key_derive, ta.c:737-871: `memcpy(&parameters, params[1].mem_ref, params[1].mem_ref_size)` into structures of 64, 24 and 16 bytes. -/
def invokeKeyDerive (cmd : Bytes) (p : Params) : List Ev :=
  if notInOut (p 0) || (p 0).size != 632 || (notIn (p 1) && notNull (p 1)) || (notIn (p 2) && notNull (p 2)) || (notIn (p 3) && notNull (p 3)) then bad
  else version cmd 632 <|
    let call := [Ev.call "key_derive"]
    let copy (dst : Nat) (k : List Ev) : List Ev := if (p 1).mem.isNone then nul else .copyIn 1 (p 1).size dst :: k
    match fld cmd 624 4 with
    | 0 => copy 64 call                                                                 -- ROOT_KEY_LADDER
    | 1 => copy 24 (.pass 3 (p 3).size false :: .pass 2 (p 2).size false :: call)       -- HKDF
    | 2 => copy 24 (.pass 2 (p 2).size false :: call)                                   -- CONCAT
    | 3 => copy 24 (.pass 2 (p 2).size false :: call)                                   -- ANSI_X963
    | 4 => copy 24 (.pass 2 (p 2).size false :: call)                                   -- CMAC
    | 5 => copy 16 call                                                                 -- NETFLIX
    | 6 => copy 64 call                                                                 -- COMMON_ROOT_KEY_LADDER
    | _ => bad

/-- ta_invoke_key_exchange, ta.c:873-929. -/
def invokeKeyExchange (cmd : Bytes) (p : Params) : List Ev :=
  if notInOut (p 0) || (p 0).size != 640 || notIn (p 1) || (notInOut (p 2) && notNull (p 2)) || notNull (p 3) then bad
  else if (p 1).mem.isNone || (p 1).size == 0 then nul
  else version cmd 640 <|
    if fld cmd 624 4 = 2 then                                                           -- NETFLIX_AUTHENTICATED_DH
      if (p 2).mem.isNone then nul
      else if (p 2).size != 1240 then bad
      else [.copyIn 2 (p 2).size 1240, .pass 1 (p 1).size false, .call "key_exchange", .copyOut 2 (p 2).size 1240]
    else [.pass 1 (p 1).size false, .call "key_exchange"]

/-- ta_invoke_key_header, ta.c:954-993: the header is stored through `params[1].mem_ref`. -/
def invokeKeyHeader (cmd : Bytes) (p : Params) : List Ev :=
  if notInOut (p 0) || (p 0).size != 16 || notOut (p 1) || (p 1).size != 1672 || notNull (p 2) || notNull (p 3) then bad
  else version cmd 16 [.call "key_header", .store 1 1672]

/-- ta_invoke_crypto_random, ta.c:1027-1059. -/
def invokeRandom (cmd : Bytes) (p : Params) : List Ev :=
  if notIn (p 0) || (p 0).size != 1 || notOut (p 1) || notNull (p 2) || notNull (p 3) then bad
  else if (p 1).mem.isNone || (p 1).size == 0 then nul
  else version cmd 1 [.pass 1 (p 1).size true, .call "crypto_random"]

/-- ta_invoke_crypto_cipher_init, ta.c:1061-1187. -/
def invokeCipherInit (cmd : Bytes) (p : Params) : List Ev :=
  if notInOut (p 0) || (p 0).size != 32 || (notIn (p 1) && notNull (p 1)) || (notIn (p 2) && notNull (p 2)) || (notIn (p 3) && notNull (p 3)) then bad
  else version cmd 32 <|
    let call := [Ev.call "cipher_init"]
    let iv (k : List Ev) : List Ev := if (p 1).mem.isNone then nul else .pass 1 (p 1).size false :: k
    match fld cmd 16 4 with
    | 2 => iv call
    | 3 => iv call
    | 4 => iv call
    | 5 => iv (.pass 2 (p 2).size false :: call)
    | 7 => if (p 1).mem.isNone then nul else if (p 1).size != 8 then bad else .copyIn 1 (p 1).size 8 :: .pass 2 (p 2).size false :: call
    | 9 => if (p 1).mem.isNone || (p 2).mem.isNone then nul else .pass 1 (p 1).size false :: .pass 2 (p 2).size false :: call
    | 10 => iv (.pass 2 (p 2).size false :: call)
    | _ => call

/-- ta_invoke_crypto_cipher_update_iv, ta.c:1189-1222, and svp_buffer_check 1773-1805: a required input in parameter 1. -/
def invokeInIn (name : String) (size : Nat) (cmd : Bytes) (p : Params) : List Ev :=
  if notIn (p 0) || (p 0).size != size || notIn (p 1) || notNull (p 2) || notNull (p 3) then bad
  else if (p 1).mem.isNone || (p 1).size == 0 then nul
  else version cmd size [.pass 1 (p 1).size false, .call name]

/-- A `sa_buffer` made from parameter `i`: clear memory, or the handle of an SVP buffer that is read from the memory (e.g. ta.c:1253-1262). -/
def buffer (p : Params) (i : Fin 4) (type : Nat) (w : Bool) : Ev := if type = 0 then .pass i (p i).size w else .deref i 8

/-- ta_invoke_crypto_cipher_process, ta.c:1224-1308, used for both commands. -/
def invokeCipherProcess (last : Bool) (cmd : Bytes) (p : Params) : List Ev :=
  if notInOut (p 0) || (p 0).size != 56 || (isInOut (p 1) && notNull (p 1)) || notIn (p 2) || (notInOut (p 3) && notNull (p 3)) then bad
  else if (p 2).mem.isNone then nul
  else version cmd 56 <|
    buffer p 1 (fld cmd 24 4) true :: buffer p 2 (fld cmd 40 4) false ::
      if last then [.pass 3 (p 3).size true, .call "cipher_process_last"] else [.call "cipher_process"]

/-- ta_invoke_crypto_mac_process, ta.c:1369-1392. -/
def invokeMacProcess (cmd : Bytes) (p : Params) : List Ev :=
  if notIn (p 0) || (p 0).size != 16 || (notIn (p 1) && notNull (p 1)) || notNull (p 2) || notNull (p 3) then bad
  else version cmd 16 [.pass 1 (p 1).size false, .call "mac_process"]

/-- Copy of the offsets, ta.c:1641-1658, 1697-1714.  `memory_secure_alloc` may fail. -/
def svpOffsets (alloc : Bool) (p : Params) (i : Fin 4) (k : List Ev) : List Ev :=
  let n := (p i).size / 24
  if !alloc then [.ret .NULL_PARAMETER] else .table i n 24 (n * 24 % 2 ^ 64) :: k

/-- ta_invoke_svp_buffer_write, ta.c:1616-1668. -/
def invokeSvpWrite (alloc : Bool) (cmd : Bytes) (p : Params) : List Ev :=
  if notInOut (p 0) || (p 0).size != 16 || notIn (p 1) || notIn (p 2) || notNull (p 3) then bad
  else if (p 1).mem.isNone || (p 1).size == 0 || (p 2).mem.isNone || (p 2).size == 0 then nul
  else version cmd 16 <| svpOffsets alloc p 2 [.pass 1 (p 1).size false, .call "svp_buffer_write"]

/-- ta_invoke_svp_buffer_copy, ta.c:1670-1724. -/
def invokeSvpCopy (alloc : Bool) (cmd : Bytes) (p : Params) : List Ev :=
  if notInOut (p 0) || (p 0).size != 24 || notIn (p 1) || notNull (p 2) || notNull (p 3) then bad
  else if (p 1).mem.isNone || (p 1).size == 0 then nul
  else version cmd 24 <| svpOffsets alloc p 1 [.call "svp_buffer_copy"]

/-- ta_invoke_svp_key_check, ta.c:1726-1771. -/
def invokeSvpKeyCheck (cmd : Bytes) (p : Params) : List Ev :=
  if notInOut (p 0) || (p 0).size != 40 || notIn (p 1) || notIn (p 2) || notNull (p 3) then bad
  else if (p 1).mem.isNone || (p 1).size == 0 || (p 2).mem.isNone || (p 2).size == 0 then nul
  else version cmd 40 [buffer p 1 (fld cmd 16 4) false, .pass 2 (p 2).size false, .call "svp_key_check"]

/-- ta_invoke_process_common_encryption, ta.c:1807-1904.  The product in line 1842 is a 64-bit one. -/
def invokeCenc (alloc : Bool) (cmd : Bytes) (p : Params) : List Ev :=
  if notInOut (p 0) || (p 0).size != 88 || notIn (p 1) || (notIn (p 2) && notOut (p 2)) || notIn (p 3) then bad
  else if (p 1).mem.isNone || (p 2).mem.isNone || (p 3).mem.isNone then nul
  else if (p 1).size == 0 || (p 2).size == 0 || (p 3).size == 0 then bad
  else version cmd 88 <|
    let count := fld cmd 40 8
    if (p 1).size != 16 * count % 2 ^ 64 then bad
    else if !alloc then [.ret .INVALID_PARAMETER]
    else [.table 1 count 16 (count * 16 % 2 ^ 64), buffer p 2 (fld cmd 56 4) true, buffer p 3 (fld cmd 72 4) false, .call "process_common_encryption"]

/-- The switch of ta_invoke_command_handler, ta.c:1945-2129; command numbers sa_ta_types.h:44-83. -/
def invoke (id : Nat) (alloc : Bool) (cmd : Bytes) (p : Params) : List Ev :=
  match id with
  | 1 => invokeOnly "get_version" 40 cmd p
  | 2 => invokeOut "get_name" 16 cmd p
  | 3 => invokeOnly "get_device_id" 16 cmd p
  | 4 => invokeOnly "get_ta_uuid" 17 cmd p
  | 5 => invokeKeyGenerate cmd p
  | 6 => invokeOutIn "key_export" 24 cmd p
  | 7 => invokeKeyImport cmd p
  | 8 => invokeKeyUnwrap cmd p
  | 9 => invokeOut "key_get_public" 24 cmd p
  | 10 => invokeKeyDerive cmd p
  | 11 => invokeKeyExchange cmd p
  | 12 => invokeOnlyIn "key_release" 16 cmd p
  | 13 => invokeKeyHeader cmd p
  | 14 => invokeOut "key_digest" 32 cmd p
  | 15 => invokeRandom cmd p
  | 16 => invokeCipherInit cmd p
  | 17 => invokeInIn "cipher_update_iv" 16 cmd p
  | 18 => invokeCipherProcess false cmd p
  | 19 => invokeCipherProcess true cmd p
  | 20 => invokeOnlyIn "cipher_release" 16 cmd p
  | 21 => invokeOnly "mac_init" 40 cmd p
  | 22 => invokeMacProcess cmd p
  | 23 => invokeOnlyIn "mac_process_key" 24 cmd p
  | 24 => invokeOut "mac_compute" 24 cmd p
  | 25 => invokeOnlyIn "mac_release" 16 cmd p
  | 26 => invokeOutIn "sign" 48 cmd p
  | 27 => invokeOnlyIn "svp_supported" 1 cmd p
  | 29 => invokeOnly "svp_buffer_create" 32 cmd p
  | 31 => invokeOnly "svp_buffer_release" 32 cmd p
  | 32 => invokeSvpWrite alloc cmd p
  | 33 => invokeSvpCopy alloc cmd p
  | 34 => invokeSvpKeyCheck cmd p
  | 35 => invokeInIn "svp_buffer_check" 40 cmd p
  | 36 => invokeCenc alloc cmd p
  | 37 => invokeKeyProvision cmd p
  | _ => [.ret .OPERATION_NOT_SUPPORTED]

/-- ta_invoke_command_handler, ta.c:1906-2140.  `alloc0`, `alloc1`: the allocations of the command copy and of the tables succeed. -/
def handler (id : Nat) (alloc0 alloc1 : Bool) (p : Params) : List Ev :=
  if isNull (p 0) then nul
  else if !alloc0 then [.ret .INTERNAL_ERROR]
  else .copyIn 0 (p 0).size (p 0).size :: invoke id alloc1 ((p 0).mem.getD []) p ++
    (if isInOut (p 0) then [.copyOut 0 (p 0).size (p 0).size] else [])

end Sa.Ta

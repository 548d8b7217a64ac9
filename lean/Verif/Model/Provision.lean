/-
Provisioning of keys, `sa_key_provision_ta`: clientimpl/src/porting/sa_key_provision_impl.c:25-82, clientimpl/src/sa_key_provision.c:26-110, the command in
taimpl/src/internal/ta.c:375-509 and `ta_sa_key_provision` in taimpl/src/ta_sa_key_import.c:357-415.

The object that is provisioned has pointers in it, which the TA follows; the model has the bytes that they point to.  `none` stands for undefined behaviour.  What the
containers of the keys do is that of `socUnwrap` (Model/Soc.lean); delivering the key is left to the vendor (ta.c:426, ta_sa_key_import.c:392) and does nothing.  The client is
found in the store of clients.
-/
import Verif.Model.Typej

namespace Sa.Prov

open Sa Sa.Kc

/-- What a `WidevineOemProvisioning` (private key and certificate), a `PlayReadyProvisioning` (the same) or a `NetflixProvisioning` (HMAC key, wrapping key and ESN)
points to, sa_types.h:1061-1096; `none` for NULL; the lengths are those of the bytes. -/
structure Obj where
  first : Option Bytes
  second : Option Bytes
  third : Option Bytes

/-- A call of `sa_key_provision_ta`.  The length of the parameters is in their first two bytes, and the client sends so many of them (sa_key_provision.c:70-77). -/
structure Call where
  kind : Nat
  input : Option Obj
  inLength : Nat
  params : Option SocParams

/-- NULL or of no length. -/
def missing (p : Option Bytes) : Bool := p.isNone || p == some []

/-- `sa_key_provision_preprocessing`, sa_key_provision_impl.c:25-82.  Kinds: WIDEVINE_OEM 0, PLAYREADY_MODEL 1, APPLE_MFI 2, APPLE_FAIRPLAY 3, NETFLIX 4
(sa_types.h:1039-1045). -/
def preprocess (c : Call) : Status :=
  match c.input, c.params with
  | some o, some _ =>
    if c.inLength = 0 then .NULL_PARAMETER
    else match c.kind with
      | 0 => if missing o.first || missing o.second then .NULL_PARAMETER else .OK
      | 1 => if missing o.first || missing o.second then .NULL_PARAMETER else .OK
      | 4 => if missing o.first || missing o.second || missing o.third then .NULL_PARAMETER else .OK
      | 2 => .OPERATION_NOT_SUPPORTED
      | 3 => .OPERATION_NOT_SUPPORTED
      | _ => .INVALID_PARAMETER
  | _, _ => .NULL_PARAMETER

/-- The sizes of the structures. -/
def structSize (kind : Nat) : Nat := if kind = 4 then 48 else 32

/-- What may fail around the call: the session, the memory of the command, that of its parameters; and the environments of the two imports. -/
structure Env2 where
  session : Bool
  command : Bool
  memory : Bool
  one : Env
  two : Env

/-- `ta_sa_key_import` with the format PROVISION_TA, ta_sa_key_import.c:604-609, and `ta_sa_key_provision`, 357-415. -/
def taImport (env : Env) (e : SocEnv) (st : KeyStore) (input : Bytes) (params : SocParams) (caller : Uuid) : Option (KeyStore × Status × Nat) :=
  if input = [] then some (st, .INVALID_KEY_FORMAT, SLOT_INVALID) else keyImportSoc env e st input (some params) caller

/-- `ta_sa_key_release`; `none` if it waits for ever. -/
def taRelease (st : KeyStore) (key : Nat) (caller : Uuid) : Option (KeyStore × Status) :=
  match keyStoreRemove st key caller with
  | .returned st status _ => some (st, status)
  | .blocks _ => none

/-- `ta_invoke_key_provision`, ta.c:375-509, for a command as the client makes it: new store, status, `key`.  The structure is read whatever its size (ta.c:421-472), the
parameters are copied into 624 bytes (ta.c:408). -/
def invoke (v : Env2) (e : SocEnv) (st : KeyStore) (kind : Nat) (o : Obj) (inLength : Nat) (p : SocParams) (caller : Uuid) : Option (KeyStore × Status × Nat) :=
  if p.length = 0 then some (st, .NULL_PARAMETER, SLOT_INVALID)
  else if 624 < p.length then none
  else if inLength < structSize kind then none
  else if kind = 0 ∨ kind = 1 then taImport v.one e st (o.first.getD []) p caller
  else if kind = 4 then
    match taImport v.one e st (o.first.getD []) p caller with
    | none => none
    | some (st, status, key) =>
      if status ≠ .OK then some (st, status, key)
      else if key ≠ SLOT_INVALID then
        match taRelease st key caller with
        | none => none
        | some (st, status) =>
          if status ≠ .OK then some (st, status, key) else taImport v.two e st (o.second.getD []) p caller
      else taImport v.two e st (o.second.getD []) p caller
  else some (st, .OK, SLOT_INVALID)

/-- `sa_key_provision_ta`, sa_key_provision.c:26-110: new store and status.  When the memory of the command could not be had, it is read at line 102 all the same. -/
def provision (v : Env2) (e : SocEnv) (st : KeyStore) (c : Call) (caller : Uuid) : Option (KeyStore × Status) :=
  if preprocess c ≠ .OK then some (st, preprocess c)
  else if v.session = false then some (st, .INTERNAL_ERROR)
  else if v.command = false then none
  else if v.memory = false then some (st, .INTERNAL_ERROR)
  else match c.input, c.params with
    | some o, some p =>
      match invoke v e st c.kind o c.inLength p caller with
      | none => none
      | some (st, status, key) =>
        if key ≠ SLOT_INVALID then
          match taRelease st key caller with
          | none => none
          | some (st, _) => some (st, status)
        else some (st, status)
    | _, _ => none

end Sa.Prov

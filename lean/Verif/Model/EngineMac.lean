import Verif.Model.Basic

/-!
# MACs through the OpenSSL engine (`client/src/sa_engine_pkey.c`)

An application makes MACs with `EVP_DigestSignInit`, `EVP_DigestSignUpdate` and `EVP_DigestSignFinal` and a key loaded by the engine.  What those do
with the functions of the engine is that of OpenSSL 1.1.1 (`crypto/evp/m_sigver.c`, `digest.c`, `pmeth_lib.c`), which is not in this repository.
SecApi's MACs are those of `Mac.lean` seen from the outside: handles with an algorithm, a key and the bytes so far; which free handle a new one gets
is a parameter, and so are the MACs.  NULL arguments, and the flag `EVP_MD_CTX_FLAG_FINALISE`, which an application may set, are left out.
-/

namespace Sa.Em

/-- Digests of OpenSSL: the four of the API by their number there, and others. -/
inductive Md
  | sa (d : Nat)
  | other
  deriving DecidableEq

/-- A MAC of SecApi: HMAC with a digest or CMAC (`none`), the key and the bytes so far. -/
structure Mac where
  alg : Option Nat
  key : Nat
  data : List UInt8
  deriving DecidableEq

/-- What SecApi does. -/
structure Api where
  /-- the MAC -/
  mac : Option Nat → Nat → List UInt8 → List UInt8
  /-- the handle of a new MAC, if there is room for one -/
  pick : (Nat → Option Mac) → Option Nat
  /-- whether the key may be used so -/
  allowed : Option Nat → Nat → Bool

/-- `pkey_app_data` of an `EVP_PKEY_CTX` (sa_engine_pkey.c:38-48) as far as used for MACs, with the key. -/
structure App where
  md : Option Md
  handle : Option Nat
  key : Nat
  deriving DecidableEq

/-- The MACs of SecApi, and the `EVP_MD_CTX`s by the order of creation (outer `none`: freed; inner `none`: not initialised). -/
structure World where
  macs : Nat → Option Mac
  ctxs : List (Option (Option App))

def empty : World := ⟨fun _ => none, []⟩

/-- Operations of the application; `mem`: `OPENSSL_malloc` succeeds. -/
inductive Op
  | new
  | init (i : Nat) (key : Nat) (md : Option Md) (mem : Bool)
  | reinit (i : Nat) (md : Option Md)
  | update (i : Nat) (b : List UInt8)
  | final (i : Nat) (room : Option Nat) (mem : Bool)
  | copy (i : Nat) (mem : Bool)
  | free (i : Nat)
  deriving DecidableEq

inductive Ans
  | made (i : Nat)
  | ok
  | fail
  | length (n : Nat)
  | mac (m : List UInt8)
  | invalid
  deriving DecidableEq

def set (f : Nat → Option Mac) (h : Nat) (v : Option Mac) : Nat → Option Mac := fun x => if x = h then v else f x

/-- `sa_crypto_mac_release`; for a handle that there is not, an error. -/
def macRelease (w : World) (h : Nat) : World := { w with macs := set w.macs h none }

/-- `digest_algorithm_from_md`, digest_util.c:25-43. -/
def digestOf : Option Md → Option Nat
  | some (.sa d) => if d < 4 then some d else none
  | _ => none

/-- `pkey_mac_init`, sa_engine_pkey.c:566-612, for a symmetric key: a digest that SecApi does not have, or none, makes a CMAC.  The new handle is
stored over the old one. -/
def macInit (api : Api) (w : World) (a : App) : World × Option App :=
  let alg := digestOf a.md
  if !api.allowed alg a.key then (w, none)
  else match api.pick w.macs with
    | none => (w, none)
    | some h => ({ w with macs := set w.macs h (some ⟨alg, a.key, []⟩) }, some { a with handle := some h })

/-- `pkey_init`, sa_engine_pkey.c:72-110. -/
def pkeyInit (key : Nat) : App := { md := none, handle := none, key := key }

/-- `pkey_copy`, sa_engine_pkey.c:112-146. -/
def pkeyCopy (a : App) : App := { md := a.md, handle := a.handle, key := a.key }

/-- `pkey_cleanup`, sa_engine_pkey.c:148-159. -/
def pkeyCleanup (w : World) (a : App) : World :=
  match a.handle with
  | some h => macRelease w h
  | none => w

/-- `EVP_DigestSignInit` with the app data that there are: `pkey_signctx_init` (sa_engine_pkey.c:652-687), then `pkey_ctrl` with `EVP_PKEY_CTRL_MD`
(1103-1118), which calls `EVP_DigestInit_ex`, which calls `pkey_ctrl` with `EVP_PKEY_CTRL_DIGESTINIT` (1097-1101). -/
def digestSignInit (api : Api) (w : World) (a : App) (md : Option Md) : World × App × Ans :=
  let a := { a with md := md }
  match macInit api w a with
  | (w, some a) => (w, a, .ok)
  | (w, none) => (w, a, .fail)

/-- `pkey_mac_update`, sa_engine_pkey.c:614-650, with `sa_crypto_mac_process`. -/
def macUpdate (w : World) (a : App) (b : List UInt8) : World × Ans :=
  match a.handle.bind fun h => (w.macs h).map fun m => (h, m) with
  | some (h, m) => ({ w with macs := set w.macs h (some { m with data := m.data ++ b }) }, .ok)
  | none => (w, .fail)

/-- `pkey_signctx`, sa_engine_pkey.c:690-718, with `sa_crypto_mac_compute`; `room`: `none` when `signature` is NULL. -/
def signctx (api : Api) (w : World) (a : App) (room : Option Nat) : Ans :=
  match a.handle.bind w.macs with
  | none => .fail
  | some m => match room with
    | none => .length (api.mac m.alg m.key m.data).length
    | some n => if n < (api.mac m.alg m.key m.data).length then .fail else .mac (api.mac m.alg m.key m.data)

/-- `EVP_DigestSignFinal`: without a buffer, `pkey_signctx` of the context; with one, `pkey_signctx` of a copy, which is then freed. -/
def digestSignFinal (api : Api) (w : World) (a : App) (room : Option Nat) (mem : Bool) : World × Ans :=
  match room with
  | none => (w, signctx api w a none)
  | some n =>
    if !mem then (w, .fail)
    else (pkeyCleanup w (pkeyCopy a), signctx api w (pkeyCopy a) (some n))

/-- An operation; one on a context that there is not, or that is not initialised (again), is the application's mistake and does nothing here. -/
def step (api : Api) (w : World) : Op → World × Ans
  | .new => ({ w with ctxs := w.ctxs ++ [some none] }, .made w.ctxs.length)
  | .init i key md mem => match w.ctxs[i]? with
    | some (some none) =>
      if !mem then (w, .fail)
      else match digestSignInit api w (pkeyInit key) md with
        | (w, a, r) => ({ w with ctxs := w.ctxs.set i (some (some a)) }, r)
    | _ => (w, .invalid)
  | .reinit i md => match w.ctxs[i]? with
    | some (some (some a)) => match digestSignInit api w a md with
      | (w, a, r) => ({ w with ctxs := w.ctxs.set i (some (some a)) }, r)
    | _ => (w, .invalid)
  | .update i b => match w.ctxs[i]? with
    | some (some (some a)) => macUpdate w a b
    | _ => (w, .invalid)
  | .final i room mem => match w.ctxs[i]? with
    | some (some (some a)) => digestSignFinal api w a room mem
    | _ => (w, .invalid)
  | .copy i mem => match w.ctxs[i]? with
    | some (some (some a)) =>
      if !mem then ({ w with ctxs := w.ctxs ++ [none] }, .fail)
      else ({ w with ctxs := w.ctxs ++ [some (some (pkeyCopy a))] }, .made w.ctxs.length)
    | _ => (w, .invalid)
  | .free i => match w.ctxs[i]? with
    | some (some none) => ({ w with ctxs := w.ctxs.set i none }, .ok)
    | some (some (some a)) => ({ pkeyCleanup w a with ctxs := w.ctxs.set i none }, .ok)
    | _ => (w, .invalid)

/-- Many operations: the world they leave, and the operations with their answers, the last first. -/
def run (api : Api) : List Op → World × List (Op × Ans)
  | [] => (empty, [])
  | op :: earlier =>
    let r := run api earlier
    ((step api r.1 op).1, (op, (step api r.1 op).2) :: r.2)

end Sa.Em

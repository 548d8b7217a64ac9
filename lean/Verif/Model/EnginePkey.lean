import Verif.Model.ProviderRsa

/-!
# Signatures and RSA encryption of the OpenSSL 1.1 engine (`client/src/sa_engine_pkey.c`)

`EVP_PKEY_CTX`s made with keys of the engine: the settings (`pkey_ctrl`), copies, signing, what OpenSSL is told to verify and to encrypt with, and
decryption.  `sa_crypto_sign`, `sa_crypto_cipher_*`, the digests of OpenSSL and its operations with public keys are parameters.  Of OpenSSL 1.1.1's
`EVP_PKEY_sign` and so on, that a method with `EVP_PKEY_FLAG_AUTOARGLEN` is called only with room for `EVP_PKEY_size` bytes is modelled.
NULL contexts and lengths are left out; a public key of the engine's key is always to be had.
-/

namespace Sa.Ek

open Sa.Psig (Lib Key Api Ret Verify digestFromMd saltLength encodeSignature EVP_RSA RSA_PKCS1_PADDING RSA_PKCS1_PSS_PADDING SALTLEN_AUTO NID_sha1)
open Sa.Pr (Scheme RSA_PKCS1_OAEP_PADDING)

/-- `pkey_app_data`, sa_engine_pkey.c:38-48, without what is for MACs; a digest is its NID, `none` is NULL. -/
structure App where
  pad : Int
  salt : Int
  md : Option Nat
  mgf1 : Option Nat
  label : Option Bytes
  deriving DecidableEq

/-- `pkey_init`, sa_engine_pkey.c:72-110. -/
def pkeyInit (k : Key) : App :=
  if k.evp = EVP_RSA then { pad := RSA_PKCS1_PADDING, salt := SALTLEN_AUTO, md := some NID_sha1, mgf1 := some NID_sha1, label := none }
  else { pad := 0, salt := 0, md := none, mgf1 := none, label := none }

/-- The controls of `pkey_ctrl` that set something; `label none` is NULL and 0. -/
inductive Ctrl
  | md (m : Option Nat)
  | padding (n : Int)
  | salt (n : Int)
  | oaepMd (m : Option Nat)
  | mgf1 (m : Option Nat)
  | label (l : Option Bytes)
  deriving DecidableEq

/-- `pkey_ctrl`, sa_engine_pkey.c:1081-1249, for keys that are not symmetric; `none`: it fails. -/
def pkeyCtrl (a : App) : Ctrl → Option App
  | .md m => some { a with md := m }
  | .padding n => some { a with pad := n }
  | .salt n => if a.pad = RSA_PKCS1_PSS_PADDING then some { a with salt := n } else none
  | .oaepMd m => if m.isNone then none else some { a with md := m }
  | .mgf1 m => if m.isNone then none else some { a with mgf1 := m }
  | .label l => some { a with label := l }

/-- What `pkey_copy` copies, sa_engine_pkey.c:112-146: an empty label becomes NULL. -/
def pkeyCopy (a : App) : App := { a with label := a.label.bind fun l => if l.length = 0 then none else some l }

/-! ## Signatures -/

/-- Algorithm and parameters of `sa_crypto_sign`, sa_engine_pkey.c:221-299; `none`: the function fails.  A length of the salt that is negative
becomes a `size_t`. -/
def signParams (a : App) (k : Key) : Option SignParams :=
  if k.type = 2 then
    if a.pad = RSA_PKCS1_PADDING then
      match digestFromMd a.md with
      | none => none
      | some d => some (.pkcs1 (some (d, true)))
    else if a.pad = RSA_PKCS1_PSS_PADDING then
      match digestFromMd a.md, digestFromMd a.mgf1 with
      | some d, some g => match saltLength a.salt d k.bits with
        | none => none
        | some n => some (.pss (some (d, g, UInt64.ofInt n, true)))
      | _, _ => none
    else none
  else if k.type = 1 then
    if !isPCurve k.curve then none
    else match digestFromMd a.md with
      | none => none
      | some d => some (.ecdsa (some (d, true)))
  else none

/-- `pkey_sign`, sa_engine_pkey.c:180-330; `out`: NULL, or the size of the buffer, which the function does not look at. -/
def pkeySign (api : Api) (a : App) (k : Key) (out : Option Nat) (tbs : Bytes) : Ret :=
  match signParams a k with
  | none => .fail
  | some p => match out with
    | none => match api.len k.handle p with
      | none => .fail
      | some n => .len (if k.type = 1 then n + 9 else n)
    | some size => match api.sign k.handle p tbs with
      | none => .fail
      | some raw =>
        let b := if k.type = 1 then encodeSignature raw else raw
        if b.length > size then .overflow else .wrote b

/-- `EVP_PKEY_size` of an RSA key. -/
def rsaSize (k : Key) : Nat := (k.bits + 7) / 8

/-- `EVP_PKEY_sign` of OpenSSL 1.1.1 with the methods of sa_engine_pkey.c:1354-1377: that of RSA has `EVP_PKEY_FLAG_AUTOARGLEN`, that of EC not. -/
def evpSign (api : Api) (a : App) (k : Key) (out : Option Nat) (tbs : Bytes) : Ret :=
  if k.evp = EVP_RSA then
    match out with
    | none => .len (rsaSize k)
    | some size => if size < rsaSize k then .fail else pkeySign api a k (some size) tbs
  else pkeySign api a k out tbs

/-- `EVP_DigestSignFinal` of OpenSSL 1.1.1 after `EVP_DigestSignInit` with the digest `m` and updates with `pieces`. -/
def digestSignFinal (lib : Lib) (api : Api) (a : App) (k : Key) (m : Nat) (pieces : List Bytes) (out : Option Nat) : Ret :=
  evpSign api a k out (lib.hash m pieces.flatten)

/-- `pkey_digestsign`, sa_engine_pkey.c:432-497, for Ed25519 and Ed448; `tbs`: NULL, or the message.  The size of the buffer is passed on. -/
def pkeyDigestSign (api : Api) (k : Key) (out : Option Nat) (tbs : Option Bytes) : Ret :=
  match tbs with
  | none => .fail
  | some b =>
    if k.type ≠ 1 ∧ ¬ (k.curve = CURVE_ED25519 ∨ k.curve = CURVE_ED448) then .fail
    else match out with
      | none => match api.len k.handle .eddsa with
        | none => .fail
        | some n => .len n
      | some size => match api.sign k.handle .eddsa b with
        | none => .fail
        | some s => if s.length > size then .fail else .wrote s

/-- What OpenSSL is told to verify with, `pkey_verify`, sa_engine_pkey.c:333-428. -/
def verifyWith (a : App) (k : Key) : Verify :=
  if k.evp = EVP_RSA ∧ a.pad = RSA_PKCS1_PSS_PADDING then { pss := true, digest := a.md, mgf1 := a.mgf1, salt := a.salt }
  else { pss := false, digest := a.md, mgf1 := none, salt := 0 }

/-! ## RSA encryption -/

/-- What OpenSSL is told to encrypt with, in OpenSSL's numbers: `pkey_encrypt`, sa_engine_pkey.c:800-835. -/
def encryptWith (a : App) : Scheme :=
  if a.pad = RSA_PKCS1_OAEP_PADDING then .oaep a.md a.mgf1 (a.label.getD [])
  else if a.pad = RSA_PKCS1_PADDING then .pkcs1
  else .other a.pad

/-- What the API is told to decrypt with, in the API's numbers, `none` being `UINT32_MAX`: `pkey_decrypt`, sa_engine_pkey.c:889-901. -/
def decryptWith (a : App) : Scheme :=
  if a.pad = RSA_PKCS1_OAEP_PADDING then .oaep (digestFromMd a.md) (digestFromMd a.mgf1) (a.label.getD [])
  else .pkcs1

/-- Statuses of the API that `pkey_decrypt` tells apart, and what is given with `SA_STATUS_OK`. -/
inductive St (α : Type)
  | ok (x : α)
  | unsupported
  | error
  deriving DecidableEq

/-- RSA: OpenSSL's encryption with the public key of a key of the API, and the API's cipher contexts: whether one can be made, and what
`sa_crypto_cipher_process` gives. -/
structure Rsa where
  encrypt : Nat → Scheme → Bytes → Option Bytes
  init : Nat → Scheme → St Unit
  process : Nat → Scheme → Bytes → St Bytes

/-- `EVP_PKEY_encrypt` with `pkey_encrypt`, sa_engine_pkey.c:739-845: OpenSSL looks at the room, in the engine and below. -/
def encrypt (r : Rsa) (a : App) (k : Key) (out : Option Nat) (msg : Bytes) : Ret :=
  match out with
  | none => .len (rsaSize k)
  | some size =>
    if size < rsaSize k then .fail
    else match r.encrypt k.handle (encryptWith a) msg with
      | none => .fail
      | some b => .wrote b

/-- `EVP_PKEY_decrypt` with `pkey_decrypt`, sa_engine_pkey.c:848-935: how many cipher contexts of the API are left, and what is returned.  When
`sa_crypto_cipher_process` is not supported the context is not released. -/
def decrypt (r : Rsa) (a : App) (k : Key) (out : Option Nat) (msg : Bytes) : Nat × Ret :=
  match out with
  | none => (0, .len (rsaSize k))
  | some size =>
    if size < rsaSize k then (0, .fail)
    else match r.init k.handle (decryptWith a) with
      | .unsupported => (0, .fail)
      | .error => (0, .fail)
      | .ok _ => match r.process k.handle (decryptWith a) msg with
        | .unsupported => (1, .fail)
        | .error => (0, .fail)
        | .ok b => (0, if b.length > size then .fail else .wrote b)

/-! ## Contexts -/

structure Ctx where
  key : Key
  app : App
  deriving DecidableEq

/-- The contexts by the order of creation (`none`: freed, or not made), how many app data and labels of this code are allocated, and how many cipher contexts of
the API were left behind. -/
structure World where
  ctxs : List (Option Ctx)
  apps : Int
  labels : Int
  ciphers : Nat
  deriving DecidableEq

def empty : World := ⟨[], 0, 0, 0⟩

/-- Operations of the application; `mem`, `memLabel`: the allocations succeed. -/
inductive Op
  | new (k : Key) (mem : Bool)
  | ctrl (i : Nat) (c : Ctrl)
  | copy (i : Nat) (mem memLabel : Bool)
  | decrypt (i : Nat) (out : Option Nat) (msg : Bytes)
  | free (i : Nat)
  deriving DecidableEq

inductive Ans
  | made (i : Nat)
  | ok
  | fail
  | ret (r : Ret)
  | invalid
  deriving DecidableEq

def hasLabel (a : App) : Int := if a.label.isSome then 1 else 0

/-- The label of a control belongs to the engine when the control succeeds, sa_engine_pkey.c:1231-1240; the one before is forgotten. -/
def taken : Ctrl → Int
  | .label (some _) => 1
  | _ => 0

/-- `EVP_PKEY_CTX_dup` with `pkey_copy`: without memory for the label, the new app data are forgotten (and OpenSSL does not call `pkey_cleanup`). -/
def copy (w : World) (c : Ctx) (mem memLabel : Bool) : World × Ans :=
  if !mem then ({ w with ctxs := w.ctxs ++ [none] }, .fail)
  else if (pkeyCopy c.app).label.isSome ∧ !memLabel then ({ w with ctxs := w.ctxs ++ [none], apps := w.apps + 1 }, .fail)
  else ({ w with ctxs := w.ctxs ++ [some { c with app := pkeyCopy c.app }], apps := w.apps + 1, labels := w.labels + hasLabel (pkeyCopy c.app) },
    .made w.ctxs.length)

/-- An operation; one on a context that there is not is the application's mistake and does nothing here.  `free` is `pkey_cleanup`,
sa_engine_pkey.c:148-159. -/
def step (r : Rsa) (w : World) : Op → World × Ans
  | .new k mem =>
    if !mem then ({ w with ctxs := w.ctxs ++ [none] }, .fail)
    else ({ w with ctxs := w.ctxs ++ [some ⟨k, pkeyInit k⟩], apps := w.apps + 1 }, .made w.ctxs.length)
  | .ctrl i x => match w.ctxs[i]? with
    | some (some c) => match pkeyCtrl c.app x with
      | none => (w, .fail)
      | some a => ({ w with ctxs := w.ctxs.set i (some { c with app := a }), labels := w.labels + taken x }, .ok)
    | _ => (w, .invalid)
  | .copy i mem memLabel => match w.ctxs[i]? with
    | some (some c) => copy w c mem memLabel
    | _ => (w, .invalid)
  | .decrypt i out msg => match w.ctxs[i]? with
    | some (some c) => ({ w with ciphers := w.ciphers + (decrypt r c.app c.key out msg).1 }, .ret (decrypt r c.app c.key out msg).2)
    | _ => (w, .invalid)
  | .free i => match w.ctxs[i]? with
    | some (some c) => ({ w with ctxs := w.ctxs.set i none, apps := w.apps - 1, labels := w.labels - hasLabel c.app }, .ok)
    | _ => (w, .invalid)

/-- `EVP_PKEY_sign`, `EVP_DigestSignFinal`, `EVP_PKEY_verify` and `EVP_PKEY_encrypt` with a context; `none`: there is no such context. -/
def signAt (api : Api) (w : World) (i : Nat) (out : Option Nat) (tbs : Bytes) : Option Ret :=
  w.ctxs[i]?.join.map fun c => evpSign api c.app c.key out tbs

def finalAt (lib : Lib) (api : Api) (w : World) (i : Nat) (m : Nat) (pieces : List Bytes) (out : Option Nat) : Option Ret :=
  w.ctxs[i]?.join.map fun c => digestSignFinal lib api c.app c.key m pieces out

def verifyAt (w : World) (i : Nat) : Option Verify := w.ctxs[i]?.join.map fun c => verifyWith c.app c.key

def encryptAt (r : Rsa) (w : World) (i : Nat) (out : Option Nat) (msg : Bytes) : Option Ret :=
  w.ctxs[i]?.join.map fun c => encrypt r c.app c.key out msg

/-- Many operations: the world they leave, and the operations with their answers, the last first. -/
def run (r : Rsa) : List Op → World × List (Op × Ans)
  | [] => (empty, [])
  | op :: earlier =>
    let q := run r earlier
    ((step r q.1 op).1, (op, (step r q.1 op).2) :: q.2)

end Sa.Ek

import Verif.Model.Dispatch

/-!
# The client library, `clientimpl/src/sa_*.c`

Every function of the API checks its arguments, builds a command structure, adds up to three parameters and calls `ta_invoke_command`, which hands all of
it to the command handler of the TA (`porting/ta_client.c`).  `request` is the part of such a function up to the invocation: it gives the status with which
the function returns without invoking the TA, or the command and its parameters.

A call is described by the values of its arguments (`Call`).  The same type describes a call of the corresponding function of the TA (`ta_sa_*`), which has
the same arguments, see `Model/TaCall.lean`.

Simplifications: LP64 layout; `client_session` and the allocations succeed (the releases are in `Model/ClientMem.lean`); output memory has unspecified
contents, taken to be zero; the pointers `key`, `rights`, `context`, `out_length` and the like that are checked to be non-NULL first of all are not NULL;
`sa_key_provision_ta` is not modelled here, because its argument contains pointers.
-/

namespace Sa.Cl
open Sa.Ta

/-- A pointer argument with its length: the memory, `none` for NULL. -/
structure In where
  mem : Option Bytes
  len : Nat
  deriving DecidableEq

/-- The length belongs to the memory. -/
def In.WF (b : In) : Prop := b.len < 2 ^ 64 ∧ ∀ m, b.mem = some m → m.length = b.len

/-- `sa_svp_offset`, sa_types.h:1026-1033. -/
structure Offset where
  dst : Nat
  src : Nat
  length : Nat
  deriving DecidableEq

def Offset.WF (o : Offset) : Prop := o.dst < 2 ^ 64 ∧ o.src < 2 ^ 64 ∧ o.length < 2 ^ 64

/-- `sa_buffer`, sa_types.h:542-570: clear memory or an SVP buffer, and the offset. -/
inductive Buf where
  | clear (mem : In) (offset : Nat)
  | svp (handle offset : Nat)
  deriving DecidableEq

def Buf.WF : Buf → Prop
  | .clear m o => m.WF ∧ o < 2 ^ 64
  | .svp h o => h < 2 ^ 64 ∧ o < 2 ^ 64

/-- Parameters of `sa_key_generate`. -/
inductive GenPrm where
  | length (n : Nat)          -- SYMMETRIC: key_length, RSA: modulus_length
  | curve (n : Nat)           -- EC
  | dh (p g : In)             -- DH
  | none                      -- NULL
  deriving DecidableEq

/-- Parameters of `sa_key_import`. -/
inductive ImpPrm where
  | rights (r : Bytes)              -- SYMMETRIC_BYTES, RSA_PRIVATE_KEY_INFO
  | ec (r : Bytes) (curve : Nat)    -- EC_PRIVATE_BYTES
  | typej (kcipher khmac : Nat)     -- TYPEJ
  | soc (b : Bytes)                 -- SOC: the structure, whose first two bytes are its length
  | none                            -- NULL
  deriving DecidableEq

/-- Algorithm parameters of `sa_key_unwrap`. -/
inductive UnwPrm where
  | iv (b : In)                            -- AES_CBC, AES_CBC_PKCS7, AES_CTR
  | aead (iv aad tag : In)                 -- AES_GCM, CHACHA20_POLY1305
  | chacha (counter nonce : In)            -- CHACHA20
  | elgamal (offset length : Nat)          -- EC_ELGAMAL
  | oaep (digest mgf1 : Nat) (label : In)  -- RSA_OAEP
  | none
  deriving DecidableEq

/-- Parameters of `sa_key_derive`. -/
inductive KdfPrm where
  | ladder (c1 c2 c3 c4 : In)                                      -- ROOT_KEY_LADDER, COMMON_ROOT_KEY_LADDER
  | hkdf (length digest parent : Nat) (salt info : In)             -- HKDF
  | info (length digest parent : Nat) (info : In)                  -- CONCAT, ANSI_X963
  | cmac (length parent counter : Nat) (other : In)                -- CMAC
  | netflix (kenc khmac : Nat)                                     -- NETFLIX
  | none
  deriving DecidableEq

/-- Parameters of `sa_key_exchange`: `in_kw`, `*out_ke`, `*rights_ke`, `*out_kh`, `*rights_kh`. -/
inductive ExPrm where
  | netflix (kw ke : Nat) (rke : Bytes) (kh : Nat) (rkh : Bytes)
  | none
  deriving DecidableEq

/-- Parameters of `sa_crypto_cipher_init`. -/
inductive CipPrm where
  | iv (b : In)                            -- AES_CBC, AES_CBC_PKCS7, AES_CTR
  | aead (iv aad : In)                     -- AES_GCM, CHACHA20_POLY1305
  | chacha (counter nonce : In)            -- CHACHA20
  | oaep (digest mgf1 : Nat) (label : In)  -- RSA_OAEP
  | none
  deriving DecidableEq

/-- Parameters of `sa_crypto_sign`. -/
inductive SigPrm where
  | pss (digest mgf1 : Nat) (precomputed : Bool) (salt : Nat)      -- RSA_PSS
  | digest (digest : Nat) (precomputed : Bool)                     -- RSA_PKCS1V15, ECDSA
  | none
  deriving DecidableEq

/-- A sample of `sa_process_common_encryption`, sa_types.h. -/
structure Smp where
  iv : In
  crypt : Nat
  skip : Nat
  subs : List (Nat × Nat)
  context : Nat
  out : Buf
  src : Buf
  deriving DecidableEq

/-- A call of a function of the API with its arguments; of the in-out arguments the value before the call.  An output buffer is given by whether it is
non-NULL and by its length. -/
inductive Call where
  | getVersion (version : Bytes)
  | getName (out : Bool) (outLen : Nat)
  | getDeviceId (id : Nat)
  | getTaUuid (uuid : Bytes)
  | keyGenerate (key : Nat) (rights : Bytes) (type : Nat) (prm : GenPrm)
  | keyExport (out : Bool) (outLen : Nat) (mixin : In) (key : Nat)
  | keyImport (key format : Nat) (src : In) (prm : ImpPrm)
  | keyUnwrap (key : Nat) (rights : Bytes) (type : Nat) (curve : Option Nat) (alg : Nat) (prm : UnwPrm) (wrapping : Nat) (src : In)
  | keyGetPublic (out : Bool) (outLen : Nat) (key : Nat)
  | keyDerive (key : Nat) (rights : Bytes) (alg : Nat) (prm : KdfPrm)
  | keyExchange (key : Nat) (rights : Bytes) (alg priv : Nat) (pub : In) (prm : ExPrm)
  | keyRelease (key : Nat)
  | keyHeader (key : Nat)
  | keyDigest (out : Bool) (outLen : Nat) (key digest : Nat)
  | random (out : Bool) (len : Nat)
  | cipherInit (context alg mode key : Nat) (prm : CipPrm)
  | cipherUpdateIv (context : Nat) (iv : In)
  | cipherProcess (out : Option Buf) (context : Nat) (src : Buf) (bytes : Nat)
  | cipherProcessLast (out : Option Buf) (context : Nat) (src : Buf) (bytes : Nat) (tag : Option In)
  | cipherRelease (context : Nat)
  | macInit (context alg key : Nat) (digest : Option Nat)
  | macProcess (context : Nat) (src : In)
  | macProcessKey (context key : Nat)
  | macCompute (out : Bool) (outLen : Nat) (context : Nat)
  | macRelease (context : Nat)
  | sign (out : Bool) (outLen alg key : Nat) (src : In) (prm : SigPrm)
  | svpSupported
  | svpCreate (buffer memory size : Nat)
  | svpRelease (buffer : Nat)
  | svpWrite (out : Nat) (src : In) (offsets : List Offset)
  | svpCopy (out src : Nat) (offsets : List Offset)
  | svpKeyCheck (key : Nat) (src : Buf) (bytes : Nat) (expected : In)
  | svpCheck (buffer offset length digest : Nat) (hash : In)
  | cenc (s : Smp)
  deriving DecidableEq

/-- How the library was built, `USE_SHARED_MEMORY` (ta_client.h:51-129), and what memory returned by `malloc` contains. -/
structure CEnv where
  shared : Bool
  junk : Nat → Bytes

def CEnv.WF (e : CEnv) : Prop := ∀ n, (e.junk n).length = n

/-- Little endian representation of `v` in `n` bytes. -/
def le : Nat → Nat → Bytes
  | 0, _ => []
  | n + 1, v => UInt8.ofNat (v % 256) :: le n (v / 256)

/-- `TA_PARAM_IN`, `TA_PARAM_OUT`, `TA_PARAM_INOUT`, ta_client.h:89-92, 123-127. -/
def CEnv.tyIn (e : CEnv) : Nat := if e.shared then 13 else 5
def CEnv.tyOut (e : CEnv) : Nat := if e.shared then 14 else 6
def CEnv.tyInOut (e : CEnv) : Nat := if e.shared then 15 else 7

/-- `{NULL, 0}` of type `TA_PARAM_NULL`. -/
def pNone : TaParam := ⟨0, none, 0⟩
/-- `CREATE_PARAM(param, input, size)` of type `TA_PARAM_IN`. -/
def CEnv.pIn (e : CEnv) (b : In) : TaParam := ⟨e.tyIn, b.mem, b.len⟩
/-- `if (input != NULL) CREATE_PARAM …; else TA_PARAM_NULL`. -/
def CEnv.pOpt (e : CEnv) (b : In) : TaParam := if b.mem.isSome then e.pIn b else pNone
/-- `if (out != NULL) CREATE_OUT_PARAM(param, out, size); else TA_PARAM_NULL`. -/
def CEnv.pOut (e : CEnv) (out : Bool) (n : Nat) : TaParam := if out then ⟨e.tyOut, some (List.replicate n 0), n⟩ else pNone
/-- A structure made by `CREATE_COMMAND`, in parameter 0 or another one. -/
def CEnv.pStruct (e : CEnv) (b : Bytes) : TaParam := ⟨e.tyIn, some b, b.length⟩
def CEnv.pCmd (e : CEnv) (fields : List Bytes) : TaParam := ⟨e.tyInOut, some fields.flatten, fields.flatten.length⟩
def CEnv.pCmdIn (e : CEnv) (fields : List Bytes) : TaParam := ⟨e.tyIn, some fields.flatten, fields.flatten.length⟩

def params (a b c d : TaParam) : Params := fun i => match i with | 0 => a | 1 => b | 2 => c | 3 => d

/-- A command and its parameters. -/
abbrev Request := Nat × Params

/-- The `api_version` with the padding in front of an 8-byte field: `API_VERSION` is 1, sa_ta_types.h:40. -/
def CEnv.version (e : CEnv) : List Bytes := [le 1 1, e.junk 7]

/-- `if (parameters == NULL) …` and similar. -/
def nullP {α} : Except Status α := .error .NULL_PARAMETER
def invalidP {α} : Except Status α := .error .INVALID_PARAMETER

/-- sa_key_generate.c:51-105.  Key types: 0 SYMMETRIC, 1 EC, 2 RSA, 3 DH. -/
def keyGenerate (e : CEnv) (key : Nat) (rights : Bytes) (type : Nat) (prm : GenPrm) : Except Status Request :=
  let cmd (n : Nat) := e.pCmd (e.version ++ [le 8 key, rights, le 4 type, e.junk 4, le 8 n])
  if prm = .none then nullP
  else match type, prm with
  | 0, .length n => .ok (5, params (cmd n) pNone pNone pNone)
  | 2, .length n => .ok (5, params (cmd n) pNone pNone pNone)
  | 1, .curve n => .ok (5, params (cmd n) pNone pNone pNone)
  | 3, .dh p g => if p.mem.isNone || g.mem.isNone then nullP else .ok (5, params (cmd 0) (e.pIn p) (e.pIn g) pNone)
  | _, _ => invalidP

/-- sa_key_export.c:34-100; without a mixin the size is `mixin_length` (line 82). -/
def keyExport (e : CEnv) (out : Bool) (outLen : Nat) (mixin : In) (key : Nat) : Except Status Request :=
  if out = false ∧ 0 < outLen then nullP
  else if mixin.mem.isNone ∧ 0 < mixin.len then nullP
  else .ok (6, params (e.pCmd (e.version ++ [le 8 outLen, le 8 key])) (e.pOut out outLen)
    (if mixin.mem.isSome then e.pIn mixin else ⟨0, none, mixin.len⟩) pNone)

/-- sa_key_import.c:33-190.  Formats: 0 SYMMETRIC_BYTES, 1 EC_PRIVATE_BYTES, 2 RSA_PRIVATE_KEY_INFO, 3 EXPORTED, 4 SOC, 5 TYPEJ. -/
def keyImport (e : CEnv) (key format : Nat) (src : In) (prm : ImpPrm) : Except Status Request :=
  let cmd (curve : Nat) := e.pCmd (e.version ++ [le 8 key, le 4 format, le 4 curve])
  if src.mem.isNone ∧ 0 < src.len then nullP
  else match format, prm with
  | 0, .rights r => .ok (7, params (cmd 0) (e.pOpt src) (e.pIn ⟨some r, 608⟩) pNone)
  | 2, .rights r => .ok (7, params (cmd 0) (e.pOpt src) (e.pIn ⟨some r, 608⟩) pNone)
  | 1, .ec r c => .ok (7, params (cmd c) (e.pOpt src) (e.pIn ⟨some r, 608⟩) pNone)
  | 3, _ => .ok (7, params (cmd 0) (e.pOpt src) pNone pNone)
  | 5, .typej kc kh => .ok (7, params (cmd 0) (e.pOpt src) (e.pIn ⟨some (le 8 kc ++ le 8 kh), 16⟩) pNone)
  | 4, .soc b =>
    let size := (b.getD 0 0).toNat * 256 + (b.getD 1 0).toNat            -- lines 147-148
    .ok (7, params (cmd 0) (e.pOpt src) (e.pIn ⟨some (b.take size), size⟩) pNone)
  | 4, .none => .ok (7, params (cmd 0) (e.pOpt src) pNone pNone)
  | 0, .none => nullP
  | 1, .none => nullP
  | 2, .none => nullP
  | 5, .none => nullP
  | _, _ => invalidP

/-- The structures of the parameters of an unwrap command, sa_ta_types.h:225-257; lines 104-398.  The tag is copied to the beginning of an array of 16. -/
def unwrapPrm (e : CEnv) (alg : Nat) (prm : UnwPrm) : Except Status (TaParam × TaParam) :=
  match alg, prm with
  | 2, .iv b => ivStruct b
  | 3, .iv b => ivStruct b
  | 4, .iv b => ivStruct b
  | 5, .aead iv aad tag =>
    match iv.mem, tag.mem with
    | .none, _ => nullP
    | .some i, t =>
      if iv.len ≠ 12 then invalidP
      else match t with
      | .none => nullP
      | .some t =>
        if 16 < tag.len then invalidP
        else if aad.mem.isNone ∧ 0 < aad.len then nullP
        else .ok (e.pStruct ([i, e.junk 4, le 8 iv.len, t, e.junk (16 - tag.len), le 8 tag.len].flatten), e.pOpt aad)
  | 9, .chacha counter nonce =>
    match counter.mem, nonce.mem with
    | .none, _ => nullP
    | .some c, n =>
      if counter.len ≠ 4 then invalidP
      else match n with
      | .none => nullP
      | .some n =>
        if nonce.len ≠ 12 then invalidP
        else .ok (e.pStruct ([c, e.junk 4, le 8 counter.len, n, e.junk 4, le 8 nonce.len].flatten), pNone)
  | 10, .aead nonce aad tag =>
    match nonce.mem, tag.mem with
    | .none, _ => nullP
    | .some i, t =>
      if nonce.len ≠ 12 then invalidP
      else match t with
      | .none => nullP
      | .some t =>
        if tag.len ≠ 16 then invalidP
        else if aad.mem.isNone ∧ 0 < aad.len then nullP
        else .ok (e.pStruct ([i, e.junk 4, le 8 nonce.len, t, le 8 tag.len].flatten), e.pOpt aad)
  | 8, .elgamal o n => .ok (e.pStruct ([le 8 o, le 8 n].flatten), pNone)
  | 0, _ => .ok (pNone, pNone)
  | 1, _ => .ok (pNone, pNone)
  | 6, _ => .ok (pNone, pNone)
  | 7, .oaep d m label =>
    if label.mem.isNone ∧ label.len ≠ 0 then nullP else .ok (e.pStruct ([le 4 d, le 4 m].flatten), e.pOpt label)
  | 2, .none => nullP
  | 3, .none => nullP
  | 4, .none => nullP
  | 5, .none => nullP
  | 7, .none => nullP
  | 8, .none => nullP
  | 9, .none => nullP
  | 10, .none => nullP
  | _, _ => invalidP
where
  ivStruct (b : In) : Except Status (TaParam × TaParam) :=
    match b.mem with
    | .none => nullP
    | .some i => if b.len ≠ 16 then invalidP else .ok (e.pStruct i, pNone)

/-- sa_key_unwrap.c:36-435.  Key type 1 is EC. -/
def keyUnwrap (e : CEnv) (key : Nat) (rights : Bytes) (type : Nat) (curve : Option Nat) (alg : Nat) (prm : UnwPrm) (wrapping : Nat) (src : In) :
    Except Status Request :=
  if src.mem.isNone ∧ 0 < src.len then nullP
  else if type = 1 ∧ curve = none then nullP
  else match unwrapPrm e alg prm with
  | .error s => .error s
  | .ok (p2, p3) =>
    let c := if type = 1 then curve.getD 0 else 0
    .ok (8, params (e.pCmd (e.version ++ [le 8 key, rights, le 4 type, le 4 c, le 4 alg, e.junk 4, le 8 wrapping])) (e.pOpt src) p2 p3)

/-- The four inputs of a key ladder, sa_key_derive.c:74-128. -/
def ladder : List In → Except Status Bytes
  | [] => .ok []
  | c :: cs =>
    match c.mem with
    | .none => nullP
    | .some b => if c.len ≠ 16 then invalidP else
      match ladder cs with
      | .error s => .error s
      | .ok r => .ok (b ++ r)

/-- The structures of the parameters of a derive command, sa_ta_types.h:279-310; sa_key_derive.c:65-319. -/
def derivePrm (e : CEnv) (alg : Nat) (prm : KdfPrm) : Except Status (TaParam × TaParam × TaParam) :=
  match alg, prm with
  | 0, .ladder c1 c2 c3 c4 => match ladder [c1, c2, c3, c4] with | .error s => .error s | .ok b => .ok (e.pStruct b, pNone, pNone)
  | 6, .ladder c1 c2 c3 c4 => match ladder [c1, c2, c3, c4] with | .error s => .error s | .ok b => .ok (e.pStruct b, pNone, pNone)
  | 1, .hkdf n d k salt info =>
    if info.mem.isNone ∧ 0 < info.len then nullP
    else if salt.mem.isNone ∧ 0 < salt.len then nullP
    else .ok (e.pStruct ([le 8 n, le 4 d, e.junk 4, le 8 k].flatten), e.pOpt info, e.pOpt salt)
  | 2, .info n d k info =>
    if info.mem.isNone ∧ 0 < info.len then nullP else .ok (e.pStruct ([le 8 n, le 4 d, e.junk 4, le 8 k].flatten), e.pOpt info, pNone)
  | 3, .info n d k info =>
    if info.mem.isNone ∧ 0 < info.len then nullP else .ok (e.pStruct ([le 8 n, le 4 d, e.junk 4, le 8 k].flatten), e.pOpt info, pNone)
  | 4, .cmac n k c other =>
    if other.mem.isNone ∧ 0 < other.len then nullP else .ok (e.pStruct ([le 8 n, le 8 k, le 1 c, e.junk 7].flatten), e.pOpt other, pNone)
  | 5, .netflix ke kh => .ok (e.pStruct ([le 8 ke, le 8 kh].flatten), pNone, pNone)
  | 0, .none => nullP
  | 1, .none => nullP
  | 2, .none => nullP
  | 3, .none => nullP
  | 4, .none => nullP
  | 5, .none => nullP
  | 6, .none => nullP
  | _, _ => invalidP

/-- sa_key_derive.c:24-349. -/
def keyDerive (e : CEnv) (key : Nat) (rights : Bytes) (alg : Nat) (prm : KdfPrm) : Except Status Request :=
  match derivePrm e alg prm with
  | .error s => .error s
  | .ok (p1, p2, p3) => .ok (10, params (e.pCmd (e.version ++ [le 8 key, rights, le 4 alg, e.junk 4])) p1 p2 p3)

/-- sa_key_exchange.c:35-156.  Algorithm 2 is NETFLIX_AUTHENTICATED_DH. -/
def keyExchange (e : CEnv) (key : Nat) (rights : Bytes) (alg priv : Nat) (pub : In) (prm : ExPrm) : Except Status Request :=
  let cmd := e.pCmd (e.version ++ [le 8 key, rights, le 4 alg, e.junk 4, le 8 priv])
  if pub.mem.isNone then nullP
  else if alg = 2 then
    match prm with
    | .none => nullP
    | .netflix kw ke rke kh rkh =>
      let b := [le 8 kw, le 8 ke, rke, le 8 kh, rkh].flatten
      .ok (11, params cmd (e.pIn pub) ⟨e.tyInOut, some b, b.length⟩ pNone)
  else .ok (11, params cmd (e.pIn pub) pNone pNone)

/-- sa_crypto_cipher_init.c:33-285: the parameters. -/
def cipherPrm (e : CEnv) (alg : Nat) (prm : CipPrm) : Except Status (TaParam × TaParam) :=
  match alg, prm with
  | 0, _ => .ok (pNone, pNone)
  | 1, _ => .ok (pNone, pNone)
  | 6, _ => .ok (pNone, pNone)
  | 8, _ => .ok (pNone, pNone)
  | 2, .iv b => if b.mem.isNone then nullP else .ok (e.pIn b, pNone)
  | 3, .iv b => if b.mem.isNone then nullP else .ok (e.pIn b, pNone)
  | 4, .iv b => if b.mem.isNone then nullP else .ok (e.pIn b, pNone)
  | 5, .aead iv aad => if iv.mem.isNone then nullP else if aad.mem.isNone ∧ 0 < aad.len then nullP else .ok (e.pIn iv, e.pOpt aad)
  | 10, .aead iv aad => if iv.mem.isNone then nullP else if aad.mem.isNone ∧ 0 < aad.len then nullP else .ok (e.pIn iv, e.pOpt aad)
  | 9, .chacha counter nonce => if counter.mem.isNone then nullP else if nonce.mem.isNone then nullP else .ok (e.pIn nonce, e.pIn counter)
  | 7, .oaep d m label =>
    if label.mem.isNone ∧ label.len ≠ 0 then nullP else .ok (e.pStruct ([le 4 d, le 4 m].flatten), e.pOpt label)
  | 2, .none => nullP
  | 3, .none => nullP
  | 4, .none => nullP
  | 5, .none => nullP
  | 7, .none => nullP
  | 9, .none => nullP
  | 10, .none => nullP
  | _, _ => invalidP

/-- sa_crypto_cipher_init.c:25-295. -/
def cipherInit (e : CEnv) (context alg mode key : Nat) (prm : CipPrm) : Except Status Request :=
  match cipherPrm e alg prm with
  | .error s => .error s
  | .ok (p1, p2) => .ok (16, params (e.pCmd (e.version ++ [le 8 context, le 4 alg, le 4 mode, le 8 key])) p1 p2 pNone)

/-- `sa_buffer` → parameter and offset field, sa_crypto_cipher_process.c:63-125: of clear memory the part from the offset on is given, with offset 0; of an
SVP buffer its handle. -/
def bufPrm (e : CEnv) (out : Bool) : Buf → Except Status (TaParam × Nat)
  | .clear m o =>
    match m.mem with
    | .none => nullP
    | .some b =>
      if m.len < o then invalidP
      else if out then .ok (e.pOut true (m.len - o), 0)
      else .ok (e.pIn ⟨some (b.drop o), m.len - o⟩, 0)
  | .svp h o => .ok (e.pIn ⟨some (le 8 h), 8⟩, o)

/-- The type code of a buffer. -/
def Buf.type : Buf → Nat
  | .clear _ _ => 0
  | .svp _ _ => 1

/-- The output buffer, which may be NULL, lines 63-93. -/
def outPrm (e : CEnv) : Option Buf → Except Status (TaParam × Nat)
  | none => .ok (pNone, 0)
  | some b => bufPrm e true b

/-- sa_crypto_cipher_process.c:25-160 and sa_crypto_cipher_process_last.c:25-195.  `tag`: parameter 3 of the latter. -/
def cipherProcess (e : CEnv) (id : Nat) (out : Option Buf) (context : Nat) (src : Buf) (bytes : Nat) (tag : Except Status TaParam) : Except Status Request :=
  match outPrm e out with
  | .error s => .error s
  | .ok (p1, o1) =>
    match bufPrm e false src with
    | .error s => .error s
    | .ok (p2, o2) =>
      match tag with
      | .error s => .error s
      | .ok p3 =>
        .ok (id, params (e.pCmd (e.version ++ [le 8 context, le 8 bytes, le 4 ((out.map Buf.type).getD 0), e.junk 4, le 8 o1, le 4 src.type, e.junk 4, le 8 o2]))
          p1 p2 p3)

/-- sa_crypto_cipher_process_last.c:130-148. -/
def tagPrm (e : CEnv) : Option In → Except Status TaParam
  | none => .ok pNone
  | some t => if t.mem.isNone then nullP else .ok ⟨e.tyInOut, t.mem, t.len⟩

/-- sa_crypto_sign.c:25-140.  Algorithms: 0 RSA_PKCS1V15, 1 RSA_PSS, 2 ECDSA, 3 EDDSA.  The salt length is not set for 0 and 2. -/
def sign (e : CEnv) (out : Bool) (outLen alg key : Nat) (src : In) (prm : SigPrm) : Except Status Request :=
  let cmd (digest : Nat) (salt : Bytes) (mgf1 : Nat) (pre : Bool) :=
    e.pCmd (e.version ++ [le 8 outLen, le 4 alg, le 4 digest, le 8 key, salt, le 4 mgf1, le 1 (if pre then 1 else 0), e.junk 3])
  let req (c : TaParam) := (26, params c (e.pOut out outLen) (e.pOpt src) pNone)
  if src.mem.isNone ∧ 0 < src.len then nullP
  else match alg, prm with
  | 1, .pss d m pre salt => .ok (req (cmd d (le 8 salt) m pre))
  | 0, .digest d pre => .ok (req (cmd d (e.junk 8) 0 pre))
  | 2, .digest d pre => .ok (req (cmd d (e.junk 8) 0 pre))
  | 0, _ => nullP
  | 1, _ => nullP
  | 2, _ => nullP
  | _, _ => .ok (req (cmd 0 (le 8 0) 0 false))

/-- `sa_svp_offset_s`, sa_ta_types.h:465-469. -/
def offsetBytes (o : Offset) : Bytes := le 8 o.dst ++ (le 8 o.src ++ le 8 o.length)

/-- sa_svp_buffer_write.c:27-95.  The loop of lines 68-72 reads `offsets->…`, that is the first offset, in every round. -/
def svpWrite (e : CEnv) (out : Nat) (src : In) (offsets : List Offset) : Except Status Request :=
  if src.mem.isNone ∨ src.len = 0 then nullP
  else
    let table := (offsets.map (fun _ => offsetBytes (offsets.headD ⟨0, 0, 0⟩))).flatten
    .ok (32, params (e.pCmd (e.version ++ [le 8 out])) (e.pIn src) (e.pIn ⟨some table, offsets.length * 24⟩) pNone)

/-- sa_svp_buffer_copy.c:27-85. -/
def svpCopy (e : CEnv) (out src : Nat) (offsets : List Offset) : Except Status Request :=
  let table := (offsets.map offsetBytes).flatten
  .ok (33, params (e.pCmd (e.version ++ [le 8 out, le 8 src])) (e.pIn ⟨some table, offsets.length * 24⟩) pNone pNone)

/-- sa_svp_key_check.c:27-105: here the whole clear buffer is given, with its offset. -/
def svpKeyCheck (e : CEnv) (key : Nat) (src : Buf) (bytes : Nat) (expected : In) : Except Status Request :=
  let req (type off : Nat) (p1 : TaParam) : Request :=
    (34, params (e.pCmd (e.version ++ [le 8 key, le 4 type, e.junk 4, le 8 off, le 8 bytes])) p1 (e.pIn expected) pNone)
  if expected.mem.isNone then nullP
  else match src with
  | .clear m o => if m.mem.isNone then nullP else .ok (req 0 o (e.pIn m))
  | .svp h o => .ok (req 1 o (e.pIn ⟨some (le 8 h), 8⟩))

/-- `sa_subsample_length`, two `size_t`. -/
def subBytes (s : Nat × Nat) : Bytes := le 8 s.1 ++ le 8 s.2

/-- One round of the loop of sa_process_common_encryption.c:55-183 up to the invocation.  The array given is that of the application (line 111), which has
the layout of the array of `sa_subsample_length_s` that is built in lines 99-109. -/
def cenc (e : CEnv) (s : Smp) : Except Status Request :=
  match s.iv.mem with
  | none => nullP
  | some iv =>
    if s.iv.len ≠ 16 then invalidP
    else match bufPrm e true s.out with
    | .error x => .error x
    | .ok (p2, o2) =>
      match bufPrm e false s.src with
      | .error x => .error x
      | .ok (p3, o3) =>
        .ok (36, params (e.pCmd [le 1 1, iv, e.junk 7, le 8 s.crypt, le 8 s.skip, le 8 s.subs.length, le 8 s.context, le 4 s.out.type, e.junk 4, le 8 o2,
            le 4 s.src.type, e.junk 4, le 8 o3])
          (e.pIn ⟨some (s.subs.map subBytes).flatten, s.subs.length * 16⟩) p2 p3)

/-- The functions of the API up to `ta_invoke_command`. -/
def request (e : CEnv) : Call → Except Status Request
  | .getVersion v => .ok (1, params (e.pCmd (e.version ++ [v])) pNone pNone pNone)                               -- sa_get_version.c
  | .getName out n => .ok (2, params (e.pCmd (e.version ++ [le 8 n])) (e.pOut out n) pNone pNone)                -- sa_get_name.c
  | .getDeviceId i => .ok (3, params (e.pCmd (e.version ++ [le 8 i])) pNone pNone pNone)                         -- sa_get_device_id.c
  | .getTaUuid u => .ok (4, params (e.pCmd [le 1 1, u]) pNone pNone pNone)                                       -- sa_get_ta_uuid.c
  | .keyGenerate k r t p => keyGenerate e k r t p
  | .keyExport o n m k => keyExport e o n m k
  | .keyImport k f s p => keyImport e k f s p
  | .keyUnwrap k r t c a p w s => keyUnwrap e k r t c a p w s
  | .keyGetPublic o n k => .ok (9, params (e.pCmd (e.version ++ [le 8 n, le 8 k])) (e.pOut o n) pNone pNone)     -- sa_key_get_public.c
  | .keyDerive k r a p => keyDerive e k r a p
  | .keyExchange k r a pk pub p => keyExchange e k r a pk pub p
  | .keyRelease k => .ok (12, params (e.pCmdIn (e.version ++ [le 8 k])) pNone pNone pNone)                       -- sa_key_release.c
  | .keyHeader k => .ok (13, params (e.pCmd (e.version ++ [le 8 k])) (e.pOut true 1672) pNone pNone)             -- sa_key_header.c
  | .keyDigest o n k d => .ok (14, params (e.pCmd (e.version ++ [le 8 n, le 8 k, le 4 d, e.junk 4])) (e.pOut o n) pNone pNone)  -- sa_key_digest.c
  | .random o n => if o then .ok (15, params (e.pCmdIn [le 1 1]) (e.pOut true n) pNone pNone) else nullP         -- sa_crypto_random.c
  | .cipherInit c a m k p => cipherInit e c a m k p
  | .cipherUpdateIv c iv =>                                                                                       -- sa_crypto_cipher_update_iv.c
    if iv.mem.isNone then nullP else .ok (17, params (e.pCmdIn (e.version ++ [le 8 c])) (e.pIn iv) pNone pNone)
  | .cipherProcess o c s n => cipherProcess e 18 o c s n (.ok pNone)
  | .cipherProcessLast o c s n t => cipherProcess e 19 o c s n (tagPrm e t)
  | .cipherRelease c => .ok (20, params (e.pCmdIn (e.version ++ [le 8 c])) pNone pNone pNone)                    -- sa_crypto_cipher_release.c
  | .macInit c a k d =>                                                                                           -- sa_crypto_mac_init.c, 1 is HMAC
    if a = 1 ∧ d = none then nullP
    else .ok (21, params (e.pCmd (e.version ++ [le 8 c, le 4 a, e.junk 4, le 8 k, le 4 (if a = 1 then d.getD 0 else 0), e.junk 4])) pNone pNone pNone)
  | .macProcess c s =>                                                                                            -- sa_crypto_mac_process.c
    if s.mem.isNone ∧ 0 < s.len then nullP else .ok (22, params (e.pCmdIn (e.version ++ [le 8 c])) (e.pOpt s) pNone pNone)
  | .macProcessKey c k => .ok (23, params (e.pCmdIn (e.version ++ [le 8 c, le 8 k])) pNone pNone pNone)          -- sa_crypto_mac_process_key.c
  | .macCompute o n c => .ok (24, params (e.pCmd (e.version ++ [le 8 n, le 8 c])) (e.pOut o n) pNone pNone)      -- sa_crypto_mac_compute.c
  | .macRelease c => .ok (25, params (e.pCmdIn (e.version ++ [le 8 c])) pNone pNone pNone)                       -- sa_crypto_mac_release.c
  | .sign o n a k s p => sign e o n a k s p
  | .svpSupported => .ok (27, params (e.pCmdIn [le 1 1]) pNone pNone pNone)                                      -- sa_svp_supported.c
  | .svpCreate b m n => .ok (29, params (e.pCmd (e.version ++ [le 8 b, le 8 m, le 8 n])) pNone pNone pNone)      -- sa_svp_buffer_create.c
  | .svpRelease b => .ok (31, params (e.pCmd (e.version ++ [e.junk 8, e.junk 8, le 8 b])) pNone pNone pNone)     -- sa_svp_buffer_release.c
  | .svpWrite o s offs => svpWrite e o s offs
  | .svpCopy o s offs => svpCopy e o s offs
  | .svpKeyCheck k s n x => svpKeyCheck e k s n x
  | .svpCheck b o n d h =>                                                                                        -- sa_svp_buffer_check.c
    if h.mem.isNone then nullP
    else .ok (35, params (e.pCmdIn (e.version ++ [le 8 b, le 8 o, le 8 n, le 4 d, e.junk 4])) (e.pIn h) pNone pNone)
  | .cenc s => cenc e s

end Sa.Cl

import Verif.Model.Basic

/-!
# Digests of the OpenSSL 3 provider (`client/src/sa_provider_digest.c`)

The digests of OpenSSL's own providers, which this code passes everything on to, are a parameter.  Which of the calls that can fail do fail is part
of an operation; a call of OpenSSL that fails leaves its context as it was.  NULL arguments and parameters given to `digest_init` are left out.
-/

namespace Sa.Pd

/-- An `EVP_MD_CTX` of OpenSSL: what the calls do, with `none` a failure. -/
structure Lib (σ : Type) where
  /-- `EVP_MD_CTX_new` -/
  fresh : σ
  /-- `EVP_DigestInit_ex2` -/
  init : σ → Nat → Option σ
  /-- `EVP_DigestUpdate` -/
  upd : σ → List UInt8 → Option σ
  /-- `EVP_DigestFinal_ex` -/
  fin : σ → Option (σ × List UInt8)
  /-- `EVP_MD_CTX_gettable_params` and `EVP_MD_CTX_settable_params` -/
  gettable : σ → List String
  settable : σ → List String

/-- The four digests: their number in the API and the length given to `digest_newctx`, sa_provider_digest.c:350-353. -/
inductive Name
  | sha1 | sha256 | sha384 | sha512
  deriving DecidableEq

def Name.md : Name → Nat
  | .sha1 => 0
  | .sha256 => 1
  | .sha384 => 2
  | .sha512 => 3

def Name.length : Name → Nat
  | .sha1 => 20
  | .sha256 => 32
  | .sha384 => 48
  | .sha512 => 64

/-- `sa_provider_digest_context`, sa_provider_digest.c:32-37: `none` is NULL. -/
structure Ctx (σ : Type) where
  md : Option Nat
  mdCtx : Option σ
  size : Nat

/-- The contexts by the order of creation (`none`: freed, or never made), and how many contexts, references to `EVP_MD`s and `EVP_MD_CTX`s of
this code there are. -/
structure World (σ : Type) where
  ctxs : List (Option (Ctx σ))
  mem : Int
  refs : Int
  mds : Int

def empty (σ : Type) : World σ := ⟨[], 0, 0, 0⟩

/-- Operations of the application, with the calls that succeed: `OPENSSL_zalloc`, `EVP_MD_fetch`, `EVP_MD_CTX_new`, `EVP_MD_CTX_copy`,
`EVP_MD_up_ref`. -/
inductive Op
  | new (n : Name) (zalloc fetch ctxNew : Bool)
  | dup (i : Nat) (zalloc ctxNew copy upRef : Bool)
  | init (i : Nat)
  | update (i : Nat) (b : List UInt8)
  | final (i : Nat) (outsz : Nat)
  | free (i : Nat)
  deriving DecidableEq

/-- What an operation answers.  `overflow`: more is written than there is room for. -/
inductive Ans
  | made (i : Nat)
  | ok
  | fail
  | digest (d : List UInt8)
  | overflow
  | invalid
  deriving DecidableEq

/-- `digest_freectx`, sa_provider_digest.c:102-112; `EVP_MD_free` and `EVP_MD_CTX_free` do nothing with NULL. -/
def freectx (w : World σ) (c : Ctx σ) : World σ :=
  let w := { w with refs := w.refs - if c.md.isSome then 1 else 0 }
  let w := { w with mds := w.mds - if c.mdCtx.isSome then 1 else 0 }
  { w with mem := w.mem - 1 }

/-- `digest_newctx`, sa_provider_digest.c:62-100. -/
def newctx (L : Lib σ) (w : World σ) (n : Name) (zalloc fetch ctxNew : Bool) : World σ × Option (Ctx σ) :=
  if !zalloc then (w, none)
  else
    let w := { w with mem := w.mem + 1 }
    if !fetch then ({ w with mem := w.mem - 1 }, none)
    else
      let w := { w with refs := w.refs + 1 }
      if !ctxNew then ({ w with mem := w.mem - 1, refs := w.refs - 1 }, none)
      else ({ w with mds := w.mds + 1 }, some ⟨some n.md, some L.fresh, n.length⟩)

/-- `digest_dupctx`, sa_provider_digest.c:114-154: `digest_size` of the new context is assigned to itself and stays 0. -/
def dupctx (L : Lib σ) (w : World σ) (c : Ctx σ) (zalloc ctxNew copy upRef : Bool) : World σ × Option (Ctx σ) :=
  if !zalloc then (w, none)
  else
    let w := { w with mem := w.mem + 1 }
    let n : Ctx σ := ⟨none, none, 0⟩
    if !ctxNew then (freectx w n, none)
    else
      let w := { w with mds := w.mds + 1 }
      let n := { n with mdCtx := some L.fresh }
      if !copy then (freectx w n, none)
      else
        let n := { n with mdCtx := c.mdCtx }
        if !upRef then (freectx w { n with md := none }, none)
        else ({ w with refs := w.refs + 1 }, some { n with md := c.md, size := n.size })

/-- `digest_init`, sa_provider_digest.c:156-172. -/
def init (L : Lib σ) (c : Ctx σ) : Ctx σ × Ans :=
  match c.md, c.mdCtx with
  | some a, some s => match L.init s a with
    | some t => ({ c with mdCtx := some t }, .ok)
    | none => (c, .fail)
  | _, _ => (c, .fail)

/-- `digest_update`, sa_provider_digest.c:174-191. -/
def update (L : Lib σ) (c : Ctx σ) (b : List UInt8) : Ctx σ × Ans :=
  match c.mdCtx with
  | some s => match L.upd s b with
    | some t => ({ c with mdCtx := some t }, .ok)
    | none => (c, .fail)
  | none => (c, .fail)

/-- `digest_final`, sa_provider_digest.c:193-228, with `outsz` bytes of room at `out`; `EVP_DigestFinal_ex` knows nothing of the room. -/
def final (L : Lib σ) (c : Ctx σ) (outsz : Nat) : Ctx σ × Ans :=
  if outsz < c.size then (c, .fail)
  else match c.mdCtx with
    | some s => match L.fin s with
      | some (t, d) => ({ c with mdCtx := some t }, if d.length ≤ outsz then .digest d else .overflow)
      | none => (c, .fail)
    | none => (c, .fail)

/-- `digest_gettable_ctx_params` and `digest_settable_ctx_params`, sa_provider_digest.c:293-317. -/
def gettable (L : Lib σ) (c : Ctx σ) : List String := match c.mdCtx with
  | some s => L.settable s
  | none => []

def settable (L : Lib σ) (c : Ctx σ) : List String := match c.mdCtx with
  | some s => L.gettable s
  | none => []

/-- A new context gets the next number, whether or not it was made. -/
def put (r : World σ × Option (Ctx σ)) : World σ × Ans :=
  ({ r.1 with ctxs := r.1.ctxs ++ [r.2] }, match r.2 with
    | some _ => .made r.1.ctxs.length
    | none => .fail)

/-- A context is used. -/
def with_ (w : World σ) (i : Nat) (f : Ctx σ → Ctx σ × Ans) : World σ × Ans :=
  match w.ctxs[i]? with
  | some (some c) => ({ w with ctxs := w.ctxs.set i (some (f c).1) }, (f c).2)
  | _ => (w, .invalid)

/-- An operation; one on a context that there is not is the application's mistake and does nothing here. -/
def step (L : Lib σ) (w : World σ) : Op → World σ × Ans
  | .new n zalloc fetch ctxNew => put (newctx L w n zalloc fetch ctxNew)
  | .dup i zalloc ctxNew copy upRef => match w.ctxs[i]? with
    | some (some c) => put (dupctx L w c zalloc ctxNew copy upRef)
    | _ => (w, .invalid)
  | .init i => with_ w i (init L)
  | .update i b => with_ w i fun c => update L c b
  | .final i outsz => with_ w i fun c => final L c outsz
  | .free i => match w.ctxs[i]? with
    | some (some c) => ({ freectx w c with ctxs := w.ctxs.set i none }, .ok)
    | _ => (w, .invalid)

/-- Many operations: the world they leave, and the operations with their answers, the last first. -/
def run (L : Lib σ) : List Op → World σ × List (Op × Ans)
  | [] => (empty σ, [])
  | op :: earlier =>
    let r := run L earlier
    ((step L r.1 op).1, (op, (step L r.1 op).2) :: r.2)

end Sa.Pd

import Verif.Model.Mac

/-!
# MAC contexts: what the calls and their responses say about a context, and what is assumed of OpenSSL
-/

namespace Sa

variable {σ : Type}

/-- What the caller knows about a context from the calls and their responses alone. -/
structure MacEntry where
  kind : MacKind
  key : Bytes
  owner : Uuid
  /-- all data and keys processed successfully, in order -/
  msg : Bytes
  /-- a MAC has been returned -/
  done : Bool

/-- The kind of MAC an init call asks for. -/
def macKindOf (alg : Nat) (digest : Option Nat) : MacKind := if alg = MAC_HMAC then .hmac (digest.getD 0) else .cmac

/-- How one call with its response changes what is known about handle `h`. -/
def MacEntry.track (h : Nat) (e : Option MacEntry) (c : MacOp × MacResp) : Option MacEntry :=
  if c.2.status ≠ .OK then e
  else match c.1 with
    | .init alg digest key _ _ u =>
      if c.2.handle = h then some ⟨macKindOf alg digest, (key.2.map (·.key)).getD [], u, [], false⟩ else e
    | .process h' input _ => if h' = h then e.map fun x => { x with msg := x.msg ++ input.getD [] } else e
    | .processKey h' key _ => if h' = h then e.map fun x => { x with msg := x.msg ++ (key.2.map (·.key)).getD [] } else e
    | .compute h' out _ => if h' = h ∧ out.isSome then e.map fun x => { x with done := true } else e
    | .release h' _ => if h' = h then none else e

/-- What is known about handle `h` after a history. -/
def macTrack (hist : List (MacOp × MacResp)) (h : Nat) : Option MacEntry := hist.foldl (MacEntry.track h) none

/-- What is assumed of OpenSSL: contexts are of some kind, for some key, and have absorbed some string; updating appends (or, if it fails,
does nothing), finishing gives the MAC of the string. -/
structure MacPrim.Good (p : MacPrim σ) (mac : MacKind → Bytes → Bytes → Bytes) (view : σ → MacKind × Bytes × Bytes) : Prop where
  create : ∀ k key s, p.create k key = some s → view s = (k, key, [])
  update : ∀ s bs, (p.update s bs).2 = true → view (p.update s bs).1 = ((view s).1, (view s).2.1, (view s).2.2 ++ bs)
  updateFail : ∀ s bs, (p.update s bs).2 = false → view (p.update s bs).1 = view s
  final : ∀ s m, (p.final s).2 = some m → m = mac (view s).1 (view s).2.1 (view s).2.2

end Sa

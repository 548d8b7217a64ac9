import Verif.Lemmas.Whole
import Verif.Lemmas.Netflix
import Verif.Lemmas.UnwrapOp
import Verif.Props.C29
import Verif.Props.C30
import Verif.Props.C31
import Verif.Props.C40
import Verif.Props.C52
import Verif.Props.C61
import Verif.Props.C69
import Verif.Props.C99
import Verif.Props.C101

/-!
# What every call on the table of keys keeps
-/

namespace Sa.Whole

variable {κ ρ π σ τ : Type}

/-! ## No references are left behind -/

theorem ksStep_idle (p : Prims) (hp : p.Good) (st : KeyStore) (inv : KsInv p st) (hi : ∀ h, (st.obj h).referenceCount = 0) (op : KsOp) (hf : op.Fits) (r : KeyStore × KsResp)
    (hs : ksStep p st op = some r) (h : Nat) : (r.1.obj h).referenceCount = 0 := by
  have imp : ∀ env : Env, env.prims = p → ∀ sk, HeaderMade sk.header → KeySmall sk.key → ∀ caller,
      ((keyStoreImportStoredKey env st sk caller).1.obj h).referenceCount = 0 := by
    intro env he sk hm hk caller
    subst he
    obtain ⟨_, _, h'⟩ := importStoredKey_spec env hp st inv sk hm hk caller
    rcases h' with ⟨_, _, h'⟩ | ⟨_, _, h2, w, _, h'⟩
    · rw [h']; exact hi h
    · rw [h']; split
      · rfl
      · exact hi h
  cases op with
  | create env rights parent keyType tp size bytes caller =>
    simp only [ksStep] at hs
    rcases storedKeyCreate_cases (env.ok .storedKeyAlloc) rights parent keyType tp size bytes with ⟨sk, h⟩ | ⟨s, _, h⟩
    · rw [h] at hs
      obtain ⟨_, _, _, _, _, h6, h7⟩ := storedKeyCreate_ok h
      have hks : KeySmall sk.key := by
        unfold KeySmall paddedSize; rw [h6]; simp only [KsOp.Fits] at hf; omega
      simp only [Option.some.injEq] at hs
      rw [← hs]; exact imp { env with prims := p } rfl sk h7 hks caller
    · rw [h] at hs
      split at hs
      · rename_i heq; simp at heq
      · simp only [Option.some.injEq] at hs; rw [← hs]; exact hi _
  | importExported env bytes caller =>
    simp only [ksStep] at hs
    rcases importExported_spec { env with prims := p } hp st bytes hf caller with ⟨r', h, h'⟩ | ⟨sk, h, hm, hsm, _⟩
    · rw [h, h'] at hs; simp only [Option.map_some, Option.some.injEq] at hs; rw [← hs]; exact hi _
    · rw [h] at hs; simp only [Option.map_some, Option.some.injEq] at hs
      rw [← hs]; exact imp { env with prims := p } rfl sk hm hsm caller
  | unwrap env k caller =>
    simp only [ksStep] at hs
    obtain ⟨s, sk, h, _⟩ := ksUnwrap_cases { env with prims := p } hp st inv k caller
    rw [h] at hs; simp only [Option.map_some, Option.some.injEq] at hs; rw [← hs]; exact hi _
  | header k caller =>
    simp only [ksStep, Option.some.injEq] at hs
    rw [← hs]; simp only; rw [ksHeader_store st inv.len]; exact hi _
  | «export» env k mixin out outLength caller =>
    simp only [ksStep] at hs
    obtain ⟨r', h, hst, _⟩ := ksExport_cases { env with prims := p } hp st inv k mixin out outLength hf caller
    rw [h] at hs; simp only [Option.map_some, Option.some.injEq] at hs; rw [← hs]; simp only [hst]; exact hi _
  | remove k caller =>
    simp only [ksStep, keyStoreRemove] at hs
    rcases remove_spec st inv.toLiveInv k caller with ⟨h, _⟩ | ⟨h, _⟩ | ⟨st', h, h1, _⟩ | ⟨st', o, h, h2, h3, _, _, _, _, h4⟩
    · rw [h] at hs; simp only [Option.some.injEq] at hs; rw [← hs]; exact hi _
    · rw [h] at hs; simp only [Option.some.injEq] at hs; rw [← hs]; exact hi _
    · rw [h] at hs; simp only [Option.some.injEq] at hs; rw [← hs]
      simp only [ObjectStore.obj, h1]; exact hi _
    · rw [h] at hs; simp only [Option.some.injEq] at hs; rw [← hs]
      simp only [h4]
      split
      · rfl
      · exact hi _

theorem ksReachable_idle (p : Prims) (hp : p.Good) (st : KeyStore) (hr : KsReachable p st) (h : Nat) : (st.obj h).referenceCount = 0 := by
  obtain ⟨n, st0, ops, hn, h0, hf, ha⟩ := hr
  have inv0 := (ksInv_init p n hn st0 h0).1
  have idle0 : ∀ h, (st0.obj h).referenceCount = 0 := by
    obtain ⟨_, _, _, _, h5⟩ := objectStoreInit_inv n st0 hn h0
    intro h; simp [h5, StoreObject.zero]
  clear h0
  induction ops generalizing st0 with
  | nil => simp only [ksAfter, Option.some.injEq] at ha; rw [← ha]; exact idle0 h
  | cons op ops ih =>
    obtain ⟨r, h1, h2, _⟩ := ksStep_inv p hp st0 inv0 op (hf op (by simp))
    unfold ksAfter at ha
    rw [h1] at ha
    exact ih r.1 (fun o ho => hf o (by simp [ho])) ha h2 (ksStep_idle p hp st0 inv0 idle0 op (hf op (by simp)) r h1)

/-! ## What calls keep -/

/-- The same handles are in use, for the same. -/
def Alike (st st' : KeyStore) : Prop := ∀ x, st'.obj x = st.obj x ∨ ((st'.obj x).object = none ∧ (st.obj x).object = none)

theorem Alike.refl (st : KeyStore) : Alike st st := fun _ => Or.inl rfl

theorem Alike.trans {a b c : KeyStore} (h : Alike a b) (h' : Alike b c) : Alike a c := fun x => by
  rcases h x with e | ⟨e1, e2⟩ <;> rcases h' x with f | ⟨f1, f2⟩
  · exact Or.inl (f.trans e)
  · exact Or.inr ⟨f1, by rw [← e]; exact f2⟩
  · exact Or.inr ⟨by rw [f]; exact e1, e2⟩
  · exact Or.inr ⟨f1, e2⟩

theorem _root_.Sa.Unchanged.alike {st st' : KeyStore} (h : Unchanged st st') : Alike st st' := fun x => Or.inl (h x)

/-- A handle that is new was free. -/
theorem _root_.Sa.NewKey.free {p : Prims} (hp : p.Good) {st st' : KeyStore} (hr : KsReachable p st) {h : Nat} {u : Uuid} {d : StoredKey} (n : NewKey p st st' h u d) : (st.obj h).object = none := by
  cases ho : (st.obj h).object with
  | none => rfl
  | some w =>
    have inv := ksReachable_inv p hp st hr
    obtain ⟨sk, hw, _⟩ := inv.keys h w ho
    have := holds_of p hp st inv h _ w sk ho rfl hw
    exact absurd (by rw [this.1]) (n.before (st.obj h).ownerUuid)

/-- What is made, is there. -/
theorem _root_.Sa.NewKey.there {p : Prims} (hp : p.Good) {st st' : KeyStore} (hr : KsReachable p st') {h : Nat} {u : Uuid} {d : StoredKey} (n : NewKey p st st' h u d) :
    (st'.obj h).object.isSome ∧ (st'.obj h).ownerUuid = u := by
  obtain ⟨w, _, h1, h2, _⟩ := ksHeader_ok p st' (ksReachable_inv p hp st' hr) h u st' d.header n.holds.1
  exact ⟨by rw [h1]; rfl, h2⟩

/-- The keys named in `new` were added for `u`, which were not there before, and nothing else changed. -/
structure Grown (st st' : KeyStore) (u : Uuid) (new : List Nat) : Prop where
  was : ∀ x ∈ new, (st.obj x).object = none
  is : ∀ x ∈ new, (st'.obj x).object.isSome ∧ (st'.obj x).ownerUuid = u
  others : ∀ x, x ∉ new → st'.obj x = st.obj x ∨ ((st'.obj x).object = none ∧ (st.obj x).object = none)

theorem Grown.none {st st' : KeyStore} (u : Uuid) (h : Alike st st') : Grown st st' u [] := ⟨by simp, by simp, fun x _ => h x⟩

theorem Grown.one {p : Prims} (hp : p.Good) {st st' : KeyStore} (hr : KsReachable p st) (hr' : KsReachable p st') {h : Nat} {u : Uuid} {d : StoredKey} (n : NewKey p st st' h u d) :
    Grown st st' u [h] := by
  refine ⟨fun x hx => ?_, fun x hx => ?_, fun x hx => Or.inl (n.others x (by simpa using hx))⟩
  · rw [List.mem_singleton.1 hx]; exact n.free hp hr
  · rw [List.mem_singleton.1 hx]; exact n.there hp hr'

theorem Grown.append {a b c : KeyStore} {u : Uuid} {x y : List Nat} (h : Grown a b u x) (h' : Grown b c u y) : Grown a c u (y ++ x) := by
  refine ⟨fun z hz => ?_, fun z hz => ?_, fun z hz => ?_⟩
  · by_cases hx : z ∈ x
    · exact h.was z hx
    · have hy : z ∈ y := by
        rcases List.mem_append.1 hz with h | h
        · exact h
        · exact absurd h hx
      rcases h.others z hx with e | ⟨_, e⟩
      · rw [← e]; exact h'.was z hy
      · exact e
  · by_cases hy : z ∈ y
    · exact h'.is z hy
    · have hx : z ∈ x := by
        rcases List.mem_append.1 hz with h | h
        · exact absurd h hy
        · exact h
      rcases h'.others z hy with e | ⟨_, e⟩
      · rw [e]; exact h.is z hx
      · have := (h.is z hx).1
        rw [e] at this; simp at this
  · simp only [List.mem_append, not_or] at hz
    rcases h.others z hz.2 with e | ⟨e1, e2⟩ <;> rcases h'.others z hz.1 with f | ⟨f1, f2⟩
    · exact Or.inl (f.trans e)
    · exact Or.inr ⟨f1, by rw [← e]; exact f2⟩
    · exact Or.inr ⟨by rw [f]; exact e1, e2⟩
    · exact Or.inr ⟨f1, e2⟩

/-- Every handle in use denotes what it did. -/
theorem Grown.keeps {st st' : KeyStore} {u : Uuid} {new : List Nat} (h : Grown st st' u new) (x : Nat) (hx : (st.obj x).object.isSome) : st'.obj x = st.obj x := by
  have : x ∉ new := fun e => by rw [h.was x e] at hx; simp at hx
  rcases h.others x this with e | ⟨_, e⟩
  · exact e
  · rw [e] at hx; simp at hx

/-- Exactly those handles are in use that were or are new. -/
theorem Grown.live {st st' : KeyStore} {u : Uuid} {new : List Nat} (h : Grown st st' u new) (x : Nat) : (st'.obj x).object.isSome = true ↔ x ∈ new ∨ (st.obj x).object.isSome = true := by
  by_cases hn : x ∈ new
  · simp [hn, (h.is x hn).1]
  · rcases h.others x hn with e | ⟨e1, e2⟩
    · simp [hn, e]
    · simp [hn, e1, e2]

theorem Grown.owner {st st' : KeyStore} {u : Uuid} {new : List Nat} (h : Grown st st' u new) (ho : ∀ x, (st.obj x).object.isSome → (st.obj x).ownerUuid = u) (x : Nat)
    (hx : (st'.obj x).object.isSome) : (st'.obj x).ownerUuid = u := by
  rcases (h.live x).1 hx with hn | hs
  · exact (h.is x hn).2
  · rw [h.keeps x hs]; exact ho x hs

theorem remove_reach (p : Prims) (hp : p.Good) (st : KeyStore) (hr : KsReachable p st) (h : Nat) (u : Uuid) :
    (∃ s, s ≠ .OK ∧ keyStoreRemove st h u = .returned st s none ∧ ((st.obj h).object = none ∨ (st.obj h).ownerUuid ≠ u)) ∨
    (∃ st' f, keyStoreRemove st h u = .returned st' .OK f ∧ KsReachable p st' ∧ (st.obj h).object.isSome ∧ (st.obj h).ownerUuid = u ∧
      (st'.obj h).object = none ∧ ∀ x, x ≠ h → st'.obj x = st.obj x) := by
  have inv := ksReachable_inv p hp st hr
  rcases remove_spec st inv.toLiveInv h u with ⟨h1, h2⟩ | ⟨h1, h2⟩ | ⟨_, _, _, _, _, _, _, _, h2⟩ | ⟨s', o, h1, _, h3, h5, h6, h7, _, h4⟩
  · exact Or.inl ⟨_, by decide, h1, Or.inl h2⟩
  · exact Or.inl ⟨_, by decide, h1, Or.inr h2.2.2⟩
  · exact absurd (ksReachable_idle p hp st hr h) h2
  · refine Or.inr ⟨_, _, h1, ?_, by rw [h6]; rfl, h7, by rw [h4, if_pos rfl], fun x hx => by rw [h4, if_neg hx]⟩
    refine ksReachable_step p st s' hr (.remove h u) trivial (.removed .OK) ?_
    simp only [ksStep, keyStoreRemove, h1]

/-- The handles of keys that a reply gives. -/
def given : Reply → List Nat
  | .made .OK h => [h]
  | .three .OK key ke kh => [key, ke, kh]
  | _ => []

/-- What a call that is answered and does not release a key did to the table of keys. -/
structure Served (p : Prims) (st : KeyStore) (caller : Uuid) (st' : KeyStore) (r : Reply) : Prop where
  reach : KsReachable p st'
  returns : r ≠ .waits
  grown : Grown st st' caller (given r)

/-- Calls that make one key or none. -/
theorem served_made {p : Prims} (hp : p.Good) {st : KeyStore} (hr : KsReachable p st) {caller : Uuid} {r : Option (KeyStore × Status × Nat)}
    (h : ∃ st' s h, r = some (st', s, h) ∧ KsReachable p st' ∧ ((s ≠ .OK ∧ Alike st st') ∨ (s = .OK ∧ ∃ d, NewKey p st st' h caller d))) :
    ∃ st' q, (r.map fun r => (r.1, Reply.made r.2.1 r.2.2)) = some (st', q) ∧ Served p st caller st' q := by
  obtain ⟨st', s, h, rfl, h1, h2⟩ := h
  refine ⟨st', .made s h, rfl, h1, by simp, ?_⟩
  rcases h2 with ⟨hs, h2⟩ | ⟨rfl, d, h2⟩
  · cases s <;> first | exact absurd rfl hs | exact .none caller h2
  · exact .one hp hr h1 h2

theorem served_same {p : Prims} {st : KeyStore} (hr : KsReachable p st) {caller : Uuid} {q : Reply} (h1 : q ≠ .waits) (h2 : given q = []) : Served p st caller st q :=
  ⟨hr, h1, by rw [h2]; exact .none caller (.refl st)⟩

/-! ## Derivation, exchange, containers -/

theorem derive_ok (env : Env) (hp : env.prims.Good) (k : KdfEnv) (hk : k.prims.Good) (st : KeyStore) (hr : KsReachable env.prims st) (rights : Rights) (params : KdfParams)
    (caller : Uuid) : ∃ st' s h, keyDerive env k st rights params caller = some (st', s, h) ∧ KsReachable env.prims st' ∧
      ((s ≠ .OK ∧ Alike st st') ∨ (s = .OK ∧ ∃ d, NewKey env.prims st st' h caller d)) := by
  have lift : ∀ {r : Option (KeyStore × Status × Nat)} {X : KeyStore → Nat → Prop},
      (∃ st' s h, r = some (st', s, h) ∧ KsReachable env.prims st' ∧ ((s ≠ .OK ∧ h = SLOT_INVALID ∧ Unchanged st st') ∨ (s = .OK ∧ X st' h))) →
      (∀ st' h, X st' h → ∃ d, NewKey env.prims st st' h caller d) →
      ∃ st' s h, r = some (st', s, h) ∧ KsReachable env.prims st' ∧ ((s ≠ .OK ∧ Alike st st') ∨ (s = .OK ∧ ∃ d, NewKey env.prims st st' h caller d)) := by
    rintro r X ⟨st', s, h, h1, h2, h3⟩ hX
    exact ⟨st', s, h, h1, h2, h3.imp (fun h => ⟨h.1, Unchanged.alike h.2.2⟩) (fun h => ⟨h.1, hX _ _ h.2⟩)⟩
  cases params with
  | rootKeyLadder common c1 c2 c3 c4 =>
    simp only [keyDerive]
    unfold deriveRootKeyLadder
    have fail : ∀ s, s ≠ Status.OK → ∃ st' s' h, (some (st, s, SLOT_INVALID) : Option (KeyStore × Status × Nat)) = some (st', s', h) ∧ KsReachable env.prims st' ∧
        ((s' ≠ .OK ∧ Alike st st') ∨ (s' = .OK ∧ ∃ d, NewKey env.prims st st' h caller d)) := fun s hs => ⟨_, _, _, rfl, hr, Or.inl ⟨hs, .refl _⟩⟩
    simp only
    split
    · rename_i h; exact fail _ h
    split
    · rename_i h; exact fail _ h
    split
    · rename_i h; exact fail _ h
    split
    · rename_i h; exact fail _ h
    rcases heq : otpRootKeyLadder env k rights (if common then env.prims.commonRootKey else env.prims.rootKey)
      ⟨(rklComponent c1).2, (rklComponent c2).2, (rklComponent c3).2⟩ (rklComponent c4).2 with ⟨s, d⟩
    by_cases hs : s = .OK
    · subst hs
      cases d with
      | none => exact fail _ (by simp)
      | some d =>
        unfold otpRootKeyLadder at heq
        split at heq
        · simp at heq
        split at heq
        · simp at heq
        obtain ⟨st', s, h, h1, h2, h3⟩ := import_created env hp st hr d caller ⟨_, _, _, _, _, _, by rw [hp.decLen _ _ (by simp)]; decide, heq⟩
        simp only [h1]
        exact ⟨_, _, _, rfl, h2, h3.imp (fun h => ⟨h.1, Unchanged.alike h.2.2⟩) (fun h => ⟨h.1, d, h.2⟩)⟩
    · cases s <;> first | exact absurd rfl hs | exact fail _ hs
  | hkdf L digest parent salt info =>
    exact lift (C29.C29_hkdf env hp k hk st hr rights L digest parent salt info caller) (fun _ _ ⟨_, _, d, _, _, h, _⟩ => ⟨d, h⟩)
  | concat L digest parent info =>
    exact lift (C30.C30_concat env hp k hk st hr rights L digest parent info caller) (fun _ _ ⟨_, _, d, _, _, h, _⟩ => ⟨d, h⟩)
  | x963 L digest parent info =>
    exact lift (C30.C30_x963 env hp k hk st hr rights L digest parent info caller) (fun _ _ ⟨_, _, d, _, _, h, _⟩ => ⟨d, h⟩)
  | cmac L counter parent other =>
    exact lift (C31.C31_cmac env hp k hk st hr rights L counter parent other caller) (fun _ _ ⟨_, _, d, _, h, _⟩ => ⟨d, h⟩)
  | netflix kenc khmac =>
    exact lift (deriveNetflix_cases env hp k hk st hr rights kenc khmac caller) (fun _ _ ⟨_, _, d, _, _, _, _, h, _⟩ => ⟨d, h⟩)
  | unknown => exact ⟨_, _, _, rfl, hr, Or.inl ⟨by simp, .refl _⟩⟩

theorem exchangeDh_ok (env : Env) (hp : env.prims.Good) (a : AgreeEnv) (ha : a.Good) (st : KeyStore) (hr : KsReachable env.prims st) (rights : Rights) (key : Nat) (other : Bytes)
    (caller : Uuid) : ∃ st' s h, Sa.exchangeDh env a st rights key other caller = some (st', s, h) ∧ KsReachable env.prims st' ∧
      ((s ≠ .OK ∧ Alike st st') ∨ (s = .OK ∧ ∃ d, NewKey env.prims st st' h caller d)) := by
  obtain ⟨st', s, h, h1, h2, h3⟩ := withKey_cases env hp st hr key caller (fun sk =>
    if !rightsAllowedExchange env.rights sk.header.rights then some (.OPERATION_NOT_ALLOWED, none)
    else if !keyTypeSupportsDh sk.header.type.toNat sk.header.size.toNat then some (.INVALID_KEY_TYPE, none)
    else match dhComputeSharedSecret env a rights other sk with
      | (.OK, k) => some (.OK, k)
      | (_, _) => some (.INVALID_PARAMETER, none)) (by
    intro pk
    unfold KeyFn
    simp only
    split
    · exact ⟨_, _, rfl, fun k h => by simp at h⟩
    split
    · exact ⟨_, _, rfl, fun k h => by simp at h⟩
    unfold dhComputeSharedSecret
    split
    · rename_i d heq
      refine ⟨_, _, rfl, fun k _ hk => ?_⟩
      subst hk
      split at heq
      · simp at heq
      · simp at heq
      · rename_i z hz
        exact ⟨_, _, _, _, _, z, by have := ha.dhLen _ _ _ hz; omega, heq⟩
    · exact ⟨_, _, rfl, fun k h => by simp at h⟩)
  exact ⟨st', s, h, h1, h2, h3.imp (fun h => ⟨h.1, Unchanged.alike h.2.2.1⟩) (fun ⟨h, _, d, _, _, _, n⟩ => ⟨h, d, n⟩)⟩

theorem exchangeEcdh_ok (env : Env) (hp : env.prims.Good) (a : AgreeEnv) (ha : a.Good) (st : KeyStore) (hr : KsReachable env.prims st) (rights : Rights) (key : Nat) (other : Bytes)
    (caller : Uuid) : ∃ st' s h, Sa.exchangeEcdh env a st rights key other caller = some (st', s, h) ∧ KsReachable env.prims st' ∧
      ((s ≠ .OK ∧ Alike st st') ∨ (s = .OK ∧ ∃ d, NewKey env.prims st st' h caller d)) := by
  obtain ⟨st', s, h, h1, h2, h3⟩ := withKey_cases env hp st hr key caller (fun sk =>
    if !rightsAllowedExchange env.rights sk.header.rights then some (.OPERATION_NOT_ALLOWED, none)
    else if !keyTypeSupportsEc sk.header.type.toNat (curveOf sk.header.typeParameters) sk.header.size.toNat then
      some (.INVALID_KEY_TYPE, none)
    else some (ecComputeSharedSecret env a rights other sk)) (by
    intro pk
    unfold KeyFn
    simp only
    split
    · exact ⟨_, _, rfl, fun k h => by simp at h⟩
    split
    · exact ⟨_, _, rfl, fun k h => by simp at h⟩
    unfold ecComputeSharedSecret
    simp only
    split
    · exact ⟨_, _, rfl, fun k h => by simp at h⟩
    split
    · exact ⟨_, _, rfl, fun k _ h => by simp at h⟩
    · exact ⟨_, _, rfl, fun k h => by simp at h⟩
    · rename_i z hz
      rcases heq : storedKeyCreate (env.ok .storedKeyAlloc) rights (some pk.header.rights) KEY_TYPE_SYMMETRIC (Vector.replicate 1040 0) z.length z with ⟨s, d⟩
      refine ⟨s, d, rfl, fun k h1 h2 => ?_⟩
      subst h1 h2
      exact ⟨_, _, _, _, _, z, by have := ha.ecdhLen _ _ _ _ hz; omega, heq⟩)
  exact ⟨st', s, h, h1, h2, h3.imp (fun h => ⟨h.1, Unchanged.alike h.2.2.1⟩) (fun ⟨h, _, d, _, _, _, n⟩ => ⟨h, d, n⟩)⟩

theorem soc_ok (env : Env) (hp : env.prims.Good) (e : Kc.SocEnv) (hu : e.prims.Good) (hsz : ∀ d r, e.kc.bio d = some r → r.length + 16 < 2 ^ 64) (st : KeyStore)
    (hr : KsReachable env.prims st) (input : Bytes) (params : Option Kc.SocParams) (caller : Uuid) :
    ∃ st' s h, Kc.keyImportSoc env e st input params caller = some (st', s, h) ∧ KsReachable env.prims st' ∧
      ((s ≠ .OK ∧ h = SLOT_INVALID ∧ Alike st st') ∨ (s = .OK ∧ ∃ d, Added env.prims st st' h caller d)) := by
  unfold Kc.keyImportSoc Kc.P.status
  cases hres : (Kc.socUnwrap e input params).res with
  | error s =>
    cases s <;> exact ⟨_, _, _, rfl, hr, Or.inl ⟨by simp, rfl, .refl _⟩⟩
  | ok k =>
    cases k with
    | none => exact ⟨_, _, _, rfl, hr, Or.inl ⟨by simp, rfl, .refl _⟩⟩
    | some d =>
      have hc : CreatedSome d := (Kc.C61.soc_created (env := { env with ok := fun _ => e.allocOk }) hu rfl hsz hres).some
      obtain ⟨st', s, h, h1, h2, h3⟩ := import_added env hp st hr d caller hc
      refine ⟨st', s, h, by simp only [importMade, h1], h2.reach, ?_⟩
      rcases h3 with ⟨a, b⟩ | ⟨a, b⟩
      · refine Or.inl ⟨a, b, ?_⟩
        rcases h2 with ⟨_, _, _, h2⟩ | ⟨d', h2⟩
        · exact Unchanged.alike h2
        · exfalso
          have := h2.lt
          have := (ksReachable_inv _ hp st hr).small
          rw [b] at *
          unfold SLOT_INVALID at *
          omega
      · exact Or.inr ⟨a, d, b⟩

/-! ## Provisioning -/

/-- Where provisioning is: nothing was added, or the key `key`. -/
structure Amid (p : Prims) (st0 b : KeyStore) (caller : Uuid) (key : Nat) : Prop where
  reach : KsReachable p b
  new : (key = SLOT_INVALID ∧ Alike st0 b) ∨ (key ≠ SLOT_INVALID ∧ ∃ a d, Alike st0 a ∧ Added p a b key caller d)

theorem taImport_amid {p : Prims} (hp : p.Good) (env : Env) (he : env.prims = p) (e : Kc.SocEnv) (hu : e.prims.Good) (hsz : ∀ d r, e.kc.bio d = some r → r.length + 16 < 2 ^ 64)
    (st0 a : KeyStore) (hr : KsReachable p a) (h : Alike st0 a) (input : Bytes) (params : Kc.SocParams) (caller : Uuid) :
    ∃ b s key, Prov.taImport env e a input params caller = some (b, s, key) ∧ Amid p st0 b caller key := by
  subst he
  unfold Prov.taImport
  split
  · exact ⟨_, _, _, rfl, hr, Or.inl ⟨rfl, h⟩⟩
  · obtain ⟨b, s, key, h1, h2, h3⟩ := soc_ok env hp e hu hsz a hr input (some params) caller
    refine ⟨b, s, key, h1, h2, ?_⟩
    rcases h3 with ⟨_, h3, h4⟩ | ⟨_, d, h3⟩
    · exact Or.inl ⟨h3, h.trans h4⟩
    · refine Or.inr ⟨?_, a, d, h, h3⟩
      have := h3.lt
      have := (ksReachable_inv _ hp a hr).small
      unfold SLOT_INVALID
      omega

theorem taRelease_amid {p : Prims} (hp : p.Good) (st0 b : KeyStore) (caller : Uuid) (key : Nat) (h : Amid p st0 b caller key) (hk : key ≠ SLOT_INVALID) :
    ∃ c, Prov.taRelease b key caller = some (c, .OK) ∧ KsReachable p c ∧ Alike st0 c := by
  rcases h.new with ⟨h1, _⟩ | ⟨_, a, d, h1, h2⟩
  · exact absurd h1 hk
  · obtain ⟨w, _, hw⟩ := h2.obj
    rcases remove_reach p hp b h.reach key caller with ⟨s, _, _, hbad⟩ | ⟨c, f, h3, h4, _, _, h7, h8⟩
    · rw [hw, if_pos rfl] at hbad; simp at hbad
    · refine ⟨c, by unfold Prov.taRelease; rw [h3], h4, h1.trans fun x => ?_⟩
      by_cases hx : x = key
      · subst hx; exact Or.inr ⟨h7, h2.free⟩
      · exact Or.inl (by rw [h8 x hx, hw, if_neg hx])

theorem provision_ok {p : Prims} (hp : p.Good) (v : Prov.Env2) (h1 : v.one.prims = p) (h2 : v.two.prims = p) (e : Kc.SocEnv) (hu : e.prims.Good)
    (hsz : ∀ d r, e.kc.bio d = some r → r.length + 16 < 2 ^ 64) (st : KeyStore) (hr : KsReachable p st) (c : Prov.Call) (hc : Prov.C99.Sound v c) (caller : Uuid) :
    ∃ st' s, Prov.provision v e st c caller = some (st', s) ∧ KsReachable p st' ∧ Alike st st' := by
  have a0 : Amid p st st caller SLOT_INVALID := ⟨hr, Or.inl ⟨rfl, .refl _⟩⟩
  unfold Prov.provision
  split
  · exact ⟨_, _, rfl, hr, .refl _⟩
  rename_i hpre
  split
  · exact ⟨_, _, rfl, hr, .refl _⟩
  rw [if_neg (by simp [hc.command])]
  split
  · exact ⟨_, _, rfl, hr, .refl _⟩
  split
  · rename_i o q hin hq
    have hinv : ∃ b s key, Prov.invoke v e st c.kind o c.inLength q caller = some (b, s, key) ∧ Amid p st b caller key := by
      unfold Prov.invoke
      split
      · exact ⟨_, _, _, rfl, a0⟩
      have := hc.params q hq
      have hsz' := hc.size
      have hse := Prov.C99.structSize_eq c.kind
      rw [if_neg (by omega), if_neg (by omega)]
      split
      · exact taImport_amid hp v.one h1 e hu hsz st st hr (.refl _) _ q caller
      split
      · obtain ⟨b, s, key, g1, g2⟩ := taImport_amid hp v.one h1 e hu hsz st st hr (.refl _) (o.first.getD []) q caller
        rw [g1]
        simp only
        split
        · exact ⟨_, _, _, rfl, g2⟩
        split
        · rename_i hk
          obtain ⟨c', g3, g4, g5⟩ := taRelease_amid hp st b caller key g2 hk
          rw [g3]
          simp only [ne_eq, not_true_eq_false, if_false]
          exact taImport_amid hp v.two h2 e hu hsz st c' g4 g5 _ q caller
        · rename_i hk
          rcases g2.new with ⟨_, g3⟩ | ⟨g3, _⟩
          · exact taImport_amid hp v.two h2 e hu hsz st b g2.reach g3 _ q caller
          · exact absurd g3 hk
      · exact ⟨_, _, _, rfl, a0⟩
    obtain ⟨b, s, key, g1, g2⟩ := hinv
    rw [g1]
    simp only
    split
    · rename_i hk
      obtain ⟨c', g3, g4, g5⟩ := taRelease_amid hp st b caller key g2 hk
      rw [g3]
      exact ⟨_, _, rfl, g4, g5⟩
    · rename_i hk
      rcases g2.new with ⟨_, g3⟩ | ⟨g3, _⟩
      · exact ⟨_, _, rfl, g2.reach, g3⟩
      · exact absurd g3 hk
  · rename_i hno
    exfalso
    have hok : Prov.preprocess c = .OK := Decidable.of_not_not hpre
    unfold Prov.preprocess at hok
    split at hok
    · rename_i hi hq; exact hno _ _ hi hq
    · cases hok

end Sa.Whole

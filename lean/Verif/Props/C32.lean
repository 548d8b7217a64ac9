import Verif.Lemmas.UnwrapOp
import Verif.Lemmas.Derive
import Verif.Lemmas.Netflix
import Verif.Model.Sign
import Verif.Props.C36
import Verif.Props.C53

/-!
# C32: a key is used only for the operations it has the usage flag for
-/

namespace Sa.C32

/-- The call `f`, as a function of the key table, rejects its arguments, whatever the keys are. -/
def ArgsRejected (f : KeyStore → Option (KeyStore × Status × Nat)) : Prop := ∃ s, s ≠ Status.OK ∧ ∀ st, f st = some (st, s, SLOT_INVALID)

/-- The call `f` makes no key: it fails, the key table stays exactly as it was and no handle is given.  If `usable` (the key can be used by the
caller for some operation) and the arguments are acceptable, the status is OPERATION_NOT_ALLOWED. -/
def Denied (f : KeyStore → Option (KeyStore × Status × Nat)) (st : KeyStore) (usable : Prop) : Prop :=
  ∃ s, s ≠ Status.OK ∧ f st = some (st, s, SLOT_INVALID) ∧ (usable → s = .OPERATION_NOT_ALLOWED ∨ ArgsRejected f)

/-- `caller` can use the key at this time (for whatever it has flags for). -/
def Usable (env : Env) (k : StoredKey) (caller : Uuid) : Prop := (useResult env k caller).1 = .OK

theorem useResult_cases (env : Env) (k : StoredKey) (u : Uuid) :
    useResult env k u = (.OK, some k) ∨ (∃ s, s ≠ Status.OK ∧ useResult env k u = (s, none)) := by
  unfold useResult
  split
  · split
    · exact Or.inl rfl
    · exact Or.inr ⟨_, by simp, rfl⟩
  · exact Or.inr ⟨_, by simp, rfl⟩

theorem Denied.args {f : KeyStore → Option (KeyStore × Status × Nat)} {st : KeyStore} {usable : Prop} (s : Status) (hs : s ≠ .OK)
    (h : ∀ st, f st = some (st, s, SLOT_INVALID)) : Denied f st usable := ⟨s, hs, h st, fun _ => Or.inr ⟨s, hs, h⟩⟩

theorem noDerive (env : RightsEnv) (r : Rights) (h : ¬ Flag r.usageFlags 1) : rightsAllowedDerive env r = false := by
  unfold rightsAllowedDerive FLAG_DERIVE
  rw [(bitTest_false_iff _ _ (by decide)).mpr h]; rfl

theorem noExchange (env : RightsEnv) (r : Rights) (h : ¬ Flag r.usageFlags 0) : rightsAllowedExchange env r = false := by
  unfold rightsAllowedExchange FLAG_KEY_EXCHANGE
  rw [(bitTest_false_iff _ _ (by decide)).mpr h]; rfl

theorem noUnwrap (env : RightsEnv) (r : Rights) (h : ¬ Flag r.usageFlags 2) : rightsAllowedUnwrap env r = false := by
  unfold rightsAllowedUnwrap FLAG_UNWRAP
  rw [(bitTest_false_iff _ _ (by decide)).mpr h]; rfl

theorem noSign (env : RightsEnv) (r : Rights) (h : ¬ Flag r.usageFlags 5) : rightsAllowedSign env r = false := by
  unfold rightsAllowedSign FLAG_SIGN
  rw [(bitTest_false_iff _ _ (by decide)).mpr h]; rfl

theorem deriveFrom_denied (env : Env) (st : KeyStore) (parent : Nat) (caller : Uuid) (typeOk : Header → Bool)
    (kdf : StoredKey → Option (Status × Option StoredKey)) (pk : StoredKey) (hh : KeyHeld env.prims st parent caller pk)
    (hno : ¬ Flag pk.header.rights.usageFlags 1) :
    Denied (fun st => deriveFrom env st parent caller typeOk kdf) st (Usable env pk caller) := by
  unfold Denied Usable
  simp only
  unfold deriveFrom
  rw [hh.2 env rfl]
  rcases useResult_cases env pk caller with e | ⟨s, hs, e⟩
  · rw [e]
    simp only [noDerive _ _ hno, Bool.not_false, if_true]
    exact ⟨_, by simp, rfl, fun _ => Or.inl rfl⟩
  · rw [e]
    refine ⟨s, hs, ?_, fun h => absurd h hs⟩
    cases s <;> first | exact absurd rfl hs | rfl

theorem withKey_denied (env : Env) (st : KeyStore) (key : Nat) (caller : Uuid) (body : StoredKey → Option (Status × Option StoredKey))
    (pk : StoredKey) (hh : KeyHeld env.prims st key caller pk) (hb : body pk = some (.OPERATION_NOT_ALLOWED, none)) :
    Denied (fun st => withKey env st key caller body) st (Usable env pk caller) := by
  unfold Denied Usable
  simp only
  unfold withKey
  rw [hh.2 env rfl]
  rcases useResult_cases env pk caller with e | ⟨s, hs, e⟩
  · rw [e]
    simp only [hb]
    exact ⟨_, by simp, rfl, fun _ => Or.inl rfl⟩
  · rw [e]
    refine ⟨s, hs, ?_, fun h => absurd h hs⟩
    cases s <;> first | exact absurd rfl hs | rfl

/-- The handles of the parent keys of a derivation. -/
def parents : KdfParams → List Nat
  | .hkdf _ _ p _ _ => [p]
  | .concat _ _ p _ => [p]
  | .x963 _ _ p _ => [p]
  | .cmac _ _ p _ => [p]
  | .netflix kenc khmac => [kenc, khmac]
  | _ => []

/-- **C32 (derivation).**  A parent key without the DERIVE flag: no key is derived.  For the second parent key of the Netflix derivation the
status is stated only if the first is acceptable. -/
theorem C32_derive (env : Env) (k : KdfEnv) (st : KeyStore) (rights : Rights) (params : KdfParams) (caller : Uuid) (parent : Nat)
    (pk : StoredKey) (hh : KeyHeld env.prims st parent caller pk) (hp : parent ∈ parents params) (hno : ¬ Flag pk.header.rights.usageFlags 1)
    (hother : ∀ kenc khmac, params = .netflix kenc khmac → ∃ enc, KeyHeld env.prims st kenc caller enc) :
    Denied (fun st => keyDerive env k st rights params caller) st (Usable env pk caller ∧ ∀ kenc khmac enc, params = .netflix kenc khmac →
      KeyHeld env.prims st kenc caller enc → Usable env enc caller ∧ enc.header.type.toNat = KEY_TYPE_SYMMETRIC) := by
  have weaken : ∀ {f : KeyStore → Option (KeyStore × Status × Nat)} {P Q : Prop}, (Q → P) → Denied f st P → Denied f st Q := by
    rintro f P Q h ⟨s, a, b, c⟩
    exact ⟨s, a, b, fun q => c (h q)⟩
  cases params with
  | rootKeyLadder => simp [parents] at hp
  | unknown => simp [parents] at hp
  | hkdf kl d p salt info =>
    simp only [parents, List.mem_singleton] at hp
    subst hp
    simp only [keyDerive]
    split
    · exact Denied.args .NULL_PARAMETER (by simp) fun _ => rfl
    · split
      · exact Denied.args .NULL_PARAMETER (by simp) fun _ => rfl
      · split
        · exact Denied.args .INVALID_PARAMETER (by simp) fun _ => rfl
        · split
          · exact Denied.args .INVALID_PARAMETER (by simp) fun _ => rfl
          · exact weaken And.left (deriveFrom_denied env st _ caller _ _ pk hh hno)
  | concat kl d p info =>
    simp only [parents, List.mem_singleton] at hp
    subst hp
    simp only [keyDerive]
    split
    · exact Denied.args .NULL_PARAMETER (by simp) fun _ => rfl
    · split
      · exact Denied.args .INVALID_PARAMETER (by simp) fun _ => rfl
      · split
        · exact Denied.args .INVALID_PARAMETER (by simp) fun _ => rfl
        · exact weaken And.left (deriveFrom_denied env st _ caller _ _ pk hh hno)
  | x963 kl d p info =>
    simp only [parents, List.mem_singleton] at hp
    subst hp
    simp only [keyDerive]
    split
    · exact Denied.args .NULL_PARAMETER (by simp) fun _ => rfl
    · split
      · exact Denied.args .INVALID_PARAMETER (by simp) fun _ => rfl
      · split
        · exact Denied.args .INVALID_PARAMETER (by simp) fun _ => rfl
        · exact weaken And.left (deriveFrom_denied env st _ caller _ _ pk hh hno)
  | cmac kl c p other =>
    simp only [parents, List.mem_singleton] at hp
    subst hp
    simp only [keyDerive]
    split
    · exact Denied.args .NULL_PARAMETER (by simp) fun _ => rfl
    · split
      · exact Denied.args .INVALID_PARAMETER (by simp) fun _ => rfl
      · split
        · exact Denied.args .INVALID_PARAMETER (by simp) fun _ => rfl
        · split
          · exact Denied.args .INVALID_PARAMETER (by simp) fun _ => rfl
          · exact weaken And.left (deriveFrom_denied env st _ caller _ _ pk hh hno)
  | netflix kenc khmac =>
    obtain ⟨enc, henc⟩ := hother kenc khmac rfl
    simp only [parents, List.mem_cons, List.not_mem_nil, or_false] at hp
    unfold Denied
    simp only [keyDerive]
    unfold deriveNetflix
    rw [henc.2 env rfl]
    rcases useResult_cases env enc caller with e | ⟨s, hs, e⟩
    · rw [e]
      simp only
      by_cases hd : rightsAllowedDerive env.rights enc.header.rights = true
      · have hne : parent ≠ kenc := by
          intro h
          rw [h] at hh
          have := hh.unique env.prims st kenc caller pk enc env rfl (by rw [henc.2 env rfl, e])
          rw [this, noDerive _ _ hno] at hd
          simp at hd
        have h2 : parent = khmac := hp.resolve_left hne
        subst h2
        rw [if_neg (by rw [hd]; simp)]
        by_cases ht : enc.header.type.toNat = KEY_TYPE_SYMMETRIC
        · rw [if_neg (by simp [ht]), hh.2 env rfl]
          rcases useResult_cases env pk caller with e2 | ⟨s, hs, e2⟩
          · rw [e2]
            simp only [noDerive _ _ hno, Bool.not_false, if_true]
            exact ⟨_, by simp, rfl, fun _ => Or.inl rfl⟩
          · rw [e2]
            refine ⟨s, hs, ?_, ?_⟩
            · cases s <;> first | exact absurd rfl hs | rfl
            · rintro ⟨h, _⟩
              unfold Usable at h
              rw [e2] at h
              exact absurd h hs
        · rw [if_pos ht]
          exact ⟨_, by simp, rfl, fun h => absurd (h.2 _ _ enc rfl henc).2 ht⟩
      · rw [if_pos (by simpa using hd)]
        exact ⟨_, by simp, rfl, fun _ => Or.inl rfl⟩
    · rw [e]
      refine ⟨s, hs, ?_, ?_⟩
      · cases s <;> first | exact absurd rfl hs | rfl
      · rintro ⟨_, h⟩
        have := (h _ _ enc rfl henc).1
        unfold Usable at this
        rw [e] at this
        exact absurd this hs

/-- **C32 (exchange).**  DH and ECDH: a private key without the KEY_EXCHANGE flag. -/
theorem C32_exchange (env : Env) (a : AgreeEnv) (st : KeyStore) (rights : Rights) (private_ : Nat) (other : Bytes) (caller : Uuid)
    (pk : StoredKey) (hh : KeyHeld env.prims st private_ caller pk) (hno : ¬ Flag pk.header.rights.usageFlags 0) :
    Denied (fun st => exchangeDh env a st rights private_ other caller) st (Usable env pk caller) ∧
    Denied (fun st => exchangeEcdh env a st rights private_ other caller) st (Usable env pk caller) := by
  constructor
  · exact withKey_denied env st private_ caller _ pk hh (by simp only [noExchange _ _ hno, Bool.not_false, if_true])
  · exact withKey_denied env st private_ caller _ pk hh (by simp only [noExchange _ _ hno, Bool.not_false, if_true])

/-- **C32 (Netflix exchange).**  The private key needs KEY_EXCHANGE and the wrapping key Kw needs DERIVE; if one of them has not got it, the
exchange fails, the key table stays as it was and no handle is given; with OPERATION_NOT_ALLOWED if both keys can be used and Kw is a symmetric
key. -/
theorem C32_netflix (p : Prims) (envs : Nat → Env) (he : ∀ i, (envs i).prims = p) (k : KdfEnv) (a : AgreeEnv) (st : KeyStore) (rights : Rights)
    (private_ : Nat) (other : Bytes) (params : NetflixParams) (caller : Uuid) (kw sk : StoredKey) (hw : KeyHeld p st params.kw caller kw)
    (hs : KeyHeld p st private_ caller sk) (hno : ¬ Flag kw.header.rights.usageFlags 1 ∨ ¬ Flag sk.header.rights.usageFlags 0) :
    ∃ o, exchangeNetflix envs k a st rights private_ other params caller = some o ∧ o.status ≠ .OK ∧ o.store = st ∧ o.key = SLOT_INVALID ∧
      o.ke = SLOT_INVALID ∧ o.kh = SLOT_INVALID ∧
      (Usable (envs 0) kw caller → Usable (envs 1) sk caller → kw.header.type.toNat = KEY_TYPE_SYMMETRIC → o.status = .OPERATION_NOT_ALLOWED) := by
  have key : ∃ s, s ≠ Status.OK ∧ netflixBody envs k a st rights private_ other params caller = some ⟨st, s, SLOT_INVALID, SLOT_INVALID, SLOT_INVALID⟩ ∧
      (Usable (envs 0) kw caller → Usable (envs 1) sk caller → kw.header.type.toNat = KEY_TYPE_SYMMETRIC → s = .OPERATION_NOT_ALLOWED) := by
    unfold netflixBody
    simp only
    rw [hw.2 (envs 0) (he 0)]
    rcases useResult_cases (envs 0) kw caller with e | ⟨s, hx, e⟩
    · rw [e]
      simp only
      by_cases hd : rightsAllowedDerive (envs 0).rights kw.header.rights = true
      · have hno2 : ¬ Flag sk.header.rights.usageFlags 0 := by
          rcases hno with h | h
          · rw [noDerive _ _ h] at hd; simp at hd
          · exact h
        rw [if_neg (by rw [hd]; simp)]
        by_cases ht : kw.header.type.toNat = KEY_TYPE_SYMMETRIC
        · rw [if_neg (by simp [ht]), hs.2 (envs 1) (he 1)]
          rcases useResult_cases (envs 1) sk caller with e2 | ⟨s, hx, e2⟩
          · rw [e2]
            simp only [noExchange _ _ hno2, Bool.not_false, if_true]
            exact ⟨_, by simp, rfl, fun _ _ _ => rfl⟩
          · rw [e2]
            refine ⟨s, hx, ?_, ?_⟩
            · cases s <;> first | exact absurd rfl hx | rfl
            · intro _ h
              unfold Usable at h
              rw [e2] at h
              exact absurd h hx
        · rw [if_pos ht]
          exact ⟨_, by simp, rfl, fun _ _ h => absurd h ht⟩
      · rw [if_pos (by simpa using hd)]
        exact ⟨_, by simp, rfl, fun _ _ _ => rfl⟩
    · rw [e]
      refine ⟨s, hx, ?_, ?_⟩
      · cases s <;> first | exact absurd rfl hx | rfl
      · intro h
        unfold Usable at h
        rw [e] at h
        exact absurd h hx
  obtain ⟨s, hsn, hb, hst⟩ := key
  unfold exchangeNetflix
  rw [hb]
  simp only [Option.bind_some]
  unfold netflixCleanup removeIfValid
  simp only [ne_eq, hsn, not_false_eq_true, if_true, not_true_eq_false, if_false, Option.bind_some, Option.map_some]
  exact ⟨_, rfl, hsn, rfl, rfl, rfl, rfl, hst⟩

/-- **C32 (unwrapping).**  A wrapping key without the UNWRAP flag: nothing is unwrapped.  (For the RSA algorithms a key of another type gives
INVALID_KEY_TYPE.) -/
theorem C32_unwrap (env : Env) (u : UnwrapEnv) (st : KeyStore) (t : UnwrapTarget) (params : UnwrapParams) (wrapping : Nat) (input : Bytes)
    (caller : Uuid) (wk : StoredKey) (hh : KeyHeld env.prims st wrapping caller wk) (hno : ¬ Flag wk.header.rights.usageFlags 2) :
    Denied (fun st => keyUnwrapOp env u st t params wrapping input caller) st
      (Usable env wk caller ∧ ∀ o, params = .rsa o → keyTypeSupportsRsa wk.header.type.toNat wk.header.size.toNat = true) := by
  have gate : ∀ typeOk f, Denied (fun st => withKey env st wrapping caller (unwrapGate env typeOk f)) st
      (Usable env wk caller ∧ ∀ o, params = .rsa o → keyTypeSupportsRsa wk.header.type.toNat wk.header.size.toNat = true) := by
    intro typeOk f
    obtain ⟨s, a, b, c⟩ := withKey_denied env st wrapping caller (unwrapGate env typeOk f) wk hh (by unfold unwrapGate; simp only [noUnwrap _ _ hno, Bool.not_false, if_true])
    exact ⟨s, a, b, fun h => c h.1⟩
  have args : ∀ s, s ≠ Status.OK → Denied (fun st => (some (st, s, SLOT_INVALID) : Option (KeyStore × Status × Nat))) st
      (Usable env wk caller ∧ ∀ o, params = .rsa o → keyTypeSupportsRsa wk.header.type.toNat wk.header.size.toNat = true) :=
    fun s hs => Denied.args s hs fun _ => rfl
  unfold keyUnwrapOp
  cases params with
  | ecb pkcs7 =>
    simp only
    split
    · exact args _ (by simp)
    · exact gate _ _
  | cbc pkcs7 iv =>
    cases iv with
    | none => exact args _ (by simp)
    | some iv =>
      simp only
      split
      · exact args _ (by assumption)
      · split
        · exact args _ (by simp)
        · exact gate _ _
  | ctr c =>
    cases c with
    | none => exact args _ (by simp)
    | some c =>
      simp only
      split
      · exact args _ (by assumption)
      · exact gate _ _
  | gcm q =>
    cases q with
    | none => exact args _ (by simp)
    | some q =>
      obtain ⟨iv, aad, tag⟩ := q
      simp only
      split
      · exact args _ (by assumption)
      · split
        · exact args _ (by simp)
        · cases tag with
          | none => exact args _ (by simp)
          | some tag =>
            simp only
            split
            · exact args _ (by simp)
            · exact gate _ _
  | chacha20 q =>
    cases q with
    | none => exact args _ (by simp)
    | some q =>
      obtain ⟨counter, nonce⟩ := q
      simp only
      split
      · exact args _ (by assumption)
      · split
        · exact args _ (by assumption)
        · exact gate _ _
  | poly q =>
    cases q with
    | none => exact args _ (by simp)
    | some q =>
      obtain ⟨nonce, aad, tag⟩ := q
      simp only
      split
      · exact args _ (by assumption)
      · split
        · exact args _ (by simp)
        · split
          · exact args _ (by assumption)
          · exact gate _ _
  | rsa o =>
    simp only
    split
    · exact args _ (by simp)
    · by_cases hty : keyTypeSupportsRsa wk.header.type.toNat wk.header.size.toNat = true
      · obtain ⟨s, a, b, c⟩ := withKey_denied env st wrapping caller (fun wk =>
          if !keyTypeSupportsRsa wk.header.type.toNat wk.header.size.toNat then some (.INVALID_KEY_TYPE, none)
          else if !rightsAllowedUnwrap env.rights wk.header.rights then some (.OPERATION_NOT_ALLOWED, none)
          else if input.length ≠ wk.header.size.toNat then some (.INVALID_PARAMETER, none)
          else some (unwrapRsa env u t o input wk)) wk hh (by simp only [hty, noUnwrap _ _ hno, Bool.not_true, Bool.not_false, if_true]; rfl)
        exact ⟨s, a, b, fun h => c h.1⟩
      · have hf : keyTypeSupportsRsa wk.header.type.toNat wk.header.size.toNat = false := by simpa using hty
        unfold Denied withKey
        simp only
        rw [hh.2 env rfl]
        rcases useResult_cases env wk caller with e | ⟨s, hs, e⟩
        · rw [e]
          simp only [hf, Bool.not_false, if_true]
          exact ⟨_, by simp, rfl, fun h => absurd (h.2 o rfl) (by simp)⟩
        · rw [e]
          refine ⟨s, hs, ?_, ?_⟩
          · cases s <;> first | exact absurd rfl hs | rfl
          · rintro ⟨h, _⟩
            unfold Usable at h
            rw [e] at h
            exact absurd h hs
  | elgamal q =>
    simp only
    split
    · exact args _ (by simp)
    · cases q with
      | none => exact args _ (by simp)
      | some q =>
        obtain ⟨off, kl⟩ := q
        exact gate _ _
  | unknown => exact args _ (by simp)

/-- **C32 (ciphers).**  A key without the ENCRYPT flag (to encrypt) or the DECRYPT flag (to decrypt): no context is created. -/
theorem C32_cipher {σ : Type} (p : CipherPrim σ) (w : CipherWorld σ) (fresh : ∀ x, w.heap x ≠ none → x < w.next) (params : InitParams) (mode : Nat)
    (env : Env) (ienv : InitEnv) (st : KeyStore) (key : Nat) (caller : Uuid) (sk : StoredKey) (hh : KeyHeld env.prims st key caller sk)
    (hno : ¬ Flag sk.header.rights.usageFlags (if mode = 1 then 3 else 4)) :
    ∃ kr w' s, keyStoreUnwrap env st key caller = some (st, kr) ∧ cipherInit p w params mode kr ienv caller = some (w', s, SLOT_INVALID) ∧
      s ≠ .OK ∧ w'.store = w.store ∧ w'.heap = w.heap ∧
      (Usable env sk caller → params ≠ .unknown → mode = 0 ∨ mode = 1 → s = .OPERATION_NOT_ALLOWED) := by
  refine ⟨useResult env sk caller, ?_⟩
  have hna : (if mode = MODE_ENCRYPT then rightsAllowedEncrypt ienv.rights sk.header.rights (sk.header.type.toNat == KEY_TYPE_SYMMETRIC)
      else rightsAllowedDecrypt ienv.rights sk.header.rights (sk.header.type.toNat == KEY_TYPE_SYMMETRIC)) = false := by
    unfold MODE_ENCRYPT rightsAllowedEncrypt rightsAllowedDecrypt FLAG_ENCRYPT FLAG_DECRYPT
    by_cases h : mode = 1
    · rw [if_pos h] at hno ⊢
      rw [(bitTest_false_iff _ _ (by decide)).mpr hno]; rfl
    · rw [if_neg h] at hno ⊢
      rw [(bitTest_false_iff _ _ (by decide)).mpr hno]; rfl
  have e := hh.2 env rfl
  have hun : params.alg = none → params = .unknown := by
    intro h
    cases params <;> simp [InitParams.alg] at h ⊢
  unfold cipherInit
  simp only
  by_cases h1 : params.alg = none
  · exact ⟨w, .INVALID_PARAMETER, e, by rw [if_pos h1], by simp, rfl, rfl, fun _ h => absurd (hun h1) h⟩
  · by_cases h2 : mode ≠ MODE_ENCRYPT ∧ mode ≠ MODE_DECRYPT
    · exact ⟨w, .INVALID_PARAMETER, e, by rw [if_neg h1, if_pos h2], by simp, rfl, rfl, fun _ _ h => by
        rcases h with h | h
        · exact absurd h h2.2
        · exact absurd h h2.1⟩
    · rcases useResult_cases env sk caller with e2 | ⟨s, hs, e2⟩
      · have hfree : (w.alloc (.key sk)).free w.next = some { w with next := w.next + 1 } := by
          unfold CipherWorld.free CipherWorld.alloc CipherWorld.put
          simp only [if_true]
          congr 1
          have : (fun x => if x = w.next then none else if x = w.next then some (.key sk) else w.heap x) = w.heap := by
            funext x
            by_cases hx : x = w.next
            · subst hx
              rw [if_pos rfl]
              cases hh : w.heap w.next with
              | none => rfl
              | some v => exact absurd (fresh w.next (by rw [hh]; simp)) (by omega)
            · rw [if_neg hx, if_neg hx]
          rw [this]
        refine ⟨{ w with next := w.next + 1 }, .OPERATION_NOT_ALLOWED, e, ?_, by simp, rfl, rfl, fun _ _ _ => rfl⟩
        rw [if_neg h1, if_neg h2, e2]
        simp only [ne_eq, not_true_eq_false, if_false]
        rw [hna]
        simp only [Bool.not_false, if_true]
        rw [hfree]
        rfl
      · refine ⟨w, s, e, ?_, hs, rfl, rfl, fun h => ?_⟩
        · rw [if_neg h1, if_neg h2, e2, if_pos hs]
        · unfold Usable at h
          rw [e2] at h
          exact absurd h hs

/-- **C32 (MAC and signatures).**  A key without the SIGN flag: no MAC context is created, and no signature is given; not even the size of one. -/
theorem C32_sign {σ : Type} (p : MacPrim σ) (w : MacWorld σ) (sp : SignPrims) (env : Env) (renv : RightsEnv) (st : KeyStore) (key : Nat)
    (caller : Uuid) (sk : StoredKey) (hh : KeyHeld env.prims st key caller sk) (hno : ¬ Flag sk.header.rights.usageFlags 5) :
    ∃ kr, keyStoreUnwrap env st key caller = some (st, kr) ∧
    (∀ alg digest allocOk, ∃ s, macInit p w alg digest kr renv allocOk caller = (w, ⟨s, SLOT_INVALID, none, none⟩) ∧ s ≠ .OK ∧
      (Usable env sk caller → alg = MAC_CMAC ∨ (alg = MAC_HMAC ∧ digest ≠ none) → s = .OPERATION_NOT_ALLOWED)) ∧
    (∀ params msg out n, ∃ s, cryptoSign sp renv params kr msg out n = ⟨s, n, none⟩ ∧ s ≠ .OK ∧
      (Usable env sk caller → params ≠ .unknown → msg ≠ .bad → s = .OPERATION_NOT_ALLOWED)) := by
  have hn := noSign renv _ hno
  refine ⟨_, hh.2 env rfl, ?_, ?_⟩
  · intro alg digest allocOk
    unfold macInit
    rcases useResult_cases env sk caller with e | ⟨s, hs, e⟩
    · rw [e]
      simp only [hn, ne_eq, not_true_eq_false, if_false, Bool.not_false, if_true]
      by_cases h1 : alg = MAC_HMAC
      · rw [if_pos h1]
        cases digest with
        | none => exact ⟨_, rfl, by simp, fun _ h => by rcases h with h | h; exact absurd (h1.symm.trans h) (by decide); exact absurd rfl h.2⟩
        | some d => exact ⟨_, rfl, by simp, fun _ _ => rfl⟩
      · rw [if_neg h1]
        by_cases h2 : alg = MAC_CMAC
        · rw [if_pos h2]; exact ⟨_, rfl, by simp, fun _ _ => rfl⟩
        · rw [if_neg h2]
          exact ⟨_, rfl, by simp, fun _ h => by rcases h with h | h; exact absurd h h2; exact absurd h.1 h1⟩
    · have hu : ¬ Usable env sk caller := by unfold Usable; rw [e]; exact hs
      rw [e]
      simp only [if_pos hs]
      by_cases h1 : alg = MAC_HMAC
      · rw [if_pos h1]
        cases digest with
        | none => exact ⟨_, rfl, by simp, fun h => absurd h hu⟩
        | some d => exact ⟨_, rfl, hs, fun h => absurd h hu⟩
      · rw [if_neg h1]
        by_cases h2 : alg = MAC_CMAC
        · rw [if_pos h2]; exact ⟨_, rfl, hs, fun h => absurd h hu⟩
        · rw [if_neg h2]; exact ⟨_, rfl, by simp, fun h => absurd h hu⟩
  · intro params msg out n
    unfold cryptoSign
    simp only
    by_cases h1 : params = .unknown
    · rw [if_pos h1]; exact ⟨_, rfl, by simp, fun _ h => absurd h1 h⟩
    · rw [if_neg h1]
      by_cases h2 : msg.isBad = true
      · rw [if_pos h2]
        exact ⟨_, rfl, by simp, fun _ _ h => by cases msg <;> simp_all [Buf.isBad]⟩
      · rw [if_neg h2]
        rcases useResult_cases env sk caller with e | ⟨s, hs, e⟩
        · rw [e]
          simp only [hn, ne_eq, not_true_eq_false, if_false, Bool.not_false, if_true]
          exact ⟨_, rfl, by simp, fun _ _ _ => rfl⟩
        · have hu : ¬ Usable env sk caller := by unfold Usable; rw [e]; exact hs
          rw [e]
          simp only [if_pos hs]
          exact ⟨_, rfl, hs, fun h => absurd h hu⟩

/-! A concrete case: the key of C08 (handle 31) may only decrypt.  Every theorem applies to it, and it can be used, so that the status is
OPERATION_NOT_ALLOWED unless the arguments are bad. -/

theorem onlyDecrypt : ∃ st k, C08.st1 = some st ∧ KeyHeld C08.env0.prims st 31 C08.u7 k ∧ Usable C08.env0 k C08.u7 ∧
    ∀ n, n ∈ [0, 1, 2, 3, 5] → ¬ Flag k.header.rights.usageFlags n := by
  have h : (C08.st1.bind fun st => (keyStoreUnwrap C08.env0 st 31 C08.u7).bind fun r => if r.2.1 = .OK then r.2.2 else none).any
      (fun k => k.header.rights.usageFlags == 0x2410) = true := by decide +kernel
  simp only [Option.any_eq_true, Option.bind_eq_some_iff] at h
  obtain ⟨k, ⟨st, h1, ⟨st', s, kr⟩, h2, h3⟩, h4⟩ := h
  refine ⟨st, k, h1, ?_⟩
  have hinv := ksReachable_inv _ C08.toy_good st (C08.st1_reachable st h1)
  rcases unwrap_holds C08.env0 C08.toy_good st hinv 31 C08.u7 with ⟨s2, hs2, he⟩ | ⟨k', he, hk, _⟩
  · rw [he] at h2
    simp only [Option.some.injEq, Prod.mk.injEq] at h2
    rw [← h2.2.1, if_neg hs2] at h3
    exact absurd h3 (by simp)
  · have he2 := he
    rw [he] at h2
    simp only [Option.some.injEq, Prod.mk.injEq] at h2
    simp only [← h2.2.1, ← h2.2.2, if_true, Option.some.injEq] at h3
    subst h3
    refine ⟨hk, ?_, ?_⟩
    · unfold Usable
      have := hk.2 C08.env0 rfl
      rw [he2] at this
      simp only [Option.some.injEq, Prod.mk.injEq, true_and] at this
      rw [← this]
    · intro n hn
      have h5 : k'.header.rights.usageFlags = 0x2410 := by simpa using h4
      rw [h5]
      simp only [List.mem_cons, List.not_mem_nil, or_false] at hn
      rcases hn with h | h | h | h | h <;> subst h <;> rw [← bitTest_false_iff _ _ (by decide)] <;> decide

example : ∃ st, C08.st1 = some st ∧ keyUnwrapOp C08.env0 C53.uenv st C53.sym (.ecb false) 31 (List.replicate 16 1) C08.u7 =
    some (st, .OPERATION_NOT_ALLOWED, SLOT_INVALID) := by
  obtain ⟨st, k, h0, hk, hu, hf⟩ := onlyDecrypt
  obtain ⟨s, hs, he, hd⟩ := C32_unwrap C08.env0 C53.uenv st C53.sym (.ecb false) 31 (List.replicate 16 1) C08.u7 k hk (hf 2 (by simp))
  refine ⟨st, h0, ?_⟩
  have : (C08.st1.bind fun st => keyUnwrapOp C08.env0 C53.uenv st C53.sym (.ecb false) 31 (List.replicate 16 1) C08.u7).any
    (fun r => r.2.1 == .OPERATION_NOT_ALLOWED) = true := by decide +kernel
  simp only at he
  rw [h0] at this
  simp only [Option.bind_some, he, Option.any_some, beq_iff_eq] at this
  rw [he, this]

end Sa.C32

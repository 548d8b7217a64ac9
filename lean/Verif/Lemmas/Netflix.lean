import Verif.Lemmas.WithKey

/-!
# The Netflix authenticated key exchange
-/

namespace Sa

/-- Handle `h`, which was free, now holds `d` for `caller`; nothing else changed. -/
structure Added (p : Prims) (st st' : KeyStore) (h : Nat) (caller : Uuid) (d : StoredKey) : Prop where
  reach : KsReachable p st'
  lt : h < st.slotCount
  count : st'.slotCount = st.slotCount
  free : (st.obj h).object = none
  obj : ∃ w, Wraps p w d ∧ ∀ x, st'.obj x = if x = h then { object := some w, referenceCount := 0, ownerUuid := caller } else st.obj x

/-- No key or one key was added, and the handle says which. -/
def MaybeAdded (p : Prims) (st st' : KeyStore) (h : Nat) (caller : Uuid) : Prop :=
  (h = SLOT_INVALID ∧ KsReachable p st' ∧ st'.slotCount = st.slotCount ∧ Unchanged st st') ∨ ∃ d, Added p st st' h caller d

theorem maybe_none (p : Prims) (st : KeyStore) (hr : KsReachable p st) (caller : Uuid) : MaybeAdded p st st SLOT_INVALID caller :=
  Or.inl ⟨rfl, hr, rfl, fun _ => rfl⟩

theorem MaybeAdded.reach {p : Prims} {st st' : KeyStore} {h : Nat} {caller : Uuid} (hm : MaybeAdded p st st' h caller) : KsReachable p st' := by
  rcases hm with ⟨_, h, _⟩ | ⟨d, h⟩
  · exact h
  · exact h.reach

theorem Added.newKey {p : Prims} (hp : p.Good) {st st' : KeyStore} {h : Nat} {caller : Uuid} {d : StoredKey} (ha : Added p st st' h caller d)
    (hr : KsReachable p st) : NewKey p st st' h caller d := by
  obtain ⟨w, hw, ho⟩ := ha.obj
  refine ⟨?_, ?_, fun x hx => by rw [ho, if_neg hx]⟩
  · intro v hv
    have inv := ksReachable_inv p hp st hr
    rcases acquire_spec st inv.toLiveInv h v with ⟨h1, _⟩ | ⟨_, _, h2, _⟩ | ⟨_, _, _, _, _, _, h2, _⟩
    · unfold keyStoreGetHeader at hv
      split at hv
      · simp at hv
      · rw [h1] at hv; simp at hv
    · rw [ha.free] at h2; simp at h2
    · rw [ha.free] at h2; simp at h2
  · exact holds_of p hp st' (ksReachable_inv p hp st' ha.reach) h caller w d (by rw [ho, if_pos rfl]) (by rw [ho, if_pos rfl]) hw

/-- The result of `stored_key_create`, whatever happens to the allocation. -/
def CreatedSome (d : StoredKey) : Prop :=
  ∃ b rights parent kt tp size key, key.length + 16 < 2 ^ 64 ∧ storedKeyCreate b rights parent kt tp size key = (.OK, some d)

theorem Created.some {env : Env} {d : StoredKey} (h : Created env d) : CreatedSome d := by
  obtain ⟨r, p, kt, tp, sz, k, h1, h2⟩ := h
  exact ⟨_, r, p, kt, tp, sz, k, h1, h2⟩

theorem import_added (env : Env) (hp : env.prims.Good) (st : KeyStore) (hr : KsReachable env.prims st) (d : StoredKey) (caller : Uuid)
    (hd : CreatedSome d) :
    ∃ st' s h, keyStoreImportStoredKey env st d caller = (st', s, h) ∧ MaybeAdded env.prims st st' h caller ∧
      ((s ≠ .OK ∧ h = SLOT_INVALID) ∨ (s = .OK ∧ Added env.prims st st' h caller d)) := by
  obtain ⟨b, rights, parent, kt, tp, size, key, hk, hc⟩ := hd
  have hc1 : storedKeyCreate true rights parent kt tp size key = (.OK, some d) := by
    unfold storedKeyCreate at hc ⊢
    split
    · rename_i h; rw [if_pos h] at hc; simp at hc
    · rename_i h
      rw [if_neg h] at hc
      split
      · rename_i h; rw [if_pos h] at hc; simp at hc
      · rename_i h
        rw [if_neg h] at hc
        split at hc
        · simp at hc
        · simpa using hc
  have hre : KsReachable env.prims (keyStoreImportStoredKey env st d caller).1 := by
    have := create_reachable { env with ok := fun s => if s = .storedKeyAlloc then true else env.ok s } st hr rights parent kt tp size key d caller hk
      (by simpa using hc1)
    have e : keyStoreImportStoredKey { env with ok := fun s => if s = .storedKeyAlloc then true else env.ok s } st d caller =
        keyStoreImportStoredKey env st d caller := rfl
    rw [e] at this
    exact this
  obtain ⟨_, _, _, _, _, hkey, hm⟩ := storedKeyCreate_ok hc
  have hsm : KeySmall d.key := by rw [hkey]; unfold KeySmall; rw [paddedSize_eq]; omega
  have inv := ksReachable_inv _ hp st hr
  obtain ⟨_, h2, h3⟩ := importStoredKey_spec env hp st inv d hm hsm caller
  generalize keyStoreImportStoredKey env st d caller = r at hre h2 h3
  obtain ⟨st', s, h⟩ := r
  simp only at hre h2 h3
  refine ⟨st', s, h, rfl, ?_⟩
  rcases h3 with ⟨a, b, c⟩ | ⟨a, b, c, e⟩
  · exact ⟨Or.inl ⟨b, hre, h2, c⟩, Or.inl ⟨a, b⟩⟩
  · have : Added env.prims st st' h caller d := ⟨hre, b, h2, c, e⟩
    exact ⟨Or.inr ⟨d, this⟩, Or.inr ⟨a, this⟩⟩

theorem importOpt_added (env : Env) (hp : env.prims.Good) (st : KeyStore) (hr : KsReachable env.prims st) (sk : Option StoredKey) (caller : Uuid)
    (hd : ∀ d, sk = some d → CreatedSome d) :
    ∃ st' s h, importOpt env st sk caller = (st', s, h) ∧ MaybeAdded env.prims st st' h caller ∧
      ((s ≠ .OK ∧ h = SLOT_INVALID) ∨ (s = .OK ∧ ∃ d, sk = some d ∧ Added env.prims st st' h caller d)) := by
  cases sk with
  | none => exact ⟨st, _, _, rfl, maybe_none _ st hr caller, Or.inl ⟨by simp, rfl⟩⟩
  | some d =>
    obtain ⟨st', s, h, h1, h2, h3⟩ := import_added env hp st hr d caller (hd d rfl)
    exact ⟨st', s, h, h1, h2, h3.imp id fun ⟨a, b⟩ => ⟨a, d, rfl, b⟩⟩

/-- The key that `stored_key_create` makes. -/
theorem create_symmetric (b : Bool) (rights parent : Rights) (n : Nat) (key : Bytes) (hk : key.length + 16 < 2 ^ 64) :
    (∃ s, s ≠ Status.OK ∧ storedKeyCreate b rights (some parent) KEY_TYPE_SYMMETRIC (Vector.replicate 1040 0) n key = (s, none)) ∨
    (∃ d, storedKeyCreate b rights (some parent) KEY_TYPE_SYMMETRIC (Vector.replicate 1040 0) n key = (.OK, some d) ∧ CreatedSome d ∧ d.key = key ∧
      d.header.rights = restrictChildRights rights (some parent) ∧ d.header.size.toNat = n) := by
  rcases storedKeyCreate_cases b rights (some parent) KEY_TYPE_SYMMETRIC (Vector.replicate 1040 0) n key with ⟨d, hc⟩ | ⟨s, hs, hc⟩
  · obtain ⟨_, h2, h3, h4, h5, h6, _⟩ := storedKeyCreate_ok hc
    exact Or.inr ⟨d, hc, ⟨_, _, _, _, _, _, _, hk, hc⟩, h6, h2, h5⟩
  · exact Or.inl ⟨s, hs, hc⟩

/-- What a successful exchange made. -/
structure NetflixMade (p : Prims) (k : KdfPrims) (a : AgreeEnv) (st s1 s2 : KeyStore) (o : NetflixOut) (rights : Rights) (private_ : Nat) (other : Bytes)
    (params : NetflixParams) (caller : Uuid) : Prop where
  keys : ∃ kw sk z enc hm wrap, KeyHeld p st params.kw caller kw ∧ KeyHeld p st private_ caller sk ∧
    Flag kw.header.rights.usageFlags 1 ∧ Flag sk.header.rights.usageFlags 0 ∧ a.dh sk.key other = .secret z ∧ z ≠ [] ∧
    Added p st s1 o.ke caller enc ∧ Added p s1 s2 o.kh caller hm ∧ Added p s2 o.store o.key caller wrap ∧
    enc.key = (netflixKeyBytes k kw.key z).take 16 ∧ hm.key = ((netflixKeyBytes k kw.key z).drop 16).take 32 ∧
    wrap.key = (k.hmac 1 (k.hmac 1 netflixSalt (enc.key ++ hm.key)) netflixInfo).take 16 ∧
    enc.header.rights = restrictChildRights params.rightsKe (some kw.header.rights) ∧
    hm.header.rights = restrictChildRights params.rightsKh (some kw.header.rights) ∧
    wrap.header.rights = restrictChildRights rights (some kw.header.rights)

theorem allowedExchange_flag (env : RightsEnv) (r : Rights) (h : rightsAllowedExchange env r = true) : Flag r.usageFlags 0 := by
  unfold rightsAllowedExchange at h
  split at h
  · simp at h
  · rename_i hb
    exact (bitTest_iff _ 0 (by omega)).mp (by simpa [FLAG_KEY_EXCHANGE] using hb)

theorem dhSecret_cases (env : Env) (a : AgreeEnv) (ha : a.Good) (rights : Rights) (other : Bytes) (sk : StoredKey) :
    (∃ s, s ≠ Status.OK ∧ dhComputeSharedSecret env a rights other sk = (s, none)) ∨
    dhComputeSharedSecret env a rights other sk = (.OK, none) ∨
    (∃ z d, a.dh sk.key other = .secret z ∧ dhComputeSharedSecret env a rights other sk = (.OK, some d) ∧ d.key = z ∧ CreatedSome d ∧
      d.header.rights = restrictChildRights rights (some sk.header.rights)) := by
  unfold dhComputeSharedSecret
  cases hz : a.dh sk.key other with
  | failed s => exact Or.inl ⟨s, ha.dhFail _ _ _ hz, rfl⟩
  | silent => exact Or.inr (Or.inl rfl)
  | secret z =>
    have := ha.dhLen _ _ _ hz
    rcases create_symmetric (env.ok .storedKeyAlloc) rights sk.header.rights z.length z (by omega) with h | ⟨d, h1, h2, h3, h4, _⟩
    · exact Or.inl h
    · exact Or.inr (Or.inr ⟨z, d, rfl, h1, h3, h2, h4⟩)

theorem netflixShared_cases (e1 e2 : Env) (k : KdfEnv) (hk : k.prims.Good) (r1 r2 : Rights) (inKey : StoredKey) (secret : Option StoredKey) :
    (∃ s e h, s ≠ Status.OK ∧ kdfNetflixSharedSecret e1 e2 k r1 r2 inKey secret = (s, e, h)) ∨
    kdfNetflixSharedSecret e1 e2 k r1 r2 inKey secret = (.OK, none, none) ∨
    (∃ sec enc hm, secret = some sec ∧ sec.key ≠ [] ∧ kdfNetflixSharedSecret e1 e2 k r1 r2 inKey secret = (.OK, some enc, some hm) ∧
      CreatedSome enc ∧ CreatedSome hm ∧ enc.key = (netflixKeyBytes k.prims inKey.key sec.key).take 16 ∧
      hm.key = ((netflixKeyBytes k.prims inKey.key sec.key).drop 16).take 32 ∧
      enc.header.rights = restrictChildRights r1 (some inKey.header.rights) ∧
      hm.header.rights = restrictChildRights r2 (some inKey.header.rights) ∧ enc.key.length = 16 ∧ hm.key.length = 32) := by
  unfold kdfNetflixSharedSecret
  split
  · exact Or.inl ⟨_, _, _, by simp, rfl⟩
  cases secret with
  | none => exact Or.inl ⟨_, _, _, by simp, rfl⟩
  | some sec =>
    simp only
    split
    · exact Or.inl ⟨_, _, _, by simp, rfl⟩
    split
    · exact Or.inl ⟨_, _, _, by simp, rfl⟩
    split
    · exact Or.inr (Or.inl rfl)
    rename_i hne
    split
    · exact Or.inl ⟨_, _, _, by simp, rfl⟩
    have hlen : (netflixKeyBytes k.prims inKey.key sec.key).length = 48 := hk.hmacLen 2 48 _ _ rfl
    have l1 : ((netflixKeyBytes k.prims inKey.key sec.key).take 16).length = 16 := by rw [List.length_take]; omega
    have l2 : (((netflixKeyBytes k.prims inKey.key sec.key).drop 16).take 32).length = 32 := by rw [List.length_take, List.length_drop]; omega
    rcases create_symmetric (e1.ok .storedKeyAlloc) r1 inKey.header.rights 16 ((netflixKeyBytes k.prims inKey.key sec.key).take 16)
        (by omega) with ⟨s, hs, h⟩ | ⟨enc, h1, h2, h3, h4, _⟩
    · rw [h]; left
      cases s <;> first | exact absurd rfl hs | exact ⟨_, _, _, by simp, rfl⟩
    · rw [h1]
      simp only
      rcases create_symmetric (e2.ok .storedKeyAlloc) r2 inKey.header.rights 32 (((netflixKeyBytes k.prims inKey.key sec.key).drop 16).take 32)
          (by omega) with ⟨s, hs, h⟩ | ⟨hm, g1, g2, g3, g4, _⟩
      · rw [h]; left
        cases s <;> first | exact absurd rfl hs | exact ⟨_, _, _, by simp, rfl⟩
      · rw [g1]
        refine Or.inr (Or.inr ⟨sec, enc, hm, rfl, fun h => hne (by rw [h]; rfl), rfl, h2, g2, h3, g3, h4, g4, by rw [h3, l1], by rw [g3, l2]⟩)

theorem netflixWrapping_cases (env : Env) (k : KdfEnv) (hk : k.prims.Good) (rights parent : Rights) (enc hm : StoredKey) :
    (∃ s, s ≠ Status.OK ∧ kdfNetflixWrapping env k rights parent enc hm = (s, none)) ∨
    (∃ d, kdfNetflixWrapping env k rights parent enc hm = (.OK, some d) ∧ CreatedSome d ∧
      d.key = (k.prims.hmac 1 (k.prims.hmac 1 netflixSalt (enc.key ++ hm.key)) netflixInfo).take 16 ∧
      d.header.rights = restrictChildRights rights (some parent)) := by
  unfold kdfNetflixWrapping
  iterate 4
    split
    · exact Or.inl ⟨_, by simp, rfl⟩
  simp only
  rcases create_symmetric (env.ok .storedKeyAlloc) rights parent 16
      ((k.prims.hmac 1 (k.prims.hmac 1 netflixSalt (enc.key ++ hm.key)) netflixInfo).take 16)
      (by rw [List.length_take, hk.hmacLen 1 32 _ _ rfl]; omega) with h | ⟨d, h1, h2, h3, h4, _⟩
  · exact Or.inl h
  · exact Or.inr ⟨d, h1, h2, h3, h4⟩

theorem netflixBody_cases (p : Prims) (hp : p.Good) (envs : Nat → Env) (he : ∀ i, (envs i).prims = p) (k : KdfEnv) (hk : k.prims.Good)
    (a : AgreeEnv) (ha : a.Good) (st : KeyStore) (hr : KsReachable p st) (rights : Rights) (private_ : Nat) (other : Bytes) (params : NetflixParams)
    (caller : Uuid) :
    ∃ o s1 s2, netflixBody envs k a st rights private_ other params caller = some o ∧ MaybeAdded p st s1 o.ke caller ∧
      MaybeAdded p s1 s2 o.kh caller ∧ MaybeAdded p s2 o.store o.key caller ∧
      ((o.status ≠ .OK ∧ o.key = SLOT_INVALID) ∨ (o.status = .OK ∧ NetflixMade p k.prims a st s1 s2 o rights private_ other params caller)) := by
  have mn := maybe_none p st hr caller
  have failed : ∀ s, s ≠ Status.OK → ∃ o s1 s2, (some ⟨st, s, SLOT_INVALID, SLOT_INVALID, SLOT_INVALID⟩ : Option NetflixOut) = some o ∧
      MaybeAdded p st s1 o.ke caller ∧ MaybeAdded p s1 s2 o.kh caller ∧ MaybeAdded p s2 o.store o.key caller ∧
      ((o.status ≠ .OK ∧ o.key = SLOT_INVALID) ∨ (o.status = .OK ∧ NetflixMade p k.prims a st s1 s2 o rights private_ other params caller)) :=
    fun s hs => ⟨_, st, st, rfl, mn, mn, mn, Or.inl ⟨hs, rfl⟩⟩
  have inv := ksReachable_inv _ hp st hr
  unfold netflixBody
  simp only
  rcases unwrap_holds (envs 0) (he 0 ▸ hp) st (he 0 ▸ inv) params.kw caller with ⟨s, hs, hu⟩ | ⟨kw, hu, hh, _, _⟩
  · rw [hu]; cases s <;> first | exact absurd rfl hs | exact failed _ (by simp)
  rw [hu]
  simp only
  split
  · exact failed _ (by simp)
  rename_i hder
  split
  · exact failed _ (by simp)
  rcases unwrap_holds (envs 1) (he 1 ▸ hp) st (he 1 ▸ inv) private_ caller with ⟨s, hs, hu1⟩ | ⟨sk, hu1, hh1, _, _⟩
  · rw [hu1]; cases s <;> first | exact absurd rfl hs | exact failed _ (by simp)
  rw [hu1]
  simp only
  split
  · exact failed _ (by simp)
  rename_i hexc
  split
  · exact failed _ (by simp)
  have hsec := dhSecret_cases (envs 2) a ha kw.header.rights other sk
  generalize dhComputeSharedSecret (envs 2) a kw.header.rights other sk = ds at hsec ⊢
  obtain ⟨ds, secret⟩ := ds
  by_cases hds : ds = .OK
  case neg => cases ds <;> first | exact absurd rfl hds | exact failed _ (by simp)
  subst hds
  simp only
  have hsec : ∀ sec, secret = some sec → a.dh sk.key other = .secret sec.key := by
    intro sec hsome
    rcases hsec with ⟨s, hs, h⟩ | h | ⟨z, d, h1, h2, h3, _⟩
    · simp only [Prod.mk.injEq] at h; exact absurd h.1.symm hs
    · simp only [Prod.mk.injEq] at h; rw [h.2] at hsome; simp at hsome
    · simp only [Prod.mk.injEq] at h2
      rw [hsome] at h2
      simp at h2
      rw [h2, h3]; exact h1
  rcases netflixShared_cases (envs 3) (envs 4) k hk params.rightsKe params.rightsKh kw secret with
    ⟨s, e, h, hs, hsh⟩ | hsh | ⟨sec, enc, hm, hso, hne, hsh, ce, ch, e1, e2, e3, e4, e5, e6⟩
  · rw [hsh]; cases s <;> first | exact absurd rfl hs | exact failed _ (by simp)
  · rw [hsh]
    simp only [importOpt]
    exact failed _ (by simp)
  · rw [hsh]
    simp only
    obtain ⟨s1, r1, ke, i1, m1, c1⟩ := importOpt_added (envs 5) (he 5 ▸ hp) st (he 5 ▸ hr) (some enc) caller (by rintro d h; simp at h; rw [← h]; exact ce)
    rw [he 5] at m1 c1
    rw [i1]
    simp only
    rcases c1 with ⟨x1, x2⟩ | ⟨x1, enc', x2, x3⟩
    · rw [if_pos x1]
      refine ⟨_, s1, s1, rfl, m1, maybe_none p s1 m1.reach caller, maybe_none p s1 m1.reach caller, Or.inl ⟨x1, rfl⟩⟩
    rw [if_neg (by simp [x1])]
    simp only [Option.some.injEq] at x2
    subst x2
    obtain ⟨s2, r2, kh, i2, m2, c2⟩ := importOpt_added (envs 6) (he 6 ▸ hp) s1 (he 6 ▸ m1.reach) (some hm) caller (by rintro d h; simp at h; rw [← h]; exact ch)
    rw [he 6] at m2 c2
    rw [i2]
    simp only
    rcases c2 with ⟨y1, y2⟩ | ⟨y1, hm', y2, y3⟩
    · rw [if_pos y1]
      exact ⟨_, s1, s2, rfl, m1, m2, maybe_none p s2 m2.reach caller, Or.inl ⟨y1, rfl⟩⟩
    rw [if_neg (by simp [y1])]
    simp only [Option.some.injEq] at y2
    subst y2
    rcases netflixWrapping_cases (envs 7) { k with ok := fun i => k.ok (i + 2) } hk rights kw.header.rights enc hm with
      ⟨s, hs, hw⟩ | ⟨wrap, hw, cw, w1, w2⟩
    · rw [hw]
      cases s <;> first | exact absurd rfl hs | exact ⟨_, s1, s2, rfl, m1, m2, maybe_none p s2 m2.reach caller, Or.inl ⟨by simp, rfl⟩⟩
    · rw [hw]
      simp only
      obtain ⟨s3, r3, key, i3, m3, c3⟩ := importOpt_added (envs 8) (he 8 ▸ hp) s2 (he 8 ▸ m2.reach) (some wrap) caller (by rintro d h; simp at h; rw [← h]; exact cw)
      rw [he 8] at m3 c3
      rw [i3]
      refine ⟨_, s1, s2, rfl, m1, m2, m3, ?_⟩
      rcases c3 with h | ⟨z1, wrap', z2, z3⟩
      · exact Or.inl h
      · simp only [Option.some.injEq] at z2
        subst z2
        refine Or.inr ⟨z1, ⟨kw, sk, sec.key, enc, hm, wrap, he 0 ▸ hh, he 1 ▸ hh1, ?_, ?_, hsec sec hso, hne, x3, y3, z3, e1, e2, w1, e3, e4, w2⟩⟩
        · exact ((allowedDerive_iff _ _).mp (by simpa using hder)).1
        · exact allowedExchange_flag _ _ (by simpa using hexc)

/-! ## Cleaning up -/

/-- The same keys: where something differs, both slots are free. -/
def SameKeys (st st' : KeyStore) : Prop :=
  st'.slotCount = st.slotCount ∧ ∀ x, st'.obj x = st.obj x ∨ ((st'.obj x).object = none ∧ (st.obj x).object = none)

theorem remove_added (p : Prims) (hp : p.Good) (s : KeyStore) (hr : KsReachable p s) (h : Nat) (caller : Uuid) (w : WrappedKey)
    (hlt : h < s.slotCount) (ho : s.obj h = { object := some w, referenceCount := 0, ownerUuid := caller }) :
    ∃ s', removeIfValid s h caller = some s' ∧ KsReachable p s' ∧ s'.slotCount = s.slotCount ∧
      ∀ x, s'.obj x = if x = h then { object := none, referenceCount := 0, ownerUuid := caller } else s.obj x := by
  have inv := ksReachable_inv p hp s hr
  have hsmall := inv.small
  have hne : h ≠ SLOT_INVALID := by unfold SLOT_INVALID; omega
  unfold removeIfValid
  rw [if_pos hne]
  rcases remove_spec s inv.toLiveInv h caller with ⟨_, h2⟩ | ⟨_, _, _, h2⟩ | ⟨_, _, _, _, _, _, _, _, h2⟩ | ⟨s', o, h1, _, h3, _, _, _, _, h4⟩
  · rw [ho] at h2; simp at h2
  · rw [ho] at h2; simp at h2
  · rw [ho] at h2; simp at h2
  · unfold keyStoreRemove
    rw [h1]
    refine ⟨s', rfl, ?_, h3, fun x => by rw [h4 x, ho]⟩
    refine ksReachable_step p s s' hr (.remove h caller) trivial (.removed .OK) ?_
    simp only [ksStep, keyStoreRemove, h1]

theorem remove_maybe (p : Prims) (hp : p.Good) (st s1 s : KeyStore) (h : Nat) (caller : Uuid) (hm : MaybeAdded p st s1 h caller)
    (hr : KsReachable p s) (hcount : s.slotCount = s1.slotCount) (hs : (s1.obj h).object.isSome → s.obj h = s1.obj h) :
    ∃ s', removeIfValid s h caller = some s' ∧ KsReachable p s' ∧ s'.slotCount = s.slotCount ∧
      ((h = SLOT_INVALID ∧ s' = s) ∨ ∀ x, s'.obj x = if x = h then { object := none, referenceCount := 0, ownerUuid := caller } else s.obj x) := by
  rcases hm with ⟨rfl, _⟩ | ⟨d, ha⟩
  · exact ⟨s, by simp [removeIfValid], hr, rfl, Or.inl ⟨rfl, rfl⟩⟩
  · obtain ⟨w, _, ho⟩ := ha.obj
    have h1 : s1.obj h = { object := some w, referenceCount := 0, ownerUuid := caller } := by rw [ho, if_pos rfl]
    have h2 := hs (by rw [h1]; rfl)
    obtain ⟨s', r1, r2, r3, r4⟩ := remove_added p hp s hr h caller w (by rw [hcount, ha.count]; exact ha.lt) (by rw [h2, h1])
    exact ⟨s', r1, r2, r3, Or.inr r4⟩

theorem exchangeNetflix_cases (p : Prims) (hp : p.Good) (envs : Nat → Env) (he : ∀ i, (envs i).prims = p) (k : KdfEnv) (hk : k.prims.Good)
    (a : AgreeEnv) (ha : a.Good) (st : KeyStore) (hr : KsReachable p st) (rights : Rights) (private_ : Nat) (other : Bytes) (params : NetflixParams)
    (caller : Uuid) :
    ∃ o, exchangeNetflix envs k a st rights private_ other params caller = some o ∧ KsReachable p o.store ∧
      ((o.status ≠ .OK ∧ o.key = SLOT_INVALID ∧ SameKeys st o.store) ∨
       (o.status = .OK ∧ ∃ s1 s2, NetflixMade p k.prims a st s1 s2 o rights private_ other params caller)) := by
  obtain ⟨o, s1, s2, hb, m1, m2, m3, hc⟩ := netflixBody_cases p hp envs he k hk a ha st hr rights private_ other params caller
  unfold exchangeNetflix
  rw [hb]
  simp only [Option.bind_some]
  unfold netflixCleanup
  rcases hc with ⟨h1, h2⟩ | ⟨h1, h2⟩
  case inr =>
    rw [if_neg (by simp [h1])]
    exact ⟨o, rfl, m3.reach, Or.inr ⟨h1, s1, s2, h2⟩⟩
  rw [if_pos h1]
  -- nothing was added by the third import
  obtain ⟨hc3, hu3⟩ : o.store.slotCount = s2.slotCount ∧ Unchanged s2 o.store := by
    rcases m3 with ⟨_, _, h, h'⟩ | ⟨d, h⟩
    · exact ⟨h, h'⟩
    · have := h.lt
      have i2 := (ksReachable_inv p hp s2 m2.reach).small
      rw [h2] at this
      unfold SLOT_INVALID at this
      omega
  have hcount2 : s2.slotCount = s1.slotCount := by
    rcases m2 with ⟨_, _, h, _⟩ | ⟨d, h⟩
    · exact h
    · exact h.count
  have hcount1 : s1.slotCount = st.slotCount := by
    rcases m1 with ⟨_, _, h, _⟩ | ⟨d, h⟩
    · exact h
    · exact h.count
  have keep : (s1.obj o.ke).object.isSome → s2.obj o.ke = s1.obj o.ke := by
    intro hs
    rcases m2 with ⟨_, _, _, h⟩ | ⟨d, h⟩
    · exact h _
    · obtain ⟨w, _, ho⟩ := h.obj
      rw [ho, if_neg]
      intro heq
      have := h.free
      rw [← heq] at this
      rw [this] at hs
      simp at hs
  obtain ⟨t1, q1, q2, q3, q4⟩ := remove_maybe p hp st s1 o.store o.ke caller m1 m3.reach (by omega) (fun h => by rw [hu3, keep h])
  rw [q1]
  simp only [Option.bind_some]
  have hkne : o.kh ≠ SLOT_INVALID → o.kh ≠ o.ke := by
    intro hn heq
    rcases m2 with ⟨h, _⟩ | ⟨d, h⟩
    · exact hn h
    · have hf := h.free
      rcases m1 with ⟨h', _⟩ | ⟨d', h'⟩
      · exact hn (heq.trans h')
      · obtain ⟨w, _, ho⟩ := h'.obj
        rw [heq, ho, if_pos rfl] at hf
        simp at hf
  obtain ⟨t2, r1, r2, r3, r4⟩ := remove_maybe p hp s1 s2 t1 o.kh caller m2 q2 (by omega) (fun h => by
    by_cases hn : o.kh = SLOT_INVALID
    · have i2 := ksReachable_inv p hp s2 m2.reach
      rw [hn, obj_ge s2 i2.toStoreInv _ (by have := i2.small; unfold SLOT_INVALID; omega)] at h
      simp at h
    · rcases q4 with ⟨_, q4⟩ | q4
      · rw [q4, hu3]
      · rw [q4, if_neg (hkne hn), hu3])
  rw [r1]
  simp only [Option.bind_some]
  have r5 : removeIfValid t2 o.key caller = some t2 := by rw [h2]; simp [removeIfValid]
  rw [r5]
  refine ⟨_, rfl, r2, Or.inl ⟨h1, h2, by show t2.slotCount = st.slotCount; omega, fun x => ?_⟩⟩
  show t2.obj x = st.obj x ∨ ((t2.obj x).object = none ∧ (st.obj x).object = none)
  -- s1 differs from st at ke only, where st is free; s2 from s1 at kh only, where s1 is free
  have d1 : x ≠ o.ke ∨ o.ke = SLOT_INVALID → s1.obj x = st.obj x := by
    intro hx
    rcases m1 with ⟨_, _, _, h⟩ | ⟨d, h⟩
    · exact h x
    · obtain ⟨w, _, ho⟩ := h.obj
      rw [ho, if_neg]
      rcases hx with hx | hx
      · exact hx
      · have := h.lt
        have i := (ksReachable_inv p hp st hr).small
        rw [hx] at this; unfold SLOT_INVALID at this; omega
  have d2 : x ≠ o.kh ∨ o.kh = SLOT_INVALID → s2.obj x = s1.obj x := by
    intro hx
    rcases m2 with ⟨_, _, _, h⟩ | ⟨d, h⟩
    · exact h x
    · obtain ⟨w, _, ho⟩ := h.obj
      rw [ho, if_neg]
      rcases hx with hx | hx
      · exact hx
      · have := h.lt
        have i := (ksReachable_inv p hp s1 m1.reach).small
        rw [hx] at this; unfold SLOT_INVALID at this; omega
  have f1 : o.ke ≠ SLOT_INVALID → (st.obj o.ke).object = none := by
    intro hn
    rcases m1 with ⟨h, _⟩ | ⟨d, h⟩
    · exact absurd h hn
    · exact h.free
  have f2 : o.kh ≠ SLOT_INVALID → (st.obj o.kh).object = none := by
    intro hn
    rcases m2 with ⟨h, _⟩ | ⟨d, h⟩
    · exact absurd h hn
    · have := h.free
      have hne := hkne hn
      rcases m1 with ⟨_, _, _, h'⟩ | ⟨d', h'⟩
      · rw [h'] at this; exact this
      · obtain ⟨w, _, ho⟩ := h'.obj
        rw [ho, if_neg hne] at this; exact this
  have a1 : t1.obj x = s2.obj x ∨ (x = o.ke ∧ o.ke ≠ SLOT_INVALID ∧ (t1.obj x).object = none) := by
    rcases q4 with ⟨_, q4⟩ | q4
    · left; rw [q4, hu3]
    · by_cases hx : x = o.ke
      · by_cases hn : o.ke = SLOT_INVALID
        · left
          have i1 := ksReachable_inv p hp t1 q2
          have i2 := ksReachable_inv p hp s2 m2.reach
          rcases m1 with ⟨_, _, _, h'⟩ | ⟨d', h'⟩
          · have e := q1
            rw [hn] at e
            simp [removeIfValid] at e
            rw [← e, hu3]
          · have := h'.lt
            have i := (ksReachable_inv p hp st hr).small
            rw [hn] at this; unfold SLOT_INVALID at this; omega
        · right; exact ⟨hx, hn, by rw [q4, if_pos hx]⟩
      · left; rw [q4, if_neg hx, hu3]
  have a2 : t2.obj x = t1.obj x ∨ (x = o.kh ∧ o.kh ≠ SLOT_INVALID ∧ (t2.obj x).object = none) := by
    rcases r4 with ⟨_, r4⟩ | r4
    · left; rw [r4]
    · by_cases hx : x = o.kh
      · by_cases hn : o.kh = SLOT_INVALID
        · left
          have e := r1
          rw [hn] at e
          simp [removeIfValid] at e
          rw [← e]
        · right; exact ⟨hx, hn, by rw [r4, if_pos hx]⟩
      · left; rw [r4, if_neg hx]
  rcases a2 with a2 | ⟨rfl, hn, hnone⟩
  · rw [a2]
    rcases a1 with a1 | ⟨rfl, hn, hnone⟩
    · rw [a1]
      by_cases hx2 : x ≠ o.kh ∨ o.kh = SLOT_INVALID
      · rw [d2 hx2]
        by_cases hx1 : x ≠ o.ke ∨ o.ke = SLOT_INVALID
        · left; exact d1 hx1
        · have hx1' : x = o.ke ∧ o.ke ≠ SLOT_INVALID := by
            constructor
            · exact Classical.byContradiction fun h => hx1 (Or.inl h)
            · exact fun h => hx1 (Or.inr h)
          -- ke was removed, so t1 is free there
          exfalso
          rcases q4 with ⟨h, _⟩ | q4
          · exact hx1'.2 h
          · rcases m1 with ⟨h, _⟩ | ⟨d, h⟩
            · exact hx1'.2 h
            · obtain ⟨w, _, ho⟩ := h.obj
              have e1 := q4 x
              rw [if_pos hx1'.1, a1, d2 hx2, ho, if_pos hx1'.1] at e1
              simp at e1
      · have hx2' : x = o.kh ∧ o.kh ≠ SLOT_INVALID := by
          constructor
          · exact Classical.byContradiction fun h => hx2 (Or.inl h)
          · exact fun h => hx2 (Or.inr h)
        exfalso
        rcases r4 with ⟨h, _⟩ | r4
        · exact hx2'.2 h
        · rcases m2 with ⟨h, _⟩ | ⟨d, h⟩
          · exact hx2'.2 h
          · obtain ⟨w, _, ho⟩ := h.obj
            have e1 := r4 x
            rw [if_pos hx2'.1, a2, a1, ho, if_pos hx2'.1] at e1
            simp at e1
    · right; exact ⟨hnone, f1 hn⟩
  · right; exact ⟨hnone, f2 hn⟩

/-! ## The same keys are the same to everyone -/

theorem sameKeys_header (p : Prims) (hp : p.Good) (st st' : KeyStore) (hr : KsReachable p st) (hr' : KsReachable p st') (hs : SameKeys st st')
    (h : Nat) (u : Uuid) : (keyStoreGetHeader st' h u).2 = (keyStoreGetHeader st h u).2 := by
  have inv := ksReachable_inv p hp st hr
  have inv' := ksReachable_inv p hp st' hr'
  have free : ∀ s : KeyStore, KsInv p s → (s.obj h).object = none → (keyStoreGetHeader s h u).2 = (.INVALID_PARAMETER, none) := by
    intro s i ho
    unfold keyStoreGetHeader
    split
    · rfl
    · rcases acquire_spec s i.toLiveInv h u with ⟨h1, _⟩ | ⟨_, _, h2, _⟩ | ⟨_, _, _, _, _, _, h2, _⟩
      · rw [h1]
      · rw [ho] at h2; simp at h2
      · rw [ho] at h2; simp at h2
  have foreign : ∀ s : KeyStore, KsInv p s → (s.obj h).object.isSome → (s.obj h).ownerUuid ≠ u →
      (keyStoreGetHeader s h u).2 = (.OPERATION_NOT_ALLOWED, none) := by
    intro s i ho hu
    unfold keyStoreGetHeader
    split
    · rename_i hge; rw [obj_ge s i.toStoreInv h hge] at ho; simp at ho
    · rcases acquire_spec s i.toLiveInv h u with ⟨_, h2⟩ | ⟨h1, _, _, _⟩ | ⟨_, _, _, _, _, _, _, h2, _⟩
      · rw [h2] at ho; simp at ho
      · rw [h1]
      · exact absurd h2 hu
  cases hobj : (st.obj h).object with
  | none =>
    rw [free st inv hobj]
    refine free st' inv' ?_
    rcases hs.2 h with h1 | ⟨h1, _⟩
    · rw [h1, hobj]
    · exact h1
  | some w =>
    have heq : st'.obj h = st.obj h := by
      rcases hs.2 h with h1 | ⟨_, h1⟩
      · exact h1
      · rw [hobj] at h1; simp at h1
    by_cases hu : (st.obj h).ownerUuid = u
    · obtain ⟨k, hk, _⟩ := inv.keys h w hobj
      rw [ksHeader_live p st inv h u w k hobj hu hk, ksHeader_live p st' inv' h u w k (by rw [heq, hobj]) (by rw [heq, hu]) hk]
    · rw [foreign st inv (by rw [hobj]; rfl) hu, foreign st' inv' (by rw [heq, hobj]; rfl) (by rw [heq]; exact hu)]

theorem sameKeys_unwrap (env : Env) (hp : env.prims.Good) (st st' : KeyStore) (hr : KsReachable env.prims st) (hr' : KsReachable env.prims st')
    (hs : SameKeys st st') (h : Nat) (u : Uuid) : (keyStoreUnwrap env st' h u).map (·.2) = (keyStoreUnwrap env st h u).map (·.2) := by
  have inv := ksReachable_inv env.prims hp st hr
  have inv' := ksReachable_inv env.prims hp st' hr'
  have free : ∀ s : KeyStore, KsInv env.prims s → (s.obj h).object = none → (keyStoreUnwrap env s h u).map (·.2) = some (.INVALID_PARAMETER, none) := by
    intro s i ho
    unfold keyStoreUnwrap
    split
    · rfl
    · rcases acquire_spec s i.toLiveInv h u with ⟨h1, _⟩ | ⟨_, _, h2, _⟩ | ⟨_, _, _, _, _, _, h2, _⟩
      · rw [h1]; rfl
      · rw [ho] at h2; simp at h2
      · rw [ho] at h2; simp at h2
  have foreign : ∀ s : KeyStore, KsInv env.prims s → (s.obj h).object.isSome → (s.obj h).ownerUuid ≠ u →
      (keyStoreUnwrap env s h u).map (·.2) = some (.OPERATION_NOT_ALLOWED, none) := by
    intro s i ho hu
    unfold keyStoreUnwrap
    split
    · rename_i hge; rw [obj_ge s i.toStoreInv h hge] at ho; simp at ho
    · rcases acquire_spec s i.toLiveInv h u with ⟨_, h2⟩ | ⟨h1, _, _, _⟩ | ⟨_, _, _, _, _, _, _, h2, _⟩
      · rw [h2] at ho; simp at ho
      · rw [h1]; rfl
      · exact absurd h2 hu
  cases hobj : (st.obj h).object with
  | none =>
    rw [free st inv hobj]
    refine free st' inv' ?_
    rcases hs.2 h with h1 | ⟨h1, _⟩
    · rw [h1, hobj]
    · exact h1
  | some w =>
    have heq : st'.obj h = st.obj h := by
      rcases hs.2 h with h1 | ⟨_, h1⟩
      · exact h1
      · rw [hobj] at h1; simp at h1
    by_cases hu : (st.obj h).ownerUuid = u
    · obtain ⟨k, hk, _⟩ := inv.keys h w hobj
      rw [ksUnwrap_live env hp st inv h u w k hobj hu hk, ksUnwrap_live env hp st' inv' h u w k (by rw [heq, hobj]) (by rw [heq, hu]) hk]
      rfl
    · rw [foreign st inv (by rw [hobj]; rfl) hu, foreign st' inv' (by rw [heq, hobj]; rfl) (by rw [heq]; exact hu)]

/-! ## Netflix derivation -/

theorem deriveNetflix_cases (env : Env) (hp : env.prims.Good) (k : KdfEnv) (hk : k.prims.Good) (st : KeyStore) (hr : KsReachable env.prims st)
    (rights : Rights) (kenc khmac : Nat) (caller : Uuid) :
    ∃ st' s h, deriveNetflix env k st rights kenc khmac caller = some (st', s, h) ∧ KsReachable env.prims st' ∧
      ((s ≠ .OK ∧ h = SLOT_INVALID ∧ Unchanged st st') ∨
       (s = .OK ∧ ∃ enc hm d, KeyHeld env.prims st kenc caller enc ∧ KeyHeld env.prims st khmac caller hm ∧
          Flag enc.header.rights.usageFlags 1 ∧ Flag hm.header.rights.usageFlags 1 ∧ NewKey env.prims st st' h caller d ∧
          d.key = (k.prims.hmac 1 (k.prims.hmac 1 netflixSalt (enc.key ++ hm.key)) netflixInfo).take 16 ∧
          d.header.rights = restrictChildRights rights (some enc.header.rights))) := by
  have inv := ksReachable_inv _ hp st hr
  have failed : ∀ s, s ≠ Status.OK → ∃ st' s' h, (some (st, s, SLOT_INVALID) : Option (KeyStore × Status × Nat)) = some (st', s', h) ∧
      KsReachable env.prims st' ∧ ((s' ≠ .OK ∧ h = SLOT_INVALID ∧ Unchanged st st') ∨
       (s' = .OK ∧ ∃ enc hm d, KeyHeld env.prims st kenc caller enc ∧ KeyHeld env.prims st khmac caller hm ∧
          Flag enc.header.rights.usageFlags 1 ∧ Flag hm.header.rights.usageFlags 1 ∧ NewKey env.prims st st' h caller d ∧
          d.key = (k.prims.hmac 1 (k.prims.hmac 1 netflixSalt (enc.key ++ hm.key)) netflixInfo).take 16 ∧
          d.header.rights = restrictChildRights rights (some enc.header.rights))) :=
    fun s hs => ⟨_, _, _, rfl, hr, Or.inl ⟨hs, rfl, fun _ => rfl⟩⟩
  unfold deriveNetflix
  rcases unwrap_holds env hp st inv kenc caller with ⟨s, hs, hu⟩ | ⟨enc, hu, hh, _, _⟩
  · rw [hu]; cases s <;> first | exact absurd rfl hs | exact failed _ (by simp)
  rw [hu]
  simp only
  split
  · exact failed _ (by simp)
  rename_i hder
  split
  · exact failed _ (by simp)
  rcases unwrap_holds env hp st inv khmac caller with ⟨s, hs, hu1⟩ | ⟨hm, hu1, hh1, _, _⟩
  · rw [hu1]; cases s <;> first | exact absurd rfl hs | exact failed _ (by simp)
  rw [hu1]
  simp only
  split
  · exact failed _ (by simp)
  rename_i hder1
  split
  · exact failed _ (by simp)
  rcases netflixWrapping_cases env k hk rights enc.header.rights enc hm with ⟨s, hs, hw⟩ | ⟨d, hw, cw, w1, w2⟩
  · rw [hw]; cases s <;> first | exact absurd rfl hs | exact failed _ (by simp)
  · rw [hw]
    simp only
    obtain ⟨st', s, h, h1, h2, h3⟩ := import_added env hp st hr d caller cw
    rw [h1]
    refine ⟨st', s, h, rfl, h2.reach, ?_⟩
    rcases h3 with ⟨a, b⟩ | ⟨a, b⟩
    · left
      refine ⟨a, b, ?_⟩
      rcases h2 with ⟨_, _, _, h⟩ | ⟨d', h⟩
      · exact h
      · have := h.lt
        have i := inv.small
        rw [b] at this
        unfold SLOT_INVALID at this
        omega
    · exact Or.inr ⟨a, enc, hm, d, hh, hh1, ((allowedDerive_iff _ _).mp (by simpa using hder)).1, ((allowedDerive_iff _ _).mp (by simpa using hder1)).1,
        b.newKey hp hr, w1, w2⟩

end Sa

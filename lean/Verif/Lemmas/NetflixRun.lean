import Verif.Lemmas.Netflix

/-!
# The Netflix exchange when nothing fails outside
-/

namespace Sa

theorem createSym_succeeds (rights parent : Rights) (hrv : rightsValidateFormat rights = true) (n : Nat) (hn : 16 ≤ n ∧ n ≤ 512) (key : Bytes)
    (hk : key.length = n) :
    ∃ d, storedKeyCreate true rights (some parent) KEY_TYPE_SYMMETRIC (Vector.replicate 1040 0) n key = (.OK, some d) ∧ d.key = key ∧
      CreatedSome d ∧ HeaderMade d.header := by
  have hsup : keyTypeSupportsAny KEY_TYPE_SYMMETRIC (curveOf (Vector.replicate 1040 0)) n = true := by
    simp [keyTypeSupportsAny, keyTypeSupportsHmac, validHmacSize, hn]
  have hc : ∃ d, storedKeyCreate true rights (some parent) KEY_TYPE_SYMMETRIC (Vector.replicate 1040 0) n key = (.OK, some d) := by
    unfold storedKeyCreate
    rw [if_neg (by simp [hsup]), if_neg (by simp [hrv]), if_neg (by simp)]
    exact ⟨_, rfl⟩
  obtain ⟨d, hc⟩ := hc
  obtain ⟨_, _, _, _, _, h6, h7⟩ := storedKeyCreate_ok hc
  exact ⟨d, hc, h6, ⟨_, _, _, _, _, _, _, by omega, hc⟩, h7⟩

theorem import_succeeds (env : Env) (hp : env.prims.Good) (hok : ∀ s, env.ok s = true) (st : KeyStore) (hr : KsReachable env.prims st) (d : StoredKey)
    (caller : Uuid) (hd : CreatedSome d) (hm : HeaderMade d.header) (hfree : ∃ h, h < st.slotCount ∧ (st.obj h).object = none) :
    ∃ st' h, importOpt env st (some d) caller = (st', .OK, h) ∧ Added env.prims st st' h caller d := by
  obtain ⟨st', s, h, h1, _, h3⟩ := import_added env hp st hr d caller hd
  have := importStoredKey_succeeds env hok st (ksReachable_inv _ hp st hr) d hm caller hfree
  rw [h1] at this
  simp only at this
  subst this
  refine ⟨st', h, h1, ?_⟩
  rcases h3 with ⟨h, _⟩ | ⟨_, h⟩
  · exact absurd rfl h
  · exact h

/-- Something is free in `st` besides `h`. -/
theorem Added.stillFree {p : Prims} {st st' : KeyStore} {h : Nat} {caller : Uuid} {d : StoredKey} (ha : Added p st st' h caller d) (l : List Nat)
    (hl : ∀ x ∈ l, x < st.slotCount ∧ (st.obj x).object = none) : ∀ x ∈ l.filter (· ≠ h), x < st'.slotCount ∧ (st'.obj x).object = none := by
  intro x hx
  simp only [List.mem_filter, decide_eq_true_eq] at hx
  obtain ⟨w, _, ho⟩ := ha.obj
  rw [ha.count, ho, if_neg hx.2]
  exact hl x hx.1

theorem filter_ne_length (l : List Nat) (hn : l.Nodup) (h : Nat) : l.length ≤ (l.filter (· ≠ h)).length + 1 := by
  induction l with
  | nil => simp
  | cons a l ih =>
    simp only [List.nodup_cons] at hn
    have ih := ih hn.2
    by_cases ha : a = h
    · subst ha
      have : l.filter (· ≠ a) = l := by
        rw [List.filter_eq_self]
        intro b hb
        have : b ≠ a := fun e => hn.1 (e ▸ hb)
        simpa using this
      rw [List.filter_cons_of_neg (by simp), this]
      simp
    · rw [List.filter_cons_of_pos (by simpa using ha)]
      simp only [List.length_cons]
      omega

theorem exists_free (st : KeyStore) (l : List Nat) (hne : 1 ≤ l.length) (hl : ∀ x ∈ l, x < st.slotCount ∧ (st.obj x).object = none) :
    ∃ h, h < st.slotCount ∧ (st.obj h).object = none := by
  cases l with
  | nil => simp at hne
  | cons a l => exact ⟨a, hl a (by simp)⟩

theorem added_ne_invalid {p : Prims} (hp : p.Good) {st st' : KeyStore} {h : Nat} {caller : Uuid} {d : StoredKey} (ha : Added p st st' h caller d)
    (hr : KsReachable p st) : h ≠ SLOT_INVALID := by
  have := ha.lt
  have i := (ksReachable_inv p hp st hr).small
  unfold SLOT_INVALID
  omega

/-- The exchange runs to the end; `last` is whether the last derivation succeeds. -/
theorem netflix_runs (p : Prims) (hp : p.Good) (envs : Nat → Env) (he : ∀ i, (envs i).prims = p) (hok : ∀ i s, (envs i).ok s = true) (k : KdfEnv)
    (hk : k.prims.Good) (hka : k.allocOk = true) (hk0 : k.ok 0 = true) (hk1 : k.ok 1 = true) (a : AgreeEnv) (st : KeyStore) (hr : KsReachable p st)
    (rights : Rights) (private_ : Nat) (other : Bytes) (params : NetflixParams) (caller : Uuid)
    (hrv : rightsValidateFormat rights = true ∧ rightsValidateFormat params.rightsKe = true ∧ rightsValidateFormat params.rightsKh = true)
    (kw sk : StoredKey) (z : Bytes) (hu0 : keyStoreUnwrap (envs 0) st params.kw caller = some (st, .OK, some kw))
    (hd : rightsAllowedDerive (envs 0).rights kw.header.rights = true) (hsym : kw.header.type.toNat = KEY_TYPE_SYMMETRIC)
    (hkw : kw.key.length = 16) (hkr : rightsValidateFormat kw.header.rights = true)
    (hu1 : keyStoreUnwrap (envs 1) st private_ caller = some (st, .OK, some sk))
    (hx : rightsAllowedExchange (envs 1).rights sk.header.rights = true)
    (hdh : keyTypeSupportsDh sk.header.type.toNat sk.header.size.toNat = true) (hz : a.dh sk.key other = .secret z)
    (hzl : 16 ≤ z.length ∧ z.length ≤ 512) (l : List Nat) (hln : l.Nodup) (hl3 : 3 ≤ l.length)
    (hl : ∀ x ∈ l, x < st.slotCount ∧ (st.obj x).object = none) :
    ∃ o, netflixBody envs k a st rights private_ other params caller = some o ∧ o.ke ≠ SLOT_INVALID ∧ o.kh ≠ SLOT_INVALID ∧
      (k.ok 2 = false → o.status = .INTERNAL_ERROR) ∧ (k.ok 2 = true ∧ k.ok 3 = true → o.status = .OK) := by
  unfold netflixBody
  simp only
  rw [hu0]
  simp only
  rw [if_neg (by simp [hd]), if_neg (by simp [hsym]), hu1]
  simp only
  rw [if_neg (by simp [hx]), if_neg (by simp [hdh])]
  obtain ⟨sec, hsec, hseck, _⟩ := createSym_succeeds kw.header.rights sk.header.rights hkr z.length hzl z rfl
  have h2 : dhComputeSharedSecret (envs 2) a kw.header.rights other sk = (.OK, some sec) := by
    unfold dhComputeSharedSecret
    rw [hz]
    simp only
    rw [hok 2]
    exact hsec
  rw [h2]
  simp only
  have hlen : (netflixKeyBytes k.prims kw.key sec.key).length = 48 := hk.hmacLen 2 48 _ _ rfl
  obtain ⟨enc, henc, henck, hencc, hencm⟩ := createSym_succeeds params.rightsKe kw.header.rights hrv.2.1 16 (by omega)
    ((netflixKeyBytes k.prims kw.key sec.key).take 16) (by rw [List.length_take]; omega)
  obtain ⟨hm, hhm, hhmk, hhmc, hhmm⟩ := createSym_succeeds params.rightsKh kw.header.rights hrv.2.2 32 (by omega)
    (((netflixKeyBytes k.prims kw.key sec.key).drop 16).take 32) (by rw [List.length_take, List.length_drop]; omega)
  have h3 : kdfNetflixSharedSecret (envs 3) (envs 4) k params.rightsKe params.rightsKh kw (some sec) = (.OK, some enc, some hm) := by
    unfold kdfNetflixSharedSecret
    rw [if_neg (by omega)]
    simp only
    rw [if_neg (by simp [hka]), if_neg (by simp [hk0]), if_neg (by rw [hseck]; omega), if_neg (by simp [hk1]), hok 3, hok 4, henc]
    simp only
    rw [hhm]
  rw [h3]
  simp only
  obtain ⟨s1, ke, i1, a1⟩ := import_succeeds (envs 5) (he 5 ▸ hp) (hok 5) st (he 5 ▸ hr) enc caller hencc hencm (exists_free st l (by omega) hl)
  rw [he 5] at a1
  rw [i1]
  simp only
  rw [if_neg (by simp)]
  have f1 := a1.stillFree l hl
  have n1 := filter_ne_length l hln ke
  obtain ⟨s2, kh, i2, a2⟩ := import_succeeds (envs 6) (he 6 ▸ hp) (hok 6) s1 (he 6 ▸ a1.reach) hm caller hhmc hhmm (exists_free s1 _ (by omega) f1)
  rw [he 6] at a2
  rw [i2]
  simp only
  rw [if_neg (by simp)]
  have f2 := a2.stillFree _ f1
  have n2 := filter_ne_length _ (hln.filter (· ≠ ke)) kh
  have hke := added_ne_invalid hp a1 hr
  have hkh := added_ne_invalid hp a2 a1.reach
  have e16 : enc.key.length = 16 := by rw [henck, List.length_take]; omega
  have e32 : hm.key.length = 32 := by rw [hhmk, List.length_take, List.length_drop]; omega
  by_cases hlast : k.ok 2 = true ∧ k.ok 3 = true
  · obtain ⟨wrap, hw, _, hwc, hwm⟩ := createSym_succeeds rights kw.header.rights hrv.1 16 (by omega)
      ((k.prims.hmac 1 (k.prims.hmac 1 netflixSalt (enc.key ++ hm.key)) netflixInfo).take 16)
      (by rw [List.length_take, hk.hmacLen 1 32 _ _ rfl]; omega)
    have h4 : kdfNetflixWrapping (envs 7) { k with ok := fun i => k.ok (i + 2) } rights kw.header.rights enc hm = (.OK, some wrap) := by
      unfold kdfNetflixWrapping
      rw [if_neg (by omega), if_neg (by omega), if_neg (by simp [hka]), if_neg (by simp [hlast]), hok 7]
      exact hw
    rw [h4]
    simp only
    obtain ⟨s3, key, i3, a3⟩ := import_succeeds (envs 8) (he 8 ▸ hp) (hok 8) s2 (he 8 ▸ a2.reach) wrap caller hwc hwm (exists_free s2 _ (by omega) f2)
    rw [i3]
    exact ⟨_, rfl, hke, hkh, fun h => by rw [h] at hlast; simp at hlast, fun _ => rfl⟩
  · have h4 : kdfNetflixWrapping (envs 7) { k with ok := fun i => k.ok (i + 2) } rights kw.header.rights enc hm = (.INTERNAL_ERROR, none) := by
      unfold kdfNetflixWrapping
      rw [if_neg (by omega), if_neg (by omega), if_neg (by simp [hka]), if_pos]
      revert hlast
      cases k.ok 2 <;> cases k.ok 3 <;> simp
    rw [h4]
    exact ⟨_, rfl, hke, hkh, fun _ => rfl, fun h => absurd h hlast⟩

end Sa

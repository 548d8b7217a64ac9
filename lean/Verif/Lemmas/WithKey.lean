import Verif.Model.Exchange
import Verif.Lemmas.Derive

/-!
# Calls that use one key and make one key
-/

namespace Sa

/-- The result of a `stored_key_create` of a sane length. -/
def Created (env : Env) (k : StoredKey) : Prop :=
  ∃ rights parent kt tp size key, key.length + 16 < 2 ^ 64 ∧ storedKeyCreate (env.ok .storedKeyAlloc) rights parent kt tp size key = (.OK, some k)

/-- A body that stays in bounds and whose key, if it makes one, comes from `stored_key_create`. -/
def KeyFn (env : Env) (body : StoredKey → Option (Status × Option StoredKey)) (pk : StoredKey) : Prop :=
  ∃ s d, body pk = some (s, d) ∧ ∀ k, s = .OK → d = some k → Created env k

theorem import_created (env : Env) (hp : env.prims.Good) (st : KeyStore) (hr : KsReachable env.prims st) (d : StoredKey) (caller : Uuid)
    (hd : Created env d) :
    ∃ st' s h, keyStoreImportStoredKey env st d caller = (st', s, h) ∧ KsReachable env.prims st' ∧
      ((s ≠ .OK ∧ h = SLOT_INVALID ∧ Unchanged st st') ∨ (s = .OK ∧ NewKey env.prims st st' h caller d)) := by
  obtain ⟨_, _, _, _, _, _, hk, hd⟩ := hd
  exact import_cases env hp st hr _ _ _ _ _ _ d caller hk hd

theorem withKey_cases (env : Env) (hp : env.prims.Good) (st : KeyStore) (hr : KsReachable env.prims st) (key : Nat) (caller : Uuid)
    (body : StoredKey → Option (Status × Option StoredKey)) (hk : ∀ pk, KeyFn env body pk) :
    ∃ st' s h, withKey env st key caller body = some (st', s, h) ∧ KsReachable env.prims st' ∧
      ((s ≠ .OK ∧ h = SLOT_INVALID ∧ Unchanged st st' ∧
          ∀ pk, keyStoreUnwrap env st key caller = some (st, .OK, some pk) → ∀ s', s' ≠ Status.OK → body pk = some (s', none) → s = s') ∨
       (s = .OK ∧ ∃ pk d, KeyHeld env.prims st key caller pk ∧ useResult env pk caller = (.OK, some pk) ∧ body pk = some (.OK, some d) ∧
          NewKey env.prims st st' h caller d)) := by
  have inv := ksReachable_inv _ hp st hr
  unfold withKey
  rcases unwrap_holds env hp st inv key caller with ⟨s, hs, he⟩ | ⟨pk, he, hh, _, _⟩
  · rw [he]
    refine ⟨st, s, SLOT_INVALID, ?_, hr, Or.inl ⟨hs, rfl, fun _ => rfl, ?_⟩⟩
    · cases s <;> first | exact absurd rfl hs | rfl
    · intro pk h; simp at h
  · rw [he]
    simp only
    obtain ⟨s, d, hb, hd⟩ := hk pk
    rw [hb]
    have huniq : ∀ pk', some (st, Status.OK, some pk) = some (st, Status.OK, some pk') → pk' = pk := by
      intro pk' h; simp at h; exact h.symm
    by_cases hs : s = .OK
    · subst hs
      cases d with
      | none => exact ⟨st, .NULL_PARAMETER, SLOT_INVALID, rfl, hr, Or.inl ⟨by simp, rfl, fun _ => rfl, fun pk' h s' hs' hb' => by
          rw [huniq pk' h, hb] at hb'; simp only [Option.some.injEq, Prod.mk.injEq] at hb'; exact absurd hb'.1.symm hs'⟩⟩
      | some d =>
        obtain ⟨st', s, h, hi, hre, hcs⟩ := import_created env hp st hr d caller (hd d rfl rfl)
        refine ⟨st', s, h, by rw [← hi], hre, ?_⟩
        rcases hcs with ⟨a, b, c⟩ | ⟨h', hn⟩
        · refine Or.inl ⟨a, b, c, fun pk' h s' hs' hb' => ?_⟩
          rw [huniq pk' h, hb] at hb'; simp at hb'
        · exact Or.inr ⟨h', pk, d, hh, useResult_of_unwrap env st key caller pk hh he, hb, hn⟩
    · refine ⟨st, s, SLOT_INVALID, ?_, hr, Or.inl ⟨hs, rfl, fun _ => rfl, fun pk' h s' hs' hb' => ?_⟩⟩
      · cases s <;> first | exact absurd rfl hs | rfl
      · rw [huniq pk' h, hb] at hb'; simp only [Option.some.injEq, Prod.mk.injEq] at hb'; exact hb'.1

/-- What the call does if the key can be used and the body refuses. -/
theorem withKey_refused (env : Env) (st : KeyStore) (key : Nat) (caller : Uuid) (body : StoredKey → Option (Status × Option StoredKey))
    (pk : StoredKey) (hu : keyStoreUnwrap env st key caller = some (st, .OK, some pk)) (s : Status) (hs : s ≠ .OK) (d : Option StoredKey)
    (hb : body pk = some (s, d)) : withKey env st key caller body = some (st, s, SLOT_INVALID) := by
  unfold withKey
  rw [hu]
  simp only
  rw [hb]
  cases s <;> first | exact absurd rfl hs | rfl

/-- The call succeeds if nothing fails outside. -/
theorem withKey_succeeds (env : Env) (hp : env.prims.Good) (hok : ∀ s, env.ok s = true) (st : KeyStore) (hr : KsReachable env.prims st)
    (key : Nat) (caller : Uuid) (body : StoredKey → Option (Status × Option StoredKey)) (pk d : StoredKey)
    (hu : keyStoreUnwrap env st key caller = some (st, .OK, some pk)) (hb : body pk = some (.OK, some d)) (hd : Created env d)
    (hfree : ∃ h, h < st.slotCount ∧ (st.obj h).object = none) : ∃ st' h, withKey env st key caller body = some (st', .OK, h) := by
  unfold withKey
  rw [hu]
  simp only
  rw [hb]
  simp only
  obtain ⟨_, _, _, _, _, _, hk, hd⟩ := hd
  have hm := (storedKeyCreate_ok hd).2.2.2.2.2.2
  have := importStoredKey_succeeds env hok st (ksReachable_inv _ hp st hr) d hm caller hfree
  generalize keyStoreImportStoredKey env st d caller = r at this
  obtain ⟨st', s, h⟩ := r
  simp only at this
  subst this
  exact ⟨st', h, rfl⟩

/-! ## `import_key` of unwrap.c -/

/-- Size and type parameters of a key made by `import_key`. -/
def ImportShape (u : UnwrapPrims) (keyType : Nat) (curve : Option Nat) (clear : Bytes) (d : StoredKey) : Prop :=
  (keyType = KEY_TYPE_SYMMETRIC ∧ d.header.size.toNat = clear.length) ∨
  (keyType = KEY_TYPE_EC ∧ ∃ c, curve = some c ∧ u.ecValid c clear = true ∧ d.header.size.toNat = ecKeySizeFromCurve c ∧
      d.header.typeParameters = tpOfCurve c) ∨
  (keyType = KEY_TYPE_RSA ∧ d.header.size.toNat = u.rsaSize clear)

theorem unwrapImportKey_spec (env : Env) (u : UnwrapPrims) (rights wrapping : Rights) (keyType : Nat) (curve : Option Nat) (input : Bytes)
    (hl : input.length + 16 < 2 ^ 64) :
    (∃ s, s ≠ Status.OK ∧ unwrapImportKey env u rights wrapping keyType curve input = (s, none)) ∨
    (∃ d, unwrapImportKey env u rights wrapping keyType curve input = (.OK, some d) ∧ Created env d ∧ d.key = input ∧
      d.header.rights = restrictChildRights rights (some wrapping) ∧ d.header.type.toNat = keyType ∧ ImportShape u keyType curve input d) := by
  unfold unwrapImportKey
  split
  · exact Or.inl ⟨_, by simp, rfl⟩
  rename_i hty
  have create : ∀ tp size, (∃ s, s ≠ Status.OK ∧ storedKeyCreate (env.ok .storedKeyAlloc) rights (some wrapping) keyType tp size input = (s, none)) ∨
      (∃ d, storedKeyCreate (env.ok .storedKeyAlloc) rights (some wrapping) keyType tp size input = (.OK, some d) ∧ Created env d ∧ d.key = input ∧
        d.header.rights = restrictChildRights rights (some wrapping) ∧ d.header.type.toNat = keyType ∧
        d.header.size.toNat = size ∧ d.header.typeParameters = tp) := by
    intro tp size
    rcases storedKeyCreate_cases (env.ok .storedKeyAlloc) rights (some wrapping) keyType tp size input with ⟨d, hc⟩ | ⟨s, hs, hc⟩
    · obtain ⟨_, h2, h3, h4, h5, h6, _⟩ := storedKeyCreate_ok hc
      exact Or.inr ⟨d, hc, ⟨_, _, _, _, _, _, hl, hc⟩, h6, h2, h3, h5, h4⟩
    · exact Or.inl ⟨s, hs, hc⟩
  split
  · rename_i hec
    cases curve with
    | none => exact Or.inl ⟨_, by simp, rfl⟩
    | some c =>
      simp only
      cases hv : u.ecValid c input with
      | false => simp only [Bool.false_eq_true, if_false]; exact Or.inl ⟨_, by simp, rfl⟩
      | true =>
        simp only [if_true]
        split
        · exact Or.inl ⟨_, by simp, rfl⟩
        · rcases create (tpOfCurve c) (ecKeySizeFromCurve c) with h | ⟨d, h1, h2, h3, h4, h5, h6, h7⟩
          · exact Or.inl h
          · exact Or.inr ⟨d, h1, h2, h3, h4, h5, Or.inr (Or.inl ⟨hec, c, rfl, hv, h6, h7⟩)⟩
  · rename_i hec
    split
    · rename_i hrsa
      split
      · exact Or.inl ⟨_, by simp, rfl⟩
      · rcases create (Vector.replicate 1040 0) (u.rsaSize input) with h | ⟨d, h1, h2, h3, h4, h5, h6, h7⟩
        · exact Or.inl h
        · exact Or.inr ⟨d, h1, h2, h3, h4, h5, Or.inr (Or.inr ⟨hrsa, h6⟩)⟩
    · rename_i hrsa
      have hsym : keyType = KEY_TYPE_SYMMETRIC := by omega
      rcases create (Vector.replicate 1040 0) input.length with h | ⟨d, h1, h2, h3, h4, h5, h6, h7⟩
      · exact Or.inl h
      · exact Or.inr ⟨d, h1, h2, h3, h4, h5, Or.inl ⟨hsym, h6⟩⟩

end Sa

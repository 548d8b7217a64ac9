import Verif.Lemmas.Kdf
import Verif.Lemmas.Holds

/-!
# `ta_sa_key_derive`
-/

namespace Sa

/-- A derivation function: fails, or makes a key with the rights of the parent from at most 512 bytes. -/
def KdfFn (env : Env) (rights : Rights) (kdf : StoredKey → Option (Status × Option StoredKey)) (pk : StoredKey) : Prop :=
  (∃ s, s ≠ Status.OK ∧ kdf pk = some (s, none)) ∨
  (∃ L derived, L ≤ 512 ∧ derived.length ≤ L ∧ kdf pk = some (kdfFinish env rights pk.header.rights L derived))

/-- The parent may be used for derivation by the caller now. -/
structure DeriveParent (env : Env) (st : KeyStore) (parent : Nat) (caller : Uuid) (pk : StoredKey) : Prop where
  holds : KeyHeld env.prims st parent caller pk
  use : useResult env pk caller = (.OK, some pk)
  right : rightsAllowedDerive env.rights pk.header.rights = true
  symmetric : pk.header.type.toNat = KEY_TYPE_SYMMETRIC

theorem useResult_of_unwrap (env : Env) (st : KeyStore) (h : Nat) (u : Uuid) (k : StoredKey) (hh : KeyHeld env.prims st h u k)
    (he : keyStoreUnwrap env st h u = some (st, .OK, some k)) : useResult env k u = (.OK, some k) := by
  rw [hh.2 env rfl] at he
  simpa using he

theorem deriveFrom_cases (env : Env) (hp : env.prims.Good) (st : KeyStore) (hr : KsReachable env.prims st) (rights : Rights) (parent : Nat)
    (caller : Uuid) (typeOk : Header → Bool) (kdf : StoredKey → Option (Status × Option StoredKey)) (hk : ∀ pk, KdfFn env rights kdf pk) :
    ∃ st' s h, deriveFrom env st parent caller typeOk kdf = some (st', s, h) ∧ KsReachable env.prims st' ∧
      ((s ≠ .OK ∧ h = SLOT_INVALID ∧ Unchanged st st') ∨
       (s = .OK ∧ ∃ pk d, DeriveParent env st parent caller pk ∧ typeOk pk.header = true ∧ kdf pk = some (.OK, some d) ∧
          NewKey env.prims st st' h caller d)) := by
  have inv := ksReachable_inv _ hp st hr
  unfold deriveFrom
  rcases unwrap_holds env hp st inv parent caller with ⟨s, hs, he⟩ | ⟨pk, he, hh, _, _⟩
  · rw [he]
    refine ⟨st, s, SLOT_INVALID, ?_, hr, Or.inl ⟨hs, rfl, fun _ => rfl⟩⟩
    cases s <;> first | exact absurd rfl hs | rfl
  · rw [he]
    simp only
    split
    · exact ⟨_, _, _, rfl, hr, Or.inl ⟨by simp, rfl, fun _ => rfl⟩⟩
    · rename_i h1
      split
      · exact ⟨_, _, _, rfl, hr, Or.inl ⟨by simp, rfl, fun _ => rfl⟩⟩
      · rename_i h2
        split
        · exact ⟨_, _, _, rfl, hr, Or.inl ⟨by simp, rfl, fun _ => rfl⟩⟩
        · rename_i h3
          simp only [Bool.not_eq_true, Bool.not_eq_false'] at h1 h3
          have h2 : pk.header.type.toNat = KEY_TYPE_SYMMETRIC := Classical.byContradiction h2
          rcases hk pk with ⟨s, hs, hf⟩ | ⟨L, derived, hL, hd, hf⟩
          · rw [hf]
            refine ⟨st, s, SLOT_INVALID, ?_, hr, Or.inl ⟨hs, rfl, fun _ => rfl⟩⟩
            cases s <;> first | exact absurd rfl hs | rfl
          · unfold kdfFinish at hf
            rcases storedKeyCreate_cases (env.ok .storedKeyAlloc) rights (some pk.header.rights) KEY_TYPE_SYMMETRIC (Vector.replicate 1040 0)
              L derived with ⟨d, hc⟩ | ⟨s, hs, hc⟩
            · rw [hf, hc]
              simp only
              obtain ⟨st', s, h, hi, hre, hcs⟩ := import_cases env hp st hr _ _ _ _ _ _ d caller (by omega) hc
              refine ⟨st', s, h, by rw [hi], hre, ?_⟩
              rcases hcs with h' | ⟨h', hn⟩
              · exact Or.inl h'
              · exact Or.inr ⟨h', pk, d, ⟨hh, useResult_of_unwrap env st parent caller pk hh he, h1, h2⟩, h3, by rw [hf, hc], hn⟩
            · rw [hf, hc]
              refine ⟨st, s, SLOT_INVALID, ?_, hr, Or.inl ⟨hs, rfl, fun _ => rfl⟩⟩
              cases s <;> first | exact absurd rfl hs | rfl

/-- Derivation succeeds if nothing fails outside. -/
theorem deriveFrom_succeeds (env : Env) (hp : env.prims.Good) (hok : ∀ s, env.ok s = true) (st : KeyStore) (hr : KsReachable env.prims st)
    (rights : Rights) (hrv : rightsValidateFormat rights = true) (parent : Nat) (caller : Uuid) (typeOk : Header → Bool)
    (kdf : StoredKey → Option (Status × Option StoredKey)) (pk : StoredKey) (hpk : DeriveParent env st parent caller pk)
    (ht : typeOk pk.header = true) (L : Nat) (hL : 16 ≤ L ∧ L ≤ 512) (derived : Bytes)
    (hk : kdf pk = some (kdfFinish env rights pk.header.rights L derived)) (hfree : ∃ h, h < st.slotCount ∧ (st.obj h).object = none) :
    ∃ st' h, deriveFrom env st parent caller typeOk kdf = some (st', .OK, h) := by
  have inv := ksReachable_inv _ hp st hr
  unfold deriveFrom
  rw [hpk.holds.2 env rfl, hpk.use]
  simp only
  rw [if_neg (by simp [hpk.right]), if_neg (by simp [hpk.symmetric]), if_neg (by simp [ht]), hk]
  have hsup : keyTypeSupportsAny KEY_TYPE_SYMMETRIC (curveOf (Vector.replicate 1040 0)) L = true := by
    simp [keyTypeSupportsAny, keyTypeSupportsHmac, validHmacSize, hL]
  have hc : ∃ d, kdfFinish env rights pk.header.rights L derived = (.OK, some d) := by
    unfold kdfFinish storedKeyCreate
    rw [if_neg (by simp [hsup]), if_neg (by simp [hrv]), if_neg (by simp [hok])]
    exact ⟨_, rfl⟩
  obtain ⟨d, hc⟩ := hc
  rw [hc]
  simp only
  have hm := (storedKeyCreate_ok hc).2.2.2.2.2.2
  have := importStoredKey_succeeds env hok st inv d hm caller hfree
  generalize keyStoreImportStoredKey env st d caller = r at this
  obtain ⟨st', s, h⟩ := r
  simp only at this
  subst this
  exact ⟨st', h, rfl⟩

/-- What a derivation call does: nothing, or it makes one key with the bytes `bytes` of the parent's bytes and the rights
asked for restricted by the parent's. -/
def DeriveOutcome (env : Env) (st : KeyStore) (rights : Rights) (parent : Nat) (caller : Uuid) (L : Nat) (bytes : Bytes → Bytes)
    (r : Option (KeyStore × Status × Nat)) : Prop :=
  ∃ st' s h, r = some (st', s, h) ∧ KsReachable env.prims st' ∧
    ((s ≠ .OK ∧ h = SLOT_INVALID ∧ Unchanged st st') ∨
     (s = .OK ∧ ∃ pk d, KeyHeld env.prims st parent caller pk ∧ NewKey env.prims st st' h caller d ∧
        d.key = bytes pk.key ∧ d.key.length = L ∧ d.header.size.toNat = L ∧ d.header.type.toNat = KEY_TYPE_SYMMETRIC ∧
        d.header.rights = restrictChildRights rights (some pk.header.rights)))

theorem deriveOutcome_fail (env : Env) (st : KeyStore) (hr : KsReachable env.prims st) (rights : Rights) (parent : Nat) (caller : Uuid) (L : Nat) (bytes : Bytes → Bytes)
    (s : Status) (hs : s ≠ .OK) : DeriveOutcome env st rights parent caller L bytes (some (st, s, SLOT_INVALID)) :=
  ⟨st, s, SLOT_INVALID, rfl, hr, Or.inl ⟨hs, rfl, fun _ => rfl⟩⟩

theorem deriveFrom_outcome (env : Env) (hp : env.prims.Good) (st : KeyStore) (hr : KsReachable env.prims st) (rights : Rights) (parent : Nat)
    (caller : Uuid) (typeOk : Header → Bool) (kdf : StoredKey → Option (Status × Option StoredKey)) (L : Nat) (hL : L ≤ 512)
    (bytes : Bytes → Bytes) (hb : ∀ b, (bytes b).length = L)
    (hk : ∀ pk, (∃ s, s ≠ Status.OK ∧ kdf pk = some (s, none)) ∨ kdf pk = some (kdfFinish env rights pk.header.rights L (bytes pk.key))) :
    DeriveOutcome env st rights parent caller L bytes (deriveFrom env st parent caller typeOk kdf) := by
  obtain ⟨st', s, h, he, hre, hcs⟩ := deriveFrom_cases env hp st hr rights parent caller typeOk kdf
    (fun pk => (hk pk).imp id fun h => ⟨L, _, hL, by rw [hb]; omega, h⟩)
  refine ⟨st', s, h, he, hre, ?_⟩
  rcases hcs with h' | ⟨h', pk, d, hpk, _, hf, hn⟩
  · exact Or.inl h'
  · refine Or.inr ⟨h', pk, d, hpk.holds, hn, ?_⟩
    rcases hk pk with ⟨s', hs', hf'⟩ | hf'
    · rw [hf] at hf'; simp at hf'
    · rw [hf] at hf'
      simp only [Option.some.injEq] at hf'
      obtain ⟨_, h2, h3, _, h5, h6, _⟩ := storedKeyCreate_ok hf'.symm
      exact ⟨h6, by rw [h6, hb], h5, h3, h2⟩

theorem hkdfT_length (hmac : Bytes → Bytes → Bytes) (n : Nat) (hl : ∀ a b, (hmac a b).length = n) (prk info : Bytes) (i : Nat) :
    (hkdfT hmac prk info (i + 1)).length = n := by rw [hkdfT]; exact hl _ _

theorem blocks_take_length (d n L : Nat) (hd : digestLength d = some n) (T : Nat → Bytes) (hT : ∀ i, (T (i + 1)).length = n) :
    ((((List.range (blocksFor L n)).map fun i => T (i + 1)).flatten).take L).length = L := by
  rw [List.length_take, flatten_blocks_length T n hT]
  obtain ⟨h1, h2, _⟩ := blocks_facts d n L hd
  rw [← h1]
  split at h2
  · obtain ⟨_, b, c⟩ := h2
    obtain ⟨m, hm⟩ : ∃ m, blockCount L n = m + 1 := ⟨blockCount L n - 1, by omega⟩
    rw [hm] at c ⊢
    simp only [Nat.add_sub_cancel] at c
    rw [Nat.mul_succ]
    omega
  · rw [h2]; omega

theorem hkdfSpec_length (k : KdfPrims) (hk : k.Good) (d n : Nat) (hd : digestLength d = some n) (salt : Option Bytes) (ikm info : Bytes) (L : Nat) :
    (hkdfSpec (k.hmac d) n salt ikm info L).length = L := by
  unfold hkdfSpec
  exact blocks_take_length d n L hd _ (fun i => hkdfT_length _ n (fun a b => hk.hmacLen d n a b hd) _ _ i)

theorem concatSpec_length (k : KdfPrims) (hk : k.Good) (d n : Nat) (hd : digestLength d = some n) (z info : Bytes) (L : Nat) :
    (concatSpec (k.hash d) n z info L).length = L := by
  unfold concatSpec
  exact blocks_take_length d n L hd (fun i => k.hash d (be32 i ++ z ++ info)) (fun i => hk.hashLen d n _ hd)

theorem x963Spec_length (k : KdfPrims) (hk : k.Good) (d n : Nat) (hd : digestLength d = some n) (z info : Bytes) (L : Nat) :
    (x963Spec (k.hash d) n z info L).length = L := by
  unfold x963Spec
  exact blocks_take_length d n L hd (fun i => k.hash d (z ++ be32 i ++ info)) (fun i => hk.hashLen d n _ hd)

theorem cmacSpec_length (cmac : Bytes → Bytes) (hk : ∀ m, (cmac m).length = 16) (other : Bytes) (c L : Nat) (hL : L % 16 = 0) :
    (cmacSpec cmac other c L).length = L := by
  unfold cmacSpec
  have := flatten_blocks_length (fun i => cmac ([UInt8.ofNat (c + (i - 1))] ++ other)) 16 (fun _ => hk _) (L / 16)
  simp only [Nat.add_sub_cancel] at this
  rw [this]; omega

theorem digest_le_3 (d : Nat) (h : d ≤ 3) : ∃ n, digestLength d = some n := by
  have : d = 0 ∨ d = 1 ∨ d = 2 ∨ d = 3 := by omega
  rcases this with rfl | rfl | rfl | rfl <;> exact ⟨_, rfl⟩

theorem digest_some_le (d n : Nat) (h : digestLength d = some n) : d ≤ 3 := by
  unfold digestLength at h
  split at h <;> first | omega | simp at h

theorem allowedDerive_iff (env : RightsEnv) (r : Rights) :
    rightsAllowedDerive env r = true ↔ Flag r.usageFlags 1 ∧ rightsAllowedTime r env.time = true := by
  unfold rightsAllowedDerive
  rw [← bitTest_iff _ 1 (by omega)]
  show (if (!bitTest r.usageFlags 1) = true then _ else _) = true ↔ _
  cases bitTest r.usageFlags 1 <;> cases rightsAllowedTime r env.time <;> simp

theorem deriveParent_of (env : Env) (hp : env.prims.Good) (st : KeyStore) (hr : KsReachable env.prims st) (parent : Nat) (caller : Uuid) (pk : StoredKey)
    (hu : keyStoreUnwrap env st parent caller = some (st, .OK, some pk)) (hf : Flag pk.header.rights.usageFlags 1)
    (hs : pk.header.type.toNat = KEY_TYPE_SYMMETRIC) : DeriveParent env st parent caller pk := by
  rcases unwrap_holds env hp st (ksReachable_inv _ hp st hr) parent caller with ⟨s, h, he⟩ | ⟨k, he, hh, _⟩
  · rw [hu] at he; simp only [Option.some.injEq, Prod.mk.injEq, true_and] at he; exact absurd he.1.symm h
  · rw [hu] at he
    simp only [Option.some.injEq, Prod.mk.injEq, true_and] at he
    subst he
    have use := useResult_of_unwrap env st parent caller pk hh hu
    refine ⟨hh, use, (allowedDerive_iff _ _).mpr ⟨hf, ?_⟩, hs⟩
    unfold useResult at use
    split at use
    · rename_i h; exact h.2.1
    · simp at use

theorem supportsHmac_of_symmetric (h : Header) (hs : h.type.toNat = KEY_TYPE_SYMMETRIC)
    (ha : keyTypeSupportsAny h.type.toNat (curveOf h.typeParameters) h.size.toNat = true) :
    keyTypeSupportsHmac h.type.toNat h.size.toNat = true := by
  rw [hs] at ha ⊢
  unfold keyTypeSupportsAny keyTypeSupportsAes keyTypeSupportsRsa keyTypeSupportsEc keyTypeSupportsDh at ha
  simp only [Bool.or_eq_true] at ha
  rcases ha with (((h | h) | h) | h) | h
  · simp only [keyTypeSupportsHmac, validHmacSize, validAesSize] at h ⊢
    simp at h ⊢
    omega
  · exact h
  all_goals simp [KEY_TYPE_SYMMETRIC, KEY_TYPE_RSA, KEY_TYPE_EC, KEY_TYPE_DH] at h

end Sa

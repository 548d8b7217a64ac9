import Verif.Props.C08

/-!
# C16: stored keys always satisfy the header invariant
-/

namespace Sa.C16

/-- The supported sizes of each key type (sa_types.h, key_type.c), written as a table.  Symmetric keys have 16 to 512 bytes. -/
def Supported (type curve size : Nat) : Prop :=
  (type = 0 ∧ 16 ≤ size ∧ size ≤ 512) ∨
  (type = 1 ∧ (curve, size) ∈ [(0, 32), (1, 48), (2, 66), (3, 32), (4, 32), (5, 57), (6, 56), (7, 24), (8, 28)]) ∨
  (type = 2 ∧ size ∈ [128, 256, 384, 512]) ∨
  (type = 3 ∧ 1 ≤ size ∧ size ≤ 512)

theorem supported_iff (t c s : Nat) : keyTypeSupportsAny t c s = true ↔ Supported t (c % 256) s := by
  unfold keyTypeSupportsAny keyTypeSupportsAes keyTypeSupportsHmac keyTypeSupportsRsa keyTypeSupportsEc keyTypeSupportsDh
    validAesSize validHmacSize validRsaSize validEcSize validDhSize KEY_TYPE_SYMMETRIC KEY_TYPE_EC KEY_TYPE_RSA
    KEY_TYPE_DH Supported
  generalize c % 256 = c
  by_cases h0 : t = 0
  · subst h0; simp; omega
  by_cases h1 : t = 1
  · subst h1
    simp [ecKeySizeFromCurve, CURVE_P192, CURVE_P224, CURVE_P256, CURVE_P384, CURVE_P521, CURVE_ED25519, CURVE_X25519,
      CURVE_ED448, CURVE_X448]
    constructor
    · rintro (((((((( h | h) | h) | h) | h) | h) | h) | h) | h) <;> simp [h]
    · rintro (h | h | h | h | h | h | h | h | h) <;> simp [h]
  by_cases h2 : t = 2
  · subst h2; simp; omega
  by_cases h3 : t = 3
  · subst h3; simp; omega
  simp [h0, h1, h2, h3]

/-- The magic number of a key header: the characters `sak0`. -/
def IsMagic (m : Vector UInt8 4) : Prop := m.toList = [0x73, 0x61, 0x6b, 0x30]

/-- **C16.**  After any history, whatever the header of a live key is read as, it has the magic number, a NUL-terminated identifier,
and a supported type and size; and whenever the key itself is released it carries that same header.  (The curve is compared modulo
256, as the code does.) -/
theorem C16_header_invariant (p : Prims) (hp : p.Good) (st : KeyStore) (hr : KsReachable p st) (key : Nat) (caller : Uuid)
    (st' : KeyStore) (h : Header) (hh : keyStoreGetHeader st key caller = (st', .OK, some h)) :
    IsMagic h.magic ∧ (0 : UInt8) ∈ h.rights.id.toList ∧
    Supported h.type.toNat (curveOf h.typeParameters % 256) h.size.toNat ∧
    (∀ env : Env, env.prims = p → ∀ st'' s k, keyStoreUnwrap env st key caller = some (st'', s, some k) → k.header = h) := by
  have inv := ksReachable_inv _ hp st hr
  obtain ⟨w, k, ho, hu, hk, _, rfl⟩ := ksHeader_ok _ st inv key caller _ h hh
  refine ⟨?_, ?_, (supported_iff _ _ _).mp hk.made.size, ?_⟩
  · rw [hk.made.magic]; unfold IsMagic; decide
  · have := hk.made.id
    unfold rightsValidateFormat at this
    simpa using this
  · intro env he st'' s k' hk'
    subst he
    rw [ksUnwrap_live env hp st inv key caller w k ho hu hk] at hk'
    simp only [Option.some.injEq, Prod.mk.injEq] at hk'
    have h2 : (useResult env k caller).2 = some k' := by rw [hk'.2]
    unfold useResult at h2
    split at h2
    · split at h2
      · simp only [Option.some.injEq] at h2; rw [← h2]
      · simp at h2
    · simp at h2

/-- **C16 (creation).**  A key that is created is read back as created: type, parameters, size and (restricted) rights in the header,
and the same bytes. -/
theorem C16_created (env : Env) (hp : env.prims.Good) (st : KeyStore) (hr : KsReachable env.prims st) (rights : Rights)
    (parent : Option Rights) (keyType : Nat) (tp : Vector UInt8 1040) (size : Nat) (bytes : Bytes)
    (hl : bytes.length + 16 < 2 ^ 64) (caller : Uuid) (st' : KeyStore) (key : Nat)
    (hc : ksStep env.prims st (.create env rights parent keyType tp size bytes caller) = some (st', .imported .OK key)) :
    ∃ h, (keyStoreGetHeader st' key caller).2 = (.OK, some h) ∧ h.type.toNat = keyType ∧ h.typeParameters = tp ∧
      h.size.toNat = size ∧ h.rights.id = rights.id ∧ h.rights.allowedTas = rights.allowedTas ∧
      h.rights.notBefore = rights.notBefore ∧ h.rights.notOnOrAfter = rights.notOnOrAfter ∧
      (∀ env3 : Env, env3.prims = env.prims → ∀ st'' s k, keyStoreUnwrap env3 st' key caller = some (st'', s, some k) →
        k.key = bytes) := by
  have inv := ksReachable_inv _ hp st hr
  simp only [ksStep] at hc
  rcases storedKeyCreate_cases (env.ok .storedKeyAlloc) rights parent keyType tp size bytes with ⟨sk, h⟩ | ⟨s, hs, h⟩
  · rw [h] at hc
    obtain ⟨_, c2, c3, c4, c5, c6, c7⟩ := storedKeyCreate_ok h
    have hks : KeySmall sk.key := by
      unfold KeySmall paddedSize; rw [c6]; omega
    obtain ⟨i1, i2, i3⟩ := importStoredKey_spec env hp st inv sk c7 hks caller
    generalize hres : keyStoreImportStoredKey env st sk caller = res at *
    obtain ⟨st3, s, k⟩ := res
    have hc' : st3 = st' ∧ s = .OK ∧ k = key := by
      simp only [Option.some.injEq, Prod.mk.injEq, KsResp.imported.injEq] at hc
      have e : keyStoreImportStoredKey { env with prims := env.prims } st sk caller = (st3, s, k) := hres
      rw [e] at hc
      exact hc
    obtain ⟨rfl, rfl, rfl⟩ := hc'
    rcases i3 with ⟨hno, _⟩ | ⟨_, h1, h2, w3, hw3, hobj⟩
    · exact absurd rfl hno
    · simp only at h1 h2 hobj i1
      have ho3 : (st3.obj k).object = some w3 := by rw [hobj, if_pos rfl]
      have hu3 : (st3.obj k).ownerUuid = caller := by rw [hobj, if_pos rfl]
      refine ⟨sk.header, by rw [ksHeader_live _ st3 i1 k caller w3 sk ho3 hu3 hw3], c3, c4, c5, ?_⟩
      have hid : (restrictChildRights rights parent).id = rights.id ∧ (restrictChildRights rights parent).allowedTas = rights.allowedTas ∧
          (restrictChildRights rights parent).notBefore = rights.notBefore ∧
          (restrictChildRights rights parent).notOnOrAfter = rights.notOnOrAfter := by
        unfold restrictChildRights
        cases parent with
        | none => exact ⟨rfl, rfl, rfl, rfl⟩
        | some p => simp only; split <;> exact ⟨rfl, rfl, rfl, rfl⟩
      rw [c2]
      refine ⟨hid.1, hid.2.1, hid.2.2.1, hid.2.2.2, ?_⟩
      intro env3 he st'' s k' hk'
      rw [ksUnwrap_live env3 (he ▸ hp) st3 (he ▸ i1) k caller w3 sk ho3 hu3 (he ▸ hw3)] at hk'
      simp only [Option.some.injEq, Prod.mk.injEq] at hk'
      have h2 : (useResult env3 sk caller).2 = some k' := by rw [hk'.2]
      unfold useResult at h2
      split at h2
      · split at h2
        · simp only [Option.some.injEq] at h2; rw [← h2, c6]
        · simp at h2
      · simp at h2
  · rw [h] at hc
    split at hc
    · rename_i heq; simp at heq
    · simp only [Option.some.injEq, Prod.mk.injEq, KsResp.imported.injEq] at hc
      rename_i heq
      simp only [Prod.mk.injEq] at heq
      exact absurd (heq.1.trans hc.2.1) hs

/-- **C16 (persistence).**  As long as nobody removes the handle, its header and its key stay the same, whatever else happens. -/
theorem C16_persists (p : Prims) (hp : p.Good) (st : KeyStore) (hr : KsReachable p st) (key : Nat) (caller : Uuid)
    (h : Header) (hh : (keyStoreGetHeader st key caller).2 = (.OK, some h)) (ops : List KsOp) (hf : ∀ op ∈ ops, op.Fits)
    (hno : ∀ op ∈ ops, ∀ c, op ≠ .remove key c) (st' : KeyStore) (ha : ksAfter p st ops = some st') :
    (keyStoreGetHeader st' key caller).2 = (.OK, some h) ∧
    ∀ env : Env, env.prims = p →
      (keyStoreUnwrap env st' key caller).map (·.2) = (keyStoreUnwrap env st key caller).map (·.2) := by
  have inv := ksReachable_inv _ hp st hr
  obtain ⟨w, k, ho, hu, hk, _, rfl⟩ := ksHeader_ok _ st inv key caller _ h (Prod.ext rfl hh)
  have hobj := ksAfter_stable p hp ops hf st inv key (by simp [ho]) hno st' ha
  obtain ⟨st2, a1, inv', _⟩ := ksAfter_inv p hp ops hf st inv
  rw [a1] at ha
  simp only [Option.some.injEq] at ha
  subst ha
  have ho' : (st2.obj key).object = some w := by rw [hobj, ho]
  have hu' : (st2.obj key).ownerUuid = caller := by rw [hobj, hu]
  refine ⟨by rw [ksHeader_live p st2 inv' key caller w k ho' hu' hk], ?_⟩
  intro env he
  rw [ksUnwrap_live env (he ▸ hp) st2 (he ▸ inv') key caller w k ho' hu' (he ▸ hk),
    ksUnwrap_live env (he ▸ hp) st (he ▸ inv) key caller w k ho hu (he ▸ hk)]
  rfl

/-- Non-trivial case: the key of `C08.st1`. -/
example : (C08.st1.map fun st => ((keyStoreGetHeader st 31 C08.u7).2.1, (keyStoreGetHeader st 31 C08.u7).2.2.map
    fun h => (h.type, h.size, h.rights.usageFlags))) = some (.OK, some (0, 16, 0x2410)) := by decide +kernel

/-- A size the type does not support is refused. -/
example : (storedKeyCreate true rightsAllowAll none 2 (Vector.replicate 1040 0) 129 (List.replicate 129 0)).1 =
    .INVALID_PARAMETER := by decide +kernel

end Sa.C16

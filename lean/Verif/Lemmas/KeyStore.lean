import Verif.Model.KeyStore
import Verif.Lemmas.Layout
import Verif.Lemmas.Pad
import Verif.Lemmas.Crypto
import Verif.Lemmas.Rights
import Verif.Lemmas.ObjectStore

namespace Sa

/-! ## Acquire followed by release -/

theorem setObj_setObj {α : Type} (st : ObjectStore α) (h : Nat) (a b : StoreObject α) :
    (st.setObj h a).setObj h b = st.setObj h b := by
  simp [ObjectStore.setObj]

theorem setObj_self {α : Type} (st : ObjectStore α) (h : Nat) (hl : h < st.objects.length) :
    st.setObj h (st.obj h) = st := by
  unfold ObjectStore.setObj ObjectStore.obj
  rw [List.getD_eq_getElem?_getD, List.getElem?_eq_getElem hl]
  simp

/-- A successful acquire: what it needs and what it gives. -/
theorem acquire_ok_iff {α : Type} (st : ObjectStore α) (h : Nat) (u : Uuid) (st1 : ObjectStore α) (o : α) :
    objectStoreAcquire st h u = (st1, .OK, some o) ↔
      h < st.slotCount ∧ st.isShuttingDown = false ∧ (st.obj h).object = some o ∧ (st.obj h).ownerUuid = u ∧
      st1 = st.setObj h { st.obj h with referenceCount := (st.obj h).referenceCount + 1 } := by
  unfold objectStoreAcquire acquireBody
  by_cases h1 : h ≥ st.slotCount
  · rw [if_pos h1]; simp; omega
  · rw [if_neg h1]
    cases hs : st.isShuttingDown with
    | true => simp
    | false =>
      simp only [Bool.false_eq_true, if_false]
      cases ho : (st.obj h).object with
      | none => simp
      | some o' =>
        simp only
        by_cases hu : (st.obj h).ownerUuid = u
        · rw [if_neg (by simp [(uuidMatches_iff _ _).mpr hu])]
          simp only [Prod.mk.injEq, Option.some.injEq, true_and, ge_iff_le, Nat.not_le] at h1 ⊢
          constructor
          · rintro ⟨e1, e2⟩; exact ⟨h1, e2, hu, e1.symm⟩
          · rintro ⟨_, e2, _, e1⟩; exact ⟨e1.symm, e2⟩
        · rw [if_pos (by simp [(uuidMatches_false_iff _ _).mpr hu])]
          simp [hu]

/-- An unsuccessful acquire changes nothing and gives no object. -/
theorem acquire_fail {α : Type} (st : ObjectStore α) (h : Nat) (u : Uuid) :
    (∃ st1 o, objectStoreAcquire st h u = (st1, .OK, some o)) ∨
    (∃ s, s ≠ Status.OK ∧ objectStoreAcquire st h u = (st, s, none)) := by
  unfold objectStoreAcquire acquireBody
  split
  · exact Or.inr ⟨_, by simp, rfl⟩
  · simp only
    split
    · exact Or.inr ⟨_, by simp, rfl⟩
    · split
      · exact Or.inr ⟨_, by simp, rfl⟩
      · split
        · exact Or.inr ⟨_, by simp, rfl⟩
        · exact Or.inl ⟨_, _, rfl⟩

/-- Acquire and release of one object leave the table as it was. -/
theorem acquire_release {α : Type} [DecidableEq α] (st : ObjectStore α) (hlen : st.objects.length = st.slotCount) (h : Nat)
    (u : Uuid) (st1 : ObjectStore α) (o : α) (ha : objectStoreAcquire st h u = (st1, .OK, some o)) :
    objectStoreRelease st1 h o u = (st, .OK) := by
  obtain ⟨h1, h2, h3, h4, h5⟩ := (acquire_ok_iff st h u st1 o).mp ha
  subst h5
  have hl : h < st.objects.length := by omega
  have hobj : (st.setObj h { st.obj h with referenceCount := (st.obj h).referenceCount + 1 }).obj h =
      { st.obj h with referenceCount := (st.obj h).referenceCount + 1 } := by
    rw [obj_setObj _ _ _ _ hl, if_pos rfl]
  unfold objectStoreRelease releaseBody
  rw [if_neg (by rw [setObj_slotCount]; omega)]
  simp only [hobj]
  rw [if_neg (by simp [(uuidMatches_iff _ _).mpr h4]), if_neg (by simp [h3]), if_neg (by omega)]
  rw [setObj_setObj]
  have : ({ object := (st.obj h).object, referenceCount := (st.obj h).referenceCount + 1 - 1,
            ownerUuid := (st.obj h).ownerUuid } : StoreObject α) = st.obj h := by
    simp
  rw [this, setObj_self st h hl]

/-! ## Headers -/

theorem memcmp_vec4 (a b : Vector UInt8 4) : memcmpConstant a.toList b.toList 4 = some 0 ↔ a = b := by
  unfold memcmpConstant
  obtain ⟨r', he, hr⟩ := memcmpLoop_spec a.toList b.toList 4 0 0 [] (by simp) (by simp)
  rw [he]
  simp only [Option.map_some, Option.some.injEq, hr, true_and]
  constructor
  · intro h
    apply Vector.toList_inj.mp
    apply List.ext_getElem?
    intro i
    by_cases hi : i < 4
    · exact h i (by omega) (by omega)
    · rw [List.getElem?_eq_none (by simp; omega), List.getElem?_eq_none (by simp; omega)]
  · rintro rfl; intros; rfl

theorem memcmp_32 (a b : Bytes) (ha : a.length = 32) (hb : 32 ≤ b.length) :
    ∃ r, memcmpConstant a b 32 = some r ∧ (r = 0 ↔ a = b.take 32) := by
  unfold memcmpConstant
  obtain ⟨r', he, hr⟩ := memcmpLoop_spec a b 32 0 0 [] (by omega) (by omega)
  refine ⟨r', by rw [he]; rfl, hr.trans ?_⟩
  constructor
  · rintro ⟨_, h⟩
    apply List.ext_getElem?
    intro i
    rw [List.getElem?_take]
    by_cases hi : i < 32
    · rw [if_pos hi]; exact h i (by omega) (by omega)
    · rw [if_neg hi, List.getElem?_eq_none (by omega)]
  · intro h
    refine ⟨rfl, fun k _ hk => ?_⟩
    rw [h, List.getElem?_take, if_pos (by omega)]

/-- What `validate_header_format` accepts. -/
structure HeaderOk (h : Header) : Prop where
  magic : h.magic = MAGIC
  id : rightsValidateFormat h.rights = true
  size : keyTypeSupportsAny h.type.toNat (curveOf h.typeParameters) h.size.toNat = true

theorem validateHeaderFormat_iff (h : Header) : validateHeaderFormat h = true ↔ HeaderOk h := by
  unfold validateHeaderFormat
  have hm := memcmp_vec4 h.magic MAGIC
  by_cases h1 : h.magic = MAGIC
  · rw [if_neg (by simp [hm.mpr h1])]
    cases h2 : rightsValidateFormat h.rights with
    | false => simp; intro hh; have := hh.id; rw [h2] at this; simp at this
    | true =>
      cases h3 : keyTypeSupportsAny h.type.toNat (curveOf h.typeParameters) h.size.toNat with
      | false => simp; intro hh; have := hh.size; rw [h3] at this; simp at this
      | true => simp; exact ⟨h1, h2, h3⟩
  · rw [if_pos (fun e => h1 (hm.mp e))]
    simp; intro hh; exact h1 hh.magic

theorem supportsAny_bounds (t c s : Nat) (h : keyTypeSupportsAny t c s = true) : t ≤ 3 ∧ 1 ≤ s ∧ s ≤ 512 := by
  unfold keyTypeSupportsAny keyTypeSupportsAes keyTypeSupportsHmac keyTypeSupportsRsa keyTypeSupportsEc keyTypeSupportsDh
    validAesSize validHmacSize validRsaSize validEcSize validDhSize KEY_TYPE_SYMMETRIC KEY_TYPE_EC KEY_TYPE_RSA
    KEY_TYPE_DH at h
  simp only [ecKeySizeFromCurve, CURVE_P192, CURVE_P224, CURVE_P256, CURVE_P384, CURVE_P521, CURVE_ED25519, CURVE_X25519,
    CURVE_ED448, CURVE_X448, Bool.or_eq_true, Bool.and_eq_true, beq_iff_eq, decide_eq_true_eq] at h
  omega

/-- Headers of keys made by `stored_key_create`: valid, with zero padding. -/
structure HeaderMade (h : Header) : Prop extends HeaderOk h where
  pad0 : h.pad0 = Vector.replicate 4 0
  pad1 : h.pad1 = Vector.replicate 7 0
  pad2 : h.pad2 = Vector.replicate 6 0

/-- A key some call of `stored_key_create` returned. -/
def Made (sk : StoredKey) : Prop :=
  ∃ allocOk rights parent keyType tp size input,
    storedKeyCreate allocOk rights parent keyType tp size input = (.OK, some sk)

theorem restrict_id (r : Rights) (p : Option Rights) : (restrictChildRights r p).id = r.id := by
  unfold restrictChildRights
  cases p with
  | none => rfl
  | some p => simp only; split <;> rfl

theorem storedKeyCreate_ok {allocOk rights parent keyType tp size input sk}
    (h : storedKeyCreate allocOk rights parent keyType tp size input = (.OK, some sk)) :
    sk.header.magic = MAGIC ∧ sk.header.rights = restrictChildRights rights parent ∧ sk.header.type.toNat = keyType ∧
    sk.header.typeParameters = tp ∧ sk.header.size.toNat = size ∧ sk.key = input ∧ HeaderMade sk.header := by
  unfold storedKeyCreate at h
  split at h
  · simp at h
  · rename_i hs
    split at h
    · simp at h
    · rename_i hr
      split at h
      · simp at h
      · simp only [Prod.mk.injEq, Option.some.injEq, true_and] at h
        simp only [Bool.not_eq_true, Bool.not_eq_false'] at hs hr
        have b := supportsAny_bounds _ _ _ hs
        have t1 : (UInt8.ofNat keyType).toNat = keyType := by rw [UInt8.toNat_ofNat']; omega
        have t2 : (UInt16.ofNat size).toNat = size := by rw [UInt16.toNat_ofNat']; omega
        subst h
        refine ⟨rfl, rfl, t1, rfl, t2, rfl, ⟨⟨rfl, ?_, ?_⟩, rfl, rfl, rfl⟩⟩
        · unfold rightsValidateFormat at *
          simp only [restrict_id]; exact hr
        · simp only [t1, t2]; exact hs

theorem storedKeyCreate_cases (allocOk rights parent keyType tp size input) :
    (∃ sk, storedKeyCreate allocOk rights parent keyType tp size input = (.OK, some sk)) ∨
    (∃ s, s ≠ Status.OK ∧ storedKeyCreate allocOk rights parent keyType tp size input = (s, none)) := by
  unfold storedKeyCreate
  split
  · exact Or.inr ⟨_, by simp, rfl⟩
  · split
    · exact Or.inr ⟨_, by simp, rfl⟩
    · split
      · exact Or.inr ⟨_, by simp, rfl⟩
      · exact Or.inl ⟨_, rfl⟩

theorem Made.header {sk : StoredKey} (h : Made sk) : HeaderMade sk.header := by
  obtain ⟨_, _, _, _, _, _, _, h⟩ := h
  exact (storedKeyCreate_ok h).2.2.2.2.2.2

/-- Rebuilding a key from a header made by `stored_key_create` gives the same header. -/
theorem storedKeyCreate_rebuild (h : Header) (hm : HeaderMade h) (input : Bytes) :
    storedKeyCreate true h.rights none h.type.toNat h.typeParameters h.size.toNat input =
      (.OK, some { header := h, key := input }) := by
  unfold storedKeyCreate
  rw [if_neg (by simp [hm.size]), if_neg (by simp [hm.id])]
  simp only [Bool.not_true, Bool.false_eq_true, if_false, restrictChildRights]
  cases h with
  | mk a b c d e f g i =>
    have := hm.magic; have := hm.pad0; have := hm.pad1; have := hm.pad2
    simp_all

/-! ## Padding, wrapping, unwrapping -/

theorem paddedSize_eq (n : Nat) : paddedSize n = n + (16 - n % 16) := by unfold paddedSize; omega

theorem keyPad_spec (env : Env) (input : Bytes) :
    keyPad env input = if env.ok .padAlloc then
      some (input ++ List.replicate (16 - input.length % 16) (UInt8.ofNat (16 - input.length % 16))) else none := by
  unfold keyPad
  cases hok : env.ok .padAlloc with
  | false => simp
  | true =>
    simp only [Bool.not_true, Bool.false_eq_true, if_false, if_true]
    have hp := paddedSize_eq input.length
    generalize hq : 16 - input.length % 16 = q at *
    have hq1 : 1 ≤ q := by omega
    have hq2 : q ≤ 16 := by omega
    generalize hP : paddedSize input.length = P at *
    have hPP : P % 16 = 0 ∧ 16 ≤ P := by
      have : P = 16 * (input.length / 16 + 1) := by rw [← hP]; rfl
      omega
    have hv : (UInt8.ofNat (P - input.length)).toNat = q := by rw [UInt8.toNat_ofNat']; omega
    have hblk : (((List.range P).map env.garbage).drop (P - 16)).length = 16 := by simp; omega
    rw [padApplyPkcs7_spec _ hblk _ (by rw [hv]; omega), hv]
    simp only
    rw [show UInt8.ofNat (P - input.length) = UInt8.ofNat q by congr 1; omega]
    rw [List.take_drop]
    congr 2
    rw [← List.append_assoc]
    have e1 : List.take (P - 16) (List.map env.garbage (List.range P)) ++
        List.drop (P - 16) (List.take (P - 16 + (16 - q)) (List.map env.garbage (List.range P))) =
        List.take (P - q) (List.map env.garbage (List.range P)) := by
      have : List.take (P - 16) (List.map env.garbage (List.range P)) =
          List.take (P - 16) (List.take (P - q) (List.map env.garbage (List.range P))) := by
        rw [List.take_take]; congr 1; omega
      rw [this, show P - 16 + (16 - q) = P - q by omega, List.take_append_drop]
    rw [e1]
    have e2 : (List.take (P - q) (List.map env.garbage (List.range P))).length = input.length := by simp; omega
    exact List.drop_left' e2

theorem encodeCipherParameters_length (c : CipherParameters) : (encodeCipherParameters c).length = 24 := by
  simp [encodeCipherParameters, encodeU64_length]

theorem decodeCipherParameters_encode (c : CipherParameters) (rest : Bytes) :
    decodeCipherParameters (encodeCipherParameters c ++ rest) = c := by
  unfold decodeCipherParameters encodeCipherParameters
  simp only [List.append_assoc]
  rw [takeVec_append]
  simp only
  rw [takeVec_append' _ (encodeU64_length _)]
  simp only [decodeU64_encode]

theorem encodeCipherParameters_decode (bs : Bytes) (h : 24 ≤ bs.length) :
    encodeCipherParameters (decodeCipherParameters bs) = bs.take 24 := by
  unfold decodeCipherParameters encodeCipherParameters
  simp only [encodeU64_decode, takeVec_snd]
  rw [takeVec_toList _ (by omega), takeVec_toList _ (by simp; omega), ← List.take_add]

/-- The relation between a wrapped key and the key inside it. -/
structure Wraps (p : Prims) (w : WrappedKey) (sk : StoredKey) : Prop where
  header : w.header = sk.header
  made : HeaderMade sk.header
  len : w.cipherParameters.ciphertextLength.toNat = paddedSize sk.key.length
  ctLen : w.ciphertext.length = paddedSize sk.key.length
  ct : w.ciphertext = cbcEnc (p.aesEnc (otpHwKeyLadder p p.rootKey w.derivationInputs.wrappingKeyInputs))
    (paddedSize sk.key.length / 16) w.cipherParameters.iv.toList
    (sk.key ++ List.replicate (16 - sk.key.length % 16) (UInt8.ofNat (16 - sk.key.length % 16)))
  mac : w.signature = otpHmacSha256 p w.derivationInputs.integrityKeyInputs (encodeHeader w.header)
    (encodeCipherParameters w.cipherParameters) w.ciphertext

/-- Keys are far smaller than the address space. -/
def KeySmall (k : Bytes) : Prop := paddedSize k.length < 2 ^ 64

theorem wrappedKeyCreate_spec (env : Env) (hp : env.prims.Good) (d : DerivationInputs) (sk : StoredKey)
    (hm : HeaderMade sk.header) (hs : KeySmall sk.key) (w : WrappedKey) (h : wrappedKeyCreate env d sk = some w) :
    Wraps env.prims w sk ∧ w.derivationInputs = d := by
  unfold wrappedKeyCreate at h
  split at h
  · simp at h
  · rw [keyPad_spec] at h
    split at h
    · simp at h
    · rename_i padded hpad
      split at hpad
      · simp only [Option.some.injEq] at hpad
        have hl : padded.length = paddedSize sk.key.length := by
          rw [← hpad, paddedSize_eq]; simp
        have hmod : padded.length % 16 = 0 := by rw [hl]; unfold paddedSize; omega
        split at h
        · simp at h
        · simp only at h
          split at h
          · simp at h
          · unfold otpWrapAesCbc at h
            rw [if_neg (by simpa using hmod)] at h
            simp only at h
            split at h
            · simp at h
            · simp only [Option.some.injEq] at h
              have h16 : 16 * (padded.length / 16) = padded.length := by omega
              have hcl := cbcEnc_length (env.prims.aesEnc (otpHwKeyLadder env.prims env.prims.rootKey d.wrappingKeyInputs))
                (hp.encLen _) (padded.length / 16) env.randIv.toList padded (by simp) (by omega)
              subst h
              refine ⟨⟨rfl, hm, ?_, ?_, ?_, rfl⟩, rfl⟩
              · simp only [UInt64.toNat_ofNat']
                unfold KeySmall at hs; omega
              · simp only; rw [hcl, h16, hl]
              · simp only [hl, hpad]
      · simp at hpad

/-- Success of `wrapped_key_create` when nothing external fails. -/
theorem wrappedKeyCreate_succeeds (env : Env) (hok : ∀ s, env.ok s = true) (d : DerivationInputs) (sk : StoredKey) :
    ∃ w, wrappedKeyCreate env d sk = some w := by
  unfold wrappedKeyCreate
  rw [keyPad_spec]
  simp only [hok, Bool.not_true, Bool.false_eq_true, if_false, if_true]
  unfold otpWrapAesCbc
  rw [if_neg]
  · exact ⟨_, rfl⟩
  · simp; omega

/-- `unwrap` inverts `wrapped_key_create`, unless an external call fails. -/
theorem unwrap_wraps (env : Env) (hp : env.prims.Good) (w : WrappedKey) (sk : StoredKey) (h : Wraps env.prims w sk)
    (tail : Bytes) (sigTail : Bytes) :
    keyUnwrap env w.derivationInputs w.header w.cipherParameters (w.ciphertext ++ tail) (w.signature ++ sigTail) =
      some (if env.ok .unwrapHmac && env.ok .unwrapAlloc && env.ok .unwrapCbc && env.ok .storedKeyAlloc then some sk else none) := by
  unfold keyUnwrap
  have hP : paddedSize sk.key.length % 16 = 0 ∧ 16 ≤ paddedSize sk.key.length := by unfold paddedSize; omega
  have hPe := paddedSize_eq sk.key.length
  simp only [h.len]
  rw [if_neg (by omega), if_neg (by simp [h.ctLen])]
  rw [List.take_left' h.ctLen]
  cases h1 : env.ok .unwrapHmac with
  | false => simp
  | true =>
    simp only [Bool.not_true, Bool.false_eq_true, if_false, Bool.true_and]
    have hsig : w.signature.length = 32 := by rw [h.mac]; exact hp.macLen _ _
    obtain ⟨r, hr1, hr2⟩ := memcmp_32
      (otpHmacSha256 env.prims w.derivationInputs.integrityKeyInputs (encodeHeader w.header)
        (encodeCipherParameters w.cipherParameters) w.ciphertext) (w.signature ++ sigTail) (hp.macLen _ _) (by simp [hsig])
    rw [List.take_left' hsig] at hr2
    have hr0 := hr2.mpr h.mac.symm
    subst hr0
    rw [hr1]
    simp only [ne_eq, not_true_eq_false, if_false]
    cases h2 : env.ok .unwrapAlloc with
    | false => simp
    | true =>
      cases h3 : env.ok .unwrapCbc with
      | false => simp
      | true =>
        simp only [Bool.not_true, Bool.false_eq_true, if_false, Bool.true_and]
        unfold otpUnwrapAesCbc
        rw [if_neg (by rw [h.ctLen]; omega)]
        simp only
        rw [h.ctLen]
        have hct := h.ct
        have rt := cbc_round_trip
          (env.prims.aesEnc (otpHwKeyLadder env.prims env.prims.rootKey w.derivationInputs.wrappingKeyInputs))
          (env.prims.aesDec (otpHwKeyLadder env.prims env.prims.rootKey w.derivationInputs.wrappingKeyInputs))
          (hp.encLen _) (hp.decEnc _) (paddedSize sk.key.length / 16) w.cipherParameters.iv.toList
          (sk.key ++ List.replicate (16 - sk.key.length % 16) (UInt8.ofNat (16 - sk.key.length % 16))) (by simp)
          (by simp; omega)
        rw [← hct] at rt
        rw [rt]
        -- the padding check
        generalize hq : 16 - sk.key.length % 16 = q at *
        have hq1 : 1 ≤ q ∧ q ≤ 16 := by omega
        have hv : (UInt8.ofNat q).toNat = q := by rw [UInt8.toNat_ofNat']; omega
        have hget : ∀ k, 16 - q ≤ k → k < 16 →
            ((sk.key ++ List.replicate q (UInt8.ofNat q)).drop (paddedSize sk.key.length - 16))[k]? =
              some (UInt8.ofNat q) := by
          intro k hk1 hk2
          rw [List.getElem?_drop, List.getElem?_append_right (by omega), List.getElem?_replicate, if_pos (by omega)]
        obtain ⟨v, b, hv15, hpc, hb⟩ := padCheckPkcs7_spec
          ((sk.key ++ List.replicate q (UInt8.ofNat q)).drop (paddedSize sk.key.length - 16)) (by simp; omega)
        rw [hget 15 (by omega) (by omega)] at hv15
        have : v = UInt8.ofNat q := by simpa using hv15.symm
        subst this
        have hbt := hb.mpr ⟨by omega, by omega, by rw [hv]; exact hget⟩
        subst hbt
        rw [hpc]
        simp only [hv]
        rw [show paddedSize sk.key.length - q = sk.key.length by omega, List.take_left]
        cases h4 : env.ok .storedKeyAlloc with
        | false =>
          simp only [Bool.false_eq_true, if_false]
          unfold storedKeyCreate
          split
          · rfl
          · split
            · rfl
            · simp
        | true =>
          simp only [if_true]
          rw [h.header, storedKeyCreate_rebuild _ h.made]

theorem wrappedKeyUnwrap_wraps (env : Env) (hp : env.prims.Good) (w : WrappedKey) (sk : StoredKey) (h : Wraps env.prims w sk) :
    wrappedKeyUnwrap env w =
      some (if env.ok .unwrapHmac && env.ok .unwrapAlloc && env.ok .unwrapCbc && env.ok .storedKeyAlloc then some sk else none) := by
  have := unwrap_wraps env hp w sk h [] []
  simpa [wrappedKeyUnwrap] using this

end Sa

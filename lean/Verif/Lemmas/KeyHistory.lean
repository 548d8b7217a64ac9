import Verif.Model.KeyHistory
import Verif.Lemmas.KeyStore
import Verif.Lemmas.StoreHistory

namespace Sa

/-- Every object in the table is a wrapping of a valid stored key. -/
structure KsInv (p : Prims) (st : KeyStore) : Prop extends LiveInv st where
  keys : ∀ h w, (st.obj h).object = some w → ∃ sk, Wraps p w sk ∧ KeySmall sk.key

theorem importStoredKey_spec (env : Env) (hp : env.prims.Good) (st : KeyStore) (inv : KsInv env.prims st) (sk : StoredKey)
    (hm : HeaderMade sk.header) (hs : KeySmall sk.key) (caller : Uuid) :
    let r := keyStoreImportStoredKey env st sk caller
    KsInv env.prims r.1 ∧ r.1.slotCount = st.slotCount ∧
    ((r.2.1 ≠ .OK ∧ r.2.2 = SLOT_INVALID ∧ ∀ h, r.1.obj h = st.obj h) ∨
     (r.2.1 = .OK ∧ r.2.2 < st.slotCount ∧ (st.obj r.2.2).object = none ∧ ∃ w, Wraps env.prims w sk ∧
        ∀ h, r.1.obj h = if h = r.2.2 then { object := some w, referenceCount := 0, ownerUuid := caller } else st.obj h)) := by
  unfold keyStoreImportStoredKey
  split
  · exact ⟨inv, rfl, Or.inl ⟨by simp, rfl, fun _ => rfl⟩⟩
  · split
    · exact ⟨inv, rfl, Or.inl ⟨by simp, rfl, fun _ => rfl⟩⟩
    · split
      · exact ⟨inv, rfl, Or.inl ⟨by simp, rfl, fun _ => rfl⟩⟩
      · rename_i w hw
        obtain ⟨hw1, _⟩ := wrappedKeyCreate_spec env hp _ sk hm hs w hw
        obtain ⟨h1, h2, h3, _, h4⟩ := add_spec st inv.toStoreInv inv.up w caller
        intro r
        rcases h4 with ⟨a, b, _, d⟩ | ⟨a, b, c, d⟩
        · refine ⟨⟨{ h1 with up := h3 }, ?_⟩, h2, Or.inl ⟨by rw [a]; simp, b, d⟩⟩
          intro h w' hh
          rw [d] at hh; exact inv.keys h w' hh
        · refine ⟨⟨{ h1 with up := h3 }, ?_⟩, h2, Or.inr ⟨a, b, c, w, hw1, d⟩⟩
          intro h w' hh
          rw [d] at hh
          by_cases e : h = (objectStoreAdd st w caller).2.2
          · rw [if_pos e] at hh
            simp only [Option.some.injEq] at hh
            subst hh; exact ⟨sk, hw1, hs⟩
          · rw [if_neg e] at hh; exact inv.keys h w' hh

/-- Import succeeds if nothing external fails and a slot is free. -/
theorem importStoredKey_succeeds (env : Env) (hok : ∀ s, env.ok s = true) (st : KeyStore)
    (inv : KsInv env.prims st) (sk : StoredKey) (hm : HeaderMade sk.header) (caller : Uuid)
    (hfree : ∃ h, h < st.slotCount ∧ (st.obj h).object = none) :
    (keyStoreImportStoredKey env st sk caller).2.1 = .OK := by
  unfold keyStoreImportStoredKey
  rw [if_neg (by simp [(validateHeaderFormat_iff _).mpr hm.toHeaderOk]), if_neg (by simp [hok])]
  obtain ⟨w, hw⟩ := wrappedKeyCreate_succeeds env hok env.randInputs sk
  rw [hw]
  simp only
  obtain ⟨_, _, _, _, h4⟩ := add_spec st inv.toStoreInv inv.up w caller
  rcases h4 with ⟨_, _, c, _⟩ | ⟨a, _⟩
  · obtain ⟨h, hh, hn⟩ := hfree
    have := c h hh; rw [hn] at this; simp at this
  · exact a

/-! ## `unwrap` is memory safe and returns valid keys -/

/-- `unwrap` on memory that holds the ciphertext and 32 signature bytes. -/
theorem keyUnwrap_safe (env : Env) (hp : env.prims.Good) (d : DerivationInputs) (h : Header) (cp : CipherParameters)
    (ct sig : Bytes) (hct : cp.ciphertextLength.toNat ≤ ct.length) (hsig : 32 ≤ sig.length) :
    ∃ r, keyUnwrap env d h cp ct sig = some r ∧ ∀ sk, r = some sk →
      16 ≤ cp.ciphertextLength.toNat ∧ cp.ciphertextLength.toNat % 16 = 0 ∧
      sig.take 32 = otpHmacSha256 env.prims d.integrityKeyInputs (encodeHeader h) (encodeCipherParameters cp)
        (ct.take cp.ciphertextLength.toNat) ∧
      sk.key.length < cp.ciphertextLength.toNat ∧ HeaderMade sk.header ∧ sk.header.rights = h.rights ∧ sk.header.type = h.type ∧
      sk.header.typeParameters = h.typeParameters ∧ sk.header.size = h.size := by
  unfold keyUnwrap
  simp only
  by_cases h1 : cp.ciphertextLength.toNat < 16 ∨ cp.ciphertextLength.toNat % 16 ≠ 0
  · rw [if_pos h1]; exact ⟨none, rfl, by simp⟩
  · rw [if_neg h1, if_neg (by omega)]
    cases h2 : env.ok .unwrapHmac with
    | false => exact ⟨none, by simp, by simp⟩
    | true =>
      simp only [Bool.not_true, Bool.false_eq_true, if_false]
      obtain ⟨r, hr1, hr2⟩ := memcmp_32
        (otpHmacSha256 env.prims d.integrityKeyInputs (encodeHeader h) (encodeCipherParameters cp)
          (ct.take cp.ciphertextLength.toNat)) sig (hp.macLen _ _) hsig
      rw [hr1]
      simp only
      by_cases h3 : r = 0
      · rw [if_neg (by simpa using h3)]
        have hmac := hr2.mp h3
        cases h4 : env.ok .unwrapAlloc with
        | false => exact ⟨none, by simp, by simp⟩
        | true =>
          cases h5 : env.ok .unwrapCbc with
          | false => exact ⟨none, by simp, by simp⟩
          | true =>
            simp only [Bool.not_true, Bool.false_eq_true, if_false]
            unfold otpUnwrapAesCbc
            have hl : (ct.take cp.ciphertextLength.toNat).length = cp.ciphertextLength.toNat := by rw [List.length_take]; omega
            rw [if_neg (by rw [hl]; omega), hl]
            simp only
            generalize hcl : cbcDec _ _ _ _ = clear
            have hclen : clear.length = cp.ciphertextLength.toNat := by
              rw [← hcl, cbcDec_length _ (hp.decLen _) _ _ _ (by simp) (by rw [hl]; omega)]; omega
            obtain ⟨v, b, _, hpc, hb⟩ := padCheckPkcs7_spec (clear.drop (cp.ciphertextLength.toNat - 16)) (by simp; omega)
            rw [hpc]
            cases b with
            | false => exact ⟨none, by simp, by simp⟩
            | true =>
              simp only
              obtain ⟨hv1, hv2, _⟩ := hb.mp rfl
              rcases storedKeyCreate_cases (env.ok .storedKeyAlloc) h.rights none h.type.toNat h.typeParameters h.size.toNat
                (clear.take (cp.ciphertextLength.toNat - v.toNat)) with ⟨sk, hsk⟩ | ⟨s, _, hsk⟩
              · rw [hsk]
                refine ⟨some sk, rfl, ?_⟩
                intro sk' e
                simp only [Option.some.injEq] at e
                subst e
                obtain ⟨_, c2, c3, c4, c5, c6, c7⟩ := storedKeyCreate_ok hsk
                refine ⟨by omega, by omega, hmac.symm, ?_, c7, c2, UInt8.toNat_inj.mp c3, c4, UInt16.toNat_inj.mp c5⟩
                rw [c6, List.length_take]; omega
              · rw [hsk]; exact ⟨none, rfl, by simp⟩
      · rw [if_pos h3]; exact ⟨none, rfl, by simp⟩

/-! ## Import of exported containers -/

/-- The fields of an exported container, as byte ranges. -/
def contMixin (b : Bytes) : Bytes := b.take 16
def contHeader (b : Bytes) : Bytes := (b.drop 16).take 1672
def contParams (b : Bytes) : Bytes := (b.drop 1688).take 24
def contLength (b : Bytes) : Nat := (decodeCipherParameters (b.drop 1688)).ciphertextLength.toNat
def contCiphertext (b : Bytes) : Bytes := (b.drop 1712).take (contLength b)
def contSignature (b : Bytes) : Bytes := (b.drop (1712 + contLength b)).take 32

theorem importExported_spec (env : Env) (hp : env.prims.Good) (st : KeyStore) (bytes : Bytes) (hb : bytes.length < 2 ^ 64)
    (caller : Uuid) :
    (∃ r, keyStoreImportExported env st bytes caller = some r ∧ r = (st, .INVALID_KEY_FORMAT, SLOT_INVALID)) ∨
    (∃ sk, keyStoreImportExported env st bytes caller = some (keyStoreImportStoredKey env st sk caller) ∧
      HeaderMade sk.header ∧ KeySmall sk.key ∧ bytes.length = 1744 + contLength bytes ∧
      keyUnwrap env (mixedInputs (takeVec 16 bytes).1) (decodeHeader (bytes.drop 16)) (decodeCipherParameters (bytes.drop 1688))
        (bytes.drop 1712) (bytes.drop (1712 + contLength bytes)) = some (some sk) ∧
      HeaderOk (decodeHeader (bytes.drop 16)) ∧
      sk.header.rights = (decodeHeader (bytes.drop 16)).rights ∧ sk.header.type = (decodeHeader (bytes.drop 16)).type ∧
      sk.header.typeParameters = (decodeHeader (bytes.drop 16)).typeParameters ∧
      sk.header.size = (decodeHeader (bytes.drop 16)).size ∧
      contSignature bytes = otpHmacSha256 env.prims (mixedInputs (takeVec 16 bytes).1).integrityKeyInputs
        (contHeader bytes) (contParams bytes) (contCiphertext bytes)) := by
  unfold keyStoreImportExported
  simp only
  have hlen : (UInt64.ofNat bytes.length).toNat = bytes.length := by rw [UInt64.toNat_ofNat']; omega
  by_cases h1 : UInt64.ofNat bytes.length < 16 + 1672 + 24 + 16 + 32
  · rw [if_pos h1]; exact Or.inl ⟨_, rfl, rfl⟩
  · rw [if_neg h1]
    have h1' : 1760 ≤ bytes.length := by
      rw [UInt64.lt_iff_toNat_lt, hlen] at h1
      have : (16 + 1672 + 24 + 16 + 32 : UInt64).toNat = 1760 := by decide
      omega
    rw [if_neg (by omega)]
    split
    · exact Or.inl ⟨_, rfl, rfl⟩
    · rename_i hv
      rw [if_neg (by omega)]
      simp only [show 16 + 1672 = 1688 from rfl, show 1688 + 24 = 1712 from rfl]
      split
      · exact Or.inl ⟨_, rfl, rfl⟩
      · split
        · exact Or.inl ⟨_, rfl, rfl⟩
        · rename_i hreq
          have hc : bytes.length = 1744 + contLength bytes := by
            unfold contLength
            generalize (decodeCipherParameters (bytes.drop 1688)).ciphertextLength = c at *
            simp only [ne_eq, Decidable.not_not] at hreq
            have e := congrArg UInt64.toNat hreq
            rw [hlen] at e
            simp only [UInt64.toNat_add, UInt64.toNat_ofNat] at e
            have := c.toNat_lt
            omega
          have hct : (decodeCipherParameters (bytes.drop 1688)).ciphertextLength.toNat = contLength bytes := rfl
          obtain ⟨r, hr, hprop⟩ := keyUnwrap_safe env hp (mixedInputs (takeVec 16 bytes).1) (decodeHeader (bytes.drop 16))
            (decodeCipherParameters (bytes.drop 1688)) (bytes.drop 1712) (bytes.drop (1712 + contLength bytes))
            (by rw [hct, List.length_drop]; omega) (by rw [List.length_drop]; omega)
          rw [hct, List.drop_drop, hr]
          cases r with
          | none => exact Or.inl ⟨_, rfl, rfl⟩
          | some sk =>
            obtain ⟨p1, p2, p3, p4, p5, p6, p7, p8, p9⟩ := hprop sk rfl
            refine Or.inr ⟨sk, rfl, p5, ?_, hc, rfl, ?_, p6, p7, p8, p9, ?_⟩
            · unfold KeySmall paddedSize; rw [hct] at *; omega
            · exact (validateHeaderFormat_iff _).mp (by simpa using hv)
            · unfold contSignature contHeader contParams contCiphertext
              rw [p3, hct, encodeHeader_decode _ (by rw [List.length_drop]; omega),
                encodeCipherParameters_decode _ (by rw [List.length_drop]; omega)]

/-! ## The invariant holds along every history -/

theorem ksUnwrap_cases (env : Env) (hp : env.prims.Good) (st : KeyStore) (inv : KsInv env.prims st) (key : Nat) (caller : Uuid) :
    ∃ s sk, keyStoreUnwrap env st key caller = some (st, s, sk) ∧
      ((s ≠ .OK ∧ sk = none) ∨
       (∃ w k, (st.obj key).object = some w ∧ (st.obj key).ownerUuid = caller ∧ Wraps env.prims w k ∧ s = .OK ∧ sk = some k ∧
          rightsAllowedUuid k.header.rights caller = true ∧ rightsAllowedTime k.header.rights env.rights.time = true ∧
          ∃ v, env.rights.video = some v ∧ rightsAllowedVideoOutputState k.header.rights v = true)) := by
  unfold keyStoreUnwrap
  split
  · exact ⟨_, _, rfl, Or.inl ⟨by simp, rfl⟩⟩
  · rcases acquire_fail st key caller with ⟨st1, w, ha⟩ | ⟨s, hs, ha⟩
    · rw [ha]
      simp only
      rw [acquire_release st inv.len key caller st1 w ha]
      obtain ⟨_, _, ho, hu, _⟩ := (acquire_ok_iff st key caller st1 w).mp ha
      obtain ⟨k, hk, _⟩ := inv.keys key w ho
      have hh := hk.header
      split
      · exact ⟨_, _, rfl, Or.inl ⟨by simp, rfl⟩⟩
      · rename_i r1
        split
        · exact ⟨_, _, rfl, Or.inl ⟨by simp, rfl⟩⟩
        · rename_i r2
          split
          · exact ⟨_, _, rfl, Or.inl ⟨by simp, rfl⟩⟩
          · rename_i v hv
            split
            · exact ⟨_, _, rfl, Or.inl ⟨by simp, rfl⟩⟩
            · rename_i r3
              rw [wrappedKeyUnwrap_wraps env hp w k hk]
              split
              · rename_i heq; simp at heq
              · exact ⟨_, _, rfl, Or.inl ⟨by simp, rfl⟩⟩
              · rename_i sk heq
                refine ⟨_, _, rfl, Or.inr ⟨w, k, ho, hu, hk, rfl, ?_, ?_, ?_, v, hv, ?_⟩⟩
                · rw [Option.some.injEq] at heq
                  split at heq
                  · exact heq.symm
                  · simp at heq
                · rw [← hh]; simpa using r1
                · rw [← hh]; simpa using r2
                · rw [← hh]; simpa using r3
    · rw [ha]
      split
      · rename_i heq; simp at heq
      · rename_i heq
        simp only [Prod.mk.injEq] at heq
        obtain ⟨e1, e2, _⟩ := heq
        subst e1; subst e2
        exact ⟨_, _, rfl, Or.inl ⟨hs, rfl⟩⟩

theorem ksHeader_store (st : KeyStore) (hlen : st.objects.length = st.slotCount) (key : Nat) (caller : Uuid) :
    (keyStoreGetHeader st key caller).1 = st := by
  unfold keyStoreGetHeader
  split
  · rfl
  · rcases acquire_fail st key caller with ⟨st1, w, ha⟩ | ⟨s, hs, ha⟩
    · rw [ha]; simp only; rw [acquire_release st hlen key caller st1 w ha]
    · rw [ha]
      split
      · rename_i heq; simp at heq
      · rename_i heq
        simp only [Prod.mk.injEq] at heq
        exact heq.1.symm

/-- Everything `key_store_export` can do. -/
theorem ksExport_cases (env : Env) (hp : env.prims.Good) (st : KeyStore) (inv : KsInv env.prims st) (key : Nat)
    (mixin out : Option Bytes) (outLength : Nat) (hout : ∀ b, out = some b → b.length = outLength) (caller : Uuid) :
    ∃ r, keyStoreExport env st key mixin out outLength caller = some r ∧ r.store = st ∧
      ((r.status ≠ .OK ∧ r.outLength = outLength ∧ r.out = out) ∨
       (r.status = .OK ∧ ∃ w sk, (st.obj key).object = some w ∧ (st.obj key).ownerUuid = caller ∧ Wraps env.prims w sk ∧
          KeySmall sk.key ∧
          Flag w.header.rights.usageFlags 13 ∧ (mixin.getD (List.replicate 16 0)).length = 16 ∧
          r.outLength = 1744 + paddedSize sk.key.length ∧
          ((out = none ∧ r.out = none) ∨
           (∃ b rw, out = some b ∧ r.outLength ≤ outLength ∧ Wraps env.prims rw sk ∧
              rw.derivationInputs = mixedInputs (takeVec 16 (mixin.getD (List.replicate 16 0))).1 ∧
              r.out = some (mixin.getD (List.replicate 16 0) ++ encodeHeader rw.header ++
                encodeCipherParameters rw.cipherParameters ++ rw.ciphertext ++ rw.signature ++ b.drop r.outLength))))) := by
  unfold keyStoreExport
  simp only
  split
  · exact ⟨_, rfl, rfl, Or.inl ⟨by simp, rfl, rfl⟩⟩
  · split
    · exact ⟨_, rfl, rfl, Or.inl ⟨by simp, rfl, rfl⟩⟩
    · rename_i hmix
      rcases acquire_fail st key caller with ⟨st1, w, ha⟩ | ⟨s, hs, ha⟩
      · rw [ha]
        simp only
        rw [acquire_release st inv.len key caller st1 w ha]
        obtain ⟨_, _, ho, hu, _⟩ := (acquire_ok_iff st key caller st1 w).mp ha
        obtain ⟨sk, hk, hks⟩ := inv.keys key w ho
        split
        · exact ⟨_, rfl, rfl, Or.inl ⟨by simp, rfl, rfl⟩⟩
        · rename_i hcache
          have hflag : Flag w.header.rights.usageFlags 13 :=
            (bitTest_iff _ 13 (by decide)).mp (by simpa [FLAG_CACHEABLE] using hcache)
          cases out with
          | none =>
            refine ⟨_, rfl, rfl, Or.inr ⟨rfl, w, sk, ho, hu, hk, hks, hflag, by simpa using hmix, ?_, Or.inl ⟨rfl, rfl⟩⟩⟩
            simp only [hk.len]; omega
          | some b =>
            simp only
            split
            · exact ⟨_, rfl, rfl, Or.inl ⟨by simp, rfl, rfl⟩⟩
            · rename_i hreq
              rw [wrappedKeyUnwrap_wraps env hp w sk hk]
              split
              · rename_i heq; simp at heq
              · exact ⟨_, rfl, rfl, Or.inl ⟨by simp, rfl, rfl⟩⟩
              · rename_i sk' heq
                have hsk' : sk' = sk := by
                  rw [Option.some.injEq] at heq
                  split at heq
                  · simpa using heq.symm
                  · simp at heq
                subst hsk'
                split
                · exact ⟨_, rfl, rfl, Or.inl ⟨by simp, rfl, rfl⟩⟩
                · rename_i rw' hrw
                  obtain ⟨hw1, hw2⟩ := wrappedKeyCreate_spec env hp _ sk' hk.made hks rw' hrw
                  have hsig : rw'.signature.length = 32 := by rw [hw1.mac]; exact hp.macLen _ _
                  have t1 : rw'.ciphertext.take rw'.cipherParameters.ciphertextLength.toNat = rw'.ciphertext := by
                    apply List.take_of_length_le; rw [hw1.len, hw1.ctLen]; omega
                  have t2 : rw'.signature.take 32 = rw'.signature := by apply List.take_of_length_le; omega
                  have hm16 : (mixin.getD (List.replicate 16 0)).length = 16 := by simpa using hmix
                  have hwl : (mixin.getD (List.replicate 16 0) ++ encodeHeader rw'.header ++
                      encodeCipherParameters rw'.cipherParameters ++ rw'.ciphertext ++ rw'.signature).length =
                      1744 + paddedSize sk'.key.length := by
                    simp only [List.length_append, hm16, encodeHeader_length, encodeCipherParameters_length, hw1.ctLen, hsig]
                    omega
                  rw [t1, t2, hwl]
                  have hbl := hout b rfl
                  rw [hk.len] at hreq
                  rw [if_neg (by omega)]
                  refine ⟨_, rfl, rfl, Or.inr ⟨rfl, w, sk', ho, hu, hk, hks, hflag, hm16, by simp only [hk.len]; omega, Or.inr ?_⟩⟩
                  refine ⟨b, rw', rfl, by simp only [hk.len]; omega, hw1, hw2, ?_⟩
                  simp only [hk.len]
                  rw [show 1744 + paddedSize sk'.key.length = 16 + 1672 + 24 + paddedSize sk'.key.length + 32 by omega]
      · rw [ha]
        split
        · rename_i heq; simp at heq
        · rename_i heq
          simp only [Prod.mk.injEq] at heq
          obtain ⟨e1, e2, _⟩ := heq
          subst e1; subst e2
          exact ⟨_, rfl, rfl, Or.inl ⟨hs, rfl, rfl⟩⟩

theorem ksStep_inv (p : Prims) (hp : p.Good) (st : KeyStore) (inv : KsInv p st) (op : KsOp) (hf : op.Fits) :
    ∃ r, ksStep p st op = some r ∧ KsInv p r.1 ∧ r.1.slotCount = st.slotCount := by
  cases op with
  | create env rights parent keyType tp size key caller =>
    simp only [ksStep]
    rcases storedKeyCreate_cases (env.ok .storedKeyAlloc) rights parent keyType tp size key with ⟨sk, h⟩ | ⟨s, hs, h⟩
    · rw [h]
      obtain ⟨_, _, _, _, _, h6, h7⟩ := storedKeyCreate_ok h
      have hks : KeySmall sk.key := by
        unfold KeySmall paddedSize; rw [h6]; simp only [KsOp.Fits] at hf; omega
      obtain ⟨a, b, _⟩ := importStoredKey_spec { env with prims := p } hp st inv sk h7 hks caller
      exact ⟨_, rfl, a, b⟩
    · rw [h]
      split
      · rename_i heq; simp at heq
      · exact ⟨_, rfl, inv, rfl⟩
  | importExported env bytes caller =>
    simp only [ksStep]
    rcases importExported_spec { env with prims := p } hp st bytes hf caller with ⟨r, h, h'⟩ | ⟨sk, h, hm, hs, _⟩
    · rw [h, h']; exact ⟨_, rfl, inv, rfl⟩
    · rw [h]
      obtain ⟨a, b, _⟩ := importStoredKey_spec { env with prims := p } hp st inv sk hm hs caller
      exact ⟨_, rfl, a, b⟩
  | unwrap env key caller =>
    simp only [ksStep]
    obtain ⟨s, sk, h, _⟩ := ksUnwrap_cases { env with prims := p } hp st inv key caller
    rw [h]; exact ⟨_, rfl, inv, rfl⟩
  | header key caller =>
    simp only [ksStep]
    refine ⟨_, rfl, ?_⟩
    rw [ksHeader_store st inv.len]; exact ⟨inv, rfl⟩
  | «export» env key mixin out outLength caller =>
    simp only [ksStep]
    obtain ⟨r, h, hs, _⟩ := ksExport_cases { env with prims := p } hp st inv key mixin out outLength hf caller
    rw [h]; exact ⟨_, rfl, by simp only [hs]; exact inv, by simp only [hs]⟩
  | remove key caller =>
    simp only [ksStep, keyStoreRemove]
    rcases remove_spec st inv.toLiveInv key caller with ⟨h, _⟩ | ⟨h, _⟩ | ⟨st', h, h1, h2, h3, _⟩ | ⟨st', o, h, h2, h3, _, _, _, _, h4⟩
    · rw [h]; exact ⟨_, rfl, inv, rfl⟩
    · rw [h]; exact ⟨_, rfl, inv, rfl⟩
    · rw [h]
      refine ⟨_, rfl, ⟨h2, ?_⟩, h3⟩
      intro x w hw
      apply inv.keys x w
      unfold ObjectStore.obj at *
      rw [← h1]; exact hw
    · rw [h]
      refine ⟨_, rfl, ⟨h2, ?_⟩, h3⟩
      intro x w hw
      rw [h4] at hw
      split at hw
      · simp at hw
      · exact inv.keys x w hw

theorem ksInv_init (p : Prims) (n : Nat) (hn : n < 2 ^ 64) (st : KeyStore) (h : objectStoreInit WrappedKey n = some st) :
    KsInv p st ∧ st.slotCount = n := by
  obtain ⟨_, h2, _, _, h5⟩ := objectStoreInit_inv n st hn h
  refine ⟨⟨liveInv_init n st hn h, ?_⟩, h2⟩
  intro x w hw
  rw [h5] at hw; simp [StoreObject.zero] at hw

theorem ksAfter_inv (p : Prims) (hp : p.Good) (ops : List KsOp) (hf : ∀ op ∈ ops, op.Fits) (st : KeyStore) (inv : KsInv p st) :
    ∃ st', ksAfter p st ops = some st' ∧ KsInv p st' ∧ st'.slotCount = st.slotCount := by
  induction ops generalizing st with
  | nil => exact ⟨st, rfl, inv, rfl⟩
  | cons op ops ih =>
    obtain ⟨r, h1, h2, h3⟩ := ksStep_inv p hp st inv op (hf op (by simp))
    obtain ⟨st', h4, h5, h6⟩ := ih (fun o ho => hf o (by simp [ho])) r.1 h2
    refine ⟨st', ?_, h5, h6.trans h3⟩
    unfold ksAfter
    rw [h1]; exact h4

theorem ksReachable_inv (p : Prims) (hp : p.Good) (st : KeyStore) (h : KsReachable p st) : KsInv p st := by
  obtain ⟨n, st0, ops, hn, h0, hf, ha⟩ := h
  obtain ⟨i0, _⟩ := ksInv_init p n hn st0 h0
  obtain ⟨st', h1, h2, _⟩ := ksAfter_inv p hp ops hf st0 i0
  rw [h1] at ha
  simp only [Option.some.injEq] at ha
  exact ha ▸ h2

/-! ## Observations of one live key -/

/-- What using a live key gives its owner. -/
def useResult (env : Env) (k : StoredKey) (caller : Uuid) : Status × Option StoredKey :=
  if rightsAllowedUuid k.header.rights caller = true ∧ rightsAllowedTime k.header.rights env.rights.time = true ∧
      (env.rights.video.any fun v => rightsAllowedVideoOutputState k.header.rights v) = true then
    if env.ok .unwrapHmac && env.ok .unwrapAlloc && env.ok .unwrapCbc && env.ok .storedKeyAlloc then (.OK, some k)
    else (.INTERNAL_ERROR, none)
  else (.OPERATION_NOT_ALLOWED, none)

theorem ksUnwrap_live (env : Env) (hp : env.prims.Good) (st : KeyStore) (inv : KsInv env.prims st) (key : Nat) (caller : Uuid)
    (w : WrappedKey) (k : StoredKey) (ho : (st.obj key).object = some w) (hu : (st.obj key).ownerUuid = caller)
    (hk : Wraps env.prims w k) : keyStoreUnwrap env st key caller = some (st, useResult env k caller) := by
  have hlt : key < st.slotCount := by
    apply Classical.byContradiction
    intro hn
    rw [obj_ge st inv.toStoreInv key (by omega)] at ho; simp at ho
  unfold keyStoreUnwrap
  rw [if_neg (by omega)]
  have ha := (acquire_ok_iff st key caller _ w).mpr ⟨hlt, inv.up, ho, hu, rfl⟩
  rw [ha]
  simp only
  rw [acquire_release st inv.len key caller _ w ha, wrappedKeyUnwrap_wraps env hp w k hk, hk.header]
  unfold useResult
  cases h1 : rightsAllowedUuid k.header.rights caller with
  | false => simp
  | true =>
    cases h2 : rightsAllowedTime k.header.rights env.rights.time with
    | false => simp
    | true =>
      cases h3 : env.rights.video with
      | none => simp
      | some v =>
        cases h4 : rightsAllowedVideoOutputState k.header.rights v with
        | false => simp [h4]
        | true =>
          simp only [Bool.not_true, Bool.false_eq_true, if_false, h4, Option.any_some, and_self, if_true]
          cases (env.ok Site.unwrapHmac && env.ok Site.unwrapAlloc && env.ok Site.unwrapCbc && env.ok Site.storedKeyAlloc) <;>
            simp

theorem ksHeader_live (p : Prims) (st : KeyStore) (inv : KsInv p st) (key : Nat) (caller : Uuid)
    (w : WrappedKey) (k : StoredKey) (ho : (st.obj key).object = some w) (hu : (st.obj key).ownerUuid = caller)
    (hk : Wraps p w k) : keyStoreGetHeader st key caller = (st, .OK, some k.header) := by
  have hlt : key < st.slotCount := by
    apply Classical.byContradiction
    intro hn
    rw [obj_ge st inv.toStoreInv key (by omega)] at ho; simp at ho
  unfold keyStoreGetHeader
  rw [if_neg (by omega)]
  have ha := (acquire_ok_iff st key caller _ w).mpr ⟨hlt, inv.up, ho, hu, rfl⟩
  rw [ha]
  simp only
  rw [acquire_release st inv.len key caller _ w ha, hk.header]
  have := hk.made.magic; have := hk.made.pad0; have := hk.made.pad1; have := hk.made.pad2
  cases h : k.header
  simp_all

theorem ksHeader_ok (p : Prims) (st : KeyStore) (inv : KsInv p st) (key : Nat) (caller : Uuid) (st' : KeyStore) (h : Header) 
    (hh : keyStoreGetHeader st key caller = (st', .OK, some h)) :
    ∃ w k, (st.obj key).object = some w ∧ (st.obj key).ownerUuid = caller ∧ Wraps p w k ∧ KeySmall k.key ∧ h = k.header := by
  have hh' := hh
  unfold keyStoreGetHeader at hh
  split at hh
  · simp at hh
  · rcases acquire_fail st key caller with ⟨st1, w, ha⟩ | ⟨s, hs, ha⟩
    · obtain ⟨_, _, ho, hu, _⟩ := (acquire_ok_iff st key caller st1 w).mp ha
      obtain ⟨k, hk, hks⟩ := inv.keys key w ho
      rw [ksHeader_live p st inv key caller w k ho hu hk] at hh'
      simp only [Prod.mk.injEq, Option.some.injEq, true_and] at hh'
      exact ⟨w, k, ho, hu, hk, hks, hh'.2.symm⟩
    · rw [ha] at hh
      split at hh
      · rename_i heq; simp at heq
      · simp at hh

/-! ## Import of a container made by export -/

theorem import_of_export (env : Env) (hp : env.prims.Good) (hok : ∀ s, env.ok s = true) (st : KeyStore) (caller : Uuid)
    (m : Bytes) (hm : m.length = 16) (rw' : WrappedKey) (sk : StoredKey) (h : Wraps env.prims rw' sk)
    (hd : rw'.derivationInputs = mixedInputs (takeVec 16 m).1)
    (hl : 1744 + paddedSize sk.key.length < 2 ^ 64) :
    keyStoreImportExported env st
      (m ++ encodeHeader rw'.header ++ encodeCipherParameters rw'.cipherParameters ++ rw'.ciphertext ++ rw'.signature) caller =
      some (keyStoreImportStoredKey env st sk caller) := by
  have hsig : rw'.signature.length = 32 := by rw [h.mac]; exact hp.macLen _ _
  have hwl : (m ++ encodeHeader rw'.header ++ encodeCipherParameters rw'.cipherParameters ++ rw'.ciphertext ++
      rw'.signature).length = 1744 + paddedSize sk.key.length := by
    simp only [List.length_append, hm, encodeHeader_length, encodeCipherParameters_length, h.ctLen, hsig]; omega
  have hP : paddedSize sk.key.length % 16 = 0 ∧ 16 ≤ paddedSize sk.key.length := by unfold paddedSize; omega
  generalize hB : (m ++ encodeHeader rw'.header ++ encodeCipherParameters rw'.cipherParameters ++ rw'.ciphertext ++
      rw'.signature) = B at *
  have d1 : B.drop 16 = encodeHeader rw'.header ++ (encodeCipherParameters rw'.cipherParameters ++ (rw'.ciphertext ++
      rw'.signature)) := by
    rw [← hB]; simp only [List.append_assoc]; exact List.drop_left' hm
  have d2 : B.drop 1688 = encodeCipherParameters rw'.cipherParameters ++ (rw'.ciphertext ++ rw'.signature) := by
    have : B.drop 1688 = (B.drop 16).drop 1672 := by rw [List.drop_drop]
    rw [this, d1]; exact List.drop_left' (encodeHeader_length _)
  have d3 : B.drop 1712 = rw'.ciphertext ++ rw'.signature := by
    have : B.drop 1712 = (B.drop 1688).drop 24 := by rw [List.drop_drop]
    rw [this, d2]; exact List.drop_left' (encodeCipherParameters_length _)
  have d0 : (takeVec 16 B).1 = (takeVec 16 m).1 := by
    apply Vector.toList_inj.mp
    rw [takeVec_toList _ (by omega), takeVec_toList _ (by omega), ← hB]
    simp only [List.append_assoc]
    rw [List.take_append_of_le_length (by omega)]
  have hlen : (UInt64.ofNat B.length).toNat = B.length := by rw [UInt64.toNat_ofNat']; omega
  unfold keyStoreImportExported
  simp only
  rw [if_neg (by
      rw [UInt64.lt_iff_toNat_lt, hlen]
      have : (16 + 1672 + 24 + 16 + 32 : UInt64).toNat = 1760 := by decide
      omega)]
  rw [if_neg (by omega), d1, decodeHeader_encode]
  rw [if_neg (by
      have : HeaderOk rw'.header := by rw [h.header]; exact h.made.toHeaderOk
      simp [(validateHeaderFormat_iff _).mpr this])]
  rw [if_neg (by omega)]
  simp only [show 16 + 1672 = 1688 from rfl, show 1688 + 24 = 1712 from rfl]
  rw [d2, decodeCipherParameters_encode]
  have hlc := h.len
  rw [if_neg (by
      rw [UInt64.lt_iff_toNat_lt, ne_eq, ← UInt64.toNat_inj, UInt64.toNat_mod, hlc]
      have e1 : (16 : UInt64).toNat = 16 := rfl
      have e2 : (0 : UInt64).toNat = 0 := rfl
      rw [e1, e2]; omega)]
  rw [if_neg (by
      simp only [ne_eq, Decidable.not_not]
      apply UInt64.toNat_inj.mp
      rw [hlen, hwl]
      simp only [UInt64.toNat_add, UInt64.toNat_ofNat, hlc]; omega)]
  rw [d3, hlc, List.drop_left' h.ctLen, d0, ← hd]
  have := unwrap_wraps env hp rw' sk h rw'.signature []
  rw [List.append_nil] at this
  rw [this]
  simp [hok]


/-! ## Only a remove call ends the life of a handle -/

theorem ksStep_stable (p : Prims) (hp : p.Good) (st : KeyStore) (inv : KsInv p st) (op : KsOp) (hf : op.Fits) (key : Nat)
    (hlive : (st.obj key).object.isSome) (hno : ∀ c, op ≠ .remove key c) (r : KeyStore × KsResp) (hs : ksStep p st op = some r) :
    r.1.obj key = st.obj key := by
  have imp : ∀ env : Env, env.prims = p → ∀ sk, HeaderMade sk.header → KeySmall sk.key → ∀ caller,
      (keyStoreImportStoredKey env st sk caller).1.obj key = st.obj key := by
    intro env he sk hm hk caller
    subst he
    obtain ⟨_, _, h⟩ := importStoredKey_spec env hp st inv sk hm hk caller
    rcases h with ⟨_, _, h⟩ | ⟨_, _, h2, w, _, h⟩
    · exact h key
    · rw [h, if_neg]
      rintro rfl
      rw [h2] at hlive; simp at hlive
  cases op with
  | create env rights parent keyType tp size bytes caller =>
    simp only [ksStep] at hs
    rcases storedKeyCreate_cases (env.ok .storedKeyAlloc) rights parent keyType tp size bytes with ⟨sk, h⟩ | ⟨s, _, h⟩
    · rw [h] at hs
      obtain ⟨_, _, _, _, _, h6, h7⟩ := storedKeyCreate_ok h
      have hks : KeySmall sk.key := by
        unfold KeySmall paddedSize; rw [h6]; simp only [KsOp.Fits] at hf; omega
      simp only [Option.some.injEq] at hs
      rw [← hs]; exact imp { env with prims := p } rfl sk h7 hks caller
    · rw [h] at hs
      split at hs
      · rename_i heq; simp at heq
      · simp only [Option.some.injEq] at hs; rw [← hs]
  | importExported env bytes caller =>
    simp only [ksStep] at hs
    rcases importExported_spec { env with prims := p } hp st bytes hf caller with ⟨r', h, h'⟩ | ⟨sk, h, hm, hsm, _⟩
    · rw [h, h'] at hs; simp only [Option.map_some, Option.some.injEq] at hs; rw [← hs]
    · rw [h] at hs; simp only [Option.map_some, Option.some.injEq] at hs
      rw [← hs]; exact imp { env with prims := p } rfl sk hm hsm caller
  | unwrap env k caller =>
    simp only [ksStep] at hs
    obtain ⟨s, sk, h, _⟩ := ksUnwrap_cases { env with prims := p } hp st inv k caller
    rw [h] at hs; simp only [Option.map_some, Option.some.injEq] at hs; rw [← hs]
  | header k caller =>
    simp only [ksStep, Option.some.injEq] at hs
    rw [← hs]; simp only; rw [ksHeader_store st inv.len]
  | «export» env k mixin out outLength caller =>
    simp only [ksStep] at hs
    obtain ⟨r', h, hst, _⟩ := ksExport_cases { env with prims := p } hp st inv k mixin out outLength hf caller
    rw [h] at hs; simp only [Option.map_some, Option.some.injEq] at hs; rw [← hs]; simp only [hst]
  | remove k caller =>
    have hk : key ≠ k := by rintro rfl; exact hno caller rfl
    simp only [ksStep, keyStoreRemove] at hs
    rcases remove_spec st inv.toLiveInv k caller with ⟨h, _⟩ | ⟨h, _⟩ | ⟨st', h, h1, _⟩ | ⟨st', o, h, h2, h3, _, _, _, _, h4⟩
    · rw [h] at hs; simp only [Option.some.injEq] at hs; rw [← hs]
    · rw [h] at hs; simp only [Option.some.injEq] at hs; rw [← hs]
    · rw [h] at hs; simp only [Option.some.injEq] at hs; rw [← hs]
      simp only [ObjectStore.obj, h1]
    · rw [h] at hs; simp only [Option.some.injEq] at hs; rw [← hs]
      simp only [h4, if_neg hk]

theorem ksAfter_stable (p : Prims) (hp : p.Good) (ops : List KsOp) (hf : ∀ op ∈ ops, op.Fits) (st : KeyStore) (inv : KsInv p st)
    (key : Nat) (hlive : (st.obj key).object.isSome) (hno : ∀ op ∈ ops, ∀ c, op ≠ .remove key c) (st' : KeyStore)
    (ha : ksAfter p st ops = some st') : st'.obj key = st.obj key := by
  induction ops generalizing st with
  | nil => simp only [ksAfter, Option.some.injEq] at ha; rw [← ha]
  | cons op ops ih =>
    obtain ⟨r, h1, h2, _⟩ := ksStep_inv p hp st inv op (hf op (by simp))
    have hst := ksStep_stable p hp st inv op (hf op (by simp)) key hlive (hno op (by simp)) r h1
    unfold ksAfter at ha
    rw [h1] at ha
    rw [ih (fun o ho => hf o (by simp [ho])) r.1 h2 (by rw [hst]; exact hlive) (fun o ho => hno o (by simp [ho])) ha, hst]

end Sa

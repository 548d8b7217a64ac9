import Verif.Lemmas.UnwrapOp

/-!
# Unwrapping succeeds on well-formed input
-/

namespace Sa

theorem blk_ext (a b : Bytes) (n : Nat) (ha : a.length = 16 * n) (hb : b.length = 16 * n) (h : ∀ i, i < n → blk a i = blk b i) : a = b := by
  apply List.ext_getElem?
  intro j
  by_cases hj : j < 16 * n
  · have h1 := congrArg (fun l => l[j % 16]?) (h (j / 16) (by omega))
    simp only [blk, List.getElem?_take, List.getElem?_drop, if_pos (Nat.mod_lt j (by omega : 0 < 16))] at h1
    rw [show 16 * (j / 16) + j % 16 = j by omega] at h1
    exact h1
  · rw [List.getElem?_eq_none (by omega), List.getElem?_eq_none (by omega)]

theorem ecbClear_unique (dec : Bytes → Bytes) (input a b : Bytes) (hm : input.length % 16 = 0) (ha : EcbClear dec input a)
    (hb : EcbClear dec input b) : a = b :=
  blk_ext a b (input.length / 16) (by rw [ha.1]; omega) (by rw [hb.1]; omega) fun i hi => by rw [ha.2 i hi, hb.2 i hi]

theorem cbcClear_unique (dec : Bytes → Bytes) (iv input a b : Bytes) (hm : input.length % 16 = 0) (ha : CbcClear dec iv input a)
    (hb : CbcClear dec iv input b) : a = b :=
  blk_ext a b (input.length / 16) (by rw [ha.1]; omega) (by rw [hb.1]; omega) fun i hi => by rw [ha.2 i hi, hb.2 i hi]

theorem importSymmetric_succeeds (env : Env) (hok : ∀ s, env.ok s = true) (u : UnwrapPrims) (rights wrapping : Rights)
    (hrv : rightsValidateFormat rights = true) (curve : Option Nat) (key : Bytes) (hk : 16 ≤ key.length ∧ key.length ≤ 512) :
    ∃ d, unwrapImportKey env u rights wrapping KEY_TYPE_SYMMETRIC curve key = (.OK, some d) ∧ Created env d ∧ d.key = key := by
  have hsup : keyTypeSupportsAny KEY_TYPE_SYMMETRIC (curveOf (Vector.replicate 1040 0)) key.length = true := by
    simp [keyTypeSupportsAny, keyTypeSupportsHmac, validHmacSize, hk]
  have hc : ∃ d, storedKeyCreate (env.ok .storedKeyAlloc) rights (some wrapping) KEY_TYPE_SYMMETRIC (Vector.replicate 1040 0) key.length key =
      (.OK, some d) := by
    unfold storedKeyCreate
    rw [if_neg (by simp [hsup]), if_neg (by simp [hrv]), if_neg (by simp [hok])]
    exact ⟨_, rfl⟩
  obtain ⟨d, hc⟩ := hc
  refine ⟨d, ?_, ⟨_, _, _, _, _, _, by omega, hc⟩, (storedKeyCreate_ok hc).2.2.2.2.2.1⟩
  unfold unwrapImportKey
  rw [if_neg (by decide), if_neg (by decide), if_neg (by decide)]
  exact hc

theorem padded_check (key m : Bytes) (h : Padded key m) (h16 : 16 ≤ m.length) :
    ∃ v, padCheckPkcs7 (m.drop (m.length - 16)) = some (true, v) ∧ m.take (m.length - v.toNat) = key := by
  obtain ⟨n, h1, h2, hm⟩ := h
  have hlast : (m.drop (m.length - 16)).length = 16 := by rw [List.length_drop]; omega
  obtain ⟨v, b, hv, hc, hiff⟩ := padCheckPkcs7_spec (m.drop (m.length - 16)) (by omega)
  have hml : m.length = key.length + n := by rw [hm]; simp
  have hget : ∀ k, 16 - n ≤ k → k < 16 → (m.drop (m.length - 16))[k]? = some (UInt8.ofNat n) := by
    intro k hk1 hk2
    rw [List.getElem?_drop, hml]
    rw [hm, List.getElem?_append_right (by omega), List.getElem?_replicate, if_pos (by omega)]
  have hvn : v = UInt8.ofNat n := by
    have := hget 15 (by omega) (by omega)
    rw [hv] at this
    simpa using this
  have hvt : v.toNat = n := by rw [hvn]; simp; omega
  have hb : b = true := hiff.mpr ⟨by omega, by omega, by rw [hvt]; intro k a c; rw [hget k a c, hvn]⟩
  refine ⟨v, by rw [hc, hb], ?_⟩
  rw [hvt, hml, Nat.add_sub_cancel, hm, List.take_left']
  rfl

theorem padded_succeeds (env : Env) (hok : ∀ s, env.ok s = true) (u : UnwrapPrims) (t : UnwrapTarget) (wrapping : Rights)
    (hrv : rightsValidateFormat t.rights = true) (hkt : t.keyType = KEY_TYPE_SYMMETRIC) (pkcs7 : Bool) (clear key : Bytes)
    (hm : clear.length % 16 = 0) (hk : 16 ≤ key.length ∧ key.length ≤ 512) (h : if pkcs7 then Padded key clear else key = clear) :
    ∃ d, unwrapPadded env u t wrapping pkcs7 clear = some (.OK, some d) ∧ Created env d ∧ d.key = key := by
  obtain ⟨d, hd, hc, hkey⟩ := importSymmetric_succeeds env hok u t.rights wrapping hrv t.curve key hk
  refine ⟨d, ?_, hc, hkey⟩
  unfold unwrapPadded
  cases pkcs7 with
  | false =>
    simp only [Bool.false_eq_true, if_false] at h ⊢
    rw [← h, hkt, hd]
  | true =>
    simp only [if_true] at h ⊢
    have h16 : 16 ≤ clear.length := by
      obtain ⟨n, h1, h2, hm⟩ := h
      have : clear.length = key.length + n := by rw [hm]; simp
      omega
    rw [if_neg (by omega)]
    obtain ⟨v, hv, htake⟩ := padded_check key clear h h16
    rw [hv]
    simp only
    rw [htake, hkt, hd]

/-- Conditions of the RSA and the elliptic curve algorithms on lengths. -/
def UnwrapLengths (u : UnwrapPrims) (params : UnwrapParams) (input : Bytes) (wk : StoredKey) : Prop :=
  match params with
  | .rsa oaep => input.length = wk.header.size.toNat ∧ ∀ d m l, oaep = some (some (d, m, l)) → l ≠ .bad
  | .elgamal (some (_, len)) =>
    16 ≤ len.toNat ∧ wk.header.size.toNat = ecKeySizeFromCurve (curveOf wk.header.typeParameters) ∧ input.length = 4 * wk.header.size.toNat ∧
      (∀ pt, u.elgamal wk.key (curveOf wk.header.typeParameters) input = some pt → pt.length = 2 * wk.header.size.toNat) ∧
      keyTypeSupportsEc wk.header.type.toNat (curveOf wk.header.typeParameters) wk.header.size.toNat = true
  | _ => True

theorem keyUnwrapOp_complete (env : Env) (hp : env.prims.Good) (hok : ∀ s, env.ok s = true) (u : UnwrapEnv) (hu : u.prims.Good)
    (huok : u.allocOk = true ∧ u.ok = true) (st : KeyStore) (hr : KsReachable env.prims st) (t : UnwrapTarget)
    (hrv : rightsValidateFormat t.rights = true) (hkt : t.keyType = KEY_TYPE_SYMMETRIC) (params : UnwrapParams) (wrapping : Nat) (input : Bytes)
    (caller : Uuid) (ha : UnwrapAcceptable t params input) (wk : StoredKey)
    (hw : keyStoreUnwrap env st wrapping caller = some (st, .OK, some wk)) (hf : WrappingFits params wk.header)
    (hal : rightsAllowedUnwrap env.rights wk.header.rights = true) (hkl : wk.key.length = wk.header.size.toNat ∨ wk.header.type.toNat ≠ KEY_TYPE_SYMMETRIC)
    (key : Bytes) (hk : 16 ≤ key.length ∧ key.length ≤ 512) (hc : UnwrapClear env.prims u.prims wk params input key)
    (hlen : UnwrapLengths u.prims params input wk) (hfree : ∃ h, h < st.slotCount ∧ (st.obj h).object = none) :
    ∃ st' h, keyUnwrapOp env u st t params wrapping input caller = some (st', .OK, h) := by
  obtain ⟨hu1, hu2⟩ := huok
  have imp := importSymmetric_succeeds env hok u.prims t.rights wk.header.rights hrv
  have aes : wk.header.type.toNat = KEY_TYPE_SYMMETRIC ∧ (wk.header.size.toNat = 16 ∨ wk.header.size.toNat = 32) →
      keyTypeSupportsAes wk.header.type.toNat wk.header.size.toNat = true ∧ (wk.key.length = 16 ∨ wk.key.length = 32) := by
    rintro ⟨h1, h2⟩
    refine ⟨by simpa [keyTypeSupportsAes, validAesSize, h1] using h2, ?_⟩
    rcases hkl with h | h
    · omega
    · exact absurd h1 h
  have chacha : wk.header.type.toNat = KEY_TYPE_SYMMETRIC ∧ wk.header.size.toNat = 32 →
      keyTypeSupportsChacha20 wk.header.type.toNat wk.header.size.toNat = true := by
    rintro ⟨h1, h2⟩; simp [keyTypeSupportsChacha20, h1, h2]
  have fin : ∀ (typeOk : Header → Bool) (f : StoredKey → Option (Status × Option StoredKey)), typeOk wk.header = true →
      (∃ d, f wk = some (.OK, some d) ∧ Created env d) → ∃ st' h, withKey env st wrapping caller (unwrapGate env typeOk f) = some (st', .OK, h) := by
    rintro typeOk f ht ⟨d, hd, hcr⟩
    refine withKey_succeeds env hp hok st hr wrapping caller _ wk d hw ?_ hcr hfree
    unfold unwrapGate
    rw [if_neg (by simp [hal]), if_neg (by simp [ht]), hd]
  match params, ha, hf, hc, hlen with
  | .ecb pkcs7, ha, hf, hc, _ =>
    simp only [UnwrapAcceptable] at ha
    obtain ⟨h1, h2⟩ := aes hf
    simp only [keyUnwrapOp]
    rw [if_neg (by omega)]
    refine fin _ _ h1 ?_
    have hcl := ecbDec_clear (env.prims.aesDec wk.key) (fun b h => hp.decLen _ _ h) input ha
    obtain ⟨d, hd, hcr, _⟩ := padded_succeeds env hok u.prims t wk.header.rights hrv hkt pkcs7 _ key (by rw [hcl.1]; exact ha) hk (by
      cases pkcs7 with
      | false => simp only [Bool.false_eq_true, if_false]; exact ecbClear_unique _ input _ _ ha hc hcl
      | true =>
        obtain ⟨m, hm, hpad⟩ := hc
        simp only [if_true]
        rw [ecbClear_unique _ input _ _ ha hcl hm]; exact hpad)
    refine ⟨d, ?_, hcr⟩
    unfold unwrapAesEcb
    rw [if_neg (by simp [hu1]), if_neg (by simp [blocksAndKeyOk, ha, h2]), if_neg (by simp [hu2]), hd]
  | .cbc pkcs7 (some (some iv)), ha, hf, hc, _ =>
    simp only [UnwrapAcceptable] at ha
    obtain ⟨h1, h2⟩ := aes hf
    simp only [keyUnwrapOp]
    rw [if_neg (by simp [fixedBuf, ha.1]), if_neg (by omega)]
    refine fin _ _ h1 ?_
    have hcl := cbcDec_clear (env.prims.aesDec wk.key) (fun b h => hp.decLen _ _ h) iv input ha.1 ha.2
    obtain ⟨d, hd, hcr, _⟩ := padded_succeeds env hok u.prims t wk.header.rights hrv hkt pkcs7 _ key (by rw [hcl.1]; exact ha.2) hk (by
      cases pkcs7 with
      | false => simp only [Bool.false_eq_true, if_false]; exact cbcClear_unique _ iv input _ _ ha.2 hc hcl
      | true =>
        obtain ⟨m, hm, hpad⟩ := hc
        simp only [if_true]
        rw [cbcClear_unique _ iv input _ _ ha.2 hcl hm]; exact hpad)
    refine ⟨d, ?_, hcr⟩
    unfold unwrapAesCbc
    rw [if_neg (by simp [hu1]), if_neg (by simp [blocksAndKeyOk, ha, h2]), if_neg (by simp [hu2])]
    exact hd
  | .ctr (some (some iv)), ha, hf, hc, _ =>
    simp only [UnwrapAcceptable] at ha
    obtain ⟨h1, h2⟩ := aes hf
    simp only [keyUnwrapOp]
    rw [if_neg (by simp [fixedBuf, ha])]
    refine fin _ _ h1 ?_
    obtain ⟨d, hd, hcr, _⟩ := imp t.curve key hk
    refine ⟨d, ?_, hcr⟩
    unfold unwrapAesCtr
    rw [if_neg (by simp [hu1, hu2]), hkt]
    simp only [UnwrapClear] at hc
    rw [hc] at hd
    exact congrArg some hd
  | .gcm (some (some iv, aad, some tag)), ha, hf, hc, _ =>
    simp only [UnwrapAcceptable] at ha
    obtain ⟨h1, h2⟩ := aes hf
    simp only [keyUnwrapOp]
    rw [if_neg (by simp [fixedBuf, ha.1]), if_neg (by cases aad <;> simp_all [Buf.isBad]), if_neg (by omega)]
    refine fin _ _ h1 ?_
    obtain ⟨d, hd, hcr, _⟩ := imp t.curve key hk
    refine ⟨d, ?_, hcr⟩
    simp only [UnwrapClear] at hc
    unfold unwrapAesGcm
    rw [if_neg (by simp [hu1]), if_neg (by simp [ha.1]), if_neg (by omega), if_neg (by omega), if_neg (by simp [hu2]), if_neg (by omega),
      if_neg (fun h => h (List.prefix_iff_eq_take.mp hc.2.2)), hkt]
    rw [hc.1] at hd
    exact congrArg some hd
  | .chacha20 (some (some counter, some nonce)), ha, hf, hc, _ =>
    simp only [UnwrapAcceptable] at ha
    simp only [keyUnwrapOp]
    rw [if_neg (by simp [fixedBuf, ha.1]), if_neg (by simp [fixedBuf, ha.2])]
    refine fin _ _ (chacha hf) ?_
    obtain ⟨d, hd, hcr, _⟩ := imp t.curve key hk
    refine ⟨d, ?_, hcr⟩
    unfold unwrapChacha20
    rw [if_neg (by simp [hu1, hu2]), hkt]
    simp only [UnwrapClear] at hc
    rw [hc] at hd
    exact congrArg some hd
  | .poly (some (some nonce, aad, some tag)), ha, hf, hc, _ =>
    simp only [UnwrapAcceptable] at ha
    simp only [keyUnwrapOp]
    rw [if_neg (by simp [fixedBuf, ha.1]), if_neg (by cases aad <;> simp_all [Buf.isBad]), if_neg (by simp [fixedBuf, ha.2.2])]
    refine fin _ _ (chacha hf) ?_
    obtain ⟨d, hd, hcr, _⟩ := imp t.curve key hk
    refine ⟨d, ?_, hcr⟩
    simp only [UnwrapClear] at hc
    have htag : tag = (u.prims.polyTag wk.key nonce (aad.get.getD []) input).take tag.length := by
      rw [List.take_of_length_le (by rw [ha.2.2, hu.polyTagLen]; omega)]
      exact hc.2
    unfold unwrapPoly
    rw [if_neg (by simp [hu1, hu2]), if_neg (by simp [ha.2.2]), if_neg (fun h => h htag), hkt]
    rw [hc.1] at hd
    exact congrArg some hd
  | .rsa oaep, ha, hf, hc, hlen =>
    simp only [UnwrapLengths] at hlen
    simp only [WrappingFits] at hf
    simp only [keyUnwrapOp]
    rw [if_neg (by simp [hkt])]
    obtain ⟨d, hd, hcr, _⟩ := imp none key hk
    refine withKey_succeeds env hp hok st hr wrapping caller _ wk d hw ?_ hcr hfree
    have hty : keyTypeSupportsRsa wk.header.type.toNat wk.header.size.toNat = true := by
      simp [keyTypeSupportsRsa, validRsaSize, hf.1]; omega
    rw [if_neg (by simp [hty]), if_neg (by simp [hal]), if_neg (by simp [hlen.1])]
    unfold unwrapRsa
    rw [if_neg (by simp [hu1])]
    match oaep, hc, hlen with
    | none, hc, _ => simp only [UnwrapClear] at hc; simp only [hc]; rw [hd]
    | some (some (dg, m, l)), hc, hlen =>
      simp only [UnwrapClear] at hc
      simp only
      have := hlen.2 dg m l rfl
      rw [if_neg (by cases l <;> simp_all [Buf.isBad]), hc]
      simp only
      rw [hd]
  | .elgamal (some (offset, len)), ha, hf, hc, hlen =>
    simp only [UnwrapLengths] at hlen
    obtain ⟨l1, l2, l3, l4, l5⟩ := hlen
    obtain ⟨pt, c1, c2, c3, c4⟩ := hc
    have l4 := l4 pt c1
    simp only [keyUnwrapOp]
    rw [if_neg (by simp [hkt])]
    refine fin _ _ l5 ?_
    obtain ⟨d, hd, hcr, _⟩ := imp none key hk
    refine ⟨d, ?_, hcr⟩
    have hsz : wk.header.size.toNat < 2 ^ 16 := wk.header.size.toNat_lt
    have hno : (addOverflow offset len).1 = false := by
      cases hb : (addOverflow offset len).1 with
      | false => rfl
      | true => have := (addOverflow_fst offset len).mp hb; omega
    have hsum := addOverflow_snd offset len hno
    unfold unwrapEc
    simp only
    rw [← l2]
    have hl16 : ¬ len < 16 := by rw [UInt64.lt_iff_toNat_lt]; simpa using l1
    rw [if_neg (by omega), if_neg hl16, if_neg (by simp [hno]), if_neg (by omega), if_neg (by omega), if_neg (by simp [hu1])]
    have hdec : ecDecryptElgamal u.prims wk.header.size.toNat wk input = (.OK, pt.take wk.header.size.toNat) := by
      unfold ecDecryptElgamal
      simp only
      rw [if_neg (by omega), if_neg (by omega), c1]
      simp only
      rw [if_neg (by omega)]
    rw [hdec]
    simp only
    have hcl : (pt.take wk.header.size.toNat).length = wk.header.size.toNat := by rw [List.length_take]; omega
    rw [if_neg (by omega), if_neg (by omega)]
    have hkey : ((pt.take wk.header.size.toNat).drop offset.toNat).take len.toNat = key := by
      apply List.ext_getElem?
      intro i
      rw [List.getElem?_take]
      by_cases hi : i < len.toNat
      · rw [if_pos hi, List.getElem?_drop, List.getElem?_take, if_pos (by omega), c4 i hi]
      · rw [if_neg hi, List.getElem?_eq_none (by omega)]
    rw [hkey, hd]

end Sa

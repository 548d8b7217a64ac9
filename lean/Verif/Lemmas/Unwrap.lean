import Verif.Lemmas.WithKey
import Verif.Lemmas.Pad
import Verif.Model.UnwrapSpec

/-!
# Unwrapping
-/

namespace Sa

theorem blk_append_zero (a b : Bytes) (h : a.length = 16) : blk (a ++ b) 0 = a := by
  unfold blk; simp [h]

theorem blk_append_succ (a b : Bytes) (h : a.length = 16) (i : Nat) : blk (a ++ b) (i + 1) = blk b i := by
  unfold blk
  rw [show 16 * (i + 1) = a.length + 16 * i by omega, List.drop_append, List.drop_eq_nil_of_le (by omega)]
  simp

theorem blk_drop (m : Bytes) (i : Nat) : blk (m.drop 16) i = blk m (i + 1) := by
  unfold blk; rw [List.drop_drop]; congr 2; omega

theorem ecbDec_length (dec : Bytes → Bytes) (hd : ∀ b, b.length = 16 → (dec b).length = 16) (n : Nat) (m : Bytes) (h : 16 * n ≤ m.length) :
    (ecbDec dec n m).length = 16 * n := by
  induction n generalizing m with
  | zero => rfl
  | succ n ih =>
    rw [ecbDec, List.length_append, hd _ (by rw [List.length_take]; omega), ih _ (by rw [List.length_drop]; omega)]; omega

theorem ecbDec_blk (dec : Bytes → Bytes) (hd : ∀ b, b.length = 16 → (dec b).length = 16) (n : Nat) (m : Bytes) (h : 16 * n ≤ m.length) (i : Nat)
    (hi : i < n) : blk (ecbDec dec n m) i = dec (blk m i) := by
  induction n generalizing m i with
  | zero => omega
  | succ n ih =>
    have h16 : (dec (m.take 16)).length = 16 := hd _ (by rw [List.length_take]; omega)
    rw [ecbDec]
    cases i with
    | zero => rw [blk_append_zero _ _ h16]; rfl
    | succ i => rw [blk_append_succ _ _ h16, ih _ (by rw [List.length_drop]; omega) i (by omega), blk_drop]

theorem ecbDec_clear (dec : Bytes → Bytes) (hd : ∀ b, b.length = 16 → (dec b).length = 16) (m : Bytes) (h : m.length % 16 = 0) :
    EcbClear dec m (ecbDec dec (m.length / 16) m) :=
  ⟨by rw [ecbDec_length dec hd _ _ (by omega)]; omega, fun i hi => ecbDec_blk dec hd _ m (by omega) i hi⟩

theorem cbcDec_length' (dec : Bytes → Bytes) (hd : ∀ b, b.length = 16 → (dec b).length = 16) (n : Nat) (iv m : Bytes) (hiv : iv.length = 16)
    (h : 16 * n ≤ m.length) : (cbcDec dec n iv m).length = 16 * n := by
  induction n generalizing iv m with
  | zero => rfl
  | succ n ih =>
    have h1 : (m.take 16).length = 16 := by rw [List.length_take]; omega
    rw [cbcDec, List.length_append, ih _ _ h1 (by rw [List.length_drop]; omega)]
    unfold xorBytes
    rw [List.length_zipWith, hd _ h1, hiv]; omega

theorem cbcDec_blk (dec : Bytes → Bytes) (hd : ∀ b, b.length = 16 → (dec b).length = 16) (n : Nat) (iv m : Bytes) (hiv : iv.length = 16)
    (h : 16 * n ≤ m.length) (i : Nat) (hi : i < n) :
    blk (cbcDec dec n iv m) i = xorBytes (dec (blk m i)) (if i = 0 then iv else blk m (i - 1)) := by
  induction n generalizing iv m i with
  | zero => omega
  | succ n ih =>
    have h1 : (m.take 16).length = 16 := by rw [List.length_take]; omega
    have h16 : (xorBytes (dec (m.take 16)) iv).length = 16 := by
      unfold xorBytes; rw [List.length_zipWith, hd _ h1, hiv]; rfl
    rw [cbcDec]
    cases i with
    | zero => rw [blk_append_zero _ _ h16]; rfl
    | succ i =>
      rw [blk_append_succ _ _ h16, ih _ _ h1 (by rw [List.length_drop]; omega) i (by omega), blk_drop]
      congr 1
      cases i with
      | zero => rfl
      | succ i => simp only [Nat.add_eq_zero_iff, Nat.succ_ne_self, and_false, if_false, Nat.add_sub_cancel]; exact blk_drop m i

theorem cbcDec_clear (dec : Bytes → Bytes) (hd : ∀ b, b.length = 16 → (dec b).length = 16) (iv m : Bytes) (hiv : iv.length = 16)
    (h : m.length % 16 = 0) : CbcClear dec iv m (cbcDec dec (m.length / 16) iv m) :=
  ⟨by rw [cbcDec_length' dec hd _ _ _ hiv (by omega)]; omega, fun i hi => cbcDec_blk dec hd _ iv m hiv (by omega) i hi⟩

/-- What the functions of unwrap.c return. -/
def UnwrapBody (env : Env) (u : UnwrapPrims) (t : UnwrapTarget) (kt : Nat) (params : UnwrapParams) (input : Bytes) (wk : StoredKey)
    (r : Option (Status × Option StoredKey)) : Prop :=
  (∃ s, s ≠ Status.OK ∧ r = some (s, none)) ∨
  (∃ d, r = some (.OK, some d) ∧ Created env d ∧ UnwrapClear env.prims u wk params input d.key ∧
    d.header.rights = restrictChildRights t.rights (some wk.header.rights) ∧ d.header.type.toNat = kt ∧
    ImportShape u kt t.curve d.key d)

theorem importBody (env : Env) (u : UnwrapPrims) (t : UnwrapTarget) (kt : Nat) (curve : Option Nat) (params : UnwrapParams) (input : Bytes)
    (wk : StoredKey) (clear : Bytes) (hl : clear.length + 16 < 2 ^ 64) (hc : UnwrapClear env.prims u wk params input clear)
    (hcv : kt ≠ KEY_TYPE_EC ∨ curve = t.curve) :
    UnwrapBody env u t kt params input wk (some (unwrapImportKey env u t.rights wk.header.rights kt curve clear)) := by
  rcases unwrapImportKey_spec env u t.rights wk.header.rights kt curve clear hl with ⟨s, hs, h⟩ | ⟨d, h1, h2, h3, h4, h5, h6⟩
  · exact Or.inl ⟨s, hs, by rw [h]⟩
  · refine Or.inr ⟨d, by rw [h1], h2, by rw [h3]; exact hc, h4, h5, ?_⟩
    rw [h3]
    rcases h6 with h | h | h
    · exact Or.inl h
    · rcases hcv with hn | he
      · exact absurd h.1 hn
      · rw [← he]; exact Or.inr (Or.inl h)
    · exact Or.inr (Or.inr h)

theorem paddedBody (env : Env) (u : UnwrapPrims) (t : UnwrapTarget) (params : UnwrapParams) (input : Bytes) (wk : StoredKey) (pkcs7 : Bool)
    (clear : Bytes) (hl : clear.length + 16 < 2 ^ 64) (h16 : pkcs7 = true → 16 ≤ clear.length)
    (hp : pkcs7 = true → ∀ key, Padded key clear → UnwrapClear env.prims u wk params input key)
    (hn : pkcs7 = false → UnwrapClear env.prims u wk params input clear) :
    UnwrapBody env u t t.keyType params input wk (unwrapPadded env u t wk.header.rights pkcs7 clear) := by
  unfold unwrapPadded
  cases pkcs7 with
  | false => exact importBody env u t t.keyType t.curve params input wk clear hl (hn rfl) (Or.inr rfl)
  | true =>
    simp only [if_true]
    have h16 := h16 rfl
    rw [if_neg (by omega)]
    have hlast : (clear.drop (clear.length - 16)).length = 16 := by rw [List.length_drop]; omega
    obtain ⟨v, ok, _, hv, hiff⟩ := padCheckPkcs7_spec (clear.drop (clear.length - 16)) (by omega)
    rw [hv]
    cases ok with
    | false => exact Or.inl ⟨_, by simp, rfl⟩
    | true =>
      simp only
      obtain ⟨h1, h2, h3⟩ := hiff.mp rfl
      refine importBody env u t t.keyType t.curve params input wk _ (by rw [List.length_take]; omega) (hp rfl _ ?_) (Or.inr rfl)
      refine ⟨v.toNat, h1, h2, ?_⟩
      have e1 : clear.drop (clear.length - v.toNat) = List.replicate v.toNat v := by
        rw [show clear.length - v.toNat = (clear.length - 16) + (16 - v.toNat) by omega, ← List.drop_drop]
        apply List.ext_getElem?
        intro i
        rw [List.getElem?_drop, List.getElem?_replicate]
        split
        · exact h3 _ (by omega) (by omega)
        · exact List.getElem?_eq_none (by omega)
      have : UInt8.ofNat v.toNat = v := by simp
      rw [this, ← e1, List.take_append_drop]

theorem ecbBody (env : Env) (hp : env.prims.Good) (u : UnwrapEnv) (t : UnwrapTarget) (pkcs7 : Bool) (input : Bytes) (wk : StoredKey)
    (hl : input.length + 16 < 2 ^ 64) (hb : (UnwrapParams.ecb pkcs7).HasBlock input) :
    UnwrapBody env u.prims t t.keyType (.ecb pkcs7) input wk (unwrapAesEcb env u t pkcs7 input wk) := by
  unfold unwrapAesEcb
  split
  · exact Or.inl ⟨_, by simp, rfl⟩
  split
  · exact Or.inl ⟨_, by simp, rfl⟩
  rename_i hbk
  split
  · exact Or.inl ⟨_, by simp, rfl⟩
  have hm : input.length % 16 = 0 := by simp [blocksAndKeyOk] at hbk; omega
  have hc := ecbDec_clear (env.prims.aesDec wk.key) (fun b h => hp.decLen _ _ h) input hm
  refine paddedBody env u.prims t _ input wk pkcs7 _ (by rw [hc.1]; exact hl) ?_ ?_ ?_
  · rintro rfl
    rw [hc.1]
    have : input.length ≠ 0 := fun h => hb (List.length_eq_zero_iff.mp h)
    omega
  · rintro rfl key hk; exact ⟨_, hc, hk⟩
  · rintro rfl; exact hc

theorem cbcBody (env : Env) (hp : env.prims.Good) (u : UnwrapEnv) (t : UnwrapTarget) (pkcs7 : Bool) (iv input : Bytes) (wk : StoredKey)
    (hiv : iv.length = 16) (hl : input.length + 16 < 2 ^ 64) (hb : (UnwrapParams.cbc pkcs7 (some (some iv))).HasBlock input) :
    UnwrapBody env u.prims t t.keyType (.cbc pkcs7 (some (some iv))) input wk (unwrapAesCbc env u t pkcs7 iv input wk) := by
  unfold unwrapAesCbc
  split
  · exact Or.inl ⟨_, by simp, rfl⟩
  split
  · exact Or.inl ⟨_, by simp, rfl⟩
  rename_i hbk
  split
  · exact Or.inl ⟨_, by simp, rfl⟩
  have hm : input.length % 16 = 0 := by simp [blocksAndKeyOk] at hbk; omega
  have hc := cbcDec_clear (env.prims.aesDec wk.key) (fun b h => hp.decLen _ _ h) iv input hiv hm
  refine paddedBody env u.prims t _ input wk pkcs7 _ (by rw [hc.1]; exact hl) ?_ ?_ ?_
  · rintro rfl
    rw [hc.1]
    have : input.length ≠ 0 := fun h => hb (List.length_eq_zero_iff.mp h)
    omega
  · rintro rfl key hk; exact ⟨_, hc, hk⟩
  · rintro rfl; exact hc

theorem ctrBody (env : Env) (u : UnwrapEnv) (hu : u.prims.Good) (t : UnwrapTarget) (ctr input : Bytes) (wk : StoredKey)
    (hl : input.length + 16 < 2 ^ 64) :
    UnwrapBody env u.prims t t.keyType (.ctr (some (some ctr))) input wk (some (unwrapAesCtr env u t ctr input wk)) := by
  unfold unwrapAesCtr
  split
  · exact Or.inl ⟨_, by simp, rfl⟩
  exact importBody _ _ _ _ _ _ _ _ _ (by rw [hu.ctrLen]; exact hl) rfl (Or.inr rfl)

theorem gcmBody (env : Env) (u : UnwrapEnv) (hu : u.prims.Good) (t : UnwrapTarget) (iv : Bytes) (aad : Buf) (tag input : Bytes) (wk : StoredKey)
    (hl : input.length + 16 < 2 ^ 64) :
    UnwrapBody env u.prims t t.keyType (.gcm (some (some iv, aad, some tag))) input wk
      (some (unwrapAesGcm env u t iv (aad.get.getD []) tag input wk)) := by
  unfold unwrapAesGcm
  iterate 6
    split
    · exact Or.inl ⟨_, by simp, rfl⟩
  rename_i hne
  split
  · exact Or.inl ⟨_, by simp, rfl⟩
  rename_i heq
  have heq : tag = (u.prims.gcmTag wk.key iv (aad.get.getD []) input).take tag.length := Classical.byContradiction heq
  refine importBody _ _ _ _ _ _ _ _ _ (by rw [hu.gcmLen]; exact hl) ⟨rfl, by omega, ?_⟩ (Or.inr rfl)
  rw [heq]; exact List.take_prefix _ _

theorem chachaBody (env : Env) (u : UnwrapEnv) (hu : u.prims.Good) (t : UnwrapTarget) (counter nonce input : Bytes) (wk : StoredKey)
    (hl : input.length + 16 < 2 ^ 64) :
    UnwrapBody env u.prims t t.keyType (.chacha20 (some (some counter, some nonce))) input wk
      (some (unwrapChacha20 env u t counter nonce input wk)) := by
  unfold unwrapChacha20
  split
  · exact Or.inl ⟨_, by simp, rfl⟩
  exact importBody _ _ _ _ _ _ _ _ _ (by rw [hu.chachaLen]; exact hl) rfl (Or.inr rfl)

theorem polyBody (env : Env) (u : UnwrapEnv) (hu : u.prims.Good) (t : UnwrapTarget) (nonce : Bytes) (aad : Buf) (tag input : Bytes) (wk : StoredKey)
    (htag : tag.length = 16) (hl : input.length + 16 < 2 ^ 64) :
    UnwrapBody env u.prims t t.keyType (.poly (some (some nonce, aad, some tag))) input wk
      (some (unwrapPoly env u t nonce (aad.get.getD []) tag input wk)) := by
  unfold unwrapPoly
  iterate 2
    split
    · exact Or.inl ⟨_, by simp, rfl⟩
  split
  · exact Or.inl ⟨_, by simp, rfl⟩
  rename_i heq
  have heq : tag = (u.prims.polyTag wk.key nonce (aad.get.getD []) input).take tag.length := Classical.byContradiction heq
  refine importBody _ _ _ _ _ _ _ _ _ (by rw [hu.polyLen]; exact hl) ⟨rfl, ?_⟩ (Or.inr rfl)
  rw [htag, List.take_of_length_le (by rw [hu.polyTagLen]; omega)] at heq
  exact heq

theorem rsaBody (env : Env) (u : UnwrapEnv) (hu : u.prims.Good) (t : UnwrapTarget) (oaep : Option (Option (Nat × Nat × Buf))) (input : Bytes)
    (wk : StoredKey) (hl : input.length + 16 < 2 ^ 64) :
    UnwrapBody env u.prims t KEY_TYPE_SYMMETRIC (.rsa oaep) input wk (some (unwrapRsa env u t oaep input wk)) := by
  unfold unwrapRsa
  split
  · exact Or.inl ⟨_, by simp, rfl⟩
  have hns : KEY_TYPE_SYMMETRIC ≠ KEY_TYPE_EC := by decide
  match oaep with
  | none =>
    simp only
    split
    · exact Or.inl ⟨_, by simp, rfl⟩
    · rename_i c hc
      exact importBody _ _ _ _ _ _ _ _ _ (by have := hu.rsaPkcs1Len _ _ _ hc; omega) hc (Or.inl hns)
  | some none => exact Or.inl ⟨_, by simp, rfl⟩
  | some (some (d, m, l)) =>
    simp only
    split
    · exact Or.inl ⟨_, by simp, rfl⟩
    split
    · exact Or.inl ⟨_, by simp, rfl⟩
    · rename_i c hc
      exact importBody _ _ _ _ _ _ _ _ _ (by have := hu.rsaOaepLen _ _ _ _ _ _ hc; omega) hc (Or.inl hns)

theorem ecSize_small (c : Nat) : ecKeySizeFromCurve c ≤ 66 := by
  unfold ecKeySizeFromCurve
  repeat' split
  all_goals omega

theorem ecBody (env : Env) (u : UnwrapEnv) (t : UnwrapTarget) (offset keyLength : UInt64) (input : Bytes) (wk : StoredKey) :
    UnwrapBody env u.prims t KEY_TYPE_SYMMETRIC (.elgamal (some (offset, keyLength))) input wk (unwrapEc env u t offset keyLength input wk) := by
  unfold unwrapEc
  simp only
  have hns : KEY_TYPE_SYMMETRIC ≠ KEY_TYPE_EC := by decide
  have hsz := ecSize_small (curveOf wk.header.typeParameters)
  generalize ecKeySizeFromCurve (curveOf wk.header.typeParameters) = size at hsz
  split
  · exact Or.inl ⟨_, by simp, rfl⟩
  split
  · exact Or.inl ⟨_, by simp, rfl⟩
  split
  · exact Or.inl ⟨_, by simp, rfl⟩
  rename_i hov
  split
  · exact Or.inl ⟨_, by simp, rfl⟩
  rename_i hgt
  split
  · exact Or.inl ⟨_, by simp, rfl⟩
  split
  · exact Or.inl ⟨_, by simp, rfl⟩
  have hsum : (addOverflow offset keyLength).2.toNat = offset.toNat + keyLength.toNat := by
    cases hb : (addOverflow offset keyLength).1 with
    | true => exact absurd hb hov
    | false => exact addOverflow_snd _ _ hb
  split
  · rename_i clear hdec
    split
    · exact Or.inl ⟨_, by simp, rfl⟩
    rename_i hlen
    have hlen : clear.length = size := Classical.byContradiction hlen
    rw [if_neg (by omega)]
    have ⟨point, h1, h2, h3⟩ : ∃ point, u.prims.elgamal wk.key (curveOf wk.header.typeParameters) input = some point ∧
        point.length = wk.header.size.toNat * 2 ∧ clear = point.take wk.header.size.toNat := by
      unfold ecDecryptElgamal at hdec
      simp only at hdec
      have hf : (if isPCurve (curveOf wk.header.typeParameters) then Status.INTERNAL_ERROR else .OPERATION_NOT_ALLOWED) ≠ .OK := by
        split <;> simp
      split at hdec
      · simp only [Prod.mk.injEq] at hdec; exact absurd hdec.1 hf
      split at hdec
      · simp only [Prod.mk.injEq] at hdec; exact absurd hdec.1 hf
      split at hdec
      · simp only [Prod.mk.injEq] at hdec; exact absurd hdec.1 hf
      rename_i point hpt
      split at hdec
      · simp only [Prod.mk.injEq] at hdec; exact absurd hdec.1 hf
      rename_i hpl
      simp only [Prod.mk.injEq, true_and] at hdec
      exact ⟨point, hpt, by omega, hdec.symm⟩
    have hcl : clear.length = wk.header.size.toNat := by rw [h3, List.length_take]; omega
    refine importBody _ _ _ _ _ _ _ _ _ (by rw [List.length_take, List.length_drop]; omega) ⟨point, h1, by omega, ?_, ?_⟩ (Or.inl hns)
    · rw [List.length_take, List.length_drop]; omega
    · intro i hi
      rw [List.getElem?_take, if_pos hi, List.getElem?_drop, h3, List.getElem?_take, if_pos (by omega)]
  · rename_i s c hnot hdec
    refine Or.inl ⟨_, ?_, rfl⟩
    rintro rfl
    exact hnot rfl

end Sa

import Verif.Lemmas.Unwrap

/-!
# `ta_sa_key_unwrap`
-/

namespace Sa

/-- What a gated body does with a wrapping key. -/
structure GatedBody (env : Env) (u : UnwrapPrims) (t : UnwrapTarget) (params : UnwrapParams) (input : Bytes) (wk : StoredKey)
    (r : Option (Status × Option StoredKey)) : Prop where
  body : UnwrapBody env u t t.keyType params input wk r
  allowed : ∀ d, r = some (.OK, some d) → rightsAllowedUnwrap env.rights wk.header.rights = true ∧ WrappingFits params wk.header
  refused : rightsAllowedUnwrap env.rights wk.header.rights = false → WrappingFits params wk.header → r = some (.OPERATION_NOT_ALLOWED, none)

theorem gatedBody (env : Env) (u : UnwrapPrims) (t : UnwrapTarget) (params : UnwrapParams) (input : Bytes) (wk : StoredKey)
    (typeOk : Header → Bool) (f : StoredKey → Option (Status × Option StoredKey)) (ht : typeOk wk.header = true → WrappingFits params wk.header)
    (hf : UnwrapBody env u t t.keyType params input wk (f wk)) : GatedBody env u t params input wk (unwrapGate env typeOk f wk) := by
  unfold unwrapGate
  cases hr : rightsAllowedUnwrap env.rights wk.header.rights with
  | false =>
    simp only [Bool.not_false, if_true]
    exact ⟨Or.inl ⟨_, by simp, rfl⟩, fun d h => by simp at h, fun _ _ => rfl⟩
  | true =>
    simp only [Bool.not_true, Bool.false_eq_true, if_false]
    cases hty : typeOk wk.header with
    | false =>
      simp only [Bool.not_false, if_true]
      exact ⟨Or.inl ⟨_, by simp, rfl⟩, fun d h => by simp at h, fun h => by rw [hr] at h; simp at h⟩
    | true =>
      simp only [Bool.not_true, Bool.false_eq_true, if_false]
      exact ⟨hf, fun _ _ => ⟨hr, ht hty⟩, fun h => by rw [hr] at h; simp at h⟩

theorem aesFits (h : Header) (ha : keyTypeSupportsAes h.type.toNat h.size.toNat = true) :
    h.type.toNat = KEY_TYPE_SYMMETRIC ∧ (h.size.toNat = 16 ∨ h.size.toNat = 32) := by
  simpa [keyTypeSupportsAes, validAesSize] using ha

theorem chachaFits (h : Header) (ha : keyTypeSupportsChacha20 h.type.toNat h.size.toNat = true) :
    h.type.toNat = KEY_TYPE_SYMMETRIC ∧ h.size.toNat = 32 := by
  simpa [keyTypeSupportsChacha20] using ha

theorem fixedBuf_ok (b : Option Bytes) (n : Nat) (h : ¬ fixedBuf b n ≠ .OK) : ∃ x, b = some x ∧ x.length = n := by
  unfold fixedBuf at h
  cases b with
  | none => simp at h
  | some x =>
    refine ⟨x, rfl, ?_⟩
    simp only at h
    split at h
    · simp at h
    · omega

local macro "acc" : tactic => `(tactic| (intro hacc; unfold UnwrapAcceptable at hacc; split at hacc <;> simp_all [fixedBuf, Buf.isBad] <;> omega))

/-- `ta_sa_key_unwrap` refuses the parameters, or runs a gated body on the wrapping key. -/
theorem keyUnwrapOp_shape (env : Env) (hp : env.prims.Good) (u : UnwrapEnv) (hu : u.prims.Good) (st : KeyStore) (t : UnwrapTarget)
    (params : UnwrapParams) (wrapping : Nat) (input : Bytes) (caller : Uuid) (hl : input.length + 16 < 2 ^ 64) (hb : params.HasBlock input) :
    (¬ UnwrapAcceptable t params input ∧ ∃ s, s ≠ Status.OK ∧ keyUnwrapOp env u st t params wrapping input caller = some (st, s, SLOT_INVALID)) ∨
    (∃ body, keyUnwrapOp env u st t params wrapping input caller = withKey env st wrapping caller body ∧
      ∀ wk, GatedBody env u.prims t params input wk (body wk)) := by
  cases params with
  | ecb pkcs7 =>
    simp only [keyUnwrapOp]
    split
    · exact Or.inl ⟨by acc, _, by simp, rfl⟩
    · exact Or.inr ⟨_, rfl, fun wk => gatedBody _ _ _ _ _ _ _ _ (aesFits _) (ecbBody env hp u t pkcs7 input wk hl hb)⟩
  | cbc pkcs7 p =>
    simp only [keyUnwrapOp]
    cases p with
    | none => exact Or.inl ⟨by acc, _, by simp, rfl⟩
    | some iv =>
      simp only
      split
      · rename_i h; exact Or.inl ⟨by acc, _, h, rfl⟩
      rename_i h
      obtain ⟨x, rfl, hx⟩ := fixedBuf_ok _ _ h
      split
      · exact Or.inl ⟨by acc, _, by simp, rfl⟩
      · exact Or.inr ⟨_, rfl, fun wk => gatedBody _ _ _ _ _ _ _ _ (aesFits _) (cbcBody env hp u t pkcs7 x input wk hx hl hb)⟩
  | ctr p =>
    simp only [keyUnwrapOp]
    cases p with
    | none => exact Or.inl ⟨by acc, _, by simp, rfl⟩
    | some iv =>
      simp only
      split
      · rename_i h; exact Or.inl ⟨by acc, _, h, rfl⟩
      rename_i h
      obtain ⟨x, rfl, hx⟩ := fixedBuf_ok _ _ h
      exact Or.inr ⟨_, rfl, fun wk => gatedBody _ _ _ _ _ _ _ _ (aesFits _) (ctrBody env u hu t x input wk hl)⟩
  | gcm p =>
    simp only [keyUnwrapOp]
    match p with
    | none => exact Or.inl ⟨by acc, _, by simp, rfl⟩
    | some (iv, aad, tag) =>
      simp only
      split
      · rename_i h; exact Or.inl ⟨by acc, _, h, rfl⟩
      rename_i h
      obtain ⟨x, rfl, hx⟩ := fixedBuf_ok _ _ h
      split
      · exact Or.inl ⟨by acc, _, by simp, rfl⟩
      cases tag with
      | none => exact Or.inl ⟨by acc, _, by simp, rfl⟩
      | some tag =>
        simp only
        split
        · exact Or.inl ⟨by acc, _, by simp, rfl⟩
        · exact Or.inr ⟨_, rfl, fun wk => gatedBody _ _ _ _ _ _ _ _ (aesFits _) (gcmBody env u hu t x aad tag input wk hl)⟩
  | chacha20 p =>
    simp only [keyUnwrapOp]
    match p with
    | none => exact Or.inl ⟨by acc, _, by simp, rfl⟩
    | some (counter, nonce) =>
      simp only
      split
      · rename_i h; exact Or.inl ⟨by acc, _, h, rfl⟩
      rename_i h
      obtain ⟨x, rfl, hx⟩ := fixedBuf_ok _ _ h
      split
      · rename_i h; exact Or.inl ⟨by acc, _, h, rfl⟩
      rename_i h
      obtain ⟨y, rfl, hy⟩ := fixedBuf_ok _ _ h
      exact Or.inr ⟨_, rfl, fun wk => gatedBody _ _ _ _ _ _ _ _ (chachaFits _) (chachaBody env u hu t x y input wk hl)⟩
  | poly p =>
    simp only [keyUnwrapOp]
    match p with
    | none => exact Or.inl ⟨by acc, _, by simp, rfl⟩
    | some (nonce, aad, tag) =>
      simp only
      split
      · rename_i h; exact Or.inl ⟨by acc, _, h, rfl⟩
      rename_i h
      obtain ⟨x, rfl, hx⟩ := fixedBuf_ok _ _ h
      split
      · exact Or.inl ⟨by acc, _, by simp, rfl⟩
      split
      · rename_i h; exact Or.inl ⟨by acc, _, h, rfl⟩
      rename_i h
      obtain ⟨y, rfl, hy⟩ := fixedBuf_ok _ _ h
      exact Or.inr ⟨_, rfl, fun wk => gatedBody _ _ _ _ _ _ _ _ (chachaFits _) (polyBody env u hu t x aad y input wk hy hl)⟩
  | rsa oaep =>
    simp only [keyUnwrapOp]
    split
    · rename_i hkt; exact Or.inl ⟨hkt, _, by simp, rfl⟩
    rename_i hkt
    have hkt : t.keyType = KEY_TYPE_SYMMETRIC := Classical.byContradiction hkt
    refine Or.inr ⟨_, rfl, fun wk => ?_⟩
    have hbody := rsaBody env u hu t oaep input wk hl
    rw [← hkt] at hbody
    cases hty : keyTypeSupportsRsa wk.header.type.toNat wk.header.size.toNat with
    | false =>
      simp only [Bool.not_false, if_true]
      refine ⟨Or.inl ⟨_, by simp, rfl⟩, fun d h => by simp at h, fun _ hf => ?_⟩
      exfalso
      simp only [WrappingFits] at hf
      simp [keyTypeSupportsRsa, validRsaSize, hf] at hty
      omega
    | true =>
      simp only [Bool.not_true, Bool.false_eq_true, if_false]
      have hfit : WrappingFits (.rsa oaep) wk.header := by
        simp [keyTypeSupportsRsa, validRsaSize] at hty; exact ⟨hty.1, by omega⟩
      cases hr : rightsAllowedUnwrap env.rights wk.header.rights with
      | false =>
        simp only [Bool.not_false, if_true]
        exact ⟨Or.inl ⟨_, by simp, rfl⟩, fun d h => by simp at h, fun _ _ => rfl⟩
      | true =>
        simp only [Bool.not_true, Bool.false_eq_true, if_false]
        split
        · exact ⟨Or.inl ⟨_, by simp, rfl⟩, fun d h => by simp at h, fun h => by rw [hr] at h; simp at h⟩
        · exact ⟨hbody, fun _ _ => ⟨hr, hfit⟩, fun h => by rw [hr] at h; simp at h⟩
  | elgamal p =>
    simp only [keyUnwrapOp]
    split
    · rename_i hkt; exact Or.inl ⟨by acc, _, by simp, rfl⟩
    rename_i hkt
    have hkt : t.keyType = KEY_TYPE_SYMMETRIC := Classical.byContradiction hkt
    match p with
    | none => exact Or.inl ⟨by acc, _, by simp, rfl⟩
    | some (offset, len) =>
      refine Or.inr ⟨_, rfl, fun wk => gatedBody _ _ _ _ _ _ _ _ (fun h => ?_) (hkt ▸ ecBody env u t offset len input wk)⟩
      simp [keyTypeSupportsEc] at h
      exact h.1
  | unknown => exact Or.inl ⟨by acc, _, by simp, rfl⟩

/-- Outcome of `ta_sa_key_unwrap`. -/
theorem keyUnwrapOp_cases (env : Env) (hp : env.prims.Good) (u : UnwrapEnv) (hu : u.prims.Good) (st : KeyStore) (hr : KsReachable env.prims st)
    (t : UnwrapTarget) (params : UnwrapParams) (wrapping : Nat) (input : Bytes) (caller : Uuid) (hl : input.length + 16 < 2 ^ 64)
    (hb : params.HasBlock input) :
    ∃ st' s h, keyUnwrapOp env u st t params wrapping input caller = some (st', s, h) ∧ KsReachable env.prims st' ∧
      ((s ≠ .OK ∧ h = SLOT_INVALID ∧ Unchanged st st') ∨
       (s = .OK ∧ ∃ wk d, KeyHeld env.prims st wrapping caller wk ∧ useResult env wk caller = (.OK, some wk) ∧
          rightsAllowedUnwrap env.rights wk.header.rights = true ∧ WrappingFits params wk.header ∧
          UnwrapClear env.prims u.prims wk params input d.key ∧ d.header.rights = restrictChildRights t.rights (some wk.header.rights) ∧
          d.header.type.toNat = t.keyType ∧ ImportShape u.prims t.keyType t.curve d.key d ∧ NewKey env.prims st st' h caller d)) := by
  rcases keyUnwrapOp_shape env hp u hu st t params wrapping input caller hl hb with ⟨_, s, hs, he⟩ | ⟨body, he, hg⟩
  · exact ⟨st, s, SLOT_INVALID, he, hr, Or.inl ⟨hs, rfl, fun _ => rfl⟩⟩
  · rw [he]
    have hk : ∀ wk, KeyFn env body wk := by
      intro wk
      rcases (hg wk).body with ⟨s, hs, h⟩ | ⟨d, h, hc, _⟩
      · exact ⟨s, none, h, fun k h1 => absurd h1 hs⟩
      · exact ⟨.OK, some d, h, fun k _ h2 => by simp at h2; rw [← h2]; exact hc⟩
    obtain ⟨st', s, h, h1, h2, h3⟩ := withKey_cases env hp st hr wrapping caller body hk
    refine ⟨st', s, h, h1, h2, h3.imp (fun ⟨a, b, c, _⟩ => ⟨a, b, c⟩) ?_⟩
    rintro ⟨a, wk, d, hh, use, hbody, hn⟩
    obtain ⟨e, f⟩ := (hg wk).allowed d hbody
    rcases (hg wk).body with ⟨s', hs', hx⟩ | ⟨d', hx, _, x1, x2, x3, x4⟩
    · rw [hbody] at hx; simp only [Option.some.injEq, Prod.mk.injEq] at hx; exact absurd hx.1.symm hs'
    · rw [hbody] at hx
      simp only [Option.some.injEq, Prod.mk.injEq, true_and] at hx
      subst hx
      exact ⟨a, wk, d, hh, use, e, f, x1, x2, x3, x4, hn⟩

/-- Without the unwrap right the call fails with OPERATION_NOT_ALLOWED. -/
theorem keyUnwrapOp_refused (env : Env) (hp : env.prims.Good) (u : UnwrapEnv) (hu : u.prims.Good) (st : KeyStore)
    (t : UnwrapTarget) (params : UnwrapParams) (wrapping : Nat) (input : Bytes) (caller : Uuid) (hl : input.length + 16 < 2 ^ 64)
    (hb : params.HasBlock input) (ha : UnwrapAcceptable t params input) (wk : StoredKey)
    (hw : keyStoreUnwrap env st wrapping caller = some (st, .OK, some wk)) (hf : WrappingFits params wk.header)
    (hn : rightsAllowedUnwrap env.rights wk.header.rights = false) :
    keyUnwrapOp env u st t params wrapping input caller = some (st, .OPERATION_NOT_ALLOWED, SLOT_INVALID) := by
  rcases keyUnwrapOp_shape env hp u hu st t params wrapping input caller hl hb with ⟨h, _⟩ | ⟨body, he, hg⟩
  · exact absurd ha h
  · rw [he]
    exact withKey_refused env st wrapping caller body wk hw _ (by simp) none ((hg wk).refused hn hf)

end Sa

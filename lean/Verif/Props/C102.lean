import Verif.Model.Asym
import Verif.Props.C55
import Verif.Props.C101

/-!
# C102: signatures verify with the public key of the signing key

The public key is got with the handle before or after the signature is made with it, with anything else done in between except releasing the handle.
-/

namespace Sa.Asym.C102

open Sa Sa.Agree Sa.Asym Sa.Agree.C101

variable {κ ρ π : Type}

/-- Somebody who has a public key checks signatures of digests (EdDSA: of messages). -/
structure Checker (ρ : Type) where
  rsa : ρ → Scheme → Bytes → Bytes → Bool
  ecdsa : ρ → Bytes → Nat → Nat → Bool
  eddsa : ρ → Bytes → Bytes → Bool

/-- What is assumed of OpenSSL: signatures verify with the public key, public keys are decoded again, digests have their lengths. -/
structure Good (l : Lib κ ρ π) (v : Checker ρ) : Prop where
  rsa : ∀ seed k s d sig, l.rsaSign seed k s d = some sig → v.rsa (l.pubOf k) s d sig = true
  ecdsa : ∀ seed k d r s, l.ecdsaSign seed k d = some (r, s) → v.ecdsa (l.pubOf k) d r s = true
  eddsa : ∀ k m sig, l.eddsaSign k m = some sig → v.eddsa (l.pubOf k) m sig = true
  pub : ∀ k, l.decPub (l.encPub (l.pubOf k)) = some (l.pubOf k)
  hash : ∀ d m n, digestLength d = some n → (l.hash d m).length = n

/-- The digest that is signed: that of the message, or the message itself, if it is one and has its length. -/
def digestOf (l : Lib κ ρ π) (d : Nat) (pre : Bool) (msg : Bytes) : Option Bytes :=
  if pre then if digestLength d = some msg.length then some msg else none else some (l.hash d msg)

/-- A signature as the documentation of the algorithms has it: for ECDSA two numbers, each in half of the bytes, most significant first. -/
def Verifies (l : Lib κ ρ π) (v : Checker ρ) (pub : ρ) (params : SignParams) (msg sig : Bytes) : Prop :=
  match params with
  | .ecdsa (some (d, pre)) => ∃ x, digestOf l d pre msg = some x ∧ sig.length % 2 = 0 ∧
      v.ecdsa pub x (number (sig.take (sig.length / 2))) (number (sig.drop (sig.length / 2))) = true
  | .eddsa => v.eddsa pub msg sig = true
  | .pss (some (d, mgf1, salt, pre)) => ∃ x, digestOf l d pre msg = some x ∧ v.rsa pub (.pss d mgf1 salt.toNat) x sig = true
  | .pkcs1 (some (d, pre)) => ∃ x, digestOf l d pre msg = some x ∧ v.rsa pub (.pkcs1 d) x sig = true
  | _ => False

theorem number_beVal (b : Bytes) : number b = C55.beVal b := rfl

/-! ## What OpenSSL signs -/

theorem pkeySign_eq {l : Lib κ ρ π} {seed : Nat} {k : κ} {c : Ctx} {x sig : Bytes} (h : pkeySign l seed k c x = some sig) :
    ∃ md, c.md = some md ∧ digestLength md = some x.length ∧
      ((c.padding = .pkcs1 ∧ l.rsaSign seed k (.pkcs1 md) x = some sig) ∨
       (c.padding = .pss ∧ l.rsaSign seed k (.pss md (c.mgf1.getD md) (saltOf c.salt x.length (l.bits k / 8))) x = some sig)) := by
  unfold pkeySign at h
  split at h
  · cases h
  · rename_i md hm
    split at h
    · cases h
    · rename_i hd
      refine ⟨md, hm, Classical.not_not.1 hd, ?_⟩
      split at h
      · exact Or.inl ⟨by assumption, h⟩
      · exact Or.inr ⟨by assumption, h⟩
      · cases h

theorem pkcs1_signs {l : Lib κ ρ π} {seed : Nat} {ok : Bool} {key : Bytes} {d : Nat} {pre : Bool} {msg sig : Bytes} (h : signPkcs1 l seed ok key d pre msg = some sig) :
    ∃ k x, l.priv RSA_ID key = some k ∧ digestOf l d pre msg = some x ∧ l.rsaSign seed k (.pkcs1 d) x = some sig := by
  unfold signPkcs1 at h
  obtain ⟨k, hk, h⟩ := Option.bind_eq_some_iff.1 h
  split at h
  · cases h
  · cases pre with
    | true =>
      simp only [if_true, setPadding, setMd, Option.bind_some] at h
      obtain ⟨md, h1, h2, h3⟩ := pkeySign_eq h
      injection h1 with h1
      subst h1
      rcases h3 with ⟨_, h3⟩ | ⟨h3, _⟩
      · exact ⟨k, msg, hk, by rw [digestOf, if_pos rfl, if_pos h2], h3⟩
      · cases h3
    | false =>
      simp only [Bool.false_eq_true, if_false, setPadding, digestSignInit, Option.bind_some] at h
      obtain ⟨md, h1, h2, h3⟩ := pkeySign_eq h
      simp at h1
      subst h1
      rcases h3 with ⟨_, h3⟩ | ⟨h3, _⟩
      · exact ⟨k, _, hk, rfl, h3⟩
      · cases h3

theorem salt_int {n : Nat} (h : n < 2 ^ 31) : intOfSize (UInt64.ofNat n) = (n : Int) := by
  have e : (UInt64.ofNat n).toNat = n := by
    rw [UInt64.toNat_ofNat']
    omega
  unfold intOfSize
  simp only [e]
  rw [Nat.mod_eq_of_lt (by omega), if_pos h]

theorem pss_signs {l : Lib κ ρ π} {seed : Nat} {ok : Bool} {key : Bytes} {d g n : Nat} {pre : Bool} {msg sig : Bytes} (hn : n < 2 ^ 31)
    (h : signPss l seed ok key d g n pre msg = some sig) :
    ∃ k x, l.priv RSA_ID key = some k ∧ digestOf l d pre msg = some x ∧ l.rsaSign seed k (.pss d g n) x = some sig := by
  unfold signPss at h
  obtain ⟨k, hk, h⟩ := Option.bind_eq_some_iff.1 h
  have hs : ∀ a b, saltOf (n : Int) a b = n := fun a b => by
    unfold saltOf
    rw [if_pos (by omega), Int.toNat_natCast]
  split at h
  · cases h
  · rw [salt_int hn] at h
    have hg : 3 < g ∨ g ≤ 3 := by omega
    rcases hg with hg | hg
    · cases pre <;> simp [setPadding, setMgf1, hg] at h
    cases pre with
    | true =>
      simp only [if_true, setPadding, Option.bind_some, setMgf1] at h
      rw [if_neg (by rintro (h | h); exact absurd h (by decide); omega)] at h
      simp only [Option.bind_some, setSalt] at h
      rw [if_pos (by simp)] at h
      simp only [Option.bind_some, setMd] at h
      obtain ⟨md, h1, h2, h3⟩ := pkeySign_eq h
      injection h1 with h1
      subst h1
      rcases h3 with ⟨h3, _⟩ | ⟨_, h3⟩
      · cases h3
      · simp only [hs] at h3
        exact ⟨k, msg, hk, by rw [digestOf, if_pos rfl, if_pos h2], h3⟩
    | false =>
      simp only [Bool.false_eq_true, if_false, setPadding, Option.bind_some, setMgf1, digestSignInit] at h
      rw [if_neg (by rintro (h | h); exact absurd h (by decide); omega)] at h
      simp only [Option.bind_some, setSalt] at h
      rw [if_pos (by simp)] at h
      simp only [Option.bind_some] at h
      obtain ⟨md, h1, h2, h3⟩ := pkeySign_eq h
      simp at h1
      subst h1
      rcases h3 with ⟨h3, _⟩ | ⟨_, h3⟩
      · cases h3
      · simp only [hs] at h3
        exact ⟨k, _, hk, rfl, h3⟩

theorem ecdsa_signs {l : Lib κ ρ π} {seed : Nat} {ok : Bool} {curve : Nat} {key : Bytes} {d : Nat} {pre : Bool} {msg : Bytes} {rs : Nat × Nat}
    (h : signEcdsa l seed ok curve key d pre msg = some rs) :
    ∃ k x, l.priv (ecId curve) key = some k ∧ digestOf l d pre msg = some x ∧ l.ecdsaSign seed k x = some rs := by
  unfold signEcdsa at h
  obtain ⟨k, hk, h⟩ := Option.bind_eq_some_iff.1 h
  split at h
  · cases h
  · cases pre with
    | true =>
      simp only [if_true] at h
      split at h
      · cases h
      · rename_i hd
        exact ⟨k, msg, hk, by rw [digestOf, if_pos rfl, if_pos (Classical.not_not.1 hd)], h⟩
    | false => exact ⟨k, _, hk, rfl, h⟩

theorem eddsa_signs {l : Lib κ ρ π} {ok : Bool} {curve : Nat} {key msg sig : Bytes} (h : signEddsa l ok curve key msg = some sig) :
    ∃ k, l.priv (ecId curve) key = some k ∧ l.eddsaSign k msg = some sig := by
  unfold signEddsa at h
  obtain ⟨k, hk, h⟩ := Option.bind_eq_some_iff.1 h
  split at h
  · cases h
  · exact ⟨k, hk, h⟩

/-- The kinds of keys that the algorithms are for. -/
def FitsAlg (params : SignParams) (h : Header) : Prop :=
  match params with
  | .ecdsa _ => h.type.toNat = KEY_TYPE_EC
  | .eddsa => h.type.toNat = KEY_TYPE_EC
  | _ => h.type.toNat = KEY_TYPE_RSA

/-- The salts that may be asked for are short. -/
def ShortSalt : SignParams → Prop
  | .pss (some (_, _, salt, _)) => salt.toNat < 2 ^ 31
  | _ => True

theorem salt_short {size : UInt16} {d : Nat} {salt : UInt64} (hs : size.toNat = 128 ∨ size.toNat = 256 ∨ size.toNat = 384 ∨ size.toNat = 512) (hd : d ≤ 64)
    (h : ¬salt > size.toUInt64 - UInt64.ofNat d - 2) : salt.toNat ≤ size.toNat - d - 2 := by
  have e1 : (size.toUInt64).toNat = size.toNat := rfl
  have e2 : (UInt64.ofNat d).toNat = d := by rw [UInt64.toNat_ofNat']; omega
  have e3 : (size.toUInt64 - UInt64.ofNat d).toNat = size.toNat - d := by
    rw [UInt64.toNat_sub_of_le _ _ (by rw [UInt64.le_iff_toNat_le]; omega)]
    omega
  have e4 : (size.toUInt64 - UInt64.ofNat d - 2).toNat = size.toNat - d - 2 := by
    rw [UInt64.toNat_sub_of_le _ _ (by rw [UInt64.le_iff_toNat_le, e3]; show 2 ≤ _; omega), e3]
    rfl
  have := UInt64.not_lt.1 h
  rw [UInt64.le_iff_toNat_le, e4] at this
  exact this

theorem digestLength_le {d n : Nat} (h : digestLength d = some n) : n ≤ 64 ∧ d ≤ 3 := by
  unfold digestLength at h
  split at h <;> first | (cases h; done) | (injection h with h; omega)

theorem supportsRsa {t s : Nat} (h : keyTypeSupportsRsa t s = true) : t = KEY_TYPE_RSA ∧ (s = 128 ∨ s = 256 ∨ s = 384 ∨ s = 512) := by
  unfold keyTypeSupportsRsa validRsaSize at h
  simp only [Bool.and_eq_true, beq_iff_eq, Bool.or_eq_true] at h
  exact ⟨h.1, by omega⟩

/-- What is written to the buffer by a call that succeeds. -/
theorem signed_by {p : SignPrims} {env : RightsEnv} {params : SignParams} {sk : StoredKey} {msg : Buf} {n : Nat} {sig : Bytes}
    (hok : (cryptoSign p env params (.OK, some sk) msg true n).status = .OK) (hs : (cryptoSign p env params (.OK, some sk) msg true n).out = some sig) :
    rightsAllowedSign env sk.header.rights = true ∧ C55.SignedBy p params sk (msg.get.getD []) sig ∧ FitsAlg params sk.header ∧ ShortSalt params := by
  unfold cryptoSign at hok hs
  simp only at hok hs
  split at hok
  · cases hok
  · rw [if_neg (by assumption)] at hs
    split at hok
    · cases hok
    · rw [if_neg (by assumption)] at hs
      simp only [ne_eq, not_true_eq_false, if_false] at hok hs
      split at hok
      · cases hok
      · rename_i hr
        rw [if_neg (by assumption)] at hs
        refine ⟨by simpa using hr, ?_⟩
        cases params with
        | unknown => cases hok
        | ecdsa q =>
          simp only [if_true] at hok hs
          cases q with
          | none => cases hok
          | some q =>
            obtain ⟨d, pre⟩ := q
            have hO := (C55.signEcdsa_ok p (some (d, pre)) sk (msg.get.getD []) true n).sig
            simp only [if_true] at hO
            obtain ⟨s, h1, h2, _⟩ := hO hok trivial (fun _ _ _ _ h => by cases h)
            rw [hs] at h1
            injection h1 with h1
            subst h1
            refine ⟨h2, ?_, trivial⟩
            unfold Sa.signEcdsa at hok
            simp only at hok
            split at hok
            · cases hok
            · split at hok
              · cases hok
              · split at hok
                · cases hok
                · rename_i h
                  exact (C55.supportsEc_type (by simpa using h)).1
        | eddsa =>
          simp only [if_true] at hok hs
          unfold Sa.signEddsa at hok hs
          simp only at hok hs
          split at hok
          · cases hok
          · split at hok
            · cases hok
            · rename_i h1 h2
              split at hok
              · cases hok
              · rename_i h3
                split at hok
                · cases hok
                · rename_i h4
                  split at hok
                  · cases hok
                  · rename_i h5
                    rw [if_neg h1, if_neg h2, if_neg h3, if_neg h4, if_neg h5] at hs
                    split at hok
                    · cases hok
                    · rename_i s he
                      rw [he] at hs
                      injection hs with hs
                      subst hs
                      exact ⟨he, (C55.supportsEc_type (by simpa using h2)).1, trivial⟩
        | pkcs1 q =>
          simp only [if_true] at hok hs
          cases q with
          | none => cases hok
          | some q =>
            obtain ⟨d, pre⟩ := q
            unfold Sa.signPkcs1 at hok hs
            simp only at hok hs
            split at hok
            · cases hok
            · split at hok
              · cases hok
              · rename_i h1 h2
                split at hok
                · cases hok
                · rename_i h3
                  rw [if_neg h1, if_neg h2, if_neg h3] at hs
                  unfold rsaSignPkcs1 at hs hok
                  split at hok
                  · cases hok
                  · rename_i size hz
                    rw [hz] at hs
                    simp only at hs
                    split at hok
                    · cases hok
                    · rename_i h4
                      rw [if_neg h4] at hs
                      split at hok
                      · cases hok
                      · rename_i s he
                        rw [he] at hs
                        injection hs with hs
                        subst hs
                        exact ⟨he, (supportsRsa (by simpa using h2)).1, trivial⟩
        | pss q =>
          simp only [if_true] at hok hs
          cases q with
          | none => cases hok
          | some q =>
            obtain ⟨d, g, salt, pre⟩ := q
            unfold Sa.signPss at hok hs
            simp only at hok hs
            split at hok
            · cases hok
            · split at hok
              · cases hok
              · split at hok
                · cases hok
                · rename_i h0 h1 h2
                  split at hok
                  · cases hok
                  · rename_i h3
                    rw [if_neg h0, if_neg h1, if_neg h2, if_neg h3] at hs
                    split at hok
                    · cases hok
                    · rename_i dl hd
                      rw [hd] at hs
                      simp only at hs
                      split at hok
                      · cases hok
                      · rename_i h4
                        rw [if_neg h4] at hs
                        have h2' := supportsRsa (show keyTypeSupportsRsa _ _ = true by simpa using h2)
                        have := salt_short h2'.2 (digestLength_le hd).1 h4
                        refine ⟨?_, h2'.1, ?_⟩
                        · unfold rsaSignPss at hs
                          split at hs
                          · cases hs
                          · split at hs
                            · cases hs
                            · split at hs
                              · cases hs
                              · rename_i s he
                                injection hs with hs
                                subst hs
                                exact he
                        · show salt.toNat < 2 ^ 31
                          omega

/-- What a key gives is checked with its public key. -/
theorem verifies {l : Lib κ ρ π} {v : Checker ρ} (hl : Good l v) {seed : Nat} {ok : Bool} {params : SignParams} {sk : StoredKey} {msg sig : Bytes}
    (h : C55.SignedBy (l.signing seed ok (curveOf sk.header.typeParameters)) params sk msg sig) (hf : FitsAlg params sk.header) (hs : ShortSalt params) :
    ∃ k, C69.publicOf l.der sk = some (l.encPub (l.pubOf k)) ∧ Verifies l v (l.pubOf k) params msg sig := by
  unfold C55.SignedBy at h
  split at h
  · rename_i d pre
    obtain ⟨r, s, h1, h2, h3, h4⟩ := h
    obtain ⟨k, x, hk, hx, hx'⟩ := ecdsa_signs h1
    refine ⟨k, ?_, x, hx, by omega, ?_⟩
    · unfold C69.publicOf
      rw [show sk.header.type.toNat = 1 from hf]
      simp [Lib.der, KEY_TYPE_RSA, KEY_TYPE_EC, hk]
    · have e : sig.length / 2 = sk.header.size.toNat := by omega
      rw [e, number_beVal, number_beVal, h3, h4]
      exact hl.ecdsa _ _ _ _ _ hx'
  · obtain ⟨k, hk, hx⟩ := eddsa_signs h
    refine ⟨k, ?_, hl.eddsa _ _ _ hx⟩
    unfold C69.publicOf
    rw [show sk.header.type.toNat = 1 from hf]
    simp [Lib.der, KEY_TYPE_RSA, KEY_TYPE_EC, hk]
  · rename_i d g salt pre
    obtain ⟨k, x, hk, hx, hx'⟩ := pss_signs hs h
    refine ⟨k, ?_, x, hx, hl.rsa _ _ _ _ _ hx'⟩
    unfold C69.publicOf
    rw [show sk.header.type.toNat = 2 from hf]
    simp [Lib.der, KEY_TYPE_RSA, hk]
  · rename_i d pre
    obtain ⟨k, x, hk, hx, hx'⟩ := pkcs1_signs h
    refine ⟨k, ?_, x, hx, hl.rsa _ _ _ _ _ hx'⟩
    unfold C69.publicOf
    rw [show sk.header.type.toNat = 2 from hf]
    simp [Lib.der, KEY_TYPE_RSA, hk]
  · cases h

/-! ## The key table -/

/-- The public key that is told is that of the key that is held. -/
theorem public_of {der : Nat → Nat → Bytes → Option Bytes} {env : Env} (hp : env.prims.Good) {st : KeyStore} (hr : KsReachable env.prims st) {buffer : Bytes} {key : Nat} {caller : Uuid}
    {st' : KeyStore} {a : Answer} (he : taKeyGetPublic env der st (some buffer) buffer.length key caller = some (st', a)) (hok : a.status = .OK) :
    st' = st ∧ ∃ k, KeyHeld env.prims st key caller k ∧ C69.publicOf der k = some ((a.out.getD []).take a.outLength) := by
  obtain ⟨a', e, _, h2, _⟩ := C69.C69_public_partial env hp der st hr (some buffer) buffer.length key caller (fun o h => congrArg List.length (Option.some.inj h).symm)
  rw [he] at e
  simp only [Option.some.injEq, Prod.mk.injEq] at e
  obtain ⟨rfl, rfl⟩ := e
  obtain ⟨k', d, hc, hd, _, hlen, _, o', ho, _, ht, _⟩ := h2 hok
  exact ⟨rfl, k', hc.1, by rw [hd, ho, hlen, Option.getD_some, ht]⟩

/-- A key that is used is held. -/
theorem used_held {env : Env} (hp : env.prims.Good) {st : KeyStore} (hr : KsReachable env.prims st) {key : Nat} {caller : Uuid} {st' : KeyStore} {k : StoredKey}
    (h : keyStoreUnwrap env st key caller = some (st', .OK, some k)) : st' = st ∧ KeyHeld env.prims st key caller k := by
  rcases unwrap_holds env hp st (ksReachable_inv _ hp st hr) key caller with ⟨s, _, e⟩ | ⟨k', e, hk, _⟩
  · rw [h] at e
    simp at e
  · rw [h] at e
    simp only [Option.some.injEq, Prod.mk.injEq, true_and] at e
    obtain ⟨rfl, rfl⟩ := e
    exact ⟨rfl, hk⟩

/-- Two uses of a handle that is not released in between are uses of the same key. -/
theorem same_key {p : Prims} (hp : p.Good) {a b : KeyStore} (ha : KsReachable p a) (hb : KsReachable p b) {key : Nat} (hm : Meanwhile p a b key ∨ Meanwhile p b a key)
    {caller : Uuid} {k k' : StoredKey} (hk : KeyHeld p a key caller k) {env : Env} (he : env.prims = p) (hu : keyStoreUnwrap env b key caller = some (b, .OK, some k')) : k' = k := by
  subst he
  rcases hm with hm | hm
  · exact KeyHeld.unique _ b key caller k k' env rfl (meanwhile hp ha hm hk).2 hu
  · have hk' := (used_held hp hb hu).2
    have ha' := (meanwhile hp hb hm hk').2
    refine KeyHeld.unique _ a key caller k k' env rfl hk ?_
    have h1 := hk'.2 env rfl
    rw [hu] at h1
    rw [ha'.2 env rfl]
    simp only [Option.some.injEq, Prod.mk.injEq, true_and] at h1
    rw [← h1]

/-- What a call of `taSign` that succeeds has done. -/
theorem sign_uses {l : Lib κ ρ π} {seed : Nat} {ok : Bool} {env : Env} (hp : env.prims.Good) {st : KeyStore} (hr : KsReachable env.prims st) {params : SignParams} {key : Nat}
    {msg : Buf} {out : Bool} {n : Nat} {caller : Uuid} {st' : KeyStore} {r : SignResp} (h : taSign l seed ok env st params key msg out n caller = some (st', r)) (hok : r.status = .OK) :
    st' = st ∧ ∃ sk, keyStoreUnwrap env st key caller = some (st, .OK, some sk) ∧
      r = cryptoSign (l.signing seed ok (curveOf sk.header.typeParameters)) env.rights params (.OK, some sk) msg out n := by
  unfold taSign at h
  rcases unwrap_holds env hp st (ksReachable_inv _ hp st hr) key caller with ⟨s, hs, e⟩ | ⟨k, e, _⟩
  · rw [e] at h
    simp only [Option.some.injEq, Prod.mk.injEq] at h
    obtain ⟨_, rfl⟩ := h
    unfold cryptoSign at hok
    simp only at hok
    split at hok
    · cases hok
    · split at hok
      · cases hok
      · exact absurd hok hs
  · rw [e] at h
    simp only [Option.some.injEq, Prod.mk.injEq] at h
    obtain ⟨rfl, rfl⟩ := h
    exact ⟨rfl, k, e, rfl⟩

/-- **C102** (partial: of what is written to the buffer; see `C102_violated_pss`).  For every history of the key table, every handle and caller: the public key that is told for a handle and
a signature that is made with it, before or after, whatever is done in between except releasing it, belong together.  Everybody who has the public key finds that the signature is one of
the message with the algorithm, digest, MGF1 digest and length of the salt that were asked for; if the caller said that it gave a digest, of everything that has this digest. -/
theorem C102_verifies_partial (l : Lib κ ρ π) (v : Checker ρ) (hl : Good l v) (p : Prims) (hp : p.Good) (one two : Env) (h1 : one.prims = p) (h2 : two.prims = p)
    (a b : KeyStore) (ha : KsReachable p a) (hb : KsReachable p b) (key : Nat) (hm : Meanwhile p a b key ∨ Meanwhile p b a key) (caller : Uuid)
    (buffer : Bytes) (a' : KeyStore) (answer : Answer) (hpub : taKeyGetPublic one l.der a (some buffer) buffer.length key caller = some (a', answer)) (hfine : answer.status = .OK)
    (seed : Nat) (ok : Bool) (params : SignParams) (msg : Buf) (n : Nat) (b' : KeyStore) (r : SignResp)
    (hsig : taSign l seed ok two b params key msg true n caller = some (b', r)) (hok : r.status = .OK) (sig : Bytes) (hs : r.out = some sig) :
    ∃ pub, l.decPub ((answer.out.getD []).take answer.outLength) = some pub ∧ Verifies l v pub params (msg.get.getD []) sig := by
  subst h1
  obtain ⟨_, k, hk, hpk⟩ := public_of hp ha hpub hfine
  obtain ⟨_, sk, hu, rfl⟩ := sign_uses (by rw [h2]; exact hp) (by rw [h2]; exact hb) hsig hok
  have := same_key hp ha hb hm hk h2 hu
  subst this
  obtain ⟨_, h3, h4, h5⟩ := signed_by hok hs
  obtain ⟨k', e1, e2⟩ := verifies hl h3 h4 h5
  rw [hpk] at e1
  injection e1 with e1
  exact ⟨l.pubOf k', by rw [e1, hl.pub], e2⟩

/-! ## Signing works -/

/-- The key of size `size` is one for the algorithm, the parameters are among the documented ones, the buffer is long enough, and OpenSSL signs. -/
def Can (l : Lib κ ρ π) (seed : Nat) (sk : StoredKey) (n : Nat) (params : SignParams) (msg : Bytes) : Prop :=
  let size := sk.header.size.toNat
  let curve := curveOf sk.header.typeParameters
  match params with
  | .ecdsa (some (d, pre)) => d ≤ 3 ∧ isPCurve curve = true ∧ keyTypeSupportsEc sk.header.type.toNat curve size = true ∧ 2 * size ≤ n ∧
      ∃ k x r s, l.priv (ecId curve) sk.key = some k ∧ digestOf l d pre msg = some x ∧ l.ecdsaSign seed k x = some (r, s) ∧ r < 256 ^ size ∧ s < 256 ^ size
  | .eddsa => (curve = CURVE_ED25519 ∨ curve = CURVE_ED448) ∧ keyTypeSupportsEc sk.header.type.toNat curve size = true ∧ 2 * size ≤ n ∧
      ∃ k sig, l.priv (ecId curve) sk.key = some k ∧ l.eddsaSign k msg = some sig
  | .pss (some (d, mgf1, salt, pre)) => d ≤ 3 ∧ mgf1 ≤ 3 ∧ keyTypeSupportsRsa sk.header.type.toNat size = true ∧ size ≤ n ∧
      ∃ k x sig, l.priv RSA_ID sk.key = some k ∧ l.bits k = 8 * size ∧ digestOf l d pre msg = some x ∧ salt.toNat + x.length + 2 ≤ size ∧
        l.rsaSign seed k (.pss d mgf1 salt.toNat) x = some sig
  | .pkcs1 (some (d, pre)) => d ≤ 3 ∧ keyTypeSupportsRsa sk.header.type.toNat size = true ∧ size ≤ n ∧
      ∃ k x sig, l.priv RSA_ID sk.key = some k ∧ l.bits k = 8 * size ∧ digestOf l d pre msg = some x ∧ l.rsaSign seed k (.pkcs1 d) x = some sig
  | _ => False

theorem digest_length {l : Lib κ ρ π} {v : Checker ρ} (hl : Good l v) {d : Nat} (hd : d ≤ 3) {pre : Bool} {msg x : Bytes} (h : digestOf l d pre msg = some x) :
    digestLength d = some x.length ∧ x = if pre then msg else l.hash d msg := by
  obtain ⟨n, hn⟩ : ∃ n, digestLength d = some n := by
    have : d = 0 ∨ d = 1 ∨ d = 2 ∨ d = 3 := by omega
    rcases this with rfl | rfl | rfl | rfl <;> exact ⟨_, rfl⟩
  unfold digestOf at h
  cases pre with
  | true =>
    simp only [if_true] at h
    split at h
    · injection h with h
      subst h
      exact ⟨by assumption, rfl⟩
    · cases h
  | false =>
    injection h with h
    subst h
    exact ⟨by rw [hl.hash d msg n hn, hn], rfl⟩

theorem sign_ecdsa {l : Lib κ ρ π} {seed : Nat} {curve : Nat} {key : Bytes} {d : Nat} {pre : Bool} {msg x : Bytes} {k : κ} (hk : l.priv (ecId curve) key = some k)
    (hx : digestOf l d pre msg = some x) : signEcdsa l seed true curve key d pre msg = l.ecdsaSign seed k x := by
  unfold signEcdsa
  rw [hk]
  unfold digestOf at hx
  cases pre with
  | true =>
    simp only [if_true] at hx
    split at hx
    · rename_i h
      injection hx with hx
      subst hx
      simp [h]
    · cases hx
  | false =>
    injection hx with hx
    subst hx
    rfl

theorem sign_pkcs1 {l : Lib κ ρ π} {v : Checker ρ} (hl : Good l v) {seed : Nat} {key : Bytes} {d : Nat} (hd : d ≤ 3) {pre : Bool} {msg x : Bytes} {k : κ}
    (hk : l.priv RSA_ID key = some k) (hx : digestOf l d pre msg = some x) : signPkcs1 l seed true key d pre msg = l.rsaSign seed k (.pkcs1 d) x := by
  obtain ⟨h1, h2⟩ := digest_length hl hd hx
  unfold signPkcs1
  rw [hk]
  cases pre with
  | true =>
    simp only [if_true] at h2
    subst h2
    simp [setPadding, setMd, pkeySign, h1]
  | false =>
    simp only [Bool.false_eq_true, if_false] at h2
    subst h2
    simp [setPadding, digestSignInit, pkeySign, h1]

theorem sign_pss {l : Lib κ ρ π} {v : Checker ρ} (hl : Good l v) {seed : Nat} {key : Bytes} {d g n : Nat} (hd : d ≤ 3) (hg : g ≤ 3) (hn : n < 2 ^ 31) {pre : Bool} {msg x : Bytes} {k : κ}
    (hk : l.priv RSA_ID key = some k) (hx : digestOf l d pre msg = some x) : signPss l seed true key d g n pre msg = l.rsaSign seed k (.pss d g n) x := by
  obtain ⟨h1, h2⟩ := digest_length hl hd hx
  have hs : ∀ a b, saltOf (n : Int) a b = n := fun a b => by
    unfold saltOf
    rw [if_pos (by omega), Int.toNat_natCast]
  have hm : ¬3 < g := by omega
  have hi : (-3 : Int) ≤ n := by omega
  unfold signPss
  rw [hk, salt_int hn]
  cases pre with
  | true =>
    simp only [if_true] at h2
    subst h2
    simp [setPadding, setMd, setMgf1, setSalt, pkeySign, h1, hm, hi, hs]
  | false =>
    simp only [Bool.false_eq_true, if_false] at h2
    subst h2
    simp [setPadding, setMgf1, setSalt, digestSignInit, pkeySign, h1, hm, hi, hs]

/-- **C102** (signing works).  For every state of the key table: a caller that holds a key which it may use and whose right to sign is given gets a signature, if the key is one for the
algorithm, the parameters are among the documented ones (a digest that is given has its length, the salt leaves room for the digest), the buffer is as long as documented, and OpenSSL signs. -/
theorem C102_signs (l : Lib κ ρ π) (v : Checker ρ) (hl : Good l v) (env : Env) (st : KeyStore) (key : Nat) (caller : Uuid)
    (sk : StoredKey) (hu : keyStoreUnwrap env st key caller = some (st, .OK, some sk)) (hs : rightsAllowedSign env.rights sk.header.rights = true)
    (seed : Nat) (params : SignParams) (msg : Buf) (hm : msg.isBad = false) (n : Nat) (hc : Can l seed sk n params (msg.get.getD [])) :
    ∃ sig, taSign l seed true env st params key msg true n caller = some (st, ⟨.OK, sig.length, some sig⟩) := by
  unfold taSign
  rw [hu]
  simp only [Option.some.injEq, Prod.mk.injEq, true_and]
  unfold cryptoSign
  unfold Can at hc
  simp only at hc
  split at hc
  · rename_i d pre
    obtain ⟨h1, h2, h3, h4, k, x, r, s, h5, h6, h7, h8, h9⟩ := hc
    have e := sign_ecdsa (seed := seed) h5 h6
    have hlen : (beBytes sk.header.size.toNat r ++ beBytes sk.header.size.toNat s).length = sk.header.size.toNat * 2 := by
      rw [List.length_append, C55.beBytes_length, C55.beBytes_length]; omega
    refine ⟨beBytes sk.header.size.toNat r ++ beBytes sk.header.size.toNat s, ?_⟩
    rw [hlen]
    have h1' : ¬3 < d := by omega
    have h4' : ¬n < sk.header.size.toNat * 2 := by omega
    have h8' : ¬256 ^ sk.header.size.toNat ≤ r := by omega
    have h9' : ¬256 ^ sk.header.size.toNat ≤ s := by omega
    simp [hm, hs, Sa.signEcdsa, h1', h2, h3, h4', ecSignEcdsa, Lib.signing, e, h7, bnExport, h8', h9']
  · obtain ⟨h1, h2, h3, k, sig, h4, h5⟩ := hc
    refine ⟨sig, ?_⟩
    have e : signEddsa l true (curveOf sk.header.typeParameters) sk.key (msg.get.getD []) = some sig := by
      unfold signEddsa
      rw [h4]
      exact h5
    obtain ⟨_, hz⟩ := C55.supportsEc_type h2
    have h0 : ¬ecKeySizeFromCurve (curveOf sk.header.typeParameters) * 2 = 0 := by
      rcases h1 with h1 | h1 <;> rw [h1] <;> decide
    have h3' : ¬n < sk.header.size.toNat * 2 := by omega
    have hc' : ¬(curveOf sk.header.typeParameters ≠ CURVE_ED25519 ∧ curveOf sk.header.typeParameters ≠ CURVE_ED448) := by
      rintro ⟨a, b⟩
      rcases h1 with h1 | h1
      · exact a h1
      · exact b h1
    unfold Sa.signEddsa
    simp only [hm, hs, Bool.false_eq_true, if_false, Bool.not_true, ne_eq, not_true_eq_false, if_true, h2]
    rw [if_neg (by decide), if_neg hc', if_neg h0, ← hz, if_neg h3', if_neg h3']
    simp only [Lib.signing, e]
  · rename_i d g salt pre
    obtain ⟨h1, h2, h3, h4, k, x, sig, h5, h6, h7, h8, h9⟩ := hc
    refine ⟨sig, ?_⟩
    have e := sign_pss (seed := seed) hl h1 h2 (n := salt.toNat) (by have := (supportsRsa h3).2; omega) h5 h7
    obtain ⟨hd, _⟩ := digest_length hl h1 h7
    have h1' : ¬3 < d := by omega
    have h2' : ¬3 < g := by omega
    have h4' : ¬n < sk.header.size.toNat := by omega
    have h6' : l.bits k / 8 = sk.header.size.toNat := by omega
    have hsalt : ¬salt > sk.header.size.toUInt64 - UInt64.ofNat x.length - 2 := by
      have hb := (supportsRsa h3).2
      have e1 : (sk.header.size.toUInt64).toNat = sk.header.size.toNat := rfl
      have e2 : (UInt64.ofNat x.length).toNat = x.length := by rw [UInt64.toNat_ofNat']; omega
      have e3 : (sk.header.size.toUInt64 - UInt64.ofNat x.length).toNat = sk.header.size.toNat - x.length := by
        rw [UInt64.toNat_sub_of_le _ _ (by rw [UInt64.le_iff_toNat_le]; omega)]
        omega
      have e4 : (sk.header.size.toUInt64 - UInt64.ofNat x.length - 2).toNat = sk.header.size.toNat - x.length - 2 := by
        rw [UInt64.toNat_sub_of_le _ _ (by rw [UInt64.le_iff_toNat_le, e3]; show 2 ≤ _; omega), e3]
        rfl
      intro hgt
      have := UInt64.lt_iff_toNat_lt.1 hgt
      rw [e4] at this
      omega
    unfold Sa.signPss
    simp only [hm, hs, Bool.false_eq_true, if_false, Bool.not_true, ne_eq, not_true_eq_false, if_true, h3, hd]
    rw [if_neg (by simp), if_neg h1', if_neg h2', if_neg h4', if_neg hsalt]
    simp [rsaSignPss, Lib.signing, h5, h6', h4', e, h9]
  · rename_i d pre
    obtain ⟨h1, h2, h3, k, x, sig, h5, h6, h7, h9⟩ := hc
    refine ⟨sig, ?_⟩
    have e := sign_pkcs1 (seed := seed) hl h1 h5 h7
    have h1' : ¬3 < d := by omega
    have h4' : ¬n < sk.header.size.toNat := by omega
    have h6' : l.bits k / 8 = sk.header.size.toNat := by omega
    unfold Sa.signPkcs1
    simp only [hm, hs, Bool.false_eq_true, if_false, Bool.not_true, ne_eq, not_true_eq_false, if_true, h2]
    rw [if_neg (by simp), if_neg h1', if_neg h4']
    simp [rsaSignPkcs1, Lib.signing, h5, h6', h4', e, h9]
  · cases hc

/-- **C102 is violated**: for every key that may sign with RSA-PSS, a digest that has not its length gives OK and the length of the buffer, but no signature: the buffer is as before. -/
theorem C102_violated_pss (l : Lib κ ρ π) (env : Env) (st : KeyStore) (key : Nat) (caller : Uuid) (sk : StoredKey)
    (hu : keyStoreUnwrap env st key caller = some (st, .OK, some sk)) (hs : rightsAllowedSign env.rights sk.header.rights = true)
    (ht : keyTypeSupportsRsa sk.header.type.toNat sk.header.size.toNat = true) (seed d mgf1 : Nat) (hd : d ≤ 3) (hg : mgf1 ≤ 3) (msg : Bytes) (hm : digestLength d ≠ some msg.length)
    (n : Nat) (hn : sk.header.size.toNat ≤ n) :
    taSign l seed true env st (.pss (some (d, mgf1, 0, true))) key (.bytes msg) true n caller = some (st, ⟨.OK, n, none⟩) := by
  have e : signPss l seed true sk.key d mgf1 (0 : UInt64).toNat true msg = none := by
    cases h : signPss l seed true sk.key d mgf1 (0 : UInt64).toNat true msg with
    | none => rfl
    | some sig =>
      obtain ⟨k, x, _, hx, _⟩ := pss_signs (by decide) h
      rw [digestOf, if_pos rfl, if_neg hm] at hx
      cases hx
  have h1' : ¬3 < d := by omega
  have h2' : ¬3 < mgf1 := by omega
  have h4' : ¬n < sk.header.size.toNat := by omega
  obtain ⟨dl, hdl⟩ : ∃ n, digestLength d = some n := by
    have : d = 0 ∨ d = 1 ∨ d = 2 ∨ d = 3 := by omega
    rcases this with rfl | rfl | rfl | rfl <;> exact ⟨_, rfl⟩
  have hsalt : ∀ a : UInt64, ¬(0 : UInt64) > a := fun a h => by
    have := UInt64.lt_iff_toNat_lt.1 h
    exact absurd this (by show ¬_ < 0; omega)
  unfold taSign cryptoSign
  rw [hu]
  unfold Sa.signPss
  simp only [Buf.isBad, Buf.get, Option.getD_some, hs, Bool.false_eq_true, if_false, Bool.not_true, ne_eq, not_true_eq_false, if_true, ht, hdl]
  rw [if_neg (by simp), if_neg h1', if_neg h2', if_neg h4', if_neg (hsalt _)]
  unfold rsaSignPss
  simp only [Lib.signing, e]
  cases l.priv RSA_ID sk.key with
  | none => rfl
  | some k =>
    simp only [Option.map_some]
    split <;> rfl

/-! ## A concrete case -/

def sum (b : Bytes) : UInt8 := b.foldl (· + ·) 0

def tag : Scheme → UInt8
  | .pkcs1 d => UInt8.ofNat d
  | .pss d g n => UInt8.ofNat (16 + 4 * d + g + 32 * n)

/-- Keys are bytes; the public key is the next one. -/
def toy : Lib UInt8 UInt8 UInt8 where
  priv _ b := b.head?
  encPub p := [1, p]
  decPub b := b[1]?
  pubOf k := k + 1
  bits _ := 1024
  hash d m := List.replicate ((digestLength d).getD 0) (sum m)
  rsaSign seed k s d := some (List.replicate 127 (k + 1 + sum d + tag s) ++ [UInt8.ofNat seed])
  ecdsaSign seed k d := some (seed % 256, (k + 1 + sum d).toNat)
  eddsaSign k m := some (List.replicate 64 (k + 1 + sum m))
  rsaDecrypt k _ c := some (c.map (· - (k + 1)))
  number k := some k.toNat
  point _ b := b.head?
  coordinates _ q := some (List.replicate 32 q)
  add _ a b := a + b
  neg _ a := 0 - a
  mul _ x a := UInt8.ofNat x * a

def toyChecker : Checker UInt8 where
  rsa p s d sig := sig.take 127 == List.replicate 127 (p + sum d + tag s)
  ecdsa p d _ s := s == (p + sum d).toNat
  eddsa p m sig := sig == List.replicate 64 (p + sum m)

theorem toy_good : Good toy toyChecker where
  rsa seed k s d sig h := by
    injection h with h
    subst h
    simp only [toyChecker, toy, beq_iff_eq]
    exact List.take_left' (List.length_replicate ..)
  ecdsa seed k d r s h := by
    injection h with h
    injection h with h1 h2
    subst h2
    simp [toyChecker, toy]
  eddsa k m sig h := by
    injection h with h
    subst h
    simp [toyChecker, toy]
  pub k := rfl
  hash d m n h := by simp [toy, h]

/-- A key in the table of the device of C08. -/
theorem stored {kt size : Nat} {tp : Vector UInt8 1040} {key : Bytes} (hl : key.length + 16 < 2 ^ 64)
    (h : ((objectStoreInit WrappedKey 32).bind fun st => match storedKeyCreate true rightsAllowAll none kt tp size key with
      | (.OK, some d) => some (keyStoreImportStoredKey C08.env0 st d C08.u7)
      | _ => none).map (fun r => (r.2, decide (30 < r.1.slotCount) && (r.1.obj 30).object.isNone)) = some ((.OK, 31), true)) :
    ∃ st d, KsReachable C08.toy st ∧ KeyHeld C08.toy st 31 C08.u7 d ∧ keyStoreUnwrap C08.env0 st 31 C08.u7 = some (st, .OK, some d) ∧ d.header.rights = rightsAllowAll ∧
      d.header.type = UInt8.ofNat kt ∧ d.header.typeParameters = tp ∧ d.header.size = UInt16.ofNat size ∧ d.key = key ∧
      (storedKeyCreate true rightsAllowAll none kt tp size key).2 = some d ∧ ∃ h, h < st.slotCount ∧ (st.obj h).object = none := by
  cases h0 : objectStoreInit WrappedKey 32 with
  | none => rw [h0] at h; cases h
  | some st =>
    rw [h0, Option.bind_some] at h
    split at h
    · rename_i d hd
      obtain ⟨st', s, hh, e, hr, hc⟩ := import_cases C08.env0 C08.toy_good st ⟨32, st, [], by decide, h0, by simp, rfl⟩ rightsAllowAll none kt tp size key d C08.u7 hl hd
      rw [e] at h
      simp only [Option.map_some, Option.some.injEq, Prod.mk.injEq, Bool.and_eq_true, decide_eq_true_eq, Option.isNone_iff_eq_none] at h
      obtain ⟨⟨rfl, rfl⟩, hfree⟩ := h
      rcases hc with ⟨a, _⟩ | ⟨_, hn⟩
      · exact absurd rfl a
      · have hx : storedKeyCreate true rightsAllowAll none kt tp size key = (.OK, some d) := hd
        have hri : d.header.rights = rightsAllowAll ∧ d.header.type = UInt8.ofNat kt ∧ d.header.typeParameters = tp ∧ d.header.size = UInt16.ofNat size ∧ d.key = key := by
          unfold storedKeyCreate at hx
          split at hx
          · cases hx
          · split at hx
            · cases hx
            · split at hx
              · cases hx
              · simp only [Prod.mk.injEq, Option.some.injEq, true_and] at hx
                rw [← hx]
                exact ⟨rights_all.1, rfl, rfl, rfl, rfl⟩
        refine ⟨st', d, hr, hn.holds, ?_, hri.1, hri.2.1, hri.2.2.1, hri.2.2.2.1, hri.2.2.2.2, by rw [hx], 30, hfree⟩
        have hu := hn.holds.2 C08.env0 rfl
        rw [usable hri.1] at hu
        exact hu
    · cases h

/-- The public key of a key in the table is told. -/
theorem tells {st : KeyStore} {d : StoredKey} (hr : KsReachable C08.toy st) (hk : KeyHeld C08.toy st 31 C08.u7 d) (hri : d.header.rights = rightsAllowAll) {mine : Bytes}
    (hm : C69.publicOf toy.der d = some mine) (hn : mine ≠ []) {buffer : Bytes} (hb : mine.length ≤ buffer.length) :
    ∃ a, taKeyGetPublic C08.env0 toy.der st (some buffer) buffer.length 31 C08.u7 = some (st, a) ∧ a.status = .OK := by
  obtain ⟨a, e, h1, _⟩ := C69.C69_public_partial C08.env0 C08.toy_good toy.der st hr (some buffer) buffer.length 31 C08.u7 (fun o h => congrArg List.length (Option.some.inj h).symm)
  exact ⟨a, e, h1.2 ⟨d, mine, ⟨hk, usable hri⟩, hm, hn, fun _ => hb⟩⟩

/-- An RSA key: a signature with PSS, SHA-256, MGF1 with SHA-1 and 20 bytes of salt verifies with the public key; a digest of 5 bytes is not refused. -/
example : ∃ st a sig pub, taKeyGetPublic C08.env0 toy.der st (some [0, 0]) 2 31 C08.u7 = some (st, a) ∧ a.status = .OK ∧
    taSign toy 9 true C08.env0 st (.pss (some (1, 0, 20, false))) 31 (.bytes [1, 2, 3]) true 128 C08.u7 = some (st, ⟨.OK, sig.length, some sig⟩) ∧
    toy.decPub ((a.out.getD []).take a.outLength) = some pub ∧ Verifies toy toyChecker pub (.pss (some (1, 0, 20, false))) [1, 2, 3] sig ∧
    taSign toy 9 true C08.env0 st (.pss (some (1, 0, 0, true))) 31 (.bytes [1, 2, 3, 4, 5]) true 128 C08.u7 = some (st, ⟨.OK, 128, none⟩) := by
  obtain ⟨st, d, hr, hk, hu, h1, h2, _, h4, h5, _⟩ := stored (kt := KEY_TYPE_RSA) (tp := Vector.replicate 1040 0) (size := 128) (key := [7]) (by decide) (by decide +kernel)
  have hri : rightsAllowedSign C08.env0.rights d.header.rights = true := by rw [h1]; decide +kernel
  have hty : keyTypeSupportsRsa d.header.type.toNat d.header.size.toNat = true := by rw [h2, h4]; decide
  have hsz : d.header.size.toNat = 128 := by rw [h4]; rfl
  have hpub : C69.publicOf toy.der d = some [1, 8] := by
    unfold C69.publicOf
    rw [h2, h5]
    rfl
  obtain ⟨a, ha, hok⟩ := tells hr hk h1 hpub (by simp) (buffer := [0, 0]) (by simp)
  obtain ⟨sig, hsig⟩ := C102_signs toy toyChecker toy_good C08.env0 st 31 C08.u7 d hu hri 9 (.pss (some (1, 0, 20, false))) (.bytes [1, 2, 3]) rfl 128
    ⟨by decide, by decide, hty, by rw [hsz]; decide, 7, _, _, by rw [h5]; rfl, by rw [hsz]; rfl, rfl, by rw [hsz]; decide, rfl⟩
  obtain ⟨pub, hp1, hp2⟩ := C102_verifies_partial toy toyChecker toy_good C08.toy C08.toy_good C08.env0 C08.env0 rfl rfl st st hr hr 31 (Or.inl (nothing_done _ _ _)) C08.u7 [0, 0] st a ha hok
    9 true _ _ 128 st _ hsig rfl sig rfl
  exact ⟨st, a, sig, pub, ha, hok, hsig, hp1, hp2, C102_violated_pss toy C08.env0 st 31 C08.u7 d hu hri hty 9 1 0 (by decide) (by decide) [1, 2, 3, 4, 5] (by decide) 128 (by rw [hsz]; decide)⟩

/-- A key on P-256: a signature with ECDSA verifies. -/
example : ∃ st a sig pub, taKeyGetPublic C08.env0 toy.der st (some [0, 0]) 2 31 C08.u7 = some (st, a) ∧ a.status = .OK ∧
    taSign toy 9 true C08.env0 st (.ecdsa (some (1, false))) 31 (.bytes [1, 2, 3]) true 64 C08.u7 = some (st, ⟨.OK, sig.length, some sig⟩) ∧
    toy.decPub ((a.out.getD []).take a.outLength) = some pub ∧ Verifies toy toyChecker pub (.ecdsa (some (1, false))) [1, 2, 3] sig := by
  obtain ⟨st, d, hr, hk, hu, h1, h2, h3, h4, h5, _⟩ := stored (kt := KEY_TYPE_EC) (tp := tpOfCurve 0) (size := 32) (key := [7]) (by decide) (by decide +kernel)
  have hri : rightsAllowedSign C08.env0.rights d.header.rights = true := by rw [h1]; decide +kernel
  have hcu : curveOf d.header.typeParameters = 0 := by rw [h3]; decide +kernel
  have hsz : d.header.size.toNat = 32 := by rw [h4]; rfl
  have hpub : C69.publicOf toy.der d = some [1, 8] := by
    unfold C69.publicOf
    rw [h2, h5]
    rfl
  obtain ⟨a, ha, hok⟩ := tells hr hk h1 hpub (by simp) (buffer := [0, 0]) (by simp)
  obtain ⟨sig, hsig⟩ := C102_signs toy toyChecker toy_good C08.env0 st 31 C08.u7 d hu hri 9 (.ecdsa (some (1, false))) (.bytes [1, 2, 3]) rfl 64
    ⟨by decide, by rw [hcu]; decide, by rw [hcu, h2, h4]; decide, by rw [hsz]; decide, 7, _, _, _, by rw [h5]; rfl, rfl, rfl, by rw [hsz]; decide, by rw [hsz]; decide⟩
  obtain ⟨pub, hp1, hp2⟩ := C102_verifies_partial toy toyChecker toy_good C08.toy C08.toy_good C08.env0 C08.env0 rfl rfl st st hr hr 31 (Or.inl (nothing_done _ _ _)) C08.u7 [0, 0] st a ha hok
    9 true _ _ 64 st _ hsig rfl sig rfl
  exact ⟨st, a, sig, pub, ha, hok, hsig, hp1, hp2⟩

end Sa.Asym.C102

import Verif.Props.C32
import Verif.Props.C40
import Verif.Props.C110

/-!
# C112: whatever was done before, a call that uses a key and succeeds is one that the key allows to this caller now

For the TA as a whole: any number of sessions and callers, all calls.
-/

namespace Sa.Whole.C112

open C105 C106 C107 C08

variable {κ ρ π σ τ : Type}

/-! ## Calls that use keys -/

/-- The call was done. -/
def Succeeded : Reply → Prop
  | .made s _ | .three s _ _ _ | .exported s _ _ | .header s _ | .status s | .processed s _ _ _ _ _ | .samples s _ _ | .copied s _ | .region s _ => s = .OK
  | .answer a => a.status = .OK
  | .signed r => r.status = .OK
  | .mac r => r.status = .OK
  | .waits => False

/-- The keys that a call uses: the outside world (with the time and the outputs) in which the key is taken from the table, the handle, and the usage flag for that use (0 exchange, 1 derive,
2 unwrap, 3 encrypt, 4 decrypt, 5 sign; no flag is meant for asking for the public key, for the digest and for putting a key into a MAC). -/
def uses : Cmd κ ρ π → List (Env × Nat × Option Nat)
  | .keys (.unwrap env _ _ _ wrapping _) => [(env, wrapping, some 2)]
  | .keys (.derive env _ _ (.hkdf _ _ parent _ _)) => [(env, parent, some 1)]
  | .keys (.derive env _ _ (.concat _ _ parent _)) => [(env, parent, some 1)]
  | .keys (.derive env _ _ (.x963 _ _ parent _)) => [(env, parent, some 1)]
  | .keys (.derive env _ _ (.cmac _ _ parent _)) => [(env, parent, some 1)]
  | .keys (.derive env _ _ (.netflix kenc khmac)) => [(env, kenc, some 1), (env, khmac, some 1)]
  | .keys (.exchangeDh env _ _ key _) => [(env, key, some 0)]
  | .keys (.exchangeEcdh env _ _ key _) => [(env, key, some 0)]
  | .keys (.exchangeNetflix envs _ _ _ key _ params) => [(envs 0, params.kw, some 1), (envs 1, key, some 0)]
  | .keys (.importTypej e _ khmac kcipher) => [(e.ks, khmac, some 5), (e.ks, kcipher, some 2)]
  | .keys (.getPublic env _ _ _ key) => [(env, key, none)]
  | .keys (.digest env _ _ _ _ key _) => [(env, key, none)]
  | .keys (.sign _ _ _ env _ key _ _ _) => [(env, key, some 5)]
  | .cipherInit env _ mode key _ => [(env, key, some (if mode = 1 then 3 else 4))]
  | .macInit env _ _ key _ => [(env, key, some 5)]
  | .macProcessKey env _ key => [(env, key, none)]
  | .svpKeyCheck env _ key _ _ _ => [(env, key, some 4)]
  | _ => []

/-! ## Each call -/

/-- The key was taken from the table, and has the flag. -/
def Took (env : Env) (st : KeyStore) (h : Nat) (u : Uuid) (f : Option Nat) : Prop :=
  ∃ st1 k, keyStoreUnwrap env st h u = some (st1, .OK, some k) ∧ ∀ i, f = some i → Flag k.header.rights.usageFlags i

theorem flag_derive {env : RightsEnv} {r : Rights} (h : ¬(!rightsAllowedDerive env r) = true) : Flag r.usageFlags 1 :=
  Decidable.byContradiction fun hn => h (by rw [C32.noDerive env r hn]; rfl)

theorem flag_exchange {env : RightsEnv} {r : Rights} (h : ¬(!rightsAllowedExchange env r) = true) : Flag r.usageFlags 0 :=
  Decidable.byContradiction fun hn => h (by rw [C32.noExchange env r hn]; rfl)

theorem flag_sign {env : RightsEnv} {r : Rights} (h : ¬(!rightsAllowedSign env r) = true) : Flag r.usageFlags 5 :=
  Decidable.byContradiction fun hn => h (by rw [C32.noSign env r hn]; rfl)

theorem flag_unwrap {env : RightsEnv} {r : Rights} (h : rightsAllowedUnwrap env r = true) : Flag r.usageFlags 2 :=
  Decidable.byContradiction fun hn => by rw [C32.noUnwrap env r hn] at h; cases h

theorem flag_decrypt {env : RightsEnv} {r : Rights} {b : Bool} (h : rightsAllowedDecrypt env r b = true) : Flag r.usageFlags 4 := by
  refine Decidable.byContradiction fun hn => ?_
  unfold rightsAllowedDecrypt FLAG_DECRYPT at h
  rw [(bitTest_false_iff _ _ (by decide)).mpr hn] at h
  cases h

theorem flag_encrypt {env : RightsEnv} {r : Rights} {b : Bool} (h : rightsAllowedEncrypt env r b = true) : Flag r.usageFlags 3 := by
  refine Decidable.byContradiction fun hn => ?_
  unfold rightsAllowedEncrypt FLAG_ENCRYPT at h
  rw [(bitTest_false_iff _ _ (by decide)).mpr hn] at h
  cases h

/-- What taking a key from the table comes to. -/
theorem taking (env : Env) (st : KeyStore) (h : Nat) (u : Uuid) : keyStoreUnwrap env st h u = none ∨ (∃ st1 k, keyStoreUnwrap env st h u = some (st1, .OK, some k)) ∨
    (∃ st1, keyStoreUnwrap env st h u = some (st1, .OK, none)) ∨ ∃ st1 s k, s ≠ .OK ∧ keyStoreUnwrap env st h u = some (st1, s, k) := by
  cases keyStoreUnwrap env st h u with
  | none => exact Or.inl rfl
  | some r =>
    obtain ⟨st1, s, k⟩ := r
    by_cases hs : s = .OK
    · subst hs
      cases k with
      | none => exact Or.inr (Or.inr (Or.inl ⟨_, rfl⟩))
      | some k => exact Or.inr (Or.inl ⟨_, _, rfl⟩)
    · exact Or.inr (Or.inr (Or.inr ⟨_, _, _, hs, rfl⟩))

theorem deriveFrom_took {env : Env} {st st' : KeyStore} {parent x : Nat} {u : Uuid} {typeOk : Header → Bool} {kdf : StoredKey → Option (Status × Option StoredKey)}
    (h : deriveFrom env st parent u typeOk kdf = some (st', .OK, x)) : Took env st parent u (some 1) := by
  unfold deriveFrom at h
  rcases taking env st parent u with he | ⟨st1, sk, he⟩ | ⟨st1, he⟩ | ⟨st1, s, k, hs, he⟩ <;> rw [he] at h
  · cases h
  · simp only at h
    by_cases hd : (!rightsAllowedDerive env.rights sk.header.rights) = true
    · rw [if_pos hd] at h; cases h
    · exact ⟨_, _, he, fun i e => by cases e; exact flag_derive hd⟩
  · cases h
  · cases s <;> first | exact absurd rfl hs | cases h

theorem deriveNetflix_took {env : Env} {k : KdfEnv} {st st' : KeyStore} {rights : Rights} {kenc khmac x : Nat} {u : Uuid}
    (h : deriveNetflix env k st rights kenc khmac u = some (st', .OK, x)) :
    Took env st kenc u (some 1) ∧ ∃ st1 k, keyStoreUnwrap env st kenc u = some (st1, .OK, some k) ∧ Took env st1 khmac u (some 1) := by
  unfold deriveNetflix at h
  rcases taking env st kenc u with he | ⟨st1, sk, he⟩ | ⟨st1, he⟩ | ⟨st1, s, k, hs, he⟩ <;> rw [he] at h
  · cases h
  · simp only at h
    by_cases hd : (!rightsAllowedDerive env.rights sk.header.rights) = true
    · rw [if_pos hd] at h; cases h
    rw [if_neg hd] at h
    refine ⟨⟨_, _, he, fun i e => by cases e; exact flag_derive hd⟩, st1, sk, he, ?_⟩
    by_cases ht : sk.header.type.toNat ≠ KEY_TYPE_SYMMETRIC
    · rw [if_pos ht] at h; cases h
    rw [if_neg ht] at h
    rcases taking env st1 khmac u with he | ⟨st2, hk, he⟩ | ⟨st2, he⟩ | ⟨st2, s, k, hs, he⟩ <;> rw [he] at h
    · cases h
    · simp only at h
      by_cases hd : (!rightsAllowedDerive env.rights hk.header.rights) = true
      · rw [if_pos hd] at h; cases h
      · exact ⟨_, _, he, fun i e => by cases e; exact flag_derive hd⟩
    · cases h
    · cases s <;> first | exact absurd rfl hs | cases h
  · cases h
  · cases s <;> first | exact absurd rfl hs | cases h

theorem netflixBody_took {envs : Nat → Env} {k : KdfEnv} {a : AgreeEnv} {st : KeyStore} {rights : Rights} {key : Nat} {other : Bytes} {params : NetflixParams} {u : Uuid} {o : NetflixOut}
    (h : netflixBody envs k a st rights key other params u = some o) (ok : o.status = .OK) :
    Took (envs 0) st params.kw u (some 1) ∧ ∃ st1 k, keyStoreUnwrap (envs 0) st params.kw u = some (st1, .OK, some k) ∧ Took (envs 1) st1 key u (some 0) := by
  unfold netflixBody at h
  rcases taking (envs 0) st params.kw u with he | ⟨st1, sk, he⟩ | ⟨st1, he⟩ | ⟨st1, s, k, hs, he⟩ <;> rw [he] at h
  · cases h
  · simp only at h
    by_cases hd : (!rightsAllowedDerive (envs 0).rights sk.header.rights) = true
    · rw [if_pos hd] at h; cases h; cases ok
    rw [if_neg hd] at h
    refine ⟨⟨_, _, he, fun i e => by cases e; exact flag_derive hd⟩, st1, sk, he, ?_⟩
    by_cases ht : sk.header.type.toNat ≠ KEY_TYPE_SYMMETRIC
    · rw [if_pos ht] at h; cases h; cases ok
    rw [if_neg ht] at h
    rcases taking (envs 1) st1 key u with he | ⟨st2, hk, he⟩ | ⟨st2, he⟩ | ⟨st2, s, k, hs, he⟩ <;> rw [he] at h
    · cases h
    · simp only at h
      by_cases hd : (!rightsAllowedExchange (envs 1).rights hk.header.rights) = true
      · rw [if_pos hd] at h; cases h; cases ok
      · exact ⟨_, _, he, fun i e => by cases e; exact flag_exchange hd⟩
    · cases h; cases ok
    · cases s <;> first | exact absurd rfl hs | (cases h; cases ok)
  · cases h; cases ok
  · cases s <;> first | exact absurd rfl hs | (cases h; cases ok)

theorem exchangeNetflix_took {envs : Nat → Env} {k : KdfEnv} {a : AgreeEnv} {st : KeyStore} {rights : Rights} {key : Nat} {other : Bytes} {params : NetflixParams} {u : Uuid}
    {o : NetflixOut} (h : exchangeNetflix envs k a st rights key other params u = some o) (ok : o.status = .OK) :
    Took (envs 0) st params.kw u (some 1) ∧ ∃ st1 k, keyStoreUnwrap (envs 0) st params.kw u = some (st1, .OK, some k) ∧ Took (envs 1) st1 key u (some 0) := by
  unfold exchangeNetflix at h
  obtain ⟨o1, h1, h2⟩ := Option.bind_eq_some_iff.1 h
  refine netflixBody_took h1 ?_
  unfold netflixCleanup at h2
  by_cases hs : o1.status ≠ .OK
  · rw [if_pos hs] at h2
    obtain ⟨_, _, h2⟩ := Option.bind_eq_some_iff.1 h2
    obtain ⟨_, _, h2⟩ := Option.bind_eq_some_iff.1 h2
    obtain ⟨_, _, h2⟩ := Option.map_eq_some_iff.1 h2
    subst h2
    exact ok
  · exact Decidable.not_not.1 hs

theorem withKey_took {env : Env} {st st' : KeyStore} {key x : Nat} {u : Uuid} {body : StoredKey → Option (Status × Option StoredKey)} {i : Nat}
    (hb : ∀ sk d, body sk = some (.OK, d) → Flag sk.header.rights.usageFlags i) (h : withKey env st key u body = some (st', .OK, x)) : Took env st key u (some i) := by
  unfold withKey at h
  rcases taking env st key u with he | ⟨st1, sk, he⟩ | ⟨st1, he⟩ | ⟨st1, s, k, hs, he⟩ <;> rw [he] at h
  · cases h
  · refine ⟨_, _, he, fun j e => ?_⟩
    cases e
    simp only at h
    cases hbs : body sk with
    | none => rw [hbs] at h; cases h
    | some r =>
      obtain ⟨s, d⟩ := r
      by_cases hs : s = .OK
      · subst hs; exact hb _ _ hbs
      · rw [hbs] at h; cases s <;> first | exact absurd rfl hs | cases h
  · cases h
  · cases s <;> first | exact absurd rfl hs | cases h

theorem exchangeDh_took {env : Env} {a : AgreeEnv} {st st' : KeyStore} {rights : Rights} {key x : Nat} {other : Bytes} {u : Uuid}
    (h : exchangeDh env a st rights key other u = some (st', .OK, x)) : Took env st key u (some 0) := by
  refine withKey_took (fun sk d hb => ?_) h
  by_cases hd : (!rightsAllowedExchange env.rights sk.header.rights) = true
  · rw [if_pos hd] at hb; cases hb
  · exact flag_exchange hd

theorem exchangeEcdh_took {env : Env} {a : AgreeEnv} {st st' : KeyStore} {rights : Rights} {key x : Nat} {other : Bytes} {u : Uuid}
    (h : exchangeEcdh env a st rights key other u = some (st', .OK, x)) : Took env st key u (some 0) := by
  refine withKey_took (fun sk d hb => ?_) h
  by_cases hd : (!rightsAllowedExchange env.rights sk.header.rights) = true
  · rw [if_pos hd] at hb; cases hb
  · exact flag_exchange hd

theorem inquire_took {env : Env} {st st' : KeyStore} {key : Nat} {u : Uuid} {out : Option Bytes} {n : Nat} {f : StoredKey → Option Answer} {a : Answer}
    (h : inquire env st key u out n f = some (st', a)) (ok : a.status = .OK) : Took env st key u none := by
  unfold inquire at h
  rcases taking env st key u with he | ⟨st1, sk, he⟩ | ⟨st1, he⟩ | ⟨st1, s, k, hs, he⟩ <;> rw [he] at h
  · cases h
  · exact ⟨_, _, he, fun _ e => by cases e⟩
  · cases h; cases ok
  · cases s <;> first | exact absurd rfl hs | (cases h; cases ok)

theorem taSign_took {l : Asym.Lib κ ρ π} {seed : Nat} {b : Bool} {env : Env} {st st' : KeyStore} {params : SignParams} {key : Nat} {msg : Buf} {out : Bool} {n : Nat} {u : Uuid} {r : SignResp}
    (h : Asym.taSign l seed b env st params key msg out n u = some (st', r)) (ok : r.status = .OK) : Took env st key u (some 5) := by
  unfold Asym.taSign at h
  have sign : ∀ p s k, (cryptoSign p env.rights params (s, k) msg out n).status = .OK → s = .OK ∧ ∃ sk, k = some sk ∧ Flag sk.header.rights.usageFlags 5 := by
    intro p s k h
    unfold cryptoSign at h
    simp only at h
    split at h
    · cases h
    split at h
    · cases h
    split at h
    · next hs => exact absurd h hs
    next hs =>
    refine ⟨Decidable.not_not.1 hs, ?_⟩
    cases k with
    | none => cases h
    | some sk =>
      simp only at h
      by_cases hd : (!rightsAllowedSign env.rights sk.header.rights) = true
      · rw [if_pos hd] at h; cases h
      · exact ⟨sk, rfl, flag_sign hd⟩
  cases he : keyStoreUnwrap env st key u with
  | none => rw [he] at h; cases h
  | some x =>
    obtain ⟨st1, s, k⟩ := x
    rw [he] at h
    simp only [Option.some.injEq, Prod.mk.injEq] at h
    obtain ⟨_, rfl⟩ := h
    obtain ⟨rfl, sk, rfl, hf⟩ := sign _ _ _ ok
    exact ⟨_, _, he, fun i e => by cases e; exact hf⟩

theorem cipherInit_took {p : CipherPrim σ} {w w' : CipherWorld σ} {params : InitParams} {mode x : Nat} {s : Status} {k : Option StoredKey} {ienv : InitEnv} {u : Uuid}
    (h : cipherInit p w params mode (s, k) ienv u = some (w', .OK, x)) : s = .OK ∧ ∃ sk, k = some sk ∧ Flag sk.header.rights.usageFlags (if mode = 1 then 3 else 4) := by
  unfold cipherInit at h
  simp only at h
  split at h
  · cases h
  split at h
  · cases h
  split at h
  · next hs => simp only [Option.some.injEq, Prod.mk.injEq] at h; exact absurd h.2.1 hs
  next hs =>
  refine ⟨Decidable.not_not.1 hs, ?_⟩
  cases k with
  | none => cases h
  | some sk =>
    refine ⟨sk, rfl, ?_⟩
    simp only at h
    by_cases hm : mode = 1
    · rw [if_pos hm]
      rw [if_pos (show mode = MODE_ENCRYPT from hm)] at h
      cases ha : rightsAllowedEncrypt ienv.rights sk.header.rights (sk.header.type.toNat == KEY_TYPE_SYMMETRIC) with
      | true => exact flag_encrypt ha
      | false => rw [ha, Bool.not_false, if_pos rfl] at h; obtain ⟨_, _, e⟩ := Option.map_eq_some_iff.1 h; cases e
    · rw [if_neg hm]
      rw [if_neg (show ¬mode = MODE_ENCRYPT from hm)] at h
      cases ha : rightsAllowedDecrypt ienv.rights sk.header.rights (sk.header.type.toNat == KEY_TYPE_SYMMETRIC) with
      | true => exact flag_decrypt ha
      | false => rw [ha, Bool.not_false, if_pos rfl] at h; obtain ⟨_, _, e⟩ := Option.map_eq_some_iff.1 h; cases e

theorem macInit_took {p : MacPrim τ} {w : MacWorld τ} {alg : Nat} {digest : Option Nat} {s : Status} {k : Option StoredKey} {env : RightsEnv} {b : Bool} {u : Uuid}
    (h : (macInit p w alg digest (s, k) env b u).2.status = .OK) : s = .OK ∧ ∃ sk, k = some sk ∧ Flag sk.header.rights.usageFlags 5 := by
  unfold macInit at h
  simp only at h
  by_cases h1 : alg = MAC_HMAC
  · rw [if_pos h1] at h
    cases digest with
    | none => cases h
    | some d =>
      simp only at h
      by_cases hs : s ≠ .OK
      · rw [if_pos hs] at h; exact absurd h hs
      rw [if_neg hs] at h
      refine ⟨Decidable.not_not.1 hs, ?_⟩
      cases k with
      | none => cases h
      | some sk =>
        simp only at h
        by_cases hd : (!rightsAllowedSign env sk.header.rights) = true
        · rw [if_pos hd] at h; cases h
        · exact ⟨sk, rfl, flag_sign hd⟩
  rw [if_neg h1] at h
  by_cases h2 : alg = MAC_CMAC
  · rw [if_pos h2] at h
    by_cases hs : s ≠ .OK
    · rw [if_pos hs] at h; exact absurd h hs
    rw [if_neg hs] at h
    refine ⟨Decidable.not_not.1 hs, ?_⟩
    cases k with
    | none => cases h
    | some sk =>
      simp only at h
      by_cases hd : (!rightsAllowedSign env sk.header.rights) = true
      · rw [if_pos hd] at h; cases h
      · exact ⟨sk, rfl, flag_sign hd⟩
  · rw [if_neg h2] at h; cases h

theorem macProcessKey_took {p : MacPrim τ} {w : MacWorld τ} (inv : LiveInv w.store) {context : Nat} {s : Status} {k : Option StoredKey} {u : Uuid} {r : MacWorld τ × MacResp}
    (h : macProcessKey p w context (s, k) u = some r) (ok : r.2.status = .OK) : s = .OK ∧ ∃ sk, k = some sk := by
  unfold macProcessKey withMac at h
  rcases acquire_cases w.store inv context u with ⟨x, hx, he, _⟩ | ⟨st1, ptr, he, _, _⟩ <;> rw [he] at h
  · cases x <;> first | exact absurd rfl hx | (cases h; cases ok)
  · simp only at h
    cases hm : w.heap ptr with
    | none => rw [hm] at h; cases h
    | some m =>
      rw [hm] at h
      simp only [Option.some.injEq] at h
      subst h
      by_cases hs : s ≠ .OK
      · simp only [if_pos hs] at ok; exact absurd ok hs
      simp only [if_neg hs] at ok
      refine ⟨Decidable.not_not.1 hs, ?_⟩
      cases k with
      | none => cases ok
      | some sk => exact ⟨sk, rfl⟩

theorem taSvpKeyCheck_took {env : Env} {e : CheckEnv} {ks ks' : KeyStore} {sv sv' : SvpStore} {key : Nat} {input : Option CheckBuffer} {bytes : UInt64} {expected : Option Bytes} {u : Uuid}
    (h : taSvpKeyCheck env e ks sv key input bytes expected u = some (ks', sv', .OK)) : Took env ks key u (some 4) := by
  unfold taSvpKeyCheck at h
  cases input with
  | none => cases h
  | some b =>
    simp only at h
    split at h
    · cases h
    cases expected with
    | none => cases h
    | some x =>
      simp only at h
      split at h
      · cases h
      rcases taking env ks key u with he | ⟨st1, sk, he⟩ | ⟨st1, he⟩ | ⟨st1, s, k, hs, he⟩ <;> rw [he] at h
      · cases h
      · refine ⟨_, _, he, fun i ei => ?_⟩
        cases ei
        simp only at h
        by_cases hg : keyCheckGate env e b.type u sk.header ≠ .OK
        · rw [if_pos hg] at h
          simp only [Option.some.injEq, Prod.mk.injEq] at h
          exact absurd h.2.2 hg
        · have hg := Decidable.not_not.1 hg
          unfold keyCheckGate at hg
          cases ha : rightsAllowedDecrypt env.rights sk.header.rights (sk.header.type.toNat == KEY_TYPE_SYMMETRIC) with
          | true => exact flag_decrypt ha
          | false => rw [ha, Bool.not_false, if_pos rfl] at hg; cases hg
      · cases h
      · cases s <;> first | exact absurd rfl hs | cases h

theorem took_of {env : Env} {st : KeyStore} {h : Nat} {u : Uuid} {k : StoredKey} {i : Nat} (hh : KeyHeld env.prims st h u k) (hu : useResult env k u = (.OK, some k))
    (hf : Flag k.header.rights.usageFlags i) : Took env st h u (some i) :=
  ⟨st, k, by rw [hh.2 env rfl, hu], fun j e => by cases e; exact hf⟩

theorem made_ok {x : Option (KeyStore × Status × Nat)} {st' : KeyStore} {q : Reply} (h : x.map (fun r => (r.1, Reply.made r.2.1 r.2.2)) = some (st', q)) (ok : Succeeded q) :
    ∃ y, x = some (st', .OK, y) := by
  obtain ⟨⟨a, b, c⟩, rfl, h2⟩ := Option.map_eq_some_iff.1 h
  cases h2
  cases (show b = .OK from ok)
  exact ⟨c, rfl⟩

theorem keys_took (p : Prims) (hp : p.Good) (st : KeyStore) (hr : KsReachable p st) (u : Uuid) (c : Call κ ρ π) (hf : c.Fine p) {st' : KeyStore} {q : Reply}
    (hs : serveKeys st u c = some (st', q)) (ok : Succeeded q) {env : Env} {h : Nat} {f : Option Nat} (hu : (env, h, f) ∈ uses (.keys c)) : Took env st h u f ∧ env.prims = p := by
  have same : ∀ (e : Env), e.prims = p → ∀ h st1 k, keyStoreUnwrap e st h u = some (st1, .OK, some k) → st1 = st := by
    intro e he h st1 k hk
    subst he
    rcases unwrap_holds e hp st (ksReachable_inv _ hp st hr) h u with ⟨x, hx, he⟩ | ⟨k', he, _⟩
    · rw [he] at hk; simp at hk
    · rw [he] at hk; simp at hk; exact hk.1.symm
  cases c with
  | unwrap env ue t params wrapping input =>
    obtain ⟨rfl, hue, hl, hb⟩ := hf
    simp only [uses, List.mem_singleton, Prod.mk.injEq] at hu
    obtain ⟨rfl, rfl, rfl⟩ := hu
    obtain ⟨y, hy⟩ := made_ok hs ok
    obtain ⟨st1, s, y', h1, _, h3⟩ := keyUnwrapOp_cases _ hp ue hue st hr t params _ input u hl hb
    rw [hy] at h1; cases h1
    rcases h3 with ⟨h3, _⟩ | ⟨_, wk, dk, a, b, c, _⟩
    · exact absurd rfl h3
    · exact ⟨took_of a b (flag_unwrap c), rfl⟩
  | derive env k rights params =>
    obtain ⟨rfl, hk⟩ := hf
    obtain ⟨y, hy⟩ := made_ok hs ok
    cases params with
    | netflix kenc khmac =>
      simp only [keyDerive] at hy
      obtain ⟨t1, st1, k1, e1, t2⟩ := deriveNetflix_took hy
      cases same _ rfl _ _ _ e1
      simp only [uses, List.mem_cons, List.not_mem_nil, or_false, Prod.mk.injEq] at hu
      rcases hu with ⟨rfl, rfl, rfl⟩ | ⟨rfl, rfl, rfl⟩
      · exact ⟨t1, rfl⟩
      · exact ⟨t2, rfl⟩
    | hkdf L digest parent salt info =>
      simp only [uses, List.mem_singleton, Prod.mk.injEq] at hu
      obtain ⟨rfl, rfl, rfl⟩ := hu
      simp only [keyDerive] at hy
      split at hy
      · cases hy
      split at hy
      · cases hy
      split at hy
      · cases hy
      split at hy
      · cases hy
      exact ⟨deriveFrom_took hy, rfl⟩
    | concat L digest parent info =>
      simp only [uses, List.mem_singleton, Prod.mk.injEq] at hu
      obtain ⟨rfl, rfl, rfl⟩ := hu
      simp only [keyDerive] at hy
      split at hy
      · cases hy
      split at hy
      · cases hy
      split at hy
      · cases hy
      exact ⟨deriveFrom_took hy, rfl⟩
    | x963 L digest parent info =>
      simp only [uses, List.mem_singleton, Prod.mk.injEq] at hu
      obtain ⟨rfl, rfl, rfl⟩ := hu
      simp only [keyDerive] at hy
      split at hy
      · cases hy
      split at hy
      · cases hy
      split at hy
      · cases hy
      exact ⟨deriveFrom_took hy, rfl⟩
    | cmac L counter parent other =>
      simp only [uses, List.mem_singleton, Prod.mk.injEq] at hu
      obtain ⟨rfl, rfl, rfl⟩ := hu
      simp only [keyDerive] at hy
      split at hy
      · cases hy
      split at hy
      · cases hy
      split at hy
      · cases hy
      split at hy
      · cases hy
      exact ⟨deriveFrom_took hy, rfl⟩
    | _ => simp [uses] at hu
  | exchangeDh env a rights key other =>
    simp only [uses, List.mem_singleton, Prod.mk.injEq] at hu
    obtain ⟨rfl, rfl, rfl⟩ := hu
    obtain ⟨y, hy⟩ := made_ok hs ok
    exact ⟨exchangeDh_took hy, hf.1⟩
  | exchangeEcdh env a rights key other =>
    simp only [uses, List.mem_singleton, Prod.mk.injEq] at hu
    obtain ⟨rfl, rfl, rfl⟩ := hu
    obtain ⟨y, hy⟩ := made_ok hs ok
    exact ⟨exchangeEcdh_took hy, hf.1⟩
  | exchangeNetflix envs k a rights key other params =>
    obtain ⟨he, _, _⟩ := hf
    obtain ⟨o, h1, h2⟩ := Option.map_eq_some_iff.1 hs
    cases h2
    obtain ⟨t1, st1, k1, e1, t2⟩ := exchangeNetflix_took h1 ok
    cases same _ (he 0) _ _ _ e1
    simp only [uses, List.mem_cons, List.not_mem_nil, or_false, Prod.mk.injEq] at hu
    rcases hu with ⟨rfl, rfl, rfl⟩ | ⟨rfl, rfl, rfl⟩
    · exact ⟨t1, he 0⟩
    · exact ⟨t2, he 1⟩
  | importTypej e input khmac kcipher =>
    obtain ⟨rfl, hg⟩ := hf
    obtain ⟨y, hy⟩ := made_ok hs ok
    obtain ⟨st1, s, y', h1, _, h3⟩ := Kc.C40.import_cases e hg st hr input khmac kcipher u
    rw [hy] at h1; cases h1
    rcases h3 with ⟨h3, _⟩ | ⟨_, dk, _, mk, wk, a1, a2, a3, _, b1, b2, b3, _⟩
    · exact absurd rfl h3
    · simp only [uses, List.mem_cons, List.not_mem_nil, or_false, Prod.mk.injEq] at hu
      rcases hu with ⟨rfl, rfl, rfl⟩ | ⟨rfl, rfl, rfl⟩
      · exact ⟨took_of a1 a2 a3, rfl⟩
      · exact ⟨took_of b1 b2 b3, rfl⟩
  | getPublic env der out n key =>
    simp only [uses, List.mem_singleton, Prod.mk.injEq] at hu
    obtain ⟨rfl, rfl, rfl⟩ := hu
    obtain ⟨r, h1, h2⟩ := Option.map_eq_some_iff.1 hs
    cases h2
    exact ⟨inquire_took h1 ok, hf.1⟩
  | digest env b hash out n key digest =>
    simp only [uses, List.mem_singleton, Prod.mk.injEq] at hu
    obtain ⟨rfl, rfl, rfl⟩ := hu
    obtain ⟨r, h1, h2⟩ := Option.map_eq_some_iff.1 hs
    cases h2
    exact ⟨inquire_took h1 ok, hf.1⟩
  | sign l seed b env params key msg out n =>
    simp only [uses, List.mem_singleton, Prod.mk.injEq] at hu
    obtain ⟨rfl, rfl, rfl⟩ := hu
    obtain ⟨r, h1, h2⟩ := Option.map_eq_some_iff.1 hs
    cases h2
    exact ⟨taSign_took h1 ok, hf⟩
  | _ => simp [uses] at hu

theorem serve_took {p : Prims} (hp : p.Good) {d : Device σ τ} (hm : MacsGood d.mac) {t t' : Tables σ τ} (inv : TabInv p d t) {u : Uuid} {c : Cmd κ ρ π} (hf : c.Fine p) {q : Reply}
    (hs : serve d t u c = some (t', q)) (ok : Succeeded q) {env : Env} {h : Nat} {f : Option Nat} (hu : (env, h, f) ∈ uses c) : Took env t.keys h u f ∧ env.prims = p := by
  cases c with
  | keys c =>
    obtain ⟨r, h1, h2⟩ := Option.map_eq_some_iff.1 hs
    cases h2
    exact keys_took p hp t.keys inv.keys u c hf h1 ok hu
  | cipherInit env params mode key ienv =>
    simp only [uses, List.mem_singleton, Prod.mk.injEq] at hu
    obtain ⟨rfl, rfl, rfl⟩ := hu
    refine ⟨?_, hf.1⟩
    simp only [serve] at hs
    cases hk : keyStoreUnwrap env t.keys h u with
    | none => rw [hk] at hs; cases hs
    | some x =>
      obtain ⟨ks, s, k⟩ := x
      rw [hk] at hs
      obtain ⟨⟨a, b, c⟩, h1, h2⟩ := Option.map_eq_some_iff.1 hs
      cases h2
      cases (show b = .OK from ok)
      obtain ⟨rfl, sk, rfl, hfl⟩ := cipherInit_took h1
      exact ⟨_, _, hk, fun i e => by cases e; exact hfl⟩
  | macInit env alg digest key b =>
    simp only [uses, List.mem_singleton, Prod.mk.injEq] at hu
    obtain ⟨rfl, rfl, rfl⟩ := hu
    refine ⟨?_, hf⟩
    simp only [serve] at hs
    cases hk : keyStoreUnwrap env t.keys h u with
    | none => rw [hk] at hs; cases hs
    | some x =>
      obtain ⟨ks, s, k⟩ := x
      rw [hk] at hs
      cases hs
      obtain ⟨rfl, sk, rfl, hfl⟩ := macInit_took ok
      exact ⟨_, _, hk, fun i e => by cases e; exact hfl⟩
  | macProcessKey env context key =>
    simp only [uses, List.mem_singleton, Prod.mk.injEq] at hu
    obtain ⟨rfl, rfl, rfl⟩ := hu
    refine ⟨?_, hf⟩
    simp only [serve] at hs
    cases hk : keyStoreUnwrap env t.keys h u with
    | none => rw [hk] at hs; cases hs
    | some x =>
      obtain ⟨ks, s, k⟩ := x
      rw [hk] at hs
      obtain ⟨r, h1, h2⟩ := Option.map_eq_some_iff.1 hs
      cases h2
      obtain ⟨mac, view, hmg⟩ := hm
      obtain ⟨know, hmi⟩ := inv.macs mac view hmg
      obtain ⟨rfl, sk, rfl⟩ := macProcessKey_took hmi.live h1 ok
      exact ⟨_, _, hk, fun i e => by cases e⟩
  | svpKeyCheck env e key input bytes expected =>
    simp only [uses, List.mem_singleton, Prod.mk.injEq] at hu
    obtain ⟨rfl, rfl, rfl⟩ := hu
    refine ⟨?_, hf.1⟩
    obtain ⟨⟨a, b, c⟩, h1, h2⟩ := Option.map_eq_some_iff.1 hs
    cases h2
    cases (show c = .OK from ok)
    exact taSvpKeyCheck_took h1
  | _ => simp [uses] at hu

/-! ## The property -/

/-- **C112.**  After any history of calls `Cmd.Fine` (see C105), by any callers in any sessions: if a call that uses keys (`uses`) succeeds, then each handle it uses denotes a key of the
caller's own session; the caller is on the list of that key (or the list has the wildcard), the time is within its period, the outputs are those it allows (`MayUse`, C08); and it has the usage
flag for what was done with it.  Missing for the full property: the calls that are not `Cmd.Fine`. -/
theorem C112_allowed_partial (p : Prims) (hp : p.Good) (d : Device σ τ) (hm : MacsGood d.mac) (w0 : Ta σ τ) (h0 : start σ τ = some w0) (rs : List (Request κ ρ π))
    (hf : ∀ r ∈ rs, r.Fine p) (w : Ta σ τ) (ts : List (Uuid × Told)) (hw : handleAll d w0 rs = some (w, ts)) (s : Nat) (u : Uuid) (c : Cmd κ ρ π) (hc : c.Fine p) (w' : Ta σ τ) (q : Reply)
    (hh : handle (κ := κ) (ρ := ρ) (π := π) d w (.call s u c) = some (w', .reply q)) (ok : Succeeded q) (env : Env) (h : Nat) (f : Option Nat) (hu : (env, h, f) ∈ uses c) :
    ∃ k, Denotes p w s u h k ∧ MayUse k.header.rights u env.rights.time env.rights.video ∧ ∀ i, f = some i → Flag k.header.rights.usageFlags i := by
  have inv := C110.run_inv hp hm h0 hf hw
  rcases call_cases d w inv.ta s u c with ⟨_, e, _⟩ | ⟨ptr, t, g1, g2, g3, e⟩
  · rw [e] at hh; cases hh
  · rw [e] at hh
    obtain ⟨⟨t', q'⟩, hs, h2⟩ := Option.map_eq_some_iff.1 hh
    cases h2
    obtain ⟨⟨st1, k, hk, hfl⟩, rfl⟩ := serve_took hp hm (inv.tabs ptr t g3) hc hs ok hu
    obtain ⟨hd, _⟩ := used hp inv (show tablesOf w s = some t by simp [tablesOf, g1, g3]) g2 rfl hk
    refine ⟨k, hd, ?_, hfl⟩
    obtain ⟨x, sk, e1, e2⟩ := C08_released_only_under_rights env hp t.keys (inv.tabs ptr t g3).keys h u
    rw [e1] at hk
    cases hk
    rcases e2 with ⟨e2, _⟩ | ⟨k', _, e3, _, e4⟩
    · exact absurd rfl e2
    · cases e3; exact e4

/-- **C112, refusal.**  Put the other way round: a call with a key that the caller's handle denotes, but that does not allow this use to this caller now, does not succeed - whatever calls came
before. -/
theorem C112_refused_partial (p : Prims) (hp : p.Good) (d : Device σ τ) (hm : MacsGood d.mac) (w0 : Ta σ τ) (h0 : start σ τ = some w0) (rs : List (Request κ ρ π))
    (hf : ∀ r ∈ rs, r.Fine p) (w : Ta σ τ) (ts : List (Uuid × Told)) (hw : handleAll d w0 rs = some (w, ts)) (s : Nat) (u : Uuid) (c : Cmd κ ρ π) (hc : c.Fine p)
    (env : Env) (h : Nat) (f : Option Nat) (hu : (env, h, f) ∈ uses c) (k : StoredKey) (hk : Denotes p w s u h k)
    (hno : ¬MayUse k.header.rights u env.rights.time env.rights.video ∨ ∃ i, f = some i ∧ ¬Flag k.header.rights.usageFlags i) :
    ∃ w' told, handle (κ := κ) (ρ := ρ) (π := π) d w (.call s u c) = some (w', told) ∧ ∀ q, told = .reply q → ¬Succeeded q := by
  have inv := C110.run_inv hp hm h0 hf hw
  obtain ⟨w', told, e, _⟩ := handle_ok p hp d hm w inv (.call s u c) hc
  refine ⟨w', told, e, fun q hq ok => ?_⟩
  subst hq
  obtain ⟨k', d1, d2, d3⟩ := C112_allowed_partial p hp d hm w0 h0 rs hf w ts hw s u c hc w' q e ok env h f hu
  obtain ⟨_, t, ht, hh⟩ := hk
  obtain ⟨_, t', ht', hh'⟩ := d1
  rw [ht] at ht'; cases ht'
  rw [C110.held_header hh hh'] at d2 d3
  rcases hno with hno | ⟨i, hi, hno⟩
  · exact hno d2
  · exact hno (d3 i hi)

/-- **C112, export.**  After any history of calls `Cmd.Fine`: a key that is exported has the flag that allows it (13, CACHEABLE).  The list of callers, the time and the outputs are not asked for
by the code, neither here nor when the header is read. -/
theorem C112_exported_partial (p : Prims) (hp : p.Good) (d : Device σ τ) (hm : MacsGood d.mac) (w0 : Ta σ τ) (h0 : start σ τ = some w0) (rs : List (Request κ ρ π))
    (hf : ∀ r ∈ rs, r.Fine p) (w : Ta σ τ) (ts : List (Uuid × Told)) (hw : handleAll d w0 rs = some (w, ts)) (s : Nat) (u : Uuid) (env : Env) (h : Nat) (mixin out : Option Bytes) (n : Nat)
    (hc : Call.Fine p (.export env h mixin out n : Call κ ρ π)) (w' : Ta σ τ) (q : Reply)
    (hh : handle (κ := κ) (ρ := ρ) (π := π) d w (.call s u (.keys (.export env h mixin out n))) = some (w', .reply q)) (ok : Succeeded q) :
    ∃ k, Denotes p w s u h k ∧ Flag k.header.rights.usageFlags 13 := by
  have inv := C110.run_inv hp hm h0 hf hw
  obtain ⟨rfl, hl⟩ := hc
  obtain ⟨t, st', ht, hu, hs, _, _⟩ := C110.keys_call inv.ta hh
  obtain ⟨ptr, _, hp2⟩ := tables_heap ht
  have ki := ksReachable_inv _ hp t.keys (inv.tabs ptr t hp2).keys
  obtain ⟨r, hx, _, hcs⟩ := ksExport_cases env hp t.keys ki h mixin out n hl u
  simp only [serveKeys] at hs
  rw [hx] at hs
  cases hs
  rcases hcs with ⟨hno, _⟩ | ⟨_, wk, sk, ho, hou, hw1, hks, h13, _⟩
  · exact absurd ok hno
  · exact ⟨sk, ⟨hu, t, ht, holds_of env.prims hp t.keys ki h u wk sk ho hou hw1⟩, by rw [← hw1.header]; exact h13⟩

/-! ## Cases -/

/-- All rights but that to sign. -/
def noSigning : Rights := { rightsAllowAll with usageFlags := rightsAllowAll.usageFlags ^^^ 32 }

/-- Two keys are made; the first allows all, the second does not allow signing. -/
def made : List (Request Unit Unit Unit) :=
  [.open C08.u7 1, .call 31 C08.u7 (.keys gen1), .call 31 C08.u7 (.keys (.generate env1 C52.genv noSigning (some (.symmetric 16))))]

/-- The world after the keys have expired. -/
def late : Env := { env1 with rights := { env1.rights with time := 0xFFFFFFFFFFFFFFFF } }

/-- What the theorems speak about: a call that uses the first key ... -/
example : ∀ r ∈ made, r.Fine light := by
  intro r hr
  simp only [made, List.mem_cons, List.not_mem_nil, or_false] at hr
  rcases hr with rfl | rfl | rfl
  · exact True.intro
  · exact (⟨rfl, C52.genv_good, fun n e => by simp at e⟩ : gen1.Fine light)
  · exact (⟨rfl, C52.genv_good, fun n e => by simp at e⟩ : Call.Fine (κ := Unit) (ρ := Unit) (π := Unit) light (.generate env1 C52.genv noSigning (some (.symmetric 16))))
example : (env1, 31, some 5) ∈ uses (.macInit env1 MAC_CMAC none 31 true : Cmd Unit Unit Unit) := by simp [uses]
/-- ... succeeds; -/
example : (((start Unit _).bind fun w => handleAll C106.dev w (made.take 2 ++ [.call 31 C08.u7 (.macInit env1 MAC_CMAC none 31 true)])).map fun r =>
    (r.2.map fun x => C106.brief x.2).drop 2) = some [some (.OK, none)] := by
  decide +kernel
/-- it is refused once the key has expired; -/
example : (((start Unit _).bind fun w => handleAll C106.dev w (made.take 2 ++ [.call 31 C08.u7 (.macInit late MAC_CMAC none 31 true)])).map fun r =>
    (r.2.map fun x => C106.brief x.2).drop 2) = some [some (.OPERATION_NOT_ALLOWED, none)] := by
  decide +kernel
/-- and with a key that does not allow signing. -/
example : (((start Unit _).bind fun w => handleAll C106.dev w ([made.head (by simp [made]), made.getLast (by simp [made])] ++ [.call 31 C08.u7 (.macInit env1 MAC_CMAC none 31 true)])).map fun r =>
    (r.2.map fun x => C106.brief x.2).drop 2) = some [some (.OPERATION_NOT_ALLOWED, none)] := by
  decide +kernel

end Sa.Whole.C112

import Verif.Props.C45
import Verif.Props.C11

/-!
# C46: keys made from two keys

The Netflix derivation makes a key from two keys, the Netflix exchange makes three from two.  Flags 6 to 12 are the output protection flags.
-/

namespace Sa.C46

/-- The full statement for the exchange: no key it makes has an output flag that one of its two keys lacks. -/
def RespectsBoth : Prop :=
  ∀ (p : Prims) (_ : p.Good) (envs : Nat → Env) (_ : ∀ i, (envs i).prims = p) (k : KdfEnv) (_ : k.prims.Good) (a : AgreeEnv) (_ : a.Good)
    (st : KeyStore) (_ : KsReachable p st) (rights : Rights) (private_ : Nat) (other : Bytes) (params : NetflixParams) (caller : Uuid) (o : NetflixOut),
    exchangeNetflix envs k a st rights private_ other params caller = some o → o.status = .OK →
    ∀ kw sk, KeyHeld p st params.kw caller kw → KeyHeld p st private_ caller sk →
      ∀ h, h = o.ke ∨ h = o.kh ∨ h = o.key → ∀ d, KeyHeld p o.store h caller d →
        ∀ i, 6 ≤ i → i ≤ 12 → Flag d.header.rights.usageFlags i → Flag kw.header.rights.usageFlags i ∧ Flag sk.header.rights.usageFlags i

theorem held_header {p : Prims} {st : KeyStore} {h : Nat} {u : Uuid} {a b : StoredKey} (h1 : KeyHeld p st h u a) (h2 : KeyHeld p st h u b) :
    a.header = b.header := by
  have := h1.1
  rw [h2.1] at this
  simpa using this.symm

theorem restrict_output (r kw : Rights) (hd : Flag kw.usageFlags 1) (i : Nat) (h6 : 6 ≤ i) (h12 : i ≤ 12)
    (hf : Flag (restrictChildRights r (some kw)).usageFlags i) : Flag kw.usageFlags i := by
  unfold restrictChildRights at hf
  simp only at hf
  rw [if_pos (Or.inl ((keyOnly_ne_zero_iff _).mpr ⟨1, by omega, by omega, hd⟩)), flag_restrict] at hf
  exact hf.2 ((outputMask_flag i).mpr ⟨h6, h12⟩)

theorem restrict_output_keeps (r kw : Rights) (hd : Flag kw.usageFlags 1) (i : Nat) (hr : Flag r.usageFlags i) (hf : Flag kw.usageFlags i) :
    Flag (restrictChildRights r (some kw)).usageFlags i := by
  unfold restrictChildRights
  simp only
  rw [if_pos (Or.inl ((keyOnly_ne_zero_iff _).mpr ⟨1, by omega, by omega, hd⟩)), flag_restrict]
  exact ⟨hr, fun _ => hf⟩

/-- **C46 (partial), exchange.**  The three keys of a successful exchange have no output flag that the key Kw lacks.  Missing: the same for
the private key, see `C46_exchange_violated`. -/
theorem C46_exchange_partial (p : Prims) (hp : p.Good) (envs : Nat → Env) (he : ∀ i, (envs i).prims = p) (k : KdfEnv) (hk : k.prims.Good)
    (a : AgreeEnv) (ha : a.Good) (st : KeyStore) (hr : KsReachable p st) (rights : Rights) (private_ : Nat) (other : Bytes) (params : NetflixParams)
    (caller : Uuid) (o : NetflixOut) (ho : exchangeNetflix envs k a st rights private_ other params caller = some o) (hok : o.status = .OK)
    (kw : StoredKey) (hkw : KeyHeld p st params.kw caller kw) (h : Nat) (hh : h = o.ke ∨ h = o.kh ∨ h = o.key) (d : StoredKey)
    (hd : KeyHeld p o.store h caller d) (i : Nat) (h6 : 6 ≤ i) (h12 : i ≤ 12) (hf : Flag d.header.rights.usageFlags i) :
    Flag kw.header.rights.usageFlags i := by
  obtain ⟨o', ho', hre, hc⟩ := exchangeNetflix_cases p hp envs he k hk a ha st hr rights private_ other params caller
  rw [ho] at ho'
  simp only [Option.some.injEq] at ho'
  subst ho'
  rcases hc with ⟨hs, _⟩ | ⟨_, s1, s2, hmade⟩
  · exact absurd hok hs
  obtain ⟨kw', sk, z, enc, hm, wrap, c1, _, fd, _, _, _, a1, a2, a3, _, _, _, e1, e2, e3⟩ := hmade.keys
  have hk' := held_header c1 hkw
  rw [← hk']
  obtain ⟨w1, x1, o1⟩ := a1.obj
  obtain ⟨w2, x2, o2⟩ := a2.obj
  obtain ⟨w3, x3, o3⟩ := a3.obj
  have n12 : o.ke ≠ o.kh := by
    intro h; have := a2.free; rw [← h, o1, if_pos rfl] at this; simp at this
  have n23 : o.kh ≠ o.key := by
    intro h; have := a3.free; rw [← h, o2, if_pos rfl] at this; simp at this
  have n13 : o.ke ≠ o.key := by
    intro h; have := a3.free; rw [← h, o2, if_neg n12, o1, if_pos rfl] at this; simp at this
  have inv3 := ksReachable_inv p hp o.store a3.reach
  rcases hh with rfl | rfl | rfl
  · have e : o.store.obj o.ke = ⟨some w1, 0, caller⟩ := by rw [o3, if_neg n13, o2, if_neg n12, o1, if_pos rfl]
    have := held_header hd (holds_of p hp o.store inv3 o.ke caller w1 enc (by rw [e]) (by rw [e]) x1)
    rw [this, e1] at hf
    exact restrict_output _ _ fd i h6 h12 hf
  · have e : o.store.obj o.kh = ⟨some w2, 0, caller⟩ := by rw [o3, if_neg n23, o2, if_pos rfl]
    have := held_header hd (holds_of p hp o.store inv3 o.kh caller w2 hm (by rw [e]) (by rw [e]) x2)
    rw [this, e2] at hf
    exact restrict_output _ _ fd i h6 h12 hf
  · have e : o.store.obj o.key = ⟨some w3, 0, caller⟩ := by rw [o3, if_pos rfl]
    have := held_header hd (holds_of p hp o.store inv3 o.key caller w3 wrap (by rw [e]) (by rw [e]) x3)
    rw [this, e3] at hf
    exact restrict_output _ _ fd i h6 h12 hf

/-- **C46 (partial), derivation.**  The key made by the Netflix derivation has no output flag that the key Kenc lacks.  Missing: the same for
Khmac, whose rights are not consulted (ta_sa_key_derive.c:649). -/
theorem C46_derive_partial (env : Env) (hp : env.prims.Good) (k : KdfEnv) (hk : k.prims.Good) (st : KeyStore) (hr : KsReachable env.prims st)
    (rights : Rights) (kenc khmac : Nat) (caller : Uuid) (st' : KeyStore) (h : Nat)
    (hop : deriveNetflix env k st rights kenc khmac caller = some (st', .OK, h)) (enc d : StoredKey) (henc : KeyHeld env.prims st kenc caller enc)
    (hd : KeyHeld env.prims st' h caller d) (i : Nat) (h6 : 6 ≤ i) (h12 : i ≤ 12) (hf : Flag d.header.rights.usageFlags i) :
    Flag enc.header.rights.usageFlags i := by
  obtain ⟨st2, s, h2, he, _, hc⟩ := deriveNetflix_cases env hp k hk st hr rights kenc khmac caller
  rw [hop] at he
  simp only [Option.some.injEq, Prod.mk.injEq] at he
  obtain ⟨rfl, rfl, rfl⟩ := he
  rcases hc with ⟨hs, _⟩ | ⟨_, enc', hm, d', c1, _, f1, _, hn, _, hrt⟩
  · exact absurd rfl hs
  rw [← held_header c1 henc]
  rw [held_header hd hn.holds, hrt] at hf
  exact restrict_output _ _ f1 i h6 h12 hf

/-- **C46 is violated by the exchange**: the private key may only be used for key exchange, yet the keys made with it may be used in the
clear. -/
theorem C46_exchange_violated : ¬ RespectsBoth := by
  intro H
  obtain ⟨st, o, h0, ho, hok⟩ := C45.stN_succeeds
  have hr := C45.stN_reachable _ st h0
  obtain ⟨st', kw, sk, h0', hu0, hu1, hkw, hsk, _⟩ := C45.stN_usable
  rw [h0] at h0'
  simp only [Option.some.injEq] at h0'
  subst h0'
  have held : ∀ h k, keyStoreUnwrap C08.env0 st h C08.u7 = some (st, .OK, some k) → KeyHeld C08.toy st h C08.u7 k := by
    intro h k hu
    rcases unwrap_holds C08.env0 C08.toy_good st (ksReachable_inv _ C08.toy_good st hr) h C08.u7 with ⟨s, hx, hy⟩ | ⟨k', hy, hh, _⟩
    · rw [hu] at hy; simp only [Option.some.injEq, Prod.mk.injEq, true_and] at hy; exact absurd hy.1.symm hx
    · rw [hu] at hy; simp only [Option.some.injEq, Prod.mk.injEq, true_and] at hy; rw [hy]; exact hh
  obtain ⟨o', ho', hre, hc⟩ := exchangeNetflix_cases C08.toy C08.toy_good (fun _ => C08.env0) (fun _ => rfl) C29.kenv C29.toyKdf_good C45.agree C45.agree_good st
    hr rightsAllowAll 30 [7] C45.nparams C08.u7
  rw [ho] at ho'
  simp only [Option.some.injEq] at ho'
  subst ho'
  rcases hc with ⟨hs, _⟩ | ⟨_, s1, s2, hmade⟩
  · exact hs hok
  obtain ⟨kw', sk', z, enc, hm, wrap, c1, c2, fd, _, _, _, a1, a2, a3, _, _, _, e1, e2, e3⟩ := hmade.keys
  have hw := a3.newKey C08.toy_good a2.reach
  have := H C08.toy C08.toy_good (fun _ => C08.env0) (fun _ => rfl) C29.kenv C29.toyKdf_good C45.agree C45.agree_good st hr rightsAllowAll 30 [7] C45.nparams C08.u7 o ho hok
    kw sk (held 31 kw hu0) (held 30 sk hu1) o.key (Or.inr (Or.inr rfl)) wrap hw.holds 12 (by omega) (by omega) (by
      rw [e3]
      refine restrict_output_keeps _ _ fd 12 (by decide) ?_
      rw [held_header c1 (held 31 kw hu0)]
      simp only [C45.kwOk, Bool.and_eq_true, decide_eq_true_eq] at hkw
      exact hkw.2)
  simp only [C45.skOk, Bool.and_eq_true, Bool.not_eq_true', decide_eq_false_iff_not] at hsk
  exact hsk.2 this.2

end Sa.C46

import Verif.Lemmas.NetflixRun
import Verif.Props.C29

/-!
# C45: the Netflix authenticated exchange is all-or-nothing
-/

namespace Sa.C45

/-- The shared secret as the MSL specification wants it: a zero byte in front unless there is one. -/
def mslSecret : Bytes → Bytes
  | [] => []
  | b :: z => if b = 0 then b :: z else 0 :: b :: z

/-- **C45.**  For every store reached by any history, all rights, keys and parameters, and any failures outside at any of the nine steps: the
call returns; if it succeeds, the application gets three different handles of its own, each nobody's before, holding keys with the bytes that
the two formulas give and with the rights asked for restricted by those of Kw, and all other handles are as before; if it fails, every handle behaves for every caller as before, and the
application's variables keep their values. -/
theorem C45_all_or_nothing (p : Prims) (hp : p.Good) (envs : Nat → Env) (he : ∀ i, (envs i).prims = p) (k : KdfEnv) (hk : k.prims.Good)
    (a : AgreeEnv) (ha : a.Good) (st : KeyStore) (hr : KsReachable p st) (rights : Rights) (private_ : Nat) (other : Bytes) (params : NetflixParams)
    (caller : Uuid) (old : Nat × Nat × Nat) :
    ∃ o, exchangeNetflix envs k a st rights private_ other params caller = some o ∧
      ((o.status ≠ .OK ∧ clientHandles old o = old ∧
          (∀ h u, (keyStoreGetHeader o.store h u).2 = (keyStoreGetHeader st h u).2) ∧
          (∀ (env : Env) h u, env.prims = p → (keyStoreUnwrap env o.store h u).map (·.2) = (keyStoreUnwrap env st h u).map (·.2))) ∨
       (o.status = .OK ∧ clientHandles old o = (o.key, o.ke, o.kh) ∧ o.ke ≠ o.kh ∧ o.kh ≠ o.key ∧ o.ke ≠ o.key ∧
          (∀ h, h = o.ke ∨ h = o.kh ∨ h = o.key → ∀ v, (keyStoreGetHeader st h v).2.1 ≠ .OK) ∧
          (∀ x, x ≠ o.ke → x ≠ o.kh → x ≠ o.key → o.store.obj x = st.obj x) ∧
          ∃ kw sk z enc hm wrap, KeyHeld p st params.kw caller kw ∧ KeyHeld p st private_ caller sk ∧ a.dh sk.key other = .secret z ∧
            KeyHeld p o.store o.ke caller enc ∧ KeyHeld p o.store o.kh caller hm ∧ KeyHeld p o.store o.key caller wrap ∧
            enc.key = (k.prims.hmac 2 (k.prims.hash 2 kw.key) (mslSecret z)).take 16 ∧
            hm.key = ((k.prims.hmac 2 (k.prims.hash 2 kw.key) (mslSecret z)).drop 16).take 32 ∧
            wrap.key = (k.prims.hmac 1 (k.prims.hmac 1 netflixSalt (enc.key ++ hm.key)) netflixInfo).take 16 ∧
            enc.header.rights = restrictChildRights params.rightsKe (some kw.header.rights) ∧ hm.header.rights = restrictChildRights params.rightsKh (some kw.header.rights) ∧
            wrap.header.rights = restrictChildRights rights (some kw.header.rights))) := by
  have msl : ∀ inKey z, k.prims.hmac 2 (k.prims.hash 2 inKey) (mslSecret z) = netflixKeyBytes k.prims inKey z := by
    intro inKey z
    cases z with
    | nil => rfl
    | cons b z => by_cases hb : b = 0 <;> simp [netflixKeyBytes, mslSecret, hb]
  obtain ⟨o, h1, hre, h2⟩ := exchangeNetflix_cases p hp envs he k hk a ha st hr rights private_ other params caller
  refine ⟨o, h1, ?_⟩
  rcases h2 with ⟨hs, hkey, hsame⟩ | ⟨hs, s1, s2, hmade⟩
  · left
    refine ⟨hs, by simp [clientHandles, hs], fun h u => sameKeys_header p hp st o.store hr hre hsame h u, fun env h u heq => ?_⟩
    exact sameKeys_unwrap env (heq ▸ hp) st o.store (heq ▸ hr) (heq ▸ hre) hsame h u
  · right
    obtain ⟨kw, sk, z, enc, hm, wrap, c1, c2, _, _, c3, _, a1, a2, a3, c4, c5, c6, c7⟩ := hmade.keys
    obtain ⟨w1, x1, o1⟩ := a1.obj
    obtain ⟨w2, x2, o2⟩ := a2.obj
    obtain ⟨w3, x3, o3⟩ := a3.obj
    have n12 : o.ke ≠ o.kh := by
      intro h
      have := a2.free
      rw [← h, o1, if_pos rfl] at this
      simp at this
    have n23 : o.kh ≠ o.key := by
      intro h
      have := a3.free
      rw [← h, o2, if_pos rfl] at this
      simp at this
    have n13 : o.ke ≠ o.key := by
      intro h
      have := a3.free
      rw [← h, o2, if_neg n12, o1, if_pos rfl] at this
      simp at this
    have f2 : (st.obj o.kh).object = none := by
      have := a2.free
      rw [o1, if_neg (fun h => n12 h.symm)] at this
      exact this
    have f3 : (st.obj o.key).object = none := by
      have := a3.free
      rw [o2, if_neg (fun h => n23 h.symm), o1, if_neg (fun h => n13 h.symm)] at this
      exact this
    have inv := ksReachable_inv p hp st hr
    have inv3 := ksReachable_inv p hp o.store a3.reach
    have nobody : ∀ h, (st.obj h).object = none → ∀ v, (keyStoreGetHeader st h v).2.1 ≠ .OK := by
      intro h hf v
      unfold keyStoreGetHeader
      split
      · simp
      · rcases acquire_spec st inv.toLiveInv h v with ⟨h1, _⟩ | ⟨_, _, h2, _⟩ | ⟨_, _, _, _, _, _, h2, _⟩
        · rw [h1]; simp
        · rw [hf] at h2; simp at h2
        · rw [hf] at h2; simp at h2
    refine ⟨hs, by simp [clientHandles, hs], n12, n23, n13, ?_, ?_, kw, sk, z, enc, hm, wrap, c1, c2, c3, ?_, ?_, ?_, by rw [msl]; exact c4, by rw [msl]; exact c5, c6, c7⟩
    · rintro h (rfl | rfl | rfl)
      · exact nobody _ a1.free
      · exact nobody _ f2
      · exact nobody _ f3
    · intro x h1 h2 h3
      rw [o3, if_neg h3, o2, if_neg h2, o1, if_neg h1]
    · have e : o.store.obj o.ke = ⟨some w1, 0, caller⟩ := by rw [o3, if_neg n13, o2, if_neg n12, o1, if_pos rfl]
      exact holds_of p hp o.store inv3 o.ke caller w1 enc (by rw [e]) (by rw [e]) x1
    · have e : o.store.obj o.kh = ⟨some w2, 0, caller⟩ := by rw [o3, if_neg n23, o2, if_pos rfl]
      exact holds_of p hp o.store inv3 o.kh caller w2 hm (by rw [e]) (by rw [e]) x2
    · have e : o.store.obj o.key = ⟨some w3, 0, caller⟩ := by rw [o3, if_pos rfl]
      exact holds_of p hp o.store inv3 o.key caller w3 wrap (by rw [e]) (by rw [e]) x3

/-! ## A concrete case -/

/-- A symmetric key with all rights, then a DH key whose rights are `r`. -/
def ops (r : Rights) : List KsOp :=
  [C29.mkParent 16, .create C08.env0 r none KEY_TYPE_DH (Vector.replicate 1040 0) 128 [4, 4, 4] C08.u7]

def stN (r : Rights) : Option KeyStore := (objectStoreInit WrappedKey 32).bind fun st => ksAfter C08.toy st (ops r)

theorem stN_reachable (r : Rights) : ∀ st, stN r = some st → KsReachable C08.toy st := by
  intro st h
  unfold stN at h
  cases h0 : objectStoreInit WrappedKey 32 with
  | none => rw [h0] at h; simp at h
  | some s0 =>
    rw [h0] at h
    exact ⟨32, s0, ops r, by decide, h0, by simp [ops, C29.mkParent, KsOp.Fits], h⟩

/-- Key exchange is the only use of this key, on HDCP 2.2 and with SVP only. -/
def exchangeOnly : Rights := { rightsAllowAll with usageFlags := 0x401 }

def kwOk (pk : StoredKey) : Bool :=
  rightsAllowedDerive C08.env0.rights pk.header.rights && pk.header.type.toNat == 0 && pk.key.length == 16 &&
    rightsValidateFormat pk.header.rights && decide (Flag pk.header.rights.usageFlags 12)

def skOk (pk : StoredKey) : Bool :=
  rightsAllowedExchange C08.env0.rights pk.header.rights && keyTypeSupportsDh pk.header.type.toNat pk.header.size.toNat && pk.key == [4, 4, 4] &&
    !decide (Flag pk.header.rights.usageFlags 12)

theorem stN_usable : ∃ st kw sk, stN exchangeOnly = some st ∧
    keyStoreUnwrap C08.env0 st 31 C08.u7 = some (st, .OK, some kw) ∧ keyStoreUnwrap C08.env0 st 30 C08.u7 = some (st, .OK, some sk) ∧
    kwOk kw = true ∧ skOk sk = true ∧ ∀ x ∈ [0, 1, 2], x < st.slotCount ∧ (st.obj x).object = none := by
  have h1 : ((stN exchangeOnly).map fun st => [0, 1, 2].all fun x => decide (x < st.slotCount) && (st.obj x).object.isNone) = some true := by
    decide +kernel
  have h2 : ((stN exchangeOnly).bind fun st => keyStoreUnwrap C08.env0 st 31 C08.u7).any (fun r => r.2.1 == .OK && r.2.2.any kwOk) = true := by
    decide +kernel
  have h3 : ((stN exchangeOnly).bind fun st => keyStoreUnwrap C08.env0 st 30 C08.u7).any (fun r => r.2.1 == .OK && r.2.2.any skOk) = true := by
    decide +kernel
  cases h : stN exchangeOnly with
  | none => rw [h] at h1; simp at h1
  | some st =>
    rw [h] at h1 h2 h3
    have hr : KsReachable C08.env0.prims st := stN_reachable _ st h
    have inv := ksReachable_inv _ C08.toy_good st hr
    rcases unwrap_holds C08.env0 C08.toy_good st inv 31 C08.u7 with ⟨s, hs, he⟩ | ⟨kw, he, _⟩
    · simp [he] at h2
    rcases unwrap_holds C08.env0 C08.toy_good st inv 30 C08.u7 with ⟨s, hs, he1⟩ | ⟨sk, he1, _⟩
    · simp [he1] at h3
    simp only [Option.bind_some, he, he1, Option.any_some, Bool.and_eq_true] at h2 h3
    refine ⟨st, kw, sk, rfl, he, he1, h2.2, h3.2, ?_⟩
    intro x hx
    simp only [Option.map_some, Option.some.injEq, List.all_eq_true] at h1
    have := h1 x hx
    simpa using this

def agree : AgreeEnv := { dh := fun k o => .secret (List.replicate 16 (k.headD 0 + o.headD 0)), ecdh := fun _ _ _ => .silent }

theorem agree_good : agree.Good where
  dhFail := by intro k o s h; simp [agree] at h
  ecdhFail := by intro k c o s h; simp [agree] at h
  dhLen := by intro k o z h; simp [agree] at h; rw [← h]; simp
  ecdhLen := by intro k c o z h; simp [agree] at h

def nparams : NetflixParams := { kw := 31, rightsKe := rightsAllowAll, rightsKh := rightsAllowAll }

/-- Run of the body in the store above. -/
theorem stN_runs (k : KdfEnv) (hk : k.prims.Good) (hka : k.allocOk = true) (h0 : k.ok 0 = true) (h1 : k.ok 1 = true) :
    ∃ st, stN exchangeOnly = some st ∧ ∃ o, netflixBody (fun _ => C08.env0) k agree st rightsAllowAll 30 [7] nparams C08.u7 = some o ∧
      o.ke ≠ SLOT_INVALID ∧ o.kh ≠ SLOT_INVALID ∧ (k.ok 2 = false → o.status = .INTERNAL_ERROR) ∧
      (k.ok 2 = true ∧ k.ok 3 = true → o.status = .OK) := by
  obtain ⟨st, kw, sk, hst, hu0, hu1, hkw, hsk, hfree⟩ := stN_usable
  simp only [kwOk, skOk, Bool.and_eq_true, beq_iff_eq] at hkw hsk
  obtain ⟨⟨⟨⟨a, b⟩, c⟩, d⟩, _⟩ := hkw
  obtain ⟨⟨⟨e, f⟩, g⟩, _⟩ := hsk
  refine ⟨st, hst, ?_⟩
  refine netflix_runs C08.toy C08.toy_good (fun _ => C08.env0) (fun _ => rfl) (fun _ _ => rfl) k hk hka h0 h1 agree st (stN_reachable _ st hst) rightsAllowAll
    30 [7] nparams C08.u7 ⟨by decide +kernel, by decide +kernel, by decide +kernel⟩ kw sk (List.replicate 16 11) hu0 a b c d hu1 e f ?_ (by decide)
    [0, 1, 2] (by decide) (by decide) hfree
  rw [g]; rfl

/-- A whole exchange that succeeds. -/
theorem stN_succeeds : ∃ st o, stN exchangeOnly = some st ∧
    exchangeNetflix (fun _ => C08.env0) C29.kenv agree st rightsAllowAll 30 [7] nparams C08.u7 = some o ∧ o.status = .OK := by
  obtain ⟨st, h0, o, ho, _, _, _, hok⟩ := stN_runs C29.kenv C29.toyKdf_good rfl rfl rfl
  refine ⟨st, o, h0, ?_, hok ⟨rfl, rfl⟩⟩
  unfold exchangeNetflix
  rw [ho]
  simp [netflixCleanup, hok ⟨rfl, rfl⟩]

/-- **C45, a remark on the trusted side.**  If the last derivation fails, the keys are removed again, but the trusted application's own
output variables `*out_ke` and `*out_kh` keep the handles (ta_sa_key_exchange.c:367-382); only the client library keeps them from the
application. -/
theorem C45_ta_outputs_stale : ∃ st o, stN exchangeOnly = some st ∧
    exchangeNetflix (fun _ => C08.env0) { C29.kenv with ok := fun i => i != 2 } agree st rightsAllowAll 30 [7] nparams C08.u7 = some o ∧
    o.status = .INTERNAL_ERROR ∧ o.ke ≠ SLOT_INVALID ∧ o.kh ≠ SLOT_INVALID := by
  obtain ⟨st, h0, o, ho, h1, h2, herr, _⟩ := stN_runs { C29.kenv with ok := fun i => i != 2 } C29.toyKdf_good rfl rfl rfl
  obtain ⟨o', ho', _⟩ := exchangeNetflix_cases C08.toy C08.toy_good (fun _ => C08.env0) (fun _ => rfl) { C29.kenv with ok := fun i => i != 2 }
    C29.toyKdf_good agree agree_good st (stN_reachable _ st h0) rightsAllowAll 30 [7] nparams C08.u7
  refine ⟨st, o', h0, ho', ?_⟩
  unfold exchangeNetflix at ho'
  rw [ho] at ho'
  simp only [Option.bind_some, netflixCleanup, herr rfl] at ho'
  rw [if_pos (by simp)] at ho'
  simp only [Option.bind_eq_some_iff, Option.map_eq_some_iff] at ho'
  obtain ⟨_, _, _, _, _, _, rfl⟩ := ho'
  exact ⟨rfl, h1, h2⟩

end Sa.C45

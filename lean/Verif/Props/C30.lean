import Verif.Props.C29

/-!
# C30: concatenation KDF and ANSI X9.63
-/

namespace Sa.C30

/-- **C30, concatenation KDF.**  For every reachable store and all parameters: no out-of-bounds access; the call fails and nothing has
changed, or it makes exactly one key, whose bytes are the first `L` bytes of hash(1 | Z | info) | hash(2 | Z | info) | ... with 32-bit
big-endian counters, where Z is the parent, and whose rights are those asked for, restricted by the parent's. -/
theorem C30_concat (env : Env) (hp : env.prims.Good) (k : KdfEnv) (hk : k.prims.Good) (st : KeyStore) (hr : KsReachable env.prims st)
    (rights : Rights) (L digest parent : Nat) (info : Buf) (caller : Uuid) :
    ∃ st' s h, keyDerive env k st rights (.concat L digest parent info) caller = some (st', s, h) ∧ KsReachable env.prims st' ∧
      ((s ≠ .OK ∧ h = SLOT_INVALID ∧ Unchanged st st') ∨
       (s = .OK ∧ ∃ hashLen pk d, digestLength digest = some hashLen ∧ KeyHeld env.prims st parent caller pk ∧ NewKey env.prims st st' h caller d ∧
          d.key = concatSpec (k.prims.hash digest) hashLen pk.key (info.get.getD []) L ∧ d.key.length = L ∧ d.header.size.toNat = L ∧ d.header.type.toNat = KEY_TYPE_SYMMETRIC ∧
          d.header.rights = restrictChildRights rights (some pk.header.rights))) := by
  unfold keyDerive
  simp only
  split
  · exact ⟨_, _, _, rfl, hr, Or.inl ⟨by simp, rfl, fun _ => rfl⟩⟩
  split
  · exact ⟨_, _, _, rfl, hr, Or.inl ⟨by simp, rfl, fun _ => rfl⟩⟩
  split
  · exact ⟨_, _, _, rfl, hr, Or.inl ⟨by simp, rfl, fun _ => rfl⟩⟩
  rename_i hL hdg
  obtain ⟨n, hd⟩ := digest_le_3 digest (by omega)
  obtain ⟨st', s, h, he, hre, hc⟩ := deriveFrom_outcome env hp st hr rights parent caller (fun _ => true)
    (kdfConcat env k rights L digest info.get) L (by omega) (fun b => concatSpec (k.prims.hash digest) n b (info.get.getD []) L)
    (fun b => concatSpec_length _ hk digest n hd _ _ _)
    (fun pk => (kdfConcat_spec env k hk rights L digest n hd (by omega) info.get pk).imp (·.1) id)
  refine ⟨st', s, h, he, hre, hc.imp id ?_⟩
  rintro ⟨a, pk, d, b, c, e, f, g, t⟩
  exact ⟨a, n, pk, d, hd, b, c, e, f, g, t⟩

/-- **C30, ANSI X9.63.**  The same with hash(Z | 1 | info) | hash(Z | 2 | info) | ... -/
theorem C30_x963 (env : Env) (hp : env.prims.Good) (k : KdfEnv) (hk : k.prims.Good) (st : KeyStore) (hr : KsReachable env.prims st)
    (rights : Rights) (L digest parent : Nat) (info : Buf) (caller : Uuid) :
    ∃ st' s h, keyDerive env k st rights (.x963 L digest parent info) caller = some (st', s, h) ∧ KsReachable env.prims st' ∧
      ((s ≠ .OK ∧ h = SLOT_INVALID ∧ Unchanged st st') ∨
       (s = .OK ∧ ∃ hashLen pk d, digestLength digest = some hashLen ∧ KeyHeld env.prims st parent caller pk ∧ NewKey env.prims st st' h caller d ∧
          d.key = x963Spec (k.prims.hash digest) hashLen pk.key (info.get.getD []) L ∧ d.key.length = L ∧ d.header.size.toNat = L ∧ d.header.type.toNat = KEY_TYPE_SYMMETRIC ∧
          d.header.rights = restrictChildRights rights (some pk.header.rights))) := by
  unfold keyDerive
  simp only
  split
  · exact ⟨_, _, _, rfl, hr, Or.inl ⟨by simp, rfl, fun _ => rfl⟩⟩
  split
  · exact ⟨_, _, _, rfl, hr, Or.inl ⟨by simp, rfl, fun _ => rfl⟩⟩
  split
  · exact ⟨_, _, _, rfl, hr, Or.inl ⟨by simp, rfl, fun _ => rfl⟩⟩
  rename_i hL hdg
  obtain ⟨n, hd⟩ := digest_le_3 digest (by omega)
  obtain ⟨st', s, h, he, hre, hc⟩ := deriveFrom_outcome env hp st hr rights parent caller (fun _ => true)
    (kdfX963 env k rights L digest info.get) L (by omega) (fun b => x963Spec (k.prims.hash digest) n b (info.get.getD []) L)
    (fun b => x963Spec_length _ hk digest n hd _ _ _)
    (fun pk => (kdfX963_spec env k hk rights L digest n hd (by omega) info.get pk).imp (·.1) id)
  refine ⟨st', s, h, he, hre, hc.imp id ?_⟩
  rintro ⟨a, pk, d, b, c, e, f, g, t⟩
  exact ⟨a, n, pk, d, hd, b, c, e, f, g, t⟩

/-- **C30, every supported length.**  With a usable parent, a free slot and no failure outside, both succeed for every length from 16 to
512. -/
theorem C30_supported (env : Env) (hp : env.prims.Good) (hok : ∀ s, env.ok s = true) (k : KdfEnv) (hk : k.prims.Good)
    (hkok : k.allocOk = true ∧ ∀ i, k.ok i = true) (st : KeyStore) (hr : KsReachable env.prims st) (rights : Rights)
    (hrv : rightsValidateFormat rights = true) (L digest parent : Nat) (hL : 16 ≤ L ∧ L ≤ 512) (hdg : digest ≤ 3) (info : Buf)
    (hb : info ≠ .bad) (caller : Uuid) (pk : StoredKey)
    (hu : keyStoreUnwrap env st parent caller = some (st, .OK, some pk)) (hf : Flag pk.header.rights.usageFlags 1)
    (hs : pk.header.type.toNat = KEY_TYPE_SYMMETRIC) (hfree : ∃ h, h < st.slotCount ∧ (st.obj h).object = none) :
    (∃ st' h, keyDerive env k st rights (.concat L digest parent info) caller = some (st', .OK, h)) ∧
    (∃ st' h, keyDerive env k st rights (.x963 L digest parent info) caller = some (st', .OK, h)) := by
  obtain ⟨n, hd⟩ := digest_le_3 digest hdg
  have hpk := deriveParent_of env hp st hr parent caller pk hu hf hs
  unfold keyDerive
  simp only
  have hbad : ¬ (info.isBad = true) := by cases info <;> simp_all [Buf.isBad]
  rw [if_neg hbad, if_neg (by omega), if_neg (by omega), if_neg hbad, if_neg (by omega), if_neg (by omega)]
  constructor
  · rcases kdfConcat_spec env k hk rights L digest n hd hL.2 info.get pk with ⟨_, h⟩ | h
    · exact absurd hkok h
    · exact deriveFrom_succeeds env hp hok st hr rights hrv parent caller _ _ pk hpk rfl L hL _ h hfree
  · rcases kdfX963_spec env k hk rights L digest n hd hL.2 info.get pk with ⟨_, h⟩ | h
    · exact absurd hkok h
    · exact deriveFrom_succeeds env hp hok st hr rights hrv parent caller _ _ pk hpk rfl L hL _ h hfree

/-! ## A concrete case: 70 bytes with SHA-256, three blocks -/

example : ∃ st st1 h1 st2 h2, C29.stP = some st ∧
    keyDerive C08.env0 C29.kenv st rightsAllowAll (.concat 70 1 31 (.bytes [1, 2])) C08.u7 = some (st1, .OK, h1) ∧
    keyDerive C08.env0 C29.kenv st rightsAllowAll (.x963 70 1 31 (.bytes [1, 2])) C08.u7 = some (st2, .OK, h2) := by
  obtain ⟨st, pk, h0, hu, hf, hs, _, _, hfree⟩ := C29.stP_usable
  obtain ⟨⟨st1, h1, e1⟩, ⟨st2, h2, e2⟩⟩ := C30_supported C08.env0 C08.toy_good (fun _ => rfl) C29.kenv C29.toyKdf_good ⟨rfl, fun _ => rfl⟩ st
    (C29.stP_reachable st h0) rightsAllowAll (by decide +kernel) 70 1 31 (by omega) (by omega) (.bytes [1, 2]) (by simp) C08.u7 pk hu hf hs hfree
  exact ⟨st, st1, h1, st2, h2, h0, e1, e2⟩
/-- The order of the inputs matters. -/
example : concatSpec (C29.toyKdf.hash 1) 32 (List.replicate 16 5) [1, 2] 70 ≠ x963Spec (C29.toyKdf.hash 1) 32 (List.replicate 16 5) [1, 2] 70 := by
  decide +kernel

end Sa.C30

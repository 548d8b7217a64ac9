import Verif.Lemmas.UnwrapComplete
import Verif.Props.C29

/-!
# C53: unwrapping imports exactly what was wrapped
-/

namespace Sa.C53

/-- **C53.**  For every store reached by any history, every algorithm and parameters, every input, and any failures outside: the call either
fails and changes nothing, or the wrapping key is held by the caller, releasable to it now, has the unwrap right and a fitting type, and
exactly one new key exists: its bytes are what the input contains under the algorithm, its type is the one asked for, and its rights are the
requested ones restricted by the wrapping key's. -/
theorem C53_unwrap (env : Env) (hp : env.prims.Good) (u : UnwrapEnv) (hu : u.prims.Good) (st : KeyStore) (hr : KsReachable env.prims st)
    (t : UnwrapTarget) (params : UnwrapParams) (wrapping : Nat) (input : Bytes) (caller : Uuid) (hl : input.length + 16 < 2 ^ 64)
    (hb : params.HasBlock input) :
    ∃ st' s h, keyUnwrapOp env u st t params wrapping input caller = some (st', s, h) ∧ KsReachable env.prims st' ∧
      ((s ≠ .OK ∧ h = SLOT_INVALID ∧ Unchanged st st') ∨
       (s = .OK ∧ ∃ wk d, KeyHeld env.prims st wrapping caller wk ∧ useResult env wk caller = (.OK, some wk) ∧
          Flag wk.header.rights.usageFlags 2 ∧ WrappingFits params wk.header ∧ NewKey env.prims st st' h caller d ∧
          UnwrapClear env.prims u.prims wk params input d.key ∧ d.header.type.toNat = t.keyType ∧
          (t.keyType = KEY_TYPE_SYMMETRIC → d.header.size.toNat = d.key.length) ∧
          d.header.rights = restrictChildRights t.rights (some wk.header.rights))) := by
  obtain ⟨st', s, h, he, hre, hc⟩ := keyUnwrapOp_cases env hp u hu st hr t params wrapping input caller hl hb
  refine ⟨st', s, h, he, hre, hc.imp id ?_⟩
  rintro ⟨a, wk, d, h1, h2, h3, h4, h5, h6, h7, h8, h9⟩
  refine ⟨a, wk, d, h1, h2, ?_, h4, h9, h5, h7, fun hs => ?_, h6⟩
  · unfold rightsAllowedUnwrap at h3
    split at h3
    · simp at h3
    · rename_i hb
      exact (bitTest_iff _ 2 (by omega)).mp (by simpa [FLAG_UNWRAP] using hb)
  · rcases h8 with h | h | h
    · exact h.2
    · rw [hs] at h; exact absurd h.1 (by decide)
    · rw [hs] at h; exact absurd h.1 (by decide)

/-- **C53, what is well formed is accepted.**  A symmetric key of 16 to 512 bytes that is properly wrapped under a key the caller may use is
unwrapped if nothing fails outside and there is a free slot. -/
theorem C53_complete (env : Env) (hp : env.prims.Good) (hok : ∀ s, env.ok s = true) (u : UnwrapEnv) (hu : u.prims.Good)
    (huok : u.allocOk = true ∧ u.ok = true) (st : KeyStore) (hr : KsReachable env.prims st) (t : UnwrapTarget)
    (hrv : rightsValidateFormat t.rights = true) (hkt : t.keyType = KEY_TYPE_SYMMETRIC) (params : UnwrapParams) (wrapping : Nat) (input : Bytes)
    (caller : Uuid) (ha : UnwrapAcceptable t params input) (wk : StoredKey)
    (hw : keyStoreUnwrap env st wrapping caller = some (st, .OK, some wk)) (hf : WrappingFits params wk.header)
    (hal : rightsAllowedUnwrap env.rights wk.header.rights = true)
    (hkl : wk.key.length = wk.header.size.toNat ∨ wk.header.type.toNat ≠ KEY_TYPE_SYMMETRIC)
    (key : Bytes) (hk : 16 ≤ key.length ∧ key.length ≤ 512) (hc : UnwrapClear env.prims u.prims wk params input key)
    (hlen : UnwrapLengths u.prims params input wk) (hfree : ∃ h, h < st.slotCount ∧ (st.obj h).object = none) :
    ∃ st' h, keyUnwrapOp env u st t params wrapping input caller = some (st', .OK, h) :=
  keyUnwrapOp_complete env hp hok u hu huok st hr t hrv hkt params wrapping input caller ha wk hw hf hal hkl key hk hc hlen hfree

/-! ## A concrete case -/

/-- Toy ciphers. -/
def toyU : UnwrapPrims where
  aesCtr k iv m := m.map (· + k.headD 0 + iv.headD 0)
  gcmDec k iv m := m.map (· + k.headD 0 + iv.headD 0)
  gcmTag k iv a m := C29.toyTag k (iv ++ a ++ m) 16
  chacha20 k iv m := m.map (· + k.headD 0 + iv.headD 0)
  polyDec k iv m := m.map (· + k.headD 0 + iv.headD 0)
  polyTag k iv a m := C29.toyTag k (iv ++ a ++ m) 16
  rsaPkcs1 _ m := some (m.take 32)
  rsaOaep _ _ _ _ m := some (m.take 16)
  elgamal _ _ m := some (m.take (m.length / 2))
  ecValid _ _ := true
  rsaSize m := m.length

theorem toyU_good : toyU.Good where
  ctrLen := by intros; simp [toyU]
  gcmLen := by intros; simp [toyU]
  gcmTagLen := by intros; simp [toyU, C29.toyTag]
  chachaLen := by intros; simp [toyU]
  polyLen := by intros; simp [toyU]
  polyTagLen := by intros; simp [toyU, C29.toyTag]
  rsaPkcs1Len := by intro k m r h; simp [toyU] at h; rw [← h]; simp; omega
  rsaOaepLen := by intro k d g l m r h; simp [toyU] at h; rw [← h]; simp; omega

def uenv : UnwrapEnv := { prims := toyU, allocOk := true, ok := true }

def sym : UnwrapTarget := { rights := rightsAllowAll, keyType := KEY_TYPE_SYMMETRIC, curve := none }

/-- The key of the store `C29.stP` can unwrap. -/
theorem stP_unwraps : ∃ st wk, C29.stP = some st ∧ KsReachable C08.toy st ∧ keyStoreUnwrap C08.env0 st 31 C08.u7 = some (st, .OK, some wk) ∧
    rightsAllowedUnwrap C08.env0.rights wk.header.rights = true ∧ wk.header.type.toNat = KEY_TYPE_SYMMETRIC ∧ wk.key = List.replicate 16 5 ∧
    wk.header.size.toNat = 16 ∧ ∃ h, h < st.slotCount ∧ (st.obj h).object = none := by
  obtain ⟨st, pk, h0, hu, _, hs, hk, hsz, hfree⟩ := C29.stP_usable
  have h2 : (C29.stP.bind fun st => keyStoreUnwrap C08.env0 st 31 C08.u7).any (fun r => r.2.2.any fun pk =>
      rightsAllowedUnwrap C08.env0.rights pk.header.rights) = true := by decide +kernel
  rw [h0] at h2
  simp only [Option.bind_some, hu, Option.any_some] at h2
  exact ⟨st, pk, h0, C29.stP_reachable st h0, hu, h2, hs, hk, hsz, hfree⟩

/-- A CTR-wrapped key of 20 bytes is unwrapped. -/
example : ∃ st st' h, C29.stP = some st ∧ keyUnwrapOp C08.env0 uenv st sym (.ctr (some (some (List.replicate 16 3)))) 31 (List.replicate 20 9) C08.u7 =
    some (st', .OK, h) := by
  obtain ⟨st, wk, h0, hre, hu, hal, hs, hk, hsz, hfree⟩ := stP_unwraps
  obtain ⟨st', h, he⟩ := C53_complete C08.env0 C08.toy_good (fun _ => rfl) uenv toyU_good ⟨rfl, rfl⟩ st hre sym (by decide +kernel) rfl
    (.ctr (some (some (List.replicate 16 3)))) 31 (List.replicate 20 9) C08.u7 (by simp [UnwrapAcceptable]) wk hu ⟨hs, Or.inl hsz⟩ hal
    (Or.inl (by rw [hk, hsz]; rfl)) (List.replicate 20 17) (by simp)
    (by simp only [UnwrapClear]; rw [hk]; decide) trivial hfree
  exact ⟨st, st', h, h0, he⟩

end Sa.C53

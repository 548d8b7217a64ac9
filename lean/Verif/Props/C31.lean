import Verif.Props.C29

/-!
# C31: CMAC KDF
-/

namespace Sa.C31

/-- The counter and length are accepted: blocks `counter .. counter + L / 16 - 1` are among the four blocks of the schedule. -/
def Accepted (L counter : Nat) : Prop := L % 16 = 0 ∧ 1 ≤ counter ∧ counter ≤ 4 ∧ counter + L / 16 ≤ 5

/-- **C31.**  For every reachable store and all parameters: no out-of-bounds access (of the 64 byte schedule or of the result); the call fails
and nothing has changed, or the combination is accepted and exactly one key is made, whose bytes are the blocks `counter ..
counter + L / 16 - 1`, CMAC(parent, i | other_data), and whose rights are those asked for, restricted by the parent's. -/
theorem C31_cmac (env : Env) (hp : env.prims.Good) (k : KdfEnv) (hk : k.prims.Good) (st : KeyStore) (hr : KsReachable env.prims st)
    (rights : Rights) (L counter parent : Nat) (other : Buf) (caller : Uuid) :
    ∃ st' s h, keyDerive env k st rights (.cmac L counter parent other) caller = some (st', s, h) ∧ KsReachable env.prims st' ∧
      ((s ≠ .OK ∧ h = SLOT_INVALID ∧ Unchanged st st') ∨
       (s = .OK ∧ Accepted L counter ∧ ∃ pk d, KeyHeld env.prims st parent caller pk ∧ NewKey env.prims st st' h caller d ∧
          d.key = cmacSpec (k.prims.cmac pk.key) (other.get.getD []) counter L ∧ d.key.length = L ∧ d.header.size.toNat = L ∧ d.header.type.toNat = KEY_TYPE_SYMMETRIC ∧
          d.header.rights = restrictChildRights rights (some pk.header.rights))) := by
  unfold keyDerive
  simp only
  split
  · exact ⟨_, _, _, rfl, hr, Or.inl ⟨by simp, rfl, fun _ => rfl⟩⟩
  split
  · exact ⟨_, _, _, rfl, hr, Or.inl ⟨by simp, rfl, fun _ => rfl⟩⟩
  split
  · exact ⟨_, _, _, rfl, hr, Or.inl ⟨by simp, rfl, fun _ => rfl⟩⟩
  split
  · exact ⟨_, _, _, rfl, hr, Or.inl ⟨by simp, rfl, fun _ => rfl⟩⟩
  rename_i hc h16 hLc
  obtain ⟨st', s, h, he, hre, hcs⟩ := deriveFrom_outcome env hp st hr rights parent caller
    (fun h => keyTypeSupportsAes h.type.toNat h.size.toNat)
    (kdfCmac env k rights L counter other.get) L (by omega) (fun b => cmacSpec (k.prims.cmac b) (other.get.getD []) counter L)
    (fun b => cmacSpec_length _ (fun _ => hk.cmacLen _ _) _ _ _ (by omega))
    (fun pk => (kdfCmac_spec env k hk rights L counter (by omega) (by omega) (by omega) (by omega) other.get pk).imp (·.1) id)
  refine ⟨st', s, h, he, hre, hcs.imp id ?_⟩
  rintro ⟨a, pk, d, b, c, e, f, g, t⟩
  exact ⟨a, ⟨by omega, by omega, by omega, by omega⟩, pk, d, b, c, e, f, g, t⟩

/-- **C31, other combinations.**  They are rejected with INVALID_PARAMETER. -/
theorem C31_rejected (env : Env) (k : KdfEnv) (st : KeyStore) (rights : Rights) (L counter parent : Nat) (other : Buf) (ho : other ≠ .bad)
    (caller : Uuid) (h : ¬ Accepted L counter) :
    keyDerive env k st rights (.cmac L counter parent other) caller = some (st, .INVALID_PARAMETER, SLOT_INVALID) := by
  unfold Accepted at h
  unfold keyDerive
  simp only
  rw [if_neg (by cases other <;> simp_all [Buf.isBad])]
  split
  · rfl
  split
  · rfl
  split
  · rfl
  · omega

/-- **C31, accepted combinations succeed** with a usable AES parent (whose key has the length its header says), a free slot and no failure
outside, except for an empty key. -/
theorem C31_supported (env : Env) (hp : env.prims.Good) (hok : ∀ s, env.ok s = true) (k : KdfEnv) (hk : k.prims.Good)
    (hkok : k.allocOk = true ∧ ∀ i, k.ok i = true) (st : KeyStore) (hr : KsReachable env.prims st) (rights : Rights)
    (hrv : rightsValidateFormat rights = true) (L counter parent : Nat) (hacc : Accepted L counter) (hL : 0 < L) (other : Buf)
    (hb : other ≠ .bad) (caller : Uuid) (pk : StoredKey)
    (hu : keyStoreUnwrap env st parent caller = some (st, .OK, some pk)) (hf : Flag pk.header.rights.usageFlags 1)
    (hs : pk.header.type.toNat = KEY_TYPE_SYMMETRIC) (hlen : pk.key.length = pk.header.size.toNat)
    (haes : pk.header.size.toNat = 16 ∨ pk.header.size.toNat = 32) (hfree : ∃ h, h < st.slotCount ∧ (st.obj h).object = none) :
    ∃ st' h, keyDerive env k st rights (.cmac L counter parent other) caller = some (st', .OK, h) := by
  obtain ⟨a1, a2, a3, a4⟩ := hacc
  have hpk := deriveParent_of env hp st hr parent caller pk hu hf hs
  unfold keyDerive
  simp only
  rw [if_neg (by cases other <;> simp_all [Buf.isBad]), if_neg (by omega), if_neg (by omega), if_neg (by omega)]
  rcases kdfCmac_spec env k hk rights L counter a1 a2 a3 (by omega) other.get pk with ⟨_, h⟩ | h
  · exact absurd ⟨hkok, by omega⟩ h
  · refine deriveFrom_succeeds env hp hok st hr rights hrv parent caller _ _ pk hpk ?_ L (by omega) _ h hfree
    simp only [keyTypeSupportsAes, hs]
    rcases haes with h | h <;> rw [h] <;> decide

/-! ## A concrete case: two blocks starting at the third; starting at the fourth is refused -/

example : ∃ st st' h, C29.stP = some st ∧
    keyDerive C08.env0 C29.kenv st rightsAllowAll (.cmac 32 3 31 (.bytes [1, 2])) C08.u7 = some (st', .OK, h) := by
  obtain ⟨st, pk, h0, hu, hf, hs, hk, hz, hfree⟩ := C29.stP_usable
  obtain ⟨st', h, he⟩ := C31_supported C08.env0 C08.toy_good (fun _ => rfl) C29.kenv C29.toyKdf_good ⟨rfl, fun _ => rfl⟩ st
    (C29.stP_reachable st h0) rightsAllowAll (by decide +kernel) 32 3 31 (by unfold Accepted; omega) (by omega) (.bytes [1, 2]) (by simp) C08.u7
    pk hu hf hs (by rw [hk, hz]; rfl) (Or.inl hz) hfree
  exact ⟨st, st', h, h0, he⟩
example : cmacSpec (C29.toyKdf.cmac (List.replicate 16 5)) [1, 2] 3 32 =
    C29.toyKdf.cmac (List.replicate 16 5) [3, 1, 2] ++ C29.toyKdf.cmac (List.replicate 16 5) [4, 1, 2] := by decide +kernel
example : (C29.stP.bind fun st => keyDerive C08.env0 C29.kenv st rightsAllowAll (.cmac 32 4 31 (.bytes [1, 2])) C08.u7).map (fun r => r.2) =
    some (.INVALID_PARAMETER, SLOT_INVALID) := by decide +kernel

end Sa.C31

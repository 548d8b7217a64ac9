import Verif.Lemmas.Derive
import Verif.Props.C08

/-!
# C29: HKDF
-/

namespace Sa.C29

/-- **C29.**  For every store reached by any history, every requested length, digest, salt, info and parent, and any failures outside: the
call never accesses memory out of bounds; either it fails, and nothing has changed, or it makes exactly one key, whose bytes are the first
`L` bytes of T(1) | T(2) | ... of RFC 5869 of the parent's bytes and whose rights are those asked for, restricted by the parent's. -/
theorem C29_hkdf (env : Env) (hp : env.prims.Good) (k : KdfEnv) (hk : k.prims.Good) (st : KeyStore) (hr : KsReachable env.prims st)
    (rights : Rights) (L digest parent : Nat) (salt info : Buf) (caller : Uuid) :
    ∃ st' s h, keyDerive env k st rights (.hkdf L digest parent salt info) caller = some (st', s, h) ∧ KsReachable env.prims st' ∧
      ((s ≠ .OK ∧ h = SLOT_INVALID ∧ Unchanged st st') ∨
       (s = .OK ∧ ∃ hashLen pk d, digestLength digest = some hashLen ∧ KeyHeld env.prims st parent caller pk ∧ NewKey env.prims st st' h caller d ∧
          d.key = hkdfSpec (k.prims.hmac digest) hashLen salt.get pk.key (info.get.getD []) L ∧ d.key.length = L ∧ d.header.size.toNat = L ∧ d.header.type.toNat = KEY_TYPE_SYMMETRIC ∧
          d.header.rights = restrictChildRights rights (some pk.header.rights))) := by
  unfold keyDerive
  simp only
  split
  · exact ⟨_, _, _, rfl, hr, Or.inl ⟨by simp, rfl, fun _ => rfl⟩⟩
  split
  · exact ⟨_, _, _, rfl, hr, Or.inl ⟨by simp, rfl, fun _ => rfl⟩⟩
  split
  · exact ⟨_, _, _, rfl, hr, Or.inl ⟨by simp, rfl, fun _ => rfl⟩⟩
  split
  · exact ⟨_, _, _, rfl, hr, Or.inl ⟨by simp, rfl, fun _ => rfl⟩⟩
  rename_i hL hdg
  obtain ⟨n, hd⟩ := digest_le_3 digest (by omega)
  obtain ⟨st', s, h, he, hre, hc⟩ := deriveFrom_outcome env hp st hr rights parent caller _
    (kdfHkdf env k rights L digest salt.get info.get) L (by omega) (fun b => hkdfSpec (k.prims.hmac digest) n salt.get b (info.get.getD []) L)
    (fun b => hkdfSpec_length _ hk digest n hd _ _ _ _)
    (fun pk => (kdfHkdf_spec env k hk rights L digest n hd (by omega) salt.get info.get pk).imp (·.1) id)
  refine ⟨st', s, h, he, hre, hc.imp id ?_⟩
  rintro ⟨a, pk, d, b, c, e, f, g, t⟩
  exact ⟨a, n, pk, d, hd, b, c, e, f, g, t⟩

/-- **C29, every supported length.**  With a parent that the caller may use for derivation, a free slot and no failure outside, every length
from 16 to 512 succeeds. -/
theorem C29_supported (env : Env) (hp : env.prims.Good) (hok : ∀ s, env.ok s = true) (k : KdfEnv) (hk : k.prims.Good)
    (hkok : k.allocOk = true ∧ ∀ i, k.ok i = true) (st : KeyStore) (hr : KsReachable env.prims st) (rights : Rights)
    (hrv : rightsValidateFormat rights = true) (L digest parent : Nat) (hL : 16 ≤ L ∧ L ≤ 512) (hdg : digest ≤ 3) (salt info : Buf)
    (hb : salt ≠ .bad ∧ info ≠ .bad) (caller : Uuid) (pk : StoredKey)
    (hu : keyStoreUnwrap env st parent caller = some (st, .OK, some pk)) (hf : Flag pk.header.rights.usageFlags 1)
    (hs : pk.header.type.toNat = KEY_TYPE_SYMMETRIC) (hfree : ∃ h, h < st.slotCount ∧ (st.obj h).object = none) :
    ∃ st' h, keyDerive env k st rights (.hkdf L digest parent salt info) caller = some (st', .OK, h) := by
  obtain ⟨n, hd⟩ := digest_le_3 digest hdg
  have hpk := deriveParent_of env hp st hr parent caller pk hu hf hs
  unfold keyDerive
  simp only
  rw [if_neg (by cases info <;> simp_all [Buf.isBad]), if_neg (by cases salt <;> simp_all [Buf.isBad]), if_neg (by omega), if_neg (by omega)]
  rcases kdfHkdf_spec env k hk rights L digest n hd hL.2 salt.get info.get pk with ⟨_, h⟩ | h
  · exact absurd hkok h
  · refine deriveFrom_succeeds env hp hok st hr rights hrv parent caller _ _ pk hpk ?_ L hL _ h hfree
    rcases unwrap_holds env hp st (ksReachable_inv _ hp st hr) parent caller with ⟨s, h, he⟩ | ⟨k, he, hh, hm, _⟩
    · rw [hu] at he; simp only [Option.some.injEq, Prod.mk.injEq, true_and] at he; exact absurd he.1.symm h
    · rw [hu] at he
      simp only [Option.some.injEq, Prod.mk.injEq, true_and] at he
      subst he
      have := hm.size
      exact supportsHmac_of_symmetric _ hs this

/-! ## A concrete case -/

/-- Toy digests: made of the first byte of the key, the first and the last byte of the message and its length. -/
def toyTag (k m : Bytes) (n : Nat) : Bytes := (List.range n).map fun i => k.headD 0 + m.headD 0 + m.getLastD 0 + UInt8.ofNat (i + m.length)

def toyKdf : KdfPrims where
  hash d m := toyTag [] m ((digestLength d).getD 0)
  hmac d k m := toyTag k m ((digestLength d).getD 0)
  cmac k m := toyTag k m 16

theorem toyKdf_good : toyKdf.Good where
  hashLen d n m h := by simp [toyKdf, toyTag, h]
  hmacLen d n key m h := by simp [toyKdf, toyTag, h]
  cmacLen key m := by simp [toyKdf, toyTag]
  hmacPad d n m h := by cases n <;> simp [toyKdf, toyTag, h, List.replicate_succ]

def kenv : KdfEnv := { prims := toyKdf, allocOk := true, ok := fun _ => true, garbage := fun _ => 0xee }

/-- A parent with the derive right. -/
def mkParent (n : Nat) : KsOp := .create C08.env0 rightsAllowAll none 0 (Vector.replicate 1040 0) n (List.replicate n 5) C08.u7

def stP : Option KeyStore := (objectStoreInit WrappedKey 32).bind fun st => ksAfter C08.toy st [mkParent 16]

theorem stP_reachable : ∀ st, stP = some st → KsReachable C08.toy st := by
  intro st h
  unfold stP at h
  cases h0 : objectStoreInit WrappedKey 32 with
  | none => rw [h0] at h; simp at h
  | some s0 =>
    rw [h0] at h
    exact ⟨32, s0, [mkParent 16], by decide, h0, by simp [mkParent, KsOp.Fits], h⟩

/-- The parent of the store `stP` meets the hypotheses of `C29_supported`. -/
theorem stP_usable : ∃ st pk, stP = some st ∧ keyStoreUnwrap C08.env0 st 31 C08.u7 = some (st, .OK, some pk) ∧
    Flag pk.header.rights.usageFlags 1 ∧ pk.header.type.toNat = KEY_TYPE_SYMMETRIC ∧ pk.key = List.replicate 16 5 ∧
    pk.header.size.toNat = 16 ∧ ∃ h, h < st.slotCount ∧ (st.obj h).object = none := by
  have h1 : (stP.map fun st => decide (30 < st.slotCount) && (st.obj 30).object.isNone) = some true := by decide +kernel
  have h2 : (stP.bind fun st => keyStoreUnwrap C08.env0 st 31 C08.u7).any (fun r => r.2.1 == .OK && r.2.2.any fun pk =>
        decide (Flag pk.header.rights.usageFlags 1) && pk.header.type.toNat == 0 && pk.key == List.replicate 16 5 &&
          pk.header.size.toNat == 16) = true := by decide +kernel
  cases h : stP with
  | none => rw [h] at h1; simp at h1
  | some st =>
    rw [h] at h1 h2
    simp only [Option.map_some, Option.some.injEq, Bool.and_eq_true, decide_eq_true_eq, Option.isNone_iff_eq_none] at h1
    have hr : KsReachable C08.env0.prims st := stP_reachable st h
    rcases unwrap_holds C08.env0 C08.toy_good st (ksReachable_inv _ C08.toy_good st hr) 31 C08.u7 with ⟨s, hs, he⟩ | ⟨pk, he, _⟩
    · simp [he] at h2
    · simp only [Option.bind_some, he, Option.any_some, Bool.and_eq_true, beq_iff_eq, decide_eq_true_eq] at h2
      obtain ⟨_, ⟨⟨a, b⟩, c⟩, d⟩ := h2
      exact ⟨st, pk, rfl, he, a, b, c, d, 30, h1⟩

/-- 50 bytes with SHA-1 (three blocks, the last one cut) are derived. -/
example : ∃ st st' h, stP = some st ∧
    keyDerive C08.env0 kenv st rightsAllowAll (.hkdf 50 0 31 .null (.bytes [1, 2])) C08.u7 = some (st', .OK, h) := by
  obtain ⟨st, pk, h0, hu, hf, hs, _, _, hfree⟩ := stP_usable
  obtain ⟨st', h, he⟩ := C29_supported C08.env0 C08.toy_good (fun _ => rfl) kenv toyKdf_good ⟨rfl, fun _ => rfl⟩ st (stP_reachable st h0)
    rightsAllowAll (by decide +kernel) 50 0 31 (by omega) (by omega) .null (.bytes [1, 2]) (by simp) C08.u7 pk hu hf hs hfree
  exact ⟨st, st', h, h0, he⟩
/-- They are these. -/
example : hkdfSpec (toyKdf.hmac 0) 20 none (List.replicate 16 5) [1, 2] 50 =
    (List.range 20).map (fun i => UInt8.ofNat (31 + i)) ++ (List.range 20).map (fun i => UInt8.ofNat (82 + i)) ++
      (List.range 10).map (fun i => UInt8.ofNat (134 + i)) := by decide +kernel
/-- 513 bytes are refused. -/
example : (stP.bind fun st => keyDerive C08.env0 kenv st rightsAllowAll (.hkdf 513 0 31 .null .null) C08.u7).map (fun r => r.2) =
    some (.INVALID_PARAMETER, SLOT_INVALID) := by decide +kernel

end Sa.C29

import Verif.Props.C53

/-!
# C48: EC ElGamal unwrap selects exactly the asked bytes
-/

namespace Sa.C48

/-- **C48.**  For every store, key, input, 64-bit offset and length: the call stays in bounds; if it succeeds, offset + length (as numbers)
does not exceed the size of the point's coordinate and the new key consists of exactly the bytes offset .. offset + length of the decrypted
point. -/
theorem C48_elgamal (env : Env) (hp : env.prims.Good) (u : UnwrapEnv) (hu : u.prims.Good) (st : KeyStore) (hr : KsReachable env.prims st)
    (t : UnwrapTarget) (offset len : UInt64) (wrapping : Nat) (input : Bytes) (caller : Uuid) (hl : input.length + 16 < 2 ^ 64) :
    ∃ st' s h, keyUnwrapOp env u st t (.elgamal (some (offset, len))) wrapping input caller = some (st', s, h) ∧
      ((s ≠ .OK ∧ h = SLOT_INVALID ∧ Unchanged st st') ∨
       (s = .OK ∧ ∃ wk d point, KeyHeld env.prims st wrapping caller wk ∧ NewKey env.prims st st' h caller d ∧
          u.prims.elgamal wk.key (curveOf wk.header.typeParameters) input = some point ∧
          offset.toNat + len.toNat ≤ wk.header.size.toNat ∧ d.key.length = len.toNat ∧ d.header.size.toNat = len.toNat ∧
          ∀ i, i < len.toNat → d.key[i]? = point[offset.toNat + i]?)) := by
  obtain ⟨st', s, h, he, _, hc⟩ := keyUnwrapOp_cases env hp u hu st hr t (.elgamal (some (offset, len))) wrapping input caller hl trivial
  refine ⟨st', s, h, he, hc.imp id ?_⟩
  rintro ⟨a, wk, d, h1, _, _, _, ⟨point, c1, c2, c3, c4⟩, _, _, h8, h9⟩
  refine ⟨a, wk, d, point, h1, h9, c1, c2, c3, ?_, c4⟩
  have hsym : t.keyType = KEY_TYPE_SYMMETRIC := by
    apply Classical.byContradiction
    intro hne
    simp only [keyUnwrapOp] at he
    rw [if_pos hne] at he
    simp only [Option.some.injEq, Prod.mk.injEq] at he
    rw [a] at he
    simp at he
  rcases h8 with h | h | h
  · rw [h.2, c3]
  · rw [hsym] at h; exact absurd h.1 (by decide)
  · rw [hsym] at h; exact absurd h.1 (by decide)

/-- **C48, rejection.**  If offset + length exceeds the size of the wrapping key's curve, for any 64-bit values, the call fails and nothing
changes. -/
theorem C48_rejected (env : Env) (hp : env.prims.Good) (u : UnwrapEnv) (hu : u.prims.Good) (st : KeyStore) (hr : KsReachable env.prims st)
    (t : UnwrapTarget) (offset len : UInt64) (wrapping : Nat) (input : Bytes) (caller : Uuid) (hl : input.length + 16 < 2 ^ 64) (wk : StoredKey)
    (hw : KeyHeld env.prims st wrapping caller wk) (hbig : offset.toNat + len.toNat > wk.header.size.toNat) :
    ∃ st' s, keyUnwrapOp env u st t (.elgamal (some (offset, len))) wrapping input caller = some (st', s, SLOT_INVALID) ∧ s ≠ .OK ∧
      Unchanged st st' := by
  obtain ⟨st', s, h, he, _, hc⟩ := keyUnwrapOp_cases env hp u hu st hr t (.elgamal (some (offset, len))) wrapping input caller hl trivial
  rcases hc with ⟨h1, h2, h3⟩ | ⟨_, wk', d, h1, h2, _, _, ⟨point, _, c2, _⟩, _⟩
  · exact ⟨st', s, by rw [he, h2], h1, h3⟩
  · have : wk' = wk := by
      have := h1.2 env rfl
      rw [h2] at this
      exact KeyHeld.unique env.prims st wrapping caller wk wk' env rfl hw this
    subst this
    omega

/-! ## A concrete case -/

/-- A P-256 key with all rights. -/
def mkEc : KsOp := .create C08.env0 rightsAllowAll none KEY_TYPE_EC (Vector.replicate 1040 0) 32 (List.replicate 32 5) C08.u7

def stE : Option KeyStore := (objectStoreInit WrappedKey 32).bind fun st => ksAfter C08.toy st [mkEc]

theorem stE_reachable : ∀ st, stE = some st → KsReachable C08.toy st := by
  intro st h
  unfold stE at h
  cases h0 : objectStoreInit WrappedKey 32 with
  | none => rw [h0] at h; simp at h
  | some s0 =>
    rw [h0] at h
    exact ⟨32, s0, [mkEc], by decide, h0, by simp [mkEc, KsOp.Fits], h⟩

theorem stE_usable : ∃ st pk, stE = some st ∧ keyStoreUnwrap C08.env0 st 31 C08.u7 = some (st, .OK, some pk) ∧
    rightsAllowedUnwrap C08.env0.rights pk.header.rights = true ∧ pk.header.type.toNat = KEY_TYPE_EC ∧
    curveOf pk.header.typeParameters = CURVE_P256 ∧ pk.header.size.toNat = 32 ∧ ∃ h, h < st.slotCount ∧ (st.obj h).object = none := by
  have h1 : (stE.map fun st => decide (30 < st.slotCount) && (st.obj 30).object.isNone) = some true := by decide +kernel
  have h2 : (stE.bind fun st => keyStoreUnwrap C08.env0 st 31 C08.u7).any (fun r => r.2.1 == .OK && r.2.2.any fun pk =>
        rightsAllowedUnwrap C08.env0.rights pk.header.rights && pk.header.type.toNat == 1 && curveOf pk.header.typeParameters == 0 &&
          pk.header.size.toNat == 32) = true := by decide +kernel
  cases h : stE with
  | none => rw [h] at h1; simp at h1
  | some st =>
    rw [h] at h1 h2
    simp only [Option.map_some, Option.some.injEq, Bool.and_eq_true, decide_eq_true_eq, Option.isNone_iff_eq_none] at h1
    have hr : KsReachable C08.env0.prims st := stE_reachable st h
    rcases unwrap_holds C08.env0 C08.toy_good st (ksReachable_inv _ C08.toy_good st hr) 31 C08.u7 with ⟨s, hs, he⟩ | ⟨pk, he, _⟩
    · simp [he] at h2
    · simp only [Option.bind_some, he, Option.any_some, Bool.and_eq_true, beq_iff_eq] at h2
      obtain ⟨_, ⟨⟨a, b⟩, c⟩, d⟩ := h2
      exact ⟨st, pk, rfl, he, a, b, c, d, 30, h1⟩

/-- Bytes 4 to 24 of the point are taken. -/
example : ∃ st st' h, stE = some st ∧
    keyUnwrapOp C08.env0 C53.uenv st C53.sym (.elgamal (some (4, 20))) 31 ((List.range 128).map UInt8.ofNat) C08.u7 = some (st', .OK, h) := by
  obtain ⟨st, wk, h0, hu, hal, hty, hcv, hsz, hfree⟩ := stE_usable
  obtain ⟨st', h, he⟩ := C53.C53_complete C08.env0 C08.toy_good (fun _ => rfl) C53.uenv C53.toyU_good ⟨rfl, rfl⟩ st (stE_reachable st h0) C53.sym
    (by decide +kernel) rfl (.elgamal (some (4, 20))) 31 ((List.range 128).map UInt8.ofNat) C08.u7 rfl wk hu hty hal
    (Or.inr (by rw [hty]; decide)) ((List.range 20).map fun i => UInt8.ofNat (i + 4)) (by decide)
    ⟨_, rfl, by rw [hsz]; decide, by decide, by decide +kernel⟩
    ⟨by decide, by rw [hsz, hcv]; rfl, by rw [hsz]; rfl, by rw [hsz]; intro pt hpt; simp [C53.uenv, C53.toyU] at hpt; rw [← hpt]; rfl,
      by rw [hty, hcv, hsz]; decide⟩ hfree
  exact ⟨st, st', h, h0, he⟩

end Sa.C48

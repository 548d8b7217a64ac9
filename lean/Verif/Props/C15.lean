import Verif.Props.C13

/-!
# C15: only cacheable keys can leave the store
-/

namespace Sa.C15

/-- **C15.**  For every reachable store and every export call: the store is unchanged and nothing goes out of bounds; either the
call fails, and then the length and the buffer are untouched, or the handle is live and the caller's own, its key has the cacheable
right (flag 13), and a NULL buffer (size query) stays NULL, while a given buffer of at least the reported length keeps its length and
its bytes beyond the reported length. -/
theorem C15_export_needs_cacheable (env : Env) (hp : env.prims.Good) (st : KeyStore) (hr : KsReachable env.prims st) (key : Nat)
    (mixin out : Option Bytes) (outLength : Nat) (hout : ∀ b, out = some b → b.length = outLength) (caller : Uuid) :
    ∃ r, keyStoreExport env st key mixin out outLength caller = some r ∧ r.store = st ∧
      ((r.status ≠ .OK ∧ r.outLength = outLength ∧ r.out = out) ∨
       (r.status = .OK ∧ (∃ h, keyStoreGetHeader st key caller = (st, .OK, some h) ∧ Flag h.rights.usageFlags 13) ∧
          ((out = none ∧ r.out = none) ∨
           (∃ b b', out = some b ∧ r.out = some b' ∧ r.outLength ≤ b.length ∧ b'.length = b.length ∧
              b'.drop r.outLength = b.drop r.outLength)))) := by
  have inv := ksReachable_inv _ hp st hr
  obtain ⟨r, hx, hs, hc⟩ := ksExport_cases env hp st inv key mixin out outLength hout caller
  refine ⟨r, hx, hs, ?_⟩
  rcases hc with hc | ⟨hok, w, sk, ho, hu, hk, hks, hf, hm, hl, hc⟩
  · exact Or.inl hc
  · refine Or.inr ⟨hok, ⟨_, ksHeader_live _ st inv key caller w sk ho hu hk, ?_⟩, ?_⟩
    · rw [← hk.header]; exact hf
    · rcases hc with hc | ⟨b, rw', hb, hle, hw, hd, hro⟩
      · exact Or.inl hc
      · have hbl := hout b hb
        have hsig : rw'.signature.length = 32 := by rw [hw.mac]; exact hp.macLen _ _
        have hpre : (mixin.getD (List.replicate 16 0) ++ encodeHeader rw'.header ++
            encodeCipherParameters rw'.cipherParameters ++ rw'.ciphertext ++ rw'.signature).length = r.outLength := by
          rw [hl]
          simp only [List.length_append, hm, encodeHeader_length, encodeCipherParameters_length, hw.ctLen, hsig]; omega
        refine Or.inr ⟨b, _, hb, hro, by omega, ?_, ?_⟩
        · rw [List.length_append, hpre, List.length_drop]; omega
        · exact List.drop_left' hpre

/-- The decision for a live key of the caller's own, with a mixin of 16 bytes or none: not cacheable is refused; a size query reports
the size without writing; a buffer smaller than that size is refused with INVALID_PARAMETER and not written. -/
theorem C15_decision (env : Env) (hp : env.prims.Good) (st : KeyStore) (hr : KsReachable env.prims st) (key : Nat)
    (mixin : Option Bytes) (hm : ∀ m, mixin = some m → m.length = 16) (caller : Uuid) (h : Header)
    (hh : (keyStoreGetHeader st key caller).2 = (.OK, some h)) :
    (¬ Flag h.rights.usageFlags 13 → ∀ out n, keyStoreExport env st key mixin out n caller =
      some ⟨st, .OPERATION_NOT_ALLOWED, n, out⟩) ∧
    (Flag h.rights.usageFlags 13 → ∃ size, (∀ n, keyStoreExport env st key mixin none n caller = some ⟨st, .OK, size, none⟩) ∧
      ∀ buf : Bytes, buf.length < size →
        keyStoreExport env st key mixin (some buf) buf.length caller = some ⟨st, .INVALID_PARAMETER, buf.length, some buf⟩) := by
  have inv := ksReachable_inv _ hp st hr
  obtain ⟨w, k, ho, hu, hk, _, rfl⟩ := ksHeader_ok _ st inv key caller _ h (Prod.ext rfl hh)
  have hlt : key < st.slotCount := by
    apply Classical.byContradiction
    intro hn
    rw [obj_ge st inv.toStoreInv key (by omega)] at ho; simp at ho
  have ha := (acquire_ok_iff st key caller _ w).mpr ⟨hlt, inv.up, ho, hu, rfl⟩
  have hmx : (mixin.getD (List.replicate 16 0)).length = 16 := by
    cases mixin with
    | none => simp
    | some m => exact hm m rfl
  have hb := bitTest_iff k.header.rights.usageFlags 13 (by decide)
  constructor
  · intro hf out n
    unfold keyStoreExport
    simp only
    rw [if_neg (by omega), if_neg (by omega), ha]
    simp only
    rw [acquire_release st inv.len key caller _ w ha, hk.header, if_pos]
    · unfold FLAG_CACHEABLE
      cases hbt : bitTest k.header.rights.usageFlags 13 with
      | true => exact absurd (hb.mp hbt) hf
      | false => rfl
  · intro hf
    have hbt : bitTest k.header.rights.usageFlags 13 = true := hb.mpr hf
    refine ⟨16 + 1672 + 24 + w.cipherParameters.ciphertextLength.toNat + 32, ?_, ?_⟩
    · intro n
      unfold keyStoreExport
      simp only
      rw [if_neg (by omega), if_neg (by omega), ha]
      simp only
      rw [acquire_release st inv.len key caller _ w ha, hk.header, if_neg (by unfold FLAG_CACHEABLE; simp [hbt])]
    · intro buf hlt2
      unfold keyStoreExport
      simp only
      rw [if_neg (by omega), if_neg (by omega), ha]
      simp only
      rw [acquire_release st inv.len key caller _ w ha, hk.header, if_neg (by unfold FLAG_CACHEABLE; simp [hbt]),
        if_pos (by omega)]

/-! ## Concrete cases: `C08.st1` holds a cacheable key; `st2` holds one that is not. -/

open C08

example : (st1.bind fun st => keyStoreExport env0 st 31 none none 0 u7).map (fun r => (r.status, r.outLength, r.out)) =
    some (.OK, 1776, none) := by decide +kernel
example : (st1.bind fun st => keyStoreExport env0 st 31 none (some (List.replicate 1775 1)) 1775 u7).map
    (fun r => (r.status, r.outLength, r.out)) = some (.INVALID_PARAMETER, 1775, some (List.replicate 1775 1)) := by
  decide +kernel

def st2 : Option KeyStore := (objectStoreInit WrappedKey 32).bind fun st => ksAfter toy st
  [.create env0 { r0 with usageFlags := 0x410 } none 0 (Vector.replicate 1040 0) 16 (List.replicate 16 5) u7]

example : (st2.bind fun st => keyStoreExport env0 st 31 none none 0 u7).map (fun r => (r.status, r.outLength, r.out)) =
    some (.OPERATION_NOT_ALLOWED, 0, none) := by decide +kernel

end Sa.C15

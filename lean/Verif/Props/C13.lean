import Verif.Props.C08

/-!
# C13: export then import gives back the same key
-/

namespace Sa.C13

/-- **C13.**  If exporting a key succeeds and fills a buffer, then importing the exported bytes — the first `outLength` bytes — on
the same device, by any caller `u`, into any store with a free handle and with no external failure, succeeds; the new key has the
same header, and whenever both handles release their key it is the same key.  The lengths are sizes of memory blocks. -/
theorem C13_export_import (p : Prims) (hp : p.Good) (st st2 : KeyStore) (hr : KsReachable p st) (hr2 : KsReachable p st2)
    (key : Nat) (mixin : Option Bytes) (buf : Bytes) (hbuf : buf.length < 2 ^ 64) (caller u : Uuid) (env env2 : Env)
    (he : env.prims = p) (he2 : env2.prims = p) (r : ExportResult)
    (hx : keyStoreExport env st key mixin (some buf) buf.length caller = some r) (hok : r.status = .OK)
    (out : Bytes) (hout : r.out = some out)
    (hext : ∀ s, env2.ok s = true) (hfree : ∃ h, h < st2.slotCount ∧ (st2.obj h).object = none) :
    ∃ st3 h, keyStoreImportExported env2 st2 (out.take r.outLength) u = some (st3, .OK, h) ∧
      (keyStoreGetHeader st3 h u).2 = (keyStoreGetHeader st key caller).2 ∧
      (keyStoreGetHeader st3 h u).2.1 = .OK ∧
      (∀ env3 : Env, env3.prims = p → ∀ k k', (keyStoreUnwrap env3 st key caller).map (·.2.2) = some (some k) →
        (keyStoreUnwrap env3 st3 h u).map (·.2.2) = some (some k') → k' = k) ∧
      (u = caller → ∀ env3 : Env, env3.prims = p →
        (keyStoreUnwrap env3 st3 h u).map (·.2) = (keyStoreUnwrap env3 st key caller).map (·.2)) := by
  have inv := ksReachable_inv _ hp st hr
  have inv2 := ksReachable_inv _ hp st2 hr2
  subst he
  obtain ⟨r', hx', _, hc⟩ := ksExport_cases env hp st inv key mixin (some buf) buf.length (by simp) caller
  rw [hx] at hx'
  simp only [Option.some.injEq] at hx'
  subst hx'
  rcases hc with ⟨hno, _⟩ | ⟨_, w, sk, ho, hu, hk, hks, _, hm, hl, hc⟩
  · exact absurd hok hno
  · rcases hc with ⟨hn, _⟩ | ⟨b, rw', hb, hle, hw, hd, hro⟩
    · simp at hn
    · rw [hout] at hro
      simp only [Option.some.injEq] at hro hb
      have hsig : rw'.signature.length = 32 := by rw [hw.mac]; exact hp.macLen _ _
      have htake : out.take r.outLength = mixin.getD (List.replicate 16 0) ++ encodeHeader rw'.header ++
          encodeCipherParameters rw'.cipherParameters ++ rw'.ciphertext ++ rw'.signature := by
        rw [hro]
        apply List.take_left'
        rw [hl]
        simp only [List.length_append, hm, encodeHeader_length, encodeCipherParameters_length, hw.ctLen, hsig]; omega
      have himp := import_of_export env2 (he2 ▸ hp) hext st2 u _ hm rw' sk (he2 ▸ hw) hd (by omega)
      rw [htake, himp]
      have hsucc := importStoredKey_succeeds env2 hext st2 (he2 ▸ inv2) sk hk.made u hfree
      obtain ⟨i1, i2, i3⟩ := importStoredKey_spec env2 (he2 ▸ hp) st2 (he2 ▸ inv2) sk hk.made hks u
      rw [he2] at i1 i3
      generalize hres : keyStoreImportStoredKey env2 st2 sk u = res at *
      obtain ⟨st3, s, h⟩ := res
      simp only at hsucc
      subst hsucc
      rcases i3 with ⟨hno, _⟩ | ⟨_, h1, h2, w3, hw3, hobj⟩
      · exact absurd rfl hno
      · simp only at h1 h2 hobj i1
        have ho3 : (st3.obj h).object = some w3 := by rw [hobj, if_pos rfl]
        have hu3 : (st3.obj h).ownerUuid = u := by rw [hobj, if_pos rfl]
        have e3 := ksHeader_live _ st3 i1 h u w3 sk ho3 hu3 hw3
        have e1 := ksHeader_live _ st inv key caller w sk ho hu hk
        refine ⟨st3, h, rfl, by rw [e3, e1], by rw [e3], ?_, ?_⟩
        · intro env3 he3 k k' hk1 hk2
          rw [ksUnwrap_live env3 (he3 ▸ hp) st3 (he3 ▸ i1) h u w3 sk ho3 hu3 (he3 ▸ hw3)] at hk2
          rw [ksUnwrap_live env3 (he3 ▸ hp) st (he3 ▸ inv) key caller w sk ho hu (he3 ▸ hk)] at hk1
          simp only [Option.map_some, Option.some.injEq] at hk1 hk2
          have aux : ∀ c x, (useResult env3 sk c).2 = some x → x = sk := by
            intro c x hx
            unfold useResult at hx
            split at hx
            · split at hx
              · simpa using hx.symm
              · simp at hx
            · simp at hx
          rw [aux _ _ hk1, aux _ _ hk2]
        · intro huc env3 he3
          subst huc
          rw [ksUnwrap_live env3 (he3 ▸ hp) st3 (he3 ▸ i1) h u w3 sk ho3 hu3 (he3 ▸ hw3),
            ksUnwrap_live env3 (he3 ▸ hp) st (he3 ▸ inv) key u w sk ho hu (he3 ▸ hk)]
          rfl

/-! ## A concrete case: export of the key of `C08.st1` with a mixin, and import by the same TA. -/

open C08 in
def exported : Option ExportResult :=
  C08.st1.bind fun st => keyStoreExport env0 st 31 (some (List.replicate 16 0xab)) (some (List.replicate 2000 0)) 2000 u7

example : exported.map (fun r => (r.status, r.outLength)) = some (.OK, 1776) := by decide +kernel

/-- The same store has a free handle for the import. -/
example : C08.st1.map (fun st => (decide (3 < st.slotCount), (st.obj 3).object.isNone)) = some (true, true) := by decide +kernel

end Sa.C13

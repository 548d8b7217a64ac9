import Verif.Lemmas.Rights

/-!
# C09: the allowed-TA list means membership
-/

namespace Sa.C09

/-- **C09.**  A caller is allowed by the TA list of a key exactly if some entry is the all-0xff wildcard, or some entry is the
caller's own UUID and that is not the all-zero UUID (which matches nobody). -/
theorem C09_allowed_iff_member (r : Rights) (caller : Uuid) :
    rightsAllowedUuid r caller = true ↔
      (∃ i : Fin 32, r.allowedTas[i] = Vector.replicate 16 0xff) ∨
      (∃ i : Fin 32, r.allowedTas[i] = caller ∧ caller ≠ Vector.replicate 16 0) := by
  unfold rightsAllowedUuid
  rw [allowedUuidLoop_iff]
  have mem : ∀ ta : Uuid, ta ∈ r.allowedTas.toList ↔ ∃ i : Fin 32, r.allowedTas[i] = ta := by
    intro ta
    rw [Vector.mem_toList_iff, Vector.mem_iff_getElem]
    constructor
    · rintro ⟨i, hi, h⟩; exact ⟨⟨i, hi⟩, h⟩
    · rintro ⟨i, h⟩; exact ⟨i.1, i.2, h⟩
  constructor
  · rintro ⟨ta, hm, hn, h | h⟩
    · obtain ⟨i, hi⟩ := (mem ta).mp hm
      exact Or.inl ⟨i, hi.trans h⟩
    · obtain ⟨i, hi⟩ := (mem ta).mp hm
      exact Or.inr ⟨i, hi.trans h, h ▸ hn⟩
  · rintro (⟨i, h⟩ | ⟨i, h, hn⟩)
    · exact ⟨_, (mem _).mpr ⟨i, h⟩, by decide, Or.inl rfl⟩
    · exact ⟨_, (mem _).mpr ⟨i, h⟩, hn, Or.inr rfl⟩

/-- Permuting or repeating entries does not matter: two lists with the same entries allow the same callers. -/
theorem C09_position_irrelevant (r r' : Rights)
    (h : ∀ u : Uuid, (∃ i : Fin 32, r.allowedTas[i] = u) ↔ ∃ i : Fin 32, r'.allowedTas[i] = u) (caller : Uuid) :
    rightsAllowedUuid r caller = rightsAllowedUuid r' caller := by
  rw [Bool.eq_iff_iff, C09_allowed_iff_member, C09_allowed_iff_member, h]
  constructor
  · rintro (h1 | ⟨i, h1, h2⟩)
    · exact Or.inl h1
    · obtain ⟨j, hj⟩ := (h caller).mp ⟨i, h1⟩
      exact Or.inr ⟨j, hj, h2⟩
  · rintro (h1 | ⟨i, h1, h2⟩)
    · exact Or.inl h1
    · obtain ⟨j, hj⟩ := (h caller).mpr ⟨i, h1⟩
      exact Or.inr ⟨j, hj, h2⟩

def onlyLast (u : Uuid) : Rights := { rightsAllowAll with allowedTas := (Vector.replicate 32 NO_MATCH).set 31 u }

/-- Non-trivial cases: the wildcard, a match in the last position, a mismatch, and the all-zero caller. -/
example : rightsAllowedUuid rightsAllowAll (Vector.replicate 16 5) = true := by decide
example : rightsAllowedUuid (onlyLast (Vector.replicate 16 5)) (Vector.replicate 16 5) = true := by decide
example : rightsAllowedUuid (onlyLast (Vector.replicate 16 5)) (Vector.replicate 16 6) = false := by decide
example : rightsAllowedUuid (onlyLast (Vector.replicate 16 5)) (Vector.replicate 16 0) = false := by decide

end Sa.C09

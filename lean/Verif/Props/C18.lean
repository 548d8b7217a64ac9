import Verif.Lemmas.Memory

/-!
# C18: constant-time comparison is equality
-/

namespace Sa.C18

/-- **C18.**  Comparing `length` bytes of two regions that are long enough never reads out of bounds, returns zero exactly if
the first `length` bytes are equal, and inspects exactly the indices `0, 1, ..., length-1`, each once and in that order,
independently of the contents (no early exit). -/
theorem C18_memcmp_constant (a b : Bytes) (length : Nat) (ha : length ≤ a.length) (hb : length ≤ b.length) :
    ∃ r, memcmpConstant a b length = some r ∧ (r = 0 ↔ a.take length = b.take length) ∧
      memcmpLoop a b length 0 0 [] = some (r, List.range length) := by
  obtain ⟨r, he, hr⟩ := memcmpLoop_spec a b length 0 0 [] (by omega) (by omega)
  refine ⟨r, by simp [memcmpConstant, he], ?_, ?_⟩
  · rw [hr]
    constructor
    · rintro ⟨_, h⟩
      apply List.ext_getElem?
      intro k
      by_cases hk : k < length
      · rw [List.getElem?_take_of_lt hk, List.getElem?_take_of_lt hk]; exact h k (by omega) (by omega)
      · rw [List.getElem?_eq_none (by simp; omega), List.getElem?_eq_none (by simp; omega)]
    · intro h
      refine ⟨rfl, fun k _ hk => ?_⟩
      have := congrArg (fun l => l[k]?) h
      simp only [List.getElem?_take_of_lt (show k < length by omega)] at this
      exact this
  · rw [he, List.range_eq_range']; simp

/-- The UUID comparison used by all handle tables is equality. -/
theorem C18_uuid (a b : Uuid) : uuidMatches a b = true ↔ a = b := uuidMatches_iff a b

example : memcmpConstant [1, 2, 3, 9] [1, 2, 4] 3 = some 7 ∧ memcmpConstant [1, 2, 3, 9] [1, 2, 3] 3 = some 0 ∧
    memcmpConstant [1, 2, 3, 9] [1, 2, 3] 4 = none := by decide

end Sa.C18

import Verif.Model.Memory

namespace Sa

theorem u8_or_eq_zero (a b : UInt8) : a ||| b = 0 ↔ a = 0 ∧ b = 0 := by
  constructor
  · intro h
    have h1 : a.toBitVec ||| b.toBitVec = 0#8 := by
      have := congrArg UInt8.toBitVec h
      simpa using this
    have key : ∀ i, i < 8 → a.toBitVec.getLsbD i = false ∧ b.toBitVec.getLsbD i = false := by
      intro i _
      have := congrArg (fun v => v.getLsbD i) h1
      simpa [BitVec.getLsbD_or] using this
    constructor
    · apply UInt8.toBitVec_inj.mp
      apply BitVec.eq_of_getLsbD_eq
      intro i hi; simpa using (key i hi).1
    · apply UInt8.toBitVec_inj.mp
      apply BitVec.eq_of_getLsbD_eq
      intro i hi; simpa using (key i hi).2
  · rintro ⟨rfl, rfl⟩; rfl

theorem u8_xor_eq_zero (a b : UInt8) : a ^^^ b = 0 ↔ a = b := by
  exact UInt8.xor_eq_zero_iff

theorem memcmpLoop_spec (a b : Bytes) (fuel i : Nat) (r : UInt8) (log : List Nat)
    (ha : i + fuel ≤ a.length) (hb : i + fuel ≤ b.length) :
    ∃ r', memcmpLoop a b fuel i r log = some (r', log ++ List.range' i fuel) ∧
      (r' = 0 ↔ r = 0 ∧ ∀ k, i ≤ k → k < i + fuel → a[k]? = b[k]?) := by
  induction fuel generalizing i r log with
  | zero =>
    refine ⟨r, by simp [memcmpLoop], ?_⟩
    constructor
    · intro h; exact ⟨h, fun k h1 h2 => by omega⟩
    · exact fun h => h.1
  | succ n ih =>
    have hia : i < a.length := by omega
    have hib : i < b.length := by omega
    obtain ⟨r', he, hr⟩ := ih (i + 1) (r ||| (a[i] ^^^ b[i])) (log ++ [i]) (by omega) (by omega)
    refine ⟨r', ?_, ?_⟩
    · unfold memcmpLoop
      simp only [List.getElem?_eq_getElem hia, List.getElem?_eq_getElem hib]
      rw [he]
      simp [List.range'_succ]
    · rw [hr, u8_or_eq_zero, u8_xor_eq_zero]
      constructor
      · rintro ⟨⟨h1, h2⟩, h3⟩
        refine ⟨h1, ?_⟩
        intro k hk1 hk2
        by_cases hk : k = i
        · subst hk; simp [hia, hib, h2]
        · exact h3 k (by omega) (by omega)
      · rintro ⟨h1, h2⟩
        refine ⟨⟨h1, ?_⟩, fun k hk1 hk2 => h2 k (by omega) (by omega)⟩
        have := h2 i (by omega) (by omega)
        simpa [hia, hib] using this

theorem uuidMatches_iff (a b : Uuid) : uuidMatches a b = true ↔ a = b := by
  unfold uuidMatches memcmpConstant
  obtain ⟨r', he, hr⟩ := memcmpLoop_spec a.toList b.toList 16 0 0 [] (by simp) (by simp)
  rw [he]
  simp only [Option.map_some, beq_iff_eq, Option.some.injEq]
  rw [hr]
  constructor
  · rintro ⟨_, h⟩
    apply Vector.toList_inj.mp
    apply List.ext_getElem?
    intro k
    by_cases hk : k < 16
    · exact h k (by omega) (by omega)
    · have h1 : a.toList.length ≤ k := by simp; omega
      have h2 : b.toList.length ≤ k := by simp; omega
      rw [List.getElem?_eq_none h1, List.getElem?_eq_none h2]
  · rintro rfl
    exact ⟨rfl, fun _ _ _ => rfl⟩

theorem uuidMatches_false_iff (a b : Uuid) : uuidMatches a b = false ↔ a ≠ b := by
  rw [← Bool.not_eq_true, uuidMatches_iff]

theorem addOverflow_fst (a b : UInt64) : (addOverflow a b).1 = true ↔ a.toNat + b.toNat ≥ 2 ^ 64 := by
  simp [addOverflow]

theorem addOverflow_snd (a b : UInt64) (h : (addOverflow a b).1 = false) :
    (addOverflow a b).2.toNat = a.toNat + b.toNat := by
  simp [addOverflow] at *
  omega

end Sa

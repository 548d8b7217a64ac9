import Verif.Model.Pad

namespace Sa

theorem padCheckLoop_spec (block : Bytes) (v : UInt8) (fuel i : Nat) (h : i + fuel ≤ block.length) :
    ∃ b, padCheckLoop block v fuel i = some b ∧ (b = true ↔ ∀ k, i ≤ k → k < i + fuel → block[k]? = some v) := by
  induction fuel generalizing i with
  | zero => exact ⟨true, rfl, by simp; omega⟩
  | succ fuel ih =>
    unfold padCheckLoop
    rw [List.getElem?_eq_getElem (by omega)]
    simp only
    split
    · rename_i hne
      refine ⟨false, rfl, ?_⟩
      simp only [Bool.false_eq_true, false_iff]
      intro hall
      have := hall i (by omega) (by omega)
      rw [List.getElem?_eq_getElem (by omega)] at this
      exact hne (by simpa using this)
    · rename_i heq
      obtain ⟨b, h1, h2⟩ := ih (i + 1) (by omega)
      refine ⟨b, h1, h2.trans ?_⟩
      constructor
      · intro hall k hk1 hk2
        by_cases hki : k = i
        · subst hki; rw [List.getElem?_eq_getElem (by omega)]; simp at heq; rw [heq]
        · exact hall k (by omega) (by omega)
      · intro hall k hk1 hk2; exact hall k (by omega) (by omega)

theorem u8_range (v : UInt8) : (v < 1 ∨ v > 16) ↔ ¬ (1 ≤ v.toNat ∧ v.toNat ≤ 16) := by
  have e1 : v < 1 ↔ v.toNat < 1 := UInt8.lt_iff_toNat_lt
  have e2 : (16 : UInt8) < v ↔ 16 < v.toNat := UInt8.lt_iff_toNat_lt
  rw [gt_iff_lt, e1, e2]; omega

/-- Complete description of `pad_check_pkcs7` on a block of 16 bytes. -/
theorem padCheckPkcs7_spec (block : Bytes) (h : 16 ≤ block.length) :
    ∃ v b, block[15]? = some v ∧ padCheckPkcs7 block = some (b, v) ∧
      (b = true ↔ 1 ≤ v.toNat ∧ v.toNat ≤ 16 ∧ ∀ k, 16 - v.toNat ≤ k → k < 16 → block[k]? = some v) := by
  refine ⟨block[15], ?_⟩
  have h15 : block[15]? = some block[15] := List.getElem?_eq_getElem (by omega)
  unfold padCheckPkcs7
  rw [h15]
  simp only [u8_range]
  by_cases hr : 1 ≤ (block[15]).toNat ∧ (block[15]).toNat ≤ 16
  · rw [if_neg (by simpa using hr)]
    obtain ⟨b, h1, h2⟩ := padCheckLoop_spec block block[15] (block[15]).toNat (16 - (block[15]).toNat) (by omega)
    refine ⟨b, trivial, by rw [h1]; rfl, h2.trans ?_⟩
    rw [show 16 - (block[15]).toNat + (block[15]).toNat = 16 by omega]
    constructor
    · intro hall; exact ⟨hr.1, hr.2, hall⟩
    · rintro ⟨_, _, hall⟩; exact hall
  · rw [if_pos hr]
    refine ⟨false, trivial, rfl, ?_⟩
    simp only [Bool.false_eq_true, false_iff]
    rintro ⟨a, b, _⟩; exact hr ⟨a, b⟩

theorem padApplyLoop_length (v : UInt8) (fuel i : Nat) (block : Bytes) :
    (padApplyLoop v fuel i block).length = block.length := by
  induction fuel generalizing i block with
  | zero => rfl
  | succ fuel ih => unfold padApplyLoop; rw [ih]; simp

theorem padApplyLoop_getElem? (v : UInt8) (fuel i : Nat) (block : Bytes) (k : Nat) :
    (padApplyLoop v fuel i block)[k]? =
      if i ≤ k ∧ k < i + fuel ∧ k < block.length then some v else block[k]? := by
  induction fuel generalizing i block with
  | zero => unfold padApplyLoop; rw [if_neg (by omega)]
  | succ fuel ih =>
    unfold padApplyLoop
    rw [ih, List.length_set]
    by_cases hk : k < block.length
    · by_cases h1 : i + 1 ≤ k ∧ k < i + 1 + fuel
      · rw [if_pos ⟨h1.1, h1.2, hk⟩, if_pos (by omega)]
      · rw [if_neg (by omega), List.getElem?_set]
        by_cases h2 : i = k
        · rw [if_pos h2, if_pos (by omega), if_pos (by omega)]
        · rw [if_neg h2, if_neg (by omega)]
    · rw [if_neg (by omega), if_neg (by omega), List.getElem?_eq_none (by simp; omega), List.getElem?_eq_none (by omega)]

/-- `pad_apply_pkcs7` keeps the leading bytes of the block and fills the rest with the pad value. -/
theorem padApplyPkcs7_spec (block : Bytes) (h : block.length = 16) (v : UInt8) (hv : 1 ≤ v.toNat ∧ v.toNat ≤ 16) :
    padApplyPkcs7 block v = some (block.take (16 - v.toNat) ++ List.replicate v.toNat v) := by
  unfold padApplyPkcs7
  rw [if_neg (by rw [u8_range]; simpa using hv)]
  congr 1
  apply List.ext_getElem?
  intro k
  rw [padApplyLoop_getElem?, List.getElem?_append, List.length_take, List.getElem?_take, List.getElem?_replicate]
  by_cases hk : k < 16 - v.toNat
  · rw [if_neg (by omega), if_pos (by omega), if_pos hk]
  · by_cases hk2 : k < 16
    · rw [if_pos (by omega), if_neg (by omega), if_pos (by omega)]
    · rw [if_neg (by omega), if_neg (by omega), if_neg (by omega), List.getElem?_eq_none (by omega)]

end Sa

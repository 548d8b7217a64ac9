import Verif.Model.StoredKey
import Verif.Lemmas.Memory

/-! Bit-level facts about usage flags. -/

namespace Sa

/-- Bit `i` of a flags word: the meaning of "flag `i` is set". -/
def Flag (w : UInt64) (i : Nat) : Prop := w.toNat.testBit i = true

instance (w : UInt64) (i : Nat) : Decidable (Flag w i) := inferInstanceAs (Decidable (_ = true))

theorem flag_iff_getLsbD (w : UInt64) (i : Nat) : Flag w i ↔ w.toBitVec.getLsbD i = true := Iff.rfl

theorem bitMask_flag (b i : Nat) (hb : b < 64) : Flag (bitMask b) i ↔ i = b := by
  unfold Flag bitMask
  have h2 : (2 : Nat) ^ b < 2 ^ 64 := Nat.pow_lt_pow_right (by omega) hb
  have h : (1 <<< (UInt64.ofNat (b % 64)) : UInt64).toNat = 2 ^ b := by
    rw [UInt64.toNat_shiftLeft]
    have : (UInt64.ofNat (b % 64)).toNat = b := by
      rw [UInt64.toNat_ofNat']
      omega
    rw [this]
    simp [Nat.shiftLeft_eq, Nat.mod_eq_of_lt hb, Nat.mod_eq_of_lt h2]
  rw [h, Nat.testBit_two_pow]
  simp [eq_comm]

theorem flag_and (a b : UInt64) (i : Nat) : Flag (a &&& b) i ↔ Flag a i ∧ Flag b i := by
  simp [Flag]

theorem flag_or (a b : UInt64) (i : Nat) : Flag (a ||| b) i ↔ Flag a i ∨ Flag b i := by
  simp [Flag]

theorem flag_not (a : UInt64) (i : Nat) : Flag (~~~a) i ↔ i < 64 ∧ ¬ Flag a i := by
  simp only [flag_iff_getLsbD, UInt64.toBitVec_not, BitVec.getLsbD_not]
  simp

theorem flag_lt (a : UInt64) (i : Nat) (h : Flag a i) : i < 64 := by
  rw [flag_iff_getLsbD] at h
  exact BitVec.lt_of_getLsbD h

theorem flag_zero (i : Nat) : ¬ Flag 0 i := by simp [Flag]

theorem flag_ext (a b : UInt64) (h : ∀ i, Flag a i ↔ Flag b i) : a = b := by
  apply UInt64.toNat_inj.mp
  apply Nat.eq_of_testBit_eq
  intro i
  have := h i
  unfold Flag at this
  cases h1 : a.toNat.testBit i <;> cases h2 : b.toNat.testBit i <;> simp_all

theorem bitTest_iff (a : UInt64) (b : Nat) (hb : b < 64) : bitTest a b = true ↔ Flag a b := by
  unfold bitTest
  constructor
  · intro h
    have hne : a &&& bitMask b ≠ 0 := by simpa using h
    by_cases hf : Flag a b
    · exact hf
    · exfalso
      apply hne
      apply flag_ext
      intro i
      rw [flag_and, bitMask_flag b i hb]
      constructor
      · rintro ⟨h1, rfl⟩; exact absurd h1 hf
      · intro h; exact absurd h (flag_zero i)
  · intro h
    have : a &&& bitMask b ≠ 0 := by
      intro h0
      have : Flag (a &&& bitMask b) b := (flag_and _ _ _).mpr ⟨h, (bitMask_flag b b hb).mpr rfl⟩
      rw [h0] at this
      exact flag_zero b this
    simpa using this

theorem bitTest_false_iff (a : UInt64) (b : Nat) (hb : b < 64) : bitTest a b = false ↔ ¬ Flag a b := by
  rw [← bitTest_iff a b hb]; simp

theorem bitSet_flag (a : UInt64) (b i : Nat) (hb : b < 64) : Flag (bitSet a b) i ↔ Flag a i ∨ i = b := by
  rw [bitSet, flag_or, bitMask_flag b i hb]

theorem bitClear_flag (a : UInt64) (b i : Nat) (hb : b < 64) : Flag (bitClear a b) i ↔ Flag a i ∧ i ≠ b := by
  rw [bitClear, flag_and, flag_not, bitMask_flag b i hb]
  constructor
  · rintro ⟨h1, _, h2⟩; exact ⟨h1, h2⟩
  · rintro ⟨h1, h2⟩; exact ⟨h1, flag_lt a i h1, h2⟩

theorem outputMask_flag (i : Nat) : Flag OUTPUT_PROTECTIONS_MASK i ↔ 6 ≤ i ∧ i ≤ 12 := by
  unfold OUTPUT_PROTECTIONS_MASK FLAG_ANALOG_UNPROTECTED FLAG_ANALOG_CGMSA FLAG_DIGITAL_UNPROTECTED FLAG_DIGITAL_HDCP14
    FLAG_DIGITAL_HDCP22 FLAG_DIGITAL_DTCP FLAG_SVP_OPTIONAL
  simp only [flag_or]
  rw [bitMask_flag, bitMask_flag, bitMask_flag, bitMask_flag, bitMask_flag, bitMask_flag, bitMask_flag] <;> omega

theorem keyUsageMask_flag (i : Nat) : Flag KEY_USAGE_MASK i ↔ i ≤ 5 := by
  unfold KEY_USAGE_MASK FLAG_KEY_EXCHANGE FLAG_DERIVE FLAG_UNWRAP FLAG_ENCRYPT FLAG_DECRYPT FLAG_SIGN
  simp only [flag_or]
  rw [bitMask_flag, bitMask_flag, bitMask_flag, bitMask_flag, bitMask_flag, bitMask_flag] <;> omega

theorem keyOnlyMask_flag (i : Nat) : Flag KEY_ONLY_MASK i ↔ i ≤ 5 ∧ i ≠ 2 := by
  unfold KEY_ONLY_MASK
  rw [flag_and, flag_not, keyUsageMask_flag, bitMask_flag _ _ (by decide)]
  unfold FLAG_UNWRAP
  omega

theorem exists_flag_of_ne_zero (a : UInt64) (h : a ≠ 0) : ∃ i, Flag a i := by
  apply Classical.byContradiction
  intro hc
  apply h
  apply flag_ext
  intro i
  constructor
  · intro hi; exact absurd ⟨i, hi⟩ hc
  · intro hi; exact absurd hi (flag_zero i)

theorem keyOnly_ne_zero_iff (a : UInt64) : a &&& KEY_ONLY_MASK ≠ 0 ↔ ∃ i, i ≤ 5 ∧ i ≠ 2 ∧ Flag a i := by
  constructor
  · intro h
    obtain ⟨i, hi⟩ := exists_flag_of_ne_zero _ h
    rw [flag_and, keyOnlyMask_flag] at hi
    exact ⟨i, hi.2.1, hi.2.2, hi.1⟩
  · rintro ⟨i, h1, h2, h3⟩ h0
    have : Flag (a &&& KEY_ONLY_MASK) i := (flag_and _ _ _).mpr ⟨h3, (keyOnlyMask_flag i).mpr ⟨h1, h2⟩⟩
    rw [h0] at this
    exact flag_zero i this

/-- Masking out the complement of `p` inside a mask `m`: bits outside of `m` are kept, bits inside need `p`. -/
theorem flag_restrict (x p m : UInt64) (i : Nat) :
    Flag (x &&& ~~~(~~~p &&& m)) i ↔ Flag x i ∧ (Flag m i → Flag p i) := by
  rw [flag_and, flag_not, flag_and, flag_not]
  constructor
  · rintro ⟨h1, h2, h3⟩
    refine ⟨h1, fun hm => ?_⟩
    apply Classical.byContradiction
    intro hp
    exact h3 ⟨⟨h2, hp⟩, hm⟩
  · rintro ⟨h1, h2⟩
    refine ⟨h1, flag_lt x i h1, ?_⟩
    rintro ⟨⟨_, hp⟩, hm⟩
    exact hp (h2 hm)

theorem allowedUuidLoop_iff (caller : Uuid) (l : List Uuid) :
    rightsAllowedUuidLoop caller l = true ↔ ∃ ta ∈ l, ta ≠ NO_MATCH ∧ (ta = ALL_MATCH ∨ ta = caller) := by
  induction l with
  | nil => simp [rightsAllowedUuidLoop]
  | cons ta rest ih =>
    unfold rightsAllowedUuidLoop
    by_cases h0 : ta = NO_MATCH
    · rw [if_pos (uuidMatches_iff _ _ |>.mpr h0), ih]
      simp [h0]
    · rw [if_neg (fun h => h0 (uuidMatches_iff _ _ |>.mp h))]
      by_cases h1 : ta = ALL_MATCH
      · rw [if_pos (uuidMatches_iff _ _ |>.mpr h1)]
        simp only [true_iff]
        exact ⟨ta, by simp, h0, Or.inl h1⟩
      · rw [if_neg (fun h => h1 (uuidMatches_iff _ _ |>.mp h))]
        by_cases h2 : ta = caller
        · rw [if_pos (uuidMatches_iff _ _ |>.mpr h2)]
          simp only [true_iff]
          exact ⟨ta, by simp, h0, Or.inr h2⟩
        · rw [if_neg (fun h => h2 (uuidMatches_iff _ _ |>.mp h)), ih]
          constructor
          · rintro ⟨t, ht, h⟩; exact ⟨t, List.mem_cons_of_mem _ ht, h⟩
          · rintro ⟨t, ht, hn, h⟩
            rcases List.mem_cons.mp ht with rfl | ht
            · rcases h with h | h
              · exact absurd h h1
              · exact absurd h h2
            · exact ⟨t, ht, hn, h⟩

theorem allowedTime_iff (r : Rights) (t : UInt64) :
    rightsAllowedTime r t = true ↔ r.notBefore.toNat ≤ t.toNat ∧ t.toNat < r.notOnOrAfter.toNat := by
  unfold rightsAllowedTime
  have e1 : t < r.notBefore ↔ t.toNat < r.notBefore.toNat := UInt64.lt_iff_toNat_lt
  have e2 : r.notOnOrAfter ≤ t ↔ r.notOnOrAfter.toNat ≤ t.toNat := UInt64.le_iff_toNat_le
  split
  · rename_i h; rw [e1] at h; simp; omega
  · rename_i h; rw [e1] at h
    split
    · rename_i h2; rw [ge_iff_le, e2] at h2; simp; omega
    · rename_i h2; rw [ge_iff_le, e2] at h2; simp; omega

end Sa

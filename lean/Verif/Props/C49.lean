import Verif.Lemmas.Container

/-!
# C49: the usage code of a container maps to exact usage flags
-/

namespace Sa.C49

/-- The six usage flags a container controls, with their bit numbers in the public interface. -/
inductive Use where
  | keyExchange | derive_ | unwrap | encrypt | decrypt | sign

def Use.bit : Use → Nat
  | .keyExchange => 0
  | .derive_ => 1
  | .unwrap => 2
  | .encrypt => 3
  | .decrypt => 4
  | .sign => 5

/-- Documented meaning of the codes: 0 and 3 "data and key", 1 "data only", 2 "key only".  `agreement` says that the key can take
part in key agreement (DH and EC keys), `hmac` that it is an HMAC key. -/
def Grants (code : Int) (agreement hmac : Bool) : Use → Prop
  | .keyExchange => (code = 0 ∨ code = 1 ∨ code = 3) ∧ agreement
  | .unwrap => code = 0 ∨ code = 2 ∨ code = 3
  | .derive_ | .sign => code = 0 ∨ code = 1 ∨ code = 3
  | .encrypt | .decrypt => code = 0 ∨ code = 3 ∨ (code = 1 ∧ ¬ hmac)

theorem flag_set (a : UInt64) (b i : Nat) (hb : b < 64) : Flag (bitSet a b) i ↔ Flag a i ∨ i = b := by
  unfold bitSet; rw [flag_or, bitMask_flag b i hb]

theorem flag_clear (a : UInt64) (b i : Nat) (hb : b < 64) : Flag (bitClear a b) i ↔ Flag a i ∧ i ≠ b := by
  unfold bitClear; rw [flag_and, flag_not, bitMask_flag b i hb]
  constructor
  · rintro ⟨h1, _, h2⟩; exact ⟨h1, h2⟩
  · rintro ⟨h1, h2⟩; exact ⟨h1, flag_lt a i h1, h2⟩

theorem flag_ite (P : Prop) [Decidable P] (a b : UInt64) (i : Nat) :
    Flag (if P then a else b) i ↔ (P ∧ Flag a i) ∨ (¬ P ∧ Flag b i) := by
  by_cases h : P <;> simp [h]

/-- **C49.**  For every previous flags word, every code (any integer), key type and subtype: the code is accepted exactly if it is
one of the four documented ones; then each of the six usage flags is set exactly if the code grants it, and every other flag keeps
its previous value. -/
theorem C49_exact (flags : UInt64) (code : Int) (keyType subtype : Nat) :
    let r := keyUsageToUsageFlags flags code keyType subtype
    (r.2 = .OK ↔ 0 ≤ code ∧ code ≤ 3) ∧
    (r.2 = .OK → ∀ u : Use, Flag r.1 u.bit ↔ Grants code (keyType = 1 ∨ keyType = 3) (subtype = 2) u) ∧
    (∀ i, 6 ≤ i → (Flag r.1 i ↔ Flag flags i)) := by
  intro r
  have hr : r = keyUsageToUsageFlags flags code keyType subtype := rfl
  clear_value r
  have hbase : ∀ i, Flag (bitClear (bitClear (bitClear (bitClear (bitClear (bitClear flags FLAG_KEY_EXCHANGE) FLAG_DERIVE) FLAG_UNWRAP)
      FLAG_DECRYPT) FLAG_ENCRYPT) FLAG_SIGN) i ↔ Flag flags i ∧ 6 ≤ i := by
    intro i
    simp only [FLAG_KEY_EXCHANGE, FLAG_DERIVE, FLAG_UNWRAP, FLAG_ENCRYPT, FLAG_DECRYPT, FLAG_SIGN]
    rw [flag_clear _ _ _ (by decide), flag_clear _ _ _ (by decide), flag_clear _ _ _ (by decide), flag_clear _ _ _ (by decide),
      flag_clear _ _ _ (by decide), flag_clear _ _ _ (by decide)]
    constructor
    · rintro ⟨⟨⟨⟨⟨⟨h, h0⟩, h1⟩, h2⟩, h3⟩, h4⟩, h5⟩; exact ⟨h, by omega⟩
    · rintro ⟨h, h6⟩; exact ⟨⟨⟨⟨⟨⟨h, by omega⟩, by omega⟩, by omega⟩, by omega⟩, by omega⟩, by omega⟩
  unfold keyUsageToUsageFlags at hr
  dsimp only at hr
  generalize bitClear (bitClear (bitClear (bitClear (bitClear (bitClear flags FLAG_KEY_EXCHANGE) FLAG_DERIVE) FLAG_UNWRAP)
      FLAG_DECRYPT) FLAG_ENCRYPT) FLAG_SIGN = base at hr hbase
  have hset : ∀ (a : UInt64) (i : Nat), (Flag (bitSet a FLAG_KEY_EXCHANGE) i ↔ Flag a i ∨ i = 0) ∧
      (Flag (bitSet a FLAG_DERIVE) i ↔ Flag a i ∨ i = 1) ∧ (Flag (bitSet a FLAG_UNWRAP) i ↔ Flag a i ∨ i = 2) ∧
      (Flag (bitSet a FLAG_ENCRYPT) i ↔ Flag a i ∨ i = 3) ∧ (Flag (bitSet a FLAG_DECRYPT) i ↔ Flag a i ∨ i = 4) ∧
      (Flag (bitSet a FLAG_SIGN) i ↔ Flag a i ∨ i = 5) := fun a i =>
    ⟨flag_set a 0 i (by decide), flag_set a 1 i (by decide), flag_set a 2 i (by decide), flag_set a 3 i (by decide),
      flag_set a 4 i (by decide), flag_set a 5 i (by decide)⟩
  have hne : ∀ i, 6 ≤ i → i ≠ 0 ∧ i ≠ 1 ∧ i ≠ 2 ∧ i ≠ 3 ∧ i ≠ 4 ∧ i ≠ 5 := by intro i hi; omega
  have hka : (keyType = KEY_TYPE_DH ∨ keyType = KEY_TYPE_EC) ↔ (keyType = 1 ∨ keyType = 3) := Or.comm
  by_cases hc : code = TYPEJ_DATA_AND_KEY ∨ code = SOC_DATA_AND_KEY
  · rw [if_pos hc] at hr
    subst hr
    have hc' : code = 0 ∨ code = 3 := hc
    have h2 : code ≠ 1 := by omega
    have h4 : code = 0 ∨ code = 1 ∨ code = 3 := by omega
    have h5 : code = 0 ∨ code = 2 ∨ code = 3 := by omega
    have h6 : ∀ P : Prop, (code = 0 ∨ code = 3 ∨ P) ↔ True := by intro P; simp only [iff_true]; rcases hc' with h | h <;> simp [h]
    by_cases ha : keyType = KEY_TYPE_DH ∨ keyType = KEY_TYPE_EC
    · have hk := hka.mp ha
      refine ⟨by simp only [true_iff]; omega, ?_, ?_⟩
      · intro _ u
        simp only [if_pos ha, hset, hbase]
        cases u <;> simp [Use.bit, Grants, hk, h4, h5, h6]
      · intro i hi
        simp only [if_pos ha, hset, hbase]
        obtain ⟨h0, h1, h2, h3, h4, h5⟩ := hne i hi
        simp [h0, h1, h2, h3, h4, h5, hi]
    · have hk : keyType ≠ 1 ∧ keyType ≠ 3 := not_or.mp fun h => ha (hka.mpr h)
      refine ⟨by simp only [true_iff]; omega, ?_, ?_⟩
      · intro _ u
        simp only [if_neg ha, hset, hbase]
        cases u <;> simp [Use.bit, Grants, hk, h4, h5, h6]
      · intro i hi
        simp only [if_neg ha, hset, hbase]
        obtain ⟨h0, h1, h2, h3, h4, h5⟩ := hne i hi
        simp [h0, h1, h2, h3, h4, h5, hi]
  · rw [if_neg hc] at hr
    have hc' : ¬ (code = 0 ∨ code = 3) := hc
    by_cases hc1 : code = DATA_ONLY
    · rw [if_pos hc1] at hr
      subst hr
      have h7 : code = 1 := hc1
      by_cases ha : keyType = KEY_TYPE_DH ∨ keyType = KEY_TYPE_EC <;> by_cases hb : subtype ≠ HMAC_SUBTYPE
      · have hk := hka.mp ha
        have hs : subtype ≠ 2 := hb
        refine ⟨by simp only [true_iff]; omega, ?_, ?_⟩
        · intro _ u
          simp only [if_pos ha, if_pos hb, hset, hbase]
          cases u <;> simp [Use.bit, Grants, hk, h7, hs]
        · intro i hi
          simp only [if_pos ha, if_pos hb, hset, hbase]
          obtain ⟨h0, h1, h2, h3, h4, h5⟩ := hne i hi
          simp [h0, h1, h2, h3, h4, h5, hi]
      · have hk := hka.mp ha
        have hs : subtype = 2 := Classical.not_not.mp hb
        refine ⟨by simp only [true_iff]; omega, ?_, ?_⟩
        · intro _ u
          simp only [if_pos ha, if_neg hb, hset, hbase]
          cases u <;> simp [Use.bit, Grants, hk, h7, hs]
        · intro i hi
          simp only [if_pos ha, if_neg hb, hset, hbase]
          obtain ⟨h0, h1, h2, h3, h4, h5⟩ := hne i hi
          simp [h0, h1, h2, h3, h4, h5, hi]
      · have hk : keyType ≠ 1 ∧ keyType ≠ 3 := not_or.mp fun h => ha (hka.mpr h)
        have hs : subtype ≠ 2 := hb
        refine ⟨by simp only [true_iff]; omega, ?_, ?_⟩
        · intro _ u
          simp only [if_neg ha, if_pos hb, hset, hbase]
          cases u <;> simp [Use.bit, Grants, hk, h7, hs]
        · intro i hi
          simp only [if_neg ha, if_pos hb, hset, hbase]
          obtain ⟨h0, h1, h2, h3, h4, h5⟩ := hne i hi
          simp [h0, h1, h2, h3, h4, h5, hi]
      · have hk : keyType ≠ 1 ∧ keyType ≠ 3 := not_or.mp fun h => ha (hka.mpr h)
        have hs : subtype = 2 := Classical.not_not.mp hb
        refine ⟨by simp only [true_iff]; omega, ?_, ?_⟩
        · intro _ u
          simp only [if_neg ha, if_neg hb, hset, hbase]
          cases u <;> simp [Use.bit, Grants, hk, h7, hs]
        · intro i hi
          simp only [if_neg ha, if_neg hb, hset, hbase]
          obtain ⟨h0, h1, h2, h3, h4, h5⟩ := hne i hi
          simp [h0, h1, h2, h3, h4, h5, hi]
    · rw [if_neg hc1] at hr
      have hc1' : code ≠ 1 := hc1
      by_cases hc2 : code = KEY_ONLY
      · rw [if_pos hc2] at hr
        subst hr
        have h8 : code = 2 := hc2
        refine ⟨by simp only [true_iff]; omega, ?_, ?_⟩
        · intro _ u
          simp only [hset, hbase]
          cases u <;> simp [Use.bit, Grants, h8]
        · intro i hi
          simp only [hset, hbase]
          obtain ⟨h0, h1, h2, h3, h4, h5⟩ := hne i hi
          simp [h0, h1, h2, h3, h4, h5, hi]
      · rw [if_neg hc2] at hr
        have hc2' : code ≠ 2 := hc2
        subst hr
        refine ⟨?_, by simp, ?_⟩
        · simp only [reduceCtorEq, false_iff]; omega
        · intro i hi
          rw [hbase]
          exact ⟨fun h => h.1, fun h => ⟨h, hi⟩⟩

/-- A "data only" HMAC key may derive and sign, but neither encrypt, decrypt nor unwrap; the cacheable flag survives. -/
example : keyUsageToUsageFlags 0x201f 1 0 2 = (0x2022, .OK) := by decide +kernel
/-- An EC key for data and keys may do everything including key exchange. -/
example : (keyUsageToUsageFlags 0 3 1 0).1 = 0x3f := by decide +kernel
example : (keyUsageToUsageFlags 0x3f 4 0 1) = (0, .INVALID_KEY_FORMAT) := by decide +kernel

end Sa.C49

import Verif.Model.Container
import Verif.Lemmas.Rights

namespace Sa

theorem convertUuidLoop_safe (s : Bytes) (fuel i j : Nat) (id : Bytes) :
    ∃ r, convertUuidLoop s fuel i j id = some r ∧ r.2.length = id.length := by
  induction fuel generalizing i j id with
  | zero => exact ⟨_, rfl, rfl⟩
  | succ n ih =>
    unfold convertUuidLoop
    split
    · exact ⟨_, rfl, rfl⟩
    rename_i hi
    rw [List.getElem?_eq_getElem (by omega)]
    simp only
    generalize (if s[i] = 0x2d then i + 1 else i) = k
    split
    · exact ⟨_, rfl, rfl⟩
    rename_i hk
    rw [List.getElem?_eq_getElem (by omega)]
    simp only
    split
    · exact ⟨_, rfl, rfl⟩
    rename_i hk2
    simp only [Bool.or_eq_true, decide_eq_true_eq, not_or] at hk2
    rw [List.getElem?_eq_getElem (by omega)]
    simp only
    split
    · exact ⟨_, rfl, rfl⟩
    obtain ⟨r, hr, hl⟩ := ih (k + 1 + 1) (j + 1) (id.set j (hexDigit (lowerChar s[k]) * 16 + hexDigit (lowerChar s[k + 1])))
    exact ⟨r, hr, by simpa using hl⟩

/-- Position of the first digit of byte `j` in the text of a UUID, rights.c (8-4-4-4-12 form). -/
def textPos (j : Nat) : Nat :=
  2 * j + (if 4 ≤ j then 1 else 0) + (if 6 ≤ j then 1 else 0) + (if 8 ≤ j then 1 else 0) + (if 10 ≤ j then 1 else 0)

/-- Index at the top of the loop for byte `j`. -/
def loopPos (j : Nat) : Nat :=
  2 * j + (if 5 ≤ j then 1 else 0) + (if 7 ≤ j then 1 else 0) + (if 9 ≤ j then 1 else 0) + (if 11 ≤ j then 1 else 0)

/-- `c` is an accepted digit. -/
def okHex (c : UInt8) : Bool := !notHex (lowerChar c)

/-- Value of byte `j` in the text. -/
def textByte (s : Bytes) (j : Nat) : UInt8 :=
  hexDigit (lowerChar (s.getD (textPos j) 0)) * 16 + hexDigit (lowerChar (s.getD (textPos j + 1) 0))

theorem convertUuidLoop_step (s : Bytes) (hs : s.length = 36)
    (hd : ∀ i, i < 36 → (s[i]? = some 0x2d ↔ i = 8 ∨ i = 13 ∨ i = 18 ∨ i = 23)) (fuel j : Nat) (hj : j < 16) (id : Bytes) :
    convertUuidLoop s (fuel + 1) (loopPos j) j id =
      if okHex (s.getD (textPos j) 0) && okHex (s.getD (textPos j + 1) 0) then
        convertUuidLoop s fuel (loopPos (j + 1)) (j + 1) (id.set j (textByte s j))
      else some (false, id) := by
  have hlp : loopPos j < 36 := by unfold loopPos; split <;> split <;> split <;> split <;> omega
  have htp : textPos j + 1 < 36 := by unfold textPos; split <;> split <;> split <;> split <;> omega
  have hk : (if s[loopPos j]'(by omega) = 0x2d then loopPos j + 1 else loopPos j) = textPos j := by
    have h := hd (loopPos j) hlp
    rw [List.getElem?_eq_getElem (by omega), Option.some.injEq] at h
    have h4 : (loopPos j = 8 ∨ loopPos j = 13 ∨ loopPos j = 18 ∨ loopPos j = 23) ↔ (j = 4 ∨ j = 6 ∨ j = 8 ∨ j = 10) := by
      unfold loopPos; split <;> split <;> split <;> split <;> omega
    rw [h4] at h
    have h5 : textPos j = if (j = 4 ∨ j = 6 ∨ j = 8 ∨ j = 10) then loopPos j + 1 else loopPos j := by
      rcases (by omega : j = 0 ∨ j = 1 ∨ j = 2 ∨ j = 3 ∨ j = 4 ∨ j = 5 ∨ j = 6 ∨ j = 7 ∨ j = 8 ∨ j = 9 ∨ j = 10 ∨ j = 11 ∨ j = 12 ∨ j = 13 ∨ j = 14 ∨ j = 15) with h|h|h|h|h|h|h|h|h|h|h|h|h|h|h|h <;> subst h <;> rfl
    rw [h5]
    by_cases hc : (j = 4 ∨ j = 6 ∨ j = 8 ∨ j = 10)
    · rw [if_pos hc, if_pos (h.mpr hc)]
    · rw [if_neg hc, if_neg (fun x => hc (h.mp x))]
  have hnext : loopPos (j + 1) = textPos j + 1 + 1 := by
    rcases (by omega : j = 0 ∨ j = 1 ∨ j = 2 ∨ j = 3 ∨ j = 4 ∨ j = 5 ∨ j = 6 ∨ j = 7 ∨ j = 8 ∨ j = 9 ∨ j = 10 ∨ j = 11 ∨ j = 12 ∨ j = 13 ∨ j = 14 ∨ j = 15) with h|h|h|h|h|h|h|h|h|h|h|h|h|h|h|h <;> subst h <;> rfl
  have g0 : s.getD (textPos j) 0 = s[textPos j]'(by omega) := by
    rw [List.getD_eq_getElem?_getD, List.getElem?_eq_getElem (by omega)]; rfl
  have g1 : s.getD (textPos j + 1) 0 = s[textPos j + 1]'(by omega) := by
    rw [List.getD_eq_getElem?_getD, List.getElem?_eq_getElem (by omega)]; rfl
  rw [hnext]
  unfold textByte
  rw [g0, g1]
  rw [convertUuidLoop]
  rw [if_neg (by omega), List.getElem?_eq_getElem (by omega)]
  simp only
  rw [hk, if_neg (by omega), List.getElem?_eq_getElem (by omega)]
  simp only
  rw [List.getElem?_eq_getElem (by omega)]
  simp only
  have hge : decide (textPos j + 1 ≥ s.length) = false := by simp; omega
  rw [hge, Bool.false_or]
  unfold okHex
  by_cases h1 : notHex (lowerChar (s[textPos j]'(by omega))) = true
  · rw [if_pos h1, h1]; simp
  · rw [if_neg h1]
    simp only [Bool.not_eq_true] at h1
    by_cases h2 : notHex (lowerChar (s[textPos j + 1]'(by omega))) = true
    · rw [if_pos h2, h1, h2]; simp
    · rw [if_neg h2]
      simp only [Bool.not_eq_true] at h2
      rw [h1, h2]; simp

theorem convertUuidLoop_canonical (s : Bytes) (hs : s.length = 36)
    (hd : ∀ i, i < 36 → (s[i]? = some 0x2d ↔ i = 8 ∨ i = 13 ∨ i = 18 ∨ i = 23)) (fuel j : Nat) (hf : fuel + j = 16)
    (id : Bytes) (hid : id.length = 16) :
    ∃ ok id', convertUuidLoop s fuel (loopPos j) j id = some (ok, id') ∧ id'.length = 16 ∧
      (ok = true ↔ ∀ k, j ≤ k → k < 16 → okHex (s.getD (textPos k) 0) = true ∧ okHex (s.getD (textPos k + 1) 0) = true) ∧
      (ok = true → (∀ k, j ≤ k → k < 16 → id'[k]? = some (textByte s k)) ∧ ∀ k, k < j → id'[k]? = id[k]?) := by
  induction fuel generalizing j id with
  | zero =>
    refine ⟨true, id, rfl, hid, ?_, ?_⟩
    · simp only [true_iff]; intro k h1 h2; omega
    · intro _; exact ⟨fun k h1 h2 => by omega, fun _ _ => rfl⟩
  | succ n ih =>
    rw [convertUuidLoop_step s hs hd n j (by omega) id]
    by_cases hok : (okHex (s.getD (textPos j) 0) && okHex (s.getD (textPos j + 1) 0)) = true
    · rw [if_pos hok]
      obtain ⟨ok, id', h1, h2, h3, h4⟩ := ih (j + 1) (by omega) (id.set j (textByte s j)) (by simpa using hid)
      simp only [Bool.and_eq_true] at hok
      refine ⟨ok, id', h1, h2, ?_, ?_⟩
      · rw [h3]
        constructor
        · intro h k hk1 hk2
          by_cases hk : k = j
          · subst hk; exact hok
          · exact h k (by omega) hk2
        · intro h k hk1 hk2; exact h k (by omega) hk2
      · intro hok'
        obtain ⟨h5, h6⟩ := h4 hok'
        constructor
        · intro k hk1 hk2
          by_cases hk : k = j
          · subst hk
            rw [h6 k (by omega), List.getElem?_set_self (by omega)]
          · exact h5 k (by omega) hk2
        · intro k hk
          rw [h6 k (by omega), List.getElem?_set_ne (by omega)]
    · rw [if_neg hok]
      refine ⟨false, id, rfl, hid, ?_, by simp⟩
      simp only [Bool.false_eq_true, false_iff]
      intro h
      apply hok
      have := h j (by omega) (by omega)
      rw [this.1, this.2]; rfl

end Sa

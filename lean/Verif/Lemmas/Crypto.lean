import Verif.Model.Crypto

namespace Sa

theorem xorBytes_length (a b : Bytes) (h : a.length = b.length) : (xorBytes a b).length = a.length := by
  simp [xorBytes, h]

theorem xorBytes_cancel (a b : Bytes) (h : a.length = b.length) : xorBytes (xorBytes a b) b = a := by
  apply List.ext_getElem
  · simp [xorBytes]; omega
  · intro i h1 h2
    simp [xorBytes, UInt8.xor_assoc]

theorem cbcEnc_length (enc : Bytes → Bytes) (he : ∀ b, b.length = 16 → (enc b).length = 16) (n : Nat) (iv m : Bytes)
    (hiv : iv.length = 16) (hm : 16 * n ≤ m.length) : (cbcEnc enc n iv m).length = 16 * n := by
  induction n generalizing iv m with
  | zero => rfl
  | succ n ih =>
    unfold cbcEnc
    have h1 : (m.take 16).length = 16 := by rw [List.length_take]; omega
    have hx : (xorBytes (m.take 16) iv).length = 16 := by rw [xorBytes_length _ _ (by omega)]; exact h1
    simp only [List.length_append, he _ hx]
    rw [ih _ _ (he _ hx) (by rw [List.length_drop]; omega)]
    omega

theorem cbcDec_length (dec : Bytes → Bytes) (hd : ∀ b, b.length = 16 → (dec b).length = 16) (n : Nat) (iv c : Bytes)
    (hiv : iv.length = 16) (hc : 16 * n ≤ c.length) : (cbcDec dec n iv c).length = 16 * n := by
  induction n generalizing iv c with
  | zero => rfl
  | succ n ih =>
    unfold cbcDec
    have h1 : (c.take 16).length = 16 := by rw [List.length_take]; omega
    simp only [List.length_append]
    rw [xorBytes_length _ _ (by rw [hd _ h1, hiv]), hd _ h1, ih _ _ h1 (by rw [List.length_drop]; omega)]
    omega

/-- CBC decryption inverts CBC encryption. -/
theorem cbc_round_trip (enc dec : Bytes → Bytes) (he : ∀ b, b.length = 16 → (enc b).length = 16)
    (hde : ∀ b, b.length = 16 → dec (enc b) = b) (n : Nat) (iv m : Bytes)
    (hiv : iv.length = 16) (hm : m.length = 16 * n) : cbcDec dec n iv (cbcEnc enc n iv m) = m := by
  induction n generalizing iv m with
  | zero =>
    have : m = [] := List.length_eq_zero_iff.mp (by omega)
    subst this; rfl
  | succ n ih =>
    unfold cbcEnc cbcDec
    have h1 : (m.take 16).length = 16 := by rw [List.length_take]; omega
    have hx : (xorBytes (m.take 16) iv).length = 16 := by rw [xorBytes_length _ _ (by omega)]; exact h1
    have hc := he _ hx
    simp only
    rw [List.take_left' hc, List.drop_left' hc, hde _ hx, xorBytes_cancel _ _ (by omega),
      ih _ _ hc (by rw [List.length_drop]; omega), List.take_append_drop]

end Sa

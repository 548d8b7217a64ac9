/-
C98: The octets taken out of a secret bag are those of its secret value.

DER is described here by itself: a length is one byte below 128, or a count and that many bytes of a number, highest first; an element is a tag, the length of its
contents and the contents.
-/
import Verif.Model.RootKeys

namespace Sa.Sb.C98

open Sa Sa.Sb

/-- The number that bytes write, highest first. -/
def number (be : Bytes) : Nat := be.foldl (fun n b => n * 256 + b.toNat) 0

/-- `l` writes the length `n`, which fits an `int`. -/
def IsLen (n : Nat) (l : Bytes) : Prop :=
  (n < 128 ∧ l = [UInt8.ofNat n]) ∨ (n < 2 ^ 31 ∧ ∃ be, be.length < 128 ∧ l = UInt8.ofNat (128 + be.length) :: be ∧ number be = n)

/-- `e` is an element with the tag `t` and the contents `c`. -/
def Elem (t : UInt8) (c e : Bytes) : Prop := ∃ l, IsLen c.length l ∧ e = t :: (l ++ c)

/-- `d` is a secret bag: a sequence of the bag's kind, of the secret in an A0 and of attributes.  The secret is a sequence of the secret's kind and of `v`, an element,
in an A0 (RFC 7292, 4.2 and 4.2.5). -/
def IsBag (v d : Bytes) : Prop :=
  ∃ kind1 kind2 attributes k1 k2 value2 secret value1,
    Elem 0x06 kind1 k1 ∧ Elem 0x06 kind2 k2 ∧ Elem 0xa0 v value2 ∧ Elem 0x30 (k2 ++ value2) secret ∧ Elem 0xa0 secret value1 ∧
      Elem 0x30 (k1 ++ value1 ++ attributes) d

/-! ### Reading -/

theorem get_drop {d rest : Bytes} {o : Nat} {b : UInt8} (h : d.drop o = b :: rest) : d[o]? = some b ∧ d.drop (o + 1) = rest := by
  constructor
  · have := congrArg (fun l => l[0]?) h
    simpa using this
  · have := congrArg (List.drop 1) h
    simpa [List.drop_drop, Nat.add_comm] using this

theorem drop_add {d a rest : Bytes} {o : Nat} (h : d.drop o = a ++ rest) : d.drop (o + a.length) = rest := by
  rw [← List.drop_drop, h]
  simp

theorem foldl_ge (be : Bytes) (n : Nat) : n ≤ be.foldl (fun n b => n * 256 + b.toNat) n := by
  induction be generalizing n with
  | nil => exact Nat.le_refl _
  | cons b be ih =>
    have := ih (n * 256 + b.toNat)
    simp only [List.foldl_cons]
    omega

theorem lengthBytes_eq {d rest : Bytes} (be : Bytes) (o l : Nat) (h : d.drop (o + 1) = be ++ rest)
    (hn : be.foldl (fun n b => n * 256 + b.toNat) l < 2 ^ 31) :
    lengthBytes d be.length o l = some (be.foldl (fun n b => n * 256 + b.toNat) l, o + be.length) := by
  induction be generalizing o l with
  | nil => rfl
  | cons b be ih =>
    obtain ⟨h1, h2⟩ := get_drop (show d.drop (o + 1) = b :: (be ++ rest) from h)
    have hg := foldl_ge be (l * 256 + b.toNat)
    simp only [List.foldl_cons] at hn ⊢
    simp only [List.length_cons, lengthBytes, h1]
    rw [if_neg (by omega), ih (o + 1) _ h2 hn]
    simp only [Option.some.injEq, Prod.mk.injEq, true_and]
    omega

theorem long (k : Nat) (h : k < 128) :
    (UInt8.ofNat (128 + k) &&& 0x80 = 0x80) ∧ (UInt8.ofNat (128 + k) &&& 0x7f).toNat = k := by
  have : ∀ k : Fin 128, (UInt8.ofNat (128 + k.val) &&& 0x80 = 0x80) ∧ (UInt8.ofNat (128 + k.val) &&& 0x7f).toNat = k.val := by decide +kernel
  exact this ⟨k, h⟩

theorem short (n : Nat) (h : n < 128) : ¬(UInt8.ofNat n &&& 0x80 = 0x80) ∧ (UInt8.ofNat n).toNat = n := by
  have : ∀ k : Fin 128, ¬(UInt8.ofNat k.val &&& 0x80 = 0x80) ∧ (UInt8.ofNat k.val).toNat = k.val := by decide +kernel
  exact this ⟨n, h⟩

theorem itemLength_eq {d l rest : Bytes} {o n : Nat} (h : d.drop o = l ++ rest) (hl : IsLen n l) : itemLength d o = some (n, o + l.length) := by
  rcases hl with ⟨hn, rfl⟩ | ⟨hn, be, hb, rfl, hv⟩
  · obtain ⟨h1, h2⟩ := get_drop (show d.drop o = UInt8.ofNat n :: rest from h)
    simp only [itemLength, h1]
    rw [if_neg (short n hn).1, (short n hn).2]
    rfl
  · obtain ⟨h1, h2⟩ := get_drop (show d.drop o = UInt8.ofNat (128 + be.length) :: (be ++ rest) from h)
    simp only [itemLength, h1]
    rw [if_pos (long _ hb).1, (long _ hb).2, lengthBytes_eq be o 0 h2 (by rw [← number, hv]; exact hn)]
    simp only [List.length_cons, Option.some.injEq, Prod.mk.injEq]
    exact ⟨hv, by omega⟩

/-- Past an element that is neither a sequence nor an A0. -/
theorem over_elem {d c e rest : Bytes} {t : UInt8} {o n : Nat} (he : Elem t c e) (h : d.drop o = e ++ rest) (ha : t ≠ 0xa0) (ht : t &&& 0x1f ≠ 0x10) :
    findA0 d (n + 1) o = findA0 d n (o + e.length) := by
  obtain ⟨l, hl, rfl⟩ := he
  obtain ⟨h1, h2⟩ := get_drop (show d.drop o = t :: (l ++ c ++ rest) from h)
  rw [List.append_assoc] at h2
  simp only [findA0, h1, if_neg ha, itemLength_eq h2 hl]
  rw [if_pos ht]
  congr 1
  simp only [List.length_cons, List.length_append]
  omega

/-- Into a sequence. -/
theorem into_seq {d c e rest : Bytes} {o n : Nat} (he : Elem 0x30 c e) (h : d.drop o = e ++ rest) :
    ∃ o', d.drop o' = c ++ rest ∧ o < o' ∧ findA0 d (n + 1) o = findA0 d n o' := by
  obtain ⟨l, hl, rfl⟩ := he
  obtain ⟨h1, h2⟩ := get_drop (show d.drop o = 0x30 :: (l ++ c ++ rest) from h)
  rw [List.append_assoc] at h2
  refine ⟨o + 1 + l.length, drop_add h2, by omega, ?_⟩
  simp only [findA0, h1, itemLength_eq h2 hl]
  rfl

/-- At an A0, and past its length. -/
theorem at_a0 {d c e rest : Bytes} {o n : Nat} (he : Elem 0xa0 c e) (h : d.drop o = e ++ rest) :
    findA0 d (n + 1) o = some o ∧ ∃ k o', itemLength d (o + 1) = some (k, o') ∧ d.drop o' = c ++ rest := by
  obtain ⟨l, hl, rfl⟩ := he
  obtain ⟨h1, h2⟩ := get_drop (show d.drop o = 0xa0 :: (l ++ c ++ rest) from h)
  rw [List.append_assoc] at h2
  refine ⟨by simp [findA0, h1], _, _, itemLength_eq h2 hl, drop_add h2⟩

theorem elem_len {t : UInt8} {c e : Bytes} (h : Elem t c e) : c.length + 2 ≤ e.length := by
  obtain ⟨l, hl, rfl⟩ := h
  have : 1 ≤ l.length := by
    rcases hl with ⟨_, rfl⟩ | ⟨_, be, _, rfl, _⟩ <;> simp
  simp only [List.length_cons, List.length_append]
  omega

/-- A sequence of an element with the tag 06 and of an A0: past the length of that A0. -/
theorem past {d kind k v value tail e rest : Bytes} {o : Nat} (hk : Elem 0x06 kind k) (hv : Elem 0xa0 v value) (he : Elem 0x30 (k ++ value ++ tail) e)
    (h : d.drop o = e ++ rest) : ∃ o', pastA0 d o = some o' ∧ d.drop o' = v ++ (tail ++ rest) := by
  have hd : 2 ≤ d.length := by
    have h1 := congrArg List.length h
    have h2 := elem_len he
    have h3 := elem_len hk
    simp only [List.length_drop, List.length_append] at h1 h2
    omega
  obtain ⟨n, hn⟩ : ∃ n, d.length + 1 = n + 1 + 1 + 1 := ⟨d.length - 2, by omega⟩
  obtain ⟨o1, h1, _, e1⟩ := into_seq (n := n + 1 + 1) he h
  have h1' : d.drop o1 = k ++ (value ++ (tail ++ rest)) := by rw [h1]; simp only [List.append_assoc]
  have e2 := over_elem (n := n + 1) hk h1' (by decide) (by decide)
  have h2 := drop_add h1'
  obtain ⟨e3, j, o3, e4, h4⟩ := at_a0 (n := n) hv h2
  refine ⟨o3, ?_, h4⟩
  simp only [pastA0, hn, e1, e2, e3, e4]

theorem reach {v d : Bytes} (h : IsBag v d) : d ≠ [] ∧ ∃ o o' rest, pastA0 d 0 = some o ∧ pastA0 d o = some o' ∧ d.drop o' = v ++ rest := by
  obtain ⟨kind1, kind2, attributes, k1, k2, value2, secret, value1, h1, h2, h3, h4, h5, h6⟩ := h
  refine ⟨?_, ?_⟩
  · obtain ⟨l, _, rfl⟩ := h6
    exact List.cons_ne_nil _ _
  obtain ⟨o, p1, d1⟩ := past (d := d) (o := 0) (rest := []) h1 h5 h6 (by simp)
  obtain ⟨o', p2, d2⟩ := past (tail := []) h2 h3 (by simpa using h4) d1
  exact ⟨o, o', _, p1, p2, d2⟩

/-- The octets that are decrypted are those of the octet string in the bag, whatever its attributes, the names of the kinds and the lengths. -/
theorem C98_found {v e d : Bytes} (he : Elem 0x04 v e) (h : IsBag e d) : Sb.secret d = some (some v) := by
  obtain ⟨hd, o, o', rest, p1, p2, d2⟩ := reach h
  obtain ⟨l, hl, rfl⟩ := he
  obtain ⟨h1, h2⟩ := get_drop (show d.drop o' = 0x04 :: (l ++ v ++ rest) from d2)
  rw [List.append_assoc] at h2
  have h3 := drop_add h2
  simp only [Sb.secret, if_neg hd, p1, p2, h1, itemLength_eq h2 hl]
  rw [if_neg (by decide), if_neg, h3, List.take_left]
  have := congrArg List.length h3
  simp only [List.length_drop, List.length_append] at this
  have h4 := congrArg List.length d2
  simp only [List.length_drop, List.length_append, List.length_cons] at h4
  omega

/-- A bag whose secret is some other element is refused. -/
theorem C98_refused {v e d : Bytes} {t : UInt8} (ht : t ≠ 0x04) (he : Elem t v e) (h : IsBag e d) : Sb.secret d = some none := by
  obtain ⟨hd, o, o', rest, p1, p2, d2⟩ := reach h
  obtain ⟨l, hl, rfl⟩ := he
  obtain ⟨h1, h2⟩ := get_drop (show d.drop o' = t :: (l ++ v ++ rest) from d2)
  simp only [Sb.secret, if_neg hd, p1, p2, h1]
  rw [if_pos ht]

/-- Whatever the bytes are, what is decrypted is a part of them. -/
theorem C98_inside {v d : Bytes} (h : Sb.secret d = some (some v)) : ∃ a b, d = a ++ v ++ b := by
  unfold Sb.secret at h
  split at h
  · cases h
  split at h
  · cases h
  split at h
  · cases h
  split at h
  · cases h
  split at h
  · cases h
  split at h
  · cases h
  rename_i length o _
  split at h
  · cases h
  cases h
  exact ⟨d.take o, (d.drop o).drop length, by rw [List.append_assoc, List.take_append_drop, List.take_append_drop]⟩

/-- The number of turns that the model allows is no bound: more do not change what is found. -/
theorem C98_turns (d : Bytes) (n o : Nat) (m : Nat) (hn : d.length < o + n) : findA0 d (n + m) o = findA0 d n o := by
  induction n generalizing o with
  | zero =>
    cases m with
    | zero => rfl
    | succ m =>
      have : d[o]? = none := by simp; omega
      simp [findA0, this]
  | succ n ih =>
    rw [show n + 1 + m = n + m + 1 by omega]
    simp only [findA0]
    split
    · rfl
    split
    · rfl
    split
    · rfl
    rename_i length o' hi
    have ho : o < o' := by
      unfold itemLength at hi
      split at hi
      · cases hi
      split at hi
      · split at hi
        · cases hi
        · rename_i length o2 hl
          cases hi
          have : ∀ (n o l : Nat) {a b : Nat}, lengthBytes d n o l = some (a, b) → o ≤ b := by
            intro n
            induction n with
            | zero =>
              intro o l a b h
              cases h
              exact Nat.le_refl _
            | succ n ih =>
              intro o l a b h
              simp only [lengthBytes] at h
              split at h
              · cases h
              split at h
              · cases h
              exact Nat.le_of_succ_le (ih _ _ h)
          have := this _ _ _ hl
          omega
      · cases hi
        omega
    apply ih
    split <;> omega

/-! ### Not so -/

/-- Violated: octets that are no encrypted key are not refused; `PKCS8_decrypt` is given NULL, whatever the name of the bag and the password. -/
theorem C98_violated_null {σ : Type} (lib : Ks.Lib σ) (room : Nat) {v e d : Bytes} (he : Elem 0x04 v e) (h : IsBag e d) (hu : lib.unpack v = none) (name : Bytes) (s : Ks.St) :
    Ks.parse lib room ⟨.utf8 name, true, d⟩ s = none := by
  simp [Ks.parse, C98_found he h, hu]

/-! ### An example -/

/-- A bag with the secret 01 02 03 and a length of two bytes around it all. -/
def bag0 : Bytes :=
  [0x30, 0x81, 0x14, 0x06, 0x01, 0x55, 0xa0, 0x0c, 0x30, 0x0a, 0x06, 0x01, 0x56, 0xa0, 0x05, 0x04, 0x03, 1, 2, 3, 0x31, 0x01, 0x00]

theorem bag0_is : IsBag [0x04, 0x03, 1, 2, 3] bag0 :=
  ⟨[0x55], [0x56], [0x31, 0x01, 0x00], [0x06, 0x01, 0x55], [0x06, 0x01, 0x56], [0xa0, 0x05, 0x04, 0x03, 1, 2, 3],
    [0x30, 0x0a, 0x06, 0x01, 0x56, 0xa0, 0x05, 0x04, 0x03, 1, 2, 3], [0xa0, 0x0c, 0x30, 0x0a, 0x06, 0x01, 0x56, 0xa0, 0x05, 0x04, 0x03, 1, 2, 3],
    ⟨[1], Or.inl ⟨by decide, rfl⟩, rfl⟩, ⟨[1], Or.inl ⟨by decide, rfl⟩, rfl⟩, ⟨[5], Or.inl ⟨by decide, rfl⟩, rfl⟩,
    ⟨[10], Or.inl ⟨by decide, rfl⟩, rfl⟩, ⟨[12], Or.inl ⟨by decide, rfl⟩, rfl⟩, ⟨[0x81, 0x14], Or.inr ⟨by decide, [0x14], by decide, rfl, rfl⟩, rfl⟩⟩

theorem octets0 : Elem 0x04 [1, 2, 3] [0x04, 0x03, 1, 2, 3] := ⟨[3], Or.inl ⟨by decide, rfl⟩, rfl⟩

example : Sb.secret bag0 = some (some [1, 2, 3]) := C98_found octets0 bag0_is

/-- A bag with a sequence for its secret. -/
def bag1 : Bytes :=
  [0x30, 0x14, 0x06, 0x01, 0x55, 0xa0, 0x0c, 0x30, 0x0a, 0x06, 0x01, 0x56, 0xa0, 0x05, 0x30, 0x03, 2, 1, 3, 0x31, 0x01, 0x00]

theorem bag1_is : IsBag [0x30, 0x03, 2, 1, 3] bag1 :=
  ⟨[0x55], [0x56], [0x31, 0x01, 0x00], [0x06, 0x01, 0x55], [0x06, 0x01, 0x56], [0xa0, 0x05, 0x30, 0x03, 2, 1, 3],
    [0x30, 0x0a, 0x06, 0x01, 0x56, 0xa0, 0x05, 0x30, 0x03, 2, 1, 3], [0xa0, 0x0c, 0x30, 0x0a, 0x06, 0x01, 0x56, 0xa0, 0x05, 0x30, 0x03, 2, 1, 3],
    ⟨[1], Or.inl ⟨by decide, rfl⟩, rfl⟩, ⟨[1], Or.inl ⟨by decide, rfl⟩, rfl⟩, ⟨[5], Or.inl ⟨by decide, rfl⟩, rfl⟩,
    ⟨[10], Or.inl ⟨by decide, rfl⟩, rfl⟩, ⟨[12], Or.inl ⟨by decide, rfl⟩, rfl⟩, ⟨[0x14], Or.inl ⟨by decide, rfl⟩, rfl⟩⟩

example : Sb.secret bag1 = some none := C98_refused (by decide) ⟨[3], Or.inl ⟨by decide, rfl⟩, rfl⟩ bag1_is

/-- Bytes of a bag without a secret value: the walk would leave them.  That OpenSSL takes no such bag (its template for the contents of a secret bag has the value) is
what keeps the code from meeting them. -/
example : Sb.secret [0x30, 0x0c, 0x06, 0x01, 0x55, 0xa0, 0x05, 0x30, 0x03, 0x06, 0x01, 0x56, 0x31, 0x00] = none := by decide +kernel

example : ∃ a b, bag0 = a ++ [1, 2, 3] ++ b := C98_inside (C98_found octets0 bag0_is)

example : findA0 bag0 (24 + 100) 0 = findA0 bag0 24 0 := C98_turns bag0 24 0 100 (by decide)

end Sa.Sb.C98

import Verif.Lemmas.Rights

/-!
# C11: a child key never gains output rights its parent lacks

Flags 6 to 12 are the output protection flags; sa_types.h:381-434 says for each of them: "Any child key (resulting from key
derivation, key exchange or unwrap operation) shall not have this flag set if the parent key did not have it set."
All children are created by `stored_key_create` with the parent's rights as third argument.
-/

namespace Sa.C11

/-- The full statement. -/
def ChildOutputRights : Prop :=
  ∀ (allocOk : Bool) (rights parent : Rights) (keyType : Nat) (tp : Vector UInt8 1040) (size : Nat) (key : Bytes) (k : StoredKey),
    storedKeyCreate allocOk rights (some parent) keyType tp size key = (.OK, some k) →
    ∀ i, 6 ≤ i → i ≤ 12 → Flag k.header.rights.usageFlags i → Flag parent.usageFlags i

theorem created {allocOk rights parent keyType tp size key k}
    (h : storedKeyCreate allocOk rights parent keyType tp size key = (.OK, some k)) :
    k.header.rights = restrictChildRights rights parent := by
  unfold storedKeyCreate at h
  split at h
  · simp at h
  · split at h
    · simp at h
    · split at h
      · simp at h
      · simp at h; rw [← h]

/-- A parent that may only unwrap, has no output right, and has child usage flags. -/
def badParent : Rights := { rightsAllowAll with usageFlags := 4, childUsageFlags := 0x10 }

/-- **C11 is violated by the code**: for a parent whose only key usage is UNWRAP and whose child usage flags are not zero,
`restrict_child_rights` (stored_key.c:48-51) limits the key usage flags only, and the child keeps all output flags asked for. -/
theorem C11_violated : ¬ ChildOutputRights := by
  intro h
  have := h true rightsAllowAll badParent 0 (Vector.replicate 1040 0) 16 (List.replicate 16 0)
    { header := { magic := MAGIC, pad0 := Vector.replicate 4 0, rights := restrictChildRights rightsAllowAll (some badParent),
                  type := 0, pad1 := Vector.replicate 7 0, typeParameters := Vector.replicate 1040 0, size := 16,
                  pad2 := Vector.replicate 6 0 }, key := List.replicate 16 0 }
    (by
      unfold storedKeyCreate
      rw [if_neg, if_neg, if_neg]
      · rfl
      · decide
      · decide
      · simp [keyTypeSupportsAny, keyTypeSupportsAes, validAesSize, KEY_TYPE_SYMMETRIC])
    12 (by omega) (by omega) (by decide)
  revert this
  decide

/-- **C11 (what holds).**  Unless the parent is restricted to unwrapping *and* has non-zero child usage flags, the child has no
output protection flag that the parent does not have.  Missing for the full property: exactly the excluded parents. -/
theorem C11_child_output_rights_partial (allocOk : Bool) (rights parent : Rights) (keyType : Nat) (tp : Vector UInt8 1040)
    (size : Nat) (key : Bytes) (k : StoredKey)
    (h : storedKeyCreate allocOk rights (some parent) keyType tp size key = (.OK, some k))
    (hp : (∃ j, j ≤ 5 ∧ j ≠ 2 ∧ Flag parent.usageFlags j) ∨ parent.childUsageFlags = 0) :
    ∀ i, 6 ≤ i → i ≤ 12 → Flag k.header.rights.usageFlags i → Flag parent.usageFlags i := by
  intro i h6 h12 hf
  rw [created h] at hf
  unfold restrictChildRights at hf
  simp only at hf
  rw [if_pos (hp.imp (keyOnly_ne_zero_iff _).mpr id)] at hf
  rw [flag_restrict] at hf
  exact hf.2 ((outputMask_flag i).mpr ⟨h6, h12⟩)

/-- A child never has a flag that was not requested, whatever the parent. -/
theorem C11_child_flags_requested (allocOk : Bool) (rights : Rights) (parent : Option Rights) (keyType : Nat)
    (tp : Vector UInt8 1040) (size : Nat) (key : Bytes) (k : StoredKey)
    (h : storedKeyCreate allocOk rights parent keyType tp size key = (.OK, some k)) (i : Nat)
    (hf : Flag k.header.rights.usageFlags i) : Flag rights.usageFlags i := by
  rw [created h] at hf
  unfold restrictChildRights at hf
  cases parent with
  | none => exact hf
  | some p =>
    simp only at hf
    split at hf <;> (rw [flag_restrict] at hf; exact hf.1)

/-- Everything else in the rights of a child is what was requested. -/
theorem C11_other_rights_kept (allocOk : Bool) (rights : Rights) (parent : Option Rights) (keyType : Nat)
    (tp : Vector UInt8 1040) (size : Nat) (key : Bytes) (k : StoredKey)
    (h : storedKeyCreate allocOk rights parent keyType tp size key = (.OK, some k)) :
    k.header.rights.id = rights.id ∧ k.header.rights.childUsageFlags = rights.childUsageFlags ∧
    k.header.rights.notBefore = rights.notBefore ∧ k.header.rights.notOnOrAfter = rights.notOnOrAfter ∧
    k.header.rights.allowedTas = rights.allowedTas := by
  rw [created h]
  unfold restrictChildRights
  cases parent with
  | none => simp
  | some p => simp only; split <;> simp

/-- Non-trivial case: a parent allowed to decrypt and unwrap, with HDCP 2.2 only; the child asks for everything. -/
example : (restrictChildRights rightsAllowAll (some { rightsAllowAll with usageFlags := 0x414 })).usageFlags = 0x243F := by
  decide

end Sa.C11

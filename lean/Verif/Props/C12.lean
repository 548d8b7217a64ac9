import Verif.Props.C11

/-!
# C12: child usage limits of key-only parents are enforced
-/

namespace Sa.C12

/-- **C12.**  If none of the parent's key usages other than UNWRAP is set and the parent carries child usage flags, then each of the
six key usage flags of a child is set exactly if it was requested and is listed in the parent's child usage flags. -/
theorem C12_child_usage_limited (allocOk : Bool) (rights parent : Rights) (keyType : Nat) (tp : Vector UInt8 1040) (size : Nat)
    (key : Bytes) (k : StoredKey)
    (h : storedKeyCreate allocOk rights (some parent) keyType tp size key = (.OK, some k))
    (honly : ∀ j, j ≤ 5 → Flag parent.usageFlags j → j = 2) (hchild : parent.childUsageFlags ≠ 0) (i : Nat) (hi : i ≤ 5) :
    Flag k.header.rights.usageFlags i ↔ Flag rights.usageFlags i ∧ Flag parent.childUsageFlags i := by
  rw [C11.created h]
  unfold restrictChildRights
  simp only
  rw [if_neg]
  · rw [flag_restrict]
    have := (keyUsageMask_flag i).mpr hi
    constructor
    · rintro ⟨a, b⟩; exact ⟨a, b this⟩
    · rintro ⟨a, b⟩; exact ⟨a, fun _ => b⟩
  · rintro (h1 | h1)
    · obtain ⟨j, h5, h2, hf⟩ := (keyOnly_ne_zero_iff _).mp h1
      exact h2 (honly j h5 hf)
    · exact hchild h1

/-- In all other cases the key usage flags are those requested. -/
theorem C12_otherwise_as_requested (allocOk : Bool) (rights : Rights) (parent : Option Rights) (keyType : Nat)
    (tp : Vector UInt8 1040) (size : Nat) (key : Bytes) (k : StoredKey)
    (h : storedKeyCreate allocOk rights parent keyType tp size key = (.OK, some k))
    (ho : ∀ p, parent = some p → (∃ j, j ≤ 5 ∧ j ≠ 2 ∧ Flag p.usageFlags j) ∨ p.childUsageFlags = 0) (i : Nat) (hi : i ≤ 5) :
    Flag k.header.rights.usageFlags i ↔ Flag rights.usageFlags i := by
  rw [C11.created h]
  unfold restrictChildRights
  cases parent with
  | none => simp
  | some p =>
    simp only
    rw [if_pos ((ho p rfl).imp (keyOnly_ne_zero_iff _).mpr id), flag_restrict, outputMask_flag]
    constructor
    · exact fun a => a.1
    · exact fun a => ⟨a, fun b => by omega⟩

/-- Non-trivial case: an unwrap-only parent whose children may only decrypt. -/
example : (storedKeyCreate true rightsAllowAll (some C11.badParent) 0 (Vector.replicate 1040 0) 16 (List.replicate 16 0)).1 = .OK ∧
    (storedKeyCreate true rightsAllowAll (some C11.badParent) 0 (Vector.replicate 1040 0) 16 (List.replicate 16 0)).2.map
      (fun k => k.header.rights.usageFlags &&& KEY_USAGE_MASK) = some 0x10 := by
  decide +kernel

end Sa.C12

import Verif.Model.Slots

namespace Sa

/-- The bit for `slot` is set. -/
def Slots.isSet (s : Slots) (slot : Nat) : Bool :=
  (s.bitfield.getD (slot / 32) 0).getLsbD (31 - slot % 32)

/-- The number of blocks agrees with the slot count. -/
def slotWF (s : Slots) : Prop := s.slotCount = s.bitfield.length * 32

theorem ffs_spec (x : BitVec 32) :
    (ffs x = 0 ∧ ∀ i, i < 32 → x.getLsbD i = false) ∨
    (∃ i, i < 32 ∧ ffs x = i + 1 ∧ x.getLsbD i = true) := by
  unfold ffs
  cases h : (List.range 32).find? (fun i => x.getLsbD i) with
  | none =>
    left
    refine ⟨rfl, ?_⟩
    intro i hi
    have := List.find?_eq_none.mp h i (List.mem_range.mpr hi)
    simpa using this
  | some i =>
    right
    have h1 := List.find?_some h
    have h2 := List.mem_of_find?_eq_some h
    exact ⟨i, List.mem_range.mp h2, rfl, by simpa using h1⟩

theorem one_shl_getLsbD (k j : Nat) (hk : k < 32) : (1#32 <<< k).getLsbD j = decide (j = k) := by
  rw [BitVec.getLsbD_shiftLeft]
  by_cases hj : j = k
  · subst hj; simp [hk]
  · by_cases h2 : j < k
    · simp [h2, hj]
    · simp [h2, hj]
      intro _ h3; omega

theorem and_mask_eq_zero (b : BitVec 32) (slot : Nat) :
    (b &&& blockBitmask slot = 0#32) ↔ b.getLsbD (31 - slot % 32) = false := by
  unfold blockBitmask blockBit
  have e : 32 - slot % 32 - 1 = 31 - slot % 32 := by omega
  rw [e]
  constructor
  · intro h
    have h2 : (b &&& 1#32 <<< (31 - slot % 32)).getLsbD (31 - slot % 32) = (0#32).getLsbD (31 - slot % 32) := by rw [h]
    rw [BitVec.getLsbD_and, one_shl_getLsbD _ _ (by omega)] at h2
    simpa using h2
  · intro h
    apply BitVec.eq_of_getLsbD_eq
    intro i hi
    rw [BitVec.getLsbD_and, one_shl_getLsbD _ _ (by omega)]
    by_cases hj : i = 31 - slot % 32
    · subst hj; simp [h]
    · simp [hj]

/-- What the allocation loop does. -/
theorem slotsAllocateLoop_spec (bs : List (BitVec 32)) (i : Nat) :
    (slotsAllocateLoop bs i).1.length = bs.length ∧
    (((slotsAllocateLoop bs i) = (bs, SLOT_INVALID) ∧
        ∀ k, k < bs.length → ∀ j, j < 32 → (bs.getD k 0).getLsbD j = true) ∨
     (∃ k j, k < bs.length ∧ j < 32 ∧ (bs.getD k 0).getLsbD j = false ∧
        (slotsAllocateLoop bs i).2 = (i + k) * 32 + (31 - j) ∧
        ∀ k' j', ((slotsAllocateLoop bs i).1.getD k' 0).getLsbD j' =
          ((bs.getD k' 0).getLsbD j' || (decide (k' = k) && decide (j' = j))))) := by
  induction bs generalizing i with
  | nil => simp [slotsAllocateLoop]
  | cons b bs ih =>
    unfold slotsAllocateLoop
    rcases ffs_spec (~~~b) with ⟨h0, hall⟩ | ⟨j, hj, hf, hb⟩
    · simp only [h0]
      have hfull : ∀ j, j < 32 → b.getLsbD j = true := by
        intro j hj
        have := hall j hj
        simpa [BitVec.getLsbD_not, hj] using this
      obtain ⟨hl, hcase⟩ := ih (i + 1)
      refine ⟨by simp [hl], ?_⟩
      rcases hcase with ⟨heq, hset⟩ | ⟨k, j, hk, hj, hbit, hres, hget⟩
      · left
        refine ⟨by simp [heq], ?_⟩
        intro k hk j hj
        cases k with
        | zero => simpa using hfull j hj
        | succ k => simpa using hset k (by simpa using hk) j hj
      · right
        refine ⟨k + 1, j, by simpa using hk, hj, by simpa using hbit, ?_, ?_⟩
        · simp [hres]; omega
        · intro k' j'
          cases k' with
          | zero => simp
          | succ k' => simpa using hget k' j'
    · rw [hf]
      have hbj : b.getLsbD j = false := by
        simpa [BitVec.getLsbD_not, hj] using hb
      refine ⟨by simp, Or.inr ⟨0, j, by simp, hj, by simpa using hbj, ?_, ?_⟩⟩
      · simp; omega
      · intro k' j'
        cases k' with
        | zero => simp [BitVec.getLsbD_or, one_shl_getLsbD _ _ hj]
        | succ k' => simp

theorem slotsAllocate_wf (s : Slots) (h : slotWF s) :
    slotWF (slotsAllocate s).1 ∧ (slotsAllocate s).1.slotCount = s.slotCount := by
  have := (slotsAllocateLoop_spec s.bitfield 0).1
  simp [slotsAllocate, slotWF] at *
  omega

/-- Abstract description of `slots_allocate` in terms of the set of allocated slots. -/
theorem slotsAllocate_spec (s : Slots) (h : slotWF s) :
    (slotsAllocate s = (s, SLOT_INVALID) ∧ ∀ h, h < s.slotCount → s.isSet h = true) ∨
    ((slotsAllocate s).2 < s.slotCount ∧ s.isSet (slotsAllocate s).2 = false ∧
      ∀ h, h < s.slotCount → (slotsAllocate s).1.isSet h = (s.isSet h || decide (h = (slotsAllocate s).2))) := by
  rcases (slotsAllocateLoop_spec s.bitfield 0).2 with ⟨heq, hset⟩ | ⟨k, j, hk, hj, hbit, hres, hget⟩
  · left
    refine ⟨by simp [slotsAllocate, heq], ?_⟩
    intro x hx
    unfold slotWF at h
    exact hset (x / 32) (by omega) _ (by omega)
  · right
    unfold slotWF at h
    have e : (slotsAllocate s).2 = k * 32 + (31 - j) := by simp [slotsAllocate, hres]
    refine ⟨by omega, ?_, ?_⟩
    · unfold Slots.isSet
      rw [e]
      have e1 : (k * 32 + (31 - j)) / 32 = k := by omega
      have e2 : 31 - (k * 32 + (31 - j)) % 32 = j := by omega
      rw [e1, e2]; exact hbit
    · intro x hx
      unfold Slots.isSet
      rw [e]
      have : (slotsAllocate s).1.bitfield = (slotsAllocateLoop s.bitfield 0).1 := rfl
      rw [this, hget]
      congr 1
      by_cases hx' : x = k * 32 + (31 - j)
      · subst hx'
        have e1 : (k * 32 + (31 - j)) / 32 = k := by omega
        have e2 : 31 - (k * 32 + (31 - j)) % 32 = j := by omega
        simp only [e1, e2, decide_true, Bool.and_self]
      · simp only [hx', decide_false, Bool.and_eq_false_iff, decide_eq_false_iff_not]
        omega

theorem slotsFree_wf (s : Slots) (slot : Nat) (h : slotWF s) :
    slotWF (slotsFree s slot) ∧ (slotsFree s slot).slotCount = s.slotCount := by
  unfold slotsFree
  split
  · exact ⟨h, rfl⟩
  split
  · exact ⟨h, rfl⟩
  split
  · exact ⟨h, rfl⟩
  · simp [slotWF] at *; exact h

theorem slotsFree_spec (s : Slots) (slot : Nat) (h : slotWF s) (hc : s.slotCount < 2 ^ 64) :
    ∀ x, x < s.slotCount → (slotsFree s slot).isSet x = (s.isSet x && !decide (x = slot)) := by
  intro x hx
  unfold slotWF at h
  unfold slotsFree
  split
  next h1 =>
    have : x ≠ slot := by subst h1; unfold SLOT_INVALID; omega
    simp [this]
  split
  next h1 h2 =>
    have : x ≠ slot := by omega
    simp [this]
  split
  next h1 h2 h3 =>
    rw [and_mask_eq_zero] at h3
    by_cases hx' : x = slot
    · subst hx'
      unfold Slots.isSet; simp only [blockIdx] at h3; rw [h3]; rfl
    · simp [hx']
  next h1 h2 h3 =>
    unfold Slots.isSet
    simp only [blockIdx]
    have hlen : slot / 32 < s.bitfield.length := by omega
    by_cases hb : x / 32 = slot / 32
    · have : (s.bitfield.set (slot / 32) (s.bitfield.getD (slot / 32) 0 &&& ~~~ blockBitmask slot)).getD (x / 32) 0
          = s.bitfield.getD (slot / 32) 0 &&& ~~~ blockBitmask slot := by
        rw [hb, List.getD_eq_getElem?_getD, List.getElem?_set_self hlen]; rfl
      rw [this, BitVec.getLsbD_and, BitVec.getLsbD_not, hb]
      congr 1
      unfold blockBitmask blockBit
      rw [one_shl_getLsbD _ _ (by omega)]
      have : 31 - x % 32 < 32 := by omega
      simp only [this, decide_true, Bool.true_and]
      congr 2
      apply propext
      constructor <;> intro hh <;> omega
    · have hne : slot / 32 ≠ x / 32 := fun e => hb e.symm
      rw [List.getD_eq_getElem?_getD, List.getElem?_set_ne hne, ← List.getD_eq_getElem?_getD]
      have : x ≠ slot := by intro e; subst e; exact hb rfl
      simp [this]

theorem slotsInit_spec (n : Nat) (s : Slots) (h : slotsInit n = some s) :
    slotWF s ∧ s.slotCount = n ∧ n % 32 = 0 ∧ ∀ x, s.isSet x = false := by
  unfold slotsInit at h
  split at h
  · simp at h
  next h1 =>
    simp at h
    subst h
    refine ⟨?_, rfl, by omega, ?_⟩
    · simp [slotWF]; omega
    · intro x
      unfold Slots.isSet
      simp only [List.getD_eq_getElem?_getD, List.getElem?_replicate]
      split <;> simp

end Sa

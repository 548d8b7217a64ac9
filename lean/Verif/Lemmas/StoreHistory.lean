import Verif.Model.StoreHistory
import Verif.Lemmas.ObjectStore

namespace Sa

variable {α : Type} [DecidableEq α]

set_option linter.unusedSectionVars false

/-- Invariant of a store that is not being shut down. -/
structure LiveInv (st : ObjectStore α) : Prop extends StoreInv st where
  up : st.isShuttingDown = false

theorem liveInv_init (n : Nat) (st : ObjectStore α) (hn : n < 2 ^ 64) (h : objectStoreInit α n = some st) :
    LiveInv st := by
  obtain ⟨h1, _, h3, _⟩ := objectStoreInit_inv n st hn h
  exact { h1 with up := h3 }

theorem releaseCount_inv (st : ObjectStore α) (k : Nat) (h : StoreInv st) :
    StoreInv { st with releaseCount := k } :=
  ⟨h.wf, h.count, h.len, h.small, h.bits, h.empty⟩

/-- Complete description of a remove call. -/
theorem remove_spec (st : ObjectStore α) (inv : LiveInv st) (slot : Nat) (u : Uuid) :
    (objectStoreRemove st slot u = .returned st .INVALID_PARAMETER none ∧ (st.obj slot).object = none) ∨
    (objectStoreRemove st slot u = .returned st .OPERATION_NOT_ALLOWED none ∧ slot < st.slotCount ∧
      (st.obj slot).object.isSome ∧ (st.obj slot).ownerUuid ≠ u) ∨
    (∃ st', objectStoreRemove st slot u = .blocks st' ∧ st'.objects = st.objects ∧ LiveInv st' ∧
      st'.slotCount = st.slotCount ∧ slot < st.slotCount ∧
      (st.obj slot).object.isSome ∧ (st.obj slot).ownerUuid = u ∧ (st.obj slot).referenceCount ≠ 0) ∨
    (∃ st' o, objectStoreRemove st slot u = .returned st' .OK (some o) ∧ LiveInv st' ∧ st'.slotCount = st.slotCount ∧
      slot < st.slotCount ∧
      (st.obj slot).object = some o ∧ (st.obj slot).ownerUuid = u ∧ (st.obj slot).referenceCount = 0 ∧
      ∀ h, st'.obj h = if h = slot then
          { object := none, referenceCount := 0, ownerUuid := (st.obj slot).ownerUuid } else st.obj h) := by
  unfold objectStoreRemove
  by_cases hs : slot ≥ st.slotCount
  · rw [if_pos hs]
    exact Or.inl ⟨rfl, obj_ge st inv.toStoreInv slot hs⟩
  · rw [if_neg hs]
    have hinc : incrementReleaseCount st = ({ st with releaseCount := st.releaseCount + 1 }, true) := by
      unfold incrementReleaseCount; rw [if_neg (by simp [inv.up])]
    rw [hinc]
    have inv1 : StoreInv { st with releaseCount := st.releaseCount + 1 } := releaseCount_inv st _ inv.toStoreInv
    have hslot : slot < st.slotCount := by omega
    obtain ⟨i1, i2, i3, i4, hc⟩ := storeRemoveBody_spec _ inv1 slot (some u) (by exact hslot)
    have hback : decrementReleaseCount { st with releaseCount := st.releaseCount + 1 } = st := by
      unfold decrementReleaseCount; simp
    simp only [Bool.not_true, Bool.false_eq_true, if_false]
    rcases hc with ⟨hr, ho⟩ | ⟨hr, ho, v, hv, hu⟩ | ⟨hr, ho, hu, hc⟩ | ⟨o, ho, hu, hc, hr, hobj⟩
    · left
      rw [hr]
      simp only [hback]
      exact ⟨trivial, ho⟩
    · right; left
      rw [hr]
      simp only [hback]
      simp at hv; subst hv
      exact ⟨trivial, hslot, ho, hu⟩
    · right; right; left
      rw [hr]
      exact ⟨_, rfl, rfl, { inv1 with up := inv.up }, rfl, hslot, ho, hu u rfl, hc⟩
    · right; right; right
      revert hr hobj i1 i2 i3 i4
      generalize storeRemoveBody { st with releaseCount := st.releaseCount + 1 } slot (some u) = r
      intro i1 i2 i3 i4 hr hobj
      obtain ⟨st2, it⟩ := r
      simp only at hr i1 i2 i3 i4 hobj
      subst hr
      refine ⟨decrementReleaseCount st2, o, rfl, { releaseCount_inv st2 _ i1 with up := ?_ }, ?_, hslot, ho, hu u rfl, hc, ?_⟩
      · show st2.isShuttingDown = false
        rw [i3]; exact inv.up
      · show st2.slotCount = _
        rw [i2]
      · exact hobj

theorem acquire_spec (st : ObjectStore α) (inv : LiveInv st) (slot : Nat) (u : Uuid) :
    (objectStoreAcquire st slot u = (st, .INVALID_PARAMETER, none) ∧ (st.obj slot).object = none) ∨
    (objectStoreAcquire st slot u = (st, .OPERATION_NOT_ALLOWED, none) ∧ slot < st.slotCount ∧
      (st.obj slot).object.isSome ∧ (st.obj slot).ownerUuid ≠ u) ∨
    (∃ st' o, objectStoreAcquire st slot u = (st', .OK, some o) ∧ LiveInv st' ∧ st'.slotCount = st.slotCount ∧
      slot < st.slotCount ∧
      (st.obj slot).object = some o ∧ (st.obj slot).ownerUuid = u ∧
      ∀ h, st'.obj h = if h = slot then
          { object := some o, referenceCount := (st.obj slot).referenceCount + 1, ownerUuid := u } else st.obj h) := by
  unfold objectStoreAcquire
  by_cases hs : slot ≥ st.slotCount
  · rw [if_pos hs]
    exact Or.inl ⟨rfl, obj_ge st inv.toStoreInv slot hs⟩
  · rw [if_neg hs]
    have hslot : slot < st.slotCount := by omega
    obtain ⟨i1, i2, i3, i4, hc⟩ := acquireBody_spec st inv.toStoreInv slot u hslot
    rcases hc with ⟨h1, _⟩ | ⟨_, ho, hr⟩ | ⟨_, ho, hu, hr⟩ | ⟨o, _, ho, hu, hr1, hr2, hobj⟩
    · rw [inv.up] at h1; simp at h1
    · exact Or.inl ⟨hr, ho⟩
    · exact Or.inr (Or.inl ⟨hr, hslot, ho, hu⟩)
    · right; right
      revert hr1 hr2 hobj i1 i2 i3 i4
      generalize acquireBody st slot u = r
      intro i1 i2 i3 i4 hr1 hr2 hobj
      obtain ⟨st2, a, b⟩ := r
      simp only at hr1 hr2 i1 i2 i3 i4 hobj
      subst hr1; subst hr2
      exact ⟨st2, o, rfl, { i1 with up := by rw [i3]; exact inv.up }, i2, hslot, ho, hu, hobj⟩

theorem release_spec (st : ObjectStore α) (inv : LiveInv st) (slot : Nat) (ob : α) (u : Uuid) :
    (objectStoreRelease st slot ob u = (st, .INVALID_PARAMETER) ∧ st.slotCount ≤ slot ∧ (st.obj slot).object = none) ∨
    (objectStoreRelease st slot ob u = (st, .OPERATION_NOT_ALLOWED) ∧ slot < st.slotCount ∧ (st.obj slot).ownerUuid ≠ u) ∨
    (objectStoreRelease st slot ob u = (st, .INTERNAL_ERROR) ∧ slot < st.slotCount ∧ (st.obj slot).ownerUuid = u ∧
        ((st.obj slot).object ≠ some ob ∨ (st.obj slot).referenceCount = 0)) ∨
    (∃ st', objectStoreRelease st slot ob u = (st', .OK) ∧ LiveInv st' ∧ st'.slotCount = st.slotCount ∧
      slot < st.slotCount ∧
      (st.obj slot).object = some ob ∧ (st.obj slot).ownerUuid = u ∧ (st.obj slot).referenceCount ≠ 0 ∧
      ∀ h, st'.obj h = if h = slot then
          { object := some ob, referenceCount := (st.obj slot).referenceCount - 1, ownerUuid := u } else st.obj h) := by
  unfold objectStoreRelease
  by_cases hs : slot ≥ st.slotCount
  · rw [if_pos hs]
    exact Or.inl ⟨rfl, hs, obj_ge st inv.toStoreInv slot hs⟩
  · rw [if_neg hs]
    have hslot : slot < st.slotCount := by omega
    obtain ⟨i1, i2, i3, i4, hc⟩ := releaseBody_spec st inv.toStoreInv slot ob u hslot
    rcases hc with ⟨hr, hu⟩ | ⟨hr, hu, h⟩ | ⟨hu, ho, hc, hr, hobj⟩
    · exact Or.inr (Or.inl ⟨hr, hslot, hu⟩)
    · exact Or.inr (Or.inr (Or.inl ⟨hr, hslot, hu, h⟩))
    · right; right; right
      revert hr hobj i1 i2 i3 i4
      generalize releaseBody st slot ob u = r
      intro i1 i2 i3 i4 hr hobj
      obtain ⟨st2, a⟩ := r
      simp only at hr i1 i2 i3 i4 hobj
      subst hr
      exact ⟨st2, rfl, { i1 with up := by rw [i3]; exact inv.up }, i2, hslot, ho, hu, hc, hobj⟩

theorem storeStep_inv (st : ObjectStore α) (inv : LiveInv st) (op : StoreOp α) :
    LiveInv (storeStep st op).1 ∧ (storeStep st op).1.slotCount = st.slotCount := by
  cases op with
  | add o u =>
    obtain ⟨h1, h2, h3, _, _⟩ := add_spec st inv.toStoreInv inv.up o u
    exact ⟨{ h1 with up := h3 }, h2⟩
  | acquire h u =>
    rcases acquire_spec st inv h u with ⟨hr, _⟩ | ⟨hr, _⟩ | ⟨st', o, hr, hi, hc, _⟩
    · simp only [storeStep, hr]; exact ⟨inv, trivial⟩
    · simp only [storeStep, hr]; exact ⟨inv, trivial⟩
    · simp only [storeStep, hr]; exact ⟨hi, hc⟩
  | release h o u =>
    rcases release_spec st inv h o u with ⟨hr, _⟩ | ⟨hr, _⟩ | ⟨hr, _⟩ | ⟨st', hr, hi, hc, _⟩
    · simp only [storeStep, hr]; exact ⟨inv, trivial⟩
    · simp only [storeStep, hr]; exact ⟨inv, trivial⟩
    · simp only [storeStep, hr]; exact ⟨inv, trivial⟩
    · simp only [storeStep, hr]; exact ⟨hi, hc⟩
  | remove h u =>
    rcases remove_spec st inv h u with ⟨hr, _⟩ | ⟨hr, _⟩ | ⟨st', hr, _, hi, hc, _⟩ | ⟨st', o, hr, hi, hc, _⟩
    · simp only [storeStep, hr]; exact ⟨inv, trivial⟩
    · simp only [storeStep, hr]; exact ⟨inv, trivial⟩
    · simp only [storeStep, hr]; exact ⟨hi, hc⟩
    · simp only [storeStep, hr]; exact ⟨hi, hc⟩

theorem storeAfter_inv (ops : List (StoreOp α)) (st : ObjectStore α) (inv : LiveInv st) :
    LiveInv (storeAfter st ops) ∧ (storeAfter st ops).slotCount = st.slotCount := by
  induction ops generalizing st with
  | nil => exact ⟨inv, rfl⟩
  | cons op ops ih =>
    obtain ⟨h1, h2⟩ := storeStep_inv st inv op
    obtain ⟨h3, h4⟩ := ih _ h1
    exact ⟨h3, by rw [← h2]; exact h4⟩

end Sa

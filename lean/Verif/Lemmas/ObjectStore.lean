import Verif.Model.ObjectStore
import Verif.Lemmas.Slots
import Verif.Lemmas.Memory

namespace Sa

variable {α : Type}

/-- Representation invariant of the object store. -/
structure StoreInv (st : ObjectStore α) : Prop where
  wf : slotWF st.slots
  count : st.slots.slotCount = st.slotCount
  len : st.objects.length = st.slotCount
  small : st.slotCount < 2 ^ 64
  bits : ∀ h, h < st.slotCount → st.slots.isSet h = (st.obj h).object.isSome
  empty : ∀ h, (st.obj h).object = none → (st.obj h).referenceCount = 0

theorem obj_setObj (st : ObjectStore α) (h h' : Nat) (o : StoreObject α) (hl : h < st.objects.length) :
    (st.setObj h o).obj h' = if h' = h then o else st.obj h' := by
  unfold ObjectStore.obj ObjectStore.setObj
  simp only [List.getD_eq_getElem?_getD]
  by_cases e : h' = h
  · subst e
    simp [hl]
  · rw [List.getElem?_set_ne (fun x => e x.symm)]; simp [e]

theorem obj_slots (st : ObjectStore α) (s : Slots) (h : Nat) : ({ st with slots := s } : ObjectStore α).obj h = st.obj h := rfl

theorem setObj_slotCount (st : ObjectStore α) (h : Nat) (o) : (st.setObj h o).slotCount = st.slotCount := rfl

theorem setObj_slots (st : ObjectStore α) (h : Nat) (o) : (st.setObj h o).slots = st.slots := rfl

theorem obj_ge (st : ObjectStore α) (inv : StoreInv st) (h : Nat) (hh : st.slotCount ≤ h) :
    (st.obj h).object = none := by
  unfold ObjectStore.obj
  rw [List.getD_eq_getElem?_getD, List.getElem?_eq_none (by rw [inv.len]; exact hh)]
  rfl

theorem objectStoreInit_inv (n : Nat) (st : ObjectStore α) (hn : n < 2 ^ 64) (h : objectStoreInit α n = some st) :
    StoreInv st ∧ st.slotCount = n ∧ st.isShuttingDown = false ∧ st.releaseCount = 0 ∧
      ∀ x, st.obj x = StoreObject.zero := by
  unfold objectStoreInit at h
  split at h
  · simp at h
  · cases hs : slotsInit n with
    | none => simp [hs] at h
    | some s =>
      simp [hs] at h
      subst h
      obtain ⟨h1, h2, h3, h4⟩ := slotsInit_spec n s hs
      have hz : ∀ x, (List.replicate n (StoreObject.zero : StoreObject α)).getD x StoreObject.zero
          = StoreObject.zero := by
        intro x
        simp only [List.getD_eq_getElem?_getD, List.getElem?_replicate]
        split <;> rfl
      refine ⟨⟨h1, h2, by simp, hn, ?_, ?_⟩, rfl, rfl, rfl, hz⟩
      · intro x _
        rw [h4]
        show false = _
        unfold ObjectStore.obj
        rw [hz]; rfl
      · intro x _
        unfold ObjectStore.obj
        rw [hz]; rfl

/-- Changing one occupied entry while keeping it occupied preserves the invariant. -/
theorem setObj_inv (st : ObjectStore α) (inv : StoreInv st) (h : Nat) (o : StoreObject α) (hh : h < st.slotCount)
    (hs : o.object.isSome = (st.obj h).object.isSome) (he : o.object = none → o.referenceCount = 0) :
    StoreInv (st.setObj h o) := by
  have hl : h < st.objects.length := by rw [inv.len]; exact hh
  refine ⟨inv.wf, inv.count, by simp [ObjectStore.setObj, inv.len], inv.small, ?_, ?_⟩
  · intro x hx
    rw [obj_setObj _ _ _ _ hl, setObj_slots]
    have := inv.bits x hx
    by_cases e : x = h
    · subst e; simp [hs, this]
    · simp [e, this]
  · intro x hx
    rw [obj_setObj _ _ _ _ hl] at hx ⊢
    by_cases e : x = h
    · simp only [e, if_true] at hx ⊢; exact he hx
    · simp only [e, if_false] at hx ⊢; exact inv.empty x hx

theorem add_spec (st : ObjectStore α) (inv : StoreInv st) (hs : st.isShuttingDown = false) (o : α) (u : Uuid) :
    let r := objectStoreAdd st o u
    StoreInv r.1 ∧ r.1.slotCount = st.slotCount ∧ r.1.isShuttingDown = false ∧ r.1.releaseCount = st.releaseCount ∧
    ((r.2.1 = .NO_AVAILABLE_RESOURCE_SLOT ∧ r.2.2 = SLOT_INVALID ∧ (∀ h, h < st.slotCount → (st.obj h).object.isSome) ∧
        ∀ h, r.1.obj h = st.obj h) ∨
     (r.2.1 = .OK ∧ r.2.2 < st.slotCount ∧ (st.obj r.2.2).object = none ∧
        ∀ h, r.1.obj h = if h = r.2.2 then { object := some o, referenceCount := 0, ownerUuid := u } else st.obj h)) := by
  intro r
  have hr : r = objectStoreAdd st o u := rfl
  clear_value r
  unfold objectStoreAdd at hr
  rw [if_neg (by simp [hs])] at hr
  have hwf := slotsAllocate_wf st.slots inv.wf
  rcases slotsAllocate_spec st.slots inv.wf with ⟨he, hfull⟩ | ⟨hlt, hfree, hset⟩
  · rw [he] at hr
    simp only [if_true] at hr
    subst hr
    refine ⟨inv, rfl, hs, rfl, Or.inl ⟨rfl, rfl, ?_, fun _ => rfl⟩⟩
    intro h hh
    rw [← inv.bits h hh]
    exact hfull h (by rw [inv.count]; exact hh)
  · have hne : (slotsAllocate st.slots).2 ≠ SLOT_INVALID := by
      have := inv.small
      have := inv.count
      unfold SLOT_INVALID
      omega
    simp only [hne, if_false] at hr
    rw [inv.count] at hlt
    subst hr
    have hl : (slotsAllocate st.slots).2 < st.objects.length := by rw [inv.len]; exact hlt
    have hnone : (st.obj (slotsAllocate st.slots).2).object = none := by
      have := inv.bits _ hlt
      rw [hfree] at this
      cases hx : (st.obj (slotsAllocate st.slots).2).object with
      | none => rfl
      | some v => rw [hx] at this; simp at this
    have hrc := inv.empty _ hnone
    have hobj : ∀ h, (({ st with slots := (slotsAllocate st.slots).1 } : ObjectStore α).setObj (slotsAllocate st.slots).2
        { st.obj (slotsAllocate st.slots).2 with object := some o, ownerUuid := u }).obj h =
        if h = (slotsAllocate st.slots).2 then { object := some o, referenceCount := 0, ownerUuid := u } else st.obj h := by
      intro h
      rw [obj_setObj _ _ _ _ (by exact hl)]
      simp only [hrc]
      rfl
    refine ⟨⟨hwf.1, by rw [← inv.count]; exact hwf.2, ?_, inv.small, ?_, ?_⟩, rfl, hs, rfl,
      Or.inr ⟨rfl, hlt, hnone, hobj⟩⟩
    · simp [ObjectStore.setObj, inv.len]
    · intro x hx
      refine Eq.trans ?_ (congrArg (fun z => z.object.isSome) (hobj x)).symm
      show (slotsAllocate st.slots).1.isSet x = _
      rw [hset x (by rw [inv.count]; exact hx), inv.bits x hx]
      by_cases e : x = (slotsAllocate st.slots).2
      · simp [e]
      · simp [e]
    · intro x hx
      refine Eq.trans (congrArg (fun z => z.referenceCount) (hobj x)) ?_
      have hx' := Eq.trans (congrArg (fun z => z.object) (hobj x)).symm hx
      by_cases e : x = (slotsAllocate st.slots).2
      · simp [e]
      · simp only [e, if_false] at hx' ⊢; exact inv.empty x hx'

theorem acquireBody_spec (st : ObjectStore α) (inv : StoreInv st) (slot : Nat) (u : Uuid) (hslot : slot < st.slotCount) :
    let r := acquireBody st slot u
    StoreInv r.1 ∧ r.1.slotCount = st.slotCount ∧ r.1.isShuttingDown = st.isShuttingDown ∧
      r.1.releaseCount = st.releaseCount ∧
    ((st.isShuttingDown = true ∧ r = (st, .INTERNAL_ERROR, none)) ∨
     (st.isShuttingDown = false ∧ (st.obj slot).object = none ∧ r = (st, .INVALID_PARAMETER, none)) ∨
     (st.isShuttingDown = false ∧ (st.obj slot).object.isSome ∧ (st.obj slot).ownerUuid ≠ u ∧
        r = (st, .OPERATION_NOT_ALLOWED, none)) ∨
     (∃ o, st.isShuttingDown = false ∧ (st.obj slot).object = some o ∧ (st.obj slot).ownerUuid = u ∧ r.2.1 = .OK ∧
        r.2.2 = some o ∧
        ∀ h, r.1.obj h = if h = slot then
          { object := some o, referenceCount := (st.obj slot).referenceCount + 1, ownerUuid := u } else st.obj h)) := by
  intro r
  have hr : r = acquireBody st slot u := rfl
  clear_value r
  have hl : slot < st.objects.length := by rw [inv.len]; exact hslot
  unfold acquireBody at hr
  cases hs : st.isShuttingDown with
  | true =>
    simp only [hs, if_true] at hr
    subst hr
    exact ⟨inv, rfl, hs, rfl, Or.inl ⟨rfl, rfl⟩⟩
  | false =>
    simp only [hs, Bool.false_eq_true, if_false] at hr
    cases ho : (st.obj slot).object with
    | none =>
      simp only [ho] at hr
      subst hr
      exact ⟨inv, rfl, hs, rfl, Or.inr (Or.inl ⟨rfl, rfl, rfl⟩)⟩
    | some o =>
      simp only [ho] at hr
      by_cases hu : (st.obj slot).ownerUuid = u
      · have hm : uuidMatches (st.obj slot).ownerUuid u = true := (uuidMatches_iff _ _).mpr hu
        simp only [hm, Bool.not_true, Bool.false_eq_true, if_false] at hr
        subst hr
        refine ⟨setObj_inv st inv slot _ hslot (by simp [ho]) (by simp), rfl, hs, rfl,
          Or.inr (Or.inr (Or.inr ⟨o, rfl, rfl, hu, rfl, rfl, ?_⟩))⟩
        intro h
        show (st.setObj slot _).obj h = _
        rw [obj_setObj _ _ _ _ hl]
        simp [ho, hu]
      · have hm : uuidMatches (st.obj slot).ownerUuid u = false := (uuidMatches_false_iff _ _).mpr hu
        simp only [hm, Bool.not_false, if_true] at hr
        subst hr
        exact ⟨inv, rfl, hs, rfl, Or.inr (Or.inr (Or.inl ⟨rfl, rfl, hu, rfl⟩))⟩

theorem releaseBody_spec [DecidableEq α] (st : ObjectStore α) (inv : StoreInv st) (slot : Nat) (ob : α) (u : Uuid)
    (hslot : slot < st.slotCount) :
    let r := releaseBody st slot ob u
    StoreInv r.1 ∧ r.1.slotCount = st.slotCount ∧ r.1.isShuttingDown = st.isShuttingDown ∧
      r.1.releaseCount = st.releaseCount ∧
    ((r = (st, .OPERATION_NOT_ALLOWED) ∧ (st.obj slot).ownerUuid ≠ u) ∨
     (r = (st, .INTERNAL_ERROR) ∧ (st.obj slot).ownerUuid = u ∧
        ((st.obj slot).object ≠ some ob ∨ (st.obj slot).referenceCount = 0)) ∨
     ((st.obj slot).ownerUuid = u ∧ (st.obj slot).object = some ob ∧ (st.obj slot).referenceCount ≠ 0 ∧ r.2 = .OK ∧
        ∀ h, r.1.obj h = if h = slot then
          { object := some ob, referenceCount := (st.obj slot).referenceCount - 1, ownerUuid := u } else st.obj h)) := by
  intro r
  have hr : r = releaseBody st slot ob u := rfl
  clear_value r
  have hl : slot < st.objects.length := by rw [inv.len]; exact hslot
  unfold releaseBody at hr
  by_cases hu : (st.obj slot).ownerUuid = u
  · have hm : uuidMatches (st.obj slot).ownerUuid u = true := (uuidMatches_iff _ _).mpr hu
    simp only [hm, Bool.not_true, Bool.false_eq_true, if_false] at hr
    by_cases ho : (st.obj slot).object = some ob
    · simp only [ho, ne_eq, not_true_eq_false, if_false] at hr
      by_cases hc : (st.obj slot).referenceCount = 0
      · simp only [hc, if_true] at hr
        subst hr
        exact ⟨inv, rfl, rfl, rfl, Or.inr (Or.inl ⟨rfl, hu, Or.inr hc⟩)⟩
      · simp only [hc, if_false] at hr
        subst hr
        refine ⟨setObj_inv st inv slot _ hslot (by simp [ho]) (by simp), rfl, rfl, rfl,
          Or.inr (Or.inr ⟨hu, ho, hc, rfl, ?_⟩)⟩
        intro h
        show (st.setObj slot _).obj h = _
        rw [obj_setObj _ _ _ _ hl]
        simp [ho, hu]
    · simp only [ne_eq, ho, not_false_eq_true, if_true] at hr
      subst hr
      exact ⟨inv, rfl, rfl, rfl, Or.inr (Or.inl ⟨rfl, hu, Or.inl ho⟩)⟩
  · have hm : uuidMatches (st.obj slot).ownerUuid u = false := (uuidMatches_false_iff _ _).mpr hu
    simp only [hm, Bool.not_false, if_true] at hr
    subst hr
    exact ⟨inv, rfl, rfl, rfl, Or.inl ⟨rfl, hu⟩⟩

theorem storeRemoveBody_spec (st : ObjectStore α) (inv : StoreInv st) (slot : Nat) (c : Option Uuid)
    (hslot : slot < st.slotCount) :
    let r := storeRemoveBody st slot c
    StoreInv r.1 ∧ r.1.slotCount = st.slotCount ∧ r.1.isShuttingDown = st.isShuttingDown ∧
      r.1.releaseCount = st.releaseCount ∧
    ((r = (st, .done .INVALID_PARAMETER none) ∧ (st.obj slot).object = none) ∨
     (r = (st, .done .OPERATION_NOT_ALLOWED none) ∧ (st.obj slot).object.isSome ∧
        ∃ u, c = some u ∧ (st.obj slot).ownerUuid ≠ u) ∨
     (r = (st, .again) ∧ (st.obj slot).object.isSome ∧ (∀ u, c = some u → (st.obj slot).ownerUuid = u) ∧
        (st.obj slot).referenceCount ≠ 0) ∨
     (∃ o, (st.obj slot).object = some o ∧ (∀ u, c = some u → (st.obj slot).ownerUuid = u) ∧
        (st.obj slot).referenceCount = 0 ∧ r.2 = .done .OK (some o) ∧
        ∀ h, r.1.obj h = if h = slot then
          { object := none, referenceCount := 0, ownerUuid := (st.obj slot).ownerUuid } else st.obj h)) := by
  intro r
  have hr : r = storeRemoveBody st slot c := rfl
  clear_value r
  have hl : slot < st.objects.length := by rw [inv.len]; exact hslot
  unfold storeRemoveBody at hr
  cases ho : (st.obj slot).object with
  | none =>
    simp only [ho] at hr
    subst hr
    exact ⟨inv, rfl, rfl, rfl, Or.inl ⟨rfl, rfl⟩⟩
  | some o =>
    simp only [ho] at hr
    have tail : (∀ u, c = some u → (st.obj slot).ownerUuid = u) → 
        (r = if (st.obj slot).referenceCount = 0 then
            ({ (st.setObj slot { st.obj slot with object := none }) with
                 slots := slotsFree (st.setObj slot { st.obj slot with object := none }).slots slot },
              .done .OK (some o)) else (st, .again)) → 
        StoreInv r.1 ∧ r.1.slotCount = st.slotCount ∧ r.1.isShuttingDown = st.isShuttingDown ∧
          r.1.releaseCount = st.releaseCount ∧
        ((r = (st, .again) ∧ (st.obj slot).object.isSome ∧ (∀ u, c = some u → (st.obj slot).ownerUuid = u) ∧
            (st.obj slot).referenceCount ≠ 0) ∨
         (∃ o, (st.obj slot).object = some o ∧ (∀ u, c = some u → (st.obj slot).ownerUuid = u) ∧
            (st.obj slot).referenceCount = 0 ∧ r.2 = .done .OK (some o) ∧
            ∀ h, r.1.obj h = if h = slot then
              { object := none, referenceCount := 0, ownerUuid := (st.obj slot).ownerUuid } else st.obj h)) := by
      intro huu hr2
      by_cases hc : (st.obj slot).referenceCount = 0
      · rw [if_pos hc] at hr2
        have hobj : ∀ h, r.1.obj h = if h = slot then
              { object := none, referenceCount := 0, ownerUuid := (st.obj slot).ownerUuid } else st.obj h := by
          intro h
          rw [hr2]
          show (st.setObj slot _).obj h = _
          rw [obj_setObj _ _ _ _ hl]
          simp only [hc]
        have hslots : r.1.slots = slotsFree st.slots slot := by rw [hr2]; rfl
        have hcnt : r.1.slotCount = st.slotCount := by rw [hr2]; rfl
        have hfw := slotsFree_wf st.slots slot inv.wf
        refine ⟨⟨?_, ?_, ?_, by rw [hcnt]; exact inv.small, ?_, ?_⟩, hcnt, by rw [hr2]; rfl, by rw [hr2]; rfl,
          Or.inr ⟨o, ho, huu, hc, by rw [hr2], hobj⟩⟩
        · rw [hslots]; exact hfw.1
        · rw [hslots, hcnt, hfw.2]; exact inv.count
        · rw [hr2]; simp [ObjectStore.setObj, inv.len]
        · intro x hx
          rw [hcnt] at hx
          rw [hslots, hobj, slotsFree_spec st.slots slot inv.wf (by rw [inv.count]; exact inv.small) x
            (by rw [inv.count]; exact hx), inv.bits x hx]
          by_cases e : x = slot
          · simp [e]
          · simp [e]
        · intro x hx
          rw [hobj] at hx ⊢
          by_cases e : x = slot
          · simp [e]
          · simp only [e, if_false] at hx ⊢; exact inv.empty x hx
      · rw [if_neg hc] at hr2
        rw [hr2]
        exact ⟨inv, rfl, rfl, rfl, Or.inl ⟨rfl, by simp [ho], huu, hc⟩⟩
    cases c with
    | none =>
      simp only [Bool.not_true, Bool.false_eq_true, if_false] at hr
      obtain ⟨h1, h2, h3, h4, h5⟩ := tail (by simp) hr
      rw [ho] at h5
      exact ⟨h1, h2, h3, h4, Or.inr (Or.inr h5)⟩
    | some u =>
      by_cases hu : (st.obj slot).ownerUuid = u
      · have hm : uuidMatches (st.obj slot).ownerUuid u = true := (uuidMatches_iff _ _).mpr hu
        simp only [hm, Bool.not_true, Bool.false_eq_true, if_false] at hr
        obtain ⟨h1, h2, h3, h4, h5⟩ := tail (by intro v hv; simp at hv; rw [← hv]; exact hu) hr
        rw [ho] at h5
        exact ⟨h1, h2, h3, h4, Or.inr (Or.inr h5)⟩
      · have hm : uuidMatches (st.obj slot).ownerUuid u = false := (uuidMatches_false_iff _ _).mpr hu
        simp only [hm, Bool.not_false, if_true] at hr
        subst hr
        exact ⟨inv, rfl, rfl, rfl, Or.inr (Or.inl ⟨rfl, rfl, u, rfl, hu⟩)⟩

end Sa

import Verif.Lemmas.StoreHistory

/-!
# C02: the handle tables behave like an abstract map
-/

namespace Sa.C02

variable {α : Type} [DecidableEq α]

/-- Abstract entry: the object, who created it, and how many times it is currently borrowed. -/
structure Entry (α : Type) where
  object : α
  owner : Uuid
  borrows : Nat
  deriving DecidableEq, Repr

/-- The abstract table: a partial map from handles to entries. -/
abbrev Table (α : Type) := Nat → Option (Entry α)

def Table.empty : Table α := fun _ => none

def Table.set (m : Table α) (h : Nat) (e : Option (Entry α)) : Table α := fun x => if x = h then e else m x

/-- The abstract specification of a table with `n` handles: which responses a call may have and the table afterwards.
The only freedom is which unused handle `add` picks, and which of two error codes a release of an unused handle gets. -/
inductive Spec (n : Nat) : Table α → StoreOp α → StoreResp α → Table α → Prop where
  | add_ok (m o u h) : h < n → m h = none →
      Spec n m (.add o u) (.added .OK h) (m.set h (some ⟨o, u, 0⟩))
  | add_full (m o u) : (∀ h, h < n → m h ≠ none) →
      Spec n m (.add o u) (.added .NO_AVAILABLE_RESOURCE_SLOT SLOT_INVALID) m
  | acquire_ok (m h e) : m h = some e →
      Spec n m (.acquire h e.owner) (.acquired .OK (some e.object)) (m.set h (some { e with borrows := e.borrows + 1 }))
  | acquire_unknown (m h u) : m h = none → Spec n m (.acquire h u) (.acquired .INVALID_PARAMETER none) m
  | acquire_foreign (m h u e) : m h = some e → e.owner ≠ u →
      Spec n m (.acquire h u) (.acquired .OPERATION_NOT_ALLOWED none) m
  | release_ok (m h e) : m h = some e → e.borrows ≠ 0 →
      Spec n m (.release h e.object e.owner) (.released .OK) (m.set h (some { e with borrows := e.borrows - 1 }))
  | release_range (m h o u) : n ≤ h → Spec n m (.release h o u) (.released .INVALID_PARAMETER) m
  | release_unknown (m h o u s) : h < n → m h = none → (s = .OPERATION_NOT_ALLOWED ∨ s = .INTERNAL_ERROR) →
      Spec n m (.release h o u) (.released s) m
  | release_foreign (m h o u e) : m h = some e → e.owner ≠ u →
      Spec n m (.release h o u) (.released .OPERATION_NOT_ALLOWED) m
  | release_wrong (m h o e) : m h = some e → (e.object ≠ o ∨ e.borrows = 0) →
      Spec n m (.release h o e.owner) (.released .INTERNAL_ERROR) m
  | remove_ok (m h e) : m h = some e → e.borrows = 0 →
      Spec n m (.remove h e.owner) (.removed .OK (some e.object)) (m.set h none)
  | remove_waits (m h e) : m h = some e → e.borrows ≠ 0 → Spec n m (.remove h e.owner) .waits m
  | remove_unknown (m h u) : m h = none → Spec n m (.remove h u) (.removed .INVALID_PARAMETER none) m
  | remove_foreign (m h u e) : m h = some e → e.owner ≠ u →
      Spec n m (.remove h u) (.removed .OPERATION_NOT_ALLOWED none) m

/-- Executions of the specification. -/
inductive SpecRun (n : Nat) : Table α → List (StoreOp α × StoreResp α) → Prop where
  | nil (m) : SpecRun n m []
  | cons (m m' op r es) : Spec n m op r m' → SpecRun n m' es → SpecRun n m ((op, r) :: es)

/-- Abstraction function. -/
def absTable (st : ObjectStore α) : Table α := fun h =>
  (st.obj h).object.map fun o => ⟨o, (st.obj h).ownerUuid, (st.obj h).referenceCount⟩

omit [DecidableEq α] in
theorem abs_none {st : ObjectStore α} {h : Nat} (ho : (st.obj h).object = none) : absTable st h = none := by
  simp [absTable, ho]

omit [DecidableEq α] in
theorem abs_some {st : ObjectStore α} {h : Nat} {o : α} (ho : (st.obj h).object = some o) :
    absTable st h = some ⟨o, (st.obj h).ownerUuid, (st.obj h).referenceCount⟩ := by
  simp [absTable, ho]

omit [DecidableEq α] in
theorem abs_set {st st' : ObjectStore α} {slot : Nat} {so : StoreObject α}
    (hobj : ∀ h, st'.obj h = if h = slot then so else st.obj h) :
    absTable st' = (absTable st).set slot (so.object.map fun o => ⟨o, so.ownerUuid, so.referenceCount⟩) := by
  funext x
  unfold absTable Table.set
  rw [hobj]
  by_cases e : x = slot
  · simp [e]
  · simp [e]

/-- One call refines the specification. -/
theorem step_refines (st : ObjectStore α) (inv : LiveInv st) (op : StoreOp α) :
    Spec st.slotCount (absTable st) op (storeStep st op).2 (absTable (storeStep st op).1) := by
  cases op with
  | add o u =>
    obtain ⟨h1, h2, h3, h4, hc⟩ := add_spec st inv.toStoreInv inv.up o u
    simp only [storeStep]
    rcases hc with ⟨ha, hb, hfull, hobj⟩ | ⟨ha, hlt, hn, hobj⟩
    · rw [ha, hb]
      have : absTable (objectStoreAdd st o u).1 = absTable st := by
        funext x; unfold absTable; rw [hobj]
      rw [this]
      apply Spec.add_full
      intro h hh
      cases hx : (st.obj h).object with
      | none => have := hfull h hh; rw [hx] at this; simp at this
      | some v => rw [abs_some hx]; simp
    · rw [ha, abs_set hobj]
      exact Spec.add_ok _ _ _ _ hlt (abs_none hn)
  | acquire h u =>
    rcases acquire_spec st inv h u with ⟨hr, ho⟩ | ⟨hr, _, ho, hu⟩ | ⟨st', o, hr, _, _, _, ho, hu, hobj⟩
    · simp only [storeStep, hr]
      exact Spec.acquire_unknown _ _ _ (abs_none ho)
    · simp only [storeStep, hr]
      obtain ⟨o, ho⟩ := Option.isSome_iff_exists.mp ho
      exact Spec.acquire_foreign _ _ _ _ (abs_some ho) hu
    · simp only [storeStep, hr]
      rw [abs_set hobj]
      subst hu
      exact Spec.acquire_ok (absTable st) h _ (abs_some ho)
  | release h ob u =>
    rcases release_spec st inv h ob u with ⟨hr, hn, ho⟩ | ⟨hr, hlt, hu⟩ | ⟨hr, hlt, hu, hw⟩ |
        ⟨st', hr, _, _, _, ho, hu, hc, hobj⟩
    · simp only [storeStep, hr]
      exact Spec.release_range _ _ _ _ hn
    · simp only [storeStep, hr]
      cases ho : (st.obj h).object with
      | none => exact Spec.release_unknown _ _ _ _ _ hlt (abs_none ho) (Or.inl rfl)
      | some o => exact Spec.release_foreign _ _ _ _ _ (abs_some ho) hu
    · simp only [storeStep, hr]
      cases ho : (st.obj h).object with
      | none => exact Spec.release_unknown _ _ _ _ _ hlt (abs_none ho) (Or.inr rfl)
      | some o =>
        subst hu
        refine Spec.release_wrong (absTable st) h ob _ (abs_some ho) ?_
        rcases hw with hw | hw
        · left; intro e; rw [ho] at hw; exact hw (by simpa using e)
        · right; exact hw
    · simp only [storeStep, hr]
      rw [abs_set hobj]
      subst hu
      exact Spec.release_ok (absTable st) h _ (abs_some ho) hc
  | remove h u =>
    rcases remove_spec st inv h u with ⟨hr, ho⟩ | ⟨hr, _, ho, hu⟩ | ⟨st', hr, he, _, _, _, ho, hu, hc⟩ |
        ⟨st', o, hr, _, _, _, ho, hu, hc, hobj⟩
    · simp only [storeStep, hr]
      exact Spec.remove_unknown _ _ _ (abs_none ho)
    · simp only [storeStep, hr]
      obtain ⟨o, ho⟩ := Option.isSome_iff_exists.mp ho
      exact Spec.remove_foreign _ _ _ _ (abs_some ho) hu
    · simp only [storeStep, hr]
      have : absTable st' = absTable st := by
        funext x; simp only [absTable, ObjectStore.obj, he]
      rw [this]
      obtain ⟨o, ho⟩ := Option.isSome_iff_exists.mp ho
      subst hu
      exact Spec.remove_waits (absTable st) h _ (abs_some ho) hc
    · simp only [storeStep, hr]
      rw [abs_set hobj]
      subst hu
      exact Spec.remove_ok (absTable st) h _ (abs_some ho) hc

theorem run_refines (ops : List (StoreOp α)) (st : ObjectStore α) (inv : LiveInv st) :
    SpecRun st.slotCount (absTable st) (storeRun st ops) := by
  induction ops generalizing st with
  | nil => exact SpecRun.nil _
  | cons op ops ih =>
    obtain ⟨h1, h2⟩ := storeStep_inv st inv op
    refine SpecRun.cons _ _ _ _ _ (step_refines st inv op) ?_
    rw [← h2]
    exact ih _ h1

/-- **C02 (refinement).**  Every sequence of calls on a new table is a behaviour of the abstract map. -/
theorem C02_refines_map (n : Nat) (hn : n < 2 ^ 64) (st : ObjectStore α) (hst : objectStoreInit α n = some st)
    (ops : List (StoreOp α)) : SpecRun n Table.empty (storeRun st ops) := by
  have inv := liveInv_init n st hn hst
  obtain ⟨_, h2, _, _, hz⟩ := objectStoreInit_inv n st hn hst
  have h0 : absTable st = Table.empty := by
    funext x; unfold absTable; rw [hz]; rfl
  have := run_refines ops st inv
  rw [h2, h0] at this
  exact this

/-- The handle a call names (`add` names none). -/
def handleOf : StoreOp α → Option Nat
  | .add _ _ => none
  | .acquire h _ => some h
  | .release h _ _ => some h
  | .remove h _ => some h

/-- The response to a call that names handle `h` is determined by the table size and the object entry of `h`. -/
theorem resp_of_entry (st st' : ObjectStore α) (i1 : LiveInv st) (i2 : LiveInv st')
    (hc : st'.slotCount = st.slotCount) (op : StoreOp α) (h : Nat) (hh : handleOf op = some h)
    (he : st'.obj h = st.obj h) : (storeStep st' op).2 = (storeStep st op).2 := by
  cases op with
  | add => simp [handleOf] at hh
  | acquire x u =>
    simp [handleOf] at hh; subst hh
    simp only [storeStep, objectStoreAcquire, acquireBody, hc, he, i1.up, i2.up]
    split
    · rfl
    · simp only [Bool.false_eq_true, if_false]
      cases (st.obj x).object with
      | none => rfl
      | some o => simp only; split <;> rfl
  | release x o u =>
    simp [handleOf] at hh; subst hh
    simp only [storeStep, objectStoreRelease, releaseBody, hc, he]
    split
    · rfl
    · split
      · rfl
      · split
        · rfl
        · split <;> rfl
  | remove x u =>
    simp [handleOf] at hh; subst hh
    have e1 : incrementReleaseCount st = ({ st with releaseCount := st.releaseCount + 1 }, true) := by
      unfold incrementReleaseCount; rw [if_neg (by simp [i1.up])]
    have e2 : incrementReleaseCount st' = ({ st' with releaseCount := st'.releaseCount + 1 }, true) := by
      unfold incrementReleaseCount; rw [if_neg (by simp [i2.up])]
    have o1 : ({ st with releaseCount := st.releaseCount + 1 } : ObjectStore α).obj x = st.obj x := rfl
    have o2 : ({ st' with releaseCount := st'.releaseCount + 1 } : ObjectStore α).obj x = st'.obj x := rfl
    simp only [storeStep, objectStoreRemove, hc]
    by_cases hs : x ≥ st.slotCount
    · simp only [hs, if_true]
    · simp only [hs, if_false, e1, e2, storeRemoveBody, o1, o2, he]
      cases (st.obj x).object with
      | none => rfl
      | some o =>
        simp only [Bool.not_true, Bool.false_eq_true, if_false]
        by_cases hm : uuidMatches (st.obj x).ownerUuid u = true
        · simp only [hm, Bool.not_true, Bool.false_eq_true, if_false]
          by_cases hz : (st.obj x).referenceCount = 0
          · simp only [hz, if_true]
          · simp only [hz, if_false]
        · simp only [hm, Bool.not_false, if_true]

/-- Two tables that agree except possibly at handle `h`. -/
structure AgreeExcept (h : Nat) (st st' : ObjectStore α) : Prop where
  left : LiveInv st
  right : LiveInv st'
  count : st'.slotCount = st.slotCount
  same : ∀ x, x ≠ h → st'.obj x = st.obj x

theorem agree_step (h : Nat) (st st' : ObjectStore α) (ag : AgreeExcept h st st') (op : StoreOp α) (x : Nat)
    (hx : handleOf op = some x) (hne : x ≠ h) : AgreeExcept h (storeStep st op).1 (storeStep st' op).1 := by
  obtain ⟨i1, c1⟩ := storeStep_inv st ag.left op
  obtain ⟨i2, c2⟩ := storeStep_inv st' ag.right op
  refine ⟨i1, i2, by rw [c1, c2, ag.count], ?_⟩
  intro y hy
  have hxe := ag.same x hne
  have hye := ag.same y hy
  cases op with
  | add => simp [handleOf] at hx
  | acquire z u =>
    simp [handleOf] at hx; subst hx
    rcases acquire_spec st ag.left z u with ⟨hr, a⟩ | ⟨hr, _, a, b⟩ | ⟨s1, o, hr, _, _, _, a, b, hobj⟩ <;>
    rcases acquire_spec st' ag.right z u with ⟨hr', a'⟩ | ⟨hr', _, a', b'⟩ | ⟨s1', o', hr', _, _, _, a', b', hobj'⟩ <;>
    simp_all [storeStep]
  | release z o u =>
    simp [handleOf] at hx; subst hx
    have hcnt := ag.count
    rcases release_spec st ag.left z o u with ⟨hr, a, _⟩ | ⟨hr, a, b⟩ | ⟨hr, a, b, c⟩ | ⟨s1, hr, _, _, a, b, c, d, hobj⟩ <;>
    rcases release_spec st' ag.right z o u with ⟨hr', a', _⟩ | ⟨hr', a', b'⟩ | ⟨hr', a', b', c'⟩ |
      ⟨s1', hr', _, _, a', b', c', d', hobj'⟩ <;>
    simp_all [storeStep] <;> omega
  | remove z u =>
    simp [handleOf] at hx; subst hx
    rcases remove_spec st ag.left z u with ⟨hr, a⟩ | ⟨hr, _, a, b⟩ | ⟨s1, hr, he, _, _, _, a, b, c⟩ |
      ⟨s1, o, hr, _, _, _, a, b, c, hobj⟩ <;>
    rcases remove_spec st' ag.right z u with ⟨hr', a'⟩ | ⟨hr', _, a', b'⟩ | ⟨s1', hr', he', _, _, _, a', b', c'⟩ |
      ⟨s1', o', hr', _, _, _, a', b', c', hobj'⟩ <;>
    simp_all [storeStep, ObjectStore.obj]

theorem agree_run (h : Nat) (ops : List (StoreOp α)) (st st' : ObjectStore α) (ag : AgreeExcept h st st')
    (hops : ∀ op ∈ ops, ∃ x, handleOf op = some x ∧ x ≠ h) : storeRun st' ops = storeRun st ops := by
  induction ops generalizing st st' with
  | nil => rfl
  | cons op ops ih =>
    obtain ⟨x, hx, hne⟩ := hops op (by simp)
    have hr := resp_of_entry st st' ag.left ag.right ag.count op x hx (ag.same x hne)
    simp only [storeRun]
    rw [hr, ih _ _ (agree_step h st st' ag op x hx hne) (fun o ho => hops o (by simp [ho]))]

/-- **C02 (frame).**  In every reachable table, a call on handle `h` changes none of the responses of any
later sequence of calls that name other handles. -/
theorem C02_other_handles_unaffected (n : Nat) (hn : n < 2 ^ 64) (st0 : ObjectStore α)
    (hst : objectStoreInit α n = some st0) (ops : List (StoreOp α)) (op : StoreOp α) (h : Nat)
    (ho : handleOf op = some h) (later : List (StoreOp α))
    (hl : ∀ op' ∈ later, ∃ x, handleOf op' = some x ∧ x ≠ h) :
    storeRun (storeStep (storeAfter st0 ops) op).1 later = storeRun (storeAfter st0 ops) later := by
  have inv := (storeAfter_inv ops st0 (liveInv_init n st0 hn hst)).1
  generalize storeAfter st0 ops = st at inv
  obtain ⟨i1, i2⟩ := storeStep_inv st inv op
  refine agree_run h later _ _ ⟨inv, i1, i2, ?_⟩ hl
  intro h' hne
  cases op with
  | add => simp [handleOf] at ho
  | acquire x u =>
    simp [handleOf] at ho; subst ho
    rcases acquire_spec st inv x u with ⟨hr, _⟩ | ⟨hr, _⟩ | ⟨st', o, hr, _, _, _, _, _, hobj⟩
    · simp only [storeStep, hr]
    · simp only [storeStep, hr]
    · simp only [storeStep, hr]; rw [hobj, if_neg hne]
  | release x o u =>
    simp [handleOf] at ho; subst ho
    rcases release_spec st inv x o u with ⟨hr, _⟩ | ⟨hr, _⟩ | ⟨hr, _⟩ | ⟨st', hr, _, _, _, _, _, _, hobj⟩
    · simp only [storeStep, hr]
    · simp only [storeStep, hr]
    · simp only [storeStep, hr]
    · simp only [storeStep, hr]; rw [hobj, if_neg hne]
  | remove x u =>
    simp [handleOf] at ho; subst ho
    rcases remove_spec st inv x u with ⟨hr, _⟩ | ⟨hr, _⟩ | ⟨st', hr, he, _⟩ | ⟨st', o, hr, _, _, _, _, _, _, hobj⟩
    · simp only [storeStep, hr]
    · simp only [storeStep, hr]
    · simp only [storeStep, hr, ObjectStore.obj, he]
    · simp only [storeStep, hr]; rw [hobj, if_neg hne]

/-! Concrete, non-trivial case: a 32 entry table, two owners. -/

def uA : Uuid := Vector.replicate 16 1
def uB : Uuid := Vector.replicate 16 2

example : ∃ st, objectStoreInit Nat 32 = some st ∧
    (storeRun st [.add 100 uA, .add 200 uB, .acquire 31 uA, .remove 31 uA, .acquire 30 uA, .release 31 100 uA,
      .remove 31 uA, .acquire 31 uA, .acquire 30 uB]).map (·.2) =
    [.added .OK 31, .added .OK 30, .acquired .OK (some 100), .waits, .acquired .OPERATION_NOT_ALLOWED none,
      .released .OK, .removed .OK (some 100), .acquired .INVALID_PARAMETER none, .acquired .OK (some 200)] :=
  ⟨_, rfl, by decide +kernel⟩

end Sa.C02

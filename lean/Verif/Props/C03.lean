import Verif.Props.C02

/-!
# C03: a caller can never use or destroy an object of another TA
-/

namespace Sa.C03

variable {α : Type} [DecidableEq α]

/-- Who created the object currently behind each handle, computed only from the observed calls and responses. -/
def creator (c : Nat → Option (α × Uuid)) : StoreOp α × StoreResp α → (Nat → Option (α × Uuid))
  | (.add o u, .added .OK h) => fun x => if x = h then some (o, u) else c x
  | (.remove h _, .removed .OK _) => fun x => if x = h then none else c x
  | _ => c

def creatorAfter (es : List (StoreOp α × StoreResp α)) : Nat → Option (α × Uuid) := es.foldl creator (fun _ => none)

def creatorOf (m : C02.Table α) : Nat → Option (α × Uuid) := fun h => (m h).map fun e => (e.object, e.owner)

omit [DecidableEq α] in
theorem spec_creator (n : Nat) (m m' : C02.Table α) (op r) (h : C02.Spec n m op r m') :
    creatorOf m' = creator (creatorOf m) (op, r) := by
  cases h <;> first
    | rfl
    | (funext x; rename_i h _; by_cases hx : x = h <;> simp_all [creatorOf, C02.Table.set, creator])
    | (funext x; rename_i h _ _; by_cases hx : x = h <;> simp_all [creatorOf, C02.Table.set, creator])
    | (funext x; rename_i h _ _ _; by_cases hx : x = h <;> simp_all [creatorOf, C02.Table.set, creator])

theorem creator_abs (n : Nat) (hn : n < 2 ^ 64) (st : ObjectStore α) (hst : objectStoreInit α n = some st)
    (ops : List (StoreOp α)) :
    creatorAfter (storeRun st ops) = creatorOf (C02.absTable (storeAfter st ops)) := by
  have key : ∀ (ops : List (StoreOp α)) (st : ObjectStore α), LiveInv st →
      creatorOf (C02.absTable (storeAfter st ops)) = (storeRun st ops).foldl creator (creatorOf (C02.absTable st)) := by
    intro ops
    induction ops with
    | nil => intro st _; rfl
    | cons op ops ih =>
      intro st inv
      obtain ⟨h1, _⟩ := storeStep_inv st inv op
      have := spec_creator _ _ _ _ _ (C02.step_refines st inv op)
      simp only [storeAfter, storeRun, List.foldl_cons]
      rw [ih _ h1, this]
  have inv := liveInv_init n st hn hst
  obtain ⟨_, _, _, _, hz⟩ := objectStoreInit_inv n st hn hst
  have h0 : creatorOf (C02.absTable st) = fun _ => none := by
    funext x; unfold creatorOf C02.absTable; rw [hz]; rfl
  rw [key ops st inv, h0]
  rfl

/-- **C03 (no foreign access).**  After any history, if the object behind handle `h` was created by `owner` and another
caller tries to acquire or remove it, the call fails with OPERATION_NOT_ALLOWED and the table is exactly as before; a release
attempt by that caller fails in the same way. -/
theorem C03_foreign_call_rejected (n : Nat) (hn : n < 2 ^ 64) (st : ObjectStore α) (hst : objectStoreInit α n = some st)
    (ops : List (StoreOp α)) (h : Nat) (o : α) (owner caller : Uuid)
    (hc : creatorAfter (storeRun st ops) h = some (o, owner)) (hne : caller ≠ owner) :
    storeStep (storeAfter st ops) (.acquire h caller) = (storeAfter st ops, .acquired .OPERATION_NOT_ALLOWED none) ∧
    storeStep (storeAfter st ops) (.remove h caller) = (storeAfter st ops, .removed .OPERATION_NOT_ALLOWED none) ∧
    ∀ ob, storeStep (storeAfter st ops) (.release h ob caller) = (storeAfter st ops, .released .OPERATION_NOT_ALLOWED) := by
  have inv := (storeAfter_inv ops st (liveInv_init n st hn hst)).1
  rw [creator_abs n hn st hst] at hc
  generalize storeAfter st ops = s at *
  simp only [creatorOf, C02.absTable, Option.map_map, Option.map_eq_some_iff, Function.comp_def] at hc
  obtain ⟨o', ho, he⟩ := hc
  have hown : (s.obj h).ownerUuid = owner := by injection he
  have hlt : h < s.slotCount := by
    have := obj_ge s inv.toStoreInv h
    by_cases hh : s.slotCount ≤ h
    · have := this hh; rw [ho] at this; simp at this
    · omega
  refine ⟨?_, ?_, ?_⟩
  · rcases acquire_spec s inv h caller with ⟨hr, a⟩ | ⟨hr, _⟩ | ⟨st', o, hr, _, _, _, _, hu, _⟩
    · rw [ho] at a; simp at a
    · simp only [storeStep, hr]
    · exact absurd (hu.symm.trans hown) hne
  · rcases remove_spec s inv h caller with ⟨hr, a⟩ | ⟨hr, _⟩ | ⟨st', hr, _, _, _, _, _, hu, _⟩ |
      ⟨st', o, hr, _, _, _, _, hu, _⟩
    · rw [ho] at a; simp at a
    · simp only [storeStep, hr]
    · exact absurd (hu.symm.trans hown) hne
    · exact absurd (hu.symm.trans hown) hne
  · intro ob
    rcases release_spec s inv h ob caller with ⟨hr, a, _⟩ | ⟨hr, _⟩ | ⟨hr, _, hu, _⟩ | ⟨st', hr, _, _, _, _, hu, _⟩
    · omega
    · simp only [storeStep, hr]
    · exact absurd (hu.symm.trans hown) hne
    · exact absurd (hu.symm.trans hown) hne

/-- **C03 (history).**  In every history, whatever object a caller obtains through a handle, or destroys through a handle,
was created by that same caller and is the object last added under that handle. -/
theorem C03_only_own_objects (n : Nat) (hn : n < 2 ^ 64) (st : ObjectStore α) (hst : objectStoreInit α n = some st)
    (ops : List (StoreOp α)) (h : Nat) (o : α) (caller : Uuid) :
    ((storeStep (storeAfter st ops) (.acquire h caller)).2 = .acquired .OK (some o) →
      creatorAfter (storeRun st ops) h = some (o, caller)) ∧
    (∀ s, (storeStep (storeAfter st ops) (.remove h caller)).2 = .removed s (some o) →
      creatorAfter (storeRun st ops) h = some (o, caller)) := by
  have inv := (storeAfter_inv ops st (liveInv_init n st hn hst)).1
  rw [creator_abs n hn st hst]
  generalize storeAfter st ops = s at *
  have hres : ∀ {o : α}, (s.obj h).object = some o → (s.obj h).ownerUuid = caller →
      creatorOf (C02.absTable s) h = some (o, caller) := by
    intro o h1 h2; simp [creatorOf, C02.absTable, h1, h2]
  constructor
  · intro hh
    rcases acquire_spec s inv h caller with ⟨hr, a⟩ | ⟨hr, _⟩ | ⟨st', o', hr, _, _, _, ho, hu, _⟩
    · simp [storeStep, hr] at hh
    · simp [storeStep, hr] at hh
    · simp [storeStep, hr] at hh
      subst hh; exact hres ho hu
  · intro stt hh
    rcases remove_spec s inv h caller with ⟨hr, a⟩ | ⟨hr, _⟩ | ⟨st', hr, _, _, _, _, _, hu, _⟩ |
      ⟨st', o', hr, _, _, _, ho, hu, _⟩
    · simp [storeStep, hr] at hh
    · simp [storeStep, hr] at hh
    · simp [storeStep, hr] at hh
    · simp [storeStep, hr] at hh
      obtain ⟨_, hh⟩ := hh
      subst hh; exact hres ho hu

/-- Non-trivial case: B tries all calls on A's handle while B owns another object. -/
example : ∃ st, objectStoreInit Nat 32 = some st ∧
    creatorAfter (storeRun st [.add 100 C02.uA, .add 200 C02.uB]) 31 = some (100, C02.uA) ∧
    (storeRun st [.add 100 C02.uA, .add 200 C02.uB, .acquire 31 C02.uB, .remove 31 C02.uB, .acquire 31 C02.uA]).map (·.2)
     = [.added .OK 31, .added .OK 30, .acquired .OPERATION_NOT_ALLOWED none, .removed .OPERATION_NOT_ALLOWED none,
        .acquired .OK (some 100)] :=
  ⟨_, rfl, by decide +kernel, by decide +kernel⟩

end Sa.C03

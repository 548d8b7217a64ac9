import Verif.Props.C02

/-!
# C01: handles are never aliased and never run out early
-/

namespace Sa.C01

variable {α : Type} [DecidableEq α]

/-- Update of the set of live handles, as an observer of calls and responses sees it: a successful add makes the returned
handle live, a successful remove makes the named handle dead; nothing else changes the set. -/
def observe (live : Nat → Bool) : StoreOp α × StoreResp α → (Nat → Bool)
  | (.add _ _, .added .OK h) => fun x => live x || decide (x = h)
  | (.remove h _, .removed .OK _) => fun x => live x && !decide (x = h)
  | _ => live

/-- What the property demands of one observed call when `live` are the live handles of a table of `n`. -/
def Allowed (n : Nat) (live : Nat → Bool) : StoreOp α × StoreResp α → Prop
  | (.add _ _, .added s h) =>
      -- success: a fresh handle in range, and some handle was indeed not live
      (s = .OK ∧ h < n ∧ live h = false) ∨
      -- failure: only because all are live
      (s = .NO_AVAILABLE_RESOURCE_SLOT ∧ ∀ x, x < n → live x = true)
  | (.add _ _, _) => False
  | (.remove h _, .removed .OK _) => live h = true
  | _ => True

/-- Every call of the history is allowed. -/
def Good (n : Nat) : (Nat → Bool) → List (StoreOp α × StoreResp α) → Prop
  | _, [] => True
  | live, e :: es => Allowed n live e ∧ Good n (observe live e) es

/-- The live set of an abstract table. -/
def liveOf (m : C02.Table α) : Nat → Bool := fun h => (m h).isSome

omit [DecidableEq α] in
theorem spec_allowed (n : Nat) (m m' : C02.Table α) (op r) (h : C02.Spec n m op r m') :
    Allowed n (liveOf m) (op, r) ∧ liveOf m' = observe (liveOf m) (op, r) := by
  have hset : ∀ (m : C02.Table α) (h : Nat) (e : C02.Entry α),
      liveOf (m.set h (some e)) = fun x => liveOf m x || decide (x = h) := by
    intro m h e; funext x; by_cases hx : x = h <;> simp [liveOf, C02.Table.set, hx]
  have hkeep : ∀ (m : C02.Table α) (h : Nat) (e0 e : C02.Entry α), m h = some e0 → liveOf (m.set h (some e)) = liveOf m := by
    intro m h e0 e hm; funext x; by_cases hx : x = h <;> simp [liveOf, C02.Table.set, hx, hm]
  cases h with
  | add_ok o u h hl hn =>
    exact ⟨Or.inl ⟨rfl, hl, by simp [liveOf, hn]⟩, hset m _ _⟩
  | add_full o u hf =>
    refine ⟨Or.inr ⟨rfl, ?_⟩, rfl⟩
    intro x hx
    have := hf x hx
    simp only [liveOf]
    cases hm : m x with
    | none => exact absurd hm this
    | some e => rfl
  | acquire_ok h e hm => exact ⟨trivial, hkeep m h e _ hm⟩
  | acquire_unknown => exact ⟨trivial, rfl⟩
  | acquire_foreign => exact ⟨trivial, rfl⟩
  | release_ok h e hm _ => exact ⟨trivial, hkeep m h e _ hm⟩
  | release_range => exact ⟨trivial, rfl⟩
  | release_unknown => exact ⟨trivial, rfl⟩
  | release_foreign => exact ⟨trivial, rfl⟩
  | release_wrong => exact ⟨trivial, rfl⟩
  | remove_ok h e hm hb =>
    refine ⟨by simp [Allowed, liveOf, hm], ?_⟩
    funext x; by_cases hx : x = h <;> simp [liveOf, C02.Table.set, hx, observe]
  | remove_waits => exact ⟨trivial, rfl⟩
  | remove_unknown => exact ⟨trivial, rfl⟩
  | remove_foreign => exact ⟨trivial, rfl⟩

omit [DecidableEq α] in
theorem specRun_good (n : Nat) (m : C02.Table α) (es) (h : C02.SpecRun n m es) : Good n (liveOf m) es := by
  induction h with
  | nil => trivial
  | cons m m' op r es hs _ ih =>
    obtain ⟨h1, h2⟩ := spec_allowed n m m' op r hs
    exact ⟨h1, by rw [← h2]; exact ih⟩

/-- **C01.**  In every history of calls on a new table of `n` handles: a handle returned by a successful add is in range and
was not live; an add fails only with "no available slot" and only if all `n` handles are live; only live handles are ever
successfully removed; and (by `observe`) exactly the removed handle becomes available again. -/
theorem C01_handles_unique (n : Nat) (hn : n < 2 ^ 64) (st : ObjectStore α) (hst : objectStoreInit α n = some st)
    (ops : List (StoreOp α)) : Good n (fun _ => false) (storeRun st ops) :=
  specRun_good n _ _ (C02.C02_refines_map n hn st hst ops)

/-- The live set computed by the observer after a whole history. -/
def liveAfter : List (StoreOp α × StoreResp α) → Nat → Bool := fun es => es.foldl observe (fun _ => false)

/-- The slot bit field (`slots.c`) records exactly the live set: after any history the bit of a handle is set iff
the observer considers it live.  Hence an add succeeds iff some handle below `n` is not live. -/
theorem C01_bitfield_is_live_set (n : Nat) (hn : n < 2 ^ 64) (st : ObjectStore α) (hst : objectStoreInit α n = some st)
    (ops : List (StoreOp α)) (h : Nat) (hh : h < n) :
    (storeAfter st ops).slots.isSet h = liveAfter (storeRun st ops) h := by
  have key : ∀ (ops : List (StoreOp α)) (st : ObjectStore α), LiveInv st →
      liveOf (C02.absTable (storeAfter st ops)) = (storeRun st ops).foldl observe (liveOf (C02.absTable st)) := by
    intro ops
    induction ops with
    | nil => intro st _; rfl
    | cons op ops ih =>
      intro st inv
      obtain ⟨h1, h2⟩ := storeStep_inv st inv op
      have := (spec_allowed _ _ _ _ _ (C02.step_refines st inv op)).2
      simp only [storeAfter, storeRun, List.foldl_cons]
      rw [ih _ h1, this]
  have inv := liveInv_init n st hn hst
  obtain ⟨_, h2, _, _, hz⟩ := objectStoreInit_inv n st hn hst
  have h0 : liveOf (C02.absTable st) = fun _ => false := by
    funext x; unfold liveOf C02.absTable; rw [hz]; rfl
  have hk := key ops st inv
  rw [h0] at hk
  obtain ⟨i1, c1⟩ := storeAfter_inv ops st inv
  rw [i1.bits h (by rw [c1, h2]; exact hh)]
  unfold liveAfter
  rw [← hk]
  simp [liveOf, C02.absTable]

/-- **C01 (exact availability).**  After any history an add succeeds if and only if some handle is not live, and otherwise
reports "no available slot". -/
theorem C01_add_succeeds_iff (n : Nat) (hn : n < 2 ^ 64) (st : ObjectStore α) (hst : objectStoreInit α n = some st)
    (ops : List (StoreOp α)) (o : α) (u : Uuid) :
    (∃ h, (storeStep (storeAfter st ops) (.add o u)).2 = .added .OK h) ↔
      ∃ h, h < n ∧ liveAfter (storeRun st ops) h = false := by
  have inv := liveInv_init n st hn hst
  obtain ⟨_, h2, _, _, _⟩ := objectStoreInit_inv n st hn hst
  obtain ⟨i1, c1⟩ := storeAfter_inv ops st inv
  have hb := C01_bitfield_is_live_set n hn st hst ops
  obtain ⟨_, _, _, _, hc⟩ := add_spec (storeAfter st ops) i1.toStoreInv i1.up o u
  simp only [storeStep]
  have hcount : (storeAfter st ops).slotCount = n := by rw [c1, h2]
  rcases hc with ⟨ha, hb', hfull, _⟩ | ⟨ha, hlt, hnone, _⟩
  · rw [ha, hb']
    constructor
    · rintro ⟨h, hh⟩; simp at hh
    · rintro ⟨h, hh, hl⟩
      rw [← hb h hh, i1.bits h (by omega), hfull h (by omega)] at hl
      simp at hl
  · constructor
    · intro _
      refine ⟨_, by rw [← hcount]; exact hlt, ?_⟩
      rw [← hb _ (by rw [← hcount]; exact hlt), i1.bits _ hlt, hnone]
      rfl
    · intro _
      exact ⟨_, by rw [ha]⟩

/-! Concrete case: fill a 32 entry table; the 33rd add fails; remove one; its handle is the only one available. -/
example : ∃ st, objectStoreInit Nat 32 = some st ∧
    let es := storeRun st ((List.range 33).map (fun i => .add i C02.uA) ++ [.remove 7 C02.uA, .add 99 C02.uB, .add 1 C02.uB])
    (es.map (·.2)).drop 31 = [.added .OK 0, .added .NO_AVAILABLE_RESOURCE_SLOT SLOT_INVALID, .removed .OK (some 24),
      .added .OK 7, .added .NO_AVAILABLE_RESOURCE_SLOT SLOT_INVALID] ∧ liveAfter es 7 = true :=
  ⟨_, rfl, by decide +kernel⟩

end Sa.C01

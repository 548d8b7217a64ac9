import Verif.Model.Whole
import Verif.Lemmas.KeyStore
import Verif.Lemmas.StoreHistory
import Verif.Lemmas.Client

/-!
# Lemmas about the TA as a whole
-/

namespace Sa.Whole

variable {κ ρ π σ τ : Type}

theorem newTables_some (σ τ : Type) : ∃ t, newTables σ τ = some t := ⟨_, rfl⟩

/-- Invariant of the TA between requests. -/
structure TaInv (w : Ta σ τ) : Prop where
  live : LiveInv w.clients
  idle : ∀ h, (w.clients.obj h).referenceCount = 0
  inHeap : ∀ h p, (w.clients.obj h).object = some p → (w.heap p).isSome
  inj : ∀ h h' p, (w.clients.obj h).object = some p → (w.clients.obj h').object = some p → h = h'

theorem start_inv (w : Ta σ τ) (h : start σ τ = some w) : TaInv w := by
  unfold start at h
  cases h0 : objectStoreInit Nat 256 with
  | none => rw [h0] at h; simp at h
  | some st =>
    rw [h0] at h
    simp only [Option.map_some, Option.some.injEq] at h
    subst h
    obtain ⟨h1, h2, h3, h4, h5⟩ := objectStoreInit_inv 256 st (by decide) h0
    exact ⟨liveInv_init 256 st (by decide) h0, fun h => by simp [h5, StoreObject.zero],
      fun h p hp => by simp [h5, StoreObject.zero] at hp, fun h h' p hp => by simp [h5, StoreObject.zero] at hp⟩

/-- What a request to open does. -/
theorem open_cases (d : Device σ τ) (w : Ta σ τ) (inv : TaInv w) (u : Uuid) (ptr : Nat) :
    (∃ st s h, handle (κ := κ) (ρ := ρ) (π := π) d w (.open u ptr) = some (⟨st, w.heap⟩, .opened s h) ∧ s ≠ .OK ∧ LiveInv st ∧ ∀ h, st.obj h = w.clients.obj h) ∨
    (∃ st h t, handle (κ := κ) (ρ := ρ) (π := π) d w (.open u ptr) = some (⟨st, fun p => if p = ptr then some t else w.heap p⟩, .opened .OK h) ∧ newTables σ τ = some t ∧
      w.heap ptr = none ∧ LiveInv st ∧ (w.clients.obj h).object = none ∧
      ∀ h', st.obj h' = if h' = h then { w.clients.obj h with object := some ptr, ownerUuid := u } else w.clients.obj h') := by
  unfold handle
  by_cases hp : (w.heap ptr).isSome
  · simp only [hp, if_true]
    exact Or.inl ⟨_, _, _, rfl, by decide, inv.live, fun _ => rfl⟩
  · simp only [hp]
    obtain ⟨t, ht⟩ := newTables_some σ τ
    rw [ht]
    simp only
    have hn : w.heap ptr = none := by simpa using hp
    obtain ⟨a1, a2, a3, _, a4⟩ := add_spec w.clients inv.live.toStoreInv inv.live.up ptr u
    generalize hres : objectStoreAdd w.clients ptr u = res at *
    obtain ⟨st, s, slot⟩ := res
    simp only at a1 a2 a3 a4
    rcases a4 with ⟨b1, b2, b3, b4⟩ | ⟨b1, b2, b3, b4⟩
    · subst b1
      exact Or.inl ⟨_, _, _, rfl, by decide, { a1 with up := a3 }, b4⟩
    · subst b1
      refine Or.inr ⟨_, _, _, rfl, rfl, hn, { a1 with up := a3 }, b3, fun h' => ?_⟩
      rw [b4]
      split
      · simp [inv.idle]
      · rfl

/-- What a request to close does. -/
theorem close_cases (d : Device σ τ) (w : Ta σ τ) (inv : TaInv w) (session : Nat) (u : Uuid) :
    (∃ s, handle (κ := κ) (ρ := ρ) (π := π) d w (.close session u) = some (w, .closed s) ∧ s ≠ .OK ∧
      ((w.clients.obj session).object = none ∨ (w.clients.obj session).ownerUuid ≠ u)) ∨
    (∃ st ptr, handle (κ := κ) (ρ := ρ) (π := π) d w (.close session u) = some (⟨st, fun p => if p = ptr then none else w.heap p⟩, .closed .OK) ∧
      (w.clients.obj session).object = some ptr ∧ (w.clients.obj session).ownerUuid = u ∧ LiveInv st ∧ (∀ h, (st.obj h).referenceCount = 0) ∧
      ∀ h, st.obj h = if h = session then { object := none, referenceCount := 0, ownerUuid := (w.clients.obj session).ownerUuid } else w.clients.obj h) := by
  unfold handle
  rcases remove_spec w.clients inv.live session u with ⟨h0, h1⟩ | ⟨h0, h1⟩ | ⟨st', h0, _, _, _, _, _, _, hrc⟩ |
    ⟨st', o, h0, h1, h2, h3, h4, h5, h6, h7⟩
  · simp only [h0]
    exact Or.inl ⟨_, rfl, by decide, Or.inl h1⟩
  · simp only [h0]
    exact Or.inl ⟨_, rfl, by decide, Or.inr h1.2.2⟩
  · exact absurd (inv.idle session) hrc
  · simp only [h0]
    refine Or.inr ⟨_, _, rfl, h4, h5, h1, fun h => ?_, h7⟩
    rw [h7]; split
    · rfl
    · exact inv.idle h

/-- What a call does. -/
theorem call_cases (d : Device σ τ) (w : Ta σ τ) (inv : TaInv w) (session : Nat) (u : Uuid) (cmd : Cmd κ ρ π) :
    (∃ s, handle d w (.call session u cmd) = some (w, .refused s) ∧ s ≠ .OK ∧
      ((w.clients.obj session).object = none ∨ (w.clients.obj session).ownerUuid ≠ u)) ∨
    (∃ ptr t, (w.clients.obj session).object = some ptr ∧ (w.clients.obj session).ownerUuid = u ∧ w.heap ptr = some t ∧
      handle d w (.call session u cmd) =
        (serve d t u cmd).map fun r => (⟨w.clients, fun p => if p = ptr then some r.1 else w.heap p⟩, .reply r.2)) := by
  unfold handle
  rcases acquire_cases w.clients inv.live session u with ⟨s, hs, h0, hbad⟩ | ⟨st1, ptr, h0, ho, hu⟩
  · simp only [h0]
    exact Or.inl ⟨_, rfl, hs, hbad⟩
  · simp only [h0]
    have hin := inv.inHeap session ptr ho
    cases hcc : w.heap ptr with
    | none => rw [hcc] at hin; simp at hin
    | some t =>
      refine Or.inr ⟨ptr, t, ho, hu, hcc, ?_⟩
      simp only
      rw [acquire_release w.clients inv.live.len session u st1 ptr h0]
      cases serve d t u cmd <;> rfl

theorem handle_inv (d : Device σ τ) (w : Ta σ τ) (inv : TaInv w) (r : Request κ ρ π) (x : Ta σ τ × Told) (hx : handle d w r = some x) : TaInv x.1 := by
  cases r with
  | «open» u ptr =>
    rcases open_cases (κ := κ) (ρ := ρ) (π := π) d w inv u ptr with ⟨st, s, h, e, _, hl, ho⟩ | ⟨st, h, t, e, _, hn, hl, hfree, ho⟩
    · rw [e] at hx; cases hx
      exact ⟨hl, fun h => by simp only [ho]; exact inv.idle h, fun h p => by simp only [ho]; exact inv.inHeap h p, fun h h' p => by simp only [ho]; exact inv.inj h h' p⟩
    · rw [e] at hx; cases hx
      have notIn : ∀ h, (w.clients.obj h).object ≠ some ptr := by
        intro h he
        have := inv.inHeap h ptr he
        rw [hn] at this; simp at this
      refine ⟨hl, ?_, ?_, ?_⟩
      · intro h'; simp only; rw [ho]; split
        · exact inv.idle h
        · exact inv.idle h'
      · intro h' p; simp only; rw [ho]
        split
        · intro e; simp only [Option.some.injEq] at e; subst e; simp
        · intro e
          have := inv.inHeap h' p e
          split
          · rfl
          · exact this
      · intro h1 h2 p; simp only; rw [ho, ho]
        split
        · rename_i e1
          intro e; simp only [Option.some.injEq] at e; subst e
          split
          · rename_i e2; intro _; rw [e1, e2]
          · intro e; exact absurd e (notIn h2)
        · intro e
          split
          · intro e'; simp only [Option.some.injEq] at e'; subst e'; exact absurd e (notIn h1)
          · intro e'; exact inv.inj h1 h2 p e e'
  | close session u =>
    rcases close_cases (κ := κ) (ρ := ρ) (π := π) d w inv session u with ⟨s, e, _⟩ | ⟨st, ptr, e, h4, _, hl, hi, ho⟩
    · rw [e] at hx; cases hx; exact inv
    · rw [e] at hx; cases hx
      refine ⟨hl, hi, ?_, ?_⟩
      · intro h p; simp only; rw [ho]
        split
        · simp
        · rename_i hne
          intro e0
          have := inv.inHeap h p e0
          rw [if_neg]
          · exact this
          · rintro rfl; exact hne (inv.inj h session p e0 h4)
      · intro h h' p; simp only; rw [ho, ho]
        split
        · simp
        · intro e; split
          · simp
          · intro e'; exact inv.inj h h' p e e'
  | call session u cmd =>
    rcases call_cases d w inv session u cmd with ⟨s, e, _⟩ | ⟨ptr, t, ho, hu, ht, e⟩
    · rw [e] at hx; cases hx; exact inv
    · rw [e] at hx
      cases hs : serve d t u cmd with
      | none => rw [hs] at hx; simp at hx
      | some y =>
        rw [hs] at hx
        simp only [Option.map_some, Option.some.injEq] at hx
        subst hx
        refine ⟨inv.live, inv.idle, fun h p e => ?_, inv.inj⟩
        have := inv.inHeap h p e
        simp only
        split
        · rfl
        · exact this

end Sa.Whole

import Verif.Model.Client
import Verif.Lemmas.KeyStore
import Verif.Lemmas.StoreHistory

namespace Sa

variable {α : Type} [DecidableEq α]

theorem clientInit_some (α : Type) : ∃ c, clientInit α = some c := by
  exact ⟨_, rfl⟩

/-- Invariant of the TA between calls. -/
structure WInv (w : World α) : Prop where
  live : LiveInv w.clients
  idle : ∀ h, (w.clients.obj h).referenceCount = 0
  inHeap : ∀ h p, (w.clients.obj h).object = some p → (w.heap p).isSome
  inj : ∀ h h' p, (w.clients.obj h).object = some p → (w.clients.obj h').object = some p → h = h'

omit [DecidableEq α] in
theorem winv_init (w : World α) (h : worldInit α = some w) : WInv w := by
  unfold worldInit at h
  cases h0 : objectStoreInit Nat 256 with
  | none => rw [h0] at h; simp at h
  | some st =>
    rw [h0] at h
    simp only [Option.map_some, Option.some.injEq] at h
    subst h
    obtain ⟨h1, h2, h3, h4, h5⟩ := objectStoreInit_inv 256 st (by decide) h0
    exact ⟨liveInv_init 256 st (by decide) h0, fun h => by simp [h5, StoreObject.zero],
      fun h p hp => by simp [h5, StoreObject.zero] at hp, fun h h' p hp => by simp [h5, StoreObject.zero] at hp⟩

omit [DecidableEq α] in
/-- A failed or foreign `acquire` leaves the table unchanged. -/
theorem acquire_cases (st : ObjectStore Nat) (inv : LiveInv st) (h : Nat) (u : Uuid) :
    (∃ s, s ≠ Status.OK ∧ objectStoreAcquire st h u = (st, s, none) ∧
      ((st.obj h).object = none ∨ (st.obj h).ownerUuid ≠ u)) ∨
    (∃ st1 p, objectStoreAcquire st h u = (st1, .OK, some p) ∧ (st.obj h).object = some p ∧ (st.obj h).ownerUuid = u) := by
  rcases acquire_spec st inv h u with ⟨a, b⟩ | ⟨a, _, _, b⟩ | ⟨st1, o, a, _, _, _, b, c, _⟩
  · exact Or.inl ⟨_, by simp, a, Or.inl b⟩
  · exact Or.inl ⟨_, by simp, a, Or.inr b⟩
  · exact Or.inr ⟨st1, o, a, b, c⟩

/-- What one step does to the session at handle `h`, opened by `u`, that stays open. -/
theorem wstep_session (w : World α) (inv : WInv w) (op : WOp α) :
    ∃ r, wstep w op = some r ∧ WInv r.1 ∧
      ∀ h p c, (w.clients.obj h).object = some p → w.heap p = some c → (∀ v, op ≠ .close h v) →
        r.1.clients.obj h = w.clients.obj h ∧
        (∀ ops, op = .call h (w.clients.obj h).ownerUuid ops →
          r.2 = .called .OK (clientSteps c ops).2 ∧ r.1.heap p = some (clientSteps c ops).1) ∧
        ((∀ ops, op ≠ .call h (w.clients.obj h).ownerUuid ops) → r.1.heap p = some c) := by
  cases op with
  | «open» caller ptr =>
    unfold wstep
    by_cases hp : (w.heap ptr).isSome
    · simp only [hp, if_true]
      exact ⟨_, rfl, inv, fun h p c ho hc _ => ⟨rfl, fun _ e => by simp at e, fun _ => hc⟩⟩
    · simp only [hp]
      obtain ⟨c0, hc0⟩ := clientInit_some α
      rw [hc0]
      simp only
      have hn : w.heap ptr = none := by simpa using hp
      obtain ⟨a1, a2, a3, _, a4⟩ := add_spec w.clients inv.live.toStoreInv inv.live.up ptr caller
      generalize hres : objectStoreAdd w.clients ptr caller = res at *
      obtain ⟨st, s, slot⟩ := res
      simp only at a1 a2 a3 a4
      rcases a4 with ⟨b1, b2, b3, b4⟩ | ⟨b1, b2, b3, b4⟩
      · subst b1
        simp only
        refine ⟨_, rfl, ⟨{ a1 with up := a3 }, ?_, ?_, ?_⟩, ?_⟩
        · intro h; simp only; rw [b4]; exact inv.idle h
        · intro h p; simp only; rw [b4]; exact inv.inHeap h p
        · intro h h' p; simp only; rw [b4, b4]; exact inv.inj h h' p
        · intro h p c ho hc _
          exact ⟨b4 h, fun _ e => by simp at e, fun _ => hc⟩
      · subst b1
        simp only
        have notIn : ∀ h, (w.clients.obj h).object ≠ some ptr := by
          intro h he
          have := inv.inHeap h ptr he
          rw [hn] at this; simp at this
        refine ⟨_, rfl, ⟨{ a1 with up := a3 }, ?_, ?_, ?_⟩, ?_⟩
        · intro h; simp only; rw [b4]; split
          · rfl
          · exact inv.idle h
        · intro h p; simp only; rw [b4]
          split
          · intro e; simp only [Option.some.injEq] at e; subst e; simp
          · intro e
            have := inv.inHeap h p e
            split
            · rfl
            · exact this
        · intro h h' p; simp only; rw [b4, b4]
          split
          · rename_i e1
            intro e; simp only [Option.some.injEq] at e; subst e
            split
            · rename_i e2; intro _; rw [e1, e2]
            · intro e; exact absurd e (notIn h')
          · intro e
            split
            · intro e'; simp only [Option.some.injEq] at e'; subst e'; exact absurd e (notIn h)
            · intro e'; exact inv.inj h h' p e e'
        · intro h p c ho hc _
          have hne : h ≠ slot := by rintro rfl; rw [b3] at ho; simp at ho
          refine ⟨by simp only [b4, if_neg hne], fun _ e => by simp at e, fun _ => ?_⟩
          simp only
          rw [if_neg]
          · exact hc
          · rintro rfl; rw [hn] at hc; simp at hc
  | close session caller =>
    unfold wstep
    rcases remove_spec w.clients inv.live session caller with ⟨h0, _⟩ | ⟨h0, _⟩ | ⟨st', h0, _, _, _, _, _, _, hrc⟩ |
      ⟨st', o, h0, h1, h2, h3, h4, h5, h6, h7⟩
    · simp only [h0]
      exact ⟨_, rfl, inv, fun h p c ho hc _ => ⟨rfl, fun _ e => by simp at e, fun _ => hc⟩⟩
    · simp only [h0]
      exact ⟨_, rfl, inv, fun h p c ho hc _ => ⟨rfl, fun _ e => by simp at e, fun _ => hc⟩⟩
    · exact absurd (inv.idle session) hrc
    · simp only [h0]
      refine ⟨_, rfl, ⟨h1, ?_, ?_, ?_⟩, ?_⟩
      · intro h; simp only; rw [h7]; split
        · rfl
        · exact inv.idle h
      · intro h p; simp only; rw [h7]
        split
        · simp
        · rename_i hne
          intro e
          have := inv.inHeap h p e
          rw [if_neg]
          · exact this
          · rintro rfl; exact hne (inv.inj h session p e h4)
      · intro h h' p; simp only; rw [h7, h7]
        split
        · simp
        · intro e; split
          · simp
          · intro e'; exact inv.inj h h' p e e'
      · intro h p c ho hc hne
        have hne' : h ≠ session := by rintro rfl; exact hne caller rfl
        refine ⟨by simp only [h7, if_neg hne'], fun _ e => by simp at e, fun _ => ?_⟩
        simp only
        rw [if_neg]
        · exact hc
        · rintro rfl; exact hne' (inv.inj h session p ho h4)
  | call session caller ops =>
    unfold wstep
    rcases acquire_cases w.clients inv.live session caller with ⟨s, hs, h0, hbad⟩ | ⟨st1, ptr, h0, ho, hu⟩
    · simp only [h0]
      refine ⟨_, rfl, inv, fun h p c hop hc _ => ⟨rfl, ?_, fun _ => hc⟩⟩
      intro ops' e
      simp only [WOp.call.injEq] at e
      obtain ⟨rfl, rfl, _⟩ := e
      rcases hbad with hbad | hbad
      · rw [hbad] at hop; simp at hop
      · exact absurd rfl hbad
    · simp only [h0]
      have hin := inv.inHeap session ptr ho
      cases hcc : w.heap ptr with
      | none => rw [hcc] at hin; simp at hin
      | some c0 =>
        simp only
        rw [acquire_release w.clients inv.live.len session caller st1 ptr h0]
        refine ⟨_, rfl, ⟨inv.live, inv.idle, ?_, inv.inj⟩, ?_⟩
        · intro h p e
          have := inv.inHeap h p e
          simp only
          split
          · rfl
          · exact this
        · intro h p c hop hc _
          refine ⟨rfl, ?_, ?_⟩
          · intro ops' e
            simp only [WOp.call.injEq] at e
            obtain ⟨rfl, rfl, rfl⟩ := e
            rw [ho] at hop
            simp only [Option.some.injEq] at hop
            subst hop
            rw [hcc] at hc
            simp only [Option.some.injEq] at hc
            subst hc
            simp
          · intro hne
            simp only
            rw [if_neg]
            · exact hc
            · rintro rfl
              have := inv.inj h session p hop ho
              subst this
              exact hne ops (by rw [hu])

end Sa

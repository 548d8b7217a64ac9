import Verif.Lemmas.StoreConcStep

/-!
# C04: an object in use is never destroyed

The system is `Sa.Conc.cstep`: any number of threads, any schedule, add/acquire/release/remove/shutdown on one table.
`uaf = true` marks executions that already hit the shutdown race of C06 (undefined behaviour, no further steps).
-/

namespace Sa.C04
open Sa.Conc

/-- Thread `i` is inside the destructor call for `o`, or has taken `o` out of the table in order to destroy it. -/
def AboutToDestroy (s : CState) (i o : Nat) : Prop :=
  s.threads[i]? = some (.removeDec (some o)) ∨ s.threads[i]? = some (.removeFree o) ∨
    ∃ k, s.threads[i]? = some (.shutDestroy k o)

/-- **C04.**  In every reachable state, an object for which an acquired reference is outstanding has not been destroyed, no
thread is about to destroy it, and it is still in the table under the handle it was acquired by. -/
theorem C04_referenced_not_destroyed (n : Nat) (hn : n < 2 ^ 64) (s : CState) (hr : Reachable n s) (hu : s.uaf = false)
    (r : Ref) (hm : r ∈ s.refs) :
    r.object ∉ s.destroyed ∧ (∀ i, ¬ AboutToDestroy s i r.object) ∧ (s.store.obj r.slot).object = some r.object := by
  have ci := cinv_reachable hn hr hu
  have hk := (ci.refs.ok r hm).1
  refine ⟨ci.own.tNotD _ _ hk, ?_, hk⟩
  rintro i (h | h | ⟨k, h⟩)
  · exact ci.own.tNotP _ _ _ _ hk h rfl
  · exact ci.own.tNotP _ _ _ _ hk h rfl
  · exact ci.own.tNotP _ _ _ _ hk h rfl

/-- **C04 (per step).**  No step of any thread destroys an object that is referenced before the step. -/
theorem C04_step_never_destroys_referenced (n : Nat) (hn : n < 2 ^ 64) (s s' : CState) (i : Nat) (c : Choice)
    (hr : Reachable n s) (hs : cstep s i c = some s') (r : Ref) (hm : r ∈ s.refs) : r.object ∉ s'.destroyed := by
  have hu := uaf_stuck hs
  have ci := cinv_reachable hn hr hu
  cases hu' : s'.uaf with
  | false =>
    -- `o` stays in the table or is released by this very step; in both cases it is still an object of the table
    have ci' := cinv_reachable hn (Reachable.step s s' i c hr hs) hu'
    have hk := (ci.refs.ok r hm).1
    intro hd
    -- objects leave the table only through a thread's hands
    have hnd := ci.own.tNotD _ _ hk
    -- the only steps that extend `destroyed` are by a thread that had the object pending
    have key : s'.destroyed = s.destroyed ∨ ∃ o pc, s.threads[i]? = some pc ∧ pendingOf pc = some o ∧
        s'.destroyed = o :: s.destroyed := by
      unfold cstep at hs
      rw [if_neg (by simp [hu])] at hs
      have ht : ∀ nx, s.touch nx = some s' → nx = some s' := by
        intro nx h
        unfold CState.touch at h
        split at h
        · simp at h; subst h; simp at hu'
        · exact h
      split at hs
      · simp at hs; subst hs; exact Or.inl rfl
      · simp at hs; subst hs; exact Or.inl rfl
      · split at hs
        · simp at hs; subst hs; exact Or.inl rfl
        · simp at hs
      · simp at hs; subst hs; exact Or.inl rfl
      · split at hs
        · simp at hs
        · simp at hs; subst hs; exact Or.inl rfl
      · have hs := ht _ hs
        split at hs
        · simp at hs
        · simp only at hs
          split at hs <;> (simp at hs; subst hs; exact Or.inl rfl)
      · have hs := ht _ hs
        split at hs <;> (simp at hs; subst hs; exact Or.inl rfl)
      · have hs := ht _ hs
        split at hs <;> (simp at hs; subst hs; exact Or.inl rfl)
      · have hs := ht _ hs
        split at hs
        · simp at hs; subst hs; exact Or.inl rfl
        · split at hs <;> (simp at hs; subst hs; exact Or.inl rfl)
      · have hs := ht _ hs
        split at hs <;> (simp at hs; subst hs; exact Or.inl rfl)
      · have hs := ht _ hs
        split at hs <;> (simp at hs; subst hs; exact Or.inl rfl)
      · have hs := ht _ hs
        rename_i o hf _
        simp at hs; subst hs
        exact Or.inr ⟨o, _, hf, rfl, rfl⟩
      · have hs := ht _ hs
        simp at hs; subst hs; exact Or.inl rfl
      · have hs := ht _ hs
        split at hs <;> (simp at hs; subst hs; exact Or.inl rfl)
      · have hs := ht _ hs
        split at hs
        · simp at hs; subst hs; exact Or.inl rfl
        · split at hs <;> (simp at hs; subst hs; exact Or.inl rfl)
      · have hs := ht _ hs
        rename_i k o hf _
        simp at hs; subst hs
        exact Or.inr ⟨o, _, hf, rfl, rfl⟩
      · have hs := ht _ hs
        simp at hs; subst hs; exact Or.inl rfl
      · simp at hs
    rcases key with h | ⟨o, pc, h1, h2, h3⟩
    · rw [h] at hd; exact hnd hd
    · rw [h3] at hd
      rcases List.mem_cons.mp hd with e | e
      · subst e; exact ci.own.tNotP _ _ _ _ hk h1 h2
      · exact hnd e
  | true =>
    have : s'.destroyed = s.destroyed := by
      unfold cstep at hs
      rw [if_neg (by simp [hu])] at hs
      have ht : ∀ nx, (∀ q, nx = some q → q.uaf = false) → s.touch nx = some s' → s'.destroyed = s.destroyed := by
        intro nx hnx h
        unfold CState.touch at h
        split at h
        · simp at h; subst h; rfl
        · have := hnx s' h; rw [hu'] at this; simp at this
      split at hs
      · simp at hs; subst hs; rfl
      · simp at hs; subst hs; rfl
      · split at hs
        · simp at hs; subst hs; rfl
        · simp at hs
      · simp at hs; subst hs; rfl
      · split at hs
        · simp at hs
        · simp at hs; subst hs; rfl
      all_goals first
        | (simp at hs; done)
        | (refine ht _ ?_ hs
           intro q hq
           first
             | (simp at hq; subst hq; exact hu)
             | (split at hq <;> (simp at hq; try (subst hq; exact hu))
                done)
             | (split at hq
                · simp at hq <;> (subst hq; exact hu)
                · split at hq <;> (simp at hq; subst hq; exact hu))
             | (split at hq
                · simp at hq
                · simp only at hq
                  split at hq <;> (simp at hq; subst hq; exact hu)))
    rw [this]
    exact ci.own.tNotD _ _ (ci.refs.ok r hm).1

/-- Every release of a held reference succeeds: it is never refused with a mismatch or a zero reference count. -/
theorem C04_release_succeeds (n : Nat) (hn : n < 2 ^ 64) (s : CState) (hr : Reachable n s) (hu : s.uaf = false)
    (r : Ref) (hm : r ∈ s.refs) : (objectStoreRelease s.store r.slot r.object r.caller).2 = .OK := by
  have ci := cinv_reachable hn hr hu
  have hk := ci.refs.ok r hm
  have hlt : r.slot < s.store.slotCount := by
    rcases Nat.lt_or_ge r.slot s.store.slotCount with h | h
    · exact h
    · have := obj_ge s.store ci.inv r.slot h; rw [hk.1] at this; simp at this
  unfold objectStoreRelease
  rw [if_neg (by omega)]
  obtain ⟨_, _, _, _, hc⟩ := releaseBody_spec s.store ci.inv r.slot r.object r.caller hlt
  rcases hc with ⟨_, hne⟩ | ⟨_, _, hbad⟩ | ⟨_, _, _, hr, _⟩
  · exact absurd hk.2 hne
  · rcases hbad with hbad | hbad
    · exact absurd hk.1 hbad
    · exact absurd rfl (refs_none ci.refs r.slot hbad r hm)
  · exact hr

/-- Run a schedule. -/
def runSched (s : CState) : List (Nat × Choice) → Option CState
  | [] => some s
  | (i, c) :: rest => (cstep s i c).bind fun s' => runSched s' rest

theorem runSched_reachable {n : Nat} (sched) {s s' : CState} (h : Reachable n s) (hs : runSched s sched = some s') :
    Reachable n s' := by
  induction sched generalizing s with
  | nil => simp [runSched] at hs; subst hs; exact h
  | cons a rest ih =>
    obtain ⟨i, c⟩ := a
    simp only [runSched, Option.bind_eq_some_iff] at hs
    obtain ⟨m, h1, h2⟩ := hs
    exact ih (Reachable.step s m i c h h1) h2

def u1 : Uuid := Vector.replicate 16 1
def st32 : ObjectStore Nat := (objectStoreInit Nat 32).getD ⟨⟨[], 0⟩, [], 0, false, 0⟩

/-- Non-trivial case: thread 0 holds a reference to object 7 while thread 1 keeps trying to remove it and thread 2 has started
a shutdown; object 7 is not destroyed.  After the release it is destroyed. -/
example : ∃ s, runSched (cinit st32 3)
    [(0, .callAdd 7 u1), (0, .go), (0, .callAcquire 31 u1), (0, .go), (1, .callRemove 31 u1), (1, .go), (1, .go), (1, .go),
     (2, .callShutdown), (2, .go), (2, .go)] = some s ∧ (⟨0, 31, 7, u1⟩ : Ref) ∈ s.refs ∧ s.destroyed = [] ∧
     ∃ s', runSched s [(0, .callRelease ⟨0, 31, 7, u1⟩), (0, .go), (1, .go), (1, .go), (1, .go)] = some s' ∧
       s'.refs = [] ∧ s'.destroyed = [7] :=
  ⟨_, rfl, by decide +kernel, by decide +kernel, _, rfl, by decide +kernel, by decide +kernel⟩

end Sa.C04

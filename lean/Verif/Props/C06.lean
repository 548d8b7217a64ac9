import Verif.Props.C05

/-!
# C06: closing never races with a concurrent call

Sessions are objects of the client table; the destructor of a session (`client_free`, client_store.c:78-91) shuts down its key,
cipher, MAC and SVP tables.  Every API call acquires the session before touching its tables and releases it afterwards
(e.g. ta_sa_key_release.c), so that for *session* tables the property is the statement that a session is not destroyed while
a thread holds a reference to it (`C06_session_not_closed_under_caller_partial`).  For the client table itself, which is shut
down at process exit (`client_store_global_shutdown`, client_store.c:168), nothing protects callers: the property is violated
(`C06_shutdown_race_violated`).
-/

namespace Sa.C06
open Sa.Conc

/-- Full statement for a table: in no reachable state has a thread accessed the table after it was freed. -/
def NoUseAfterFree (n : Nat) : Prop := ∀ s, Reachable n s → s.uaf = false

/-- Thread 0 adds object 7 and removes it again; between its decrement of the release count and its use of the table's
destructor pointer, thread 1 shuts the table down. -/
def raceSchedule : List (Nat × Choice) :=
  [(0, .callAdd 7 C04.u1), (0, .go), (0, .callRemove 31 C04.u1), (0, .go), (0, .go), (0, .go), (1, .callShutdown)] ++
    List.replicate 36 (1, .go) ++ [(0, .go)]

/-- **C06 is violated by the code** for a table that is shut down while a remove call is in flight: the remover decrements
`release_count` (object_store.c:242) before its last access to the table (object_store.c:247); in between the shutdown can run to
completion and free the table. -/
theorem C06_shutdown_race_violated : ¬ NoUseAfterFree 32 := by
  intro h
  have hr : Reachable 32 (cinit C04.st32 2) := Reachable.init _ 2 rfl
  have hs : (C04.runSched (cinit C04.st32 2) raceSchedule).map (·.uaf) = some true := by decide +kernel
  rw [Option.map_eq_some_iff] at hs
  obtain ⟨s, h1, h2⟩ := hs
  rw [h s (C04.runSched_reachable _ hr h1)] at h2
  simp at h2

/-- **C06 (what does hold for a table).**  When the table has been freed, the only calls still in progress are such that have not
yet reached the table's mutex (`add`, `acquire`, `remove` just entered) or removers that only have the read of the destructor
pointer (object_store.c:247) left.  In particular no thread is inside the remove loop, none has still to decrement the release
counter, no release of a held reference is in flight, and no reference is outstanding.  Missing for the full property: exactly
these four remaining accesses. -/
theorem C06_after_free_only_partial (n : Nat) (hn : n < 2 ^ 64) (s : CState) (hr : Reachable n s) (hu : s.uaf = false)
    (hf : s.storeFreed = true) : s.refs = [] ∧ ∀ pc ∈ s.threads,
      pc = .idle ∨ (∃ o u, pc = .add o u) ∨ (∃ h u, pc = .acquire h u) ∨ (∃ h u, pc = .removeEnter h u) ∨
        (∃ o, pc = .removeFree o) := by
  have ci := cinv_reachable hn hr hu
  have hempty : ∀ h, (s.store.obj h).object = none := by
    intro h
    by_cases hh : h < n
    · exact ci.shut.freedEmpty hf h hh
    · exact obj_ge s.store ci.inv h (by rw [ci.count]; omega)
  have hrefs : s.refs = [] := by
    cases hr : s.refs with
    | nil => rfl
    | cons r rs =>
      have := (ci.refs.ok r (by rw [hr]; simp)).1
      rw [hempty] at this; simp at this
  refine ⟨hrefs, ?_⟩
  intro pc hpc
  obtain ⟨i, hi⟩ := List.mem_iff_getElem?.mp hpc
  have h0 := ci.shut.freedDrained hf
  have hns := ci.shut.freedNo hf i pc hi
  have hnc : counted pc = false := by
    have := List.countP_eq_zero.mp h0 pc hpc
    simpa using this
  cases pc with
  | release r => have := (ci.relRef i r hi).1; rw [hrefs] at this; simp at this
  | _ => simp_all [counted, isShut]

/-- **C06 (sessions).**  In the client table, while a thread is inside an API call of a session (it holds a reference to it), no
thread has closed the session's tables or is about to, whatever the other threads do (including session close by another
thread of the same caller, and process shutdown).  This is the full property for session tables except for executions that
already contain the race of `C06_shutdown_race_violated` on the client table. -/
theorem C06_session_not_closed_under_caller_partial (n : Nat) (hn : n < 2 ^ 64) (s : CState) (hr : Reachable n s)
    (hu : s.uaf = false) (i client : Nat) (hcall : ∃ r ∈ s.refs, r.thread = i ∧ r.object = client) :
    client ∉ s.destroyed ∧ ∀ j, ¬ C04.AboutToDestroy s j client := by
  obtain ⟨r, hm, _, rfl⟩ := hcall
  obtain ⟨h1, h2, _⟩ := C04.C04_referenced_not_destroyed n hn s hr hu r hm
  exact ⟨h1, h2⟩

/-- Without a shutdown of the table itself (i.e. before process exit) there is no use after free at all. -/
theorem C06_no_race_without_shutdown_partial (n : Nat) (hn : n < 2 ^ 64) (s : CState) (hr : Reachable n s)
    (hs : s.shutdownStarted = false) : s.uaf = false := by
  induction hr with
  | init => rfl
  | step s s' i c hr hstep ih =>
    have hu := uaf_stuck hstep
    have ci := cinv_reachable hn hr hu
    have hss : s.shutdownStarted = false ∨ s'.uaf = true := by
      cases h1 : s.shutdownStarted with
      | false => exact Or.inl rfl
      | true =>
        left
        exfalso
        -- the flag is never reset
        have keep : s'.shutdownStarted = true := by
          unfold cstep at hstep
          rw [if_neg (by simp [hu])] at hstep
          have ht : ∀ nx, (∀ q, nx = some q → q.shutdownStarted = true) → s.touch nx = some s' → s'.shutdownStarted = true := by
            intro nx hnx h
            unfold CState.touch at h
            split at h
            · simp at h; subst h; exact h1
            · exact hnx s' h
          split at hstep
          · simp at hstep; subst hstep; exact h1
          · simp at hstep; subst hstep; exact h1
          · split at hstep
            · simp at hstep; subst hstep; exact h1
            · simp at hstep
          · simp at hstep; subst hstep; exact h1
          · split at hstep
            · simp at hstep
            · simp_all
          all_goals first
            | (simp at hstep; done)
            | (refine ht _ ?_ hstep
               intro q hq
               first
                 | (simp at hq; subst hq; exact h1)
                 | (split at hq <;> (simp at hq; try (subst hq; exact h1))
                    done)
                 | (split at hq
                    · simp at hq <;> (subst hq; exact h1)
                    · split at hq <;> (simp at hq; subst hq; exact h1))
                 | (split at hq
                    · simp at hq
                    · simp only at hq
                      split at hq <;> (simp at hq; subst hq; exact h1)))
        rw [hs] at keep; simp at keep
    have hfr : s.storeFreed = false := by
      cases hf : s.storeFreed with
      | false => rfl
      | true =>
        have h1 := ci.shut.freedStart hf
        rcases hss with h2 | h2
        · rw [h1] at h2; simp at h2
        · -- then the flag was set before and after
          exfalso
          have : s'.shutdownStarted = s.shutdownStarted := by
            unfold cstep at hstep
            rw [if_neg (by simp [hu])] at hstep
            have ht : ∀ nx, s.touch nx = some s' → s'.shutdownStarted = s.shutdownStarted := by
              intro nx h
              unfold CState.touch at h
              rw [if_pos hf] at h
              simp at h; subst h; rfl
            split at hstep
            all_goals first
              | exact ht _ hstep
              | (simp at hstep; done)
              | (simp at hstep; subst hstep; rfl)
              | (split at hstep
                 · simp at hstep <;> (subst hstep; rfl)
                 · simp at hstep <;> (subst hstep; first | rfl | (simp_all; done)))
              | (split at hstep
                 · simp at hstep
                 · simp at hstep; subst hstep; simp_all)
          rw [hs, h1] at this; simp at this
    cases hu' : s'.uaf with
    | false => rfl
    | true =>
      exfalso
      unfold cstep at hstep
      rw [if_neg (by simp [hu])] at hstep
      have ht : ∀ nx, (∀ q, nx = some q → q.uaf = false) → s.touch nx = some s' → False := by
        intro nx hnx h
        unfold CState.touch at h
        rw [if_neg (by simp [hfr])] at h
        have := hnx s' h; rw [hu'] at this; simp at this
      split at hstep
      · simp at hstep; subst hstep; simp [CState.setPc, hu] at hu'
      · simp at hstep; subst hstep; simp [CState.setPc, hu] at hu'
      · split at hstep
        · simp at hstep; subst hstep; simp [CState.setPc, hu] at hu'
        · simp at hstep
      · simp at hstep; subst hstep; simp [CState.setPc, hu] at hu'
      · split at hstep
        · simp at hstep
        · simp at hstep; subst hstep; simp [CState.setPc, hu] at hu'
      all_goals first
        | (simp at hstep; done)
        | (refine ht _ ?_ hstep
           intro q hq
           first
             | (simp at hq; subst hq; exact hu)
             | (split at hq <;> (simp at hq; try (subst hq; exact hu))
                done)
             | (split at hq
                · simp at hq <;> (subst hq; exact hu)
                · split at hq <;> (simp at hq; subst hq; exact hu))
             | (split at hq
                · simp at hq
                · simp only at hq
                  split at hq <;> (simp at hq; subst hq; exact hu)))

/-- Non-trivial case for the partial theorems: a freed table with a remover that still has to destroy its object. -/
example : ∃ s, C04.runSched (cinit C04.st32 2)
      ([(0, .callAdd 7 C04.u1), (0, .go), (0, .callRemove 31 C04.u1), (0, .go), (0, .go), (0, .go), (1, .callShutdown)] ++
        List.replicate 36 (1, .go)) = some s ∧ s.uaf = false ∧ s.storeFreed = true ∧ s.threads = [.removeFree 7, .idle] :=
  ⟨_, rfl, by decide +kernel, by decide +kernel, by decide +kernel⟩

end Sa.C06

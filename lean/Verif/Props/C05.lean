import Verif.Props.C04

/-!
# C05: every object is destroyed exactly once
-/

namespace Sa.C05
open Sa.Conc

/-- **C05 (at most once, never while in the table).**  In every reachable state the destructor calls made so far are for
pairwise different objects, all of them were added, and none of them is still in the table. -/
theorem C05_destroyed_at_most_once (n : Nat) (hn : n < 2 ^ 64) (s : CState) (hr : Reachable n s) (hu : s.uaf = false) :
    s.destroyed.Nodup ∧ (∀ o, o ∈ s.destroyed → o ∈ s.added) ∧
    (∀ h o, (s.store.obj h).object = some o → o ∉ s.destroyed) := by
  have ci := cinv_reachable hn hr hu
  exact ⟨ci.own.nodup, ci.own.dAdded, ci.own.tNotD⟩

/-- Two threads never hold the same object for destruction, and never one already destroyed. -/
theorem C05_single_destroyer (n : Nat) (hn : n < 2 ^ 64) (s : CState) (hr : Reachable n s) (hu : s.uaf = false)
    (i j o : Nat) (hi : C04.AboutToDestroy s i o) (hj : C04.AboutToDestroy s j o) : i = j ∧ o ∉ s.destroyed := by
  have ci := cinv_reachable hn hr hu
  have pend : ∀ i, C04.AboutToDestroy s i o → ∃ pc, s.threads[i]? = some pc ∧ pendingOf pc = some o := by
    rintro i (h | h | ⟨k, h⟩) <;> exact ⟨_, h, rfl⟩
  obtain ⟨pc, h1, h2⟩ := pend i hi
  obtain ⟨pc', h1', h2'⟩ := pend j hj
  exact ⟨ci.own.pUniq i j pc pc' o h1 h2 h1' h2', ci.own.pNotD i pc o h1 h2⟩

/-- **C05 (exactly once, after shutdown).**  When a shutdown has completed and no thread is inside a call any more, every
object that was ever added has been destroyed (and by `C05_destroyed_at_most_once` exactly once).  Outstanding references
cannot exist at that point. -/
theorem C05_all_destroyed_after_shutdown (n : Nat) (hn : n < 2 ^ 64) (s : CState) (hr : Reachable n s) (hu : s.uaf = false)
    (hf : s.storeFreed = true) (hidle : ∀ pc ∈ s.threads, pc = .idle) :
    (∀ o, o ∈ s.added ↔ o ∈ s.destroyed) ∧ s.refs = [] := by
  have ci := cinv_reachable hn hr hu
  have hempty : ∀ h, (s.store.obj h).object = none := by
    intro h
    by_cases hh : h < n
    · exact ci.shut.freedEmpty hf h hh
    · exact obj_ge s.store ci.inv h (by rw [ci.count]; omega)
  constructor
  · intro o
    refine ⟨fun ho => ?_, ci.own.dAdded o⟩
    rcases ci.own.complete o ho with ⟨h, hh⟩ | ⟨i, pc, h1, h2⟩ | h
    · simp only [hempty h] at hh; simp at hh
    · have := hidle pc (List.mem_of_getElem? h1); subst this; simp [pendingOf] at h2
    · exact h
  · cases hr : s.refs with
    | nil => rfl
    | cons r rs =>
      have := (ci.refs.ok r (by rw [hr]; simp)).1
      rw [hempty] at this; simp at this

/-- A schedule that ends in a completed shutdown: thread 0 adds two objects and removes one, thread 1 shuts down. -/
example : ∃ s, C04.runSched (cinit C04.st32 2)
    ([(0, .callAdd 7 C04.u1), (0, .go), (0, .callAdd 8 C04.u1), (0, .go), (0, .callRemove 31 C04.u1), (0, .go), (0, .go), (0, .go),
      (0, .go), (1, .callShutdown)] ++ List.replicate 37 (1, .go)) = some s ∧ s.storeFreed = true ∧ s.uaf = false ∧
      s.threads = [.idle, .idle] ∧ s.destroyed = [8, 7] ∧ s.added = [8, 7] :=
  ⟨_, rfl, by decide +kernel, by decide +kernel, by decide +kernel, by decide +kernel, by decide +kernel⟩

end Sa.C05

import Verif.Lemmas.StoreExcl
import Verif.Props.C04

/-!
# C51: contexts and SVP buffers are used by one thread at a time and not destroyed meanwhile

The system is `Sa.Conc.xstep`: any number of threads, any schedule of exclusive acquire and release, add, remove, shutdown and SVP release on one
table.  `uaf = true` marks executions that already hit the shutdown race of C06.
-/

namespace Sa.C51
open Sa.Conc

/-- Thread `i` operates on object `o`: an exclusive acquire of it has returned and it has not been given back. -/
def Operates (s : XState) (i o : Nat) : Prop := ∃ r p, (r, p) ∈ s.xrefs ∧ (p = .locked ∨ p = .leaked) ∧ r.thread = i ∧ r.object = o

/-- **C51 (exclusion).**  In every reachable state at most one thread operates on an object. -/
theorem C51_exclusive (n : Nat) (s : XState) (hr : XReachable n s) (i j o : Nat) (hi : Operates s i o) (hj : Operates s j o) : i = j := by
  obtain ⟨r, p, hm, hp, h1, h2⟩ := hi
  obtain ⟨r', p', hm', hp', h1', h2'⟩ := hj
  have := holds_unique (xinv_reachable hr) hm hm' (o := o)
    (by rcases hp with h | h <;> simp [holds, h, h2]) (by rcases hp' with h | h <;> simp [holds, h, h2'])
  simp only at this
  rw [← h1, ← h1', this]

/-- **C51 (alive).**  An object on which a thread operates, or waits to operate, or which it is about to release, is in the table under its
handle, has not been destroyed, and no thread is about to destroy it; nor does any next step of any thread destroy it. -/
theorem C51_alive (n : Nat) (hn : n < 2 ^ 64) (s : XState) (hr : XReachable n s) (hu : s.c.uaf = false) (r : Ref) (p : Phase)
    (hm : (r, p) ∈ s.xrefs) :
    r.object ∉ s.c.destroyed ∧ (∀ i, ¬ C04.AboutToDestroy s.c i r.object) ∧ (s.c.store.obj r.slot).object = some r.object ∧
    ∀ i x s', xstep s i x = some s' → r.object ∉ s'.c.destroyed := by
  have hmem : r ∈ s.c.refs := (xinv_reachable hr).perm.subset (List.mem_map_of_mem (f := (·.1)) hm)
  obtain ⟨h1, h2, h3⟩ := C04.C04_referenced_not_destroyed n hn s.c (xreachable_c hr) hu r hmem
  refine ⟨h1, h2, h3, ?_⟩
  intro i x s' hs
  rcases xstep_c hs with ⟨c, hc, _⟩ | h
  · exact C04.C04_step_never_destroys_referenced n hn s.c s'.c i c (xreachable_c hr) hc r hmem
  · rw [h]; exact h1

/-- **C51 (the lock is real).**  While a thread operates on an object, no other thread's exclusive acquire of it returns. -/
theorem C51_waits (n : Nat) (s : XState) (hr : XReachable n s) (i o : Nat) (hi : Operates s i o) (r : Ref) (hro : r.object = o) (j : Nat)
    (hj : j ≠ i) : xstep s j (.lock r) = none := by
  cases hx : xstep s j (.lock r) with
  | none => rfl
  | some s' =>
    exfalso
    have hr' := XReachable.step s s' j _ hr hx
    obtain ⟨q, p, hm, hp, h1, h2⟩ := hi
    have hq : (q, p) ∈ s'.xrefs := entry_stable hx q p (by rcases hp with h | h <;> simp [h]) hm (Or.inr (by rcases hp with h | h <;> simp [h]))
      fun h => absurd (h.symm.trans h1) hj
    have : Operates s' j o := by
      unfold xstep at hx
      split at hx
      · simp at hx
      · simp only at hx
        split at hx
        case isFalse => simp at hx
        rename_i hw
        split at hx
        · simp only [Option.some.injEq] at hx
          subst hx
          exact ⟨r, .locked, List.mem_cons_self, Or.inl rfl, hw.2, hro⟩
        · split at hx
          · simp only [Option.some.injEq] at hx
            subst hx
            exact ⟨r, .locked, List.mem_cons_self, Or.inl rfl, hw.2, hro⟩
          · simp at hx
    exact hj (C51_exclusive n s' hr' j i o this ⟨q, p, hq, hp, h1, h2⟩)

/-- Run a schedule. -/
def xrun (s : XState) : List (Nat × XChoice) → Option XState
  | [] => some s
  | (i, x) :: rest => (xstep s i x).bind fun s' => xrun s' rest

theorem xrun_reachable {n : Nat} (sched) {s s' : XState} (h : XReachable n s) (hs : xrun s sched = some s') : XReachable n s' := by
  induction sched generalizing s with
  | nil => simp [xrun] at hs; subst hs; exact h
  | cons a rest ih =>
    obtain ⟨i, x⟩ := a
    simp only [xrun, Option.bind_eq_some_iff] at hs
    obtain ⟨m, h1, h2⟩ := hs
    exact ih (XReachable.step s m i x h h1) h2

theorem st32_init : objectStoreInit Nat 32 = some C04.st32 := by decide +kernel

def u := C04.u1
def ref (i slot object : Nat) : Ref := ⟨i, slot, object, u⟩

/-- `*_acquire_exclusive` up to the lock. -/
def acq (i slot : Nat) : List (Nat × XChoice) := [(i, .base (.callAcquire slot u)), (i, .base .go)]
def add (i o : Nat) : List (Nat × XChoice) := [(i, .base (.callAdd o u)), (i, .base .go)]
/-- `*_release_exclusive`. -/
def rel (i slot object : Nat) : List (Nat × XChoice) :=
  [(i, .unlock (ref i slot object)), (i, .base (.callRelease (ref i slot object))), (i, .base .go)]

/-- Non-trivial case: thread 0 operates on object 7 (taken twice), thread 1 waits for it, thread 2 removes it.  Thread 1 gets it after both
references of thread 0 have been given back; the object is destroyed after thread 1 has given it back. -/
example : ∃ s, xrun (xinit C04.st32 3) (add 0 7 ++ acq 0 31 ++ [(0, .lock (ref 0 31 7))] ++ acq 0 31 ++ [(0, .lock (ref 0 31 7))] ++ acq 1 31 ++
      [(2, .base (.callRemove 31 u)), (2, .base .go), (2, .base .go)]) = some s ∧ s.owner 7 = some (0, 2) ∧
    (xstep s 1 (.lock (ref 1 31 7))).isNone = true ∧
    ∃ s', xrun s (rel 0 31 7 ++ rel 0 31 7 ++ [(1, .lock (ref 1 31 7)), (2, .base .go)] ++ rel 1 31 7) = some s' ∧ s'.c.destroyed = [] ∧
    ∃ s'', xrun s' [(2, .base .go), (2, .base .go), (2, .base .go)] = some s'' ∧ s''.c.destroyed = [7] :=
  ⟨_, rfl, by decide +kernel, by decide +kernel, _, rfl, by decide +kernel, _, rfl, by decide +kernel⟩

end Sa.C51

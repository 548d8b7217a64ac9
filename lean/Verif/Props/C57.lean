import Verif.Props.C56

/-!
# C57: an SVP buffer is released exactly once
-/

namespace Sa.C57
open Sa.Conc Sa.C51 Sa.C56

theorem given_step {s s' : XState} {i : Nat} {x : XChoice} (hs : xstep s i x = some s')
    (h : (s.given.map (·.2)).Nodup ∧ ∀ o, o ∈ s.given.map (·.2) → s.buffer o = false) :
    (s'.given.map (·.2)).Nodup ∧ ∀ o, o ∈ s'.given.map (·.2) → s'.buffer o = false := by
  cases x with
  | base c =>
    obtain ⟨_, _, _, _, hb, hg, _⟩ := xstep_base hs
    rw [hb, hg]; exact h
  | lock r =>
    unfold xstep at hs
    split at hs
    · simp at hs
    · simp only at hs
      split at hs
      · split at hs
        · simp at hs; subst hs; exact h
        · split at hs
          · simp at hs; subst hs; exact h
          · simp at hs
      · simp at hs
  | unlock r =>
    unfold xstep at hs
    split at hs
    · simp at hs
    · simp only at hs
      split at hs
      · simp at hs; subst hs; exact h
      · simp at hs
  | take r =>
    unfold xstep at hs
    split at hs
    · simp at hs
    · simp only at hs
      split at hs
      · split at hs
        · rename_i hbuf
          simp only [Option.some.injEq] at hs
          subst hs
          simp only [List.map_cons, List.nodup_cons, List.mem_cons]
          refine ⟨⟨?_, h.1⟩, ?_⟩
          · intro hm
            rw [h.2 _ hm] at hbuf
            simp at hbuf
          · intro o ho
            by_cases e : o = r.object
            · rw [if_pos e]
            · rw [if_neg e]; exact h.2 o (ho.resolve_left e)
        · simp only [Option.some.injEq] at hs; subst hs; exact h
      · simp at hs

/-- **C57 (partial).**  The memory of an SVP buffer is handed to at most one release call, over all executions.  Missing: the other release calls
fail, and all of them return; see `C57_violated`. -/
theorem C57_once_partial (n : Nat) (s : XState) (hr : XReachable n s) (i j o : Nat) (hi : (i, o) ∈ s.given) (hj : (j, o) ∈ s.given) :
    i = j ∧ (s.given.filter fun e => e.2 == o).length = 1 := by
  have h : (s.given.map (·.2)).Nodup ∧ ∀ o, o ∈ s.given.map (·.2) → s.buffer o = false := by
    clear hi hj
    induction hr with
    | init => exact ⟨by simp [xinit], by simp [xinit]⟩
    | step s s' i x _ hs ih => exact given_step hs ih
  have key : ∀ l : List (Nat × Nat), (l.map (·.2)).Nodup → (i, o) ∈ l → (j, o) ∈ l → i = j ∧ (l.filter fun e => e.2 == o).length = 1 := by
    intro l
    induction l with
    | nil => intro _ h; simp at h
    | cons e l ih =>
      intro hn hi hj
      simp only [List.map_cons, List.nodup_cons] at hn
      have none_ : ∀ k, (k, o) ∈ l → e.2 ≠ o := by
        intro k hk e2
        exact hn.1 (by rw [e2]; exact List.mem_map_of_mem (f := (·.2)) hk)
      by_cases he : e.2 = o
      · have hi' : (i, o) = e := (List.mem_cons.mp hi).resolve_right fun h => none_ i h he
        have hj' : (j, o) = e := (List.mem_cons.mp hj).resolve_right fun h => none_ j h he
        refine ⟨by rw [← hj'] at hi'; simpa using hi', ?_⟩
        rw [List.filter_cons_of_pos (by simp [he]), List.length_cons]
        have : l.filter (fun e => e.2 == o) = [] := by
          rw [List.filter_eq_nil_iff]
          intro a ha
          simp only [beq_iff_eq]
          intro h
          exact none_ a.1 (by rw [← h]; exact ha) he
        rw [this]; rfl
      · have hi' : (i, o) ∈ l := (List.mem_cons.mp hi).resolve_left fun h => he (by rw [← h])
        have hj' : (j, o) ∈ l := (List.mem_cons.mp hj).resolve_left fun h => he (by rw [← h])
        rw [List.filter_cons_of_neg (by simp [he])]
        exact ih hn.2 hi' hj'
  exact key _ h.1 hi hj

/-- Threads 0 and 1 release SVP buffer 31 at the same time: thread 1 has acquired the object and waits for its lock while thread 0 takes the memory,
gives the object back and starts to remove it; then thread 1 gets the lock and finds no memory. -/
def releases : List (Nat × XChoice) :=
  add 0 7 ++ acq 0 31 ++ [(0, .lock (ref 0 31 7))] ++ acq 1 31 ++ [(0, .take (ref 0 31 7))] ++ rel 0 31 7 ++
  [(0, .base (.callRemove 31 u)), (0, .base .go), (1, .lock (ref 1 31 7)), (1, .take (ref 1 31 7))]

theorem removing_step {n : Nat} (hn : n < 2 ^ 64) {s s' : XState} (hr : XReachable n s) {i : Nat} {x : XChoice} (hx : xstep s i x = some s') (r : Ref)
    (hm : (r, Phase.leaked) ∈ s.xrefs) (t : Nat) (ht : s.c.threads[t]? = some (.removeLoop r.slot r.caller)) :
    (r, Phase.leaked) ∈ s'.xrefs ∧ s'.c.threads[t]? = some (.removeLoop r.slot r.caller) := by
  refine ⟨entry_stable hx r _ (by simp) hm (Or.inr (by simp)) fun _ => Or.inr rfl, ?_⟩
  rcases xstep_c hx with ⟨c, hc, _⟩ | h
  · by_cases hti : t = i
    · subst hti
      have hu := uaf_stuck hc
      have ci := cinv_reachable hn (xreachable_c hr) hu
      have hmem : r ∈ s.c.refs := (xinv_reachable hr).perm.subset (List.mem_map_of_mem (f := (·.1)) hm)
      have hb : storeRemoveBody s.c.store r.slot (some r.caller) = (s.c.store, .again) := by
        unfold storeRemoveBody
        have h1 := ci.refs.ok r hmem
        have h2 : (s.c.store.obj r.slot).referenceCount ≠ 0 := fun h => refs_none ci.refs r.slot h r hmem rfl
        simp only [h1.1, h1.2]
        rw [if_neg (by simp [uuidMatches_iff]), if_neg h2]
      unfold cstep at hc
      rw [if_neg (by simp [hu]), ht] at hc
      cases c <;> simp at hc
      unfold CState.touch at hc
      split at hc
      · simp only [Option.some.injEq] at hc; rw [← hc]; exact ht
      · rw [hb] at hc
        simp only [Option.some.injEq] at hc
        rw [← hc]; exact ht
    · rw [cstep_other hc hti]; exact ht
  · rw [h]; exact ht

/-- **C57 is violated**: thread 1's release reports success (`svp_store.c:233-236` returns the status of the acquire) without handing out memory,
and keeps the object locked and referenced; therefore thread 0, which got the memory, never returns from its release, whatever happens. -/
theorem C57_violated : ∃ s, xrun (xinit C04.st32 2) releases = some s ∧ s.c.uaf = false ∧ s.given = [(0, 7)] ∧ s.free 1 = true ∧
    ∀ s', XSteps s s' → s'.c.threads[0]? = some (.removeLoop 31 u) ∧ Operates s' 1 7 := by
  obtain ⟨s, hs, hc⟩ : ∃ s, xrun (xinit C04.st32 2) releases = some s ∧ (s.c.uaf = false ∧ s.given = [(0, 7)] ∧ s.free 1 = true ∧
      s.xrefs = [(ref 1 31 7, .leaked)] ∧ s.c.threads[0]? = some (.removeLoop 31 u)) :=
    ⟨_, rfl, by decide +kernel, by decide +kernel, by decide +kernel, by decide +kernel, by decide +kernel⟩
  obtain ⟨h1, h2, h3, h4, h5⟩ := hc
  refine ⟨s, hs, h1, h2, h3, ?_⟩
  intro s' hss
  have hr : XReachable 32 s := xrun_reachable _ (XReachable.init _ _ st32_init) hs
  have : (ref 1 31 7, Phase.leaked) ∈ s'.xrefs ∧ s'.c.threads[0]? = some (.removeLoop 31 u) := by
    induction hss with
    | refl => exact ⟨by rw [h4]; simp, h5⟩
    | step s' s'' i x h hx ih => exact removing_step (by decide) (h.reachable hr) hx (ref 1 31 7) ih.1 0 ih.2
  exact ⟨this.2, ref 1 31 7, .leaked, this.1, Or.inr rfl, rfl, rfl⟩

end Sa.C57

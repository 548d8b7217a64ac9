import Verif.Model.StoreExcl
import Verif.Lemmas.StoreConcStep

namespace Sa.Conc

/-- What a step does to the references. -/
theorem cstep_refs {s s' : CState} {i : Nat} {c : Choice} (hs : cstep s i c = some s') :
    s'.refs = s.refs ∨ (∃ h u o, s.threads[i]? = some (.acquire h u) ∧ c = .go ∧ s'.refs = ⟨i, h, o, u⟩ :: s.refs) ∨
    (∃ r, s.threads[i]? = some (.release r) ∧ c = .go ∧ s'.refs = s.refs.erase r) := by
  unfold cstep at hs
  split at hs
  · simp at hs
  · have ht : ∀ nx, s.touch nx = some s' → s'.refs = s.refs ∨ nx = some s' := by
      intro nx h
      unfold CState.touch at h
      split at h
      · simp at h; subst h; exact Or.inl rfl
      · exact Or.inr h
    split at hs
    · simp at hs; subst hs; exact Or.inl rfl
    · simp at hs; subst hs; exact Or.inl rfl
    · split at hs
      · simp at hs; subst hs; exact Or.inl rfl
      · simp at hs
    · simp at hs; subst hs; exact Or.inl rfl
    · split at hs
      · simp at hs
      · simp at hs; subst hs; exact Or.inl rfl
    · rcases ht _ hs with h | hs
      · exact Or.inl h
      · split at hs
        · simp at hs
        · simp only at hs
          split at hs <;> (simp at hs; subst hs; exact Or.inl rfl)
    · rcases ht _ hs with h | hs
      · exact Or.inl h
      · rename_i h u hf _
        split at hs
        · simp at hs; subst hs; exact Or.inr (Or.inl ⟨_, _, _, hf, rfl, rfl⟩)
        · simp at hs; subst hs; exact Or.inl rfl
    · rcases ht _ hs with h | hs
      · exact Or.inl h
      · rename_i r hf _
        split at hs
        · simp at hs; subst hs; exact Or.inr (Or.inr ⟨_, hf, rfl, rfl⟩)
        · simp at hs; subst hs; exact Or.inl rfl
    · rcases ht _ hs with h | hs
      · exact Or.inl h
      · split at hs
        · simp at hs; subst hs; exact Or.inl rfl
        · split at hs <;> (simp at hs; subst hs; exact Or.inl rfl)
    · rcases ht _ hs with h | hs
      · exact Or.inl h
      · split at hs <;> (simp at hs; subst hs; exact Or.inl rfl)
    · rcases ht _ hs with h | hs
      · exact Or.inl h
      · split at hs <;> (simp at hs; subst hs; exact Or.inl rfl)
    · rcases ht _ hs with h | hs
      · exact Or.inl h
      · simp at hs; subst hs; exact Or.inl rfl
    · rcases ht _ hs with h | hs
      · exact Or.inl h
      · simp at hs; subst hs; exact Or.inl rfl
    · rcases ht _ hs with h | hs
      · exact Or.inl h
      · split at hs <;> (simp at hs; subst hs; exact Or.inl rfl)
    · rcases ht _ hs with h | hs
      · exact Or.inl h
      · split at hs
        · simp at hs; subst hs; exact Or.inl rfl
        · split at hs <;> (simp at hs; subst hs; exact Or.inl rfl)
    · rcases ht _ hs with h | hs
      · exact Or.inl h
      · simp at hs; subst hs; exact Or.inl rfl
    · rcases ht _ hs with h | hs
      · exact Or.inl h
      · simp at hs; subst hs; exact Or.inl rfl
    · simp at hs

/-- A step of thread `i` moves only thread `i`; it enters a release only by `callRelease`. -/
theorem cstep_threads {s s' : CState} {i : Nat} {c : Choice} (hs : cstep s i c = some s') :
    ∃ pc, (s'.threads = s.threads ∨ s'.threads = s.threads.set i pc) ∧ (∀ r, pc = .release r → c = .callRelease r) := by
  unfold cstep at hs
  split at hs
  · simp at hs
  · have ht : ∀ nx, s.touch nx = some s' → s'.threads = s.threads ∨ nx = some s' := by
      intro nx h
      unfold CState.touch at h
      split at h
      · simp at h; subst h; exact Or.inl rfl
      · exact Or.inr h
    have idle : s'.threads = s.threads → ∃ pc, (s'.threads = s.threads ∨ s'.threads = s.threads.set i pc) ∧ (∀ r, pc = Pc.release r → c = .callRelease r) :=
      fun h => ⟨.idle, Or.inl h, by simp⟩
    split at hs
    · simp at hs; subst hs; exact ⟨_, Or.inr rfl, by simp⟩
    · simp at hs; subst hs; exact ⟨_, Or.inr rfl, by simp⟩
    · split at hs
      · simp at hs; subst hs; exact ⟨_, Or.inr rfl, by simp⟩
      · simp at hs
    · simp at hs; subst hs; exact ⟨_, Or.inr rfl, by simp⟩
    · split at hs
      · simp at hs
      · simp at hs; subst hs; exact ⟨_, Or.inr rfl, by simp⟩
    · rcases ht _ hs with h | hs
      · exact idle h
      · split at hs
        · simp at hs
        · simp only at hs
          split at hs <;> (simp at hs; subst hs; exact ⟨_, Or.inr rfl, by simp⟩)
    · rcases ht _ hs with h | hs
      · exact idle h
      · split at hs <;> (simp at hs; subst hs; exact ⟨_, Or.inr rfl, by simp⟩)
    · rcases ht _ hs with h | hs
      · exact idle h
      · split at hs <;> (simp at hs; subst hs; exact ⟨_, Or.inr rfl, by simp⟩)
    · rcases ht _ hs with h | hs
      · exact idle h
      · split at hs
        · simp at hs; subst hs; exact ⟨_, Or.inr rfl, by simp⟩
        · split at hs <;> (simp at hs; subst hs; exact ⟨_, Or.inr rfl, by simp⟩)
    · rcases ht _ hs with h | hs
      · exact idle h
      · split at hs
        · simp at hs; subst hs; exact ⟨_, Or.inr rfl, by simp⟩
        · simp at hs; subst hs; exact idle rfl
    · rcases ht _ hs with h | hs
      · exact idle h
      · split at hs <;> (simp at hs; subst hs; exact ⟨_, Or.inr rfl, by simp⟩)
    · rcases ht _ hs with h | hs
      · exact idle h
      · simp at hs; subst hs; exact ⟨_, Or.inr rfl, by simp⟩
    · rcases ht _ hs with h | hs
      · exact idle h
      · simp at hs; subst hs; exact ⟨_, Or.inr rfl, by simp⟩
    · rcases ht _ hs with h | hs
      · exact idle h
      · split at hs
        · simp at hs; subst hs; exact ⟨_, Or.inr rfl, by simp⟩
        · simp at hs; subst hs; exact idle rfl
    · rcases ht _ hs with h | hs
      · exact idle h
      · split at hs
        · simp at hs; subst hs; exact ⟨_, Or.inr rfl, by simp⟩
        · split at hs
          · simp at hs; subst hs; exact ⟨_, Or.inr rfl, by simp⟩
          · simp at hs; subst hs; exact ⟨_, Or.inr rfl, by simp⟩
          · simp at hs; subst hs; exact idle rfl
    · rcases ht _ hs with h | hs
      · exact idle h
      · simp at hs; subst hs; exact ⟨_, Or.inr rfl, by simp⟩
    · rcases ht _ hs with h | hs
      · exact idle h
      · simp at hs; subst hs; exact ⟨_, Or.inr rfl, by simp⟩
    · simp at hs

theorem cstep_callRelease {s s' : CState} {i : Nat} {r : Ref} (hs : cstep s i (.callRelease r) = some s') : r.thread = i := by
  unfold cstep at hs
  split at hs
  · simp at hs
  · cases hp : s.threads[i]? with
    | none => rw [hp] at hs; simp at hs
    | some pc =>
      rw [hp] at hs
      cases pc <;> simp at hs
      exact hs.1.2

theorem cstep_other {s s' : CState} {i j : Nat} {c : Choice} (hs : cstep s i c = some s') (hj : j ≠ i) : s'.threads[j]? = s.threads[j]? := by
  obtain ⟨pc, h | h, _⟩ := cstep_threads hs
  · rw [h]
  · rw [h, List.getElem?_set_ne (by omega)]

/-- Entries that hold the mutex. -/
def holds (o : Nat) (e : Ref × Phase) : Bool := e.1.object == o && (e.2 == .locked || e.2 == .leaked)

structure XInv (s : XState) : Prop where
  perm : (s.xrefs.map (·.1)).Perm s.c.refs
  rel : ∀ i r, s.c.threads[i]? = some (.release r) → (r, Phase.unlocked) ∈ s.xrefs ∧ r.thread = i
  mutex : ∀ o, (s.owner o = none ∧ s.xrefs.countP (holds o) = 0) ∨
    (∃ t d, s.owner o = some (t, d) ∧ s.xrefs.countP (holds o) = d ∧ 0 < d ∧ ∀ e ∈ s.xrefs, holds o e = true → e.1.thread = t)

theorem xinv_init (store : ObjectStore Nat) (threads : Nat) : XInv (xinit store threads) where
  perm := List.Perm.refl _
  rel := by
    intro i r h
    simp only [xinit, cinit, List.getElem?_replicate] at h
    split at h <;> simp at h
  mutex := fun o => Or.inl ⟨rfl, rfl⟩

theorem countP_erase_mem {α : Type} [BEq α] [LawfulBEq α] {p : α → Bool} {l : List α} {a : α} (h : a ∈ l) :
    l.countP p = (l.erase a).countP p + if p a then 1 else 0 := by
  rw [(List.perm_cons_erase h).countP_eq p, List.countP_cons]

theorem countP_erase_not {α : Type} [BEq α] [LawfulBEq α] {p : α → Bool} {l : List α} {a : α} (h : p a = false) : (l.erase a).countP p = l.countP p := by
  by_cases hm : a ∈ l
  · rw [countP_erase_mem hm]; simp [h]
  · rw [List.erase_of_not_mem hm]

theorem mutex_not {l l' : List (Ref × Phase)} {o : Nat} {ow : Option (Nat × Nat)}
    (hm : (ow = none ∧ l.countP (holds o) = 0) ∨ (∃ t d, ow = some (t, d) ∧ l.countP (holds o) = d ∧ 0 < d ∧ ∀ e ∈ l, holds o e = true → e.1.thread = t))
    (hc : l'.countP (holds o) = l.countP (holds o)) (hmem : ∀ e ∈ l', holds o e = true → e ∈ l ∨ ∃ e' ∈ l, holds o e' = true ∧ e'.1.thread = e.1.thread) :
    (ow = none ∧ l'.countP (holds o) = 0) ∨ (∃ t d, ow = some (t, d) ∧ l'.countP (holds o) = d ∧ 0 < d ∧ ∀ e ∈ l', holds o e = true → e.1.thread = t) := by
  rcases hm with ⟨h1, h2⟩ | ⟨t, d, h1, h2, h3, h4⟩
  · exact Or.inl ⟨h1, by rw [hc, h2]⟩
  · refine Or.inr ⟨t, d, h1, by rw [hc, h2], h3, ?_⟩
    intro e he hh
    rcases hmem e he hh with h | ⟨e', h, h', h''⟩
    · exact h4 e h hh
    · rw [← h'']; exact h4 e' h h'

theorem perm_swap {l : List (Ref × Phase)} {r : Ref} {p q : Phase} {refs : List Ref} (h : (l.map (·.1)).Perm refs) (hm : (r, p) ∈ l) :
    (((r, q) :: l.erase (r, p)).map (·.1)).Perm refs := by
  refine List.Perm.trans ?_ h
  have := (List.perm_cons_erase hm).map (·.1)
  simp only [List.map_cons] at this ⊢
  exact this.symm

theorem has_false {s : XState} {i : Nat} {p : Phase} (h : s.has i p = false) (r : Ref) (hr : (r, p) ∈ s.xrefs) : r.thread ≠ i := by
  intro e
  unfold XState.has at h
  rw [List.any_eq_false] at h
  have := h _ hr
  simp [e] at this

theorem has_true {s : XState} {i : Nat} {p : Phase} (h : s.has i p = true) : ∃ r, (r, p) ∈ s.xrefs ∧ r.thread = i := by
  unfold XState.has at h
  rw [List.any_eq_true] at h
  obtain ⟨⟨r, q⟩, h1, h2⟩ := h
  simp only [Bool.and_eq_true, beq_iff_eq] at h2
  obtain ⟨h2, h3⟩ := h2
  subst h3
  exact ⟨r, h1, h2⟩

theorem has_of {s : XState} {r : Ref} {p : Phase} (h : (r, p) ∈ s.xrefs) : s.has r.thread p = true := by
  unfold XState.has
  rw [List.any_eq_true]
  exact ⟨_, h, by simp⟩

/-- The outcome of a step of the underlying table. -/
theorem xstep_base {s s' : XState} {i : Nat} {c : Choice} (hs : xstep s i (.base c) = some s') :
    s.c.uaf = false ∧ s.allowed i c = true ∧ cstep s.c i c = some s'.c ∧ s'.owner = s.owner ∧ s'.buffer = s.buffer ∧ s'.given = s.given ∧
    ((s'.xrefs = s.xrefs ∧ s'.c.refs = s.c.refs) ∨
     (∃ r, r.thread = i ∧ s'.xrefs = (r, .want) :: s.xrefs ∧ s'.c.refs = r :: s.c.refs) ∨
     (∃ r, s.c.threads[i]? = some (.release r) ∧ c = .go ∧ s'.xrefs = s.xrefs.erase (r, .unlocked) ∧ s'.c.refs = s.c.refs.erase r ∧ r ∈ s.c.refs) ∨
     (∃ r, s.c.threads[i]? = some (.release r) ∧ s'.xrefs = s.xrefs ∧ s'.c.refs = s.c.refs.erase r ∧ r ∉ s.c.refs)) := by
  unfold xstep at hs
  by_cases hu : s.c.uaf = true
  · rw [if_pos hu] at hs; simp at hs
  rw [if_neg hu] at hs
  simp only at hs
  by_cases ha : s.allowed i c = true
  case neg => rw [if_pos (by simpa using ha)] at hs; simp at hs
  rw [if_neg (by simp [ha])] at hs
  refine ⟨by simpa using hu, ha, ?_⟩
  cases hc : cstep s.c i c with
  | none => rw [hc] at hs; simp at hs
  | some c' =>
    rw [hc] at hs
    simp only at hs
    rcases cstep_refs hc with h | ⟨h, u, o, h1, h2, h3⟩ | ⟨r, h1, h2, h3⟩
    · have hl : c'.refs.length = s.c.refs.length := by rw [h]
      have : s' = { s with c := c' } := by
        split at hs
        · rename_i e _
          rw [if_neg (by rw [hl]; omega)] at hs
          exact (Option.some.inj hs).symm
        · rw [if_neg (by rw [hl]; omega)] at hs
          exact (Option.some.inj hs).symm
        · exact (Option.some.inj hs).symm
      subst this
      exact ⟨rfl, rfl, rfl, rfl, Or.inl ⟨rfl, h⟩⟩
    · rw [h1, h3] at hs
      simp only [List.length_cons, if_true, Option.some.injEq] at hs
      subst hs
      exact ⟨rfl, rfl, rfl, rfl, Or.inr (Or.inl ⟨_, rfl, rfl, h3⟩)⟩
    · rw [h1] at hs
      simp only at hs
      by_cases hm : r ∈ s.c.refs
      · have hl : c'.refs.length + 1 = s.c.refs.length := by
          rw [h3, List.length_erase_of_mem hm]
          have := List.length_pos_of_mem hm
          omega
        rw [if_pos hl] at hs
        simp only [Option.some.injEq] at hs
        subst hs
        exact ⟨rfl, rfl, rfl, rfl, Or.inr (Or.inr (Or.inl ⟨r, h1, h2, rfl, h3, hm⟩))⟩
      · have hl : ¬ c'.refs.length + 1 = s.c.refs.length := by
          rw [h3, List.erase_of_not_mem hm]; omega
        rw [if_neg hl] at hs
        simp only [Option.some.injEq] at hs
        subst hs
        exact ⟨rfl, rfl, rfl, rfl, Or.inr (Or.inr (Or.inr ⟨r, h1, rfl, h3, hm⟩))⟩

theorem xinv_step {s s' : XState} {i : Nat} {x : XChoice} (inv : XInv s) (hs : xstep s i x = some s') : XInv s' := by
  have hstep := hs
  cases x with
  | base c =>
    obtain ⟨hu, ha, hc, ho, _, _, hr⟩ := xstep_base hs
    obtain ⟨pc, hthr, hpc⟩ := cstep_threads hc
    -- an unlocked entry that another thread needs survives
    have hrel : ∀ (xr : List (Ref × Phase)), s'.xrefs = xr → (∀ j r, s.c.threads[j]? = some (.release r) → j ≠ i → (r, Phase.unlocked) ∈ xr) →
        (∀ r, s.c.threads[i]? = some (.release r) → s'.c.threads[i]? = some (.release r) → (r, Phase.unlocked) ∈ xr) →
        (∀ e ∈ s.xrefs, (∀ r, s.c.threads[i]? ≠ some (.release r)) → e ∈ xr) →
        ∀ j r, s'.c.threads[j]? = some (.release r) → (r, Phase.unlocked) ∈ s'.xrefs ∧ r.thread = j := by
      intro xr hx h1 h2 h3 j r hj
      rw [hx]
      by_cases hji : j = i
      · subst hji
        by_cases hold : s.c.threads[j]? = some (.release r)
        · exact ⟨h2 r hold hj, (inv.rel j r hold).2⟩
        · rcases hthr with e | e
          · rw [e] at hj; exact absurd hj hold
          · rw [e] at hj
            rw [List.getElem?_set] at hj
            simp only [if_true] at hj
            split at hj
            · simp only [Option.some.injEq] at hj
              have := hpc r hj
              subst this
              simp only [XState.allowed, Bool.and_eq_true, List.elem_eq_mem, decide_eq_true_eq] at ha
              refine ⟨h3 _ ha.2 ?_, ?_⟩
              · intro q hq
                unfold cstep at hc
                rw [if_neg (by simp [hu]), hq] at hc
                simp at hc
              · exact cstep_callRelease hc
            · simp at hj
      · rw [cstep_other hc hji] at hj
        exact ⟨h1 j r hj hji, (inv.rel j r hj).2⟩
    rcases hr with ⟨hx, hrf⟩ | ⟨r, hri, hx, hrf⟩ | ⟨r, hpc1, hgo, hx, hrf, hm⟩ | ⟨r, hpc1, hx, hrf, hm⟩
    · refine ⟨by rw [hx, hrf]; exact inv.perm, ?_, by rw [hx, ho]; exact inv.mutex⟩
      exact hrel _ hx (fun j r h _ => (inv.rel j r h).1) (fun r h _ => (inv.rel i r h).1) fun e he _ => he
    · refine ⟨by rw [hx, hrf]; exact inv.perm.cons _, ?_, ?_⟩
      · exact hrel _ hx (fun j r h _ => List.mem_cons_of_mem _ (inv.rel j r h).1) (fun r h _ => List.mem_cons_of_mem _ (inv.rel i r h).1)
          fun e he _ => List.mem_cons_of_mem _ he
      · intro o
        rw [hx, ho]
        refine mutex_not (inv.mutex o) ?_ ?_
        · rw [List.countP_cons_of_neg (by simp [holds])]
        · intro e he hh
          rcases List.mem_cons.mp he with h | h
          · subst h; simp [holds] at hh
          · exact Or.inl h
    · have hmem := (inv.rel i r hpc1)
      refine ⟨?_, ?_, ?_⟩
      · rw [hx, hrf]
        have h1 := (List.perm_cons_erase hmem.1).map (·.1)
        simp only [List.map_cons] at h1
        have h2 : (r :: (s.xrefs.erase (r, .unlocked)).map (·.1)).Perm (r :: s.c.refs.erase r) :=
          (h1.symm.trans inv.perm).trans (List.perm_cons_erase hm)
        exact (List.perm_cons r).mp h2
      · refine hrel _ hx ?_ ?_ ?_
        · intro j q hq hji
          have h1 := inv.rel j q hq
          refine (List.mem_erase_of_ne ?_).mpr h1.1
          intro e
          simp only [Prod.mk.injEq, and_true] at e
          rw [e] at h1
          exact hji (h1.2.symm.trans hmem.2)
        · intro q hq hq'
          rw [hpc1] at hq
          simp only [Option.some.injEq, Pc.release.injEq] at hq
          subst hq
          exfalso
          -- the release has been carried out, the thread is idle
          subst hgo
          unfold cstep at hc
          rw [if_neg (by simp [hu]), hpc1] at hc
          simp only at hc
          unfold CState.touch at hc
          split at hc
          · simp only [Option.some.injEq] at hc
            rw [← hc] at hrf
            simp only at hrf
            have := congrArg List.length hrf
            rw [List.length_erase_of_mem hm] at this
            have := List.length_pos_of_mem hm
            omega
          · split at hc
            all_goals
              simp only [Option.some.injEq] at hc
              rw [← hc] at hq'
              simp only [CState.setPc, List.getElem?_set] at hq'
              simp only [if_true] at hq'
              split at hq' <;> simp at hq'
        · intro e he h
          exact absurd hpc1 (h r)
      · intro o
        rw [hx, ho]
        refine mutex_not (inv.mutex o) ?_ ?_
        · exact countP_erase_not (by simp [holds])
        · intro e he _
          exact Or.inl (List.mem_of_mem_erase he)
    · exact absurd (inv.perm.subset (List.mem_map_of_mem (f := (·.1)) (inv.rel i r hpc1).1)) hm
  | lock r =>
    unfold xstep at hs
    by_cases hu : s.c.uaf = true
    · rw [if_pos hu] at hs; simp at hs
    rw [if_neg hu] at hs
    simp only at hs
    split at hs
    case isFalse => simp at hs
    rename_i hw
    obtain ⟨hw, hri⟩ := hw
    have hrel : ∀ j q, s.c.threads[j]? = some (.release q) → (q, Phase.unlocked) ∈ (r, Phase.locked) :: s.xrefs.erase (r, .want) ∧ q.thread = j := by
      intro j q hq
      refine ⟨List.mem_cons_of_mem _ ((List.mem_erase_of_ne (by simp)).mpr (inv.rel j q hq).1), (inv.rel j q hq).2⟩
    have hother : ∀ o, o ≠ r.object → ((r, Phase.locked) :: s.xrefs.erase (r, .want)).countP (holds o) = s.xrefs.countP (holds o) := by
      intro o ho
      rw [List.countP_cons_of_neg (by simp [holds, Ne.symm ho]), countP_erase_not (by simp [holds])]
    have hmemo : ∀ o, o ≠ r.object → ∀ e ∈ (r, Phase.locked) :: s.xrefs.erase (r, .want), holds o e = true → e ∈ s.xrefs ∨ ∃ e' ∈ s.xrefs, holds o e' = true ∧ e'.1.thread = e.1.thread := by
      intro o ho e he hh
      rcases List.mem_cons.mp he with h | h
      · subst h; simp [holds, Ne.symm ho] at hh
      · exact Or.inl (List.mem_of_mem_erase h)
    have hcnt : ((r, Phase.locked) :: s.xrefs.erase (r, .want)).countP (holds r.object) = s.xrefs.countP (holds r.object) + 1 := by
      rw [List.countP_cons_of_pos (by simp [holds]), countP_erase_not (by simp [holds])]
    rcases inv.mutex r.object with ⟨h1, h2⟩ | ⟨t, d, h1, h2, h3, h4⟩
    · rw [h1] at hs
      simp only [Option.some.injEq] at hs
      subst hs
      refine ⟨perm_swap inv.perm hw, hrel, ?_⟩
      intro o
      by_cases ho : o = r.object
      · subst ho
        refine Or.inr ⟨i, 1, by simp, by rw [hcnt, h2], by omega, ?_⟩
        intro e he hh
        rcases List.mem_cons.mp he with h | h
        · subst h; exact hri
        · have := List.countP_eq_zero.mp h2 e (List.mem_of_mem_erase h)
          exact absurd hh this
      · simp only [if_neg ho]
        exact mutex_not (inv.mutex o) (hother o ho) (hmemo o ho)
    · rw [h1] at hs
      simp only at hs
      split at hs
      case isFalse => simp at hs
      rename_i ht
      subst ht
      simp only [Option.some.injEq] at hs
      subst hs
      refine ⟨perm_swap inv.perm hw, hrel, ?_⟩
      intro o
      by_cases ho : o = r.object
      · subst ho
        refine Or.inr ⟨t, d + 1, by simp, by rw [hcnt, h2], by omega, ?_⟩
        intro e he hh
        rcases List.mem_cons.mp he with h | h
        · subst h; exact hri
        · exact h4 e (List.mem_of_mem_erase h) hh
      · simp only [if_neg ho]
        exact mutex_not (inv.mutex o) (hother o ho) (hmemo o ho)
  | unlock r =>
    unfold xstep at hs
    by_cases hu : s.c.uaf = true
    · rw [if_pos hu] at hs; simp at hs
    rw [if_neg hu] at hs
    simp only at hs
    split at hs
    case isFalse => simp at hs
    rename_i hw
    obtain ⟨hw, hri, _⟩ := hw
    simp only [Option.some.injEq] at hs
    subst hs
    refine ⟨perm_swap inv.perm hw, ?_, ?_⟩
    · intro j q hq
      exact ⟨List.mem_cons_of_mem _ ((List.mem_erase_of_ne (by simp)).mpr (inv.rel j q hq).1), (inv.rel j q hq).2⟩
    · intro o
      by_cases ho : o = r.object
      · subst ho
        have hpos : 0 < s.xrefs.countP (holds r.object) := List.countP_pos_iff.mpr ⟨_, hw, by simp [holds]⟩
        have hcnt : ((r, Phase.unlocked) :: s.xrefs.erase (r, .locked)).countP (holds r.object) = s.xrefs.countP (holds r.object) - 1 := by
          rw [List.countP_cons_of_neg (by simp [holds]), countP_erase_mem hw]
          simp [holds]
        rcases inv.mutex r.object with ⟨h1, h2⟩ | ⟨t, d, h1, h2, h3, h4⟩
        · omega
        · have ht : t = i := by rw [← hri]; exact (h4 _ hw (by simp [holds])).symm
          subst ht
          simp only [if_true, h1]
          by_cases hd : d = 1
          · rw [if_pos hd]
            exact Or.inl ⟨rfl, by omega⟩
          · rw [if_neg hd]
            refine Or.inr ⟨t, d - 1, rfl, by rw [hcnt, h2], by omega, ?_⟩
            intro e he hh
            rcases List.mem_cons.mp he with h | h
            · subst h; simp [holds] at hh
            · exact h4 e (List.mem_of_mem_erase h) hh
      · simp only [if_neg ho]
        refine mutex_not (inv.mutex o) ?_ ?_
        · rw [List.countP_cons_of_neg (by simp [holds]), countP_erase_not (by simp [holds, Ne.symm ho])]
        · intro e he hh
          rcases List.mem_cons.mp he with h | h
          · subst h; simp [holds] at hh
          · exact Or.inl (List.mem_of_mem_erase h)
  | take r =>
    unfold xstep at hs
    by_cases hu : s.c.uaf = true
    · rw [if_pos hu] at hs; simp at hs
    rw [if_neg hu] at hs
    simp only at hs
    split at hs
    case isFalse => simp at hs
    rename_i hw
    obtain ⟨hw, hri, _⟩ := hw
    split at hs
    · simp only [Option.some.injEq] at hs
      subst hs
      exact ⟨inv.perm, inv.rel, inv.mutex⟩
    · simp only [Option.some.injEq] at hs
      subst hs
      refine ⟨perm_swap inv.perm hw, ?_, ?_⟩
      · intro j q hq
        exact ⟨List.mem_cons_of_mem _ ((List.mem_erase_of_ne (by simp)).mpr (inv.rel j q hq).1), (inv.rel j q hq).2⟩
      · intro o
        refine mutex_not (inv.mutex o) ?_ ?_
        · by_cases ho : o = r.object
          · subst ho
            have hpos : 0 < s.xrefs.countP (holds r.object) := List.countP_pos_iff.mpr ⟨_, hw, by simp [holds]⟩
            rw [List.countP_cons_of_pos (by simp [holds]), countP_erase_mem hw]
            simp [holds]
          · rw [List.countP_cons_of_neg (by simp [holds, Ne.symm ho]), countP_erase_not (by simp [holds, Ne.symm ho])]
        · intro e he hh
          rcases List.mem_cons.mp he with h | h
          · subst h
            refine Or.inr ⟨_, hw, ?_, rfl⟩
            simp [holds] at hh ⊢
            exact hh
          · exact Or.inl (List.mem_of_mem_erase h)

theorem xinv_reachable {n : Nat} {s : XState} (hr : XReachable n s) : XInv s := by
  induction hr with
  | init store threads _ => exact xinv_init store threads
  | step s s' i x _ hs ih => exact xinv_step ih hs

/-- Steps other than `base` leave the underlying table alone. -/
theorem xstep_c {s s' : XState} {i : Nat} {x : XChoice} (hs : xstep s i x = some s') : (∃ c, cstep s.c i c = some s'.c ∧ x = .base c) ∨ s'.c = s.c := by
  cases x with
  | base c => exact Or.inl ⟨c, (xstep_base hs).2.2.1, rfl⟩
  | lock r =>
    unfold xstep at hs
    split at hs
    · simp at hs
    · simp only at hs
      split at hs
      · split at hs
        · simp at hs; subst hs; exact Or.inr rfl
        · split at hs
          · simp at hs; subst hs; exact Or.inr rfl
          · simp at hs
      · simp at hs
  | unlock r =>
    unfold xstep at hs
    split at hs
    · simp at hs
    · simp only at hs
      split at hs
      · simp at hs; subst hs; exact Or.inr rfl
      · simp at hs
  | take r =>
    unfold xstep at hs
    split at hs
    · simp at hs
    · simp only at hs
      split at hs
      · split at hs <;> (simp at hs; subst hs; exact Or.inr rfl)
      · simp at hs

theorem xreachable_c {n : Nat} {s : XState} (hr : XReachable n s) : Reachable n s.c := by
  induction hr with
  | init store threads h => exact Reachable.init store threads h
  | step s s' i x _ hs ih =>
    rcases xstep_c hs with ⟨c, h, _⟩ | h
    · exact Reachable.step _ _ i c ih h
    · rw [h]; exact ih

/-- The mutex is held by one thread. -/
theorem holds_unique {s : XState} (inv : XInv s) {e e' : Ref × Phase} (he : e ∈ s.xrefs) (he' : e' ∈ s.xrefs) {o : Nat} (h : holds o e = true)
    (h' : holds o e' = true) : e.1.thread = e'.1.thread := by
  rcases inv.mutex o with ⟨_, h2⟩ | ⟨t, d, _, _, _, h4⟩
  · exact absurd h (List.countP_eq_zero.mp h2 e he)
  · rw [h4 e he h, h4 e' he' h']

/-- Steps of other threads do not move a reference; a waiting thread can only lock. -/
theorem entry_stable {s s' : XState} {i : Nat} {x : XChoice} (hs : xstep s i x = some s') (r : Ref) (p : Phase) (hp : p ≠ .unlocked)
    (hm : (r, p) ∈ s.xrefs) (hx : x ≠ .lock r ∨ p ≠ .want) (hw : r.thread = i → s.has i .want = true ∨ p = .leaked) : (r, p) ∈ s'.xrefs := by
  cases x with
  | base c =>
    obtain ⟨_, ha, _, _, _, _, hr⟩ := xstep_base hs
    rcases hr with ⟨hx, _⟩ | ⟨q, _, hx, _⟩ | ⟨q, _, _, hx, _⟩ | ⟨q, _, hx, _⟩
    · rw [hx]; exact hm
    · rw [hx]; exact List.mem_cons_of_mem _ hm
    · rw [hx]; exact (List.mem_erase_of_ne (by simp [hp])).mpr hm
    · rw [hx]; exact hm
  | lock q =>
    have key : (r, p) ∈ (q, Phase.locked) :: s.xrefs.erase (q, .want) := by
      refine List.mem_cons_of_mem _ ((List.mem_erase_of_ne ?_).mpr hm)
      intro e
      simp only [Prod.mk.injEq] at e
      rcases hx with h | h
      · exact h (by rw [e.1])
      · exact h e.2
    unfold xstep at hs
    split at hs
    · simp at hs
    · simp only at hs
      split at hs
      · split at hs
        · simp at hs; subst hs; exact key
        · split at hs
          · simp at hs; subst hs; exact key
          · simp at hs
      · simp at hs
  | unlock q =>
    unfold xstep at hs
    split at hs
    · simp at hs
    · simp only at hs
      split at hs
      case isFalse => simp at hs
      rename_i hq
      simp only [Option.some.injEq] at hs
      subst hs
      refine List.mem_cons_of_mem _ ((List.mem_erase_of_ne ?_).mpr hm)
      intro e
      simp only [Prod.mk.injEq] at e
      rw [← e.1] at hq
      rcases hw hq.2.1 with h | h
      · have := hq.2.2
        simp [XState.free, h] at this
      · rw [h] at e; simp at e
  | take q =>
    unfold xstep at hs
    split at hs
    · simp at hs
    · simp only at hs
      split at hs
      case isFalse => simp at hs
      rename_i hq
      split at hs
      · simp only [Option.some.injEq] at hs
        subst hs
        exact hm
      · simp only [Option.some.injEq] at hs
        subst hs
        refine List.mem_cons_of_mem _ ((List.mem_erase_of_ne ?_).mpr hm)
        intro e
        simp only [Prod.mk.injEq] at e
        rw [← e.1] at hq
        rcases hw hq.2.1 with h | h
        · have := hq.2.2
          simp [XState.free, h] at this
        · rw [h] at e; simp at e

end Sa.Conc

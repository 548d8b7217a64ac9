import Verif.Model.StoreConc
import Verif.Lemmas.ObjectStore

namespace Sa.Conc

/-- Update of a function at one point. -/
def upd {β : Type} (f : Nat → β) (i : Nat) (v : β) : Nat → β := fun j => if j = i then v else f j

theorem upd_same {β : Type} (f : Nat → β) (i : Nat) (v : β) : upd f i v i = v := by simp [upd]
theorem upd_ne {β : Type} (f : Nat → β) (i j : Nat) (v : β) (h : j ≠ i) : upd f i v j = f j := by simp [upd, h]

/-- The object a thread is about to destroy. -/
def pendingOf : Pc → Option Nat
  | .removeDec f => f
  | .removeFree o => some o
  | .shutDestroy _ o => some o
  | _ => none

/-- The thread is included in `release_count`. -/
def counted : Pc → Bool
  | .removeLoop _ _ => true
  | .removeDec _ => true
  | _ => false

def isShut : Pc → Bool
  | .shutFlag | .shutWait | .shutLoop _ | .shutDestroy _ _ | .shutFree => true
  | _ => false

/-- The shutting down thread has set the flag. -/
def afterFlag : Pc → Bool
  | .shutWait | .shutLoop _ | .shutDestroy _ _ | .shutFree => true
  | _ => false

/-- The shutting down thread has seen `release_count == 0`. -/
def afterWait : Pc → Bool
  | .shutLoop _ | .shutDestroy _ _ | .shutFree => true
  | _ => false

/-- Slots below this number have been emptied by the shutting down thread. -/
def clearedTo (n : Nat) : Pc → Nat
  | .shutLoop k => k
  | .shutDestroy k _ => k + 1
  | .shutFree => n
  | _ => 0

/-- Ownership: every added object is in exactly one of: the table, the hands of one thread, the destroyed list. -/
structure Own (T : Nat → Option Nat) (f : Nat → Option Pc) (added destroyed : List Nat) : Prop where
  inj : ∀ h h' o, T h = some o → T h' = some o → h = h'
  tAdded : ∀ h o, T h = some o → o ∈ added
  tNotD : ∀ h o, T h = some o → o ∉ destroyed
  tNotP : ∀ h o i pc, T h = some o → f i = some pc → pendingOf pc ≠ some o
  pAdded : ∀ i pc o, f i = some pc → pendingOf pc = some o → o ∈ added
  pNotD : ∀ i pc o, f i = some pc → pendingOf pc = some o → o ∉ destroyed
  pUniq : ∀ i j pc pc' o, f i = some pc → pendingOf pc = some o → f j = some pc' → pendingOf pc' = some o → i = j
  nodup : destroyed.Nodup
  dAdded : ∀ o, o ∈ destroyed → o ∈ added
  complete : ∀ o, o ∈ added → (∃ h, T h = some o) ∨ (∃ i pc, f i = some pc ∧ pendingOf pc = some o) ∨ o ∈ destroyed

variable {T : Nat → Option Nat} {f : Nat → Option Pc} {added destroyed : List Nat}

theorem upd_cases {f : Nat → Option Pc} {i j : Nat} {pc' p : Pc} (h : upd f i (some pc') j = some p) :
    (j = i ∧ p = pc') ∨ (j ≠ i ∧ f j = some p) := by
  unfold upd at h
  by_cases e : j = i
  · simp [e] at h; exact Or.inl ⟨e, h.symm⟩
  · simp [e] at h; exact Or.inr ⟨e, h⟩

/-- Moving one thread without changing what it is about to destroy. -/
theorem own_pc (ow : Own T f added destroyed) (i : Nat) (pc pc' : Pc) (hf : f i = some pc)
    (hp : pendingOf pc' = pendingOf pc) : Own T (upd f i (some pc')) added destroyed := by
  have back : ∀ j p, upd f i (some pc') j = some p → ∃ q, f j = some q ∧ pendingOf q = pendingOf p := by
    intro j p hj
    rcases upd_cases hj with ⟨rfl, rfl⟩ | ⟨_, h⟩
    · exact ⟨pc, hf, hp.symm⟩
    · exact ⟨p, h, rfl⟩
  refine ⟨ow.inj, ow.tAdded, ow.tNotD, ?_, ?_, ?_, ?_, ow.nodup, ow.dAdded, ?_⟩
  · intro h o j p hT hj
    obtain ⟨q, h1, h2⟩ := back j p hj
    rw [← h2]; exact ow.tNotP h o j q hT h1
  · intro j p o hj hpo
    obtain ⟨q, h1, h2⟩ := back j p hj
    exact ow.pAdded j q o h1 (by rw [h2]; exact hpo)
  · intro j p o hj hpo
    obtain ⟨q, h1, h2⟩ := back j p hj
    exact ow.pNotD j q o h1 (by rw [h2]; exact hpo)
  · intro j k p p' o hj hpo hk hpo'
    obtain ⟨q, h1, h2⟩ := back j p hj
    obtain ⟨q', h1', h2'⟩ := back k p' hk
    exact ow.pUniq j k q q' o h1 (by rw [h2]; exact hpo) h1' (by rw [h2']; exact hpo')
  · intro o ho
    rcases ow.complete o ho with h | ⟨j, p, h1, h2⟩ | h
    · exact Or.inl h
    · right; left
      by_cases e : j = i
      · subst e
        rw [hf] at h1; injection h1 with h1; subst h1
        exact ⟨j, pc', upd_same _ _ _, by rw [hp]; exact h2⟩
      · exact ⟨j, p, by rw [upd_ne _ _ _ _ e]; exact h1, h2⟩
    · exact Or.inr (Or.inr h)

/-- A fresh object enters the table. -/
theorem own_add (ow : Own T f added destroyed) (slot o : Nat) (hT : T slot = none) (ho : o ∉ added) :
    Own (upd T slot (some o)) f (o :: added) destroyed := by
  have cases' : ∀ h v, upd T slot (some o) h = some v → (h = slot ∧ v = o) ∨ (h ≠ slot ∧ T h = some v) := by
    intro h v hh
    unfold upd at hh
    by_cases e : h = slot
    · simp [e] at hh; exact Or.inl ⟨e, hh.symm⟩
    · simp [e] at hh; exact Or.inr ⟨e, hh⟩
  refine ⟨?_, ?_, ?_, ?_, ?_, ow.pNotD, ow.pUniq, ow.nodup, ?_, ?_⟩
  · intro h h' v h1 h2
    rcases cases' h v h1 with ⟨rfl, rfl⟩ | ⟨n1, e1⟩
    · rcases cases' h' v h2 with ⟨rfl, _⟩ | ⟨n2, e2⟩
      · rfl
      · exact absurd (ow.tAdded _ _ e2) ho
    · rcases cases' h' v h2 with ⟨rfl, rfl⟩ | ⟨n2, e2⟩
      · exact absurd (ow.tAdded _ _ e1) ho
      · exact ow.inj _ _ _ e1 e2
  · intro h v h1
    rcases cases' h v h1 with ⟨rfl, rfl⟩ | ⟨_, e1⟩
    · simp
    · exact List.mem_cons_of_mem _ (ow.tAdded _ _ e1)
  · intro h v h1
    rcases cases' h v h1 with ⟨rfl, rfl⟩ | ⟨_, e1⟩
    · exact fun hd => ho (ow.dAdded _ hd)
    · exact ow.tNotD _ _ e1
  · intro h v i pc h1 hf
    rcases cases' h v h1 with ⟨rfl, rfl⟩ | ⟨_, e1⟩
    · exact fun hp => ho (ow.pAdded i pc v hf hp)
    · exact ow.tNotP _ _ _ _ e1 hf
  · intro i pc v hf hp
    exact List.mem_cons_of_mem _ (ow.pAdded i pc v hf hp)
  · intro v hv
    exact List.mem_cons_of_mem _ (ow.dAdded _ hv)
  · intro v hv
    rcases List.mem_cons.mp hv with rfl | hv
    · exact Or.inl ⟨slot, upd_same _ _ _⟩
    · rcases ow.complete v hv with ⟨h, hh⟩ | h | h
      · left
        refine ⟨h, ?_⟩
        rw [upd_ne _ _ _ _ (by intro e; subst e; rw [hT] at hh; simp at hh)]
        exact hh
      · exact Or.inr (Or.inl h)
      · exact Or.inr (Or.inr h)

/-- A thread takes an object out of the table in order to destroy it. -/
theorem own_take (ow : Own T f added destroyed) (slot o i : Nat) (pc pc' : Pc) (hT : T slot = some o)
    (hf : f i = some pc) (hp : pendingOf pc = none) (hp' : pendingOf pc' = some o) :
    Own (upd T slot none) (upd f i (some pc')) added destroyed := by
  have casesT : ∀ h v, upd T slot none h = some v → h ≠ slot ∧ T h = some v := by
    intro h v hh
    unfold upd at hh
    by_cases e : h = slot
    · simp [e] at hh
    · simp [e] at hh; exact ⟨e, hh⟩
  refine ⟨?_, ?_, ?_, ?_, ?_, ?_, ?_, ow.nodup, ow.dAdded, ?_⟩
  · intro h h' v h1 h2
    exact ow.inj _ _ _ (casesT h v h1).2 (casesT h' v h2).2
  · intro h v h1; exact ow.tAdded _ _ (casesT h v h1).2
  · intro h v h1; exact ow.tNotD _ _ (casesT h v h1).2
  · intro h v j p h1 hj
    obtain ⟨hne, h1⟩ := casesT h v h1
    rcases upd_cases hj with ⟨rfl, rfl⟩ | ⟨_, hj⟩
    · rw [hp']; intro e; injection e with e; subst e
      exact hne (ow.inj _ _ _ h1 hT)
    · exact ow.tNotP _ _ _ _ h1 hj
  · intro j p v hj hpv
    rcases upd_cases hj with ⟨rfl, rfl⟩ | ⟨_, hj⟩
    · rw [hp'] at hpv; injection hpv with e; subst e; exact ow.tAdded _ _ hT
    · exact ow.pAdded _ _ _ hj hpv
  · intro j p v hj hpv
    rcases upd_cases hj with ⟨rfl, rfl⟩ | ⟨_, hj⟩
    · rw [hp'] at hpv; injection hpv with e; subst e; exact ow.tNotD _ _ hT
    · exact ow.pNotD _ _ _ hj hpv
  · intro j k p p' v hj hpv hk hpv'
    rcases upd_cases hj with ⟨rfl, rfl⟩ | ⟨_, hj2⟩
    · rcases upd_cases hk with ⟨rfl, rfl⟩ | ⟨_, hk⟩
      · rfl
      · rw [hp'] at hpv; injection hpv with e; subst e
        exact absurd hpv' (ow.tNotP _ _ _ _ hT hk)
    · rcases upd_cases hk with ⟨rfl, rfl⟩ | ⟨_, hk⟩
      · rw [hp'] at hpv'; injection hpv' with e; subst e
        exact absurd hpv (ow.tNotP _ _ _ _ hT hj2)
      · exact ow.pUniq _ _ _ _ _ hj2 hpv hk hpv'
  · intro v hv
    rcases ow.complete v hv with ⟨h, hh⟩ | ⟨j, p, h1, h2⟩ | h
    · by_cases e : h = slot
      · subst e
        rw [hT] at hh; injection hh with e; subst e
        exact Or.inr (Or.inl ⟨i, pc', upd_same _ _ _, hp'⟩)
      · exact Or.inl ⟨h, by rw [upd_ne _ _ _ _ e]; exact hh⟩
    · right; left
      refine ⟨j, p, ?_, h2⟩
      rw [upd_ne _ _ _ _ (by intro e; subst e; rw [hf] at h1; injection h1 with e; subst e; rw [hp] at h2; simp at h2)]
      exact h1
    · exact Or.inr (Or.inr h)

/-- A thread destroys the object it took. -/
theorem own_destroy (ow : Own T f added destroyed) (o i : Nat) (pc pc' : Pc)
    (hf : f i = some pc) (hp : pendingOf pc = some o) (hp' : pendingOf pc' = none) :
    Own T (upd f i (some pc')) added (o :: destroyed) := by
  have back : ∀ j p v, upd f i (some pc') j = some p → pendingOf p = some v → j ≠ i ∧ f j = some p := by
    intro j p v hj hpv
    rcases upd_cases hj with ⟨rfl, rfl⟩ | h
    · rw [hp'] at hpv; simp at hpv
    · exact h
  refine ⟨ow.inj, ow.tAdded, ?_, ?_, ?_, ?_, ?_, ?_, ?_, ?_⟩
  · intro h v h1 hm
    rcases List.mem_cons.mp hm with rfl | hm
    · exact ow.tNotP _ _ _ _ h1 hf hp
    · exact ow.tNotD _ _ h1 hm
  · intro h v j p h1 hj
    rcases upd_cases hj with ⟨rfl, rfl⟩ | ⟨_, hj⟩
    · rw [hp']; simp
    · exact ow.tNotP _ _ _ _ h1 hj
  · intro j p v hj hpv
    exact ow.pAdded _ _ _ (back j p v hj hpv).2 hpv
  · intro j p v hj hpv hm
    obtain ⟨hne, hj⟩ := back j p v hj hpv
    rcases List.mem_cons.mp hm with rfl | hm
    · exact hne (ow.pUniq _ _ _ _ _ hj hpv hf hp)
    · exact ow.pNotD _ _ _ hj hpv hm
  · intro j k p p' v hj hpv hk hpv'
    exact ow.pUniq _ _ _ _ _ (back j p v hj hpv).2 hpv (back k p' v hk hpv').2 hpv'
  · exact List.nodup_cons.mpr ⟨ow.pNotD _ _ _ hf hp, ow.nodup⟩
  · intro v hv
    rcases List.mem_cons.mp hv with rfl | hv
    · exact ow.pAdded _ _ _ hf hp
    · exact ow.dAdded _ hv
  · intro v hv
    rcases ow.complete v hv with h | ⟨j, p, h1, h2⟩ | h
    · exact Or.inl h
    · by_cases e : j = i
      · subst e
        rw [hf] at h1; injection h1 with h1; subst h1
        rw [hp] at h2; injection h2 with h2; subst h2
        exact Or.inr (Or.inr (by simp))
      · exact Or.inr (Or.inl ⟨j, p, by rw [upd_ne _ _ _ _ e]; exact h1, h2⟩)
    · exact Or.inr (Or.inr (List.mem_cons_of_mem _ h))

/-- References agree with the table. -/
structure RefsInv (O : Nat → StoreObject Nat) (refs : List Ref) : Prop where
  ok : ∀ r, r ∈ refs → (O r.slot).object = some r.object ∧ (O r.slot).ownerUuid = r.caller
  cnt : ∀ h, (O h).referenceCount = refs.countP (fun r => decide (r.slot = h))

theorem refs_none {O : Nat → StoreObject Nat} {refs : List Ref} (ri : RefsInv O refs) (h : Nat)
    (hc : (O h).referenceCount = 0) : ∀ r, r ∈ refs → r.slot ≠ h := by
  intro r hr e
  have := ri.cnt h
  rw [hc] at this
  have h0 := List.countP_eq_zero.mp this.symm r hr
  simp [e] at h0

/-- Replacing an unreferenced entry by an entry with reference count 0. -/
theorem refs_replace {O : Nat → StoreObject Nat} {refs : List Ref} (ri : RefsInv O refs) (h : Nat) (so : StoreObject Nat)
    (hc : (O h).referenceCount = 0) (hso : so.referenceCount = 0) : RefsInv (upd O h so) refs := by
  have hn := refs_none ri h hc
  refine ⟨?_, ?_⟩
  · intro r hr
    rw [upd_ne _ _ _ _ (hn r hr)]; exact ri.ok r hr
  · intro x
    by_cases e : x = h
    · subst e; rw [upd_same, hso, ← hc]; exact ri.cnt x
    · rw [upd_ne _ _ _ _ e]; exact ri.cnt x

theorem refs_acquire {O : Nat → StoreObject Nat} {refs : List Ref} (ri : RefsInv O refs) (i h o : Nat) (u : Uuid)
    (ho : (O h).object = some o) (hu : (O h).ownerUuid = u) :
    RefsInv (upd O h { object := some o, referenceCount := (O h).referenceCount + 1, ownerUuid := u })
      (⟨i, h, o, u⟩ :: refs) := by
  refine ⟨?_, ?_⟩
  · intro r hr
    rcases List.mem_cons.mp hr with rfl | hr
    · simp [upd_same]
    · by_cases e : r.slot = h
      · have := ri.ok r hr
        rw [e] at this ⊢
        rw [upd_same]
        rw [ho, hu] at this
        exact this
      · rw [upd_ne _ _ _ _ e]; exact ri.ok r hr
  · intro x
    rw [List.countP_cons]
    by_cases e : x = h
    · subst e; rw [upd_same]; simp [ri.cnt x]
    · rw [upd_ne _ _ _ _ e, ri.cnt x]
      have : ¬ h = x := fun q => e q.symm
      simp [this]

theorem refs_release {O : Nat → StoreObject Nat} {refs : List Ref} (ri : RefsInv O refs) (r : Ref) (hr : r ∈ refs) :
    RefsInv (upd O r.slot
      { object := some r.object, referenceCount := (O r.slot).referenceCount - 1, ownerUuid := r.caller })
      (refs.erase r) := by
  have hk := ri.ok r hr
  refine ⟨?_, ?_⟩
  · intro q hq
    have hq := List.mem_of_mem_erase hq
    have hqk := ri.ok q hq
    by_cases e : q.slot = r.slot
    · rw [e] at hqk ⊢
      rw [upd_same]
      rw [hk.1, hk.2] at hqk
      exact hqk
    · rw [upd_ne _ _ _ _ e]; exact hqk
  · intro x
    have hperm := (List.perm_cons_erase hr).countP_eq (fun q : Ref => decide (q.slot = x))
    rw [List.countP_cons] at hperm
    by_cases e : x = r.slot
    · subst e; rw [upd_same]; simp only [decide_true, if_true] at hperm
      have := ri.cnt r.slot
      simp only [this, hperm]; omega
    · rw [upd_ne _ _ _ _ e, ri.cnt x]
      have : ¬ r.slot = x := fun q => e q.symm
      simp only [this, decide_false, Bool.false_eq_true, if_false] at hperm
      exact hperm

theorem countP_set {p : Pc → Bool} (l : List Pc) (i : Nat) (a b : Pc) (h : l[i]? = some a) :
    (l.set i b).countP p + (if p a then 1 else 0) = l.countP p + (if p b then 1 else 0) := by
  induction l generalizing i with
  | nil => simp at h
  | cons x xs ih =>
    cases i with
    | zero =>
      simp at h; subst h
      simp only [List.set_cons_zero, List.countP_cons]
      omega
    | succ i =>
      simp at h
      simp only [List.set_cons_succ, List.countP_cons]
      have := ih i h
      omega

theorem threads_set (l : List Pc) (i : Nat) (a b : Pc) (h : l[i]? = some a) :
    (fun j => (l.set i b)[j]?) = upd (fun j => l[j]?) i (some b) := by
  funext j
  unfold upd
  have hi : i < l.length := by
    rcases Nat.lt_or_ge i l.length with hl | hl
    · exact hl
    · rw [List.getElem?_eq_none hl] at h; simp at h
  by_cases e : j = i
  · subst e; simp [hi]
  · rw [List.getElem?_set_ne (fun q => e q.symm)]; simp [e]

/-- Shutdown part of the invariant. -/
structure ShutInv (n : Nat) (T : Nat → Option Nat) (f : Nat → Option Pc) (started freed flag : Bool) (cnt : Nat) : Prop where
  uniq : ∀ i j pc pc', f i = some pc → isShut pc = true → f j = some pc' → isShut pc' = true → i = j
  start : ∀ i pc, f i = some pc → isShut pc = true → started = true
  freedStart : freed = true → started = true
  freedNo : freed = true → ∀ i pc, f i = some pc → isShut pc = false
  flagSet : ∀ i pc, f i = some pc → afterFlag pc = true → flag = true
  freedFlag : freed = true → flag = true
  drained : ∀ i pc, f i = some pc → afterWait pc = true → cnt = 0
  freedDrained : freed = true → cnt = 0
  empt : ∀ i pc, f i = some pc → ∀ h, h < clearedTo n pc → T h = none
  freedEmpty : freed = true → ∀ h, h < n → T h = none

/-- The complete invariant. -/
structure CInv (n : Nat) (s : CState) : Prop where
  inv : StoreInv s.store
  count : s.store.slotCount = n
  refs : RefsInv s.store.obj s.refs
  own : Own (fun h => (s.store.obj h).object) (fun i => s.threads[i]?) s.added s.destroyed
  rel : s.store.releaseCount = s.threads.countP counted
  relRef : ∀ i r, s.threads[i]? = some (.release r) → r ∈ s.refs ∧ r.thread = i
  inRange : ∀ (i h : Nat) (u : Uuid), s.threads[i]? = some (Pc.removeLoop h u) → h < n
  shut : ShutInv n (fun h => (s.store.obj h).object) (fun i => s.threads[i]?) s.shutdownStarted s.storeFreed
    s.store.isShuttingDown (s.threads.countP counted)

end Sa.Conc

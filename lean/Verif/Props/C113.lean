import Verif.Model.EngineDigest

/-!
# C113: the digests of the engine, asked for by many threads
-/

namespace Sa.Ed.C113

variable {own : Nat → Nat}

/-! ## The property -/

/-- At `p` there is the digest `n`, with the size that the engine sets. -/
def Proper (s : State) (n p : Nat) : Prop := s.heap p = some ⟨n, appSize n⟩

/-- What users rely on in a state: no NULL pointer was used; whoever asked for one of the digests listed was given it, for another number nothing; and if the engine is shut down now, while no
thread is in it, no memory is lost. -/
structure Fine (s : State) : Prop where
  safe : s.crashed = false
  right : ∀ n x, (n, x) ∈ s.told → (n ∈ nids → ∃ p, x = some p ∧ Proper s n p) ∧ (n ∉ nids → x = none)
  freed : (∀ t, s.pc t = .idle) → ∀ p, (freeAll s).heap p = none

/-- The property in full: whatever threads do, in whatever order, whether there is memory or not. -/
def AlwaysFine (own : Nat → Nat) : Prop := ∀ l s, run own init l = some s → Fine s

/-! ## Any order of steps -/

/-- At `p` there is the digest `n`; the size may not have been set yet. -/
def Is (own : Nat → Nat) (s : State) (n p : Nat) : Prop := ∃ m, s.heap p = some m ∧ m.digest = n ∧ (m.size = own n ∨ m.size = appSize n)

structure Inv (own : Nat → Nat) (s : State) : Prop where
  safe : s.crashed = false
  cur : ∀ n p, s.cur n = some p → Is own s n p
  store : ∀ t n x, s.pc t = .store n x → ∃ p, x = some p ∧ Is own s n p
  set : ∀ t n, s.pc t = .size n ∨ s.pc t = .load n → s.cur n ≠ none
  known : ∀ t n, s.pc t = .check n ∨ s.pc t = .dup n ∨ (∃ x, s.pc t = .store n x) ∨ s.pc t = .size n ∨ s.pc t = .load n → n ∈ nids
  fresh : ∀ p, s.heap p ≠ none → p < s.next
  told : ∀ n x, (n, x) ∈ s.told → (n ∈ nids → ∃ p, x = some p ∧ Is own s n p) ∧ (n ∉ nids → x = none)

theorem goto_pc (s : State) (t x : Nat) (c : Pc) : (s.goto t c).pc x = if x = t then c else s.pc x := rfl

theorem inv_init : Inv own init where
  safe := rfl
  cur := fun n p h => by cases h
  store := fun t n x h => by cases h
  set := fun t n h => by rcases h with h | h <;> cases h
  known := fun t n h => by rcases h with h | h | ⟨_, h⟩ | h | h <;> cases h
  fresh := fun p h => absurd rfl h
  told := fun n x h => by cases h

/-- A step that changes only where the thread is. -/
theorem inv_goto {s : State} (inv : Inv own s) {t : Nat} {c : Pc} (h1 : ∀ n x, c = .store n x → ∃ p, x = some p ∧ Is own s n p) (h2 : ∀ n, c = .size n ∨ c = .load n → s.cur n ≠ none)
    (h3 : ∀ n, c = .check n ∨ c = .dup n ∨ (∃ x, c = .store n x) ∨ c = .size n ∨ c = .load n → n ∈ nids) : Inv own (s.goto t c) where
  safe := inv.safe
  cur := inv.cur
  store := fun x n p h => by
    rw [goto_pc] at h
    split at h
    · exact h1 n p h
    · exact inv.store x n p h
  set := fun x n h => by
    rw [goto_pc] at h
    split at h
    · exact h2 n h
    · exact inv.set x n h
  known := fun x n h => by
    simp only [goto_pc] at h
    split at h
    · exact h3 n h
    · exact inv.known x n h
  fresh := inv.fresh
  told := inv.told

theorem step_inv {s s' : State} (inv : Inv own s) {t : Nat} {a : Act} (ha : a ≠ .run false) (h : step own s t a = some s') : Inv own s' := by
  cases a with
  | ask n =>
    simp only [step] at h
    split at h
    · split at h
      · next hn =>
        cases h
        exact inv_goto inv (fun _ _ e => by cases e) (fun _ e => by rcases e with e | e <;> cases e)
          (fun m e => by rcases e with e | e | ⟨_, e⟩ | e | e <;> cases e; exact hn)
      · next hn =>
        cases h
        exact ⟨inv.safe, inv.cur, inv.store, inv.set, inv.known, inv.fresh, fun m x hx => by
          rcases List.mem_cons.1 hx with e | hx
          · cases e; exact ⟨fun h => absurd h hn, fun _ => rfl⟩
          · exact inv.told m x hx⟩
    · cases h
  | run ok =>
    cases ok with
    | false => exact absurd rfl ha
    | true =>
      simp only [step] at h
      rw [if_neg (by simp [inv.safe])] at h
      cases hpc : s.pc t with
      | idle => rw [hpc] at h; cases h
      | check n =>
        have hn := inv.known t n (Or.inl hpc)
        rw [hpc] at h
        cases h
        by_cases hc : s.cur n = none
        · rw [if_pos hc]
          exact inv_goto inv (fun _ _ e => by cases e) (fun _ e => by rcases e with e | e <;> cases e)
            (fun m e => by rcases e with e | e | ⟨_, e⟩ | e | e <;> cases e; exact hn)
        · rw [if_neg hc]
          exact inv_goto inv (fun _ _ e => by cases e) (fun _ e => by rcases e with e | e <;> cases e; exact hc)
            (fun m e => by rcases e with e | e | ⟨_, e⟩ | e | e <;> cases e; exact hn)
      | dup n =>
        have hn := inv.known t n (Or.inr (Or.inl hpc))
        rw [hpc] at h
        simp only [if_true] at h
        cases h
        have keep : ∀ m q, Is own s m q → Is own { s with heap := fun p => if p = s.next then some ⟨n, own n⟩ else s.heap p, next := s.next + 1 } m q := by
          rintro m q ⟨x, h1, h2⟩
          have := inv.fresh q (by simp [h1])
          exact ⟨x, by simp only; rw [if_neg (by omega)]; exact h1, h2⟩
        refine inv_goto (s := { s with heap := fun p => if p = s.next then some ⟨n, own n⟩ else s.heap p, next := s.next + 1 }) (c := .store n (some s.next))
          ⟨inv.safe, fun m q e => keep m q (inv.cur m q e), fun u m x e => ?_, inv.set, inv.known, fun q hq => ?_, fun m x hx => ?_⟩ (fun m x e => ?_) (fun _ e => ?_) (fun m e => ?_)
        · obtain ⟨q, e1, e2⟩ := inv.store u m x e
          exact ⟨q, e1, keep m q e2⟩
        · simp only at hq ⊢
          split at hq
          · omega
          · have := inv.fresh q hq; omega
        · refine ⟨fun hm => ?_, (inv.told m x hx).2⟩
          obtain ⟨q, e1, e2⟩ := (inv.told m x hx).1 hm
          exact ⟨q, e1, keep m q e2⟩
        · cases e; exact ⟨s.next, rfl, ⟨n, own n⟩, by simp, rfl, Or.inl rfl⟩
        · rcases e with e | e <;> cases e
        · rcases e with e | e | ⟨_, e⟩ | e | e <;> cases e; exact hn
      | store n x =>
        have hn := inv.known t n (Or.inr (Or.inr (Or.inl ⟨x, hpc⟩)))
        obtain ⟨q, rfl, hq⟩ := inv.store t n x hpc
        rw [hpc] at h
        cases h
        have set : ∀ m, s.cur m ≠ none → (if m = n then some q else s.cur m) ≠ none := by
          intro m hm
          split
          · simp
          · exact hm
        refine inv_goto (s := { s with cur := fun m => if m = n then some q else s.cur m }) (c := .size n) ⟨inv.safe, fun m r e => ?_, inv.store, fun u m e => set m (inv.set u m e), inv.known, inv.fresh, inv.told⟩ (fun m x e => by cases e) (fun m e => ?_) (fun m e => ?_)
        · simp only at e
          split at e
          · next hm => cases e; subst hm; exact hq
          · exact inv.cur m r e
        · rcases e with e | e <;> cases e; simp
        · rcases e with e | e | ⟨_, e⟩ | e | e <;> cases e; exact hn
      | size n =>
        have hn := inv.known t n (Or.inr (Or.inr (Or.inr (Or.inl hpc))))
        rw [hpc] at h
        simp only at h
        cases hc : s.cur n with
        | none => exact absurd hc (inv.set t n (Or.inl hpc))
        | some q =>
          rw [hc] at h
          cases h
          obtain ⟨m0, b1, b2, b3⟩ := inv.cur n q hc
          have keep : ∀ m r, Is own s m r → Is own { s with heap := fun p => if p = q then (s.heap q).map (fun m => ⟨m.digest, appSize n⟩) else s.heap p } m r := by
            rintro m r ⟨x, h1, h2, h3⟩
            by_cases hr : r = q
            · subst hr
              rw [b1] at h1; cases h1
              subst h2
              exact ⟨⟨m0.digest, appSize n⟩, by simp [b1], rfl, Or.inr (by rw [b2])⟩
            · exact ⟨x, by simp only; rw [if_neg hr]; exact h1, h2, h3⟩
          refine inv_goto (s := { s with heap := fun p => if p = q then (s.heap q).map (fun m => ⟨m.digest, appSize n⟩) else s.heap p }) (c := .load n)
            ⟨inv.safe, fun m q e => keep m q (inv.cur m q e), fun u m x e => ?_, inv.set, inv.known, fun r hr => ?_, fun m x hx => ?_⟩ (fun m x e => by cases e) (fun m e => ?_)
            (fun m e => ?_)
          · obtain ⟨q, e1, e2⟩ := inv.store u m x e
            exact ⟨q, e1, keep m q e2⟩
          · simp only at hr
            split at hr
            · next hq => subst hq; exact inv.fresh _ (by simp [b1])
            · exact inv.fresh r hr
          · refine ⟨fun hm => ?_, (inv.told m x hx).2⟩
            obtain ⟨q, e1, e2⟩ := (inv.told m x hx).1 hm
            exact ⟨q, e1, keep m q e2⟩
          · rcases e with e | e <;> cases e; simp [hc]
          · rcases e with e | e | ⟨_, e⟩ | e | e <;> cases e; exact hn
      | load n =>
        have hn := inv.known t n (Or.inr (Or.inr (Or.inr (Or.inr hpc))))
        have hc := inv.set t n (Or.inr hpc)
        rw [hpc] at h
        cases h
        refine inv_goto (s := { s with told := (n, s.cur n) :: s.told }) (c := .idle) ⟨inv.safe, inv.cur, inv.store, inv.set, inv.known, inv.fresh, fun m x hx => ?_⟩ (fun m x e => by cases e) (fun m e => by rcases e with e | e <;> cases e)
          (fun m e => by rcases e with e | e | ⟨_, e⟩ | e | e <;> cases e)
        rcases List.mem_cons.1 hx with e | hx
        · cases e
          refine ⟨fun _ => ?_, fun hh => absurd hn hh⟩
          cases hcc : s.cur n with
          | none => exact absurd hcc hc
          | some q => exact ⟨q, rfl, inv.cur n q hcc⟩
        · exact inv.told m x hx

/-- **C113, any order.**  Any number of threads, any order of their steps, as long as there is memory: no NULL pointer is used; each answer is the digest asked for, and is not freed before the
engine is shut down.  Missing for the full property: memory running out (`C113_violated_memory`), the size (`C113_violated_size`) and the memory of a digest that two threads make at the same
time (`C113_violated_leak`). -/
theorem C113_right_partial (l : List (Nat × Act)) (hl : ∀ x ∈ l, x.2 ≠ .run false) (s : State) (h : run own init l = some s) :
    s.crashed = false ∧ ∀ n x, (n, x) ∈ s.told → (n ∈ nids → ∃ p m, x = some p ∧ s.heap p = some m ∧ m.digest = n ∧ (m.size = own n ∨ m.size = appSize n)) ∧ (n ∉ nids → x = none) := by
  have key : ∀ (l : List (Nat × Act)) (s0 : State), (∀ x ∈ l, x.2 ≠ .run false) → Inv own s0 → run own s0 l = some s → Inv own s := by
    intro l
    induction l with
    | nil => intro s0 _ inv h; cases h; exact inv
    | cons x l ih =>
      intro s0 hl inv h
      obtain ⟨s1, h1, h2⟩ := Option.bind_eq_some_iff.1 h
      exact ih s1 (fun y hy => hl y (List.mem_cons_of_mem _ hy)) (step_inv inv (hl x List.mem_cons_self) h1) h2
  have inv := key l init hl inv_init h
  refine ⟨inv.safe, fun n x hx => ⟨fun hn => ?_, (inv.told n x hx).2⟩⟩
  obtain ⟨p, e, m, a, b, c⟩ := (inv.told n x hx).1 hn
  exact ⟨p, m, e, a, b, c⟩

/-! ## One at a time -/

/-- No call begins while another is going on. -/
def OneAtATime (own : Nat → Nat) : State → List (Nat × Act) → Prop
  | _, [] => True
  | s, (t, a) :: l => ((∃ n, a = .ask n) → ∀ x, s.pc x = .idle) ∧ ∀ s', step own s t a = some s' → OneAtATime own s' l

/-- Thread `t` is the one that is in the function (there may be none): where it is, and what is on the heap. -/
structure One (s : State) (t : Nat) : Prop where
  safe : s.crashed = false
  others : ∀ x, x ≠ t → s.pc x = .idle
  know : ∀ n, s.pc t = .check n ∨ s.pc t = .dup n ∨ (∃ x, s.pc t = .store n x) ∨ s.pc t = .size n ∨ s.pc t = .load n → n ∈ nids
  blank : ∀ n, s.pc t = .dup n ∨ (∃ x, s.pc t = .store n x) → s.cur n = none
  stored : ∀ n x, s.pc t = .store n x → ∃ p z, x = some p ∧ s.heap p = some ⟨n, z⟩ ∧ ∀ m, s.cur m ≠ some p
  sizing : ∀ n, s.pc t = .size n → ∃ p z, s.cur n = some p ∧ s.heap p = some ⟨n, z⟩
  loading : ∀ n, s.pc t = .load n → s.cur n ≠ none
  cur : ∀ n p, s.cur n = some p → s.pc t ≠ .size n → Proper s n p
  heap : ∀ p m, s.heap p = some m → p < s.next ∧ m.digest ∈ nids ∧ (s.cur m.digest = some p ∨ s.pc t = .store m.digest (some p))
  told : ∀ n x, (n, x) ∈ s.told → (n ∈ nids → ∃ p, x = some p ∧ s.cur n = some p ∧ Proper s n p) ∧ (n ∉ nids → x = none)

theorem one_init : One init t where
  safe := rfl
  others := fun _ _ => rfl
  know := fun n h => by rcases h with h | h | ⟨_, h⟩ | h | h <;> cases h
  blank := fun n h => by rcases h with h | ⟨_, h⟩ <;> cases h
  stored := fun n x h => by cases h
  sizing := fun n h => by cases h
  loading := fun n h => by cases h
  cur := fun n p h => by cases h
  heap := fun p m h => by cases h
  told := fun n x h => by cases h

theorem goto_self (s : State) (t : Nat) (c : Pc) : (s.goto t c).pc t = c := if_pos rfl

theorem goto_other (s : State) (t : Nat) (c : Pc) (h : ∀ x, x ≠ t → s.pc x = .idle) : ∀ x, x ≠ t → (s.goto t c).pc x = .idle := by
  intro x hx
  rw [goto_pc, if_neg hx]
  exact h x hx

theorem one_step {s s' : State} {t t' : Nat} (inv : One s t) {a : Act} (ha : a ≠ .run false) (hq : (∃ n, a = .ask n) → ∀ x, s.pc x = .idle) (h : step own s t' a = some s') :
    ∃ t, One s' t := by
  cases a with
  | ask n =>
    have idle := hq ⟨n, rfl⟩
    have hcur : ∀ m p, s.cur m = some p → Proper s m p := fun m p e => inv.cur m p e (by rw [idle]; simp)
    have hheap : ∀ p m, s.heap p = some m → p < s.next ∧ m.digest ∈ nids ∧ s.cur m.digest = some p := by
      intro p m e
      obtain ⟨a, b, c⟩ := inv.heap p m e
      rw [idle] at c
      exact ⟨a, b, c.resolve_right (by simp)⟩
    simp only [step] at h
    rw [if_pos ⟨inv.safe, idle t'⟩] at h
    by_cases hn : n ∈ nids
    · rw [if_pos hn] at h
      cases h
      refine ⟨t', inv.safe, goto_other _ _ _ (fun x _ => idle x), ?_, ?_, ?_, ?_, ?_, ?_, ?_, inv.told⟩ <;> try simp only [goto_self]
      · intro m e; rcases e with e | e | ⟨_, e⟩ | e | e <;> cases e; exact hn
      · intro m e; rcases e with e | ⟨_, e⟩ <;> cases e
      · intro m x e; cases e
      · intro m e; cases e
      · intro m e; cases e
      · intro m p e _; exact hcur m p e
      · intro p m e; obtain ⟨a, b, c⟩ := hheap p m e; exact ⟨a, b, Or.inl c⟩
    · rw [if_neg hn] at h
      cases h
      refine ⟨t, inv.safe, inv.others, inv.know, inv.blank, inv.stored, inv.sizing, inv.loading, inv.cur, inv.heap, fun m x hx => ?_⟩
      rcases List.mem_cons.1 hx with e | hx
      · cases e; exact ⟨fun h => absurd h hn, fun _ => rfl⟩
      · exact inv.told m x hx
  | run ok =>
    cases ok with
    | false => exact absurd rfl ha
    | true =>
      by_cases ht : t' = t
      case neg =>
        simp only [step, inv.safe, Bool.false_eq_true, if_false, inv.others t' ht] at h
        cases h
      subst ht
      simp only [step] at h
      rw [if_neg (by simp [inv.safe])] at h
      refine ⟨t', ?_⟩
      cases hpc : s.pc t' with
      | idle => rw [hpc] at h; cases h
      | check n =>
        have hn := inv.know n (Or.inl hpc)
        rw [hpc] at h
        cases h
        have hcur : ∀ m p, s.cur m = some p → Proper s m p := fun m p e => inv.cur m p e (by rw [hpc]; simp)
        have hheap : ∀ p m, s.heap p = some m → p < s.next ∧ m.digest ∈ nids ∧ s.cur m.digest = some p := by
          intro p m e
          obtain ⟨a, b, c⟩ := inv.heap p m e
          rw [hpc] at c
          exact ⟨a, b, c.resolve_right (by simp)⟩
        by_cases hc : s.cur n = none
        · rw [if_pos hc]
          refine ⟨inv.safe, goto_other _ _ _ inv.others, ?_, ?_, ?_, ?_, ?_, ?_, ?_, inv.told⟩ <;> try simp only [goto_self]
          · intro m e; rcases e with e | e | ⟨_, e⟩ | e | e <;> cases e; exact hn
          · intro m e; rcases e with e | ⟨_, e⟩ <;> cases e; exact hc
          · intro m x e; cases e
          · intro m e; cases e
          · intro m e; cases e
          · intro m p e _; exact hcur m p e
          · intro p m e; obtain ⟨a, b, c⟩ := hheap p m e; exact ⟨a, b, Or.inl c⟩
        · rw [if_neg hc]
          refine ⟨inv.safe, goto_other _ _ _ inv.others, ?_, ?_, ?_, ?_, ?_, ?_, ?_, inv.told⟩ <;> try simp only [goto_self]
          · intro m e; rcases e with e | e | ⟨_, e⟩ | e | e <;> cases e; exact hn
          · intro m e; rcases e with e | ⟨_, e⟩ <;> cases e
          · intro m x e; cases e
          · intro m e; cases e
          · intro m e; cases e; exact hc
          · intro m p e _; exact hcur m p e
          · intro p m e; obtain ⟨a, b, c⟩ := hheap p m e; exact ⟨a, b, Or.inl c⟩
      | dup n =>
        have hn := inv.know n (Or.inr (Or.inl hpc))
        have hb := inv.blank n (Or.inl hpc)
        rw [hpc] at h
        simp only [if_true] at h
        cases h
        have hcur : ∀ m p, s.cur m = some p → Proper s m p := fun m p e => inv.cur m p e (by rw [hpc]; simp)
        have lt : ∀ m p, s.cur m = some p → p < s.next := fun m p e => (inv.heap p _ (hcur m p e)).1
        refine ⟨inv.safe, goto_other _ _ _ inv.others, ?_, ?_, ?_, ?_, ?_, ?_, ?_, ?_⟩ <;> try simp only [goto_self]
        · intro m e; rcases e with e | e | ⟨_, e⟩ | e | e <;> cases e; exact hn
        · intro m e; rcases e with e | ⟨_, e⟩ <;> cases e; exact hb
        · intro m x e; cases e
          exact ⟨s.next, own n, rfl, by simp [State.goto], fun m e => by have := lt m _ e; omega⟩
        · intro m e; cases e
        · intro m e; cases e
        · intro m p e _
          have := lt m p e
          unfold Proper
          simp only [State.goto]
          rw [if_neg (by omega)]
          exact hcur m p e
        · intro p m e
          simp only [State.goto] at e ⊢
          split at e
          · next hp => cases e; subst hp; exact ⟨by omega, hn, Or.inr rfl⟩
          · obtain ⟨a, b, c⟩ := inv.heap p m e
            rw [hpc] at c
            exact ⟨by omega, b, Or.inl (c.resolve_right (by simp))⟩
        · intro m x hx
          refine ⟨fun hm => ?_, (inv.told m x hx).2⟩
          obtain ⟨p, e1, e2, e3⟩ := (inv.told m x hx).1 hm
          refine ⟨p, e1, e2, ?_⟩
          have := lt m p e2
          unfold Proper
          simp only [State.goto]
          rw [if_neg (by omega)]
          exact e3
      | store n x =>
        have hn := inv.know n (Or.inr (Or.inr (Or.inl ⟨x, hpc⟩)))
        have hb := inv.blank n (Or.inr ⟨x, hpc⟩)
        obtain ⟨q, z, rfl, hq, hno⟩ := inv.stored n x hpc
        rw [hpc] at h
        cases h
        refine ⟨inv.safe, goto_other _ _ _ inv.others, ?_, ?_, ?_, ?_, ?_, ?_, ?_, ?_⟩ <;> try simp only [goto_self]
        · intro m e; rcases e with e | e | ⟨_, e⟩ | e | e <;> cases e; exact hn
        · intro m e; rcases e with e | ⟨_, e⟩ <;> cases e
        · intro m x e; cases e
        · intro m e; cases e; exact ⟨q, z, by simp [State.goto], hq⟩
        · intro m e; cases e
        · intro m p e hm
          simp only [State.goto] at e
          have hmn : m ≠ n := fun e => hm (by rw [e])
          rw [if_neg hmn] at e
          exact inv.cur m p e (by rw [hpc]; simp)
        · intro p m e
          obtain ⟨a, b, c⟩ := inv.heap p m e
          refine ⟨a, b, Or.inl ?_⟩
          simp only [State.goto]
          rw [hpc] at c
          rcases c with c | c
          · rw [if_neg (fun e => by rw [e, hb] at c; cases c)]; exact c
          · simp only [Pc.store.injEq] at c
            rw [if_pos c.1.symm, c.2]
        · intro m x hx
          refine ⟨fun hm => ?_, (inv.told m x hx).2⟩
          obtain ⟨p, e1, e2, e3⟩ := (inv.told m x hx).1 hm
          refine ⟨p, e1, ?_, e3⟩
          simp only [State.goto]
          rw [if_neg (fun e => by rw [e, hb] at e2; cases e2)]
          exact e2
      | size n =>
        have hn := inv.know n (Or.inr (Or.inr (Or.inr (Or.inl hpc))))
        obtain ⟨q, z, hq1, hq2⟩ := inv.sizing n hpc
        rw [hpc] at h
        simp only [hq1] at h
        cases h
        -- a digest other than `n` is elsewhere
        have far : ∀ m p, m ≠ n → s.heap p = some ⟨m, appSize m⟩ → p ≠ q := by
          intro m p hm e hp
          subst hp
          rw [hq2] at e
          simp only [Option.some.injEq, Md.mk.injEq] at e
          exact hm e.1.symm
        have prop : ∀ m p, s.cur m = some p → Proper (State.goto { s with heap := fun r => if r = q then (s.heap q).map (fun m => ⟨m.digest, appSize n⟩) else s.heap r } t' (.load n)) m p := by
          intro m p e
          unfold Proper
          simp only [State.goto]
          by_cases hm : m = n
          · subst hm
            rw [hq1] at e; cases e
            rw [if_pos rfl, hq2]; rfl
          · have := inv.cur m p e (by rw [hpc]; intro h; cases h; exact hm rfl)
            rw [if_neg (far m p hm this)]
            exact this
        refine ⟨inv.safe, goto_other _ _ _ inv.others, ?_, ?_, ?_, ?_, ?_, ?_, ?_, ?_⟩ <;> try simp only [goto_self]
        · intro m e; rcases e with e | e | ⟨_, e⟩ | e | e <;> cases e; exact hn
        · intro m e; rcases e with e | ⟨_, e⟩ <;> cases e
        · intro m x e; cases e
        · intro m e; cases e
        · intro m e; cases e; show s.cur n ≠ none; rw [hq1]; simp
        · intro m p e _; exact prop m p e
        · intro p m e
          simp only [State.goto] at e ⊢
          split at e
          · next hp =>
            subst hp
            rw [hq2] at e
            cases e
            exact ⟨(inv.heap _ _ hq2).1, hn, Or.inl hq1⟩
          · obtain ⟨a, b, c⟩ := inv.heap p m e
            rw [hpc] at c
            exact ⟨a, b, Or.inl (c.resolve_right (by simp))⟩
        · intro m x hx
          refine ⟨fun hm => ?_, (inv.told m x hx).2⟩
          obtain ⟨p, e1, e2, _⟩ := (inv.told m x hx).1 hm
          exact ⟨p, e1, e2, prop m p e2⟩
      | load n =>
        have hn := inv.know n (Or.inr (Or.inr (Or.inr (Or.inr hpc))))
        have hc := inv.loading n hpc
        rw [hpc] at h
        cases h
        have hcur : ∀ m p, s.cur m = some p → Proper s m p := fun m p e => inv.cur m p e (by rw [hpc]; simp)
        refine ⟨inv.safe, goto_other _ _ _ inv.others, ?_, ?_, ?_, ?_, ?_, ?_, ?_, ?_⟩ <;> try simp only [goto_self]
        · intro m e; rcases e with e | e | ⟨_, e⟩ | e | e <;> cases e
        · intro m e; rcases e with e | ⟨_, e⟩ <;> cases e
        · intro m x e; cases e
        · intro m e; cases e
        · intro m e; cases e
        · intro m p e _; exact hcur m p e
        · intro p m e
          obtain ⟨a, b, c⟩ := inv.heap p m e
          rw [hpc] at c
          exact ⟨a, b, Or.inl (c.resolve_right (by simp))⟩
        · intro m x hx
          rcases List.mem_cons.1 hx with e | hx
          · cases e
            refine ⟨fun _ => ?_, fun hh => absurd hn hh⟩
            cases hcc : s.cur n with
            | none => exact absurd hcc hc
            | some q => exact ⟨q, rfl, hcc, hcur n q hcc⟩
          · exact inv.told m x hx

theorem one_run (l : List (Nat × Act)) (hl : ∀ x ∈ l, x.2 ≠ .run false) (s0 s : State) (h1 : OneAtATime own s0 l) (h : run own s0 l = some s) (hi : ∃ t, One s0 t) : ∃ t, One s t := by
  induction l generalizing s0 with
  | nil => cases h; exact hi
  | cons x l ih =>
    obtain ⟨s1, e1, e2⟩ := Option.bind_eq_some_iff.1 h
    obtain ⟨t, inv⟩ := hi
    exact ih (fun y hy => hl y (List.mem_cons_of_mem _ hy)) s1 (h1.2 s1 e1) e2 (one_step inv (hl x List.mem_cons_self) h1.1 e1)

theorem one_fine {s : State} {t : Nat} (inv : One s t) : Fine s := by
  refine ⟨inv.safe, fun n x hx => ⟨fun hn => ?_, (inv.told n x hx).2⟩, fun idle p => ?_⟩
  · obtain ⟨p, e, _, e2⟩ := (inv.told n x hx).1 hn
    exact ⟨p, e, e2⟩
  · unfold freeAll
    simp only
    split
    · rfl
    · next hno =>
      cases hp : s.heap p with
      | none => rfl
      | some m =>
        obtain ⟨_, b, c⟩ := inv.heap p m hp
        rw [idle] at c
        exact absurd ⟨m.digest, b, c.resolve_right (by simp)⟩ hno

/-- **C113, one at a time.**  If no call begins while another is going on, and there is memory, all is as it should be: each answer is the digest asked for with the size set, and when the engine
is shut down all memory is freed. -/
theorem C113_serial_partial (l : List (Nat × Act)) (hl : ∀ x ∈ l, x.2 ≠ .run false) (h1 : OneAtATime own init l) (s : State) (h : run own init l = some s) : Fine s := by
  obtain ⟨t, inv⟩ := one_run l hl init s h1 h ⟨0, one_init⟩
  exact one_fine inv

/-- **C113, the same digest.**  If no call begins while another is going on, all answers for a number are the same pointer. -/
theorem C113_same (l : List (Nat × Act)) (hl : ∀ x ∈ l, x.2 ≠ .run false) (h1 : OneAtATime own init l) (s : State) (h : run own init l = some s) (n : Nat) (x y : Option Nat)
    (hx : (n, x) ∈ s.told) (hy : (n, y) ∈ s.told) : x = y := by
  obtain ⟨t, inv⟩ := one_run l hl init s h1 h ⟨0, one_init⟩
  by_cases hn : n ∈ nids
  · obtain ⟨p, e1, e2, _⟩ := (inv.told n x hx).1 hn
    obtain ⟨q, e3, e4, _⟩ := (inv.told n y hy).1 hn
    rw [e2] at e4
    rw [e1, e3, e4]
  · rw [(inv.told n x hx).2 hn, (inv.told n y hy).2 hn]

/-- **C113, after a shutdown.**  If the engine is shut down while no thread is in it, and used again, all is as it should be again. -/
theorem C113_again_partial (l l' : List (Nat × Act)) (hl : ∀ x ∈ l, x.2 ≠ .run false) (hl' : ∀ x ∈ l', x.2 ≠ .run false) (h1 : OneAtATime own init l) (s : State)
    (h : run own init l = some s) (idle : ∀ t, s.pc t = .idle) (h2 : OneAtATime own { freeAll s with told := [] } l') (s' : State) (h' : run own { freeAll s with told := [] } l' = some s') :
    Fine s' := by
  obtain ⟨t, inv⟩ := one_run l hl init s h1 h ⟨0, one_init⟩
  have heap : ∀ p, (freeAll s).heap p = none := (C113_serial_partial l hl h1 s h).freed idle
  have cur : ∀ n, (freeAll s).cur n = none := by
    intro n
    simp only [freeAll]
    split
    · rfl
    · next hn =>
      cases hc : s.cur n with
      | none => rfl
      | some p => exact absurd (inv.heap p _ (inv.cur n p hc (by rw [idle]; simp))).2.1 hn
  have again : One { freeAll s with told := [] } 0 := by
    refine ⟨inv.safe, fun x _ => idle x, fun n e => ?_, fun n e => ?_, fun n x e => ?_, fun n e => ?_, fun n e => ?_, fun n p e => ?_, fun p m e => ?_, fun n x e => ?_⟩
    · rcases e with e | e | ⟨_, e⟩ | e | e <;> exact absurd (e.symm.trans (idle 0)) (by simp)
    · rcases e with e | ⟨_, e⟩ <;> exact absurd (e.symm.trans (idle 0)) (by simp)
    · exact absurd (e.symm.trans (idle 0)) (by simp)
    · exact absurd (e.symm.trans (idle 0)) (by simp)
    · exact absurd (e.symm.trans (idle 0)) (by simp)
    · exact absurd ((cur n).symm.trans e) (by simp)
    · exact absurd ((heap p).symm.trans e) (by simp)
    · cases e
  obtain ⟨t', inv'⟩ := one_run l' hl' _ s' h2 h' ⟨0, again⟩
  exact one_fine inv'

/-- **C113, an answer.**  Whatever threads did before: a thread that asks for a digest that is listed is given one after at most five steps of its own, whatever the others are in the middle
of. -/
theorem C113_answered_partial (l : List (Nat × Act)) (hl : ∀ x ∈ l, x.2 ≠ .run false) (s : State) (h : run own init l = some s) (t n : Nat) (ht : s.pc t = .idle) (hn : n ∈ nids) :
    ∃ k s' p, k ≤ 5 ∧ run own s ((t, .ask n) :: List.replicate k (t, .run true)) = some s' ∧ s'.pc t = .idle ∧ s'.told = (n, some p) :: s.told := by
  have safe := (C113_right_partial l hl s h).1
  have done : ∀ k p, k ≤ 5 → (run own s ((t, .ask n) :: List.replicate k (t, .run true))).map (fun s' => (s'.pc t, s'.told)) = some (.idle, (n, some p) :: s.told) →
      ∃ k s' p, k ≤ 5 ∧ run own s ((t, .ask n) :: List.replicate k (t, .run true)) = some s' ∧ s'.pc t = .idle ∧ s'.told = (n, some p) :: s.told := by
    intro k p hk e
    obtain ⟨s', e1, e2⟩ := Option.map_eq_some_iff.1 e
    simp only [Prod.mk.injEq] at e2
    exact ⟨k, s', p, hk, e1, e2.1, e2.2⟩
  cases hc : s.cur n with
  | none => exact done 5 s.next (by omega) (by simp [List.replicate, run, step, safe, ht, hn, hc, State.goto])
  | some q => exact done 2 q (by omega) (by simp [List.replicate, run, step, safe, ht, hn, hc, State.goto])

/-! ## Violations -/

/-- Memory runs out when a digest is asked for the first time. -/
def noMemory : List (Nat × Act) := [(1, .ask 64), (1, .run true), (1, .run false), (1, .run true), (1, .run true)]

/-- **C113 is violated when memory runs out**: the size is set through a NULL pointer. -/
theorem C113_violated_memory (own : Nat → Nat) : ∃ s, run own init noMemory = some s ∧ s.crashed = true := ⟨_, rfl, rfl⟩

/-- Two threads ask for SHA-256 for the first time; both find the variable NULL. -/
def race : List (Nat × Act) :=
  [(1, .ask 672), (2, .ask 672), (1, .run true), (2, .run true), (1, .run true), (2, .run true), (1, .run true), (2, .run true), (1, .run true), (2, .run true), (1, .run true), (2, .run true)]

/-- **C113 is violated by two threads**: both make the digest; one is never freed, though there is memory, both threads are done and the engine is shut down. -/
theorem C113_violated_leak (own : Nat → Nat) : ∃ s, run own init race = some s ∧ (∀ t, s.pc t = .idle) ∧ (freeAll s).heap 0 ≠ none := by
  refine ⟨_, rfl, fun t => ?_, ?_⟩
  · simp only [State.goto, init]
    repeat' split
    all_goals rfl
  · simp [freeAll, State.goto, init, nids]

/-- The second thread is given the digest before the first has set its size. -/
def early : List (Nat × Act) := [(1, .ask 64), (1, .run true), (1, .run true), (1, .run true), (2, .ask 64), (2, .run true), (2, .run true)]

/-- **C113 is violated by two threads**: one is given a digest whose size is not set (for a library whose own size is not that which the engine sets). -/
theorem C113_violated_size (own : Nat → Nat) (h : own 64 ≠ 104) : ∃ s p, run own init early = some s ∧ (64, some p) ∈ s.told ∧ ¬Proper s 64 p := by
  refine ⟨_, 0, rfl, ?_, ?_⟩
  · simp [State.goto, init]
  · unfold Proper
    simp [State.goto, init, appSize, h]

theorem C113_violated (own : Nat → Nat) : ¬AlwaysFine own := by
  intro h
  obtain ⟨s, e, hc⟩ := C113_violated_memory own
  have := (h noMemory s e).safe
  rw [hc] at this
  cases this

/-! ## Cases -/

/-- Two threads, one after the other: SHA-256 twice, then a number that is not listed. -/
def twice : List (Nat × Act) :=
  [(1, .ask 672), (1, .run true), (1, .run true), (1, .run true), (1, .run true), (1, .run true), (2, .ask 672), (2, .run true), (2, .run true), (2, .ask 4)]

example : ∀ x ∈ twice, x.2 ≠ .run false := by decide
example (own : Nat → Nat) : OneAtATime own init twice := by
  simp [OneAtATime, twice, step, init, State.goto, nids]
  exact ⟨fun x h => by simp [h], fun x h => by simp +contextual [h]⟩
/-- Both are given the digest at 0. -/
example (own : Nat → Nat) : (run own init twice).map (·.told) = some [(4, none), (672, some 0), (672, some 0)] := rfl
/-- The race of above has answers too, of the digest asked for. -/
example : ∀ x ∈ race, x.2 ≠ .run false := by decide
example (own : Nat → Nat) : (run own init race).map (·.told) = some [(672, some 1), (672, some 1)] := rfl

end Sa.Ed.C113

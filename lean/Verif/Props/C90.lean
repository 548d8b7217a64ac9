import Verif.Model.EngineLoad

/-!
# C90: getting the OpenSSL engine from many threads
-/

namespace Sa.El.C90

/-! ## Specification -/

/-- What can happen, with any failures. -/
def Reachable (asn1 : Bool) (s : State) : Prop := ∃ l, run asn1 start l = some s

/-- Steps without failures. -/
def Goes (asn1 : Bool) (s s' : State) : Prop := ∃ l, (∀ x ∈ l, x.2 ≠ .go false) ∧ run asn1 s l = some s'

/-- What can happen when no call fails. -/
def Healthy (asn1 : Bool) (s : State) : Prop := Goes asn1 start s

/-- A thread is in a function of the engine. -/
def Inside (s : State) (t : Nat) : Prop := s.pcs t ≠ .idle

/-- How often threads were given an engine, and gave it back. -/
def gets (s : State) (e : Nat) : Int := (s.given.countP fun x => x.2 = some e : Nat)
def backs (s : State) (e : Nat) : Int := (s.returned.countP fun x => x.2 = e : Nat)

/-- What can happen when no call fails and the application gives back what it was given only, and once. -/
inductive Proper (asn1 : Bool) : State → Prop
  | start : Proper asn1 start
  | step : Proper asn1 s → act ≠ .go false → step asn1 s t act = some s' → (∀ e, backs s' e ≤ gets s' e) → Proper asn1 s'

/-! ## Invariants -/

theorem run_append (asn1 : Bool) (s : State) (a b : List (Nat × Act)) : run asn1 s (a ++ b) = (run asn1 s a).bind fun s => run asn1 s b := by
  induction a generalizing s with
  | nil => rfl
  | cons x a ih =>
    simp only [List.cons_append, run]
    cases step asn1 s x.1 x.2 with
    | none => rfl
    | some s => exact ih s

theorem run_inv {P : State → Prop} {A : Act → Prop} (hstep : ∀ s s' t a, A a → P s → step asn1 s t a = some s' → P s') (l : List (Nat × Act))
    (hA : ∀ x ∈ l, A x.2) (s s' : State) (h : P s) (hr : run asn1 s l = some s') : P s' := by
  induction l generalizing s with
  | nil => cases hr; exact h
  | cons x l ih =>
    simp only [run] at hr
    cases hs : step asn1 s x.1 x.2 with
    | none => rw [hs] at hr; cases hr
    | some s1 => rw [hs] at hr; exact ih (fun y hy => hA y (List.mem_cons_of_mem _ hy)) s1 (hstep _ _ _ _ (hA x (List.mem_cons_self ..)) h hs) hr

theorem take_eq {s s1 : State} (h : s.take t = some s1) : (s.owner = none ∨ s.owner = some t) ∧
    s1 = { s with owner := some t, depth := (if s.owner = none then 0 else s.depth) + 1 } := by
  unfold State.take at h
  split at h
  · next ho => exact ⟨.inl ho, by rw [ho]; exact (Option.some.inj h).symm⟩
  · next u ho =>
    split at h
    · next hu => subst hu; exact ⟨.inr ho, by rw [← Option.some.inj h, ← ho]; simp [ho]⟩
    · cases h

theorem give_eq (s : State) : ∃ o d, s.give = { s with owner := o, depth := d } ∧ (1 < s.depth → o = s.owner ∧ d + 1 = s.depth) ∧
    (s.depth ≤ 1 → o = none ∧ d = 0) := by
  unfold State.give
  split
  · next h => exact ⟨_, _, rfl, fun h' => by omega, fun _ => ⟨rfl, rfl⟩⟩
  · exact ⟨s.owner, _, rfl, fun h' => ⟨rfl, by omega⟩, fun h => by omega⟩

/-- What `ENGINE_free` changes. -/
theorem free_eq {s s1 : State} (h : s.engineFree asn1 t e ours = some s1) :
    ∃ o d w m, s1 = { s with owner := o, depth := d, wild := w, meth := m, struct := fun x => if x = e then s.struct x + -1 else s.struct x } ∧
      (o = s.owner ∧ d = s.depth ∨ asn1 = true ∧ (s.owner = none ∨ s.owner = some t) ∧ o = some t ∧ d = (if s.owner = none then 0 else s.depth) + 1) ∧
      (s.struct e ≠ 1 → w = s.wild ∧ m = s.meth) := by
  by_cases hc : (s.ref e (-1)).struct e = 0 ∧ ours = true
  · have h' : (s.ref e (-1)).lastFree asn1 t = some s1 := by
      rw [← h]; unfold State.engineFree; rw [if_pos hc]
    have hs : s.struct e = 1 := by have := hc.1; simp only [State.ref, if_true] at this; omega
    unfold State.lastFree at h'
    cases asn1 with
    | true =>
      simp only [if_true, State.asn1List] at h'
      obtain ⟨h1, h2⟩ := take_eq h'
      exact ⟨_, _, _, _, h2, .inr ⟨rfl, h1, rfl, rfl⟩, fun hn => absurd hs hn⟩
    | false =>
      simp only [Bool.false_eq_true, if_false] at h'
      cases h'
      exact ⟨_, _, _, _, rfl, .inl ⟨rfl, rfl⟩, fun hn => absurd hs hn⟩
  · have h' : s.ref e (-1) = s1 := by
      unfold State.engineFree at h; rw [if_neg hc] at h; exact Option.some.inj h
    subst h'
    exact ⟨s.owner, s.depth, s.wild, s.meth, rfl, .inl ⟨rfl, rfl⟩, fun _ => ⟨rfl, rfl⟩⟩

/-- Between `mtx_lock` and `mtx_unlock`. -/
def holding : Pc → Bool
  | .byId | .new | .set _ | .add _ | .register _ | .init _ | .unlock _ | .useGet | .useUnlock => true
  | _ => false

/-- Making the engine. -/
def making : Pc → Bool
  | .new | .set _ | .add _ => true
  | _ => false

/-- Getting this engine. -/
def getting : Pc → Option Nat
  | .register e | .unlock e => some e
  | .init e => e
  | _ => none

/-- What is true whatever fails. -/
structure Inv (s : State) : Prop where
  holds : ∀ t, holding (s.pcs t) = true → s.owner = some t
  depth : ∀ t, s.owner = some t → 1 ≤ s.depth
  making : ∀ t, making (s.pcs t) = true → s.listed = none
  getting : ∀ t e, getting (s.pcs t) = some e → s.listed = some e
  given : ∀ x ∈ s.given, ∀ e, x.2 = some e → s.listed = some e

theorem inv_start : Inv start := by
  constructor <;> simp [start, holding, C90.making, C90.getting]

/-- `mtx_lock` was called: the new owner and depth. -/
def Took (s : State) (t : Nat) (o : Option Nat) (d : Nat) : Prop :=
  (s.owner = none ∨ s.owner = some t) ∧ o = some t ∧ d = (if s.owner = none then 0 else s.depth) + 1

/-- `ENGINE_free` was called. -/
def Freed (asn1 : Bool) (s : State) (t e : Nat) (o : Option Nat) (d : Nat) (w : Bool) (m : Meth) : Prop :=
  (o = s.owner ∧ d = s.depth ∨ asn1 = true ∧ Took s t o d) ∧ (s.struct e ≠ 1 → w = s.wild ∧ m = s.meth)

/-- `mtx_unlock` was called. -/
def Gave (s : State) (o : Option Nat) (d : Nat) : Prop :=
  (1 < s.depth → o = s.owner ∧ d + 1 = s.depth) ∧ (s.depth ≤ 1 → o = none ∧ d = 0)

def upd (f : Nat → Pc) (t : Nat) (p : Pc) : Nat → Pc := fun u => if u = t then p else f u
def plus (f : Nat → Int) (e : Nat) (n : Int) : Nat → Int := fun x => if x = e then f x + n else f x

/-- The steps, with what they change. -/
inductive Tr (asn1 : Bool) (s : State) (t : Nat) : Act → State → Prop
  | get (h : s.pcs t = .idle) : Tr asn1 s t .get { s with pcs := upd s.pcs t .once }
  | use (h : s.pcs t = .idle) : Tr asn1 s t .use { s with pcs := upd s.pcs t .useLock }
  | back (e : Nat) (h : s.pcs t = .idle) : Tr asn1 s t (.back e) { s with returned := (t, e) :: s.returned, pcs := upd s.pcs t (.finish e) }
  | once (h : s.pcs t = .once) : Tr asn1 s t (.go b) { s with once := .done, pcs := upd s.pcs t .lock }
  | lockFail (h : s.pcs t = .lock) : Tr asn1 s t (.go false) { s with given := (t, none) :: s.given, pcs := upd s.pcs t .idle }
  | lock (h : s.pcs t = .lock) (hm : Took s t o d) : Tr asn1 s t (.go true) { s with owner := o, depth := d, pcs := upd s.pcs t .byId }
  | found (h : s.pcs t = .byId) (hl : s.listed = some e) :
    Tr asn1 s t (.go b) { s with struct := plus s.struct e 1, pcs := upd s.pcs t (.init (some e)) }
  | missing (h : s.pcs t = .byId) (hl : s.listed = none) : Tr asn1 s t (.go b) { s with pcs := upd s.pcs t .new }
  | newFail (h : s.pcs t = .new) : Tr asn1 s t (.go false) { s with pcs := upd s.pcs t (.init none) }
  | new (h : s.pcs t = .new) :
    Tr asn1 s t (.go true) { s with made := s.made + 1, struct := plus s.struct s.made 1, pcs := upd s.pcs t (.set s.made) }
  | setFail (h : s.pcs t = .set e) :
    Tr asn1 s t (.go false) { s with struct := plus s.struct e (-1), pcs := upd s.pcs t (.init none) }
  | set (h : s.pcs t = .set e) : Tr asn1 s t (.go true) { s with pcs := upd s.pcs t (.add e) }
  | addFail (h : s.pcs t = .add e) (hf : Freed asn1 s t e o d w m) :
    Tr asn1 s t (.go false)
      { s with owner := o, depth := d, wild := w, meth := m, struct := plus s.struct e (-1), pcs := upd s.pcs t (.init none) }
  | add1 (h : s.pcs t = .add e) (ha : asn1 = true) :
    Tr asn1 s t (.go true) { s with listed := some e, struct := plus s.struct e 1, pcs := upd s.pcs t (.register e) }
  | add0 (h : s.pcs t = .add e) (ha : asn1 = false) :
    Tr asn1 s t (.go true) { s with listed := some e, struct := plus s.struct e 1, pcs := upd s.pcs t (.init (some e)) }
  | registerFail (h : s.pcs t = .register e) (hm : Took s t o' d') (hf : Freed asn1 { s with owner := o', depth := d' } t e o d w m) :
    Tr asn1 s t (.go false)
      { s with owner := o, depth := d, wild := w, meth := m, struct := plus s.struct e (-1), pcs := upd s.pcs t (.init none) }
  | register (h : s.pcs t = .register e) (hm : Took s t o d) :
    Tr asn1 s t (.go true) { s with owner := o, depth := d, pcs := upd s.pcs t (.init (some e)) }
  | initNone (h : s.pcs t = .init none) : Tr asn1 s t (.go b) { s with given := (t, none) :: s.given, pcs := upd s.pcs t .idle }
  | initFail (h : s.pcs t = .init (some e)) (hf : Freed asn1 s t e o d w m) :
    Tr asn1 s t (.go false)
      { s with owner := o, depth := d, wild := w, meth := m, struct := plus s.struct e (-1), given := (t, none) :: s.given,
               pcs := upd s.pcs t .idle }
  | init (h : s.pcs t = .init (some e)) :
    Tr asn1 s t (.go true) { s with struct := plus s.struct e 1, funct := plus s.funct e 1, pcs := upd s.pcs t (.unlock e) }
  | unlock (h : s.pcs t = .unlock e) (hg : Gave s o d) :
    Tr asn1 s t (.go b) { s with owner := o, depth := d, given := (t, some e) :: s.given, pcs := upd s.pcs t .idle }
  | useFail (h : s.pcs t = .useLock) : Tr asn1 s t (.go false) { s with pcs := upd s.pcs t .idle }
  | useLock (h : s.pcs t = .useLock) (hm : Took s t o d) : Tr asn1 s t (.go true) { s with owner := o, depth := d, pcs := upd s.pcs t .useGet }
  | useGet (h : s.pcs t = .useGet) (hm : s.meth ≠ .freed → w = s.wild ∧ m = .alive) (hm' : s.meth = .freed → m = .freed) :
    Tr asn1 s t (.go b) { s with wild := w, meth := m, pcs := upd s.pcs t .useUnlock }
  | useUnlock (h : s.pcs t = .useUnlock) (hg : Gave s o d) : Tr asn1 s t (.go b) { s with owner := o, depth := d, pcs := upd s.pcs t .idle }
  | finish (h : s.pcs t = .finish e) (hf : Freed asn1 s t e o d w m) :
    Tr asn1 s t (.go b)
      { s with owner := o, depth := d, wild := w, meth := m, struct := plus s.struct e (-1), funct := plus s.funct e (-1),
               pcs := upd s.pcs t (.free e) }
  | free (h : s.pcs t = .free e) (hf : Freed asn1 s t e o d w m) :
    Tr asn1 s t (.go b)
      { s with owner := o, depth := d, wild := w, meth := m, struct := plus s.struct e (-1), pcs := upd s.pcs t .idle }

theorem free_nf (s : State) (t e : Nat) (ours : Bool) {s1 : State} (h : s.engineFree asn1 t e ours = some s1) :
    ∃ o d w m, s1 = { s with owner := o, depth := d, wild := w, meth := m, struct := plus s.struct e (-1) } ∧ Freed asn1 s t e o d w m := by
  obtain ⟨o, d, w, m, h1, h2, h3⟩ := free_eq h
  exact ⟨o, d, w, m, h1, h2, h3⟩

theorem give_nf (s : State) : ∃ o d, s.give = { s with owner := o, depth := d } ∧ Gave s o d := by
  obtain ⟨o, d, h1, h2, h3⟩ := give_eq s
  exact ⟨o, d, h1, h2, h3⟩

theorem step_tr (hs : step asn1 s t act = some s') : Tr asn1 s t act s' := by
  cases hpc : s.pcs t <;> cases act <;> simp only [step, hpc, reduceCtorEq] at hs
  case idle.get => cases hs; exact .get hpc
  case idle.use => cases hs; exact .use hpc
  case idle.back => cases hs; exact .back _ hpc
  case once.go => cases hs; exact .once hpc
  case lock.go ok =>
    cases ok
    · cases hs; exact .lockFail hpc
    · obtain ⟨s1, e1, e2⟩ := Option.map_eq_some_iff.mp hs
      obtain ⟨h1, h2⟩ := take_eq e1
      subst e2; subst h2
      exact .lock hpc ⟨h1, rfl, rfl⟩
  case byId.go =>
    split at hs
    · next hl => cases hs; exact .found hpc hl
    · next hl => cases hs; exact .missing hpc hl
  case new.go ok =>
    cases ok
    · cases hs; exact .newFail hpc
    · cases hs; exact .new hpc
  case set.go e ok =>
    cases ok
    · have he : s.engineFree asn1 t e false = some (s.ref e (-1)) := by
        unfold State.engineFree; exact if_neg fun h => by cases h.2
      simp only [he] at hs
      cases hs
      exact .setFail hpc
    · cases hs; exact .set hpc
  case add.go e ok =>
    cases ok
    · obtain ⟨s1, e1, e2⟩ := Option.map_eq_some_iff.mp hs
      obtain ⟨o, d, w, m, e3, hf⟩ := free_nf _ _ _ _ e1
      subst e3; subst e2
      exact .addFail hpc hf
    · cases asn1 with
      | true => cases hs; exact .add1 hpc rfl
      | false => cases hs; exact .add0 hpc rfl
  case register.go e ok =>
    simp only [State.asn1List] at hs
    cases ht : s.take t with
    | none => rw [ht] at hs; cases hs
    | some s1 =>
      rw [ht] at hs
      obtain ⟨h1, h2⟩ := take_eq ht
      cases ok
      · obtain ⟨s2, e1, e2⟩ := Option.map_eq_some_iff.mp hs
        obtain ⟨o, d, w, m, e3, hf⟩ := free_nf _ _ _ _ e1
        subst h2; subst e3; subst e2
        exact .registerFail hpc ⟨h1, rfl, rfl⟩ hf
      · cases hs
        subst h2
        exact .register hpc ⟨h1, rfl, rfl⟩
  case init.go e ok =>
    cases e with
    | none => cases hs; exact .initNone hpc
    | some e =>
      cases ok
      · obtain ⟨s1, e1, e2⟩ := Option.map_eq_some_iff.mp hs
        obtain ⟨o, d, w, m, e3, hf⟩ := free_nf _ _ _ _ e1
        subst e3; subst e2
        exact .initFail hpc hf
      · cases hs; exact .init hpc
  case unlock.go e ok =>
    obtain ⟨o, d, hg, hg'⟩ := give_nf s
    rw [hg] at hs; cases hs
    exact .unlock hpc hg'
  case useLock.go ok =>
    cases ok
    · cases hs; exact .useFail hpc
    · obtain ⟨s1, e1, e2⟩ := Option.map_eq_some_iff.mp hs
      obtain ⟨h1, h2⟩ := take_eq e1
      subst e2; subst h2
      exact .useLock hpc ⟨h1, rfl, rfl⟩
  case useGet.go ok =>
    cases hs
    refine .useGet hpc ?_ ?_
    · intro h; cases hm : s.meth <;> simp_all [State.method]
    · intro h; simp [State.method, h]
  case useUnlock.go ok =>
    obtain ⟨o, d, hg, hg'⟩ := give_nf s
    rw [hg] at hs; cases hs
    exact .useUnlock hpc hg'
  case finish.go e ok =>
    obtain ⟨s1, e1, e2⟩ := Option.map_eq_some_iff.mp hs
    obtain ⟨o, d, w, m, e3, hf⟩ := free_nf _ _ _ _ e1
    subst e3; subst e2
    exact .finish hpc hf
  case free.go e ok =>
    obtain ⟨s1, e1, e2⟩ := Option.map_eq_some_iff.mp hs
    obtain ⟨o, d, w, m, e3, hf⟩ := free_nf _ _ _ _ e1
    subst e3; subst e2
    exact .free hpc hf

theorem inv_step (s s' : State) (t : Nat) (act : Act) (h : Inv s) (hs : step asn1 s t act = some s') : Inv s' := by
  obtain ⟨h1, h2, h3, h4, h5⟩ := h
  have hh : ∀ p, C90.making p = true → holding p = true := by intro p; cases p <;> simp [C90.making, holding]
  have hh' : ∀ p e, C90.getting p = some e → holding p = true := by intro p e; cases p <;> simp [C90.getting, holding]
  cases step_tr hs
  all_goals (constructor <;> simp only [upd, Took, Freed, Gave] at * <;> grind [holding, C90.making, C90.getting])

theorem inv_of (h : Reachable asn1 s) : Inv s := by
  obtain ⟨l, hr⟩ := h
  exact run_inv (P := Inv) (A := fun _ => True) (fun s s' t a _ => inv_step s s' t a) l (fun _ _ => trivial) start s inv_start hr

/-! ### References -/

/-- The references that a thread holds to an engine on its way through a function. -/
def structOf (e : Nat) : Pc → Int
  | .set x | .add x | .register x | .init (some x) | .free x => if x = e then 1 else 0
  | .unlock x | .finish x => if x = e then 2 else 0
  | _ => 0

def functOf (e : Nat) : Pc → Int
  | .unlock x | .finish x => if x = e then 1 else 0
  | _ => 0

def total (f : Pc → Int) (pcs : Nat → Pc) : List Nat → Int
  | [] => 0
  | t :: l => f (pcs t) + total f pcs l

theorem total_notin (f : Pc → Int) (pcs : Nat → Pc) (l : List Nat) (h : t ∉ l) : total f (upd pcs t p) l = total f pcs l := by
  induction l with
  | nil => rfl
  | cons u l ih =>
    simp only [List.mem_cons, not_or] at h
    simp only [total, ih h.2, upd, if_neg (Ne.symm h.1)]

theorem total_upd (f : Pc → Int) (pcs : Nat → Pc) (l : List Nat) (hl : l.Nodup) (h : t ∈ l) :
    total f (upd pcs t p) l = total f pcs l + f p - f (pcs t) := by
  induction l with
  | nil => cases h
  | cons u l ih =>
    simp only [List.nodup_cons] at hl
    by_cases hu : t = u
    · subst hu
      simp only [total, total_notin f pcs l hl.1, upd, if_true]
      omega
    · simp only [total, ih hl.2 ((List.mem_cons.mp h).resolve_left hu), upd, if_neg (Ne.symm hu)]
      omega

/-- The reference of OpenSSL's list. -/
def listRef (s : State) (e : Nat) : Int := if s.listed = some e then 1 else 0

/-- All references are accounted for, by threads in the list. -/
structure Refs (s : State) (l : List Nat) : Prop where
  nodup : l.Nodup
  rest : ∀ t, t ∉ l → s.pcs t = .idle
  struct : ∀ e, s.struct e = listRef s e + 2 * (gets s e - backs s e) + total (structOf e) s.pcs l
  funct : ∀ e, s.funct e = gets s e - backs s e + total (functOf e) s.pcs l

theorem Refs.more (h : Refs s l) (t : Nat) : ∃ l, Refs s l ∧ t ∈ l := by
  by_cases ht : t ∈ l
  · exact ⟨l, h, ht⟩
  · refine ⟨t :: l, ⟨List.nodup_cons.mpr ⟨ht, h.nodup⟩, fun u hu => h.rest u fun hu' => hu (List.mem_cons_of_mem _ hu'), ?_, ?_⟩, List.mem_cons_self ..⟩
    · intro e; rw [h.struct e]; simp only [total, h.rest t ht, structOf]; omega
    · intro e; rw [h.funct e]; simp only [total, h.rest t ht, functOf]; omega

theorem refs_step (h : ∃ l, Refs s l) (hi : Inv s) (hs : step asn1 s t act = some s') : ∃ l, Refs s' l := by
  obtain ⟨l, h⟩ := h
  obtain ⟨l, ⟨h1, h2, h3, h4⟩, hl⟩ := h.more t
  have hi3 := hi.making t
  refine ⟨l, h1, ?_, ?_, ?_⟩
  · intro u hu
    have hut : u ≠ t := fun h => hu (h ▸ hl)
    cases step_tr hs <;> simp only [upd, if_neg hut, h2 u hu]
  · intro e
    have := h3 e
    cases step_tr hs <;> simp only [listRef, gets, backs, total_upd _ _ _ h1 hl, plus, List.countP_cons] at this ⊢ <;>
      grind [structOf, C90.making]
  · intro e
    have := h4 e
    cases step_tr hs <;> simp only [gets, backs, total_upd _ _ _ h1 hl, plus, List.countP_cons] at this ⊢ <;> grind [functOf]

theorem refs_of (h : Reachable asn1 s) : ∃ l, Refs s l := by
  obtain ⟨l, hr⟩ := h
  refine (run_inv (P := fun s => Inv s ∧ ∃ l, Refs s l) (A := fun _ => True) ?_ l (fun _ _ => trivial) start s ⟨inv_start, [], ?_⟩ hr).2
  · intro s s' t a _ h hs
    exact ⟨inv_step _ _ _ _ h.1 hs, refs_step h.2 h.1 hs⟩
  · constructor <;> simp [start, listRef, gets, backs, total]

theorem total_nonneg (f : Pc → Int) (hf : ∀ p, 0 ≤ f p) (pcs : Nat → Pc) (l : List Nat) : 0 ≤ total f pcs l := by
  induction l with
  | nil => exact Int.le_refl 0
  | cons t l ih => have := hf (pcs t); simp only [total]; omega

theorem total_mem (f : Pc → Int) (hf : ∀ p, 0 ≤ f p) (pcs : Nat → Pc) (l : List Nat) (ht : t ∈ l) : f (pcs t) ≤ total f pcs l := by
  induction l with
  | nil => cases ht
  | cons u l ih =>
    have h1 := hf (pcs u)
    have h2 := total_nonneg f hf pcs l
    simp only [total]
    rcases List.mem_cons.mp ht with h | h
    · subst h; omega
    · have := ih h; omega

theorem structOf_nonneg (e : Nat) (p : Pc) : 0 ≤ structOf e p := by
  unfold structOf; split <;> (try split) <;> omega

theorem functOf_nonneg (e : Nat) (p : Pc) : 0 ≤ functOf e p := by
  unfold functOf; split <;> (try split) <;> omega

theorem total_idle (f : Pc → Int) (hf : f .idle = 0) (pcs : Nat → Pc) (h : ∀ t, pcs t = .idle) (l : List Nat) : total f pcs l = 0 := by
  induction l with
  | nil => rfl
  | cons t l ih => simp only [total, ih, h t, hf]; omega

/-! ### Progress -/

/-- How many steps a call has left. -/
def left : Pc → Nat
  | .idle => 0
  | .free _ | .useUnlock | .unlock _ => 1
  | .finish _ | .useGet | .init _ => 2
  | .useLock | .register _ => 3
  | .add _ => 4
  | .set _ => 5
  | .new => 6
  | .byId => 7
  | .lock => 8
  | .once => 9

theorem Goes.refl (asn1 : Bool) (s : State) : Goes asn1 s s := ⟨[], by simp, rfl⟩

theorem Goes.trans (h : Goes asn1 a b) (h' : Goes asn1 b c) : Goes asn1 a c := by
  obtain ⟨l, h1, h2⟩ := h
  obtain ⟨l', h3, h4⟩ := h'
  refine ⟨l ++ l', ?_, ?_⟩
  · intro x hx
    rcases List.mem_append.mp hx with h | h
    · exact h1 x h
    · exact h3 x h
  · rw [run_append, h2]; exact h4

theorem Goes.one (ha : act ≠ .go false) (h : step asn1 s t act = some s') : Goes asn1 s s' :=
  ⟨[(t, act)], by simpa using ha, by simp only [run, h]⟩

theorem Goes.inv {P : State → Prop} (hstep : ∀ s s' t a, a ≠ .go false → P s → step asn1 s t a = some s' → P s') (h : P s) (hg : Goes asn1 s s') : P s' := by
  obtain ⟨l, hok, hr⟩ := hg
  exact run_inv (A := fun a => a ≠ .go false) hstep l hok s s' h hr

theorem take_some {s : State} (ho : s.owner = none ∨ s.owner = some t) : ∃ s1, s.take t = some s1 := by
  unfold State.take
  rcases ho with h | h <;> rw [h] <;> simp

theorem free_some (s : State) (e : Nat) (ours : Bool) (ho : s.owner = none ∨ s.owner = some t) :
    ∃ s1, s.engineFree asn1 t e ours = some s1 := by
  unfold State.engineFree
  simp only
  split
  · unfold State.lastFree
    cases asn1
    · exact ⟨_, rfl⟩
    · exact take_some (by simpa [State.ref] using ho)
  · exact ⟨_, rfl⟩

/-- A thread in a call takes its next step when nobody else holds the mutex. -/
theorem moves (ho : s.owner = none ∨ s.owner = some t) (hin : Inside s t) : ∃ s1, step asn1 s t (.go true) = some s1 := by
  obtain ⟨s1, h1⟩ := take_some ho
  have hf : ∀ e, ∃ s1, s.engineFree asn1 t e true = some s1 := fun e => free_some s e true ho
  have hf' : ∀ e, ∃ s1, (s.fref e (-1)).engineFree asn1 t e true = some s1 := fun e => free_some _ e true ho
  unfold Inside at hin
  cases hpc : s.pcs t <;> simp only [hpc, ne_eq, not_true] at hin <;> simp only [step, hpc, h1, State.asn1List]
  case byId => split <;> exact ⟨_, rfl⟩
  case init e => cases e <;> exact ⟨_, rfl⟩
  case finish e => obtain ⟨s2, h2⟩ := hf' e; rw [h2]; exact ⟨_, rfl⟩
  case free e => obtain ⟨s2, h2⟩ := hf e; rw [h2]; exact ⟨_, rfl⟩
  all_goals exact ⟨_, rfl⟩

/-- A step of a thread in a call brings it nearer to its end. -/
theorem nearer (hs : step asn1 s t act = some s') (hin : Inside s t) : left (s'.pcs t) < left (s.pcs t) := by
  unfold Inside at hin
  cases step_tr hs <;> simp only [upd, if_true] <;> grind [left]

/-- A step concerns its thread only, and leaves the mutex to nobody else. -/
theorem step_other (hs : step asn1 s t act = some s') (u : Nat) (hu : u ≠ t) : s'.pcs u = s.pcs u := by
  cases step_tr hs <;> simp only [upd, if_neg hu]

theorem step_owner (hs : step asn1 s t act = some s') (ho : s.owner = none ∨ s.owner = some t) : s'.owner = none ∨ s'.owner = some t := by
  cases step_tr hs <;> simp only [Took, Freed, Gave] at * <;> grind

theorem alone (ho : s.owner = none ∨ s.owner = some t) : ∃ s', Goes asn1 s s' ∧ ¬ Inside s' t ∧ (s'.owner = none ∨ s'.owner = some t) ∧
    ∀ u, u ≠ t → s'.pcs u = s.pcs u := by
  generalize hn : left (s.pcs t) = n
  induction n using Nat.strongRecOn generalizing s with
  | ind n ih =>
    by_cases hin : Inside s t
    · obtain ⟨s1, h1⟩ := moves (asn1 := asn1) ho hin
      obtain ⟨s', e1, e2, e3, e4⟩ := ih _ (hn ▸ nearer h1 hin) (step_owner h1 ho) rfl
      exact ⟨s', (Goes.one (by simp) h1).trans e1, e2, e3, fun u hu => (e4 u hu).trans (step_other h1 u hu)⟩
    · exact ⟨s, Goes.refl _ s, hin, ho, fun _ _ => rfl⟩

/-- What is true when nothing fails, in all versions. -/
structure Fine (s : State) : Prop where
  init : ∀ t, s.pcs t ≠ .init none
  given : ∀ x ∈ s.given, x.2 ≠ none

theorem fine_step (s s' : State) (t : Nat) (act : Act) (ha : act ≠ .go false) (h : Fine s) (hs : step asn1 s t act = some s') : Fine s' := by
  obtain ⟨h1, h2⟩ := h
  have h1t := h1 t
  cases step_tr hs <;> constructor <;> simp only [upd] at * <;> grind

theorem fine_of (h : Healthy asn1 s) : Fine s :=
  Goes.inv fine_step (by constructor <;> simp [start]) h

/-- What is true when nothing fails, before OpenSSL 1.1: who holds the mutex is between `mtx_lock` and `mtx_unlock`. -/
structure Well (s : State) : Prop where
  inv : Inv s
  fine : Fine s
  old : ∀ t e, s.pcs t ≠ .register e
  held : ∀ t, s.owner = some t → s.depth = 1 ∧ holding (s.pcs t) = true

theorem well_step (s s' : State) (t : Nat) (act : Act) (ha : act ≠ .go false) (h : Well s) (hs : step false s t act = some s') : Well s' := by
  have h5 := h.old
  refine ⟨inv_step _ _ _ _ h.inv hs, fine_step _ _ _ _ ha h.fine hs, ?_, ?_⟩
  · intro u
    have := h5 u
    cases step_tr hs <;> simp only [upd] at * <;> grind
  have h5 := h.old t
  have h1 := h.held
  have h2 := h.inv.holds t
  have h3 := h.fine.init t
  have h4 : s.owner ≠ none → ∃ u, s.owner = some u := fun h => Option.ne_none_iff_exists'.mp h
  cases step_tr hs <;> simp only [upd, Took, Freed, Gave] at * <;> grind [holding]

theorem well_of (h : Healthy false s) : Well s :=
  Goes.inv well_step (by refine ⟨inv_start, ⟨?_, ?_⟩, ?_, ?_⟩ <;> simp [start]) h

/-- With OpenSSL 1.1: once the engine is listed one thread has the mutex for ever. -/
def Pinned (s : State) : Prop := s.listed ≠ none → ∃ o, s.owner = some o ∧ (∀ x ∈ s.given, ∀ e, x.2 = some e → x.1 = o) ∧
  (match s.pcs o with | .register _ => 0 | _ => 1) + (if holding (s.pcs o) then 1 else 0) ≤ s.depth

theorem pinned_step (s s' : State) (t : Nat) (act : Act) (h : Inv s ∧ Pinned s) (hs : step true s t act = some s') : Inv s' ∧ Pinned s' := by
  refine ⟨inv_step _ _ _ _ h.1 hs, ?_⟩
  obtain ⟨hi, h⟩ := h
  intro hl
  have h1 := hi.holds t
  have h2 := hi.depth t
  have h3 := hi.making t
  have h4 := hi.given
  by_cases hn : s.listed = none
  · refine ⟨t, ?_⟩
    cases step_tr hs <;> simp only [upd, if_true] at * <;> grind [holding, C90.making]
  · obtain ⟨o, e1, e2, e3⟩ := h hn
    refine ⟨o, ?_⟩
    cases step_tr hs <;> simp only [upd, Took, Freed, Gave] at * <;> grind [holding]

/-! ## The property -/

/-- Whatever fails, and however many threads there are: all threads get the same engine or NULL, the one that OpenSSL lists. -/
theorem C90_same (h : Reachable asn1 s) : (∀ x ∈ s.given, ∀ y ∈ s.given, ∀ a b, x.2 = some a → y.2 = some b → a = b) ∧
    ∀ x ∈ s.given, ∀ a, x.2 = some a → s.listed = some a := by
  have hi := inv_of h
  refine ⟨fun x hx y hy a b ha hb => ?_, hi.given⟩
  have := (hi.given x hx a ha).symm.trans (hi.given y hy b hb)
  exact Option.some.inj this

/-- Whatever fails: when all calls have returned, every thread that was given the engine and did not give it back holds a functional and two
structural references to it, OpenSSL's list holds one, and nothing else is held: engines that could not be added are freed. -/
theorem C90_references (h : Reachable asn1 s) (hout : ∀ t, ¬ Inside s t) (e : Nat) :
    s.funct e = gets s e - backs s e ∧ s.struct e = 2 * (gets s e - backs s e) + if s.listed = some e then 1 else 0 := by
  obtain ⟨l, hr⟩ := refs_of h
  have hid : ∀ t, s.pcs t = .idle := fun t => Classical.byContradiction fun h => hout t h
  have h1 := hr.struct e
  have h2 := hr.funct e
  rw [total_idle _ rfl _ hid] at h1 h2
  exact ⟨by omega, by rw [h1]; unfold listRef; omega⟩

/-- While calls run there are at least those, as long as the application does not give back more than it got: the engine that is listed is not
freed. -/
theorem C90_alive (h : Reachable asn1 s) (e : Nat) (hb : backs s e ≤ gets s e) :
    gets s e - backs s e ≤ s.funct e ∧ 2 * (gets s e - backs s e) ≤ s.struct e ∧ (s.listed = some e → 1 ≤ s.struct e) := by
  obtain ⟨l, hr⟩ := refs_of h
  have h1 := hr.struct e
  have h2 := hr.funct e
  have h3 := total_nonneg _ (structOf_nonneg e) s.pcs l
  have h4 := total_nonneg _ (functOf_nonneg e) s.pcs l
  unfold listRef at h1
  refine ⟨by omega, by split at h1 <;> omega, fun hl => by rw [if_pos hl] at h1; omega⟩

/-- A call ends after at most nine steps of its thread. -/
theorem C90_bounded (hs : step asn1 s t act = some s') (hin : Inside s t) : left (s'.pcs t) < left (s.pcs t) ∧ left (s.pcs t) ≤ 9 :=
  ⟨nearer hs hin, by cases s.pcs t <;> simp [left]⟩

/-- Whatever failed before: as long as one thread only uses the engine, its calls return. -/
theorem C90_alone (l : List (Nat × Act)) (hl : ∀ x ∈ l, x.1 = t) (hr : run asn1 start l = some s) : ∃ s', Goes asn1 s s' ∧ ¬ Inside s' t := by
  have ho : s.owner = none ∨ s.owner = some t := by
    have : ∀ (l : List (Nat × Act)) (s0 : State), (∀ x ∈ l, x.1 = t) → (s0.owner = none ∨ s0.owner = some t) → run asn1 s0 l = some s →
        s.owner = none ∨ s.owner = some t := by
      intro l
      induction l with
      | nil => intro s0 _ h hr; cases hr; exact h
      | cons x l ih =>
        intro s0 hx h hr
        simp only [run] at hr
        rw [hx x (List.mem_cons_self ..)] at hr
        cases hs : step asn1 s0 t x.2 with
        | none => rw [hs] at hr; cases hr
        | some s1 => rw [hs] at hr; exact ih s1 (fun y hy => hx y (List.mem_cons_of_mem _ hy)) (step_owner hs h) hr
    exact this l start hl (.inl rfl) hr
  obtain ⟨s', h1, h2, _⟩ := alone (asn1 := asn1) ho
  exact ⟨s', h1, h2⟩

/-- When no call fails a thread that gets an answer gets the engine, not NULL. -/
theorem C90_gets_partial (h : Healthy asn1 s) (x : Nat × Option Nat) (hx : x ∈ s.given) : ∃ e, x.2 = some e ∧ s.listed = some e := by
  cases he : x.2 with
  | none => exact absurd he ((fine_of h).given x hx)
  | some e =>
    obtain ⟨l, _, hr⟩ := h
    exact ⟨e, rfl, (C90_same ⟨l, hr⟩).2 x hx e he⟩

/-- Before OpenSSL 1.1, when no call fails: every thread that is in a call can return, whatever the other threads are doing. -/
theorem C90_returns_partial (h : Healthy false s) (t : Nat) : ∃ s', Goes false s s' ∧ ¬ Inside s' t := by
  have hw := well_of h
  cases ho : s.owner with
  | none =>
    obtain ⟨s', h1, h2, _⟩ := alone (asn1 := false) (t := t) (.inl ho)
    exact ⟨s', h1, h2⟩
  | some u =>
    obtain ⟨s1, h1, h2, h3, h4⟩ := alone (asn1 := false) (t := u) (.inr ho)
    have hn : s1.owner = none := by
      rcases h3 with h3 | h3
      · exact h3
      · have := (Goes.inv well_step hw h1).held u h3
        have hid : s1.pcs u = .idle := Classical.byContradiction fun h => h2 h
        rw [hid] at this
        cases this.2
    obtain ⟨s', h5, h6, _⟩ := alone (asn1 := false) (t := t) (.inl hn)
    exact ⟨s', h1.trans h5, h6⟩

/-- What `sa_engine_free` was called with was given back. -/
def Backed (s : State) : Prop := ∀ t e, s.pcs t = .finish e ∨ s.pcs t = .free e → 1 ≤ backs s e

theorem backed_step (h : Backed s) (hs : step asn1 s t act = some s') : Backed s' := by
  intro u e hu
  have h1 := h u e
  have h2 := h t
  cases step_tr hs <;> simp only [upd, backs, List.countP_cons] at * <;> grind

theorem proper_of (h : Proper asn1 s) : Reachable asn1 s ∧ Fine s ∧ Backed s ∧ (∀ e, backs s e ≤ gets s e) ∧ s.wild = false ∧ s.meth ≠ .freed := by
  induction h with
  | start =>
    refine ⟨⟨[], rfl⟩, ⟨?_, ?_⟩, ?_, ?_, rfl, ?_⟩ <;> simp [start, Backed, backs, gets]
  | @step s act t s' hp ha hs hb ih =>
    obtain ⟨⟨l, hr⟩, hf, hk, hb0, hw, hm⟩ := ih
    have hre : Reachable asn1 s := ⟨l, hr⟩
    have hi := inv_of hre
    have h2 : ∀ e, s.pcs t = .finish e → s.struct e ≠ 1 := by
      intro e he h1
      obtain ⟨l, hl⟩ := refs_of hre
      obtain ⟨l, hl, hml⟩ := hl.more t
      have h3 := hl.struct e
      have h4 := total_mem _ (structOf_nonneg e) s.pcs l hml
      rw [he] at h4
      simp only [structOf, if_true] at h4
      have := hb0 e
      unfold listRef at h3
      split at h3 <;> omega
    have h3 : ∀ e, s.pcs t = .free e → s.struct e ≠ 1 := by
      intro e he h1
      obtain ⟨l, hl⟩ := refs_of hre
      obtain ⟨l, hl, hml⟩ := hl.more t
      have h3 := hl.struct e
      have h4 := total_mem _ (structOf_nonneg e) s.pcs l hml
      rw [he] at h4
      simp only [structOf, if_true] at h4
      have h5 := hb0 e
      have h6 := hk t e (.inr he)
      have h7 : s.listed = some e := by
        have h8 : 1 ≤ gets s e := by omega
        unfold gets at h8
        have h9 : 0 < s.given.countP fun x => x.2 = some e := by omega
        obtain ⟨x, hx, hx'⟩ := List.countP_pos_iff.mp h9
        exact hi.given x hx e (by simpa using hx')
      unfold listRef at h3
      rw [if_pos h7] at h3
      omega
    refine ⟨⟨l ++ [(t, act)], by rw [run_append, hr]; simp only [Option.bind_some, run, hs]⟩, fine_step _ _ _ _ ha hf hs, backed_step hk hs, hb, ?_⟩
    cases step_tr hs <;> simp only [Freed] at * <;> grind

/-- When no call fails and the application gives back what it got, once, the methods of the engine are never freed, so that OpenSSL never gets a
freed one. -/
theorem C90_methods_partial (h : Proper asn1 s) : s.wild = false ∧ s.meth ≠ .freed :=
  ⟨(proper_of h).2.2.2.2.1, (proper_of h).2.2.2.2.2⟩

/-! ## Where it does not hold -/

/-- With OpenSSL 1.1, whatever fails or does not, there is only one thread that ever gets the engine: making the engine leaves the mutex locked
(`sa_get_engine_pkey_asn1_meths` locks it and, asked for its list of types by `ENGINE_register_pkey_asn1_meths`, does not unlock it). -/
theorem C90_violated_one (h : Reachable true s) (x y : Nat × Option Nat) (hx : x ∈ s.given) (hy : y ∈ s.given) (ha : x.2 = some a)
    (hb : y.2 = some b) : x.1 = y.1 := by
  obtain ⟨l, hr⟩ := h
  have hp := run_inv (P := fun s => Inv s ∧ Pinned s) (A := fun _ => True) (fun s s' t a _ => pinned_step s s' t a) l (fun _ _ => trivial) start s
    ⟨inv_start, fun h => absurd rfl h⟩ hr
  obtain ⟨o, _, ho, _⟩ := hp.2 (by rw [hp.1.given x hx a ha]; simp)
  exact (ho x hx a ha).trans (ho y hy b hb).symm

/-- Thread 0 has the mutex for ever, and thread 1 wants it. -/
structure Stuck (s : State) : Prop where
  inv : Inv s
  owner : s.owner = some 0
  depth : 1 + (if holding (s.pcs 0) then 1 else 0) ≤ s.depth
  waits : s.pcs 1 = .lock

theorem stuck_step (s s' : State) (t : Nat) (act : Act) (ha : act ≠ .go false) (h : Stuck s) (hs : step asn1 s t act = some s') : Stuck s' := by
  obtain ⟨hi, h1, h2, h3⟩ := h
  refine ⟨inv_step _ _ _ _ hi hs, ?_, ?_, ?_⟩
  all_goals
    have h4 := hi.holds t
    cases step_tr hs <;> simp only [upd, Took, Freed, Gave] at * <;> grind [holding]

theorem stuck_inside (h : Stuck s) (hg : Goes asn1 s s') : Inside s' 1 := by
  have := (Goes.inv stuck_step h hg).waits
  unfold Inside
  rw [this]
  simp

theorem eq_getD (x : Option α) (d : α) (h : x.isSome = true) : x = some (x.getD d) := by
  cases x with
  | none => cases h
  | some a => rfl

/-- Thread 0 gets the engine; then thread 1 wants it. -/
def first : List (Nat × Act) :=
  (0, .get) :: List.replicate 9 (0, .go true) ++ [(1, .get), (1, .go true)]

def one : State := (run true start first).getD start

theorem one_run : run true start first = some one := eq_getD (run true start first) start (by decide +kernel)

/-- With OpenSSL 1.1, though nothing fails: thread 0 gets the engine and goes its way; thread 1 waits for ever. -/
theorem C90_violated_blocks : ∃ s, Healthy true s ∧ (0, some 0) ∈ s.given ∧ ¬ Inside s 0 ∧ Inside s 1 ∧ ∀ s', Goes true s s' → Inside s' 1 := by
  have hh : Healthy true one := ⟨first, by decide, one_run⟩
  have hs : Stuck one := ⟨inv_of ⟨first, one_run⟩, by decide +kernel, by decide +kernel, by decide +kernel⟩
  refine ⟨one, hh, by decide +kernel, ?_, stuck_inside hs (Goes.refl true one), fun s' h => stuck_inside hs h⟩
  have : one.pcs 0 = .idle := by decide +kernel
  exact fun h => h this

/-- Before OpenSSL 1.1: `ENGINE_init` fails, and thread 1 wants the engine. -/
def badInit : List (Nat × Act) :=
  (0, .get) :: List.replicate 6 (0, .go true) ++ [(0, .go false), (1, .get), (1, .go true)]

def uninit : State := (run false start badInit).getD start

theorem uninit_run : run false start badInit = some uninit := eq_getD (run false start badInit) start (by decide +kernel)

/-- Before OpenSSL 1.1: when `ENGINE_init` (or the making of the engine) fails, thread 0 gets NULL, and thread 1 waits for ever, though nothing else
fails. -/
theorem C90_violated_failed : ∃ s, Reachable false s ∧ s.given = [(0, none)] ∧ ¬ Inside s 0 ∧ Inside s 1 ∧ ∀ s', Goes false s s' → Inside s' 1 := by
  have hs : Stuck uninit := ⟨inv_of ⟨badInit, uninit_run⟩, by decide +kernel, by decide +kernel, by decide +kernel⟩
  refine ⟨uninit, ⟨badInit, uninit_run⟩, by decide +kernel, ?_, stuck_inside hs (Goes.refl false uninit), fun s' h => stuck_inside hs h⟩
  have : uninit.pcs 0 = .idle := by decide +kernel
  exact fun h => h this

/-- `ENGINE_add` fails; then the same thread gets the engine, and uses a key. -/
def again : List (Nat × Act) :=
  (0, .get) :: List.replicate 5 (0, .go true) ++ [(0, .go false), (0, .go true), (0, .get)] ++ List.replicate 9 (0, .go true) ++
    [(0, .use), (0, .go true), (0, .go true)]

/-- When `ENGINE_add` fails OpenSSL frees the methods of keys with the engine, and they are used for the next engine. -/
theorem C90_violated_methods : ∃ s, Reachable true s ∧ (0, some 1) ∈ s.given ∧ s.wild = true := by
  have hr := eq_getD (run true start again) start (by decide +kernel)
  exact ⟨_, ⟨again, hr⟩, by decide +kernel, by decide +kernel⟩

/-! ## Concrete cases -/

/-- Two threads get the engine, both use it, and give it back, before OpenSSL 1.1. -/
def both : List (Nat × Act) :=
  [(0, .get), (1, .get), (0, .go true), (1, .go true)] ++ List.replicate 7 (0, .go true) ++ List.replicate 4 (1, .go true) ++
    [(0, .use), (0, .go true), (0, .go true), (0, .go true), (1, .back 0), (0, .back 0), (1, .go true), (0, .go true), (1, .go true)]

def after : State := (run false start both).getD start

theorem after_run : run false start both = some after := eq_getD (run false start both) start (by decide +kernel)

example : Healthy false after ∧ Inside after 0 ∧ after.given = [(1, some 0), (0, some 0)] :=
  ⟨⟨both, by decide, after_run⟩, by unfold Inside; decide +kernel, by decide +kernel⟩

example : gets after 0 = 2 ∧ backs after 0 = 2 ∧ after.struct 0 = 2 ∧ after.funct 0 = 0 ∧ after.meth = .alive := by decide +kernel

/-- One thread gets the engine twice with OpenSSL 1.1. -/
def twice : List (Nat × Act) := (3, .get) :: List.replicate 9 (3, .go true) ++ (3, .get) :: List.replicate 5 (3, .go true)

example : Healthy true ((run true start twice).getD start) ∧ ((run true start twice).getD start).given = [(3, some 0), (3, some 0)] :=
  ⟨⟨twice, by decide, eq_getD (run true start twice) start (by decide +kernel)⟩, by decide +kernel⟩

end Sa.El.C90

import Verif.Model.ProviderLoad

/-!
# C89: getting the OpenSSL provider from many threads
-/

namespace Sa.Pl.C89

/-! ## Specification -/

/-- What can happen, with any failures. -/
def Reachable (s : State) : Prop := ∃ l, run start l = some s

/-- What can happen when no call fails. -/
def Healthy (s : State) : Prop := ∃ l, (∀ x ∈ l, x.2 = true) ∧ run start l = some s

/-- A thread is in `sa_get_provider`. -/
def Inside (s : State) (t : Nat) : Prop := s.pcs t ≠ .idle

/-! ## Invariants -/

theorem run_append (s : State) (a b : List (Nat × Bool)) : run s (a ++ b) = (run s a).bind fun s => run s b := by
  induction a generalizing s with
  | nil => rfl
  | cons x a ih =>
    simp only [List.cons_append, run]
    cases step s x.1 x.2 with
    | none => rfl
    | some s => exact ih s

theorem run_inv {P : State → Prop} (hstep : ∀ s s' t ok, P s → step s t ok = some s' → P s') (l : List (Nat × Bool)) (s s' : State) (h : P s)
    (hr : run s l = some s') : P s' := by
  induction l generalizing s with
  | nil => cases hr; exact h
  | cons x l ih =>
    simp only [run] at hr
    cases hs : step s x.1 x.2 with
    | none => rw [hs] at hr; cases hr
    | some s1 => rw [hs] at hr; exact ih s1 (hstep _ _ _ _ h hs) hr

/-- In `sa_provider_load`. -/
def loading : Pc → Bool
  | .lock0 | .new | .builtin | .base | .sa | .atexit | .unlock0 => true
  | _ => false

/-- In `sa_provider_load` before the context is made. -/
def early : Pc → Bool
  | .lock0 | .new => true
  | _ => false

/-- What is true whatever fails: the load runs once, and the context is made once. -/
structure Inv (s : State) : Prop where
  load : ∀ t, loading (s.pcs t) = true → s.once = .running ∧ ∀ u, loading (s.pcs u) = true → u = t
  early : ∀ t, early (s.pcs t) = true → s.lib = none
  fresh : s.once = .fresh → s.lib = none
  made : s.lib = none → s.made = 0
  lib : ∀ a, s.lib = some a → a = 0
  before : ∀ t, s.pcs t = .lock ∨ s.pcs t = .read → s.once = .done
  after : ∀ t v, s.pcs t = .unlock v → s.once = .done ∧ v = s.lib
  given : ∀ x ∈ s.given, s.once = .done ∧ (x.2 = none ∨ x.2 = s.lib)

theorem inv_start : Inv start := by
  constructor <;> simp [start, loading, C89.early]

/-- The rest of the state after a step, with the mutex left open. -/
theorem take_eq {s s1 : State} (h : s.take t = some s1) : ∃ o d, s1 = { s with owner := o, depth := d } := by
  unfold State.take at h
  split at h
  · exact ⟨_, _, (Option.some.inj h).symm⟩
  · split at h
    · exact ⟨s.owner, _, (Option.some.inj h).symm⟩
    · cases h

theorem give_eq (s : State) : ∃ o d, s.give = { s with owner := o, depth := d } := by
  unfold State.give
  split
  · exact ⟨_, _, rfl⟩
  · exact ⟨s.owner, _, rfl⟩

theorem inv_step (s s' : State) (t : Nat) (ok : Bool) (h : Inv s) (hs : step s t ok = some s') : Inv s' := by
  obtain ⟨h1, h2, h3, h4, h5, h6, h7, h8⟩ := h
  obtain ⟨o, d, hg⟩ := give_eq s
  have he : ∀ p, C89.early p = true → loading p = true := by intro p; cases p <;> simp [C89.early, loading]
  have ht : ∀ s1, s.take t = some s1 → ∃ o d, s1 = { s with owner := o, depth := d } := fun _ h => take_eq h
  cases hpc : s.pcs t <;> simp only [step, hpc, hg] at hs
  all_goals (try split at hs)
  all_goals (try (obtain ⟨s1, e1, e2⟩ := Option.map_eq_some_iff.mp hs; obtain ⟨o, d, e3⟩ := ht s1 e1; subst e3; clear hs e1; subst e2))
  all_goals (try cases hs)
  all_goals (simp only [State.loaded, State.goto]; constructor <;> simp only <;> grind [loading, C89.early])

/-- Holding the mutex. -/
def holding : Pc → Bool
  | .new | .builtin | .base | .sa | .atexit | .unlock0 | .read | .unlock _ => true
  | _ => false

/-- How far `sa_provider_load` has got. -/
def hasLib : Pc → Bool
  | .builtin | .base | .sa | .atexit | .unlock0 => true
  | _ => false

def hasBase : Pc → Bool
  | .sa | .atexit | .unlock0 => true
  | _ => false

def hasSa : Pc → Bool
  | .atexit | .unlock0 => true
  | _ => false

/-- What is true as long as no call fails. -/
structure Well (s : State) : Prop where
  inv : Inv s
  free : s.owner = none → s.depth = 0
  held : ∀ t, s.owner = some t → s.depth = 1 ∧ holding (s.pcs t) = true
  holds : ∀ t, holding (s.pcs t) = true → s.owner = some t
  lib : ∀ t, hasLib (s.pcs t) = true → s.lib = some 0
  base : ∀ t, hasBase (s.pcs t) = true → s.base = true
  sa : ∀ t, hasSa (s.pcs t) = true → s.sa = true
  done : s.once = .done → s.lib = some 0 ∧ s.base = true ∧ s.sa = true
  running : s.once = .running → ∃ t, loading (s.pcs t) = true
  given : ∀ x ∈ s.given, x.2 = some 0

theorem well_start : Well start := by
  refine ⟨inv_start, ?_, ?_, ?_, ?_, ?_, ?_, ?_, ?_, ?_⟩ <;> simp [start, holding, hasLib, hasBase, hasSa]

theorem well_step (s s' : State) (t : Nat) (h : Well s) (hs : step s t true = some s') : Well s' := by
  have hi := inv_step s s' t true h.inv hs
  obtain ⟨hinv, g1, g2, g3, g4, g5, g6, g7, g8, g9⟩ := h
  obtain ⟨h1, h2, h3, h4, h5, h6, h7, h8⟩ := hinv
  cases hpc : s.pcs t <;> simp only [step, hpc, Bool.not_true, Bool.false_eq_true, if_false] at hs
  case idle => cases hs; refine ⟨hi, ?_, ?_, ?_, ?_, ?_, ?_, ?_, ?_, ?_⟩ <;> simp only [State.goto] <;> grind [loading, holding, hasLib, hasBase, hasSa]
  case once =>
    split at hs <;> cases hs <;> refine ⟨hi, ?_, ?_, ?_, ?_, ?_, ?_, ?_, ?_, ?_⟩ <;> simp only [State.goto] <;> grind [loading, holding, hasLib, hasBase, hasSa]
  case lock0 =>
    obtain ⟨s1, e1, e2⟩ := Option.map_eq_some_iff.mp hs
    unfold State.take at e1
    split at e1
    · cases e1; cases e2
      refine ⟨hi, ?_, ?_, ?_, ?_, ?_, ?_, ?_, ?_, ?_⟩ <;> simp only [State.goto] <;> grind [loading, holding, hasLib, hasBase, hasSa]
    · next u ho =>
      by_cases hu : u = t
      · subst hu
        have := (g2 u ho).2
        rw [hpc] at this
        cases this
      · rw [if_neg hu] at e1; cases e1
  case lock =>
    obtain ⟨s1, e1, e2⟩ := Option.map_eq_some_iff.mp hs
    unfold State.take at e1
    split at e1
    · cases e1; cases e2
      refine ⟨hi, ?_, ?_, ?_, ?_, ?_, ?_, ?_, ?_, ?_⟩ <;> simp only [State.goto] <;> grind [loading, holding, hasLib, hasBase, hasSa]
    · next u ho =>
      by_cases hu : u = t
      · subst hu
        have := (g2 u ho).2
        rw [hpc] at this
        cases this
      · rw [if_neg hu] at e1; cases e1
  case unlock0 =>
    have ho := g3 t (by rw [hpc]; rfl)
    have hd := (g2 t ho).1
    have hg : s.give = { s with owner := none, depth := 0 } := by unfold State.give; rw [if_pos (by omega)]
    rw [hg] at hs
    cases hs
    refine ⟨hi, ?_, ?_, ?_, ?_, ?_, ?_, ?_, ?_, ?_⟩ <;> simp only [State.goto, State.loaded] <;> grind [loading, holding, hasLib, hasBase, hasSa]
  case unlock v =>
    have ho := g3 t (by rw [hpc]; rfl)
    have hd := (g2 t ho).1
    have hg : s.give = { s with owner := none, depth := 0 } := by unfold State.give; rw [if_pos (by omega)]
    rw [hg] at hs
    cases hs
    refine ⟨hi, ?_, ?_, ?_, ?_, ?_, ?_, ?_, ?_, ?_⟩ <;> simp only [State.goto] <;> grind [loading, holding, hasLib, hasBase, hasSa]
  all_goals
    cases hs
    refine ⟨hi, ?_, ?_, ?_, ?_, ?_, ?_, ?_, ?_, ?_⟩ <;> simp only [State.goto] <;> grind [loading, holding, hasLib, hasBase, hasSa, C89.early]

theorem well_of (h : Healthy s) : Well s := by
  obtain ⟨l, hok, hr⟩ := h
  suffices ∀ s0, Well s0 → run s0 l = some s → Well s from this start well_start hr
  clear hr
  induction l with
  | nil => intro s0 h hr; cases hr; exact h
  | cons x l ih =>
    intro s0 h hr
    simp only [run] at hr
    have hx := hok x (List.mem_cons_self ..)
    rw [hx] at hr
    cases hs : step s0 x.1 true with
    | none => rw [hs] at hr; cases hr
    | some s1 => rw [hs] at hr; exact ih (fun y hy => hok y (List.mem_cons_of_mem _ hy)) s1 (well_step _ _ _ h hs) hr

/-- How many steps are left of a call. -/
def left : Pc → Nat
  | .idle => 0
  | .unlock _ => 1
  | .read => 2
  | .lock => 3
  | .unlock0 => 4
  | .atexit => 5
  | .sa => 6
  | .base => 7
  | .builtin => 8
  | .new => 9
  | .lock0 => 10
  | .once => 11

/-- Steps without failures. -/
def Goes (s s' : State) : Prop := ∃ l, (∀ x ∈ l, x.2 = true) ∧ run s l = some s'

theorem Goes.refl (s : State) : Goes s s := ⟨[], by simp, rfl⟩

theorem Goes.trans (h : Goes a b) (h' : Goes b c) : Goes a c := by
  obtain ⟨l, h1, h2⟩ := h
  obtain ⟨l', h3, h4⟩ := h'
  refine ⟨l ++ l', ?_, ?_⟩
  · intro x hx
    rcases List.mem_append.mp hx with h | h
    · exact h1 x h
    · exact h3 x h
  · rw [run_append, h2]; exact h4

theorem Goes.one (h : step s t true = some s') : Goes s s' := ⟨[(t, true)], by simp, by simp only [run, h]⟩

theorem Goes.well (h : Goes s s') (hw : Well s) : Well s' := by
  obtain ⟨l, hok, hr⟩ := h
  induction l generalizing s with
  | nil => cases hr; exact hw
  | cons x l ih =>
    simp only [run] at hr
    rw [hok x (List.mem_cons_self ..)] at hr
    cases hs : step s x.1 true with
    | none => rw [hs] at hr; cases hr
    | some s1 => rw [hs] at hr; exact ih (well_step _ _ _ hw hs) (fun y hy => hok y (List.mem_cons_of_mem _ hy)) hr

/-- A step concerns its thread only. -/
theorem step_other (hs : step s t ok = some s') (u : Nat) (hu : u ≠ t) : s'.pcs u = s.pcs u := by
  obtain ⟨o, d, hg⟩ := give_eq s
  have ht : ∀ s1, s.take t = some s1 → ∃ o d, s1 = { s with owner := o, depth := d } := fun _ h => take_eq h
  cases hpc : s.pcs t <;> simp only [step, hpc, hg] at hs
  all_goals (try split at hs)
  all_goals (try (obtain ⟨s1, e1, e2⟩ := Option.map_eq_some_iff.mp hs; obtain ⟨o, d, e3⟩ := ht s1 e1; subst e3; clear hs e1; subst e2))
  all_goals (try cases hs)
  all_goals (simp only [State.loaded, State.goto]; rw [if_neg hu])

/-- A thread that holds the mutex lets it go. -/
theorem lets_go (hw : Well s) (ho : s.owner = some u) :
    ∃ s', Goes s s' ∧ s'.owner = none ∧ s'.once = .done ∧ (s'.pcs u = .lock ∨ s'.pcs u = .idle) ∧ ∀ t, t ≠ u → s'.pcs t = s.pcs t := by
  generalize hn : left (s.pcs u) = n
  induction n using Nat.strongRecOn generalizing s with
  | ind n ih =>
    have hh := (hw.held u ho).2
    have hd := (hw.held u ho).1
    have hg : s.give = { s with owner := none, depth := 0 } := by unfold State.give; rw [if_pos (by omega)]
    have key : ∀ s1, step s u true = some s1 → s1.owner = some u → left (s1.pcs u) < n → 
        ∃ s', Goes s s' ∧ s'.owner = none ∧ s'.once = .done ∧ (s'.pcs u = .lock ∨ s'.pcs u = .idle) ∧ ∀ t, t ≠ u → s'.pcs t = s.pcs t := by
      intro s1 h1 h2 h3
      obtain ⟨s', e1, e2, e3, e4, e5⟩ := ih _ h3 (well_step _ _ _ hw h1) h2 rfl
      exact ⟨s', (Goes.one h1).trans e1, e2, e3, e4, fun t ht => (e5 t ht).trans (step_other h1 t ht)⟩
    cases hpc : s.pcs u <;> rw [hpc] at hh hn <;> simp only [left] at hn <;> simp only [holding, Bool.false_eq_true] at hh
    case unlock0 =>
      refine ⟨_, Goes.one (t := u) (s' := s.give.loaded u) (by simp only [step, hpc]), ?_, ?_, .inl ?_, ?_⟩
      · rw [hg]; rfl
      · rfl
      · simp [State.loaded, State.goto]
      · intro t ht; simp [State.loaded, State.goto, hg, ht]
    case unlock v =>
      refine ⟨_, Goes.one (t := u) (s' := { s.give with given := (u, v) :: s.given }.goto u .idle) (by simp only [step, hpc]), ?_, ?_, .inr ?_, ?_⟩
      · rw [hg]; rfl
      · rw [hg]; exact (hw.inv.after u v hpc).1
      · simp [State.goto]
      · intro t ht; simp [State.goto, hg, ht]
    all_goals
      obtain ⟨s1, hst⟩ : ∃ s1, step s u true = some s1 := by simp [step, hpc]
      refine key s1 hst ?_ ?_
      · simp only [step, hpc, Bool.not_true, Bool.false_eq_true, if_false] at hst
        cases hst
        exact ho
      · simp only [step, hpc, Bool.not_true, Bool.false_eq_true, if_false] at hst
        cases hst
        simp only [State.goto, if_true, left]
        omega

/-- From every state there is a way to one where nobody holds the mutex and nobody loads. -/
theorem calms (hw : Well s) : ∃ s', Goes s s' ∧ s'.owner = none ∧ s'.once ≠ .running ∧
    ∀ t, s'.pcs t = s.pcs t ∨ s'.pcs t = .lock ∨ s'.pcs t = .idle := by
  have key : ∀ s1 u, Well s1 → s1.owner = some u → ∃ s', Goes s1 s' ∧ s'.owner = none ∧ s'.once ≠ .running ∧
      ∀ t, (t ≠ u → s'.pcs t = s1.pcs t) ∧ (t = u → s'.pcs t = .lock ∨ s'.pcs t = .idle) := by
    intro s1 u hw1 ho
    obtain ⟨s', e1, e2, e3, e4, e5⟩ := lets_go hw1 ho
    exact ⟨s', e1, e2, by rw [e3]; decide, fun t => ⟨e5 t, fun h => by rw [h]; exact e4⟩⟩
  cases ho : s.owner with
  | some u =>
    obtain ⟨s', e1, e2, e3, e4⟩ := key s u hw ho
    refine ⟨s', e1, e2, e3, fun t => ?_⟩
    by_cases ht : t = u
    · exact .inr ((e4 t).2 ht)
    · exact .inl ((e4 t).1 ht)
  | none =>
    by_cases hr : s.once = .running
    · obtain ⟨u, hu⟩ := hw.running hr
      have hnh : holding (s.pcs u) ≠ true := fun h => by
        have := hw.holds u h
        rw [ho] at this; cases this
      have hpc : s.pcs u = .lock0 := by
        cases hp : s.pcs u <;> rw [hp] at hu hnh <;> simp [loading, holding] at hu hnh
      have hs : step s u true = some ({ s with owner := some u, depth := 1 }.goto u .new) := by
        simp only [step, hpc, State.take, ho]; rfl
      obtain ⟨s', e1, e2, e3, e4⟩ := key _ u (well_step _ _ _ hw hs) rfl
      refine ⟨s', (Goes.one hs).trans e1, e2, e3, fun t => ?_⟩
      by_cases ht : t = u
      · exact .inr ((e4 t).2 ht)
      · exact .inl (((e4 t).1 ht).trans (step_other hs t ht))
    · exact ⟨s, Goes.refl s, ho, hr, fun t => .inl rfl⟩

theorem from_lock (ho : s.owner = none) (hp : s.pcs t = .lock) : ∃ s', Goes s s' ∧ s'.pcs t = .idle := by
  have h1 : step s t true = some ({ s with owner := some t, depth := 1 }.goto t .read) := by simp only [step, hp, State.take, ho]; rfl
  have h2 : step ({ s with owner := some t, depth := 1 }.goto t .read) t true =
      some (({ s with owner := some t, depth := 1 }.goto t .read).goto t (.unlock s.lib)) := by
    simp [step, State.goto]
  refine ⟨_, ((Goes.one h1).trans (Goes.one h2)).trans (Goes.one (t := t) (by simp only [step, State.goto, if_true]; rfl)), ?_⟩
  simp

/-! ## The property -/

/-- Whatever fails, and however many threads call: there is at most one library context, and all threads get it or NULL. -/
theorem C89_same (h : Reachable s) : (∀ x ∈ s.given, ∀ y ∈ s.given, ∀ a b, x.2 = some a → y.2 = some b → a = b) ∧
    ∀ x ∈ s.given, ∀ a, x.2 = some a → s.lib = some a := by
  obtain ⟨l, hr⟩ := h
  have hi := run_inv (P := Inv) inv_step l start s inv_start hr
  have hl : ∀ x ∈ s.given, ∀ a, x.2 = some a → s.lib = some a := by
    intro x hx a ha
    rcases (hi.given x hx).2 with h | h
    · rw [ha] at h; cases h
    · rw [← h, ha]
  refine ⟨fun x hx y hy a b ha hb => ?_, hl⟩
  have h1 := hl x hx a ha
  have h2 := hl y hy b hb
  rw [h1] at h2
  exact Option.some.inj h2

/-- When no call fails, every thread gets the library context, with both providers loaded.  (Partial: C89_violated_unloaded.) -/
theorem C89_loaded_partial (h : Healthy s) (x : Nat × Option Nat) (hx : x ∈ s.given) :
    x.2 ≠ none ∧ x.2 = s.lib ∧ s.base = true ∧ s.sa = true := by
  have hw := well_of h
  have hd := hw.done (hw.inv.given x hx).1
  have hg := hw.given x hx
  exact ⟨by rw [hg]; simp, by rw [hg, hd.1], hd.2⟩

/-- When no call fails, a thread that is in `sa_get_provider` can always still return from it.  (Partial: C89_violated_lock.) -/
theorem C89_returns_partial (h : Healthy s) (t : Nat) : ∃ s', Goes s s' ∧ ¬ Inside s' t := by
  have hw := well_of h
  obtain ⟨s1, e1, e2, e3, e4⟩ := calms hw
  have hw1 := e1.well hw
  have hlock : ∀ s1, Goes s s1 → s1.owner = none → s1.pcs t = .lock → ∃ s', Goes s s' ∧ ¬ Inside s' t := by
    intro s1 e1 e2 hp
    obtain ⟨s2, f1, f2⟩ := from_lock e2 hp
    exact ⟨s2, e1.trans f1, fun h => h f2⟩
  have hnh : holding (s1.pcs t) ≠ true := fun h => by
    have := hw1.holds t h
    rw [e2] at this; cases this
  have hnl : loading (s1.pcs t) ≠ true := fun h => e3 (hw1.inv.load t h).1
  cases hp : s1.pcs t <;> rw [hp] at hnh hnl <;> simp [loading, holding] at hnh hnl
  case idle => exact ⟨s1, e1, fun h => h hp⟩
  case lock => exact hlock s1 e1 e2 hp
  case once =>
    cases ho : s1.once with
    | running => exact absurd ho e3
    | done =>
      have h1 : step s1 t true = some (s1.goto t .lock) := by simp only [step, hp, ho]
      exact hlock _ (e1.trans (Goes.one h1)) e2 (by simp [State.goto])
    | fresh =>
      have h1 : step s1 t true = some ({ s1 with once := .running }.goto t .lock0) := by simp only [step, hp, ho]
      have h2 : step ({ s1 with once := .running }.goto t .lock0) t true =
          some ({ { s1 with once := .running }.goto t .lock0 with owner := some t, depth := 1 }.goto t .new) := by
        simp only [step, State.goto, if_true, State.take, e2]; rfl
      have g := (e1.trans (Goes.one h1)).trans (Goes.one h2)
      obtain ⟨s3, f1, f2, f3, f4, f5⟩ := lets_go (g.well hw) rfl
      rcases f4 with f4 | f4
      · exact hlock s3 (g.trans f1) f2 f4
      · exact ⟨s3, g.trans f1, fun h => h f4⟩

/-- A call takes at most eleven steps of its thread, whatever fails. -/
theorem C89_bounded (hs : step s t ok = some s') (hin : Inside s t) : left (s'.pcs t) < left (s.pcs t) ∧ left (s.pcs t) ≤ 11 := by
  obtain ⟨o, d, hg⟩ := give_eq s
  have ht : ∀ s1, s.take t = some s1 → ∃ o d, s1 = { s with owner := o, depth := d } := fun _ h => take_eq h
  cases hpc : s.pcs t <;> simp only [step, hpc, hg] at hs
  case idle => exact absurd hpc hin
  all_goals (try split at hs)
  all_goals (try (obtain ⟨s1, e1, e2⟩ := Option.map_eq_some_iff.mp hs; obtain ⟨o, d, e3⟩ := ht s1 e1; subst e3; clear hs e1; subst e2))
  all_goals (try cases hs)
  all_goals (simp [State.loaded, State.goto, left])

/-! ## Violations -/

/-- Thread 0 loads, and loading the provider fails; it gets a library context all the same.  Then thread 1 calls. -/
def failing : List (Nat × Bool) :=
  [(0, true), (0, true), (0, true), (0, true), (0, true), (0, true), (0, false), (0, true), (0, true), (0, true), (1, true), (1, true)]

/-- The state after that. -/
def broken : State := (run start failing).getD start

theorem eq_getD (x : Option α) (d : α) (h : x.isSome = true) : x = some (x.getD d) := by
  cases x with
  | none => cases h
  | some a => rfl

theorem broken_run : run start failing = some broken := eq_getD (run start failing) start (by decide +kernel)

/-- Violation: a thread may get a library context without the provider. -/
theorem C89_violated_unloaded : ∃ s, Reachable s ∧ (0, some 0) ∈ s.given ∧ s.sa = false :=
  ⟨broken, ⟨failing, broken_run⟩, by decide +kernel, by decide +kernel⟩

theorem run_other (l : List (Nat × Bool)) (s s' : State) (hr : run s l = some s') (u : Nat) (hu : ∀ x ∈ l, u ≠ x.1) : s'.pcs u = s.pcs u := by
  induction l generalizing s with
  | nil => cases hr; rfl
  | cons x l ih =>
    simp only [run] at hr
    cases hs : step s x.1 x.2 with
    | none => rw [hs] at hr; cases hr
    | some s1 =>
      rw [hs] at hr
      rw [ih s1 hr fun y hy => hu y (List.mem_cons_of_mem _ hy), step_other hs u (hu x (List.mem_cons_self ..))]

/-- After that, whatever happens: thread 0 has the mutex, and nobody else gets past it. -/
structure Stuck (s : State) : Prop where
  once : s.once = .done
  owner : s.owner = some 0
  depth : 1 ≤ s.depth
  deep : s.pcs 0 = .read ∨ (∃ v, s.pcs 0 = .unlock v) → 2 ≤ s.depth
  zero : s.pcs 0 = .idle ∨ s.pcs 0 = .once ∨ s.pcs 0 = .lock ∨ s.pcs 0 = .read ∨ ∃ v, s.pcs 0 = .unlock v
  others : ∀ t, t ≠ 0 → s.pcs t = .idle ∨ s.pcs t = .once ∨ s.pcs t = .lock

theorem stuck_step (h : Stuck s) (hp : s.pcs 1 = .lock) (hs : step s t true = some s') : Stuck s' ∧ s'.pcs 1 = .lock := by
  obtain ⟨h1, h2, h3, h4, h5, h6⟩ := h
  by_cases ht : t = 0
  · subst ht
    rcases h5 with h5 | h5 | h5 | h5 | ⟨v, h5⟩ <;>
      simp only [step, h5, h1, h2, State.take, Bool.not_true, Bool.false_eq_true, if_false, if_true, Option.map_some] at hs
    · cases hs; refine ⟨⟨h1, h2, h3, ?_, ?_, ?_⟩, ?_⟩ <;> simp only [State.goto] <;> grind
    · cases hs; refine ⟨⟨h1, h2, h3, ?_, ?_, ?_⟩, ?_⟩ <;> simp only [State.goto] <;> grind
    · cases hs; refine ⟨⟨rfl, rfl, ?_, ?_, ?_, ?_⟩, ?_⟩ <;> simp only [State.goto] <;> grind
    · cases hs; refine ⟨⟨h1, h2, h3, ?_, ?_, ?_⟩, ?_⟩ <;> simp only [State.goto] <;> grind
    · have hd := h4 (.inr ⟨v, h5⟩)
      have hg : s.give = { s with depth := s.depth - 1 } := by unfold State.give; rw [if_neg (by omega)]
      rw [hg] at hs
      cases hs; refine ⟨⟨h1, h2, ?_, ?_, ?_, ?_⟩, ?_⟩ <;> simp only [State.goto] <;> grind
  · have hne : ¬ (0 = t) := fun h => ht h.symm
    rcases h6 t ht with h | h | h <;>
      simp only [step, h, h1, h2, State.take, Bool.not_true, Bool.false_eq_true, if_false, if_neg hne, Option.map_none] at hs
    · cases hs; refine ⟨⟨h1, h2, h3, ?_, ?_, ?_⟩, ?_⟩ <;> simp only [State.goto] <;> grind
    · cases hs; refine ⟨⟨h1, h2, h3, ?_, ?_, ?_⟩, ?_⟩ <;> simp only [State.goto] <;> grind
    · cases hs

/-- Violation: when loading fails, the mutex stays locked, and every other thread that calls `sa_get_provider` waits for ever (unless locking
fails). -/
theorem C89_violated_lock : ∃ s, Reachable s ∧ Inside s 1 ∧ ∀ l s', (∀ x ∈ l, x.2 = true) → run s l = some s' → Inside s' 1 := by
  refine ⟨broken, ⟨failing, broken_run⟩, by unfold Inside; decide +kernel, ?_⟩
  suffices ∀ l s s', Stuck s → s.pcs 1 = .lock → (∀ x ∈ l, x.2 = true) → run s l = some s' → s'.pcs 1 = .lock by
    intro l s' hok hr
    have := this l broken s' ?_ (by decide +kernel) hok hr
    · unfold Inside; rw [this]; decide
    · have h0 : broken.pcs 0 = .idle := by decide +kernel
      refine ⟨by decide +kernel, by decide +kernel, by decide +kernel, ?_, .inl h0, ?_⟩
      · rw [h0]; simp
      · intro t ht
        by_cases h1 : t = 1
        · subst h1; exact .inr (.inr (by decide +kernel))
        · left
          rw [run_other failing start broken broken_run t]
          · rfl
          · intro x hx
            have : x.1 = 0 ∨ x.1 = 1 := (show ∀ x ∈ failing, x.1 = 0 ∨ x.1 = 1 by decide) x hx
            omega
  intro l
  induction l with
  | nil => intro s s' _ hp _ hr; cases hr; exact hp
  | cons x l ih =>
    intro s s' hst hp hok hr
    simp only [run] at hr
    rw [hok x (List.mem_cons_self ..)] at hr
    cases hs : step s x.1 true with
    | none => rw [hs] at hr; cases hr
    | some s1 =>
      rw [hs] at hr
      simp only at hr
      obtain ⟨h1, h2⟩ := stuck_step hst hp hs
      exact ih s1 s' h1 h2 (fun y hy => hok y (List.mem_cons_of_mem _ hy)) hr

/-! ## Examples -/

/-- Thread 5 loads while thread 7 waits; both get the context. -/
def two : List (Nat × Bool) :=
  [(7, true), (5, true), (5, true), (5, true), (5, true), (5, true), (5, true), (5, true), (5, true), (5, true), (7, true), (5, true), (5, true),
    (5, true), (7, true), (7, true), (7, true)]

example : Healthy ((run start two).getD start) ∧ ((run start two).getD start).given = [(7, some 0), (5, some 0)] :=
  ⟨⟨two, by decide, eq_getD _ _ (by decide +kernel)⟩, by decide +kernel⟩

example : ((run start (two.take 5)).bind fun s => step s 7 true).isNone = true ∧ ((run start (two.take 5)).map fun s => s.pcs 7) = some .once := by
  decide +kernel

end Sa.Pl.C89

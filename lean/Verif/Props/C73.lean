import Verif.Model.Session

/-!
# C73: all threads of an application use one session
-/

namespace Sa.C73
open Sa.Sess

/-- Inside the region protected by the mutex. -/
def Inside (p : Pc) : Prop := p = .check ∨ p = .openS ∨ p = .register ∨ p = .unlock

/-- What holds until the application ends. -/
structure Inv (s : St) : Prop where
  alive : s.exited = false → (s.session = none ∧ s.opened = 0) ∨ (s.session = some 0 ∧ s.opened = 1)
  few : s.opened ≤ 1
  holder : ∀ i, Inside (s.pc i) → s.owner = some i
  owner : ∀ i, s.owner = some i → Inside (s.pc i)
  opening : ∀ i, s.pc i = .openS → s.exited = false → s.session = none
  reg : ∀ i, s.pc i = .register → s.exited = false → s.session ≠ none
  some_or : ∀ i, s.pc i = .unlock ∨ s.pc i = .ret → s.exited = false → s.session ≠ none ∨ s.failed i = true
  given : ∀ r ∈ s.returned, (∀ x, r.2.1 = some x → x = 0 ∧ s.opened = 1) ∧ (r.2.1 = none → r.2.2 = true)
  regd : s.exited = false → s.session ≠ none → s.once = true ∨ ∃ i, s.pc i = .register
  unreg : s.once = false → s.registered = false
  open_ : s.exited = false → s.closed = []
  clos : ∀ x ∈ s.closed, x = 0

theorem inv_init : Inv St.init := by
  constructor <;> simp [St.init, Inside]

theorem inv_step {s s' : St} (h : Inv s) {i : Nat} {ok : Bool} (hs : step s i ok = some s') (hu : s'.undefined = false) : Inv s' := by
  obtain ⟨h1, h2, h3, h4, h5, h6, h7, h8, h9, h10, h11, h12⟩ := h
  unfold step at hs
  split at hs
  · cases hs
  rename_i hx
  have hx : s.exited = false := by simpa using hx
  have g1 := h1 hx
  cases hp : s.pc i <;> rw [hp] at hs <;> simp only at hs
  case out =>
    cases hsn : s.session <;> simp only [St.fail, hsn, Option.some.injEq] at hs <;> subst hs <;>
      constructor <;> simp only [St.goto, Inside] at * <;> grind
  case once =>
    cases hm : s.made <;> simp only [hm, Option.some.injEq] at hs <;> subst hs <;>
      constructor <;> simp only [St.goto, Inside] at * <;> grind
  case lock =>
    cases hm : s.made with
    | none => simp only [hm, Option.some.injEq] at hs; subst hs; cases hu
    | some b =>
    cases b with
    | false => simp only [hm, Option.some.injEq] at hs; subst hs; cases hu
    | true =>
    simp only [hm] at hs
    cases ho : s.owner with
    | some _ => simp only [ho] at hs; cases hs
    | none =>
      simp only [ho] at hs
      cases ok <;> simp only [Bool.false_eq_true, if_false, if_true, Option.some.injEq] at hs <;> subst hs <;>
        constructor <;> simp only [St.goto, St.give, St.fail, Inside] at * <;> grind
  case check =>
    cases hsn : s.session <;> simp only [hsn, Option.some.injEq] at hs <;> subst hs <;>
      constructor <;> simp only [St.goto, Inside] at * <;> grind
  case openS =>
    cases ok <;> simp only [Bool.false_eq_true, if_false, if_true, Option.some.injEq] at hs <;> subst hs <;>
      constructor <;> simp only [St.goto, St.fail, Inside] at * <;> grind
  case register =>
    cases ho : s.once <;> simp only [ho, Bool.false_eq_true, if_false, if_true, Option.some.injEq] at hs <;> subst hs <;>
      constructor <;> simp only [St.goto, Inside] at * <;> grind
  case unlock =>
    simp only [Option.some.injEq] at hs
    subst hs
    constructor <;> simp only [St.goto, Inside] at * <;> grind
  case ret =>
    simp only [Option.some.injEq] at hs
    subst hs
    constructor <;> simp only [St.goto, St.give, Inside] at * <;> grind

theorem inv_exit {s : St} (h : Inv s) (hx : s.exited = false) : Inv (exit s) := by
  obtain ⟨h1, h2, h3, h4, h5, h6, h7, h8, h9, h10, h11, h12⟩ := h
  have g1 := h1 hx
  have g11 := h11 hx
  unfold exit
  cases hr : s.registered <;> simp only [Bool.false_eq_true, if_false, if_true]
  · constructor <;> simp only [Inside] at * <;> grind
  · cases hsn : s.session <;> simp only <;> constructor <;> simp only [Inside] at * <;> grind

/-- An uninitialised mutex is used only if `mtx_init` has failed. -/
structure Mut (s : St) : Prop where
  undef : s.undefined = true → s.made = some false
  locks : ∀ i, s.pc i = .lock ∨ Inside (s.pc i) → s.made ≠ none

theorem mut_step {s s' : St} (h : Mut s) {i : Nat} {ok : Bool} (hs : step s i ok = some s') : Mut s' := by
  obtain ⟨h1, h2⟩ := h
  unfold step at hs
  split at hs
  · cases hs
  have h2i := h2 i
  cases hp : s.pc i <;> rw [hp] at hs h2i <;> simp only at hs
  case out =>
    cases hsn : s.session <;> simp only [St.fail, hsn, Option.some.injEq] at hs <;> subst hs <;>
      constructor <;> simp only [St.goto, Inside] at * <;> grind
  case once =>
    cases hm : s.made <;> simp only [hm, Option.some.injEq] at hs <;> subst hs <;>
      constructor <;> simp only [St.goto, Inside] at * <;> grind
  case lock =>
    cases hm : s.made with
    | none => exact absurd hm (h2i (.inl rfl))
    | some b =>
    cases b with
    | false => simp only [hm, Option.some.injEq] at hs; subst hs; constructor <;> simp only [St.goto, Inside] at * <;> grind
    | true =>
    simp only [hm] at hs
    cases ho : s.owner with
    | some _ => simp only [ho] at hs; cases hs
    | none =>
      simp only [ho] at hs
      cases ok <;> simp only [Bool.false_eq_true, if_false, if_true, Option.some.injEq] at hs <;> subst hs <;>
        constructor <;> simp only [St.goto, St.give, St.fail, Inside] at * <;> grind
  case check =>
    cases hsn : s.session <;> simp only [hsn, Option.some.injEq] at hs <;> subst hs <;>
      constructor <;> simp only [St.goto, Inside] at * <;> grind
  case openS =>
    cases ok <;> simp only [Bool.false_eq_true, if_false, if_true, Option.some.injEq] at hs <;> subst hs <;>
      constructor <;> simp only [St.goto, St.fail, Inside] at * <;> grind
  case register =>
    cases ho : s.once <;> simp only [ho, Bool.false_eq_true, if_false, if_true, Option.some.injEq] at hs <;> subst hs <;>
      constructor <;> simp only [St.goto, Inside] at * <;> grind
  case unlock =>
    simp only [Option.some.injEq] at hs
    subst hs
    constructor <;> simp only [St.goto, Inside] at * <;> grind
  case ret =>
    simp only [Option.some.injEq] at hs
    subst hs
    constructor <;> simp only [St.goto, St.give, Inside] at * <;> grind

theorem mut_all {s : St} (h : Reachable s) : Mut s := by
  induction h with
  | init => exact ⟨by simp [St.init], by simp [St.init, Inside]⟩
  | step _ i ok hs ih => exact mut_step ih hs
  | @exit s _ _ ih =>
    obtain ⟨h1, h2⟩ := ih
    unfold exit
    cases s.registered <;> cases s.session <;> exact ⟨h1, h2⟩

/-- What `mtx_init` has returned stays. -/
theorem made_keeps {s s' : St} {i : Nat} {ok : Bool} (hs : step s i ok = some s') (h : s.made = some false) : s'.made = some false := by
  unfold step at hs
  split at hs
  · cases hs
  cases hp : s.pc i <;> rw [hp] at hs <;> simp only [h, St.fail, St.goto, St.give] at hs <;> (try (split at hs)) <;>
    (try simp only [Option.some.injEq] at hs) <;> (try subst hs) <;> first | exact h | rfl

theorem inv_all {s : St} (h : Reachable s) (hm : s.made ≠ some false) : Inv s := by
  induction h with
  | init => exact inv_init
  | @step s s' hr i ok hs ih =>
    have hm' : s.made ≠ some false := fun hx => hm (made_keeps hs hx)
    refine inv_step (ih hm') hs ?_
    have := (mut_step (mut_all hr) hs).undef
    cases hu : s'.undefined with
    | false => rfl
    | true => exact absurd (this hu) hm
  | @exit s _ hx ih =>
    refine inv_exit (ih ?_) hx
    intro hx
    apply hm
    unfold exit
    cases s.registered <;> cases s.session <;> exact hx

/-- Registration fails only if `atexit` does. -/
theorem registered_iff {s : St} (h : Reachable s) (ho : s.once = true) (hr : s.refused = false) : s.registered = true := by
  induction h with
  | init => cases ho
  | exit _ _ ih =>
    have : ∀ t : St, (exit t).once = t.once ∧ (exit t).refused = t.refused ∧ (exit t).registered = t.registered := by
      intro t
      unfold exit
      cases e : t.registered <;> cases t.session <;> simp
    rw [(this _).1] at ho
    rw [(this _).2.1] at hr
    rw [(this _).2.2]
    exact ih ho hr
  | @step s s' _ i ok hs ih =>
    have key : (s'.once = s.once ∧ s'.refused = s.refused ∧ s'.registered = s.registered) ∨ s'.registered = !s'.refused := by
      unfold step at hs
      split at hs
      · cases hs
      · split at hs <;> (try dsimp only at hs) <;> (try split at hs) <;> (try split at hs) <;> (try split at hs) <;> (try split at hs) <;> cases hs <;>
          first | exact .inl ⟨rfl, rfl, rfl⟩ | exact .inr (by simp [St.goto])
    rcases key with ⟨e1, e2, e3⟩ | e
    · rw [e3]; exact ih (e1 ▸ ho) (e2 ▸ hr)
    · rw [e, hr]; rfl

/-! ## Theorems -/

/-- **C73**, if the mutex can be initialised: at most one session is ever opened; every call of any thread that returns a session returns that one, and it
stays open until the application ends. -/
theorem C73_one_session_partial (s : St) (h : Reachable s) (hm : s.made ≠ some false) :
    s.opened ≤ 1 ∧ (∀ i x f, (i, some x, f) ∈ s.returned → x = 0 ∧ s.opened = 1 ∧ (s.exited = false → s.session = some x)) ∧
    (∀ i j x y f g, (i, some x, f) ∈ s.returned → (j, some y, g) ∈ s.returned → x = y) := by
  have hi := inv_all h hm
  refine ⟨hi.few, fun i x f hr => ?_, fun i j x y f g hr hr' => ?_⟩
  · obtain ⟨e1, e2⟩ := (hi.given _ hr).1 x rfl
    refine ⟨e1, e2, fun hx => ?_⟩
    rcases hi.alive hx with ⟨-, e3⟩ | ⟨e3, -⟩
    · omega
    · rw [e3, e1]
  · rw [((hi.given _ hr).1 x rfl).1, ((hi.given _ hr').1 y rfl).1]

/-- A call returns NULL only if `mtx_lock` or `ta_open_session` has failed in this very call. -/
theorem C73_null_partial (s : St) (h : Reachable s) (hm : s.made ≠ some false) (i : Nat) (f : Bool) (hr : (i, none, f) ∈ s.returned) : f = true :=
  ((inv_all h hm).given _ hr).2 rfl

/-- Two threads never open sessions, or register the handler, at the same time. -/
theorem C73_exclusive_partial (s : St) (h : Reachable s) (hm : s.made ≠ some false) (i j : Nat) (hi : Inside (s.pc i)) (hj : Inside (s.pc j)) : i = j := by
  have h := inv_all h hm
  have e1 := h.holder i hi
  have e2 := h.holder j hj
  rw [e1] at e2
  exact Option.some.inj e2

/-- A thread waits only for a thread that is inside and can go on. -/
theorem C73_progress_partial (s : St) (h : Reachable s) (hm : s.made ≠ some false) (hx : s.exited = false) (i : Nat) (ok : Bool) (hw : step s i ok = none) :
    s.pc i = .lock ∧ ∃ j, j ≠ i ∧ Inside (s.pc j) ∧ ∀ ok, ∃ s', step s j ok = some s' := by
  have hi := inv_all h hm
  have key : ∀ j, Inside (s.pc j) → ∀ ok, ∃ s', step s j ok = some s' := by
    intro j hj ok
    unfold step
    simp only [hx, Bool.false_eq_true, if_false]
    rcases hj with hj | hj | hj | hj <;> rw [hj] <;> simp only
    · cases s.session <;> exact ⟨_, rfl⟩
    · cases ok <;> exact ⟨_, rfl⟩
    · cases s.once <;> exact ⟨_, rfl⟩
    · exact ⟨_, rfl⟩
  have hl : s.pc i = .lock ∧ ∃ j, s.owner = some j := by
    unfold step at hw
    simp only [hx, Bool.false_eq_true, if_false] at hw
    cases hp : s.pc i <;> rw [hp] at hw <;> simp only at hw
    case lock =>
      refine ⟨rfl, ?_⟩
      cases ho : s.owner with
      | some j => exact ⟨j, rfl⟩
      | none =>
        rw [ho] at hw
        cases hm' : s.made with
        | none => rw [hm'] at hw; cases hw
        | some b => rw [hm'] at hw; cases b <;> cases ok <;> cases hw
    all_goals
      first
      | (simp only [St.fail] at hw; cases hs : s.session <;> simp [hs] at hw; done)
      | (cases hs : s.made <;> simp [hs] at hw; done)
      | (cases hs : s.session <;> simp [hs] at hw; done)
      | (cases ok <;> simp at hw; done)
      | (cases hs : s.once <;> simp [hs] at hw; done)
      | (cases hw; done)
  obtain ⟨hl, j, ho⟩ := hl
  have hj := hi.owner j ho
  refine ⟨hl, j, fun e => ?_, hj, key j hj⟩
  rw [e, hl] at hj
  rcases hj with hj | hj | hj | hj <;> cases hj

/-- When the application ends outside of `client_session`, the session is closed, once, unless `atexit` has failed. -/
theorem C73_closed_partial (s : St) (h : Reachable s) (hm : s.made ≠ some false) (hx : s.exited = false) (ho : ∀ i, s.pc i = .out) (x : Nat)
    (hs : s.session = some x) : s.once = true ∧ (s.refused = false → (exit s).closed = [x] ∧ (exit s).session = none) := by
  have hi := inv_all h hm
  have hone : s.once = true := by
    rcases hi.regd hx (by rw [hs]; simp) with h | ⟨i, h⟩
    · exact h
    · rw [ho i] at h; cases h
  refine ⟨hone, fun hr => ?_⟩
  · have hr := registered_iff h hone hr
    simp only [exit, hr, if_true, hs, hi.open_ hx]
    exact ⟨trivial, trivial⟩

/-! ## An execution -/

/-- The steps of threads, one after the other. -/
def run : List (Nat × Bool) → St → Option St
  | [], s => some s
  | (i, ok) :: l, s => (step s i ok).bind (run l)

theorem run_reachable {l : List (Nat × Bool)} {s s' : St} (h : Reachable s) (hr : run l s = some s') : Reachable s' := by
  induction l generalizing s with
  | nil => cases hr; exact h
  | cons a l ih =>
    obtain ⟨i, ok⟩ := a
    simp only [run] at hr
    cases hs : step s i ok with
    | none => rw [hs] at hr; cases hr
    | some s1 => rw [hs] at hr; exact ih (.step h i ok hs) hr

/-- Two threads find no session; the first one cannot open one, the second one can, and then the first one returns that of the second. -/
def sched : List (Nat × Bool) :=
  [(0, true), (1, true), (0, true), (1, true), (0, true), (0, true), (0, false), (0, true), (1, true), (1, true), (1, true), (1, true), (0, true), (1, true), (1, true)]

example : ∃ s, run sched St.init = some s ∧ Reachable s ∧ s.made = some true ∧ s.returned = [(1, some 0, false), (0, some 0, true)] ∧ s.opened = 1 := by
  cases h : run sched St.init with
  | none =>
    have : (run sched St.init).isSome = true := by decide
    rw [h] at this
    cases this
  | some s =>
    have g1 : (run sched St.init).map (fun s => (s.made, s.returned, s.opened)) = some (some true, [(1, some 0, false), (0, some 0, true)], 1) := by rfl
    rw [h] at g1
    simp only [Option.map_some, Option.some.injEq, Prod.mk.injEq] at g1
    exact ⟨s, rfl, run_reachable .init h, g1⟩

/-- **C73 is violated** if the mutex cannot be initialised: the failure is not recorded, and the mutex is locked all the same. -/
theorem C73_violated_mutex : ∃ s, Reachable s ∧ s.undefined = true := by
  cases h : run [(0, true), (0, false), (0, true)] St.init with
  | none =>
    have : (run [(0, true), (0, false), (0, true)] St.init).isSome = true := by decide
    rw [h] at this
    cases this
  | some s =>
    have g1 : (run [(0, true), (0, false), (0, true)] St.init).map (·.undefined) = some true := by decide
    rw [h] at g1
    exact ⟨s, run_reachable .init h, Option.some.inj g1⟩

end Sa.C73

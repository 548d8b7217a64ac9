import Verif.Model.ClientMem

/-!
# C72: a call of the library gives all its memory back
-/

namespace Sa.C72
open Sa.Cl.Mem

/-- Nothing that the call has allocated is left, nothing was freed twice or wrongly, and no NULL pointer was followed. -/
def Clean (s : St) : Prop := s.live = [] ∧ s.fault = false

instance (s : St) : Decidable (Clean s) := inferInstanceAs (Decidable (_ ∧ _))

/-! ## All executions of a block -/

/-- The decisions that matter. -/
def choices : Step → List (Bool × Bool)
  | .maybe _ => [(true, true), (false, true), (true, false)]
  | _ => [(true, true), (false, true)]

theorem choose (shared ok yes : Bool) (a : Step) (s : St) : ∃ c ∈ choices a, step shared ok yes a s = step shared c.1 c.2 a s := by
  cases a <;> cases ok <;> cases yes <;> simp [choices, step]

def outcomes (shared : Bool) : List Step → St → List (Bool × St)
  | [], s => [(false, s)]
  | a :: l, s => (choices a).flatMap fun c =>
    let r := step shared c.1 c.2 a s
    match r.1 with
    | .go => outcomes shared l r.2
    | .leave => [(false, r.2)]
    | .ret => [(true, r.2)]

theorem block_outcome (shared : Bool) (l : List Step) (d : Nat → Bool × Bool) (s : St) : block shared l d s ∈ outcomes shared l s := by
  induction l generalizing d s with
  | nil => simp [block, outcomes]
  | cons a l ih =>
    obtain ⟨c, hc, h⟩ := choose shared (d 0).1 (d 0).2 a s
    simp only [block, outcomes, List.mem_flatMap]
    refine ⟨c, hc, ?_⟩
    rw [h]
    cases (step shared c.1 c.2 a s).1 with
    | go => exact ih _ _
    | leave => simp
    | ret => simp

/-- Whether all executions of a path are clean. -/
def allClean (shared : Bool) (p : Path) : Bool :=
  (outcomes shared p.steps St.init).all fun r => decide (Clean (if r.1 then r.2 else p.rels.foldl (fun s a => release shared a s) r.2))

theorem allClean_sound {shared : Bool} {p : Path} (h : allClean shared p = true) (d : Nat → Bool × Bool) : Clean (call shared p d) := by
  have := List.all_eq_true.mp h _ (block_outcome shared p.steps d St.init)
  exact of_decide_eq_true this

/-! ## Theorems -/

/-- The functions that do not give all memory back in a build. -/
def leaky (shared : Bool) : List String := if shared then ["sa_get_device_id", "sa_key_header", "sa_key_provision_ta"] else ["sa_get_device_id", "sa_key_provision_ta"]

theorem table (shared : Bool) : ∀ f ∈ functions, f.name ∉ leaky shared → ∀ p ∈ f.paths, allClean shared p = true := by
  cases shared <;> decide +kernel

/-- **C72**, except for the functions named: whatever fails, all memory is given back. -/
theorem C72_clean_partial (shared : Bool) (f : Fn) (hf : f ∈ functions) (hn : f.name ∉ leaky shared) (p : Path) (hp : p ∈ f.paths) (d : Nat → Bool × Bool) :
    Clean (call shared p d) := allClean_sound (table shared f hf hn p hp) d

example : 30 ≤ (functions.filter fun f => f.name ∉ leaky true).length ∧ ∀ f ∈ functions, f.paths ≠ [] := by decide

/-! ### `sa_process_common_encryption` -/

/-- Between the steps of a round, without shared memory: `k` says whether the array has been allocated. -/
def Mid (k : Bool) (s : St) : Prop :=
  s.fault = false ∧ s.var 0 = .own .malloc 0 ∧ 1 ≤ s.next ∧
  if k then ∃ i, 1 ≤ i ∧ s.var 4 = .own .malloc i ∧ s.live = [(.malloc, i), (.malloc, 0)] else s.var 4 = .null ∧ s.live = [(.malloc, 0)]

theorem mid_set {k : Bool} {s : St} (h : Mid k s) (v : Nat) (hv : v = 1 ∨ v = 2 ∨ v = 3) (p : Ptr) : Mid k (s.set v p) := by
  unfold Mid at *
  have h0 : (s.set v p).var 0 = s.var 0 := by simp only [St.set]; rw [if_neg (by omega)]
  have h4 : (s.set v p).var 4 = s.var 4 := by simp only [St.set]; rw [if_neg (by omega)]
  rw [h0, h4]
  exact h

theorem mid_array {s : St} (h : Mid false s) : Mid true (s.alloc .malloc 4) ∧ Mid false (s.set 4 .null) := by
  obtain ⟨h1, h2, h3, h4⟩ := h
  simp only [Bool.false_eq_true, if_false] at h4
  refine ⟨⟨h1, ?_, Nat.le_add_left _ _, ?_⟩, h1, ?_, h3, ?_⟩
  · simp [St.alloc, St.set, h2]
  · simp only [if_true]
    exact ⟨s.next, h3, by simp [St.alloc, St.set], by simp [St.alloc, St.set, h4.2]⟩
  · simp [St.set, h2]
  · simp [St.set, h4.2]

/-- The end of a round. -/
theorem mid_end {s : St} (h : Mid true s) : (cencRound false [] d s).1 = true ∧ Mid false (cencRound false [] d s).2 := by
  obtain ⟨h1, h2, h3, i, h4, h5, h6⟩ := h
  refine ⟨rfl, ?_⟩
  have hf : s.free .malloc (s.var 4) = { s with live := [(.malloc, 0)] } := by
    simp [St.free, h5, h6]
  simp only [cencRound, hf, release, Bool.false_eq_true, if_false]
  have hm : Mid false ({ s with live := [(.malloc, 0)] }.set 4 .null) := ⟨h1, h2, h3, rfl, rfl⟩
  exact mid_set (mid_set (mid_set hm 1 (by omega) _) 2 (by omega) _) 3 (by omega) _

theorem round_cons (shared : Bool) (a : Step) (l : List Step) (d : Nat → Bool × Bool) (s : St) : cencRound shared (a :: l) d s =
    match (step shared (d 0).1 (d 0).2 a s).1 with
    | .go => cencRound shared l (fun n => d (n + 1)) (step shared (d 0).1 (d 0).2 a s).2
    | _ => (match a with | .param _ => true | _ => false, (step shared (d 0).1 (d 0).2 a s).2) := rfl

/-- Steps without allocation. -/
def quiet : Step → Bool
  | .check => true
  | .invoke => true
  | .param v => v == 1 || v == 2 || v == 3
  | _ => false

theorem mid_quiet {k ok yes : Bool} {a : Step} (ha : quiet a = true) {s : St} (h : Mid k s) :
    Mid k (step false ok yes a s).2 ∧ ((step false ok yes a s).1 = .go ∨ ((step false ok yes a s).1 = .leave ∧ ∀ v, a ≠ .param v)) := by
  cases a <;> simp only [quiet, Bool.false_eq_true] at ha
  case check => exact ⟨h, by cases ok <;> simp [step]⟩
  case invoke => exact ⟨h, by cases ok <;> simp [step]⟩
  case param v =>
    refine ⟨?_, .inl rfl⟩
    simp only [step, step.param, Bool.false_eq_true, if_false]
    exact mid_set h v (by simpa [or_assoc] using ha) _

theorem round_quiet (l : List Step) (hl : l.all quiet = true) (k : Bool) (rest : List Step) (d : Nat → Bool × Bool) (s : St) (h : Mid k s)
    (hr : ∀ d s, Mid k s → ((cencRound false rest d s).1 = true → Mid false (cencRound false rest d s).2) ∧ ∃ j, Mid j (cencRound false rest d s).2) :
    ((cencRound false (l ++ rest) d s).1 = true → Mid false (cencRound false (l ++ rest) d s).2) ∧ ∃ j, Mid j (cencRound false (l ++ rest) d s).2 := by
  induction l generalizing d s with
  | nil => exact hr d s h
  | cons a l ih =>
    simp only [List.all_cons, Bool.and_eq_true] at hl
    obtain ⟨m1, m2⟩ := mid_quiet (ok := (d 0).1) (yes := (d 0).2) hl.1 h
    simp only [List.cons_append, cencRound]
    rcases m2 with m2 | ⟨m2, m3⟩
    · rw [m2]
      exact ih hl.2 _ _ m1
    · rw [m2]
      refine ⟨fun hx => ?_, k, m1⟩
      cases a <;> first | exact absurd rfl (m3 _) | cases hx

theorem round_mid (d : Nat → Bool × Bool) (s : St) (h : Mid false s) :
    ((cencRound false cencSteps d s).1 = true → Mid false (cencRound false cencSteps d s).2) ∧ ∃ j, Mid j (cencRound false cencSteps d s).2 := by
  refine round_quiet [.check, .check, .check, .check, .check] rfl false (.array 4 :: [.param 1, .check, .check, .param 2, .check, .check, .param 3, .invoke]) d s h ?_
  intro d s h
  obtain ⟨a1, a2⟩ := mid_array h
  rw [round_cons]
  cases hd : (d 0).1 with
  | false => exact ⟨(fun hx => by cases hx), false, a2⟩
  | true =>
    refine round_quiet [.param 1, .check, .check, .param 2, .check, .check, .param 3, .invoke] rfl true [] _ _ a1 ?_
    intro d s h
    obtain ⟨b1, b2⟩ := mid_end (d := d) h
    exact ⟨fun _ => b2, false, b2⟩

theorem loop_mid (n : Nat) (d : Nat → Nat → Bool × Bool) (s : St) (h : Mid false s) : ∃ j, Mid j (cencLoop false n d s) := by
  induction n generalizing d s with
  | zero => exact ⟨false, h⟩
  | succ n ih =>
    obtain ⟨h1, h2⟩ := round_mid (d 0) s h
    simp only [cencLoop]
    cases hr : (cencRound false cencSteps (d 0) s).1 with
    | true => exact ih _ _ (h1 hr)
    | false => exact h2

/-- **C72** for any number of samples, without shared memory. -/
theorem C72_samples_partial (first : Bool) (n : Nat) (d : Nat → Nat → Bool × Bool) : Clean (cencCall false first n d) := by
  cases first with
  | false => simp [cencCall, step, release, St.set, St.init, St.free, Clean, heapOf]
  | true =>
    obtain ⟨j, h⟩ := loop_mid n d (step false true true (.command 0) St.init).2
      ⟨rfl, rfl, Nat.le_refl _, rfl, rfl⟩
    have : (step false true true (.command 0) St.init).1 = .go := rfl
    simp only [cencCall, this, if_true]
    generalize cencLoop false n d (step false true true (.command 0) St.init).2 = s at h
    obtain ⟨h1, h2, h3, h4⟩ := h
    cases j with
    | false =>
      obtain ⟨h4, h5⟩ := h4
      simp [release, St.free, h4, h5, h2, h1, heapOf, Clean]
    | true =>
      obtain ⟨i, h4, h5, h6⟩ := h4
      have : (i = 0) = False := by simp; omega
      simp [release, St.free, h5, h6, h2, h1, heapOf, Clean]

/-! ## Violations -/

/-- The decisions of an execution in which only decision `k` is negative. -/
def only (k : Nat) : Nat → Bool × Bool := fun n => (n != k, true)

/-- **C72 is violated** by `sa_get_device_id`: if the TA refuses, `return` leaves the command behind, in both builds. -/
theorem C72_violated_device_id (shared : Bool) : ∃ f ∈ functions, f.name = "sa_get_device_id" ∧ ∃ p ∈ f.paths, (call shared p (only 1)).live.length = 1 := by
  cases shared <;> exact ⟨_, List.mem_of_getElem? (i := 2) rfl, rfl, _, List.mem_cons_self, by decide⟩

/-- **C72 is violated** by `sa_key_header` with shared memory: every successful call loses the memory of the header. -/
theorem C72_violated_key_header : ∃ f ∈ functions, f.name = "sa_key_header" ∧ ∃ p ∈ f.paths, (call true p fun _ => (true, true)).live.length = 1 :=
  ⟨_, List.mem_of_getElem? (i := 13) rfl, rfl, _, List.mem_cons_self, by decide⟩

/-- **C72 is violated** by `sa_key_provision_ta`: if the command cannot be allocated, NULL is followed. -/
theorem C72_violated_provision (shared : Bool) : ∃ f ∈ functions, f.name = "sa_key_provision_ta" ∧ ∃ p ∈ f.paths, (call shared p (only 0)).fault = true := by
  cases shared <;> exact ⟨_, List.mem_of_getElem? (i := 7) rfl, rfl, _, List.mem_cons_self, by decide⟩

/-- **C72 is violated** by `sa_process_common_encryption` with shared memory: after an allocation has failed for a sample, its memory is lost. -/
theorem C72_violated_samples : (cencCall true true 2 fun i => if i = 0 then only 6 else fun _ => (true, true)).live ≠ [] := by decide

end Sa.C72

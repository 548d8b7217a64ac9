import Verif.Props.C51

/-!
# C56: concurrent calls do not block each other forever
-/

namespace Sa.C56
open Sa.Conc Sa.C51

/-- What can happen from `s` on. -/
inductive XSteps (s : XState) : XState → Prop where
  | refl : XSteps s s
  | step (s' s'' i x) : XSteps s s' → xstep s' i x = some s'' → XSteps s s''

theorem XSteps.reachable {n : Nat} {s s' : XState} (h : XReachable n s) (hs : XSteps s s') : XReachable n s' := by
  induction hs with
  | refl => exact h
  | step s' s'' i x _ hx ih => exact XReachable.step s' s'' i x ih hx

/-- Thread `i` waits for the lock of `o` inside an exclusive acquire. -/
def Waits (s : XState) (i o : Nat) : Prop := ∃ r, (r, Phase.want) ∈ s.xrefs ∧ r.thread = i ∧ r.object = o

/-- Every waiting thread holds only objects before the one it waits for, in some order of the objects. -/
def Ordered (rank : Nat → Nat) (s : XState) : Prop := ∀ i o o', Waits s i o → Operates s i o' → o' ≠ o → rank o' < rank o

theorem exists_max {α : Type} (f : α → Nat) (l : List α) (h : l ≠ []) : ∃ a ∈ l, ∀ b ∈ l, f b ≤ f a := by
  induction l with
  | nil => exact absurd rfl h
  | cons a l ih =>
    by_cases hl : l = []
    · subst hl; exact ⟨a, by simp, by simp⟩
    · obtain ⟨m, h1, h2⟩ := ih hl
      by_cases hle : f m ≤ f a
      · refine ⟨a, by simp, ?_⟩
        intro b hb
        rcases List.mem_cons.mp hb with h | h
        · rw [h]; exact Nat.le_refl _
        · exact Nat.le_trans (h2 b h) hle
      · refine ⟨m, by simp [h1], ?_⟩
        intro b hb
        rcases List.mem_cons.mp hb with h | h
        · rw [h]; omega
        · exact h2 b h

/-- **C56 (partial).**  Whenever threads wait for objects and every thread asks for its objects in ascending order (in particular, if every thread
uses one object of the table at a time), then either a waiting thread can go on at once, or an object waited for is in use by a thread that does
not wait itself.  So no group of threads blocks each other forever.  Missing for the full claim: calls that use two SVP buffers ask for them in
the order of their parameters, see `C56_violated`. -/
theorem C56_progress_partial (n : Nat) (s : XState) (hr : XReachable n s) (hu : s.c.uaf = false) (rank : Nat → Nat) (ho : Ordered rank s) (i o : Nat)
    (hw : Waits s i o) :
    (∃ r, (r, Phase.want) ∈ s.xrefs ∧ (xstep s r.thread (.lock r)).isSome = true) ∨
    (∃ j k o', Waits s j o' ∧ Operates s k o' ∧ j ≠ k ∧ ∀ o'', ¬ Waits s k o'') := by
  have inv := xinv_reachable hr
  let ws := s.xrefs.filter fun e => e.2 == .want
  have hne : ws ≠ [] := by
    obtain ⟨r, hm, _⟩ := hw
    intro h
    have : (r, Phase.want) ∈ ws := List.mem_filter.mpr ⟨hm, by simp⟩
    rw [h] at this
    simp at this
  obtain ⟨⟨r, p⟩, h1, h2⟩ := exists_max (fun e : Ref × Phase => rank e.1.object) ws hne
  obtain ⟨hm, hp⟩ := List.mem_filter.mp h1
  simp only [beq_iff_eq] at hp
  subst hp
  -- a thread that owns the mutex, or finds it free, gets it
  have canLock : ∀ q : Ref, (q, Phase.want) ∈ s.xrefs → (s.owner q.object = none ∨ ∃ d, s.owner q.object = some (q.thread, d)) →
      (xstep s q.thread (.lock q)).isSome = true := by
    intro q hq h
    unfold xstep
    rw [if_neg (by simp [hu])]
    simp only
    rw [if_pos ⟨hq, trivial⟩]
    rcases h with h | ⟨d, h⟩
    · rw [h]; rfl
    · rw [h]; simp
  rcases inv.mutex r.object with ⟨hn, _⟩ | ⟨t, d, hown, hcnt, hd, hall⟩
  · exact Or.inl ⟨r, hm, canLock r hm (Or.inl hn)⟩
  · by_cases ht : t = r.thread
    · exact Or.inl ⟨r, hm, canLock r hm (Or.inr ⟨d, by rw [hown, ht]⟩)⟩
    · obtain ⟨e, he, hh⟩ := List.countP_pos_iff.mp (by rw [hcnt]; exact hd : 0 < s.xrefs.countP (holds r.object))
      have hop : Operates s t r.object := by
        refine ⟨e.1, e.2, he, ?_, hall e he hh, ?_⟩ <;> simp [holds] at hh
        · exact hh.2
        · exact hh.1
      by_cases hex : ∃ o'', Waits s t o''
      · obtain ⟨o'', q, hq, hqt, hqo⟩ := hex
        by_cases hsame : r.object = o''
        · refine Or.inl ⟨q, hq, canLock q hq (Or.inr ⟨d, ?_⟩)⟩
          rw [hqo, ← hsame, hown, hqt]
        · have hlt := ho t o'' r.object ⟨q, hq, hqt, hqo⟩ hop hsame
          have := h2 (q, .want) (List.mem_filter.mpr ⟨hq, by simp⟩)
          simp only at this
          rw [hqo] at this
          omega
      · refine Or.inr ⟨r.thread, t, r.object, ⟨r, hm, rfl, rfl⟩, hop, fun h => ht h.symm, ?_⟩
        intro o'' h
        exact hex ⟨o'', h⟩

/-- Two threads that wait for each other. -/
structure Deadlock (s : XState) (r0 q0 r1 q1 : Ref) : Prop where
  l0 : (r0, Phase.locked) ∈ s.xrefs
  w0 : (q0, Phase.want) ∈ s.xrefs
  l1 : (r1, Phase.locked) ∈ s.xrefs
  w1 : (q1, Phase.want) ∈ s.xrefs
  t0 : r0.thread = q0.thread
  t1 : r1.thread = q1.thread
  ne : r0.thread ≠ r1.thread
  o0 : q0.object = r1.object
  o1 : q1.object = r0.object

theorem deadlock_step {n : Nat} {s s' : XState} (hr : XReachable n s) {i : Nat} {x : XChoice} (hx : xstep s i x = some s') {r0 q0 r1 q1 : Ref}
    (d : Deadlock s r0 q0 r1 q1) : Deadlock s' r0 q0 r1 q1 := by
  have op0 : Operates s r0.thread r0.object := ⟨r0, _, d.l0, Or.inl rfl, rfl, rfl⟩
  have op1 : Operates s r1.thread r1.object := ⟨r1, _, d.l1, Or.inl rfl, rfl, rfl⟩
  have lockThread : ∀ q, x = .lock q → q.thread = i := by
    intro q hq
    subst hq
    unfold xstep at hx
    split at hx
    · simp at hx
    · simp only at hx
      split at hx
      · rename_i h; exact h.2
      · simp at hx
  have n0 : x ≠ .lock q0 := by
    intro e
    have hi := lockThread q0 e
    rw [e, C51_waits n s hr r1.thread r1.object op1 q0 d.o0 i (by rw [← hi, ← d.t0]; exact d.ne)] at hx
    simp at hx
  have n1 : x ≠ .lock q1 := by
    intro e
    have hi := lockThread q1 e
    rw [e, C51_waits n s hr r0.thread r0.object op0 q1 d.o1 i (by rw [← hi, ← d.t1]; exact fun h => d.ne h.symm)] at hx
    simp at hx
  exact {
    l0 := entry_stable hx r0 _ (by simp) d.l0 (Or.inr (by simp)) fun h => Or.inl (by rw [← h, d.t0]; exact has_of d.w0)
    w0 := entry_stable hx q0 _ (by simp) d.w0 (Or.inl n0) fun h => Or.inl (by rw [← h]; exact has_of d.w0)
    l1 := entry_stable hx r1 _ (by simp) d.l1 (Or.inr (by simp)) fun h => Or.inl (by rw [← h, d.t1]; exact has_of d.w1)
    w1 := entry_stable hx q1 _ (by simp) d.w1 (Or.inl n1) fun h => Or.inl (by rw [← h]; exact has_of d.w1)
    t0 := d.t0, t1 := d.t1, ne := d.ne, o0 := d.o0, o1 := d.o1 }

theorem deadlock_forever {n : Nat} {s s' : XState} (hr : XReachable n s) (hs : XSteps s s') {r0 q0 r1 q1 : Ref} (d : Deadlock s r0 q0 r1 q1) :
    Deadlock s' r0 q0 r1 q1 := by
  induction hs with
  | refl => exact d
  | step s' s'' i x h hx ih => exact deadlock_step (h.reachable hr) hx ih

/-- Thread 0 copies from SVP buffer 30 to 31 (`ta_sa_svp_buffer_copy.c:55-65`: first `out`, then `in`), thread 1 from 31 to 30, at the same time. -/
def copies : List (Nat × XChoice) :=
  add 0 7 ++ add 0 8 ++ acq 0 31 ++ [(0, .lock (ref 0 31 7))] ++ acq 1 30 ++ [(1, .lock (ref 1 30 8))] ++ acq 0 30 ++ acq 1 31

/-- **C56 is violated**: two threads copying between the same two SVP buffers in opposite directions.  Each has locked its output buffer and waits
for its input buffer; whatever the other threads do, both wait forever. -/
theorem C56_violated : ∃ s, xrun (xinit C04.st32 2) copies = some s ∧ s.c.uaf = false ∧ ∀ s', XSteps s s' → Waits s' 0 8 ∧ Waits s' 1 7 := by
  obtain ⟨s, hs, hc⟩ : ∃ s, xrun (xinit C04.st32 2) copies = some s ∧ (s.c.uaf = false ∧
      s.xrefs = [(ref 1 31 7, .want), (ref 0 30 8, .want), (ref 1 30 8, .locked), (ref 0 31 7, .locked)]) :=
    ⟨_, rfl, by decide +kernel, by decide +kernel⟩
  refine ⟨s, hs, hc.1, ?_⟩
  intro s' hss
  have hr : XReachable 32 s := xrun_reachable _ (XReachable.init _ _ st32_init) hs
  have d : Deadlock s (ref 0 31 7) (ref 0 30 8) (ref 1 30 8) (ref 1 31 7) := by
    constructor <;> first | (rw [hc.2]; simp) | rfl | decide
  have d' := deadlock_forever hr hss d
  exact ⟨⟨_, d'.w0, rfl, rfl⟩, ⟨_, d'.w1, rfl, rfl⟩⟩

/-- Non-trivial case of the partial theorem: both threads copy from 30 to 31.  Thread 1 waits for 31, which thread 0 has, and thread 0 waits for
nothing. -/
def ordered : List (Nat × XChoice) :=
  add 0 7 ++ add 0 8 ++ acq 0 31 ++ [(0, .lock (ref 0 31 7))] ++ acq 1 31 ++ acq 0 30 ++ [(0, .lock (ref 0 30 8))]

example : ∃ s, xrun (xinit C04.st32 2) ordered = some s ∧ s.c.uaf = false ∧ Ordered id s ∧ Waits s 1 7 := by
  obtain ⟨s, hs, hc⟩ : ∃ s, xrun (xinit C04.st32 2) ordered = some s ∧ (s.c.uaf = false ∧
      s.xrefs = [(ref 0 30 8, .locked), (ref 1 31 7, .want), (ref 0 31 7, .locked)]) :=
    ⟨_, rfl, by decide +kernel, by decide +kernel⟩
  refine ⟨s, hs, hc.1, ?_, ⟨ref 1 31 7, by rw [hc.2]; simp, rfl, rfl⟩⟩
  intro i o o' hw hop
  obtain ⟨r, h1, h2, h3⟩ := hw
  obtain ⟨q, p, h4, h5, h6, h7⟩ := hop
  rw [hc.2] at h1 h4
  simp only [List.mem_cons, Prod.mk.injEq, List.not_mem_nil, or_false, reduceCtorEq, and_false, false_or, and_true] at h1
  subst h1
  subst h2
  simp only [List.mem_cons, Prod.mk.injEq, List.not_mem_nil, or_false] at h4
  rcases h4 with ⟨h, _⟩ | ⟨_, h⟩ | ⟨h, _⟩
  · rw [h] at h6; simp [ref] at h6
  · rw [h] at h5; simp at h5
  · rw [h] at h6; simp [ref] at h6

end Sa.C56

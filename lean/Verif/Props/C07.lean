import Verif.Lemmas.Client

/-!
# C07: sessions are isolated from each other
-/

namespace Sa.C07

variable {α : Type} [DecidableEq α]

/-- The calls made in session `h` by its owner `u`, in order. -/
def sessionCalls (h : Nat) (u : Uuid) : List (WOp α) → List (List (ClientOp α))
  | [] => []
  | .call h' u' ops :: rest => if h' = h ∧ u' = u then ops :: sessionCalls h u rest else sessionCalls h u rest
  | _ :: rest => sessionCalls h u rest

/-- The responses to those calls, in order. -/
def sessionResps (h : Nat) (u : Uuid) : List (WOp α × WResp α) → List (WResp α)
  | [] => []
  | (.call h' u' _, r) :: rest => if h' = h ∧ u' = u then r :: sessionResps h u rest else sessionResps h u rest
  | _ :: rest => sessionResps h u rest

/-- The same calls made on four tables that nobody else uses. -/
def alone (c : Client α) : List (List (ClientOp α)) → List (WResp α)
  | [] => []
  | ops :: rest => .called .OK (clientSteps c ops).2 :: alone (clientSteps c ops).1 rest

theorem session_alone (after : List (WOp α)) (w : World α) (inv : WInv w) (h p : Nat) (c : Client α) (u : Uuid)
    (ho : (w.clients.obj h).object = some p) (hu : (w.clients.obj h).ownerUuid = u) (hc : w.heap p = some c)
    (hnc : ∀ op ∈ after, ∀ v, op ≠ .close h v) :
    ∃ w' es, wrun w after = some (w', es) ∧ WInv w' ∧ sessionResps h u es = alone c (sessionCalls h u after) := by
  induction after generalizing w c with
  | nil => exact ⟨w, [], rfl, inv, rfl⟩
  | cons op ops ih =>
    obtain ⟨r, hr, hinv, hses⟩ := wstep_session w inv op
    obtain ⟨s1, s2, s3⟩ := hses h p c ho hc (hnc op (by simp))
    rw [hu] at s2 s3
    by_cases hown : ∃ o, op = .call h u o
    · obtain ⟨o, rfl⟩ := hown
      obtain ⟨t1, t2⟩ := s2 o rfl
      obtain ⟨w', es, e1, e2, e3⟩ := ih r.1 hinv _ (by rw [s1]; exact ho) (by rw [s1]; exact hu) t2
        (fun op hop => hnc op (by simp [hop]))
      refine ⟨w', (.call h u o, r.2) :: es, ?_, e2, ?_⟩
      · unfold wrun; rw [hr]; simp only; rw [e1]
      · simp only [sessionResps, sessionCalls, and_self, if_true, alone, t1, e3]
    · have hown' : ∀ o, op ≠ .call h u o := fun o e => hown ⟨o, e⟩
      obtain ⟨w', es, e1, e2, e3⟩ := ih r.1 hinv c (by rw [s1]; exact ho) (by rw [s1]; exact hu) (s3 hown')
        (fun op hop => hnc op (by simp [hop]))
      refine ⟨w', (op, r.2) :: es, ?_, e2, ?_⟩
      · unfold wrun; rw [hr]; simp only; rw [e1]
      · cases op with
        | «open» _ _ => simpa only [sessionResps, sessionCalls] using e3
        | close _ _ => simpa only [sessionResps, sessionCalls] using e3
        | call h' u' o =>
          have : ¬ (h' = h ∧ u' = u) := by rintro ⟨rfl, rfl⟩; exact hown' o rfl
          simp only [sessionResps, sessionCalls, if_neg this, e3]

theorem wrun_inv (ops : List (WOp α)) (w : World α) (inv : WInv w) : ∃ w' es, wrun w ops = some (w', es) ∧ WInv w' := by
  induction ops generalizing w with
  | nil => exact ⟨w, [], rfl, inv⟩
  | cons op ops ih =>
    obtain ⟨r, hr, hinv, _⟩ := wstep_session w inv op
    obtain ⟨w', es, e1, e2⟩ := ih r.1 hinv
    exact ⟨w', (op, r.2) :: es, by unfold wrun; rw [hr]; simp only; rw [e1], e2⟩

/-- **C07.**  Take any history of the TA — any sessions opened, used and closed — then open a session (handle `h`, caller `u`), then any
further history in which that session is not closed.  The responses to the calls made in that session are exactly those of the
same calls made on four empty tables that nobody else uses.  So nothing that happens in other sessions, before or after, even by the same
caller and with equal handle values, is visible in it, and it can not use or destroy anything of theirs. -/
theorem C07_sessions_isolated (w0 w1 w2 : World α) (h0 : worldInit α = some w0) (before after : List (WOp α)) (es0)
    (hb : wrun w0 before = some (w1, es0)) (u : Uuid) (ptr h : Nat) (hopen : wstep w1 (.open u ptr) = some (w2, .opened .OK h))
    (hnc : ∀ op ∈ after, ∀ v, op ≠ .close h v) :
    ∃ w3 es fresh, wrun w2 after = some (w3, es) ∧ clientInit α = some fresh ∧
      sessionResps h u es = alone fresh (sessionCalls h u after) := by
  obtain ⟨w', es', e1, inv1⟩ := wrun_inv before w0 (winv_init w0 h0)
  rw [hb] at e1
  simp only [Option.some.injEq, Prod.mk.injEq] at e1
  obtain ⟨rfl, _⟩ := e1
  obtain ⟨c0, hc0⟩ := clientInit_some α
  obtain ⟨r, hr, inv2, _⟩ := wstep_session w1 inv1 (.open u ptr)
  rw [hopen] at hr
  simp only [Option.some.injEq] at hr
  have key : (w2.clients.obj h).object = some ptr ∧ (w2.clients.obj h).ownerUuid = u ∧ w2.heap ptr = some c0 := by
    unfold wstep at hopen
    simp only at hopen
    split at hopen
    · simp at hopen
    · rw [hc0] at hopen
      simp only at hopen
      obtain ⟨a1, a2, a3, _, a4⟩ := add_spec w1.clients inv1.live.toStoreInv inv1.live.up ptr u
      generalize hres : objectStoreAdd w1.clients ptr u = res at *
      obtain ⟨st, s, slot⟩ := res
      simp only at a4
      rcases a4 with ⟨b1, b2, b3, b4⟩ | ⟨b1, b2, b3, b4⟩
      · subst b1; simp at hopen
      · subst b1
        simp only [Option.some.injEq, Prod.mk.injEq, WResp.opened.injEq, true_and] at hopen
        obtain ⟨rfl, rfl⟩ := hopen
        simp [b4]
  have inv2' : WInv w2 := by rw [← hr] at inv2; exact inv2
  obtain ⟨w3, es, e1, _, e3⟩ := session_alone after w2 inv2' h ptr c0 u key.1 key.2.1 key.2.2 hnc
  exact ⟨w3, es, c0, e1, hc0, e3⟩

/-- No history uses a freed client. -/
theorem C07_no_use_after_free (w0 : World α) (h0 : worldInit α = some w0) (ops : List (WOp α)) :
    ∃ r, wrun w0 ops = some r := by
  obtain ⟨w', es, e, _⟩ := wrun_inv ops w0 (winv_init w0 h0)
  exact ⟨_, e⟩

/-- **C07 (same calls, any surroundings).**  Two histories that agree on the calls made in the session give the same responses in it,
whatever else differs. -/
theorem C07_noninterference (w0 w1 w1' w2 w2' : World α) (h0 : worldInit α = some w0) (before before' after after' : List (WOp α))
    (es0 es0') (hb : wrun w0 before = some (w1, es0)) (hb' : wrun w0 before' = some (w1', es0'))
    (u : Uuid) (ptr ptr' h h' : Nat) (hopen : wstep w1 (.open u ptr) = some (w2, .opened .OK h))
    (hopen' : wstep w1' (.open u ptr') = some (w2', .opened .OK h'))
    (hnc : ∀ op ∈ after, ∀ v, op ≠ .close h v) (hnc' : ∀ op ∈ after', ∀ v, op ≠ .close h' v)
    (hsame : sessionCalls h u after = sessionCalls h' u after') :
    (wrun w2 after).map (fun r => sessionResps h u r.2) = (wrun w2' after').map (fun r => sessionResps h' u r.2) := by
  obtain ⟨w3, es, f, e1, e2, e3⟩ := C07_sessions_isolated w0 w1 w2 h0 before after es0 hb u ptr h hopen hnc
  obtain ⟨w3', es', f', e1', e2', e3'⟩ := C07_sessions_isolated w0 w1' w2' h0 before' after' es0' hb' u ptr' h' hopen' hnc'
  rw [e2] at e2'
  simp only [Option.some.injEq] at e2'
  subst e2'
  rw [e1, e1']
  simp only [Option.map_some, e3, e3', hsame]

/-! ## The four tables of a session -/

def keyOps : List (ClientOp α) → List (StoreOp α) := List.filterMap fun | .key op => some op | _ => none
def cipherOps : List (ClientOp α) → List (StoreOp α) := List.filterMap fun | .cipher op => some op | _ => none
def macOps : List (ClientOp α) → List (StoreOp α) := List.filterMap fun | .mac op => some op | _ => none
def svpOps : List (ClientOp α) → List (StoreOp α) := List.filterMap fun | .svp op => some op | _ => none

/-- Responses of one kind of call. -/
def respsOf (sel : ClientOp α → Bool) : List (ClientOp α) → List (StoreResp α) → List (StoreResp α)
  | op :: ops, r :: rs => if sel op then r :: respsOf sel ops rs else respsOf sel ops rs
  | _, _ => []

/-- The calls on one table alone. -/
def tableRun (st : ObjectStore α) : List (StoreOp α) → List (StoreResp α)
  | [] => []
  | op :: ops => (storeStep st op).2 :: tableRun (storeStep st op).1 ops

/-- **C07 (tables).**  The four tables of a session do not see each other: the calls on keys get the responses they would get if there were no
calls on ciphers, MACs and SVP buffers, and so on for each. -/
theorem C07_tables_independent (c : Client α) (ops : List (ClientOp α)) :
    respsOf (fun | .key _ => true | _ => false) ops (clientSteps c ops).2 = tableRun c.keyStore (keyOps ops) ∧
    respsOf (fun | .cipher _ => true | _ => false) ops (clientSteps c ops).2 = tableRun c.cipherStore (cipherOps ops) ∧
    respsOf (fun | .mac _ => true | _ => false) ops (clientSteps c ops).2 = tableRun c.macStore (macOps ops) ∧
    respsOf (fun | .svp _ => true | _ => false) ops (clientSteps c ops).2 = tableRun c.svpStore (svpOps ops) := by
  induction ops generalizing c with
  | nil => exact ⟨rfl, rfl, rfl, rfl⟩
  | cons op ops ih =>
    obtain ⟨h1, h2, h3, h4⟩ := ih (clientStep c op).1
    cases op <;>
      simp only [clientSteps, clientStep, respsOf, keyOps, cipherOps, macOps, svpOps, List.filterMap_cons, tableRun, if_true, Bool.false_eq_true,
        if_false] at h1 h2 h3 h4 ⊢ <;>
      rw [h1, h2, h3, h4] <;> exact ⟨rfl, rfl, rfl, rfl⟩

/-! ## Concrete case: two sessions of the same caller, equal handle values. -/

def u1 : Uuid := Vector.replicate 16 1

def hist : List (WOp Nat) :=
  [.open u1 100, .open u1 200, .call 31 u1 [.key (.add 7 u1)], .call 30 u1 [.key (.acquire 31 u1)],
   .call 30 u1 [.key (.remove 31 u1), .mac (.acquire 31 u1)], .call 31 u1 [.key (.acquire 31 u1)]]

def show' : WResp Nat → Status × List (StoreResp Nat)
  | .opened s h => (s, [.added s h])
  | .closed s => (s, [])
  | .called s rs => (s, rs)
  | .waits => (.INTERNAL_ERROR, [])

/-- Session 31 stores object 7 at handle 31; session 30 can neither acquire nor remove handle 31; session 31 still can. -/
example : ((worldInit Nat).bind fun w => wrun w hist).map (fun r => r.2.map (fun e => show' e.2)) = some
    [(.OK, [.added .OK 31]), (.OK, [.added .OK 30]), (.OK, [.added .OK 31]), (.OK, [.acquired .INVALID_PARAMETER none]),
     (.OK, [.removed .INVALID_PARAMETER none, .acquired .INVALID_PARAMETER none]), (.OK, [.acquired .OK (some 7)])] := by
  decide +kernel

end Sa.C07

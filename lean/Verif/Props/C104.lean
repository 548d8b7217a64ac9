import Verif.Lemmas.Whole
import Verif.Props.C08

/-!
# C104: what a TA is told does not depend on what other TAs do in their sessions
-/

namespace Sa.Whole.C104

variable {κ ρ π σ τ : Type}

/-- What `u` is told, in order. -/
def told (u : Uuid) (ts : List (Uuid × Told)) : List Told := (ts.filter fun x => decide (x.1 = u)).map (·.2)

/-- The history without the calls that others make in sessions (whether theirs or not).  That they open and close sessions stays: the number of a session tells how many others there
are. -/
def purge (u : Uuid) : List (Request κ ρ π) → List (Request κ ρ π)
  | [] => []
  | .open v p :: rs => .open v p :: purge u rs
  | .close h v :: rs => .close h v :: purge u rs
  | .call h v c :: rs => if v = u then .call h v c :: purge u rs else purge u rs

/-- The two TAs have the same sessions, and those of `u` have the same tables. -/
structure Same (u : Uuid) (a b : Ta σ τ) : Prop where
  clients : a.clients = b.clients
  used : ∀ p, (a.heap p).isSome = (b.heap p).isSome
  own : ∀ h p, (a.clients.obj h).object = some p → (a.clients.obj h).ownerUuid = u → a.heap p = b.heap p

theorem Same.inv {u : Uuid} {a b : Ta σ τ} (s : Same u a b) (inv : TaInv a) : TaInv b :=
  ⟨s.clients ▸ inv.live, s.clients ▸ inv.idle, fun h p e => by rw [← s.used]; exact inv.inHeap h p (s.clients ▸ e), s.clients ▸ inv.inj⟩

/-- A call of another changes nothing of `u`. -/
theorem foreign (d : Device σ τ) (u v : Uuid) (huv : v ≠ u) (a b : Ta σ τ) (s : Same u a b) (inv : TaInv a) (h : Nat) (c : Cmd κ ρ π) (x : Ta σ τ × Told)
    (hx : handle d a (.call h v c) = some x) : Same u x.1 b := by
  rcases call_cases d a inv h v c with ⟨_, e, _⟩ | ⟨ptr, t, ho, hv, ht, e⟩
  · rw [e] at hx; cases hx; exact s
  · rw [e] at hx
    cases hs : serve d t v c with
    | none => rw [hs] at hx; simp at hx
    | some y =>
      rw [hs] at hx
      simp only [Option.map_some, Option.some.injEq] at hx
      subst hx
      refine ⟨s.clients, fun p => ?_, fun h' p e1 e2 => ?_⟩
      · simp only
        split
        · rename_i hp; subst hp; rw [← s.used, ht]; rfl
        · exact s.used p
      · simp only
        rw [if_neg]
        · exact s.own h' p e1 e2
        · rintro rfl
          have := inv.inj h' h p e1 ho
          subst this
          exact huv (hv.symm.trans e2)

theorem objects_eq {a b : Ta σ τ} (h : a.clients = b.clients) : a.clients.obj = b.clients.obj := by rw [h]

/-- The same request in both: the same is told, and the TAs stay the same for `u`. -/
theorem together (d : Device σ τ) (u : Uuid) (a b : Ta σ τ) (s : Same u a b) (inv : TaInv a) (r : Request κ ρ π) (hr : ∀ h v c, r = .call h v c → v = u)
    (x : Ta σ τ × Told) (hx : handle d a r = some x) : ∃ y, handle d b r = some y ∧ y.2 = x.2 ∧ Same u x.1 y.1 := by
  obtain ⟨ac, ah⟩ := a
  obtain ⟨bc, bh⟩ := b
  have hc : ac = bc := s.clients
  subst hc
  have hused : ∀ p, (ah p).isSome = (bh p).isSome := s.used
  cases r with
  | «open» v ptr =>
    unfold handle at hx ⊢
    simp only at hx ⊢
    rw [← hused]
    split
    · rename_i hp
      rw [if_pos hp] at hx; cases hx
      exact ⟨_, rfl, rfl, s⟩
    · rename_i hp
      rw [if_neg hp] at hx
      obtain ⟨t, ht⟩ := newTables_some σ τ
      rw [ht] at hx ⊢
      simp only at hx ⊢
      obtain ⟨a1, a2, a3, _, a4⟩ := add_spec ac inv.live.toStoreInv inv.live.up ptr v
      generalize objectStoreAdd ac ptr v = res at *
      obtain ⟨st, st', slot⟩ := res
      simp only at a1 a2 a3 a4
      rcases a4 with ⟨rfl, b2, b3, b4⟩ | ⟨rfl, b2, b3, b4⟩
      · simp only at hx ⊢
        cases hx
        exact ⟨_, rfl, rfl, ⟨rfl, hused, fun h p e1 e2 => s.own h p (by simpa only [b4] using e1) (by simpa only [b4] using e2)⟩⟩
      · simp only at hx ⊢
        cases hx
        refine ⟨_, rfl, rfl, ⟨rfl, fun p => ?_, fun h p e1 e2 => ?_⟩⟩
        · simp only
          split
          · rfl
          · exact hused p
        · simp only at e1 e2 ⊢
          split
          · rfl
          · rename_i hne
            rw [b4] at e1 e2
            split at e1
            · simp only [Option.some.injEq] at e1; exact absurd e1.symm hne
            · rename_i hh
              rw [if_neg hh] at e2
              exact s.own h p e1 e2
  | close session v =>
    unfold handle at hx ⊢
    simp only at hx ⊢
    rcases remove_spec ac inv.live session v with ⟨h0, h1⟩ | ⟨h0, h1⟩ | ⟨st', h0, _, _, _, _, _, _, hrc⟩ | ⟨st', o, h0, h1, h2, h3, h4, h5, h6, h7⟩
    · simp only [h0] at hx ⊢; cases hx
      exact ⟨_, rfl, rfl, s⟩
    · simp only [h0] at hx ⊢; cases hx
      exact ⟨_, rfl, rfl, s⟩
    · exact absurd (inv.idle session) hrc
    · simp only [h0] at hx ⊢; cases hx
      refine ⟨_, rfl, rfl, ⟨rfl, fun p => ?_, fun h p e1 e2 => ?_⟩⟩
      · simp only
        split
        · rfl
        · exact hused p
      · simp only at e1 e2 ⊢
        split
        · rfl
        · rw [h7] at e1 e2
          split at e1
          · simp at e1
          · rename_i hh
            rw [if_neg hh] at e2
            exact s.own h p e1 e2
  | call session v c =>
    obtain rfl := hr session v c rfl
    unfold handle at hx ⊢
    simp only at hx ⊢
    rcases acquire_cases ac inv.live session v with ⟨st, hs, h0, hbad⟩ | ⟨st1, ptr, h0, ho, hu⟩
    · simp only [h0] at hx ⊢; cases hx
      exact ⟨_, rfl, rfl, s⟩
    · simp only [h0] at hx ⊢
      have hp : ah ptr = bh ptr := s.own session ptr ho hu
      rw [← hp]
      rw [acquire_release ac inv.live.len session v st1 ptr h0] at hx ⊢
      cases ht : ah ptr with
      | none => rw [ht] at hx; simp at hx
      | some t =>
        rw [ht] at hx
        simp only at hx ⊢
        cases hserve : serve d t v c with
        | none => rw [hserve] at hx; simp at hx
        | some y =>
          rw [hserve] at hx
          simp only at hx ⊢
          cases hx
          refine ⟨_, rfl, rfl, ⟨rfl, fun p => ?_, fun h p e1 e2 => ?_⟩⟩
          · simp only
            split
            · rfl
            · exact hused p
          · simp only
            split
            · rfl
            · exact s.own h p e1 e2

theorem purged (d : Device σ τ) (u : Uuid) (rs : List (Request κ ρ π)) (a b : Ta σ τ) (s : Same u a b) (inv : TaInv a) (x : Ta σ τ × List (Uuid × Told))
    (hx : handleAll d a rs = some x) : ∃ y, handleAll d b (purge u rs) = some y ∧ told u y.2 = told u x.2 := by
  induction rs generalizing a b x with
  | nil => cases hx; exact ⟨_, rfl, rfl⟩
  | cons r rs ih =>
    unfold handleAll at hx
    cases h1 : handle d a r with
    | none => rw [h1] at hx; simp at hx
    | some z =>
      rw [h1] at hx
      obtain ⟨a1, t⟩ := z
      simp only at hx
      cases h2 : handleAll d a1 rs with
      | none => rw [h2] at hx; simp at hx
      | some z' =>
        rw [h2] at hx
        obtain ⟨a2, ts⟩ := z'
        simp only at hx
        cases hx
        have inv1 : TaInv a1 := handle_inv d a inv r (a1, t) h1
        have keep : (∀ h v c, r = .call h v c → v = u) → ∃ y, handleAll d b (r :: purge u rs) = some y ∧ told u y.2 = told u ((r.caller, t) :: ts) := by
          intro hr
          obtain ⟨⟨b1, t'⟩, e1, e2, e3⟩ := together d u a b s inv r hr (a1, t) h1
          simp only at e2 e3
          subst e2
          obtain ⟨⟨b2, ts'⟩, e4, e5⟩ := ih a1 b1 e3 inv1 (a2, ts) h2
          refine ⟨(b2, (r.caller, t') :: ts'), ?_, ?_⟩
          · unfold handleAll
            rw [e1]; simp only; rw [e4]
          · simp only [told, List.filter_cons] at e5 ⊢
            split
            · simp only [List.map_cons, e5]
            · exact e5
        cases r with
        | «open» v p => exact keep (fun _ _ _ e => by simp at e)
        | close h v => exact keep (fun _ _ _ e => by simp at e)
        | call h v c =>
          unfold purge
          by_cases hv : v = u
          · rw [if_pos hv]
            exact keep (fun _ _ _ e => by simp only [Request.call.injEq] at e; rw [← e.2.1]; exact hv)
          · rw [if_neg hv]
            obtain ⟨y, e4, e5⟩ := ih a1 b (foreign d u v hv a b s inv h c (a1, t) h1) inv1 (a2, ts) h2
            refine ⟨y, e4, ?_⟩
            rw [e5]
            simp only [told, List.filter_cons]
            rw [if_neg]
            simp [Request.caller, hv]

/-- **C104 (others are not noticed).**  Take any history of a TA that starts without sessions: sessions opened, used and closed by any callers, with keys made, imported, derived and
agreed, contexts set up and used, SVP buffers filled.  Leave out every call that others than `u` make in sessions.  Then `u` is told exactly the same: every status, handle, header,
exported key, signature, MAC, public key and every byte written to its memory. -/
theorem C104_purge (d : Device σ τ) (w0 w : Ta σ τ) (h0 : start σ τ = some w0) (rs : List (Request κ ρ π)) (ts : List (Uuid × Told)) (h : handleAll d w0 rs = some (w, ts))
    (u : Uuid) : ∃ w' ts', handleAll d w0 (purge u rs) = some (w', ts') ∧ told u ts' = told u ts := by
  obtain ⟨⟨w', ts'⟩, e1, e2⟩ := purged d u rs w0 w0 ⟨rfl, fun _ => rfl, fun _ _ _ _ => rfl⟩ (start_inv w0 h0) (w, ts) h
  exact ⟨w', ts', e1, e2⟩

/-- **C104 (no secrets).**  Two histories that differ in what others do in sessions only - which keys they import, what they derive, encrypt, sign or release, how often - tell `u` the
same. -/
theorem C104_secrets (d : Device σ τ) (w0 wx wy : Ta σ τ) (h0 : start σ τ = some w0) (u : Uuid) (x y : List (Request κ ρ π)) (same : purge u x = purge u y)
    (tx ty : List (Uuid × Told)) (hx : handleAll d w0 x = some (wx, tx)) (hy : handleAll d w0 y = some (wy, ty)) : told u tx = told u ty := by
  obtain ⟨w1, t1, e1, f1⟩ := C104_purge d w0 wx h0 x tx hx u
  obtain ⟨w2, t2, e2, f2⟩ := C104_purge d w0 wy h0 y ty hy u
  rw [same, e2] at e1
  cases e1
  rw [← f1, ← f2]

/-- Who holds which session after a request, told by the requests and what the callers were told alone. -/
def holder (own : Nat → Option Uuid) : Request κ ρ π × Uuid × Told → Nat → Option Uuid
  | (.open u _, _, .opened .OK h) => fun h' => if h' = h then some u else own h'
  | (.close h _, _, .closed .OK) => fun h' => if h' = h then none else own h'
  | _ => own

/-- Who holds which session after a history. -/
def holders (rs : List (Request κ ρ π)) (ts : List (Uuid × Told)) : Nat → Option Uuid := (rs.zip ts).foldl holder fun _ => none

/-- The table says so, too. -/
def Holds (w : Ta σ τ) (own : Nat → Option Uuid) : Prop := ∀ h, own h = (w.clients.obj h).object.map fun _ => (w.clients.obj h).ownerUuid

theorem holds_step (d : Device σ τ) (w : Ta σ τ) (inv : TaInv w) (own : Nat → Option Uuid) (ho : Holds w own) (r : Request κ ρ π) (w' : Ta σ τ) (t : Told)
    (h : handle d w r = some (w', t)) : Holds w' (holder own (r, r.caller, t)) := by
  cases r with
  | «open» u ptr =>
    rcases open_cases (κ := κ) (ρ := ρ) (π := π) d w inv u ptr with ⟨st, s, n, e, hs, hl, hob⟩ | ⟨st, n, tb, e, _, hn, hl, hfree, hob⟩
    · rw [e] at h; cases h
      intro h'
      rw [hob, ← ho h']
      cases s <;> first | rfl | exact absurd rfl hs
    · rw [e] at h; cases h
      intro h'
      simp only [hob, holder]
      split
      · rfl
      · exact ho h'
  | close n u =>
    rcases close_cases (κ := κ) (ρ := ρ) (π := π) d w inv n u with ⟨s, e, hs, _⟩ | ⟨st, ptr, e, h4, h5, hl, hi, hob⟩
    · rw [e] at h; cases h
      intro h'
      rw [← ho h']
      cases s <;> first | rfl | exact absurd rfl hs
    · rw [e] at h; cases h
      intro h'
      simp only [hob, holder]
      split
      · rfl
      · exact ho h'
  | call n u c =>
    rcases call_cases d w inv n u c with ⟨s, e, _⟩ | ⟨ptr, tb, _, _, _, e⟩
    · rw [e] at h; cases h; exact ho
    · rw [e] at h
      cases hs : serve d tb u c with
      | none => rw [hs] at h; simp at h
      | some y => rw [hs] at h; cases h; exact ho

theorem holds_all (d : Device σ τ) (rs : List (Request κ ρ π)) (w : Ta σ τ) (inv : TaInv w) (own : Nat → Option Uuid) (ho : Holds w own) (w' : Ta σ τ) (ts : List (Uuid × Told))
    (h : handleAll d w rs = some (w', ts)) : TaInv w' ∧ Holds w' ((rs.zip ts).foldl holder own) := by
  induction rs generalizing w own ts with
  | nil => cases h; exact ⟨inv, ho⟩
  | cons r rs ih =>
    unfold handleAll at h
    cases h1 : handle d w r with
    | none => rw [h1] at h; simp at h
    | some z =>
      rw [h1] at h
      obtain ⟨w1, t⟩ := z
      simp only at h
      cases h2 : handleAll d w1 rs with
      | none => rw [h2] at h; simp at h
      | some z' =>
        rw [h2] at h
        obtain ⟨w2, ts'⟩ := z'
        simp only at h
        cases h
        exact ih w1 (handle_inv d w inv r _ h1) _ (holds_step d w inv own ho r w1 t h1) ts' h2

/-- **C104 (the session is the right to it).**  After any history a call in session `h` by `u` is served if and only if `u` was given that session, by a successful request to open,
and it was not closed since.  Otherwise it is refused and changes nothing: no table of any session. -/
theorem C104_refused (d : Device σ τ) (w0 w w' : Ta σ τ) (h0 : start σ τ = some w0) (rs : List (Request κ ρ π)) (ts : List (Uuid × Told)) (hw : handleAll d w0 rs = some (w, ts))
    (h : Nat) (u : Uuid) (c : Cmd κ ρ π) (t : Told) (ht : handle d w (.call h u c) = some (w', t)) :
    if holders rs ts h = some u then ∃ r, t = .reply r else (∃ s, s ≠ Status.OK ∧ t = .refused s) ∧ w' = w := by
  have none_held : Holds w0 fun _ => none := by
    intro h
    unfold start at h0
    cases e : objectStoreInit Nat 256 with
    | none => rw [e] at h0; simp at h0
    | some st =>
      rw [e] at h0
      simp only [Option.map_some, Option.some.injEq] at h0
      subst h0
      obtain ⟨_, _, _, _, h5⟩ := objectStoreInit_inv 256 st (by decide) e
      simp [h5, StoreObject.zero]
  obtain ⟨inv, ho⟩ := holds_all d rs w0 (start_inv w0 h0) _ none_held w ts hw
  have hh : holders rs ts h = _ := ho h
  rcases call_cases d w inv h u c with ⟨s, e, hs, hbad⟩ | ⟨ptr, tb, h4, h5, _, e⟩
  · rw [e] at ht; cases ht
    rw [if_neg]
    · exact ⟨⟨s, hs, rfl⟩, rfl⟩
    · rw [hh]
      rcases hbad with hbad | hbad
      · rw [hbad]; simp
      · cases (w.clients.obj h).object <;> simp [hbad]
  · rw [if_pos (by rw [hh, h4, h5]; rfl)]
    rw [e] at ht
    cases hs : serve d tb u c with
    | none => rw [hs] at ht; simp at ht
    | some y => rw [hs] at ht; cases ht; exact ⟨_, rfl⟩

/-! ## A history -/

/-- Contexts that do nothing. -/
def dev : Device Unit Unit := ⟨⟨fun _ _ _ _ => none, fun _ _ => ((), none), fun _ => ((), none), fun _ _ => none, fun _ => none, fun _ _ => none⟩,
  ⟨fun _ _ => none, fun _ _ => ((), false), fun _ => ((), none)⟩⟩

/-- Status and handle of what is told. -/
def brief : Told → Option (Status × Nat)
  | .opened s h => some (s, h)
  | .closed s => some (s, 0)
  | .refused s => some (s, 0)
  | .reply (.made s h) => some (s, h)
  | .reply (.header s _) => some (s, 0)
  | _ => none

/-- Two TAs open sessions.  The second makes two SVP buffers, the first one SVP buffer; then the first tries the session of the second, asks for a key that is not there, and the second
closes its session. -/
def history : List (Request Unit Unit Unit) :=
  [.open C08.u7 1, .open C08.u8 2, .call 30 C08.u8 (.svpCreate 0x1000 16), .call 30 C08.u8 (.svpCreate 0x2000 16), .call 31 C08.u7 (.svpCreate 0x3000 16),
   .call 30 C08.u7 (.svpCreate 0x4000 16), .call 31 C08.u7 (.keys (.header 31)), .close 30 C08.u8]

/-- What all are told ... -/
example : (((start Unit Unit).bind fun w => handleAll dev w history).map fun r => r.2.map fun x => brief x.2) =
    some [some (.OK, 31), some (.OK, 30), some (.OK, 31), some (.OK, 30), some (.OK, 31), some (.OPERATION_NOT_ALLOWED, 0), some (.INVALID_PARAMETER, 0), some (.OK, 0)] := by
  decide +kernel
/-- ... and what the first is told when the second does nothing in its session. -/
example : (((start Unit Unit).bind fun w => handleAll dev w (purge C08.u7 history)).map fun r => (told C08.u7 r.2).map brief) =
    some [some (.OK, 31), some (.OK, 31), some (.OPERATION_NOT_ALLOWED, 0), some (.INVALID_PARAMETER, 0)] := by decide +kernel
/-- The number of a session does tell that there is another one: that is why sessions opened are not left out. -/
example : (((start Unit Unit).bind fun w => handleAll dev w ([.open C08.u8 2, .open C08.u7 1] : List (Request Unit Unit Unit))).map fun r => (told C08.u7 r.2).map brief) =
    some [some (.OK, 30)] := by decide +kernel

end Sa.Whole.C104

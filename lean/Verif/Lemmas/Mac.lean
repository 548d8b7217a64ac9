import Verif.Model.MacSpec
import Verif.Lemmas.StoreHistory
import Verif.Lemmas.KeyStore

/-!
# MAC contexts: the invariant relating the store to the history of calls
-/

namespace Sa

variable {σ : Type}

/-- The object agrees with what the caller knows. -/
structure MacAgrees (p : MacPrim σ) (view : σ → MacKind × Bytes × Bytes) (m : MacObj σ) (e : MacEntry) : Prop where
  kind : m.kind = e.kind
  view : m.done = false → view m.ctx = (e.kind, e.key, e.msg)
  done : e.done = true → m.done = true
  fin : (∀ s, (p.final s).2.isSome = true) → m.done = true → e.done = true
  len : ∃ n, m.kind.length = some n

structure MacInv (p : MacPrim σ) (view : σ → MacKind × Bytes × Bytes) (w : MacWorld σ) (know : Nat → Option MacEntry) : Prop where
  live : LiveInv w.store
  idle : ∀ h, (w.store.obj h).referenceCount = 0
  fresh : ∀ h ptr, (w.store.obj h).object = some ptr → ptr < w.next
  inj : ∀ h h' ptr, (w.store.obj h).object = some ptr → (w.store.obj h').object = some ptr → h = h'
  some_ : ∀ h ptr, (w.store.obj h).object = some ptr → ∃ m e, w.heap ptr = some m ∧ know h = some e ∧ e.owner = (w.store.obj h).ownerUuid ∧
    MacAgrees p view m e
  none_ : ∀ h, (w.store.obj h).object = none → know h = none

theorem MacInv.congr {p : MacPrim σ} {view : σ → MacKind × Bytes × Bytes} {w : MacWorld σ} {know know' : Nat → Option MacEntry} (h : MacInv p view w know)
    (he : ∀ x, know' x = know x) : MacInv p view w know' := by
  have : know' = know := funext he
  rw [this]; exact h

theorem macInv_new (p : MacPrim σ) (view : σ → MacKind × Bytes × Bytes) (n : Nat) (hn : n < 2 ^ 64) (w : MacWorld σ) (h : macNew σ n = some w) :
    MacInv p view w (fun _ => none) := by
  unfold macNew at h
  cases hs : objectStoreInit Nat n with
  | none => rw [hs] at h; simp at h
  | some st =>
    rw [hs] at h
    simp only [Option.map_some, Option.some.injEq] at h
    subst h
    obtain ⟨h1, h2, h3, h4, h5⟩ := objectStoreInit_inv n st hn hs
    have hz : ∀ x, (st.obj x).object = none := by intro x; rw [h5]; rfl
    refine ⟨liveInv_init n st hn hs, ?_, ?_, ?_, ?_, ?_⟩
    · intro x; show (st.obj x).referenceCount = 0; rw [h5]; rfl
    · intro x ptr hx; rw [hz] at hx; simp at hx
    · intro x y ptr hx; rw [hz] at hx; simp at hx
    · intro x ptr hx; rw [hz] at hx; simp at hx
    · intro x _; rfl

theorem macStoreAdd_inv (p : MacPrim σ) (view : σ → MacKind × Bytes × Bytes) (w : MacWorld σ) (know : Nat → Option MacEntry) (inv : MacInv p view w know)
    (o : MacObj σ) (e : MacEntry) (ok : Bool) (u : Uuid) (ha : MacAgrees p view o e) (hu : e.owner = u) :
    let r := macStoreAdd w o ok u
    MacInv p view r.1 (fun h => if r.2.status = .OK ∧ r.2.handle = h then some e else know h) := by
  intro r
  have hr : r = macStoreAdd w o ok u := rfl
  clear_value r
  unfold macStoreAdd at hr
  cases ok with
  | false => simp at hr; subst hr; exact inv.congr (by simp)
  | true =>
    simp only [Bool.not_true, Bool.false_eq_true, if_false] at hr
    obtain ⟨h1, h2, h3, h4, hc⟩ := add_spec w.store inv.live.toStoreInv inv.live.up w.next u
    generalize objectStoreAdd w.store w.next u = q at h1 h2 h3 h4 hc hr
    rcases hc with ⟨c1, c2, c3, c4⟩ | ⟨c1, c2, c3, c4⟩
    · rw [if_pos (by rw [c1]; simp)] at hr
      subst hr
      rw [c1]
      simp only [reduceCtorEq, false_and, if_false]
      refine ⟨{ h1 with up := h3 }, ?_, ?_, ?_, ?_, ?_⟩
      · intro h; show (q.1.obj h).referenceCount = 0; rw [c4]; exact inv.idle h
      · intro h ptr hp; rw [c4] at hp; exact inv.fresh h ptr hp
      · intro h h' ptr hp hp'; rw [c4] at hp hp'; exact inv.inj h h' ptr hp hp'
      · intro h ptr hp; rw [c4] at hp ⊢; exact inv.some_ h ptr hp
      · intro h hp; rw [c4] at hp; exact inv.none_ h hp
    · rw [if_neg (by simp [c1])] at hr
      subst hr
      simp only [true_and]
      refine ⟨{ h1 with up := h3 }, ?_, ?_, ?_, ?_, ?_⟩
      · intro h; show (q.1.obj h).referenceCount = 0; rw [c4]
        by_cases hh : h = q.2.2
        · rw [if_pos hh]
        · rw [if_neg hh]; exact inv.idle h
      · intro h ptr hp
        show ptr < w.next + 1
        rw [c4] at hp
        by_cases hh : h = q.2.2
        · rw [if_pos hh] at hp; simp at hp; omega
        · rw [if_neg hh] at hp; have := inv.fresh h ptr hp; omega
      · intro h h' ptr hp hp'
        rw [c4] at hp hp'
        by_cases hh : h = q.2.2
        · rw [if_pos hh] at hp
          by_cases hh' : h' = q.2.2
          · rw [hh, hh']
          · rw [if_neg hh'] at hp'
            have := inv.fresh h' ptr hp'
            simp at hp; omega
        · rw [if_neg hh] at hp
          by_cases hh' : h' = q.2.2
          · rw [if_pos hh'] at hp'
            have := inv.fresh h ptr hp
            simp at hp'; omega
          · rw [if_neg hh'] at hp'
            exact inv.inj h h' ptr hp hp'
      · intro h ptr hp
        rw [c4] at hp ⊢
        by_cases hh : h = q.2.2
        · rw [if_pos hh] at hp ⊢
          simp at hp
          subst hp
          exact ⟨o, e, by simp, by simp [hh], hu, ha⟩
        · rw [if_neg hh] at hp ⊢
          obtain ⟨m, e', k1, k2, k3, k4⟩ := inv.some_ h ptr hp
          have := inv.fresh h ptr hp
          refine ⟨m, e', ?_, ?_, k3, k4⟩
          · show (if ptr = w.next then some o else w.heap ptr) = some m
            rw [if_neg (by omega)]; exact k1
          · rw [if_neg (fun x => hh x.symm)]; exact k2
      · intro h hp
        rw [c4] at hp
        by_cases hh : h = q.2.2
        · rw [if_pos hh] at hp; simp at hp
        · rw [if_neg hh] at hp
          rw [if_neg (fun x => hh x.symm)]
          exact inv.none_ h hp

/-- A call on a context: either the handle is not one of the caller's and nothing happens, or the body works on the object the caller knows
about. -/
theorem withMac_inv (p : MacPrim σ) (view : σ → MacKind × Bytes × Bytes) (w : MacWorld σ) (know : Nat → Option MacEntry) (inv : MacInv p view w know)
    (h : Nat) (u : Uuid) (body : MacObj σ → MacObj σ × MacResp) :
    (∃ s, s ≠ Status.OK ∧ withMac w h u body = some (w, ⟨s, SLOT_INVALID, none, none⟩)) ∨
    (∃ m e ptr, know h = some e ∧ e.owner = u ∧ MacAgrees p view m e ∧ (w.store.obj h).object = some ptr ∧ w.heap ptr = some m ∧
      withMac w h u body = some ({ w with heap := fun x => if x = ptr then some (body m).1 else w.heap x }, (body m).2) ∧
      ∀ e', e'.owner = u → MacAgrees p view (body m).1 e' →
        MacInv p view { w with heap := fun x => if x = ptr then some (body m).1 else w.heap x }
          (fun x => if x = h then some e' else know x)) := by
  rcases acquire_fail w.store h u with ⟨st1, ptr, he⟩ | ⟨s, hs, he⟩
  · right
    obtain ⟨a1, a2, a3, a4, a5⟩ := (acquire_ok_iff w.store h u st1 ptr).mp he
    obtain ⟨m, e, k1, k2, k3, k4⟩ := inv.some_ h ptr a3
    have hrel := acquire_release w.store (by rw [inv.live.len]) h u st1 ptr he
    refine ⟨m, e, ptr, k2, by rw [k3, a4], k4, a3, k1, ?_, ?_⟩
    · unfold withMac
      rw [he]
      simp only [k1, hrel]
    · intro e' he' hag
      refine ⟨inv.live, inv.idle, inv.fresh, inv.inj, ?_, ?_⟩
      · intro h' ptr' hp
        by_cases hh : h' = h
        · subst hh
          rw [a3] at hp
          simp at hp
          subst hp
          exact ⟨(body m).1, e', by simp, by simp, by rw [he']; exact a4.symm, hag⟩
        · obtain ⟨m', e2, j1, j2, j3, j4⟩ := inv.some_ h' ptr' hp
          have hne : ptr' ≠ ptr := by
            rintro rfl
            exact hh (inv.inj h' h ptr' hp a3)
          exact ⟨m', e2, by simp [hne, j1], by simp [hh, j2], j3, j4⟩
      · intro h' hp
        by_cases hh : h' = h
        · subst hh
          have hp : (w.store.obj h').object = none := hp
          rw [a3] at hp; simp at hp
        · show (if h' = h then some e' else know h') = none
          rw [if_neg hh]; exact inv.none_ h' hp
  · left
    refine ⟨s, hs, ?_⟩
    unfold withMac
    rw [he]
    cases s <;> simp at hs ⊢

/-- The invariant after the heap was written at the object of `h` with what it already was. -/
theorem heap_same (w : MacWorld σ) (ptr : Nat) (m : MacObj σ) (h : w.heap ptr = some m) :
    ({ w with heap := fun x => if x = ptr then some m else w.heap x } : MacWorld σ) = w := by
  have : (fun x => if x = ptr then some m else w.heap x) = w.heap := by
    funext x
    by_cases hx : x = ptr
    · simp [hx, h]
    · simp [hx]
  rw [this]

variable {p : MacPrim σ} {mac : MacKind → Bytes → Bytes → Bytes} {view : σ → MacKind × Bytes × Bytes}

theorem macContextUpdate_agrees (hp : p.Good mac view) (m : MacObj σ) (e : MacEntry) (ha : MacAgrees p view m e) (input : Option Bytes) :
    ((macContextUpdate p m input).2 = .OK → m.done = false ∧
      MacAgrees p view (macContextUpdate p m input).1 { e with msg := e.msg ++ input.getD [] }) ∧
    ((macContextUpdate p m input).2 ≠ .OK → MacAgrees p view (macContextUpdate p m input).1 e) := by
  unfold macContextUpdate
  cases hd : m.done with
  | true => simp [ha]
  | false =>
    simp only [Bool.false_eq_true, if_false]
    cases input with
    | none => simp [ha]
    | some bs =>
      simp only
      by_cases hl : bs.length > 0
      · rw [if_pos hl]
        cases hr : (p.update m.ctx bs).2 with
        | true =>
          refine ⟨fun _ => ⟨trivial, ha.kind, fun _ => ?_, fun h => hd ▸ ha.done h, by simp, ha.len⟩, by simp⟩
          show view (p.update m.ctx bs).1 = _
          rw [hp.update _ _ hr, ha.view hd]
          rfl
        | false =>
          refine ⟨by simp, fun _ => ⟨ha.kind, fun _ => ?_, fun h => hd ▸ ha.done h, by simp, ha.len⟩⟩
          show view (p.update m.ctx bs).1 = _
          rw [hp.updateFail _ _ hr, ha.view hd]
      · rw [if_neg hl]
        have : bs = [] := List.length_eq_zero_iff.mp (by omega)
        subst this
        simp only [Option.getD_some, List.append_nil, ne_eq, not_true_eq_false, false_implies, and_true]
        exact fun _ => ⟨trivial, ha⟩

theorem macContextUpdateKey_agrees (hp : p.Good mac view) (m : MacObj σ) (e : MacEntry) (ha : MacAgrees p view m e) (key : Bytes) :
    ((macContextUpdateKey p m key).2 = .OK → m.done = false ∧ MacAgrees p view (macContextUpdateKey p m key).1 { e with msg := e.msg ++ key }) ∧
    ((macContextUpdateKey p m key).2 ≠ .OK → MacAgrees p view (macContextUpdateKey p m key).1 e) := by
  unfold macContextUpdateKey
  cases hd : m.done with
  | true => simp [ha]
  | false =>
    simp only [Bool.false_eq_true, if_false]
    by_cases hl : m.kind = .cmac ∧ ¬ key.length > 0
    · rw [if_pos hl]
      have : key = [] := List.length_eq_zero_iff.mp (by omega)
      subst this
      simp only [List.append_nil, ne_eq, not_true_eq_false, false_implies, and_true]
      exact fun _ => ⟨trivial, ha⟩
    · rw [if_neg hl]
      cases hr : (p.update m.ctx key).2 with
      | true =>
        refine ⟨fun _ => ⟨trivial, ha.kind, fun _ => ?_, fun h => hd ▸ ha.done h, by simp, ha.len⟩, by simp⟩
        show view (p.update m.ctx key).1 = _
        rw [hp.update _ _ hr, ha.view hd]
      | false =>
        refine ⟨by simp, fun _ => ⟨ha.kind, fun _ => ?_, fun h => hd ▸ ha.done h, by simp, ha.len⟩⟩
        show view (p.update m.ctx key).1 = _
        rw [hp.updateFail _ _ hr, ha.view hd]

theorem agrees_done (m : MacObj σ) (e : MacEntry) (ha : MacAgrees p view m e) (c : σ) (b : Bool)
    (hb : (∀ s, (p.final s).2.isSome = true) → b = true) :
    MacAgrees p view { m with done := true, ctx := c } { e with done := b } :=
  ⟨ha.kind, by simp, fun _ => rfl, fun h _ => hb h, ha.len⟩

theorem know_same {know : Nat → Option MacEntry} {h : Nat} {e : MacEntry} (hk : know h = some e) (x : Nat) :
    know x = if x = h then some e else know x := by
  by_cases hx : x = h
  · subst hx; simp [hk]
  · simp [hx]

theorem digestLength_some (d : Nat) (h : d ≤ 3) : ∃ n, (MacKind.hmac d).length = some n := by
  match d, h with
  | 0, _ => exact ⟨_, rfl⟩
  | 1, _ => exact ⟨_, rfl⟩
  | 2, _ => exact ⟨_, rfl⟩
  | 3, _ => exact ⟨_, rfl⟩

/-- What a call does, for every call: it returns, the invariant is kept, and the response is as the caller's knowledge says. -/
theorem macStep_inv (hp : p.Good mac view) (w : MacWorld σ) (know : Nat → Option MacEntry) (inv : MacInv p view w know) (op : MacOp) :
    ∃ w' r, macStep p w op = some (w', r) ∧ MacInv p view w' (fun h => MacEntry.track h (know h) (op, r)) ∧
      (∀ h input u, op = .process h input u → r.status = .OK → ∃ e, know h = some e ∧ e.owner = u ∧ e.done = false) ∧
      (∀ h key u, op = .processKey h key u → r.status = .OK → ∃ e, know h = some e ∧ e.owner = u ∧ e.done = false) ∧
      (∀ h n u, op = .compute h (some n) u → r.status = .OK → ∃ e, know h = some e ∧ e.owner = u ∧ e.done = false ∧
        r.out = some (mac e.kind e.key e.msg)) ∧
      (∀ h u, op = .compute h none u → w' = w) := by
  cases op with
  | init alg digest key env ok u =>
    refine ⟨(macInit p w alg digest key env ok u).1, (macInit p w alg digest key env ok u).2, rfl, ?_, by simp, by simp, by simp, by simp⟩
    have hfail : ∀ s, MacInv p view w (fun h => MacEntry.track h (know h) (.init alg digest key env ok u, ⟨s, SLOT_INVALID, none, none⟩)) ∨ s = .OK := by
      intro s
      by_cases hs : s = .OK
      · exact Or.inr hs
      · left; exact inv.congr (by intro x; simp [MacEntry.track, hs])
    have hadd : ∀ kind sk ctx, key.2 = some sk → p.create kind sk.key = some ctx → macKindOf alg digest = kind → (∃ n, kind.length = some n) →
        MacInv p view (macStoreAdd w ⟨kind, false, ctx⟩ ok u).1
          (fun h => MacEntry.track h (know h) (.init alg digest key env ok u, (macStoreAdd w ⟨kind, false, ctx⟩ ok u).2)) := by
      intro kind sk ctx hk hc hkind hlen
      have := macStoreAdd_inv p view w know inv ⟨kind, false, ctx⟩ ⟨kind, sk.key, u, [], false⟩ ok u
        ⟨rfl, fun _ => hp.create _ _ _ hc, by simp, by simp, hlen⟩ rfl
      refine this.congr ?_
      intro x
      simp only [MacEntry.track, hkind, hk, Option.map_some, Option.getD_some]
      by_cases h1 : (macStoreAdd w ⟨kind, false, ctx⟩ ok u).2.status = .OK
      · simp [h1]
      · simp [h1]
    unfold macInit
    simp only
    by_cases ha : alg = MAC_HMAC
    · simp only [if_pos ha]
      cases digest with
      | none => exact (hfail _).resolve_right (by simp)
      | some d =>
        simp only
        by_cases hk : key.1 = .OK
        · rw [if_neg (by simp [hk])]
          cases hk2 : key.2 with
          | none => exact (hfail _).resolve_right (by simp)
          | some sk =>
            simp only
            split
            · exact (hfail _).resolve_right (by simp)
            · split
              · exact (hfail _).resolve_right (by simp)
              · split
                · exact (hfail _).resolve_right (by simp)
                · cases hc : p.create (.hmac d) sk.key with
                  | none => exact (hfail _).resolve_right (by simp)
                  | some ctx => exact hadd _ sk ctx hk2 hc (by simp [macKindOf, ha]) (digestLength_some d (by omega))
        · rw [if_pos hk]; exact (hfail _).resolve_right hk
    · simp only [if_neg ha]
      by_cases hb : alg = MAC_CMAC
      · simp only [if_pos hb]
        by_cases hk : key.1 = .OK
        · rw [if_neg (by simp [hk])]
          cases hk2 : key.2 with
          | none => exact (hfail _).resolve_right (by simp)
          | some sk =>
            simp only
            split
            · exact (hfail _).resolve_right (by simp)
            · split
              · exact (hfail _).resolve_right (by simp)
              · cases hc : p.create .cmac sk.key with
                | none => exact (hfail _).resolve_right (by simp)
                | some ctx => exact hadd _ sk ctx hk2 hc (by simp [macKindOf, ha]) ⟨16, rfl⟩
        · rw [if_pos hk]; exact (hfail _).resolve_right hk
      · simp only [if_neg hb]; exact (hfail _).resolve_right (by simp)
  | process h input u =>
    simp only [macStep, macProcess]
    by_cases hin : input = none
    · rw [if_pos hin]
      refine ⟨_, _, rfl, inv.congr (by intro x; simp [MacEntry.track]), ?_, by simp, by simp, by simp⟩
      intro _ _ _ _ hx; simp at hx
    · rw [if_neg hin]
      rcases withMac_inv p view w know inv h u (fun m =>
          if m.done then (m, ⟨.INVALID_PARAMETER, SLOT_INVALID, none, none⟩)
          else ((macContextUpdate p m input).1, ⟨(macContextUpdate p m input).2, SLOT_INVALID, none, none⟩)) with
        ⟨s, hs, he⟩ | ⟨m, e, ptr, k1, k2, k3, k4, k5, he, hi⟩
      · refine ⟨_, _, he, inv.congr (by intro x; simp [MacEntry.track, hs]), ?_, by simp, by simp, by simp⟩
        intro _ _ _ _ hx; exact absurd hx hs
      · refine ⟨_, _, he, ?_, ?_, by simp, by simp, by simp⟩
        · cases hd : m.done with
          | true =>
            simp only [hd, if_true] at hi ⊢
            exact (hi e k2 k3).congr (by intro x; simp only [MacEntry.track, ne_eq, reduceCtorEq, not_false_eq_true, if_true]; exact know_same k1 x)
          | false =>
            simp only [hd, Bool.false_eq_true, if_false] at hi ⊢
            obtain ⟨g1, g2⟩ := macContextUpdate_agrees hp m e k3 input
            by_cases hr : (macContextUpdate p m input).2 = .OK
            · refine (hi { e with msg := e.msg ++ input.getD [] } k2 (g1 hr).2).congr ?_
              intro x
              by_cases hx : h = x
              · subst hx; simp [MacEntry.track, hr, k1]
              · simp [MacEntry.track, hr, hx, Ne.symm hx]
            · refine (hi e k2 (g2 hr)).congr ?_
              intro x; simp only [MacEntry.track, ne_eq, hr, not_false_eq_true, if_true]; exact know_same k1 x
        · intro h' i' u' hop hok
          simp only [MacOp.process.injEq] at hop
          obtain ⟨rfl, rfl, rfl⟩ := hop
          refine ⟨e, k1, k2, ?_⟩
          cases hd : m.done with
          | true => simp [hd] at hok
          | false =>
            cases he2 : e.done with
            | false => rfl
            | true => have := k3.done he2; rw [hd] at this; simp at this
  | processKey h key u =>
    simp only [macStep, macProcessKey]
    rcases withMac_inv p view w know inv h u (fun m =>
        if key.1 ≠ .OK then (m, ⟨key.1, SLOT_INVALID, none, none⟩)
        else match key.2 with
          | none => (m, ⟨.NULL_PARAMETER, SLOT_INVALID, none, none⟩)
          | some sk =>
            if sk.header.type.toNat ≠ KEY_TYPE_SYMMETRIC then (m, ⟨.INVALID_PARAMETER, SLOT_INVALID, none, none⟩)
            else if m.done then (m, ⟨.INVALID_PARAMETER, SLOT_INVALID, none, none⟩)
            else ((macContextUpdateKey p m sk.key).1, ⟨(macContextUpdateKey p m sk.key).2, SLOT_INVALID, none, none⟩)) with
      ⟨s, hs, he⟩ | ⟨m, e, ptr, k1, k2, k3, k4, k5, he, hi⟩
    · refine ⟨_, _, he, inv.congr (by intro x; simp [MacEntry.track, hs]), by simp, ?_, by simp, by simp⟩
      intro _ _ _ _ hx; exact absurd hx hs
    · refine ⟨_, _, he, ?_, by simp, ?_, by simp, by simp⟩
      · have hfail : ∀ s, s ≠ Status.OK → MacInv p view { w with heap := fun x => if x = ptr then some m else w.heap x }
            (fun x => MacEntry.track x (know x) (.processKey h key u, ⟨s, SLOT_INVALID, none, none⟩)) := by
          intro s hs
          rw [heap_same w ptr m k5]
          exact inv.congr (by intro x; simp [MacEntry.track, hs])
        by_cases hk : key.1 = .OK
        · simp only [hk, ne_eq, not_true_eq_false, if_false] at hi ⊢
          cases hk2 : key.2 with
          | none => exact hfail _ (by simp)
          | some sk =>
            simp only [hk2] at hi ⊢
            by_cases ht : sk.header.type.toNat = KEY_TYPE_SYMMETRIC
            · simp only [ht, not_true_eq_false, if_false] at hi ⊢
              cases hd : m.done with
              | true => simp only [if_true]; exact hfail _ (by simp)
              | false =>
                simp only [hd, Bool.false_eq_true, if_false] at hi ⊢
                obtain ⟨g1, g2⟩ := macContextUpdateKey_agrees hp m e k3 sk.key
                by_cases hr : (macContextUpdateKey p m sk.key).2 = .OK
                · refine (hi { e with msg := e.msg ++ sk.key } k2 (g1 hr).2).congr ?_
                  intro x
                  by_cases hx : h = x
                  · subst hx; simp [MacEntry.track, hr, k1, hk2]
                  · simp [MacEntry.track, hr, hx, Ne.symm hx]
                · refine (hi e k2 (g2 hr)).congr ?_
                  intro x; simp only [MacEntry.track, ne_eq, hr, not_false_eq_true, if_true]; exact know_same k1 x
            · simp only [ht, not_false_eq_true, if_true]; exact hfail _ (by simp)
        · simp only [ne_eq, hk, not_false_eq_true, if_true]; exact hfail _ hk
      · intro h' i' u' hop hok
        simp only [MacOp.processKey.injEq] at hop
        obtain ⟨rfl, rfl, rfl⟩ := hop
        refine ⟨e, k1, k2, ?_⟩
        cases he2 : e.done with
        | false => rfl
        | true =>
          have hd := k3.done he2
          exfalso
          revert hok
          simp only [hd, if_true]
          split
          · rename_i hh; intro hx; exact hh hx
          · split
            · simp
            · split <;> simp
  | compute h out u =>
    simp only [macStep, macCompute]
    cases out with
    | none =>
      rcases withMac_inv p view w know inv h u (fun m => match m.kind.length with
          | none => (m, ⟨.INVALID_PARAMETER, SLOT_INVALID, none, none⟩)
          | some n => (m, ⟨.OK, SLOT_INVALID, some n, none⟩)) with
        ⟨s, hs, he⟩ | ⟨m, e, ptr, k1, k2, k3, k4, k5, he, hi⟩
      · exact ⟨_, _, he, inv.congr (by intro x; simp [MacEntry.track, hs]), by simp, by simp, by simp, fun _ _ _ => rfl⟩
      · have hm : ∀ r : MacObj σ × MacResp, r = (match m.kind.length with
          | none => (m, ⟨.INVALID_PARAMETER, SLOT_INVALID, none, none⟩)
          | some n => (m, ⟨.OK, SLOT_INVALID, some n, none⟩)) → r.1 = m := by
          intro r hr; subst hr; split <;> rfl
        rw [hm _ rfl, heap_same w ptr m k5] at he
        exact ⟨_, _, he, inv.congr (by intro x; simp [MacEntry.track]), by simp, by simp, by simp, fun _ _ _ => rfl⟩
    | some n =>
      rcases withMac_inv p view w know inv h u (fun m =>
          if m.done then (m, ⟨.INVALID_PARAMETER, SLOT_INVALID, none, none⟩)
          else match m.kind.length with
            | none => (m, ⟨.INVALID_PARAMETER, SLOT_INVALID, none, none⟩)
            | some k =>
              if n < k then (m, ⟨.INVALID_PARAMETER, SLOT_INVALID, none, none⟩)
              else ((macContextCompute p m).1, ⟨(macContextCompute p m).2.1, SLOT_INVALID, some k, (macContextCompute p m).2.2⟩)) with
        ⟨s, hs, he⟩ | ⟨m, e, ptr, k1, k2, k3, k4, k5, he, hi⟩
      · refine ⟨_, _, he, inv.congr (by intro x; simp [MacEntry.track, hs]), by simp, by simp, ?_, by simp⟩
        intro _ _ _ _ hx; exact absurd hx hs
      · refine ⟨_, _, he, ?_, by simp, by simp, ?_, by simp⟩
        · have hfail : ∀ s, s ≠ Status.OK → MacInv p view { w with heap := fun x => if x = ptr then some m else w.heap x }
              (fun x => MacEntry.track x (know x) (.compute h (some n) u, ⟨s, SLOT_INVALID, none, none⟩)) := by
            intro s hs
            rw [heap_same w ptr m k5]
            exact inv.congr (by intro x; simp [MacEntry.track, hs])
          cases hd : m.done with
          | true => simp only [if_true]; exact hfail _ (by simp)
          | false =>
            simp only [hd, Bool.false_eq_true, if_false] at hi ⊢
            cases hl : m.kind.length with
            | none => exact hfail _ (by simp)
            | some k =>
              simp only [hl] at hi ⊢
              by_cases hnk : n < k
              · simp only [if_pos hnk]; exact hfail _ (by simp)
              · simp only [if_neg hnk] at hi ⊢
                have hcomp : macContextCompute p m = ({ m with done := true, ctx := (p.final m.ctx).1 },
                    if (p.final m.ctx).2.isSome then .OK else .INTERNAL_ERROR, (p.final m.ctx).2) := by
                  unfold macContextCompute; simp [hd]
                rw [hcomp] at hi ⊢
                simp only at hi ⊢
                cases hf : (p.final m.ctx).2 with
                | none =>
                  refine (hi e k2 (agrees_done m e k3 _ e.done (fun hall => by have := hall m.ctx; rw [hf] at this; simp at this))).congr ?_
                  intro x; simp only [MacEntry.track]; simp; rintro rfl; exact k1
                | some v =>
                  refine (hi { e with done := true } k2 (agrees_done m e k3 _ true (fun _ => rfl))).congr ?_
                  intro x
                  by_cases hx : h = x
                  · subst hx; simp [MacEntry.track, k1]
                  · simp [MacEntry.track, hx, Ne.symm hx]
        · intro h' n' u' hop hok
          simp only [MacOp.compute.injEq, Option.some.injEq] at hop
          obtain ⟨rfl, rfl, rfl⟩ := hop
          refine ⟨e, k1, k2, ?_⟩
          cases hd : m.done with
          | true => simp [hd] at hok
          | false =>
            simp only [hd, Bool.false_eq_true, if_false] at hok ⊢
            refine ⟨?_, ?_⟩
            · cases he2 : e.done with
              | false => rfl
              | true => have := k3.done he2; rw [hd] at this; simp at this
            · cases hl : m.kind.length with
              | none => simp [hl] at hok
              | some k =>
                simp only [hl] at hok ⊢
                by_cases hnk : n < k
                · simp [hnk] at hok
                · simp only [if_neg hnk] at hok ⊢
                  unfold macContextCompute at hok ⊢
                  simp only [hd, Bool.false_eq_true, if_false] at hok ⊢
                  cases hf : (p.final m.ctx).2 with
                  | none => rw [hf] at hok; simp at hok
                  | some v =>
                    have := hp.final _ _ hf
                    rw [k3.view hd] at this
                    rw [this]
  | release h u =>
    simp only [macStep, macRelease]
    rcases remove_spec w.store inv.live h u with ⟨hr, ho⟩ | ⟨hr, hlt, ho, hu⟩ | ⟨st', hr, _, _, _, _, _, _, hc⟩ |
      ⟨st', o, hr, hi, hc, hlt, ho, hu, href, hobj⟩
    · rw [hr]
      refine ⟨_, _, rfl, ?_, by simp, by simp, by simp, by simp⟩
      have : ({ w with store := w.store, heap := fun x => if some x = none then none else w.heap x } : MacWorld σ) = w := by simp
      rw [this]
      exact inv.congr (by intro x; simp [MacEntry.track])
    · rw [hr]
      refine ⟨_, _, rfl, ?_, by simp, by simp, by simp, by simp⟩
      have : ({ w with store := w.store, heap := fun x => if some x = none then none else w.heap x } : MacWorld σ) = w := by simp
      rw [this]
      exact inv.congr (by intro x; simp [MacEntry.track])
    · exact absurd (inv.idle h) hc
    · rw [hr]
      refine ⟨_, _, rfl, ?_, by simp, by simp, by simp, by simp⟩
      have hz : ∀ x, x ≠ h → st'.obj x = w.store.obj x := by intro x hx; rw [hobj, if_neg hx]
      have hself : (st'.obj h).object = none ∧ (st'.obj h).referenceCount = 0 := by
        rw [hobj, if_pos rfl]; exact ⟨rfl, rfl⟩
      refine ⟨hi, ?_, ?_, ?_, ?_, ?_⟩
      · intro x
        by_cases hx : x = h
        · subst hx; exact hself.2
        · show (st'.obj x).referenceCount = 0; rw [hz x hx]; exact inv.idle x
      · intro x ptr hp2
        by_cases hx : x = h
        · subst hx; rw [hself.1] at hp2; simp at hp2
        · rw [hz x hx] at hp2; exact inv.fresh x ptr hp2
      · intro x y ptr hp2 hp3
        by_cases hx : x = h
        · subst hx; rw [hself.1] at hp2; simp at hp2
        · by_cases hy : y = h
          · subst hy; rw [hself.1] at hp3; simp at hp3
          · rw [hz x hx] at hp2; rw [hz y hy] at hp3; exact inv.inj x y ptr hp2 hp3
      · intro x ptr hp2
        by_cases hx : x = h
        · subst hx; rw [hself.1] at hp2; simp at hp2
        · rw [hz x hx] at hp2 ⊢
          obtain ⟨m, e, j1, j2, j3, j4⟩ := inv.some_ x ptr hp2
          refine ⟨m, e, ?_, ?_, j3, j4⟩
          · show (if some ptr = some o then none else w.heap ptr) = some m
            rw [if_neg]
            · exact j1
            · intro heq
              simp only [Option.some.injEq] at heq
              subst heq
              exact hx (inv.inj x h ptr hp2 ho)
          · simp [MacEntry.track, Ne.symm hx, j2]
      · intro x hp2
        by_cases hx : x = h
        · subst hx; simp [MacEntry.track]
        · rw [hz x hx] at hp2
          simp [MacEntry.track, Ne.symm hx, inv.none_ x hp2]

/-- Every sequence of calls returns and keeps the invariant. -/
theorem macRun_inv (hp : p.Good mac view) (ops : List MacOp) (w : MacWorld σ) (know : Nat → Option MacEntry) (inv : MacInv p view w know) :
    ∃ w' rs, macRun p w ops = some (w', rs) ∧ MacInv p view w' (fun h => rs.foldl (MacEntry.track h) (know h)) := by
  induction ops generalizing w know with
  | nil => exact ⟨w, [], rfl, inv⟩
  | cons op ops ih =>
    obtain ⟨w1, r, h1, h2, _⟩ := macStep_inv hp w know inv op
    obtain ⟨w2, rs, h3, h4⟩ := ih w1 _ h2
    exact ⟨w2, (op, r) :: rs, by simp only [macRun, h1, h3], h4⟩

/-- What the owner of a context gets when finishing it, if OpenSSL does not fail. -/
theorem macCompute_live (w : MacWorld σ) (know : Nat → Option MacEntry) (inv : MacInv p view w know) (hf : ∀ s, (p.final s).2.isSome = true)
    (h : Nat) (e : MacEntry) (he : know h = some e) (hd : e.done = false) :
    ∃ k, e.kind.length = some k ∧ ∀ n, k ≤ n → ∃ w' r, macCompute p w h (some n) e.owner = some (w', r) ∧ r.status = .OK ∧ r.outLength = some k := by
  cases ho : (w.store.obj h).object with
  | none => rw [inv.none_ h ho] at he; simp at he
  | some ptr =>
    obtain ⟨m, e', k1, k2, k3, k4⟩ := inv.some_ h ptr ho
    rw [he] at k2
    simp only [Option.some.injEq] at k2
    subst k2
    have hmd : m.done = false := by
      cases hm : m.done with
      | false => rfl
      | true => rw [k4.fin hf hm] at hd; simp at hd
    obtain ⟨k, hk⟩ := k4.len
    refine ⟨k, by rw [← k4.kind]; exact hk, ?_⟩
    intro n hn
    rcases acquire_fail w.store h e.owner with ⟨st1, ptr', ha⟩ | ⟨s, hs, ha⟩
    · obtain ⟨_, _, a3, _⟩ := (acquire_ok_iff w.store h e.owner st1 ptr').mp ha
      rw [ho] at a3
      simp only [Option.some.injEq] at a3
      subst a3
      have hfm := hf m.ctx
      refine ⟨_, _, by simp only [macCompute, withMac, ha, k1]; rfl, ?_, ?_⟩
      · simp [hmd, hk, macContextCompute, hfm, Nat.not_lt.mpr hn]
      · simp [hmd, hk, Nat.not_lt.mpr hn]
    · exfalso
      rcases acquire_spec w.store inv.live h e.owner with ⟨_, hn⟩ | ⟨_, _, _, hu⟩ | ⟨st', o, hq, _⟩
      · rw [ho] at hn; simp at hn
      · exact hu k3.symm
      · rw [ha] at hq
        simp only [Prod.mk.injEq] at hq
        exact hs hq.2.1

theorem withMac_out (P : MacResp → Prop) (hP : ∀ s, s ≠ Status.OK → P ⟨s, SLOT_INVALID, none, none⟩) (w : MacWorld σ) (h : Nat) (u : Uuid)
    (body : MacObj σ → MacObj σ × MacResp) (hb : ∀ m, P (body m).2) (w' : MacWorld σ) (r : MacResp)
    (he : withMac w h u body = some (w', r)) : P r := by
  unfold withMac at he
  rcases acquire_fail w.store h u with ⟨st1, ptr, ha⟩ | ⟨s, hs, ha⟩
  · rw [ha] at he
    simp only at he
    cases hm : w.heap ptr with
    | none => rw [hm] at he; simp at he
    | some m =>
      rw [hm] at he
      simp only [Option.some.injEq, Prod.mk.injEq] at he
      rw [← he.2]; exact hb m
  · rw [ha] at he
    have : some (({ w with store := w.store } : MacWorld σ), (⟨s, SLOT_INVALID, none, none⟩ : MacResp)) = some (w', r) := by
      cases s <;> first | exact absurd rfl hs | exact he
    simp only [Option.some.injEq, Prod.mk.injEq] at this
    rw [← this.2]; exact hP s hs

/-- Failing calls return no bytes. -/
theorem macStep_fail_out (p : MacPrim σ) (w : MacWorld σ) (op : MacOp) (w' : MacWorld σ) (r : MacResp) (h : macStep p w op = some (w', r))
    (hs : r.status ≠ .OK) : r.out = none := by
  have key : r.status = .OK ∨ r.out = none := by
    cases op with
    | init alg digest key env ok u =>
      right
      simp only [macStep, Option.some.injEq, Prod.ext_iff] at h
      rw [← h.2]
      have hadd : ∀ o, (macStoreAdd w o ok u).2.out = none := by
        intro o; unfold macStoreAdd; split
        · rfl
        · simp only; split <;> rfl
      unfold macInit
      simp only
      repeat' split
      all_goals first | rfl | exact hadd _
    | process h' input u =>
      simp only [macStep, macProcess] at h
      by_cases hin : input = none
      · rw [if_pos hin] at h
        simp only [Option.some.injEq, Prod.mk.injEq] at h
        rw [← h.2]; exact Or.inr rfl
      · rw [if_neg hin] at h
        refine withMac_out (fun r => r.status = .OK ∨ r.out = none) (by simp) w h' u _ ?_ w' r h
        intro m; split <;> exact Or.inr rfl
    | processKey h' key u =>
      simp only [macStep, macProcessKey] at h
      refine withMac_out (fun r => r.status = .OK ∨ r.out = none) (by simp) w h' u _ ?_ w' r h
      intro m
      right
      repeat' split
      all_goals rfl
    | compute h' out u =>
      simp only [macStep, macCompute] at h
      refine withMac_out (fun r => r.status = .OK ∨ r.out = none) (by simp) w h' u _ ?_ w' r h
      intro m
      cases out with
      | none => right; simp only; split <;> rfl
      | some n =>
        simp only
        cases hd : m.done with
        | true => exact Or.inr rfl
        | false =>
          simp only [Bool.false_eq_true, if_false]
          cases m.kind.length with
          | none => exact Or.inr rfl
          | some k =>
            simp only
            by_cases hk : n < k
            · rw [if_pos hk]; exact Or.inr rfl
            · rw [if_neg hk]
              unfold macContextCompute
              simp only [hd, Bool.false_eq_true, if_false]
              cases (p.final m.ctx).2 with
              | none => exact Or.inr rfl
              | some v => exact Or.inl rfl
    | release h' u =>
      right
      simp only [macStep, macRelease] at h
      split at h
      · simp only [Option.some.injEq, Prod.mk.injEq] at h; rw [← h.2]
      · simp at h
  exact key.resolve_left hs

theorem macCompute_none_out (p : MacPrim σ) (w : MacWorld σ) (h : Nat) (u : Uuid) (w' : MacWorld σ) (r : MacResp)
    (he : macCompute p w h none u = some (w', r)) : r.out = none := by
  unfold macCompute at he
  refine withMac_out (fun r => r.out = none) (by simp) w h u _ ?_ w' r he
  intro m; simp only; split <;> rfl

end Sa

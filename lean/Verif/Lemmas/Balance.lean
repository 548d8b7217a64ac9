import Verif.Model.Balance
import Verif.Lemmas.ObjectStore

namespace Sa

/-! ## Which programs give everything back -/

/-- Leaving the block when `held` may be held and `spent` has been given back already. -/
def covers (cleanup held spent : List PVar) : Bool := held.all (fun v => cleanup.contains v) && spent.all (fun v => !cleanup.contains v)

/-- One statement is fine; the result is what may be held and what is spent after it. -/
def opOk (lenient : Bool) (cleanup held spent : List PVar) : Op → Option (List PVar × List PVar)
  | .acquire v => if covers cleanup held spent && !held.contains v && !spent.contains v then some (v :: held, spent) else none
  | .acquireIf v => if covers cleanup held spent && !held.contains v && !spent.contains v then some (v :: held, spent) else none
  | .release v => if held.contains v then some (held.erase v, v :: spent) else none
  | .check => if covers cleanup held spent then some (held, spent) else none
  | .checkReturn => if lenient || held.isEmpty then some (held, spent) else none
  | .add v => if covers cleanup held spent && !held.contains v then some (held, spent) else none
  | .remove v => if covers cleanup held spent && held.all (fun x => decide (x.kind ≠ v.kind)) then some (held, spent) else none

def opsOk (lenient : Bool) (cleanup : List PVar) : List Op → List PVar → List PVar → Bool
  | [], held, spent => covers cleanup held spent
  | op :: rest, held, spent =>
    match opOk lenient cleanup held spent op with
    | none => false
    | some (h, s) => opsOk lenient cleanup rest h s

/-- The function may remove an object from table `k`. -/
def Sub.removes (s : Sub) (k : TKind) : Bool := s.body.any fun op => match op with | .remove v => decide (v.kind = k) | _ => false

def subOk (lenient : Bool) (s : Sub) : Bool := decide s.cleanup.Nodup && opsOk lenient s.cleanup s.body [] []

def stmtsOk (lenient : Bool) (cleanup : List PVar) : List Stmt → List PVar → List PVar → Bool
  | [], held, spent => covers cleanup held spent
  | .op o :: rest, held, spent =>
    match opOk lenient cleanup held spent o with
    | none => false
    | some (h, s) => stmtsOk lenient cleanup rest h s
  | .call s _ :: rest, held, spent => covers cleanup held spent && subOk lenient s && held.all (fun v => !s.removes v.kind) &&
    stmtsOk lenient cleanup rest held spent

def progOk (lenient : Bool) (p : Prog) : Bool := decide p.cleanup.Nodup && stmtsOk lenient p.cleanup p.body [] []

/-! ## The invariant -/

def BWorld.rc (w : BWorld) (k : TKind) (h : Nat) : Nat := ((w.store k).obj h).referenceCount

/-- `v` holds a reference under handle `h` of table `k`. -/
def refOn (f : Frame) (k : TKind) (h : Nat) (v : PVar) : Bool := decide (v.kind = k) && decide (f.handle v = h) && (f.ptr v).isSome

/-- `v` holds the lock of object `o` of table `k`. -/
def lockOn (f : Frame) (k : TKind) (o : Nat) (v : PVar) : Bool := decide (v.kind = k) && k.mutex && decide (f.ptr v = some o)

/-- Nothing is borrowed in `w'` that is not borrowed in `w`, and vice versa; what is borrowed is in its place. -/
structure SameBorrows (w w' : BWorld) : Prop where
  count : ∀ k h, w'.rc k h = w.rc k h
  lock : ∀ k o, w'.lock k o = w.lock k o
  keep : ∀ k h, w.rc k h ≠ 0 → ((w'.store k).obj h).object = ((w.store k).obj h).object ∧ ((w'.store k).obj h).ownerUuid = ((w.store k).obj h).ownerUuid

theorem SameBorrows.rfl (w : BWorld) : SameBorrows w w := ⟨fun _ _ => Eq.refl _, fun _ _ => Eq.refl _, fun _ _ _ => ⟨Eq.refl _, Eq.refl _⟩⟩

theorem SameBorrows.trans {a b c : BWorld} (h : SameBorrows a b) (h' : SameBorrows b c) : SameBorrows a c where
  count k x := (h'.count k x).trans (h.count k x)
  lock k x := (h'.lock k x).trans (h.lock k x)
  keep k x hx := by
    have h1 := h.keep k x hx
    have h2 := h'.keep k x (by rw [h.count]; exact hx)
    exact ⟨h2.1.trans h1.1, h2.2.trans h1.2⟩

structure Bal (u : Uuid) (w0 w : BWorld) (f : Frame) (held spent : List PVar) : Prop where
  inv : ∀ k, StoreInv (w.store k)
  count : ∀ k h, w.rc k h = w0.rc k h + held.countP (refOn f k h)
  lock : ∀ k o, w.lock k o = w0.lock k o + held.countP (lockOn f k o)
  obj : ∀ v ∈ held, ∀ o, f.ptr v = some o → ((w.store v.kind).obj (f.handle v)).object = some o ∧ ((w.store v.kind).obj (f.handle v)).ownerUuid = u
  keep : ∀ k h, w0.rc k h ≠ 0 → ((w.store k).obj h).object = ((w0.store k).obj h).object ∧ ((w.store k).obj h).ownerUuid = ((w0.store k).obj h).ownerUuid
  null : ∀ v, v ∉ held → v ∉ spent → f.ptr v = none
  nodup : held.Nodup

theorem store_same (w : BWorld) (k : TKind) (st : ObjectStore Nat) : (w.setStore k st).store k = st := by simp [BWorld.setStore, upd1]
theorem store_ne (w : BWorld) (k k' : TKind) (st : ObjectStore Nat) (h : k' ≠ k) : (w.setStore k st).store k' = w.store k' := by
  simp [BWorld.setStore, upd1, h]

/-- Replacing one table, where nothing borrowed is touched. -/
theorem bal_store {u : Uuid} {w0 w : BWorld} {f : Frame} {held spent : List PVar} (b : Bal u w0 w f held spent) (k : TKind) (st : ObjectStore Nat)
    (hi : StoreInv st) (hrc : ∀ h, (st.obj h).referenceCount = w.rc k h)
    (hk : ∀ h, w.rc k h ≠ 0 → (st.obj h).object = ((w.store k).obj h).object ∧ (st.obj h).ownerUuid = ((w.store k).obj h).ownerUuid) :
    Bal u w0 (w.setStore k st) f held spent := by
  have hcount : ∀ k' h, (w.setStore k st).rc k' h = w.rc k' h := by
    intro k' h
    unfold BWorld.rc
    by_cases e : k' = k
    · subst e; rw [store_same]; exact hrc h
    · rw [store_ne w k k' st e]
  have hkeep : ∀ k' h, w.rc k' h ≠ 0 → (((w.setStore k st).store k').obj h).object = ((w.store k').obj h).object ∧
      (((w.setStore k st).store k').obj h).ownerUuid = ((w.store k').obj h).ownerUuid := by
    intro k' h hx
    by_cases e : k' = k
    · subst e; rw [store_same]; exact hk h hx
    · rw [store_ne w k k' st e]; exact ⟨rfl, rfl⟩
  refine ⟨?_, ?_, b.lock, ?_, ?_, b.null, b.nodup⟩
  · intro k'
    by_cases e : k' = k
    · subst e; rw [store_same]; exact hi
    · rw [store_ne w k k' st e]; exact b.inv k'
  · intro k' h
    rw [hcount]; exact b.count k' h
  · intro v hv o ho
    have h1 : w.rc v.kind (f.handle v) ≠ 0 := by
      rw [b.count]
      have : 0 < held.countP (refOn f v.kind (f.handle v)) := List.countP_pos_iff.mpr ⟨v, hv, by simp [refOn, ho]⟩
      omega
    have h2 := hkeep _ _ h1
    rw [h2.1, h2.2]
    exact b.obj v hv o ho
  · intro k' h hx
    have h1 : w.rc k' h ≠ 0 := by rw [b.count]; omega
    have h2 := hkeep _ _ h1
    rw [h2.1, h2.2]
    exact b.keep k' h hx

theorem bal_start (u : Uuid) (w : BWorld) (hi : ∀ k, StoreInv (w.store k)) (args : PVar → Nat) (fresh : Nat) : Bal u w w (frame args fresh) [] [] where
  inv := hi
  count := by simp
  lock := by simp
  obj := by simp
  keep := by intros; exact ⟨rfl, rfl⟩
  null := by intros; rfl
  nodup := List.nodup_nil

theorem countP_congr' {p q : PVar → Bool} {l : List PVar} (h : ∀ v ∈ l, p v = q v) : l.countP p = l.countP q := by
  induction l with
  | nil => rfl
  | cons a l ih =>
    rw [List.countP_cons, List.countP_cons, h a List.mem_cons_self, ih fun v hv => h v (List.mem_cons_of_mem _ hv)]

/-- Changing pointers and handles of variables that hold nothing. -/
theorem bal_frame {u : Uuid} {w0 w : BWorld} {f f' : Frame} {held spent : List PVar} (b : Bal u w0 w f held spent)
    (h : ∀ v ∈ held, f'.ptr v = f.ptr v ∧ f'.handle v = f.handle v) (hn : ∀ v, v ∉ held → v ∉ spent → f'.ptr v = none) : Bal u w0 w f' held spent where
  inv := b.inv
  count k x := by rw [b.count, countP_congr']; intro v hv; simp [refOn, h v hv]
  lock k x := by rw [b.lock, countP_congr']; intro v hv; simp [lockOn, h v hv]
  obj v hv o ho := by rw [(h v hv).2]; exact b.obj v hv o (by rw [← (h v hv).1]; exact ho)
  keep := b.keep
  null := hn
  nodup := b.nodup

/-- `*_acquire` of a variable that holds nothing. -/
theorem bal_acquire {u : Uuid} {w0 w : BWorld} {f : Frame} {held spent : List PVar} (b : Bal u w0 w f held spent) (v : PVar) (hv : v ∉ held)
    (hs : v ∉ spent) :
    let r := acquireVar u w f v
    (r.1 = true → Bal u w0 r.2.1 r.2.2 (v :: held) spent) ∧ (r.1 = false → Bal u w0 r.2.1 r.2.2 held spent) ∧ r.2.2.fresh = f.fresh := by
  have hne : ∀ x ∈ held, x ≠ v := fun x hx e => hv (e ▸ hx)
  have hfail : ∀ st, StoreInv st → (∀ h, st.obj h = (w.store v.kind).obj h) →
      Bal u w0 (w.setStore v.kind st) { f with ptr := upd1 f.ptr v none } held spent := by
    intro st hi hst
    refine bal_frame (bal_store b v.kind st hi (fun h => by rw [hst]; rfl) (fun h _ => by rw [hst]; exact ⟨rfl, rfl⟩)) ?_ ?_
    · intro x hx
      simp [upd1, hne x hx]
    · intro x hx hx'
      simp only [upd1]
      split
      · rfl
      · exact b.null x hx hx'
  intro r
  have hr : r = acquireVar u w f v := rfl
  clear_value r
  unfold acquireVar objectStoreAcquire at hr
  by_cases hlt : f.handle v ≥ (w.store v.kind).slotCount
  · rw [if_pos hlt] at hr
    subst hr
    exact ⟨by simp, fun _ => hfail _ (b.inv _) fun _ => rfl, rfl⟩
  · rw [if_neg hlt] at hr
    obtain ⟨hi, hsc, _, _, hcase⟩ := acquireBody_spec (w.store v.kind) (b.inv _) (f.handle v) u (by omega)
    rcases hcase with ⟨_, e⟩ | ⟨_, _, e⟩ | ⟨_, _, _, e⟩ | ⟨o, _, ho, hu, e1, e2, e3⟩
    · rw [e] at hr; subst hr
      exact ⟨by simp, fun _ => hfail _ (b.inv _) fun _ => rfl, rfl⟩
    · rw [e] at hr; subst hr
      exact ⟨by simp, fun _ => hfail _ (b.inv _) fun _ => rfl, rfl⟩
    · rw [e] at hr; subst hr
      exact ⟨by simp, fun _ => hfail _ (b.inv _) fun _ => rfl, rfl⟩
    · generalize hab : acquireBody (w.store v.kind) (f.handle v) u = ab at hr hi e1 e2 e3
      obtain ⟨st, s, ob⟩ := ab
      simp only at e1 e2 e3 hi
      subst e1 e2
      simp only at hr
      have base : ∀ w' : BWorld, w'.store = (w.setStore v.kind st).store →
          (∀ k x, w'.lock k x = w.lock k x + if v.kind = k ∧ k.mutex = true ∧ o = x then 1 else 0) →
          Bal u w0 w' { f with ptr := upd1 f.ptr v (some o) } (v :: held) spent := by
        intro w' hst hlock
        have hobj : ∀ k h, (w'.store k).obj h = if k = v.kind ∧ h = f.handle v then
            { (w.store k).obj h with referenceCount := ((w.store k).obj h).referenceCount + 1 } else (w.store k).obj h := by
          intro k h
          rw [hst]
          by_cases e : k = v.kind
          · subst e
            rw [store_same, e3]
            by_cases e' : h = f.handle v
            · subst e'; simp [ho, hu]
            · simp [e']
          · rw [store_ne w v.kind k st e, if_neg (fun h => e h.1)]
        refine ⟨?_, ?_, ?_, ?_, ?_, ?_, ?_⟩
        · intro k
          rw [hst]
          by_cases e : k = v.kind
          · subst e; rw [store_same]; exact hi
          · rw [store_ne w v.kind k st e]; exact b.inv k
        · intro k h
          have h1 : held.countP (refOn { f with ptr := upd1 f.ptr v (some o) } k h) = held.countP (refOn f k h) :=
            countP_congr' fun x hx => by simp [refOn, upd1, hne x hx]
          rw [List.countP_cons, h1]
          unfold BWorld.rc
          rw [hobj]
          by_cases e : k = v.kind ∧ h = f.handle v
          · rw [if_pos e]
            have h2 := b.count k h
            unfold BWorld.rc at h2
            simp only [h2]
            rw [if_pos (by simp [refOn, upd1, e.1, e.2])]
            omega
          · rw [if_neg e]
            have h2 := b.count k h
            unfold BWorld.rc at h2
            rw [h2]
            rw [if_neg (by simp only [refOn, upd1, Bool.and_eq_true, decide_eq_true_eq]; exact fun h => e ⟨h.1.1.symm, h.1.2.symm⟩)]
            omega
        · intro k x
          have h1 : held.countP (lockOn { f with ptr := upd1 f.ptr v (some o) } k x) = held.countP (lockOn f k x) :=
            countP_congr' fun y hy => by simp [lockOn, upd1, hne y hy]
          rw [List.countP_cons, h1, hlock, b.lock]
          by_cases e : v.kind = k ∧ k.mutex = true ∧ o = x
          · rw [if_pos e, if_pos (by simp [lockOn, upd1, e.1, e.2.1, e.2.2])]; omega
          · rw [if_neg e, if_neg (by
              simp only [lockOn, upd1, Bool.and_eq_true, decide_eq_true_eq, if_true, Option.some.injEq]
              exact fun h => e ⟨h.1.1, h.1.2, h.2⟩)]
            omega
        · intro x hx o' ho'
          simp only [hobj]
          rcases List.mem_cons.mp hx with e | e
          · subst e
            simp only [upd1, if_true, Option.some.injEq] at ho'
            subst ho'
            simp [ho, hu]
          · have hxv := hne x e
            simp only [upd1, if_neg hxv] at ho'
            have h2 := b.obj x e o' ho'
            split
            · exact h2
            · exact h2
        · intro k h hx
          rw [hobj]
          split
          · exact b.keep k h hx
          · exact b.keep k h hx
        · intro x hx hx'
          simp only [List.mem_cons, not_or] at hx
          simp only [upd1, if_neg hx.1]
          exact b.null x hx.2 hx'
        · exact List.nodup_cons.mpr ⟨hv, b.nodup⟩
      subst hr
      refine ⟨fun _ => base _ ?_ ?_, by simp, rfl⟩
      · simp only; split <;> rfl
      · intro k x
        simp only
        by_cases hm : v.kind.mutex = true
        · rw [if_pos hm]
          simp only
          by_cases e : k = v.kind ∧ x = o
          · rw [if_pos e, if_pos ⟨e.1.symm, by rw [e.1]; exact hm, e.2.symm⟩]
          · rw [if_neg e, if_neg (fun h => e ⟨h.1.symm, h.2.2.symm⟩)]; rfl
        · rw [if_neg hm, if_neg (fun h => hm (by rw [h.1]; exact h.2.1))]
          rfl

/-- `*_release` of a variable that may hold something. -/
theorem bal_release {u : Uuid} {w0 w : BWorld} {f : Frame} {held spent : List PVar} (b : Bal u w0 w f held spent) (v : PVar) (hv : v ∈ held) :
    Bal u w0 (releaseVar u w f v) f (held.erase v) (v :: spent) := by
  have hcnt : ∀ p : PVar → Bool, held.countP p = (held.erase v).countP p + if p v then 1 else 0 := by
    intro p
    rw [(List.perm_cons_erase hv).countP_eq p, List.countP_cons]
  have hnd : (held.erase v).Nodup := b.nodup.erase v
  have hvm : v ∉ held.erase v := fun h => absurd h (List.Nodup.not_mem_erase b.nodup)
  have hnull : ∀ x, x ∉ held.erase v → x ∉ v :: spent → f.ptr x = none := by
    intro x hx hx'
    simp only [List.mem_cons, not_or] at hx'
    exact b.null x (fun h => hx ((List.mem_erase_of_ne hx'.1).mpr h)) hx'.2
  unfold releaseVar
  cases hp : f.ptr v with
  | none =>
    refine ⟨b.inv, ?_, ?_, fun x hx => b.obj x (List.mem_of_mem_erase hx), b.keep, hnull, hnd⟩
    · intro k h
      rw [b.count, hcnt]; simp [refOn, hp]
    · intro k o
      rw [b.lock, hcnt]; simp [lockOn, hp]
  | some o =>
    simp only
    have hob := b.obj v hv o hp
    have hrc : w.rc v.kind (f.handle v) ≠ 0 := by
      rw [b.count]
      have : 0 < held.countP (refOn f v.kind (f.handle v)) := List.countP_pos_iff.mpr ⟨v, hv, by simp [refOn, hp]⟩
      omega
    have hlt : f.handle v < (w.store v.kind).slotCount := by
      rcases Nat.lt_or_ge (f.handle v) (w.store v.kind).slotCount with h | h
      · exact h
      · have := obj_ge (w.store v.kind) (b.inv _) (f.handle v) h
        rw [this] at hob
        simp [StoreObject.zero] at hob
    obtain ⟨hi, _, _, _, hcase⟩ := releaseBody_spec (w.store v.kind) (b.inv _) (f.handle v) o u hlt
    have hobj0 : (objectStoreRelease (w.store v.kind) (f.handle v) o u) = releaseBody (w.store v.kind) (f.handle v) o u := by
      unfold objectStoreRelease; rw [if_neg (by omega)]
    rw [hobj0]
    rcases hcase with ⟨_, h⟩ | ⟨_, _, h⟩ | ⟨_, _, _, _, hst⟩
    · exact absurd hob.2 h
    · rcases h with h | h
      · exact absurd hob.1 h
      · exact absurd h hrc
    generalize (releaseBody (w.store v.kind) (f.handle v) o u).1 = st at hi hst
    have base : ∀ w' : BWorld, w'.store = (w.setStore v.kind st).store →
        (∀ k x, w'.lock k x = w.lock k x - if v.kind = k ∧ k.mutex = true ∧ o = x then 1 else 0) → Bal u w0 w' f (held.erase v) (v :: spent) := by
      intro w' hs hl
      have hobj : ∀ k h, (w'.store k).obj h = if k = v.kind ∧ h = f.handle v then
          { (w.store k).obj h with referenceCount := ((w.store k).obj h).referenceCount - 1 } else (w.store k).obj h := by
        intro k h
        rw [hs]
        by_cases e : k = v.kind
        · subst e
          rw [store_same, hst]
          by_cases e' : h = f.handle v
          · subst e'; simp [hob.1, hob.2]
          · simp [e']
        · rw [store_ne w v.kind k st e, if_neg (fun h => e h.1)]
      refine ⟨?_, ?_, ?_, ?_, ?_, hnull, hnd⟩
      · intro k
        rw [hs]
        by_cases e : k = v.kind
        · subst e; rw [store_same]; exact hi
        · rw [store_ne w v.kind k st e]; exact b.inv k
      · intro k h
        have h2 := b.count k h
        rw [hcnt] at h2
        unfold BWorld.rc at h2 ⊢
        rw [hobj]
        by_cases e : k = v.kind ∧ h = f.handle v
        · rw [if_pos e]
          rw [if_pos (by simp [refOn, hp, e.1, e.2])] at h2
          simp only
          omega
        · rw [if_neg e]
          rw [if_neg (by simp only [refOn, Bool.and_eq_true, decide_eq_true_eq]; exact fun h => e ⟨h.1.1.symm, h.1.2.symm⟩)] at h2
          omega
      · intro k x
        have h2 := b.lock k x
        rw [hcnt] at h2
        rw [hl]
        by_cases e : v.kind = k ∧ k.mutex = true ∧ o = x
        · rw [if_pos e]
          rw [if_pos (by simp [lockOn, hp, e.1, e.2.1, e.2.2])] at h2
          omega
        · rw [if_neg e]
          rw [if_neg (by
            simp only [lockOn, hp, Bool.and_eq_true, decide_eq_true_eq, Option.some.injEq]
            exact fun h => e ⟨h.1.1, h.1.2, h.2⟩)] at h2
          omega
      · intro x hx o' ho'
        have h2 := b.obj x (List.mem_of_mem_erase hx) o' ho'
        rw [hobj]
        split
        · exact h2
        · exact h2
      · intro k h hx
        rw [hobj]
        split
        · exact b.keep k h hx
        · exact b.keep k h hx
    refine base _ ?_ ?_
    · split <;> rfl
    · intro k x
      by_cases hm : v.kind.mutex = true
      · rw [if_pos hm]
        simp only
        by_cases e : k = v.kind ∧ x = o
        · rw [if_pos e, if_pos ⟨e.1.symm, by rw [e.1]; exact hm, e.2.symm⟩]
        · rw [if_neg e, if_neg (fun h => e ⟨h.1.symm, h.2.2.symm⟩)]; rfl
      · rw [if_neg hm, if_neg (fun h => hm (by rw [h.1]; exact h.2.1))]
        rfl

theorem bal_cleanup {u : Uuid} {w0 : BWorld} {f : Frame} (vs : List PVar) : ∀ {w : BWorld} {held spent : List PVar}, Bal u w0 w f held spent →
    vs.Nodup → (∀ v ∈ held, v ∈ vs) → (∀ v ∈ spent, v ∉ vs) → ∃ spent', Bal u w0 (runCleanup u vs w f) f [] spent' := by
  induction vs with
  | nil =>
    intro w held spent b _ hh _
    have : held = [] := List.eq_nil_iff_forall_not_mem.mpr fun v hv => absurd (hh v hv) (by simp)
    subst this
    exact ⟨spent, b⟩
  | cons v vs ih =>
    intro w held spent b hn hh hs
    obtain ⟨hv, hn⟩ := List.nodup_cons.mp hn
    unfold runCleanup
    rw [List.foldl_cons]
    by_cases hm : v ∈ held
    · refine ih (bal_release b v hm) hn ?_ ?_
      · intro x hx
        have hx' := List.mem_of_mem_erase hx
        refine (List.mem_cons.mp (hh x hx')).resolve_left ?_
        intro e
        subst e
        exact List.Nodup.not_mem_erase b.nodup hx
      · intro x hx
        rcases List.mem_cons.mp hx with e | e
        · subst e; exact hv
        · exact fun h => hs x e (List.mem_cons_of_mem _ h)
    · have hsv : v ∉ spent := fun h => hs v h List.mem_cons_self
      have : releaseVar u w f v = w := by unfold releaseVar; rw [b.null v hm hsv]
      rw [this]
      refine ih b hn ?_ ?_
      · intro x hx
        refine (List.mem_cons.mp (hh x hx)).resolve_left ?_
        intro e; subst e; exact hm hx
      · intro x hx h
        exact hs x hx (List.mem_cons_of_mem _ h)

theorem bal_same {u : Uuid} {w0 w : BWorld} {f : Frame} {spent : List PVar} (b : Bal u w0 w f [] spent) : SameBorrows w0 w ∧ ∀ k, StoreInv (w.store k) :=
  ⟨⟨fun k h => by rw [b.count]; simp, fun k o => by rw [b.lock]; simp, b.keep⟩, b.inv⟩

theorem covers_mem {cleanup held spent : List PVar} (h : covers cleanup held spent = true) : (∀ v ∈ held, v ∈ cleanup) ∧ (∀ v ∈ spent, v ∉ cleanup) := by
  unfold covers at h
  simp only [Bool.and_eq_true, List.all_eq_true, List.contains_eq_mem, decide_eq_true_eq, Bool.not_eq_eq_eq_not, Bool.not_true,
    decide_eq_false_iff_not] at h
  exact h

/-- A new object does not disturb what is borrowed. -/
theorem bal_add {u : Uuid} {w0 w : BWorld} {f : Frame} {held spent : List PVar} (b : Bal u w0 w f held spent) (k : TKind) (x : Nat) :
    Bal u w0 (w.setStore k (objectStoreAdd (w.store k) x u).1) f held spent := by
  by_cases hs : (w.store k).isShuttingDown = true
  · have : (objectStoreAdd (w.store k) x u).1 = w.store k := by unfold objectStoreAdd; rw [if_pos hs]
    rw [this]
    exact bal_store b k _ (b.inv k) (fun _ => rfl) (fun _ _ => ⟨rfl, rfl⟩)
  · obtain ⟨hi, _, _, _, hc⟩ := add_spec (w.store k) (b.inv k) (by simpa using hs) x u
    rcases hc with ⟨_, _, _, h⟩ | ⟨_, _, hn, h⟩
    · exact bal_store b k _ hi (fun y => by rw [h]; rfl) (fun y _ => by rw [h]; exact ⟨rfl, rfl⟩)
    · have hz : w.rc k (objectStoreAdd (w.store k) x u).2.2 = 0 := (b.inv k).empty _ hn
      refine bal_store b k _ hi (fun y => ?_) (fun y hy => ?_)
      · rw [h]
        split
        · rename_i e; rw [e, hz]
        · rfl
      · rw [h, if_neg (fun e => hy (by rw [e]; exact hz))]
        exact ⟨rfl, rfl⟩

/-- Nor does the removal of an object: it has no references. -/
theorem bal_remove {u : Uuid} {w0 w : BWorld} {f : Frame} {held spent : List PVar} (b : Bal u w0 w f held spent) (k : TKind) (x : Nat)
    (st : ObjectStore Nat) (s : Status) (fr : Option Nat) (hr : objectStoreRemove (w.store k) x u = .returned st s fr) :
    Bal u w0 (w.setStore k st) f held spent := by
  unfold objectStoreRemove at hr
  by_cases hlt : x ≥ (w.store k).slotCount
  · rw [if_pos hlt] at hr
    simp only [RemoveResult.returned.injEq] at hr
    rw [← hr.1]
    exact bal_store b k _ (b.inv k) (fun _ => rfl) (fun _ _ => ⟨rfl, rfl⟩)
  · rw [if_neg hlt] at hr
    simp only at hr
    unfold incrementReleaseCount at hr
    by_cases hs : (w.store k).isShuttingDown = true
    · rw [if_pos hs] at hr
      simp only [Bool.not_false, if_true, RemoveResult.returned.injEq] at hr
      rw [← hr.1]
      exact bal_store b k _ (b.inv k) (fun _ => rfl) (fun _ _ => ⟨rfl, rfl⟩)
    · rw [if_neg hs] at hr
      simp only [Bool.not_true, Bool.false_eq_true, if_false] at hr
      have hi1 : StoreInv { w.store k with releaseCount := (w.store k).releaseCount + 1 } := by
        have := b.inv k
        exact ⟨this.wf, this.count, this.len, this.small, this.bits, this.empty⟩
      obtain ⟨hi, _, _, _, hc⟩ := storeRemoveBody_spec _ hi1 x (some u) (show x < (w.store k).slotCount by omega)
      have hobj1 : ∀ y, ({ w.store k with releaseCount := (w.store k).releaseCount + 1 } : ObjectStore Nat).obj y = (w.store k).obj y := fun _ => rfl
      have hdec : ∀ z : ObjectStore Nat, StoreInv z → StoreInv (decrementReleaseCount z) := fun z h => ⟨h.wf, h.count, h.len, h.small, h.bits, h.empty⟩
      have hdobj : ∀ (z : ObjectStore Nat) y, (decrementReleaseCount z).obj y = z.obj y := fun _ _ => rfl
      generalize hrb : storeRemoveBody { w.store k with releaseCount := (w.store k).releaseCount + 1 } x (some u) = rb at hr hi hc
      obtain ⟨st2, it⟩ := rb
      rcases hc with ⟨e, _⟩ | ⟨e, _⟩ | ⟨e, _⟩ | ⟨ob, ho, _, hz, e, h⟩
      · simp only [Prod.mk.injEq] at e
        obtain ⟨e1, e2⟩ := e
        subst e1 e2
        simp only [RemoveResult.returned.injEq] at hr
        rw [← hr.1]
        exact bal_store b k _ (hdec _ hi) (fun _ => rfl) (fun _ _ => ⟨rfl, rfl⟩)
      · simp only [Prod.mk.injEq] at e
        obtain ⟨e1, e2⟩ := e
        subst e1 e2
        simp only [RemoveResult.returned.injEq] at hr
        rw [← hr.1]
        exact bal_store b k _ (hdec _ hi) (fun _ => rfl) (fun _ _ => ⟨rfl, rfl⟩)
      · simp only [Prod.mk.injEq] at e
        obtain ⟨e1, e2⟩ := e
        subst e1 e2
        simp at hr
      · simp only at e h
        subst e
        simp only [RemoveResult.returned.injEq] at hr
        rw [← hr.1]
        have hz' : w.rc k x = 0 := hz
        refine bal_store b k _ (hdec _ hi) (fun y => ?_) (fun y hy => ?_)
        · rw [hdobj, h]
          split
          · rename_i e; rw [e, hz']
          · rfl
        · rw [hdobj, h, if_neg (fun e => hy (by rw [e]; exact hz'))]
          exact ⟨rfl, rfl⟩

/-- One statement keeps the invariant. -/
theorem bal_step {u : Uuid} {w0 w : BWorld} {f : Frame} {held spent : List PVar} (b : Bal u w0 w f held spent) {lenient : Bool} {cleanup : List PVar}
    {op : Op} {held' spent' : List PVar} (hok : opOk lenient cleanup held spent op = some (held', spent')) (orc : List Bool) {fl : Flow} {w1 : BWorld}
    {f1 : Frame} {orc1 : List Bool} (hs : stepOp u op w f orc = some (fl, w1, f1, orc1)) :
    (fl = .next → Bal u w0 w1 f1 held' spent') ∧
    (fl = .brk → ∃ h s, Bal u w0 w1 f1 h s ∧ (∀ v ∈ h, v ∈ cleanup) ∧ (∀ v ∈ s, v ∉ cleanup)) ∧
    (fl = .ret → lenient = false → SameBorrows w0 w1 ∧ ∀ k, StoreInv (w1.store k)) := by
  cases op with
  | acquire v =>
    simp only [opOk] at hok
    split at hok
    case isFalse => simp at hok
    rename_i hc
    simp only [Bool.and_eq_true, Bool.not_eq_eq_eq_not, Bool.not_true, List.contains_eq_mem, decide_eq_false_iff_not] at hc
    simp only [Option.some.injEq, Prod.mk.injEq] at hok
    obtain ⟨e1, e2⟩ := hok
    subst e1 e2
    obtain ⟨c1, c2⟩ := covers_mem hc.1.1
    simp only [stepOp] at hs
    split at hs
    · simp only [Option.some.injEq, Prod.mk.injEq] at hs
      obtain ⟨rfl, rfl, rfl, _⟩ := hs
      refine ⟨by simp, fun _ => ⟨held, spent, ?_, c1, c2⟩, by simp⟩
      refine bal_frame b ?_ ?_
      · intro x hx
        simp [upd1, show x ≠ v from fun e => hc.1.2 (e ▸ hx)]
      · intro x hx hx'
        simp only [upd1]
        split
        · rfl
        · exact b.null x hx hx'
    · simp only [Option.some.injEq, Prod.mk.injEq] at hs
      obtain ⟨rfl, rfl, rfl, _⟩ := hs
      obtain ⟨a1, a2, _⟩ := bal_acquire b v hc.1.2 hc.2
      cases ha : (acquireVar u w f v).1 with
      | true => exact ⟨fun _ => a1 ha, by simp, by simp⟩
      | false => exact ⟨by simp, fun _ => ⟨held, spent, a2 ha, c1, c2⟩, by simp⟩
  | acquireIf v =>
    simp only [opOk] at hok
    split at hok
    case isFalse => simp at hok
    rename_i hc
    simp only [Bool.and_eq_true, Bool.not_eq_eq_eq_not, Bool.not_true, List.contains_eq_mem, decide_eq_false_iff_not] at hc
    simp only [Option.some.injEq, Prod.mk.injEq] at hok
    obtain ⟨e1, e2⟩ := hok
    subst e1 e2
    obtain ⟨c1, c2⟩ := covers_mem hc.1.1
    simp only [stepOp] at hs
    split at hs
    · simp only [Option.some.injEq, Prod.mk.injEq] at hs
      obtain ⟨rfl, rfl, rfl, _⟩ := hs
      refine ⟨fun _ => ?_, by simp, by simp⟩
      have hn := b.null v hc.1.2 hc.2
      refine ⟨b.inv, ?_, ?_, ?_, b.keep, ?_, List.nodup_cons.mpr ⟨hc.1.2, b.nodup⟩⟩
      · intro k h; rw [List.countP_cons, b.count]; simp [refOn, hn]
      · intro k h; rw [List.countP_cons, b.lock]; simp [lockOn, hn]
      · intro x hx o ho
        rcases List.mem_cons.mp hx with e | e
        · subst e; rw [hn] at ho; simp at ho
        · exact b.obj x e o ho
      · intro x hx hx'
        simp only [List.mem_cons, not_or] at hx
        exact b.null x hx.2 hx'
    · simp only [Option.some.injEq, Prod.mk.injEq] at hs
      obtain ⟨rfl, rfl, rfl, _⟩ := hs
      obtain ⟨a1, a2, _⟩ := bal_acquire b v hc.1.2 hc.2
      cases ha : (acquireVar u w f v).1 with
      | true => exact ⟨fun _ => a1 ha, by simp, by simp⟩
      | false => exact ⟨by simp, fun _ => ⟨held, spent, a2 ha, c1, c2⟩, by simp⟩
  | release v =>
    simp only [opOk] at hok
    split at hok
    case isFalse => simp at hok
    rename_i hc
    simp only [List.contains_eq_mem, decide_eq_true_eq] at hc
    simp only [Option.some.injEq, Prod.mk.injEq] at hok
    obtain ⟨e1, e2⟩ := hok
    subst e1 e2
    simp only [stepOp, Option.some.injEq, Prod.mk.injEq] at hs
    obtain ⟨rfl, rfl, rfl, _⟩ := hs
    exact ⟨fun _ => bal_release b v hc, by simp, by simp⟩
  | check =>
    simp only [opOk] at hok
    split at hok
    case isFalse => simp at hok
    rename_i hc
    simp only [Option.some.injEq, Prod.mk.injEq] at hok
    obtain ⟨e1, e2⟩ := hok
    subst e1 e2
    obtain ⟨c1, c2⟩ := covers_mem hc
    simp only [stepOp, Option.some.injEq, Prod.mk.injEq] at hs
    obtain ⟨hf, rfl, rfl, _⟩ := hs
    exact ⟨fun _ => b, fun _ => ⟨_, _, b, c1, c2⟩, fun h => by rw [← hf] at h; split at h <;> simp at h⟩
  | checkReturn =>
    simp only [opOk] at hok
    split at hok
    case isFalse => simp at hok
    rename_i hc
    simp only [Option.some.injEq, Prod.mk.injEq] at hok
    obtain ⟨e1, e2⟩ := hok
    subst e1 e2
    simp only [stepOp, Option.some.injEq, Prod.mk.injEq] at hs
    obtain ⟨hf, rfl, rfl, _⟩ := hs
    refine ⟨fun _ => b, fun h => by rw [← hf] at h; split at h <;> simp at h, fun _ hl => ?_⟩
    rw [hl] at hc
    simp only [Bool.false_or, List.isEmpty_iff] at hc
    subst hc
    exact bal_same b
  | add v =>
    simp only [opOk] at hok
    split at hok
    case isFalse => simp at hok
    rename_i hc
    simp only [Bool.and_eq_true, Bool.not_eq_eq_eq_not, Bool.not_true, List.contains_eq_mem, decide_eq_false_iff_not] at hc
    simp only [Option.some.injEq, Prod.mk.injEq] at hok
    obtain ⟨e1, e2⟩ := hok
    subst e1 e2
    obtain ⟨c1, c2⟩ := covers_mem hc.1
    simp only [stepOp, Option.some.injEq, Prod.mk.injEq] at hs
    obtain ⟨hf, rfl, rfl, _⟩ := hs
    have b1 := bal_frame (f' := { f with handle := upd1 f.handle v (objectStoreAdd (w.store v.kind) f.fresh u).2.2, fresh := f.fresh + 1 })
      (bal_add b v.kind f.fresh) (fun x hx => ⟨rfl, by simp [upd1, show x ≠ v from fun e => hc.2 (e ▸ hx)]⟩) (fun x hx hx' => b.null x hx hx')
    exact ⟨fun _ => b1, fun _ => ⟨_, _, b1, c1, c2⟩, fun h => by rw [← hf] at h; split at h <;> simp at h⟩
  | remove v =>
    simp only [opOk] at hok
    split at hok
    case isFalse => simp at hok
    rename_i hc
    simp only [Option.some.injEq, Prod.mk.injEq] at hok
    obtain ⟨e1, e2⟩ := hok
    subst e1 e2
    obtain ⟨c1, c2⟩ := covers_mem (Bool.and_eq_true _ _ ▸ hc).1
    simp only [stepOp] at hs
    cases hr : objectStoreRemove (w.store v.kind) (f.handle v) u with
    | blocks st => rw [hr] at hs; simp at hs
    | returned st s fr =>
      rw [hr] at hs
      simp only [Option.some.injEq, Prod.mk.injEq] at hs
      obtain ⟨hf, rfl, rfl, _⟩ := hs
      have b1 := bal_remove b v.kind (f.handle v) st s fr hr
      exact ⟨fun _ => b1, fun _ => ⟨_, _, b1, c1, c2⟩, fun h => by rw [← hf] at h; split at h <;> simp at h⟩

theorem bal_ops {u : Uuid} {w0 : BWorld} {lenient : Bool} {cleanup : List PVar} (ops : List Op) : ∀ {w : BWorld} {f : Frame} {held spent : List PVar},
    Bal u w0 w f held spent → opsOk lenient cleanup ops held spent = true → ∀ (orc : List Bool) {fl : Flow} {w1 : BWorld} {f1 : Frame} {orc1 : List Bool},
    runOps u ops w f orc = some (fl, w1, f1, orc1) →
    (fl ≠ .ret → ∃ h s, Bal u w0 w1 f1 h s ∧ (∀ v ∈ h, v ∈ cleanup) ∧ (∀ v ∈ s, v ∉ cleanup)) ∧
    (fl = .ret → lenient = false → SameBorrows w0 w1 ∧ ∀ k, StoreInv (w1.store k)) := by
  induction ops with
  | nil =>
    intro w f held spent b hok orc fl w1 f1 orc1 hr
    simp only [runOps, Option.some.injEq, Prod.mk.injEq] at hr
    obtain ⟨rfl, rfl, rfl, _⟩ := hr
    obtain ⟨c1, c2⟩ := covers_mem hok
    exact ⟨fun _ => ⟨held, spent, b, c1, c2⟩, by simp⟩
  | cons op ops ih =>
    intro w f held spent b hok orc fl w1 f1 orc1 hr
    simp only [opsOk] at hok
    cases ho : opOk lenient cleanup held spent op with
    | none => rw [ho] at hok; simp at hok
    | some hs =>
      obtain ⟨held', spent'⟩ := hs
      rw [ho] at hok
      simp only at hok
      simp only [runOps] at hr
      cases hst : stepOp u op w f orc with
      | none => rw [hst] at hr; simp at hr
      | some r =>
        obtain ⟨fl', w', f', orc'⟩ := r
        obtain ⟨s1, s2, s3⟩ := bal_step b ho orc hst
        rw [hst] at hr
        cases fl' with
        | next => exact ih (s1 rfl) hok orc' hr
        | brk =>
          simp only [Option.some.injEq, Prod.mk.injEq] at hr
          obtain ⟨rfl, rfl, rfl, _⟩ := hr
          exact ⟨fun _ => s2 rfl, by simp⟩
        | ret =>
          simp only [Option.some.injEq, Prod.mk.injEq] at hr
          obtain ⟨rfl, rfl, rfl, _⟩ := hr
          exact ⟨fun h => absurd rfl h, fun _ => s3 rfl⟩

theorem sub_same {u : Uuid} {lenient : Bool} (s : Sub) (hok : subOk lenient s = true) (args : PVar → Nat) (fresh : Nat) (w : BWorld)
    (hi : ∀ k, StoreInv (w.store k)) (orc : List Bool) {e : Bool} {w1 : BWorld} {orc1 : List Bool}
    (hr : runSub u s args fresh w orc = some (e, w1, orc1)) (he : e = false ∨ lenient = false) : SameBorrows w w1 ∧ ∀ k, StoreInv (w1.store k) := by
  unfold subOk at hok
  simp only [Bool.and_eq_true, decide_eq_true_eq] at hok
  unfold runSub at hr
  cases ho : runOps u s.body w (frame args fresh) orc with
  | none => rw [ho] at hr; simp at hr
  | some r =>
    obtain ⟨fl, w', f', orc'⟩ := r
    obtain ⟨h1, h2⟩ := bal_ops s.body (bal_start u w hi args fresh) hok.2 orc ho
    rw [ho] at hr
    have fin : fl ≠ .ret → SameBorrows w (runCleanup u s.cleanup w' f') ∧ ∀ k, StoreInv ((runCleanup u s.cleanup w' f').store k) := by
      intro hf
      obtain ⟨h, sp, b, c1, c2⟩ := h1 hf
      obtain ⟨sp', b'⟩ := bal_cleanup s.cleanup b hok.1 c1 c2
      exact bal_same b'
    cases fl with
    | next =>
      simp only [Option.some.injEq, Prod.mk.injEq] at hr
      obtain ⟨_, rfl, _⟩ := hr
      exact fin (by simp)
    | brk =>
      simp only [Option.some.injEq, Prod.mk.injEq] at hr
      obtain ⟨_, rfl, _⟩ := hr
      exact fin (by simp)
    | ret =>
      simp only [Option.some.injEq, Prod.mk.injEq] at hr
      obtain ⟨rfl, rfl, _⟩ := hr
      rcases he with h | h
      · simp at h
      · exact h2 rfl h

/-- A call keeps the invariant of the caller. -/
theorem bal_call {u : Uuid} {w0 w w1 : BWorld} {f : Frame} {held spent : List PVar} (b : Bal u w0 w f held spent) (h : SameBorrows w w1)
    (hi : ∀ k, StoreInv (w1.store k)) : Bal u w0 w1 f held spent where
  inv := hi
  count k x := by rw [h.count, b.count]
  lock k x := by rw [h.lock, b.lock]
  obj v hv o ho := by
    have h1 : w.rc v.kind (f.handle v) ≠ 0 := by
      rw [b.count]
      have : 0 < held.countP (refOn f v.kind (f.handle v)) := List.countP_pos_iff.mpr ⟨v, hv, by simp [refOn, ho]⟩
      omega
    have h2 := h.keep _ _ h1
    rw [h2.1, h2.2]
    exact b.obj v hv o ho
  keep k x hx := by
    have h2 := h.keep k x (by rw [b.count]; omega)
    rw [h2.1, h2.2]
    exact b.keep k x hx
  null := b.null
  nodup := b.nodup

theorem runStmts_early {u : Uuid} (ss : List Stmt) : ∀ {w : BWorld} {f : Frame} {orc : List Bool} {fl : Flow} {w1 : BWorld} {f1 : Frame}
    {orc1 : List Bool} {e : Bool}, runStmts u ss w f orc true = some (fl, w1, f1, orc1, e) → e = true := by
  induction ss with
  | nil =>
    intro w f orc fl w1 f1 orc1 e h
    simp only [runStmts, Option.some.injEq, Prod.mk.injEq] at h
    exact h.2.2.2.2.symm
  | cons s ss ih =>
    intro w f orc fl w1 f1 orc1 e h
    cases s with
    | op o =>
      simp only [runStmts] at h
      cases hs : stepOp u o w f orc with
      | none => rw [hs] at h; simp at h
      | some r =>
        obtain ⟨fl', w', f', orc'⟩ := r
        rw [hs] at h
        cases fl' with
        | next => exact ih h
        | brk => simp only [Option.some.injEq, Prod.mk.injEq, Bool.true_or] at h; exact h.2.2.2.2.symm
        | ret => simp only [Option.some.injEq, Prod.mk.injEq, Bool.true_or] at h; exact h.2.2.2.2.symm
    | call s args =>
      simp only [runStmts] at h
      cases hs : runSub u s args f.fresh w orc with
      | none => rw [hs] at h; simp at h
      | some r =>
        obtain ⟨e', w', orc'⟩ := r
        rw [hs] at h
        simp only [Bool.true_or] at h
        split at h
        · simp only [Option.some.injEq, Prod.mk.injEq] at h; exact h.2.2.2.2.symm
        · exact ih h

theorem bal_stmts {u : Uuid} {w0 : BWorld} {lenient : Bool} {cleanup : List PVar} (ss : List Stmt) : ∀ {w : BWorld} {f : Frame} {held spent : List PVar},
    Bal u w0 w f held spent → stmtsOk lenient cleanup ss held spent = true → ∀ (orc : List Bool) (e0 : Bool) {fl : Flow} {w1 : BWorld} {f1 : Frame}
    {orc1 : List Bool} {e : Bool}, runStmts u ss w f orc e0 = some (fl, w1, f1, orc1, e) → (e = false ∨ lenient = false) →
    (fl ≠ .ret → ∃ h s, Bal u w0 w1 f1 h s ∧ (∀ v ∈ h, v ∈ cleanup) ∧ (∀ v ∈ s, v ∉ cleanup)) ∧
    (fl = .ret → SameBorrows w0 w1 ∧ ∀ k, StoreInv (w1.store k)) := by
  induction ss with
  | nil =>
    intro w f held spent b hok orc e0 fl w1 f1 orc1 e hr _
    simp only [runStmts, Option.some.injEq, Prod.mk.injEq] at hr
    obtain ⟨rfl, rfl, rfl, _⟩ := hr
    obtain ⟨c1, c2⟩ := covers_mem hok
    exact ⟨fun _ => ⟨held, spent, b, c1, c2⟩, by simp⟩
  | cons s ss ih =>
    intro w f held spent b hok orc e0 fl w1 f1 orc1 e hr he
    cases s with
    | op op =>
      simp only [stmtsOk] at hok
      cases ho : opOk lenient cleanup held spent op with
      | none => rw [ho] at hok; simp at hok
      | some hs =>
        obtain ⟨held', spent'⟩ := hs
        rw [ho] at hok
        simp only at hok
        simp only [runStmts] at hr
        cases hst : stepOp u op w f orc with
        | none => rw [hst] at hr; simp at hr
        | some r =>
          obtain ⟨fl', w', f', orc'⟩ := r
          obtain ⟨s1, s2, s3⟩ := bal_step b ho orc hst
          rw [hst] at hr
          cases fl' with
          | next => exact ih (s1 rfl) hok orc' e0 hr he
          | brk =>
            simp only [Option.some.injEq, Prod.mk.injEq] at hr
            obtain ⟨rfl, rfl, rfl, _⟩ := hr
            exact ⟨fun _ => s2 rfl, by simp⟩
          | ret =>
            simp only [Option.some.injEq, Prod.mk.injEq] at hr
            obtain ⟨rfl, rfl, rfl, _, h⟩ := hr
            refine ⟨fun h => absurd rfl h, fun _ => s3 rfl ?_⟩
            rcases he with h' | h'
            · rw [← h] at h'; simp at h'
            · exact h'
    | call s args =>
      simp only [stmtsOk, Bool.and_eq_true] at hok
      simp only [runStmts] at hr
      cases hst : runSub u s args f.fresh w orc with
      | none => rw [hst] at hr; simp at hr
      | some r =>
        obtain ⟨e', w', orc'⟩ := r
        rw [hst] at hr
        simp only at hr
        have hsame : SameBorrows w w' ∧ ∀ k, StoreInv (w'.store k) := by
          refine sub_same s hok.1.1.2 args f.fresh w b.inv orc hst ?_
          rcases he with h | h
          · left
            cases e' with
            | false => rfl
            | true =>
              exfalso
              rw [Bool.or_true] at hr
              split at hr
              · simp only [Option.some.injEq, Prod.mk.injEq] at hr
                rw [← hr.2.2.2.2] at h; simp at h
              · rw [runStmts_early ss hr] at h; simp at h
          · exact Or.inr h
        have b' := bal_call b hsame.1 hsame.2
        obtain ⟨c1, c2⟩ := covers_mem hok.1.1.1
        split at hr
        · simp only [Option.some.injEq, Prod.mk.injEq] at hr
          obtain ⟨rfl, rfl, rfl, _⟩ := hr
          exact ⟨fun _ => ⟨held, spent, b', c1, c2⟩, by simp⟩
        · exact ih (bal_frame (f' := { f with fresh := f.fresh + 8 }) b' (fun _ _ => ⟨rfl, rfl⟩) (fun v h h' => b.null v h h')) hok.2 orc'.tail _ hr he

/-- **Main lemma.**  A program that passes the analysis leaves the borrows as they were; a leniently analysed one does so if no function returned out of
its block. -/
theorem prog_same {u : Uuid} {lenient : Bool} (p : Prog) (hok : progOk lenient p = true) (args : PVar → Nat) (fresh : Nat) (w : BWorld)
    (hi : ∀ k, StoreInv (w.store k)) (orc : List Bool) {e : Bool} {w1 : BWorld} (hr : runProg u p args fresh w orc = some (e, w1))
    (he : e = false ∨ lenient = false) : SameBorrows w w1 ∧ ∀ k, StoreInv (w1.store k) := by
  unfold progOk at hok
  simp only [Bool.and_eq_true, decide_eq_true_eq] at hok
  unfold runProg at hr
  cases ho : runStmts u p.body w (frame args fresh) orc false with
  | none => rw [ho] at hr; simp at hr
  | some r =>
    obtain ⟨fl, w', f', orc', e'⟩ := r
    rw [ho] at hr
    have he' : e' = e := by
      cases fl <;> simp only [Option.some.injEq, Prod.mk.injEq] at hr <;> exact hr.1
    obtain ⟨h1, h2⟩ := bal_stmts p.body (bal_start u w hi args fresh) hok.2 orc false ho (by rw [he']; exact he)
    have fin : fl ≠ .ret → SameBorrows w (runCleanup u p.cleanup w' f') ∧ ∀ k, StoreInv ((runCleanup u p.cleanup w' f').store k) := by
      intro hf
      obtain ⟨h, sp, b, c1, c2⟩ := h1 hf
      obtain ⟨sp', b'⟩ := bal_cleanup p.cleanup b hok.1 c1 c2
      exact bal_same b'
    cases fl with
    | next =>
      simp only [Option.some.injEq, Prod.mk.injEq] at hr
      obtain ⟨_, rfl⟩ := hr
      exact fin (by simp)
    | brk =>
      simp only [Option.some.injEq, Prod.mk.injEq] at hr
      obtain ⟨_, rfl⟩ := hr
      exact fin (by simp)
    | ret =>
      simp only [Option.some.injEq, Prod.mk.injEq] at hr
      obtain ⟨_, rfl⟩ := hr
      exact h2 rfl

/-! ## Every call returns -/

theorem remove_returns (st : ObjectStore Nat) (hi : StoreInv st) (x : Nat) (u : Uuid) (hz : (st.obj x).referenceCount = 0) :
    ∃ st' s fr, objectStoreRemove st x u = .returned st' s fr := by
  unfold objectStoreRemove
  by_cases hlt : x ≥ st.slotCount
  · rw [if_pos hlt]; exact ⟨_, _, _, rfl⟩
  · rw [if_neg hlt]
    simp only
    unfold incrementReleaseCount
    by_cases hs : st.isShuttingDown = true
    · rw [if_pos hs]; exact ⟨_, _, _, rfl⟩
    · rw [if_neg hs]
      simp only [Bool.not_true, Bool.false_eq_true, if_false]
      have hi1 : StoreInv { st with releaseCount := st.releaseCount + 1 } := ⟨hi.wf, hi.count, hi.len, hi.small, hi.bits, hi.empty⟩
      obtain ⟨_, _, _, _, hc⟩ := storeRemoveBody_spec _ hi1 x (some u) (show x < st.slotCount by omega)
      generalize storeRemoveBody { st with releaseCount := st.releaseCount + 1 } x (some u) = rb at hc
      obtain ⟨st2, it⟩ := rb
      rcases hc with ⟨e, _⟩ | ⟨e, _⟩ | ⟨_, _, _, h⟩ | ⟨ob, ho, _, _, e, h⟩
      · simp only [Prod.mk.injEq] at e; obtain ⟨rfl, rfl⟩ := e; exact ⟨_, _, _, rfl⟩
      · simp only [Prod.mk.injEq] at e; obtain ⟨rfl, rfl⟩ := e; exact ⟨_, _, _, rfl⟩
      · exact absurd hz h
      · simp only at e; subst e; exact ⟨_, _, _, rfl⟩

theorem step_returns {u : Uuid} {w0 w : BWorld} {f : Frame} {held spent : List PVar} (b : Bal u w0 w f held spent) {lenient : Bool} {cleanup : List PVar}
    {op : Op} {held' spent' : List PVar} (hok : opOk lenient cleanup held spent op = some (held', spent')) (orc : List Bool)
    (hz : ∀ v, op = .remove v → ∀ h, w0.rc v.kind h = 0) : stepOp u op w f orc ≠ none := by
  cases op with
  | remove v =>
    simp only [opOk] at hok
    split at hok
    case isFalse => simp at hok
    rename_i hc
    simp only [Bool.and_eq_true, List.all_eq_true, decide_eq_true_eq] at hc
    have hrc : w.rc v.kind (f.handle v) = 0 := by
      rw [b.count, hz v rfl, Nat.zero_add, List.countP_eq_zero]
      intro x hx
      simp [refOn, hc.2 x hx]
    obtain ⟨st', s, fr, hr⟩ := remove_returns (w.store v.kind) (b.inv _) (f.handle v) u hrc
    simp only [stepOp, hr]
    simp
  | acquire v => simp only [stepOp]; split <;> simp
  | acquireIf v => simp only [stepOp]; split <;> simp
  | release v => simp [stepOp]
  | check => simp [stepOp]
  | checkReturn => simp [stepOp]
  | add v => simp [stepOp]

theorem ops_return {u : Uuid} {w0 : BWorld} {lenient : Bool} {cleanup : List PVar} (ops : List Op) : ∀ {w : BWorld} {f : Frame} {held spent : List PVar},
    Bal u w0 w f held spent → opsOk lenient cleanup ops held spent = true → (∀ v, .remove v ∈ ops → ∀ h, w0.rc v.kind h = 0) → ∀ (orc : List Bool),
    runOps u ops w f orc ≠ none := by
  induction ops with
  | nil => intros; simp [runOps]
  | cons op ops ih =>
    intro w f held spent b hok hz orc
    simp only [opsOk] at hok
    cases ho : opOk lenient cleanup held spent op with
    | none => rw [ho] at hok; simp at hok
    | some hs =>
      obtain ⟨held', spent'⟩ := hs
      rw [ho] at hok
      simp only at hok
      simp only [runOps]
      have hn := step_returns b ho orc (fun v e => hz v (by rw [e]; exact List.mem_cons_self))
      cases hst : stepOp u op w f orc with
      | none => exact absurd hst hn
      | some r =>
        obtain ⟨fl', w', f', orc'⟩ := r
        obtain ⟨s1, s2, s3⟩ := bal_step b ho orc hst
        cases fl' with
        | next => exact ih (s1 rfl) hok (fun v h => hz v (List.mem_cons_of_mem _ h)) orc'
        | brk => simp
        | ret => simp

theorem stmts_return {u : Uuid} {w0 : BWorld} {cleanup : List PVar} (hz : ∀ k h, w0.rc k h = 0) (ss : List Stmt) : ∀ {w : BWorld} {f : Frame}
    {held spent : List PVar}, Bal u w0 w f held spent → stmtsOk false cleanup ss held spent = true → ∀ (orc : List Bool) (e0 : Bool),
    runStmts u ss w f orc e0 ≠ none := by
  induction ss with
  | nil => intros; simp [runStmts]
  | cons s ss ih =>
    intro w f held spent b hok orc e0
    cases s with
    | op op =>
      simp only [stmtsOk] at hok
      cases ho : opOk false cleanup held spent op with
      | none => rw [ho] at hok; simp at hok
      | some hs =>
        obtain ⟨held', spent'⟩ := hs
        rw [ho] at hok
        simp only at hok
        simp only [runStmts]
        have hn := step_returns b ho orc (fun v _ => hz v.kind)
        cases hst : stepOp u op w f orc with
        | none => exact absurd hst hn
        | some r =>
          obtain ⟨fl', w', f', orc'⟩ := r
          obtain ⟨s1, s2, s3⟩ := bal_step b ho orc hst
          cases fl' with
          | next => exact ih (s1 rfl) hok orc' e0
          | brk => simp
          | ret => simp
    | call s args =>
      simp only [stmtsOk, Bool.and_eq_true] at hok
      simp only [runStmts]
      have hsub : runSub u s args f.fresh w orc ≠ none := by
        have h2 := hok.1.1.2
        unfold subOk at h2
        simp only [Bool.and_eq_true, decide_eq_true_eq] at h2
        have hn := ops_return (u := u) s.body (bal_start u w b.inv args f.fresh) h2.2 (by
          intro v hv h
          rw [b.count, hz, Nat.zero_add, List.countP_eq_zero]
          intro x hx
          have h3 := List.all_eq_true.mp hok.1.2 x hx
          have : x.kind ≠ v.kind := by
            intro e
            have : s.removes x.kind = true := by
              unfold Sub.removes
              exact List.any_eq_true.mpr ⟨_, hv, by simp [e]⟩
            rw [this] at h3; simp at h3
          simp [refOn, this]) orc
        unfold runSub
        cases hr : runOps u s.body w (frame args f.fresh) orc with
        | none => exact absurd hr hn
        | some r =>
          obtain ⟨fl', w', f', orc'⟩ := r
          cases fl' <;> simp
      cases hst : runSub u s args f.fresh w orc with
      | none => exact absurd hst hsub
      | some r =>
        obtain ⟨e', w', orc'⟩ := r
        simp only
        have hsame := sub_same s hok.1.1.2 args f.fresh w b.inv orc hst (Or.inr rfl)
        have b' := bal_call b hsame.1 hsame.2
        split
        · simp
        · exact ih (bal_frame (f' := { f with fresh := f.fresh + 8 }) b' (fun _ _ => ⟨rfl, rfl⟩) (fun v h h' => b.null v h h')) hok.2 orc'.tail _

theorem prog_returns {u : Uuid} (p : Prog) (hok : progOk false p = true) (args : PVar → Nat) (fresh : Nat) (w : BWorld)
    (hi : ∀ k, StoreInv (w.store k)) (hz : ∀ k h, w.rc k h = 0) (orc : List Bool) : ∃ r, runProg u p args fresh w orc = some r := by
  unfold progOk at hok
  simp only [Bool.and_eq_true, decide_eq_true_eq] at hok
  have h := stmts_return (u := u) hz p.body (bal_start u w hi args fresh) hok.2 orc false
  unfold runProg
  cases ho : runStmts u p.body w (frame args fresh) orc false with
  | none => exact absurd ho h
  | some r =>
    obtain ⟨fl, w', f', orc', e'⟩ := r
    cases fl <;> exact ⟨_, rfl⟩

/-! ## The entry points pass the analysis -/

theorem stmtsOk_calls (lenient : Bool) (cleanup held spent : List PVar) (s : Sub) (rest : List Stmt) (hc : covers cleanup held spent = true)
    (hs : subOk lenient s = true) (hr : held.all (fun v => !s.removes v.kind) = true) (h : stmtsOk lenient cleanup rest held spent = true)
    (l : List (PVar → Nat)) : stmtsOk lenient cleanup (l.map (Stmt.call s) ++ rest) held spent = true := by
  induction l with
  | nil => exact h
  | cons a l ih => simp only [List.map_cons, List.cons_append, stmtsOk, hc, hs, hr, ih, Bool.and_self]

theorem apiProgs_ok (a : CallArgs) (name : String) (p : Prog) (hp : (name, p) ∈ apiProgs a) : progOk false p = true := by
  unfold apiProgs at hp
  simp only [List.mem_cons, Prod.mk.injEq, List.not_mem_nil, or_false] at hp
  have hcenc : progOk false ⟨[sop .checkReturn, sop (.acquire .client)] ++ a.samples.map (Stmt.call verifySampleSub) ++
      a.samples.map (Stmt.call processSampleSub), [.client]⟩ = true := by
    unfold progOk
    rw [Bool.and_eq_true]
    refine ⟨rfl, ?_⟩
    rw [List.append_assoc]
    refine (stmtsOk_calls false _ [.client] [] _ _ rfl rfl rfl ?_ _)
    rw [← List.append_nil (a.samples.map (Stmt.call processSampleSub))]
    exact (stmtsOk_calls false _ [.client] [] _ _ rfl rfl rfl rfl _)
  rcases hp with ⟨_, rfl⟩ | hp
  · rfl
  iterate 18 rcases hp with ⟨_, rfl⟩ | hp <;> first | rfl | skip
  rcases hp with ⟨_, rfl⟩ | hp
  · exact hcenc
  iterate 4 rcases hp with ⟨_, rfl⟩ | hp <;> first | rfl | skip
  obtain ⟨_, rfl⟩ := hp
  rfl

end Sa

import Verif.Model.Cipher
import Verif.Lemmas.StoreHistory
import Verif.Lemmas.KeyStore

/-!
# Cipher contexts: who owns which memory
-/

namespace Sa

/-- The IV (counter block, nonce), counter and additional data that the caller gives. -/
def InitParams.sym : InitParams → SymParams
  | .cbc _ (some iv) => ⟨iv.getD [], [], []⟩
  | .ctr (some iv) => ⟨iv.getD [], [], []⟩
  | .gcm (some (iv, aad)) => ⟨iv.getD [], [], aad.get.getD []⟩
  | .chacha20 (some (counter, nonce)) => ⟨nonce.getD [], counter.getD [], []⟩
  | .poly (some (nonce, aad)) => ⟨nonce.getD [], [], aad.get.getD []⟩
  | _ => ⟨[], [], []⟩

variable {σ : Type}

/-- The context `h` refers to the memory `x`. -/
def Refers (w : CipherWorld σ) (h x : Nat) : Prop :=
  ∃ ptr o, (w.store.obj h).object = some ptr ∧ w.heap ptr = some (.obj o) ∧ (x = ptr ∨ o.sym = some x ∨ o.key = some x)

structure CipherInv (w : CipherWorld σ) : Prop where
  live : LiveInv w.store
  fresh : ∀ x, w.heap x ≠ none → x < w.next
  shape : ∀ h ptr, (w.store.obj h).object = some ptr → ∃ o kp sk, w.heap ptr = some (.obj o) ∧ o.key = some kp ∧
    w.heap kp = some (.key sk) ∧ ∀ sp, o.sym = some sp → ∃ c, w.heap sp = some (.sym c)
  inj : ∀ h h' x, Refers w h x → Refers w h' x → h = h'
  leak : ∀ x, w.heap x ≠ none → ∃ h, Refers w h x

/-- Everything observable is as before. -/
structure SameCtx (w w' : CipherWorld σ) : Prop where
  live : LiveInv w'.store
  heap : ∀ x, w'.heap x = w.heap x
  store : ∀ x, w'.store.obj x = w.store.obj x
  next : w.next ≤ w'.next
  count : w'.store.slotCount = w.store.slotCount

/-- The new context `h`, with object `ptr`, owns a copy of the key at `w.next`. -/
structure NewCtx (w w' : CipherWorld σ) (h ptr : Nat) (o : CipherObj) (sk : StoredKey) (caller : Uuid) : Prop where
  live : LiveInv w'.store
  count : w'.store.slotCount = w.store.slotCount
  free : (w.store.obj h).object = none
  small : h < w.store.slotCount
  store : ∀ x, w'.store.obj x = if x = h then ⟨some ptr, 0, caller⟩ else w.store.obj x
  old : ∀ x, x < w.next → w'.heap x = w.heap x
  ptrNew : w.next < ptr
  obj : w'.heap ptr = some (.obj o)
  key : o.key = some w.next
  keyCell : w'.heap w.next = some (.key sk)
  sym : ∀ sp, o.sym = some sp → w.next < sp ∧ ∃ c, w'.heap sp = some (.sym c)
  only : ∀ x, w.next ≤ x → w'.heap x ≠ none → x = ptr ∨ x = w.next ∨ o.sym = some x
  next : ∀ x, w'.heap x ≠ none → x < w'.next

theorem refers_congr {w w' : CipherWorld σ} (hh : ∀ x, w'.heap x = w.heap x) (hs : ∀ x, (w'.store.obj x).object = (w.store.obj x).object) (h x : Nat) :
    Refers w' h x ↔ Refers w h x := by
  unfold Refers
  simp only [hh, hs]

theorem CipherInv.same {w w' : CipherWorld σ} (inv : CipherInv w) (h : SameCtx w w') : CipherInv w' := by
  have hr := refers_congr (w := w) (w' := w') h.heap (fun x => by rw [h.store])
  refine ⟨h.live, ?_, ?_, ?_, ?_⟩
  · intro x hx; rw [h.heap] at hx; have := inv.fresh x hx; have := h.next; omega
  · intro k ptr hk
    rw [h.store] at hk
    simp only [h.heap]
    exact inv.shape k ptr hk
  · intro k k' x a b; exact inv.inj k k' x ((hr k x).mp a) ((hr k' x).mp b)
  · intro x hx; rw [h.heap] at hx; obtain ⟨k, hk⟩ := inv.leak x hx; exact ⟨k, (hr k x).mpr hk⟩

/-- What a context refers to is allocated. -/
theorem CipherInv.refers_alloc {w : CipherWorld σ} (inv : CipherInv w) (h x : Nat) (hr : Refers w h x) : w.heap x ≠ none := by
  obtain ⟨ptr, o, a, b, c⟩ := hr
  obtain ⟨o', kp, sk, d, e, f, g⟩ := inv.shape h ptr a
  rw [b] at d
  simp only [Option.some.injEq, Cell.obj.injEq] at d
  subst d
  rcases c with c | c | c
  · rw [c, b]; simp
  · obtain ⟨cc, hc⟩ := g x c; rw [hc]; simp
  · rw [e] at c; simp only [Option.some.injEq] at c; rw [← c, f]; simp

theorem CipherInv.new {w w' : CipherWorld σ} (inv : CipherInv w) (h ptr : Nat) (o : CipherObj) (sk : StoredKey) (u : Uuid)
    (n : NewCtx w w' h ptr o sk u) : CipherInv w' := by
  have hnew : ∀ x, Refers w' h x ↔ (x = ptr ∨ o.sym = some x ∨ o.key = some x) := by
    intro x
    constructor
    · rintro ⟨p', o', a, b, c⟩
      rw [n.store, if_pos rfl] at a
      simp only [Option.some.injEq] at a
      subst a
      rw [n.obj] at b
      simp only [Option.some.injEq, Cell.obj.injEq] at b
      subst b
      exact c
    · intro c; exact ⟨ptr, o, by rw [n.store, if_pos rfl], n.obj, c⟩
  have hold : ∀ k x, k ≠ h → (Refers w' k x ↔ Refers w k x) := by
    intro k x hk
    unfold Refers
    rw [n.store, if_neg hk]
    constructor
    · rintro ⟨p', o', a, b, c⟩
      obtain ⟨o2, _, _, d, _⟩ := inv.shape k p' a
      rw [n.old p' (inv.fresh p' (by rw [d]; simp))] at b
      exact ⟨p', o', a, b, c⟩
    · rintro ⟨p', o', a, b, c⟩
      exact ⟨p', o', a, by rw [n.old p' (inv.fresh p' (by rw [b]; simp))]; exact b, c⟩
  have hge : ∀ x, Refers w' h x → w.next ≤ x := by
    intro x hx
    rcases (hnew x).mp hx with a | a | a
    · have := n.ptrNew; omega
    · have := (n.sym x a).1; omega
    · rw [n.key] at a; simp only [Option.some.injEq] at a; omega
  have hlt : ∀ k x, k ≠ h → Refers w' k x → x < w.next := by
    intro k x hk hx
    exact inv.fresh x (inv.refers_alloc k x ((hold k x hk).mp hx))
  refine ⟨n.live, n.next, ?_, ?_, ?_⟩
  · intro k p' hk
    by_cases e : k = h
    · subst e
      rw [n.store, if_pos rfl] at hk
      simp only [Option.some.injEq] at hk
      subst hk
      exact ⟨o, w.next, sk, n.obj, n.key, n.keyCell, fun sp hsp => (n.sym sp hsp).2⟩
    · rw [n.store, if_neg e] at hk
      obtain ⟨o', kp, sk', a, b, c, d⟩ := inv.shape k p' hk
      refine ⟨o', kp, sk', ?_, b, ?_, ?_⟩
      · rw [n.old p' (inv.fresh p' (by rw [a]; simp))]; exact a
      · rw [n.old kp (inv.fresh kp (by rw [c]; simp))]; exact c
      · intro sp hsp
        obtain ⟨c', hc⟩ := d sp hsp
        exact ⟨c', by rw [n.old sp (inv.fresh sp (by rw [hc]; simp))]; exact hc⟩
  · intro k k' x a b
    by_cases e : k = h
    · by_cases e' : k' = h
      · rw [e, e']
      · subst e; have := hge x a; have := hlt k' x e' b; omega
    · by_cases e' : k' = h
      · subst e'; have := hge x b; have := hlt k x e a; omega
      · exact inv.inj k k' x ((hold k x e).mp a) ((hold k' x e').mp b)
  · intro x hx
    by_cases hxn : x < w.next
    · rw [n.old x hxn] at hx
      obtain ⟨k, hk⟩ := inv.leak x hx
      have hkh : k ≠ h := by
        rintro rfl
        obtain ⟨p', _, a, _⟩ := hk
        rw [n.free] at a; simp at a
      exact ⟨k, (hold k x hkh).mpr hk⟩
    · refine ⟨h, (hnew x).mpr ?_⟩
      rcases n.only x (by omega) hx with a | a | a
      · exact Or.inl a
      · right; right; rw [n.key, a]
      · exact Or.inr (Or.inl a)

/-- A symmetric context is replaced by another. -/
theorem CipherInv.setSym {w : CipherWorld σ} (inv : CipherInv w) (h ptr : Nat) (o : CipherObj) (c : Option (SymCtx σ))
    (ho : (w.store.obj h).object = some ptr) (hp : w.heap ptr = some (.obj o)) : CipherInv (w.setSym o c) := by
  unfold CipherWorld.setSym
  cases hs : o.sym with
  | none => exact inv
  | some sp =>
    cases c with
    | none => exact inv
    | some c =>
      obtain ⟨o', kp, sk, a, b, d, e⟩ := inv.shape h ptr ho
      rw [hp] at a; simp only [Option.some.injEq, Cell.obj.injEq] at a; subst a
      obtain ⟨c0, hc0⟩ := e sp hs
      have hobj : ∀ x o', ((w.put sp (some (.sym c))).heap x = some (.obj o') ↔ w.heap x = some (.obj o')) := by
        intro x o'
        show (if x = sp then _ else _) = _ ↔ _
        by_cases hx : x = sp
        · rw [if_pos hx, hx, hc0]; simp
        · rw [if_neg hx]
      have hkey : ∀ x k, ((w.put sp (some (.sym c))).heap x = some (.key k) ↔ w.heap x = some (.key k)) := by
        intro x o'
        show (if x = sp then _ else _) = _ ↔ _
        by_cases hx : x = sp
        · rw [if_pos hx, hx, hc0]; simp
        · rw [if_neg hx]
      have hnone : ∀ x, (w.put sp (some (.sym c))).heap x ≠ none ↔ w.heap x ≠ none := by
        intro x
        show (if x = sp then _ else _) ≠ none ↔ _
        by_cases hx : x = sp
        · rw [if_pos hx, hx, hc0]; simp
        · rw [if_neg hx]
      have hsym : ∀ x, (∃ k, (w.put sp (some (.sym c))).heap x = some (.sym k)) ↔ ∃ k, w.heap x = some (.sym k) := by
        intro x
        show (∃ k, (if x = sp then _ else _) = _) ↔ _
        by_cases hx : x = sp
        · simp [hx, hc0]
        · simp [hx]
      have hr : ∀ k x, Refers (w.put sp (some (.sym c))) k x ↔ Refers w k x := by
        intro k x; unfold Refers; simp only [hobj]; exact Iff.rfl
      refine ⟨inv.live, ?_, ?_, ?_, ?_⟩
      · intro x hx; exact inv.fresh x ((hnone x).mp hx)
      · intro k p' hk
        obtain ⟨o2, kp2, sk2, a2, b2, d2, e2⟩ := inv.shape k p' hk
        exact ⟨o2, kp2, sk2, (hobj _ _).mpr a2, b2, (hkey _ _).mpr d2, fun s hs => (hsym s).mpr (e2 s hs)⟩
      · intro k k' x a b; exact inv.inj k k' x ((hr k x).mp a) ((hr k' x).mp b)
      · intro x hx; obtain ⟨k, hk⟩ := inv.leak x ((hnone x).mp hx); exact ⟨k, (hr k x).mpr hk⟩

/-- Removing a context frees exactly what it refers to, once. -/
theorem cipherFree_spec {w : CipherWorld σ} (inv : CipherInv w) (h ptr : Nat) (ho : (w.store.obj h).object = some ptr) :
    ∃ w', cipherFree w ptr = some w' ∧ w'.store = w.store ∧ w'.next = w.next ∧
      (∀ x, Refers w h x → w'.heap x = none) ∧ ∀ x, ¬ Refers w h x → w'.heap x = w.heap x := by
  obtain ⟨o, kp, sk, a, b, c, d⟩ := inv.shape h ptr ho
  have href : ∀ x, Refers w h x ↔ (x = ptr ∨ o.sym = some x ∨ o.key = some x) := by
    intro x
    constructor
    · rintro ⟨p', o', a', b', c'⟩
      rw [ho] at a'; simp only [Option.some.injEq] at a'; subst a'
      rw [a] at b'; simp only [Option.some.injEq, Cell.obj.injEq] at b'; subst b'
      exact c'
    · intro c'; exact ⟨ptr, o, ho, a, c'⟩
  have hkp : kp ≠ ptr := by rintro rfl; rw [a] at c; simp at c
  unfold cipherFree
  rw [a]
  simp only [b]
  cases hs : o.sym with
  | none =>
    simp only [CipherWorld.freeOpt, Option.bind_some, CipherWorld.free, c]
    have : (w.put kp none).heap ptr = some (.obj o) := by
      show (if ptr = kp then _ else _) = _
      rw [if_neg (fun e => hkp e.symm)]; exact a
    rw [this]
    refine ⟨_, rfl, rfl, rfl, ?_, ?_⟩
    · intro x hx
      rw [href, hs, b] at hx
      show (if x = ptr then none else if x = kp then none else w.heap x) = none
      rcases hx with hx | hx | hx
      · simp [hx]
      · simp at hx
      · simp at hx; simp [hx]
    · intro x hx
      rw [href, hs, b] at hx
      show (if x = ptr then none else if x = kp then none else w.heap x) = w.heap x
      rw [if_neg (fun e => hx (Or.inl e)), if_neg (fun e => hx (Or.inr (Or.inr (by rw [e]))))]
  | some sp =>
    obtain ⟨sc, hsc⟩ := d sp hs
    have hsp : sp ≠ ptr := by rintro rfl; rw [a] at hsc; simp at hsc
    have hsk : sp ≠ kp := by rintro rfl; rw [c] at hsc; simp at hsc
    simp only [CipherWorld.freeOpt, Option.bind_some, CipherWorld.free, hsc]
    have h1 : (w.put sp none).heap kp = some (.key sk) := by
      show (if kp = sp then _ else _) = _
      rw [if_neg (fun e => hsk e.symm)]; exact c
    rw [h1]
    simp only [Option.bind_some]
    have h2 : ((w.put sp none).put kp none).heap ptr = some (.obj o) := by
      show (if ptr = kp then _ else if ptr = sp then _ else _) = _
      rw [if_neg (fun e => hkp e.symm), if_neg (fun e => hsp e.symm)]; exact a
    rw [h2]
    refine ⟨_, rfl, rfl, rfl, ?_, ?_⟩
    · intro x hx
      rw [href, hs, b] at hx
      show (if x = ptr then none else if x = kp then none else if x = sp then none else w.heap x) = none
      rcases hx with hx | hx | hx
      · simp [hx]
      · simp at hx; simp [hx]
      · simp at hx; simp [hx]
    · intro x hx
      rw [href, hs, b] at hx
      show (if x = ptr then none else if x = kp then none else if x = sp then none else w.heap x) = w.heap x
      rw [if_neg (fun e => hx (Or.inl e)), if_neg (fun e => hx (Or.inr (Or.inr (by rw [e])))), if_neg (fun e => hx (Or.inr (Or.inl (by rw [e]))))]

/-- Release of a context. -/
theorem cipherRelease_spec {w : CipherWorld σ} (inv : CipherInv w) (h : Nat) (u : Uuid) :
    (∃ s, s ≠ Status.OK ∧ cipherRelease w h u = some (w, some s)) ∨
    (∃ w', cipherRelease w h u = some (w', none) ∧ SameCtx w w' ∧ (w.store.obj h).referenceCount ≠ 0) ∨
    (∃ w' ptr, cipherRelease w h u = some (w', some .OK) ∧ CipherInv w' ∧ (w.store.obj h).object = some ptr ∧ (w.store.obj h).ownerUuid = u ∧
      (w'.store.obj h).object = none ∧ (∀ x, x ≠ h → w'.store.obj x = w.store.obj x) ∧
      (∀ x, Refers w h x → w'.heap x = none) ∧ ∀ x, ¬ Refers w h x → w'.heap x = w.heap x) := by
  unfold cipherRelease
  rcases remove_spec w.store inv.live h u with ⟨hr, _⟩ | ⟨hr, _⟩ | ⟨st', hr, ho, hi, hc, _, _, _, hrc⟩ | ⟨st', ptr, hr, hi, hc, hlt, ho, hu, hrc, hst⟩
  · left; exact ⟨.INVALID_PARAMETER, by simp, by rw [hr]⟩
  · left; exact ⟨.OPERATION_NOT_ALLOWED, by simp, by rw [hr]⟩
  · right; left
    rw [hr]
    refine ⟨_, rfl, ⟨hi, fun _ => rfl, ?_, Nat.le_refl _, hc⟩, hrc⟩
    intro x; show st'.obj x = _; unfold ObjectStore.obj; rw [ho]
  · right; right
    rw [hr]
    obtain ⟨w1, e1, e2, e3, e4, e5⟩ := cipherFree_spec inv h ptr ho
    simp only [e1, Option.map_some]
    have hh : ((⟨st', w1.heap, w1.next⟩ : CipherWorld σ).store.obj h).object = none := by
      show (st'.obj h).object = none
      rw [hst, if_pos rfl]
    have hx : ∀ x, x ≠ h → (⟨st', w1.heap, w1.next⟩ : CipherWorld σ).store.obj x = w.store.obj x := by
      intro x hxh; show st'.obj x = _; rw [hst, if_neg hxh]
    refine ⟨_, ptr, rfl, ?_, ho, hu, hh, hx, e4, e5⟩
    have hother : ∀ k x, k ≠ h → Refers w k x → w1.heap x = w.heap x := by
      intro k x hk hr
      exact e5 x (fun hr' => hk (inv.inj k h x hr hr'))
    have hrefers : ∀ k x, Refers (⟨st', w1.heap, w1.next⟩ : CipherWorld σ) k x ↔ (k ≠ h ∧ Refers w k x) := by
      intro k x
      by_cases e : k = h
      · subst e
        constructor
        · rintro ⟨p', o', a, _⟩; rw [hh] at a; simp at a
        · rintro ⟨a, _⟩; exact absurd rfl a
      · constructor
        · rintro ⟨p', o', a, b, c⟩
          rw [hx k e] at a
          refine ⟨e, p', o', a, ?_, c⟩
          obtain ⟨o2, _, _, d, _⟩ := inv.shape k p' a
          rw [← hother k p' e ⟨p', o2, a, d, Or.inl rfl⟩]; exact b
        · rintro ⟨_, p', o', a, b, c⟩
          refine ⟨p', o', by rw [hx k e]; exact a, ?_, c⟩
          show w1.heap p' = _
          rw [hother k p' e ⟨p', o', a, b, Or.inl rfl⟩]; exact b
    refine ⟨hi, ?_, ?_, ?_, ?_⟩
    · intro x hxn
      show x < w1.next
      rw [e3]
      by_cases hr : Refers w h x
      · exact inv.fresh x (inv.refers_alloc h x hr)
      · exact inv.fresh x (by rw [← e5 x hr]; exact hxn)
    · intro k p' hk
      by_cases e : k = h
      · subst e; rw [hh] at hk; simp at hk
      · rw [hx k e] at hk
        obtain ⟨o2, kp2, sk2, a2, b2, d2, f2⟩ := inv.shape k p' hk
        refine ⟨o2, kp2, sk2, ?_, b2, ?_, ?_⟩
        · show w1.heap p' = _; rw [hother k p' e ⟨p', o2, hk, a2, Or.inl rfl⟩]; exact a2
        · show w1.heap kp2 = _; rw [hother k kp2 e ⟨p', o2, hk, a2, Or.inr (Or.inr b2)⟩]; exact d2
        · intro sp hsp
          obtain ⟨c2, hc2⟩ := f2 sp hsp
          exact ⟨c2, by show w1.heap sp = _; rw [hother k sp e ⟨p', o2, hk, a2, Or.inr (Or.inl hsp)⟩]; exact hc2⟩
    · intro k k' x a b
      exact inv.inj k k' x ((hrefers k x).mp a).2 ((hrefers k' x).mp b).2
    · intro x hxn
      by_cases hr : Refers w h x
      · exact absurd (e4 x hr) hxn
      · have : w.heap x ≠ none := by rw [← e5 x hr]; exact hxn
        obtain ⟨k, hk⟩ := inv.leak x this
        refine ⟨k, (hrefers k x).mpr ⟨?_, hk⟩⟩
        rintro rfl
        exact hr hk

theorem SameCtx.refl {w : CipherWorld σ} (h : LiveInv w.store) : SameCtx w w := ⟨h, fun _ => rfl, fun _ => rfl, Nat.le_refl _, rfl⟩

/-- Adding an object to the store. -/
theorem cipherStoreAdd_cases (w : CipherWorld σ) (live : LiveInv w.store) (fresh : ∀ x, w.heap x ≠ none → x < w.next) (o : CipherObj)
    (allocOk : Bool) (u : Uuid) :
    (∃ w' s, cipherStoreAdd w o allocOk u = (w', s, SLOT_INVALID) ∧ s ≠ .OK ∧ SameCtx w w') ∨
    (∃ w' h, cipherStoreAdd w o allocOk u = (w', .OK, h) ∧ LiveInv w'.store ∧ w'.store.slotCount = w.store.slotCount ∧ h < w.store.slotCount ∧
      (w.store.obj h).object = none ∧ (∀ x, w'.store.obj x = if x = h then ⟨some w.next, 0, u⟩ else w.store.obj x) ∧
      (∀ x, w'.heap x = if x = w.next then some (.obj o) else w.heap x) ∧ w'.next = w.next + 1) := by
  unfold cipherStoreAdd
  cases allocOk with
  | false => left; exact ⟨_, _, rfl, by simp, SameCtx.refl live⟩
  | true =>
    simp only [Bool.not_true, Bool.false_eq_true, if_false]
    have hsp := add_spec w.store live.toStoreInv live.up w.next u
    have hst : (w.alloc (.obj o)).store = w.store := rfl
    rw [hst]
    generalize objectStoreAdd w.store w.next u = r at hsp
    obtain ⟨st', s, h⟩ := r
    simp only at hsp
    obtain ⟨a, b, c, _, d⟩ := hsp
    rcases d with ⟨d1, d2, _, d4⟩ | ⟨d1, d2, d3, d4⟩
    · left
      subst d1 d2
      refine ⟨_, _, rfl, by simp, ⟨{ a with up := c }, ?_, d4, Nat.le_succ _, b⟩⟩
      intro x
      show (if x = w.next then none else if x = w.next then _ else w.heap x) = w.heap x
      by_cases e : x = w.next
      · rw [if_pos e]
        cases hx : w.heap x with
        | none => rfl
        | some v => have := fresh x (by rw [hx]; simp); omega
      · rw [if_neg e, if_neg e]
    · right
      subst d1
      exact ⟨_, _, rfl, { a with up := c }, b, d2, d3, d4, fun _ => rfl, rfl⟩

/-- The world after a new context was added that uses the key copy at `keyPtr`. -/
structure AddedCtx (p : CipherPrim σ) (w w' : CipherWorld σ) (h ptr : Nat) (o : CipherObj) (keyPtr : Nat) (sk : StoredKey) (alg : Option Nat) (mode : Nat) (u : Uuid)
    (prm : SymParams) : Prop where
  live : LiveInv w'.store
  count : w'.store.slotCount = w.store.slotCount
  free : (w.store.obj h).object = none
  small : h < w.store.slotCount
  store : ∀ x, w'.store.obj x = if x = h then ⟨some ptr, 0, u⟩ else w.store.obj x
  old : ∀ x, x < w.next → w'.heap x = w.heap x
  ptrNew : w.next ≤ ptr
  obj : w'.heap ptr = some (.obj o)
  key : o.key = some keyPtr
  alg : some o.alg = alg
  mode : o.mode = mode
  sym : ∀ sp, o.sym = some sp → w.next ≤ sp ∧ ∃ evp, w'.heap sp = some (.sym ⟨o.alg, o.mode, evp⟩) ∧ p.create o.alg o.mode sk.key prm = some evp
  only : ∀ x, w.next ≤ x → w'.heap x ≠ none → x = ptr ∨ o.sym = some x
  next : ∀ x, w'.heap x ≠ none → x < w'.next

theorem initSymmetric_cases (p : CipherPrim σ) (w : CipherWorld σ) (live : LiveInv w.store) (fresh : ∀ x, w.heap x ≠ none → x < w.next)
    (alg mode : Nat) (byHandle : Bool) (keyPtr : Nat) (sk : StoredKey) (sp : SymParams) (env : InitEnv) (u : Uuid) :
    (∃ w' s, initSymmetric p w alg mode byHandle keyPtr sk sp env u = some (w', s, SLOT_INVALID) ∧ s ≠ .OK ∧ SameCtx w w') ∨
    (∃ w' h ptr o, initSymmetric p w alg mode byHandle keyPtr sk sp env u = some (w', .OK, h) ∧ o.sym.isSome ∧
      AddedCtx p w w' h ptr o keyPtr sk (some alg) mode u sp) := by
  unfold initSymmetric
  cases hc : p.create alg mode sk.key sp with
  | none => left; exact ⟨_, _, rfl, by simp, SameCtx.refl live⟩
  | some evp =>
    simp only
    have hf1 : ∀ x, (w.alloc (.sym ⟨alg, mode, evp⟩)).heap x ≠ none → x < (w.alloc (.sym ⟨alg, mode, evp⟩)).next := by
      intro x hx
      show x < w.next + 1
      change (if x = w.next then _ else w.heap x) ≠ none at hx
      by_cases e : x = w.next
      · omega
      · rw [if_neg e] at hx; have := fresh x hx; omega
    rcases cipherStoreAdd_cases (w.alloc (.sym ⟨alg, mode, evp⟩)) live hf1 ⟨alg, mode, some w.next, some keyPtr, none⟩ env.allocOk u with
      ⟨w', s, e, hs, same⟩ | ⟨w', h, e, l', cnt, hlt, hfree, hst, hheap, hnext⟩
    · left
      rw [e]
      have hn : w'.heap w.next = some (.sym ⟨alg, mode, evp⟩) := by
        rw [same.heap]; show (if w.next = w.next then _ else _) = _; rw [if_pos rfl]
      have hcond : (if byHandle = true then True else s ≠ .OK) := by
        cases byHandle
        · simpa using hs
        · simp
      simp only
      rw [if_pos hcond]
      unfold CipherWorld.free
      rw [hn]
      refine ⟨w'.put w.next none, s, rfl, hs, ⟨same.live, ?_, same.store, ?_, same.count⟩⟩
      · intro x
        show (if x = w.next then none else w'.heap x) = w.heap x
        by_cases ex : x = w.next
        · rw [if_pos ex]
          cases hx : w.heap x with
          | none => rfl
          | some v => have := fresh x (by rw [hx]; simp); omega
        · rw [if_neg ex, same.heap]
          show (if x = w.next then _ else w.heap x) = _
          rw [if_neg ex]
      · have := same.next
        exact Nat.le_trans (Nat.le_succ _) this
    · right
      rw [e]
      have hne : h ≠ SLOT_INVALID := by
        have := live.small
        change h < w.store.slotCount at hlt
        unfold SLOT_INVALID; omega
      have hcond : ¬ (if byHandle = true then h = SLOT_INVALID else Status.OK ≠ .OK) := by
        cases byHandle
        · simp
        · simpa using hne
      simp only
      rw [if_neg hcond]
      have hn : (w.alloc (.sym ⟨alg, mode, evp⟩)).next = w.next + 1 := rfl
      rw [hn] at hst hheap hnext
      have hh : ∀ x, w'.heap x = if x = w.next + 1 then some (.obj ⟨alg, mode, some w.next, some keyPtr, none⟩)
          else if x = w.next then some (.sym ⟨alg, mode, evp⟩) else w.heap x := hheap
      refine ⟨w', h, w.next + 1, _, rfl, rfl, l', cnt, hfree, hlt, hst, ?_, by omega, by rw [hh, if_pos rfl], rfl, rfl, rfl, ?_, ?_, ?_⟩
      · intro x hx; rw [hh, if_neg (by omega), if_neg (by omega)]
      · intro sp' hsp
        simp only [Option.some.injEq] at hsp
        refine ⟨by omega, evp, ?_, hc⟩
        rw [hh, if_neg (by omega), if_pos hsp.symm]
      · intro x hx hx'
        rw [hh] at hx'
        by_cases e1 : x = w.next + 1
        · exact Or.inl e1
        · by_cases e2 : x = w.next
          · exact Or.inr (by rw [e2])
          · rw [if_neg e1, if_neg e2] at hx'
            have := fresh x hx'; omega
      · intro x hx'
        rw [hnext]
        rw [hh] at hx'
        by_cases e1 : x = w.next + 1
        · omega
        · by_cases e2 : x = w.next
          · omega
          · rw [if_neg e1, if_neg e2] at hx'
            have := fresh x hx'; omega

/-- Adding a context for an asymmetric key. -/
theorem addKey_cases (p : CipherPrim σ) (w : CipherWorld σ) (live : LiveInv w.store) (fresh : ∀ x, w.heap x ≠ none → x < w.next) (alg mode keyPtr : Nat)
    (sk : StoredKey) (oaep : Option (Nat × Nat × Option Bytes)) (allocOk : Bool) (u : Uuid) (prm : SymParams) :
    (∃ w' s, cipherStoreAdd w ⟨alg, mode, none, some keyPtr, oaep⟩ allocOk u = (w', s, SLOT_INVALID) ∧ s ≠ .OK ∧ SameCtx w w') ∨
    (∃ w' h, cipherStoreAdd w ⟨alg, mode, none, some keyPtr, oaep⟩ allocOk u = (w', .OK, h) ∧ (w'.store.obj h).ownerUuid = u ∧
      AddedCtx p w w' h w.next ⟨alg, mode, none, some keyPtr, oaep⟩ keyPtr sk (some alg) mode u prm) := by
  rcases cipherStoreAdd_cases w live fresh ⟨alg, mode, none, some keyPtr, oaep⟩ allocOk u with
      ⟨w', s, e, hs, same⟩ | ⟨w', h, e, l', cnt, hlt, hfree, hst, hheap, hnext⟩
  · left; exact ⟨w', s, e, hs, same⟩
  · right
    refine ⟨w', h, e, by rw [hst, if_pos rfl], l', cnt, hfree, hlt, hst, ?_, by omega, by rw [hheap, if_pos rfl], rfl, rfl, rfl, ?_, ?_, ?_⟩
    · intro x hx; rw [hheap, if_neg (by omega)]
    · intro sp hsp; simp at hsp
    · intro x hx hx'
      rw [hheap] at hx'
      by_cases e1 : x = w.next
      · exact Or.inl e1
      · rw [if_neg e1] at hx'; have := fresh x hx'; omega
    · intro x hx'
      rw [hnext]
      rw [hheap] at hx'
      by_cases e1 : x = w.next
      · omega
      · rw [if_neg e1] at hx'; have := fresh x hx'; omega

/-- RSA-OAEP: when the object is locked and the label allocated. -/
theorem initOaep_cases (p : CipherPrim σ) (w : CipherWorld σ) (live : LiveInv w.store) (fresh : ∀ x, w.heap x ≠ none → x < w.next) (mode keyPtr d mgf1 : Nat)
    (label : Option Bytes) (sk : StoredKey) (env : InitEnv) (hl : env.lockOk = true) (hb : label ≠ none → env.labelOk = true) (u : Uuid) (prm : SymParams) :
    (∃ w' s, initOaep w mode keyPtr d mgf1 label env u = some (w', s, SLOT_INVALID) ∧ s ≠ .OK ∧ SameCtx w w') ∨
    (∃ w' h ptr o, initOaep w mode keyPtr d mgf1 label env u = some (w', .OK, h) ∧ o.sym = none ∧
      AddedCtx p w w' h ptr o keyPtr sk (some CIPHER_RSA_OAEP) mode u prm) := by
  unfold initOaep
  rcases addKey_cases p w live fresh CIPHER_RSA_OAEP mode keyPtr sk none env.allocOk u prm with ⟨w', s, e, hs, same⟩ | ⟨w', h, e, hu, n⟩
  · left
    rw [e]
    simp only
    rw [if_pos hs]
    exact ⟨_, _, rfl, hs, same⟩
  · right
    rw [e]
    simp only
    rw [if_neg (by simp)]
    have hacq := (acquire_ok_iff w'.store h u _ w.next).mpr ⟨by rw [n.count]; exact n.small, n.live.up, by rw [n.store, if_pos rfl], hu, rfl⟩
    have hrel := acquire_release w'.store n.live.len h u _ w.next hacq
    rw [hacq]
    simp only [hrel, hl, Bool.not_true, Bool.false_eq_true, if_false, n.obj]
    have hlab : ¬ ((label.isSome && !env.labelOk) = true) := by
      cases label with
      | none => simp
      | some l => simp [hb]
    rw [if_neg hlab]
    have hh : ∀ x, (w'.put w.next (some (.obj ⟨CIPHER_RSA_OAEP, mode, none, some keyPtr, some (d, mgf1, label)⟩))).heap x =
      if x = w.next then some (.obj ⟨CIPHER_RSA_OAEP, mode, none, some keyPtr, some (d, mgf1, label)⟩) else w'.heap x := fun _ => rfl
    have hnn : ∀ x, (w'.put w.next (some (.obj ⟨CIPHER_RSA_OAEP, mode, none, some keyPtr, some (d, mgf1, label)⟩))).heap x ≠ none → w'.heap x ≠ none := by
      intro x hx
      rw [hh] at hx
      by_cases e1 : x = w.next
      · rw [e1, n.obj]; simp
      · rw [if_neg e1] at hx; exact hx
    refine ⟨_, h, w.next, ⟨CIPHER_RSA_OAEP, mode, none, some keyPtr, some (d, mgf1, label)⟩, rfl, rfl,
      n.live, n.count, n.free, n.small, n.store, ?_, Nat.le_refl _, ?_, rfl, rfl, rfl, ?_, ?_, ?_⟩
    · intro x hx
      show (if x = w.next then _ else w'.heap x) = _
      rw [if_neg (by omega)]; exact n.old x hx
    · show (if w.next = w.next then _ else _) = _
      rw [if_pos rfl]
    · intro sp hsp; simp at hsp
    · intro x hx hx'
      rcases n.only x hx (hnn x hx') with a | a
      · exact Or.inl a
      · simp at a
    · intro x hx'; exact n.next x (hnn x hx')

/-- The functions for the algorithms, unless for OAEP the object cannot be locked or the label not allocated after the object was added. -/
theorem initAlgorithm_cases (p : CipherPrim σ) (w : CipherWorld σ) (live : LiveInv w.store) (fresh : ∀ x, w.heap x ≠ none → x < w.next)
    (params : InitParams) (mode keyPtr : Nat) (sk : StoredKey) (env : InitEnv)
    (hoaep : params.alg = some CIPHER_RSA_OAEP → env.lockOk = true ∧ env.labelOk = true) (u : Uuid) :
    (∃ w' s, initAlgorithm p w params mode keyPtr sk env u = some (w', s, SLOT_INVALID) ∧ s ≠ .OK ∧ SameCtx w w') ∨
    (∃ w' h ptr o, initAlgorithm p w params mode keyPtr sk env u = some (w', .OK, h) ∧
      (o.sym.isSome ↔ (o.alg ≠ CIPHER_RSA_PKCS1V15 ∧ o.alg ≠ CIPHER_RSA_OAEP ∧ o.alg ≠ CIPHER_EC_ELGAMAL)) ∧
      AddedCtx p w w' h ptr o keyPtr sk params.alg mode u params.sym) := by
  have fail : ∀ s, s ≠ Status.OK → ∃ w' s', (some (w, s, SLOT_INVALID) : Option (CipherWorld σ × Status × Nat)) = some (w', s', SLOT_INVALID) ∧
      s' ≠ .OK ∧ SameCtx w w' := fun s hs => ⟨w, s, rfl, hs, SameCtx.refl live⟩
  have hsymm : ∀ alg byHandle sp, alg ≠ CIPHER_RSA_PKCS1V15 → alg ≠ CIPHER_RSA_OAEP → alg ≠ CIPHER_EC_ELGAMAL →
      (∃ w' s, initSymmetric p w alg mode byHandle keyPtr sk sp env u = some (w', s, SLOT_INVALID) ∧ s ≠ .OK ∧ SameCtx w w') ∨
      (∃ w' h ptr o, initSymmetric p w alg mode byHandle keyPtr sk sp env u = some (w', .OK, h) ∧
        (o.sym.isSome ↔ (o.alg ≠ CIPHER_RSA_PKCS1V15 ∧ o.alg ≠ CIPHER_RSA_OAEP ∧ o.alg ≠ CIPHER_EC_ELGAMAL)) ∧
        AddedCtx p w w' h ptr o keyPtr sk (some alg) mode u sp) := by
    intro alg byHandle sp h1 h2 h3
    rcases initSymmetric_cases p w live fresh alg mode byHandle keyPtr sk sp env u with h | ⟨w', h, ptr, o, e, hs, n⟩
    · exact Or.inl h
    · right
      refine ⟨w', h, ptr, o, e, ?_, n⟩
      have := n.alg
      simp only [Option.some.injEq] at this
      rw [this]
      exact ⟨fun _ => ⟨h1, h2, h3⟩, fun _ => hs⟩
  have hadd : ∀ prm alg, (alg = CIPHER_RSA_PKCS1V15 ∨ alg = CIPHER_EC_ELGAMAL) →
      (∃ w' s, (some (cipherStoreAdd w ⟨alg, mode, none, some keyPtr, none⟩ env.allocOk u)) = some (w', s, SLOT_INVALID) ∧ s ≠ .OK ∧ SameCtx w w') ∨
      (∃ w' h ptr o, (some (cipherStoreAdd w ⟨alg, mode, none, some keyPtr, none⟩ env.allocOk u)) = some (w', Status.OK, h) ∧
        (o.sym.isSome ↔ (o.alg ≠ CIPHER_RSA_PKCS1V15 ∧ o.alg ≠ CIPHER_RSA_OAEP ∧ o.alg ≠ CIPHER_EC_ELGAMAL)) ∧
        AddedCtx p w w' h ptr o keyPtr sk (some alg) mode u prm) := by
    intro prm alg ha
    rcases addKey_cases p w live fresh alg mode keyPtr sk none env.allocOk u prm with ⟨w', s, e, hs, same⟩ | ⟨w', h, e, hu, n⟩
    · left; exact ⟨w', s, by rw [e], hs, same⟩
    · right
      refine ⟨w', h, w.next, _, by rw [e], ?_, n⟩
      simp only [Option.isSome_none, Bool.false_eq_true, false_iff, not_and]
      rcases ha with ha | ha
      · intro a; exact absurd ha a
      · intro _ _ a; exact a ha
  have hfixed : ∀ (b : Option Bytes) n, fixedBuf b n ≠ .OK → fixedBuf b n ≠ .OK := fun _ _ h => h
  unfold initAlgorithm
  simp only
  cases params with
  | ecb pkcs7 =>
    simp only
    split
    · exact Or.inl (fail _ (by simp))
    · cases pkcs7 <;> exact hsymm _ _ _ (by decide) (by decide) (by decide)
  | cbc pkcs7 iv =>
    simp only
    split
    · exact Or.inl (fail _ (by simp))
    · cases iv with
      | none => exact Or.inl (fail _ (by simp))
      | some iv =>
        simp only
        split
        · rename_i hf; exact Or.inl (fail _ hf)
        · cases pkcs7 <;> exact hsymm _ _ _ (by decide) (by decide) (by decide)
  | ctr iv =>
    simp only
    split
    · exact Or.inl (fail _ (by simp))
    · cases iv with
      | none => exact Or.inl (fail _ (by simp))
      | some iv =>
        simp only
        split
        · rename_i hf; exact Or.inl (fail _ hf)
        · exact hsymm _ _ _ (by decide) (by decide) (by decide)
  | gcm q =>
    simp only
    split
    · exact Or.inl (fail _ (by simp))
    · cases q with
      | none => exact Or.inl (fail _ (by simp))
      | some q =>
        obtain ⟨iv, aad⟩ := q
        simp only
        split
        · rename_i hf; exact Or.inl (fail _ hf)
        · split
          · exact Or.inl (fail _ (by simp))
          · exact hsymm _ _ _ (by decide) (by decide) (by decide)
  | chacha20 q =>
    simp only
    split
    · exact Or.inl (fail _ (by simp))
    · cases q with
      | none => exact Or.inl (fail _ (by simp))
      | some q =>
        obtain ⟨iv, aad⟩ := q
        simp only
        split
        · rename_i hf; exact Or.inl (fail _ hf)
        · split
          · rename_i hf; exact Or.inl (fail _ hf)
          · exact hsymm _ _ _ (by decide) (by decide) (by decide)
  | poly q =>
    simp only
    split
    · exact Or.inl (fail _ (by simp))
    · cases q with
      | none => exact Or.inl (fail _ (by simp))
      | some q =>
        obtain ⟨iv, aad⟩ := q
        simp only
        split
        · rename_i hf; exact Or.inl (fail _ hf)
        · split
          · exact Or.inl (fail _ (by simp))
          · exact hsymm _ _ _ (by decide) (by decide) (by decide)
  | pkcs1v15 =>
    simp only
    split
    · exact Or.inl (fail _ (by simp))
    · split
      · exact Or.inl (fail _ (by simp))
      · exact hadd _ _ (Or.inl rfl)
  | oaep q =>
    cases q with
    | none => exact Or.inl (fail _ (by simp))
    | some q =>
      obtain ⟨d, mgf1, label⟩ := q
      simp only
      split
      · exact Or.inl (fail _ (by simp))
      · split
        · exact Or.inl (fail _ (by simp))
        · split
          · exact Or.inl (fail _ (by simp))
          · obtain ⟨h1, h2⟩ := hoaep rfl
            rcases initOaep_cases p w live fresh mode keyPtr d mgf1 label.get sk env h1 (fun _ => h2) u _ with h | ⟨w', h, ptr, o, e, hs, n⟩
            · exact Or.inl h
            · right
              refine ⟨w', h, ptr, o, e, ?_, n⟩
              have := n.alg
              simp only [Option.some.injEq] at this
              rw [hs, this]
              simp
  | elgamal =>
    simp only
    split
    · exact Or.inl (fail _ (by simp))
    · split
      · exact Or.inl (fail _ (by simp))
      · split
        · exact Or.inl (fail _ (by simp))
        · exact hadd _ _ (Or.inr rfl)
  | unknown => exact Or.inl (fail _ (by simp))

/-- `sa_crypto_cipher_init`: it fails and nothing is left of it, or it makes a context with its own copy of the key. -/
theorem cipherInit_cases (p : CipherPrim σ) (w : CipherWorld σ) (live : LiveInv w.store) (fresh : ∀ x, w.heap x ≠ none → x < w.next)
    (params : InitParams) (mode : Nat) (key : Status × Option StoredKey) (env : InitEnv)
    (hoaep : params.alg = some CIPHER_RSA_OAEP → env.lockOk = true ∧ env.labelOk = true) (u : Uuid) :
    (∃ w' s, cipherInit p w params mode key env u = some (w', s, SLOT_INVALID) ∧ s ≠ .OK ∧ SameCtx w w') ∨
    (∃ w' h ptr o sk, cipherInit p w params mode key env u = some (w', .OK, h) ∧ key = (.OK, some sk) ∧ some o.alg = params.alg ∧ o.mode = mode ∧
      (mode = MODE_ENCRYPT ∨ mode = MODE_DECRYPT) ∧ modeAllowed env.rights mode sk.header.rights (sk.header.type.toNat == KEY_TYPE_SYMMETRIC) = true ∧
      (o.sym.isSome ↔ (o.alg ≠ CIPHER_RSA_PKCS1V15 ∧ o.alg ≠ CIPHER_RSA_OAEP ∧ o.alg ≠ CIPHER_EC_ELGAMAL)) ∧
      (∀ sp, o.sym = some sp → ∃ evp, w'.heap sp = some (.sym ⟨o.alg, o.mode, evp⟩) ∧ p.create o.alg o.mode sk.key params.sym = some evp) ∧
      NewCtx w w' h ptr o sk u) := by
  unfold cipherInit
  have fail : ∀ s, s ≠ Status.OK → ∃ w' s', (some (w, s, SLOT_INVALID) : Option (CipherWorld σ × Status × Nat)) = some (w', s', SLOT_INVALID) ∧
      s' ≠ .OK ∧ SameCtx w w' := fun s hs => ⟨w, s, rfl, hs, SameCtx.refl live⟩
  simp only
  split
  · exact Or.inl (fail _ (by simp))
  · split
    · exact Or.inl (fail _ (by simp))
    · rename_i hmode
      split
      · rename_i hk; exact Or.inl (fail _ hk)
      · rename_i hk
        obtain ⟨ks, ko⟩ := key
        simp only [ne_eq, Classical.not_not] at hk
        subst hk
        cases ko with
        | none => exact Or.inl (fail _ (by simp))
        | some sk =>
          simp only
          have hput : ∀ (w2 : CipherWorld σ), w2.heap w.next = some (.key sk) → w2.free w.next = some (w2.put w.next none) := by
            intro w2 h2; unfold CipherWorld.free; rw [h2]
          have hnext : w.heap w.next = none := by
            cases hx : w.heap w.next with
            | none => rfl
            | some v => have := fresh w.next (by rw [hx]; simp); omega
          have hself : (w.alloc (.key sk)).heap w.next = some (.key sk) := by
            show (if w.next = w.next then _ else _) = _; rw [if_pos rfl]
          have hf1 : ∀ x, (w.alloc (.key sk)).heap x ≠ none → x < (w.alloc (.key sk)).next := by
            intro x hx
            show x < w.next + 1
            change (if x = w.next then _ else w.heap x) ≠ none at hx
            by_cases e : x = w.next
            · omega
            · rw [if_neg e] at hx; have := fresh x hx; omega
          have hal : (if mode = MODE_ENCRYPT then rightsAllowedEncrypt env.rights sk.header.rights (sk.header.type.toNat == KEY_TYPE_SYMMETRIC)
              else rightsAllowedDecrypt env.rights sk.header.rights (sk.header.type.toNat == KEY_TYPE_SYMMETRIC)) =
              modeAllowed env.rights mode sk.header.rights (sk.header.type.toNat == KEY_TYPE_SYMMETRIC) := rfl
          rw [hal]
          split
          · left
            rw [hput _ hself]
            refine ⟨_, _, rfl, by simp, ⟨live, ?_, fun _ => rfl, Nat.le_succ _, rfl⟩⟩
            intro x
            show (if x = w.next then none else if x = w.next then _ else w.heap x) = w.heap x
            by_cases e : x = w.next
            · rw [if_pos e, e, hnext]
            · rw [if_neg e, if_neg e]
          · rename_i hallow
            rcases initAlgorithm_cases p (w.alloc (.key sk)) live hf1 params mode w.next sk env hoaep u with
              ⟨w', s, e, hs, same⟩ | ⟨w', h, ptr, o, e, hsym, n⟩
            · left
              rw [e]
              have hk : w'.heap w.next = some (.key sk) := by rw [same.heap, hself]
              suffices hres : ∃ w'' s'', ((w'.free w.next).map fun w => (w, s, SLOT_INVALID)) = some (w'', s'', SLOT_INVALID) ∧ s'' ≠ Status.OK ∧ SameCtx w w'' by
                revert hres hs
                cases s <;> intro hs hres <;> first | exact hres | exact absurd rfl hs
              rw [hput _ hk]
              refine ⟨_, s, rfl, hs, ⟨same.live, ?_, same.store, ?_, same.count⟩⟩
              · intro x
                show (if x = w.next then none else w'.heap x) = w.heap x
                by_cases e : x = w.next
                · rw [if_pos e, e, hnext]
                · rw [if_neg e, same.heap]
                  show (if x = w.next then _ else w.heap x) = _
                  rw [if_neg e]
              · exact Nat.le_trans (Nat.le_succ _) same.next
            · right
              rw [e]
              have hn1 : (w.alloc (.key sk)).next = w.next + 1 := rfl
              refine ⟨w', h, ptr, o, sk, rfl, rfl, n.alg, n.mode, ?_, by simpa using hallow, hsym, fun sp hsp => (n.sym sp hsp).2, ?_⟩
              · apply Classical.byContradiction
                intro hc
                exact hmode ⟨fun a => hc (Or.inl a), fun a => hc (Or.inr a)⟩
              · refine ⟨n.live, n.count, n.free, n.small, n.store, ?_, ?_, n.obj, n.key, ?_, ?_, ?_, n.next⟩
                · intro x hx
                  rw [n.old x (by rw [hn1]; omega)]
                  show (if x = w.next then _ else w.heap x) = _
                  rw [if_neg (by omega)]
                · have := n.ptrNew; rw [hn1] at this; omega
                · rw [n.old w.next (by rw [hn1]; omega), hself]
                · intro sp hsp
                  obtain ⟨a, evp, b, _⟩ := n.sym sp hsp
                  rw [hn1] at a
                  exact ⟨by omega, _, b⟩
                · intro x hx hx'
                  by_cases e1 : x = w.next
                  · exact Or.inr (Or.inl e1)
                  · rcases n.only x (by rw [hn1]; omega) hx' with a | a
                    · exact Or.inl a
                    · exact Or.inr (Or.inr a)

/-- The store is replaced by one with the same objects. -/
theorem CipherInv.restore {w : CipherWorld σ} (inv : CipherInv w) (st : ObjectStore Nat) (live : LiveInv st)
    (hst : ∀ x, (st.obj x).object = (w.store.obj x).object) : CipherInv { w with store := st } := by
  have hr := refers_congr (w := w) (w' := { w with store := st }) (fun _ => rfl) hst
  refine ⟨live, inv.fresh, ?_, ?_, ?_⟩
  · intro k ptr hk
    rw [hst] at hk
    exact inv.shape k ptr hk
  · intro k k' x a b; exact inv.inj k k' x ((hr k x).mp a) ((hr k' x).mp b)
  · intro x hx; obtain ⟨k, hk⟩ := inv.leak x hx; exact ⟨k, (hr k x).mpr hk⟩

theorem acquired_objects {α : Type} [DecidableEq α] (st st1 : ObjectStore α) (h : Nat) (u : Uuid) (o : α) (live : LiveInv st)
    (ha : objectStoreAcquire st h u = (st1, .OK, some o)) : LiveInv st1 ∧ (∀ x, (st1.obj x).object = (st.obj x).object) ∧
      (∀ x, st1.obj x = if x = h then { object := some o, referenceCount := (st.obj h).referenceCount + 1, ownerUuid := u } else st.obj x) := by
  rcases acquire_spec st live h u with ⟨e, _⟩ | ⟨e, _⟩ | ⟨st', o', e, l', _, _, ho, _, hst⟩
  · rw [e] at ha; simp at ha
  · rw [e] at ha; simp at ha
  · rw [e] at ha
    simp only [Prod.mk.injEq, Option.some.injEq, true_and] at ha
    obtain ⟨rfl, rfl⟩ := ha
    refine ⟨l', ?_, hst⟩
    intro x
    rw [hst]
    by_cases hx : x = h
    · rw [if_pos hx, hx, ho]
    · rw [if_neg hx]

/-- The context `h` of `caller`. -/
structure HasCtx (w : CipherWorld σ) (h : Nat) (caller : Uuid) (ptr : Nat) (o : CipherObj) (sk : StoredKey) (ctx : Option (SymCtx σ)) : Prop where
  slot : (w.store.obj h).object = some ptr
  owner : (w.store.obj h).ownerUuid = caller
  obj : w.heap ptr = some (.obj o)
  key : w.keyOf o = some sk
  sym : w.symOf o = some ctx

/-- With a context that exists and is the caller's, the call is what follows the acquisition. -/
theorem cipherProcess_eq {w : CipherWorld σ} (inv : CipherInv w) (k : ProcKind) (p : CipherPrim σ) (u : UnwrapPrims) (env : RightsEnv)
    (svp : SvpStore) (mem : Mem) (h : Nat) (out : Option RawBuffer) (input : RawBuffer) (bytes : UInt64) (caller : Uuid) :
    (∃ s, s ≠ Status.OK ∧ objectStoreAcquire w.store h caller = (w.store, s, none) ∧
      cipherProcess k p u env w svp mem h out input bytes caller = some ⟨w, svp, mem, out, input, bytes, none, match k with | .more => .INVALID_PARAMETER | .last _ => s⟩) ∨
    (∃ ptr o sk ctx st1, HasCtx w h caller ptr o sk ctx ∧ objectStoreAcquire w.store h caller = (st1, .OK, some ptr) ∧
      cipherProcess k p u env w svp mem h out input bytes caller =
        some (processAcquired k p u env w { w with store := st1 } o sk ctx svp mem out input bytes caller)) := by
  unfold cipherProcess
  rcases acquire_fail w.store h caller with ⟨st1, ptr, e⟩ | ⟨s, hs, e⟩
  · right
    obtain ⟨h1, h2, h3, h4, h5⟩ := (acquire_ok_iff w.store h caller st1 ptr).mp e
    obtain ⟨o, kp, sk, a, b, c, d⟩ := inv.shape h ptr h3
    have hrel := acquire_release w.store inv.live.len h caller st1 ptr e
    have hk : w.keyOf o = some sk := by unfold CipherWorld.keyOf; rw [b]; simp only [c]
    have hs : ∃ ctx, w.symOf o = some ctx := by
      unfold CipherWorld.symOf
      cases hs : o.sym with
      | none => exact ⟨none, rfl⟩
      | some sp =>
        obtain ⟨cc, hc⟩ := d sp hs
        exact ⟨some cc, by simp only [hc]⟩
    obtain ⟨ctx, hs⟩ := hs
    refine ⟨ptr, o, sk, ctx, st1, ⟨h3, h4, a, hk, hs⟩, e, ?_⟩
    rw [e]
    simp only [a, hk, hs, hrel]
  · left
    refine ⟨s, hs, e, ?_⟩
    rw [e]
    cases s <;> rfl

theorem processAcquired_world (k : ProcKind) (p : CipherPrim σ) (u : UnwrapPrims) (env : RightsEnv) (wBack wHeld : CipherWorld σ) (o : CipherObj)
    (sk : StoredKey) (ctx : Option (SymCtx σ)) (svp : SvpStore) (mem : Mem) (out : Option RawBuffer) (input : RawBuffer) (bytes : UInt64)
    (caller : Uuid) :
    let r := processAcquired k p u env wBack wHeld o sk ctx svp mem out input bytes caller
    r.world = wBack ∨ (r.world = wHeld ∧ r.status = .INVALID_PARAMETER ∧ (out = some .badType ∨ input = .badType)) ∨ ∃ c, r.world = wBack.setSym o c := by
  unfold processAcquired
  simp only
  cases out with
  | none => exact Or.inl rfl
  | some out =>
    cases out with
    | badType => right; left; exact ⟨rfl, rfl, Or.inl rfl⟩
    | buf ob =>
      cases input with
      | badType => right; left; exact ⟨rfl, rfl, Or.inr rfl⟩
      | buf ib =>
        simp only
        split
        · exact Or.inl rfl
        · split
          · exact Or.inl rfl
          · split
            · exact Or.inl rfl
            · split
              · exact Or.inl rfl
              · split
                · exact Or.inl rfl
                · split
                  · right; right; exact ⟨_, rfl⟩
                  · right; right; exact ⟨_, rfl⟩

/-- No call of `sa_crypto_cipher_process` or `sa_crypto_cipher_process_last` is undefined behaviour, and ownership is kept. -/
theorem cipherProcess_inv {w : CipherWorld σ} (inv : CipherInv w) (k : ProcKind) (p : CipherPrim σ) (u : UnwrapPrims) (env : RightsEnv)
    (svp : SvpStore) (mem : Mem) (h : Nat) (out : Option RawBuffer) (input : RawBuffer) (bytes : UInt64) (caller : Uuid) :
    ∃ r, cipherProcess k p u env w svp mem h out input bytes caller = some r ∧ CipherInv r.world := by
  rcases cipherProcess_eq inv k p u env svp mem h out input bytes caller with ⟨s, _, _, e⟩ | ⟨ptr, o, sk, ctx, st1, hc, ha, e⟩
  · exact ⟨_, e, inv⟩
  · refine ⟨_, e, ?_⟩
    rcases processAcquired_world k p u env w { w with store := st1 } o sk ctx svp mem out input bytes caller with hw | ⟨hw, _⟩ | ⟨c, hw⟩
    · rw [hw]; exact inv
    · rw [hw]
      obtain ⟨l1, l2, _⟩ := acquired_objects w.store st1 h caller ptr inv.live ha
      exact inv.restore st1 l1 l2
    · rw [hw]; exact inv.setSym h ptr o c hc.slot hc.obj

theorem cipherUpdateIv_inv {w : CipherWorld σ} (inv : CipherInv w) (p : CipherPrim σ) (h : Nat) (iv : Option Bytes) (caller : Uuid) :
    ∃ r, cipherUpdateIv p w h iv caller = some r ∧ CipherInv r.1 := by
  unfold cipherUpdateIv
  cases iv with
  | none => exact ⟨_, rfl, inv⟩
  | some iv =>
    simp only
    rcases acquire_fail w.store h caller with ⟨st1, ptr, e⟩ | ⟨s, hs, e⟩
    · obtain ⟨h1, h2, h3, h4, h5⟩ := (acquire_ok_iff w.store h caller st1 ptr).mp e
      obtain ⟨o, kp, sk, a, b, c, d⟩ := inv.shape h ptr h3
      have hrel := acquire_release w.store inv.live.len h caller st1 ptr e
      have hs : ∃ ctx, w.symOf o = some ctx := by
        unfold CipherWorld.symOf
        cases hs : o.sym with
        | none => exact ⟨none, rfl⟩
        | some sp =>
          obtain ⟨cc, hc⟩ := d sp hs
          exact ⟨some cc, by simp only [hc]⟩
      obtain ⟨ctx, hs⟩ := hs
      rw [e]
      simp only [a, hs, hrel]
      split
      · split
        · exact ⟨_, rfl, inv⟩
        · cases ctx with
          | none => exact ⟨_, rfl, inv⟩
          | some cx =>
            simp only
            split
            · exact ⟨_, rfl, inv⟩
            · exact ⟨_, rfl, inv.setSym h ptr o _ h3 a⟩
      · exact ⟨_, rfl, inv⟩
    · rw [e]
      exact ⟨(w, s), by cases s <;> rfl, inv⟩

/-- The calls covered by the theorems: for RSA-OAEP, the object just added can be locked and its label allocated. -/
def CipherOp.oaepOk : CipherOp → Prop
  | .init params _ _ env _ => params.alg = some CIPHER_RSA_OAEP → env.lockOk = true ∧ env.labelOk = true
  | _ => True

theorem cipherStep_inv {w : CipherWorld σ} (inv : CipherInv w) (p : CipherPrim σ) (op : CipherOp) (hop : op.oaepOk) :
    ∃ r, cipherStep p w op = some r ∧ CipherInv r.1 := by
  cases op with
  | init params mode key env u =>
    simp only [cipherStep]
    rcases cipherInit_cases p w inv.live inv.fresh params mode key env hop u with ⟨w', s, e, _, same⟩ | ⟨w', h, ptr, o, sk, e, _, _, _, _, _, _, _, n⟩
    · rw [e]; exact ⟨_, rfl, inv.same same⟩
    · rw [e]; exact ⟨_, rfl, inv.new h ptr o sk u n⟩
  | process k u env svp mem context out input bytes caller =>
    simp only [cipherStep]
    obtain ⟨r, e, hi⟩ := cipherProcess_inv inv k p u env svp mem context out input bytes caller
    rw [e]; exact ⟨_, rfl, hi⟩
  | updateIv context iv u =>
    simp only [cipherStep]
    obtain ⟨r, e, hi⟩ := cipherUpdateIv_inv inv p context iv u
    rw [e]; exact ⟨_, rfl, hi⟩
  | release context u =>
    simp only [cipherStep]
    rcases cipherRelease_spec inv context u with ⟨s, _, e⟩ | ⟨w', e, same, _⟩ | ⟨w', ptr, e, hi, _⟩
    · rw [e]; exact ⟨_, rfl, inv⟩
    · rw [e]; exact ⟨_, rfl, inv.same same⟩
    · rw [e]; exact ⟨_, rfl, hi⟩

theorem cipherRun_inv (p : CipherPrim σ) (ops : List CipherOp) : ∀ {w : CipherWorld σ}, CipherInv w → (∀ op ∈ ops, op.oaepOk) →
    ∃ w', cipherRun p w ops = some w' ∧ CipherInv w' := by
  induction ops with
  | nil => intro w inv _; exact ⟨w, rfl, inv⟩
  | cons op ops ih =>
    intro w inv hop
    obtain ⟨r, e, hi⟩ := cipherStep_inv inv p op (hop op (by simp))
    obtain ⟨w', e', hi'⟩ := ih hi (fun o ho => hop o (by simp [ho]))
    exact ⟨w', by unfold cipherRun; rw [e]; exact e', hi'⟩

theorem cipherNew_inv (slots : Nat) (hs : slots < 2 ^ 64) (w : CipherWorld σ) (h : cipherNew σ slots = some w) :
    CipherInv w ∧ (∀ x, w.heap x = none) ∧ ∀ x, (w.store.obj x).object = none := by
  unfold cipherNew at h
  cases he : objectStoreInit Nat slots with
  | none => rw [he] at h; simp at h
  | some st =>
    rw [he] at h
    simp only [Option.map_some, Option.some.injEq] at h
    subst h
    obtain ⟨_, _, _, _, h5⟩ := objectStoreInit_inv slots st hs he
    replace h5 : ∀ x, (st.obj x).object = none := fun x => by rw [h5]; rfl
    refine ⟨⟨liveInv_init slots st hs he, ?_, ?_, ?_, ?_⟩, fun _ => rfl, h5⟩
    · intro x hx; exact absurd rfl hx
    · intro x ptr hx; change (st.obj x).object = some ptr at hx; rw [h5] at hx; simp at hx
    · rintro k k' x ⟨ptr, o, a, _⟩; change (st.obj k).object = some ptr at a; rw [h5] at a; simp at a
    · intro x hx; exact absurd rfl hx

end Sa

import Verif.Model.SvpApp
import Verif.Lemmas.Svp
import Verif.Props.C20

/-!
# C74: an SVP buffer and its memory live together

Full statement: `sa_svp_buffer_alloc` gives a buffer over memory of its own, `sa_svp_buffer_free` gives back exactly this memory, and a call that fails changes
nothing; no buffer ever lies over memory that was given back, and nothing is given back twice.

The code violates it for handles over regions that are not valid, for which `sa_svp_buffer_create` reports success (C22): `sa_svp_buffer_free` then frees what it finds in
uninitialised memory (`C74_violated`).
-/

namespace Sa.C74
open Sa.SvpApp
open Sa.C20 (HasBuffer)

/-! ## Specification -/

/-- What `malloc` promises for `n` bytes: a new block, apart from all others. -/
def Fresh (w : App) (a n : UInt64) : Prop :=
  a ≠ 0 ∧ a.toNat + n.toNat < 2 ^ 64 ∧ w.heap a = none ∧
  ∀ b m, w.heap b = some m → a.toNat + n.toNat ≤ b.toNat ∨ b.toNat + m.toNat ≤ a.toNat

/-- An application and the blocks that it holds itself (`own`): those that it has allocated with `sa_svp_memory_alloc` or got back with `sa_svp_buffer_release`, and
has neither freed nor made a buffer of.  It makes buffers only of such blocks, and frees only such blocks; handles may be anything. -/
inductive Reachable (u : Uuid) : App → (UInt64 → Prop) → Prop
  | start {n : Nat} {st : SvpStore} : n < 2 ^ 64 → objectStoreInit Svp n = some st → Reachable u ⟨u, st, fun _ => none, false⟩ (fun _ => False)
  | memoryAlloc {w own} (h : Reachable u w own) (n : UInt64) (m : Option UInt64) : (∀ a, m = some a → Fresh w a n) →
      Reachable u (memoryAlloc w n m).1 (fun x => own x ∨ m = some x)
  | memoryFree {w own} (h : Reachable u w own) (a : UInt64) : a = 0 ∨ own a → Reachable u (memoryFree w a).1 (fun x => own x ∧ x ≠ a)
  | create {w own} (h : Reachable u w own) (a n : UInt64) (ok : Bool) : own a → w.heap a = some n →
      Reachable u (bufferCreate w a n ok).1 (fun x => own x ∧ ((bufferCreate w a n ok).2.1 = .OK → x ≠ a))
  | release {w own} (h : Reachable u w own) (k : Nat) (ok : Bool) (junk : UInt64) {w' s m} : bufferRelease w k ok junk = .returned w' s m →
      Reachable u w' (fun x => own x ∨ m = some x)
  | alloc {w own} (h : Reachable u w own) (n : UInt64) (m : Option UInt64) (ok : Bool) : (∀ a, m = some a → Fresh w a n) →
      Reachable u (bufferAlloc w n m ok).1 own
  | free {w own} (h : Reachable u w own) (k : Nat) (ok : Bool) (junk : UInt64) {w' s} : bufferFree w k ok junk = some (w', s) → Reachable u w' own
  | write {w own} (h : Reachable u w own) (k : Nat) (i n : UInt64) (os : List SvpOffset) :
      Reachable u { w with store := (taSvpBufferWrite w.store k i n os u).1 } own
  | copy {w own} (h : Reachable u w own) (k i : Nat) (os : List SvpOffset) :
      Reachable u { w with store := (taSvpBufferCopy w.store k i os u).1 } own

/-! ## The table -/

structure Tab (u : Uuid) (st : SvpStore) : Prop where
  inv : SvpInv st
  zero : ∀ h, (st.obj h).referenceCount = 0
  mine : ∀ h s, (st.obj h).object = some s → (st.obj h).ownerUuid = u ∧ ∃ b, s = ⟨some b⟩

theorem tab_init {u : Uuid} {n : Nat} {st : SvpStore} (hn : n < 2 ^ 64) (h : objectStoreInit Svp n = some st) : Tab u st ∧ ∀ x, (st.obj x).object = none := by
  have inv := svpReachable_inv st ⟨n, st, [], hn, h, rfl⟩
  have he : ∀ x, (st.obj x).object = none := fun x => by rw [(objectStoreInit_inv n st hn h).2.2.2.2 x]; rfl
  exact ⟨⟨inv, fun x => inv.empty x (he x), fun x s hs => by rw [he x] at hs; cases hs⟩, he⟩

theorem create_cases {u : Uuid} {st : SvpStore} (t : Tab u st) (a n : UInt64) (ha : a ≠ 0) (hn : a.toNat + n.toNat < 2 ^ 64) :
    (∃ st' h, svpStoreCreate st a n u = (st', .OK, h) ∧ Tab u st' ∧ h < st.slotCount ∧ st'.slotCount = st.slotCount ∧ (st.obj h).object = none ∧
      ∀ x, st'.obj x = if x = h then ⟨some ⟨some ⟨a, n⟩⟩, 0, u⟩ else st.obj x) ∨
    (∃ st' h, svpStoreCreate st a n u = (st', .NO_AVAILABLE_RESOURCE_SLOT, h) ∧ Tab u st' ∧ st'.slotCount = st.slotCount ∧ (∀ x, st'.obj x = st.obj x) ∧
      ∀ x, x < st.slotCount → (st.obj x).object.isSome) := by
  have hi := svpCreate_inv st t.inv a n u
  have hc : svpStoreCreate st a n u = objectStoreAdd st ⟨some ⟨a, n⟩⟩ u := by
    unfold svpStoreCreate
    rw [if_neg ha]
    rcases svpCreate_spec a n with ⟨h, _⟩ | ⟨_, h, _⟩ | ⟨_, _, h⟩
    · exact absurd h ha
    · omega
    · rw [h]
  rw [hc] at hi ⊢
  obtain ⟨h1, h2, h3, _, h5⟩ := add_spec st t.inv.toStoreInv t.inv.up (⟨some ⟨a, n⟩⟩ : Svp) u
  generalize objectStoreAdd st (⟨some ⟨a, n⟩⟩ : Svp) u = r at *
  obtain ⟨st', s, h⟩ := r
  rcases h5 with ⟨e1, e2, e3, e4⟩ | ⟨e1, e2, e3, e4⟩
  · simp only at e1 e2 e4 h2 hi
    subst e1
    exact .inr ⟨st', h, rfl, ⟨hi, fun x => by rw [e4]; exact t.zero x, fun x s hs => by rw [e4] at hs ⊢; exact t.mine x s hs⟩, h2, e4, e3⟩
  · simp only at e1 e2 e3 e4 h2 hi
    subst e1
    refine .inl ⟨st', h, rfl, ⟨hi, fun x => ?_, fun x s hs => ?_⟩, e2, h2, e3, e4⟩
    · rw [e4]; split
      · rfl
      · exact t.zero x
    · rw [e4] at hs ⊢
      split at hs
      · rename_i e
        rw [if_pos e]
        exact ⟨rfl, _, (Option.some.inj hs).symm⟩
      · rename_i e
        rw [if_neg e]
        exact t.mine x s hs

theorem release_cases {u : Uuid} {st : SvpStore} (t : Tab u st) (h : Nat) :
    (∃ s, s ≠ Status.OK ∧ svpStoreRelease st h u = .returned st s none ∧ (st.obj h).object = none) ∨
    (∃ b st', svpStoreRelease st h u = .returned st' .OK (some (b.svpMemory, b.size)) ∧ Tab u st' ∧ h < st.slotCount ∧
      (st.obj h).object = some ⟨some b⟩ ∧ ∀ x, st'.obj x = if x = h then ⟨none, 0, u⟩ else st.obj x) := by
  rcases svpRelease_cases st t.inv h u with ⟨s, hs, he⟩ | ⟨st', he, hi, hh, ho, _⟩ | ⟨b, st', he, hi, hh, ho, hu, hr, hx⟩ | ⟨b, st', he, hi, hh, ho, hu, hr, hx⟩
  · refine .inl ⟨s, hs, he, ?_⟩
    cases ho : (st.obj h).object with
    | none => rfl
    | some v =>
      exfalso
      obtain ⟨hu, b, hb⟩ := t.mine h v ho
      subst hb
      have hh : h < st.slotCount := by
        apply Classical.byContradiction
        intro hx
        have := obj_ge st t.inv.toStoreInv h (by omega)
        rw [this] at ho
        cases ho
      have ha := (acquire_ok_iff st h u _ _).mpr ⟨hh, t.inv.up, ho, hu, rfl⟩
      unfold svpStoreRelease svpStoreAcquireExclusive at he
      rw [ha] at he
      simp only [ne_eq, not_true_eq_false, if_false] at he
      split at he
      · split at he <;> cases he
      · cases he
  · obtain ⟨-, b, hb⟩ := t.mine h _ ho
    cases hb
  · refine .inr ⟨b, st', he, ⟨hi, fun x => ?_, fun x s hs => ?_⟩, hh, ho, hx⟩
    · rw [hx]; split
      · rfl
      · exact t.zero x
    · rw [hx] at hs ⊢
      split at hs
      · cases hs
      · rename_i e
        rw [if_neg e]
        exact t.mine x s hs
  · exact absurd (t.zero h) hr

/-! ## The invariant -/

structure Inv (u : Uuid) (w : App) (own : UInt64 → Prop) : Prop where
  me : w.caller = u
  tab : Tab u w.store
  good : w.fault = false
  used : ∀ h b, (w.store.obj h).object = some ⟨some b⟩ → w.heap b.svpMemory = some b.size ∧ ¬ own b.svpMemory
  inj : ∀ h h' b b', (w.store.obj h).object = some ⟨some b⟩ → (w.store.obj h').object = some ⟨some b'⟩ → b.svpMemory = b'.svpMemory → h = h'
  cover : ∀ a n, w.heap a = some n → own a ∨ ∃ h, (w.store.obj h).object = some ⟨some ⟨a, n⟩⟩
  held : ∀ a, own a → w.heap a ≠ none
  region : ∀ a n, w.heap a = some n → a ≠ 0 ∧ a.toNat + n.toNat < 2 ^ 64
  apart : ∀ a n b m, w.heap a = some n → w.heap b = some m → a ≠ b → a.toNat + n.toNat ≤ b.toNat ∨ b.toNat + m.toNat ≤ a.toNat

theorem inv_got {u : Uuid} {w : App} {own : UInt64 → Prop} (h : Inv u w own) {a n : UInt64} (hf : Fresh w a n) :
    Inv u (w.got a n) (fun x => own x ∨ x = a) := by
  obtain ⟨h0, h1, h2, h3, h4, h5, h6, h7, h8⟩ := h
  obtain ⟨f1, f2, f3, f4⟩ := hf
  constructor <;> simp only [App.got] at * <;> grind

theorem inv_free {u : Uuid} {w : App} {own : UInt64 → Prop} (h : Inv u w own) {a : UInt64} (ha : a = 0 ∨ own a) :
    Inv u (memoryFree w a).1 (fun x => own x ∧ x ≠ a) := by
  obtain ⟨h0, h1, h2, h3, h4, h5, h6, h7, h8⟩ := h
  unfold memoryFree
  split
  · rename_i e
    constructor <;> simp only at * <;> grind
  · rename_i e
    have ho : own a := by simpa [e] using ha
    have := h6 a ho
    rw [if_neg (by simpa using this)]
    constructor <;> simp only at * <;> grind

theorem inv_create {u : Uuid} {w : App} {own : UInt64 → Prop} (h : Inv u w own) {a n : UInt64} (ok : Bool) (ho : own a) (hn : w.heap a = some n) :
    Inv u (bufferCreate w a n ok).1 (fun x => own x ∧ ((bufferCreate w a n ok).2.1 = .OK → x ≠ a)) := by
  have hw := h
  obtain ⟨h0, h1, h2, h3, h4, h5, h6, h7, h8⟩ := h
  obtain ⟨r1, r2⟩ := h7 a n hn
  unfold bufferCreate
  rw [if_neg r1]
  cases ok with
  | false => simpa using hw
  | true =>
    simp only [Bool.not_true, Bool.false_eq_true, if_false]
    rw [h0]
    rcases create_cases h1 a n r1 r2 with ⟨st', k, e, t, e1, e2, e3, e4⟩ | ⟨st', k, e, t, e2, e4, -⟩
    · rw [e]
      constructor <;> simp only at * <;> grind
    · rw [e]
      constructor <;> simp only at * <;> grind

theorem inv_release {u : Uuid} {w : App} {own : UInt64 → Prop} (h : Inv u w own) (k : Nat) (ok : Bool) (junk : UInt64) :
    ∃ w' s m, bufferRelease w k ok junk = .returned w' s m ∧ Inv u w' (fun x => own x ∨ m = some x) ∧
      ((s ≠ .OK ∧ m = none ∧ w' = w ∧ (ok = true → (w.store.obj k).object = none)) ∨
       (s = .OK ∧ ok = true ∧ w'.heap = w.heap ∧ ∃ b, (w.store.obj k).object = some ⟨some b⟩ ∧ m = some b.svpMemory ∧
        ∀ x, w'.store.obj x = if x = k then ⟨none, 0, u⟩ else w.store.obj x)) := by
  have hw := h
  obtain ⟨h0, h1, h2, h3, h4, h5, h6, h7, h8⟩ := h
  subst h0
  unfold bufferRelease
  cases ok with
  | false => exact ⟨w, _, none, rfl, by simpa using hw, .inl ⟨by decide, rfl, rfl, by simp⟩⟩
  | true =>
    simp only [Bool.not_true, Bool.false_eq_true, if_false]
    rcases release_cases h1 k with ⟨s, hs, e, e1⟩ | ⟨b, st', e, t, e1, e2, e3⟩
    · rw [e]
      simp only [hs, if_false]
      exact ⟨w, s, none, by rfl, by simpa using hw, .inl ⟨hs, rfl, rfl, fun _ => e1⟩⟩
    · rw [e]
      refine ⟨{ w with store := st' }, .OK, some b.svpMemory, rfl, ?_, .inr ⟨rfl, trivial, rfl, b, e2, rfl, e3⟩⟩
      have ho : ∀ x c, (st'.obj x).object = some c ↔ x ≠ k ∧ (w.store.obj x).object = some c := by
        intro x c
        rw [e3]
        by_cases hx : x = k <;> simp [hx]
      refine ⟨rfl, t, h2, ?_, ?_, ?_, ?_, h7, h8⟩
      · intro x c hx
        obtain ⟨hx1, hx2⟩ := (ho x _).mp hx
        obtain ⟨g1, g2⟩ := h3 x c hx2
        refine ⟨g1, ?_⟩
        rintro (g | g)
        · exact g2 g
        · exact hx1 (h4 x k c b hx2 e2 (Option.some.inj g).symm)
      · intro x y c c' hx hy
        exact h4 x y c c' ((ho x _).mp hx).2 ((ho y _).mp hy).2
      · intro a n ha
        rcases h5 a n ha with g | ⟨x, g⟩
        · exact .inl (.inl g)
        · by_cases hx : x = k
          · rw [hx, e2] at g
            simp only [Option.some.injEq, Svp.mk.injEq] at g
            exact .inl (.inr (by rw [g]))
          · exact .inr ⟨x, (ho x _).mpr ⟨hx, g⟩⟩
      · rintro a (g | g)
        · exact h6 a g
        · cases g
          rw [(h3 k b e2).1]
          simp

theorem inv_own {u : Uuid} {w : App} {own own' : UInt64 → Prop} (h : Inv u w own) (he : ∀ x, own' x ↔ own x) : Inv u w own' := by
  have : own' = own := funext fun x => propext (he x)
  rw [this]; exact h

theorem live_of {u : Uuid} {w : App} {own : UInt64 → Prop} (h : Inv u w own) {k : Nat} {v : Svp} (ho : (w.store.obj k).object = some v) : k < w.store.slotCount := by
  apply Classical.byContradiction
  intro hx
  have := obj_ge w.store h.tab.inv.toStoreInv k (by omega)
  rw [this] at ho
  cases ho

/-- `sa_svp_buffer_alloc` in full. -/
theorem alloc_spec {u : Uuid} {w : App} {own : UInt64 → Prop} (h : Inv u w own) (n : UInt64) (m : Option UInt64) (ok : Bool) (hf : ∀ a, m = some a → Fresh w a n) :
    Inv u (bufferAlloc w n m ok).1 own ∧
    ((∃ a k, m = some a ∧ ok = true ∧ (bufferAlloc w n m ok).2 = (.OK, some k) ∧ (w.store.obj k).object = none ∧
        (∀ x, (bufferAlloc w n m ok).1.heap x = if x = a then some n else w.heap x) ∧
        ∀ x, (bufferAlloc w n m ok).1.store.obj x = if x = k then ⟨some ⟨some ⟨a, n⟩⟩, 0, u⟩ else w.store.obj x) ∨
     ((bufferAlloc w n m ok).2.1 ≠ .OK ∧ (bufferAlloc w n m ok).2.2 = none ∧ (bufferAlloc w n m ok).1.heap = w.heap ∧
        (∀ x, (bufferAlloc w n m ok).1.store.obj x = w.store.obj x) ∧
        (m = none ∨ ok = false ∨ ∀ k, k < w.store.slotCount → (w.store.obj k).object.isSome))) := by
  cases m with
  | none => exact ⟨h, .inr ⟨by simp [bufferAlloc, memoryAlloc], rfl, rfl, fun _ => rfl, .inl rfl⟩⟩
  | some a =>
    have hfr := hf a rfl
    have hg := inv_got h hfr
    have hown : ¬ own a := fun hx => h.held a hx hfr.2.2.1
    have hheap : (w.got a n).heap a = some n := by simp [App.got]
    have hc := inv_create hg (a := a) (n := n) ok (.inr rfl) hheap
    have hback : (fun x => if x = a then none else (w.got a n).heap x) = w.heap := by
      funext x
      by_cases hx : x = a
      · simp [hx, hfr.2.2.1]
      · simp [App.got, hx]
    have undo : ∀ st, (memoryFree { w.got a n with store := st } a).1 = { w with store := st } := by
      intro st
      unfold memoryFree
      rw [if_neg hfr.1]
      simp only [hheap, Option.isNone_some, Bool.false_eq_true, if_false, hback]
      rfl
    have ho : ∀ x, own x ↔ (own x ∨ x = a) ∧ x ≠ a := by
      intro x
      constructor
      · intro hx; exact ⟨.inl hx, fun e => hown (e ▸ hx)⟩
      · rintro ⟨hx | hx, hy⟩
        · exact hx
        · exact absurd hx hy
    have me := h.me
    cases ok with
    | false =>
      have e : bufferAlloc w n (some a) false = (w, .INTERNAL_ERROR, none) := by
        simp only [bufferAlloc, memoryAlloc, bufferCreate, if_neg hfr.1, Bool.not_false, if_true]
        rw [show (w.got a n) = { w.got a n with store := w.store } from rfl, undo]
      rw [e]
      exact ⟨h, .inr ⟨by simp, rfl, rfl, fun _ => rfl, .inr (.inl rfl)⟩⟩
    | true =>
      have ec : bufferCreate (w.got a n) a n true = ({ w.got a n with store := (svpStoreCreate w.store a n u).1 }, (svpStoreCreate w.store a n u).2.1,
          if (svpStoreCreate w.store a n u).2.1 = .OK then some (svpStoreCreate w.store a n u).2.2 else none) := by
        unfold bufferCreate
        rw [if_neg hfr.1]
        simp only [Bool.not_true, Bool.false_eq_true, if_false]
        rw [show (w.got a n).store = w.store from rfl, show (w.got a n).caller = u from me]
      rcases create_cases h.tab a n hfr.1 hfr.2.1 with ⟨st', k, e, t, e1, e2, e3, e4⟩ | ⟨st', k, e, t, e2, e4, e5⟩
      · rw [e] at ec
        simp only [if_true] at ec
        have er : bufferAlloc w n (some a) true = ({ w.got a n with store := st' }, .OK, some k) := by
          simp only [bufferAlloc, memoryAlloc, ec]
        rw [er]
        rw [ec] at hc
        refine ⟨inv_own hc (fun x => (ho x).trans (by simp)), .inl ⟨a, k, rfl, rfl, rfl, e3, fun x => rfl, e4⟩⟩
      · rw [e] at ec
        simp only [reduceCtorEq, if_false] at ec
        have er : bufferAlloc w n (some a) true = ({ w with store := st' }, .NO_AVAILABLE_RESOURCE_SLOT, none) := by
          simp only [bufferAlloc, memoryAlloc, ec]
          rw [undo]
        rw [er]
        refine ⟨?_, .inr ⟨by simp, rfl, rfl, e4, .inr (.inr e5)⟩⟩
        obtain ⟨h0, h1, h2, h3, h4, h5, h6, h7, h8⟩ := h
        constructor <;> simp only [e4] at * <;> assumption

/-- `sa_svp_buffer_free` in full. -/
theorem free_spec {u : Uuid} {w : App} {own : UInt64 → Prop} (h : Inv u w own) (k : Nat) (ok : Bool) (junk : UInt64) :
    ∃ w' s, bufferFree w k ok junk = some (w', s) ∧ Inv u w' own ∧
      ((s ≠ .OK ∧ w' = w ∧ (ok = true → (w.store.obj k).object = none)) ∨
       (s = .OK ∧ ok = true ∧ ∃ b, (w.store.obj k).object = some ⟨some b⟩ ∧ (∀ x, w'.heap x = if x = b.svpMemory then none else w.heap x) ∧
        ∀ x, w'.store.obj x = if x = k then ⟨none, 0, u⟩ else w.store.obj x)) := by
  obtain ⟨w1, s, m, e, hi, hc⟩ := inv_release h k ok junk
  unfold bufferFree
  rw [e]
  rcases hc with ⟨hs, hm, hw, hn⟩ | ⟨hs, hk, hh, b, hb, hm, hx⟩
  · subst hm hw
    refine ⟨w1, s, ?_, h, .inl ⟨hs, rfl, hn⟩⟩
    cases s <;> first | exact absurd rfl hs | rfl
  · subst hs hm
    obtain ⟨u1, u2⟩ := h.used k b hb
    have hr := (h.region _ _ u1).1
    have hf := inv_free hi (a := b.svpMemory) (.inr (.inr rfl))
    have em : memoryFree w1 b.svpMemory = ({ w1 with heap := fun x => if x = b.svpMemory then none else w1.heap x }, .OK) := by
      unfold memoryFree
      rw [if_neg hr, if_neg (by rw [hh, u1]; simp)]
    rw [em] at hf
    refine ⟨_, _, by simp only [Option.getD_some]; rw [em], inv_own hf (fun x => ?_), .inr ⟨rfl, hk, b, hb, fun x => by rw [← hh], hx⟩⟩
    constructor
    · intro hx; exact ⟨.inl hx, fun e => u2 (e ▸ hx)⟩
    · rintro ⟨hx | hx, hy⟩
      · exact hx
      · exact absurd (Option.some.inj hx).symm hy

theorem inv_all {u : Uuid} {w : App} {own : UInt64 → Prop} (h : Reachable u w own) : Inv u w own := by
  induction h with
  | start hn hi =>
    obtain ⟨t, he⟩ := tab_init (u := u) hn hi
    refine ⟨rfl, t, rfl, ?_, ?_, ?_, ?_, ?_, ?_⟩ <;> simp [he]
  | memoryAlloc _ n m hm ih =>
    cases m with
    | none => exact inv_own ih (by simp)
    | some a => exact inv_own (inv_got ih (hm a rfl)) (by simp [eq_comm])
  | memoryFree _ a ha ih => exact inv_free ih ha
  | create _ a n ok ho hn ih => exact inv_create ih ok ho hn
  | release _ k ok junk hr ih =>
    obtain ⟨w1, s, m, e, hi, -⟩ := inv_release ih k ok junk
    rw [e] at hr
    cases hr
    exact hi
  | alloc _ n m ok hm ih => exact (alloc_spec ih n m ok hm).1
  | free _ k ok junk hf ih =>
    obtain ⟨w1, s, e, hi, -⟩ := free_spec ih k ok junk
    rw [e] at hf
    cases hf
    exact hi
  | write _ k i n os ih => rw [taSvpBufferWrite_store _ ih.tab.inv]; exact ih
  | copy _ k i os ih => rw [taSvpBufferCopy_store _ ih.tab.inv]; exact ih

/-! ## Theorems -/

/-- **C74 (always)**: every buffer lies exactly over one allocated block, different buffers over different blocks that do not overlap; every allocated block
belongs to a buffer or to the application; nothing was freed that is not allocated. -/
theorem C74_always_partial (u : Uuid) (w : App) (own : UInt64 → Prop) (h : Reachable u w own) :
    w.fault = false ∧
    (∀ k b, HasBuffer w.store k u b → w.heap b.svpMemory = some b.size ∧ ¬ own b.svpMemory) ∧
    (∀ k k' b b', HasBuffer w.store k u b → HasBuffer w.store k' u b' → k ≠ k' →
      b.svpMemory ≠ b'.svpMemory ∧ (b.svpMemory.toNat + b.size.toNat ≤ b'.svpMemory.toNat ∨ b'.svpMemory.toNat + b'.size.toNat ≤ b.svpMemory.toNat)) ∧
    (∀ a n, w.heap a = some n → own a ∨ ∃ k, HasBuffer w.store k u ⟨a, n⟩) := by
  have hi := inv_all h
  refine ⟨hi.good, fun k b hb => hi.used k b hb.2.1, fun k k' b b' hb hb' hk => ?_, fun a n ha => ?_⟩
  · have hne : b.svpMemory ≠ b'.svpMemory := fun e => hk (hi.inj k k' b b' hb.2.1 hb'.2.1 e)
    exact ⟨hne, hi.apart _ _ _ _ (hi.used k b hb.2.1).1 (hi.used k' b' hb'.2.1).1 hne⟩
  · rcases hi.cover a n ha with g | ⟨k, g⟩
    · exact .inl g
    · exact .inr ⟨k, live_of hi g, g, (hi.tab.mine k _ g).1⟩

/-- **C74 (alloc)**: success gives a new handle with a buffer of the given size over the new block; failure has an outside cause and changes neither buffers nor
memory. -/
theorem C74_alloc_partial (u : Uuid) (w : App) (own : UInt64 → Prop) (h : Reachable u w own) (n : UInt64) (m : Option UInt64) (ok : Bool)
    (hf : ∀ a, m = some a → Fresh w a n) :
    let r := bufferAlloc w n m ok
    (∃ a k, m = some a ∧ r.2 = (.OK, some k) ∧ HasBuffer r.1.store k u ⟨a, n⟩ ∧ (w.store.obj k).object = none ∧
      (∀ x, r.1.heap x = if x = a then some n else w.heap x) ∧ ∀ x, x ≠ k → r.1.store.obj x = w.store.obj x) ∨
    (r.2.1 ≠ .OK ∧ r.2.2 = none ∧ r.1.heap = w.heap ∧ (∀ x, r.1.store.obj x = w.store.obj x) ∧
      (m = none ∨ ok = false ∨ ∀ k, k < w.store.slotCount → (w.store.obj k).object.isSome)) := by
  intro r
  obtain ⟨h1, h2⟩ := alloc_spec (inv_all h) n m ok hf
  rcases h2 with ⟨a, k, e1, e2, e3, e4, e5, e6⟩ | ⟨e1, e2, e3, e4, e5⟩
  · have ho : (r.1.store.obj k).object = some ⟨some ⟨a, n⟩⟩ := by rw [e6 k, if_pos rfl]
    exact .inl ⟨a, k, e1, e3, ⟨live_of h1 ho, ho, by rw [e6 k, if_pos rfl]⟩, e4, e5, fun x hx => by rw [e6 x, if_neg hx]⟩
  · exact .inr ⟨e1, e2, e3, e4, e5⟩

/-- **C74 (free)**: freeing a buffer always returns, and gives back its block and nothing else; any other handle is refused and nothing changes. -/
theorem C74_free_partial (u : Uuid) (w : App) (own : UInt64 → Prop) (h : Reachable u w own) (k : Nat) (junk : UInt64) :
    (∀ b, HasBuffer w.store k u b → ∃ w', bufferFree w k true junk = some (w', .OK) ∧ (∀ x, w'.heap x = if x = b.svpMemory then none else w.heap x) ∧
      (∀ b', ¬ HasBuffer w'.store k u b') ∧ ∀ x, x ≠ k → w'.store.obj x = w.store.obj x) ∧
    ((∀ b, ¬ HasBuffer w.store k u b) → ∃ s, s ≠ Status.OK ∧ bufferFree w k true junk = some (w, s)) := by
  have hi := inv_all h
  obtain ⟨w1, s, e, -, hc⟩ := free_spec hi k true junk
  constructor
  · intro b hb
    rcases hc with ⟨-, -, hn⟩ | ⟨rfl, -, b', hb', e1, e2⟩
    · have := hb.2.1
      rw [hn rfl] at this
      cases this
    · have := hb.2.1
      rw [hb'] at this
      cases this
      refine ⟨w1, e, e1, fun b' hx => ?_, fun x hx => by rw [e2 x, if_neg hx]⟩
      have := hx.2.1
      rw [e2 k, if_pos rfl] at this
      cases this
  · intro hn
    rcases hc with ⟨hs, rfl, -⟩ | ⟨-, -, b', hb', -⟩
    · exact ⟨s, hs, e⟩
    · exact absurd ⟨live_of hi hb', hb', (hi.tab.mine k _ hb').1⟩ (hn b')

/-! ## Examples and violation -/

def u7 : Uuid := Vector.replicate 16 7

/-- A new application with a table of 32 handles. -/
def app0 : App := ⟨u7, (objectStoreInit Svp 32).getD ⟨⟨[], 0⟩, [], 0, false, 0⟩, fun _ => none, false⟩

theorem app0_reachable : Reachable u7 app0 (fun _ => False) := .start (n := 32) (by decide) (by rfl)

/-- 64 bytes at 0x1000. -/
def app1 : App := (bufferAlloc app0 64 (some 0x1000) true).1

theorem app1_reachable : Reachable u7 app1 (fun _ => False) :=
  .alloc app0_reachable 64 (some 0x1000) true (by rintro a ⟨rfl⟩; refine ⟨by decide, by decide, rfl, ?_⟩; intro b m hb; cases hb)

example : (bufferAlloc app0 64 (some 0x1000) true).2 = (.OK, some 31) := by decide +kernel
example : app1.heap 0x1000 = some 64 ∧ ((bufferFree app1 31 true 0).map fun r => (r.1.heap 0x1000, r.2)) = some (none, .OK) := by decide +kernel
example : ((bufferFree app1 30 true 0).map fun r => (r.1.heap 0x1000, r.2)) = some (some 64, .INVALID_PARAMETER) := by decide +kernel

/-- **C74 is violated** for a handle over a region that is not valid: creating it is reported to succeed, and `sa_svp_buffer_free` frees whatever the
uninitialised memory of its command contains. -/
theorem C74_violated : ∃ a n, let r := bufferCreate app1 a n true
    r.2 = (.OK, some 30) ∧
    (∃ w, bufferFree r.1 30 true 0x1000 = some (w, .OK) ∧ w.heap 0x1000 = none ∧ (w.store.obj 31).object = some ⟨some ⟨0x1000, 64⟩⟩) ∧
    (∃ w, bufferFree r.1 30 true 0x4141 = some (w, .OK) ∧ w.fault = true) := by
  refine ⟨0xfffffffffffff000, 0x2000, by decide +kernel, ?_, ?_⟩
  · cases h : bufferFree (bufferCreate app1 0xfffffffffffff000 0x2000 true).1 30 true 0x1000 with
    | none =>
      have : (bufferFree (bufferCreate app1 0xfffffffffffff000 0x2000 true).1 30 true 0x1000).isSome = true := by decide +kernel
      rw [h] at this; cases this
    | some r =>
      have : (bufferFree (bufferCreate app1 0xfffffffffffff000 0x2000 true).1 30 true 0x1000).map (fun r => (r.2, r.1.heap 0x1000, (r.1.store.obj 31).object))
        = some (.OK, none, some ⟨some ⟨0x1000, 64⟩⟩) := by decide +kernel
      rw [h] at this
      simp only [Option.map_some, Option.some.injEq, Prod.mk.injEq] at this
      exact ⟨r.1, by rw [← this.1], this.2.1, this.2.2⟩
  · cases h : bufferFree (bufferCreate app1 0xfffffffffffff000 0x2000 true).1 30 true 0x4141 with
    | none =>
      have : (bufferFree (bufferCreate app1 0xfffffffffffff000 0x2000 true).1 30 true 0x4141).isSome = true := by decide +kernel
      rw [h] at this; cases this
    | some r =>
      have : (bufferFree (bufferCreate app1 0xfffffffffffff000 0x2000 true).1 30 true 0x4141).map (fun r => (r.2, r.1.fault)) = some (.OK, true) := by decide +kernel
      rw [h] at this
      simp only [Option.map_some, Option.some.injEq, Prod.mk.injEq] at this
      exact ⟨r.1, by rw [← this.1], this.2⟩

end Sa.C74

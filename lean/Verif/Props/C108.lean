import Verif.Lemmas.WholeSvp
import Verif.Props.C21
import Verif.Props.C107

/-!
# C108: an SVP handle denotes the region with which it was made, for the session that made it, until it is released

For the TA as a whole: any number of sessions and callers, all calls.
-/

namespace Sa.Whole.C108

open C105 C106
open C20 (HasBuffer)

variable {κ ρ π σ τ : Type}

/-! ## The book of regions -/

/-- The book that callers can keep: which handles of which sessions are SVP buffers, whose, and which region (address, size) each is, from the requests and what was told. -/
def note (own : Nat → Nat → Option (Uuid × UInt64 × UInt64)) (x : Request κ ρ π × Uuid × Told) (s h : Nat) : Option (Uuid × UInt64 × UInt64) :=
  match x with
  | (.open _ _, _, .opened .OK s') => if s = s' then none else own s h
  | (.close s' _, _, .closed .OK) => if s = s' then none else own s h
  | (.call s' u (.svpCreate m n), _, .reply (.made .OK h')) => if s = s' ∧ h = h' then some (u, m, n) else own s h
  | (.call s' _ (.svpRelease h'), _, .reply (.region .OK _)) => if s = s' ∧ h = h' then none else own s h
  | _ => own s h

def regions (rs : List (Request κ ρ π)) (ts : List (Uuid × Told)) : Nat → Nat → Option (Uuid × UInt64 × UInt64) := (rs.zip ts).foldl note fun _ _ => none

/-! ## One call -/

/-- What a call does to the table of SVP buffers. -/
theorem serve_svps (p : Prims) (d : Device σ τ) (t t' : Tables σ τ) (inv : TabInv p d t) (u : Uuid) (c : Cmd κ ρ π) (hf : c.Fine p) (q : Reply) (h : serve d t u c = some (t', q)) :
    ((∀ x, t'.svps.obj x = t.svps.obj x) ∧ (∀ m n x, ¬(c = .svpCreate m n ∧ q = .made .OK x)) ∧ ∀ x y, ¬(c = .svpRelease x ∧ q = .region .OK y)) ∨
    (∃ m n x, c = .svpCreate m n ∧ q = .made .OK x ∧ m ≠ 0 ∧ (t.svps.obj x).object = none ∧
      ∀ y, t'.svps.obj y = if y = x then ⟨some ⟨some ⟨m, n⟩⟩, 0, u⟩ else t.svps.obj y) ∨
    (∃ x b, c = .svpRelease x ∧ q = .region .OK (some (b.svpMemory, b.size)) ∧ HasBuffer t.svps x u b ∧
      ∀ y, t'.svps.obj y = if y = x then ⟨none, 0, u⟩ else t.svps.obj y) := by
  have ok := inv.svps
  have hv := ok.inv
  have same : t'.svps = t.svps → (∀ m n, c ≠ .svpCreate m n) → (∀ x, c ≠ .svpRelease x) →
      (∀ x, t'.svps.obj x = t.svps.obj x) ∧ (∀ m n x, ¬(c = .svpCreate m n ∧ q = .made .OK x)) ∧ ∀ x y, ¬(c = .svpRelease x ∧ q = .region .OK y) :=
    fun e h1 h2 => ⟨fun x => by rw [e], fun m n x e => h1 m n e.1, fun x y e => h2 x e.1⟩
  cases c with
  | keys c =>
    simp only [serve, Option.map_eq_some_iff, Prod.mk.injEq] at h
    obtain ⟨y, hy, rfl, rfl⟩ := h
    exact Or.inl (same rfl (by simp) (by simp))
  | cipherInit env params mode key ienv =>
    simp only [serve] at h
    split at h
    · cases h
    · simp only [Option.map_eq_some_iff, Prod.mk.injEq] at h
      obtain ⟨y, hy, rfl, rfl⟩ := h
      exact Or.inl (same rfl (by simp) (by simp))
  | cipherProcess kind up env mem x out input bytes =>
    simp only [serve, Option.map_eq_some_iff, Prod.mk.injEq] at h
    obtain ⟨y, hy, rfl, rfl⟩ := h
    exact Or.inl (same (process_svps inv.ciphers kind d.cipher up env t.svps hv mem x out input bytes u y hy) (by simp) (by simp))
  | cenc env fuel mem bufs samples =>
    simp only [serve, Option.map_eq_some_iff, Prod.mk.injEq] at h
    obtain ⟨y, hy, rfl, rfl⟩ := h
    exact Or.inl (same (cencCall_watch d.cipher env fuel inv.ciphers t.svps hv mem bufs samples u y hy).1 (by simp) (by simp))
  | macInit env alg digest key allocOk =>
    simp only [serve] at h
    split at h
    · cases h
    · cases h
      exact Or.inl (same rfl (by simp) (by simp))
  | macProcessKey env x key =>
    simp only [serve] at h
    split at h
    · cases h
    · simp only [Option.map_eq_some_iff, Prod.mk.injEq] at h
      obtain ⟨y, hy, rfl, rfl⟩ := h
      exact Or.inl (same rfl (by simp) (by simp))
  | svpCheck e x offset length digest hash hashLength =>
    obtain ⟨s, h1, _⟩ := C68.C68_partial e hf.1 t.svps ok.reach x (ok.buffer x) offset length digest hash hashLength hf.2 u
    simp only [serve, h1, Option.map_some, Option.some.injEq, Prod.mk.injEq] at h
    obtain ⟨rfl, rfl⟩ := h
    exact Or.inl (same rfl (by simp) (by simp))
  | svpKeyCheck a b e f g i =>
    simp only [serve, Option.map_eq_some_iff, Prod.mk.injEq] at h
    obtain ⟨y, hy, rfl, rfl⟩ := h
    exact Or.inl (same (keyCheck_svps hv hy) (by simp) (by simp))
  | svpWrite a b x y =>
    simp only [serve] at h
    cases h
    exact Or.inl (same (taSvpBufferWrite_store _ hv _ _ _ _ _) (by simp) (by simp))
  | svpCopy a b x =>
    simp only [serve] at h
    cases h
    exact Or.inl (same (taSvpBufferCopy_store _ hv _ _ _ _) (by simp) (by simp))
  | svpCreate m n =>
    simp only [serve, Option.some.injEq, Prod.mk.injEq] at h
    obtain ⟨rfl, rfl⟩ := h
    rcases (svpCreate_ok ok m n hf u).2 with ⟨h1, _, h2⟩ | ⟨h1, h2, h3, h4⟩
    · exact Or.inl ⟨h2, fun m' n' x e => h1 (by have := e.2; simp only [Reply.made.injEq] at this; exact this.1), by simp⟩
    · exact Or.inr (Or.inl ⟨m, n, _, rfl, by rw [h1], h2, h3, h4⟩)
  | svpRelease x =>
    simp only [serve] at h
    rcases svpRelease_ok ok x u with ⟨s, hs, e, _⟩ | ⟨b, st', e, _, hb, ho⟩
    · rw [e] at h; cases h
      exact Or.inl ⟨fun _ => rfl, by simp, by simp [hs]⟩
    · rw [e] at h; cases h
      exact Or.inr (Or.inr ⟨x, b, rfl, rfl, hb, ho⟩)
  | _ =>
    simp only [serve, Option.map_eq_some_iff, Prod.mk.injEq] at h
    obtain ⟨y, hy, rfl, rfl⟩ := h
    exact Or.inl (same rfl (by simp) (by simp))

/-! ## The TA -/

/-- What is in a place of the table. -/
def entry (o : StoreObject Svp) : Option (Uuid × UInt64 × UInt64) :=
  match o.object with
  | some ⟨some b⟩ => some (o.ownerUuid, b.svpMemory, b.size)
  | _ => none

/-- What is in the table of a session. -/
def regionOf (w : Ta σ τ) (s h : Nat) : Option (Uuid × UInt64 × UInt64) :=
  match tablesOf w s with
  | some t => entry (t.svps.obj h)
  | none => none

theorem entry_iff {st : SvpStore} (inv : StoreInv st) (h : Nat) (u : Uuid) (m n : UInt64) : entry (st.obj h) = some (u, m, n) ↔ HasBuffer st h u ⟨m, n⟩ := by
  unfold entry HasBuffer
  constructor
  · intro e
    split at e
    · rename_i b hb
      simp only [Option.some.injEq, Prod.mk.injEq] at e
      obtain ⟨rfl, rfl, rfl⟩ := e
      exact ⟨obj_small st inv h _ hb, hb, rfl⟩
    · cases e
  · rintro ⟨_, h2, h3⟩
    rw [h2, h3]

theorem entry_none {o : StoreObject Svp} (h : o.object = none) : entry o = none := by unfold entry; rw [h]

/-- Whoever has a buffer in a session holds the session. -/
def Owned (w : Ta σ τ) : Prop := ∀ s t, tablesOf w s = some t → ∀ x, (t.svps.obj x).object.isSome → (t.svps.obj x).ownerUuid = (w.clients.obj s).ownerUuid

theorem region_iff {p : Prims} {d : Device σ τ} {w : Ta σ τ} (inv : C105.WInv p d w) (ow : Owned w) (s h : Nat) (u : Uuid) (m n : UInt64) :
    regionOf w s h = some (u, m, n) ↔ (w.clients.obj s).ownerUuid = u ∧ ∃ t, tablesOf w s = some t ∧ HasBuffer t.svps h u ⟨m, n⟩ := by
  unfold regionOf
  cases ht : tablesOf w s with
  | none => simp
  | some t =>
    obtain ⟨ptr, _, hheap⟩ := tables_heap ht
    simp only [Option.some.injEq, exists_eq_left']
    rw [entry_iff (inv.tabs ptr t hheap).svps.inv.toStoreInv]
    refine ⟨fun hb => ⟨?_, hb⟩, fun h => h.2⟩
    rw [← ow s t ht h (by rw [hb.2.1]; rfl)]
    exact hb.2.2

theorem note_other {own : Nat → Nat → Option (Uuid × UInt64 × UInt64)} {n : Nat} {u v : Uuid} {c : Cmd κ ρ π} {q : Reply} (h1 : ∀ m k x, ¬(c = .svpCreate m k ∧ q = .made .OK x))
    (h2 : ∀ x y, ¬(c = .svpRelease x ∧ q = .region .OK y)) (s h : Nat) : note own (.call n u c, v, .reply q) s h = own s h := by
  unfold note
  split
  all_goals first
    | rfl
    | (rename_i e; simp only [Prod.mk.injEq, Request.call.injEq, Told.reply.injEq] at e
       first
        | (obtain ⟨⟨_, _, rfl⟩, _, rfl⟩ := e; first | exact absurd ⟨rfl, rfl⟩ (h1 _ _ _) | exact absurd ⟨rfl, rfl⟩ (h2 _ _))
        | (exact absurd e.1 (by simp))
        | (exact absurd e.2.2 (by simp)))

theorem region_step (p : Prims) (d : Device σ τ) (w : Ta σ τ) (inv : C105.WInv p d w) (ow : Owned w) (r : Request κ ρ π) (hf : r.Fine p) (w' : Ta σ τ) (told : Told)
    (hh : handle d w r = some (w', told)) (v : Uuid) : (∀ s h, regionOf w' s h = note (regionOf w) (r, v, told) s h) ∧ Owned w' := by
  cases r with
  | «open» u ptr =>
    rcases open_cases (κ := κ) (ρ := ρ) (π := π) d w inv.ta u ptr with ⟨st, s, n, e, hs, hl, hob⟩ | ⟨st, n, tb, e, hnew, hn, hl, hfree, hob⟩
    · rw [e] at hh; cases hh
      have same : ∀ s, tablesOf (⟨st, w.heap⟩ : Ta σ τ) s = tablesOf w s := fun s => by simp [tablesOf, hob]
      refine ⟨fun s' h => ?_, fun s' t ht x hx => by rw [same] at ht; simp only [hob]; exact ow s' t ht x hx⟩
      have : note (regionOf w) ((.open u ptr : Request κ ρ π), v, .opened s n) s' h = regionOf w s' h := by cases s <;> first | exact absurd rfl hs | rfl
      rw [this]
      simp only [regionOf, same]
    · rw [e] at hh; cases hh
      have hte : ∀ x, (tb.svps.obj x).object = none := by
        unfold newTables at hnew
        split at hnew
        · rename_i h4
          cases hnew
          exact (svpsOk_new _ h4).2
        · cases hnew
      have other : ∀ s, s ≠ n → tablesOf (⟨st, fun p => if p = ptr then some tb else w.heap p⟩ : Ta σ τ) s = tablesOf w s := by
        intro s hs
        simp only [tablesOf, hob, if_neg hs]
        cases hq : (w.clients.obj s).object with
        | none => rfl
        | some q =>
          simp only [Option.bind_some]
          rw [if_neg]
          rintro rfl
          have := inv.ta.inHeap s q hq
          rw [hn] at this; simp at this
      have this_ : tablesOf (⟨st, fun p => if p = ptr then some tb else w.heap p⟩ : Ta σ τ) n = some tb := by simp [tablesOf, hob]
      refine ⟨fun s h => ?_, fun s t ht x hx => ?_⟩
      · simp only [note]
        by_cases hs : s = n
        · subst hs
          simp only [if_true, regionOf, this_]
          exact entry_none (hte h)
        · simp only [if_neg hs, regionOf, other s hs]
      · by_cases hs : s = n
        · subst hs
          rw [this_] at ht; cases ht
          rw [hte] at hx; simp at hx
        · rw [other s hs] at ht
          simp only [hob, if_neg hs]
          exact ow s t ht x hx
  | close n u =>
    rcases close_cases (κ := κ) (ρ := ρ) (π := π) d w inv.ta n u with ⟨s, e, hs, _⟩ | ⟨st, ptr, e, h4, h5, hl, hi, hob⟩
    · rw [e] at hh; cases hh
      refine ⟨fun s' h => ?_, ow⟩
      cases s <;> first | exact absurd rfl hs | rfl
    · rw [e] at hh; cases hh
      have other : ∀ s, s ≠ n → tablesOf (⟨st, fun p => if p = ptr then none else w.heap p⟩ : Ta σ τ) s = tablesOf w s := by
        intro s hs
        simp only [tablesOf, hob, if_neg hs]
        cases hq : (w.clients.obj s).object with
        | none => rfl
        | some q =>
          simp only [Option.bind_some]
          rw [if_neg]
          rintro rfl
          exact hs (inv.ta.inj s n q hq h4)
      have this_ : tablesOf (⟨st, fun p => if p = ptr then none else w.heap p⟩ : Ta σ τ) n = none := by simp [tablesOf, hob]
      refine ⟨fun s h => ?_, fun s t ht x hx => ?_⟩
      · simp only [note]
        by_cases hs : s = n
        · subst hs
          simp only [if_true, regionOf, this_]
        · simp only [if_neg hs, regionOf, other s hs]
      · by_cases hs : s = n
        · subst hs
          rw [this_] at ht; cases ht
        · rw [other s hs] at ht
          simp only [hob, if_neg hs]
          exact ow s t ht x hx
  | call n u c =>
    rcases call_cases d w inv.ta n u c with ⟨s, e, _⟩ | ⟨ptr, tb, h4, h5, h6, e⟩
    · rw [e] at hh; cases hh
      refine ⟨fun s' h => ?_, ow⟩
      cases c <;> rfl
    · cases hs : serve d tb u c with
      | none => rw [e, hs] at hh; simp at hh
      | some y =>
        obtain ⟨t', q⟩ := y
        rw [e, hs] at hh
        simp only [Option.map_some, Option.some.injEq, Prod.mk.injEq] at hh
        obtain ⟨rfl, rfl⟩ := hh
        have before : tablesOf w n = some tb := by simp [tablesOf, h4, h6]
        have other : ∀ s, s ≠ n → tablesOf (⟨w.clients, fun p => if p = ptr then some t' else w.heap p⟩ : Ta σ τ) s = tablesOf w s := by
          intro s hs
          simp only [tablesOf]
          cases hq : (w.clients.obj s).object with
          | none => rfl
          | some q =>
            simp only [Option.bind_some]
            rw [if_neg]
            rintro rfl
            exact hs (inv.ta.inj s n q hq h4)
        have this_ : tablesOf (⟨w.clients, fun p => if p = ptr then some t' else w.heap p⟩ : Ta σ τ) n = some t' := by simp [tablesOf, h4]
        rcases serve_svps p d tb t' (inv.tabs ptr tb h6) u c hf q hs with ⟨g1, g2, g3⟩ | ⟨m, k, x, rfl, rfl, g1, g2, g3⟩ | ⟨x, b, rfl, rfl, g1, g2⟩
        · refine ⟨fun s h => ?_, fun s t ht x hx => ?_⟩
          · rw [note_other g2 g3]
            by_cases hs : s = n
            · subst hs
              simp only [regionOf, this_, before, g1]
            · simp only [regionOf, other s hs]
          · by_cases hs : s = n
            · subst hs
              rw [this_] at ht; cases ht
              rw [g1] at hx ⊢
              exact ow s tb before x hx
            · rw [other s hs] at ht
              exact ow s t ht x hx
        · refine ⟨fun s h => ?_, fun s t ht y hy => ?_⟩
          · simp only [note]
            by_cases hs : s = n
            · subst hs
              by_cases hx : h = x
              · subst hx
                simp [regionOf, this_, g3, entry]
              · simp only [regionOf, this_, before, g3, if_neg hx, true_and]
            · simp only [regionOf, other s hs, hs, false_and, if_false]
          · by_cases hs : s = n
            · subst hs
              rw [this_] at ht; cases ht
              rw [g3] at hy ⊢
              split
              · exact h5.symm
              · rename_i hne
                rw [if_neg hne] at hy
                exact ow s tb before y hy
            · rw [other s hs] at ht
              exact ow s t ht y hy
        · refine ⟨fun s h => ?_, fun s t ht y hy => ?_⟩
          · simp only [note]
            by_cases hs : s = n
            · subst hs
              by_cases hx : h = x
              · subst hx
                simp [regionOf, this_, g2, entry]
              · simp only [regionOf, this_, before, g2, if_neg hx, true_and]
            · simp only [regionOf, other s hs, hs, false_and, if_false]
          · by_cases hs : s = n
            · subst hs
              rw [this_] at ht; cases ht
              rw [g2] at hy ⊢
              split
              · exact h5.symm
              · rename_i hne
                rw [if_neg hne] at hy
                exact ow s tb before y hy
            · rw [other s hs] at ht
              exact ow s t ht y hy

theorem region_all (p : Prims) (hp : p.Good) (d : Device σ τ) (hm : MacsGood d.mac) (rs : List (Request κ ρ π)) (hf : ∀ r ∈ rs, r.Fine p) (w : Ta σ τ) (inv : C105.WInv p d w) (ow : Owned w)
    (own : Nat → Nat → Option (Uuid × UInt64 × UInt64)) (ho : ∀ s h, regionOf w s h = own s h) (w' : Ta σ τ) (ts : List (Uuid × Told)) (hw : handleAll d w rs = some (w', ts)) :
    C105.WInv p d w' ∧ Owned w' ∧ ∀ s h, regionOf w' s h = (rs.zip ts).foldl note own s h := by
  induction rs generalizing w own ts with
  | nil => cases hw; exact ⟨inv, ow, ho⟩
  | cons r rs ih =>
    obtain ⟨w1, told, h1, h2⟩ := handle_ok p hp d hm w inv r (hf r (by simp))
    simp only [handleAll, h1] at hw
    cases h3 : handleAll d w1 rs with
    | none => rw [h3] at hw; simp at hw
    | some y =>
      obtain ⟨w2, ts2⟩ := y
      rw [h3] at hw
      cases hw
      obtain ⟨g1, g2⟩ := region_step p d w inv ow r (hf r (by simp)) w1 told h1 r.caller
      refine ih (fun r hr => hf r (by simp [hr])) w1 h2.inv g2 _ (fun s h => ?_) ts2 h3
      rw [g1, show regionOf w = own from funext fun s => funext fun h => ho s h]

theorem from_the_start (p : Prims) (hp : p.Good) (d : Device σ τ) (hm : MacsGood d.mac) (w0 : Ta σ τ) (h0 : start σ τ = some w0) (rs : List (Request κ ρ π)) (hf : ∀ r ∈ rs, r.Fine p)
    (w : Ta σ τ) (ts : List (Uuid × Told)) (hw : handleAll d w0 rs = some (w, ts)) :
    C105.WInv p d w ∧ Owned w ∧ ∀ s h, regionOf w s h = regions rs ts s h := by
  obtain ⟨i0, e0⟩ := start_ok p d w0 h0
  exact region_all p hp d hm rs hf w0 i0 (fun s t ht => by rw [e0] at ht; cases ht) _ (fun s h => by simp only [regionOf, e0]) w ts hw

/-- A call in a session of the caller, as `serve` sees it. -/
theorem called {p : Prims} {d : Device σ τ} {w w' : Ta σ τ} (inv : C105.WInv p d w) (ow : Owned w) {s : Nat} {u : Uuid} {c : Cmd κ ρ π} {told : Told}
    (hh : handle d w (.call s u c) = some (w', told)) :
    (told ≠ .waits ∧ (∀ r, told ≠ .reply r) ∧ ∀ h m n, regionOf w s h ≠ some (u, m, n)) ∨
    (∃ t t' q, TabInv p d t ∧ serve d t u c = some (t', q) ∧ told = .reply q ∧ tablesOf w s = some t ∧ ∀ h m n, regionOf w s h = some (u, m, n) ↔ HasBuffer t.svps h u ⟨m, n⟩) := by
  rcases call_cases d w inv.ta s u c with ⟨st, e, _, hbad⟩ | ⟨ptr, tb, h4, h5, h6, e⟩
  · rw [e] at hh; cases hh
    refine Or.inl ⟨by simp, by simp, fun h m n hr => ?_⟩
    obtain ⟨h1, t, h2, _⟩ := (region_iff inv ow s h u m n).1 hr
    obtain ⟨ptr, h3, _⟩ := tables_heap h2
    rcases hbad with hbad | hbad
    · rw [h3] at hbad; cases hbad
    · exact hbad h1
  · cases hs : serve d tb u c with
    | none => rw [e, hs] at hh; simp at hh
    | some y =>
      obtain ⟨t', q⟩ := y
      rw [e, hs] at hh
      simp only [Option.map_some, Option.some.injEq, Prod.mk.injEq] at hh
      obtain ⟨rfl, rfl⟩ := hh
      have before : tablesOf w s = some tb := by simp [tablesOf, h4, h6]
      refine Or.inr ⟨tb, t', q, inv.tabs ptr tb h6, hs, rfl, before, fun h m n => ?_⟩
      rw [region_iff inv ow, before]
      simp [h5]

/-! ## The property -/

/-- **C108 (creating and releasing).**  After any history of a TA, from any number of callers:
* a call that creates an SVP buffer and succeeds gives a handle that, by the book, was not in use in this session;
* a call by `u` that releases handle `h` of session `s` returns, never waiting; it succeeds exactly if by the book `h` is a buffer of `u` in this session, and hands back exactly the region
  with which the buffer was created - for the caller to free -, whatever was done with it since; if it fails it hands back nothing. -/
theorem C108_handles_partial (p : Prims) (hp : p.Good) (d : Device σ τ) (hm : MacsGood d.mac) (w0 : Ta σ τ) (h0 : start σ τ = some w0) (rs : List (Request κ ρ π))
    (hf : ∀ r ∈ rs, r.Fine p) (w : Ta σ τ) (ts : List (Uuid × Told)) (hw : handleAll d w0 rs = some (w, ts)) (s : Nat) (u : Uuid) (h : Nat) :
    (∀ m n w', Cmd.Fine (κ := κ) (ρ := ρ) (π := π) p (.svpCreate m n) → handle (κ := κ) (ρ := ρ) (π := π) d w (.call s u (.svpCreate m n)) = some (w', .reply (.made .OK h)) →
      m ≠ 0 ∧ regions rs ts s h = none) ∧
    ∃ w' told, handle (κ := κ) (ρ := ρ) (π := π) d w (.call s u (.svpRelease h)) = some (w', told) ∧ told ≠ .waits ∧ told ≠ .reply .waits ∧
      (∀ x, told = .reply (.region .OK x) ↔ ∃ m n, x = some (m, n) ∧ regions rs ts s h = some (u, m, n)) ∧
      ∀ st x, told = .reply (.region st x) → st ≠ .OK → x = none := by
  obtain ⟨inv, ow, hr⟩ := from_the_start p hp d hm w0 h0 rs hf w ts hw
  simp only [← hr]
  constructor
  · intro m n w' hfine hh
    rcases called inv ow hh with ⟨_, h2, _⟩ | ⟨t, t', q, h1, h2, h3, h4, _⟩
    · exact absurd rfl (h2 _)
    · simp only [Told.reply.injEq] at h3
      subst h3
      rcases serve_svps p d t t' h1 u _ hfine _ h2 with ⟨_, g2, _⟩ | ⟨m', n', x, g1, g2, g3, g4, _⟩ | ⟨x, b, g1, _⟩
      · exact absurd ⟨rfl, rfl⟩ (g2 m n h)
      · cases g1; cases g2
        exact ⟨g3, by simp only [regionOf, h4]; exact entry_none g4⟩
      · cases g1
  · obtain ⟨w', told, hh, hs⟩ := handle_ok p hp d hm w inv (.call s u (.svpRelease h)) True.intro
    refine ⟨w', told, hh, hs.returns, ?_⟩
    rcases called inv ow hh with ⟨_, h2, h3⟩ | ⟨t, t', q, h1, h2, h3, h4, h5⟩
    · refine ⟨h2 _, fun x => ⟨fun e => absurd e (h2 _), ?_⟩, fun st x e => absurd e (h2 _)⟩
      rintro ⟨m, n, _, e⟩
      exact absurd e (h3 h m n)
    · subst h3
      simp only [h5, Told.reply.injEq, ne_eq]
      simp only [serve] at h2
      rcases svpRelease_ok h1.svps h u with ⟨st, hst, e, hno⟩ | ⟨b, st', e, _, hb, _⟩
      · rw [e] at h2; cases h2
        refine ⟨by simp, fun x => ⟨fun e => ?_, ?_⟩, fun st' x e hne => ?_⟩
        · cases e; exact absurd rfl hst
        · rintro ⟨m, n, _, hb⟩; exact absurd hb (hno _)
        · cases e; rfl
      · rw [e] at h2; cases h2
        refine ⟨by simp, fun x => ⟨fun e => ?_, ?_⟩, fun st' x e hne => ?_⟩
        · cases e; exact ⟨_, _, rfl, hb⟩
        · rintro ⟨m, n, rfl, hb'⟩
          have := hb.2.1
          rw [hb'.2.1] at this
          cases this
          rfl
        · cases e; exact absurd rfl hne

/-- **C108 (writing).**  After any history, a call by `u` that writes segments of the memory at `input` into handle `out` of session `s` succeeds exactly if by the book `out` is a buffer of `u`
in this session and each segment lies within it and within the input.  If it fails, nothing is written.  If it succeeds every copy stays within the region of the buffer, and (if the input does
not overlap it) afterwards the memory holds the segments at their places and is otherwise unchanged. -/
theorem C108_write_partial (p : Prims) (hp : p.Good) (d : Device σ τ) (hm : MacsGood d.mac) (w0 : Ta σ τ) (h0 : start σ τ = some w0) (rs : List (Request κ ρ π))
    (hf : ∀ r ∈ rs, r.Fine p) (w : Ta σ τ) (ts : List (Uuid × Told)) (hw : handleAll d w0 rs = some (w, ts)) (s : Nat) (u : Uuid) (out : Nat) (input inLength : UInt64) (segs : List SvpOffset) :
    ∃ w' told, handle (κ := κ) (ρ := ρ) (π := π) d w (.call s u (.svpWrite out input inLength segs)) = some (w', told) ∧
      ((∃ cs, told = .reply (.copied .OK cs)) ↔
        input ≠ 0 ∧ ∃ m n, regions rs ts s out = some (u, m, n) ∧ ∀ o ∈ segs, C21.Inside n.toNat inLength.toNat o) ∧
      (∀ st cs, told = .reply (.copied st cs) → st ≠ .OK → cs = []) ∧
      ∀ cs m n, told = .reply (.copied .OK cs) → regions rs ts s out = some (u, m, n) →
        C21.InBounds m.toNat n.toNat input.toNat inLength.toNat cs ∧
        (m.toNat + n.toNat ≤ input.toNat ∨ input.toNat + inLength.toNat ≤ m.toNat →
          ∀ mem, ∃ mem', runCopies mem cs = some mem' ∧ C21.Performed m.toNat input.toNat segs mem mem') := by
  obtain ⟨inv, ow, hr⟩ := from_the_start p hp d hm w0 h0 rs hf w ts hw
  simp only [← hr]
  obtain ⟨w', told, hh, hs⟩ := handle_ok p hp d hm w inv (.call s u (.svpWrite out input inLength segs)) True.intro
  refine ⟨w', told, hh, ?_⟩
  rcases called inv ow hh with ⟨_, h2, h3⟩ | ⟨t, t', q, h1, h2, h3, h4, h5⟩
  · refine ⟨⟨?_, ?_⟩, fun st cs e => absurd e (h2 _), fun cs m n e => absurd e (h2 _)⟩
    · rintro ⟨cs, e⟩; exact absurd e (h2 _)
    · rintro ⟨_, m, n, e, _⟩; exact absurd e (h3 _ m n)
  · subst h3
    simp only [h5, Told.reply.injEq]
    simp only [serve] at h2
    cases h2
    obtain ⟨_, g2, g3, g4⟩ := C21.C21_write t.svps h1.svps.reach out input inLength segs u
    generalize taSvpBufferWrite t.svps out input inLength segs u = r at *
    simp only [Reply.copied.injEq]
    refine ⟨⟨?_, ?_⟩, ?_, ?_⟩
    · rintro ⟨cs, e, _⟩
      obtain ⟨a1, b, a2, a3⟩ := g2.1 e
      exact ⟨a1, b.svpMemory, b.size, a2, a3⟩
    · rintro ⟨a1, m, n, a2, a3⟩
      exact ⟨_, g2.2 ⟨a1, ⟨m, n⟩, a2, a3⟩, rfl⟩
    · rintro st cs ⟨rfl, rfl⟩ hne
      exact g3 hne
    · rintro cs m n ⟨e, rfl⟩ hb
      exact g4 e ⟨m, n⟩ hb

/-- **C108 (copying).**  The same for a call that copies segments of one SVP buffer to another: both have to be buffers of `u` in this session. -/
theorem C108_copy_partial (p : Prims) (hp : p.Good) (d : Device σ τ) (hm : MacsGood d.mac) (w0 : Ta σ τ) (h0 : start σ τ = some w0) (rs : List (Request κ ρ π))
    (hf : ∀ r ∈ rs, r.Fine p) (w : Ta σ τ) (ts : List (Uuid × Told)) (hw : handleAll d w0 rs = some (w, ts)) (s : Nat) (u : Uuid) (out input : Nat) (segs : List SvpOffset) :
    ∃ w' told, handle (κ := κ) (ρ := ρ) (π := π) d w (.call s u (.svpCopy out input segs)) = some (w', told) ∧
      ((∃ cs, told = .reply (.copied .OK cs)) ↔
        ∃ m n m' n', regions rs ts s out = some (u, m, n) ∧ regions rs ts s input = some (u, m', n') ∧ ∀ o ∈ segs, C21.Inside n.toNat n'.toNat o) ∧
      (∀ st cs, told = .reply (.copied st cs) → st ≠ .OK → cs = []) ∧
      ∀ cs m n m' n', told = .reply (.copied .OK cs) → regions rs ts s out = some (u, m, n) → regions rs ts s input = some (u, m', n') →
        C21.InBounds m.toNat n.toNat m'.toNat n'.toNat cs ∧
        (m.toNat + n.toNat ≤ m'.toNat ∨ m'.toNat + n'.toNat ≤ m.toNat →
          ∀ mem, ∃ mem', runCopies mem cs = some mem' ∧ C21.Performed m.toNat m'.toNat segs mem mem') := by
  obtain ⟨inv, ow, hr⟩ := from_the_start p hp d hm w0 h0 rs hf w ts hw
  simp only [← hr]
  obtain ⟨w', told, hh, hs⟩ := handle_ok p hp d hm w inv (.call s u (.svpCopy out input segs)) True.intro
  refine ⟨w', told, hh, ?_⟩
  rcases called inv ow hh with ⟨_, h2, h3⟩ | ⟨t, t', q, h1, h2, h3, h4, h5⟩
  · refine ⟨⟨?_, ?_⟩, fun st cs e => absurd e (h2 _), fun cs m n m' n' e => absurd e (h2 _)⟩
    · rintro ⟨cs, e⟩; exact absurd e (h2 _)
    · rintro ⟨m, n, _, _, e, _⟩; exact absurd e (h3 _ m n)
  · subst h3
    simp only [h5, Told.reply.injEq]
    simp only [serve] at h2
    cases h2
    obtain ⟨_, g2, g3, g4⟩ := C21.C21_copy_partial t.svps h1.svps.reach out input segs u
    generalize taSvpBufferCopy t.svps out input segs u = r at *
    simp only [Reply.copied.injEq]
    refine ⟨⟨?_, ?_⟩, ?_, ?_⟩
    · rintro ⟨cs, e, _⟩
      obtain ⟨b, i, a1, a2, a3⟩ := g2.1 e
      exact ⟨b.svpMemory, b.size, i.svpMemory, i.size, a1, a2, a3⟩
    · rintro ⟨m, n, m', n', a1, a2, a3⟩
      exact ⟨_, g2.2 ⟨⟨m, n⟩, ⟨m', n'⟩, a1, a2, a3⟩, rfl⟩
    · rintro st cs ⟨rfl, rfl⟩ hne
      exact g3 hne
    · rintro cs m n m' n' ⟨e, rfl⟩ hb hi
      exact g4 e ⟨m, n⟩ ⟨m', n'⟩ hb hi

/-- **C108 (checking).**  After any history, a call by `u` that checks `length` bytes at `offset` of handle `h` of session `s` against a hash succeeds exactly if `u` is a TA, by the book `h` is a
buffer of `u` in this session with the region at `m` of `n` bytes, the range lies within it, and the hash (of a known algorithm) of the bytes at `m + offset` is the one given. -/
theorem C108_check_partial (p : Prims) (hp : p.Good) (d : Device σ τ) (hm : MacsGood d.mac) (w0 : Ta σ τ) (h0 : start σ τ = some w0) (rs : List (Request κ ρ π))
    (hf : ∀ r ∈ rs, r.Fine p) (w : Ta σ τ) (ts : List (Uuid × Told)) (hw : handleAll d w0 rs = some (w, ts)) (s : Nat) (u : Uuid) (h : Nat) (e : CheckEnv) (offset length : UInt64)
    (digest : Nat) (hash : Option Bytes) (hashLength : UInt64) (hc : Cmd.Fine (κ := κ) (ρ := ρ) (π := π) p (.svpCheck e h offset length digest hash hashLength)) :
    ∃ w' told, handle (κ := κ) (ρ := ρ) (π := π) d w (.call s u (.svpCheck e h offset length digest hash hashLength)) = some (w', told) ∧
      (told = .reply (.status .OK) ↔ ∃ x m n, hash = some x ∧ regions rs ts s h = some (u, m, n) ∧ u ≠ e.ree ∧ (digest, x.length) ∈ C68.digests ∧
        offset.toNat + length.toNat ≤ n.toNat ∧ e.ok = true ∧ e.hash digest (memRead e.mem (m.toNat + offset.toNat) length.toNat) = x) := by
  obtain ⟨inv, ow, hr⟩ := from_the_start p hp d hm w0 h0 rs hf w ts hw
  simp only [← hr]
  obtain ⟨w', told, hh, hs⟩ := handle_ok p hp d hm w inv (.call s u (.svpCheck e h offset length digest hash hashLength)) hc
  refine ⟨w', told, hh, ?_⟩
  rcases called inv ow hh with ⟨_, h2, h3⟩ | ⟨t, t', q, h1, h2, h3, h4, h5⟩
  · refine ⟨fun e => absurd e (h2 _), ?_⟩
    rintro ⟨x, m, n, _, e, _⟩
    exact absurd e (h3 _ m n)
  · subst h3
    simp only [h5, Told.reply.injEq]
    obtain ⟨st, g1, g2, _⟩ := C68.C68_partial e hc.1 t.svps h1.svps.reach h (h1.svps.buffer h) offset length digest hash hashLength hc.2 u
    simp only [serve, g1, Option.map_some, Option.some.injEq, Prod.mk.injEq] at h2
    obtain ⟨rfl, rfl⟩ := h2
    simp only [Reply.status.injEq]
    rw [g2]
    constructor
    · rintro ⟨x, a, b1, ⟨b2, b3, b, b4, b5, rfl⟩, b6, b7⟩
      exact ⟨x, b.svpMemory, b.size, b1, b4, b2, b3, b5, b6, b7⟩
    · rintro ⟨x, m, n, b1, b4, b2, b3, b5, b6, b7⟩
      exact ⟨x, _, b1, ⟨b2, b3, ⟨m, n⟩, b4, b5, rfl⟩, b6, b7⟩

/-- By the book, the buffer `b` that `u` names in session `s` has `n` bytes at address `a`. -/
def Names (bk : Nat → Nat → Option (Uuid × UInt64 × UInt64)) (s : Nat) (u : Uuid) (b : SaBuffer) (n a : Nat) : Prop :=
  match b with
  | .clear address length offset => address ≠ 0 ∧ offset.toNat + n ≤ length.toNat ∧ address.toNat + length.toNat < 2 ^ 64 ∧ a = address.toNat + offset.toNat
  | .svp h offset => ∃ m k, bk s h = some (u, m, k) ∧ offset.toNat + n ≤ k.toNat ∧ a = m.toNat + offset.toNat

/-- **C108 (data).**  What C107 says of the data that a cipher context reads and writes, with the places by the book: an SVP buffer that a call names is one which, by the requests and what was
told, this caller has made in this session and not released; the data written lie within the region it was made with. -/
theorem C108_process_partial {view : σ → CipherView} (p : Prims) (hp : p.Good) (d : Device σ τ) (hm : MacsGood d.mac) (hd : d.cipher.Good view) (w0 : Ta σ τ)
    (h0 : start σ τ = some w0) (rs : List (Request κ ρ π)) (hf : ∀ r ∈ rs, r.Fine p) (hpr : ∀ r ∈ rs, C107.PrivOk r) (w : Ta σ τ) (ts : List (Uuid × Told)) (hw : handleAll d w0 rs = some (w, ts))
    (s : Nat) (u : Uuid) (h : Nat) (kind : ProcKind) (up : UnwrapPrims) (hup : up.Good) (env : RightsEnv) (mem : Mem) (out : Option RawBuffer) (input : RawBuffer) (bytes : UInt64)
    (w' : Ta σ τ) (st : Status) (mem' : Mem) (out' : Option RawBuffer) (in' : RawBuffer) (n : UInt64) (tag : Option Bytes)
    (hc : handle (κ := κ) (ρ := ρ) (π := π) d w (.call s u (.cipherProcess kind up env mem h out input bytes)) = some (w', .reply (.processed st mem' out' in' n tag))) :
    (mem' = mem ∧ (st = .OK → out = none)) ∨
    ∃ params mode k x ob ib a b outB, C107.Opened p d w0 rs s h u params mode k x ∧ out = some (.buf ob) ∧ input = .buf ib ∧
      (ob.isClear = true → ib.isClear = true ∧ Flag k.header.rights.usageFlags FLAG_SVP_OPTIONAL) ∧
      Names (regions rs ts) s u ob outB.length a ∧ Names (regions rs ts) s u ib bytes.toNat b ∧ mem' = writeAt mem a outB ∧
      (st = .OK → modeAllowed env mode k.header.rights x.isSome = true ∧
        (bytes.toNat < 2 ^ 31 → C107.Gives d.cipher up kind params mode k x (readAt mem b bytes.toNat) outB)) := by
  obtain ⟨inv, ow, hr⟩ := from_the_start p hp d hm w0 h0 rs hf w ts hw
  rcases (C107.C107_process_partial p hp d hm hd w0 h0 rs hf hpr w ts hw s u h kind up hup env mem out input bytes w' st mem' out' in' n tag hc).2 with h1 |
    ⟨params, mode, k, x, t, ob, ib, a, b, outB, g1, g2, g3, g4, g5, g6, g7, g8, g9⟩
  · exact Or.inl h1
  · rcases called inv ow hc with ⟨_, h2, _⟩ | ⟨t2, _, _, _, _, _, h4, h5⟩
    · exact absurd rfl (h2 _)
    · rw [g2] at h4; cases h4
      have conv : ∀ sb n a, Located t.svps u sb n a → Names (regions rs ts) s u sb n a := by
        intro sb n a hl
        cases sb with
        | clear x y z => exact hl
        | svp h' off =>
          obtain ⟨r, l1, l2, l3⟩ := hl
          exact ⟨r.svpMemory, r.size, by rw [← hr]; exact (h5 h' _ _).2 l1, l2, l3⟩
      exact Or.inr ⟨params, mode, k, x, ob, ib, a, b, outB, g1, g3, g4, g5, conv _ _ _ g6, conv _ _ _ g7, g8, g9⟩

/-! ## A history -/

/-- What is told: statuses, handles or numbers of copies, and regions. -/
def brief : Told → Option (Status × Nat × Nat)
  | .opened s h => some (s, h, 0)
  | .closed s => some (s, 0, 0)
  | .refused s => some (s, 999, 0)
  | .reply (.made s h) => some (s, h, 0)
  | .reply (.copied s cs) => some (s, cs.length, 0)
  | .reply (.region s (some x)) => some (s, x.1.toNat, x.2.toNat)
  | .reply (.region s none) => some (s, 0, 0)
  | .reply (.status s) => some (s, 0, 0)
  | _ => none

/-- One session with two buffers, another session with one. -/
def history : List (Request Unit Unit Unit) :=
  [.open C08.u7 1, .open C08.u8 2, .call 31 C08.u7 (.svpCreate 0x1000 16), .call 31 C08.u7 (.svpCreate 0x2000 32), .call 30 C08.u8 (.svpCreate 0x3000 64),
   .call 31 C08.u7 (.svpWrite 31 0x9000 8 [⟨8, 0, 8⟩])]

/-- It is among those the theorems speak about. -/
example : ∀ r ∈ history, r.Fine light := by
  intro r hr
  simp only [history, List.mem_cons, List.not_mem_nil, or_false] at hr
  rcases hr with rfl | rfl | rfl | rfl | rfl | rfl <;> first | exact True.intro | exact (fun _ => by decide)

/-- The book after it: what both sessions have, and that they do not have each other's. -/
example : ((start C34.Toy _).bind fun w => handleAll C107.dev w history).map (fun r => [regions history r.2 31 31, regions history r.2 31 30, regions history r.2 31 29, regions history r.2 30 31]) =
    some [some (C08.u7, 0x1000, 16), some (C08.u7, 0x2000, 32), none, some (C08.u8, 0x3000, 64)] := by
  decide +kernel

/-- What comes then: a copy that fits, one that does not, a call in the session of another, a release that returns the region, one that fails because it was released. -/
example : ((start C34.Toy _).bind fun w => handleAll C107.dev w (history ++ [.call 31 C08.u7 (.svpCopy 30 31 [⟨0, 0, 16⟩, ⟨16, 0, 16⟩]), .call 31 C08.u7 (.svpCopy 31 30 [⟨0, 0, 17⟩]),
      .call 30 C08.u7 (.svpRelease 31), .call 31 C08.u7 (.svpRelease 31), .call 31 C08.u7 (.svpRelease 31)])).map (fun r => (r.2.drop 6).map fun x => brief x.2) =
    some [some (.OK, 2, 0), some (.INVALID_SVP_BUFFER, 0, 0), some (.OPERATION_NOT_ALLOWED, 999, 0), some (.OK, 0x1000, 16), some (.INVALID_PARAMETER, 0, 0)] := by
  decide +kernel

/-- A check of eight bytes of the second buffer against their hash (a toy hash: as many bytes as SHA-256 gives, the sum of the bytes first). -/
def sums : CheckEnv := { ree := C08.u8, allocOk := true, ok := true, mem := fun a => if 0x2000 ≤ a ∧ a < 0x2008 then 3 else 0, hash := fun d m => (m.foldl (· + ·) 0) :: List.replicate (((digestLength d).getD 1) - 1) 0 }

example : Cmd.Fine (κ := Unit) (ρ := Unit) (π := Unit) light (.svpCheck sums 30 0 8 1 (some (24 :: List.replicate 31 0)) 32) := by
  refine ⟨fun d n m h => ?_, fun x hx => by cases hx; decide⟩
  rw [C68.digests_iff] at h
  simp only [sums, h, List.length_cons, List.length_replicate, Option.getD_some]
  rw [← C68.digests_iff] at h
  simp only [C68.digests, List.mem_cons, Prod.mk.injEq, List.not_mem_nil, or_false] at h
  omega
example : ((start C34.Toy _).bind fun w => handleAll C107.dev w (history ++ [.call 31 C08.u7 (.svpCheck sums 30 0 8 1 (some (24 :: List.replicate 31 0)) 32),
      .call 31 C08.u7 (.svpCheck sums 30 1 8 1 (some (24 :: List.replicate 31 0)) 32), .call 31 C08.u7 (.svpCheck sums 29 0 8 1 (some (24 :: List.replicate 31 0)) 32)])).map
      (fun r => (r.2.drop 6).map fun x => brief x.2) =
    some [some (.OK, 0, 0), some (.VERIFICATION_FAILED, 0, 0), some (.INVALID_PARAMETER, 0, 0)] := by
  decide +kernel

end Sa.Whole.C108

import Verif.Model.ProviderKey

/-!
# C81: keys lent to and owned by the OpenSSL provider

An application lends keys to the provider, gives keys away to it, or has it make keys, and copies and frees keys and contexts in any order.
-/

namespace Sa.Pk.C81

/-! ## Specification -/

/-- What the application knows of a thing it holds: for a context how it was initialised, whether it has a peer and how long its label is, and
for both the keys the provider owns that it refers to. -/
structure Item where
  ctx : Option Kind
  peered : Bool
  label : Nat
  held : List Nat

/-- What the application holds or held, by the order of creation. -/
abbrev Book := List (Option Item)

/-- The book of an application. -/
def note (b : Book) : Op → Book
  | .lend h delete r =>
    if r.pub && r.header then b ++ [some ⟨none, false, 0, if delete = some true then [h] else []⟩] else b
  | .raw h delete r => match h with
    | none => b
    | some h => if r.pub && r.header then b ++ [some ⟨none, false, 0, if delete = some false then [] else [h]⟩] else b
  | .pub => b ++ [some ⟨none, false, 0, []⟩]
  | .gen h r => match h with
    | none => b
    | some h => if r.pub && r.header then b ++ [some ⟨none, false, 0, [h]⟩] else b
  | .dupKey i => match b[i]? with
    | some (some ⟨none, _, _, held⟩) => b ++ [some ⟨none, false, 0, held⟩]
    | _ => b
  | .init i k label => match b[i]? with
    | some (some ⟨none, _, _, held⟩) => b ++ [some ⟨some k, false, if k = .cipher then label else 0, held⟩]
    | _ => b
  | .initBad i => match b[i]? with
    | some (some ⟨none, _, _, held⟩) => b ++ [some ⟨some .digest, false, 0, held⟩]
    | _ => b
  | .setPeer c i => match b[c]?, b[i]? with
    | some (some ⟨some .derive, _, label, held⟩), some (some ⟨none, _, _, held'⟩) => b.set c (some ⟨some .derive, true, label, held ++ held'⟩)
    | _, _ => b
  | .dupCtx c => match b[c]? with
    | some (some ⟨some k, p, l, held⟩) => b ++ [some ⟨some k, p, l, held⟩]
    | _ => b
  | .use _ => b
  | .free i => match b[i]? with
    | some (some _) => b.set i none
    | _ => b

def book (b : Book) : List Op → Book
  | [] => b
  | op :: ops => book (note b op) ops

/-- Something the application holds refers to a key that the provider owns. -/
def Held (b : Book) (h : Nat) : Prop := ∃ x, some x ∈ b ∧ h ∈ x.held

/-- How often key `h` is handed over to the provider: given with the request to delete it, or made by the provider. -/
def handed (h : Nat) : Op → Nat
  | .lend h' delete r => if h' = h ∧ delete = some true ∧ r.pub ∧ r.header then 1 else 0
  | .raw h' delete r => if h' = some h ∧ ¬ (delete = some false ∧ r.pub ∧ r.header) then 1 else 0
  | .gen h' _ => if h' = some h then 1 else 0
  | _ => 0

def handedAll (h : Nat) (ops : List Op) : Nat := (ops.map (handed h)).sum

/-- Operations after which nothing is lost: keys that are handed over are new; no import is abandoned by the API; digests are known; a peer is
set once, and before the context is used or copied; contexts for signatures are copied only if they have a digest, contexts for encryption only
if they have a label. -/
def Sane (b : Book) : Op → Prop
  | .lend h delete r => delete = some true → r.pub = true → r.header = true → ¬ Held b h
  | .raw h delete r => ∀ x, h = some x → r.pub = true ∧ r.header = true ∧ (delete ≠ some false → ¬ Held b x)
  | .gen h _ => ∀ x, h = some x → ¬ Held b x
  | .initBad i => ∀ x, b[i]? = some (some x) → x.ctx ≠ none
  | .setPeer c _ => ∀ x, b[c]? = some (some x) → x.ctx = some .derive → x.peered = false
  | .dupCtx c => ∀ x, b[c]? = some (some x) → ∀ k, x.ctx = some k →
      k = .digest ∨ (k = .derive ∧ x.peered = true) ∨ (k = .cipher ∧ 0 < x.label)
  | .use c => ∀ x, b[c]? = some (some x) → x.ctx = some .derive → x.peered = true
  | _ => True

def SaneAll (b : Book) : List Op → Prop
  | [] => True
  | op :: ops => Sane b op ∧ SaneAll (note b op) ops

/-! ## Counting -/

def addrs : Obj → List Nat
  | .pkey a => [a]
  | .ctx c => c.key.toList ++ c.peer.toList
  | .dangling => []

def addrsO : Option Obj → List Nat
  | none => []
  | some o => addrs o

def cnt (objs : List (Option Obj)) (a : Nat) : Nat := (objs.map (fun o => (addrsO o).count a)).sum

theorem cnt_append (l : List (Option Obj)) (o : Option Obj) (a : Nat) : cnt (l ++ [o]) a = cnt l a + (addrsO o).count a := by
  simp [cnt]

theorem cnt_set (l : List (Option Obj)) (i : Nat) (o o' : Option Obj) (a : Nat) (h : l[i]? = some o) :
    cnt (l.set i o') a + (addrsO o).count a = cnt l a + (addrsO o').count a := by
  induction l generalizing i with
  | nil => simp at h
  | cons x l ih =>
    cases i with
    | zero =>
      simp only [List.getElem?_cons_zero, Option.some.injEq] at h
      subst h
      simp only [cnt, List.set_cons_zero, List.map_cons, List.sum_cons]
      omega
    | succ i =>
      simp only [List.getElem?_cons_succ] at h
      have := ih i h
      simp only [cnt, List.set_cons_succ, List.map_cons, List.sum_cons] at this ⊢
      omega

theorem cnt_mem {l : List (Option Obj)} {o : Option Obj} {a : Nat} (h : o ∈ l) (ha : a ∈ addrsO o) : 0 < cnt l a := by
  induction l with
  | nil => cases h
  | cons x l ih =>
    simp only [cnt, List.map_cons, List.sum_cons]
    rcases List.mem_cons.1 h with rfl | h
    · have := List.count_pos_iff.2 ha
      omega
    · have := ih h
      simp only [cnt] at this
      omega

theorem mem_cnt {l : List (Option Obj)} {a : Nat} (h : 0 < cnt l a) : ∃ o ∈ l, a ∈ addrsO o := by
  induction l with
  | nil => simp [cnt] at h
  | cons x l ih =>
    simp only [cnt, List.map_cons, List.sum_cons] at h
    by_cases hx : 0 < (addrsO x).count a
    · exact ⟨x, List.mem_cons_self .., List.count_pos_iff.1 hx⟩
    · obtain ⟨o, ho, ha⟩ := ih (by simp only [cnt]; omega)
      exact ⟨o, List.mem_cons_of_mem _ ho, ha⟩

/-- Key data that own key `h`. -/
def owns (h : Nat) : Option KeyData → Nat
  | some d => if d.own = true ∧ d.key = some h then 1 else 0
  | none => 0

def own (heap : List (Option KeyData)) (h : Nat) : Nat := (heap.map (owns h)).sum

theorem own_append (l : List (Option KeyData)) (d : Option KeyData) (h : Nat) : own (l ++ [d]) h = own l h + owns h d := by
  simp [own]

theorem own_set (l : List (Option KeyData)) (i : Nat) (o o' : Option KeyData) (h : Nat) (hi : l[i]? = some o) :
    own (l.set i o') h + owns h o = own l h + owns h o' := by
  induction l generalizing i with
  | nil => simp at hi
  | cons x l ih =>
    cases i with
    | zero =>
      simp only [List.getElem?_cons_zero, Option.some.injEq] at hi
      subst hi
      simp only [own, List.set_cons_zero, List.map_cons, List.sum_cons]
      omega
    | succ i =>
      simp only [List.getElem?_cons_succ] at hi
      have := ih i hi
      simp only [own, List.set_cons_succ, List.map_cons, List.sum_cons] at this ⊢
      omega

theorem own_pos {l : List (Option KeyData)} {h : Nat} : 0 < own l h ↔ ∃ (a : Nat) (d : KeyData), l[a]? = some (some d) ∧ d.own = true ∧ d.key = some h := by
  induction l with
  | nil => simp [own]
  | cons x l ih =>
    simp only [own, List.map_cons, List.sum_cons] at ih ⊢
    constructor
    · intro hp
      by_cases hx : 0 < owns h x
      · cases x with
        | none => simp [owns] at hx
        | some d =>
          refine ⟨0, d, rfl, ?_⟩
          simp only [owns] at hx
          split at hx
          · assumption
          · cases hx
      · obtain ⟨a, d, ha, hd⟩ := ih.1 (by omega)
        exact ⟨a + 1, d, ha, hd⟩
    · rintro ⟨a, d, ha, hd⟩
      cases a with
      | zero =>
        simp only [List.getElem?_cons_zero, Option.some.injEq] at ha
        subst ha
        simp only [owns, hd, and_self, if_true]
        omega
      | succ a =>
        have := ih.2 ⟨a, d, ha, hd⟩
        omega

/-- Keys the provider owns, and keys it has released. -/
def total (w : World) (h : Nat) : Nat := own w.heap h + w.released.count h

/-! ## Invariants -/

/-- Every reference counted is one of a thing the application holds, or one of `ex`. -/
structure Inv (w : World) (ex : List Nat) : Prop where
  refs : ∀ a d, w.heap[a]? = some (some d) → d.refs = cnt w.objs a + ex.count a ∧ 0 < d.refs
  alive : ∀ a, 0 < cnt w.objs a + ex.count a → ∃ d, w.heap[a]? = some (some d)

theorem Inv.empty : Inv empty [] := by
  constructor
  · intro a d h; simp [Pk.empty] at h
  · intro a h; simp [Pk.empty, cnt] at h

theorem Inv.congr {w : World} {ex ex' : List Nat} (h : Inv w ex) (he : ∀ a, ex.count a = ex'.count a) : Inv w ex' := by
  constructor
  · intro a d ha; rw [← he a]; exact h.refs a d ha
  · intro a ha; rw [← he a] at ha; exact h.alive a ha

theorem Inv.newKey {w : World} {ex : List Nat} (h : Inv w ex) (key : Option Nat) (o : Bool) : Inv (newKey w key o) ex := by
  have hz : cnt w.objs w.heap.length + ex.count w.heap.length = 0 := by
    rcases Nat.eq_zero_or_pos (cnt w.objs w.heap.length + ex.count w.heap.length) with e | e
    · exact e
    · obtain ⟨d, hd⟩ := h.alive _ e
      simp at hd
  constructor
  · intro a d ha
    simp only [Pk.newKey, cnt_append, addrsO, addrs] at ha ⊢
    rw [List.getElem?_append] at ha
    split at ha
    · rename_i hl
      have hne : w.heap.length ≠ a := by omega
      have := h.refs a d ha
      rw [List.count_cons_of_ne (by simpa using hne), List.count_nil]
      exact this
    · rename_i hl
      have hea : a = w.heap.length := by
        rcases Nat.lt_or_ge a (w.heap.length + 1) with hlt | hge
        · omega
        · rw [List.getElem?_eq_none (by simp; omega)] at ha; cases ha
      subst hea
      simp only [Nat.sub_self, List.getElem?_cons_zero, Option.some.injEq] at ha
      subst ha
      simp only [List.count_cons_self, List.count_nil]
      omega
  · intro a ha
    simp only [Pk.newKey, cnt_append, addrsO, addrs] at ha ⊢
    by_cases hea : a = w.heap.length
    · subst hea
      exact ⟨_, by rw [List.getElem?_append_right (Nat.le_refl _), Nat.sub_self]; rfl⟩
    · rw [List.count_cons_of_ne (by simpa using fun e => hea e.symm), List.count_nil] at ha
      obtain ⟨d, hd⟩ := h.alive a (by omega)
      refine ⟨d, ?_⟩
      rw [List.getElem?_append_left]
      · exact hd
      · exact (List.getElem?_eq_some_iff.1 hd).1

theorem getElem?_set_some {α : Type} {l : List α} {a b : Nat} {x y z : α} (hx : l[a]? = some x) (h : (l.set a y)[b]? = some z) :
    (b = a ∧ z = y) ∨ (b ≠ a ∧ l[b]? = some z) := by
  by_cases e : a = b
  · subst e
    have hl := (List.getElem?_eq_some_iff.1 hx).1
    rw [List.getElem?_set_self hl] at h
    exact .inl ⟨rfl, (Option.some.inj h).symm⟩
  · rw [List.getElem?_set_ne e] at h
    exact .inr ⟨fun x => e x.symm, h⟩

/-- A reference more. -/
theorem Inv.dup {w : World} {ex : List Nat} (h : Inv w ex) {a : Nat} (ha : 0 < cnt w.objs a + ex.count a) :
    ∃ d w', w.heap[a]? = some (some d) ∧ dupData w (some a) = .ok w' ∧ Inv w' (a :: ex) ∧ w'.objs = w.objs ∧ w'.released = w.released ∧
      w'.heap = w.heap.set a (some { d with refs := d.refs + 1 }) := by
  obtain ⟨d, hd⟩ := h.alive a ha
  refine ⟨d, { w with heap := w.heap.set a (some { d with refs := d.refs + 1 }) }, hd, by simp [dupData, hd], ?_, rfl, rfl, rfl⟩
  constructor
  · intro b e hb
    rcases getElem?_set_some hd hb with ⟨rfl, e1⟩ | ⟨hne, hb⟩
    · cases e1
      have := h.refs b d hd
      simp only [List.count_cons_self]
      omega
    · have := h.refs b e hb
      rw [List.count_cons_of_ne (by simpa using fun e => hne e.symm)]
      exact this
  · intro b hb
    by_cases e : b = a
    · subst e
      exact ⟨_, List.getElem?_set_self (List.getElem?_eq_some_iff.1 hd).1⟩
    · simp only at hb ⊢
      rw [List.count_cons_of_ne (by simpa using fun x => e x.symm)] at hb
      rw [List.getElem?_set_ne (fun x => e x.symm)]
      exact h.alive b hb

/-- References are given to the application. -/
theorem Inv.give {w : World} {ex : List Nat} {o : Obj} (h : Inv w (addrs o ++ ex)) : Inv (give w o) ex := by
  constructor
  · intro a d ha
    have := h.refs a d ha
    simp only [Pk.give, cnt_append, addrsO]
    rw [List.count_append] at this
    omega
  · intro a ha
    simp only [Pk.give, cnt_append, addrsO] at ha
    exact h.alive a (by rw [List.count_append]; omega)

/-- References are taken from the application. -/
theorem Inv.put {w : World} {ex : List Nat} {i : Nat} {o o' : Option Obj} (h : Inv w (addrsO o' ++ ex)) (hi : w.objs[i]? = some o) :
    Inv (put w i o') (addrsO o ++ ex) := by
  constructor
  · intro a d ha
    have h1 := h.refs a d ha
    have h2 := cnt_set w.objs i o o' a hi
    simp only [Pk.put]
    rw [List.count_append] at h1 ⊢
    omega
  · intro a ha
    have h2 := cnt_set w.objs i o o' a hi
    simp only [Pk.put] at ha
    rw [List.count_append] at ha
    exact h.alive a (by rw [List.count_append]; omega)

/-- A reference less. -/
theorem Inv.free {w : World} {ex : List Nat} {a : Nat} (h : Inv w (a :: ex)) :
    ∃ w', freeData w (some a) = .ok w' ∧ Inv w' ex ∧ w'.objs = w.objs ∧ (∀ x, total w' x = total w x) ∧
      (∀ b, 0 < cnt w.objs b → b ≠ a → w'.heap[b]? = w.heap[b]?) ∧
      (0 < cnt w.objs a → ∃ d n, w.heap[a]? = some (some d) ∧ w'.heap[a]? = some (some { d with refs := n })) := by
  obtain ⟨d, hd⟩ := h.alive a (by simp only [List.count_cons_self]; omega)
  have hr := h.refs a d hd
  simp only [List.count_cons_self] at hr
  have hl := (List.getElem?_eq_some_iff.1 hd).1
  by_cases h1 : d.refs - 1 = 0
  · refine ⟨{ w with heap := w.heap.set a none, released := releasing d w.released }, by simp only [freeData, hd, h1, if_true], ?_, rfl, ?_, ?_, ?_⟩
    · constructor
      · intro b e hb
        rcases getElem?_set_some hd hb with ⟨rfl, e1⟩ | ⟨hne, hb⟩
        · cases e1
        · have := h.refs b e hb
          rw [List.count_cons_of_ne (by simpa using fun e => hne e.symm)] at this
          exact this
      · intro b hb
        by_cases e : b = a
        · subst e
          simp only at hb
          omega
        · simp only at hb ⊢
          rw [List.getElem?_set_ne (fun x => e x.symm)]
          exact h.alive b (by rw [List.count_cons_of_ne (by simpa using fun x => e x.symm)]; exact hb)
    · intro x
      have := own_set w.heap a (some d) none x hd
      simp only [total]
      cases d with
      | mk r k o =>
        cases o with
        | false => simp only [owns, releasing] at this ⊢; simp at this ⊢; omega
        | true =>
          cases k with
          | none => simp only [owns, releasing] at this ⊢; simp at this ⊢; omega
          | some y =>
            simp only [owns, releasing, Option.some.injEq, true_and] at this ⊢
            rw [List.count_append, List.count_singleton]
            simp only [beq_iff_eq]
            split at this <;> simp_all <;> omega
    · intro b _ hne
      exact List.getElem?_set_ne fun x => hne x.symm
    · intro hp
      omega
  · refine ⟨{ w with heap := w.heap.set a (some { d with refs := d.refs - 1 }) }, by simp only [freeData, hd, h1, if_false], ?_, rfl, ?_, ?_, ?_⟩
    · constructor
      · intro b e hb
        rcases getElem?_set_some hd hb with ⟨rfl, e1⟩ | ⟨hne, hb⟩
        · cases e1
          simp only
          omega
        · have := h.refs b e hb
          rw [List.count_cons_of_ne (by simpa using fun e => hne e.symm)] at this
          exact this
      · intro b hb
        by_cases e : b = a
        · subst e
          exact ⟨_, List.getElem?_set_self hl⟩
        · simp only at hb ⊢
          rw [List.getElem?_set_ne (fun x => e x.symm)]
          exact h.alive b (by rw [List.count_cons_of_ne (by simpa using fun x => e x.symm)]; exact hb)
    · intro x
      have := own_set w.heap a (some d) (some { d with refs := d.refs - 1 }) x hd
      simp only [total, owns] at this ⊢
      omega
    · intro b _ hne
      exact List.getElem?_set_ne fun x => hne x.symm
    · intro _
      exact ⟨d, d.refs - 1, hd, List.getElem?_set_self hl⟩

/-! ## What the application sees -/

def heldOf (heap : List (Option KeyData)) (a : Nat) : List Nat :=
  match heap[a]? with
  | some (some d) => if d.own = true then d.key.toList else []
  | _ => []

def heldO (heap : List (Option KeyData)) : Option Nat → List Nat
  | none => []
  | some a => heldOf heap a

def view (heap : List (Option KeyData)) : Obj → Item
  | .pkey a => ⟨none, false, 0, heldOf heap a⟩
  | .ctx c => ⟨some c.kind, c.peer.isSome, c.label, heldO heap c.key ++ heldO heap c.peer⟩
  | .dangling => ⟨none, false, 0, []⟩

/-- What contexts look like as long as nothing has gone wrong. -/
def Fine : Obj → Prop
  | .pkey _ => True
  | .ctx c => c.key ≠ none ∧ (c.mdCtx = true ↔ c.kind = .digest) ∧ (c.kind ≠ .derive → c.peer = none)
  | .dangling => False

structure Sees (w : World) (b : Book) : Prop where
  eq : b = w.objs.map (Option.map (view w.heap))
  fine : ∀ o, some o ∈ w.objs → Fine o

theorem view_congr {heap heap' : List (Option KeyData)} {objs : List (Option Obj)} (h : ∀ a, 0 < cnt objs a → heldOf heap' a = heldOf heap a) :
    objs.map (Option.map (view heap')) = objs.map (Option.map (view heap)) := by
  apply List.map_congr_left
  intro o ho
  cases o with
  | none => rfl
  | some o =>
    have key : ∀ a ∈ addrs o, heldOf heap' a = heldOf heap a := fun a ha => h a (cnt_mem ho ha)
    cases o with
    | pkey a => simp only [Option.map_some, view, key a (by simp [addrs])]
    | dangling => rfl
    | ctx c =>
      cases c with
      | mk kind k p md l =>
        have h1 : heldO heap' k = heldO heap k := by
          cases k with
          | none => rfl
          | some a => exact key a (by simp [addrs])
        have h2 : heldO heap' p = heldO heap p := by
          cases p with
          | none => rfl
          | some a => exact key a (by simp [addrs])
        simp only [Option.map_some, view, h1, h2]

theorem heldOf_refs {heap : List (Option KeyData)} {a : Nat} {d : KeyData} (hd : heap[a]? = some (some d)) (n : Nat) (b : Nat) :
    heldOf (heap.set a (some { d with refs := n })) b = heldOf heap b := by
  by_cases e : a = b
  · subst e
    simp only [heldOf, List.getElem?_set_self (List.getElem?_eq_some_iff.1 hd).1, hd]
  · simp only [heldOf, List.getElem?_set_ne e]

theorem own_refs {heap : List (Option KeyData)} {a : Nat} {d : KeyData} (hd : heap[a]? = some (some d)) (n : Nat) (h : Nat) :
    own (heap.set a (some { d with refs := n })) h = own heap h := by
  have := own_set heap a (some d) (some { d with refs := n }) h hd
  simp only [owns] at this
  omega

/-- What is held is what is owned. -/
theorem held_iff {w : World} {b : Book} (hi : Inv w []) (hs : Sees w b) (h : Nat) : Held b h ↔ 0 < own w.heap h := by
  rw [own_pos]
  have key : ∀ a, h ∈ heldOf w.heap a ↔ ∃ d : KeyData, w.heap[a]? = some (some d) ∧ d.own = true ∧ d.key = some h := by
    intro a
    constructor
    · intro hh
      simp only [heldOf] at hh
      split at hh
      · rename_i d hd
        split at hh
        · rename_i ho
          exact ⟨d, hd, ho, by simpa [Option.mem_toList] using hh⟩
        · cases hh
      · cases hh
    · rintro ⟨d, hd, ho, hk⟩
      simp [heldOf, hd, ho, hk]
  constructor
  · rintro ⟨x, hx, hh⟩
    rw [hs.eq] at hx
    obtain ⟨o, ho, he⟩ := List.mem_map.1 hx
    cases o with
    | none => cases he
    | some o =>
      simp only [Option.map_some, Option.some.injEq] at he
      subst he
      cases o with
      | pkey a => exact ⟨a, (key a).1 hh⟩
      | dangling => cases hh
      | ctx c =>
        rcases List.mem_append.1 hh with hh | hh
        · cases hk : c.key with
          | none => rw [hk] at hh; cases hh
          | some a => rw [hk] at hh; exact ⟨a, (key a).1 hh⟩
        · cases hk : c.peer with
          | none => rw [hk] at hh; cases hh
          | some a => rw [hk] at hh; exact ⟨a, (key a).1 hh⟩
  · rintro ⟨a, d, hd, ho, hk⟩
    have hr := hi.refs a d hd
    simp only [List.count_nil, Nat.add_zero] at hr
    obtain ⟨o, hm, ha⟩ := mem_cnt (show 0 < cnt w.objs a by omega)
    cases o with
    | none => cases ha
    | some o =>
      refine ⟨view w.heap o, ?_, ?_⟩
      · rw [hs.eq]; exact List.mem_map.2 ⟨some o, hm, rfl⟩
      · have hh := (key a).2 ⟨d, hd, ho, hk⟩
        cases o with
        | pkey a' =>
          simp only [addrsO, addrs, List.mem_singleton] at ha
          subst ha
          exact hh
        | dangling => cases ha
        | ctx c =>
          simp only [addrsO, addrs, List.mem_append, Option.mem_toList] at ha
          simp only [view, List.mem_append]
          rcases ha with ha | ha
          · rw [ha]; exact .inl hh
          · rw [ha]; exact .inr hh

theorem Sees.get {w : World} {b : Book} (hs : Sees w b) (i : Nat) : b[i]? = (w.objs[i]?).map (Option.map (view w.heap)) := by
  rw [hs.eq, List.getElem?_map]

theorem Sees.newKey {w : World} {b : Book} (hi : Inv w []) (hs : Sees w b) (key : Option Nat) (o : Bool) :
    Sees (newKey w key o) (b ++ [some ⟨none, false, 0, if o = true then key.toList else []⟩]) := by
  constructor
  · simp only [Pk.newKey, List.map_append, List.map_cons, List.map_nil, Option.map_some, view]
    rw [hs.eq]
    congr 1
    · apply (view_congr _).symm
      intro a ha
      obtain ⟨d, hd⟩ := hi.alive a (by omega)
      simp only [heldOf, List.getElem?_append_left (List.getElem?_eq_some_iff.1 hd).1]
    · simp only [heldOf, List.getElem?_append_right (Nat.le_refl _), Nat.sub_self, List.getElem?_cons_zero]
  · intro x hx
    simp only [Pk.newKey, List.mem_append, List.mem_singleton] at hx
    rcases hx with hx | hx
    · exact hs.fine x hx
    · cases hx; trivial

/-- A step that goes well. -/
structure Good (w : World) (b : Book) (op : Op) (w' : World) : Prop where
  inv : Inv w' []
  sees : Sees w' (note b op)
  sum : ∀ h, total w' h = total w h + handed h op

theorem total_newKey (w : World) (key : Option Nat) (o : Bool) (h : Nat) :
    total (newKey w key o) h = total w h + if o = true ∧ key = some h then 1 else 0 := by
  simp only [total, newKey, own_append, owns]
  omega

theorem addrOf_some {w : World} {i a : Nat} (h : addrOf w i = some a) : w.objs[i]? = some (some (.pkey a)) := by
  unfold addrOf at h
  split at h
  · cases h; assumption
  · cases h

/-- An object is given to the application whose references have just been taken. -/
theorem Sees.give {w w' : World} {b : Book} (hs : Sees w b) (ho : w'.objs = w.objs) (hh : ∀ a, heldOf w'.heap a = heldOf w.heap a) {o : Obj}
    (hf : Fine o) {x : Item} (hx : view w.heap o = x) : Sees (give w' o) (b ++ [some x]) := by
  have hv : view w'.heap o = view w.heap o := by
    cases o with
    | pkey a => simp only [view, hh]
    | dangling => rfl
    | ctx c =>
      have h0 : ∀ k, heldO w'.heap k = heldO w.heap k := by
        intro k
        cases k with
        | none => rfl
        | some a => exact hh a
      simp only [view, h0]
  constructor
  · simp only [Pk.give, ho, List.map_append, List.map_cons, List.map_nil, Option.map_some, hv, hx]
    rw [hs.eq, view_congr (fun a _ => hh a)]
  · intro y hy
    simp only [Pk.give, ho, List.mem_append, List.mem_singleton] at hy
    rcases hy with hy | hy
    · exact hs.fine y hy
    · cases hy; exact hf

theorem dup_give {w : World} (hi : Inv w []) {i a : Nat} (ha : w.objs[i]? = some (some (.pkey a))) :
    ∃ w', dupData w (some a) = .ok w' ∧ Inv w' [a] ∧ w'.objs = w.objs ∧ (∀ a, heldOf w'.heap a = heldOf w.heap a) ∧ ∀ h, total w' h = total w h := by
  have hc : 0 < cnt w.objs a := cnt_mem (List.mem_of_getElem? ha) (by simp [addrsO, addrs])
  obtain ⟨d, w', hd, h1, h2, h3, h4, h5⟩ := hi.dup (a := a) (by omega)
  refine ⟨w', h1, h2, h3, ?_, ?_⟩
  · intro x; rw [h5]; exact heldOf_refs hd _ x
  · intro h; simp only [total, h4, h5, own_refs hd]

theorem good_dupKey {w : World} {b : Book} (hi : Inv w []) (hs : Sees w b) (i : Nat) : ∃ w', step w (.dupKey i) = .ok w' ∧ Good w b (.dupKey i) w' := by
  cases ha : addrOf w i with
  | none =>
    refine ⟨w, by simp [step, ha], hi, ?_, fun _ => rfl⟩
    have hb := hs.get i
    simp only [note]
    split
    · rename_i held heq
      rw [heq] at hb
      cases ho : w.objs[i]? with
      | none => rw [ho] at hb; cases hb
      | some o =>
        rw [ho] at hb
        cases o with
        | none => cases hb
        | some o =>
          cases o with
          | pkey a => simp [addrOf, ho] at ha
          | dangling => exact (hs.fine _ (List.mem_of_getElem? ho)).elim
          | ctx c => simp [view] at hb
    · exact hs
  | some a =>
    have ho := addrOf_some ha
    obtain ⟨w', h1, h2, h3, h4, h5⟩ := dup_give hi ho
    refine ⟨give w' (.pkey a), by simp [step, ha, h1], Inv.give (o := .pkey a) h2, ?_, fun h => h5 h⟩
    have hb := hs.get i
    rw [ho] at hb
    simp only [Option.map_some, view] at hb
    simp only [note, hb]
    exact hs.give (o := .pkey a) h3 h4 trivial rfl

theorem good_init {w : World} {b : Book} (hi : Inv w []) (hs : Sees w b) (i : Nat) (k : Kind) (l : Nat) :
    ∃ w', step w (.init i k l) = .ok w' ∧ Good w b (.init i k l) w' := by
  cases ha : addrOf w i with
  | none =>
    refine ⟨w, by simp [step, ha], hi, ?_, fun _ => rfl⟩
    have hb := hs.get i
    simp only [note]
    split
    · rename_i held heq
      rw [heq] at hb
      cases ho : w.objs[i]? with
      | none => rw [ho] at hb; cases hb
      | some o =>
        rw [ho] at hb
        cases o with
        | none => cases hb
        | some o =>
          cases o with
          | pkey a => simp [addrOf, ho] at ha
          | dangling => exact (hs.fine _ (List.mem_of_getElem? ho)).elim
          | ctx c => simp [view] at hb
    · exact hs
  | some a =>
    have ho := addrOf_some ha
    obtain ⟨w', h1, h2, h3, h4, h5⟩ := dup_give hi ho
    refine ⟨_, by simp only [step, ha, h1]; rfl, Inv.give (by simpa [addrs] using h2), ?_, fun h => h5 h⟩
    have hb := hs.get i
    rw [ho] at hb
    simp only [Option.map_some, view] at hb
    simp only [note, hb]
    refine hs.give h3 h4 ?_ ?_
    · simp [Fine]
    · simp [view, heldO]

theorem good_initBad {w : World} {b : Book} (hi : Inv w []) (hs : Sees w b) (i : Nat) (hsane : Sane b (.initBad i)) :
    ∃ w', step w (.initBad i) = .ok w' ∧ Good w b (.initBad i) w' := by
  have hb := hs.get i
  have ha : addrOf w i = none := by
    cases ha : addrOf w i with
    | none => rfl
    | some a =>
      have ho := addrOf_some ha
      rw [ho] at hb
      exact absurd rfl (hsane _ hb)
  refine ⟨w, by simp [step, ha], hi, ?_, fun _ => rfl⟩
  simp only [note]
  split
  · rename_i held heq
    exact absurd rfl (hsane _ heq)
  · exact hs

theorem good_setPeer {w : World} {b : Book} (hi : Inv w []) (hs : Sees w b) (c i : Nat) (hsane : Sane b (.setPeer c i)) :
    ∃ w', step w (.setPeer c i) = .ok w' ∧ Good w b (.setPeer c i) w' := by
  have hbc := hs.get c
  have hbi := hs.get i
  by_cases hx : ∃ x a, w.objs[c]? = some (some (.ctx x)) ∧ x.kind = .derive ∧ addrOf w i = some a
  · obtain ⟨x, a, hc, hk, ha⟩ := hx
    have ho := addrOf_some ha
    obtain ⟨w', h1, h2, h3, h4, h5⟩ := dup_give hi ho
    rw [hc] at hbc
    rw [ho] at hbi
    simp only [Option.map_some, view] at hbc hbi
    have hp : x.peer = none := by
      have := hsane _ hbc (by simp [hk])
      simpa using this
    have hfx : Fine (.ctx x) := hs.fine _ (List.mem_of_getElem? hc)
    refine ⟨put w' c (some (.ctx { x with peer := some a })), ?_, ?_, ?_, fun h => h5 h⟩
    · simp only [step, hc, ha, hk, if_true, h1]
    · have hc' : w'.objs[c]? = some (some (.ctx x)) := by rw [h3]; exact hc
      have h6 : Inv w' (addrsO (some (.ctx { x with peer := some a })) ++ []) → _ := fun h => Inv.put h hc'
      constructor
      · intro y d hy
        have e1 := h2.refs y d hy
        have e2 := cnt_set w'.objs c _ (some (.ctx { x with peer := some a })) y hc'
        simp only [addrsO, addrs, hp, Option.toList_none, Option.toList_some, List.append_nil, List.count_append, List.count_nil] at e1 e2 ⊢
        simp only [Pk.put]
        omega
      · intro y hy
        have e2 := cnt_set w'.objs c _ (some (.ctx { x with peer := some a })) y hc'
        simp only [addrsO, addrs, hp, Option.toList_none, Option.toList_some, List.append_nil, List.count_append, List.count_nil] at e2 hy
        simp only [Pk.put] at hy
        exact h2.alive y (by omega)
    · simp only [note, hbc, hbi, hk]
      constructor
      · simp only [Pk.put, h3, List.map_set, Option.map_some, view, Option.isSome_some]
        rw [hs.eq, view_congr (fun a _ => h4 a)]
        congr 3
        have h0 : ∀ k, heldO w'.heap k = heldO w.heap k := by
          intro k
          cases k with
          | none => rfl
          | some a => exact h4 a
        simp only [hp, h0]
        simp [heldO]
      · intro y hy
        simp only [Pk.put, h3] at hy
        rcases List.mem_or_eq_of_mem_set hy with hy | hy
        · exact hs.fine y hy
        · cases hy
          exact ⟨hfx.1, by simpa [hk] using hfx.2.1, fun hne => absurd rfl hne⟩
  · have hstep : step w (.setPeer c i) = .ok w := by
      simp only [step]
      split
      · rename_i x a hc ha
        split
        · rename_i hk
          exact absurd ⟨x, a, hc, hk, ha⟩ hx
        · rfl
      · rfl
    refine ⟨w, hstep, hi, ?_, fun _ => rfl⟩
    simp only [note]
    split
    · rename_i p l h1 p' l' h2 e1 e2
      exfalso
      rw [e1] at hbc
      rw [e2] at hbi
      cases hoc : w.objs[c]? with
      | none => rw [hoc] at hbc; cases hbc
      | some o =>
        rw [hoc] at hbc
        cases o with
        | none => cases hbc
        | some o =>
          cases hoi : w.objs[i]? with
          | none => rw [hoi] at hbi; cases hbi
          | some o' =>
            rw [hoi] at hbi
            cases o' with
            | none => cases hbi
            | some o' =>
              cases o with
              | pkey a => simp [view] at hbc
              | dangling => exact (hs.fine _ (List.mem_of_getElem? hoc)).elim
              | ctx x =>
                cases o' with
                | dangling => exact (hs.fine _ (List.mem_of_getElem? hoi)).elim
                | ctx y => simp [view] at hbi
                | pkey a =>
                  simp only [Option.map_some, view, Option.some.injEq, Item.mk.injEq] at hbc
                  exact hx ⟨x, a, hoc, hbc.1.symm, by simp [addrOf, hoi]⟩
    · exact hs

theorem good_dupCtx {w : World} {b : Book} (hi : Inv w []) (hs : Sees w b) (c : Nat) (hsane : Sane b (.dupCtx c)) :
    ∃ w', step w (.dupCtx c) = .ok w' ∧ Good w b (.dupCtx c) w' := by
  have hb := hs.get c
  by_cases hx : ∃ x, w.objs[c]? = some (some (.ctx x))
  · obtain ⟨x, hc⟩ := hx
    rw [hc] at hb
    simp only [Option.map_some, view] at hb
    have hf : Fine (.ctx x) := hs.fine _ (List.mem_of_getElem? hc)
    have hsn := hsane _ hb x.kind rfl
    simp only at hsn
    cases hk : x.key with
    | none => exact absurd hk hf.1
    | some a =>
      have hca : 0 < cnt w.objs a := cnt_mem (List.mem_of_getElem? hc) (by simp [addrsO, addrs, hk])
      obtain ⟨d, w', hd, h1, h2, h3, h4, h5⟩ := hi.dup (a := a) (by omega)
      have h6 : ∀ a, heldOf w'.heap a = heldOf w.heap a := by
        intro y; rw [h5]; exact heldOf_refs hd _ y
      have h7 : ∀ h, total w' h = total w h := by
        intro h; simp only [total, h4, h5, own_refs hd]
      have hn : note b (.dupCtx c) = b ++ [some (view w.heap (.ctx x))] := by
        simp only [note, hb, view]
      cases hp : x.peer with
      | none =>
        have hxx : ({ x with peer := none } : Ctx) = x := by rw [← hp]
        refine ⟨give w' (.ctx x), ?_, Inv.give (by simpa [addrs, hk, hp] using h2), ?_, h7⟩
        · rcases hsn with e | ⟨e, e'⟩ | ⟨e, e'⟩
          · simp only [step, hc, e, dupSignature, hk, h1, hf.2.1.2 e, if_true]
            rw [← hf.2.1.2 e, ← e, ← hk, hxx]
          · rw [hp] at e'; cases e'
          · simp only [step, hc, e, dupCipher, hk, h1]
            rw [if_neg (by omega), ← e, ← hk, hxx]
        · rw [hn]; exact hs.give h3 h6 hf rfl
      | some a' =>
        have hkd : x.kind = .derive := by
          apply Classical.byContradiction
          intro hne
          have := hf.2.2 hne
          rw [hp] at this
          cases this
        have hca' : 0 < cnt w'.objs a' := by
          rw [h3]
          exact cnt_mem (List.mem_of_getElem? hc) (by simp [addrsO, addrs, hp])
        obtain ⟨d', w'', hd', k1, k2, k3, k4, k5⟩ := h2.dup (a := a') (by omega)
        have k6 : ∀ a, heldOf w''.heap a = heldOf w.heap a := by
          intro y; rw [k5, heldOf_refs hd' _ y]; exact h6 y
        refine ⟨give w'' (.ctx x), ?_, Inv.give (k2.congr ?_), ?_, ?_⟩
        · simp only [step, hc, hkd, dupExchange, hk, h1, hp, k1]
        · intro y
          simp only [addrs, hk, hp, Option.toList_some, List.append_nil, List.count_append, List.count_cons, List.count_nil]
          omega
        · rw [hn]; exact hs.give (k3.trans h3) k6 hf rfl
        · intro h
          have : total w'' h = total w' h := by simp only [total, k4, k5, own_refs hd']
          exact this.trans (h7 h)
  · have hstep : step w (.dupCtx c) = .ok w := by
      simp only [step]
      split
      · rename_i x hc; exact absurd ⟨x, hc⟩ hx
      · rename_i hc; exact (hs.fine _ (List.mem_of_getElem? hc)).elim
      · rfl
    refine ⟨w, hstep, hi, ?_, fun _ => rfl⟩
    simp only [note]
    split
    · rename_i k p l held e
      rw [e] at hb
      cases ho : w.objs[c]? with
      | none => rw [ho] at hb; cases hb
      | some o =>
        rw [ho] at hb
        cases o with
        | none => cases hb
        | some o =>
          cases o with
          | pkey a => simp [view] at hb
          | dangling => exact (hs.fine _ (List.mem_of_getElem? ho)).elim
          | ctx x => exact absurd ⟨x, ho⟩ hx
    · exact hs

theorem touch_ok {w : World} (hi : Inv w []) {c : Nat} {x : Ctx} (hc : w.objs[c]? = some (some (.ctx x))) {a : Nat}
    (ha : a ∈ addrs (.ctx x)) : touch w (some a) = .ok w := by
  obtain ⟨d, hd⟩ := hi.alive a (by have := cnt_mem (List.mem_of_getElem? hc) ha; omega)
  simp [touch, hd]

theorem good_use {w : World} {b : Book} (hi : Inv w []) (hs : Sees w b) (c : Nat) (hsane : Sane b (.use c)) :
    ∃ w', step w (.use c) = .ok w' ∧ Good w b (.use c) w' := by
  have hb := hs.get c
  refine ⟨w, ?_, hi, hs, fun _ => rfl⟩
  simp only [step]
  split
  · rename_i x hc
    rw [hc] at hb
    simp only [Option.map_some, view] at hb
    have hf : Fine (.ctx x) := hs.fine _ (List.mem_of_getElem? hc)
    have hsn := hsane _ hb
    simp only [Option.some.injEq] at hsn
    cases hk : x.key with
    | none => exact absurd hk hf.1
    | some a =>
      have ht := touch_ok hi hc (a := a) (by simp [addrs, hk])
      unfold useCtx
      cases hkind : x.kind with
      | sign => simp [hk, ht]
      | edwards => simp [hk, ht]
      | digest => simp [hk, ht, hf.2.1.2 hkind]
      | cipher => simp [hk, ht]
      | derive =>
        have := hsn hkind
        cases hp : x.peer with
        | none => rw [hp] at this; cases this
        | some a' =>
          have ht' := touch_ok hi hc (a := a') (by simp [addrs, hp])
          simp [hk, ht, ht']
  · rename_i hc
    exact (hs.fine _ (List.mem_of_getElem? hc)).elim
  · rfl

theorem free_all {w : World} {ex : List Nat} {k : Option Nat} (h : Inv w (k.toList ++ ex)) :
    ∃ w', freeData w k = .ok w' ∧ Inv w' ex ∧ w'.objs = w.objs ∧ (∀ x, total w' x = total w x) ∧
      ∀ b, 0 < cnt w.objs b → heldOf w'.heap b = heldOf w.heap b := by
  cases k with
  | none => exact ⟨w, rfl, h, rfl, fun _ => rfl, fun _ _ => rfl⟩
  | some a =>
    obtain ⟨w', h1, h2, h3, h4, h5, h6⟩ := Inv.free (a := a) (ex := ex) h
    refine ⟨w', h1, h2, h3, h4, ?_⟩
    intro b hb
    by_cases e : b = a
    · subst e
      obtain ⟨d, n, e1, e2⟩ := h6 hb
      simp only [heldOf, e1, e2]
    · simp only [heldOf, h5 b hb e]

theorem good_free {w : World} {b : Book} (hi : Inv w []) (hs : Sees w b) (i : Nat) : ∃ w', step w (.free i) = .ok w' ∧ Good w b (.free i) w' := by
  have hb := hs.get i
  cases ho : w.objs[i]? with
  | none =>
    rw [ho] at hb
    refine ⟨w, by simp [step, ho], hi, ?_, fun _ => rfl⟩
    simp only [note, hb]
    exact hs
  | some o =>
    rw [ho] at hb
    cases o with
    | none =>
      refine ⟨w, by simp [step, ho], hi, ?_, fun _ => rfl⟩
      simp only [note, hb]
      exact hs
    | some o =>
      have hn : note b (.free i) = b.set i none := by simp only [note, hb, Option.map_some]
      have h0 : Inv (put w i none) (addrs o ++ []) := Inv.put (o' := none) hi ho
      have fin : ∀ w', w'.objs = (put w i none).objs → (∀ b, 0 < cnt (put w i none).objs b → heldOf w'.heap b = heldOf w.heap b) →
          Sees w' (note b (.free i)) := by
        intro w' h1 h2
        rw [hn]
        constructor
        · rw [h1, view_congr h2, hs.eq]
          simp only [put, List.map_set, Option.map_none]
        · intro y hy
          rw [h1] at hy
          rcases List.mem_or_eq_of_mem_set hy with hy | hy
          · exact hs.fine y hy
          · cases hy
      cases o with
      | dangling => exact (hs.fine _ (List.mem_of_getElem? ho)).elim
      | pkey a =>
        obtain ⟨w', h1, h2, h3, h4, h5⟩ := free_all (w := put w i none) (k := some a) (ex := []) h0
        refine ⟨w', by simp only [step, ho, h1], h2, fin w' h3 h5, fun h => ?_⟩
        exact h4 h
      | ctx x =>
        have h0' : Inv (put w i none) (x.key.toList ++ (x.peer.toList ++ [])) := by
          rw [← List.append_assoc]; exact h0
        obtain ⟨w', h1, h2, h3, h4, h5⟩ := free_all h0'
        obtain ⟨w'', k1, k2, k3, k4, k5⟩ := free_all h2
        refine ⟨w'', by simp only [step, ho, h1, k1], k2, fin w'' (k3.trans h3) ?_, fun h => ?_⟩
        · intro y hy
          rw [k5 y (by rw [h3]; exact hy), h5 y hy]
          rfl
        · exact (k4 h).trans (h4 h)

theorem good_step {w : World} {b : Book} (hi : Inv w []) (hs : Sees w b) (op : Op) (hsane : Sane b op) : ∃ w', step w op = .ok w' ∧ Good w b op w' := by
  cases op with
  | dupKey i => exact good_dupKey hi hs i
  | init i k l => exact good_init hi hs i k l
  | initBad i => exact good_initBad hi hs i hsane
  | setPeer c i => exact good_setPeer hi hs c i hsane
  | dupCtx c => exact good_dupCtx hi hs c hsane
  | use c => exact good_use hi hs c hsane
  | free i => exact good_free hi hs i
  | pub =>
    refine ⟨_, rfl, hi.newKey none false, ?_, fun h => ?_⟩
    · exact hs.newKey hi none false
    · rw [total_newKey]; simp [handed]
  | lend h delete r =>
    by_cases hr : (r.pub && r.header) = true
    · refine ⟨newKey w (some h) (delete.getD false), by simp only [step, lend, hr, if_true], hi.newKey _ _, ?_, fun x => ?_⟩
      · simp only [note, hr, if_true]
        have := hs.newKey hi (some h) (delete.getD false)
        cases delete with
        | none => exact this
        | some d => cases d <;> exact this
      · rw [total_newKey]
        simp only [Bool.and_eq_true] at hr
        cases delete with
        | none => simp [handed]
        | some d => cases d <;> simp [handed, hr]
    · refine ⟨w, by simp only [step, lend, hr]; rfl, hi, ?_, fun x => ?_⟩
      · simp only [note, hr]; exact hs
      · simp only [handed]
        rw [if_neg (fun e => hr (by simp [e.2.2]))]
        rfl
  | raw h delete r =>
    cases h with
    | none => exact ⟨w, rfl, hi, hs, fun x => by simp [handed]⟩
    | some h =>
      obtain ⟨e1, e2, _⟩ := hsane h rfl
      refine ⟨newKey w (some h) (delete.getD true), by simp [step, raw, e1, e2], hi.newKey _ _, ?_, fun x => ?_⟩
      · simp only [note, e1, e2]
        have := hs.newKey hi (some h) (delete.getD true)
        cases delete with
        | none => exact this
        | some d => cases d <;> exact this
      · rw [total_newKey]
        cases delete with
        | none => simp [handed, e1, e2]
        | some d => cases d <;> simp [handed, e1, e2]
  | gen h r =>
    cases h with
    | none => exact ⟨w, rfl, hi, hs, fun x => by simp [handed]⟩
    | some h =>
      by_cases hr : (r.pub && r.header) = true
      · refine ⟨newKey w (some h) true, by simp only [step, gen, hr, if_true], hi.newKey _ _, ?_, fun x => ?_⟩
        · simp only [note, hr, if_true]
          exact hs.newKey hi (some h) true
        · rw [total_newKey]; simp [handed]
      · refine ⟨{ w with released := w.released ++ [h] }, by simp only [step, gen, hr]; rfl, ⟨hi.refs, hi.alive⟩, ?_, fun x => ?_⟩
        · simp only [note, hr]; exact ⟨hs.eq, hs.fine⟩
        · simp only [total, handed, List.count_append, List.count_singleton, beq_iff_eq, Option.some.injEq]
          omega

/-- At most one of the key data owns a key. -/
theorem few_step {w w' : World} {b : Book} {op : Op} (hi : Inv w []) (hs : Sees w b) (hsane : Sane b op) (hg : Good w b op w')
    (hstep : step w op = .ok w') (hf : ∀ h, own w.heap h ≤ 1) (hrel : ∀ h, w.released.count h ≤ w'.released.count h)
    (h : Nat) : own w'.heap h ≤ 1 := by
  have hsum := hg.sum h
  simp only [total] at hsum
  have hr := hrel h
  have hh := hf h
  have hheld := held_iff hi hs h
  by_cases h1 : handed h op = 0
  · omega
  · have hz : ¬ Held b h ∨ (∃ r, op = .gen (some h) r ∧ (r.pub && r.header) = false) := by
      cases op with
      | lend h' delete r =>
        simp only [handed] at h1
        split at h1
        · rename_i e
          rw [← e.1]
          exact .inl (hsane e.2.1 e.2.2.1 e.2.2.2)
        · exact absurd rfl h1
      | raw h' delete r =>
        simp only [handed] at h1
        split at h1
        · rename_i e
          have e0 := hsane h e.1
          exact .inl (e0.2.2 fun e2 => e.2 ⟨e2, e0.1, e0.2.1⟩)
        · exact absurd rfl h1
      | gen h' r =>
        simp only [handed] at h1
        split at h1
        · rename_i e
          exact .inl (hsane h e)
        · exact absurd rfl h1
      | _ => exact absurd rfl h1
    have hle : handed h op ≤ 1 := by
      cases op <;> simp only [handed] <;> (try split) <;> omega
    rcases hz with hz | ⟨r, rfl, hr'⟩
    · rw [hheld] at hz
      omega
    · simp only [step, gen, hr'] at hstep
      cases hstep
      exact hh

/-! ## All histories -/

theorem dup_any {w w' : World} {ex : List Nat} {k : Option Nat} (hi : Inv w ex) (h : dupData w k = .ok w') :
    ∃ a, k = some a ∧ Inv w' (a :: ex) ∧ w'.objs = w.objs ∧ w'.released = w.released ∧ ∀ h, total w' h = total w h := by
  cases k with
  | none => cases h
  | some a =>
    have h0 := h
    simp only [dupData] at h
    split at h
    · rename_i d hd
      have := hi.refs a d hd
      obtain ⟨d', w'', e1, e2, e3, e4, e5, e6⟩ := hi.dup (a := a) (by omega)
      rw [h0] at e2
      cases e2
      exact ⟨a, rfl, e3, e4, e5, fun h => by simp only [total, e5, e6, own_refs e1]⟩
    · cases h

theorem free_rel {w w' : World} {k : Option Nat} (h : freeData w k = .ok w') : ∃ t, w'.released = w.released ++ t := by
  cases k with
  | none => cases h; exact ⟨[], by simp⟩
  | some a =>
    simp only [freeData] at h
    split at h
    · rename_i d hd
      split at h
      · cases h
        simp only [releasing]
        split
        · exact ⟨_, rfl⟩
        · exact ⟨[], by simp⟩
      · cases h; exact ⟨[], by simp⟩
    · cases h

/-- What any step does to the references and the keys. -/
theorem any_step {w w' : World} {ex : List Nat} (hi : Inv w ex) {op : Op} (h : step w op = .ok w') :
    (∃ ex', Inv w' ex') ∧ (∀ x, total w' x ≤ total w x + handed x op) ∧ ∃ t, w'.released = w.released ++ t := by
  have same : (∃ ex', Inv w ex') ∧ (∀ x, total w x ≤ total w x + handed x op) ∧ ∃ t, w.released = w.released ++ t :=
    ⟨⟨ex, hi⟩, fun x => by omega, [], by simp⟩
  cases op with
  | lend k delete r =>
    simp only [step, Except.ok.injEq] at h
    subst h
    simp only [lend]
    split
    · rename_i hr
      refine ⟨⟨ex, hi.newKey _ _⟩, fun x => ?_, [], by simp [newKey]⟩
      rw [total_newKey]
      simp only [Bool.and_eq_true] at hr
      cases delete with
      | none => simp
      | some d => cases d <;> simp [handed, hr]
    · exact same
  | raw k delete r =>
    simp only [step, Except.ok.injEq] at h
    subst h
    cases k with
    | none => exact same
    | some k =>
      simp only [raw]
      split
      · rename_i hr
        refine ⟨⟨ex, hi.newKey _ _⟩, fun x => ?_, [], by simp [newKey]⟩
        rw [total_newKey]
        simp only [Bool.and_eq_true] at hr
        cases delete with
        | none => simp [handed, hr]
        | some d => cases d <;> simp [handed, hr]
      · exact same
  | pub =>
    cases h
    refine ⟨⟨ex, hi.newKey _ _⟩, fun x => ?_, [], by simp [newKey]⟩
    rw [total_newKey]; simp
  | gen k r =>
    simp only [step, Except.ok.injEq] at h
    subst h
    cases k with
    | none => exact same
    | some k =>
      simp only [gen]
      split
      · refine ⟨⟨ex, hi.newKey _ _⟩, fun x => ?_, [], by simp [newKey]⟩
        rw [total_newKey]; simp [handed]
      · refine ⟨⟨ex, hi.refs, hi.alive⟩, fun x => ?_, [k], rfl⟩
        simp only [total, handed, List.count_append, List.count_singleton, beq_iff_eq, Option.some.injEq]
        omega
  | dupKey i =>
    simp only [step] at h
    split at h
    · cases h; exact same
    · rename_i a ha
      split at h
      · cases h
      · rename_i w1 h1
        cases h
        obtain ⟨a', e, e1, e2, e3, e4⟩ := dup_any hi h1
        cases e
        exact ⟨⟨ex, Inv.give (o := .pkey a) e1⟩, fun x => Nat.le_trans (Nat.le_of_eq (e4 x)) (Nat.le_add_right _ _), [], by simp [give, e3]⟩
  | init i k l =>
    simp only [step] at h
    split at h
    · cases h; exact same
    · rename_i a ha
      split at h
      · cases h
      · rename_i w1 h1
        cases h
        obtain ⟨a', e, e1, e2, e3, e4⟩ := dup_any hi h1
        cases e
        exact ⟨⟨ex, Inv.give (by simpa [addrs] using e1)⟩, fun x => Nat.le_trans (Nat.le_of_eq (e4 x)) (Nat.le_add_right _ _), [], by simp [give, e3]⟩
  | initBad i =>
    simp only [step] at h
    split at h
    · cases h; exact same
    · rename_i a ha
      split at h
      · cases h
      · rename_i w1 h1
        cases h
        obtain ⟨a', e, e1, e2, e3, e4⟩ := dup_any hi h1
        cases e
        exact ⟨⟨a :: ex, Inv.give (by simpa [addrs] using e1)⟩, fun x => Nat.le_trans (Nat.le_of_eq (e4 x)) (Nat.le_add_right _ _), [],
          by simp [give, e3]⟩
  | setPeer c i =>
    simp only [step] at h
    split at h
    · rename_i x a hc ha
      split at h
      · split at h
        · cases h
        · rename_i w1 h1
          cases h
          obtain ⟨a', e, e1, e2, e3, e4⟩ := dup_any hi h1
          cases e
          have hc' : w1.objs[c]? = some (some (.ctx x)) := by rw [e2]; exact hc
          refine ⟨⟨x.peer.toList ++ ex, ?_⟩, fun x => Nat.le_trans (Nat.le_of_eq (e4 x)) (Nat.le_add_right _ _), [], by simp [put, e3]⟩
          constructor
          · intro y d hy
            have f1 := e1.refs y d hy
            have f2 := cnt_set w1.objs c _ (some (.ctx { x with peer := some a })) y hc'
            simp only [addrsO, addrs, Option.toList_some, List.count_append, List.count_cons, List.count_nil] at f1 f2 ⊢
            simp only [Pk.put]
            omega
          · intro y hy
            have f2 := cnt_set w1.objs c _ (some (.ctx { x with peer := some a })) y hc'
            simp only [addrsO, addrs, Option.toList_some, List.count_append, List.count_cons, List.count_nil] at f2 hy
            simp only [Pk.put] at hy
            exact e1.alive y (by simp only [List.count_cons]; omega)
      · cases h; exact same
    · cases h; exact same
  | dupCtx c =>
    have lesum : ∀ {w1 : World}, (∀ x, total w1 x = total w x) → ∀ x, total w1 x ≤ total w x + handed x (.dupCtx c) :=
      fun e x => Nat.le_trans (Nat.le_of_eq (e x)) (Nat.le_add_right _ _)
    have sig : ∀ x : Ctx, dupSignature w x = .ok w' →
        (∃ ex', Inv w' ex') ∧ (∀ x, total w' x ≤ total w x + handed x (.dupCtx c)) ∧ ∃ t, w'.released = w.released ++ t := by
      intro x h
      simp only [dupSignature] at h
      split at h
      · cases h
      · rename_i w1 h1
        obtain ⟨a, e, e1, e2, e3, e4⟩ := dup_any hi h1
        split at h
        · cases h
          exact ⟨⟨ex, Inv.give (by simpa [addrs, e] using e1)⟩, lesum e4, [], by simp [give, e3]⟩
        · cases h
          exact ⟨⟨a :: ex, Inv.give (o := .dangling) e1⟩, lesum e4, [], by simp [give, e3]⟩
    simp only [step] at h
    split at h
    · rename_i x hc
      split at h
      · exact sig x h
      · exact sig x h
      · exact sig x h
      · simp only [dupExchange] at h
        split at h
        · cases h
        · rename_i w1 h1
          obtain ⟨a, e, e1, e2, e3, e4⟩ := dup_any hi h1
          split at h
          · cases h
          · rename_i w2 h2
            obtain ⟨a', f, f1, f2, f3, f4⟩ := dup_any e1 h2
            cases h
            refine ⟨⟨ex, Inv.give (f1.congr ?_)⟩, lesum fun x => (f4 x).trans (e4 x), [], by simp [give, e3, f3]⟩
            intro y
            simp only [addrs, e, f, Option.toList_some, List.count_append, List.count_cons, List.count_nil]
            omega
      · simp only [dupCipher] at h
        split at h
        · cases h
        · rename_i w1 h1
          obtain ⟨a, e, e1, e2, e3, e4⟩ := dup_any hi h1
          split at h
          · cases h
            exact ⟨⟨a :: ex, e1⟩, lesum e4, [], by simp [e3]⟩
          · cases h
            exact ⟨⟨ex, Inv.give (by simpa [addrs, e] using e1)⟩, lesum e4, [], by simp [give, e3]⟩
    · cases h
    · cases h; exact same
  | use c =>
    simp only [step] at h
    split at h
    · rename_i x hc
      have : ∀ k w1, touch w k = .ok w1 → w1 = w := by
        intro k w1 h
        cases k with
        | none => cases h
        | some a =>
          simp only [touch] at h
          split at h
          · cases h; rfl
          · cases h
      have : w' = w := by
        unfold useCtx at h
        split at h
        · split at h
          · cases h; rfl
          · exact this _ _ h
        · split at h
          · cases h; rfl
          · exact this _ _ h
        · split at h
          · cases h
          · split at h
            · cases h; rfl
            · exact this _ _ h
        · split at h
          · cases h
          · rename_i w1 h1
            have e := this _ _ h1
            subst e
            exact this _ _ h
        · exact this _ _ h
      subst this
      exact same
    · cases h
    · cases h; exact same
  | free i =>
    simp only [step] at h
    have hfree : ∀ o, w.objs[i]? = some (some o) → Inv (put w i none) (addrs o ++ ex) := fun o ho => by
      exact Inv.put (o' := none) (by simpa [addrsO] using hi) ho
    split at h
    · rename_i a ho
      obtain ⟨w1, e1, e2, e3, e4, _⟩ := free_all (k := some a) (hfree _ ho)
      rw [h] at e1
      cases e1
      obtain ⟨t, ht⟩ := free_rel h
      exact ⟨⟨ex, e2⟩, fun x => Nat.le_trans (Nat.le_of_eq (e4 x)) (Nat.le_add_right _ _), t, ht⟩
    · rename_i x ho
      have h0 := hfree _ ho
      simp only [addrs, List.append_assoc] at h0
      obtain ⟨w1, e1, e2, e3, e4, _⟩ := free_all h0
      rw [e1] at h
      simp only at h
      obtain ⟨w2, f1, f2, f3, f4, _⟩ := free_all e2
      rw [h] at f1
      cases f1
      obtain ⟨t, ht⟩ := free_rel e1
      obtain ⟨t', ht'⟩ := free_rel h
      refine ⟨⟨ex, f2⟩, fun x => Nat.le_trans (Nat.le_of_eq ((f4 x).trans (e4 x))) (Nat.le_add_right _ _), t ++ t', ?_⟩
      rw [ht', ht, List.append_assoc]
      rfl
    · cases h
    · cases h; exact same

theorem any_run {ops : List Op} {w w' : World} {ex : List Nat} (hi : Inv w ex) (h : run w ops = .ok w') (x : Nat) :
    total w' x ≤ total w x + handedAll x ops := by
  induction ops generalizing w ex with
  | nil => cases h; simp [handedAll]
  | cons op ops ih =>
    simp only [run] at h
    split at h
    · cases h
    · rename_i w1 h1
      obtain ⟨⟨ex', hi'⟩, hsum, _⟩ := any_step hi h1
      have := ih hi' h
      have := hsum x
      simp only [handedAll, List.map_cons, List.sum_cons] at *
      omega

theorem good_run {ops : List Op} {w : World} {b : Book} (hi : Inv w []) (hs : Sees w b) (hf : ∀ h, own w.heap h ≤ 1) (hsane : SaneAll b ops) :
    ∃ w', run w ops = .ok w' ∧ Inv w' [] ∧ Sees w' (book b ops) ∧ (∀ h, own w'.heap h ≤ 1) ∧ ∀ h, total w' h = total w h + handedAll h ops := by
  induction ops generalizing w b with
  | nil => exact ⟨w, rfl, hi, hs, hf, fun h => by simp [handedAll]⟩
  | cons op ops ih =>
    obtain ⟨w1, h1, hg⟩ := good_step hi hs op hsane.1
    obtain ⟨_, _, t, ht⟩ := any_step hi h1
    have hf1 := few_step hi hs hsane.1 hg h1 hf (fun h => by rw [ht, List.count_append]; omega)
    obtain ⟨w2, e1, e2, e3, e4, e5⟩ := ih hg.inv hg.sees hf1 hsane.2
    refine ⟨w2, by simp only [run, h1, e1], e2, e3, e4, fun h => ?_⟩
    have f1 := hg.sum h
    have f2 := e5 h
    simp only [handedAll, List.map_cons, List.sum_cons] at *
    omega

/-! ## Theorems -/

/-- **C81**, for histories in which nothing is lost: whatever keys and contexts are made, copied and freed, in any order, no memory is used after it
has been freed; and a key that was handed over to the provider has been released exactly once, unless something the application still holds refers
to it, in which case it has not been. -/
theorem C81_released_partial (ops : List Op) (h : SaneAll [] ops) :
    ∃ w, run empty ops = .ok w ∧ ∀ k,
      (Held (book [] ops) k → w.released.count k + 1 = handedAll k ops) ∧
      (¬ Held (book [] ops) k → w.released.count k = handedAll k ops) := by
  obtain ⟨w, h1, h2, h3, h4, h5⟩ := good_run Inv.empty ⟨rfl, fun o ho => by cases ho⟩ (fun h => by simp [empty, own]) h
  refine ⟨w, h1, fun k => ?_⟩
  have e1 := h5 k
  have e2 := held_iff h2 h3 k
  have e3 := h4 k
  simp only [total, empty, own, List.map_nil, List.sum_nil, List.count_nil, Nat.zero_add] at e1
  simp only [own] at e2 e3
  constructor
  · intro hk
    have := e2.1 hk
    omega
  · intro hk
    have : ¬ 0 < _ := fun x => hk (e2.2 x)
    omega

/-- In all histories whatsoever: no key is released more often than it was handed over. -/
theorem C81_not_more (ops : List Op) (w : World) (h : run empty ops = .ok w) (k : Nat) : w.released.count k ≤ handedAll k ops := by
  have := any_run Inv.empty h k
  simp only [total, empty, own, List.map_nil, List.sum_nil, List.count_nil, Nat.zero_add] at this
  omega

/-- So a key that was only lent is never released by the provider. -/
theorem C81_lent (ops : List Op) (w : World) (h : run empty ops = .ok w) (k : Nat) (hl : ∀ op ∈ ops, handed k op = 0) : k ∉ w.released := by
  have h1 := C81_not_more ops w h k
  have h2 : handedAll k ops = 0 := by
    simp only [handedAll]
    clear h h1
    induction ops with
    | nil => rfl
    | cons op ops ih =>
      simp only [List.map_cons, List.sum_cons]
      rw [hl op (List.mem_cons_self ..), ih fun o ho => hl o (List.mem_cons_of_mem _ ho)]
  intro hm
  have := List.count_pos_iff.2 hm
  omega

/-! ## Violations -/

def yes : Reply := ⟨true, true⟩

/-- A history: a key is lent, another is made by the provider; contexts are made, copied, used and freed. -/
def good : List Op :=
  [.lend 7 none yes, .gen (some 9) yes, .init 1 .digest 0, .dupCtx 2, .use 3, .free 1, .init 0 .derive 0, .pub, .setPeer 4 5, .use 4, .dupCtx 4,
    .free 2, .free 0, .free 4]

example : (run empty good).toOption.map (·.released) = some [] := by rfl
example : (run empty (good ++ [.free 3])).toOption.map (·.released) = some [9] := by rfl

theorem good_sane : SaneAll [] (good ++ [.free 3]) := by
  simp [good, SaneAll, Sane, note, yes, Held]

example : ∃ w, run empty (good ++ [.free 3]) = .ok w ∧ w.released.count 9 = 1 ∧ w.released.count 7 = 0 := by
  obtain ⟨w, h1, h2⟩ := C81_released_partial _ good_sane
  have hb : ∀ k, ¬ Held (book [] (good ++ [.free 3])) k := by
    intro k
    simp [good, book, note, yes, Held]
  refine ⟨w, h1, ?_, ?_⟩
  · rw [(h2 9).2 (hb 9)]; rfl
  · rw [(h2 7).2 (hb 7)]; rfl

/-- **C81 is violated** when the API refuses a question about a key just imported: the key is never released. -/
theorem C81_violated_import : ∃ ops w, run empty ops = .ok w ∧ handedAll 9 ops = 1 ∧ ¬ Held (book [] ops) 9 ∧ w.released = [] :=
  ⟨[.raw (some 9) none ⟨true, false⟩], _, rfl, rfl, by simp [Held, book, note], rfl⟩

/-- **C81 is violated** when a second peer is set: the first is never released. -/
theorem C81_violated_peer : ∃ ops w, run empty ops = .ok w ∧ handedAll 9 ops = 1 ∧ (∀ x, some x ∉ book [] ops) ∧ 9 ∉ w.released :=
  ⟨[.gen (some 9) yes, .gen (some 8) yes, .init 1 .derive 0, .setPeer 2 0, .setPeer 2 1, .free 0, .free 1, .free 2], _, rfl, rfl,
    by simp [book, note, yes], by decide⟩

/-- **C81 is violated** by a digest that is not known: the initialisation succeeds, the key is never released, and the context cannot be used. -/
theorem C81_violated_digest :
    (∃ ops w, run empty ops = .ok w ∧ handedAll 9 ops = 1 ∧ (∀ x, some x ∉ book [] ops) ∧ 9 ∉ w.released) ∧
    run empty [.gen (some 9) yes, .initBad 0, .use 1] = .error .null :=
  ⟨⟨[.gen (some 9) yes, .initBad 0, .free 0, .free 1], _, rfl, rfl, by simp [book, note, yes], by decide⟩, rfl⟩

/-- **C81 is violated** by copies of contexts for signatures without a digest, Ed25519 among them: the copy has been freed. -/
theorem C81_violated_copy :
    run empty [.gen (some 9) yes, .init 0 .sign 0, .dupCtx 1, .use 2] = .error .freed ∧
    run empty [.gen (some 9) yes, .init 0 .edwards 0, .dupCtx 1, .free 2] = .error .freed := ⟨rfl, rfl⟩

/-- **C81 is violated** by key exchanges without a peer: NULL is followed. -/
theorem C81_violated_no_peer :
    run empty [.gen (some 9) yes, .init 0 .derive 0, .use 1] = .error .null ∧
    run empty [.gen (some 9) yes, .init 0 .derive 0, .dupCtx 1] = .error .null := ⟨rfl, rfl⟩

/-- **C81 is violated** by copies of contexts for encryption without a label: there is no copy, and the key is never released. -/
theorem C81_violated_label : ∃ ops w, run empty ops = .ok w ∧ w.objs.length = 2 ∧ handedAll 9 ops = 1 ∧ 9 ∉ w.released ∧ w.objs = [none, none] :=
  ⟨[.gen (some 9) yes, .init 0 .cipher 0, .dupCtx 1, .free 0, .free 1], _, rfl, rfl, rfl, by decide, rfl⟩

end Sa.Pk.C81

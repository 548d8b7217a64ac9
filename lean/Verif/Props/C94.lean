import Verif.Model.EngineKey

/-!
# C94: keys loaded with the OpenSSL engine

A key that `ENGINE_load_private_key` gives is the key with the handle asked for, with its public part, and stays so until it is freed; if it cannot be loaded, NULL is
given; and when the keys are freed nothing stays allocated.
-/

namespace Sa.Ekey.C94

/-! ## Specification -/

/-- Types of key pairs the API has. -/
def Pair (t : Nat) : Prop := t = 6 ∨ t = 28 ∨ t = 408 ∨ t = 1034 ∨ t = 1035 ∨ t = 1087 ∨ t = 1088

/-- Does not free key `i`. -/
def Keeps (i : Nat) : Op ω → Prop
  | .free j => j ≠ i
  | _ => True

/-- There is memory (of the calls that fail, those that need none may). -/
def Memory : Op ω → Prop
  | .load _ ok => ok.new = true ∧ ok.malloc = true ∧ ok.assign = true
  | _ => True

/-! ## Lemmas -/

theorem pair_cases {t : Nat} (h : Pair t) : (t = PKEY_RSA ∨ t = Px.PKEY_EC ∨ t = Px.PKEY_DH) ∨
    ¬ (t = PKEY_RSA ∨ t = Px.PKEY_EC ∨ t = Px.PKEY_DH) ∧ (t = PKEY_ED25519 ∨ t = PKEY_ED448 ∨ t = Px.PKEY_X25519 ∨ t = Px.PKEY_X448) := by
  rcases h with h | h | h | h | h | h | h <;> subst h <;> decide

/-- `setPkeyData` with memory, by cases. -/
inductive SetRel (m : Heap) (p : Pkey) (o : Obj) (h : Nat) : Set' → Prop
  | same : SetRel m p o h (.done m (some p) false)
  | done : SetRel m p o h (.done m (some { p with obj := some { o with handle := some h } }) true)
  | moved (hn : p.type = PKEY_RSA ∨ p.type = Px.PKEY_EC ∨ p.type = Px.PKEY_DH) :
      SetRel m p o h (.done m (some { type := p.type, obj := some { o with handle := some h }, engine := false }) true)
  | damaged : SetRel m p o h .damaged

theorem set_rel {ok : Calls} (h1 : ok.new = true) (h2 : ok.malloc = true) (h3 : ok.assign = true) (m : Heap) (p : Pkey) (o : Obj) (h : Nat) :
    SetRel m p o h (setPkeyData ok m p o h) := by
  unfold setPkeyData
  rw [h1, h2, h3]
  split
  · cases ok.get with
    | false => exact .same
    | true =>
      simp only [Bool.not_true, Bool.false_eq_true, if_false, if_true]
      split
      · exact .damaged
      · exact .moved (by assumption)
  · split
    · cases ok.get with
      | false => exact .same
      | true =>
        simp only [Bool.not_true, Bool.false_eq_true, if_false]
        split
        · exact .damaged
        · exact .done
    · split
      · cases ok.get with
        | false => exact .same
        | true => exact .done
      · exact .same

/-- Sums over keys. -/
def sum (f : Pkey → Int) : List (Option Pkey) → Int
  | [] => 0
  | none :: l => sum f l
  | some c :: l => f c + sum f l

theorem sum_append (f : Pkey → Int) : ∀ l m, sum f (l ++ m) = sum f l + sum f m
  | [], m => by simp [sum]
  | none :: l, m => by simp only [List.cons_append, sum]; exact sum_append f l m
  | some c :: l, m => by simp only [List.cons_append, sum]; rw [sum_append f l m]; omega

theorem sum_free (f : Pkey → Int) : ∀ (l : List (Option Pkey)) (i : Nat) (u : Pkey), l[i]? = some (some u) → sum f (l.set i none) = sum f l - f u
  | [], i, u, h => by simp at h
  | c :: l, 0, u, h => by
    simp only [List.getElem?_cons_zero, Option.some.injEq] at h
    subst h
    simp only [List.set_cons_zero, sum]; omega
  | c :: l, i + 1, u, h => by
    simp only [List.getElem?_cons_succ] at h
    have := sum_free f l i u h
    cases c <;> simp only [List.set_cons_succ, sum, this]
    omega

theorem sum_none (f : Pkey → Int) : ∀ l : List (Option Pkey), (∀ i : Nat, l[i]?.join = none) → sum f l = 0
  | [], _ => rfl
  | none :: l, h => sum_none f l fun i => by have := h (i + 1); simpa using this
  | some c :: l, h => by have := h 0; simp at this

def objOf (p : Pkey) : Int := if p.obj.isSome then 1 else 0
def contentOf (p : Pkey) : Int := if p.obj.isSome then numbers p.type else 0
def engineOf (p : Pkey) : Int := if p.engine then 1 else 0

def heapOf (l : List (Option Pkey)) : Heap := ⟨sum (fun _ => 1) l, sum objOf l, sum contentOf l, sum engineOf l⟩

/-- What a load adds to the heap. -/
def plus (m : Heap) (p : Pkey) : Heap := ⟨m.pkeys + 1, m.objs + objOf p, m.contents + contentOf p, m.engines + engineOf p⟩

theorem heap_append (l : List (Option Pkey)) (p : Pkey) : heapOf (l ++ [some p]) = plus (heapOf l) p := by
  simp [heapOf, plus, sum_append, sum]

theorem heap_append_none (l : List (Option Pkey)) : heapOf (l ++ [none]) = heapOf l := by simp [heapOf, sum_append, sum]

theorem heap_free {l : List (Option Pkey)} {i : Nat} {p : Pkey} (h : l[i]? = some (some p)) : heapOf (l.set i none) = free (heapOf l) p := by
  simp [heapOf, free, sum_free _ l i p h, objOf, contentOf, engineOf]

theorem load_plus (api : Api ω) (w : ω) (v11 : Bool) {ok : Calls} (h1 : ok.new = true) (h2 : ok.malloc = true) (h3 : ok.assign = true) (m : Heap) (h : Nat) :
    match load api w v11 ok m h with
    | .key m' none => m' = m
    | .key m' (some p) => m' = plus m p
    | _ => True := by
  have fin : ∀ (m0 : Heap) (p : Pkey) (o : Obj) (q : Set'), p.obj = some o → SetRel m0 p o h q → p.engine = false ∨ p.type = PKEY_SYM →
      m0 = plus m p →
      match finish ok q with
      | .key m' none => m' = m
      | .key m' (some p) => m' = plus m p
      | _ => True := by
    intro m0 p o q hp hq he hm
    cases hq with
    | same => exact hm
    | damaged => trivial
    | done =>
      simp only [finish]
      cases ok.engine with
      | false => simp only [Bool.not_false, if_true]; rw [hm]; simp [plus, objOf, contentOf, engineOf, hp]
      | true =>
        simp only [Bool.not_true, Bool.false_eq_true, if_false]; rw [hm]
        cases hpe : p.engine <;> simp [plus, objOf, contentOf, engineOf, hp, hpe]
    | moved hn =>
      have hpe : p.engine = false := by
        rcases he with he | he
        · exact he
        · rw [he] at hn; exact absurd hn (by decide)
      simp only [finish]
      cases ok.engine with
      | false => simp only [Bool.not_false, if_true]; rw [hm]; simp [plus, objOf, contentOf, engineOf, hp, hpe]
      | true => simp only [Bool.not_true, Bool.false_eq_true, if_false]; rw [hm]; simp [plus, objOf, contentOf, engineOf, hp, hpe]
  unfold load
  cases api.type w h with
  | none => rfl
  | some t =>
    simp only
    by_cases ht : t ≠ KEY_TYPE_SYMMETRIC
    · rw [if_pos ht]
      cases api.pub w h with
      | none => rfl
      | some p =>
        simp only
        refine fin _ _ _ _ rfl (set_rel h1 h2 h3 _ _ _ h) (.inl rfl) ?_
        simp [plus, objOf, contentOf, engineOf]
    · rw [if_neg ht]
      by_cases hv : (!v11) = true
      · rw [if_pos hv]; trivial
      · rw [if_neg hv]
        by_cases hr : (!ok.raw) = true
        · rw [if_pos hr]
        · rw [if_neg hr]
          refine fin _ _ _ _ rfl (set_rel h1 h2 h3 _ _ _ h) (.inr rfl) ?_
          have : numbers PKEY_SYM = 0 := by decide
          simp [plus, objOf, contentOf, engineOf, this]

theorem run_heap (api : Api ω) (v11 : Bool) : ∀ (ops : List (Op ω)) (w : World ω), w.heap = heapOf w.keys → (∀ op ∈ ops, Memory op) →
    (run api v11 w ops).1.heap = heapOf (run api v11 w ops).1.keys
  | [], w, hw, _ => hw
  | op :: ops, w, hw, hm => by
    simp only [run]
    apply run_heap api v11 ops _ _ fun o ho => hm o (List.mem_cons_of_mem _ ho)
    have h0 := hm op List.mem_cons_self
    cases op with
    | load h ok =>
      have := load_plus api w.api v11 h0.1 h0.2.1 h0.2.2 w.heap h
      simp only [step]
      cases hl : load api w.api v11 ok w.heap h with
      | damaged => exact hw
      | null => exact hw
      | key m p =>
        rw [hl] at this
        cases p with
        | none => simp only at this ⊢; rw [this, hw, heap_append_none]
        | some p => simp only at this ⊢; rw [this, hw, heap_append]
    | free i =>
      simp only [step]
      split
      · rename_i p hp
        simp only; rw [heap_free hp, hw]
      · exact hw
    | derive i peer room =>
      simp only [step]
      split
      · exact hw
      · exact hw
    | other f => exact hw

theorem step_keeps (api : Api ω) (v11 : Bool) (w : World ω) (op : Op ω) {i : Nat} (hi : i < w.keys.length) (hk : Keeps i op) :
    (step api v11 w op).1.keys[i]? = w.keys[i]? ∧ i < (step api v11 w op).1.keys.length := by
  cases op with
  | load h ok =>
    simp only [step]
    cases load api w.api v11 ok w.heap h with
    | damaged => exact ⟨rfl, hi⟩
    | null => exact ⟨rfl, hi⟩
    | key m p => cases p <;> exact ⟨List.getElem?_append_left hi, by simp; omega⟩
  | free j =>
    simp only [step]
    split
    · exact ⟨List.getElem?_set_ne hk, by simpa using hi⟩
    · exact ⟨rfl, hi⟩
  | derive j peer room =>
    simp only [step]
    split
    · exact ⟨rfl, hi⟩
    · exact ⟨rfl, hi⟩
  | other f => exact ⟨rfl, hi⟩

theorem run_keeps (api : Api ω) (v11 : Bool) : ∀ (ops : List (Op ω)) (w : World ω) {i : Nat}, i < w.keys.length → (∀ op ∈ ops, Keeps i op) →
    (run api v11 w ops).1.keys[i]? = w.keys[i]?
  | [], _, _, _, _ => rfl
  | op :: ops, w, i, hi, hk => by
    obtain ⟨e, hi'⟩ := step_keeps api v11 w op hi (hk op List.mem_cons_self)
    simp only [run]
    rw [run_keeps api v11 ops _ hi' fun o ho => hk o (List.mem_cons_of_mem _ ho), e]

/-- A pair that loads. -/
theorem load_pair {api : Api ω} {w : ω} {v11 : Bool} {m : Heap} {h t : Nat} {p : Pub} (ht : api.type w h = some t) (hs : t ≠ 0) (hp : api.pub w h = some p)
    (hk : Pair p.type) (hz : p.size ≤ 512) : ∃ m', load api w v11 {} m h = .key m' (some ⟨p.type, some ⟨some p, some h⟩, true⟩) := by
  unfold load
  simp only [ht, hp]
  rw [if_pos (show t ≠ KEY_TYPE_SYMMETRIC from hs)]
  have hz' : ¬ (MAX_KEY_DATA_LEN < p.size) := by unfold MAX_KEY_DATA_LEN; omega
  rcases pair_cases hk with h1 | ⟨h1, h2⟩
  · simp only [setPkeyData, if_pos h1]
    simp [hz', finish]
  · simp only [setPkeyData, if_neg h1, if_pos h2]
    simp [hz', finish]

theorem load_sym {api : Api ω} {w : ω} {m : Heap} {h : Nat} (ht : api.type w h = some 0) :
    ∃ m', load api w true {} m h = .key m' (some ⟨PKEY_SYM, some ⟨none, some h⟩, true⟩) := by
  unfold load
  simp only [ht]
  rw [if_neg (show ¬ 0 ≠ KEY_TYPE_SYMMETRIC by decide)]
  simp only [setPkeyData]
  rw [if_neg (show ¬ (PKEY_SYM = PKEY_RSA ∨ PKEY_SYM = Px.PKEY_EC ∨ PKEY_SYM = Px.PKEY_DH) by decide),
    if_neg (show ¬ (PKEY_SYM = PKEY_ED25519 ∨ PKEY_SYM = PKEY_ED448 ∨ PKEY_SYM = Px.PKEY_X25519 ∨ PKEY_SYM = Px.PKEY_X448) by decide)]
  simp [finish]

/-! ## Theorems -/

/-- **C94, loading.**  When nothing fails, the key loaded has the public part of the key with the handle asked for at that time, and its operations are those of the engine with that handle;
a structure of OpenSSL is assumed to have at most 512 bytes. -/
theorem C94_loaded (api : Api ω) (v11 : Bool) (w : World ω) {h t : Nat} {p : Pub} (ht : api.type w.api h = some t) (hs : t ≠ 0) (hp : api.pub w.api h = some p)
    (hk : Pair p.type) (hz : p.size ≤ 512) :
    let r := step api v11 w (.load h {})
    ∃ i, r.2 = .loaded i ∧ i < r.1.keys.length ∧ pubAt r.1 i = some p.der ∧ usesAt r.1 i = some h := by
  obtain ⟨m', e⟩ := load_pair (v11 := v11) (m := w.heap) ht hs hp hk hz
  refine ⟨w.keys.length, ?_, ?_, ?_, ?_⟩ <;> simp [step, e, pubAt, usesAt]

/-- … and a symmetric key its handle (OpenSSL 1.1). -/
theorem C94_loaded_symmetric_partial (api : Api ω) (w : World ω) {h : Nat} (ht : api.type w.api h = some 0) :
    let r := step api true w (.load h {})
    ∃ i, r.2 = .loaded i ∧ i < r.1.keys.length ∧ usesAt r.1 i = some h := by
  obtain ⟨m', e⟩ := load_sym (m := w.heap) ht
  refine ⟨w.keys.length, ?_, ?_, ?_⟩ <;> simp [step, e, usesAt]

/-- **C94, later.**  A key stays what it is until it is freed, whatever is done with others and with the API. -/
theorem C94_stays (api : Api ω) (v11 : Bool) (w : World ω) (ops : List (Op ω)) {i : Nat} (hi : i < w.keys.length) (hk : ∀ op ∈ ops, Keeps i op) :
    pubAt (run api v11 w ops).1 i = pubAt w i ∧ usesAt (run api v11 w ops).1 i = usesAt w i := by
  have := run_keeps api v11 ops w hi hk
  simp only [pubAt, usesAt, this, and_self]

/-- **C94, never another key.**  Whatever fails, a key that is given uses the handle asked for, or none. -/
theorem C94_never_another (api : Api ω) (v11 : Bool) (w : World ω) (h : Nat) (ok : Calls) {i : Nat} (hl : (step api v11 w (.load h ok)).2 = .loaded i) :
    usesAt (step api v11 w (.load h ok)).1 i = some h ∨ usesAt (step api v11 w (.load h ok)).1 i = none := by
  have good : ∀ (m : Heap) (p : Pkey) (o : Obj), p.obj = some o → o.handle = none →
      ∀ m' q, finish ok (setPkeyData ok m p o h) = .key m' (some q) → q.obj.bind (·.handle) = some h ∨ q.obj.bind (·.handle) = none := by
    intro m p o hp ho m' q hq
    have hset : ∀ m1 q1 b, setPkeyData ok m p o h = .done m1 (some q1) b → q1.obj.bind (·.handle) = some h ∨ q1.obj.bind (·.handle) = none := by
      intro m1 q1 b hs
      have hpn : p.obj.bind (·.handle) = none := by rw [hp]; exact ho
      obtain ⟨raw, get, new, malloc, assign, engine⟩ := ok
      unfold setPkeyData at hs
      cases new <;> simp only [Bool.false_eq_true, if_false, if_true] at hs <;> repeat' split at hs
      all_goals first
        | (cases hs; done)
        | (cases hs; exact .inr hpn)
        | (cases hs; exact .inl rfl)
        | (cases hs; exact .inr rfl)
    cases hs : setPkeyData ok m p o h with
    | damaged => rw [hs] at hq; cases hq
    | done m1 q1 b =>
      rw [hs] at hq
      cases q1 with
      | none => cases b <;> cases hq
      | some q1 =>
        have := hset m1 q1 b hs
        cases b with
        | false => cases hq; exact this
        | true =>
          simp only [finish] at hq
          split at hq
          · cases hq; exact this
          · cases hq; exact this
  have hload : ∀ m' q, load api w.api v11 ok w.heap h = .key m' (some q) → q.obj.bind (·.handle) = some h ∨ q.obj.bind (·.handle) = none := by
    intro m' q hq
    unfold load at hq
    cases hty : api.type w.api h with
    | none => rw [hty] at hq; cases hq
    | some t =>
      rw [hty] at hq
      simp only at hq
      by_cases h0 : t ≠ KEY_TYPE_SYMMETRIC
      · rw [if_pos h0] at hq
        cases hpub : api.pub w.api h with
        | none => rw [hpub] at hq; cases hq
        | some p => rw [hpub] at hq; exact good _ _ _ rfl rfl m' q hq
      · rw [if_neg h0] at hq
        by_cases hv : (!v11) = true
        · rw [if_pos hv] at hq; cases hq
        · rw [if_neg hv] at hq
          by_cases hr : (!ok.raw) = true
          · rw [if_pos hr] at hq; cases hq
          · rw [if_neg hr] at hq; exact good _ _ _ rfl rfl m' q hq
  simp only [step] at hl ⊢
  cases hx : load api w.api v11 ok w.heap h with
  | damaged => rw [hx] at hl; cases hl
  | null => rw [hx] at hl; cases hl
  | key m p =>
    cases p with
    | none => rw [hx] at hl; cases hl
    | some q =>
      rw [hx] at hl
      cases hl
      rcases hload m q hx with e | e <;> simp [usesAt, e]

/-- **C94, failures.**  Without such a key, or its public part, NULL is given and nothing is allocated.
Missing: other failures (`C94_violated_public`, `C94_violated_empty`, `C94_violated_engine`). -/
theorem C94_null_partial (api : Api ω) (v11 : Bool) (w : World ω) {h : Nat} (ok : Calls)
    (hf : api.type w.api h = none ∨ (∃ t, api.type w.api h = some t ∧ t ≠ 0) ∧ api.pub w.api h = none) :
    (step api v11 w (.load h ok)).2 = .null ∧ (step api v11 w (.load h ok)).1.heap = w.heap ∧ (step api v11 w (.load h ok)).1.api = w.api := by
  have e : load api w.api v11 ok w.heap h = .key w.heap none := by
    unfold load
    rcases hf with hf | ⟨⟨t, ht, h0⟩, hp⟩
    · simp only [hf]
    · simp only [ht, hp]; rw [if_pos (show t ≠ KEY_TYPE_SYMMETRIC from h0)]
  simp [step, e]

/-- **C94, freeing.**  Whatever is loaded, used and freed in whatever order, when all keys are freed nothing is allocated and no reference to the engine is held, as long as there is
memory.  Missing: without memory (`C94_violated_empty`). -/
theorem C94_released_partial (api : Api ω) (v11 : Bool) (x : ω) (ops : List (Op ω)) (hm : ∀ op ∈ ops, Memory op)
    (hf : ∀ i : Nat, (run api v11 (empty x) ops).1.keys[i]?.join = none) : (run api v11 (empty x) ops).1.heap = ⟨0, 0, 0, 0⟩ := by
  rw [run_heap api v11 ops (empty x) rfl hm]
  simp only [heapOf, sum_none _ _ hf]

/-! ## Cases and violations -/

/-- An API with an RSA key 7, an EC key 8, an X25519 key 9 and a symmetric key 10. -/
def api0 : Api Unit where
  type _ h := if h = 7 then some 2 else if h = 8 then some 1 else if h = 9 then some 1 else if h = 10 then some 0 else none
  pub _ h := if h = 7 then some ⟨6, 256, 168, [7, 7]⟩ else if h = 8 then some ⟨408, 72, 88, [8, 8]⟩ else if h = 9 then some ⟨1034, 32, 72, [9, 9]⟩ else none
  exchange u _ _ h der := (u, if der.length = 2 then some (100 + h) else none)

example : let r := step api0 true (empty ()) (.load 7 {})
    ∃ i, r.2 = .loaded i ∧ i < r.1.keys.length ∧ pubAt r.1 i = some [7, 7] ∧ usesAt r.1 i = some 7 :=
  C94_loaded api0 true (empty ()) (t := 2) (p := ⟨6, 256, 168, [7, 7]⟩) rfl (by decide) rfl (.inl rfl) (by decide)

example : let r := step api0 true (empty ()) (.load 10 {})
    ∃ i, r.2 = .loaded i ∧ i < r.1.keys.length ∧ usesAt r.1 i = some 10 := C94_loaded_symmetric_partial api0 (empty ()) rfl

def ops0 : List (Op Unit) := [.load 7 {}, .load 8 {}, .load 10 {}, .load 9 { engine := false }, .load 11 {}, .free 0, .derive 1 (some ⟨408, true, some [1, 2]⟩) (some 8), .load 7 { get := false }]

example : (run api0 true (empty ()) ops0).2 = [.loaded 0, .loaded 1, .loaded 2, .loaded 3, .null, .ok, .ret (.secret 108), .loaded 5] := by decide +kernel

example : pubAt (run api0 true (run api0 true (empty ()) (ops0.take 2)).1 (ops0.drop 2)).1 1 = some [8, 8] ∧
    usesAt (run api0 true (run api0 true (empty ()) (ops0.take 2)).1 (ops0.drop 2)).1 1 = some 8 :=
  C94_stays api0 true (run api0 true (empty ()) (ops0.take 2)).1 (ops0.drop 2) (i := 1) (by decide +kernel) (by simp [ops0, Keeps])

example : usesAt (step api0 true (empty ()) (.load 8 { assign := false })).1 0 = some 8 ∨ usesAt (step api0 true (empty ()) (.load 8 { assign := false })).1 0 = none :=
  C94_never_another api0 true (empty ()) 8 { assign := false } (by decide +kernel)

example : (step api0 true (empty ()) (.load 11 {})).2 = .null := (C94_null_partial api0 true (empty ()) {} (.inl rfl)).1

example : (run api0 true (empty ()) (ops0 ++ [.free 1, .free 2, .free 3, .free 5])).1.heap = ⟨0, 0, 0, 0⟩ :=
  C94_released_partial api0 true () _ (by simp [ops0, Memory]) (by
    have e : (run api0 true (empty ()) (ops0 ++ [.free 1, .free 2, .free 3, .free 5])).1.keys = [none, none, none, none, none, none] := by decide +kernel
    intro i
    rw [e]
    match i with
    | 0 | 1 | 2 | 3 | 4 | 5 => rfl
    | n + 6 => rfl)

example : (run api0 true (empty ()) ops0).1.heap = ⟨4, 4, 2, 2⟩ := by decide +kernel

/-- **C94 is violated: public keys.**  If the structure cannot be had, the application gets a key of OpenSSL with the public part only, and is not told. -/
theorem C94_violated_public : let r := step api0 true (empty ()) (.load 7 { get := false })
    r.2 = .loaded 0 ∧ pubAt r.1 0 = some [7, 7] ∧ usesAt r.1 0 = none := by decide +kernel

/-- **C94 is violated: empty keys.**  Without memory for the new structure, it gets an empty key, and the old structure is never released. -/
theorem C94_violated_empty : let r := run api0 true (empty ()) [.load 7 { malloc := false }, .free 0]
    r.2 = [.loaded 0, .ok] ∧ pubAt (run api0 true (empty ()) [.load 7 { malloc := false }]).1 0 = none ∧ r.1.heap = ⟨0, 1, 1, 0⟩ := by decide +kernel

/-- **C94 is violated: the engine.**  If the key cannot be given the engine, the application gets it without. -/
theorem C94_violated_engine : let r := step api0 true (empty ()) (.load 8 { engine := false })
    r.2 = .loaded 0 ∧ usesAt r.1 0 = none := by decide +kernel

/-- **C94 is violated: symmetric keys.**  Before OpenSSL 1.1, loading one follows NULL. -/
theorem C94_violated_old : (step api0 false (empty ()) (.load 10 {})).2 = .crash := by decide +kernel

end Sa.Ekey.C94

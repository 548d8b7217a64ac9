import Verif.Props.C94

/-!
# C95: key exchange through the OpenSSL engine

An application that derives with a key loaded by the engine gets the handle of the key that the API exchanges for the handle loaded and the peer's public key, by the method
of the key's type; other peers are refused without making a key; and nothing is written behind its buffer.
-/

namespace Sa.Ekey.C95

open Sa.Ekey.C94

/-! ## Specification -/

/-- The method for a type of key: Diffie-Hellman is 0, elliptic curves 1 (sa_types.h). -/
inductive Method : Nat → Nat → Prop
  | dh : Method 28 0
  | ec : Method 408 1
  | x25519 : Method 1034 1
  | x448 : Method 1035 1

/-- What the API gives, as the application sees it. -/
def given : Option Nat → Ret
  | none => .fail
  | some x => .secret x

/-- Room that is enough: for a handle, and what OpenSSL demands for all types but EC. -/
def Enough (p : Pub) (n : Nat) : Prop := 8 ≤ n ∧ (p.type ≠ 408 → p.bytes ≤ n)

/-! ## Lemmas -/

theorem alg_method {t a : Nat} (h : Method t a) : Px.algOf t = some a := by cases h <;> rfl

theorem method_alg {t a : Nat} (h : Px.algOf t = some a) : Method t a := by
  have e : Px.algOf t = if t = 28 then some 0 else if t = 408 ∨ t = 1034 ∨ t = 1035 then some 1 else none := rfl
  rw [e] at h
  split at h
  · cases h; subst t; exact .dh
  · split at h
    · cases h
      rename_i h1
      rcases h1 with h1 | h1 | h1 <;> subst h1
      · exact .ec
      · exact .x25519
      · exact .x448
    · cases h

theorem method_pair {t a : Nat} (h : Method t a) : Pair t := by cases h <;> simp [Pair]

/-- The key after loading and other operations. -/
theorem key_later {api : Api ω} {v11 : Bool} {w : World ω} {h t : Nat} {p : Pub} (ht : api.type w.api h = some t) (hs : t ≠ 0) (hp : api.pub w.api h = some p)
    (hk : Pair p.type) (hz : p.size ≤ 512) {i : Nat} (hl : (step api v11 w (.load h {})).2 = .loaded i) {ops : List (Op ω)} (ho : ∀ op ∈ ops, Keeps i op) :
    (run api v11 (step api v11 w (.load h {})).1 ops).1.keys[i]? = some (some ⟨p.type, some ⟨some p, some h⟩, true⟩) := by
  obtain ⟨m', e⟩ := load_pair (v11 := v11) (m := w.heap) ht hs hp hk hz
  have e1 : step api v11 w (.load h {}) = ({ w with keys := w.keys ++ [some ⟨p.type, some ⟨some p, some h⟩, true⟩], heap := m' }, .loaded w.keys.length) := by
    simp [step, e]
  rw [e1] at hl ⊢
  cases hl
  rw [run_keeps api v11 ops _ (by simp) ho]
  simp

/-- What the engine's function does with a peer of the key's type. -/
theorem derive_eq (api : Api ω) (w : ω) {p : Pub} {h a : Nat} (hm : Method p.type a) {q : Peer} (ht : q.type = p.type) (hs : q.same = true) {der : List UInt8}
    (hd : q.der = some der) {n : Nat} (hn : Enough p n) :
    derive api w ⟨p.type, some ⟨some p, some h⟩, true⟩ (some q) (some n) =
      ((api.exchange w rightsAllowAll a h der).1, given (api.exchange w rightsAllowAll a h der).2) := by
  have e : pderive api w ⟨p.type, some ⟨some p, some h⟩, true⟩ (some q) (some n) =
      ((api.exchange w rightsAllowAll a h der).1, given (api.exchange w rightsAllowAll a h der).2) := by
    simp only [pderive, ht, ne_eq, not_true, if_false, alg_method hm, hd, Option.bind_some]
    rcases api.exchange w rightsAllowAll a h der with ⟨w', x⟩
    cases x with
    | none => rfl
    | some x =>
      have : ¬ n < 8 := by have := hn.1; omega
      simp only [if_neg this, given]
  unfold derive
  simp only [alg_method hm, Bool.not_true, Bool.false_eq_true, if_false, Option.isNone_some, Option.map_some, ht, bne_self_eq_false, hs, Bool.or_self, Option.getD_some]
  by_cases he : p.type = Px.PKEY_EC
  · rw [if_pos he]; exact e
  · rw [if_neg he]
    simp only [Option.bind_some, Option.map_some, Option.getD_some]
    rw [if_neg (by have := hn.2 he; omega)]
    exact e

/-- A key with the engine has a handle, or is symmetric. -/
def Right (p : Pkey) : Prop := p.engine = true → (p.obj.bind (·.handle)).isSome ∨ p.type = PKEY_SYM

theorem load_right (api : Api ω) (w : ω) (v11 : Bool) (ok : Calls) (m : Heap) (h : Nat) :
    match load api w v11 ok m h with
    | .key _ (some p) => Right p
    | _ => True := by
  have hset : ∀ (m : Heap) (p : Pkey) (o : Obj), Right p → ∀ m1 q1 b, setPkeyData ok m p o h = .done m1 (some q1) b →
      Right q1 ∧ (b = true → (q1.obj.bind (·.handle)).isSome) := by
    intro m p o hp m1 q1 b hs
    obtain ⟨raw, get, new, malloc, assign, engine⟩ := ok
    unfold setPkeyData at hs
    cases new <;> simp only [Bool.false_eq_true, if_false, if_true] at hs <;> repeat' split at hs
    all_goals first
      | (cases hs; done)
      | (cases hs; exact ⟨hp, fun h => nomatch h⟩)
      | (cases hs; exact ⟨fun _ => .inl rfl, fun _ => rfl⟩)
      | (cases hs; exact ⟨fun h => (nomatch h), fun h => (nomatch h)⟩)
  have fin : ∀ (m : Heap) (p : Pkey) (o : Obj), Right p → match finish ok (setPkeyData ok m p o h) with
      | .key _ (some p) => Right p
      | _ => True := by
    intro m p o hp
    cases hs : setPkeyData ok m p o h with
    | damaged => trivial
    | done m1 q1 b =>
      cases q1 with
      | none => cases b <;> trivial
      | some q1 =>
        obtain ⟨h1, h2⟩ := hset m p o hp m1 q1 b hs
        cases b with
        | false => exact h1
        | true =>
          simp only [finish]
          cases ok.engine with
          | false => exact h1
          | true => exact fun _ => .inl (h2 rfl)
  unfold load
  cases api.type w h with
  | none => trivial
  | some t =>
    simp only
    by_cases h0 : t ≠ KEY_TYPE_SYMMETRIC
    · rw [if_pos h0]
      cases api.pub w h with
      | none => trivial
      | some p => exact fin _ _ _ fun h => nomatch h
    · rw [if_neg h0]
      by_cases hv : (!v11) = true
      · rw [if_pos hv]; trivial
      · rw [if_neg hv]
        by_cases hr : (!ok.raw) = true
        · rw [if_pos hr]; trivial
        · rw [if_neg hr]; exact fin _ _ _ fun _ => .inr rfl

theorem run_right (api : Api ω) (v11 : Bool) : ∀ (ops : List (Op ω)) (w : World ω), (∀ p, some p ∈ w.keys → Right p) → ∀ p, some p ∈ (run api v11 w ops).1.keys → Right p
  | [], _, hw => hw
  | op :: ops, w, hw => by
    simp only [run]
    apply run_right api v11 ops
    cases op with
    | load h ok =>
      have := load_right api w.api v11 ok w.heap h
      simp only [step]
      cases hl : load api w.api v11 ok w.heap h with
      | damaged => exact hw
      | null => exact hw
      | key m p =>
        rw [hl] at this
        cases p with
        | none => intro q hq; simp only [List.mem_append, List.mem_singleton] at hq; rcases hq with hq | hq; exact hw q hq; cases hq
        | some p => intro q hq; simp only [List.mem_append, List.mem_singleton] at hq; rcases hq with hq | hq; exact hw q hq; cases hq; exact this
    | free i =>
      simp only [step]
      split
      · intro q hq
        rcases List.mem_or_eq_of_mem_set hq with hq | hq
        · exact hw q hq
        · cases hq
      · exact hw
    | derive i peer room =>
      simp only [step]
      split
      · exact hw
      · exact hw
    | other f => exact hw

/-! ## Theorems -/

/-- **C95, secrets.**  A key was loaded for handle `h`, and whatever has been done since but freeing it.  With a peer's key of its type and parameters and enough room, the application gets
just what the API exchanges at that moment for `h` and the peer's key, by the method for the type, with all rights, and the API is left as the exchange leaves it. -/
theorem C95_secret (api : Api ω) (v11 : Bool) (w : World ω) {h t a : Nat} {p : Pub} (ht : api.type w.api h = some t) (hs : t ≠ 0) (hp : api.pub w.api h = some p)
    (hm : Method p.type a) (hz : p.size ≤ 512) {i : Nat} (hl : (step api v11 w (.load h {})).2 = .loaded i) {ops : List (Op ω)} (ho : ∀ op ∈ ops, Keeps i op)
    {der : List UInt8} {n : Nat} (hn : Enough p n) :
    let w' := (run api v11 (step api v11 w (.load h {})).1 ops).1
    (step api v11 w' (.derive i (some ⟨p.type, true, some der⟩) (some n))).2 = .ret (given (api.exchange w'.api rightsAllowAll a h der).2) ∧
    (step api v11 w' (.derive i (some ⟨p.type, true, some der⟩) (some n))).1.api = (api.exchange w'.api rightsAllowAll a h der).1 := by
  have hk := key_later ht hs hp (method_pair hm) hz hl ho
  simp only [step] at hk ⊢
  rw [hk]
  simp only [derive_eq api _ hm (q := ⟨p.type, true, some der⟩) rfl rfl rfl hn, and_self]

/-- **C95, refusals.**  Without a peer, or with one of another type or other parameters, nothing is derived and the API is not asked, whatever key and however it was loaded. -/
theorem C95_refused (api : Api ω) (v11 : Bool) (w : World ω) (i n : Nat) {peer : Option Peer} {p : Pkey} (hi : w.keys[i]? = some (some p))
    (hp : peer = none ∨ ∃ q, peer = some q ∧ (q.type ≠ p.type ∨ q.same = false)) :
    ((step api v11 w (.derive i peer (some n))).2 = .ret .fail ∨ (step api v11 w (.derive i peer (some n))).2 = .ret .own) ∧
    (step api v11 w (.derive i peer (some n))).1.api = w.api := by
  have e : derive api w.api p peer (some n) = (w.api, .fail) ∨ derive api w.api p peer (some n) = (w.api, .own) := by
    unfold derive
    cases p.engine with
    | false => exact .inr rfl
    | true =>
      left
      simp only [Bool.not_true, Bool.false_eq_true, if_false]
      by_cases ha : (Px.algOf p.type).isNone = true
      · rw [if_pos ha]
      · rw [if_neg ha]
        rcases hp with rfl | ⟨q, rfl, hq⟩
        · simp only [Option.map_none, Option.getD_none, Bool.false_eq_true, if_false, pderive]
          split
          · rfl
          · split <;> rfl
        · rw [if_pos]
          simp only [Option.map_some, Option.getD_some, Bool.or_eq_true, bne_iff_ne, ne_eq, Bool.not_eq_true']
          exact hq
  simp only [step, hi]
  rcases e with e | e <;> simp [e]

/-- **C95, room.**  With room for as many bytes as are announced for the key, nothing is written behind the buffer, whatever the peer and whatever was done since loading the key;
and never for DH and Montgomery keys, which have at least 8 bytes.  Missing: EC keys and less room (`C95_violated_room`). -/
theorem C95_room_partial (api : Api ω) (v11 : Bool) (w : World ω) {h t a : Nat} {p : Pub} (ht : api.type w.api h = some t) (hs : t ≠ 0) (hp : api.pub w.api h = some p)
    (hm : Method p.type a) (hz : p.size ≤ 512) (hb : p.type ≠ 408 → 8 ≤ p.bytes) {i : Nat} (hl : (step api v11 w (.load h {})).2 = .loaded i) {ops : List (Op ω)}
    (ho : ∀ op ∈ ops, Keeps i op) (peer : Option Peer) {n size : Nat} :
    let w' := (run api v11 (step api v11 w (.load h {})).1 ops).1
    (p.type = 408 → (step api v11 w' (.derive i peer none)).2 = .ret (.length n) ∧ n ≤ size) →
    (step api v11 w' (.derive i peer (some size))).2 ≠ .ret .overflow := by
  intro w'
  have hk : w'.keys[i]? = _ := key_later ht hs hp (method_pair hm) hz hl ho
  intro hn
  have hpd : 8 ≤ size → (pderive api w'.api ⟨p.type, some ⟨some p, some h⟩, true⟩ peer (some size)).2 ≠ .overflow := by
    intro h8
    unfold pderive
    cases peer with
    | none => simp
    | some q =>
      simp only [alg_method hm, Option.bind_some]
      split
      · simp
      · cases q.der with
        | none => simp
        | some der =>
          simp only
          rcases api.exchange w'.api rightsAllowAll a h der with ⟨w1, x⟩
          cases x with
          | none => simp
          | some x => simp only; rw [if_neg (by omega)]; simp
  simp only [step, hk, Ans.ret.injEq, ne_eq] at hn ⊢
  unfold derive at hn ⊢
  simp only [alg_method hm, Bool.not_true, Bool.false_eq_true, if_false, Option.isNone_some] at hn ⊢
  split
  · simp
  · rename_i hbad
    rw [if_neg hbad] at hn
    by_cases he : p.type = Px.PKEY_EC
    · rw [if_pos he]
      rw [if_pos he] at hn
      obtain ⟨h1, h2⟩ := hn he
      simp only [pderive, Ret.length.injEq] at h1
      exact hpd (by omega)
    · rw [if_neg he]
      simp only [Option.bind_some, Option.map_some, Option.getD_some]
      split
      · simp
      · have := hb he
        exact hpd (by omega)

/-- **C95, no NULL.**  A key that was loaded has a handle when the engine uses it, whatever failed. -/
theorem C95_handle (api : Api ω) (v11 : Bool) (x : ω) (ops : List (Op ω)) (i : Nat) (peer : Option Peer) (room : Option Nat) :
    (step api v11 (run api v11 (empty x) ops).1 (.derive i peer room)).2 ≠ .ret .null := by
  have hr := run_right api v11 ops (empty x) (by simp [empty])
  generalize (run api v11 (empty x) ops).1 = w at *
  simp only [step]
  split
  · rename_i p hp
    have hright := hr p (List.mem_of_getElem? hp)
    have hpd : ∀ room, p.engine = true → (Px.algOf p.type).isNone = false → (pderive api w.api p peer room).2 ≠ .null := by
      intro room he ha
      have hh : (p.obj.bind (·.handle)).isSome := by
        rcases hright he with h | h
        · exact h
        · rw [h] at ha; exact absurd ha (by decide)
      unfold pderive
      cases room with
      | none => simp
      | some n =>
        cases peer with
        | none => simp
        | some q =>
          simp only
          split
          · simp
          · cases Px.algOf p.type with
            | none => simp
            | some a =>
              cases q.der with
              | none => simp
              | some der =>
                simp only
                cases hb : p.obj.bind (·.handle) with
                | none => rw [hb] at hh; cases hh
                | some h =>
                  simp only
                  rcases api.exchange w.api rightsAllowAll a h der with ⟨w', x⟩
                  cases x with
                  | none => simp
                  | some x => simp only; split <;> simp
    simp only [ne_eq, Ans.ret.injEq]
    unfold derive
    cases he : p.engine with
    | false => simp
    | true =>
      simp only [Bool.not_true, Bool.false_eq_true, if_false]
      cases ha : (Px.algOf p.type).isNone with
      | true => simp
      | false =>
        simp only [Bool.false_eq_true, if_false]
        split
        · simp
        · split
          · exact hpd room he ha
          · cases room with
            | none => simp
            | some n =>
              simp only
              split
              · simp
              · exact hpd (some n) he ha
  · simp

/-! ## Cases and violations -/

/-- Two keys are loaded, the API is used otherwise, and the first is freed. -/
example : let w' := (run api0 true (step api0 true (empty ()) (.load 8 {})).1 [.load 7 {}, .other id, .free 1]).1
    (step api0 true w' (.derive 0 (some ⟨408, true, some [1, 2]⟩) (some 8))).2 = .ret (.secret 108) :=
  (C95_secret api0 true (empty ()) (t := 1) (a := 1) (p := ⟨408, 72, 88, [8, 8]⟩) rfl (by decide) rfl .ec (by decide) (i := 0) (by decide +kernel)
    (ops := [.load 7 {}, .other id, .free 1]) (by simp [Keeps]) (der := [1, 2]) (n := 8) (by simp [Enough])).1

example : (step api0 true (run api0 true (empty ()) [.load 9 {}]).1 (.derive 0 (some ⟨1034, true, some [1, 2]⟩) (some 32))).2 = .ret (.secret 109) ∧
    (step api0 true (run api0 true (empty ()) [.load 9 {}]).1 (.derive 0 (some ⟨1034, true, some [1, 2]⟩) (some 8))).2 = .ret .fail ∧
    (step api0 true (run api0 true (empty ()) [.load 9 {}]).1 (.derive 0 (some ⟨408, true, some [1, 2]⟩) (some 32))).2 = .ret .fail ∧
    (step api0 true (run api0 true (empty ()) [.load 9 {}]).1 (.derive 0 none (some 32))).2 = .ret .fail := by decide +kernel

example : (step api0 true (run api0 true (empty ()) [.load 9 {}]).1 (.derive 0 none (some 32))).1.api = () :=
  (C95_refused api0 true (run api0 true (empty ()) [.load 9 {}]).1 0 32 (p := ⟨1034, some ⟨some ⟨1034, 32, 72, [9, 9]⟩, some 9⟩, true⟩) (by decide +kernel) (.inl rfl)).2

example : (step api0 true (run api0 true (step api0 true (empty ()) (.load 9 {})).1 [.other id]).1 (.derive 0 (some ⟨1034, true, some [1, 2]⟩) (some 3))).2 ≠ .ret .overflow :=
  C95_room_partial api0 true (empty ()) (h := 9) (t := 1) (a := 1) (p := ⟨1034, 32, 72, [9, 9]⟩) rfl (by decide) rfl .x25519 (by decide) (by decide) (i := 0) (by decide +kernel)
    (ops := [.other id]) (by simp [Keeps]) _ (n := 0) (fun h => absurd h (by decide))

/-- **C95 is violated: room.**  With an EC key, eight bytes are written into a smaller buffer, though its size is given. -/
theorem C95_violated_room : (step api0 true (step api0 true (empty ()) (.load 8 {})).1 (.derive 0 (some ⟨408, true, some [1, 2]⟩) (some 4))).2 = .ret .overflow := by
  decide +kernel

end Sa.Ekey.C95

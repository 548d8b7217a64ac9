import Verif.Props.C77

/-!
# C79: MACs through the OpenSSL provider

An application gives a key (bytes or a handle), for HMAC the name of a digest, and the data in pieces.
-/

namespace Sa.Pv.C79

open C77 (digestOf)

variable {ω : Type}

/-- What is assumed of the API (shown for the TA by C28; releases and headers by C02 and C08): there are keys with handles and MAC contexts
that have absorbed some data.  `mac` is the MAC: HMAC with a digest, or CMAC, of a key and a message. -/
structure Spec (api : MacApi ω) (mac : Option Nat → Bytes → Bytes → Bytes) where
  keyOf : ω → Nat → Option Bytes
  /-- the MAC contexts that are not finished: kind, key, data -/
  msgOf : ω → Nat → Option (Option Nat × Bytes × Bytes)
  importKey : ∀ w b w' k, api.keyImport w b = (w', some k) → keyOf w k = none ∧ ∀ x, keyOf w' x = if x = k then some b else keyOf w x
  importMsg : ∀ w b x, msgOf (api.keyImport w b).1 x = msgOf w x
  ok : ∀ w k, api.keyOk w k = true → (keyOf w k).isSome
  release : ∀ w k x, keyOf (api.keyRelease w k) x = if x = k then none else keyOf w x
  releaseMsg : ∀ w k x, msgOf (api.keyRelease w k) x = msgOf w x
  init : ∀ w d k w' h, api.macInit w d k = (w', some h) →
    (∀ x, d = some x → x ≤ 3) ∧ ∃ b, keyOf w k = some b ∧ msgOf w' h = some (d, b, [])
  initKey : ∀ w d k x, keyOf (api.macInit w d k).1 x = keyOf w x
  process : ∀ w h m w' ok, api.macProcess w h m = (w', ok) →
    msgOf w' h = if ok then (msgOf w h).map fun v => (v.1, v.2.1, v.2.2 ++ m) else msgOf w h
  processKey : ∀ w h m x, keyOf (api.macProcess w h m).1 x = keyOf w x
  compute : ∀ w h room w' m, api.macCompute w h room = (w', some m) →
    (∃ v, msgOf w h = some v ∧ m = mac v.1 v.2.1 v.2.2) ∧ msgOf w' h = none
  computeFail : ∀ w h room w', api.macCompute w h room = (w', none) → msgOf w' h = none ∨ msgOf w' h = msgOf w h
  computeKey : ∀ w h room x, keyOf (api.macCompute w h room).1 x = keyOf w x
  macReleaseKey : ∀ w h x, keyOf (api.macRelease w h) x = keyOf w x

/-- What the application knows about a context from its calls and their results: the key and the digest given last, and what it is now
making a MAC of.  After a call that sets a key or a digest has failed, it has to give both anew. -/
structure Known where
  key : Option Bytes := none
  digest : Option String := none
  run : Option (Option Nat × Bytes × Bytes) := none
  failed : Bool := false

/-- The kind of MAC the application asked for. -/
def kindOf (names : String → Option Nat) (hmac : Bool) (digest : Option String) : Option (Option Nat) :=
  if hmac then (digest.bind names).map some else some none

/-- A key is given as bytes. -/
def Known.give (kn : Known) : Option Bytes → Known
  | none => kn
  | some b => { kn with key := some b }

/-- Parameters are given; a key by its handle. -/
def Known.set (kn : Known) (keyOf : Nat → Option Bytes) (p : Option MacPrm) : Known :=
  match p with
  | none => kn
  | some p => { kn with key := match p.key with | none => kn.key | some k => keyOf k
                        digest := match p.digest with | none => kn.digest | some n => some n }

/-- The calls of one application on one context, with those of everybody else in between (`other`), and what it knows then.  `names`: which
digest a name means. -/
inductive Calls (api : MacApi ω) {mac : Option Nat → Bytes → Bytes → Bytes} (S : Spec api mac) (names : String → Option Nat) (hmac : Bool) :
    ω → MacCtx → Known → Prop
  | new (w : ω) : Calls api S names hmac w (macNew hmac) {}
  | init {w c kn} (h : Calls api S names hmac w c kn) (key : Option Bytes) (p : Option MacPrm)
      (hn : ∀ q n m, p = some q → q.digest = some n → api.fetch n = some m → digestFromName m = names n)
      (hg : kn.failed = true → (key.isSome ∨ ∃ q k, p = some q ∧ q.key = some k) ∧ (hmac = true → ∃ q n, p = some q ∧ q.digest = some n))
      {w' c' ok} (e : macInit api w c key p = some (w', c', ok)) :
      Calls api S names hmac w' c'
        (if ok then
          let kn' := (kn.give key).set (S.keyOf w) p
          { kn' with failed := false, run := (kindOf names hmac kn'.digest).bind fun d => kn'.key.map fun b => (d, b, []) }
        else { kn with failed := true, run := none })
  | set {w c kn} (h : Calls api S names hmac w c kn) (p : Option MacPrm)
      (hn : ∀ q n m, p = some q → q.digest = some n → api.fetch n = some m → digestFromName m = names n)
      {w' c' ok} (e : macSet api w c p = (w', c', ok)) :
      Calls api S names hmac w' c' (if ok then kn.set (S.keyOf w) p else { kn with failed := true })
  | update {w c kn} (h : Calls api S names hmac w c kn) (m : Bytes) {w' ok} (e : macUpdate api w c m = (w', ok)) :
      Calls api S names hmac w' c (if ok then { kn with run := kn.run.map fun v => (v.1, v.2.1, v.2.2 ++ m) } else kn)
  | final {w c kn} (h : Calls api S names hmac w c kn) (room : Nat) {w' r} (e : macFinal api w c room = (w', r)) :
      Calls api S names hmac w' c (if r.isSome then { kn with run := none } else kn)
  | other {w c kn} (h : Calls api S names hmac w c kn) (w' : ω) (hk : ∀ k, c.key = some k → S.keyOf w' k = S.keyOf w k)
      (hm : ∀ x, c.mac = some x → S.msgOf w' x = S.msgOf w x) : Calls api S names hmac w' c kn

/-- The context agrees with what the application knows. -/
structure Agrees (api : MacApi ω) {mac : Option Nat → Bytes → Bytes → Bytes} (S : Spec api mac) (names : String → Option Nat) (hmac : Bool)
    (w : ω) (c : MacCtx) (kn : Known) : Prop where
  sort : c.hmac = hmac
  key : kn.failed = false → (c.key = none ∧ kn.key = none) ∨ ∃ k b, c.key = some k ∧ kn.key = some b ∧ S.keyOf w k = some b
  digest : hmac = true → kn.failed = false → c.md.bind digestFromName = kn.digest.bind names
  run : ∀ h v, c.mac = some h → S.msgOf w h = some v → kn.run = some v

variable {api : MacApi ω} {mac : Option Nat → Bytes → Bytes → Bytes} {S : Spec api mac} {names : String → Option Nat} {hmac : Bool}

/-- `mac_set_ctx_params`, when it succeeds. -/
theorem set_ok {w w' : ω} {c c' : MacCtx} {p : Option MacPrm} (e : macSet api w c p = (w', c', true)) :
    c'.hmac = c.hmac ∧ c'.mac = c.mac ∧ (∀ x, S.msgOf w' x = S.msgOf w x) ∧
    (match p.bind (·.key) with
      | none => c'.key = c.key ∧ ∀ x, S.keyOf w' x = S.keyOf w x
      | some k => c'.key = some k ∧ S.keyOf w' k = S.keyOf w k ∧ (S.keyOf w k).isSome) ∧
    (match p.bind (·.digest) with
      | none => c'.md = c.md
      | some n => c'.md = api.fetch n ∧ (api.fetch n).isSome) := by
  cases p with
  | none =>
    simp only [macSet, Prod.mk.injEq, and_true] at e
    obtain ⟨rfl, rfl⟩ := e
    simp
  | some p =>
    obtain ⟨dg, ky, dl⟩ := p
    obtain ⟨hm, mc, md, ck, dk⟩ := c
    cases ky with
    | none =>
      cases dg with
      | none =>
        simp [macSet, macSetKey] at e
        obtain ⟨rfl, rfl⟩ := e
        simp
      | some n =>
        cases hf : api.fetch n with
        | none => simp [macSet, hf] at e
        | some m =>
          simp [macSet, macSetKey, hf] at e
          obtain ⟨rfl, rfl⟩ := e
          simp [hf]
    | some k =>
      have fin : ∀ md', (macSetKey api w ⟨hm, mc, md', ck, dk⟩ (some k)).2.2 = true →
          (∀ x, S.msgOf (macSetKey api w ⟨hm, mc, md', ck, dk⟩ (some k)).1 x = S.msgOf w x) ∧
          S.keyOf (macSetKey api w ⟨hm, mc, md', ck, dk⟩ (some k)).1 k = S.keyOf w k ∧ (S.keyOf w k).isSome := by
        intro md' hk
        cases ck with
        | none => exact ⟨fun _ => rfl, rfl, S.ok _ _ hk⟩
        | some old =>
          simp only [macSetKey] at hk ⊢
          have h1 := S.ok _ _ hk
          rw [S.release] at h1 ⊢
          by_cases hx : k = old
          · rw [if_pos hx] at h1
            exact absurd h1 (by simp)
          · rw [if_neg hx] at h1 ⊢
            exact ⟨fun x => S.releaseMsg _ _ _, rfl, h1⟩
      cases dg with
      | none =>
        have hk : (macSetKey api w ⟨hm, mc, md, ck, dk⟩ (some k)).2.2 = true := by
          cases hq : (macSetKey api w ⟨hm, mc, md, ck, dk⟩ (some k)).2.2 with
          | true => rfl
          | false => simp only [macSetKey] at hq; simp [macSet, macSetKey, hq] at e
        obtain ⟨f1, f2, f3⟩ := fin md hk
        simp only [macSetKey] at hk f1 f2
        simp [macSet, macSetKey, hk] at e
        obtain ⟨rfl, rfl⟩ := e
        exact ⟨rfl, rfl, f1, ⟨rfl, f2, f3⟩, rfl⟩
      | some n =>
        cases hf : api.fetch n with
        | none => simp [macSet, hf] at e
        | some m =>
          have hk : (macSetKey api w ⟨hm, mc, some m, ck, dk⟩ (some k)).2.2 = true := by
            cases hq : (macSetKey api w ⟨hm, mc, some m, ck, dk⟩ (some k)).2.2 with
            | true => rfl
            | false => simp only [macSetKey] at hq; simp [macSet, macSetKey, hq, hf] at e
          obtain ⟨f1, f2, f3⟩ := fin (some m) hk
          simp only [macSetKey] at hk f1 f2
          simp [macSet, macSetKey, hk, hf] at e
          obtain ⟨rfl, rfl⟩ := e
          refine ⟨rfl, rfl, f1, ⟨rfl, f2, f3⟩, ?_⟩
          simp [hf]

/-- `mac_set_ctx_params` never touches the MAC context. -/
theorem set_any {w : ω} {c : MacCtx} {p : Option MacPrm} :
    (macSet api w c p).2.1.hmac = c.hmac ∧ (macSet api w c p).2.1.mac = c.mac ∧ ∀ x, S.msgOf (macSet api w c p).1 x = S.msgOf w x := by
  cases p with
  | none => exact ⟨rfl, rfl, fun _ => rfl⟩
  | some p =>
    obtain ⟨dg, ky, dl⟩ := p
    obtain ⟨hm, mc, md, ck, dk⟩ := c
    have key : ∀ md', (macSetKey api w ⟨hm, mc, md', ck, dk⟩ ky).2.1.hmac = hm ∧ (macSetKey api w ⟨hm, mc, md', ck, dk⟩ ky).2.1.mac = mc ∧
        ∀ x, S.msgOf (macSetKey api w ⟨hm, mc, md', ck, dk⟩ ky).1 x = S.msgOf w x := by
      intro md'
      cases ky with
      | none => exact ⟨rfl, rfl, fun _ => rfl⟩
      | some k =>
        refine ⟨rfl, rfl, ?_⟩
        cases ck with
        | none => exact fun _ => rfl
        | some old => exact fun x => S.releaseMsg _ _ _
    have fin : ∀ md', (macSet api w ⟨hm, mc, md', ck, dk⟩ (some ⟨none, ky, dl⟩)).2.1.hmac = hm ∧
        (macSet api w ⟨hm, mc, md', ck, dk⟩ (some ⟨none, ky, dl⟩)).2.1.mac = mc ∧
        ∀ x, S.msgOf (macSet api w ⟨hm, mc, md', ck, dk⟩ (some ⟨none, ky, dl⟩)).1 x = S.msgOf w x := by
      intro md'
      have hk := key md'
      cases hr : macSetKey api w ⟨hm, mc, md', ck, dk⟩ ky with
      | mk w1 r =>
        obtain ⟨c1, b⟩ := r
        rw [hr] at hk
        cases b <;> simpa [macSet, hr] using hk
    cases dg with
    | none => exact fin md
    | some n =>
      cases hf : api.fetch n with
      | none => simp [macSet, hf]
      | some m =>
        have := fin (some m)
        have e : macSet api w ⟨hm, mc, md, ck, dk⟩ (some ⟨some n, ky, dl⟩) = macSet api w ⟨hm, mc, some m, ck, dk⟩ (some ⟨none, ky, dl⟩) := by
          simp [macSet, hf]
        rw [e]
        exact this

/-- The key given to `mac_init`. -/
theorem initKey_ok {w w' : ω} {c c' : MacCtx} {key : Option Bytes} (e : macInitKey api w c key = (w', c', true)) :
    c'.hmac = c.hmac ∧ c'.mac = c.mac ∧ c'.md = c.md ∧
    (match key with
      | none => c'.key = c.key ∧ w' = w
      | some b => ∃ k, c'.key = some k ∧ S.keyOf w' k = some b ∧ ∀ x, x ≠ k → (S.keyOf w' x).isSome → S.keyOf w' x = S.keyOf w x) := by
  cases key with
  | none =>
    simp only [macInitKey, Prod.mk.injEq, and_true] at e
    obtain ⟨rfl, rfl⟩ := e
    exact ⟨rfl, rfl, rfl, rfl, rfl⟩
  | some b =>
    obtain ⟨hm, mc, md, ck, dk⟩ := c
    simp only [macInitKey] at e
    split at e
    · simp at e
    · rename_i w1 k hi
      split at e
      · simp at e
      · simp only [Prod.mk.injEq, and_true] at e
        obtain ⟨rfl, rfl⟩ := e
        obtain ⟨_, h2⟩ := S.importKey _ _ _ _ hi
        refine ⟨rfl, rfl, rfl, k, rfl, by rw [h2, if_pos rfl], ?_⟩
        intro x hx hs
        rw [h2, if_neg hx] at hs ⊢
        cases ck with
        | none => rfl
        | some old =>
          simp only at hs ⊢
          rw [S.release] at hs ⊢
          by_cases ho : x = old
          · rw [if_pos ho] at hs
            simp at hs
          · rw [if_neg ho]

theorem initKey_any {w : ω} {c : MacCtx} {key : Option Bytes} :
    (macInitKey api w c key).2.1.hmac = c.hmac ∧ (macInitKey api w c key).2.1.mac = c.mac := by
  cases key with
  | none => exact ⟨rfl, rfl⟩
  | some b =>
    simp only [macInitKey]
    split
    · exact ⟨rfl, rfl⟩
    · split
      · exact ⟨rfl, rfl⟩
      · exact ⟨rfl, rfl⟩

/-- The end of `mac_init`. -/
theorem start_ok {w w' : ω} {c c' : MacCtx} {ok : Bool} (e : macStart api w c = some (w', c', ok)) :
    (ok = false → c' = c) ∧
    (ok = true → ∃ k d h, c.key = some k ∧ c' = { c with mac := some h } ∧ api.macInit w d k = (w', some h) ∧
      (c.hmac = true → d = some ((c.md.bind digestFromName).getD (2 ^ 32 - 1))) ∧ (c.hmac = false → d = none)) := by
  obtain ⟨hm, mc, md, ck, dk⟩ := c
  cases ck with
  | none =>
    simp [macStart] at e
    obtain ⟨_, rfl, rfl⟩ := e
    simp
  | some k =>
    have go : ∀ d, (match api.macInit w d k with
        | (w, none) => some (w, (⟨hm, mc, md, some k, dk⟩ : MacCtx), false)
        | (w, some h) => some (w, ⟨hm, some h, md, some k, dk⟩, true)) = some (w', c', ok) →
        (ok = false → c' = ⟨hm, mc, md, some k, dk⟩) ∧
        (ok = true → ∃ h, c' = ⟨hm, some h, md, some k, dk⟩ ∧ api.macInit w d k = (w', some h)) := by
      intro d e
      split at e
      · simp only [Option.some.injEq, Prod.mk.injEq] at e
        obtain ⟨_, rfl, rfl⟩ := e
        simp
      · rename_i w1 h hi
        simp only [Option.some.injEq, Prod.mk.injEq] at e
        obtain ⟨rfl, rfl, rfl⟩ := e
        simp [hi]
    cases hm with
    | false =>
      obtain ⟨g1, g2⟩ := go none e
      refine ⟨g1, fun ho => ?_⟩
      obtain ⟨h, h1, h2⟩ := g2 ho
      exact ⟨k, none, h, rfl, h1, h2, by simp, by simp⟩
    | true =>
      cases md with
      | none => simp [macStart] at e
      | some n =>
        obtain ⟨g1, g2⟩ := go _ e
        refine ⟨g1, fun ho => ?_⟩
        obtain ⟨h, h1, h2⟩ := g2 ho
        exact ⟨k, _, h, rfl, h1, h2, by simp, by simp⟩

/-- The invariant. -/
theorem calls_agree {w : ω} {c : MacCtx} {kn : Known} (h : Calls api S names hmac w c kn) : Agrees api S names hmac w c kn := by
  induction h with
  | new w => exact ⟨rfl, fun _ => Or.inl ⟨rfl, rfl⟩, fun _ _ => rfl, fun _ _ h => by simp [macNew] at h⟩
  | @set w c kn h p hn w' c' ok e ih =>
    have ha := @set_any ω api mac S w c p
    rw [e] at ha
    obtain ⟨a1, a2, a3⟩ := ha
    simp only at a1 a2 a3
    cases ok with
    | false =>
      refine ⟨a1.trans ih.sort, by simp, by simp, ?_⟩
      intro x v hx hv
      rw [a2] at hx
      rw [a3] at hv
      exact ih.run x v hx hv
    | true =>
      obtain ⟨_, _, _, s1, s2⟩ := @set_ok ω api mac S _ _ _ _ _ e
      have hr : ∀ x v, c'.mac = some x → S.msgOf w' x = some v → kn.run = some v := by
        intro x v hx hv
        rw [a2] at hx
        rw [a3] at hv
        exact ih.run x v hx hv
      cases p with
      | none =>
        simp only [Option.bind_none] at s1 s2
        refine ⟨a1.trans ih.sort, ?_, ?_, hr⟩
        · intro hf
          rcases ih.key hf with ⟨k1, k2⟩ | ⟨k, b, k1, k2, k3⟩
          · exact Or.inl ⟨by rw [s1.1, k1], k2⟩
          · exact Or.inr ⟨k, b, by rw [s1.1, k1], k2, by rw [s1.2, k3]⟩
        · intro hm hf
          rw [s2]
          exact ih.digest hm hf
      | some p =>
        obtain ⟨dg, ky, dl⟩ := p
        simp only [Option.bind_some] at s1 s2
        refine ⟨a1.trans ih.sort, ?_, ?_, hr⟩
        · intro hf
          cases ky with
          | none =>
            simp only at s1
            rcases ih.key hf with ⟨k1, k2⟩ | ⟨k, b, k1, k2, k3⟩
            · exact Or.inl ⟨by rw [s1.1, k1], k2⟩
            · exact Or.inr ⟨k, b, by rw [s1.1, k1], k2, by rw [s1.2, k3]⟩
          | some k =>
            simp only at s1
            obtain ⟨b, hb⟩ := Option.isSome_iff_exists.mp s1.2.2
            exact Or.inr ⟨k, b, s1.1, hb, by rw [s1.2.1, hb]⟩
        · intro hh hf
          cases dg with
          | none =>
            simp only at s2
            rw [s2]
            exact ih.digest hh hf
          | some n =>
            simp only at s2
            obtain ⟨m, hm⟩ := Option.isSome_iff_exists.mp s2.2
            rw [s2.1, hm]
            exact hn _ n m rfl rfl hm
  | @update w c kn h m w' ok e ih =>
    unfold macUpdate at e
    cases hc : c.mac with
    | none =>
      rw [hc] at e
      simp only [Prod.mk.injEq] at e
      obtain ⟨rfl, rfl⟩ := e
      exact ih
    | some x =>
      rw [hc] at e
      simp only at e
      have hk : ∀ y, S.keyOf w' y = S.keyOf w y := fun y => by have := S.processKey w x m y; rw [e] at this; exact this
      have hm := S.process _ _ _ _ _ e
      have key : kn.failed = false → (c.key = none ∧ kn.key = none) ∨ ∃ k b, c.key = some k ∧ kn.key = some b ∧ S.keyOf w' k = some b := by
        intro hf
        rcases ih.key hf with h1 | ⟨k, b, h1, h2, h3⟩
        · exact Or.inl h1
        · exact Or.inr ⟨k, b, h1, h2, by rw [hk, h3]⟩
      cases ok with
      | false =>
        refine ⟨ih.sort, key, ih.digest, ?_⟩
        intro y v hy hv
        rw [hc] at hy
        injection hy with hy
        subst hy
        rw [hm] at hv
        exact ih.run _ v hc hv
      | true =>
        refine ⟨ih.sort, key, ih.digest, ?_⟩
        intro y v hy hv
        rw [hc] at hy
        injection hy with hy
        subst hy
        rw [hm] at hv
        cases hu : S.msgOf w x with
        | none => rw [hu] at hv; simp at hv
        | some u =>
          rw [hu] at hv
          simp only [if_true, Option.map_some] at hv ⊢
          rw [ih.run _ u hc hu]
          exact hv
  | @final w c kn h room w' r e ih =>
    unfold macFinal at e
    cases hc : c.mac with
    | none =>
      rw [hc] at e
      simp only [Prod.mk.injEq] at e
      obtain ⟨rfl, rfl⟩ := e
      exact ih
    | some x =>
      rw [hc] at e
      simp only at e
      have hk : ∀ y, S.keyOf w' y = S.keyOf w y := fun y => by have := S.computeKey w x room y; rw [e] at this; exact this
      have key : kn.failed = false → (c.key = none ∧ kn.key = none) ∨ ∃ k b, c.key = some k ∧ kn.key = some b ∧ S.keyOf w' k = some b := by
        intro hf
        rcases ih.key hf with h1 | ⟨k, b, h1, h2, h3⟩
        · exact Or.inl h1
        · exact Or.inr ⟨k, b, h1, h2, by rw [hk, h3]⟩
      cases r with
      | none =>
        refine ⟨ih.sort, key, ih.digest, ?_⟩
        intro y v hy hv
        rw [hc] at hy
        injection hy with hy
        subst hy
        rcases S.computeFail _ _ _ _ e with h1 | h1
        · rw [h1] at hv; simp at hv
        · rw [h1] at hv
          exact ih.run _ v hc hv
      | some m =>
        refine ⟨ih.sort, key, ih.digest, ?_⟩
        intro y v hy hv
        rw [hc] at hy
        injection hy with hy
        subst hy
        rw [(S.compute _ _ _ _ _ e).2] at hv
        simp at hv
  | @other w c kn h w' hk hm ih =>
    refine ⟨ih.sort, ?_, ih.digest, ?_⟩
    · intro hf
      rcases ih.key hf with h1 | ⟨k, b, h1, h2, h3⟩
      · exact Or.inl h1
      · exact Or.inr ⟨k, b, h1, h2, by rw [hk k h1, h3]⟩
    · intro x v hx hv
      rw [hm x hx] at hv
      exact ih.run x v hx hv
  | @init w c kn h key p hn hg w' c' ok e ih =>
    obtain ⟨w0, k0, e⟩ : ∃ w0, (∀ x, S.keyOf w0 x = S.keyOf w x) ∧ macInit api w0 { c with mac := none } key p = some (w', c', ok) := by
      obtain ⟨hm, mc, md, ck, dk⟩ := c
      cases mc with
      | none => exact ⟨w, fun _ => rfl, e⟩
      | some y => exact ⟨_, fun x => S.macReleaseKey w y x, e⟩
    unfold macInit at e
    simp only at e
    cases e1 : macInitKey api w0 { c with mac := none } key with
    | mk w1 r1 =>
      obtain ⟨c1, b1⟩ := r1
      rw [e1] at e
      have i1 := @initKey_any ω api w0 { c with mac := none } key
      rw [e1] at i1
      obtain ⟨i1, i2⟩ := i1
      simp only at i1 i2
      cases b1 with
      | false =>
        simp only [Option.some.injEq, Prod.mk.injEq] at e
        obtain ⟨rfl, rfl, rfl⟩ := e
        exact ⟨i1.trans ih.sort, by simp, by simp, fun x v hx => by rw [i2] at hx; simp at hx⟩
      | true =>
        simp only at e
        cases e2 : macSet api w1 c1 p with
        | mk w2 r2 =>
          obtain ⟨c2, b2⟩ := r2
          rw [e2] at e
          have j := @set_any ω api mac S w1 c1 p
          rw [e2] at j
          obtain ⟨j1, j2, _⟩ := j
          simp only at j1 j2
          cases b2 with
          | false =>
            simp only [Option.some.injEq, Prod.mk.injEq] at e
            obtain ⟨rfl, rfl, rfl⟩ := e
            exact ⟨by rw [j1, i1, ih.sort], by simp, by simp, fun x v hx => by rw [j2, i2] at hx; simp at hx⟩
          | true =>
            simp only at e
            obtain ⟨st1, st2⟩ := start_ok e
            cases ok with
            | false =>
              rw [st1 rfl]
              exact ⟨by rw [j1, i1, ih.sort], by simp, by simp, fun x v hx => by rw [j2, i2] at hx; simp at hx⟩
            | true =>
              obtain ⟨k, d, hh, s1, s2, s3, s4, s5⟩ := st2 rfl
              obtain ⟨d3, b, m1, m2⟩ := S.init _ _ _ _ _ s3
              have mk : ∀ x, S.keyOf w' x = S.keyOf w2 x := fun x => by have := S.initKey w2 d k x; rw [s3] at this; exact this
              obtain ⟨_, _, q3, q4⟩ := @initKey_ok ω api mac S _ _ _ _ _ e1
              obtain ⟨_, _, _, t1, t2⟩ := @set_ok ω api mac S _ _ _ _ _ e2
              simp only at q3
              have hh2 : c2.hmac = hmac := by rw [j1, i1, ih.sort]
              -- the key
              have hkey : ((kn.give key).set (S.keyOf w) p).key = some b := by
                have base : p.bind (·.key) = none →
                    (kn.give key).key = some b := by
                  intro hp
                  rw [hp] at t1
                  simp only at t1
                  rw [t1.2] at m1
                  rw [t1.1] at s1
                  cases key with
                  | some b' =>
                    simp only at q4 ⊢
                    obtain ⟨k', u1, u2, _⟩ := q4
                    rw [u1] at s1
                    injection s1 with s1
                    subst s1
                    rw [u2] at m1
                    exact m1
                  | none =>
                    simp only at q4 ⊢
                    obtain ⟨u1, u2⟩ := q4
                    have hf : kn.failed = false := by
                      cases hf : kn.failed with
                      | false => rfl
                      | true =>
                        rcases (hg hf).1 with h1 | ⟨q, k2, h1, h2⟩
                        · simp at h1
                        · rw [h1] at hp
                          simp only [Option.bind_some] at hp
                          rw [h2] at hp
                          simp at hp
                    rcases ih.key hf with ⟨h1, _⟩ | ⟨k2, b2, h1, h2, h3⟩
                    · rw [u1, h1] at s1
                      simp at s1
                    · rw [u1, h1] at s1
                      injection s1 with s1
                      subst s1
                      rw [u2, k0, h3] at m1
                      exact h2.trans m1
                cases p with
                | none => exact base rfl
                | some q =>
                  obtain ⟨dg, ky, dl⟩ := q
                  cases ky with
                  | none => exact base rfl
                  | some k2 =>
                    simp only [Option.bind_some] at t1
                    obtain ⟨t11, t12, t13⟩ := t1
                    rw [t11] at s1
                    injection s1 with s1
                    subst s1
                    simp only [Known.set]
                    rw [t12] at m1
                    cases key with
                    | none =>
                      simp only at q4
                      rw [q4.2, k0] at m1
                      exact m1
                    | some b' =>
                      simp only at q4
                      obtain ⟨k', u1, u2, u3⟩ := q4
                      by_cases hx : k2 = k'
                      · -- the key imported in this call was released
                        subst hx
                        exfalso
                        have e3 := e2
                        have hc1 : c1.key = some k2 := u1
                        have hrel : S.keyOf w2 k2 = none := by
                          obtain ⟨hm, mc, md, ck, dk⟩ := c1
                          simp only at hc1
                          subst hc1
                          cases dg with
                          | none =>
                            simp only [macSet, macSetKey] at e3
                            cases hq : api.keyOk (api.keyRelease w1 k2) k2 with
                            | false => simp [hq] at e3
                            | true =>
                              simp [hq] at e3
                              rw [← e3.1, S.release, if_pos rfl]
                          | some n =>
                            simp only [macSet, macSetKey] at e3
                            cases hf : api.fetch n with
                            | none => simp [hf] at e3
                            | some m =>
                              cases hq : api.keyOk (api.keyRelease w1 k2) k2 with
                              | false => simp [hq, hf] at e3
                              | true =>
                                simp [hq, hf] at e3
                                rw [← e3.1, S.release, if_pos rfl]
                        rw [t12, u2] at hrel
                        simp at hrel
                      · rw [u3 k2 hx (by rw [m1]; rfl), k0] at m1
                        exact m1
              -- the digest
              have hdig : hmac = true → c2.md.bind digestFromName =
                  ((kn.give key).set (S.keyOf w) p).digest.bind names := by
                intro hm
                have same : (kn.give key).digest = kn.digest := by cases key <;> rfl
                have base : p.bind (·.digest) = none → c2.md.bind digestFromName = (kn.give key).digest.bind names := by
                  intro hp
                  rw [hp] at t2
                  simp only at t2
                  rw [t2, q3, same]
                  apply ih.digest hm
                  cases hf : kn.failed with
                  | false => rfl
                  | true =>
                    obtain ⟨q, n, h1, h2⟩ := (hg hf).2 hm
                    rw [h1] at hp
                    simp only [Option.bind_some] at hp
                    rw [h2] at hp
                    simp at hp
                cases p with
                | none => exact base rfl
                | some q =>
                  obtain ⟨dg, ky, dl⟩ := q
                  cases dg with
                  | none => exact base rfl
                  | some n =>
                    simp only [Option.bind_some] at t2
                    obtain ⟨m, hm'⟩ := Option.isSome_iff_exists.mp t2.2
                    rw [t2.1, hm']
                    exact hn _ n m rfl rfl hm'
              subst s2
              refine ⟨hh2, ?_, ?_, ?_⟩
              · intro _
                exact Or.inr ⟨k, b, s1, hkey, by rw [mk]; exact m1⟩
              · intro hm _
                exact hdig hm
              · intro x v hx hv
                simp only [Option.some.injEq] at hx
                subst hx
                rw [m2] at hv
                injection hv with hv
                subst hv
                simp only [if_true]
                rw [hkey]
                unfold kindOf
                cases hmac with
                | false =>
                  rw [s5 hh2]
                  rfl
                | true =>
                  have h4 := s4 hh2
                  rw [hdig rfl] at h4
                  simp only [if_true]
                  generalize ((kn.give key).set (S.keyOf w) p).digest.bind names
                    = o at h4
                  cases o with
                  | none =>
                    have := d3 _ h4
                    simp at this
                  | some o => rw [h4]; rfl

/-- Names that mean a digest to everybody. -/
def Named (api : MacApi ω) (names : String → Option Nat) (n : String) : Prop := ∀ m, api.fetch n = some m → digestFromName m = names n

/-- **C79** (missing: names of digests whose canonical name only begins like that of a supported one; contexts on which setting a key or a
digest failed, until both were given anew; HMAC without a digest).  However the application uses a context, with one key after the other,
digests by name, data in pieces, failing calls, other applications in between: if it gets a MAC, this is the MAC under the key and with the
digest given last of all the data given since it initialised the context. -/
theorem C79_mac_partial (h : Calls api S digestOf hmac w c kn) {room : Nat} {w' : ω} {m : Bytes} (e : macFinal api w c room = (w', some m)) :
    ∃ v, kn.run = some v ∧ m = mac v.1 v.2.1 v.2.2 := by
  unfold macFinal at e
  cases hc : c.mac with
  | none => rw [hc] at e; simp at e
  | some x =>
    rw [hc] at e
    obtain ⟨⟨v, h1, h2⟩, _⟩ := S.compute _ _ _ _ _ e
    exact ⟨v, (calls_agree h).run x v hc h1, h2⟩

/-- **C79, the MAC is obtained.**  If the API accepts the key, the digest and the data, a new context gives the MAC of all the data, for
every way to cut it into pieces. -/
theorem C79_obtained (api : MacApi ω) {mac : Option Nat → Bytes → Bytes → Bytes} (S : Spec api mac) (w w1 w2 : ω) (b : Bytes) (n cn : String)
    (d k x room : Nat) (hd : digestOf n = some d) (hcn : api.fetch n = some cn) (hn : Named api digestOf n)
    (hi : api.keyImport w b = (w1, some k)) (hk : api.keyOk w1 k = true) (hm : api.macInit w1 (some d) k = (w2, some x))
    (hp : ∀ w m, (S.msgOf w x).isSome → (api.macProcess w x m).2 = true) (hc : ∀ w, (S.msgOf w x).isSome → (api.macCompute w x room).2.isSome)
    (pieces : List Bytes) :
    ∃ c, macInit api w (macNew true) (some b) (some { digest := some n }) = some (w2, c, true) ∧
      ∃ w3, pieces.foldl (fun r m => ((macUpdate api r.1 c m).1, r.2 && (macUpdate api r.1 c m).2)) (w2, true) = (w3, true) ∧
        (macFinal api w3 c room).2 = some (mac (some d) b pieces.flatten) := by
  have e0 : macInit api w (macNew true) (some b) (some { digest := some n }) =
      some (w2, { hmac := true, mac := some x, md := some cn, key := some k, deleteKey := true }, true) := by
    simp [macInit, macNew, macInitKey, hi, hk, macSet, macSetKey, hcn, macStart, hn cn hcn, hd, hm]
  refine ⟨_, e0, ?_⟩
  have h0 : S.msgOf w2 x = some (some d, b, []) := by
    obtain ⟨_, b', h1, h2⟩ := S.init _ _ _ _ _ hm
    have := (S.importKey _ _ _ _ hi).2 k
    rw [if_pos rfl] at this
    rw [this] at h1
    injection h1 with h1
    rw [h2, h1]
  have main : ∀ (ps : List Bytes) (w3 : ω) (msg : Bytes), S.msgOf w3 x = some (some d, b, msg) →
      ∃ w4, ps.foldl (fun r m => ((macUpdate api r.1 { hmac := true, mac := some x, md := some cn, key := some k, deleteKey := true } m).1,
          r.2 && (macUpdate api r.1 { hmac := true, mac := some x, md := some cn, key := some k, deleteKey := true } m).2)) (w3, true) = (w4, true) ∧
        S.msgOf w4 x = some (some d, b, msg ++ ps.flatten) := by
    intro ps
    induction ps with
    | nil => intro w3 msg h; exact ⟨w3, rfl, by simpa using h⟩
    | cons m ps ih =>
      intro w3 msg h
      have h1 := hp w3 m (by rw [h]; rfl)
      have h2 := S.process w3 x m (api.macProcess w3 x m).1 true (by rw [← h1])
      rw [h] at h2
      obtain ⟨w4, h3, h4⟩ := ih (api.macProcess w3 x m).1 (msg ++ m) h2
      refine ⟨w4, ?_, by rw [h4]; simp⟩
      simp only [List.foldl_cons, macUpdate, h1, Bool.and_true]
      simp only [macUpdate] at h3
      exact h3
  obtain ⟨w3, h1, h2⟩ := main pieces w2 [] h0
  refine ⟨w3, h1, ?_⟩
  simp only [macFinal]
  have h3 := hc w3 (by rw [h2]; rfl)
  obtain ⟨m, hm'⟩ := Option.isSome_iff_exists.mp h3
  obtain ⟨⟨v, h4, h5⟩, _⟩ := S.compute w3 x room (api.macCompute w3 x room).1 m (by rw [← hm'])
  rw [h2] at h4
  injection h4 with h4
  rw [hm', h5, ← h4]
  simp

/-- **C79 is violated**: with a digest whose canonical name begins with that of SHA-512, as SHA-512/256 and SHA-512/224, the MAC is that of
SHA-512. -/
theorem C79_violated_digest (h : Calls api S (fun _ => some 3) true w c kn) {room : Nat} {w' : ω} {m : Bytes}
    (e : macFinal api w c room = (w', some m)) : ∃ key msg, kn.run = some (some 3, key, msg) ∧ m = mac (some 3) key msg := by
  have hr : ∀ {w c kn}, Calls api S (fun _ => some 3) true w c kn → ∀ v, kn.run = some v → v.1 = some 3 := by
    intro w c kn h
    induction h with
    | new w => intro v hv; simp at hv
    | @init w c kn h key p hn hg w' c' ok e ih =>
      intro v hv
      cases ok with
      | false => simp at hv
      | true =>
        simp only [if_true, kindOf] at hv
        generalize ((kn.give key).set (S.keyOf w) p).digest = o at hv
        generalize ((kn.give key).set (S.keyOf w) p).key = q at hv
        cases o <;> cases q <;> simp at hv
        rw [← hv]
    | @set w c kn h p hn w' c' ok e ih =>
      intro v hv
      apply ih v
      cases ok with
      | false => exact hv
      | true => cases p <;> exact hv
    | @update w c kn h m w' ok e ih =>
      intro v hv
      cases ok with
      | false => exact ih v hv
      | true =>
        simp only [if_true, Option.map_eq_some_iff] at hv
        obtain ⟨u, h1, h2⟩ := hv
        rw [← h2]
        exact ih u h1
    | @final w c kn h room w' r e ih =>
      intro v hv
      cases r with
      | none => exact ih v hv
      | some m => simp at hv
    | other h w' hk hm ih => exact ih
  unfold macFinal at e
  cases hc : c.mac with
  | none => rw [hc] at e; simp at e
  | some x =>
    rw [hc] at e
    obtain ⟨⟨v, h1, h2⟩, _⟩ := S.compute _ _ _ _ _ e
    have h3 := (calls_agree h).run x v hc h1
    have h4 := hr h v h3
    obtain ⟨v1, v2, v3⟩ := v
    simp only at h4
    subst h4
    exact ⟨v2, v3, h3, h2⟩

/-- The names for which this happens. -/
theorem C79_violated_names : digestFromName "SHA2-512/256" = some 3 ∧ digestFromName "SHA2-512/224" = some 3 ∧
    digestOf "SHA2-512/256" = none ∧ digestOf "SHA2-512/224" = none := by decide

/-- **C79 is violated**, whatever the API does: initialising HMAC before a digest was given reads from NULL. -/
theorem C79_violated_null (api : MacApi ω) (w w1 : ω) (b : Bytes) (k : Nat) (hi : api.keyImport w b = (w1, some k))
    (hk : api.keyOk w1 k = true) : macInit api w (macNew true) (some b) none = none := by
  simp [macInit, macNew, macInitKey, hi, hk, macSet, macStart]

/-- **C79 is violated**: an initialisation with key bytes that the API refuses leaves the handle of the released old key in the context.  If
another key `b'` gets this handle afterwards, the next initialisation without a key uses it: the MAC is made with a key that was never given
to the context. -/
theorem C79_violated_stale (api : MacApi ω) {mac : Option Nat → Bytes → Bytes → Bytes} (S : Spec api mac) (w w1 w2 w3 w4 : ω) (c : MacCtx) (k x y : Nat)
    (bad b' : Bytes) (hc : c.key = some k) (hx : c.mac = some x) (hm : c.hmac = false)
    (hi : api.keyImport (api.keyRelease (api.macRelease w x) k) bad = (w1, none))
    (hb : api.keyImport w1 b' = (w2, some k)) (hs : api.macInit w2 none k = (w3, some y)) (room : Nat) (m : Bytes)
    (hf : api.macCompute w3 y room = (w4, some m)) :
    ∃ c1 c2, macInit api w c (some bad) none = some (w1, c1, false) ∧ macInit api w2 c1 none none = some (w3, c2, true) ∧
      macFinal api w3 c2 room = (w4, some m) ∧ m = mac none b' [] := by
  obtain ⟨hm', mc, md, ck, dk⟩ := c
  simp only at hc hx hm
  subst hc hx hm
  refine ⟨{ hmac := false, mac := none, md := md, key := some k, deleteKey := dk },
    { hmac := false, mac := some y, md := md, key := some k, deleteKey := dk }, ?_, ?_, ?_, ?_⟩
  · simp [macInit, macInitKey, hi]
  · simp [macInit, macInitKey, macSet, macStart, hs]
  · simp [macFinal, hf]
  · obtain ⟨⟨v, h1, h2⟩, _⟩ := S.compute _ _ _ _ _ hf
    obtain ⟨_, b, h3, h4⟩ := S.init _ _ _ _ _ hs
    have := (S.importKey _ _ _ _ hb).2 k
    rw [if_pos rfl] at this
    rw [this] at h3
    injection h3 with h3
    rw [h4] at h1
    injection h1 with h1
    rw [h2, ← h1, h3]

/-! ## Concrete cases -/

/-- A world with keys and MAC contexts in lists; handles are used again. -/
structure World where
  keys : List (Nat × Bytes) := []
  macs : List (Nat × (Option Nat × Bytes × Bytes)) := []
  next : Nat := 0

def look {α : Type} (l : List (Nat × α)) (h : Nat) : Option α := (l.find? fun p => p.1 == h).map (·.2)

/-- A MAC that shows everything. -/
def show' (d : Option Nat) (key msg : Bytes) : Bytes := UInt8.ofNat (d.getD 9) :: key ++ [255] ++ msg

def drop {α : Type} (l : List (Nat × α)) (h : Nat) : List (Nat × α) := l.filter fun p => !(p.1 == h)

theorem look_drop {α : Type} (l : List (Nat × α)) (h x : Nat) : look (drop l h) x = if x = h then none else look l x := by
  induction l with
  | nil => simp [look, drop]
  | cons p l ih =>
    simp only [look, drop, List.filter_cons] at ih ⊢
    by_cases hp : p.1 = h
    · simp only [hp, beq_self_eq_true, Bool.not_true, Bool.false_eq_true, if_false]
      rw [ih]
      by_cases hx : x = h
      · simp [hx]
      · have : h ≠ x := fun e => hx e.symm
        simp [hx, List.find?_cons, hp, this]
    · have : (p.1 == h) = false := by simpa using hp
      simp only [this, Bool.not_false, if_true, List.find?_cons]
      by_cases hq : p.1 = x
      · have : x ≠ h := fun e => hp (hq.trans e)
        simp [hq, this]
      · have : (p.1 == x) = false := by simpa using hq
        simp only [this]
        exact ih

def shelf : MacApi World :=
  { keyImport := fun w b => if b.length = 16 ∧ (look w.keys 0).isNone then ({ w with keys := (0, b) :: w.keys }, some 0) else (w, none)
    keyOk := fun w k => (look w.keys k).isSome
    keyRelease := fun w k => { w with keys := drop w.keys k }
    macInit := fun w d k => match look w.keys k with
      | some b => if d.getD 0 ≤ 3 then ({ w with macs := (w.next, (d, b, [])) :: w.macs, next := w.next + 1 }, some w.next) else (w, none)
      | none => (w, none)
    macProcess := fun w h m => match look w.macs h with
      | some v => ({ w with macs := (h, (v.1, v.2.1, v.2.2 ++ m)) :: w.macs }, true)
      | none => (w, false)
    macCompute := fun w h _ => match look w.macs h with
      | some v => ({ w with macs := drop w.macs h }, some (show' v.1 v.2.1 v.2.2))
      | none => (w, none)
    macRelease := fun w h => { w with macs := drop w.macs h }
    fetch := fun n => if n = "SHA256" then some "SHA2-256" else if n = "SHA512-256" then some "SHA2-512/256" else none }

def shelfSpec : Spec shelf show' where
  keyOf := fun w k => look w.keys k
  msgOf := fun w h => look w.macs h
  importKey := by
    intro w b w' k e
    simp only [shelf] at e
    split at e
    · rename_i h
      simp only [Prod.mk.injEq, Option.some.injEq] at e
      obtain ⟨rfl, rfl⟩ := e
      refine ⟨by simpa using h.2, fun x => ?_⟩
      by_cases hx : x = 0
      · subst hx; simp [look]
      · have : (0 : Nat) ≠ x := fun e => hx e.symm
        simp [look, List.find?_cons, hx, this]
    · simp at e
  importMsg := by intro w b x; simp only [shelf]; split <;> rfl
  ok := by intro w k h; exact h
  release := by intro w k x; exact look_drop _ _ _
  releaseMsg := by intros; rfl
  init := by
    intro w d k w' h e
    simp only [shelf] at e
    split at e
    · rename_i b hb
      split at e
      · rename_i hd
        simp only [Prod.mk.injEq, Option.some.injEq] at e
        obtain ⟨rfl, rfl⟩ := e
        refine ⟨?_, b, hb, by simp [look]⟩
        intro x hx
        subst hx
        exact hd
      · simp at e
    · simp at e
  initKey := by intro w d k x; simp only [shelf]; split; split <;> rfl; rfl
  process := by
    intro w h m w' ok e
    simp only [shelf] at e
    split at e
    · rename_i v hv
      simp only [Prod.mk.injEq] at e
      obtain ⟨rfl, rfl⟩ := e
      simp only [if_true, hv, Option.map_some]
      simp [look]
    · simp only [Prod.mk.injEq] at e
      obtain ⟨rfl, rfl⟩ := e
      rfl
  processKey := by intro w h m x; simp only [shelf]; split <;> rfl
  compute := by
    intro w h room w' m e
    simp only [shelf] at e
    split at e
    · rename_i v hv
      simp only [Prod.mk.injEq, Option.some.injEq] at e
      obtain ⟨rfl, rfl⟩ := e
      exact ⟨⟨v, hv, rfl⟩, by simp [look_drop]⟩
    · simp at e
  computeFail := by
    intro w h room w' e
    simp only [shelf] at e
    split at e
    · simp at e
    · simp only [Prod.mk.injEq, and_true] at e
      subst e
      exact Or.inr rfl
  computeKey := by intro w h room x; simp only [shelf]; split <;> rfl
  macReleaseKey := by intros; rfl

/-- Two messages on one context, the first in two pieces; then another key. -/
example : ((macInit shelf {} (macNew true) (some (List.replicate 16 1)) (some { digest := some "SHA256" })).bind fun (w, c, _) =>
      let w := (macUpdate shelf w c [1]).1
      let w := (macUpdate shelf w c [2, 3]).1
      let (w, m1) := macFinal shelf w c 32
      (macInit shelf w c none none).bind fun (w, c, _) =>
      let w := (macUpdate shelf w c [4]).1
      let (w, m2) := macFinal shelf w c 32
      (macInit shelf w c (some (List.replicate 16 2)) none).map fun (w, c, _) =>
      let w := (macUpdate shelf w c [5]).1
      [m1, m2, (macFinal shelf w c 32).2]) =
    some [some (show' (some 1) (List.replicate 16 1) [1, 2, 3]), some (show' (some 1) (List.replicate 16 1) [4]),
      some (show' (some 1) (List.replicate 16 2) [5])] := by decide +kernel

/-- SHA-512/256. -/
example : ((macInit shelf {} (macNew true) (some (List.replicate 16 1)) (some { digest := some "SHA512-256" })).map fun (w, c, _) =>
      (macFinal shelf w c 64).2) = some (some (show' (some 3) (List.replicate 16 1) [])) := by decide +kernel

/-- The stale key. -/
example : ((macInit shelf {} (macNew false) (some (List.replicate 16 1)) none).bind fun (w, c, _) =>
      (macInit shelf w c (some []) none).bind fun (w, c, ok) =>
      let w := (shelf.keyImport w (List.replicate 16 7)).1
      (macInit shelf w c none none).map fun (w, c, _) => (ok, (macFinal shelf w c 16).2)) =
    some (false, some (show' none (List.replicate 16 7) [])) := by decide +kernel

end Sa.Pv.C79

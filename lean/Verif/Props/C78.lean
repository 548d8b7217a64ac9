import Verif.Model.ProviderCipher
import Verif.Model.ProviderKdf

/-!
# C78: The provider releases exactly the keys it owns, once, and only when they are not needed any more

Contexts of the provider own the keys they import and the keys handed over with the delete flag.  Violated: setting another key releases the
old one even if the application owns it; setting the same key again releases it while it is used; after a failing import a key is released
twice; an imported key of the wrong size is never released.  For contexts that get one key it is so.
-/

namespace Sa.Pv.C78

variable {ω : Type}

/-- What happens to keys. -/
inductive Ev where
  | imported (k : Nat)
  | released (k : Nat)
  deriving DecidableEq

/-- The API with a list of what happened. -/
def logged (api : Api ω) : Api (ω × List Ev) :=
  { keyImport := fun w b => match api.keyImport w.1 b with
      | (w1, some k) => ((w1, w.2 ++ [.imported k]), some k)
      | (w1, none) => ((w1, w.2), none)
    keySize := fun w => api.keySize w.1
    keyRelease := fun w k => (api.keyRelease w.1 k, w.2 ++ [.released k])
    cipherInit := fun w a m k p => let r := api.cipherInit w.1 a m k p; ((r.1, w.2), r.2)
    process := fun w h b n => let r := api.process w.1 h b n; ((r.1, w.2), r.2)
    processLast := fun w h b n t => let r := api.processLast w.1 h b n t; ((r.1, w.2), r.2)
    cipherRelease := fun w h => (api.cipherRelease w.1 h, w.2) }

def loggedMac (api : MacApi ω) : MacApi (ω × List Ev) :=
  { keyImport := fun w b => match api.keyImport w.1 b with
      | (w1, some k) => ((w1, w.2 ++ [.imported k]), some k)
      | (w1, none) => ((w1, w.2), none)
    keyOk := fun w => api.keyOk w.1
    keyRelease := fun w k => (api.keyRelease w.1 k, w.2 ++ [.released k])
    macInit := fun w d k => let r := api.macInit w.1 d k; ((r.1, w.2), r.2)
    macProcess := fun w h b => let r := api.macProcess w.1 h b; ((r.1, w.2), r.2)
    macCompute := fun w h n => let r := api.macCompute w.1 h n; ((r.1, w.2), r.2)
    macRelease := fun w h => (api.macRelease w.1 h, w.2)
    fetch := api.fetch }

def loggedKdf (api : KdfApi ω) : KdfApi (ω × List Ev) :=
  { keyOk := fun w => api.keyOk w.1
    keyRelease := fun w k => (api.keyRelease w.1 k, w.2 ++ [.released k])
    derive := fun w q => let r := api.derive w.1 q; ((r.1, w.2), r.2) }

/-! ## Histories -/

/-- Runs operations; `none` if one of those that set something up fails. -/
def run {σ op : Type} (step : σ → op → Option σ) : σ → List op → Option σ
  | s, [] => some s
  | s, o :: os => (step s o).bind fun s => run step s os

/-- What a kind of contexts has for the property: key, delete flag, events. -/
structure View where
  key : Option Nat
  own : Bool
  log : List Ev

/-- What an operation gives: a handle, bytes of a key, a delete flag. -/
structure Gives where
  handle : Option Nat := none
  bytes : Bool := false
  flag : Option Bool := none

def Gives.noKey (g : Gives) : Prop := g.handle = none ∧ g.bytes = false

/-- The delete flag given last. -/
def lastFlag {op : Type} (gives : op → Gives) : List op → Option Bool
  | [] => none
  | o :: os => (lastFlag gives os).or (gives o).flag

theorem lastFlag_append {op : Type} (gives : op → Gives) (a b : List op) : lastFlag gives (a ++ b) = (lastFlag gives b).or (lastFlag gives a) := by
  induction a with
  | nil => simp [lastFlag]
  | cons o a ih => simp [lastFlag, ih, Option.or_assoc]

/-- One step of a kind of contexts, as far as keys are concerned. -/
structure Steps {σ op : Type} (step : σ → op → Option σ) (gives : op → Gives) (view : σ → View) : Prop where
  quiet : ∀ s o s', (gives o).noKey → step s o = some s' →
    view s' = ⟨(view s).key, (gives o).flag.getD (view s).own, (view s).log⟩
  handle : ∀ s o s' k, (gives o).handle = some k → (gives o).bytes = false → (view s).key = none → step s o = some s' →
    view s' = ⟨some k, (gives o).flag.getD (view s).own, (view s).log⟩
  bytes : ∀ s o s', (gives o).handle = none → (gives o).bytes = true → (view s).key = none → step s o = some s' →
    ∃ k, view s' = ⟨some k, (gives o).flag.getD true, (view s).log ++ [.imported k]⟩

section
variable {σ op : Type} {step : σ → op → Option σ} {gives : op → Gives} {view : σ → View}

theorem run_quiet (hS : Steps step gives view) (os : List op) : ∀ s s', (∀ o ∈ os, (gives o).noKey) → run step s os = some s' →
    view s' = ⟨(view s).key, (lastFlag gives os).getD (view s).own, (view s).log⟩ := by
  induction os with
  | nil => intro s s' _ h; simp only [run, Option.some.injEq] at h; subst h; rfl
  | cons o os ih =>
    intro s s' hn h
    simp only [run] at h
    cases hs : step s o with
    | none => rw [hs] at h; simp at h
    | some s1 =>
      rw [hs] at h
      have q := hS.quiet s o s1 (hn o List.mem_cons_self) hs
      have i := ih s1 s' (fun x hx => hn x (List.mem_cons_of_mem _ hx)) h
      rw [i, q]
      simp only [lastFlag]
      cases lastFlag gives os <;> cases (gives o).flag <;> rfl

theorem run_append (os : List op) : ∀ s (os' : List op), run step s (os ++ os') = (run step s os).bind fun s => run step s os' := by
  induction os with
  | nil => intros; rfl
  | cons o os ih =>
    intro s os'
    simp only [List.cons_append, run]
    cases step s o with
    | none => rfl
    | some s1 => exact ih s1 os'

/-- The history of a context that gets one key. -/
theorem run_one (hS : Steps step gives view) (s s' : σ) (pre post : List op) (o : op) (h0 : view s = ⟨none, false, []⟩)
    (hpre : ∀ x ∈ pre, (gives x).noKey) (hpost : ∀ x ∈ post, (gives x).noKey) (h : run step s (pre ++ o :: post) = some s') :
    (∀ k, (gives o).handle = some k → (gives o).bytes = false → view s' = ⟨some k, (lastFlag gives (pre ++ o :: post)).getD false, []⟩) ∧
    ((gives o).handle = none → (gives o).bytes = true →
      ∃ k, view s' = ⟨some k, (lastFlag gives (o :: post)).getD true, [.imported k]⟩) := by
  rw [run_append] at h
  cases h1 : run step s pre with
  | none => rw [h1] at h; simp at h
  | some s1 =>
    rw [h1] at h
    simp only [Option.bind_some, run] at h
    have v1 := run_quiet hS pre s s1 hpre h1
    rw [h0] at v1
    cases h2 : step s1 o with
    | none => rw [h2] at h; simp at h
    | some s2 =>
      rw [h2] at h
      simp only [Option.bind_some] at h
      have v3 := run_quiet hS post s2 s' hpost h
      constructor
      · intro k hk hb
        have v2 := hS.handle s1 o s2 k hk hb (by rw [v1]) h2
        rw [v3, v2, v1]
        rw [lastFlag_append]
        simp only [lastFlag]
        cases lastFlag gives post <;> cases (gives o).flag <;> cases lastFlag gives pre <;> rfl
      · intro hk hb
        obtain ⟨k, v2⟩ := hS.bytes s1 o s2 hk hb (by rw [v1]) h2
        refine ⟨k, ?_⟩
        rw [v3, v2, v1]
        simp only [lastFlag, List.nil_append]
        cases lastFlag gives post <;> cases (gives o).flag <;> rfl

end

/-! ## The three kinds of contexts -/

/-- What an application does with a cipher context. -/
inductive CipherOp where
  | init (mode : Nat) (key iv : Option Bytes) (p : Option Params)
  | set (p : Params)
  | call (out : Option Nat) (inp : Option Bytes)

def CipherOp.gives : CipherOp → Gives
  | .init _ key _ p => { handle := p.bind (·.key), bytes := key.isSome, flag := p.bind (·.deleteKey) }
  | .set p => { handle := p.key, flag := p.deleteKey }
  | .call _ _ => {}

def cipherStep (api : Api ω) (s : ω × Ctx) : CipherOp → Option (ω × Ctx)
  | .init m k iv p => match init api s.1 s.2 m k iv p with
    | (w, c, true) => some (w, c)
    | _ => none
  | .set p => match setParams api s.1 s.2 p with
    | (w, c, true) => some (w, c)
    | _ => none
  | .call out inp => let r := call api s.1 s.2 out inp; some (r.1, r.2.1)

def cipherView (s : (ω × List Ev) × Ctx) : View := ⟨s.2.key, s.2.deleteKey, s.1.2⟩

theorem setPlain_keys {c c1 : Ctx} {p : Params} (h : setPlain c p = some c1) : c1.key = c.key ∧ c1.deleteKey = c.deleteKey := by
  obtain ⟨pa, t, k, d⟩ := p
  cases pa <;> cases t <;> simp only [setPlain] at h <;> (try split at h) <;> simp at h <;> subst h <;> exact ⟨rfl, rfl⟩

theorem setKey_keys (api : Api ω) {w w' : ω × List Ev} {c c' : Ctx} {o : Option Nat} (h : setKey (logged api) w c o = (w', some c')) :
    c'.deleteKey = c.deleteKey ∧ (o = none → c'.key = c.key ∧ w' = w) ∧ (∀ k, o = some k → c.key = none → c'.key = some k ∧ w' = w) := by
  cases o with
  | none =>
    simp only [setKey, Prod.mk.injEq, Option.some.injEq] at h
    obtain ⟨rfl, rfl⟩ := h
    exact ⟨rfl, fun _ => ⟨rfl, rfl⟩, fun k e => by simp at e⟩
  | some k =>
    simp only [setKey] at h
    split at h
    · simp at h
    · cases hk : c.key with
      | none =>
        rw [hk] at h
        simp only [Prod.mk.injEq, Option.some.injEq] at h
        obtain ⟨rfl, rfl⟩ := h
        exact ⟨rfl, fun e => by simp at e, fun k' e _ => ⟨e, rfl⟩⟩
      | some old =>
        rw [hk] at h
        simp only [Prod.mk.injEq, Option.some.injEq] at h
        obtain ⟨_, rfl⟩ := h
        exact ⟨rfl, fun e => by simp at e, fun k' _ e => by simp at e⟩

theorem setParams_keys (api : Api ω) {w w' : ω × List Ev} {c c' : Ctx} {p : Params}
    (h : setParams (logged api) w c p = (w', c', true)) :
    c'.deleteKey = p.deleteKey.getD c.deleteKey ∧
    (p.key = none → c'.key = c.key ∧ w' = w) ∧ (∀ k, p.key = some k → c.key = none → c'.key = some k ∧ w' = w) := by
  unfold setParams at h
  cases h1 : setPlain c p with
  | none => rw [h1] at h; simp at h
  | some c1 =>
    rw [h1] at h
    obtain ⟨k1, k2⟩ := setPlain_keys h1
    simp only at h
    cases h2 : setKey (logged api) w c1 p.key with
    | mk w2 r => cases r with
      | none => rw [h2] at h; simp at h
      | some c2 =>
        rw [h2] at h
        simp only [Prod.mk.injEq, and_true] at h
        obtain ⟨rfl, rfl⟩ := h
        obtain ⟨a1, a2, a3⟩ := setKey_keys api h2
        rw [k1, k2] at *
        cases p.deleteKey <;> exact ⟨by simp [a1], a2, a3⟩

theorem initKey_keys (api : Api ω) {w w' : ω × List Ev} {c c' : Ctx} {b : Option Bytes} (h : initKey (logged api) w c b = (w', c', true)) :
    (b = none → c' = c ∧ w' = w) ∧
    (b.isSome → c.key = none → ∃ k, c'.key = some k ∧ c'.deleteKey = true ∧ w'.2 = w.2 ++ [.imported k]) := by
  cases b with
  | none =>
    simp only [initKey, Prod.mk.injEq, and_true] at h
    exact ⟨fun _ => ⟨h.2.symm, h.1.symm⟩, fun e => by simp at e⟩
  | some b =>
    refine ⟨fun e => by simp at e, fun _ hk => ?_⟩
    simp only [initKey, hk] at h
    cases hi : (logged api).keyImport w b with
    | mk w1 r =>
      rw [hi] at h
      cases r with
      | none => simp at h
      | some k =>
        have hw : w1.2 = w.2 ++ [.imported k] := by
          simp only [logged] at hi
          cases hj : api.keyImport w.1 b with
          | mk w2 r => cases r with
            | none => rw [hj] at hi; simp at hi
            | some k2 =>
              rw [hj] at hi
              simp only [Prod.mk.injEq, Option.some.injEq] at hi
              rw [← hi.1, ← hi.2]
        simp only at h
        split at h
        · simp at h
        · simp only [Prod.mk.injEq, and_true] at h
          obtain ⟨rfl, rfl⟩ := h
          exact ⟨k, rfl, rfl, hw⟩

/-- `cipher_init` behind the release of the SA context. -/
theorem init_keys (api : Api ω) {w w' : ω × List Ev} {c c' : Ctx} {m : Nat} {b iv : Option Bytes} {p : Option Params} :
    init (logged api) w c m b iv p = (w', c', true) → ∃ (w1 w2 : ω × List Ev) (c1 c2 : Ctx), w1.2 = w.2 ∧ c1.key = c.key ∧ c1.deleteKey = c.deleteKey ∧
      initKey (logged api) w1 c1 b = (w2, c2, true) ∧
      ((p = none ∧ w' = w2 ∧ c' = c2) ∨ ∃ q, p = some q ∧ setParams (logged api) w2 c2 q = (w', c', true)) := by
  intro h
  unfold init at h
  simp only at h
  split at h
  · simp at h
  · split at h
    · simp at h
    · rename_i w2 c2 h2
      refine ⟨_, _, { c with mode := m, cipher := none, iv := overwrite c.iv (iv.getD []) }, _, ?_, rfl, rfl, h2, ?_⟩
      · unfold dropCipher; cases c.cipher <;> rfl
      · cases p with
        | none =>
          simp only [Prod.mk.injEq, and_true] at h
          exact Or.inl ⟨rfl, h.1.symm, h.2.symm⟩
        | some q => exact Or.inr ⟨q, rfl, h⟩

theorem feed_log (api : Api ω) (h room : Nat) (s : Loop (ω × List Ev)) (b : Bytes) :
    ((s.feed (logged api) h room b).world).2 = s.world.2 := by
  unfold Loop.feed
  simp only [logged]
  cases api.process s.world.1 h b (room - s.out.length) with
  | mk w r => cases r <;> rfl

theorem loop_log (api : Api ω) (h room bs : Nat) (inp : Bytes) (n : Nat) : ∀ s : Loop (ω × List Ev),
    ((loop (logged api) h room bs inp n s).world).2 = s.world.2 := by
  induction n with
  | zero => intro s; rfl
  | succ n ih =>
    intro s
    unfold loop
    split
    · rfl
    · split
      · simp only
        rw [ih, feed_log]
      · simp only
        rw [ih, feed_log]

theorem call_keys (api : Api ω) (w : ω × List Ev) (c : Ctx) (out : Option Nat) (inp : Option Bytes) :
    (call (logged api) w c out inp).1.2 = w.2 ∧ (call (logged api) w c out inp).2.1.key = c.key ∧
    (call (logged api) w c out inp).2.1.deleteKey = c.deleteKey := by
  have main : ∀ (w1 : ω × List Ev) (c1 : Ctx) (h : Nat), (update (logged api) w1 c1 h (out.getD 0) (inp.getD [])).1.2 = w1.2 ∧
      (final (logged api) w1 c1 h (out.getD 0)).1.2 = w1.2 ∧ (final (logged api) w1 c1 h (out.getD 0)).2.1.key = c1.key ∧
      (final (logged api) w1 c1 h (out.getD 0)).2.1.deleteKey = c1.deleteKey := by
    intro w1 c1 h
    refine ⟨?_, ?_⟩
    · unfold update
      simp only
      rw [loop_log]
    · unfold final
      split
      · simp only [logged]
        cases api.processLast w1.1 h c1.rem (out.getD 0) (if c1.aead then some c1.tag else none) with
        | mk w2 r => cases r <;> exact ⟨rfl, rfl, rfl⟩
      · split <;> exact ⟨rfl, rfl, rfl⟩
  unfold call
  cases hk : c.key with
  | none => exact ⟨rfl, hk, rfl⟩
  | some k =>
    simp only
    have he : ∀ aad, (ensure (logged api) w c k aad).1.2 = w.2 ∧
        ∀ c1 h, (ensure (logged api) w c k aad).2 = some (c1, h) → c1.key = c.key ∧ c1.deleteKey = c.deleteKey := by
      intro aad
      unfold ensure
      cases c.cipher with
      | some h =>
        refine ⟨rfl, ?_⟩
        rintro c1 h ⟨⟩
        exact ⟨rfl, rfl⟩
      | none =>
        simp only
        cases saParams c aad with
        | none => exact ⟨rfl, fun _ _ e => by simp at e⟩
        | some sp =>
          simp only [logged]
          cases api.cipherInit w.1 c.alg c.mode k sp with
          | mk w2 r => cases r with
            | none => exact ⟨rfl, fun _ _ e => by simp at e⟩
            | some h =>
              refine ⟨rfl, ?_⟩
              rintro c1 h ⟨⟩
              exact ⟨rfl, rfl⟩
    have he := he (if out.isNone then inp.getD [] else [])
    cases hx : ensure (logged api) w c k (if out.isNone then inp.getD [] else []) with
    | mk w2 r =>
      rw [hx] at he
      cases r with
      | none => exact ⟨he.1, hk, rfl⟩
      | some r =>
        obtain ⟨c1, h⟩ := r
        obtain ⟨e1, e2⟩ := he
        obtain ⟨e2, e3⟩ := e2 c1 h rfl
        rw [hk] at e2
        have m := main w2 c1 h
        cases out with
        | none => exact ⟨e1, e2, e3⟩
        | some room => cases inp with
          | none => exact ⟨m.2.1.trans e1, m.2.2.1.trans e2, m.2.2.2.trans e3⟩
          | some x => exact ⟨m.1.trans e1, e2, e3⟩

theorem cipher_steps (api : Api ω) : Steps (cipherStep (logged api)) CipherOp.gives cipherView := by
  constructor
  · intro s o s' hn h
    cases o with
    | call out inp =>
      simp only [cipherStep, Option.some.injEq] at h
      subst h
      obtain ⟨a, b, c⟩ := call_keys api s.1 s.2 out inp
      simp only [cipherView, CipherOp.gives, Option.getD_none, a, b, c]
    | set p =>
      simp only [cipherStep] at h
      cases hs : setParams (logged api) s.1 s.2 p with
      | mk w2 r =>
        obtain ⟨c2, ok⟩ := r
        rw [hs] at h
        cases ok with
        | false => simp at h
        | true =>
          simp only [Option.some.injEq] at h
          subst h
          obtain ⟨a, b, _⟩ := setParams_keys api hs
          obtain ⟨b, c⟩ := b hn.1
          simp only [cipherView, CipherOp.gives, a, b, c]
    | init m key iv p =>
      simp only [cipherStep] at h
      cases hs : init (logged api) s.1 s.2 m key iv p with
      | mk w2 r =>
        obtain ⟨c2, ok⟩ := r
        rw [hs] at h
        cases ok with
        | false => simp at h
        | true =>
          simp only [Option.some.injEq] at h
          subst h
          obtain ⟨w1, w3, c1, c3, a1, a2, a3, a4, a5⟩ := init_keys api hs
          have hb : key = none := by have := hn.2; simpa [CipherOp.gives] using this
          obtain ⟨e1, e2⟩ := (initKey_keys api a4).1 hb
          subst e1 e2
          rcases a5 with ⟨rfl, rfl, rfl⟩ | ⟨q, rfl, hq⟩
          · simp only [cipherView, CipherOp.gives, a1, a2, a3]; rfl
          · obtain ⟨b1, b2, _⟩ := setParams_keys api hq
            obtain ⟨b2, b3⟩ := b2 hn.1
            simp only [cipherView, CipherOp.gives, b1, b2, b3, a1, a2, a3]; rfl
  · intro s o s' k hk hb h0 h
    simp only [cipherView] at h0
    cases o with
    | call out inp => simp [CipherOp.gives] at hk
    | set p =>
      simp only [cipherStep] at h
      cases hs : setParams (logged api) s.1 s.2 p with
      | mk w2 r =>
        obtain ⟨c2, ok⟩ := r
        rw [hs] at h
        cases ok with
        | false => simp at h
        | true =>
          simp only [Option.some.injEq] at h
          subst h
          obtain ⟨a, _, b⟩ := setParams_keys api hs
          obtain ⟨b, c⟩ := b k hk h0
          simp only [cipherView, CipherOp.gives, a, b, c]
    | init m key iv p =>
      simp only [cipherStep] at h
      cases hs : init (logged api) s.1 s.2 m key iv p with
      | mk w2 r =>
        obtain ⟨c2, ok⟩ := r
        rw [hs] at h
        cases ok with
        | false => simp at h
        | true =>
          simp only [Option.some.injEq] at h
          subst h
          obtain ⟨w1, w3, c1, c3, a1, a2, a3, a4, a5⟩ := init_keys api hs
          have hb : key = none := by simpa [CipherOp.gives] using hb
          obtain ⟨e1, e2⟩ := (initKey_keys api a4).1 hb
          subst e1 e2
          rcases a5 with ⟨rfl, rfl, rfl⟩ | ⟨q, rfl, hq⟩
          · simp [CipherOp.gives] at hk
          · obtain ⟨b1, _, b2⟩ := setParams_keys api hq
            obtain ⟨b2, b3⟩ := b2 k hk (a2.trans h0)
            simp only [cipherView, CipherOp.gives, b1, b2, b3, a1, a3]; rfl
  · intro s o s' hk hb h0 h
    simp only [cipherView] at h0
    cases o with
    | call out inp => simp [CipherOp.gives] at hb
    | set p => simp [CipherOp.gives] at hb
    | init m key iv p =>
      simp only [cipherStep] at h
      cases hs : init (logged api) s.1 s.2 m key iv p with
      | mk w2 r =>
        obtain ⟨c2, ok⟩ := r
        rw [hs] at h
        cases ok with
        | false => simp at h
        | true =>
          simp only [Option.some.injEq] at h
          subst h
          obtain ⟨w1, w3, c1, c3, a1, a2, a3, a4, a5⟩ := init_keys api hs
          obtain ⟨k, e1, e2, e3⟩ := (initKey_keys api a4).2 hb (a2.trans h0)
          refine ⟨k, ?_⟩
          rcases a5 with ⟨rfl, rfl, rfl⟩ | ⟨q, rfl, hq⟩
          · simp only [cipherView, CipherOp.gives, e1, e2, e3, a1]; rfl
          · obtain ⟨b1, b2, _⟩ := setParams_keys api hq
            obtain ⟨b2, b3⟩ := b2 hk
            simp only [cipherView, CipherOp.gives, b1, b2, b3, e1, e2, e3, a1]; rfl

/-- What an application does with a MAC context. -/
inductive MacOp where
  | init (key : Option Bytes) (p : Option MacPrm)
  | set (p : Option MacPrm)
  | update (m : Bytes)
  | final (room : Nat)

def MacOp.gives : MacOp → Gives
  | .init key p => { handle := p.bind (·.key), bytes := key.isSome, flag := p.bind (·.deleteKey) }
  | .set p => { handle := p.bind (·.key), flag := p.bind (·.deleteKey) }
  | _ => {}

def macStep (api : MacApi ω) (s : ω × MacCtx) : MacOp → Option (ω × MacCtx)
  | .init k p => match macInit api s.1 s.2 k p with
    | some (w, c, true) => some (w, c)
    | _ => none
  | .set p => match macSet api s.1 s.2 p with
    | (w, c, true) => some (w, c)
    | _ => none
  | .update m => some ((macUpdate api s.1 s.2 m).1, s.2)
  | .final n => some ((macFinal api s.1 s.2 n).1, s.2)

def macView (s : (ω × List Ev) × MacCtx) : View := ⟨s.2.key, s.2.deleteKey, s.1.2⟩

theorem macSetKey_keys (api : MacApi ω) {w w' : ω × List Ev} {c c' : MacCtx} {o : Option Nat}
    (h : macSetKey (loggedMac api) w c o = (w', c', true)) :
    c'.deleteKey = c.deleteKey ∧ (o = none → c'.key = c.key ∧ w' = w) ∧ (∀ k, o = some k → c.key = none → c'.key = some k ∧ w' = w) := by
  cases o with
  | none =>
    simp only [macSetKey, Prod.mk.injEq, and_true] at h
    obtain ⟨rfl, rfl⟩ := h
    exact ⟨rfl, fun _ => ⟨rfl, rfl⟩, fun k e => by simp at e⟩
  | some k =>
    simp only [macSetKey, Prod.mk.injEq] at h
    obtain ⟨rfl, rfl, _⟩ := h
    refine ⟨rfl, fun e => by simp at e, fun k' e hk => ⟨e, ?_⟩⟩
    rw [hk]

theorem macSet_keys (api : MacApi ω) {w w' : ω × List Ev} {c c' : MacCtx} {p : Option MacPrm}
    (h : macSet (loggedMac api) w c p = (w', c', true)) :
    c'.deleteKey = (p.bind (·.deleteKey)).getD c.deleteKey ∧
    (p.bind (·.key) = none → c'.key = c.key ∧ w' = w) ∧
    (∀ k, p.bind (·.key) = some k → c.key = none → c'.key = some k ∧ w' = w) := by
  cases p with
  | none =>
    simp only [macSet, Prod.mk.injEq, and_true] at h
    obtain ⟨rfl, rfl⟩ := h
    exact ⟨rfl, fun _ => ⟨rfl, rfl⟩, fun k e => by simp at e⟩
  | some p =>
    have hc : ∀ c1 : MacCtx, c1.key = c.key → c1.deleteKey = c.deleteKey →
        (∀ w2 c2, macSetKey (loggedMac api) w c1 p.key = (w2, c2, true) → w' = w2 → c' = { c2 with deleteKey := p.deleteKey.getD c2.deleteKey } →
        c'.deleteKey = p.deleteKey.getD c.deleteKey ∧ (p.key = none → c'.key = c.key ∧ w' = w) ∧
        (∀ k, p.key = some k → c.key = none → c'.key = some k ∧ w' = w)) := by
      intro c1 k1 k2 w2 c2 h2 e1 e2
      obtain ⟨a1, a2, a3⟩ := macSetKey_keys api h2
      subst e1 e2
      rw [k1] at a2 a3
      exact ⟨by simp [a1, k2], a2, a3⟩
    obtain ⟨dg, pk, pd⟩ := p
    cases dg with
    | none =>
      simp only [macSet, Option.isSome_none, Bool.false_and, Bool.false_eq_true, if_false] at h
      split at h
      · simp at h
      · rename_i w2 c2 h2
        simp only [Prod.mk.injEq, and_true] at h
        exact hc c rfl rfl w2 c2 h2 h.1.symm h.2.symm
    | some n =>
      simp only [macSet] at h
      split at h
      · simp at h
      · split at h
        · simp at h
        · rename_i w2 c2 h2
          simp only [Prod.mk.injEq, and_true] at h
          exact hc { c with md := (loggedMac api).fetch n } rfl rfl w2 c2 h2 h.1.symm h.2.symm

theorem macInitKey_keys (api : MacApi ω) {w w' : ω × List Ev} {c c' : MacCtx} {b : Option Bytes}
    (h : macInitKey (loggedMac api) w c b = (w', c', true)) :
    (b = none → c' = c ∧ w' = w) ∧
    (b.isSome → c.key = none → ∃ k, c'.key = some k ∧ c'.deleteKey = true ∧ w'.2 = w.2 ++ [.imported k]) := by
  cases b with
  | none =>
    simp only [macInitKey, Prod.mk.injEq, and_true] at h
    exact ⟨fun _ => ⟨h.2.symm, h.1.symm⟩, fun e => by simp at e⟩
  | some b =>
    refine ⟨fun e => by simp at e, fun _ hk => ?_⟩
    simp only [macInitKey, hk] at h
    cases hi : (loggedMac api).keyImport w b with
    | mk w1 r =>
      rw [hi] at h
      cases r with
      | none => simp at h
      | some k =>
        have hw : w1.2 = w.2 ++ [.imported k] := by
          simp only [loggedMac] at hi
          cases hj : api.keyImport w.1 b with
          | mk w2 r => cases r with
            | none => rw [hj] at hi; simp at hi
            | some k2 =>
              rw [hj] at hi
              simp only [Prod.mk.injEq, Option.some.injEq] at hi
              rw [← hi.1, ← hi.2]
        simp only at h
        split at h
        · simp at h
        · simp only [Prod.mk.injEq, and_true] at h
          obtain ⟨rfl, rfl⟩ := h
          exact ⟨k, rfl, rfl, hw⟩

theorem macStart_keys (api : MacApi ω) {w w' : ω × List Ev} {c c' : MacCtx} (h : macStart (loggedMac api) w c = some (w', c', true)) :
    c'.key = c.key ∧ c'.deleteKey = c.deleteKey ∧ w'.2 = w.2 := by
  have go : ∀ d k w2 x, (loggedMac api).macInit w d k = (w2, some x) → w2.2 = w.2 := by
    intro d k w2 x h
    simp only [loggedMac, Prod.mk.injEq] at h
    rw [← h.1]
  obtain ⟨hm, mac, md, key, dk⟩ := c
  cases key with
  | none => simp [macStart] at h
  | some k =>
    cases hm with
    | false =>
      simp only [macStart, Bool.false_eq_true, if_false] at h
      split at h
      · simp at h
      · rename_i w2 x h2
        simp only [Option.some.injEq, Prod.mk.injEq, and_true] at h
        obtain ⟨rfl, rfl⟩ := h
        exact ⟨rfl, rfl, go _ _ _ _ h2⟩
    | true => cases md with
      | none => simp [macStart] at h
      | some n =>
        simp only [macStart, if_true] at h
        split at h
        · simp at h
        · rename_i w2 x h2
          simp only [Option.some.injEq, Prod.mk.injEq, and_true] at h
          obtain ⟨rfl, rfl⟩ := h
          exact ⟨rfl, rfl, go _ _ _ _ h2⟩

theorem macInit_keys (api : MacApi ω) {w w' : ω × List Ev} {c c' : MacCtx} {b : Option Bytes} {p : Option MacPrm} :
    macInit (loggedMac api) w c b p = some (w', c', true) → ∃ (w1 w2 w3 : ω × List Ev) (c1 c2 c3 : MacCtx), w1.2 = w.2 ∧ c1.key = c.key ∧
      c1.deleteKey = c.deleteKey ∧ macInitKey (loggedMac api) w1 c1 b = (w2, c2, true) ∧ macSet (loggedMac api) w2 c2 p = (w3, c3, true) ∧
      c'.key = c3.key ∧ c'.deleteKey = c3.deleteKey ∧ w'.2 = w3.2 := by
  intro h
  unfold macInit at h
  simp only at h
  split at h
  · simp at h
  · rename_i w2 c2 h2
    split at h
    · simp at h
    · rename_i w3 c3 h3
      refine ⟨_, w2, w3, { c with mac := none }, c2, c3, ?_, rfl, rfl, h2, h3, macStart_keys api h⟩
      cases c.mac <;> rfl

theorem mac_steps (api : MacApi ω) : Steps (macStep (loggedMac api)) MacOp.gives macView := by
  have hset : ∀ (s s' : (ω × List Ev) × MacCtx) p, macStep (loggedMac api) s (.set p) = some s' →
      macSet (loggedMac api) s.1 s.2 p = (s'.1, s'.2, true) := by
    intro s s' p h
    simp only [macStep] at h
    split at h
    · rename_i h1
      simp only [Option.some.injEq] at h
      subst h
      exact h1
    · simp at h
  have hinit : ∀ (s s' : (ω × List Ev) × MacCtx) k p, macStep (loggedMac api) s (.init k p) = some s' →
      macInit (loggedMac api) s.1 s.2 k p = some (s'.1, s'.2, true) := by
    intro s s' k p h
    simp only [macStep] at h
    split at h
    · rename_i h1
      simp only [Option.some.injEq] at h
      subst h
      exact h1
    · simp at h
  constructor
  · intro s o s' hn h
    cases o with
    | update m =>
      simp only [macStep, Option.some.injEq] at h
      subst h
      simp only [macView, MacOp.gives, Option.getD_none, macUpdate]
      cases s.2.mac <;> rfl
    | final n =>
      simp only [macStep, Option.some.injEq] at h
      subst h
      simp only [macView, MacOp.gives, Option.getD_none, macFinal]
      cases s.2.mac <;> rfl
    | set p =>
      obtain ⟨a, b, _⟩ := macSet_keys api (hset s s' p h)
      obtain ⟨b, c⟩ := b hn.1
      simp only [macView, MacOp.gives, a, b, c]
    | init key p =>
      obtain ⟨w1, w2, w3, c1, c2, c3, a1, a2, a3, a4, a5, a6, a7, a8⟩ := macInit_keys api (hinit s s' key p h)
      have hb : key = none := by have := hn.2; simpa [MacOp.gives] using this
      obtain ⟨e1, e2⟩ := (macInitKey_keys api a4).1 hb
      subst e1 e2
      obtain ⟨b1, b2, _⟩ := macSet_keys api a5
      obtain ⟨b2, b3⟩ := b2 hn.1
      simp only [macView, MacOp.gives, a6, a7, a8, b1, b2, b3, a1, a2, a3]
  · intro s o s' k hk hb h0 h
    simp only [macView] at h0
    cases o with
    | update m => simp [MacOp.gives] at hk
    | final m => simp [MacOp.gives] at hk
    | set p =>
      obtain ⟨a, _, b⟩ := macSet_keys api (hset s s' p h)
      obtain ⟨b, c⟩ := b k hk h0
      simp only [macView, MacOp.gives, a, b, c]
    | init key p =>
      obtain ⟨w1, w2, w3, c1, c2, c3, a1, a2, a3, a4, a5, a6, a7, a8⟩ := macInit_keys api (hinit s s' key p h)
      have hb : key = none := by simpa [MacOp.gives] using hb
      obtain ⟨e1, e2⟩ := (macInitKey_keys api a4).1 hb
      subst e1 e2
      obtain ⟨b1, _, b2⟩ := macSet_keys api a5
      obtain ⟨b2, b3⟩ := b2 k hk (a2.trans h0)
      simp only [macView, MacOp.gives, a6, a7, a8, b1, b2, b3, a1, a3]
  · intro s o s' hk hb h0 h
    simp only [macView] at h0
    cases o with
    | update m => simp [MacOp.gives] at hb
    | final m => simp [MacOp.gives] at hb
    | set p => simp [MacOp.gives] at hb
    | init key p =>
      obtain ⟨w1, w2, w3, c1, c2, c3, a1, a2, a3, a4, a5, a6, a7, a8⟩ := macInit_keys api (hinit s s' key p h)
      obtain ⟨k, e1, e2, e3⟩ := (macInitKey_keys api a4).2 hb (a2.trans h0)
      refine ⟨k, ?_⟩
      obtain ⟨b1, b2, _⟩ := macSet_keys api a5
      obtain ⟨b2, b3⟩ := b2 hk
      simp only [macView, MacOp.gives, a6, a7, a8, b1, b2, b3, e1, e2, e3, a1]

/-- What an application does with a KDF context. -/
inductive KdfOp where
  | set (p : KdfPrm)
  | derive (L : Nat) (p : KdfPrm)

/-- Of two handles given at once the second counts; then the first is released. -/
def KdfOp.gives : KdfOp → Gives
  | .set p => { handle := p.saKey.or p.key, flag := p.deleteKey }
  | .derive _ p => { handle := p.saKey.or p.key, flag := p.deleteKey }

/-- Only one handle is given. -/
def KdfOp.One : KdfOp → Prop
  | .set p => p.key = none ∨ p.saKey = none
  | .derive _ p => p.key = none ∨ p.saKey = none

/-- A derivation may fail, but not because of the parameters. -/
def kdfStep (api : KdfApi ω) (s : ω × KdfCtx) : KdfOp → Option (ω × KdfCtx)
  | .set p => match kdfSet api s.1 s.2 (some p) with
    | (w, c, true) => some (w, c)
    | _ => none
  | .derive L p => if (kdfSet api s.1 s.2 (some p)).2.2 then (kdfDerive api s.1 s.2 L (some p)).map fun r => (r.1, r.2.1) else none

def kdfView (s : (ω × List Ev) × KdfCtx) : View := ⟨s.2.key, s.2.deleteKey, s.1.2⟩

theorem kdfSet_keys (api : KdfApi ω) {w w' : ω × List Ev} {c c' : KdfCtx} {p : KdfPrm} (ho : p.key = none ∨ p.saKey = none)
    (h : kdfSet (loggedKdf api) w c (some p) = (w', c', true)) :
    c'.deleteKey = p.deleteKey.getD c.deleteKey ∧ (p.saKey.or p.key = none → c'.key = c.key ∧ w' = w) ∧
    (∀ k, p.saKey.or p.key = some k → c.key = none → c'.key = some k ∧ w' = w) := by
  have one : ∀ {w w' : ω × List Ev} {c c' : KdfCtx} {o : Option Nat}, kdfSetKey (loggedKdf api) w c o = (w', c', true) →
      c'.deleteKey = c.deleteKey ∧ (o = none → c'.key = c.key ∧ w' = w) ∧ (∀ k, o = some k → c.key = none → c'.key = some k ∧ w' = w) := by
    intro w w' c c' o h
    cases o with
    | none =>
      simp only [kdfSetKey, Prod.mk.injEq, and_true] at h
      obtain ⟨rfl, rfl⟩ := h
      exact ⟨rfl, fun _ => ⟨rfl, rfl⟩, fun k e => by simp at e⟩
    | some k =>
      simp only [kdfSetKey] at h
      split at h
      · simp at h
      · simp only [Prod.mk.injEq, and_true] at h
        obtain ⟨rfl, rfl⟩ := h
        refine ⟨rfl, fun e => by simp at e, fun k' e hk => ⟨e, ?_⟩⟩
        rw [hk]
  simp only [kdfSet] at h
  split at h
  · simp at h
  · rename_i w1 c1 h1
    split at h
    · simp at h
    · rename_i w2 c2 h2
      simp only [Prod.mk.injEq, and_true] at h
      obtain ⟨rfl, rfl⟩ := h
      obtain ⟨a1, a2, a3⟩ := one h1
      obtain ⟨b1, b2, b3⟩ := one h2
      refine ⟨by simp [kdfSetRest, b1, a1], fun hn => ?_, fun k hk h0 => ?_⟩
      · simp only [Option.or_eq_none_iff] at hn
        obtain ⟨x1, x2⟩ := a2 hn.2
        obtain ⟨y1, y2⟩ := b2 hn.1
        exact ⟨y1.trans x1, y2.trans x2⟩
      · rcases ho with ho | ho
        · rw [ho, Option.or_none] at hk
          obtain ⟨x1, x2⟩ := a2 ho
          obtain ⟨y1, y2⟩ := b3 k hk (x1.trans h0)
          exact ⟨y1, y2.trans x2⟩
        · rw [ho, Option.none_or] at hk
          obtain ⟨x1, x2⟩ := a3 k hk h0
          obtain ⟨y1, y2⟩ := b2 ho
          exact ⟨y1.trans x1, y2.trans x2⟩

theorem kdfStep_keys (api : KdfApi ω) {s s' : (ω × List Ev) × KdfCtx} {o : KdfOp} (ho : o.One) (h : kdfStep (loggedKdf api) s o = some s') :
    s'.2.deleteKey = o.gives.flag.getD s.2.deleteKey ∧ (o.gives.handle = none → s'.2.key = s.2.key ∧ s'.1.2 = s.1.2) ∧
    (∀ k, o.gives.handle = some k → s.2.key = none → s'.2.key = some k ∧ s'.1.2 = s.1.2) := by
  cases o with
  | set p =>
    simp only [kdfStep] at h
    split at h
    · rename_i h1
      simp only [Option.some.injEq] at h
      subst h
      obtain ⟨a, b, c⟩ := kdfSet_keys api ho h1
      refine ⟨a, fun hn => ?_, fun k hk h0 => ?_⟩
      · obtain ⟨x, y⟩ := b hn
        exact ⟨x, by rw [y]⟩
      · obtain ⟨x, y⟩ := c k hk h0
        exact ⟨x, by rw [y]⟩
    · simp at h
  | derive L p =>
    simp only [kdfStep] at h
    split at h
    · rename_i hok
      cases hset : kdfSet (loggedKdf api) s.1 s.2 (some p) with
      | mk w1 r =>
        obtain ⟨c1, b⟩ := r
        rw [hset] at hok
        simp only at hok
        subst hok
        obtain ⟨a, b, c⟩ := kdfSet_keys api ho hset
        have hd : s'.2 = c1 ∧ s'.1.2 = w1.2 := by
          unfold kdfDerive at h
          rw [hset] at h
          simp only at h
          cases hq : kdfParams c1 L with
          | none => rw [hq] at h; simp at h
          | some q =>
            rw [hq] at h
            cases q with
            | none => simp only [Option.map_some, Option.some.injEq] at h; subst h; exact ⟨rfl, rfl⟩
            | some q =>
              simp only [loggedKdf] at h
              cases hx : (api.derive w1.1 q).2 with
              | none => rw [hx] at h; simp only [Option.map_some, Option.some.injEq] at h; subst h; exact ⟨rfl, rfl⟩
              | some k =>
                rw [hx] at h
                simp only at h
                split at h
                · simp at h
                · simp only [Option.map_some, Option.some.injEq] at h; subst h; exact ⟨rfl, rfl⟩
        rw [hd.1, hd.2]
        refine ⟨a, fun hn => ?_, fun k hk h0 => ?_⟩
        · obtain ⟨x, y⟩ := b hn
          exact ⟨x, by rw [y]⟩
        · obtain ⟨x, y⟩ := c k hk h0
          exact ⟨x, by rw [y]⟩
    · simp at h

/-- Steps that give at most one handle. -/
def kdfStep1 (api : KdfApi ω) (s : ω × KdfCtx) (o : { o : KdfOp // o.One }) : Option (ω × KdfCtx) := kdfStep api s o.1

theorem kdf_steps (api : KdfApi ω) : Steps (kdfStep1 (loggedKdf api)) (fun o => o.1.gives) kdfView := by
  constructor
  · intro s o s' hn h
    obtain ⟨a, b, _⟩ := kdfStep_keys api o.2 h
    obtain ⟨b, c⟩ := b hn.1
    simp only [kdfView, a, b, c]
  · intro s o s' k hk _ h0 h
    obtain ⟨a, _, b⟩ := kdfStep_keys api o.2 h
    obtain ⟨b, c⟩ := b k hk h0
    simp only [kdfView, a, b, c]
  · intro s o s' _ hb
    rcases o with ⟨o, ho⟩
    cases o <;> simp [KdfOp.gives] at hb

/-! ## The property -/

/-- What should have happened to keys when a context is gone that got its only key from one operation (`o`): a key of the application was
released if and only if the flag was given; an imported key was released unless the flag was taken away. -/
def Right {op : Type} (gives : op → Gives) (pre post : List op) (o : op) (evs : List Ev) : Prop :=
  (∀ k, (gives o).handle = some k → (gives o).bytes = false →
    evs = if lastFlag gives (pre ++ o :: post) = some true then [.released k] else []) ∧
  ((gives o).handle = none → (gives o).bytes = true →
    ∃ k, evs = if lastFlag gives (o :: post) = some false then [.imported k] else [.imported k, .released k])

theorem right_of {σ op : Type} {gives : op → Gives} {view : σ → View} {step : σ → op → Option σ} (hS : Steps step gives view) (s s' : σ)
    (pre post : List op) (o : op) (h0 : view s = ⟨none, false, []⟩) (hpre : ∀ x ∈ pre, (gives x).noKey) (hpost : ∀ x ∈ post, (gives x).noKey)
    (h : run step s (pre ++ o :: post) = some s') (evs : List Ev)
    (hf : ∀ k, (view s').key = some k → evs = (view s').log ++ (if (view s').own then [.released k] else [])) :
    Right gives pre post o evs := by
  obtain ⟨r1, r2⟩ := run_one hS s s' pre post o h0 hpre hpost h
  constructor
  · intro k hk hb
    have v := r1 k hk hb
    rw [hf k (by rw [v]), v]
    cases lastFlag gives (pre ++ o :: post) with
    | none => rfl
    | some b => cases b <;> rfl
  · intro hk hb
    obtain ⟨k, v⟩ := r2 hk hb
    refine ⟨k, ?_⟩
    rw [hf k (by rw [v]), v]
    cases lastFlag gives (o :: post) with
    | none => rfl
    | some b => cases b <;> rfl

/-- **C78, ciphers** (missing: contexts that get more than one key; operations that fail).  Any history with one key, then the context is
freed. -/
theorem C78_cipher_partial (api : Api ω) (w w' : ω) (n : Name) (evs : List Ev) (c : Ctx) (pre post : List CipherOp) (o : CipherOp)
    (hpre : ∀ x ∈ pre, x.gives.noKey) (hpost : ∀ x ∈ post, x.gives.noKey)
    (h : run (cipherStep (logged api)) ((w, []), n.ctx) (pre ++ o :: post) = some ((w', evs), c)) :
    Right CipherOp.gives pre post o (freectx (logged api) (w', evs) c).2 := by
  refine right_of (cipher_steps api) _ _ pre post o ?_ hpre hpost h _ ?_
  · cases n <;> rfl
  · intro k hk
    obtain ⟨a1, a2, a3, a4, a5, key, cipher, a8, a9, a10, a11, dk, a13⟩ := c
    simp only [cipherView] at hk ⊢
    subst hk
    cases cipher <;> cases dk <;> simp [freectx, logged]

/-- **C78, MACs** (missing: the same). -/
theorem C78_mac_partial (api : MacApi ω) (w w' : ω) (hmac : Bool) (evs : List Ev) (c : MacCtx) (pre post : List MacOp) (o : MacOp)
    (hpre : ∀ x ∈ pre, x.gives.noKey) (hpost : ∀ x ∈ post, x.gives.noKey)
    (h : run (macStep (loggedMac api)) ((w, []), macNew hmac) (pre ++ o :: post) = some ((w', evs), c)) :
    Right MacOp.gives pre post o (macFree (loggedMac api) (w', evs) c).2 := by
  refine right_of (mac_steps api) _ _ pre post o rfl hpre hpost h _ ?_
  intro k hk
  obtain ⟨a1, mac, a3, key, dk⟩ := c
  simp only [macView] at hk ⊢
  subst hk
  cases mac <;> cases dk <;> simp [macFree, loggedMac]

/-- **C78, KDFs** (missing: the same; duplicates). -/
theorem C78_kdf_partial (api : KdfApi ω) (w w' : ω) (alg : Nat) (evs : List Ev) (c : KdfCtx) (pre post : List { o : KdfOp // o.One })
    (o : { o : KdfOp // o.One }) (hpre : ∀ x ∈ pre, x.1.gives.noKey) (hpost : ∀ x ∈ post, x.1.gives.noKey)
    (h : run (kdfStep1 (loggedKdf api)) ((w, []), kdfNew alg) (pre ++ o :: post) = some ((w', evs), c)) :
    Right (fun o => o.1.gives) pre post o (kdfFree (loggedKdf api) (w', evs) c).2 := by
  refine right_of (kdf_steps api) _ _ pre post o rfl hpre hpost h _ ?_
  intro k hk
  obtain ⟨a1, key, dk, a4, a5, a6, a7, a8, a9, a10⟩ := c
  simp only [kdfView] at hk ⊢
  subst hk
  cases dk <;> simp [kdfFree, loggedKdf]

/-- The parent of a derivation. -/
def parentOf : KdfParams → Option Nat
  | .hkdf _ _ parent _ _ => some parent
  | .concat _ _ parent _ => some parent
  | .x963 _ _ parent _ => some parent
  | .cmac _ _ parent _ => some parent
  | _ => none

theorem params_nokey {c : KdfCtx} (hk : c.key = none) {L : Nat} {q : KdfParams} (h : kdfParams c L = some (some q)) :
    parentOf q = some (2 ^ 64 - 1) := by
  unfold kdfParams at h
  simp only at h
  rw [hk] at h
  by_cases h1 : c.alg = KDF_HKDF
  · rw [if_pos h1] at h; cases h; rfl
  · rw [if_neg h1] at h
    by_cases h2 : c.alg = KDF_CONCAT
    · rw [if_pos h2] at h; cases h; rfl
    · rw [if_neg h2] at h
      by_cases h3 : c.alg = KDF_X963
      · rw [if_pos h3] at h; cases h; rfl
      · rw [if_neg h3] at h
        by_cases h4 : c.alg = KDF_CMAC
        · rw [if_pos h4] at h
          by_cases h5 : L > 64
          · rw [if_pos h5] at h; exact absurd h (by simp)
          · rw [if_neg h5] at h
            cases h6 : otherData c L with
            | none => rw [h6] at h; exact absurd h (by simp)
            | some d => rw [h6] at h; cases h; rfl
        · rw [if_neg h4] at h; exact absurd h (by simp)

/-- **C78, KDFs that are reset** (missing: as above).  A reset releases the key exactly if the context owns it; afterwards the key is not used
any more, and the context is as a new one to later keys. -/
theorem C78_reset_partial (api : KdfApi ω) (w : ω × List Ev) (c : KdfCtx) :
    let r := kdfReset (loggedKdf api) w c
    r.1.2 = w.2 ++ (match c.key with | some k => if c.deleteKey then [.released k] else [] | none => []) ∧
    r.2.key = none ∧
    (∀ L q, kdfParams r.2 L = some (some q) → parentOf q = some (2 ^ 64 - 1)) ∧
    ∀ w1 w' evs c' (pre post : List { o : KdfOp // o.One }) (o : { o : KdfOp // o.One }), (∀ x ∈ pre, x.1.gives.noKey) →
      (∀ x ∈ post, x.1.gives.noKey) → run (kdfStep1 (loggedKdf api)) ((w1, []), r.2) (pre ++ o :: post) = some ((w', evs), c') →
      Right (fun o => o.1.gives) pre post o (kdfFree (loggedKdf api) (w', evs) c').2 := by
  refine ⟨?_, rfl, ?_, ?_⟩
  · obtain ⟨a1, key, dk, a4, a5, a6, a7, a8, a9, a10⟩ := c
    cases key <;> cases dk <;> simp [kdfReset, kdfFree, loggedKdf]
  · exact fun L q h => params_nokey rfl h
  · intro w1 w' evs c' pre post o hpre hpost h
    refine right_of (kdf_steps api) _ _ pre post o rfl hpre hpost h _ ?_
    intro k hk
    obtain ⟨a1, key, dk, a4, a5, a6, a7, a8, a9, a10⟩ := c'
    simp only [kdfView] at hk ⊢
    subst hk
    cases dk <;> simp [kdfFree, loggedKdf]

/-- **C78 is violated**, whatever the API does: an application sets a key of its own, then another.  The first one is released, though the
application never gave it away. -/
theorem C78_violated_foreign (api : Api ω) (mapi : MacApi ω) (kapi : KdfApi ω) (w : ω) (n : Name) (hmac : Bool) (alg k1 k2 : Nat)
    (hs : api.keySize w k1 = some n.ctx.keySize ∧ api.keySize w k2 = some n.ctx.keySize)
    (hm : mapi.keyOk w k1 = true ∧ mapi.keyOk (mapi.keyRelease w k1) k2 = true) (hk : kapi.keyOk w k1 = true ∧ kapi.keyOk w k2 = true) :
    run (cipherStep (logged api)) ((w, []), n.ctx) [.set { key := some k1 }, .set { key := some k2 }] =
      some ((api.keyRelease w k1, [.released k1]), { n.ctx with key := some k2 }) ∧
    run (macStep (loggedMac mapi)) ((w, []), macNew hmac) [.set (some { key := some k1 }), .set (some { key := some k2 })] =
      some ((mapi.keyRelease w k1, [.released k1]), { macNew hmac with key := some k2 }) ∧
    run (kdfStep (loggedKdf kapi)) ((w, []), kdfNew alg) [.set { saKey := some k1 }, .set { saKey := some k2 }] =
      some ((kapi.keyRelease w k1, [.released k1]), { kdfNew alg with key := some k2 }) := by
  refine ⟨?_, ?_, ?_⟩
  · have h1 : (logged api).keySize (w, []) k1 = some n.ctx.keySize := hs.1
    have h2 : (logged api).keySize (w, []) k2 = some n.ctx.keySize := hs.2
    have e1 : setParams (logged api) (w, []) n.ctx { key := some k1 } = ((w, []), { n.ctx with key := some k1 }, true) := by
      have h0 : n.ctx.key = none := by cases n <;> rfl
      simp only [setParams, setPlain, setKey, h1, h0]
      rw [if_neg (by simp)]
    have e2 : setParams (logged api) (w, []) { n.ctx with key := some k1 } { key := some k2 } =
        ((api.keyRelease w k1, [.released k1]), { n.ctx with key := some k2 }, true) := by
      simp only [setParams, setPlain, setKey, h2]
      rw [if_neg (by simp)]
      rfl
    simp only [run, cipherStep, e1, e2, Option.bind_some]
  · have h1 : (loggedMac mapi).keyOk (w, []) k1 = true := hm.1
    have h2 : (loggedMac mapi).keyOk (mapi.keyRelease w k1, [.released k1]) k2 = true := hm.2
    have e1 : macSet (loggedMac mapi) (w, []) (macNew hmac) (some { key := some k1 }) = ((w, []), { macNew hmac with key := some k1 }, true) := by
      simp only [macSet, macSetKey, macNew, h1]
      rfl
    have e2 : macSet (loggedMac mapi) (w, []) { macNew hmac with key := some k1 } (some { key := some k2 }) =
        ((mapi.keyRelease w k1, [.released k1]), { macNew hmac with key := some k2 }, true) := by
      have h3 : (loggedMac mapi).keyRelease (w, []) k1 = (mapi.keyRelease w k1, [.released k1]) := rfl
      simp only [macSet, macSetKey, macNew, h3, h2]
      rfl
    simp only [run, macStep, e1, e2, Option.bind_some]
  · have h1 : (loggedKdf kapi).keyOk (w, []) k1 = true := hk.1
    have h2 : (loggedKdf kapi).keyOk (w, []) k2 = true := hk.2
    have e1 : kdfSet (loggedKdf kapi) (w, []) (kdfNew alg) (some { saKey := some k1 }) = ((w, []), { kdfNew alg with key := some k1 }, true) := by
      simp only [kdfSet, kdfSetKey, kdfNew, h1]
      rfl
    have e2 : kdfSet (loggedKdf kapi) (w, []) { kdfNew alg with key := some k1 } (some { saKey := some k2 }) =
        ((kapi.keyRelease w k1, [.released k1]), { kdfNew alg with key := some k2 }, true) := by
      simp only [kdfSet, kdfSetKey, kdfNew, h2]
      rfl
    simp only [run, kdfStep, e1, e2, Option.bind_some]

/-- **C78 is violated**: so a key that is set twice is released while the context goes on using it. -/
theorem C78_violated_used (api : Api ω) (w : ω) (n : Name) (k : Nat) (hs : api.keySize w k = some n.ctx.keySize) :
    ∃ s, run (cipherStep (logged api)) ((w, []), n.ctx) [.set { key := some k }, .set { key := some k }] = some s ∧
      Ev.released k ∈ s.1.2 ∧ s.2.key = some k := by
  have e := (C78_violated_foreign api ⟨fun w _ => (w, none), fun _ _ => true, fun w _ => w, fun w _ _ => (w, none), fun w _ _ => (w, true),
    fun w _ _ => (w, none), fun w _ => w, fun _ => none⟩ ⟨fun _ _ => true, fun w _ => w, fun w _ => (w, none)⟩ w n true 0 k k ⟨hs, hs⟩
    ⟨rfl, rfl⟩ ⟨rfl, rfl⟩).1
  exact ⟨_, e, by simp, rfl⟩

/-- **C78 is violated**: a context with a key of its own is initialised again and the import fails.  The old key is released then and once
more when the context is freed. -/
theorem C78_violated_twice (api : Api ω) (w w1 w2 : ω) (n : Name) (m k : Nat) (b b' : Bytes) (hi : api.keyImport w b = (w1, some k))
    (hs : api.keySize w1 k = some n.ctx.keySize) (hf : api.keyImport (api.keyRelease w1 k) b' = (w2, none)) :
    ∃ s c, init (logged api) (w, []) n.ctx m (some b) none none = (s, c, true) ∧
      (init (logged api) s c m (some b') none none).2.2 = false ∧
      (freectx (logged api) (init (logged api) s c m (some b') none none).1 (init (logged api) s c m (some b') none none).2.1).2 =
        [.imported k, .released k, .released k] := by
  have h1 : (logged api).keyImport (w, []) b = ((w1, [.imported k]), some k) := by simp [logged, hi]
  have h2 : (logged api).keySize (w1, [.imported k]) k = some n.ctx.keySize := hs
  have h3 : (logged api).keyRelease (w1, [.imported k]) k = (api.keyRelease w1 k, [.imported k, .released k]) := rfl
  have h4 : (logged api).keyImport (api.keyRelease w1 k, [.imported k, .released k]) b' = ((w2, [.imported k, .released k]), none) := by
    simp [logged, hf]
  have e1 : init (logged api) (w, []) n.ctx m (some b) none none =
      ((w1, [.imported k]), { n.ctx with mode := m, key := some k, deleteKey := true }, true) := by
    unfold init dropCipher
    cases n <;> simp only [Name.ctx, newctx, initKey, h1] <;> (simp only [Name.ctx, newctx] at h2; simp [h2, overwrite])
  have e2 : init (logged api) (w1, [.imported k]) { n.ctx with mode := m, key := some k, deleteKey := true } m (some b') none none =
      ((w2, [.imported k, .released k]), { n.ctx with mode := m, key := some k, deleteKey := true }, false) := by
    unfold init dropCipher
    cases n <;> (simp only [Name.ctx, newctx, initKey, h3, h4]; rfl)
  refine ⟨_, _, e1, ?_, ?_⟩
  · rw [e2]
  · rw [e2]
    cases n <;> rfl

/-- **C78 is violated**: a key with the wrong number of bytes is imported, refused, and never released. -/
theorem C78_violated_lost (api : Api ω) (w w1 : ω) (n : Name) (m k : Nat) (b : Bytes) (hi : api.keyImport w b = (w1, some k))
    (hs : api.keySize w1 k ≠ some n.ctx.keySize) :
    (init (logged api) (w, []) n.ctx m (some b) none none).2.2 = false ∧
    (freectx (logged api) (init (logged api) (w, []) n.ctx m (some b) none none).1 (init (logged api) (w, []) n.ctx m (some b) none none).2.1).2 =
      [.imported k] := by
  have h1 : (logged api).keyImport (w, []) b = ((w1, [.imported k]), some k) := by simp [logged, hi]
  have h2 : ¬(logged api).keySize (w1, [.imported k]) k = some n.ctx.keySize := hs
  have e1 : init (logged api) (w, []) n.ctx m (some b) none none =
      ((w1, [.imported k]), { n.ctx with mode := m, key := some k }, false) := by
    unfold init dropCipher
    cases n <;> simp only [Name.ctx, newctx, initKey, h1] <;> (simp only [Name.ctx, newctx] at h2; simp [h2, overwrite])
  rw [e1]
  refine ⟨rfl, ?_⟩
  cases n <;> rfl

/-- **C78 is violated**: setting a key on a duplicate of a KDF context releases the key with handle 0, which never had anything to do with
the context. -/
theorem C78_violated_dup (api : KdfApi ω) (w : ω) (c d : KdfCtx) (k : Nat) (hd : kdfDup c = some d) (hk : api.keyOk w k = true) :
    ∃ c', kdfSet (loggedKdf api) (w, []) d (some { saKey := some k }) = ((api.keyRelease w 0, [.released 0]), c', true) := by
  have h0 : d.key = some 0 := by
    unfold kdfDup at hd
    split at hd
    · simp at hd
    · simp only [Option.some.injEq] at hd; rw [← hd]
  have h2 : (loggedKdf api).keyOk (w, []) k = true := hk
  refine ⟨kdfSetRest { d with key := some k } { saKey := some k }, ?_⟩
  simp only [kdfSet, kdfSetKey, h2, h0]
  rfl

/-! ## Concrete cases -/

/-- An API with keys of 16 bytes, handles in order. -/
def counting : Api Nat :=
  { keyImport := fun w b => if b.length = 16 then (w + 1, some w) else (w, none), keySize := fun _ _ => some 16, keyRelease := fun w _ => w
    cipherInit := fun w _ _ _ _ => (w, some 5), process := fun w _ b _ => (w, some b)
    processLast := fun w _ b _ _ => (w, some (b, none)), cipherRelease := fun w _ => w }

/-- A context with an imported key is used for two messages. -/
def twoMessages : List CipherOp :=
  [.call (some 16) (some [1]), .init 1 none (some (List.replicate 16 2)) none, .call (some 16) (some [1]), .call (some 16) none]

example : ∃ s, run (cipherStep (logged counting)) ((7, []), (Name.cbc 128).ctx) (.init 1 (some (List.replicate 16 1)) none none :: twoMessages) =
      some s ∧ (freectx (logged counting) s.1 s.2).2 = [.imported 7, .released 7] :=
  ⟨_, rfl, by decide⟩
/-- A key of the application, handed over only at the end. -/
example : ∃ s, run (cipherStep (logged counting)) ((7, []), (Name.cbc 128).ctx)
      (.set { key := some 3 } :: twoMessages ++ [.set { deleteKey := some true }]) = some s ∧
    (freectx (logged counting) s.1 s.2).2 = [.released 3] := ⟨_, rfl, by decide⟩
/-- Not handed over. -/
example : ∃ s, run (cipherStep (logged counting)) ((7, []), (Name.cbc 128).ctx) (.set { key := some 3 } :: twoMessages) = some s ∧
    (freectx (logged counting) s.1 s.2).2 = [] := ⟨_, rfl, by decide⟩

/-- The same for MACs and KDFs. -/
def countingMac : MacApi Nat :=
  { keyImport := fun w b => if b.length = 16 then (w + 1, some w) else (w, none), keyOk := fun _ _ => true, keyRelease := fun w _ => w
    macInit := fun w _ _ => (w, some 5), macProcess := fun w _ _ => (w, true), macCompute := fun w _ _ => (w, some []), macRelease := fun w _ => w
    fetch := some }

example : ∃ s, run (macStep (loggedMac countingMac)) ((7, []), macNew true)
      [.init (some (List.replicate 16 1)) (some { digest := some "SHA1" }), .update [1], .final 20, .init none none, .update [2]] = some s ∧
    (macFree (loggedMac countingMac) s.1 s.2).2 = [.imported 7, .released 7] := ⟨_, rfl, by decide⟩

def countingKdf : KdfApi Nat := { keyOk := fun _ _ => true, keyRelease := fun w _ => w, derive := fun w _ => (w + 1, some w) }

example : ∃ s, run (kdfStep1 (loggedKdf countingKdf)) ((7, []), kdfNew KDF_HKDF)
      [⟨.set { saKey := some 3, deleteKey := some true }, Or.inl rfl⟩, ⟨.derive 16 { digest := some "SHA1" }, Or.inl rfl⟩] = some s ∧
    (kdfFree (loggedKdf countingKdf) s.1 s.2).2 = [.released 3] := ⟨_, rfl, by decide⟩

end Sa.Pv.C78

import Verif.Lemmas.CipherKeep
import Verif.Props.C34

/-!
# What a call does to the state of a cipher context
-/

namespace Sa

variable {σ : Type}

/-- The library was called any number of times on a cipher state, with anything. -/
inductive LibSteps (p : CipherPrim σ) : σ → σ → Prop where
  | refl (s) : LibSteps p s s
  | update {s s'} (b) : LibSteps p s s' → LibSteps p s (p.update s' b).1
  | final {s s'} : LibSteps p s s' → LibSteps p s (p.final s').1
  | setIv {s s' iv s2} : LibSteps p s s' → p.setIv s' iv = some s2 → LibSteps p s s2
  | setTag {s s' t s2} : LibSteps p s s' → p.setTag s' t = some s2 → LibSteps p s s2

/-- The same for contexts, which have no such state if they are for private keys. -/
def Moves (p : CipherPrim σ) : Option σ → Option σ → Prop
  | none, x => x = none
  | some s, some s' => LibSteps p s s'
  | some _, none => False

/-- The state of a context after `m` was processed with success. -/
def Then (p : CipherPrim σ) (k : ProcKind) (alg mode : Nat) (m : Bytes) (x x' : Option σ) : Prop :=
  match x, k with
  | none, _ => x' = none
  | some e, .more => x' = some (p.update e m).1
  | some e, .last tag => ∃ e0, (if isAead alg = true ∧ mode ≠ MODE_ENCRYPT then ∃ t, tag = some (some t) ∧ p.setTag e t = some e0 else e0 = e) ∧
      x' = some (p.final (p.update e0 m).1).1

theorem Moves.refl (p : CipherPrim σ) (x : Option σ) : Moves p x x := by
  cases x with
  | none => rfl
  | some s => exact LibSteps.refl s

theorem Moves.trans {p : CipherPrim σ} {x y z : Option σ} (h : Moves p x y) (h' : Moves p y z) : Moves p x z := by
  cases x with
  | none => rw [show y = none from h] at h'; exact h'
  | some a =>
    cases y with
    | none => exact h.elim
    | some b =>
      cases z with
      | none => exact h'.elim
      | some c =>
        change LibSteps p a b at h
        change LibSteps p b c at h'
        show LibSteps p a c
        induction h' with
        | refl => exact h
        | update m _ ih => exact .update m ih
        | final _ ih => exact .final ih
        | setIv _ e ih => exact .setIv ih e
        | setTag _ e ih => exact .setTag ih e

/-! ## The functions of the algorithms -/

theorem update_watch (p : CipherPrim σ) (mode : Nat) (c : SymCtx σ) (mem : Mem) (outA inA : Nat) (len : UInt64) :
    LibSteps p c.evp (symContextUpdate p mode c mem outA inA len).ctx.evp ∧
    ((symContextUpdate p mode c mem outA inA len).status = .OK → len.toNat < 2 ^ 31 →
      (symContextUpdate p mode c mem outA inA len).ctx.evp = (p.update c.evp (readAt mem inA len.toNat)).1) := by
  unfold symContextUpdate
  split
  · exact ⟨.refl _, by simp⟩
  · split
    · exact ⟨.refl _, by simp⟩
    · simp only
      split
      · exact ⟨.refl _, by simp⟩
      · split
        · rename_i e he
          have h1 : (p.update c.evp (readAt mem inA (len.toNat % 2 ^ 32))).1 = e := by rw [he]
          refine ⟨?_, by simp⟩
          rw [← h1]
          exact .update _ (.refl _)
        · rename_i e o he
          have h1 : (p.update c.evp (readAt mem inA (len.toNat % 2 ^ 32))).1 = e := by rw [he]
          refine ⟨?_, fun _ hl => ?_⟩
          · rw [← h1]
            exact .update _ (.refl _)
          · rw [← h1, Nat.mod_eq_of_lt (by omega)]

theorem last_watch (p : CipherPrim σ) (mode : Nat) (c : SymCtx σ) (mem : Mem) (outA inA : Nat) (outLength len : UInt64) :
    LibSteps p c.evp (symContextLast p mode c mem outA inA outLength len).ctx.evp ∧
    ((symContextLast p mode c mem outA inA outLength len).status = .OK → len.toNat < 2 ^ 31 →
      (symContextLast p mode c mem outA inA outLength len).ctx.evp = (p.final (p.update c.evp (readAt mem inA len.toNat)).1).1) := by
  unfold symContextLast
  split
  · exact ⟨.refl _, by simp⟩
  · split
    · exact ⟨.refl _, by simp⟩
    · split
      · exact ⟨.refl _, by simp⟩
      · simp only
        split
        · exact ⟨.refl _, by simp⟩
        · split
          · rename_i e he
            have h1 : (p.update c.evp (readAt mem inA (len.toNat % 2 ^ 32))).1 = e := by rw [he]
            refine ⟨?_, by simp⟩
            rw [← h1]
            exact .update _ (.refl _)
          · rename_i e o he
            have h1 : (p.update c.evp (readAt mem inA (len.toNat % 2 ^ 32))).1 = e := by rw [he]
            split
            · rename_i e2 he2
              have h2 : (p.final e).1 = e2 := by rw [he2]
              refine ⟨?_, by simp⟩
              rw [← h2, ← h1]
              exact .final (.update _ (.refl _))
            · rename_i e2 f he2
              have h2 : (p.final e).1 = e2 := by rw [he2]
              refine ⟨?_, fun _ hl => ?_⟩
              · rw [← h2, ← h1]
                exact .final (.update _ (.refl _))
              · rw [← h2, ← h1, Nat.mod_eq_of_lt (by omega)]

/-- What the function of the algorithm does to the state. -/
structure Watch (p : CipherPrim σ) (k : ProcKind) (o : CipherObj) (c : SymCtx σ) (m : Bytes) (small : Prop) (r : AlgResult σ) : Prop where
  moves : ∀ c', r.ctx = some c' → LibSteps p c.evp c'.evp
  ok : r.status = .OK → small → ∃ c', r.ctx = some c' ∧ Then p k o.alg o.mode m (some c.evp) (some c'.evp)

theorem run_watch (p : CipherPrim σ) {view : σ → CipherView} (u : UnwrapPrims) (k : ProcKind) (env : RightsEnv) (o : CipherObj) (sk : StoredKey) (c : SymCtx σ)
    (hg : GoodCtx view o sk (some c)) (mem : Mem) (outA inA : Nat) (required bytes : UInt64) :
    Watch p k o c (readAt mem inA bytes.toNat) (bytes.toNat < 2 ^ 31) (k.run p u env o sk (some c) mem outA inA required bytes) := by
  have same : ∀ s mem n t, s ≠ Status.OK → Watch p k o c (readAt mem inA bytes.toNat) (bytes.toNat < 2 ^ 31) ⟨some c, mem, s, n, t⟩ := fun s mem n t hs =>
    ⟨fun c' h => by cases h; exact .refl _, fun h => absurd h hs⟩
  obtain ⟨_, _, _, n1, n2, n3⟩ := hg.sym c rfl
  cases k with
  | more =>
    simp only [ProcKind.run, processAlgorithm]
    split
    · unfold processSymmetric
      split
      · exact same _ _ _ _ (by simp)
      · simp only
        split
        · exact same _ _ _ _ (by simp)
        · obtain ⟨h1, h2⟩ := update_watch p o.mode c mem outA inA bytes
          split
          · rename_i hs
            exact ⟨fun c' h => by cases h; exact h1, fun h => absurd h hs⟩
          · rename_i hs
            have hs : (symContextUpdate p o.mode c mem outA inA bytes).status = .OK := Classical.byContradiction hs
            exact ⟨fun c' h => by cases h; exact h1, fun _ hl => ⟨_, rfl, by simp only [Then, h2 hs hl]⟩⟩
    · simp only [n1, n2, or_self, if_false]
      exact ⟨fun c' h => (by cases h), fun h => (by cases h)⟩
  | last tag =>
    simp only [ProcKind.run, lastAlgorithm]
    split
    · rename_i hp7
      have hna : ¬(isAead o.alg = true ∧ o.mode ≠ MODE_ENCRYPT) := by
        rintro ⟨h, _⟩
        simp only [isPkcs7Alg, Bool.or_eq_true, beq_iff_eq] at hp7
        rcases hp7 with e | e <;> rw [e] at h <;> revert h <;> decide
      unfold lastPkcs7
      split
      · exact same _ _ _ _ (by simp)
      · simp only
        split
        · exact same _ _ _ _ (by simp)
        · split
          · exact same _ _ _ _ (by simp)
          · obtain ⟨h1, h2⟩ := last_watch p o.mode c mem outA inA required bytes
            split
            · rename_i hs
              exact ⟨fun c' h => by cases h; exact h1, fun h => absurd h hs⟩
            · rename_i hs
              have hs : (symContextLast p o.mode c mem outA inA required bytes).status = .OK := Classical.byContradiction hs
              exact ⟨fun c' h => by cases h; exact h1, fun _ hl => ⟨_, rfl, c.evp, by rw [if_neg hna], by rw [h2 hs hl]⟩⟩
    · split
      · rename_i hst
        have hna : ¬(isAead o.alg = true ∧ o.mode ≠ MODE_ENCRYPT) := by
          rintro ⟨h, _⟩
          rcases hst with e | e <;> rw [e] at h <;> revert h <;> decide
        unfold lastStream
        simp only
        split
        · exact same _ _ _ _ (by simp)
        · obtain ⟨h1, h2⟩ := last_watch p o.mode c mem outA inA bytes bytes
          split
          · rename_i hs
            exact ⟨fun c' h => by cases h; exact h1, fun h => absurd h hs⟩
          · rename_i hs
            have hs : (symContextLast p o.mode c mem outA inA bytes bytes).status = .OK := Classical.byContradiction hs
            exact ⟨fun c' h => by cases h; exact h1, fun _ hl => ⟨_, rfl, c.evp, by rw [if_neg hna], by rw [h2 hs hl]⟩⟩
      · split
        · rename_i hae
          have haead : isAead o.alg = true := by rcases hae with e | e <;> rw [e] <;> decide
          unfold lastAead
          simp only
          split
          · exact same _ _ _ _ (by simp)
          · cases tag with
            | none => exact same _ _ _ _ (by simp)
            | some tag =>
              cases tag with
              | none => exact same _ _ _ _ (by simp)
              | some tag =>
                simp only
                by_cases htag : (if o.alg = CIPHER_AES_GCM then tag.length > 16 else tag.length ≠ 16)
                · rw [if_pos htag]; exact same _ _ _ _ (by simp)
                · rw [if_neg htag]
                  split
                  · exact same _ _ _ _ (by simp)
                  · split
                    · rename_i hmode
                      obtain ⟨h1, h2⟩ := last_watch p MODE_ENCRYPT c mem outA inA bytes bytes
                      split
                      · rename_i hs
                        exact ⟨fun c' h => by cases h; exact h1, fun h => absurd h hs⟩
                      · rename_i hs
                        have hs : (symContextLast p MODE_ENCRYPT c mem outA inA bytes bytes).status = .OK := Classical.byContradiction hs
                        split
                        · exact ⟨fun c' h => by cases h; exact h1, fun _ hl => ⟨_, rfl, c.evp, by rw [if_neg (by simp [hmode])], by rw [h2 hs hl]⟩⟩
                        · rename_i s _ hno hgt
                          refine ⟨fun c' h => by cases h; exact h1, fun h => ?_⟩
                          change s = .OK at h
                          subst h
                          first | exact (hno rfl).elim | exact (hno _ rfl).elim | exact (hno _ hgt).elim
                    · rename_i hmode
                      cases hst : p.setTag c.evp tag with
                      | none => exact same _ _ _ _ (by simp)
                      | some e =>
                        simp only
                        obtain ⟨h1, h2⟩ := last_watch p MODE_DECRYPT { c with evp := e } mem outA inA bytes bytes
                        have h1' : LibSteps p c.evp (symContextLast p MODE_DECRYPT { c with evp := e } mem outA inA bytes bytes).ctx.evp := by
                          have := Moves.trans (p := p) (x := some c.evp) (y := some e) (z := some _) (.setTag (.refl _) hst) h1
                          exact this
                        split
                        · rename_i hs
                          exact ⟨fun c' h => by cases h; exact h1', fun h => absurd h hs⟩
                        · rename_i hs
                          have hs : (symContextLast p MODE_DECRYPT { c with evp := e } mem outA inA bytes bytes).status = .OK := Classical.byContradiction hs
                          exact ⟨fun c' h => by cases h; exact h1', fun _ hl => ⟨_, rfl, e, by rw [if_pos ⟨haead, hmode⟩]; exact ⟨tag, rfl, hst⟩, by rw [h2 hs hl]⟩⟩
        · exact same _ _ _ _ (by simp)

/-! ## The calls -/

/-- What is done to the state of another context changes nothing for this one. -/
theorem HasCtx.besideSet {w : CipherWorld σ} (inv : CipherInv w) {h : Nat} {u : Uuid} {ptr : Nat} {o : CipherObj} {sk : StoredKey} {ctx : Option (SymCtx σ)} (hc : HasCtx w h u ptr o sk ctx)
    {h' : Nat} {u' : Uuid} {ptr' : Nat} {o' : CipherObj} {sk' : StoredKey} {ctx' : Option (SymCtx σ)} (hc' : HasCtx w h' u' ptr' o' sk' ctx') (hne : h ≠ h') (c : Option (SymCtx σ)) :
    HasCtx (w.setSym o' c) h u ptr o sk ctx := by
  unfold CipherWorld.setSym
  cases hs : o'.sym with
  | none => exact hc
  | some sp =>
    cases c with
    | none => exact hc
    | some c =>
      refine hc.frame rfl rfl fun x hx => ?_
      show (if x = sp then _ else w.heap x) = _
      rw [if_neg]
      rintro rfl
      exact hne (inv.inj h h' x hx ⟨ptr', o', hc'.slot, hc'.obj, Or.inr (Or.inl hs)⟩)

/-- The state that a context has after one was written to it. -/
def ctxAfter (ctx c : Option (SymCtx σ)) : Option (SymCtx σ) :=
  match ctx, c with
  | some _, some c' => some c'
  | _, _ => ctx

/-- The contexts other than `h` are the same as before. -/
def Beside (w w' : CipherWorld σ) (h : Nat) : Prop := ∀ h2 u2 ptr2 o2 sk2 ctx2, h2 ≠ h → HasCtx w' h2 u2 ptr2 o2 sk2 ctx2 → HasCtx w h2 u2 ptr2 o2 sk2 ctx2

theorem beside_of {w w' : CipherWorld σ} (inv : CipherInv w) {h : Nat} (hs : ∀ h2, h2 ≠ h → (w'.store.obj h2).object = (w.store.obj h2).object)
    (hf : ∀ h2 u2 ptr2 o2 sk2 ctx2, h2 ≠ h → HasCtx w h2 u2 ptr2 o2 sk2 ctx2 → HasCtx w' h2 u2 ptr2 o2 sk2 ctx2) : Beside w w' h := by
  intro h2 u2 ptr2 o2 sk2 ctx2 hne hc
  have hslot := hc.slot
  rw [hs h2 hne] at hslot
  obtain ⟨o, sk, ctx, h1⟩ := inv.hasCtx h2 ptr2 hslot
  obtain ⟨e1, _, rfl, rfl, rfl⟩ := hc.unique (hf _ _ _ _ _ _ hne h1)
  rw [e1]
  exact h1

theorem setSym_store (w : CipherWorld σ) (o : CipherObj) (c : Option (SymCtx σ)) : (w.setSym o c).store = w.store := by
  unfold CipherWorld.setSym
  split <;> rfl

/-- The context after its state was set. -/
theorem HasCtx.ownSet {w : CipherWorld σ} {h : Nat} {u : Uuid} {ptr : Nat} {o : CipherObj} {sk : StoredKey} {ctx : Option (SymCtx σ)} (hc : HasCtx w h u ptr o sk ctx) (c : Option (SymCtx σ)) :
    HasCtx (w.setSym o c) h u ptr o sk (ctxAfter ctx c) := by
  cases ctx with
  | none =>
    have hs := hc.noSym
    unfold CipherWorld.setSym
    rw [hs]
    exact hc
  | some cx =>
    cases c with
    | none => unfold CipherWorld.setSym; split <;> first | exact hc | (rename_i h; cases h) | simp_all
    | some c' => exact hc.setSym c'

/-- The context is only acquired. -/
theorem HasCtx.acquired {w : CipherWorld σ} (inv : CipherInv w) {h : Nat} {u : Uuid} {ptr : Nat} {o : CipherObj} {sk : StoredKey} {ctx : Option (SymCtx σ)} (hc : HasCtx w h u ptr o sk ctx)
    {h' : Nat} {u' : Uuid} {ptr' : Nat} {st1 : ObjectStore Nat} (hu : (w.store.obj h').ownerUuid = u') (ha : objectStoreAcquire w.store h' u' = (st1, .OK, some ptr')) :
    HasCtx { w with store := st1 } h u ptr o sk ctx := by
  obtain ⟨_, l2, l3⟩ := acquired_objects w.store st1 h' u' ptr' inv.live ha
  refine hc.frame (l2 h) ?_ (fun _ _ => rfl)
  show (st1.obj h).ownerUuid = _
  rw [l3]
  by_cases hx : h = h'
  · rw [if_pos hx, hx, hu]
  · rw [if_neg hx]

/-- Processing: what was written and what became of the state of the context. -/
structure Processed (p : CipherPrim σ) (up : UnwrapPrims) (k : ProcKind) (env : RightsEnv) (o : CipherObj) (sk : StoredKey) (ctx ctx' : Option (SymCtx σ)) (svp : SvpStore) (mem : Mem)
    (out : Option RawBuffer) (input : RawBuffer) (bytes : UInt64) (u : Uuid) (r : ProcResult σ) : Prop where
  moves : Moves p (ctx.map (·.evp)) (ctx'.map (·.evp))
  failed : r.status ≠ .OK → r.out = out ∧ r.input = input
  asked : r.status = .OK → out = none → ctx' = ctx ∧ r.mem = mem
  wrote : (r.mem = mem ∧ (r.status = .OK → out = none)) ∨ ∃ ob ib a b outB, out = some (.buf ob) ∧ input = .buf ib ∧
    (ob.isClear = true → ib.isClear = true ∧ Flag sk.header.rights.usageFlags FLAG_SVP_OPTIONAL) ∧
    Located svp u ob outB.length a ∧ Located svp u ib bytes.toNat b ∧ r.mem = writeAt mem a outB ∧
    (r.status = .OK → modeAllowed env o.mode sk.header.rights ctx.isSome = true ∧
      (bytes.toNat < 2 ^ 31 → CipherOutputs p up k o sk ctx (readAt mem b bytes.toNat) outB ∧ Then p k o.alg o.mode (readAt mem b bytes.toNat) (ctx.map (·.evp)) (ctx'.map (·.evp))))

/-- What processing in context `h` leaves. -/
def Leaves (p : CipherPrim σ) (up : UnwrapPrims) (k : ProcKind) (env : RightsEnv) (w : CipherWorld σ) (svp : SvpStore) (mem : Mem) (h : Nat) (out : Option RawBuffer) (input : RawBuffer)
    (bytes : UInt64) (u : Uuid) (r : ProcResult σ) : Prop :=
  r.svp = svp ∧
    ((r.status ≠ .OK ∧ r.world = w ∧ r.mem = mem ∧ r.out = out ∧ r.input = input) ∨
     ∃ ptr o sk ctx ctx', HasCtx w h u ptr o sk ctx ∧ HasCtx r.world h u ptr o sk ctx' ∧ Processed p up k env o sk ctx ctx' svp mem out input bytes u r ∧
      Beside w r.world h)

theorem process_watch {p : CipherPrim σ} {view : σ → CipherView} (hp : p.Good view) (up : UnwrapPrims) (hu : up.Good) (k : ProcKind) (env : RightsEnv) {w : CipherWorld σ} (inv : CipherInv w)
    (all : CtxAll (GoodCtx view) w) (svp : SvpStore) (hsvp : SvpInv svp) (mem : Mem) (h : Nat) (out : Option RawBuffer) (input : RawBuffer) (bytes : UInt64) (u : Uuid) (r : ProcResult σ)
    (hr : cipherProcess k p up env w svp mem h out input bytes u = some r) : Leaves p up k env w svp mem h out input bytes u r := by
  rcases cipherProcess_eq inv k p up env svp mem h out input bytes u with ⟨s, hs, ha, e⟩ | ⟨ptr, o, sk, ctx, st1, hc, ha, e⟩
  · rw [e] at hr
    cases hr
    exact ⟨rfl, Or.inl ⟨by cases k <;> simp [hs], rfl, rfl, rfl, rfl⟩⟩
  · rw [e] at hr
    simp only [Option.some.injEq] at hr
    subst hr
    have hg := all _ _ _ _ _ _ hc
    have stay : ∀ wd s n, (wd = w ∨ wd = { w with store := st1 }) → (s = Status.OK → out = none) → Leaves p up k env w svp mem h out input bytes u ⟨wd, svp, mem, out, input, n, none, s⟩ := by
      intro wd s n hw hs
      have keep : ∀ h2 u2 ptr2 o2 sk2 ctx2, HasCtx w h2 u2 ptr2 o2 sk2 ctx2 → HasCtx wd h2 u2 ptr2 o2 sk2 ctx2 := by
        intro h2 u2 ptr2 o2 sk2 ctx2 hc2
        rcases hw with rfl | rfl
        · exact hc2
        · exact hc2.acquired inv hc.owner ha
      have slots : ∀ h2, h2 ≠ h → (wd.store.obj h2).object = (w.store.obj h2).object := by
        intro h2 _
        rcases hw with rfl | rfl
        · rfl
        · exact (acquired_objects w.store st1 h u ptr inv.live ha).2.1 h2
      exact ⟨rfl, Or.inr ⟨ptr, o, sk, ctx, ctx, hc, keep _ _ _ _ _ _ hc, ⟨.refl p _, fun _ => ⟨rfl, rfl⟩, fun _ _ => ⟨rfl, rfl⟩, Or.inl ⟨rfl, hs⟩⟩, beside_of inv slots (fun _ _ _ _ _ _ _ hc2 => keep _ _ _ _ _ _ hc2)⟩⟩
    unfold processAcquired
    simp only
    cases out with
    | none => exact stay _ _ _ (Or.inl rfl) (fun _ => rfl)
    | some out =>
      cases out with
      | badType => exact stay _ _ _ (Or.inr rfl) (by simp)
      | buf ob =>
        cases input with
        | badType => exact stay _ _ _ (Or.inr rfl) (by simp)
        | buf ib =>
          simp only
          split
          · exact stay _ _ _ (Or.inl rfl) (by simp)
          · split
            · exact stay _ _ _ (Or.inl rfl) (by simp)
            · rename_i hc1
              split
              · exact stay _ _ _ (Or.inl rfl) (by simp)
              · rename_i hc2
                obtain ⟨a1, a2, a3, a4, _⟩ := convertBuffer_spec svp hsvp ob (k.required o sk bytes (some (RawBuffer.buf ob)).isNone) u
                split
                · rename_i hst
                  rw [a2]
                  exact stay _ _ _ (Or.inl rfl) (fun h => absurd h hst)
                · rename_i hst
                  simp only [ne_eq, Classical.not_not] at hst
                  obtain ⟨b1, b2, b3, b4, _⟩ := convertBuffer_spec _ a1 ib bytes u
                  rw [b2, a2]
                  split
                  · rename_i hst2
                    exact stay _ _ _ (Or.inl rfl) (fun h => absurd h hst2)
                  · rename_i hst2
                    simp only [ne_eq, Classical.not_not] at hst2
                    have hl1 := a4 hst
                    have hl2 := (located_iff svp _ a3 u ib bytes.toNat _).mp (b4 hst2)
                    generalize hA : (convertBuffer svp ob (k.required o sk bytes (some (RawBuffer.buf ob)).isNone) u).addr = A at *
                    generalize hB : (convertBuffer (convertBuffer svp ob (k.required o sk bytes (some (RawBuffer.buf ob)).isNone) u).store ib bytes u).addr = B at *
                    have hrun := run_ok hp up hu k env o sk ctx hg mem A B (k.required o sk bytes (some (RawBuffer.buf ob)).isNone) bytes
                    obtain ⟨outB, c1, c2, c3⟩ := hrun.out
                    have hclear : ob.isClear = true → ib.isClear = true ∧ Flag sk.header.rights.usageFlags FLAG_SVP_OPTIONAL := by
                      intro hcl
                      rw [hcl] at hc1 hc2
                      refine ⟨by simpa using hc1, ?_⟩
                      rw [← bitTest_iff _ _ (by decide)]
                      unfold rightsAllowedClear at hc2
                      simpa using hc2
                    have hl1' := C34.located_le svp u ob _ outB.length _ hl1 c2
                    generalize hR : k.run p up env o sk ctx mem A B (k.required o sk bytes (some (RawBuffer.buf ob)).isNone) bytes = R at *
                    have own := hc.ownSet R.ctx
                    have others : Beside w (w.setSym o R.ctx) h :=
                      beside_of inv (fun h2 _ => by rw [setSym_store]) (fun h2 u2 ptr2 o2 sk2 ctx2 hne hc2 => hc2.besideSet inv hc hne R.ctx)
                    have hmoves : Moves p (ctx.map (·.evp)) ((ctxAfter ctx R.ctx).map (·.evp)) ∧
                        (R.status = .OK → bytes.toNat < 2 ^ 31 → Then p k o.alg o.mode (readAt mem B bytes.toNat) (ctx.map (·.evp))
                          ((ctxAfter ctx R.ctx).map (·.evp))) := by
                      cases ctx with
                      | none => exact ⟨rfl, fun _ _ => rfl⟩
                      | some c =>
                        have hw := run_watch p up k env o sk c hg mem A B (k.required o sk bytes (some (RawBuffer.buf ob)).isNone) bytes
                        rw [hR] at hw
                        refine ⟨?_, fun h1 h2 => ?_⟩
                        · cases hx : R.ctx with
                          | none => exact LibSteps.refl _
                          | some c' => exact hw.moves c' hx
                        · obtain ⟨c', e1, e2⟩ := hw.ok h1 h2
                          rw [e1]
                          exact e2
                    split
                    · rename_i hst3
                      exact ⟨rfl, Or.inr ⟨ptr, o, sk, ctx, _, hc, own, ⟨hmoves.1, fun _ => ⟨rfl, rfl⟩, fun _ h => (by cases h),
                        Or.inr ⟨ob, ib, A, B, outB, rfl, rfl, hclear, hl1', hl2, c1, fun h => absurd h hst3⟩⟩, others⟩⟩
                    · rename_i hst3
                      simp only [ne_eq, Classical.not_not] at hst3
                      obtain ⟨d1, d2, d3⟩ := c3 hst3
                      exact ⟨rfl, Or.inr ⟨ptr, o, sk, ctx, _, hc, own, ⟨hmoves.1, fun h => absurd rfl h, fun _ h => (by cases h),
                        Or.inr ⟨ob, ib, A, B, outB, rfl, rfl, hclear, hl1', hl2, c1, fun _ => ⟨d2, fun hb => ⟨d3 hb, hmoves.2 hst3 hb⟩⟩⟩⟩, others⟩⟩

/-- A new IV. -/
theorem updateIv_watch (p : CipherPrim σ) {w : CipherWorld σ} (inv : CipherInv w) (h : Nat) (iv : Option Bytes) (u : Uuid) (r : CipherWorld σ × Status)
    (hr : cipherUpdateIv p w h iv u = some r) :
    (r.2 ≠ .OK ∧ r.1 = w) ∨
    ∃ ptr o sk c iv' e, HasCtx w h u ptr o sk (some c) ∧ iv = some iv' ∧ r.2 = .OK ∧ p.setIv c.evp iv' = some e ∧ HasCtx r.1 h u ptr o sk (some { c with evp := e }) ∧
      Beside w r.1 h := by
  unfold cipherUpdateIv at hr
  cases iv with
  | none => cases hr; exact Or.inl ⟨by simp, rfl⟩
  | some iv =>
    simp only at hr
    rcases acquire_fail w.store h u with ⟨st1, ptr, e⟩ | ⟨s, hs, e⟩
    · obtain ⟨h1, h2, h3, h4, h5⟩ := (acquire_ok_iff w.store h u st1 ptr).mp e
      obtain ⟨o, sk, ctx, hc⟩ := inv.hasCtx h ptr h3
      rw [h4] at hc
      have hrel := acquire_release w.store inv.live.len h u st1 ptr e
      rw [e] at hr
      simp only [hc.obj, hc.sym, hrel] at hr
      split at hr
      · split at hr
        · cases hr; exact Or.inl ⟨by simp, rfl⟩
        · cases ctx with
          | none => cases hr; exact Or.inl ⟨by simp, rfl⟩
          | some cx =>
            simp only at hr
            split at hr
            · cases hr; exact Or.inl ⟨by simp, rfl⟩
            · rename_i e' he'
              cases hr
              exact Or.inr ⟨ptr, o, sk, cx, iv, e', hc, rfl, rfl, he', hc.setSym _,
                beside_of inv (fun h2 _ => by rw [setSym_store]) (fun h2 u2 ptr2 o2 sk2 ctx2 hne hc2 => hc2.besideSet inv hc hne _)⟩
      · cases hr; exact Or.inl ⟨by simp, rfl⟩
    · rw [e] at hr
      have : r = (w, s) := by cases s <;> simp_all
      subst this
      exact Or.inl ⟨hs, rfl⟩

/-- Opening: the other contexts stay. -/
theorem NewCtx.beside {w : CipherWorld σ} (inv : CipherInv w) {w' : CipherWorld σ} {h' ptr' : Nat} {o' : CipherObj} {sk' : StoredKey} {u' : Uuid} (n : NewCtx w w' h' ptr' o' sk' u') : Beside w w' h' :=
  beside_of inv (fun h2 hne => by rw [n.store, if_neg hne]) (fun h2 u2 ptr2 o2 sk2 ctx2 hne hc =>
    hc.frame (by rw [n.store, if_neg hne]) (by rw [n.store, if_neg hne]) (fun x hx => n.old x (inv.fresh x (inv.refers_alloc h2 x hx))))

/-- All contexts are the same as before. -/
theorem SameCtx.all {w w' : CipherWorld σ} (same : SameCtx w w') {h : Nat} {u : Uuid} {ptr : Nat} {o : CipherObj} {sk : StoredKey} {ctx : Option (SymCtx σ)}
    (hc : HasCtx w' h u ptr o sk ctx) : HasCtx w h u ptr o sk ctx :=
  hc.frame (by rw [same.store]) (by rw [same.store]) (fun x _ => (same.heap x).symm)

/-- The parameters for the padding are those given. -/
def OaepOf (params : InitParams) (o : CipherObj) : Prop :=
  ∀ q, params = .oaep q → ∃ d g label, q = some (d, g, label) ∧ o.oaep = some (d, g, label.get)

/-- Opening a context. -/
theorem init_watch (p : CipherPrim σ) {w : CipherWorld σ} (inv : CipherInv w) (params : InitParams) (mode : Nat) (key : Status × Option StoredKey)
    (env : InitEnv) (u : Uuid) (hoaep : params.alg = some CIPHER_RSA_OAEP → env.lockOk = true ∧ env.labelOk = true) (r : CipherWorld σ × Status × Nat)
    (hr : cipherInit p w params mode key env u = some r) :
    (r.2.1 ≠ .OK ∧ SameCtx w r.1) ∨
    ∃ ptr o sk ctx, r.2.1 = .OK ∧ key = (.OK, some sk) ∧ HasCtx r.1 r.2.2 u ptr o sk ctx ∧ params.alg = some o.alg ∧ o.mode = mode ∧ OaepOf params o ∧
      modeAllowed env.rights mode sk.header.rights (sk.header.type.toNat == KEY_TYPE_SYMMETRIC) = true ∧
      (match ctx with | none => True | some c => p.create o.alg mode sk.key params.sym = some c.evp) ∧
      (ctx = none ↔ o.alg = CIPHER_RSA_PKCS1V15 ∨ o.alg = CIPHER_RSA_OAEP ∨ o.alg = CIPHER_EC_ELGAMAL) ∧ NewCtx w r.1 r.2.2 ptr o sk u := by
  rcases cipherInit_cases p w inv.live inv.fresh params mode key env hoaep u with ⟨w', s, e, hs, same⟩ | ⟨w', h, ptr, o, sk, e, hk, halg, hmode, hm, hall, hsym, hcr, n⟩
  · rw [e] at hr
    cases hr
    exact Or.inl ⟨hs, same⟩
  · have e0 := e
    rw [e] at hr
    cases hr
    subst hk
    have hkey : w'.keyOf o = some sk := by unfold CipherWorld.keyOf; rw [n.key]; simp only [n.keyCell]
    cases hsy : o.sym with
    | none =>
      have hasym : o.alg = CIPHER_RSA_PKCS1V15 ∨ o.alg = CIPHER_RSA_OAEP ∨ o.alg = CIPHER_EC_ELGAMAL := by
        refine Classical.byContradiction fun hn => ?_
        have := hsym.2 ⟨fun h => hn (Or.inl h), fun h => hn (Or.inr (Or.inl h)), fun h => hn (Or.inr (Or.inr h))⟩
        rw [hsy] at this; cases this
      have hdec : mode = MODE_DECRYPT := by
        rcases hm with rfl | h
        · have := cipherInit_enc p w params (.OK, some sk) env u w' h e0
          rw [← halg] at this
          simp only [ne_eq, Option.some.injEq] at this
          rcases hasym with h | h | h
          · exact absurd h this.1
          · exact absurd h this.2.1
          · exact absurd h this.2.2
        · exact h
      subst hdec
      have hc : HasCtx w' h u ptr o sk none := ⟨by rw [n.store, if_pos rfl], by rw [n.store, if_pos rfl], n.obj, hkey, by unfold CipherWorld.symOf; rw [hsy]⟩
      obtain ⟨_, ptr2, o2, g1, _, _, g2⟩ := init_asym p inv params sk env u hoaep w' h (by rw [← halg]; simpa using hasym) e0
      obtain ⟨_, _, rfl, _, _⟩ := hc.unique g1
      exact Or.inr ⟨ptr, o, sk, none, rfl, rfl, hc, halg.symm, hmode, g2, hall, True.intro, by simp [hasym], n⟩
    | some sp =>
      have hns := hsym.1 (by rw [hsy]; rfl)
      obtain ⟨evp, c1, c2⟩ := hcr sp hsy
      have hc : HasCtx w' h u ptr o sk (some ⟨o.alg, o.mode, evp⟩) :=
        ⟨by rw [n.store, if_pos rfl], by rw [n.store, if_pos rfl], n.obj, hkey, by unfold CipherWorld.symOf; rw [hsy]; simp only [c1]⟩
      refine Or.inr ⟨ptr, o, sk, _, rfl, rfl, hc, halg.symm, hmode, ?_, hall, by rw [hmode] at c2; exact c2, by simp [hns], n⟩
      rintro q rfl
      simp only [InitParams.alg, Option.some.injEq] at halg
      exact absurd halg hns.2.1

/-- Releasing: the context is gone or all is as before. -/
theorem release_watch {w : CipherWorld σ} (inv : CipherInv w) (h : Nat) (u : Uuid) (r : CipherWorld σ × Option Status) (hr : cipherRelease w h u = some r) :
    (r.2 ≠ some .OK ∧ ∀ h2 u2 ptr2 o2 sk2 ctx2, HasCtx r.1 h2 u2 ptr2 o2 sk2 ctx2 → HasCtx w h2 u2 ptr2 o2 sk2 ctx2) ∨
    (r.2 = some .OK ∧ (∀ u2 ptr2 o2 sk2 ctx2, ¬HasCtx r.1 h u2 ptr2 o2 sk2 ctx2) ∧ Beside w r.1 h) := by
  rcases cipherRelease_spec inv h u with ⟨s, hs, e⟩ | ⟨w', e, same, _⟩ | ⟨w', ptr', e, hi, ho, _, hn, hst, _, hh⟩
  · rw [e] at hr; cases hr
    exact Or.inl ⟨by simp [hs], fun _ _ _ _ _ _ hc => hc⟩
  · rw [e] at hr; cases hr
    exact Or.inl ⟨by simp, fun _ _ _ _ _ _ hc => same.all hc⟩
  · rw [e] at hr; cases hr
    refine Or.inr ⟨rfl, fun u2 ptr2 o2 sk2 ctx2 hc => ?_, beside_of inv (fun h2 hne => by rw [hst h2 hne]) (fun h2 u2 ptr2 o2 sk2 ctx2 hne hc => ?_)⟩
    · have := hc.slot
      rw [hn] at this
      cases this
    · exact hc.frame (by rw [hst h2 hne]) (by rw [hst h2 hne]) (fun x hx => hh x (fun hx' => hne (inv.inj h2 h x hx hx')))

end Sa

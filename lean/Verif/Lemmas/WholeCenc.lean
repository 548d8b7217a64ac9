import Verif.Model.WholeCenc
import Verif.Lemmas.CencSim
import Verif.Lemmas.CipherWatch

/-!
# What common encryption does to the cipher contexts of a session
-/

namespace Sa

variable {σ : Type}

/-- A relation between a state of a context with algorithm `a` and a later one that calls of the library keep. -/
structure StepRel (ops : SymOps σ) (Q : Nat → σ → σ → Prop) : Prop where
  refl : ∀ a x, Q a x x
  decrypt : ∀ a x y b z o, Q a x y → (a = CIPHER_AES_CTR ∨ b.length % 16 = 0) → ops.decrypt y b = some (z, o) → Q a x z
  setIv : ∀ a x y iv z, Q a x y → ops.setIv y iv = some z → Q a x z

theorem run_rel {ops : SymOps σ} {Q : Nat → σ → σ → Prop} (hQ : StepRel ops Q) (a : Nat) (p : SampleParams) (hp : p.ctr = (a == CIPHER_AES_CTR)) (fuel : Nat) (subs : List Subsample) (mem : Mem)
    (x0 x : σ) (hx : Q a x0 x) (s : Cenc σ) (r : UInt64 × Status) (hr : cencRun ops p fuel subs mem x = some (s, r)) : Q a x0 s.ctx := by
  have sim : SimOps ops ops p.ctr (fun y z => y = z ∧ Q a x0 y) := by
    constructor
    · rintro y _ b ⟨rfl, hy⟩ hb
      cases hd : ops.decrypt y b with
      | none => exact True.intro
      | some q =>
        refine ⟨⟨rfl, hQ.decrypt a x0 y b q.1 q.2 hy ?_ hd⟩, rfl⟩
        rcases hb with hb | hb
        · rw [hp] at hb; exact Or.inl (by simpa using hb)
        · exact Or.inr hb
    · rintro y _ iv ⟨rfl, hy⟩
      cases hd : ops.setIv y iv with
      | none => exact True.intro
      | some q => exact ⟨rfl, hQ.setIv a x0 y iv q hy hd⟩
  have := sim_run p sim fuel subs mem x x ⟨rfl, hx⟩
  rw [hr] at this
  exact this.1.ctx.2

/-- A context before and after. -/
def CRel (Q : Nat → σ → σ → Prop) (c0 c : Option (CencCipher σ)) : Prop :=
  match c0, c with
  | none, none => True
  | some c, some c' => c'.decryptMode = c.decryptMode ∧ c'.rights = c.rights ∧ c'.algorithm = c.algorithm ∧ Q c.algorithm c.ctx c'.ctx
  | _, _ => False

theorem CRel.refl {ops : SymOps σ} {Q : Nat → σ → σ → Prop} (hQ : StepRel ops Q) (c : Option (CencCipher σ)) : CRel Q c c := by
  cases c with
  | none => exact True.intro
  | some c => exact ⟨rfl, rfl, rfl, hQ.refl _ _⟩

theorem processSample_rel {ops : SymOps σ} {Q : Nat → σ → σ → Prop} (hQ : StepRel ops Q) (fuel : Nat) (w : CencWorld σ) (inv : SvpInv w.svp) (h : Nat) (iv : Bytes) (crypt skip : UInt64)
    (subs : List Subsample) (out input : Nat) (u : Uuid) (r : SampleResult σ) (hr : cencProcessSample ops fuel w h iv crypt skip subs out input u = some r) :
    r.world.svp = w.svp ∧ (∀ i, i ≠ h → r.world.ciphers i = w.ciphers i) ∧ ∀ (cs : Nat → Option (CencCipher σ)) (i : Nat), CRel Q (cs i) (w.ciphers i) → CRel Q (cs i) (r.world.ciphers i) := by
  unfold cencProcessSample at hr
  cases hc : w.ciphers h with
  | none => rw [hc] at hr; cases hr; exact ⟨rfl, fun _ _ => rfl, fun _ _ x => x⟩
  | some c =>
    rw [hc] at hr
    simp only at hr
    split at hr
    · cases hr; exact ⟨rfl, fun _ _ => rfl, fun _ _ x => x⟩
    · have h1 := convertBuffer_spec w.svp inv (w.bufs out) (cencRequiredLength subs) u
      simp only at h1
      generalize convertBuffer w.svp (w.bufs out) (cencRequiredLength subs) u = c1 at h1 hr
      obtain ⟨i1, g1, _⟩ := h1
      rw [g1] at hr
      split at hr
      · cases hr; exact ⟨rfl, fun _ _ => rfl, fun _ _ x => x⟩
      · have h2 := convertBuffer_spec c1.store i1 (w.bufs input) (cencRequiredLength subs) u
        simp only at h2
        generalize convertBuffer c1.store (w.bufs input) (cencRequiredLength subs) u = c2 at h2 hr
        obtain ⟨i2, g2, _⟩ := h2
        rw [g2, g1] at hr
        split at hr
        · cases hr; exact ⟨rfl, fun _ _ => rfl, fun _ _ x => x⟩
        · split at hr
          · cases hr
          · rename_i s off st hrun
            cases hr
            refine ⟨rfl, fun i hi => by simp [hi], fun cs i hx => ?_⟩
            by_cases hi : i = h
            · subst hi
              simp only [if_pos]
              rw [hc] at hx
              cases hcs : cs i with
              | none => rw [hcs] at hx; exact hx.elim
              | some c0 =>
                rw [hcs] at hx
                obtain ⟨x1, x2, x3, x4⟩ := hx
                exact ⟨x1, x2, x3, run_rel hQ c0.algorithm _ (by simp only [x3]) fuel subs w.mem c0.ctx c.ctx x4 s _ hrun⟩
            · simp only [if_neg hi]; exact hx

theorem processAll_rel {ops : SymOps σ} {Q : Nat → σ → σ → Prop} (hQ : StepRel ops Q) (fuel : Nat) (u : Uuid) (ss : List Sample) (w : CencWorld σ) (inv : SvpInv w.svp)
    (r : CencWorld σ × Status × List (SampleResult σ)) (hr : processAll ops fuel u w ss = some r) :
    r.1.svp = w.svp ∧ ∀ (cs : Nat → Option (CencCipher σ)) (i : Nat), CRel Q (cs i) (w.ciphers i) → CRel Q (cs i) (r.1.ciphers i) := by
  induction ss generalizing w r with
  | nil => cases hr; exact ⟨rfl, fun _ _ x => x⟩
  | cons s ss ih =>
    simp only [processAll] at hr
    split at hr
    · cases hr
    · rename_i q hq
      obtain ⟨q1, _, q3⟩ := processSample_rel hQ fuel w inv _ _ _ _ _ _ _ u q hq
      split at hr
      · cases hr; exact ⟨q1, q3⟩
      · split at hr
        · cases hr
        · rename_i w2 st rs h2
          cases hr
          obtain ⟨j1, j2⟩ := ih q.world (by rw [q1]; exact inv) _ h2
          exact ⟨j1.trans q1, fun cs i hx => j2 cs i (q3 cs i hx)⟩

theorem process_rel {ops : SymOps σ} {Q : Nat → σ → σ → Prop} (hQ : StepRel ops Q) (env : RightsEnv) (fuel : Nat) (w : CencWorld σ) (inv : SvpInv w.svp) (ss : List Sample) (u : Uuid)
    (r : CencWorld σ × Status × List (SampleResult σ)) (hr : processCommonEncryption env ops fuel w ss u = some r) :
    r.1.svp = w.svp ∧ ∀ i, CRel Q (w.ciphers i) (r.1.ciphers i) := by
  unfold processCommonEncryption at hr
  simp only at hr
  rw [(verifyAll_spec env w inv ss u).1] at hr
  split at hr
  · cases hr; exact ⟨rfl, fun i => CRel.refl hQ _⟩
  · obtain ⟨h1, h2⟩ := processAll_rel hQ fuel u ss w inv r hr
    exact ⟨h1, fun i => h2 w.ciphers i (CRel.refl hQ _)⟩

/-! ## The contexts of the session -/

theorem acquired_hasCtx {w : CipherWorld σ} (inv : CipherInv w) {u : Uuid} {h ptr : Nat} {st1 : ObjectStore Nat} (ha : objectStoreAcquire w.store h u = (st1, .OK, some ptr)) :
    ∃ o sk ctx, HasCtx w h u ptr o sk ctx := by
  obtain ⟨_, _, h3, h4, _⟩ := (acquire_ok_iff w.store h u st1 ptr).mp ha
  obtain ⟨o, sk, ctx, hc⟩ := inv.hasCtx h ptr h3
  rw [h4] at hc
  exact ⟨o, sk, ctx, hc⟩

/-- What common encryption sees of a context. -/
def seen (o : CipherObj) (sk : StoredKey) (ctx : Option (SymCtx σ)) : CencCipher (Option (SymCtx σ)) := ⟨o.mode == MODE_DECRYPT, sk.header.rights, o.alg, ctx⟩

theorem cencView_cases {w : CipherWorld σ} (inv : CipherInv w) (u : Uuid) (h : Nat) :
    (cencView w u h = none ∧ cencDangling w u h = false ∧ ∀ c, cencPut w u h c = w) ∨
    (∃ ptr o sk ctx, HasCtx w h u ptr o sk ctx ∧ cencView w u h = some (seen o sk ctx) ∧ cencDangling w u h = false ∧ ∀ c, cencPut w u h c = w.setSym o c) := by
  rcases acquire_fail w.store h u with ⟨st1, ptr, ha⟩ | ⟨s, hs, ha⟩
  · obtain ⟨o, sk, ctx, hc⟩ := acquired_hasCtx inv ha
    have hv : cencView w u h = some (seen o sk ctx) := by simp [cencView, ha, hc.obj, hc.key, hc.sym, seen]
    exact Or.inr ⟨ptr, o, sk, ctx, hc, hv, by simp [cencDangling, ha, hv], fun c => by simp [cencPut, ha, hc.obj]⟩
  · left
    refine ⟨?_, ?_, fun c => ?_⟩
    · unfold cencView; rw [ha]; cases s <;> rfl
    · unfold cencDangling; rw [ha]; cases s <;> rfl
    · unfold cencPut; rw [ha]; cases s <;> rfl

/-- Writing back the states of contexts. -/
theorem cencBack_spec (u : Uuid) (after : Nat → Option (CencCipher (Option (SymCtx σ)))) (ss : List Sample) {w : CipherWorld σ} (inv : CipherInv w) :
    CipherInv (cencBack u after ss w) ∧ (cencBack u after ss w).store = w.store ∧
    ∀ h u2 ptr o sk ctx, HasCtx w h u2 ptr o sk ctx → ∃ ctx', HasCtx (cencBack u after ss w) h u2 ptr o sk ctx' ∧
      (ctx' = ctx ∨ (u2 = u ∧ (∃ s ∈ ss, s.context = h) ∧ ∃ c, after h = some c ∧ ctx' = ctxAfter ctx c.ctx)) := by
  induction ss generalizing w with
  | nil => exact ⟨inv, rfl, fun h u2 ptr o sk ctx hc => ⟨ctx, hc, Or.inl rfl⟩⟩
  | cons s ss ih =>
    simp only [cencBack]
    cases ha : after s.context with
    | none =>
      simp only
      obtain ⟨i1, i2, i3⟩ := ih inv
      refine ⟨i1, i2, fun h u2 ptr o sk ctx hc => ?_⟩
      obtain ⟨ctx', j1, j2⟩ := i3 h u2 ptr o sk ctx hc
      refine ⟨ctx', j1, ?_⟩
      rcases j2 with j2 | ⟨j2, ⟨q, hq, j3⟩, j4⟩
      · exact Or.inl j2
      · exact Or.inr ⟨j2, ⟨q, by simp [hq], j3⟩, j4⟩
    | some c =>
      simp only
      rcases cencView_cases inv u s.context with ⟨_, _, e⟩ | ⟨ptr0, o0, sk0, ctx0, hc0, _, _, e⟩
      · rw [e]
        obtain ⟨i1, i2, i3⟩ := ih inv
        refine ⟨i1, i2, fun h u2 ptr o sk ctx hc => ?_⟩
        obtain ⟨ctx', j1, j2⟩ := i3 h u2 ptr o sk ctx hc
        refine ⟨ctx', j1, ?_⟩
        rcases j2 with j2 | ⟨j2, ⟨q, hq, j3⟩, j4⟩
        · exact Or.inl j2
        · exact Or.inr ⟨j2, ⟨q, by simp [hq], j3⟩, j4⟩
      · rw [e]
        have inv1 := inv.setSym s.context ptr0 o0 c.ctx hc0.slot hc0.obj
        obtain ⟨i1, i2, i3⟩ := ih inv1
        refine ⟨i1, i2.trans (setSym_store _ _ _), fun h u2 ptr o sk ctx hc => ?_⟩
        by_cases hh : h = s.context
        · subst hh
          obtain ⟨rfl, rfl, rfl, rfl, rfl⟩ := hc.unique hc0
          obtain ⟨ctx', j1, j2⟩ := i3 _ _ _ _ _ _ (hc0.ownSet c.ctx)
          refine ⟨ctx', j1, ?_⟩
          rcases j2 with j2 | ⟨_, _, c', j3, j4⟩
          · exact Or.inr ⟨rfl, ⟨s, by simp, rfl⟩, c, ha, j2⟩
          · rw [ha] at j3
            cases j3
            refine Or.inr ⟨rfl, ⟨s, by simp, rfl⟩, c, ha, ?_⟩
            rw [j4]
            cases ctx with
            | none => rfl
            | some a => cases hcc : c.ctx <;> rfl
        · obtain ⟨ctx', j1, j2⟩ := i3 _ _ _ _ _ _ (hc.besideSet inv hc0 hh c.ctx)
          refine ⟨ctx', j1, ?_⟩
          rcases j2 with j2 | ⟨j2, ⟨q, hq, j3⟩, j4⟩
          · exact Or.inl j2
          · exact Or.inr ⟨j2, ⟨q, by simp [hq], j3⟩, j4⟩

/-- The whole call, for any relation that calls of the library keep. -/
theorem cencCall_rel {p : CipherPrim σ} {Q : Nat → Option (SymCtx σ) → Option (SymCtx σ) → Prop} (hQ : StepRel (cencOps p) Q) (env : RightsEnv) (fuel : Nat) {w : CipherWorld σ}
    (inv : CipherInv w) (svp : SvpStore) (hsvp : SvpInv svp) (mem : Mem) (bufs : Nat → SaBuffer) (ss : List Sample) (u : Uuid) (r : CencOut σ)
    (hr : cencCall p env fuel w svp mem bufs ss u = some r) :
    r.svp = svp ∧ CipherInv r.world ∧ r.world.store = w.store ∧
    ∀ h u2 ptr o sk ctx', HasCtx r.world h u2 ptr o sk ctx' → ∃ ctx, HasCtx w h u2 ptr o sk ctx ∧
      (ctx' = ctx ∨ (u2 = u ∧ (∃ s ∈ ss, s.context = h) ∧ ∃ c, Q o.alg ctx c ∧ ctx' = ctxAfter ctx c)) := by
  unfold cencCall at hr
  split at hr
  · cases hr
  · split at hr
    · cases hr
    · rename_i cw st l hp
      cases hr
      obtain ⟨h1, h2⟩ := process_rel hQ env fuel ⟨svp, bufs, mem, cencView w u⟩ hsvp ss u _ hp
      obtain ⟨b1, b2, b3⟩ := cencBack_spec u cw.ciphers ss inv
      refine ⟨h1, b1, b2, fun h u2 ptr o sk ctx' hc => ?_⟩
      have hslot := hc.slot
      rw [show (_ : CencOut σ).world.store = w.store from b2] at hslot
      obtain ⟨o', sk', ctx, hc'⟩ := inv.hasCtx h ptr hslot
      obtain ⟨ctx2, k1, k2⟩ := b3 _ _ _ _ _ _ hc'
      obtain ⟨e1, _, rfl, rfl, rfl⟩ := hc.unique k1
      rw [← e1] at hc' k2
      refine ⟨ctx, hc', ?_⟩
      rcases k2 with k2 | ⟨k2, k3, c, k4, k5⟩
      · exact Or.inl k2
      · refine Or.inr ⟨k2, k3, c.ctx, ?_, k5⟩
        have := h2 h
        simp only at this
        subst k2
        rcases cencView_cases inv u2 h with ⟨e, _⟩ | ⟨ptr3, o3, sk3, ctx3, hc3, e, _⟩
        · rw [e, k4] at this; exact this.elim
        · rw [e, k4] at this
          obtain ⟨_, _, rfl, rfl, rfl⟩ := hc'.unique hc3
          exact this.2.2.2

/-- The state of the library's context moves by calls of the library. -/
def Shifts (p : CipherPrim σ) (_ : Nat) (x y : Option (SymCtx σ)) : Prop := Moves p (x.map (·.evp)) (y.map (·.evp))

theorem cencOps_decrypt {p : CipherPrim σ} {y z : Option (SymCtx σ)} {b o : Bytes} (h : (cencOps p).decrypt y b = some (z, o)) :
    ∃ c, y = some c ∧ z = some { c with evp := (p.update c.evp b).1 } ∧ (p.update c.evp b).2 = some o := by
  cases y with
  | none => cases h
  | some c =>
    simp only [cencOps] at h
    split at h
    · rename_i e q he
      cases h
      exact ⟨c, rfl, by rw [he], by rw [he]⟩
    · cases h

theorem cencOps_setIv {p : CipherPrim σ} {y z : Option (SymCtx σ)} {iv : Iv} (h : (cencOps p).setIv y iv = some z) :
    ∃ c e, y = some c ∧ p.setIv c.evp iv.bytes = some e ∧ z = some { c with evp := e } := by
  cases y with
  | none => cases h
  | some c =>
    simp only [cencOps] at h
    split at h
    · rename_i e he
      cases h
      exact ⟨c, e, rfl, he, rfl⟩
    · cases h

theorem shifts_rel (p : CipherPrim σ) : StepRel (cencOps p) (Shifts p) where
  refl _ x := Moves.refl p _
  decrypt a x y b z o hxy _ h := by
    obtain ⟨c, rfl, rfl, _⟩ := cencOps_decrypt h
    exact Moves.trans (y := some c.evp) hxy (.update b (.refl _))
  setIv a x y iv z hxy h := by
    obtain ⟨c, e, rfl, he, rfl⟩ := cencOps_setIv h
    exact Moves.trans (y := some c.evp) hxy (.setIv (.refl _) he)

/-- The context stays one that fits its algorithm. -/
def StaysGood (view : σ → CipherView) (a : Nat) (x y : Option (SymCtx σ)) : Prop :=
  ∀ c, x = some c → c.alg = a → GoodSym view c → ∃ c', y = some c' ∧ c'.alg = c.alg ∧ c'.mode = c.mode ∧ GoodSym view c'

theorem staysGood_rel {p : CipherPrim σ} {view : σ → CipherView} (hp : p.Good view) : StepRel (cencOps p) (StaysGood view) where
  refl _ x c hc _ hg := ⟨c, hc, rfl, rfl, hg⟩
  decrypt a x y b z o hxy hb h c hc ha hg := by
    obtain ⟨c', rfl, h2, h3, h4⟩ := hxy c hc ha hg
    obtain ⟨c2, e, rfl, hu⟩ := cencOps_decrypt h
    cases e
    refine ⟨_, rfl, h2, h3, (update_good hp c' h4 b o ?_ hu).2.2.2⟩
    rcases hb with hb | hb
    · left; rw [h2, ha, hb]; rfl
    · exact Or.inr hb
  setIv a x y iv z hxy h c hc ha hg := by
    obtain ⟨c', rfl, h2, h3, h4⟩ := hxy c hc ha hg
    obtain ⟨c2, e, e', he, rfl⟩ := cencOps_setIv h
    cases e'
    have hv := hp.setIv c'.evp iv.bytes e he
    refine ⟨_, rfl, h2, h3, by show (view e).alg = _; rw [hv]; exact h4.alg, by show (view e).mode = _; rw [hv]; exact h4.mode, ?_⟩
    show HeldOk c'.alg c'.mode (view e).held
    rw [hv]
    unfold HeldOk
    simp

/-- What a call leaves of the contexts. -/
theorem cencCall_watch (p : CipherPrim σ) (env : RightsEnv) (fuel : Nat) {w : CipherWorld σ} (inv : CipherInv w) (svp : SvpStore) (hsvp : SvpInv svp) (mem : Mem) (bufs : Nat → SaBuffer)
    (ss : List Sample) (u : Uuid) (r : CencOut σ) (hr : cencCall p env fuel w svp mem bufs ss u = some r) :
    r.svp = svp ∧ CipherInv r.world ∧
    ∀ h u2 ptr o sk ctx', HasCtx r.world h u2 ptr o sk ctx' → ∃ ctx, HasCtx w h u2 ptr o sk ctx ∧
      (ctx' = ctx ∨ (u2 = u ∧ (∃ s ∈ ss, s.context = h) ∧ Moves p (ctx.map (·.evp)) (ctx'.map (·.evp)))) := by
  obtain ⟨h1, h2, _, h4⟩ := cencCall_rel (shifts_rel p) env fuel inv svp hsvp mem bufs ss u r hr
  refine ⟨h1, h2, fun h u2 ptr o sk ctx' hc => ?_⟩
  obtain ⟨ctx, k1, k2⟩ := h4 h u2 ptr o sk ctx' hc
  refine ⟨ctx, k1, ?_⟩
  rcases k2 with k2 | ⟨k2, k3, c, k4, k5⟩
  · exact Or.inl k2
  · refine Or.inr ⟨k2, k3, ?_⟩
    rw [k5]
    cases ctx with
    | none => exact Moves.refl p _
    | some a =>
      cases c with
      | none => exact Moves.refl p _
      | some b => exact k4

/-- Contexts stay ones that fit their algorithms. -/
theorem cencCall_good {p : CipherPrim σ} {view : σ → CipherView} (hp : p.Good view) (env : RightsEnv) (fuel : Nat) {w : CipherWorld σ} (inv : CipherInv w) (all : CtxAll (GoodCtx view) w)
    (svp : SvpStore) (hsvp : SvpInv svp) (mem : Mem) (bufs : Nat → SaBuffer) (ss : List Sample) (u : Uuid) (r : CencOut σ) (hr : cencCall p env fuel w svp mem bufs ss u = some r) :
    CtxAll (GoodCtx view) r.world := by
  obtain ⟨_, _, _, h4⟩ := cencCall_rel (staysGood_rel hp) env fuel inv svp hsvp mem bufs ss u r hr
  intro h u2 ptr o sk ctx' hc
  obtain ⟨ctx, k1, k2⟩ := h4 h u2 ptr o sk ctx' hc
  have hg := all h u2 ptr o sk ctx k1
  rcases k2 with rfl | ⟨_, _, c, k4, rfl⟩
  · exact hg
  · cases ctx with
    | none => exact hg
    | some a =>
      cases c with
      | none => exact hg
      | some b =>
        obtain ⟨g1, g2, g3, _⟩ := hg.sym a rfl
        obtain ⟨c', e, m1, m2, m3⟩ := k4 a rfl g1 g3
        cases e
        exact hg.with m1 m2 m3

/-- The samples whose processing comes to an end: products with the size of a block do not wrap, and there is time enough. -/
def Sample.Ends (fuel : Nat) (s : Sample) : Prop := s.crypt.toNat < 2 ^ 60 ∧ ∀ subs, s.subs = some subs → ∀ sub ∈ subs, sub.prot.toNat < 16 * fuel

theorem processSample_end (ops : SymOps σ) (fuel : Nat) (w : CencWorld σ) (h : Nat) (iv : Bytes) (crypt skip : UInt64) (hc : crypt.toNat < 2 ^ 60) (subs : List Subsample)
    (hs : ∀ sub ∈ subs, sub.prot.toNat < 16 * fuel) (out input : Nat) (u : Uuid) : cencProcessSample ops fuel w h iv crypt skip subs out input u ≠ none := by
  unfold cencProcessSample
  split
  · simp
  · simp only
    split
    · simp
    · split
      · simp
      · split
        · simp
        · split
          · rename_i he
            exact absurd he (run_end _ _ hc _ _ _ _ hs)
          · simp

theorem processAll_end (ops : SymOps σ) (fuel : Nat) (u : Uuid) (ss : List Sample) (hs : ∀ s ∈ ss, s.Ends fuel) (w : CencWorld σ) : processAll ops fuel u w ss ≠ none := by
  induction ss generalizing w with
  | nil => simp [processAll]
  | cons s ss ih =>
    simp only [processAll]
    obtain ⟨h1, h2⟩ := hs s (by simp)
    split
    · rename_i he
      refine absurd he (processSample_end ops fuel w _ _ _ _ h1 _ ?_ _ _ u)
      cases hss : s.subs with
      | none => simp
      | some subs => simpa using h2 subs hss
    · split
      · simp
      · split
        · rename_i he
          exact absurd he (ih (fun t ht => hs t (by simp [ht])) _)
        · simp

theorem cencCall_end (p : CipherPrim σ) (env : RightsEnv) (fuel : Nat) {w : CipherWorld σ} (inv : CipherInv w) (svp : SvpStore) (mem : Mem) (bufs : Nat → SaBuffer) (ss : List Sample)
    (hs : ∀ s ∈ ss, s.Ends fuel) (u : Uuid) : ∃ r, cencCall p env fuel w svp mem bufs ss u = some r := by
  unfold cencCall
  have hd : (ss.any fun s => cencDangling w u s.context) = false := by
    rw [List.any_eq_false]
    intro s _
    rcases cencView_cases inv u s.context with ⟨_, e, _⟩ | ⟨_, _, _, _, _, _, e, _⟩ <;> rw [e] <;> simp
  rw [if_neg (by simp [hd])]
  have : processCommonEncryption env (cencOps p) fuel ⟨svp, bufs, mem, cencView w u⟩ ss u ≠ none := by
    unfold processCommonEncryption
    simp only
    split
    · simp
    · exact processAll_end _ _ _ _ hs _
  split
  · rename_i he; exact absurd he this
  · exact ⟨_, rfl⟩

end Sa

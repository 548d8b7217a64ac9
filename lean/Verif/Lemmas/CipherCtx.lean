import Verif.Lemmas.Cipher
import Verif.Lemmas.CencVerify

/-!
# Properties of the contexts of a cipher store, kept by all calls
-/

namespace Sa

variable {σ : Type}

/-- Every context has the property. -/
def CtxAll (P : CipherObj → StoredKey → Option (SymCtx σ) → Prop) (w : CipherWorld σ) : Prop :=
  ∀ h u ptr o sk ctx, HasCtx w h u ptr o sk ctx → P o sk ctx

theorem HasCtx.unique {w : CipherWorld σ} {h : Nat} {u u' : Uuid} {ptr ptr' : Nat} {o o' : CipherObj} {sk sk' : StoredKey}
    {ctx ctx' : Option (SymCtx σ)} (a : HasCtx w h u ptr o sk ctx) (b : HasCtx w h u' ptr' o' sk' ctx') :
    u = u' ∧ ptr = ptr' ∧ o = o' ∧ sk = sk' ∧ ctx = ctx' := by
  have h1 : ptr = ptr' := by have := a.slot; rw [b.slot] at this; simpa using this.symm
  subst h1
  have h2 : o = o' := by have := a.obj; rw [b.obj] at this; simpa using this.symm
  subst h2
  have h3 : sk = sk' := by have := a.key; rw [b.key] at this; simpa using this.symm
  have h4 : ctx = ctx' := by have := a.sym; rw [b.sym] at this; simpa using this.symm
  exact ⟨a.owner.symm.trans b.owner, rfl, rfl, h3, h4⟩

/-- A context depends only on its slot and the memory it refers to. -/
theorem HasCtx.frame {w w' : CipherWorld σ} {h : Nat} {u : Uuid} {ptr : Nat} {o : CipherObj} {sk : StoredKey} {ctx : Option (SymCtx σ)}
    (hc : HasCtx w h u ptr o sk ctx) (hs : (w'.store.obj h).object = (w.store.obj h).object)
    (hu : (w'.store.obj h).ownerUuid = (w.store.obj h).ownerUuid) (hh : ∀ x, Refers w h x → w'.heap x = w.heap x) :
    HasCtx w' h u ptr o sk ctx := by
  refine ⟨by rw [hs]; exact hc.slot, by rw [hu]; exact hc.owner, ?_, ?_, ?_⟩
  · rw [hh ptr ⟨ptr, o, hc.slot, hc.obj, Or.inl rfl⟩]; exact hc.obj
  · have := hc.key
    unfold CipherWorld.keyOf at this ⊢
    cases hk : o.key with
    | none => rw [hk] at this; simp at this
    | some kp =>
      rw [hk] at this
      simp only at this ⊢
      rw [hh kp ⟨ptr, o, hc.slot, hc.obj, Or.inr (Or.inr hk)⟩]; exact this
  · have := hc.sym
    unfold CipherWorld.symOf at this ⊢
    cases hk : o.sym with
    | none => rw [hk] at this; exact this
    | some sp =>
      rw [hk] at this
      simp only at this ⊢
      rw [hh sp ⟨ptr, o, hc.slot, hc.obj, Or.inr (Or.inl hk)⟩]; exact this

/-- Every live slot holds a context. -/
theorem CipherInv.hasCtx {w : CipherWorld σ} (inv : CipherInv w) (h ptr : Nat) (hs : (w.store.obj h).object = some ptr) :
    ∃ o sk ctx, HasCtx w h (w.store.obj h).ownerUuid ptr o sk ctx := by
  obtain ⟨o, kp, sk, a, b, c, d⟩ := inv.shape h ptr hs
  have hk : w.keyOf o = some sk := by unfold CipherWorld.keyOf; rw [b]; simp only [c]
  have hsy : ∃ ctx, w.symOf o = some ctx := by
    unfold CipherWorld.symOf
    cases hs : o.sym with
    | none => exact ⟨none, rfl⟩
    | some sp =>
      obtain ⟨cc, hc⟩ := d sp hs
      exact ⟨some cc, by simp only [hc]⟩
  obtain ⟨ctx, hsy⟩ := hsy
  exact ⟨o, sk, ctx, hs, rfl, a, hk, hsy⟩

variable {P : CipherObj → StoredKey → Option (SymCtx σ) → Prop}

/-- The property of one context is kept if its slot and memory are. -/
theorem CtxAll.at {w w' : CipherWorld σ} (inv : CipherInv w) (all : CtxAll P w) {h : Nat} {u : Uuid} {ptr : Nat} {o : CipherObj} {sk : StoredKey}
    {ctx : Option (SymCtx σ)} (hc : HasCtx w' h u ptr o sk ctx) (hs : (w'.store.obj h).object = (w.store.obj h).object)
    (hu : (w'.store.obj h).ownerUuid = (w.store.obj h).ownerUuid) (hh : ∀ x, Refers w h x → w'.heap x = w.heap x) : P o sk ctx := by
  have hslot := hc.slot
  rw [hs] at hslot
  obtain ⟨o1, sk1, ctx1, h1⟩ := inv.hasCtx h ptr hslot
  have h2 := h1.frame hs hu hh
  obtain ⟨_, _, rfl, rfl, rfl⟩ := hc.unique h2
  exact all _ _ _ _ _ _ h1

theorem CtxAll.same {w w' : CipherWorld σ} (inv : CipherInv w) (all : CtxAll P w) (h : SameCtx w w') : CtxAll P w' :=
  fun k _ _ _ _ _ hc => all.at inv hc (by rw [h.store]) (by rw [h.store]) (fun x _ => h.heap x)

theorem CtxAll.restore {w : CipherWorld σ} (inv : CipherInv w) (all : CtxAll P w) (st : ObjectStore Nat)
    (h1 : ∀ x, (st.obj x).object = (w.store.obj x).object) (h2 : ∀ x, (st.obj x).ownerUuid = (w.store.obj x).ownerUuid) :
    CtxAll P { w with store := st } :=
  fun k _ _ _ _ _ hc => all.at inv hc (h1 k) (h2 k) (fun _ _ => rfl)

theorem CtxAll.new {w w' : CipherWorld σ} (inv : CipherInv w) (all : CtxAll P w) (h ptr : Nat) (o : CipherObj) (sk : StoredKey) (u : Uuid)
    (n : NewCtx w w' h ptr o sk u) (hp : ∀ ctx, w'.symOf o = some ctx → P o sk ctx) : CtxAll P w' := by
  intro k u' ptr' o' sk' ctx' hc
  by_cases e : k = h
  · subst e
    have h1 := hc.slot
    rw [n.store, if_pos rfl] at h1
    simp only [Option.some.injEq] at h1
    subst h1
    have h2 := hc.obj
    rw [n.obj] at h2
    simp only [Option.some.injEq, Cell.obj.injEq] at h2
    subst h2
    have h3 := hc.key
    unfold CipherWorld.keyOf at h3
    rw [n.key] at h3
    simp only [n.keyCell, Option.some.injEq] at h3
    subst h3
    exact hp ctx' hc.sym
  · refine all.at inv hc (by rw [n.store, if_neg e]) (by rw [n.store, if_neg e]) ?_
    intro x hx
    exact n.old x (inv.fresh x (inv.refers_alloc k x hx))

theorem CtxAll.set {w : CipherWorld σ} (inv : CipherInv w) (all : CtxAll P w) (h : Nat) (u : Uuid) (ptr : Nat) (o : CipherObj) (sk : StoredKey)
    (ctx : Option (SymCtx σ)) (hc : HasCtx w h u ptr o sk ctx) (c : Option (SymCtx σ)) (hp : ∀ c', c = some c' → ctx.isSome → P o sk c) :
    CtxAll P (w.setSym o c) := by
  unfold CipherWorld.setSym
  cases hs : o.sym with
  | none => exact all
  | some sp =>
    cases c with
    | none => exact all
    | some c =>
      simp only
      have hctx : ctx.isSome := by
        have := hc.sym
        unfold CipherWorld.symOf at this
        rw [hs] at this
        simp only at this
        split at this
        · simp only [Option.some.injEq] at this; rw [← this]; rfl
        · simp at this
      obtain ⟨o0, kp, sk0, ha, hb, hk, hd⟩ := inv.shape h ptr hc.slot
      have : o0 = o := by have := hc.obj; rw [ha] at this; simpa using this
      subst this
      obtain ⟨c0, hc0⟩ := hd sp hs
      intro k u' ptr' o' sk' ctx' hc'
      by_cases e : k = h
      · subst e
        have h1 : ptr' = ptr := by have := hc'.slot; change (w.store.obj k).object = _ at this; rw [hc.slot] at this; simpa using this.symm
        subst h1
        have hne : ptr' ≠ sp := by rintro rfl; rw [ha] at hc0; simp at hc0
        have h2 : o' = o0 := by
          have := hc'.obj
          change (if ptr' = sp then _ else w.heap ptr') = _ at this
          rw [if_neg hne, ha] at this
          simpa using this.symm
        subst h2
        have h3 : sk' = sk0 := by
          have := hc'.key
          unfold CipherWorld.keyOf at this
          rw [hb] at this
          have e2 : (w.put sp (some (.sym c))).heap kp = some (.key sk0) := by
            show (if kp = sp then _ else w.heap kp) = _
            rw [if_neg (by rintro rfl; rw [hk] at hc0; simp at hc0), hk]
          simp only [e2, Option.some.injEq] at this
          exact this.symm
        have h3' : sk0 = sk := by
          have := hc.key
          unfold CipherWorld.keyOf at this
          rw [hb] at this
          simp only [hk, Option.some.injEq] at this
          exact this
        subst h3 h3'
        have h4 : ctx' = some c := by
          have := hc'.sym
          unfold CipherWorld.symOf at this
          rw [hs] at this
          have e2 : (w.put sp (some (.sym c))).heap sp = some (.sym c) := by
            show (if sp = sp then _ else w.heap sp) = _
            rw [if_pos rfl]
          simp only [e2, Option.some.injEq] at this
          exact this.symm
        rw [h4]
        exact hp c rfl hctx
      · refine all.at inv hc' rfl rfl ?_
        intro x hx
        show (if x = sp then _ else w.heap x) = _
        rw [if_neg]
        rintro rfl
        exact e (inv.inj k h x hx ⟨ptr, o0, hc.slot, hc.obj, Or.inr (Or.inl hs)⟩)

/-- A property of contexts that holds initially and is kept when data is processed or the IV is changed. -/
structure CtxStable (p : CipherPrim σ) (P : CipherObj → StoredKey → Option (SymCtx σ) → Prop) : Prop where
  init : ∀ o sk ctx, (o.sym.isSome ↔ (o.alg ≠ CIPHER_RSA_PKCS1V15 ∧ o.alg ≠ CIPHER_RSA_OAEP ∧ o.alg ≠ CIPHER_EC_ELGAMAL)) →
    (o.mode = MODE_ENCRYPT ∨ o.mode = MODE_DECRYPT) → (∃ q : InitParams, q.alg = some o.alg) →
    (o.sym = none → ctx = none) → (o.sym.isSome → ∃ evp prm, ctx = some ⟨o.alg, o.mode, evp⟩ ∧ p.create o.alg o.mode sk.key prm = some evp) → P o sk ctx
  run : ∀ (k : ProcKind) u env o sk ctx mem outA inA required bytes, P o sk ctx →
    ∀ c, (k.run p u env o sk ctx mem outA inA required bytes).ctx = some c → ctx.isSome → P o sk (some c)
  setIv : ∀ o sk c e iv, P o sk (some c) → p.setIv c.evp iv = some e → P o sk (some { c with evp := e })

theorem processAcquired_world' (k : ProcKind) (p : CipherPrim σ) (u : UnwrapPrims) (env : RightsEnv) (wBack wHeld : CipherWorld σ) (o : CipherObj)
    (sk : StoredKey) (ctx : Option (SymCtx σ)) (svp : SvpStore) (mem : Mem) (out : Option RawBuffer) (input : RawBuffer) (bytes : UInt64)
    (caller : Uuid) :
    let r := processAcquired k p u env wBack wHeld o sk ctx svp mem out input bytes caller
    r.world = wBack ∨ r.world = wHeld ∨ ∃ outA inA required,
      r.world = wBack.setSym o (k.run p u env o sk ctx mem outA inA required bytes).ctx := by
  unfold processAcquired
  simp only
  cases out with
  | none => exact Or.inl rfl
  | some out =>
    cases out with
    | badType => right; left; rfl
    | buf ob =>
      cases input with
      | badType => right; left; rfl
      | buf ib =>
        simp only
        split
        · exact Or.inl rfl
        · split
          · exact Or.inl rfl
          · split
            · exact Or.inl rfl
            · split
              · exact Or.inl rfl
              · split
                · exact Or.inl rfl
                · split
                  · right; right; exact ⟨_, _, _, rfl⟩
                  · right; right; exact ⟨_, _, _, rfl⟩

theorem cipherStep_all {w : CipherWorld σ} (inv : CipherInv w) (p : CipherPrim σ) (stable : CtxStable p P) (all : CtxAll P w) (op : CipherOp)
    (hop : op.oaepOk) (r : CipherWorld σ × Option Status) (hr : cipherStep p w op = some r) : CtxAll P r.1 := by
  cases op with
  | init params mode key env u =>
    simp only [cipherStep] at hr
    rcases cipherInit_cases p w inv.live inv.fresh params mode key env hop u with ⟨w', s, e, _, same⟩ | ⟨w', h, ptr, o, sk, e, _, halg, hmode, hm, _, hsym, hcr, n⟩
    · rw [e] at hr
      simp only [Option.map_some, Option.some.injEq] at hr
      subst hr
      exact all.same inv same
    · rw [e] at hr
      simp only [Option.map_some, Option.some.injEq] at hr
      subst hr
      refine all.new inv h ptr o sk u n ?_
      intro ctx hctx
      refine stable.init o sk ctx hsym (by rw [hmode]; exact hm) ⟨params, halg.symm⟩ ?_ ?_
      · intro hn
        unfold CipherWorld.symOf at hctx
        rw [hn] at hctx
        simpa using hctx.symm
      · intro hsome
        obtain ⟨sp, hsp⟩ := Option.isSome_iff_exists.mp hsome
        obtain ⟨evp, h1, h2⟩ := hcr sp hsp
        refine ⟨evp, params.sym, ?_, h2⟩
        unfold CipherWorld.symOf at hctx
        rw [hsp] at hctx
        simp only [h1, Option.some.injEq] at hctx
        exact hctx.symm
  | process k u env svp mem context out input bytes caller =>
    simp only [cipherStep] at hr
    rcases cipherProcess_eq inv k p u env svp mem context out input bytes caller with ⟨s, _, _, e⟩ | ⟨ptr, o, sk, ctx, st1, hc, ha, e⟩
    · rw [e] at hr
      simp only [Option.map_some, Option.some.injEq] at hr
      subst hr
      exact all
    · rw [e] at hr
      simp only [Option.map_some, Option.some.injEq] at hr
      subst hr
      rcases processAcquired_world' k p u env w { w with store := st1 } o sk ctx svp mem out input bytes caller with hw | hw | ⟨outA, inA, rq, hw⟩
      · show CtxAll P (processAcquired _ _ _ _ _ _ _ _ _ _ _ _ _ _ _).world
        rw [hw]; exact all
      · show CtxAll P (processAcquired _ _ _ _ _ _ _ _ _ _ _ _ _ _ _).world
        rw [hw]
        obtain ⟨_, l2, l3⟩ := acquired_objects w.store st1 context caller ptr inv.live ha
        refine all.restore inv st1 l2 ?_
        intro x
        rw [l3]
        by_cases hx : x = context
        · rw [if_pos hx, hx, hc.owner]
        · rw [if_neg hx]
      · show CtxAll P (processAcquired _ _ _ _ _ _ _ _ _ _ _ _ _ _ _).world
        rw [hw]
        refine all.set inv context caller ptr o sk ctx hc _ ?_
        intro c' hc' hsome
        rw [hc']
        exact stable.run k u env o sk ctx mem outA inA rq bytes (all _ _ _ _ _ _ hc) c' hc' hsome
  | updateIv context iv u =>
    simp only [cipherStep] at hr
    unfold cipherUpdateIv at hr
    cases iv with
    | none =>
      simp only [Option.map_some, Option.some.injEq] at hr
      subst hr
      exact all
    | some iv =>
      simp only at hr
      rcases acquire_fail w.store context u with ⟨st1, ptr, e⟩ | ⟨s, hs, e⟩
      · obtain ⟨h1, h2, h3, h4, h5⟩ := (acquire_ok_iff w.store context u st1 ptr).mp e
        obtain ⟨o, sk, ctx, hc⟩ := inv.hasCtx context ptr h3
        rw [h4] at hc
        have hrel := acquire_release w.store inv.live.len context u st1 ptr e
        rw [e] at hr
        simp only [hc.obj, hc.sym, hrel] at hr
        split at hr
        · split at hr
          · simp only [Option.map_some, Option.some.injEq] at hr; subst hr; exact all
          · cases ctx with
            | none => simp only [Option.map_some, Option.some.injEq] at hr; subst hr; exact all
            | some cx =>
              simp only at hr
              split at hr
              · simp only [Option.map_some, Option.some.injEq] at hr; subst hr; exact all
              · rename_i e' he'
                simp only [Option.map_some, Option.some.injEq] at hr; subst hr
                refine all.set inv context u ptr o sk (some cx) hc _ ?_
                intro c' hc' _
                exact stable.setIv o sk cx e' iv (all _ _ _ _ _ _ hc) he'
        · simp only [Option.map_some, Option.some.injEq] at hr; subst hr; exact all
      · rw [e] at hr
        have : r = (w, some s) := by cases s <;> simp_all
        subst this
        exact all
  | release context u =>
    simp only [cipherStep] at hr
    rcases cipherRelease_spec inv context u with ⟨s, _, e⟩ | ⟨w', e, same, _⟩ | ⟨w', ptr, e, hi, ho, _, hn, hst, _, hh⟩
    · rw [e] at hr; simp only [Option.some.injEq] at hr; subst hr; exact all
    · rw [e] at hr; simp only [Option.some.injEq] at hr; subst hr; exact all.same inv same
    · rw [e] at hr; simp only [Option.some.injEq] at hr; subst hr
      intro k u' ptr' o' sk' ctx' hc
      have hk : k ≠ context := by
        rintro rfl
        have := hc.slot
        rw [hn] at this; simp at this
      refine all.at inv hc (by rw [hst k hk]) (by rw [hst k hk]) ?_
      intro x hx
      exact hh x (fun hx' => hk (inv.inj k context x hx hx'))

theorem cipherRun_all (p : CipherPrim σ) (stable : CtxStable p P) (ops : List CipherOp) : ∀ {w : CipherWorld σ}, CipherInv w → CtxAll P w →
    (∀ op ∈ ops, op.oaepOk) → ∃ w', cipherRun p w ops = some w' ∧ CipherInv w' ∧ CtxAll P w' := by
  induction ops with
  | nil => intro w inv all _; exact ⟨w, rfl, inv, all⟩
  | cons op ops ih =>
    intro w inv all hop
    obtain ⟨r, e, hi⟩ := cipherStep_inv inv p op (hop op (by simp))
    have ha := cipherStep_all inv p stable all op (hop op (by simp)) r e
    obtain ⟨w', e', hi', ha'⟩ := ih hi ha (fun o ho => hop o (by simp [ho]))
    exact ⟨w', by unfold cipherRun; rw [e]; exact e', hi', ha'⟩

theorem cipherNew_all (slots : Nat) (hs : slots < 2 ^ 64) (w : CipherWorld σ) (h : cipherNew σ slots = some w) : CtxAll P w := by
  obtain ⟨_, _, h3⟩ := cipherNew_inv slots hs w h
  intro k u ptr o sk ctx hc
  have := hc.slot
  rw [h3] at this; simp at this

end Sa

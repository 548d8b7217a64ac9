import Verif.Lemmas.CipherPair

/-!
# Contexts for decryption with a private key are kept by all calls that do not release them
-/

namespace Sa

variable {σ : Type}

theorem HasCtx.noSym {w : CipherWorld σ} {h : Nat} {u : Uuid} {ptr : Nat} {o : CipherObj} {sk : StoredKey} (hc : HasCtx w h u ptr o sk none) : o.sym = none := by
  have := hc.sym
  unfold CipherWorld.symOf at this
  cases hs : o.sym with
  | none => rfl
  | some sp =>
    rw [hs] at this
    simp only at this
    split at this
    · simp at this
    · simp at this

/-- What one context holds changes nothing for another, nor for itself if it has no symmetric part. -/
theorem HasCtx.afterSet {w : CipherWorld σ} (inv : CipherInv w) {h : Nat} {u : Uuid} {ptr : Nat} {o : CipherObj} {sk : StoredKey} (hc : HasCtx w h u ptr o sk none)
    {h' : Nat} {u' : Uuid} {ptr' : Nat} {o' : CipherObj} {sk' : StoredKey} {ctx' : Option (SymCtx σ)} (hc' : HasCtx w h' u' ptr' o' sk' ctx') (c : Option (SymCtx σ)) :
    HasCtx (w.setSym o' c) h u ptr o sk none := by
  unfold CipherWorld.setSym
  cases hs : o'.sym with
  | none => exact hc
  | some sp =>
    cases c with
    | none => exact hc
    | some c =>
      refine hc.frame rfl rfl fun x hx => ?_
      show (if x = sp then _ else w.heap x) = _
      rw [if_neg]
      rintro rfl
      have := inv.inj h h' x hx ⟨ptr', o', hc'.slot, hc'.obj, Or.inr (Or.inl hs)⟩
      subst this
      obtain ⟨_, _, rfl, _, _⟩ := hc.unique hc'
      rw [hc.noSym] at hs
      cases hs

theorem HasCtx.kept {w : CipherWorld σ} (inv : CipherInv w) (p : CipherPrim σ) {h : Nat} {u : Uuid} {ptr : Nat} {o : CipherObj} {sk : StoredKey} (hc : HasCtx w h u ptr o sk none)
    (op : CipherOp) (hop : op.oaepOk) (hno : ∀ c, op ≠ .release h c) {r : CipherWorld σ × Option Status} (hr : cipherStep p w op = some r) : HasCtx r.1 h u ptr o sk none := by
  cases op with
  | init params mode key env u' =>
    simp only [cipherStep] at hr
    rcases cipherInit_cases p w inv.live inv.fresh params mode key env hop u' with ⟨w', s, e, _, same⟩ | ⟨w', h', ptr', o', sk', e, _, _, _, _, _, _, _, n⟩
    · rw [e] at hr
      simp only [Option.map_some, Option.some.injEq] at hr
      subst hr
      exact hc.frame (by rw [same.store]) (by rw [same.store]) (fun x _ => same.heap x)
    · rw [e] at hr
      simp only [Option.map_some, Option.some.injEq] at hr
      subst hr
      have hne : h ≠ h' := by
        rintro rfl
        have := hc.slot
        rw [n.free] at this
        cases this
      exact hc.frame (by rw [n.store, if_neg hne]) (by rw [n.store, if_neg hne]) (fun x hx => n.old x (inv.fresh x (inv.refers_alloc h x hx)))
  | process k up env svp mem context out input bytes caller =>
    simp only [cipherStep] at hr
    rcases cipherProcess_eq inv k p up env svp mem context out input bytes caller with ⟨s, _, _, e⟩ | ⟨ptr', o', sk', ctx', st1, hc', ha, e⟩
    · rw [e] at hr
      simp only [Option.map_some, Option.some.injEq] at hr
      subst hr
      exact hc
    · rw [e] at hr
      simp only [Option.map_some, Option.some.injEq] at hr
      subst hr
      show HasCtx (processAcquired _ _ _ _ _ _ _ _ _ _ _ _ _ _ _).world _ _ _ _ _ _
      rcases processAcquired_world k p up env w { w with store := st1 } o' sk' ctx' svp mem out input bytes caller with hw | ⟨hw, _⟩ | ⟨c, hw⟩
      · rw [hw]; exact hc
      · rw [hw]
        obtain ⟨_, l2, l3⟩ := acquired_objects w.store st1 context caller ptr' inv.live ha
        refine hc.frame (l2 h) ?_ (fun _ _ => rfl)
        show (st1.obj h).ownerUuid = _
        rw [l3]
        by_cases hx : h = context
        · rw [if_pos hx, hx, hc'.owner]
        · rw [if_neg hx]
      · rw [hw]
        exact hc.afterSet inv hc' c
  | updateIv context iv u' =>
    simp only [cipherStep] at hr
    unfold cipherUpdateIv at hr
    cases iv with
    | none =>
      simp only [Option.map_some, Option.some.injEq] at hr
      subst hr
      exact hc
    | some iv =>
      simp only at hr
      rcases acquire_fail w.store context u' with ⟨st1, ptr', e⟩ | ⟨s, hs, e⟩
      · obtain ⟨h1, h2, h3, h4, h5⟩ := (acquire_ok_iff w.store context u' st1 ptr').mp e
        obtain ⟨o', sk', ctx', hc'⟩ := inv.hasCtx context ptr' h3
        have hrel := acquire_release w.store inv.live.len context u' st1 ptr' e
        rw [e] at hr
        simp only [hc'.obj, hc'.sym, hrel] at hr
        split at hr
        · split at hr
          · simp only [Option.map_some, Option.some.injEq] at hr; subst hr; exact hc
          · cases ctx' with
            | none => simp only [Option.map_some, Option.some.injEq] at hr; subst hr; exact hc
            | some cx =>
              simp only at hr
              split at hr
              · simp only [Option.map_some, Option.some.injEq] at hr; subst hr; exact hc
              · simp only [Option.map_some, Option.some.injEq] at hr; subst hr
                exact hc.afterSet inv hc' _
        · simp only [Option.map_some, Option.some.injEq] at hr; subst hr; exact hc
      · rw [e] at hr
        have : r = (w, some s) := by cases s <;> simp_all
        subst this
        exact hc
  | release context u' =>
    simp only [cipherStep] at hr
    rcases cipherRelease_spec inv context u' with ⟨s, _, e⟩ | ⟨w', e, same, _⟩ | ⟨w', ptr', e, hi, ho, _, hn, hst, _, hh⟩
    · rw [e] at hr; simp only [Option.some.injEq] at hr; subst hr; exact hc
    · rw [e] at hr; simp only [Option.some.injEq] at hr; subst hr
      exact hc.frame (by rw [same.store]) (by rw [same.store]) (fun x _ => same.heap x)
    · rw [e] at hr; simp only [Option.some.injEq] at hr; subst hr
      have hne : h ≠ context := by
        rintro rfl
        exact hno u' rfl
      exact hc.frame (by rw [hst h hne]) (by rw [hst h hne]) (fun x hx => hh x (fun hx' => hne (inv.inj h context x hx hx')))

/-- Any number of calls. -/
theorem HasCtx.keptAll (p : CipherPrim σ) {h : Nat} {u : Uuid} {ptr : Nat} {o : CipherObj} {sk : StoredKey} (ops : List CipherOp) :
    ∀ {w : CipherWorld σ}, CipherInv w → HasCtx w h u ptr o sk none → (∀ op ∈ ops, op.oaepOk) → (∀ op ∈ ops, ∀ c, op ≠ .release h c) →
      ∀ {w' : CipherWorld σ}, cipherRun p w ops = some w' → CipherInv w' ∧ HasCtx w' h u ptr o sk none := by
  induction ops with
  | nil =>
    intro w inv hc _ _ w' hr
    injection hr with hr
    subst hr
    exact ⟨inv, hc⟩
  | cons op ops ih =>
    intro w inv hc ho hno w' hr
    obtain ⟨r, e, hi⟩ := cipherStep_inv inv p op (ho op (by simp))
    unfold cipherRun at hr
    rw [e] at hr
    exact ih hi (hc.kept inv p op (ho op (by simp)) (hno op (by simp)) e) (fun o h => ho o (by simp [h])) (fun o h => hno o (by simp [h])) hr

/-- The parameters of OAEP are those given. -/
theorem initOaep_params {w : CipherWorld σ} (live : LiveInv w.store) (fresh : ∀ x, w.heap x ≠ none → x < w.next) {mode keyPtr d mgf1 : Nat} {label : Option Bytes} {env : InitEnv}
    (p : CipherPrim σ) (sk : StoredKey) {u : Uuid} {w' : CipherWorld σ} {h : Nat} (hr : initOaep w mode keyPtr d mgf1 label env u = some (w', .OK, h)) :
    ∃ ptr o, (w'.store.obj h).object = some ptr ∧ w'.heap ptr = some (.obj o) ∧ o.oaep = some (d, mgf1, label) := by
  unfold initOaep at hr
  rcases addKey_cases p w live fresh CIPHER_RSA_OAEP mode keyPtr sk none env.allocOk u ⟨[], [], []⟩ with ⟨w1, s, e, hs, same⟩ | ⟨w1, h1, e, hu, n⟩
  · rw [e] at hr
    simp only at hr
    rw [if_pos hs] at hr
    simp only [Option.some.injEq, Prod.mk.injEq] at hr
    exact absurd hr.2.1 hs
  · rw [e] at hr
    simp only at hr
    rw [if_neg (by simp)] at hr
    have hacq := (acquire_ok_iff w1.store h1 u _ w.next).mpr ⟨by rw [n.count]; exact n.small, n.live.up, by rw [n.store, if_pos rfl], hu, rfl⟩
    have hrel := acquire_release w1.store n.live.len h1 u _ w.next hacq
    rw [hacq] at hr
    simp only [hrel, n.obj] at hr
    split at hr
    · simp at hr
    · split at hr
      · simp at hr
      · simp only [Option.some.injEq, Prod.mk.injEq, true_and] at hr
        obtain ⟨rfl, rfl⟩ := hr
        refine ⟨w.next, ⟨CIPHER_RSA_OAEP, mode, none, some keyPtr, some (d, mgf1, label)⟩, ?_, ?_, rfl⟩
        · show (w1.store.obj h1).object = _
          rw [n.store, if_pos rfl]
        · show (if w.next = w.next then _ else _) = _
          rw [if_pos rfl]

/-- The context that a successful `sa_crypto_cipher_init` makes for a private key. -/
theorem init_asym (p : CipherPrim σ) {w : CipherWorld σ} (inv : CipherInv w) (params : InitParams) (sk : StoredKey) (env : InitEnv) (u : Uuid)
    (hoaep : params.alg = some CIPHER_RSA_OAEP → env.lockOk = true ∧ env.labelOk = true) (w' : CipherWorld σ) (h : Nat)
    (hasym : params.alg = some CIPHER_RSA_PKCS1V15 ∨ params.alg = some CIPHER_RSA_OAEP ∨ params.alg = some CIPHER_EC_ELGAMAL)
    (hr : cipherInit p w params MODE_DECRYPT (.OK, some sk) env u = some (w', .OK, h)) :
    CipherInv w' ∧ ∃ ptr o, HasCtx w' h u ptr o sk none ∧ params.alg = some o.alg ∧ o.mode = MODE_DECRYPT ∧
      (∀ q, params = .oaep q → ∃ d g label, q = some (d, g, label) ∧ o.oaep = some (d, g, label.get)) := by
  rcases cipherInit_cases p w inv.live inv.fresh params MODE_DECRYPT (.OK, some sk) env hoaep u with
    ⟨w1, s, e, hs, _⟩ | ⟨w1, h1, ptr, o, sk', e, hk, halg, hmode, hm, _, hs, hcr, n⟩
  · rw [e] at hr
    simp only [Option.some.injEq, Prod.mk.injEq] at hr
    exact absurd hr.2.1 hs
  · have hr0 := hr
    rw [e] at hr
    simp only [Option.some.injEq, Prod.mk.injEq, true_and] at hr
    obtain ⟨r1, r2⟩ := hr
    subst r1; subst r2
    simp only [Prod.mk.injEq, Option.some.injEq, true_and] at hk
    subst hk
    have hns : o.sym = none := by
      cases hsy : o.sym with
      | none => rfl
      | some sp =>
        have := hs.1 (by rw [hsy]; rfl)
        rw [← halg] at hasym
        simp only [Option.some.injEq] at hasym
        rcases hasym with h | h | h
        · exact absurd h this.1
        · exact absurd h this.2.1
        · exact absurd h this.2.2
    have hctx : HasCtx w1 h1 u ptr o sk none := by
      refine ⟨by rw [n.store, if_pos rfl], by rw [n.store, if_pos rfl], n.obj, ?_, ?_⟩
      · unfold CipherWorld.keyOf; rw [n.key]; simp only [n.keyCell]
      · unfold CipherWorld.symOf; rw [hns]
    refine ⟨inv.new h1 ptr o sk u n, ptr, o, hctx, halg.symm, hmode, ?_⟩
    rintro q rfl
    unfold cipherInit at hr0
    simp only [InitParams.alg] at hr0
    rw [if_neg (by simp), if_neg (by decide), if_neg (by simp), if_neg (show ¬ MODE_DECRYPT = MODE_ENCRYPT by decide)] at hr0
    split at hr0
    · simp at hr0
    · have hl1 : LiveInv (w.alloc (.key sk)).store := inv.live
      have hf1 : ∀ x, (w.alloc (.key sk)).heap x ≠ none → x < (w.alloc (.key sk)).next := by
        intro x hx
        change (if x = w.next then _ else w.heap x) ≠ none at hx
        show x < w.next + 1
        by_cases hx' : x = w.next
        · omega
        · rw [if_neg hx'] at hx
          have := inv.fresh x hx
          omega
      split at hr0
      · cases hr0
      · rename_i w2 h2 ha
        simp only [Option.some.injEq, Prod.mk.injEq, true_and] at hr0
        obtain ⟨rfl, rfl⟩ := hr0
        unfold initAlgorithm at ha
        cases q with
        | none => simp at ha
        | some q =>
          obtain ⟨d, g, label⟩ := q
          simp only at ha
          split at ha
          · simp at ha
          · split at ha
            · simp at ha
            · rw [if_neg (by simp)] at ha
              obtain ⟨ptr', o', e1, e2, e3⟩ := initOaep_params hl1 hf1 p sk ha
              rw [hctx.slot] at e1
              injection e1 with e1
              subst e1
              rw [hctx.obj] at e2
              simp only [Option.some.injEq, Cell.obj.injEq] at e2
              subst e2
              exact ⟨d, g, label, rfl, e3⟩
      · rename_i hx _
        simp only [Option.map_eq_some_iff, Prod.mk.injEq] at hr0
        obtain ⟨_, _, _, hbad, _⟩ := hr0
        subst hbad
        exact absurd trivial (by simp at hx)

end Sa

import Verif.Props.C105
import Verif.Props.C28

/-!
# C106: a MAC is that of the key which the handle denoted and of the data processed

For the TA as a whole: any number of sessions and callers, all calls.
-/

namespace Sa.Whole.C106

open C105

variable {κ ρ π σ τ : Type}

/-! ## What a request does to the tables of a session -/

/-- The tables of session `s` after a request are those before, those after the call that the session's holder made, or new ones. -/
theorem tables_after (d : Device σ τ) (w : Ta σ τ) (inv : TaInv w) (r : Request κ ρ π) (w' : Ta σ τ) (told : Told) (h : handle d w r = some (w', told)) (s : Nat) (t' : Tables σ τ)
    (ht : tablesOf w' s = some t') :
    (tablesOf w s = some t' ∧ (∀ u, ¬(r = .close s u ∧ told = .closed .OK)) ∧ told ≠ .opened .OK s ∧ ∀ u c q, ¬(r = .call s u c ∧ told = .reply q)) ∨
    (∃ u c q t, r = .call s u c ∧ told = .reply q ∧ tablesOf w s = some t ∧ (w.clients.obj s).ownerUuid = u ∧ serve d t u c = some (t', q)) ∨
    (∃ u ptr, r = .open u ptr ∧ told = .opened .OK s ∧ newTables σ τ = some t') := by
  cases r with
  | «open» u ptr =>
    rcases open_cases (κ := κ) (ρ := ρ) (π := π) d w inv u ptr with ⟨st, s', n, e, hs, hl, hob⟩ | ⟨st, n, tb, e, hnew, hn, hl, hfree, hob⟩
    · rw [e] at h; cases h
      refine Or.inl ⟨by simpa [tablesOf, hob] using ht, by simp, by simp [hs], by simp⟩
    · rw [e] at h; cases h
      by_cases hs : s = n
      · subst hs
        refine Or.inr (Or.inr ⟨u, ptr, rfl, rfl, ?_⟩)
        rw [hnew]
        simpa [tablesOf, hob] using ht
      · refine Or.inl ⟨?_, by simp, by simp [Ne.symm hs], by simp⟩
        simp only [tablesOf, hob, if_neg hs] at ht ⊢
        cases hq : (w.clients.obj s).object with
        | none => rw [hq] at ht; simp at ht
        | some q =>
          rw [hq] at ht
          simp only [Option.bind_some] at ht ⊢
          rw [if_neg] at ht
          · exact ht
          · rintro rfl
            have := inv.inHeap s q hq
            rw [hn] at this; simp at this
  | close n u =>
    rcases close_cases (κ := κ) (ρ := ρ) (π := π) d w inv n u with ⟨s', e, hs, _⟩ | ⟨st, ptr, e, h4, h5, hl, hi, hob⟩
    · rw [e] at h; cases h
      exact Or.inl ⟨ht, by simp [hs], by simp, by simp⟩
    · rw [e] at h; cases h
      have hs : s ≠ n := by
        rintro rfl
        simp [tablesOf, hob] at ht
      refine Or.inl ⟨?_, by simp [Ne.symm hs], by simp, by simp⟩
      simp only [tablesOf, hob, if_neg hs] at ht ⊢
      cases hq : (w.clients.obj s).object with
      | none => rw [hq] at ht; simp at ht
      | some q =>
        rw [hq] at ht
        simp only [Option.bind_some] at ht ⊢
        rw [if_neg] at ht
        · exact ht
        · rintro rfl
          exact hs (inv.inj s n q hq h4)
  | call n u c =>
    rcases call_cases d w inv n u c with ⟨s', e, _⟩ | ⟨ptr, tb, h4, h5, h6, e⟩
    · rw [e] at h; cases h
      exact Or.inl ⟨ht, by simp, by simp, by simp⟩
    · rw [e] at h
      cases hs : serve d tb u c with
      | none => rw [hs] at h; simp at h
      | some y =>
        rw [hs] at h; cases h
        by_cases hsn : s = n
        · subst hsn
          refine Or.inr (Or.inl ⟨u, c, y.2, tb, rfl, rfl, by simp [tablesOf, h4, h6], h5, ?_⟩)
          rw [hs]
          simp [tablesOf, h4] at ht
          rw [← ht]
        · refine Or.inl ⟨?_, by simp, by simp, by simp [Ne.symm hsn]⟩
          simp only [tablesOf] at ht ⊢
          cases hq : (w.clients.obj s).object with
          | none => rw [hq] at ht; simp at ht
          | some q =>
            rw [hq] at ht
            simp only [Option.bind_some] at ht ⊢
            rw [if_neg] at ht
            · exact ht
            · rintro rfl
              exact hsn (inv.inj s n q hq h4)

theorem handleAll_snoc (d : Device σ τ) (rs : List (Request κ ρ π)) (w w1 : Ta σ τ) (ts : List (Uuid × Told)) (h : handleAll d w rs = some (w1, ts)) (r : Request κ ρ π) (w2 : Ta σ τ)
    (t : Told) (h2 : handle d w1 r = some (w2, t)) : handleAll d w (rs ++ [r]) = some (w2, ts ++ [(r.caller, t)]) := by
  induction rs generalizing w ts with
  | nil => cases h; simp [handleAll, h2]
  | cons q rs ih =>
    simp only [handleAll] at h
    cases h1 : handle d w q with
    | none => rw [h1] at h; simp at h
    | some z =>
      rw [h1] at h
      simp only at h
      cases h3 : handleAll d z.1 rs with
      | none => rw [h3] at h; simp at h
      | some y =>
        rw [h3] at h
        simp only [Option.some.injEq, Prod.mk.injEq] at h
        obtain ⟨rfl, rfl⟩ := h
        have := ih z.1 y.2 (by rw [h3])
        simp only [List.cons_append, handleAll, h1, this]

/-! ## The history of a MAC context -/

/-- A request that, with this answer, makes context `h` of session `s`, changes it or ends it. -/
def Touches (s h : Nat) : Request κ ρ π → Told → Prop
  | .open _ _, .opened .OK s' => s' = s
  | .close s' _, .closed .OK => s' = s
  | .call s' _ (.macInit _ _ _ _ _), .reply (.mac r) => s' = s ∧ r.status = .OK ∧ r.handle = h
  | .call s' _ (.macProcess h' _), .reply (.mac r) => s' = s ∧ r.status = .OK ∧ h' = h
  | .call s' _ (.macProcessKey _ h' _), .reply (.mac r) => s' = s ∧ r.status = .OK ∧ h' = h
  | .call s' _ (.macCompute h' (some _)), .reply (.mac r) => s' = s ∧ r.status = .OK ∧ h' = h
  | .call s' _ (.macRelease h'), .reply (.mac r) => s' = s ∧ r.status = .OK ∧ h' = h
  | _, _ => False

/-- By the history `rs`, context `h` of session `s` was made by `u` with a key of bytes `key` for MACs of kind `kind`, `msg` has been processed in it since, and it is neither finished nor
released. -/
inductive Made (p : Prims) (d : Device σ τ) (w0 : Ta σ τ) : List (Request κ ρ π) → Nat → Nat → Uuid → MacKind → Bytes → Bytes → Prop where
  | init {rs ts w w' s u env alg digest key ok r k} : handleAll (κ := κ) (ρ := ρ) (π := π) d w0 rs = some (w, ts) → handle (κ := κ) (ρ := ρ) (π := π) d w (.call s u (.macInit env alg digest key ok)) = some (w', .reply (.mac r)) →
      r.status = .OK → Denotes p w s u key k → useResult env k u = (.OK, some k) → rightsAllowedSign env.rights k.header.rights = true →
      Made p d w0 (rs ++ [.call s u (.macInit env alg digest key ok)]) s r.handle u (macKindOf alg digest) k.key []
  | data {rs ts w w' s h u kind key msg bytes r} : Made p d w0 rs s h u kind key msg → handleAll (κ := κ) (ρ := ρ) (π := π) d w0 rs = some (w, ts) →
      handle (κ := κ) (ρ := ρ) (π := π) d w (.call s u (.macProcess h (some bytes))) = some (w', .reply (.mac r)) → r.status = .OK →
      Made p d w0 (rs ++ [.call s u (.macProcess h (some bytes))]) s h u kind key (msg ++ bytes)
  | more {rs ts w w' s h u kind key msg env k2 r k} : Made p d w0 rs s h u kind key msg → handleAll (κ := κ) (ρ := ρ) (π := π) d w0 rs = some (w, ts) →
      handle (κ := κ) (ρ := ρ) (π := π) d w (.call s u (.macProcessKey env h k2)) = some (w', .reply (.mac r)) → r.status = .OK → Denotes p w s u k2 k → useResult env k u = (.OK, some k) →
      Made p d w0 (rs ++ [.call s u (.macProcessKey env h k2)]) s h u kind key (msg ++ k.key)
  | other {rs ts w w' s h u kind key msg r told} : Made p d w0 rs s h u kind key msg → handleAll (κ := κ) (ρ := ρ) (π := π) d w0 rs = some (w, ts) → handle (κ := κ) (ρ := ρ) (π := π) d w r = some (w', told) → ¬Touches s h r told →
      Made p d w0 (rs ++ [r]) s h u kind key msg

/-! ## The calls on MAC contexts -/

theorem init_ok {mp : MacPrim τ} {w : MacWorld τ} {alg : Nat} {digest : Option Nat} {key : Status × Option StoredKey} {env : RightsEnv} {ok : Bool} {u : Uuid}
    (h : (macInit mp w alg digest key env ok u).2.status = .OK) : ∃ sk, key = (.OK, some sk) ∧ rightsAllowedSign env sk.header.rights = true := by
  obtain ⟨s, k⟩ := key
  unfold macInit at h
  simp only at h
  split at h
  · split at h
    · cases h
    · split at h
      · rename_i hs; exact absurd h hs
      · rename_i hs
        have hs : s = .OK := Classical.byContradiction hs
        subst hs
        split at h
        · cases h
        · rename_i sk
          split at h
          · cases h
          · rename_i hr
            exact ⟨sk, rfl, by simpa using hr⟩
  · split at h
    · split at h
      · rename_i hs; exact absurd h hs
      · rename_i hs
        have hs : s = .OK := Classical.byContradiction hs
        subst hs
        split at h
        · cases h
        · rename_i sk
          split at h
          · cases h
          · rename_i hr
            exact ⟨sk, rfl, by simpa using hr⟩
    · cases h

theorem processKey_ok {mp : MacPrim τ} {w w' : MacWorld τ} {c : Nat} {key : Status × Option StoredKey} {u : Uuid} {r : MacResp} (he : macProcessKey mp w c key u = some (w', r))
    (h : r.status = .OK) : ∃ sk, key = (.OK, some sk) := by
  obtain ⟨s, k⟩ := key
  unfold macProcessKey withMac at he
  rcases acquire_fail w.store c u with ⟨st1, ptr, ha⟩ | ⟨x, hx, ha⟩
  · rw [ha] at he
    simp only at he
    cases hm : w.heap ptr with
    | none => rw [hm] at he; simp at he
    | some m =>
      rw [hm] at he
      simp only [Option.some.injEq, Prod.mk.injEq] at he
      obtain ⟨_, rfl⟩ := he
      by_cases hs : s = .OK
      · subst hs
        cases k with
        | none => simp at h
        | some sk => exact ⟨sk, rfl⟩
      · rw [if_pos hs] at h
        exact absurd h hs
  · rw [ha] at he
    cases x <;> first
      | exact absurd rfl hx
      | (simp only [Option.some.injEq, Prod.mk.injEq] at he
         obtain ⟨_, rfl⟩ := he
         cases h)

/-- A call is on MAC contexts, or leaves them. -/
theorem serve_mac (d : Device σ τ) (t t' : Tables σ τ) (u : Uuid) (c : Cmd κ ρ π) (q : Reply) (h : serve d t u c = some (t', q)) :
    (t'.macs = t.macs ∧ ∀ s h, ¬Touches (κ := κ) (ρ := ρ) (π := π) s h (.call s u c) (.reply q)) ∨
    (∃ env alg digest key ok ks a r, c = .macInit env alg digest key ok ∧ keyStoreUnwrap env t.keys key u = some (ks, a) ∧
      macStep d.mac t.macs (.init alg digest a env.rights ok u) = some (t'.macs, r) ∧ q = .mac r) ∨
    (∃ x input r, c = .macProcess x input ∧ macStep d.mac t.macs (.process x input u) = some (t'.macs, r) ∧ q = .mac r) ∨
    (∃ env x key ks a r, c = .macProcessKey env x key ∧ keyStoreUnwrap env t.keys key u = some (ks, a) ∧
      macStep d.mac t.macs (.processKey x a u) = some (t'.macs, r) ∧ q = .mac r) ∨
    (∃ x out r, c = .macCompute x out ∧ macStep d.mac t.macs (.compute x out u) = some (t'.macs, r) ∧ q = .mac r) ∨
    (∃ x r, c = .macRelease x ∧ macStep d.mac t.macs (.release x u) = some (t'.macs, r) ∧ q = .mac r) := by
  cases c with
  | macInit env alg digest key ok =>
    simp only [serve] at h
    cases hk : keyStoreUnwrap env t.keys key u with
    | none => rw [hk] at h; simp at h
    | some y =>
      obtain ⟨ks, a1, a2⟩ := y
      rw [hk] at h
      simp only [Option.some.injEq, Prod.mk.injEq] at h
      obtain ⟨rfl, rfl⟩ := h
      exact Or.inr (Or.inl ⟨env, alg, digest, key, ok, ks, (a1, a2), _, rfl, hk, rfl, rfl⟩)
  | macProcess x input =>
    simp only [serve, Option.map_eq_some_iff, Prod.mk.injEq] at h
    obtain ⟨y, hy, rfl, rfl⟩ := h
    exact Or.inr (Or.inr (Or.inl ⟨x, input, y.2, rfl, hy, rfl⟩))
  | macProcessKey env x key =>
    simp only [serve] at h
    cases hk : keyStoreUnwrap env t.keys key u with
    | none => rw [hk] at h; simp at h
    | some y =>
      obtain ⟨ks, a1, a2⟩ := y
      rw [hk] at h
      simp only [Option.map_eq_some_iff, Prod.mk.injEq] at h
      obtain ⟨y, hy, rfl, rfl⟩ := h
      exact Or.inr (Or.inr (Or.inr (Or.inl ⟨env, x, key, ks, (a1, a2), y.2, rfl, hk, hy, rfl⟩)))
  | macCompute x out =>
    simp only [serve, Option.map_eq_some_iff, Prod.mk.injEq] at h
    obtain ⟨y, hy, rfl, rfl⟩ := h
    exact Or.inr (Or.inr (Or.inr (Or.inr (Or.inl ⟨x, out, y.2, rfl, hy, rfl⟩))))
  | macRelease x =>
    simp only [serve, Option.map_eq_some_iff, Prod.mk.injEq] at h
    obtain ⟨y, hy, rfl, rfl⟩ := h
    exact Or.inr (Or.inr (Or.inr (Or.inr (Or.inr ⟨x, y.2, rfl, hy, rfl⟩))))
  | keys c =>
    simp only [serve, Option.map_eq_some_iff, Prod.mk.injEq] at h
    obtain ⟨y, hy, rfl, rfl⟩ := h
    exact Or.inl ⟨rfl, by simp [Touches]⟩
  | cipherInit env params mode key ienv =>
    simp only [serve] at h
    split at h
    · cases h
    · simp only [Option.map_eq_some_iff, Prod.mk.injEq] at h
      obtain ⟨y, hy, rfl, rfl⟩ := h
      exact Or.inl ⟨rfl, by simp [Touches]⟩
  | svpRelease x =>
    simp only [serve] at h
    split at h <;> cases h <;> exact Or.inl ⟨rfl, by simp [Touches]⟩
  | svpCreate a b => simp only [serve] at h; cases h; exact Or.inl ⟨rfl, by simp [Touches]⟩
  | svpWrite a b x y => simp only [serve] at h; cases h; exact Or.inl ⟨rfl, by simp [Touches]⟩
  | svpCopy a b x => simp only [serve] at h; cases h; exact Or.inl ⟨rfl, by simp [Touches]⟩
  | _ =>
    simp only [serve, Option.map_eq_some_iff, Prod.mk.injEq] at h
    obtain ⟨y, hy, rfl, rfl⟩ := h
    exact Or.inl ⟨rfl, by simp [Touches]⟩

/-! ## Histories -/

/-- What holds after the history `rs`. -/
structure Known (p : Prims) (d : Device σ τ) (view : τ → MacKind × Bytes × Bytes) (w0 : Ta σ τ) (rs : List (Request κ ρ π)) (w : Ta σ τ) : Prop where
  inv : C105.WInv p d w
  run : ∃ ts, handleAll d w0 rs = some (w, ts)
  macs : ∀ s t, tablesOf w s = some t → ∃ know, MacInv d.mac view t.macs know ∧
    ∀ h e, know h = some e → e.owner = (w.clients.obj s).ownerUuid ∧ (e.done = false → Made p d w0 rs s h e.owner e.kind e.key e.msg)

theorem tables_heap {w : Ta σ τ} {s : Nat} {t : Tables σ τ} (h : tablesOf w s = some t) : ∃ ptr, (w.clients.obj s).object = some ptr ∧ w.heap ptr = some t :=
  Option.bind_eq_some_iff.1 h

/-- A key that was used is the one denoted. -/
theorem used {p : Prims} (hp : p.Good) {d : Device σ τ} {w : Ta σ τ} (inv : C105.WInv p d w) {s : Nat} {t : Tables σ τ} (ht : tablesOf w s = some t) {u : Uuid} (hu : (w.clients.obj s).ownerUuid = u)
    {env : Env} (he : env.prims = p) {key : Nat} {ks : KeyStore} {k : StoredKey} (hk : keyStoreUnwrap env t.keys key u = some (ks, .OK, some k)) :
    Denotes p w s u key k ∧ useResult env k u = (.OK, some k) := by
  subst he
  obtain ⟨ptr, _, h2⟩ := tables_heap ht
  rcases unwrap_holds env hp t.keys (ksReachable_inv _ hp t.keys (inv.tabs ptr t h2).keys) key u with ⟨x, hx, he⟩ | ⟨k', he, hh, _⟩
  · rw [he] at hk
    simp at hk
  · rw [he] at hk
    simp only [Option.some.injEq, Prod.mk.injEq, true_and] at hk
    obtain ⟨_, rfl⟩ := hk
    refine ⟨⟨hu, t, ht, hh⟩, ?_⟩
    have := hh.2 env rfl
    rw [he] at this
    simpa using this.symm

theorem known_step {mac : MacKind → Bytes → Bytes → Bytes} {view : τ → MacKind × Bytes × Bytes} (p : Prims) (hp : p.Good) (d : Device σ τ) (hm : d.mac.Good mac view) (w0 : Ta σ τ)
    (rs : List (Request κ ρ π)) (w : Ta σ τ) (hk : Known p d view w0 rs w) (r : Request κ ρ π) (hf : r.Fine p) (w' : Ta σ τ) (told : Told) (hh : handle d w r = some (w', told)) :
    Known p d view w0 (rs ++ [r]) w' := by
  obtain ⟨ts, hrun⟩ := hk.run
  obtain ⟨w1, told1, e1, st⟩ := handle_ok p hp d ⟨mac, view, hm⟩ w hk.inv r hf
  rw [hh] at e1
  cases e1
  refine ⟨st.inv, ⟨_, handleAll_snoc d rs w0 w ts hrun r w' told hh⟩, fun s t' ht' => ?_⟩
  have sameOwner : ∀ t, tablesOf w s = some t → (∀ u, ¬(r = .close s u ∧ told = .closed .OK)) → (w'.clients.obj s).ownerUuid = (w.clients.obj s).ownerUuid := fun t ht hn =>
    (st.keeps s t ht hn).1
  rcases tables_after d w hk.inv.ta r w' told hh s t' ht' with ⟨ht, hc, ho, hn⟩ | ⟨u, c, q, t, rfl, rfl, ht, hu, hs⟩ | ⟨u, ptr, rfl, rfl, hnew⟩
  · obtain ⟨know, h1, h2⟩ := hk.macs s t' ht
    refine ⟨know, h1, fun h e he => ⟨(h2 h e he).1.trans (sameOwner _ ht hc).symm, fun hd => .other ((h2 h e he).2 hd) hrun hh ?_⟩⟩
    intro htouch
    unfold Touches at htouch
    split at htouch
    all_goals first
      | exact htouch.elim
      | (obtain ⟨rfl, _⟩ := htouch; exact hn _ _ _ ⟨rfl, rfl⟩)
      | (subst htouch; first | exact ho rfl | exact hc _ ⟨rfl, rfl⟩)
  · obtain ⟨know, h1, h2⟩ := hk.macs s t ht
    have howner := sameOwner t ht (by simp)
    have keep : ∀ h e, know h = some e → ¬Touches (κ := κ) (ρ := ρ) (π := π) s h (.call s u c) (.reply q) → e.owner = (w'.clients.obj s).ownerUuid ∧
        (e.done = false → Made p d w0 (rs ++ [.call s u c]) s h e.owner e.kind e.key e.msg) := fun h e he hn =>
      ⟨(h2 h e he).1.trans howner.symm, fun hd => .other ((h2 h e he).2 hd) hrun hh hn⟩
    rcases serve_mac d t t' u c q hs with ⟨h3, h4⟩ | ⟨env, alg, digest, key, ok, ks, a, r, rfl, h3, h4, rfl⟩ | ⟨x, input, r, rfl, h4, rfl⟩ | ⟨env, x, key, ks, a, r, rfl, h3, h4, rfl⟩ |
      ⟨x, out, r, rfl, h4, rfl⟩ | ⟨x, r, rfl, h4, rfl⟩
    · exact ⟨know, by rw [h3]; exact h1, fun h e he => keep h e he (h4 s h)⟩
    · obtain ⟨w2, r2, g1, g2, _⟩ := macStep_inv hm t.macs know h1 (.init alg digest a env.rights ok u)
      rw [h4] at g1
      cases g1
      refine ⟨_, g2, fun h e he => ?_⟩
      simp only [MacEntry.track] at he
      split at he
      · rename_i hbad
        exact keep h e he (fun ht => hbad ht.2.1)
      · rename_i hok
        have hok : r.status = .OK := Classical.byContradiction hok
        split at he
        · rename_i heq
          subst heq
          simp only [Option.some.injEq] at he
          subst he
          have hst : (macInit d.mac t.macs alg digest a env.rights ok u).2.status = .OK := by
            simp only [macStep, Option.some.injEq] at h4
            rw [h4]; exact hok
          obtain ⟨sk, rfl, hr⟩ := init_ok hst
          obtain ⟨k1, k2⟩ := used hp hk.inv ht hu hf h3
          exact ⟨hu.symm.trans howner.symm, fun _ => .init hrun hh hok k1 k2 hr⟩
        · rename_i hne
          exact keep h e he (fun ht => hne ht.2.2)
    · obtain ⟨w2, r2, g1, g2, g3, _⟩ := macStep_inv hm t.macs know h1 (.process x input u)
      rw [h4] at g1
      cases g1
      refine ⟨_, g2, fun h e he => ?_⟩
      simp only [MacEntry.track] at he
      split at he
      · rename_i hbad
        exact keep h e he (fun ht => hbad ht.2.1)
      · rename_i hok
        have hok : r.status = .OK := Classical.byContradiction hok
        split at he
        · rename_i heq
          subst heq
          obtain ⟨e0, k1, k2, _⟩ := g3 x input u rfl hok
          rw [k1] at he
          simp only [Option.map_some, Option.some.injEq] at he
          subst he
          refine ⟨(h2 x e0 k1).1.trans howner.symm, fun hd => ?_⟩
          cases input with
          | none =>
            simp only [macStep, macProcess, if_true, Option.some.injEq, Prod.mk.injEq] at h4
            rw [← h4.2] at hok
            cases hok
          | some bytes =>
            subst k2
            exact .data ((h2 x e0 k1).2 hd) hrun hh hok
        · rename_i hne
          exact keep h e he (fun ht => hne ht.2.2)
    · obtain ⟨w2, r2, g1, g2, _, g3, _⟩ := macStep_inv hm t.macs know h1 (.processKey x a u)
      rw [h4] at g1
      cases g1
      refine ⟨_, g2, fun h e he => ?_⟩
      simp only [MacEntry.track] at he
      split at he
      · rename_i hbad
        exact keep h e he (fun ht => hbad ht.2.1)
      · rename_i hok
        have hok : r.status = .OK := Classical.byContradiction hok
        split at he
        · rename_i heq
          subst heq
          obtain ⟨e0, k1, k2, _⟩ := g3 x a u rfl hok
          rw [k1] at he
          simp only [Option.map_some, Option.some.injEq] at he
          subst he
          refine ⟨(h2 x e0 k1).1.trans howner.symm, fun hd => ?_⟩
          obtain ⟨sk, rfl⟩ := processKey_ok h4 hok
          obtain ⟨l1, l2⟩ := used hp hk.inv ht hu hf h3
          subst k2
          exact .more ((h2 x e0 k1).2 hd) hrun hh hok l1 l2
        · rename_i hne
          exact keep h e he (fun ht => hne ht.2.2)
    · obtain ⟨w2, r2, g1, g2, _⟩ := macStep_inv hm t.macs know h1 (.compute x out u)
      rw [h4] at g1
      cases g1
      refine ⟨_, g2, fun h e he => ?_⟩
      simp only [MacEntry.track] at he
      cases out with
      | none =>
        simp only [Option.isSome_none, Bool.false_eq_true, and_false, if_false, ite_self] at he
        exact keep h e he (fun ht => ht)
      | some n =>
        split at he
        · rename_i hbad
          exact keep h e he (fun ht => hbad ht.2.1)
        · split at he
          · rename_i heq
            cases hx : know h with
            | none => rw [hx] at he; simp at he
            | some e0 =>
              rw [hx] at he
              simp only [Option.map_some, Option.some.injEq] at he
              subst he
              exact ⟨(h2 h e0 hx).1.trans howner.symm, fun hd => by simp at hd⟩
          · rename_i hne
            exact keep h e he (fun ht => hne ⟨ht.2.2, rfl⟩)
    · obtain ⟨w2, r2, g1, g2, _⟩ := macStep_inv hm t.macs know h1 (.release x u)
      rw [h4] at g1
      cases g1
      refine ⟨_, g2, fun h e he => ?_⟩
      simp only [MacEntry.track] at he
      split at he
      · rename_i hbad
        exact keep h e he (fun ht => hbad ht.2.1)
      · split at he
        · cases he
        · rename_i hne
          exact keep h e he (fun ht => hne ht.2.2)
  · unfold newTables at hnew
    split at hnew
    · rename_i k c m v _ _ h3 _
      simp only [Option.some.injEq] at hnew
      subst hnew
      exact ⟨_, macInv_new d.mac view 256 (by decide) m h3, fun h e he => by simp at he⟩
    · cases hnew

theorem known_all {mac : MacKind → Bytes → Bytes → Bytes} {view : τ → MacKind × Bytes × Bytes} (p : Prims) (hp : p.Good) (d : Device σ τ) (hm : d.mac.Good mac view) (w0 : Ta σ τ)
    (rs more : List (Request κ ρ π)) (w : Ta σ τ) (hk : Known p d view w0 rs w) (hf : ∀ r ∈ more, r.Fine p) (w' : Ta σ τ) (ts : List (Uuid × Told))
    (hh : handleAll d w more = some (w', ts)) : Known p d view w0 (rs ++ more) w' := by
  induction more generalizing rs w ts with
  | nil => cases hh; simpa using hk
  | cons r more ih =>
    simp only [handleAll] at hh
    cases h1 : handle d w r with
    | none => rw [h1] at hh; simp at hh
    | some z =>
      rw [h1] at hh
      simp only at hh
      cases h3 : handleAll d z.1 more with
      | none => rw [h3] at hh; simp at hh
      | some y =>
        rw [h3] at hh
        simp only [Option.some.injEq, Prod.mk.injEq] at hh
        obtain ⟨rfl, rfl⟩ := hh
        have := ih (rs ++ [r]) z.1 (known_step p hp d hm w0 rs w hk r (hf r (by simp)) z.1 z.2 h1) (fun q hq => hf q (by simp [hq])) y.2 h3
        simpa using this

/-! ## The property -/

/-- **C106.**  After any history of a TA, a call that computes a MAC in context `h` of session `s` gives the MAC of kind `kind` under the bytes of the key that the handle denoted when the
context was made - by this caller, in this session, with the right to sign -, of the concatenation, in order, of the data and of the keys that were processed successfully in it since; keys
again as denoted at that time.  Nothing else that was done, by anyone, has an influence; releasing the key has none either. -/
theorem C106_mac_partial {mac : MacKind → Bytes → Bytes → Bytes} {view : τ → MacKind × Bytes × Bytes} (p : Prims) (hp : p.Good) (d : Device σ τ) (hm : d.mac.Good mac view) (w0 : Ta σ τ)
    (h0 : start σ τ = some w0) (rs : List (Request κ ρ π)) (hf : ∀ r ∈ rs, r.Fine p) (w : Ta σ τ) (ts : List (Uuid × Told)) (hw : handleAll d w0 rs = some (w, ts))
    (s : Nat) (u : Uuid) (h n : Nat) (w' : Ta σ τ) (r : MacResp) (hc : handle (κ := κ) (ρ := ρ) (π := π) d w (.call s u (.macCompute h (some n))) = some (w', .reply (.mac r)))
    (hok : r.status = .OK) : ∃ kind key msg, Made p d w0 rs s h u kind key msg ∧ r.out = some (mac kind key msg) := by
  obtain ⟨i0, e0⟩ := start_ok p d w0 h0
  have known := known_all p hp d hm w0 [] rs w0 ⟨i0, ⟨[], rfl⟩, fun s t ht => by rw [e0] at ht; simp at ht⟩ hf w ts hw
  rw [List.nil_append] at known
  rcases call_cases (κ := κ) (ρ := ρ) (π := π) d w known.inv.ta s u (.macCompute h (some n)) with ⟨s', e, _⟩ | ⟨ptr, t, h4, h5, h6, e⟩
  · rw [e] at hc; cases hc
  · obtain ⟨know, k1, k2⟩ := known.macs s t (by simp [tablesOf, h4, h6])
    obtain ⟨w2, r2, g1, _, _, _, g2, _⟩ := macStep_inv hm t.macs know k1 (.compute h (some n) u)
    rw [e] at hc
    have hcomp : macCompute d.mac t.macs h (some n) u = some (w2, r2) := g1
    simp only [serve, hcomp, Option.map_some, Option.some.injEq, Prod.mk.injEq, Told.reply.injEq, Reply.mac.injEq] at hc
    obtain ⟨_, rfl⟩ := hc
    obtain ⟨e', l1, l2, l3, l4⟩ := g2 h n u rfl hok
    obtain ⟨_, l5⟩ := k2 h e' l1
    refine ⟨e'.kind, e'.key, e'.msg, ?_, l4⟩
    rw [← l2]
    exact l5 l3

/-- What the last request did to a context. -/
theorem made_last {p : Prims} {d : Device σ τ} {w0 w w' : Ta σ τ} {L rs : List (Request κ ρ π)} {r : Request κ ρ π} {ts : List (Uuid × Told)} {told : Told} {s h : Nat} {u : Uuid}
    {kind : MacKind} {key msg : Bytes} (m : Made p d w0 L s h u kind key msg) (hl : L = rs ++ [r]) (hw : handleAll d w0 rs = some (w, ts)) (hh : handle d w r = some (w', told)) :
    (∃ env alg digest x ok q k, r = .call s u (.macInit env alg digest x ok) ∧ told = .reply (.mac q) ∧ q.status = .OK ∧ q.handle = h ∧ kind = macKindOf alg digest ∧
      Denotes p w s u x k ∧ useResult env k u = (.OK, some k) ∧ key = k.key ∧ msg = []) ∨
    (∃ msg0 bytes q, r = .call s u (.macProcess h (some bytes)) ∧ told = .reply (.mac q) ∧ q.status = .OK ∧ Made p d w0 rs s h u kind key msg0 ∧ msg = msg0 ++ bytes) ∨
    (∃ msg0 env x q k, r = .call s u (.macProcessKey env h x) ∧ told = .reply (.mac q) ∧ q.status = .OK ∧ Made p d w0 rs s h u kind key msg0 ∧ Denotes p w s u x k ∧
      useResult env k u = (.OK, some k) ∧ msg = msg0 ++ k.key) ∨
    (¬Touches s h r told ∧ Made p d w0 rs s h u kind key msg) := by
  cases m with
  | init a b c e f g =>
    obtain ⟨rfl, hr⟩ := List.append_inj' hl rfl
    simp only [List.cons.injEq, and_true] at hr
    subst hr
    rw [hw] at a; cases a
    rw [hh] at b; cases b
    exact Or.inl ⟨_, _, _, _, _, _, _, rfl, rfl, c, rfl, rfl, e, f, rfl, rfl⟩
  | data m a b c =>
    obtain ⟨rfl, hr⟩ := List.append_inj' hl rfl
    simp only [List.cons.injEq, and_true] at hr
    subst hr
    rw [hw] at a; cases a
    rw [hh] at b; cases b
    exact Or.inr (Or.inl ⟨_, _, _, rfl, rfl, c, m, rfl⟩)
  | more m a b c e f =>
    obtain ⟨rfl, hr⟩ := List.append_inj' hl rfl
    simp only [List.cons.injEq, and_true] at hr
    subst hr
    rw [hw] at a; cases a
    rw [hh] at b; cases b
    exact Or.inr (Or.inr (Or.inl ⟨_, _, _, _, _, rfl, rfl, c, m, e, f, rfl⟩))
  | other m a b c =>
    obtain ⟨rfl, hr⟩ := List.append_inj' hl rfl
    simp only [List.cons.injEq, and_true] at hr
    subst hr
    rw [hw] at a; cases a
    rw [hh] at b; cases b
    exact Or.inr (Or.inr (Or.inr ⟨c, m⟩))

theorem denotes_one {p : Prims} {w : Ta σ τ} {s : Nat} {u : Uuid} {x : Nat} {k k' : StoredKey} {env : Env} (he : env.prims = p) (h : Denotes p w s u x k) (h' : Denotes p w s u x k')
    (hu : useResult env k u = (.OK, some k)) (hu' : useResult env k' u = (.OK, some k')) : k = k' := by
  obtain ⟨_, t, ht, hk⟩ := h
  obtain ⟨_, t', ht', hk'⟩ := h'
  rw [ht] at ht'; cases ht'
  have a := hk.2 env he
  have b := hk'.2 env he
  rw [hu] at a
  rw [hu', a] at b
  simpa using b

/-- **C106 (one history, one MAC).**  What `Made` says about a context is determined by the history: one maker, one kind, one key, one string. -/
theorem C106_one {p : Prims} {d : Device σ τ} {w0 : Ta σ τ} {rs : List (Request κ ρ π)} (hf : ∀ r ∈ rs, r.Fine p) {s h : Nat} {u u' : Uuid} {kind kind' : MacKind} {key key' msg msg' : Bytes}
    (m : Made p d w0 rs s h u kind key msg) (m' : Made p d w0 rs s h u' kind' key' msg') : u = u' ∧ kind = kind' ∧ key = key' ∧ msg = msg' := by
  induction m generalizing u' kind' key' msg' with
  | init a b c e f g =>
    rcases made_last m' rfl a b with ⟨env, alg, digest, x, ok, q, k, h1, h2, _, _, h3, h4, h5, rfl, rfl⟩ | ⟨_, _, _, h1, _⟩ | ⟨_, _, _, _, _, h1, _⟩ | ⟨h1, _⟩
    · cases h1
      have := denotes_one (hf _ (List.mem_append_right _ (List.mem_singleton.2 rfl))) e h4 f h5
      subst this
      exact ⟨rfl, h3.symm, rfl, rfl⟩
    · cases h1
    · cases h1
    · exact absurd ⟨rfl, c, rfl⟩ h1
  | data m a b c ih =>
    rcases made_last m' rfl a b with ⟨_, _, _, _, _, _, _, h1, _⟩ | ⟨_, _, _, h1, _, _, h2, rfl⟩ | ⟨_, _, _, _, _, h1, _⟩ | ⟨h1, _⟩
    · cases h1
    · cases h1
      obtain ⟨_, i2, i3, i4⟩ := ih (fun r hr => hf r (List.mem_append_left _ hr)) h2
      exact ⟨rfl, i2, i3, by rw [i4]⟩
    · cases h1
    · exact absurd ⟨rfl, c, rfl⟩ h1
  | more m a b c e f ih =>
    rcases made_last m' rfl a b with ⟨_, _, _, _, _, _, _, h1, _⟩ | ⟨_, _, _, h1, _⟩ | ⟨_, _, _, _, _, h1, _, _, h2, h4, h5, rfl⟩ | ⟨h1, _⟩
    · cases h1
    · cases h1
    · cases h1
      have := denotes_one (hf _ (List.mem_append_right _ (List.mem_singleton.2 rfl))) e h4 f h5
      subst this
      obtain ⟨_, i2, i3, i4⟩ := ih (fun r hr => hf r (List.mem_append_left _ hr)) h2
      exact ⟨rfl, i2, i3, by rw [i4]⟩
    · exact absurd ⟨rfl, c, rfl⟩ h1
  | other m a b c ih =>
    rcases made_last m' rfl a b with ⟨_, _, _, _, _, _, _, rfl, rfl, h3, h4, _⟩ | ⟨_, _, _, rfl, rfl, h3, _⟩ | ⟨_, _, _, _, _, rfl, rfl, h3, _⟩ | ⟨_, h2⟩
    · exact absurd ⟨rfl, h3, h4⟩ c
    · exact absurd ⟨rfl, h3, rfl⟩ c
    · exact absurd ⟨rfl, h3, rfl⟩ c
    · exact ih (fun r hr => hf r (List.mem_append_left _ hr)) h2

/-! ## A history -/

/-- A toy MAC: the message and the first byte of the key, cut or filled to the length. -/
def toyMac (k : MacKind) (key msg : Bytes) : Bytes := ((msg ++ key.take 1) ++ List.replicate 64 0).take (k.length.getD 0)

/-- A toy library that makes it. -/
def toyPrim : MacPrim (MacKind × Bytes × Bytes) where
  create k key := some (k, key, [])
  update s bs := if bs = [0xFF] then (s, false) else ((s.1, s.2.1, s.2.2 ++ bs), true)
  final s := (s, some (toyMac s.1 s.2.1 s.2.2))

theorem toyPrim_good : toyPrim.Good toyMac id where
  create := by intro k key s h; simp [toyPrim] at h; simp [← h]
  update := by
    intro s bs h
    unfold toyPrim at h ⊢
    simp only at h ⊢
    by_cases hb : bs = [0xFF]
    · rw [if_pos hb] at h; simp at h
    · rw [if_neg hb]; rfl
  updateFail := by
    intro s bs h
    unfold toyPrim at h ⊢
    simp only at h ⊢
    by_cases hb : bs = [0xFF]
    · rw [if_pos hb]
    · rw [if_neg hb] at h; simp at h
  final := by intro s m h; simp [toyPrim] at h; simp [← h]

/-- A device with a toy MAC. -/
def dev : Device Unit (MacKind × Bytes × Bytes) := ⟨C104.dev.cipher, toyPrim⟩

/-- A device whose key table keeps keys as they are. -/
def light : Prims where
  aesEnc _ b := b
  aesDec _ b := b
  hmac256 _ _ := List.replicate 32 7
  rootKey := List.replicate 16 3
  commonRootKey := List.replicate 16 4

theorem light_good : light.Good := ⟨fun _ _ h => h, fun _ _ h => h, fun _ _ _ => rfl, fun _ _ => by simp [light]⟩

def env1 : Env := { C08.env0 with prims := light }

/-- A call that makes a symmetric key. -/
def gen1 : Call Unit Unit Unit := .generate env1 C52.genv rightsAllowAll (some (.symmetric 16))

/-- What is told: statuses and MACs. -/
def brief : Told → Option (Status × Option Bytes)
  | .opened s _ => some (s, none)
  | .reply (.made s _) => some (s, none)
  | .reply (.mac r) => some (r.status, r.out)
  | .reply (.status s) => some (s, none)
  | _ => none

/-- A key is made and a context with it; data is processed, the key released, more data processed. -/
def history : List (Request Unit Unit Unit) :=
  [.open C08.u7 1, .call 31 C08.u7 (.keys gen1), .call 31 C08.u7 (.macInit env1 MAC_CMAC none 31 true), .call 31 C08.u7 (.macProcess 31 (some [1, 2])),
   .call 31 C08.u7 (.macProcess 31 (some [3]))]

/-- It is among those the theorem speaks about ... -/
example : ∀ r ∈ history, r.Fine light := by
  intro r hr
  simp only [history, List.mem_cons, List.not_mem_nil, or_false] at hr
  rcases hr with rfl | rfl | rfl | rfl | rfl
  · exact True.intro
  · exact (⟨rfl, C52.genv_good, fun n e => by simp at e⟩ : gen1.Fine light)
  · exact (rfl : env1.prims = light)
  · exact True.intro
  · exact True.intro
example : dev.mac.Good toyMac id := toyPrim_good
/-- ... and the MAC is that of `[1, 2, 3]` under the bytes of the key. -/
example : (((start Unit _).bind fun w => handleAll dev w (history ++ [.call 31 C08.u7 (.macCompute 31 (some 16))])).map fun r => r.2.map fun x => brief x.2) =
    some [some (.OK, none), some (.OK, none), some (.OK, none), some (.OK, none), some (.OK, none),
      some (.OK, some ([1, 2, 3, 7] ++ List.replicate 12 0))] := by
  decide +kernel

end Sa.Whole.C106

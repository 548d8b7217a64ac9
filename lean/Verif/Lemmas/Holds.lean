import Verif.Lemmas.KeyHistory

/-!
# What a handle holds, in terms of the calls that use it
-/

namespace Sa

/-- Handle `h` of `u` holds the key `k`: reading the header gives `k`'s header, and using the key gives `k` exactly under `k`'s rights (and
if no external call fails). -/
def KeyHeld (p : Prims) (st : KeyStore) (h : Nat) (u : Uuid) (k : StoredKey) : Prop :=
  keyStoreGetHeader st h u = (st, .OK, some k.header) ∧
  ∀ env : Env, env.prims = p → keyStoreUnwrap env st h u = some (st, useResult env k u)

theorem holds_of (p : Prims) (hp : p.Good) (st : KeyStore) (inv : KsInv p st) (h : Nat) (u : Uuid) (w : WrappedKey) (k : StoredKey)
    (ho : (st.obj h).object = some w) (hu : (st.obj h).ownerUuid = u) (hk : Wraps p w k) : KeyHeld p st h u k :=
  ⟨ksHeader_live p st inv h u w k ho hu hk, fun env he => ksUnwrap_live env (he ▸ hp) st (he ▸ inv) h u w k ho hu (he ▸ hk)⟩

/-- A handle that was released to its owner holds the key. -/
theorem unwrap_holds (env : Env) (hp : env.prims.Good) (st : KeyStore) (inv : KsInv env.prims st) (h : Nat) (u : Uuid) :
    (∃ s, s ≠ Status.OK ∧ keyStoreUnwrap env st h u = some (st, s, none)) ∨
    (∃ k, keyStoreUnwrap env st h u = some (st, .OK, some k) ∧ KeyHeld env.prims st h u k ∧ HeaderMade k.header ∧ KeySmall k.key) := by
  obtain ⟨s, sk, he, h2⟩ := ksUnwrap_cases env hp st inv h u
  rcases h2 with ⟨a, b⟩ | ⟨w, k, a, b, c, d, e, _⟩
  · left; exact ⟨s, a, by rw [he, b]⟩
  · right
    refine ⟨k, by rw [he, d, e], holds_of _ hp st inv h u w k a b c, c.made, ?_⟩
    obtain ⟨k', hk', hs⟩ := inv.keys h w a
    have h1 := ksUnwrap_live env hp st inv h u w k a b c
    have h2 := ksUnwrap_live env hp st inv h u w k' a b hk'
    rw [he, d, e] at h1 h2
    rw [h1] at h2
    have hu : useResult env k u = useResult env k' u := by
      simp only [Option.some.injEq, Prod.mk.injEq, true_and] at h2; exact h2
    simp only [Option.some.injEq, Prod.mk.injEq, true_and] at h1
    rw [← h1] at hu
    unfold useResult at hu
    split at hu
    · split at hu
      · simp only [Prod.mk.injEq, Option.some.injEq, true_and] at hu; rw [hu]; exact hs
      · simp at hu
    · simp at hu

theorem KeyHeld.unique (p : Prims) (st : KeyStore) (h : Nat) (u : Uuid) (k k' : StoredKey) (env : Env) (he : env.prims = p) (h1 : KeyHeld p st h u k)
    (h2 : keyStoreUnwrap env st h u = some (st, .OK, some k')) : k' = k := by
  rw [h1.2 env he] at h2
  simp only [Option.some.injEq, Prod.mk.injEq, true_and] at h2
  unfold useResult at h2
  split at h2
  · split at h2
    · simp at h2; exact h2.symm
    · simp at h2
  · simp at h2

theorem ksAfter_append (p : Prims) (st : KeyStore) (a b : List KsOp) :
    ksAfter p st (a ++ b) = (ksAfter p st a).bind fun st' => ksAfter p st' b := by
  induction a generalizing st with
  | nil => rfl
  | cons op ops ih =>
    simp only [List.cons_append, ksAfter]
    cases ksStep p st op with
    | none => rfl
    | some r => exact ih r.1

theorem ksReachable_step (p : Prims) (st st' : KeyStore) (h : KsReachable p st) (op : KsOp) (hf : op.Fits) (r : KsResp)
    (hs : ksStep p st op = some (st', r)) : KsReachable p st' := by
  obtain ⟨n, st0, ops, h1, h2, h3, h4⟩ := h
  refine ⟨n, st0, ops ++ [op], h1, h2, ?_, ?_⟩
  · intro o ho
    simp only [List.mem_append, List.mem_singleton] at ho
    rcases ho with ho | rfl
    · exact h3 o ho
    · exact hf
  · rw [ksAfter_append, h4]
    simp only [Option.bind_some, ksAfter, hs]

/-- Making a key and adding it to the store is one step of a history. -/
theorem create_reachable (env : Env) (st : KeyStore) (h : KsReachable env.prims st) (rights : Rights) (parent : Option Rights) (kt : Nat)
    (tp : Vector UInt8 1040) (size : Nat) (key : Bytes) (d : StoredKey) (caller : Uuid) (hk : key.length + 16 < 2 ^ 64)
    (hd : storedKeyCreate (env.ok .storedKeyAlloc) rights parent kt tp size key = (.OK, some d)) :
    KsReachable env.prims (keyStoreImportStoredKey env st d caller).1 := by
  refine ksReachable_step env.prims st _ h (.create env rights parent kt tp size key caller) hk
    (.imported (keyStoreImportStoredKey env st d caller).2.1 (keyStoreImportStoredKey env st d caller).2.2) ?_
  simp only [ksStep, hd]

/-- A call made no key: every handle is as before. -/
def Unchanged (st st' : KeyStore) : Prop := ∀ x, st'.obj x = st.obj x

/-- A call made one key: handle `h`, which was nobody's, now holds `d` for `u`, and every other handle is as before. -/
structure NewKey (p : Prims) (st st' : KeyStore) (h : Nat) (u : Uuid) (d : StoredKey) : Prop where
  before : ∀ v, (keyStoreGetHeader st h v).2.1 ≠ .OK
  holds : KeyHeld p st' h u d
  others : ∀ x, x ≠ h → st'.obj x = st.obj x

theorem import_cases (env : Env) (hp : env.prims.Good) (st : KeyStore) (hr : KsReachable env.prims st) (rights : Rights) (parent : Option Rights)
    (kt : Nat) (tp : Vector UInt8 1040) (size : Nat) (key : Bytes) (d : StoredKey) (caller : Uuid) (hk : key.length + 16 < 2 ^ 64)
    (hd : storedKeyCreate (env.ok .storedKeyAlloc) rights parent kt tp size key = (.OK, some d)) :
    ∃ st' s h, keyStoreImportStoredKey env st d caller = (st', s, h) ∧ KsReachable env.prims st' ∧
      ((s ≠ .OK ∧ h = SLOT_INVALID ∧ Unchanged st st') ∨ (s = .OK ∧ NewKey env.prims st st' h caller d)) := by
  have hre := create_reachable env st hr rights parent kt tp size key d caller hk hd
  obtain ⟨_, _, _, _, _, hkey, hm⟩ := storedKeyCreate_ok hd
  have hsm : KeySmall d.key := by rw [hkey]; unfold KeySmall; rw [paddedSize_eq]; omega
  have inv := ksReachable_inv _ hp st hr
  obtain ⟨h1, _, h3⟩ := importStoredKey_spec env hp st inv d hm hsm caller
  generalize keyStoreImportStoredKey env st d caller = r at hre h1 h3
  obtain ⟨st', s, h⟩ := r
  refine ⟨st', s, h, rfl, hre, ?_⟩
  rcases h3 with ⟨a, b, c⟩ | ⟨a, _, c, w, hw, hobj⟩
  · exact Or.inl ⟨a, b, c⟩
  · right
    simp only at a c hobj h1
    refine ⟨a, ⟨?_, ?_, ?_⟩⟩
    · intro v hv
      generalize hg : keyStoreGetHeader st h v = g at hv
      obtain ⟨g1, g2, g3⟩ := g
      simp only at hv
      subst hv
      cases g3 with
      | none =>
        unfold keyStoreGetHeader at hg
        split at hg
        · simp at hg
        · rcases acquire_fail st h v with ⟨st1, o, ha⟩ | ⟨s', hs', ha⟩
          · obtain ⟨_, _, ho, _⟩ := (acquire_ok_iff st h v st1 o).mp ha
            rw [c] at ho; simp at ho
          · rw [ha] at hg
            split at hg
            · rename_i heq; simp at heq
            · rename_i heq
              simp only [Prod.mk.injEq] at heq hg
              exact hs' (by rw [heq.2.1]; exact hg.2.1)
      | some hd' =>
        obtain ⟨w', k', ho, _⟩ := ksHeader_ok _ st inv h v g1 hd' hg
        rw [c] at ho; simp at ho
    · exact holds_of _ hp st' h1 h caller w d (by rw [hobj, if_pos rfl]) (by rw [hobj, if_pos rfl]) hw
    · intro x hx; rw [hobj, if_neg hx]

end Sa

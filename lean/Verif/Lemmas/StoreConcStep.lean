import Verif.Lemmas.StoreConc

namespace Sa.Conc

theorem afterFlag_isShut {pc : Pc} (h : afterFlag pc = true) : isShut pc = true := by
  cases pc <;> simp_all [afterFlag, isShut]

theorem afterWait_afterFlag {pc : Pc} (h : afterWait pc = true) : afterFlag pc = true := by
  cases pc <;> simp_all [afterFlag, afterWait]

theorem cleared_afterWait {n h : Nat} {pc : Pc} (hh : h < clearedTo n pc) : afterWait pc = true := by
  cases pc <;> simp_all [afterWait, clearedTo]

/-- A step of a thread that is not the shutting down one. -/
theorem shut_other {n : Nat} {T T' : Nat → Option Nat} {f : Nat → Option Pc} {started freed flag : Bool} {cnt cnt' : Nat}
    (si : ShutInv n T f started freed flag cnt) (i : Nat) (pc' : Pc)
    (hp' : isShut pc' = false)
    (hT : flag = true → ∀ h, T h = none → T' h = none) (hc : flag = true → cnt = 0 → cnt' = 0) :
    ShutInv n T' (upd f i (some pc')) started freed flag cnt' := by
  have back : ∀ j p, upd f i (some pc') j = some p → isShut p = true → f j = some p := by
    intro j p hj hs
    rcases upd_cases hj with ⟨rfl, rfl⟩ | ⟨_, h⟩
    · rw [hp'] at hs; simp at hs
    · exact h
  refine ⟨?_, ?_, si.freedStart, ?_, ?_, si.freedFlag, ?_, ?_, ?_, ?_⟩
  · intro j k p p' hj hs hk hs'
    exact si.uniq j k p p' (back j p hj hs) hs (back k p' hk hs') hs'
  · intro j p hj hs; exact si.start j p (back j p hj hs) hs
  · intro hf j p hj
    rcases upd_cases hj with ⟨rfl, rfl⟩ | ⟨_, h⟩
    · exact hp'
    · exact si.freedNo hf j p h
  · intro j p hj hs; exact si.flagSet j p (back j p hj (afterFlag_isShut hs)) hs
  · intro j p hj hs
    have hb := back j p hj (afterFlag_isShut (afterWait_afterFlag hs))
    exact hc (si.flagSet j p hb (afterWait_afterFlag hs)) (si.drained j p hb hs)
  · intro hf; exact hc (si.freedFlag hf) (si.freedDrained hf)
  · intro j p hj h hh
    have ha := cleared_afterWait hh
    have hb := back j p hj (afterFlag_isShut (afterWait_afterFlag ha))
    exact hT (si.flagSet j p hb (afterWait_afterFlag ha)) h (si.empt j p hb h hh)
  · intro hf h hh; exact hT (si.freedFlag hf) h (si.freedEmpty hf h hh)

/-- A step of the shutting down thread. -/
theorem shut_self {n : Nat} {T T' : Nat → Option Nat} {f : Nat → Option Pc} {started freed flag flag' : Bool} {cnt : Nat}
    (si : ShutInv n T f started freed flag cnt) (i : Nat) (pc pc' : Pc) (hf : f i = some pc) (hp : isShut pc = true)
    (hfl : flag = true → flag' = true)
    (hp1 : afterFlag pc' = true → flag' = true) (hp2 : afterWait pc' = true → cnt = 0)
    (hp3 : ∀ h, h < clearedTo n pc' → T' h = none) :
    ShutInv n T' (upd f i (some pc')) started freed flag' cnt := by
  have hfreed : freed = false := by
    cases hfr : freed with
    | false => rfl
    | true => have := si.freedNo hfr i pc hf; rw [hp] at this; simp at this
  have others : ∀ j p, j ≠ i → f j = some p → isShut p = false := by
    intro j p hne hj
    cases hs : isShut p with
    | false => rfl
    | true => exact absurd (si.uniq j i p pc hj hs hf hp) hne
  have back : ∀ j p, upd f i (some pc') j = some p → isShut p = true → j = i ∧ p = pc' := by
    intro j p hj hs
    rcases upd_cases hj with h | ⟨hne, h⟩
    · exact h
    · have := others j p hne h; rw [this] at hs; simp at hs
  refine ⟨?_, ?_, by simp [hfreed], by simp [hfreed], ?_, by simp [hfreed], ?_, by simp [hfreed], ?_, by simp [hfreed]⟩
  · intro j k p p' hj hs hk hs'
    rw [(back j p hj hs).1, (back k p' hk hs').1]
  · intro j p hj hs; exact si.start i pc hf hp
  · intro j p hj hs
    have := (back j p hj (afterFlag_isShut hs)).2; subst this; exact hp1 hs
  · intro j p hj hs
    have := (back j p hj (afterFlag_isShut (afterWait_afterFlag hs))).2; subst this; exact hp2 hs
  · intro j p hj h hh
    have := (back j p hj (afterFlag_isShut (afterWait_afterFlag (cleared_afterWait hh)))).2; subst this; exact hp3 h hh

/-- The step only moves thread `i` from `pc` to `pc'` (both not destroying anything) and leaves the table alone. -/
theorem cinv_move {n : Nat} {s : CState} (ci : CInv n s) (i : Nat) (pc pc' : Pc) (hf : s.threads[i]? = some pc)
    (hpend : pendingOf pc' = pendingOf pc) (hcnt : counted pc' = counted pc) (hshut : isShut pc' = false)
    (hrel : ∀ r, pc' = .release r → r ∈ s.refs ∧ r.thread = i) (hloop : ∀ h u, pc' = .removeLoop h u → h < n) :
    CInv n (s.setPc i pc') := by
  have hc := countP_set (p := counted) s.threads i pc pc' hf
  have hc' : (s.threads.set i pc').countP counted = s.threads.countP counted := by
    rw [hcnt] at hc; omega
  have ht := threads_set s.threads i pc pc' hf
  refine ⟨ci.inv, ci.count, ci.refs, ?_, ?_, ?_, ?_, ?_⟩
  · show Own _ (fun j => (s.threads.set i pc')[j]?) _ _
    rw [ht]; exact own_pc ci.own i pc pc' hf hpend
  · show s.store.releaseCount = (s.threads.set i pc').countP counted
    rw [hc']; exact ci.rel
  · intro j r hj
    have hj' : upd (fun j => s.threads[j]?) i (some pc') j = some (.release r) := by rw [← ht]; exact hj
    rcases upd_cases hj' with ⟨rfl, h⟩ | ⟨_, h⟩
    · exact hrel r h.symm
    · exact ci.relRef j r h
  · intro j h u hj
    have hj' : upd (fun j => s.threads[j]?) i (some pc') j = some (.removeLoop h u) := by rw [← ht]; exact hj
    rcases upd_cases hj' with ⟨rfl, hh⟩ | ⟨_, hh⟩
    · exact hloop h u hh.symm
    · exact ci.inRange j h u hh
  · show ShutInv n _ (fun j => (s.threads.set i pc')[j]?) _ _ _ ((s.threads.set i pc').countP counted)
    rw [ht, hc']
    exact shut_other ci.shut i pc' hshut (fun _ _ h => h) (fun _ h => h)

/-- Generic assembly of the invariant after a step of thread `i` to `pc'`. -/
theorem cinv_build {n : Nat} {s s' : CState} (i : Nat) (pc pc' : Pc) (hf : s.threads[i]? = some pc) (ci : CInv n s)
    (hth : s'.threads = s.threads.set i pc')
    (hinv : StoreInv s'.store) (hcount : s'.store.slotCount = n)
    (hrefs : RefsInv s'.store.obj s'.refs)
    (hown : Own (fun h => (s'.store.obj h).object) (upd (fun j => s.threads[j]?) i (some pc')) s'.added s'.destroyed)
    (hrel : s'.store.releaseCount + (if counted pc then 1 else 0) = s.store.releaseCount + (if counted pc' then 1 else 0))
    (hkeep : ∀ r, r ∈ s.refs → r.thread ≠ i → r ∈ s'.refs)
    (hpr : ∀ r, pc' ≠ .release r) (hloop : ∀ h u, pc' = .removeLoop h u → h < n)
    (hshut : ShutInv n (fun h => (s'.store.obj h).object) (upd (fun j => s.threads[j]?) i (some pc')) s'.shutdownStarted
      s'.storeFreed s'.store.isShuttingDown ((s.threads.set i pc').countP counted)) :
    CInv n s' := by
  have ht := threads_set s.threads i pc pc' hf
  have hc := countP_set (p := counted) s.threads i pc pc' hf
  refine ⟨hinv, hcount, hrefs, ?_, ?_, ?_, ?_, ?_⟩
  · rw [hth, ht]; exact hown
  · rw [hth]; have := ci.rel; omega
  · intro j r hj
    rw [hth] at hj
    have hj' : upd (fun j => s.threads[j]?) i (some pc') j = some (.release r) := by rw [← ht]; exact hj
    rcases upd_cases hj' with ⟨rfl, h⟩ | ⟨hne, h⟩
    · exact absurd h.symm (hpr r)
    · obtain ⟨h1, h2⟩ := ci.relRef j r h
      exact ⟨hkeep r h1 (by rw [h2]; exact hne), h2⟩
  · intro j h u hj
    rw [hth] at hj
    have hj' : upd (fun j => s.threads[j]?) i (some pc') j = some (.removeLoop h u) := by rw [← ht]; exact hj
    rcases upd_cases hj' with ⟨rfl, hh⟩ | ⟨_, hh⟩
    · exact hloop h u hh.symm
    · exact ci.inRange j h u hh
  · rw [hth, ht]; exact hshut

theorem cnt_zero_of {l : List Pc} {i : Nat} {pc pc' : Pc} (h : l[i]? = some pc)
    (hc : counted pc' = true → counted pc = true) (h0 : l.countP counted = 0) : (l.set i pc').countP counted = 0 := by
  have := countP_set (p := counted) l i pc pc' h
  by_cases h1 : counted pc' = true
  · rw [h1, hc h1] at this; omega
  · rw [Bool.not_eq_true] at h1
    rw [h1] at this
    simp at this
    omega

theorem cnt_same {l : List Pc} {i : Nat} {pc pc' : Pc} (h : l[i]? = some pc)
    (hc : counted pc' = counted pc) : (l.set i pc').countP counted = l.countP counted := by
  have := countP_set (p := counted) l i pc pc' h
  rw [hc] at this; omega

theorem obj_upd {st st' : ObjectStore Nat} {slot : Nat} {so : StoreObject Nat}
    (h : ∀ x, st'.obj x = if x = slot then so else st.obj x) : st'.obj = upd st.obj slot so := by
  funext x; rw [h]; rfl

theorem objT_upd {st st' : ObjectStore Nat} {slot : Nat} {so : StoreObject Nat}
    (h : ∀ x, st'.obj x = if x = slot then so else st.obj x) :
    (fun x => (st'.obj x).object) = upd (fun x => (st.obj x).object) slot so.object := by
  funext x; rw [h]; unfold upd; split <;> rfl

/-- The invariant is preserved by every step that does not end in undefined behaviour. -/
theorem cinv_step {n : Nat} {s s' : CState} {i : Nat} {c : Choice} (ci : CInv n s) (hs : cstep s i c = some s')
    (hu : s'.uaf = false) : CInv n s' := by
  unfold cstep at hs
  split at hs
  · simp at hs
  rename_i huaf
  have htouch : ∀ (nx : Option CState), s.touch nx = some s' → s.storeFreed = false ∧ nx = some s' := by
    intro nx h
    unfold CState.touch at h
    cases hfr : s.storeFreed with
    | true =>
      simp only [hfr, if_true, Option.some.injEq] at h
      subst h; simp at hu
    | false =>
      simp only [hfr, Bool.false_eq_true, if_false] at h
      exact ⟨rfl, h⟩
  split at hs
  · -- callAdd
    rename_i o u hf
    simp at hs; subst hs
    exact cinv_move ci i _ _ hf rfl rfl rfl (by simp) (by simp)
  · -- callAcquire
    rename_i h u hf
    simp at hs; subst hs
    exact cinv_move ci i _ _ hf rfl rfl rfl (by simp) (by simp)
  · -- callRelease
    rename_i r hf
    split at hs
    · rename_i hr
      simp at hs; subst hs
      exact cinv_move ci i _ _ hf rfl rfl rfl (by intro q hq; injection hq with e; subst e; exact hr) (by simp)
    · simp at hs
  · -- callRemove
    rename_i h u hf
    simp at hs; subst hs
    exact cinv_move ci i _ _ hf rfl rfl rfl (by simp) (by simp)
  · -- callShutdown
    rename_i hf
    split at hs
    · simp at hs
    · rename_i hns
      simp at hs; subst hs
      have hns : s.shutdownStarted = false := by simpa using hns
      have nosh : ∀ (j : Nat) (p : Pc), s.threads[j]? = some p → isShut p = false := by
        intro j p hj
        cases hsp : isShut p with
        | false => rfl
        | true => have := ci.shut.start j p hj hsp; rw [hns] at this; simp at this
      have hfr : s.storeFreed = false := by
        cases hfr : s.storeFreed with
        | false => rfl
        | true => have := ci.shut.freedStart hfr; rw [hns] at this; simp at this
      refine cinv_build i .idle .shutFlag hf ci rfl ci.inv ci.count ci.refs (own_pc ci.own i _ _ hf rfl) rfl
        (fun r h _ => h) (by simp) (by simp) ?_
      have back : ∀ j p, upd (fun j => s.threads[j]?) i (some .shutFlag) j = some p → isShut p = true → j = i ∧ p = .shutFlag := by
        intro j p hj hsp
        rcases upd_cases hj with h | ⟨_, h⟩
        · exact h
        · have := nosh j p h; rw [this] at hsp; simp at hsp
      refine ⟨?_, fun _ _ _ _ => rfl, fun _ => rfl, ?_, ?_, ?_, ?_, ?_, ?_, ?_⟩
      · intro j k p p' hj hsj hk hsk
        rw [(back j p hj hsj).1, (back k p' hk hsk).1]
      · intro h; exact absurd (show s.storeFreed = true from h) (by simp [hfr])
      · intro j p hj ha
        have := (back j p hj (afterFlag_isShut ha)).2; subst this; simp [afterFlag] at ha
      · intro h; exact absurd (show s.storeFreed = true from h) (by simp [hfr])
      · intro j p hj ha
        have := (back j p hj (afterFlag_isShut (afterWait_afterFlag ha))).2; subst this; simp [afterWait] at ha
      · intro h; exact absurd (show s.storeFreed = true from h) (by simp [hfr])
      · intro j p hj h hh
        have ha := cleared_afterWait hh
        have := (back j p hj (afterFlag_isShut (afterWait_afterFlag ha))).2; subst this; simp [afterWait] at ha
      · intro h; exact absurd (show s.storeFreed = true from h) (by simp [hfr])
  · -- add
    rename_i o u hf
    obtain ⟨hfr, hs⟩ := htouch _ hs
    split at hs
    · simp at hs
    rename_i hfresh
    cases hsd : s.store.isShuttingDown with
    | true =>
      have hadd : objectStoreAdd s.store o u = (s.store, .INTERNAL_ERROR, SLOT_INVALID) := by
        unfold objectStoreAdd; rw [if_pos hsd]
      rw [hadd] at hs
      simp at hs; subst hs
      exact cinv_move ci i _ _ hf rfl rfl rfl (by simp) (by simp)
    | false =>
      obtain ⟨i1, i2, i3, i4, hc⟩ := add_spec s.store ci.inv hsd o u
      rcases hc with ⟨ha, hb, hfull, hobj⟩ | ⟨ha, hlt, hn, hobj⟩
      · simp only [ha] at hs
        simp at hs; subst hs
        have hO : (objectStoreAdd s.store o u).1.obj = s.store.obj := funext hobj
        refine cinv_build i _ .idle hf ci rfl i1 (by rw [i2]; exact ci.count) (by rw [hO]; exact ci.refs) ?_ ?_
          (fun r h _ => h) (by simp) (by simp) ?_
        · simp only [hO]; exact own_pc ci.own i _ _ hf rfl
        · simp only [i4]; rfl
        · simp only [hO]
          rw [i3, ← hsd]
          exact shut_other ci.shut i _ rfl (fun _ _ h => h) (fun _ h => cnt_zero_of hf (by simp [counted]) h)
      · simp only [ha, if_true] at hs
        simp at hs; subst hs
        have hO := obj_upd hobj
        have hT := objT_upd hobj
        refine cinv_build i _ .idle hf ci rfl i1 (by rw [i2]; exact ci.count) ?_ ?_ ?_
          (fun r h _ => h) (by simp) (by simp) ?_
        · show RefsInv (objectStoreAdd s.store o u).1.obj s.refs
          rw [hO]
          exact refs_replace ci.refs _ _ (ci.inv.empty _ hn) rfl
        · rw [hT]
          exact own_add (own_pc ci.own i _ .idle hf rfl) _ _ hn hfresh
        · simp only [i4]; rfl
        · simp only [i3]
          have := ci.shut
          rw [hsd] at this
          exact shut_other this i _ rfl (fun h => by simp at h) (fun h => by simp at h)
  · -- acquire
    rename_i h u hf
    obtain ⟨hfr, hs⟩ := htouch _ hs
    have same : ∀ (a : Status) (b : Option Nat), objectStoreAcquire s.store h u = (s.store, a, b) → a ≠ .OK →
        CInv n s' := by
      intro a b he hne
      rw [he] at hs
      cases a <;> first | exact absurd rfl hne | skip
      all_goals
        simp at hs; subst hs
        exact cinv_move ci i _ _ hf rfl rfl rfl (by simp) (by simp)
    unfold objectStoreAcquire at same
    by_cases hlt : h ≥ s.store.slotCount
    · exact same .INVALID_PARAMETER none (by rw [if_pos hlt]) (by simp)
    · rw [if_neg hlt] at same
      have he : objectStoreAcquire s.store h u = acquireBody s.store h u := by
        unfold objectStoreAcquire; rw [if_neg hlt]
      obtain ⟨i1, i2, i3, i4, hc⟩ := acquireBody_spec s.store ci.inv h u (by omega)
      rcases hc with ⟨_, hr⟩ | ⟨_, _, hr⟩ | ⟨_, _, _, hr⟩ | ⟨o, hsd, ho, huu, hr1, hr2, hobj⟩
      · exact same _ _ hr (by simp)
      · exact same _ _ hr (by simp)
      · exact same _ _ hr (by simp)
      · rw [he] at hs
        revert hs hr1 hr2 hobj i1 i2 i3 i4
        generalize acquireBody s.store h u = r
        intro hs i1 i2 i3 i4 hr1 hr2 hobj
        obtain ⟨st, a, b⟩ := r
        simp only at i1 i2 i3 i4 hr1 hr2 hobj
        subst hr1; subst hr2
        simp at hs; subst hs
        have hO := obj_upd hobj
        have hT := objT_upd hobj
        have hTsame : (fun x => (st.obj x).object) = fun x => (s.store.obj x).object := by
          rw [hT]; funext x; unfold upd; by_cases e : x = h
          · subst e; simp [ho]
          · simp [e]
        refine cinv_build i _ .idle hf ci rfl i1 (by rw [← ci.count]; exact i2) ?_ ?_ ?_
          (fun r h _ => List.mem_cons_of_mem _ h) (by simp) (by simp) ?_
        · show RefsInv st.obj _
          rw [hO]
          exact refs_acquire ci.refs i h o u ho huu
        · simp only [hTsame]; exact own_pc ci.own i _ _ hf rfl
        · simp only [i4]; rfl
        · simp only [hTsame, i3]
          exact shut_other ci.shut i _ rfl (fun _ _ h => h) (fun _ h => cnt_zero_of hf (by simp [counted]) h)
  · -- release
    rename_i r hf
    obtain ⟨hfr, hs⟩ := htouch _ hs
    obtain ⟨hmem, hthr⟩ := ci.relRef i r hf
    have hk := ci.refs.ok r hmem
    have hlt : r.slot < s.store.slotCount := by
      rcases Nat.lt_or_ge r.slot s.store.slotCount with h | h
      · exact h
      · have := obj_ge s.store ci.inv r.slot h; rw [hk.1] at this; simp at this
    have hcnt : (s.store.obj r.slot).referenceCount ≠ 0 := by
      intro h0; exact refs_none ci.refs r.slot h0 r hmem rfl
    have he : objectStoreRelease s.store r.slot r.object r.caller = releaseBody s.store r.slot r.object r.caller := by
      unfold objectStoreRelease; rw [if_neg (by omega)]
    obtain ⟨i1, i2, i3, i4, hc⟩ := releaseBody_spec s.store ci.inv r.slot r.object r.caller hlt
    rcases hc with ⟨_, hne⟩ | ⟨_, _, hbad⟩ | ⟨_, _, _, hr, hobj⟩
    · exact absurd hk.2 hne
    · rcases hbad with hbad | hbad
      · exact absurd hk.1 hbad
      · exact absurd hbad hcnt
    · rw [he] at hs
      revert hs hr hobj i1 i2 i3 i4
      generalize releaseBody s.store r.slot r.object r.caller = q
      intro hs i1 i2 i3 i4 hr hobj
      obtain ⟨st, a⟩ := q
      simp only at i1 i2 i3 i4 hr hobj
      subst hr
      simp at hs; subst hs
      have hO := obj_upd hobj
      have hT := objT_upd hobj
      have hTsame : (fun x => (st.obj x).object) = fun x => (s.store.obj x).object := by
        rw [hT]; funext x; unfold upd; by_cases e : x = r.slot
        · subst e; simp [hk.1]
        · simp [e]
      refine cinv_build i _ .idle hf ci rfl i1 (by rw [← ci.count]; exact i2) ?_ ?_ ?_ ?_ (by simp) (by simp) ?_
      · show RefsInv st.obj _
        rw [hO]
        exact refs_release ci.refs r hmem
      · simp only [hTsame]; exact own_pc ci.own i _ _ hf rfl
      · simp only [i4]; rfl
      · intro q hq hne
        exact (List.mem_erase_of_ne (by intro e; subst e; exact hne hthr)).mpr hq
      · simp only [hTsame, i3]
        exact shut_other ci.shut i _ rfl (fun _ _ h => h) (fun _ h => cnt_zero_of hf (by simp [counted]) h)
  · -- removeEnter
    rename_i h u hf
    obtain ⟨hfr, hs⟩ := htouch _ hs
    split at hs
    · simp at hs; subst hs
      exact cinv_move ci i _ _ hf rfl rfl rfl (by simp) (by simp)
    · rename_i hlt
      unfold incrementReleaseCount at hs
      cases hsd : s.store.isShuttingDown with
      | true =>
        rw [if_pos hsd] at hs
        simp at hs; subst hs
        exact cinv_move ci i _ _ hf rfl rfl rfl (by simp) (by simp)
      | false =>
        rw [if_neg (by simp [hsd])] at hs
        simp at hs; subst hs
        refine cinv_build i _ (.removeLoop h u) hf ci rfl ⟨ci.inv.wf, ci.inv.count, ci.inv.len, ci.inv.small, ci.inv.bits, ci.inv.empty⟩
          ci.count ci.refs (own_pc ci.own i _ _ hf rfl) (by simp [counted]) (fun r h _ => h) (by simp) ?_ ?_
        · intro h' u' e; injection e with e1 e2; subst e1; have := ci.count; omega
        · have := ci.shut
          refine shut_other this i _ rfl (fun _ _ h => h) (fun hfl => ?_)
          rw [hsd] at hfl; simp at hfl
  · -- removeLoop
    rename_i h u hf
    obtain ⟨hfr, hs⟩ := htouch _ hs
    have hlt : h < s.store.slotCount := by have := ci.inRange i h u hf; rw [ci.count]; exact this
    obtain ⟨i1, i2, i3, i4, hc⟩ := storeRemoveBody_spec s.store ci.inv h (some u) hlt
    have nothing : ∀ st, storeRemoveBody s.store h (some u) = (s.store, .done st none) → CInv n s' := by
      intro st he
      rw [he] at hs
      simp at hs; subst hs
      exact cinv_move ci i _ _ hf rfl rfl rfl (by simp) (by simp)
    rcases hc with ⟨hr, _⟩ | ⟨hr, _⟩ | ⟨hr, _⟩ | ⟨o, ho, _, hc0, hr, hobj⟩
    · exact nothing _ hr
    · exact nothing _ hr
    · rw [hr] at hs; simp at hs; subst hs; exact ci
    · revert hs hr hobj i1 i2 i3 i4
      generalize storeRemoveBody s.store h (some u) = q
      intro hs i1 i2 i3 i4 hr hobj
      obtain ⟨st, a⟩ := q
      simp only at i1 i2 i3 i4 hr hobj
      subst hr
      simp at hs; subst hs
      have hO := obj_upd hobj
      have hT := objT_upd hobj
      refine cinv_build i _ (.removeDec (some o)) hf ci rfl i1 (by rw [← ci.count]; exact i2) ?_ ?_ ?_
        (fun r h _ => h) (by simp) (by simp) ?_
      · show RefsInv st.obj _
        rw [hO]
        exact refs_replace ci.refs _ _ hc0 rfl
      · simp only [hT]; exact own_take ci.own h o i _ _ ho hf rfl rfl
      · simp only [i4]; rfl
      · simp only [hT, i3]
        refine shut_other ci.shut i _ rfl ?_ (fun _ h => cnt_zero_of hf (by simp [counted]) h)
        intro _ x hx; unfold upd; split
        · rfl
        · exact hx
  · -- removeDec
    rename_i fo hf
    obtain ⟨hfr, hs⟩ := htouch _ hs
    have hpos : 0 < s.threads.countP counted := List.countP_pos_iff.mpr ⟨.removeDec fo, List.mem_of_getElem? hf, rfl⟩
    have hrp : 0 < s.store.releaseCount := by rw [ci.rel]; exact hpos
    have hpost : ∀ pc', s' = { s.setPc i pc' with store := decrementReleaseCount s.store } →
        pendingOf pc' = fo → counted pc' = false → isShut pc' = false → (∀ r, pc' ≠ .release r) →
        (∀ h u, pc' ≠ .removeLoop h u) → CInv n s' := by
      intro pc' he hpd hct hsh h1 h2
      subst he
      refine cinv_build i _ pc' hf ci rfl ⟨ci.inv.wf, ci.inv.count, ci.inv.len, ci.inv.small, ci.inv.bits, ci.inv.empty⟩
        ci.count ci.refs (own_pc ci.own i _ _ hf hpd) ?_ (fun r h _ => h) h1 (fun h u e => absurd e (h2 h u)) ?_
      · simp only [hct]
        show s.store.releaseCount - 1 + 1 = s.store.releaseCount + 0
        omega
      · exact shut_other ci.shut i _ hsh (fun _ _ h => h) (fun _ h => cnt_zero_of hf (by simp [hct]) h)
    cases fo with
    | none => simp only [Option.some.injEq] at hs; exact hpost .idle hs.symm rfl rfl rfl (by simp) (by simp)
    | some o => simp only [Option.some.injEq] at hs; exact hpost (.removeFree o) hs.symm rfl rfl rfl (by simp) (by simp)
  · -- removeFree
    rename_i o hf
    obtain ⟨hfr, hs⟩ := htouch _ hs
    simp at hs; subst hs
    refine cinv_build i _ .idle hf ci rfl ci.inv ci.count ci.refs (own_destroy ci.own o i _ _ hf rfl rfl) rfl
      (fun r h _ => h) (by simp) (by simp) ?_
    exact shut_other ci.shut i _ rfl (fun _ _ h => h) (fun _ h => cnt_zero_of hf (by simp [counted]) h)
  · -- shutFlag
    rename_i hf
    obtain ⟨hfr, hs⟩ := htouch _ hs
    simp at hs; subst hs
    refine cinv_build i _ .shutWait hf ci rfl ⟨ci.inv.wf, ci.inv.count, ci.inv.len, ci.inv.small, ci.inv.bits, ci.inv.empty⟩
      ci.count ci.refs (own_pc ci.own i _ _ hf rfl) rfl (fun r h _ => h) (by simp) (by simp) ?_
    rw [cnt_same hf (by rfl)]
    exact shut_self ci.shut i _ _ hf rfl (fun _ => rfl) (fun _ => rfl) (by simp [afterWait]) (by simp [clearedTo])
  · -- shutWait
    rename_i hf
    obtain ⟨hfr, hs⟩ := htouch _ hs
    split at hs
    · rename_i h0
      simp at hs; subst hs
      refine cinv_build i _ (.shutLoop 0) hf ci rfl ci.inv ci.count ci.refs (own_pc ci.own i _ _ hf rfl) rfl
        (fun r h _ => h) (by simp) (by simp) ?_
      rw [cnt_same hf (by rfl)]
      refine shut_self ci.shut i _ _ hf rfl (fun h => h) (fun _ => ci.shut.flagSet i _ hf rfl) ?_ (by simp [clearedTo])
      intro _; rw [← ci.rel]; exact h0
    · simp at hs; subst hs; exact ci
  · -- shutLoop
    rename_i k hf
    obtain ⟨hfr, hs⟩ := htouch _ hs
    split at hs
    · rename_i hk
      simp at hs; subst hs
      refine cinv_build i _ .shutFree hf ci rfl ci.inv ci.count ci.refs (own_pc ci.own i _ _ hf rfl) rfl
        (fun r h _ => h) (by simp) (by simp) ?_
      rw [cnt_same hf (by rfl)]
      refine shut_self ci.shut i _ _ hf rfl (fun h => h) (fun _ => ci.shut.flagSet i _ hf rfl)
        (fun _ => ci.shut.drained i _ hf rfl) ?_
      intro h hh
      have := ci.count
      exact ci.shut.empt i _ hf h (by simp only [clearedTo] at hh ⊢; omega)
    · rename_i hk
      have hlt : k < s.store.slotCount := by omega
      obtain ⟨i1, i2, i3, i4, hc⟩ := storeRemoveBody_spec s.store ci.inv k none hlt
      rcases hc with ⟨hr, hn⟩ | ⟨_, _, u, hu', _⟩ | ⟨hr, _⟩ | ⟨o, ho, _, hc0, hr, hobj⟩
      · rw [hr] at hs
        simp at hs; subst hs
        refine cinv_build i _ (.shutLoop (k + 1)) hf ci rfl ci.inv ci.count ci.refs (own_pc ci.own i _ _ hf rfl) rfl
          (fun r h _ => h) (by simp) (by simp) ?_
        rw [cnt_same hf (by rfl)]
        refine shut_self ci.shut i _ _ hf rfl (fun h => h) (fun _ => ci.shut.flagSet i _ hf rfl)
          (fun _ => ci.shut.drained i _ hf rfl) ?_
        intro h hh
        by_cases e : h = k
        · subst e; exact hn
        · exact ci.shut.empt i _ hf h (by simp only [clearedTo] at hh ⊢; omega)
      · simp at hu'
      · rw [hr] at hs; simp at hs; subst hs; exact ci
      · revert hs hr hobj i1 i2 i3 i4
        generalize storeRemoveBody s.store k none = q
        intro hs i1 i2 i3 i4 hr hobj
        obtain ⟨st, a⟩ := q
        simp only at i1 i2 i3 i4 hr hobj
        subst hr
        simp at hs; subst hs
        have hO := obj_upd hobj
        have hT := objT_upd hobj
        refine cinv_build i _ (.shutDestroy k o) hf ci rfl i1 (by rw [← ci.count]; exact i2) ?_ ?_ ?_
          (fun r h _ => h) (by simp) (by simp) ?_
        · show RefsInv st.obj _
          rw [hO]
          exact refs_replace ci.refs _ _ hc0 rfl
        · simp only [hT]; exact own_take ci.own k o i _ _ ho hf rfl rfl
        · simp only [i4]; rfl
        · simp only [hT, i3]
          rw [cnt_same hf (by rfl)]
          refine shut_self ci.shut i _ _ hf rfl (fun h => h) (fun _ => ci.shut.flagSet i _ hf rfl)
            (fun _ => ci.shut.drained i _ hf rfl) ?_
          intro h hh
          unfold upd
          by_cases e : h = k
          · simp [e]
          · simp only [e, if_false]
            exact ci.shut.empt i _ hf h (by simp only [clearedTo] at hh ⊢; omega)
  · -- shutDestroy
    rename_i k o hf
    obtain ⟨hfr, hs⟩ := htouch _ hs
    simp at hs; subst hs
    refine cinv_build i _ (.shutLoop (k + 1)) hf ci rfl ci.inv ci.count ci.refs (own_destroy ci.own o i _ _ hf rfl rfl) rfl
      (fun r h _ => h) (by simp) (by simp) ?_
    rw [cnt_same hf (by rfl)]
    exact shut_self ci.shut i _ _ hf rfl (fun h => h) (fun _ => ci.shut.flagSet i _ hf rfl)
      (fun _ => ci.shut.drained i _ hf rfl) (fun h hh => ci.shut.empt i _ hf h hh)
  · -- shutFree
    rename_i hf
    obtain ⟨hfr, hs⟩ := htouch _ hs
    simp at hs; subst hs
    refine cinv_build i _ .idle hf ci rfl ci.inv ci.count ci.refs (own_pc ci.own i _ _ hf rfl) rfl
      (fun r h _ => h) (by simp) (by simp) ?_
    rw [cnt_same hf (by rfl)]
    have base := shut_self (flag' := s.store.isShuttingDown) (T' := fun h => (s.store.obj h).object) ci.shut i .shutFree .idle hf rfl
      (fun h => h) (by simp [afterFlag]) (by simp [afterWait]) (by simp [clearedTo])
    have nosh : ∀ j p, upd (fun j => s.threads[j]?) i (some .idle) j = some p → isShut p = false := by
      intro j p hj
      rcases upd_cases hj with ⟨_, rfl⟩ | ⟨hne, h⟩
      · rfl
      · cases hsp : isShut p with
        | false => rfl
        | true => exact absurd (ci.shut.uniq j i p _ h hsp hf rfl) hne
    exact ⟨base.uniq, base.start, fun _ => ci.shut.start i _ hf rfl, fun _ => nosh, base.flagSet,
      fun _ => ci.shut.flagSet i _ hf rfl, base.drained, fun _ => ci.shut.drained i _ hf rfl, base.empt,
      fun _ h hh => ci.shut.empt i _ hf h hh⟩
  · simp at hs

theorem cinv_init {n : Nat} (hn : n < 2 ^ 64) (store : ObjectStore Nat) (threads : Nat)
    (h : objectStoreInit Nat n = some store) : CInv n (cinit store threads) := by
  obtain ⟨h1, h2, h3, h4, hz⟩ := objectStoreInit_inv n store hn h
  have hidle : ∀ (i : Nat) (pc : Pc), (List.replicate threads Pc.idle)[i]? = some pc → pc = .idle := by
    intro i pc hi
    have := List.mem_of_getElem? hi
    exact (List.mem_replicate.mp this).2
  have hcnt : (List.replicate threads Pc.idle).countP counted = 0 := by
    apply List.countP_eq_zero.mpr
    intro a ha
    rw [(List.mem_replicate.mp ha).2]; simp [counted]
  have hnone : ∀ x, (store.obj x).object = none := by intro x; rw [hz]; rfl
  refine ⟨h1, h2, ⟨by intro r hr; simp [cinit] at hr, ?_⟩, ?_, ?_, ?_, ?_, ?_⟩
  · intro x; show (store.obj x).referenceCount = 0; rw [hz]; rfl
  · refine ⟨?_, ?_, ?_, ?_, ?_, ?_, ?_, List.nodup_nil, ?_, ?_⟩
    · intro a b o ha; simp only [cinit, hnone] at ha; simp at ha
    · intro a o ha; simp only [cinit, hnone] at ha; simp at ha
    · intro a o ha; simp only [cinit, hnone] at ha; simp at ha
    · intro a o i pc ha; simp only [cinit, hnone] at ha; simp at ha
    · intro i pc o hi hp; rw [hidle i pc hi] at hp; simp [pendingOf] at hp
    · intro i pc o hi hp; rw [hidle i pc hi] at hp; simp [pendingOf] at hp
    · intro i j pc pc' o hi hp; rw [hidle i pc hi] at hp; simp [pendingOf] at hp
    · intro o ho; simp [cinit] at ho
    · intro o ho; simp [cinit] at ho
  · show store.releaseCount = _; rw [h4]; exact hcnt.symm
  · intro i r hi; have := hidle i _ hi; simp at this
  · intro i h u hi; have := hidle i _ hi; simp at this
  · refine ⟨?_, ?_, ?_, ?_, ?_, ?_, ?_, ?_, ?_, ?_⟩
    · intro i j pc pc' hi hs; rw [hidle i pc hi] at hs; simp [isShut] at hs
    · intro i pc hi hs; rw [hidle i pc hi] at hs; simp [isShut] at hs
    · intro h; simp [cinit] at h
    · intro h; simp [cinit] at h
    · intro i pc hi hs; rw [hidle i pc hi] at hs; simp [afterFlag] at hs
    · intro h; simp [cinit] at h
    · intro i pc hi hs; rw [hidle i pc hi] at hs; simp [afterWait] at hs
    · intro h; simp [cinit] at h
    · intro i pc hi h hh; rw [hidle i pc hi] at hh; simp [clearedTo] at hh
    · intro h; simp [cinit] at h

theorem uaf_stuck {s s' : CState} {i : Nat} {c : Choice} (h : cstep s i c = some s') : s.uaf = false := by
  unfold cstep at h
  cases hu : s.uaf with
  | false => rfl
  | true => rw [if_pos hu] at h; simp at h

/-- The invariant holds in every reachable state without undefined behaviour. -/
theorem cinv_reachable {n : Nat} (hn : n < 2 ^ 64) {s : CState} (hr : Reachable n s) (hu : s.uaf = false) : CInv n s := by
  induction hr with
  | init store threads h => exact cinv_init hn store threads h
  | step s s' i c _ hs ih => exact cinv_step (ih (uaf_stuck hs)) hs hu

end Sa.Conc

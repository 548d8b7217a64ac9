import Verif.Model.Svp
import Verif.Lemmas.KeyStore
import Verif.Lemmas.StoreHistory

namespace Sa

/-- A region that can be used: not NULL, and its end does not wrap around the address space. -/
def ValidRegion (b : SvpBuffer) : Prop := b.svpMemory ≠ 0 ∧ b.svpMemory.toNat + b.size.toNat < 2 ^ 64

theorem addOverflow_spec (a b : UInt64) :
    ((addOverflow a b).1 = true ↔ 2 ^ 64 ≤ a.toNat + b.toNat) ∧
    ((addOverflow a b).1 = false → (addOverflow a b).2.toNat = a.toNat + b.toNat) := by
  unfold addOverflow
  constructor
  · simp
  · intro h
    have hlt : a.toNat + b.toNat < 2 ^ 64 := by
      simp only [ge_iff_le, decide_eq_false_iff_not, Nat.not_le] at h; exact h
    simp only [UInt64.toNat_add]
    exact Nat.mod_eq_of_lt hlt

theorem addOverflow_cases (a b : UInt64) :
    ((addOverflow a b).1 = true ∧ 2 ^ 64 ≤ a.toNat + b.toNat) ∨
    ((addOverflow a b).1 = false ∧ a.toNat + b.toNat < 2 ^ 64 ∧ (addOverflow a b).2.toNat = a.toNat + b.toNat) := by
  have h := addOverflow_spec a b
  cases hc : (addOverflow a b).1 with
  | true => exact Or.inl ⟨rfl, h.1.mp hc⟩
  | false =>
    refine Or.inr ⟨rfl, ?_, h.2 hc⟩
    have := mt h.1.mpr (by rw [hc]; simp)
    omega

theorem memoryIsValidSvp_iff (a n : UInt64) : memoryIsValidSvp a n = true ↔ a ≠ 0 ∧ a.toNat + n.toNat < 2 ^ 64 := by
  unfold memoryIsValidSvp
  by_cases h : a = 0
  · simp [h]
  · rw [if_neg h]
    rcases addOverflow_cases a n with ⟨h1, h2⟩ | ⟨h1, h2, _⟩
    · rw [h1]; simp; omega
    · rw [h1]; simp only [Bool.false_eq_true, if_false, true_iff]; exact ⟨h, h2⟩

theorem memoryIsValidClear_iff (a n : UInt64) : memoryIsValidClear a n = true ↔ a ≠ 0 ∧ a.toNat + n.toNat < 2 ^ 64 :=
  memoryIsValidSvp_iff a n

/-- What `svp_create` gives for a region. -/
theorem svpCreate_spec (m n : UInt64) :
    (m = 0 ∧ svpCreate m n = none) ∨
    (m ≠ 0 ∧ 2 ^ 64 ≤ m.toNat + n.toNat ∧ svpCreate m n = some ⟨none⟩) ∨
    (m ≠ 0 ∧ m.toNat + n.toNat < 2 ^ 64 ∧ svpCreate m n = some ⟨some ⟨m, n⟩⟩) := by
  unfold svpCreate svpCreateBuffer
  by_cases h : m = 0
  · left; simp [h]
  · right
    simp only [if_neg h]
    cases hv : memoryIsValidSvp m n with
    | true =>
      right
      have := (memoryIsValidSvp_iff m n).mp hv
      simp [h]; omega
    | false =>
      left
      have := mt (memoryIsValidSvp_iff m n).mpr (by rw [hv]; simp)
      simp only [h, ne_eq, not_false_eq_true, true_and, Nat.not_lt] at this
      simp [h]; omega

/-- One segment lies inside both buffers, as mathematical integers. -/
def SegIn (outSize inSize : Nat) (o : SvpOffset) : Prop :=
  o.outOffset.toNat + o.length.toNat ≤ outSize ∧ o.inOffset.toNat + o.length.toNat ≤ inSize

theorem svpWriteCheck_iff (outSize inLength : UInt64) (os : List SvpOffset) :
    svpWriteCheck outSize inLength os = true ↔ ∀ o ∈ os, SegIn outSize.toNat inLength.toNat o := by
  induction os with
  | nil => simp [svpWriteCheck]
  | cons o os ih =>
    unfold svpWriteCheck
    simp only
    rw [List.forall_mem_cons, ← ih]
    have hs1 : outSize.toNat < 2 ^ 64 := UInt64.toNat_lt _
    have hs2 : inLength.toNat < 2 ^ 64 := UInt64.toNat_lt _
    unfold SegIn
    rcases addOverflow_cases o.outOffset o.length with ⟨h1, h2⟩ | ⟨h1, h2, h3⟩
    · rw [h1]; simp; omega
    · rw [h1, if_neg (by simp)]
      by_cases h4 : (addOverflow o.outOffset o.length).2 > outSize
      · rw [if_pos h4]
        have h4' := UInt64.lt_iff_toNat_lt.mp h4
        simp; omega
      · rw [if_neg h4]
        have h4' := mt UInt64.lt_iff_toNat_lt.mpr h4
        rcases addOverflow_cases o.inOffset o.length with ⟨h5, h6⟩ | ⟨h5, h6, h7⟩
        · rw [h5]; simp; omega
        · rw [h5, if_neg (by simp)]
          by_cases h8 : (addOverflow o.inOffset o.length).2 > inLength
          · rw [if_pos h8]
            have h8' := UInt64.lt_iff_toNat_lt.mp h8
            simp; omega
          · rw [if_neg h8]
            have h8' := mt UInt64.lt_iff_toNat_lt.mpr h8
            constructor
            · intro h; exact ⟨⟨by omega, by omega⟩, h⟩
            · exact fun h => h.2

/-- The copy asked for by one segment. -/
def segCopy (outAddr inAddr : Nat) (o : SvpOffset) : Memcpy :=
  { dst := outAddr + o.outOffset.toNat, src := inAddr + o.inOffset.toNat, len := o.length.toNat }

theorem svpCopyLoop_spec (b i : SvpBuffer) (hb : ValidRegion b) (hi : ValidRegion i) (os : List SvpOffset)
    (h : ∀ o ∈ os, SegIn b.size.toNat i.size.toNat o) :
    svpCopyLoop b i os = (true, os.map (segCopy b.svpMemory.toNat i.svpMemory.toNat)) := by
  induction os with
  | nil => rfl
  | cons o os ih =>
    have hseg := h o (List.mem_cons_self)
    obtain ⟨s1, s2⟩ := hseg
    have hb2 := hb.2
    have hi2 := hi.2
    unfold svpCopyLoop
    simp only
    rcases addOverflow_cases b.svpMemory o.outOffset with ⟨h1, h2⟩ | ⟨h1, h2, h3⟩
    · omega
    · rcases addOverflow_cases i.svpMemory o.inOffset with ⟨h4, h5⟩ | ⟨h4, h5, h6⟩
      · omega
      · rw [h1, h4, if_neg (by simp), if_neg (by simp), ih (fun o ho => h o (List.mem_cons_of_mem _ ho)), h3, h6]
        rfl

/-! ## Effect of disjoint copies -/

/-- Copies whose sources and destinations lie in two disjoint regions never overlap, and their combined effect is: an address covered
by some copy has the byte of the last copy covering it, all other addresses keep their value. -/
theorem runCopies_disjoint (outAddr inAddr outSize inSize : Nat)
    (hd : outAddr + outSize ≤ inAddr ∨ inAddr + inSize ≤ outAddr) (os : List SvpOffset)
    (h : ∀ o ∈ os, SegIn outSize inSize o) (m : Mem) :
    ∃ m', runCopies m (os.map (segCopy outAddr inAddr)) = some m' ∧
      (∀ a, (∀ o ∈ os, ¬ (outAddr + o.outOffset.toNat ≤ a ∧ a < outAddr + o.outOffset.toNat + o.length.toNat)) → m' a = m a) ∧
      (∀ pre o post, os = pre ++ o :: post → ∀ k, k < o.length.toNat →
        (∀ q ∈ post, ¬ (q.outOffset.toNat ≤ o.outOffset.toNat + k ∧ o.outOffset.toNat + k < q.outOffset.toNat + q.length.toNat)) →
        m' (outAddr + o.outOffset.toNat + k) = m (inAddr + o.inOffset.toNat + k)) := by
  induction os generalizing m with
  | nil => exact ⟨m, rfl, fun _ _ => rfl, fun pre o post he => by simp at he⟩
  | cons o os ih =>
    obtain ⟨s1, s2⟩ := h o (List.mem_cons_self)
    have hrun : (segCopy outAddr inAddr o).run m = some fun a =>
        if outAddr + o.outOffset.toNat ≤ a ∧ a < outAddr + o.outOffset.toNat + o.length.toNat then
          m (inAddr + o.inOffset.toNat + (a - (outAddr + o.outOffset.toNat))) else m a := by
      unfold Memcpy.run segCopy
      simp only
      rw [if_neg (by omega)]
    obtain ⟨m', e1, e2, e3⟩ := ih (fun o ho => h o (List.mem_cons_of_mem _ ho)) (fun a =>
        if outAddr + o.outOffset.toNat ≤ a ∧ a < outAddr + o.outOffset.toNat + o.length.toNat then
          m (inAddr + o.inOffset.toNat + (a - (outAddr + o.outOffset.toNat))) else m a)
    refine ⟨m', ?_, ?_, ?_⟩
    · simp only [List.map_cons, runCopies, hrun, Option.bind_some]; exact e1
    · intro a ha
      rw [e2 a (fun q hq => ha q (List.mem_cons_of_mem _ hq)), if_neg (ha o List.mem_cons_self)]
    · intro pre p post he k hk hpost
      cases pre with
      | nil =>
        simp only [List.nil_append, List.cons.injEq] at he
        obtain ⟨rfl, rfl⟩ := he
        rw [e2 _ (fun q hq => by have := hpost q hq; omega), if_pos (by omega)]
        congr 1; omega
      | cons x pre =>
        simp only [List.cons_append, List.cons.injEq] at he
        obtain ⟨rfl, rfl⟩ := he
        have hp : SegIn outSize inSize p := h p (by simp)
        rw [e3 pre p post rfl k hk hpost, if_neg (by have := hp.2; omega)]

/-! ## The SVP table -/

/-- Invariant of an SVP table: every buffer in it covers a usable region. -/
structure SvpInv (st : SvpStore) : Prop extends LiveInv st where
  valid : ∀ h svp b, (st.obj h).object = some svp → svp.buffer = some b → ValidRegion b

theorem svpInv_of (st st' : SvpStore) (inv : SvpInv st) (hl : LiveInv st')
    (ho : ∀ h svp b, (st'.obj h).object = some svp → svp.buffer = some b → (st.obj h).object = some svp) : SvpInv st' :=
  { hl with valid := fun h svp b h1 h2 => inv.valid h svp b (ho h svp b h1 h2) h2 }

theorem svpAcquire_inv (st : SvpStore) (inv : SvpInv st) (h : Nat) (u : Uuid) :
    SvpInv (svpStoreAcquireExclusive st h u).1 := by
  unfold svpStoreAcquireExclusive
  rcases acquire_spec st inv.toLiveInv h u with ⟨he, _⟩ | ⟨he, _⟩ | ⟨st', o, he, hl, _, _, ho, _, hobj⟩
  · rw [he]; exact inv
  · rw [he]; exact inv
  · rw [he]
    refine svpInv_of st st' inv hl ?_
    intro x svp b h1 _
    rw [hobj] at h1
    split at h1
    · rename_i e; subst e; rw [ho]; exact h1
    · exact h1

theorem svpGive_inv (st : SvpStore) (inv : SvpInv st) (h : Nat) (s : Svp) (u : Uuid) :
    SvpInv (svpStoreReleaseExclusive st h s u).1 := by
  unfold svpStoreReleaseExclusive
  rcases release_spec st inv.toLiveInv h s u with ⟨he, _⟩ | ⟨he, _⟩ | ⟨he, _⟩ | ⟨st', he, hl, _, _, ho, _, _, hobj⟩
  · rw [he]; exact inv
  · rw [he]; exact inv
  · rw [he]; exact inv
  · rw [he]
    refine svpInv_of st st' inv hl ?_
    intro x svp b h1 _
    rw [hobj] at h1
    split at h1
    · rename_i e; subst e; rw [ho]; exact h1
    · exact h1

/-- A TA write takes and returns its reference. -/
theorem taSvpBufferWrite_store (st : SvpStore) (inv : SvpInv st) (out : Nat) (i n : UInt64) (os : List SvpOffset) (u : Uuid) :
    (taSvpBufferWrite st out i n os u).1 = st := by
  unfold taSvpBufferWrite svpStoreAcquireExclusive svpStoreReleaseExclusive
  split
  · rfl
  · rcases acquire_fail st out u with ⟨st1, o, he⟩ | ⟨s, hs, he⟩
    · rw [he]
      simp only
      rw [acquire_release st (by rw [inv.len]) out u st1 o he]
    · rw [he]

theorem taSvpBufferCopy_store (st : SvpStore) (inv : SvpInv st) (out i : Nat) (os : List SvpOffset) (u : Uuid) :
    (taSvpBufferCopy st out i os u).1 = st := by
  unfold taSvpBufferCopy svpStoreAcquireExclusive svpStoreReleaseExclusive
  rcases acquire_fail st out u with ⟨st1, o, he⟩ | ⟨s, hs, he⟩
  · rw [he]
    simp only [ne_eq, not_true_eq_false, if_false]
    have inv1 : SvpInv st1 := by
      have := svpAcquire_inv st inv out u
      unfold svpStoreAcquireExclusive at this
      rw [he] at this; exact this
    rcases acquire_fail st1 i u with ⟨st2, o2, he2⟩ | ⟨s2, hs2, he2⟩
    · rw [he2]
      simp only
      rw [acquire_release st1 (by rw [inv1.len]) i u st2 o2 he2]
      simp only
      rw [acquire_release st (by rw [inv.len]) out u st1 o he]
    · rw [he2]
      simp only
      rw [acquire_release st (by rw [inv.len]) out u st1 o he]
  · rw [he]

theorem svpCreate_inv (st : SvpStore) (inv : SvpInv st) (m n : UInt64) (u : Uuid) :
    SvpInv (svpStoreCreate st m n u).1 := by
  unfold svpStoreCreate
  split
  · exact inv
  · cases hc : svpCreate m n with
    | none => exact inv
    | some svp =>
      simp only
      obtain ⟨h1, h2, h3, _, h5⟩ := add_spec st inv.toStoreInv inv.up svp u
      refine { h1 with up := h3, valid := ?_ }
      intro h s b ho hb
      rcases h5 with ⟨_, _, _, hobj⟩ | ⟨_, _, _, hobj⟩
      · rw [hobj] at ho; exact inv.valid h s b ho hb
      · rw [hobj] at ho
        split at ho
        · simp only [Option.some.injEq] at ho
          subst ho
          rcases svpCreate_spec m n with ⟨_, e⟩ | ⟨_, _, e⟩ | ⟨e1, e2, e⟩
          · rw [e] at hc; simp at hc
          · rw [e] at hc; simp only [Option.some.injEq] at hc; subst hc; simp at hb
          · rw [e] at hc; simp only [Option.some.injEq] at hc; subst hc; simp only [Option.some.injEq] at hb; subst hb
            exact ⟨e1, e2⟩
        · exact inv.valid h s b ho hb

/-- Complete description of releasing an SVP buffer. -/
theorem svpRelease_cases (st : SvpStore) (inv : SvpInv st) (h : Nat) (u : Uuid) :
    (∃ s, s ≠ Status.OK ∧ svpStoreRelease st h u = .returned st s none) ∨
    (∃ st', svpStoreRelease st h u = .returned st' .OK none ∧ SvpInv st' ∧ h < st.slotCount ∧ (st.obj h).object = some ⟨none⟩ ∧
      (st.obj h).ownerUuid = u ∧ ∀ x, st'.obj x = if x = h then
        { st.obj h with referenceCount := (st.obj h).referenceCount + 1 } else st.obj x) ∨
    (∃ b st', svpStoreRelease st h u = .returned st' .OK (some (b.svpMemory, b.size)) ∧ SvpInv st' ∧ h < st.slotCount ∧
      (st.obj h).object = some ⟨some b⟩ ∧
      (st.obj h).ownerUuid = u ∧ (st.obj h).referenceCount = 0 ∧ ∀ x, st'.obj x = if x = h then
        { object := none, referenceCount := 0, ownerUuid := u } else st.obj x) ∨
    (∃ b st', svpStoreRelease st h u = .blocks st' ∧ SvpInv st' ∧ h < st.slotCount ∧ (st.obj h).object = some ⟨some b⟩ ∧
      (st.obj h).ownerUuid = u ∧ (st.obj h).referenceCount ≠ 0 ∧ ∀ x, st'.obj x = if x = h then
        { st.obj h with object := some ⟨none⟩ } else st.obj x) := by
  unfold svpStoreRelease svpStoreAcquireExclusive svpStoreReleaseExclusive
  rcases acquire_fail st h u with ⟨st1, svp, he⟩ | ⟨s, hs, he⟩
  · right
    rw [he]
    have inv1 : SvpInv st1 := by
      have := svpAcquire_inv st inv h u
      unfold svpStoreAcquireExclusive at this
      rw [he] at this; exact this
    obtain ⟨a1, a2, a3, a4, a5⟩ := (acquire_ok_iff st h u st1 svp).mp he
    have hl : h < st.objects.length := by rw [inv.len]; exact a1
    have hobj1 : ∀ x, st1.obj x = if x = h then { st.obj h with referenceCount := (st.obj h).referenceCount + 1 } else st.obj x := by
      intro x; rw [a5, obj_setObj _ _ _ _ hl]
    obtain ⟨buf⟩ := svp
    simp only [ne_eq, not_true_eq_false, if_false]
    cases buf with
    | none =>
      left
      exact ⟨st1, rfl, inv1, a1, a3, a4, hobj1⟩
    | some b =>
      right
      simp only
      have hl1 : h < st1.objects.length := by rw [inv1.len, a5, setObj_slotCount]; exact a1
      -- state with the buffer pointer cleared
      have hst2 : (st1.setObj h { st1.obj h with object := some (⟨none⟩ : Svp) }) =
          (st.setObj h { st.obj h with object := some (⟨none⟩ : Svp) }).setObj h
            { (st.setObj h { st.obj h with object := some (⟨none⟩ : Svp) }).obj h with
              referenceCount := ((st.setObj h { st.obj h with object := some (⟨none⟩ : Svp) }).obj h).referenceCount + 1 } := by
        rw [hobj1 h, if_pos rfl, obj_setObj _ _ _ _ hl, if_pos rfl, a5, setObj_setObj, setObj_setObj]
      have linv3 : LiveInv (st.setObj h { st.obj h with object := some (⟨none⟩ : Svp) }) := by
        have := setObj_inv st inv.toStoreInv h { st.obj h with object := some (⟨none⟩ : Svp) } a1 (by rw [a3]; rfl) (by simp)
        exact { this with up := inv.up }
      have hobj3 : ∀ x, (st.setObj h { st.obj h with object := some (⟨none⟩ : Svp) }).obj x =
          if x = h then { st.obj h with object := some ⟨none⟩ } else st.obj x := by
        intro x; rw [obj_setObj _ _ _ _ hl]
      have hacq : objectStoreAcquire (st.setObj h { st.obj h with object := some (⟨none⟩ : Svp) }) h u =
          (st1.setObj h { st1.obj h with object := some (⟨none⟩ : Svp) }, .OK, some ⟨none⟩) := by
        rw [acquire_ok_iff]
        refine ⟨a1, a2, ?_, ?_, hst2⟩
        · rw [hobj3, if_pos rfl]
        · rw [hobj3, if_pos rfl]; exact a4
      rw [acquire_release _ (by rw [linv3.len]) h u _ _ hacq]
      simp only
      have inv3 : SvpInv (st.setObj h { st.obj h with object := some (⟨none⟩ : Svp) }) := by
        refine svpInv_of st _ inv linv3 ?_
        intro x svp b' h1 h2
        rw [hobj3] at h1
        split at h1
        · simp only [Option.some.injEq] at h1; subst h1; simp at h2
        · exact h1
      rcases remove_spec _ linv3 h u with ⟨_, r2⟩ | ⟨_, _, _, r2⟩ | ⟨st', r1, r2, r3, r4, r5, r6, r7, r8⟩ | ⟨st', o, r1, r2, r3, r4, r5, r6, r7, r8⟩
      · rw [hobj3, if_pos rfl] at r2; simp at r2
      · rw [hobj3, if_pos rfl] at r2; exact absurd a4 r2
      · right
        rw [r1]
        have hobj4 : ∀ x, st'.obj x = if x = h then { st.obj h with object := some ⟨none⟩ } else st.obj x := by
          intro x; rw [← hobj3]; show st'.objects.getD x _ = ObjectStore.obj _ x; rw [r2]; rfl
        refine ⟨b, st', rfl, ?_, a1, a3, a4, ?_, hobj4⟩
        · refine svpInv_of _ st' inv3 r3 ?_
          intro x svp b' h1 _
          rw [hobj3]; rw [hobj4] at h1; exact h1
        · rw [hobj3, if_pos rfl] at r8; exact r8
      · left
        rw [r1]
        have hobj4 : ∀ x, st'.obj x = if x = h then { object := none, referenceCount := 0, ownerUuid := u } else st.obj x := by
          intro x
          rw [r8]
          by_cases e : x = h
          · rw [if_pos e, if_pos e, r6]
          · rw [if_neg e, if_neg e, hobj3, if_neg e]
        refine ⟨b, st', rfl, ?_, a1, a3, a4, ?_, hobj4⟩
        · refine svpInv_of st st' inv r2 ?_
          intro x svp b' h1 _
          rw [hobj4] at h1
          split at h1
          · simp at h1
          · exact h1
        · rw [hobj3, if_pos rfl] at r7; exact r7
  · left
    rw [he]
    exact ⟨s, hs, rfl⟩

theorem svpStep_inv (st : SvpStore) (inv : SvpInv st) (op : SvpOp) : SvpInv (svpStep st op) := by
  cases op with
  | create m n u => exact svpCreate_inv st inv m n u
  | release h u =>
    simp only [svpStep]
    rcases svpRelease_cases st inv h u with ⟨s, _, he⟩ | ⟨st', he, hi, _⟩ | ⟨b, st', he, hi, _⟩ | ⟨b, st', he, hi, _⟩
    · rw [he]; exact inv
    · rw [he]; exact hi
    · rw [he]; exact hi
    · rw [he]; exact hi
  | acquire h u => exact svpAcquire_inv st inv h u
  | give h s u => exact svpGive_inv st inv h s u
  | write o i n os u => simp only [svpStep]; rw [taSvpBufferWrite_store st inv]; exact inv
  | copy o i os u => simp only [svpStep]; rw [taSvpBufferCopy_store st inv]; exact inv

theorem svpAfter_inv (ops : List SvpOp) (st : SvpStore) (inv : SvpInv st) : SvpInv (svpAfter st ops) := by
  induction ops generalizing st with
  | nil => exact inv
  | cons op ops ih => exact ih _ (svpStep_inv st inv op)

theorem svpReachable_inv (st : SvpStore) (h : SvpReachable st) : SvpInv st := by
  obtain ⟨n, st0, ops, hn, h0, rfl⟩ := h
  apply svpAfter_inv
  have hl := liveInv_init n st0 hn h0
  obtain ⟨_, _, _, _, hz⟩ := objectStoreInit_inv n st0 hn h0
  exact { hl with valid := fun h svp b h1 _ => by rw [hz] at h1; simp [StoreObject.zero] at h1 }

end Sa

import Verif.Lemmas.CencFail
import Verif.Props.C20

/-!
# Verification of samples
-/

namespace Sa

open CencSpec

/-- `n` bytes of buffer `b` of caller `u`, from its offset on, exist and start at address `a`. -/
def Located (st : SvpStore) (u : Uuid) (b : SaBuffer) (n a : Nat) : Prop :=
  match b with
  | .clear address length offset =>
    address ≠ 0 ∧ offset.toNat + n ≤ length.toNat ∧ address.toNat + length.toNat < 2 ^ 64 ∧ a = address.toNat + offset.toNat
  | .svp h offset => ∃ r : SvpBuffer, C20.HasBuffer st h u r ∧ offset.toNat + n ≤ r.size.toNat ∧ a = r.svpMemory.toNat + offset.toNat

theorem hasBuffer_acquire (st st1 : SvpStore) (h : Nat) (u : Uuid) (o : Svp) (hlen : st.objects.length = st.slotCount)
    (ha : objectStoreAcquire st h u = (st1, .OK, some o)) (h' : Nat) (u' : Uuid) (r : SvpBuffer) :
    C20.HasBuffer st1 h' u' r ↔ C20.HasBuffer st h' u' r := by
  obtain ⟨h1, h2, h3, h4, h5⟩ := (acquire_ok_iff st h u st1 o).mp ha
  subst h5
  unfold C20.HasBuffer
  rw [setObj_slotCount]
  rcases Nat.lt_or_ge h' st.slotCount with hlt | hge
  · rw [obj_setObj _ _ _ _ (by omega)]
    by_cases he : h' = h
    · subst he; rw [if_pos rfl]
    · rw [if_neg he]
  · constructor <;> intro hx <;> omega

/-- What `convert_buffer` does, for both kinds of buffers. -/
theorem convertBuffer_spec (st : SvpStore) (inv : SvpInv st) (b : SaBuffer) (n : UInt64) (u : Uuid) :
    let r := convertBuffer st b n u
    SvpInv r.store ∧ giveBack r.store r.svp b u = st ∧ (∀ h' u' q, C20.HasBuffer r.store h' u' q ↔ C20.HasBuffer st h' u' q) ∧
    (r.status = .OK → Located st u b n.toNat r.addr) ∧ ((∃ a, Located st u b n.toNat a) → r.status = .OK) := by
  intro r
  have hr : r = convertBuffer st b n u := rfl
  clear_value r
  cases b with
  | clear address length offset =>
    have h := C20.C20_clear st address length offset n u
    simp only at h
    rw [← hr] at h
    obtain ⟨h1, h2, h3, h4⟩ := h
    refine ⟨by rw [h3]; exact inv, by rw [h4, h3]; rfl, fun _ _ _ => by rw [h3], ?_, ?_⟩
    · intro hok
      obtain ⟨a, ha, hb, _, _⟩ := h2 hok
      obtain ⟨c1, c2, c3⟩ := h1.mp hok
      exact ⟨c1, c2, c3, by simp [Converted.addr, ha, hb]⟩
    · rintro ⟨a, c1, c2, c3, _⟩
      exact h1.mpr ⟨c1, c2, c3⟩
  | svp h offset =>
    have hs := C20.svp_inv st inv h offset n u
    simp only at hs
    rw [← hr] at hs
    obtain ⟨h1, h2⟩ := hs
    have hinv : SvpInv r.store ∧ giveBack r.store r.svp (.svp h offset) u = st ∧
        (∀ h' u' q, C20.HasBuffer r.store h' u' q ↔ C20.HasBuffer st h' u' q) := by
      rcases acquire_fail st h u with ⟨st1, o, he⟩ | ⟨s, hs, he⟩
      · have hst : r.store = st1 ∧ r.svp = some o := by
          rw [hr]
          unfold convertBuffer svpStoreAcquireExclusive
          simp only
          rw [he]
          simp only [ne_eq, not_true_eq_false, if_false]
          split
          · exact ⟨rfl, rfl⟩
          · split
            · exact ⟨rfl, rfl⟩
            · split
              · exact ⟨rfl, rfl⟩
              · split <;> exact ⟨rfl, rfl⟩
        have inv1 : SvpInv st1 := by
          have := svpAcquire_inv st inv h u
          unfold svpStoreAcquireExclusive at this
          rw [he] at this; exact this
        refine ⟨by rw [hst.1]; exact inv1, ?_, ?_⟩
        · rw [hst.1, hst.2]
          show (svpStoreReleaseExclusive st1 h o u).1 = st
          unfold svpStoreReleaseExclusive
          rw [acquire_release st (by rw [inv.len]) h u st1 o he]
        · intro h' u' q
          rw [hst.1]
          exact hasBuffer_acquire st st1 h u o (by rw [inv.len]) he h' u' q
      · have hst : r.store = st ∧ r.svp = none := by
          rw [hr]
          unfold convertBuffer svpStoreAcquireExclusive
          simp only
          rw [he]
          simp [hs]
        refine ⟨by rw [hst.1]; exact inv, by rw [hst.1, hst.2]; rfl, fun _ _ _ => by rw [hst.1]⟩
    refine ⟨hinv.1, hinv.2.1, hinv.2.2, ?_, ?_⟩
    · intro hok
      obtain ⟨b, a, hb, ha, hc, hd, hf⟩ := h2 hok
      exact ⟨b, hb, by omega, by simp [Converted.addr, ha, hc]⟩
    · rintro ⟨a, b, hb, hc, _⟩
      exact h1.mpr ⟨b, hb, hc⟩

theorem located_iff (st st1 : SvpStore) (h : ∀ h' u' q, C20.HasBuffer st1 h' u' q ↔ C20.HasBuffer st h' u' q) (u : Uuid) (b : SaBuffer)
    (n a : Nat) : Located st1 u b n a ↔ Located st u b n a := by
  cases b with
  | clear => exact Iff.rfl
  | svp => simp only [Located, h]

theorem located_unique (st : SvpStore) (u : Uuid) (b : SaBuffer) (n a a' : Nat) (h : Located st u b n a) (h' : Located st u b n a') :
    a = a' := by
  cases b with
  | clear =>
    obtain ⟨_, _, _, h⟩ := h; obtain ⟨_, _, _, h'⟩ := h'
    rw [h, h']
  | svp =>
    obtain ⟨r, ⟨_, k1, _⟩, _, h⟩ := h; obtain ⟨r', ⟨_, k1', _⟩, _, h'⟩ := h'
    rw [k1] at k1'
    simp only [Option.some.injEq, Svp.mk.injEq] at k1'
    subst k1'
    rw [h, h']

/-- Disjoint byte ranges. -/
def Apart (a b n : Nat) : Prop := a + n ≤ b ∨ b + n ≤ a

theorem cencOverlap_apart (a b n : Nat) (h : cencOverlap a b n = false) : Apart a b n := by
  unfold cencOverlap at h
  unfold Apart
  simp only [Bool.or_eq_false_iff, Bool.and_eq_false_iff, decide_eq_false_iff_not] at h
  omega

variable {σ : Type}

/-- `verify_sample` leaves the SVP table as it was; what it accepts is located in both buffers, disjointly. -/
theorem verifyBuffers_spec (st : SvpStore) (inv : SvpInv st) (out input : SaBuffer) (subs : List Subsample) (u : Uuid) :
    (verifyBuffers st out input subs u).1 = st ∧
    ((verifyBuffers st out input subs u).2 = .OK → cencRequiredLength subs ≠ 0 ∧
      ∃ a b, Located st u out (total (subs.map Subsample.nat)) a ∧ Located st u input (total (subs.map Subsample.nat)) b ∧
        Apart a b (total (subs.map Subsample.nat))) := by
  unfold verifyBuffers
  simp only
  by_cases hreq : cencRequiredLength subs = 0
  · rw [if_pos hreq]; simp
  · rw [if_neg hreq]
    obtain ⟨hlen, _⟩ := cencRequiredLength_spec subs hreq
    generalize cencRequiredLength subs = n at hlen hreq
    have h1 := convertBuffer_spec st inv out n u
    simp only at h1
    generalize convertBuffer st out n u = c1 at h1 ⊢
    obtain ⟨i1, g1, b1, o1, _⟩ := h1
    by_cases hc1 : c1.status = .OK
    · rw [if_neg (by simp [hc1])]
      have h2 := convertBuffer_spec c1.store i1 input n u
      simp only at h2
      generalize convertBuffer c1.store input n u = c2 at h2 ⊢
      obtain ⟨i2, g2, b2, o2, _⟩ := h2
      rw [g2, g1]
      by_cases hc2 : c2.status = .OK
      · rw [if_neg (by simp [hc2])]
        cases hov : cencOverlap c1.addr c2.addr n.toNat with
        | true => simp
        | false =>
          refine ⟨by simp, fun _ => ⟨hreq, c1.addr, c2.addr, ?_, ?_, ?_⟩⟩
          · rw [← hlen]; exact o1 hc1
          · rw [← hlen]; exact (located_iff st c1.store b1 u input _ _).mp (o2 hc2)
          · rw [← hlen]; exact cencOverlap_apart _ _ _ hov
      · rw [if_pos hc2]; exact ⟨rfl, fun h => absurd h hc2⟩
    · rw [if_pos hc1, g1]; exact ⟨rfl, fun h => absurd h hc1⟩

/-- What an accepted sample looks like. -/
structure Accepted (w : CencWorld σ) (s : Sample) (u : Uuid) (out input : Nat) (subs : List Subsample) (a b : Nat) : Prop where
  iv : ∃ iv, s.iv = some iv ∧ iv.length = 16
  hout : s.out = some out
  hinput : s.input = some input
  hsubs : s.subs = some subs
  cipher : ∃ c, w.ciphers s.context = some c
  required : cencRequiredLength subs ≠ 0
  locOut : Located w.svp u (w.bufs out) (total (subs.map Subsample.nat)) a
  locIn : Located w.svp u (w.bufs input) (total (subs.map Subsample.nat)) b
  apart : Apart a b (total (subs.map Subsample.nat))

theorem verifySample_spec (env : RightsEnv) (w : CencWorld σ) (inv : SvpInv w.svp) (s : Sample) (u : Uuid) :
    (verifySample env w s u).1 = w.svp ∧
    ((verifySample env w s u).2 = .OK → ∃ out input subs a b, Accepted w s u out input subs a b) := by
  unfold verifySample
  cases hiv : s.iv with
  | none => simp
  | some iv =>
    simp only
    by_cases hl : iv.length = 16
    · rw [if_neg (by simp [hl])]
      cases hsub : s.subs with
      | none => simp
      | some subs =>
        simp only
        split
        · simp
        · cases hout : s.out with
          | none => simp
          | some out =>
            cases hin : s.input with
            | none => simp
            | some input =>
              simp only
              split
              · simp
              · cases hc : w.ciphers s.context with
                | none => simp
                | some c =>
                  simp only
                  split
                  · simp
                  · split
                    · simp
                    · split
                      · simp
                      · split
                        · simp
                        · split
                          · simp
                          · obtain ⟨v1, v2⟩ := verifyBuffers_spec w.svp inv (w.bufs out) (w.bufs input) subs u
                            refine ⟨v1, fun hok => ?_⟩
                            obtain ⟨hreq, a, b, l1, l2, l3⟩ := v2 hok
                            exact ⟨out, input, subs, a, b, ⟨iv, hiv, hl⟩, hout, hin, hsub, ⟨c, hc⟩, hreq, l1, l2, l3⟩
    · rw [if_pos hl]; simp

theorem verifyAll_spec (env : RightsEnv) (w : CencWorld σ) (inv : SvpInv w.svp) (ss : List Sample) (u : Uuid) :
    (verifyAll env w u ss).1 = w ∧
    ((verifyAll env w u ss).2 = .OK → ∀ s ∈ ss, ∃ out input subs a b, Accepted w s u out input subs a b) := by
  induction ss with
  | nil => simp [verifyAll]
  | cons s ss ih =>
    obtain ⟨v1, v2⟩ := verifySample_spec env w inv s u
    unfold verifyAll
    simp only
    have hw : { w with svp := (verifySample env w s u).1 } = w := by rw [v1]
    rw [hw]
    by_cases hc : (verifySample env w s u).2 = .OK
    · rw [if_neg (by simp [hc])]
      refine ⟨ih.1, fun h t ht => ?_⟩
      rcases List.mem_cons.mp ht with rfl | ht
      · exact v2 hc
      · exact ih.2 h t ht
    · rw [if_pos hc]; exact ⟨rfl, fun h => absurd h hc⟩

/-- Processing an accepted sample: at the places found by the verification; a status other than OK is due to the cipher; the SVP table stays,
and of the buffers only those of the sample change. -/
theorem cencProcessSample_spec (ops : SymOps σ) (fuel : Nat) (w : CencWorld σ) (inv : SvpInv w.svp) (s : Sample) (u : Uuid)
    (out input : Nat) (subs : List Subsample) (a b : Nat) (h : Accepted w s u out input subs a b) (iv : Bytes) (r : SampleResult σ)
    (hr : cencProcessSample ops fuel w s.context iv s.crypt s.skip subs out input u = some r) :
    r.world.svp = w.svp ∧ r.place = some (a, b) ∧ (r.status ≠ .OK → r.failed = true) ∧
    (∀ i, i ≠ out → i ≠ input → r.world.bufs i = w.bufs i) ∧ (∀ i, (∃ c, w.ciphers i = some c) → ∃ c, r.world.ciphers i = some c) := by
  obtain ⟨c, hc⟩ := h.cipher
  obtain ⟨hlen, _⟩ := cencRequiredLength_spec subs h.required
  unfold cencProcessSample at hr
  rw [hc] at hr
  simp only at hr
  rw [if_neg h.required] at hr
  have h1 := convertBuffer_spec w.svp inv (w.bufs out) (cencRequiredLength subs) u
  simp only at h1
  generalize convertBuffer w.svp (w.bufs out) (cencRequiredLength subs) u = c1 at h1 hr
  obtain ⟨i1, g1, b1, o1, e1⟩ := h1
  have hc1 : c1.status = .OK := e1 ⟨a, by rw [hlen]; exact h.locOut⟩
  rw [if_neg (by simp [hc1])] at hr
  have h2 := convertBuffer_spec c1.store i1 (w.bufs input) (cencRequiredLength subs) u
  simp only at h2
  generalize convertBuffer c1.store (w.bufs input) (cencRequiredLength subs) u = c2 at h2 hr
  obtain ⟨i2, g2, b2, o2, e2⟩ := h2
  have hc2 : c2.status = .OK := e2 ⟨b, by rw [hlen, located_iff w.svp c1.store b1]; exact h.locIn⟩
  rw [if_neg (by simp [hc2])] at hr
  rw [g2, g1] at hr
  have ha : c1.addr = a := by
    have := o1 hc1
    rw [hlen] at this
    exact located_unique _ _ _ _ _ _ this h.locOut
  have hb : c2.addr = b := by
    have := o2 hc2
    rw [hlen, located_iff w.svp c1.store b1] at this
    exact located_unique _ _ _ _ _ _ this h.locIn
  rw [ha, hb] at hr
  split at hr
  · simp at hr
  · rename_i s1 off st hrun
    simp only [Option.some.injEq] at hr
    subst hr
    refine ⟨rfl, rfl, fun hst => cencRun_blames _ _ _ _ _ _ _ _ _ hrun hst, ?_, ?_⟩
    · intro i h1 h2
      by_cases hst : st = .OK
      · simp [hst, h1, h2]
      · simp [hst]
    · rintro i ⟨c', hc'⟩
      by_cases hi : i = s.context
      · exact ⟨{ c with ctx := s1.ctx }, by simp [hi]⟩
      · exact ⟨c', by simp [hi, hc']⟩

/-- The buffers a sample uses. -/
def Sample.buffers (s : Sample) : List Nat := s.out.toList ++ s.input.toList

/-- Two samples share no buffer. -/
def Unshared (s t : Sample) : Prop := ∀ i ∈ s.buffers, i ∉ t.buffers

/-- The second loop, if no two samples share a buffer. -/
theorem processAll_spec (ops : SymOps σ) (fuel : Nat) (u : Uuid) (w w' : CencWorld σ) (inv : SvpInv w.svp) (ss : List Sample) (st : Status)
    (rs : List (SampleResult σ)) (hsep : ss.Pairwise Unshared)
    (hacc : ∀ s ∈ ss, ∃ out input subs a b, Accepted w s u out input subs a b)
    (hr : processAll ops fuel u w ss = some (w', st, rs)) :
    (st ≠ .OK → ∃ r ∈ rs, r.failed = true) ∧
    (∀ (i : Nat) (s : Sample) (r : SampleResult σ), ss[i]? = some s → rs[i]? = some r → ∃ out input subs a b, Accepted w s u out input subs a b ∧ r.place = some (a, b)) := by
  induction ss generalizing w rs with
  | nil =>
    simp only [processAll, Option.some.injEq, Prod.mk.injEq] at hr
    obtain ⟨rfl, rfl, rfl⟩ := hr
    simp
  | cons s ss ih =>
    obtain ⟨out, input, subs, a, b, h⟩ := hacc s (by simp)
    simp only [processAll, h.hout, h.hinput, h.hsubs, Option.getD_some] at hr
    cases hp : cencProcessSample ops fuel w s.context (s.iv.getD []) s.crypt s.skip subs out input u with
    | none => rw [hp] at hr; simp at hr
    | some r =>
      rw [hp] at hr
      simp only at hr
      obtain ⟨g1, g2, g3, g4, g5⟩ := cencProcessSample_spec ops fuel w inv s u out input subs a b h _ r hp
      by_cases hst : r.status = .OK
      · rw [if_neg (by simp [hst])] at hr
        cases hq : processAll ops fuel u r.world ss with
        | none => rw [hq] at hr; simp at hr
        | some v =>
          obtain ⟨w2, st2, rs2⟩ := v
          rw [hq] at hr
          simp only [Option.some.injEq, Prod.mk.injEq] at hr
          obtain ⟨rfl, rfl, rfl⟩ := hr
          have hs1 := List.pairwise_cons.mp hsep
          have hsame : ∀ t ∈ ss, ∀ o i su x y, Accepted w t u o i su x y ↔ Accepted r.world t u o i su x y := by
            intro t ht o i su x y
            have hun := hs1.1 t ht
            have hnot : ∀ j, j ∈ t.buffers → r.world.bufs j = w.bufs j := by
              intro j hj
              apply g4
              · rintro rfl; exact hun j (by simp [Sample.buffers, h.hout]) hj
              · rintro rfl; exact hun j (by simp [Sample.buffers, h.hinput]) hj
            constructor
            · intro k
              have k1 := hnot o (by simp [Sample.buffers, k.hout])
              have k2 := hnot i (by simp [Sample.buffers, k.hinput])
              exact ⟨k.iv, k.hout, k.hinput, k.hsubs, g5 _ k.cipher, k.required, by rw [g1, k1]; exact k.locOut,
                by rw [g1, k2]; exact k.locIn, k.apart⟩
            · intro k
              have k1 := hnot o (by simp [Sample.buffers, k.hout])
              have k2 := hnot i (by simp [Sample.buffers, k.hinput])
              obtain ⟨o', i', su', x', y', k'⟩ := hacc t (by simp [ht])
              exact ⟨k.iv, k.hout, k.hinput, k.hsubs, k'.cipher, k.required, by rw [← g1, ← k1]; exact k.locOut,
                by rw [← g1, ← k2]; exact k.locIn, k.apart⟩
          obtain ⟨j1, j2⟩ := ih r.world (by rw [g1]; exact inv) rs2 hs1.2 (by
            intro t ht
            obtain ⟨o, i, su, x, y, k⟩ := hacc t (by simp [ht])
            exact ⟨o, i, su, x, y, (hsame t ht _ _ _ _ _).mp k⟩) hq
          refine ⟨?_, ?_⟩
          · intro h1
            obtain ⟨q, hq1, hq2⟩ := j1 h1
            exact ⟨q, by simp [hq1], hq2⟩
          · intro i t q h1 h2
            cases i with
            | zero =>
              simp only [List.getElem?_cons_zero, Option.some.injEq] at h1 h2
              subst h1 h2
              exact ⟨out, input, subs, a, b, h, g2⟩
            | succ i =>
              simp only [List.getElem?_cons_succ] at h1 h2
              obtain ⟨o, i', su, x, y, k1, k2⟩ := j2 i t q h1 h2
              exact ⟨o, i', su, x, y, (hsame t (List.mem_of_getElem? h1) _ _ _ _ _).mpr k1, k2⟩
      · rw [if_pos hst] at hr
        simp only [Option.some.injEq, Prod.mk.injEq] at hr
        obtain ⟨rfl, rfl, rfl⟩ := hr
        refine ⟨fun _ => ⟨r, by simp, g3 hst⟩, ?_⟩
        intro i t q h1 h2
        cases i with
        | zero =>
          simp only [List.getElem?_cons_zero, Option.some.injEq] at h1 h2
          subst h1 h2
          exact ⟨out, input, subs, a, b, h, g2⟩
        | succ i => simp at h2

end Sa

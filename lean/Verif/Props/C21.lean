import Verif.Props.C20

/-!
# C21: SVP writes and copies are all-or-nothing and in bounds

Full statement: writing or copying a list of segments into an SVP buffer either fails leaving the destination unchanged or performs
every segment; no byte outside the destination or source is accessed, and bytes not covered by any segment are unchanged.

Writing is proved completely (`C21_write`).  For copying, the bounds and the decision are proved for all buffers; that the copies are
performed is proved when the two buffers do not share memory (`C21_copy_partial`).  Copying inside one buffer can call `memcpy` with
overlapping ranges, which is undefined (`C21_copy_violated`).
-/

namespace Sa.C21

open Sa.C20 (HasBuffer)

/-- The segment lies inside a destination of `outSize` and a source of `inSize` bytes. -/
def Inside (outSize inSize : Nat) (o : SvpOffset) : Prop :=
  o.outOffset.toNat + o.length.toNat ≤ outSize ∧ o.inOffset.toNat + o.length.toNat ≤ inSize

/-- Address `a` belongs to the destination of segment `o`. -/
def Covers (outAddr : Nat) (o : SvpOffset) (a : Nat) : Prop :=
  outAddr + o.outOffset.toNat ≤ a ∧ a < outAddr + o.outOffset.toNat + o.length.toNat

/-- `m'` is the memory after every segment has been performed on `m`: an address outside all segments is unchanged, and an address whose
last covering segment is `o` holds the byte of the source that `o` puts there. -/
def Performed (outAddr inAddr : Nat) (segs : List SvpOffset) (m m' : Mem) : Prop :=
  (∀ a, (∀ o ∈ segs, ¬ Covers outAddr o a) → m' a = m a) ∧
  (∀ a pre o post, segs = pre ++ o :: post → Covers outAddr o a → (∀ q ∈ post, ¬ Covers outAddr q a) →
    m' a = m (inAddr + o.inOffset.toNat + (a - (outAddr + o.outOffset.toNat))))

theorem performed_of (outAddr inAddr outSize inSize : Nat) (hd : outAddr + outSize ≤ inAddr ∨ inAddr + inSize ≤ outAddr)
    (segs : List SvpOffset) (h : ∀ o ∈ segs, SegIn outSize inSize o) (m : Mem) :
    ∃ m', runCopies m (segs.map (segCopy outAddr inAddr)) = some m' ∧ Performed outAddr inAddr segs m m' := by
  obtain ⟨m', h1, h2, h3⟩ := runCopies_disjoint outAddr inAddr outSize inSize hd segs h m
  refine ⟨m', h1, h2, ?_⟩
  intro a pre o post he hc hp
  have := h3 pre o post he (a - (outAddr + o.outOffset.toNat)) (by have := hc.1; have := hc.2; omega)
    (fun q hq hx => hp q hq ⟨by have := hc.1; omega, by have := hc.1; omega⟩)
  rw [← this]
  congr 1
  have := hc.1; omega

/-- Every copy stays in the two regions. -/
def InBounds (outAddr outSize inAddr inSize : Nat) (cs : List Memcpy) : Prop :=
  ∀ c ∈ cs, outAddr ≤ c.dst ∧ c.dst + c.len ≤ outAddr + outSize ∧ inAddr ≤ c.src ∧ c.src + c.len ≤ inAddr + inSize

theorem inBounds_of (outAddr inAddr outSize inSize : Nat) (segs : List SvpOffset) (h : ∀ o ∈ segs, SegIn outSize inSize o) :
    InBounds outAddr outSize inAddr inSize (segs.map (segCopy outAddr inAddr)) := by
  intro c hc
  obtain ⟨o, ho, rfl⟩ := List.mem_map.mp hc
  obtain ⟨h1, h2⟩ := h o ho
  simp only [segCopy]
  omega

theorem hasBuffer_unique (st : SvpStore) (h : Nat) (u : Uuid) (b b' : SvpBuffer) (h1 : HasBuffer st h u b) (h2 : HasBuffer st h u b') :
    b = b' := by
  have := h1.2.1.symm.trans h2.2.1
  simpa using this

/-- **C21 (writing).**  In every state of the SVP table, for every handle, input buffer and list of segments (any 64-bit offsets and
lengths): the call succeeds exactly if the input exists, the handle denotes a buffer of the caller and every segment lies inside the
buffer and the input.  If it fails, no copy is made.  If it succeeds, every access is inside the two buffers, and if the clear input
does not lie in the SVP region, the memory afterwards is that with every segment performed.  The table is unchanged. -/
theorem C21_write (st : SvpStore) (hst : SvpReachable st) (out : Nat) (input inLength : UInt64) (segs : List SvpOffset) (u : Uuid) :
    let r := taSvpBufferWrite st out input inLength segs u
    r.1 = st ∧
    (r.2.1 = .OK ↔ input ≠ 0 ∧ ∃ b, HasBuffer st out u b ∧ ∀ o ∈ segs, Inside b.size.toNat inLength.toNat o) ∧
    (r.2.1 ≠ .OK → r.2.2 = []) ∧
    (r.2.1 = .OK → ∀ b, HasBuffer st out u b →
      InBounds b.svpMemory.toNat b.size.toNat input.toNat inLength.toNat r.2.2 ∧
      (b.svpMemory.toNat + b.size.toNat ≤ input.toNat ∨ input.toNat + inLength.toNat ≤ b.svpMemory.toNat →
        ∀ m, ∃ m', runCopies m r.2.2 = some m' ∧ Performed b.svpMemory.toNat input.toNat segs m m')) := by
  have inv := svpReachable_inv st hst
  intro r
  refine ⟨taSvpBufferWrite_store st inv out input inLength segs u, ?_⟩
  have hr : r.2 = (taSvpBufferWrite st out input inLength segs u).2 := rfl
  clear_value r
  obtain ⟨r1, q⟩ := r
  simp only at hr ⊢
  unfold taSvpBufferWrite svpStoreAcquireExclusive at hr
  by_cases h0 : input = 0
  · rw [if_pos h0] at hr; subst hr; simp [h0]
  · rw [if_neg h0] at hr
    rcases acquire_fail st out u with ⟨st1, svp, he⟩ | ⟨s, hs, he⟩
    · rw [he] at hr
      obtain ⟨a1, a2, a3, a4, a5⟩ := (acquire_ok_iff st out u st1 svp).mp he
      simp only [ne_eq, not_true_eq_false, if_false] at hr
      obtain ⟨buf⟩ := svp
      cases buf with
      | none =>
        have hnone : ¬ ∃ b, HasBuffer st out u b ∧ ∀ o ∈ segs, Inside b.size.toNat inLength.toNat o := by
          rintro ⟨b, hb, _⟩
          have := hb.2.1
          rw [a3] at this; simp at this
        simp only [svpWrite, Bool.not_false, if_true] at hr
        subst hr
        simp [hnone]
      | some b =>
        have hb : HasBuffer st out u b := ⟨a1, a3, a4⟩
        have hval : svpValidateBuffer (some b) = true := by unfold svpValidateBuffer; simp
        simp only [svpWrite, hval, Bool.not_true, Bool.false_eq_true, if_false] at hr
        have hchk := svpWriteCheck_iff b.size inLength segs
        cases hc : svpWriteCheck b.size inLength segs with
        | false =>
          rw [hc] at hr hchk
          simp only [Bool.not_false, if_true] at hr
          subst hr
          refine ⟨?_, by simp, by simp⟩
          simp only [reduceCtorEq, false_iff]
          rintro ⟨_, b', hb', hall⟩
          rw [hasBuffer_unique st out u b' b hb' hb] at hall
          exact absurd (hchk.mpr hall) (by simp)
        | true =>
          rw [hc] at hr hchk
          have hall := hchk.mp rfl
          simp only [Bool.not_true, Bool.false_eq_true, if_false] at hr
          subst hr
          refine ⟨?_, by simp, ?_⟩
          · simp only [true_iff]; exact ⟨h0, b, hb, hall⟩
          · intro _ b' hb'
            rw [hasBuffer_unique st out u b' b hb' hb]
            exact ⟨inBounds_of _ _ _ _ segs hall, fun hd m => performed_of _ _ _ _ hd segs hall m⟩
    · rw [he] at hr
      simp only at hr
      subst hr
      refine ⟨?_, by simp, fun h => absurd h hs⟩
      simp only [hs, false_iff]
      rintro ⟨_, b, ⟨b1, b2, b3⟩, _⟩
      have := (acquire_ok_iff st out u _ _).mpr ⟨b1, inv.up, b2, b3, rfl⟩
      rw [he] at this
      simp at this

/-- **C21 (copying), provable part.**  As `C21_write`, for a copy between two SVP buffers.  Missing: the effect when the two buffers share
memory (in particular if they are the same buffer), where `memcpy` may be called with overlapping ranges. -/
theorem C21_copy_partial (st : SvpStore) (hst : SvpReachable st) (out input : Nat) (segs : List SvpOffset) (u : Uuid) :
    let r := taSvpBufferCopy st out input segs u
    r.1 = st ∧
    (r.2.1 = .OK ↔ ∃ b i, HasBuffer st out u b ∧ HasBuffer st input u i ∧ ∀ o ∈ segs, Inside b.size.toNat i.size.toNat o) ∧
    (r.2.1 ≠ .OK → r.2.2 = []) ∧
    (r.2.1 = .OK → ∀ b i, HasBuffer st out u b → HasBuffer st input u i →
      InBounds b.svpMemory.toNat b.size.toNat i.svpMemory.toNat i.size.toNat r.2.2 ∧
      (b.svpMemory.toNat + b.size.toNat ≤ i.svpMemory.toNat ∨ i.svpMemory.toNat + i.size.toNat ≤ b.svpMemory.toNat →
        ∀ m, ∃ m', runCopies m r.2.2 = some m' ∧ Performed b.svpMemory.toNat i.svpMemory.toNat segs m m')) := by
  have inv := svpReachable_inv st hst
  intro r
  refine ⟨taSvpBufferCopy_store st inv out input segs u, ?_⟩
  have hr : r.2 = (taSvpBufferCopy st out input segs u).2 := rfl
  clear_value r
  obtain ⟨r1, q⟩ := r
  simp only at hr ⊢
  unfold taSvpBufferCopy svpStoreAcquireExclusive at hr
  rcases acquire_fail st out u with ⟨st1, svp, he⟩ | ⟨s, hs, he⟩
  · rw [he] at hr
    obtain ⟨a1, a2, a3, a4, a5⟩ := (acquire_ok_iff st out u st1 svp).mp he
    simp only [ne_eq, not_true_eq_false, if_false] at hr
    have inv1 : SvpInv st1 := by
      have := svpAcquire_inv st inv out u
      unfold svpStoreAcquireExclusive at this
      rw [he] at this; exact this
    have hl : out < st.objects.length := by rw [inv.len]; exact a1
    have hsame : ∀ i, HasBuffer st1 input u i ↔ HasBuffer st input u i := by
      intro i
      unfold HasBuffer
      rw [a5, setObj_slotCount, obj_setObj _ _ _ _ hl]
      by_cases e : input = out
      · subst e; simp
      · rw [if_neg e]
    rcases acquire_fail st1 input u with ⟨st2, svp2, he2⟩ | ⟨s2, hs2, he2⟩
    · rw [he2] at hr
      obtain ⟨c1, c2, c3, c4, c5⟩ := (acquire_ok_iff st1 input u st2 svp2).mp he2
      simp only [not_true_eq_false, if_false] at hr
      obtain ⟨buf⟩ := svp
      obtain ⟨buf2⟩ := svp2
      have hno : buf = none ∨ buf2 = none → ¬ ∃ b i, HasBuffer st out u b ∧ HasBuffer st input u i ∧
          ∀ o ∈ segs, Inside b.size.toNat i.size.toNat o := by
        rintro (h | h) ⟨b, i, hb, hi, _⟩
        · have := hb.2.1
          rw [a3, h] at this; simp at this
        · have := ((hsame i).mpr hi).2.1
          rw [c3, h] at this; simp at this
      cases buf with
      | none =>
        simp only [svpCopy, Bool.not_false, if_true] at hr
        subst hr
        exact ⟨⟨fun h => absurd h (by simp), fun h => absurd h (hno (Or.inl rfl))⟩, fun _ => rfl, fun h => absurd h (by simp)⟩
      | some b =>
        cases buf2 with
        | none =>
          simp only [svpCopy, Bool.not_false, if_true] at hr
          subst hr
          exact ⟨⟨fun h => absurd h (by simp), fun h => absurd h (hno (Or.inr rfl))⟩, fun _ => rfl, fun h => absurd h (by simp)⟩
        | some i =>
          have hb : HasBuffer st out u b := ⟨a1, a3, a4⟩
          have hi : HasBuffer st input u i := (hsame i).mp ⟨c1, c3, c4⟩
          have hval : ∀ x, svpValidateBuffer (some x) = true := by intro x; unfold svpValidateBuffer; simp
          simp only [svpCopy, hval, Bool.not_true, Bool.false_eq_true, if_false] at hr
          have hchk := svpWriteCheck_iff b.size i.size segs
          cases hc : svpWriteCheck b.size i.size segs with
          | false =>
            rw [hc] at hr hchk
            simp only [Bool.not_false, if_true] at hr
            subst hr
            refine ⟨?_, by simp, by simp⟩
            simp only [reduceCtorEq, false_iff]
            rintro ⟨b', i', hb', hi', hall⟩
            rw [hasBuffer_unique st out u b' b hb' hb, hasBuffer_unique st input u i' i hi' hi] at hall
            exact absurd (hchk.mpr hall) (by simp)
          | true =>
            rw [hc] at hr hchk
            have hall := hchk.mp rfl
            have hloop := svpCopyLoop_spec b i (inv.valid out _ b a3 rfl) (inv.valid input _ i hi.2.1 rfl) segs hall
            simp only [Bool.not_true, Bool.false_eq_true, if_false, hloop] at hr
            subst hr
            refine ⟨?_, by simp, ?_⟩
            · simp only [true_iff]; exact ⟨b, i, hb, hi, hall⟩
            · intro _ b' i' hb' hi'
              rw [hasBuffer_unique st out u b' b hb' hb, hasBuffer_unique st input u i' i hi' hi]
              exact ⟨inBounds_of _ _ _ _ segs hall, fun hd m => performed_of _ _ _ _ hd segs hall m⟩
    · rw [he2] at hr
      simp only at hr
      subst hr
      refine ⟨?_, by simp, fun h => absurd h hs2⟩
      simp only [hs2, false_iff]
      rintro ⟨_, i, _, hi, _⟩
      obtain ⟨b1, b2, b3⟩ := (hsame i).mpr hi
      have := (acquire_ok_iff st1 input u _ _).mpr ⟨b1, inv1.up, b2, b3, rfl⟩
      rw [he2] at this
      simp at this
  · rw [he] at hr
    simp only at hr
    subst hr
    refine ⟨?_, by simp, fun h => absurd h hs⟩
    simp only [hs, false_iff]
    rintro ⟨b, _, ⟨b1, b2, b3⟩, _⟩
    have := (acquire_ok_iff st out u _ _).mpr ⟨b1, inv.up, b2, b3, rfl⟩
    rw [he] at this
    simp at this

/-- Two segments written to the 16 byte buffer of `C20.st1`. -/
example : (taSvpBufferWrite C20.st1 31 0x9000 8 [⟨0, 4, 4⟩, ⟨12, 0, 4⟩] (Vector.replicate 16 7)).2 =
    (.OK, [⟨0x1000, 0x9004, 4⟩, ⟨0x100c, 0x9000, 4⟩]) := by decide +kernel
/-- A bad second segment: nothing is copied. -/
example : (taSvpBufferWrite C20.st1 31 0x9000 8 [⟨0, 4, 4⟩, ⟨13, 0, 4⟩] (Vector.replicate 16 7)).2 = (.INVALID_SVP_BUFFER, []) := by
  decide +kernel

/-- **C21 is violated for copies inside one buffer**: the call reports success, but what it does is undefined (`memcpy` of overlapping
ranges), for every contents of the memory. -/
theorem C21_copy_violated : ∃ st out input u segs, SvpReachable st ∧ (taSvpBufferCopy st out input segs u).2.1 = .OK ∧
    ∀ m, runCopies m (taSvpBufferCopy st out input segs u).2.2 = none := by
  refine ⟨C20.st1, 31, 31, Vector.replicate 16 7, [⟨0, 1, 4⟩], C20.st1_reachable, by decide +kernel, ?_⟩
  have : (taSvpBufferCopy C20.st1 31 31 [⟨0, 1, 4⟩] (Vector.replicate 16 7)).2.2 = [⟨0x1000, 0x1001, 4⟩] := by decide +kernel
  rw [this]
  intro m
  rfl

end Sa.C21

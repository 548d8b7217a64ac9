import Verif.Lemmas.Svp

/-!
# C20: offset and length checks are overflow proof
-/

namespace Sa.C20

/-- Handle `h` belongs to `u` and denotes an SVP buffer over the region `b`. -/
def HasBuffer (st : SvpStore) (h : Nat) (u : Uuid) (b : SvpBuffer) : Prop :=
  h < st.slotCount ∧ (st.obj h).object = some ⟨some b⟩ ∧ (st.obj h).ownerUuid = u

/-- **C20 (clear buffers).**  A clear buffer `(address, length)` with an offset and a byte count, all of them 64-bit numbers, is accepted
exactly if it exists, `offset + count ≤ length` holds for the mathematical sum and the buffer itself lies in the address space.  The
address handed out then is the mathematical sum `address + offset`, so all `count` bytes starting there are inside the buffer. -/
theorem C20_clear (st : SvpStore) (address length offset count : UInt64) (u : Uuid) :
    let r := convertBuffer st (.clear address length offset) count u
    (r.status = .OK ↔ address ≠ 0 ∧ offset.toNat + count.toNat ≤ length.toNat ∧ address.toNat + length.toNat < 2 ^ 64) ∧
    (r.status = .OK → ∃ a, r.bytes = some a ∧ a.toNat = address.toNat + offset.toNat ∧
      address.toNat ≤ a.toNat ∧ a.toNat + count.toNat ≤ address.toNat + length.toNat) ∧
    r.store = st ∧ r.svp = none := by
  intro r
  have hr : r = convertBuffer st (.clear address length offset) count u := rfl
  clear_value r
  unfold convertBuffer at hr
  simp only at hr
  have hlen : length.toNat < 2 ^ 64 := UInt64.toNat_lt _
  by_cases h0 : address = 0
  · rw [if_pos h0] at hr; subst hr; simp [h0]
  · rw [if_neg h0] at hr
    rcases addOverflow_cases offset count with ⟨h1, h2⟩ | ⟨h1, h2, h3⟩
    · rw [h1, if_pos rfl] at hr; subst hr
      refine ⟨?_, by simp, rfl, rfl⟩
      simp only [reduceCtorEq, false_iff]; omega
    · rw [h1, if_neg (by simp)] at hr
      by_cases h4 : (addOverflow offset count).2 > length
      · rw [if_pos h4] at hr; subst hr
        have h4' := UInt64.lt_iff_toNat_lt.mp h4
        refine ⟨?_, by simp, rfl, rfl⟩
        simp only [reduceCtorEq, false_iff]; omega
      · rw [if_neg h4] at hr
        have h4' := mt UInt64.lt_iff_toNat_lt.mpr h4
        cases hv : memoryIsValidClear address length with
        | false =>
          rw [hv, if_pos (by simp)] at hr; subst hr
          have := mt (memoryIsValidClear_iff address length).mpr (by rw [hv]; simp)
          refine ⟨?_, by simp, rfl, rfl⟩
          simp only [reduceCtorEq, false_iff]
          rintro ⟨a, b, c⟩; exact this ⟨a, c⟩
        | true =>
          obtain ⟨v1, v2⟩ := (memoryIsValidClear_iff address length).mp hv
          rw [hv, if_neg (by simp)] at hr
          rcases addOverflow_cases address offset with ⟨h5, h6⟩ | ⟨h5, h6, h7⟩
          · omega
          · rw [h5, if_neg (by simp)] at hr; subst hr
            refine ⟨?_, ?_, rfl, rfl⟩
            · simp only [true_iff]; exact ⟨v1, by omega, v2⟩
            · intro _; exact ⟨_, rfl, h7, by omega, by omega⟩

theorem svp_inv (st : SvpStore) (inv : SvpInv st) (h : Nat) (offset count : UInt64) (u : Uuid) :
    let r := convertBuffer st (.svp h offset) count u
    (r.status = .OK ↔ ∃ b, HasBuffer st h u b ∧ offset.toNat + count.toNat ≤ b.size.toNat) ∧
    (r.status = .OK → ∃ b a, HasBuffer st h u b ∧ r.bytes = some a ∧ a.toNat = b.svpMemory.toNat + offset.toNat ∧
      b.svpMemory.toNat ≤ a.toNat ∧ a.toNat + count.toNat ≤ b.svpMemory.toNat + b.size.toNat) := by
  intro r
  have hr : r = convertBuffer st (.svp h offset) count u := rfl
  clear_value r
  unfold convertBuffer svpStoreAcquireExclusive at hr
  simp only at hr
  rcases acquire_fail st h u with ⟨st1, svp, he⟩ | ⟨s, hs, he⟩
  · rw [he] at hr
    obtain ⟨a1, a2, a3, a4, a5⟩ := (acquire_ok_iff st h u st1 svp).mp he
    simp only [ne_eq, not_true_eq_false, if_false, Option.bind_some] at hr
    obtain ⟨buf⟩ := svp
    have huniq : ∀ b, HasBuffer st h u b → buf = some b := by
      intro b hb
      have := hb.2.1
      rw [a3] at this
      simpa using this
    cases buf with
    | none =>
      have hnone : ¬ ∃ b, HasBuffer st h u b ∧ offset.toNat + count.toNat ≤ b.size.toNat := by
        rintro ⟨b, hb, _⟩; simpa using huniq b hb
      have hz : svpGetSvpMemory none = 0 := rfl
      simp only [hz, if_true] at hr
      split at hr <;> subst hr <;> simp [hnone]
    | some b =>
      have hb : HasBuffer st h u b := ⟨a1, a3, a4⟩
      obtain ⟨v1, v2⟩ := inv.valid h _ b a3 rfl
      have hloc : svpGetSvpMemory (some b) = b.svpMemory := by
        unfold svpGetSvpMemory svpValidateBuffer; simp
      simp only [hloc, svpGetSize, if_neg v1] at hr
      have hmem : (∃ b', HasBuffer st h u b' ∧ offset.toNat + count.toNat ≤ b'.size.toNat) ↔
          offset.toNat + count.toNat ≤ b.size.toNat := by
        constructor
        · rintro ⟨b', hb', hle⟩
          have := huniq b' hb'
          simp only [Option.some.injEq] at this
          subst this; exact hle
        · exact fun hle => ⟨b, hb, hle⟩
      have hsz : b.size.toNat < 2 ^ 64 := UInt64.toNat_lt _
      rw [hmem]
      rcases addOverflow_cases offset count with ⟨h1, h2⟩ | ⟨h1, h2, h3⟩
      · rw [h1, if_pos rfl] at hr; subst hr
        refine ⟨?_, by simp⟩
        simp only [reduceCtorEq, false_iff]; omega
      · rw [h1, if_neg (by simp)] at hr
        by_cases h4 : (addOverflow offset count).2 > b.size
        · rw [if_pos h4] at hr; subst hr
          have h4' := UInt64.lt_iff_toNat_lt.mp h4
          refine ⟨?_, by simp⟩
          simp only [reduceCtorEq, false_iff]; omega
        · rw [if_neg h4] at hr
          have h4' := mt UInt64.lt_iff_toNat_lt.mpr h4
          rcases addOverflow_cases b.svpMemory offset with ⟨h5, h6⟩ | ⟨h5, h6, h7⟩
          · omega
          · rw [h5, if_neg (by simp)] at hr; subst hr
            refine ⟨by simp only [true_iff]; omega, fun _ => ⟨b, _, hb, rfl, h7, by omega, by omega⟩⟩
  · rw [he] at hr
    simp only [if_pos hs] at hr
    subst hr
    refine ⟨?_, fun h => absurd h hs⟩
    simp only [hs, false_iff]
    rintro ⟨b, ⟨b1, b2, b3⟩, _⟩
    have := (acquire_ok_iff st h u _ _).mpr ⟨b1, inv.up, b2, b3, rfl⟩
    rw [he] at this
    simp at this

/-- **C20 (SVP buffers).**  In every state the SVP table of a session can get into: an SVP handle with an offset and a byte count is
accepted exactly if it denotes a buffer of the caller and `offset + count`, as a mathematical sum, is at most the size of that buffer.
The address handed out then is region start plus offset (without wrapping), so all `count` bytes starting there are inside the
region. -/
theorem C20_svp (st : SvpStore) (hst : SvpReachable st) (h : Nat) (offset count : UInt64) (u : Uuid) :
    let r := convertBuffer st (.svp h offset) count u
    (r.status = .OK ↔ ∃ b, HasBuffer st h u b ∧ offset.toNat + count.toNat ≤ b.size.toNat) ∧
    (r.status = .OK → ∃ b a, HasBuffer st h u b ∧ r.bytes = some a ∧ a.toNat = b.svpMemory.toNat + offset.toNat ∧
      b.svpMemory.toNat ≤ a.toNat ∧ a.toNat + count.toNat ≤ b.svpMemory.toNat + b.size.toNat) := by
  exact svp_inv st (svpReachable_inv st hst) h offset count u

/-- A session with one SVP buffer of 16 bytes at 0x1000 (its handle is 31 in a table of 32). -/
def st1 : SvpStore := svpAfter ((objectStoreInit Svp 32).getD ⟨⟨[], 0⟩, [], 0, false, 0⟩) [.create 0x1000 16 (Vector.replicate 16 7)]

theorem st1_reachable : SvpReachable st1 := ⟨32, _, _, by decide, rfl, rfl⟩

/-- Bytes 4..15 of the buffer are accepted ... -/
example : (convertBuffer st1 (.svp 31 4) 12 (Vector.replicate 16 7)).status = .OK := by decide +kernel
/-- ... one more is not, and neither is an offset chosen so that the 64-bit sum wraps to a small number. -/
example : (convertBuffer st1 (.svp 31 4) 13 (Vector.replicate 16 7)).status = .INVALID_PARAMETER := by decide +kernel
example : (convertBuffer st1 (.svp 31 (0 - 8)) 9 (Vector.replicate 16 7)).status = .INVALID_PARAMETER := by decide +kernel
example : (convertBuffer st1 (.clear 0x2000 16 4) 12 (Vector.replicate 16 7)).status = .OK := by decide +kernel

end Sa.C20

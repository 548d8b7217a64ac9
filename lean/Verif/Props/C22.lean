import Verif.Props.C20

/-!
# C22: SVP buffers are created only over SVP memory

Full statement: creating an SVP buffer succeeds only if the given region is valid SVP memory, and then yields a usable buffer.

The code violates it: for a region that is not valid, `svp_create_buffer` returns an error code where a `bool` is expected, which counts
as success (`C22_violated`).  The handle then has no buffer; releasing it reports success but leaves it referenced for ever
(`C22_violated_release`), and checking its contents dereferences NULL (`C22_violated_check`).  Proved: no buffer over an invalid region
ever exists, and valid regions give usable buffers (`C22_partial`).
-/

namespace Sa.C22

open Sa.C20 (HasBuffer)

/-- The region is acceptable for the reference implementation: not NULL and not wrapping around the address space.  (The further check of
SoC vendors that it lies in secure memory is a `TODO` in memory.c:85.) -/
def Valid (address size : UInt64) : Prop := address ≠ 0 ∧ address.toNat + size.toNat < 2 ^ 64

/-- **C22, provable part.**  In every state of the SVP table every buffer covers a valid region, and creating a buffer over a region
(a) never succeeds for NULL, (b) for a valid region succeeds unless the table is full, and then the new handle denotes a buffer over
exactly that region, owned by the caller.  Missing: failure for invalid regions. -/
theorem C22_partial (st : SvpStore) (hst : SvpReachable st) (u : Uuid) :
    (∀ h owner b, HasBuffer st h owner b → Valid b.svpMemory b.size) ∧
    (∀ n, svpStoreCreate st 0 n u = (st, .NULL_PARAMETER, SLOT_INVALID)) ∧
    (∀ m n, Valid m n →
      let r := svpStoreCreate st m n u
      (r.2.1 = .OK ∧ HasBuffer r.1 r.2.2 u ⟨m, n⟩ ∧ (st.obj r.2.2).object = none) ∨
      (r.2.1 = .NO_AVAILABLE_RESOURCE_SLOT ∧ r.2.2 = SLOT_INVALID ∧ ∀ h, h < st.slotCount → (st.obj h).object.isSome)) := by
  have inv := svpReachable_inv st hst
  refine ⟨?_, ?_, ?_⟩
  · intro h owner b hb; exact inv.valid h _ b hb.2.1 rfl
  · intro n; unfold svpStoreCreate; rw [if_pos rfl]
  · intro m n hv
    unfold svpStoreCreate
    rw [if_neg hv.1]
    rcases svpCreate_spec m n with ⟨h, _⟩ | ⟨_, h, _⟩ | ⟨_, _, h⟩
    · exact absurd h hv.1
    · have := hv.2; omega
    · rw [h]
      simp only
      obtain ⟨_, h2, _, _, h5⟩ := add_spec st inv.toStoreInv inv.up (⟨some ⟨m, n⟩⟩ : Svp) u
      rcases h5 with ⟨e1, e2, e3, _⟩ | ⟨e1, e2, e3, e4⟩
      · exact Or.inr ⟨e1, e2, e3⟩
      · left
        refine ⟨e1, ⟨by rw [h2]; exact e2, ?_, ?_⟩, e3⟩
        · rw [e4, if_pos rfl]
        · rw [e4, if_pos rfl]

/-- **C22 is violated**: for every region that wraps around the address space, creating a buffer reports success unless the table is full,
and hands out a handle that has no buffer. -/
theorem C22_violated (st : SvpStore) (hst : SvpReachable st) (u : Uuid) (m n : UInt64) (h0 : m ≠ 0)
    (hinv : 2 ^ 64 ≤ m.toNat + n.toNat) (hfree : ∃ h, h < st.slotCount ∧ (st.obj h).object = none) :
    let r := svpStoreCreate st m n u
    r.2.1 = .OK ∧ (r.1.obj r.2.2).object = some ⟨none⟩ ∧ ¬ Valid m n ∧ ∀ b, ¬ HasBuffer r.1 r.2.2 u b := by
  have inv := svpReachable_inv st hst
  unfold svpStoreCreate
  rw [if_neg h0]
  rcases svpCreate_spec m n with ⟨h, _⟩ | ⟨_, _, h⟩ | ⟨_, h, _⟩
  · exact absurd h h0
  · rw [h]
    simp only
    obtain ⟨_, h2, _, _, h5⟩ := add_spec st inv.toStoreInv inv.up (⟨none⟩ : Svp) u
    rcases h5 with ⟨_, _, e3, _⟩ | ⟨e1, e2, e3, e4⟩
    · obtain ⟨h, hh, ho⟩ := hfree
      have := e3 h hh
      rw [ho] at this; simp at this
    · have ho : ((objectStoreAdd st (⟨none⟩ : Svp) u).1.obj (objectStoreAdd st (⟨none⟩ : Svp) u).2.2).object = some ⟨none⟩ := by
        rw [e4, if_pos rfl]
      refine ⟨e1, ho, ?_, ?_⟩
      · intro hv; have := hv.2; omega
      · intro b hb
        have := hb.2.1
        rw [ho] at this; simp at this
  · omega

/-- A session with one handle created over the invalid region `[0xfffffffffffff000, +0x2000)`; the call reported success. -/
def bad : SvpStore :=
  svpAfter ((objectStoreInit Svp 32).getD ⟨⟨[], 0⟩, [], 0, false, 0⟩) [.create 0xfffffffffffff000 0x2000 (Vector.replicate 16 7)]

/-- The hypotheses of `C22_violated` hold in a fresh session. -/
example : (svpStoreCreate ((objectStoreInit Svp 32).getD ⟨⟨[], 0⟩, [], 0, false, 0⟩) 0xfffffffffffff000 0x2000
    (Vector.replicate 16 7)).2 = (.OK, 31) := by decide +kernel

/-- **C22 is violated (release)**: releasing such a handle reports success, gives no memory back and keeps the handle referenced, so that
removing it (also when the session is closed) waits for ever. -/
theorem C22_violated_release : ∃ st st' h u, SvpReachable st ∧ svpStoreRelease st h u = .returned st' .OK none ∧
    (st'.obj h).referenceCount = 1 ∧ ∃ st'', objectStoreRemove st' h u = .blocks st'' := by
  have h1 : ∃ st', svpStoreRelease bad 31 (Vector.replicate 16 7) = .returned st' .OK none := by
    rcases svpRelease_cases bad (svpReachable_inv bad ⟨32, _, _, by decide, rfl, rfl⟩) 31 (Vector.replicate 16 7) with
      ⟨s, hs, he⟩ | ⟨st', he, _⟩ | ⟨b, st', he, _, _, hx, _⟩ | ⟨b, st', he, _, _, hx, _⟩
    · exfalso
      have : (match svpStoreRelease bad 31 (Vector.replicate 16 7) with | .returned _ s _ => s | .blocks _ => .HW_ERROR) = .OK := by
        decide +kernel
      rw [he] at this; exact hs this
    · exact ⟨st', he⟩
    · exfalso
      have : (bad.obj 31).object = some ⟨none⟩ := by decide +kernel
      rw [this] at hx; simp at hx
    · exfalso
      have : (bad.obj 31).object = some ⟨none⟩ := by decide +kernel
      rw [this] at hx; simp at hx
  obtain ⟨st', he⟩ := h1
  have hx : (match svpStoreRelease bad 31 (Vector.replicate 16 7) with
      | .returned st' _ _ => ((st'.obj 31).referenceCount, match objectStoreRemove st' 31 (Vector.replicate 16 7) with
        | .blocks _ => true | .returned _ _ _ => false)
      | .blocks _ => (0, false)) = (1, true) := by decide +kernel
  rw [he] at hx
  simp only [Prod.mk.injEq] at hx
  refine ⟨bad, st', 31, Vector.replicate 16 7, ⟨32, _, _, by decide, rfl, rfl⟩, he, hx.1, ?_⟩
  have hb := hx.2
  cases hrm : objectStoreRemove st' 31 (Vector.replicate 16 7) with
  | blocks st'' => exact ⟨st'', rfl⟩
  | returned a b c => rw [hrm] at hb; simp at hb

/-- **C22 is violated (use)**: checking the contents of such a handle dereferences NULL. -/
theorem C22_violated_check : ∃ st h u, SvpReachable st ∧ ∀ matches_, taSvpBufferCheck st h 0 0 false true matches_ u = none := by
  refine ⟨bad, 31, Vector.replicate 16 7, ⟨32, _, _, by decide, rfl, rfl⟩, ?_⟩
  intro f
  have h1 : (svpStoreAcquireExclusive bad 31 (Vector.replicate 16 7)).2 = (.OK, some ⟨none⟩) := by decide +kernel
  unfold taSvpBufferCheck
  generalize svpStoreAcquireExclusive bad 31 (Vector.replicate 16 7) = q at h1
  obtain ⟨st1, s, o⟩ := q
  simp only [Prod.mk.injEq] at h1
  obtain ⟨rfl, rfl⟩ := h1
  simp [svpDigest, addOverflow]

end Sa.C22

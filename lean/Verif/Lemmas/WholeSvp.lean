import Verif.Lemmas.Inquiry
import Verif.Lemmas.Cipher
import Verif.Lemmas.CencVerify
import Verif.Model.Whole
import Verif.Props.C22

/-!
# The table of SVP buffers of a session between calls
-/

namespace Sa.Whole

open C20 (HasBuffer)

variable {κ ρ π σ τ : Type}

/-- Between calls every buffer of the table has memory and nobody uses it. -/
structure SvpsOk (st : SvpStore) : Prop where
  reach : SvpReachable st
  idle : ∀ h svp, (st.obj h).object = some svp → svp.buffer ≠ none ∧ (st.obj h).referenceCount = 0

theorem SvpsOk.inv {st : SvpStore} (ok : SvpsOk st) : SvpInv st := svpReachable_inv st ok.reach

theorem SvpsOk.buffer {st : SvpStore} (ok : SvpsOk st) (h : Nat) : (st.obj h).object ≠ some ⟨none⟩ := fun e => (ok.idle h _ e).1 rfl

theorem SvpsOk.same {st st' : SvpStore} (ok : SvpsOk st) (h : st' = st) : SvpsOk st' := h ▸ ok

theorem obj_small (st : SvpStore) (inv : StoreInv st) (h : Nat) (x : Svp) (e : (st.obj h).object = some x) : h < st.slotCount := by
  rw [← inv.len]
  apply Classical.byContradiction
  intro hn
  have : st.obj h = StoreObject.zero := by
    unfold ObjectStore.obj
    rw [List.getD_eq_getElem?_getD, List.getElem?_eq_none (by omega)]
    rfl
  rw [this] at e
  cases e

theorem svpAfter_append (st : SvpStore) (a b : List SvpOp) : svpAfter st (a ++ b) = svpAfter (svpAfter st a) b := by
  induction a generalizing st with
  | nil => rfl
  | cons x a ih => exact ih _

theorem svpReachable_step {st : SvpStore} (h : SvpReachable st) (op : SvpOp) : SvpReachable (svpStep st op) := by
  obtain ⟨n, st0, ops, h1, h2, h3⟩ := h
  exact ⟨n, st0, ops ++ [op], h1, h2, by rw [svpAfter_append, h3]; rfl⟩

theorem svpsOk_new (st : SvpStore) (h : objectStoreInit Svp 256 = some st) : SvpsOk st ∧ ∀ x, (st.obj x).object = none := by
  obtain ⟨_, _, _, _, h5⟩ := objectStoreInit_inv 256 st (by decide) h
  have he : ∀ x, (st.obj x).object = none := fun x => by simp [h5, StoreObject.zero]
  exact ⟨⟨⟨256, st, [], by decide, h, rfl⟩, fun x svp e => by rw [he] at e; cases e⟩, he⟩

/-- Creating a buffer. -/
theorem svpCreate_ok {st : SvpStore} (ok : SvpsOk st) (m n : UInt64) (hv : m ≠ 0 → m.toNat + n.toNat < 2 ^ 64) (u : Uuid) :
    SvpsOk (svpStoreCreate st m n u).1 ∧
    (((svpStoreCreate st m n u).2.1 ≠ .OK ∧ (m = 0 ∨ ∀ h, h < st.slotCount → (st.obj h).object.isSome) ∧ ∀ x, (svpStoreCreate st m n u).1.obj x = st.obj x) ∨
     ((svpStoreCreate st m n u).2.1 = .OK ∧ m ≠ 0 ∧ (st.obj (svpStoreCreate st m n u).2.2).object = none ∧
       ∀ x, (svpStoreCreate st m n u).1.obj x = if x = (svpStoreCreate st m n u).2.2 then ⟨some ⟨some ⟨m, n⟩⟩, 0, u⟩ else st.obj x)) := by
  have inv := ok.inv
  have hreach : SvpReachable (svpStoreCreate st m n u).1 := svpReachable_step ok.reach (.create m n u)
  by_cases h0 : m = 0
  · have e : svpStoreCreate st m n u = (st, .NULL_PARAMETER, SLOT_INVALID) := by unfold svpStoreCreate; rw [if_pos h0]
    rw [e]
    exact ⟨ok, Or.inl ⟨by simp, Or.inl h0, fun _ => rfl⟩⟩
  · have e : svpStoreCreate st m n u = objectStoreAdd st ⟨some ⟨m, n⟩⟩ u := by
      unfold svpStoreCreate
      rw [if_neg h0]
      rcases svpCreate_spec m n with ⟨h, _⟩ | ⟨_, h, _⟩ | ⟨_, _, h⟩
      · exact absurd h h0
      · have := hv h0; omega
      · rw [h]
    rw [e] at hreach ⊢
    obtain ⟨_, _, _, _, h5⟩ := add_spec st inv.toStoreInv inv.up (⟨some ⟨m, n⟩⟩ : Svp) u
    rcases h5 with ⟨e1, _, e2, e3⟩ | ⟨e1, _, e3, e4⟩
    · exact ⟨⟨hreach, fun h svp e => by rw [e3] at e ⊢; exact ok.idle h svp e⟩, Or.inl ⟨by rw [e1]; simp, Or.inr e2, e3⟩⟩
    · refine ⟨⟨hreach, fun h svp e => ?_⟩, Or.inr ⟨e1, h0, e3, e4⟩⟩
      rw [e4] at e ⊢
      split at e
      · rename_i hh
        rw [if_pos hh]
        cases e
        exact ⟨by simp, rfl⟩
      · rename_i hh
        rw [if_neg hh]
        exact ok.idle h svp e

/-- Releasing a buffer: it never waits. -/
theorem svpRelease_ok {st : SvpStore} (ok : SvpsOk st) (h : Nat) (u : Uuid) :
    (∃ s, s ≠ Status.OK ∧ svpStoreRelease st h u = .returned st s none ∧ ∀ b, ¬HasBuffer st h u b) ∨
    (∃ b st', svpStoreRelease st h u = .returned st' .OK (some (b.svpMemory, b.size)) ∧ SvpsOk st' ∧ HasBuffer st h u b ∧
      ∀ x, st'.obj x = if x = h then { object := none, referenceCount := 0, ownerUuid := u } else st.obj x) := by
  have inv := ok.inv
  rcases svpRelease_cases st inv h u with ⟨s, hs, e⟩ | ⟨st', e, _, _, ho, _⟩ | ⟨b, st', e, _, h1, h2, h3, _, h5⟩ | ⟨b, st', e, _, _, ho, _, hr, _⟩
  · refine Or.inl ⟨s, hs, e, fun b hb => ?_⟩
    unfold svpStoreRelease svpStoreAcquireExclusive at e
    have hacq := (acquire_ok_iff st h u (st.setObj h { st.obj h with referenceCount := (st.obj h).referenceCount + 1 }) ⟨some b⟩).mpr ⟨hb.1, inv.up, hb.2.1, hb.2.2, rfl⟩
    rw [hacq] at e
    simp only [ne_eq, not_true_eq_false, if_false] at e
    revert e
    repeat' split
    all_goals intro e; cases e; try exact hs rfl
  · exact absurd ho (ok.buffer h)
  · refine Or.inr ⟨b, st', e, ⟨?_, fun x svp ex => ?_⟩, ⟨h1, h2, h3⟩, h5⟩
    · have := svpReachable_step ok.reach (.release h u)
      simp only [svpStep, e] at this
      exact this
    · rw [h5] at ex ⊢
      split at ex
      · cases ex
      · rename_i hh
        rw [if_neg hh]
        exact ok.idle x svp ex
  · exact absurd (ok.idle h _ ho).2 hr

/-- A key check leaves the table. -/
theorem keyCheck_svps {env : Env} {e : CheckEnv} {ks : KeyStore} {sv : SvpStore} (inv : SvpInv sv) {key : Nat} {input : Option CheckBuffer} {bytes : UInt64} {expected : Option Bytes} {u : Uuid}
    {r : KeyStore × SvpStore × Status} (h : taSvpKeyCheck env e ks sv key input bytes expected u = some r) : r.2.1 = sv := by
  unfold taSvpKeyCheck at h
  repeat' split at h
  all_goals first
    | (cases h; rfl)
    | (cases h; done)
    | (simp only [Option.map_eq_some_iff] at h
       obtain ⟨y, hy, rfl⟩ := h
       unfold keyCheckBody at hy
       simp only [convert_give sv inv] at hy
       repeat' split at hy
       all_goals first
         | (cases hy; rfl)
         | (cases hy; done))

/-- Processing data with a cipher leaves the table. -/
theorem process_svps {w : CipherWorld σ} (inv : CipherInv w) (k : ProcKind) (p : CipherPrim σ) (up : UnwrapPrims) (env : RightsEnv) (svp : SvpStore) (hsvp : SvpInv svp) (mem : Mem) (h : Nat)
    (out : Option RawBuffer) (input : RawBuffer) (bytes : UInt64) (u : Uuid) (r : ProcResult σ) (hr : cipherProcess k p up env w svp mem h out input bytes u = some r) : r.svp = svp := by
  rcases cipherProcess_eq inv k p up env svp mem h out input bytes u with ⟨s, hs, ha, e⟩ | ⟨ptr, o, sk, ctx, st1, hc, ha, e⟩
  · rw [e] at hr
    cases hr
    rfl
  · rw [e] at hr
    simp only [Option.some.injEq] at hr
    subst hr
    unfold processAcquired
    simp only
    cases out with
    | none => rfl
    | some out =>
      cases out with
      | badType => rfl
      | buf ob =>
        cases input with
        | badType => rfl
        | buf ib =>
          simp only
          obtain ⟨a1, a2, _⟩ := convertBuffer_spec svp hsvp ob (k.required o sk bytes (some (RawBuffer.buf ob)).isNone) u
          obtain ⟨b1, b2, _⟩ := convertBuffer_spec _ a1 ib bytes u
          repeat' split
          all_goals first
            | rfl
            | exact a2
            | (simp only [b2, a2]; done)
            | (simp only [b2]; exact a2)

end Sa.Whole

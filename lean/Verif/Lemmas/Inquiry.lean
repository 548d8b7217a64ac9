import Verif.Model.Inquiry
import Verif.Lemmas.Holds
import Verif.Lemmas.Svp
import Verif.Lemmas.Unwrap

/-!
# Lemmas about checks and inquiries
-/

namespace Sa

theorem memRead_length (m : Mem) (a n : Nat) : (memRead m a n).length = n := by simp [memRead]

theorem memcmp_eq (a b : Bytes) (n : Nat) (ha : a.length = n) (hb : b.length = n) : ∃ r, memcmpConstant a b n = some r ∧ (r = 0 ↔ a = b) := by
  unfold memcmpConstant
  obtain ⟨r', he, hr⟩ := memcmpLoop_spec a b n 0 0 [] (by omega) (by omega)
  refine ⟨r', by rw [he]; rfl, hr.trans ?_⟩
  constructor
  · rintro ⟨_, h⟩
    apply List.ext_getElem?
    intro i
    by_cases hi : i < n
    · exact h i (by omega) (by omega)
    · rw [List.getElem?_eq_none (by omega), List.getElem?_eq_none (by omega)]
  · rintro rfl
    exact ⟨rfl, fun k _ _ => rfl⟩

theorem ecbDec_len (dec : Bytes → Bytes) (hd : ∀ b, b.length = 16 → (dec b).length = 16) (n : Nat) (c : Bytes) (hc : c.length = 16 * n) : (ecbDec dec n c).length = 16 * n := by
  induction n generalizing c with
  | zero => simp [ecbDec]
  | succ n ih =>
    simp only [ecbDec, List.length_append]
    rw [hd _ (by rw [List.length_take]; omega), ih _ (by rw [List.length_drop]; omega)]
    omega

/-- ECB block by block. -/
theorem ecbDec_eq (dec : Bytes → Bytes) (hd : ∀ b, b.length = 16 → (dec b).length = 16) (n : Nat) (c x : Bytes) (hc : c.length = 16 * n) (hx : x.length = 16 * n) :
    ecbDec dec n c = x ↔ ∀ i, 16 * i < 16 * n → dec ((c.drop (16 * i)).take 16) = (x.drop (16 * i)).take 16 := by
  induction n generalizing c x with
  | zero =>
    simp only [Nat.mul_zero, Nat.not_lt_zero, false_implies, implies_true, iff_true, ecbDec]
    exact (List.length_eq_zero_iff.1 hx).symm
  | succ n ih =>
    have hl : (dec (c.take 16)).length = 16 := hd _ (by rw [List.length_take]; omega)
    simp only [ecbDec]
    have key : dec (c.take 16) ++ ecbDec dec n (c.drop 16) = x ↔ dec (c.take 16) = x.take 16 ∧ ecbDec dec n (c.drop 16) = x.drop 16 := by
      constructor
      · intro h
        rw [← h]
        rw [List.take_left' hl, List.drop_left' hl]
        exact ⟨rfl, rfl⟩
      · rintro ⟨h1, h2⟩
        rw [h1, h2, List.take_append_drop]
    rw [key, ih (c.drop 16) (x.drop 16) (by rw [List.length_drop]; omega) (by rw [List.length_drop]; omega)]
    constructor
    · rintro ⟨h1, h2⟩ i hi
      cases i with
      | zero => simpa using h1
      | succ i =>
        have := h2 i (by omega)
        rw [List.drop_drop, List.drop_drop] at this
        rw [show 16 * (i + 1) = 16 + 16 * i by omega]
        exact this
    · intro h
      refine ⟨by simpa using h 0 (by omega), fun i hi => ?_⟩
      have := h (i + 1) (by omega)
      rw [show 16 * (i + 1) = 16 + 16 * i by omega] at this
      rw [List.drop_drop, List.drop_drop]
      exact this

/-- Using a key never reports a failed verification. -/
theorem acquire_status {α : Type} (st : ObjectStore α) (h : Nat) (u : Uuid) : (objectStoreAcquire st h u).2.1 ≠ .VERIFICATION_FAILED := by
  unfold objectStoreAcquire acquireBody
  repeat' (first | split | simp)

theorem unwrap_status (env : Env) (st : KeyStore) (key : Nat) (u : Uuid) (st' : KeyStore) (s : Status) (k : Option StoredKey)
    (h : keyStoreUnwrap env st key u = some (st', s, k)) : s ≠ .VERIFICATION_FAILED := by
  have ha := acquire_status st key u
  unfold keyStoreUnwrap at h
  split at h
  · simp only [Option.some.injEq, Prod.mk.injEq] at h; rw [← h.2.1]; simp
  · generalize objectStoreAcquire st key u = r at h ha
    split at h
    · simp only at h
      repeat' (first | (simp only [Option.some.injEq, Prod.mk.injEq] at h; rw [← h.2.1]; simp; done) | (simp at h; done) | split at h)
    · simp only [Option.some.injEq, Prod.mk.injEq] at h
      rw [← h.2.1]
      exact ha

theorem convert_status (sv : SvpStore) (b : SaBuffer) (n : UInt64) (u : Uuid) : (convertBuffer sv b n u).status ≠ .VERIFICATION_FAILED := by
  cases b with
  | clear a l o =>
    unfold convertBuffer
    simp only
    repeat' (first | split | simp)
  | svp h o =>
    have ha := acquire_status sv h u
    unfold convertBuffer svpStoreAcquireExclusive
    simp only
    generalize objectStoreAcquire sv h u = r at ha
    obtain ⟨st1, status, svp⟩ := r
    simp only at ha ⊢
    repeat' (first | split | exact ha | simp)

/-- Converting a buffer and giving the SVP buffer back leaves the table as it was. -/
theorem convert_give (sv : SvpStore) (inv : SvpInv sv) (b : CheckBuffer) (n : UInt64) (u : Uuid) : giveUp (convertBuffer sv b.view n u) b.w0.toNat u = sv := by
  unfold CheckBuffer.view
  by_cases h : b.type = BUFFER_TYPE_SVP
  · rw [if_pos h]
    unfold convertBuffer svpStoreAcquireExclusive
    simp only
    rcases acquire_fail sv b.w0.toNat u with ⟨st1, svp, he⟩ | ⟨s, hs, he⟩
    · rw [he]
      have hr := acquire_release sv inv.len b.w0.toNat u st1 svp he
      have hg : ∀ s x, giveUp ⟨st1, s, x, some svp⟩ b.w0.toNat u = sv := by
        intro s x
        unfold giveUp svpStoreReleaseExclusive
        simp only [hr]
      simp only [ne_eq, not_true_eq_false, if_false, Option.bind_some]
      repeat' (first | exact hg _ _ | split)
    · rw [he]
      simp only [ne_eq, hs, not_false_eq_true, if_true]
      rfl
  · rw [if_neg h]
    unfold convertBuffer
    simp only
    repeat' (first | rfl | split)

end Sa

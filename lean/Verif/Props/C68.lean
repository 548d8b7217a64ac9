import Verif.Props.C67
import Verif.Props.C22

/-!
# C68: a buffer check compares the hash of exactly the bytes named, for TAs only

Full statement: a buffer check by a TA succeeds exactly if the range lies in an SVP buffer of the caller and the hash of the range is the one given; every other call fails with a
documented status; nothing is changed.

`C68_partial` holds for handles that denote a buffer and hashes that are as long as stated.  The code violates the rest: with an unknown algorithm and the length 2^64 - 1 it
declares an array of that size (`C68_violated_algorithm`); a range outside of the buffer is an "internal error" instead of an invalid parameter, a call from the REE is "not allowed"
instead of "not supported" (`C68_violated_status`).  For handles without a buffer see C22.
-/

namespace Sa.C68

open Sa.C20 (HasBuffer)

/-- The digest algorithms (sa_types.h) and the length of their results: SHA-1, SHA-256, SHA-384, SHA-512. -/
def digests : List (Nat × Nat) := [(0, 20), (1, 32), (2, 48), (3, 64)]

/-- The hash function gives as many bytes as the algorithm has. -/
def HashGood (hash : Nat → Bytes → Bytes) : Prop := ∀ d n m, (d, n) ∈ digests → (hash d m).length = n

theorem digests_iff (d n : Nat) : (d, n) ∈ digests ↔ digestLength d = some n := by
  unfold digests digestLength
  constructor
  · intro h
    simp only [List.mem_cons, Prod.mk.injEq, List.not_mem_nil, or_false] at h
    rcases h with ⟨rfl, rfl⟩ | ⟨rfl, rfl⟩ | ⟨rfl, rfl⟩ | ⟨rfl, rfl⟩ <;> rfl
  · intro h
    split at h <;> simp at h <;> subst h <;> simp

/-- A TA asks for `length` bytes at `offset` of its SVP buffer, which start at address `a`, with a hash of the length of the algorithm. -/
def Asks (e : CheckEnv) (sv : SvpStore) (h : Nat) (offset length : UInt64) (digest : Nat) (x : Bytes) (caller : Uuid) (a : Nat) : Prop :=
  caller ≠ e.ree ∧ (digest, x.length) ∈ digests ∧ ∃ b, HasBuffer sv h caller b ∧ offset.toNat + length.toNat ≤ b.size.toNat ∧ a = b.svpMemory.toNat + offset.toNat

theorem svpDigest_spec (b : SvpBuffer) (hv : ValidRegion b) (offset length : UInt64) :
    (offset.toNat + length.toNat ≤ b.size.toNat ∧ svpDigest (some b) offset length = some (true, b.svpMemory.toNat + offset.toNat, length.toNat)) ∨
    (b.size.toNat < offset.toNat + length.toNat ∧ svpDigest (some b) offset length = some (false, 0, 0)) := by
  have hs : b.size.toNat < 2 ^ 64 := UInt64.toNat_lt _
  unfold svpDigest svpValidateBuffer
  rcases addOverflow_cases offset length with ⟨h1, h2⟩ | ⟨h1, h2, h3⟩
  · right
    simp only [h1, if_true]
    exact ⟨by omega, trivial⟩
  · simp only [h1, Bool.false_eq_true, if_false]
    by_cases h4 : (addOverflow offset length).2 > b.size
    · rw [if_pos h4]
      have h4' := UInt64.lt_iff_toNat_lt.mp h4
      exact Or.inr ⟨by omega, rfl⟩
    · rw [if_neg h4]
      have h4' := mt UInt64.lt_iff_toNat_lt.mpr h4
      have hv2 := hv.2
      rcases addOverflow_cases b.svpMemory offset with ⟨h5, h6⟩ | ⟨h5, h6, h7⟩
      · omega
      · left
        refine ⟨by omega, ?_⟩
        simp only [h5, h7]
        simp

/-- Either the call fails whatever the memory holds, or the caller may ask and the answer is the comparison. -/
theorem cases_of (e : CheckEnv) (hh : HashGood e.hash) (sv : SvpStore) (hsv : SvpReachable sv) (h : Nat) (hbuf : (sv.obj h).object ≠ some ⟨none⟩) (offset length : UInt64)
    (digest : Nat) (hash : Option Bytes) (hashLength : UInt64) (hl : ∀ x, hash = some x → x.length = hashLength.toNat ∧ hashLength.toNat < 2 ^ 63) (caller : Uuid) :
    (∃ s, s ≠ .OK ∧ s ≠ .VERIFICATION_FAILED ∧ (∀ m, svpBufferCheck { e with mem := m } sv h offset length digest hash hashLength caller = some (sv, s)) ∧
      ∀ x a, hash = some x → Asks e sv h offset length digest x caller a → e.ok = false) ∨
    (∃ x a, hash = some x ∧ Asks e sv h offset length digest x caller a ∧ e.ok = true ∧
      ∀ m, svpBufferCheck { e with mem := m } sv h offset length digest hash hashLength caller =
        some (sv, if e.hash digest (memRead m a length.toNat) = x then .OK else .VERIFICATION_FAILED)) := by
  have inv := svpReachable_inv sv hsv
  unfold svpBufferCheck
  cases hash with
  | none => exact Or.inl ⟨.NULL_PARAMETER, by simp, by simp, fun _ => rfl, fun _ _ h => by simp at h⟩
  | some x =>
  obtain ⟨hx, hx63⟩ := hl x rfl
  simp only
  have hree : ∀ m, CheckEnv.isRee { e with mem := m } caller = e.isRee caller := fun _ => rfl
  simp only [hree]
  have hr : e.isRee caller = true ↔ caller = e.ree := uuidMatches_iff _ _
  by_cases hrc : e.isRee caller = true
  · simp only [if_pos hrc]
    exact Or.inl ⟨.OPERATION_NOT_ALLOWED, by simp, by simp, fun _ => rfl, fun x' a _ ha => absurd (hr.1 hrc) ha.1⟩
  simp only [if_neg hrc]
  by_cases hd : hashLength.toNat ≠ (digestLength digest).getD (2 ^ 64 - 1)
  · simp only [if_pos hd]
    refine Or.inl ⟨.INVALID_PARAMETER, by simp, by simp, fun _ => rfl, fun x' a hx' ha => ?_⟩
    simp only [Option.some.injEq] at hx'
    subst hx'
    have := (digests_iff _ _).1 ha.2.1
    rw [this] at hd
    exact absurd hx.symm hd
  simp only [if_neg hd]
  have hdig : digestLength digest = some hashLength.toNat := by
    cases hdl : digestLength digest with
    | none => rw [hdl] at hd; simp at hd; omega
    | some n => rw [hdl] at hd; simp at hd; rw [hd]
  unfold svpStoreAcquireExclusive svpStoreReleaseExclusive
  rcases acquire_fail sv h caller with ⟨sv1, svp, he⟩ | ⟨s, hs, he⟩
  · obtain ⟨a1, a2, a3, a4, a5⟩ := (acquire_ok_iff sv h caller sv1 svp).mp he
    have hrel := acquire_release sv inv.len h caller sv1 svp he
    rw [he]
    simp only [hrel, ne_eq, not_true_eq_false, if_false]
    rw [hdig]
    simp only [reduceCtorEq, if_false]
    obtain ⟨buf⟩ := svp
    cases buf with
    | none => exact absurd a3 hbuf
    | some b =>
      have hv := inv.valid h _ b a3 rfl
      rcases svpDigest_spec b hv offset length with ⟨hle, hsd⟩ | ⟨hgt, hsd⟩
      · simp only [hsd]
        cases hok : e.ok with
        | false =>
          left
          refine ⟨.INTERNAL_ERROR, by simp, by simp, fun _ => by simp, ?_⟩
          intros; trivial
        | true =>
          right
          refine ⟨x, b.svpMemory.toNat + offset.toNat, rfl, ⟨fun hc => hrc (hr.2 hc), (digests_iff _ _).2 (by rw [hx]; exact hdig), b, ⟨a1, a3, a4⟩, hle, rfl⟩, rfl, fun m => ?_⟩
          simp only [Bool.not_true, Bool.false_eq_true, if_false]
          obtain ⟨r, h1, h2⟩ := memcmp_eq (e.hash digest (memRead m (b.svpMemory.toNat + offset.toNat) length.toNat)) x hashLength.toNat
            (hh _ _ _ ((digests_iff _ _).2 hdig)) hx
          rw [h1]
          simp only [h2]
      · simp only [hsd]
        left
        refine ⟨.INTERNAL_ERROR, by simp, by simp, fun _ => rfl, ?_⟩
        rintro x' a _ ⟨_, _, b', hb', hle, _⟩
        have := hb'.2.1
        rw [a3] at this
        simp only [Option.some.injEq, Svp.mk.injEq] at this
        subst this
        omega
  · have hv := acquire_status sv h caller
    rw [he] at hv ⊢
    refine Or.inl ⟨s, hs, hv, fun _ => rfl, ?_⟩
    rintro x' a _ ⟨_, _, b, hb, _, _⟩
    have := (acquire_ok_iff sv h caller _ _).2 ⟨hb.1, inv.up, hb.2.1, hb.2.2, rfl⟩
    rw [he] at this
    simp at this

/-- **C68 (partial).**  In every state of the SVP table, for a handle that is not one of those without a buffer (C22) and a hash that has the length stated: the table stays as it is;
the check succeeds exactly if a TA asks for a range of its own buffer, with a known algorithm, and the hash of the bytes of the range is the one given (and OpenSSL works); and the
answer "wrong hash" is given only to those who may ask, and only if the hash is wrong.  Missing: the cases of `C68_violated_algorithm`, `C68_violated_status`, `C22_violated_check`. -/
theorem C68_partial (e : CheckEnv) (hh : HashGood e.hash) (sv : SvpStore) (hsv : SvpReachable sv) (h : Nat) (hbuf : (sv.obj h).object ≠ some ⟨none⟩) (offset length : UInt64)
    (digest : Nat) (hash : Option Bytes) (hashLength : UInt64) (hl : ∀ x, hash = some x → x.length = hashLength.toNat ∧ hashLength.toNat < 2 ^ 63) (caller : Uuid) :
    ∃ s, svpBufferCheck e sv h offset length digest hash hashLength caller = some (sv, s) ∧
      (s = .OK ↔ ∃ x a, hash = some x ∧ Asks e sv h offset length digest x caller a ∧ e.ok = true ∧ e.hash digest (memRead e.mem a length.toNat) = x) ∧
      (s = .VERIFICATION_FAILED ↔ ∃ x a, hash = some x ∧ Asks e sv h offset length digest x caller a ∧ e.ok = true ∧ e.hash digest (memRead e.mem a length.toNat) ≠ x) := by
  rcases cases_of e hh sv hsv h hbuf offset length digest hash hashLength hl caller with ⟨s, h1, h2, h3, h4⟩ | ⟨x, a, h1, h2, h3, h4⟩
  · refine ⟨s, h3 e.mem, ⟨fun h => absurd h h1, ?_⟩, fun h => absurd h h2, ?_⟩
    · rintro ⟨x, a, hx, ha, hk, _⟩
      rw [h4 x a hx ha] at hk; simp at hk
    · rintro ⟨x, a, hx, ha, hk, _⟩
      rw [h4 x a hx ha] at hk; simp at hk
  · have huniq : ∀ a', Asks e sv h offset length digest x caller a' → a' = a := by
      rintro a' ⟨_, _, b, hb, _, rfl⟩
      obtain ⟨_, _, b', hb', _, rfl⟩ := h2
      have := hb.2.1
      rw [hb'.2.1] at this
      simp only [Option.some.injEq, Svp.mk.injEq] at this
      rw [this]
    refine ⟨_, h4 e.mem, ?_, ?_⟩
    · constructor
      · intro hs
        refine ⟨x, a, h1, h2, h3, ?_⟩
        apply Classical.byContradiction
        intro hn
        rw [if_neg hn] at hs; simp at hs
      · rintro ⟨x', a', hx', ha', _, he⟩
        rw [h1] at hx'
        simp only [Option.some.injEq] at hx'
        subst hx'
        rw [huniq a' ha'] at he
        rw [if_pos he]
    · constructor
      · intro hs
        refine ⟨x, a, h1, h2, h3, ?_⟩
        intro hn
        rw [if_pos hn] at hs; simp at hs
      · rintro ⟨x', a', hx', ha', _, he⟩
        rw [h1] at hx'
        simp only [Option.some.injEq] at hx'
        subst hx'
        rw [huniq a' ha'] at he
        rw [if_neg he]

/-- **C68, what is read.**  The outcome depends on the memory only through the range, and only for those who may ask. -/
theorem C68_reads (e : CheckEnv) (hh : HashGood e.hash) (m : Mem) (sv : SvpStore) (hsv : SvpReachable sv) (h : Nat) (hbuf : (sv.obj h).object ≠ some ⟨none⟩) (offset length : UInt64)
    (digest : Nat) (hash : Option Bytes) (hashLength : UInt64) (hl : ∀ x, hash = some x → x.length = hashLength.toNat ∧ hashLength.toNat < 2 ^ 63) (caller : Uuid)
    (hm : ∀ x a, hash = some x → Asks e sv h offset length digest x caller a → ∀ i, i < length.toNat → e.mem (a + i) = m (a + i)) :
    svpBufferCheck e sv h offset length digest hash hashLength caller = svpBufferCheck { e with mem := m } sv h offset length digest hash hashLength caller := by
  rcases cases_of e hh sv hsv h hbuf offset length digest hash hashLength hl caller with ⟨s, h1, h2, h3, h4⟩ | ⟨x, a, h1, h2, h3, h4⟩
  · rw [h3 m]; exact h3 e.mem
  · have heq : memRead e.mem a length.toNat = memRead m a length.toNat := by
      unfold memRead
      apply List.map_congr_left
      intro i hi
      exact hm x a h1 h2 i (List.mem_range.1 hi)
    rw [h4 m, ← heq]
    exact h4 e.mem

/-- **C68 is violated.**  A TA that names an algorithm that does not exist and states 2^64 - 1 as the length of the hash makes the code declare an array of that length (undefined
behaviour). -/
theorem C68_violated_algorithm (e : CheckEnv) (sv : SvpStore) (hsv : SvpReachable sv) (h : Nat) (b : SvpBuffer) (offset length : UInt64) (digest : Nat) (hd : ∀ n, (digest, n) ∉ digests)
    (x : Bytes) (caller : Uuid) (hc : caller ≠ e.ree) (hb : HasBuffer sv h caller b) :
    svpBufferCheck e sv h offset length digest (some x) 0xffffffffffffffff caller = none := by
  have inv := svpReachable_inv sv hsv
  have hdl : digestLength digest = none := by
    cases hdl : digestLength digest with
    | none => rfl
    | some n => exact absurd ((digests_iff _ _).2 hdl) (hd n)
  have hr : e.isRee caller = true ↔ caller = e.ree := uuidMatches_iff _ _
  unfold svpBufferCheck svpStoreAcquireExclusive
  simp only
  rw [if_neg (fun h => hc (hr.1 h)), hdl, if_neg (by decide), (acquire_ok_iff sv h caller _ _).2 ⟨hb.1, inv.up, hb.2.1, hb.2.2, rfl⟩]
  simp

/-- **C68 is violated, statuses.**  A range that does not lie in the buffer is reported as an internal error (documented: invalid parameter), and every call of the REE is "not allowed"
(documented: not supported). -/
theorem C68_violated_status (e : CheckEnv) (sv : SvpStore) (hsv : SvpReachable sv) (h : Nat) (b : SvpBuffer) (offset length : UInt64) (digest : Nat) (x : Bytes) (caller : Uuid)
    (hashLength : UInt64) (hd : (digest, hashLength.toNat) ∈ digests) (hb : HasBuffer sv h caller b) :
    (caller = e.ree → svpBufferCheck e sv h offset length digest (some x) hashLength caller = some (sv, .OPERATION_NOT_ALLOWED)) ∧
    (caller ≠ e.ree → b.size.toNat < offset.toNat + length.toNat → svpBufferCheck e sv h offset length digest (some x) hashLength caller = some (sv, .INTERNAL_ERROR)) := by
  have inv := svpReachable_inv sv hsv
  have hr : e.isRee caller = true ↔ caller = e.ree := uuidMatches_iff _ _
  unfold svpBufferCheck svpStoreAcquireExclusive svpStoreReleaseExclusive
  simp only
  constructor
  · intro h; rw [if_pos (hr.2 h)]
  · intro hc hgt
    have hacq := (acquire_ok_iff sv h caller _ _).2 ⟨hb.1, inv.up, hb.2.1, hb.2.2, rfl⟩
    rw [if_neg (fun h => hc (hr.1 h)), (digests_iff _ _).1 hd, if_neg (by simp), hacq]
    have hrel := acquire_release sv inv.len h caller _ _ hacq
    simp only [hrel, ne_eq, not_true_eq_false, if_false, reduceCtorEq]
    rcases svpDigest_spec b (inv.valid h _ b hb.2.1 rfl) offset length with ⟨hle, _⟩ | ⟨_, hsd⟩
    · omega
    · rw [hsd]

/-! ## Concrete cases -/

/-- A toy hash. -/
def toyHash (d : Nat) (m : Bytes) : Bytes := List.replicate ((digestLength d).getD 0) (m.foldl (· + ·) 0)

theorem toyHash_good : HashGood toyHash := by
  intro d n m h
  rw [digests_iff] at h
  simp [toyHash, h]

/-- The SVP buffer of `C20.st1` has the 16 bytes from 4096 of `C67.mem`, all 77; the REE is another caller. -/
def henv : CheckEnv := { C67.cenv with hash := toyHash, ree := Vector.replicate 16 1 }

example : svpBufferCheck henv C20.st1 31 4 2 1 (some (List.replicate 32 154)) 32 (Vector.replicate 16 7) = some (C20.st1, .OK) := by decide +kernel
example : svpBufferCheck henv C20.st1 31 4 2 1 (some (List.replicate 32 153)) 32 (Vector.replicate 16 7) = some (C20.st1, .VERIFICATION_FAILED) := by decide +kernel
example : svpBufferCheck henv C20.st1 31 4 13 1 (some (List.replicate 32 153)) 32 (Vector.replicate 16 7) = some (C20.st1, .INTERNAL_ERROR) := by decide +kernel
example : svpBufferCheck henv C20.st1 31 4 2 9 (some [1]) 0xffffffffffffffff (Vector.replicate 16 7) = none := by decide +kernel

/-- The hypotheses of `C68_partial` are met by that table. -/
example : (C20.st1.obj 31).object ≠ some ⟨none⟩ := by decide +kernel

end Sa.C68

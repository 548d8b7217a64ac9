import Verif.Props.C68

/-!
# C69: key digests and public keys

Full statement: the digest of a key is the hash of its bytes, available for symmetric, RSA and EC keys; the public key is the one that belongs to the private key, available for
RSA, EC and DH keys; a call without a buffer tells the length, and a buffer of at least that length suffices; of the key nothing else gets out; calls that fail write nothing and have a
documented status.

Proved: `C69_digest_partial` and `C69_public_partial` (exact conditions, exact bytes, buffer otherwise untouched, the key table unchanged) and `C69_length` (the length told suffices).
The code violates the rest: RSA and EC keys are not digested (`C69_violated_types`), too short a buffer for a digest is an "internal error" and the public key of a symmetric key is
an "invalid parameter" where the documentation says "invalid parameter" and "invalid key type" (`C69_violated_status`).
-/

namespace Sa.C69

open Sa.C68 (digests digests_iff HashGood)

/-- The caller can use the key at all: it is the owner, and the TA list, the time and the outputs allow it (no usage right is needed). -/
def CanUse (env : Env) (ks : KeyStore) (key : Nat) (caller : Uuid) (k : StoredKey) : Prop := KeyHeld env.prims ks key caller k ∧ useResult env k caller = (.OK, some k)

/-- The answer `bytes` given in a buffer: without a buffer only the length; otherwise the bytes at the start of the buffer, the rest of it as before. -/
def Gives (out : Option Bytes) (outLength : Nat) (bytes : Bytes) (a : Answer) : Prop :=
  a.status = .OK ∧ a.outLength = bytes.length ∧
  match out with
  | none => a.out = none
  | some o => bytes.length ≤ outLength ∧ ∃ o', a.out = some o' ∧ o'.length = o.length ∧ o'.take bytes.length = bytes ∧ o'.drop bytes.length = o.drop bytes.length

/-- The buffer, if there is one, is large enough. -/
def Fits (out : Option Bytes) (outLength n : Nat) : Prop := out ≠ none → n ≤ outLength

theorem writeOut_spec (o b : Bytes) (h : b.length ≤ o.length) :
    ∃ o', writeOut o b = some o' ∧ o'.length = o.length ∧ o'.take b.length = b ∧ o'.drop b.length = o.drop b.length := by
  unfold writeOut
  rw [if_pos h]
  refine ⟨_, rfl, ?_, List.take_left' rfl, List.drop_left' rfl⟩
  rw [List.length_append, List.length_drop]; omega

/-- Either the key cannot be used, and the call fails with the buffer as it was, or the answer is about the key. -/
theorem inquire_cases (env : Env) (hp : env.prims.Good) (ks : KeyStore) (hks : KsReachable env.prims ks) (key : Nat) (caller : Uuid) (out : Option Bytes) (outLength : Nat)
    (f : StoredKey → Option Answer) :
    (∃ s, s ≠ .OK ∧ inquire env ks key caller out outLength f = some (ks, ⟨s, outLength, out⟩) ∧ ∀ k, ¬ CanUse env ks key caller k) ∨
    (∃ k, CanUse env ks key caller k ∧ inquire env ks key caller out outLength f = (f k).map fun a => (ks, a)) := by
  have inv := ksReachable_inv _ hp ks hks
  unfold inquire
  rcases unwrap_holds env hp ks inv key caller with ⟨s, hs, he⟩ | ⟨k, he, hh, _, _⟩
  · left
    refine ⟨s, hs, ?_, ?_⟩
    · rw [he]
      cases s <;> first | exact absurd rfl hs | rfl
    · rintro k ⟨h1, h2⟩
      have := h1.2 env rfl
      rw [he, h2] at this
      simp at this
  · right
    have hu := hh.2 env rfl
    rw [he] at hu
    simp only [Option.some.injEq, Prod.mk.injEq, true_and] at hu
    exact ⟨k, ⟨hh, hu.symm⟩, by rw [he]⟩

theorem canUse_unique {env : Env} {ks : KeyStore} {key : Nat} {caller : Uuid} {k k' : StoredKey} (h : CanUse env ks key caller k) (h' : CanUse env ks key caller k') : k' = k := by
  have h1 := h.1.2 env rfl
  rw [h'.1.2 env rfl, h.2, h'.2] at h1
  simp at h1
  exact h1

/-- **C69, digests (partial).**  For every state of the key table, every handle, algorithm and buffer: the call stays in bounds and leaves the table as it is.  It succeeds exactly if the
caller can use the key, the key is symmetric, the algorithm exists, the buffer is large enough and OpenSSL works; then the answer is the hash of the bytes of the key.  Otherwise the
buffer is as before.  Missing: RSA and EC keys (`C69_violated_types`), statuses (`C69_violated_status`). -/
theorem C69_digest_partial (env : Env) (hp : env.prims.Good) (ok : Bool) (hash : Nat → Bytes → Bytes) (hh : HashGood hash) (ks : KeyStore) (hks : KsReachable env.prims ks)
    (out : Option Bytes) (outLength key digest : Nat) (caller : Uuid) (ho : ∀ o, out = some o → o.length = outLength) :
    ∃ a, taKeyDigest env ok hash ks out outLength key digest caller = some (ks, a) ∧
      (a.status = .OK ↔ ∃ k n, CanUse env ks key caller k ∧ k.header.type.toNat = 0 ∧ (digest, n) ∈ digests ∧ Fits out outLength n ∧ (out ≠ none → ok = true)) ∧
      (a.status = .OK → ∃ k, CanUse env ks key caller k ∧ (out ≠ none → Gives out outLength (hash digest k.key) a) ∧ (digest, a.outLength) ∈ digests) ∧
      (a.status ≠ .OK → a.out = out) := by
  unfold taKeyDigest
  rcases inquire_cases env hp ks hks key caller out outLength (keyDigestAnswer ok hash out outLength digest) with ⟨s, hs, he, hn⟩ | ⟨k, hk, he⟩
  · refine ⟨_, he, ⟨fun h => absurd h hs, ?_⟩, fun h => absurd h hs, fun _ => rfl⟩
    rintro ⟨k, _, hk, _⟩
    exact absurd hk (hn k)
  · rw [he]
    unfold keyDigestAnswer KEY_TYPE_SYMMETRIC
    by_cases ht : k.header.type.toNat ≠ 0
    · rw [if_pos ht]
      refine ⟨_, rfl, ⟨fun h => by simp at h, ?_⟩, fun h => by simp at h, fun _ => rfl⟩
      rintro ⟨k', _, hk', h0, _⟩
      rw [canUse_unique hk hk'] at h0
      exact absurd h0 ht
    rw [if_neg ht]
    have ht : k.header.type.toNat = 0 := by omega
    unfold digestKey
    cases hd : digestLength digest with
    | none =>
      have hno : ∀ n, (digest, n) ∉ digests := fun n h => by rw [digests_iff, hd] at h; simp at h
      have hnone : ¬ ∃ k n, CanUse env ks key caller k ∧ k.header.type.toNat = 0 ∧ (digest, n) ∈ digests ∧ Fits out outLength n ∧ (out ≠ none → ok = true) := by
        rintro ⟨_, n, _, _, h, _⟩
        exact hno n h
      cases out with
      | none => exact ⟨_, rfl, by simp; intros; exact absurd ‹_› (hno _), by simp, fun _ => rfl⟩
      | some o =>
        simp only [Option.getD_none]
        split
        · exact ⟨_, rfl, by simp; intros; exact absurd ‹_› (hno _), by simp, fun _ => rfl⟩
        · cases ok with
          | false => exact ⟨_, rfl, by simp, by simp, fun _ => rfl⟩
          | true => exact ⟨_, rfl, by simp; intros; exact absurd ‹_› (hno _), by simp, fun _ => rfl⟩
    | some n =>
      have hdn := (digests_iff _ _).2 hd
      have hn64 : n ≠ 2 ^ 64 - 1 := by
        unfold digests at hdn
        simp only [List.mem_cons, Prod.mk.injEq, List.not_mem_nil, or_false] at hdn
        omega
      have huniq : ∀ m, (digest, m) ∈ digests → m = n := by
        intro m hm
        rw [digests_iff, hd] at hm
        simpa using hm.symm
      simp only [Option.getD_some]
      cases out with
      | none =>
        rw [if_neg hn64]
        refine ⟨_, rfl, ?_, ?_, ?_⟩
        · simp only [Fits, ne_eq, not_true_eq_false, false_implies, and_true, if_false, true_iff]
          exact ⟨k, n, hk, ht, hdn⟩
        · intro _
          exact ⟨k, hk, fun h => absurd rfl h, hdn⟩
        · intro h; simp at h
      | some o =>
        simp only
        have ho := ho o rfl
        by_cases hlt : outLength < n
        · rw [if_pos hlt]
          refine ⟨_, rfl, ?_, by simp, fun _ => rfl⟩
          simp only [Option.map_some, ne_eq, reduceCtorEq, not_false_eq_true, if_true, false_iff]
          rintro ⟨_, m, _, _, hm, hf, _⟩
          have := hf (by simp)
          rw [huniq m hm] at this
          omega
        · rw [if_neg hlt]
          cases ok with
          | false => exact ⟨_, rfl, by simp, by simp, fun _ => rfl⟩
          | true =>
            have hlen := hh digest n k.key hdn
            obtain ⟨o', w1, w2, w3, w4⟩ := writeOut_spec o (hash digest k.key) (by omega)
            simp only [Bool.not_true, Bool.false_eq_true, if_false, w1, Option.map_some]
            refine ⟨_, rfl, ?_, ?_, ?_⟩
            · simp only [ne_eq, not_true_eq_false, if_false, reduceCtorEq, not_false_eq_true, implies_true, and_true, true_iff]
              exact ⟨k, n, hk, ht, hdn, fun _ => by omega⟩
            · intro _
              refine ⟨k, hk, fun _ => ⟨rfl, hlen.symm, by omega, o', rfl, w2, w3, w4⟩, hdn⟩
            · intro h; simp at h

/-- The type of key that has a public key: EC 1, RSA 2, DH 3; the curve matters for EC. -/
def publicOf (der : Nat → Nat → Bytes → Option Bytes) (k : StoredKey) : Option Bytes :=
  match k.header.type.toNat with
  | 1 => der 1 (curveOf k.header.typeParameters) k.key
  | 2 => der 2 0 k.key
  | 3 => der 3 0 k.key
  | _ => none

/-- **C69, public keys (partial).**  For every state of the key table, every handle and buffer: the call stays in bounds and leaves the table as it is.  It succeeds exactly if the caller
can use the key, the key has a public key, which OpenSSL can encode, and the buffer is large enough; then the answer is the encoded public key, and nothing else.  Otherwise buffer and
length are as before.  Missing: the status for symmetric keys (`C69_violated_status`). -/
theorem C69_public_partial (env : Env) (hp : env.prims.Good) (der : Nat → Nat → Bytes → Option Bytes) (ks : KeyStore) (hks : KsReachable env.prims ks)
    (out : Option Bytes) (outLength key : Nat) (caller : Uuid) (ho : ∀ o, out = some o → o.length = outLength) :
    ∃ a, taKeyGetPublic env der ks out outLength key caller = some (ks, a) ∧
      (a.status = .OK ↔ ∃ k d, CanUse env ks key caller k ∧ publicOf der k = some d ∧ d ≠ [] ∧ Fits out outLength d.length) ∧
      (a.status = .OK → ∃ k d, CanUse env ks key caller k ∧ publicOf der k = some d ∧ Gives out outLength d a) ∧
      (a.status ≠ .OK → a.out = out ∧ a.outLength = outLength) := by
  unfold taKeyGetPublic
  rcases inquire_cases env hp ks hks key caller out outLength (keyPublicAnswer der out outLength) with ⟨s, hs, he, hn⟩ | ⟨k, hk, he⟩
  · refine ⟨_, he, ⟨fun h => absurd h hs, ?_⟩, fun h => absurd h hs, fun _ => ⟨rfl, rfl⟩⟩
    rintro ⟨k, _, hk, _⟩
    exact absurd hk (hn k)
  · rw [he]
    have main : ∀ r, publicOf der k = r → ∃ a, getPublic r out outLength = some a ∧
        (a.status = .OK ↔ ∃ k d, CanUse env ks key caller k ∧ publicOf der k = some d ∧ d ≠ [] ∧ Fits out outLength d.length) ∧
        (a.status = .OK → ∃ k d, CanUse env ks key caller k ∧ publicOf der k = some d ∧ Gives out outLength d a) ∧
        (a.status ≠ .OK → a.out = out ∧ a.outLength = outLength) := by
      intro r hr
      have huniq : ∀ k' d, CanUse env ks key caller k' → publicOf der k' = some d → r = some d := by
        intro k' d hk' hd
        rw [canUse_unique hk hk', hr] at hd
        exact hd
      unfold getPublic
      cases r with
      | none =>
        refine ⟨_, rfl, ?_, by simp, fun _ => ⟨rfl, rfl⟩⟩
        simp only [reduceCtorEq, false_iff]
        rintro ⟨k', d, hk', hd, _⟩
        exact absurd (huniq k' d hk' hd) (by simp)
      | some d =>
        simp only
        by_cases h0 : d.length = 0
        · rw [if_pos h0]
          refine ⟨_, rfl, ?_, by simp, fun _ => ⟨rfl, rfl⟩⟩
          simp only [reduceCtorEq, false_iff]
          rintro ⟨k', d', hk', hd, hne, _⟩
          have := huniq k' d' hk' hd
          simp only [Option.some.injEq] at this
          subst this
          exact hne (List.length_eq_zero_iff.1 h0)
        · rw [if_neg h0]
          have hne : d ≠ [] := fun h => h0 (by rw [h]; rfl)
          cases out with
          | none =>
            refine ⟨_, rfl, ?_, ?_, by simp⟩
            · simp only [true_iff]
              exact ⟨k, d, hk, hr, hne, fun h => absurd rfl h⟩
            · intro _
              exact ⟨k, d, hk, hr, rfl, rfl, rfl⟩
          | some o =>
            simp only
            have ho := ho o rfl
            by_cases hlt : outLength < d.length
            · rw [if_pos hlt]
              refine ⟨_, rfl, ?_, by simp, fun _ => ⟨rfl, rfl⟩⟩
              simp only [reduceCtorEq, false_iff]
              rintro ⟨k', d', hk', hd, _, hf⟩
              have := huniq k' d' hk' hd
              simp only [Option.some.injEq] at this
              subst this
              have := hf (by simp)
              omega
            · rw [if_neg hlt]
              obtain ⟨o', w1, w2, w3, w4⟩ := writeOut_spec o d (by omega)
              rw [w1]
              refine ⟨_, rfl, ?_, ?_, by simp⟩
              · simp only [true_iff]
                exact ⟨k, d, hk, hr, hne, fun _ => by omega⟩
              · intro _
                exact ⟨k, d, hk, hr, rfl, rfl, by omega, o', rfl, w2, w3, w4⟩
    unfold keyPublicAnswer KEY_TYPE_EC KEY_TYPE_DH KEY_TYPE_RSA
    by_cases h1 : k.header.type.toNat = 1
    · rw [if_pos h1]
      obtain ⟨a, ha, hrest⟩ := main (der 1 (curveOf k.header.typeParameters) k.key) (by simp [publicOf, h1])
      exact ⟨a, by rw [ha]; rfl, hrest⟩
    rw [if_neg h1]
    by_cases h3 : k.header.type.toNat = 3
    · rw [if_pos h3]
      obtain ⟨a, ha, hrest⟩ := main (der 3 0 k.key) (by simp [publicOf, h3])
      exact ⟨a, by rw [ha]; rfl, hrest⟩
    rw [if_neg h3]
    by_cases h2 : k.header.type.toNat = 2
    · rw [if_pos h2]
      obtain ⟨a, ha, hrest⟩ := main (der 2 0 k.key) (by simp [publicOf, h2])
      exact ⟨a, by rw [ha]; rfl, hrest⟩
    rw [if_neg h2]
    refine ⟨_, rfl, ?_, by simp, fun _ => ⟨rfl, rfl⟩⟩
    simp only [reduceCtorEq, false_iff]
    rintro ⟨k', d, hk', hd, _⟩
    rw [canUse_unique hk hk'] at hd
    unfold publicOf at hd
    split at hd <;> simp_all

/-- **C69, lengths.**  If a call without a buffer succeeds and tells the length `n`, a call with a buffer of `n` bytes or more succeeds (if OpenSSL works), for the digest and for the
public key. -/
theorem C69_length (env : Env) (hp : env.prims.Good) (hash : Nat → Bytes → Bytes) (hh : HashGood hash) (der : Nat → Nat → Bytes → Option Bytes) (ks : KeyStore)
    (hks : KsReachable env.prims ks) (l key digest : Nat) (caller : Uuid) (o : Bytes) :
    (∀ ok a, taKeyDigest env ok hash ks none l key digest caller = some (ks, a) → a.status = .OK → a.outLength ≤ o.length →
      ∃ a', taKeyDigest env true hash ks (some o) o.length key digest caller = some (ks, a') ∧ a'.status = .OK ∧ a'.outLength = a.outLength) ∧
    (∀ a, taKeyGetPublic env der ks none l key caller = some (ks, a) → a.status = .OK → a.outLength ≤ o.length →
      ∃ a', taKeyGetPublic env der ks (some o) o.length key caller = some (ks, a') ∧ a'.status = .OK ∧ a'.outLength = a.outLength) := by
  constructor
  · intro ok a h hs hl
    obtain ⟨b, hb, h1, h2, _⟩ := C69_digest_partial env hp ok hash hh ks hks none l key digest caller (by simp)
    rw [h] at hb
    simp only [Option.some.injEq, Prod.mk.injEq, true_and] at hb
    subst hb
    obtain ⟨k, n, hk, ht, hd, _⟩ := h1.1 hs
    obtain ⟨_, _, _, hd2⟩ := h2 hs
    have hn : n = a.outLength := by rw [digests_iff] at hd hd2; rw [hd] at hd2; simpa using hd2
    obtain ⟨a', ha', g1, g2, _⟩ := C69_digest_partial env hp true hash hh ks hks (some o) o.length key digest caller (by simp)
    have hok := g1.2 ⟨k, n, hk, ht, hd, fun _ => by omega, fun _ => rfl⟩
    obtain ⟨_, _, _, hd3⟩ := g2 hok
    refine ⟨a', ha', hok, ?_⟩
    rw [digests_iff] at hd2 hd3; rw [hd2] at hd3; simpa using hd3.symm
  · intro a h hs hl
    obtain ⟨b, hb, h1, h2, _⟩ := C69_public_partial env hp der ks hks none l key caller (by simp)
    rw [h] at hb
    simp only [Option.some.injEq, Prod.mk.injEq, true_and] at hb
    subst hb
    obtain ⟨k, d, hk, hd, hne, _⟩ := h1.1 hs
    obtain ⟨k2, d2, hk2, hd2, hg⟩ := h2 hs
    have hkk := canUse_unique hk hk2
    subst hkk
    rw [hd] at hd2
    simp only [Option.some.injEq] at hd2
    subst hd2
    have hlen := hg.2.1
    obtain ⟨a', ha', g1, g2, _⟩ := C69_public_partial env hp der ks hks (some o) o.length key caller (by simp)
    have hok := g1.2 ⟨_, d, hk, hd, hne, fun _ => by omega⟩
    obtain ⟨k3, d3, hk3, hd3, hg3⟩ := g2 hok
    have hkk := canUse_unique hk hk3
    subst hkk
    rw [hd] at hd3
    simp only [Option.some.injEq] at hd3
    subst hd3
    exact ⟨a', ha', hok, by rw [hg3.2.1, hlen]⟩

/-- **C69 is violated, types.**  The documentation lets every key but DH keys be digested; RSA and EC keys are refused. -/
theorem C69_violated_types (env : Env) (ok : Bool) (hash : Nat → Bytes → Bytes) (ks : KeyStore) (out : Option Bytes)
    (outLength key digest : Nat) (caller : Uuid) (k : StoredKey) (hk : CanUse env ks key caller k) (ht : k.header.type.toNat = 1 ∨ k.header.type.toNat = 2) :
    taKeyDigest env ok hash ks out outLength key digest caller = some (ks, ⟨.INVALID_PARAMETER, outLength, out⟩) := by
  unfold taKeyDigest inquire
  rw [hk.1.2 env rfl, hk.2]
  simp only
  unfold keyDigestAnswer KEY_TYPE_SYMMETRIC
  rw [if_pos (by omega)]
  rfl

/-- **C69 is violated, statuses.**  Too short a buffer for a digest is reported as an internal error (documented: invalid parameter), and asking for the public key of a symmetric key as
an invalid parameter (documented: invalid key type). -/
theorem C69_violated_status (env : Env) (ok : Bool) (hash : Nat → Bytes → Bytes) (der : Nat → Nat → Bytes → Option Bytes) (ks : KeyStore) (o : Bytes)
    (key digest n : Nat) (caller : Uuid) (k : StoredKey) (hk : CanUse env ks key caller k) (ht : k.header.type.toNat = 0) (hd : (digest, n) ∈ digests) (hn : o.length < n) :
    taKeyDigest env ok hash ks (some o) o.length key digest caller = some (ks, ⟨.INTERNAL_ERROR, o.length, some o⟩) ∧
    taKeyGetPublic env der ks (some o) o.length key caller = some (ks, ⟨.INVALID_PARAMETER, o.length, some o⟩) := by
  unfold taKeyDigest taKeyGetPublic inquire
  rw [hk.1.2 env rfl, hk.2]
  simp only
  unfold keyDigestAnswer keyPublicAnswer KEY_TYPE_SYMMETRIC KEY_TYPE_EC KEY_TYPE_DH KEY_TYPE_RSA digestKey
  rw [if_neg (by omega), if_neg (by omega), if_neg (by omega), if_neg (by omega), (digests_iff _ _).1 hd]
  simp only [Option.getD_some]
  rw [if_pos hn]
  exact ⟨rfl, rfl⟩

/-! ## Concrete cases -/

/-- The key behind handle 31 of `C67.stD` can be digested into a buffer of 40 bytes. -/
example : ∃ st a, C67.stD = some st ∧ taKeyDigest C08.env0 true C68.toyHash st (some (List.replicate 40 1)) 40 31 1 C08.u7 = some (st, a) ∧ a.status = .OK ∧ a.outLength = 32 ∧
    a.out = some (List.replicate 32 80 ++ List.replicate 8 1) := by
  obtain ⟨st, k, hs, hk, hkey, hc⟩ := C67.stD_key 31 5 true (by decide +kernel)
  refine ⟨st, ⟨.OK, 32, some (List.replicate 32 80 ++ List.replicate 8 1)⟩, hs, ?_, rfl, rfl, rfl⟩
  unfold taKeyDigest inquire
  rw [hk.held.2 C08.env0 rfl, hk.usable]
  simp only
  unfold keyDigestAnswer KEY_TYPE_SYMMETRIC
  rw [if_neg (by rw [hk.aes.1]; simp), hkey]
  rfl

/-- A toy encoding of public keys. -/
def toyDer (t _c : Nat) (k : Bytes) : Option Bytes := if t = 2 then some (48 :: k.take 2) else none

/-- An RSA key (of three bytes). -/
def rsaKey : StoredKey :=
  { header := { magic := MAGIC, pad0 := Vector.replicate 4 0, rights := rightsAllowAll, type := 2, pad1 := Vector.replicate 7 0,
                typeParameters := Vector.replicate 1040 0, size := 256, pad2 := Vector.replicate 6 0 }
    key := [1, 2, 3] }

/-- The part of the call that follows the use of an RSA key. -/
example : keyPublicAnswer toyDer (some [9, 9, 9, 9]) 4 rsaKey = some ⟨.OK, 3, some [48, 1, 2, 9]⟩ := by decide +kernel

end Sa.C69

import Verif.Lemmas.WholeKeys
import Verif.Props.C45

/-!
# The rights of a key that is made from another one
-/

namespace Sa.Whole

variable {κ ρ π σ τ : Type}

/-- What a call that makes a key from the key of handle `h` did. -/
def Bred (p : Prims) (st : KeyStore) (u : Uuid) (h : Nat) (st' : KeyStore) (x : Nat) : Prop :=
  ∃ asked kp k, KeyHeld p st h u kp ∧ KeyHeld p st' x u k ∧ k.header.rights = restrictChildRights asked (some kp.header.rights)

theorem given_made {s : Status} {h x : Nat} (hx : x ∈ given (.made s h)) : s = .OK ∧ x = h := by
  cases s <;> simp_all [given]

theorem given_three {s : Status} {a b c x : Nat} (hx : x ∈ given (.three s a b c)) : s = .OK ∧ (x = a ∨ x = b ∨ x = c) := by
  cases s <;> simp_all [given]

/-- From the shape in which the results about single calls are stated. -/
theorem bred_of {p : Prims} {st st' : KeyStore} {u : Uuid} {h x : Nat} {f : Option (KeyStore × Status × Nat)} {q : Reply}
    (hf : f.map (fun r => (r.1, Reply.made r.2.1 r.2.2)) = some (st', q)) (hx : x ∈ given q)
    (hc : ∃ st1 s y, f = some (st1, s, y) ∧ (s = .OK → Bred p st u h st1 y)) : Bred p st u h st' x := by
  obtain ⟨st1, s, y, rfl, hb⟩ := hc
  simp only [Option.map_some, Option.some.injEq, Prod.mk.injEq] at hf
  obtain ⟨rfl, rfl⟩ := hf
  obtain ⟨h1, rfl⟩ := given_made hx
  exact hb h1

theorem exchangeDh_bred (env : Env) (hp : env.prims.Good) (a : AgreeEnv) (ha : a.Good) (st : KeyStore) (hr : KsReachable env.prims st) (rights : Rights) (key : Nat) (other : Bytes)
    (caller : Uuid) : ∃ st1 s y, Sa.exchangeDh env a st rights key other caller = some (st1, s, y) ∧ (s = .OK → Bred env.prims st caller key st1 y) := by
  obtain ⟨st', s, h, h1, h2, h3⟩ := withKey_cases env hp st hr key caller (fun sk =>
    if !rightsAllowedExchange env.rights sk.header.rights then some (.OPERATION_NOT_ALLOWED, none)
    else if !keyTypeSupportsDh sk.header.type.toNat sk.header.size.toNat then some (.INVALID_KEY_TYPE, none)
    else match dhComputeSharedSecret env a rights other sk with
      | (.OK, k) => some (.OK, k)
      | (_, _) => some (.INVALID_PARAMETER, none)) (by
    intro pk
    unfold KeyFn
    simp only
    split
    · exact ⟨_, _, rfl, fun k h => by simp at h⟩
    split
    · exact ⟨_, _, rfl, fun k h => by simp at h⟩
    unfold dhComputeSharedSecret
    split
    · rename_i d heq
      refine ⟨_, _, rfl, fun k _ hk => ?_⟩
      subst hk
      split at heq
      · simp at heq
      · simp at heq
      · rename_i z hz
        exact ⟨_, _, _, _, _, z, by have := ha.dhLen _ _ _ hz; omega, heq⟩
    · exact ⟨_, _, rfl, fun k h => by simp at h⟩)
  refine ⟨st', s, h, h1, fun hs => ?_⟩
  rcases h3 with ⟨h3, _⟩ | ⟨_, pk, d, held, _, hb, n⟩
  · exact absurd hs h3
  · refine ⟨rights, pk, d, held, n.holds, ?_⟩
    split at hb
    · simp at hb
    split at hb
    · simp at hb
    rcases dhSecret_cases env a ha rights other pk with ⟨s', hs', e⟩ | e | ⟨z, d', _, e, _, _, e2⟩
    · rw [e] at hb
      cases s' <;> first | exact absurd rfl hs' | simp at hb
    · rw [e] at hb; simp at hb
    · rw [e] at hb
      simp only [Option.some.injEq, Prod.mk.injEq, true_and] at hb
      rw [← hb]; exact e2

theorem exchangeEcdh_bred (env : Env) (hp : env.prims.Good) (a : AgreeEnv) (ha : a.Good) (st : KeyStore) (hr : KsReachable env.prims st) (rights : Rights) (key : Nat) (other : Bytes)
    (caller : Uuid) : ∃ st1 s y, Sa.exchangeEcdh env a st rights key other caller = some (st1, s, y) ∧ (s = .OK → Bred env.prims st caller key st1 y) := by
  obtain ⟨st', s, h, h1, h2, h3⟩ := withKey_cases env hp st hr key caller (fun sk =>
    if !rightsAllowedExchange env.rights sk.header.rights then some (.OPERATION_NOT_ALLOWED, none)
    else if !keyTypeSupportsEc sk.header.type.toNat (curveOf sk.header.typeParameters) sk.header.size.toNat then
      some (.INVALID_KEY_TYPE, none)
    else some (ecComputeSharedSecret env a rights other sk)) (by
    intro pk
    unfold KeyFn
    simp only
    split
    · exact ⟨_, _, rfl, fun k h => by simp at h⟩
    split
    · exact ⟨_, _, rfl, fun k h => by simp at h⟩
    unfold ecComputeSharedSecret
    simp only
    split
    · exact ⟨_, _, rfl, fun k h => by simp at h⟩
    split
    · exact ⟨_, _, rfl, fun k _ h => by simp at h⟩
    · exact ⟨_, _, rfl, fun k h => by simp at h⟩
    · rename_i z hz
      rcases heq : storedKeyCreate (env.ok .storedKeyAlloc) rights (some pk.header.rights) KEY_TYPE_SYMMETRIC (Vector.replicate 1040 0) z.length z with ⟨s, d⟩
      refine ⟨s, d, rfl, fun k h1 h2 => ?_⟩
      subst h1 h2
      exact ⟨_, _, _, _, _, z, by have := ha.ecdhLen _ _ _ _ hz; omega, heq⟩)
  refine ⟨st', s, h, h1, fun hs => ?_⟩
  rcases h3 with ⟨h3, _⟩ | ⟨_, pk, d, held, _, hb, n⟩
  · exact absurd hs h3
  · refine ⟨rights, pk, d, held, n.holds, ?_⟩
    split at hb
    · simp at hb
    split at hb
    · simp at hb
    unfold ecComputeSharedSecret at hb
    simp only at hb
    split at hb
    · simp at hb
    split at hb
    · simp at hb
    · simp at hb
    · simp only [Option.some.injEq] at hb
      exact (storedKeyCreate_ok hb).2.1

end Sa.Whole

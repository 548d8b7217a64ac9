import Verif.Model.KeyMake
import Verif.Lemmas.WithKey
import Verif.Props.C16

/-!
# C52: key length limits

`C16.Supported` is the table of documented sizes.
-/

namespace Sa.C52

open C16 (Supported)

/-- The key that a generation request describes: type, curve, size; `none`: none can be meant. -/
def Asked : GenParams → Option (Nat × Nat × Nat)
  | .symmetric n => some (0, 0, n.toNat)
  | .ec c => some (1, c, (if c = 0 ∨ c = 3 ∨ c = 4 then 32 else if c = 1 then 48 else if c = 2 then 66 else if c = 5 then 57 else if c = 6 then 56 else
      if c = 7 then 24 else if c = 8 then 28 else 0))
  | .rsa n => some (2, 0, n.toNat)
  | .dh (some p) (some g) => if 1 ≤ g.length ∧ g.length ≤ p.length then some (3, 0, p.length) else none
  | .dh _ _ => none

theorem curveOf_tpOfCurve (c : Nat) (hc : c < 256) : curveOf (tpOfCurve c) = c := by
  unfold curveOf tpOfCurve
  simp [Vector.getElem_set]
  omega

theorem supported_ec (c : Nat) (h : ecKeySizeFromCurve c ≠ 0) : Supported 1 (curveOf (tpOfCurve c) % 256) (ecKeySizeFromCurve c) ∧ c < 9 := by
  have hc : c < 9 := by
    apply Classical.byContradiction
    intro hn
    apply h
    unfold ecKeySizeFromCurve
    split <;> first | omega | rfl
  refine ⟨?_, hc⟩
  rw [curveOf_tpOfCurve c (by omega), Nat.mod_eq_of_lt (by omega)]
  unfold Supported
  match c, hc with
  | 0, _ | 1, _ | 2, _ | 3, _ | 4, _ | 5, _ | 6, _ | 7, _ | 8, _ => simp [ecKeySizeFromCurve]

theorem create_iff (rights : Rights) (t : Nat) (tp : Vector UInt8 1040) (size : Nat) (key : Bytes) (hk : key.length + 16 < 2 ^ 64) (env : Env) :
    (∃ d, storedKeyCreate (env.ok .storedKeyAlloc) rights none t tp size key = (.OK, some d) ∧ Created env d ∧ Supported t (curveOf tp % 256) size ∧
      d.key = key ∧ d.header.rights = rights ∧ d.header.type.toNat = t ∧ d.header.typeParameters = tp ∧ d.header.size.toNat = size) ∨
    (∃ s, s ≠ Status.OK ∧ storedKeyCreate (env.ok .storedKeyAlloc) rights none t tp size key = (s, none) ∧
      (env.ok .storedKeyAlloc = true → rightsValidateFormat rights = true → ¬ Supported t (curveOf tp % 256) size)) := by
  rcases storedKeyCreate_cases (env.ok .storedKeyAlloc) rights none t tp size key with ⟨d, hd⟩ | ⟨s, hs, hd⟩
  · left
    obtain ⟨_, h2, h3, h4, h5, h6, h7⟩ := storedKeyCreate_ok hd
    refine ⟨d, hd, ⟨_, _, _, _, _, _, hk, hd⟩, ?_, h6, h2, h3, h4, h5⟩
    rw [← C16.supported_iff]
    have := h7.size
    rw [h3, h4, h5] at this
    exact this
  · right
    refine ⟨s, hs, hd, fun ha hr hsup => ?_⟩
    rw [← C16.supported_iff] at hsup
    unfold storedKeyCreate at hd
    rw [if_neg (by simp [hsup]), if_neg (by simp [hr]), if_neg (by simp [ha])] at hd
    simp at hd

/-- What the call may do. -/
def Outcome (env : Env) (st : KeyStore) (caller : Uuid) (r : Option (KeyStore × Status × Nat)) (made : StoredKey → Prop) (must : Prop) : Prop :=
  ∃ st' s h, r = some (st', s, h) ∧ KsReachable env.prims st' ∧
    ((s ≠ .OK ∧ h = SLOT_INVALID ∧ Unchanged st st' ∧ ¬ must) ∨ (s = .OK ∧ ∃ d, NewKey env.prims st st' h caller d ∧ made d))

theorem made_outcome (env : Env) (hp : env.prims.Good) (st : KeyStore) (hr : KsReachable env.prims st) (caller : Uuid) (b : Status × Option StoredKey)
    (made : StoredKey → Prop) (must : Prop) (hmust : must → (∀ s, env.ok s = true) ∧ (∃ h, h < st.slotCount ∧ (st.obj h).object = none))
    (hb : (∃ s, s ≠ Status.OK ∧ b = (s, none) ∧ ¬ must) ∨ (∃ d, b = (.OK, some d) ∧ Created env d ∧ made d)) :
    Outcome env st caller (importMade env st caller (some b)) made must := by
  rcases hb with ⟨s, hs, rfl, hm⟩ | ⟨d, rfl, hc, hm⟩
  · refine ⟨st, s, SLOT_INVALID, ?_, hr, Or.inl ⟨hs, rfl, fun _ => rfl, hm⟩⟩
    cases s <;> first | exact absurd rfl hs | rfl
  · obtain ⟨st', s, h, h1, h2, h3⟩ := import_created env hp st hr d caller hc
    refine ⟨st', s, h, by simp only [importMade, h1], h2, ?_⟩
    rcases h3 with ⟨a, b, c⟩ | ⟨a, b⟩
    · refine Or.inl ⟨a, b, c, fun hmu => a ?_⟩
      obtain ⟨hok, hf⟩ := hmust hmu
      obtain ⟨_, _, _, _, _, _, _, hd⟩ := hc
      have := importStoredKey_succeeds env hok st (ksReachable_inv _ hp st hr) d (storedKeyCreate_ok hd).2.2.2.2.2.2 caller hf
      rw [h1] at this
      exact this
    · exact Or.inr ⟨a, d, b, hm⟩

/-- Nothing fails outside, the requested rights are well-formed and a slot is free. -/
def Runs (env : Env) (st : KeyStore) (rights : Rights) : Prop :=
  (∀ s, env.ok s = true) ∧ rightsValidateFormat rights = true ∧ ∃ h, h < st.slotCount ∧ (st.obj h).object = none

/-- OpenSSL and the random number generator make the requested key. -/
def Generates (g : GenEnv) : GenParams → Prop
  | .symmetric n => (g.random n.toNat).isSome
  | .ec c => (g.ecKey c).isSome
  | .rsa n => (g.rsaKey (n.toNat * 8)).isSome
  | .dh (some p) (some q) => (g.dhKey p q).toOption.isSome
  | .dh _ _ => False

/-- The DH group in a header: the prime at offset 0, its length in the little endian 64-bit number at 512, the generator at 520, its length at 1032. -/
def DhGroup (tp : Vector UInt8 1040) (p q : Bytes) : Prop :=
  tp.toList.take p.length = p ∧ ((tp.toList.drop 512).take 8).foldr (fun b a => b.toNat + 256 * a) 0 = p.length ∧
  (tp.toList.drop 520).take q.length = q ∧ (tp.toList.drop 1032).foldr (fun b a => b.toNat + 256 * a) 0 = q.length

/-- The header of a generated DH key states the given group. -/
theorem tpOfDh_group (p q : Bytes) (hp : p.length ≤ 512) (hq : q.length ≤ 512) : DhGroup (tpOfDh p q) p q := by
  have len : (tpOfDh p q).toList.length = 1040 := by simp
  have get : ∀ i (h : i < (tpOfDh p q).toList.length), (tpOfDh p q).toList[i] =
      if i < 512 then p.getD i 0 else if i < 520 then UInt8.ofNat (p.length / 256 ^ (i - 512))
      else if i < 1032 then q.getD (i - 520) 0 else UInt8.ofNat (q.length / 256 ^ (i - 1032)) := by
    intro i h
    simp [tpOfDh]
  have num : ∀ (l : Bytes) (n : Nat), n < 256 ^ l.length → (∀ i (h : i < l.length), l[i] = UInt8.ofNat (n / 256 ^ i)) →
      l.foldr (fun b a => b.toNat + 256 * a) 0 = n := by
    intro l
    induction l with
    | nil => intro n hn _; simp at hn; simp [hn]
    | cons b l ih =>
      intro n hn hg
      have h0 := hg 0 (by simp)
      simp only [List.getElem_cons_zero, Nat.pow_zero, Nat.div_one] at h0
      rw [List.length_cons, Nat.pow_succ] at hn
      have := ih (n / 256) (by omega) (by
        intro i h
        have := hg (i + 1) (by simp; omega)
        simp only [List.getElem_cons_succ] at this
        rw [this, Nat.pow_succ, Nat.mul_comm, Nat.div_div_eq_div_mul])
      rw [List.foldr_cons, this, h0, UInt8.toNat_ofNat']
      omega
  refine ⟨?_, ?_, ?_, ?_⟩
  · apply List.ext_getElem
    · simp [len]; omega
    · intro i h1 h2
      rw [List.getElem_take, get, if_pos (by omega), List.getD_eq_getElem?_getD, List.getElem?_eq_getElem h2]
      rfl
  · have l8 : (((tpOfDh p q).toList.drop 512).take 8).length = 8 := by rw [List.length_take, List.length_drop, len]; rfl
    refine num _ _ (by rw [l8]; exact Nat.lt_of_le_of_lt hp (by decide)) ?_
    intro i h
    have hi : i < 8 := by rw [l8] at h; exact h
    rw [List.getElem_take, List.getElem_drop, get, if_neg (by omega), if_pos (by omega), show 512 + i - 512 = i by omega]
  · apply List.ext_getElem
    · simp; omega
    · intro i h1 h2
      rw [List.getElem_take, List.getElem_drop, get, if_neg (by omega), if_neg (by omega), if_pos (by omega), List.getD_eq_getElem?_getD,
        show 520 + i - 520 = i by omega, List.getElem?_eq_getElem h2]
      rfl
  · have l8 : ((tpOfDh p q).toList.drop 1032).length = 8 := by rw [List.length_drop, len]
    refine num _ _ (by rw [l8]; exact Nat.lt_of_le_of_lt hq (by decide)) ?_
    intro i h
    have hi : i < 8 := by rw [l8] at h; exact h
    rw [List.getElem_drop, get, if_neg (by omega), if_neg (by omega), if_neg (by omega), show 1032 + i - 1032 = i by omega]

/-- **C52, generation (partial).**  For every type, every 64-bit size and any failures outside: the call succeeds only if the size asked for
is a documented one, and then there is one new key of that type and size with the requested rights; it does succeed for every documented size
if nothing fails outside; otherwise nothing changes.  Missing: RSA modulus lengths whose number of bits overflows `int`, see
`C52_generate_violated`. -/
theorem C52_generate_partial (env : Env) (hp : env.prims.Good) (g : GenEnv) (hg : g.Good) (st : KeyStore) (hr : KsReachable env.prims st)
    (rights : Rights) (params : GenParams) (hno : ∀ n, params = .rsa n → FitsInt (intOfSize n * 8)) (caller : Uuid) :
    Outcome env st caller (keyGenerate env g st rights (some params) caller)
      (fun d => ∃ t c n, Asked params = some (t, c, n) ∧ Supported t c n ∧ d.header.type.toNat = t ∧ d.header.size.toNat = n ∧
        (t = 1 → curveOf d.header.typeParameters = c) ∧ d.header.rights = rights ∧
        ∀ p q, params = .dh (some p) (some q) → DhGroup d.header.typeParameters p q)
      (Runs env st rights ∧ Generates g params ∧ ∃ t c n, Asked params = some (t, c, n) ∧ Supported t c n) := by
  have must : (Runs env st rights ∧ Generates g params ∧ ∃ t c n, Asked params = some (t, c, n) ∧ Supported t c n) →
      (∀ s, env.ok s = true) ∧ (∃ h, h < st.slotCount ∧ (st.obj h).object = none) := fun h => ⟨h.1.1, h.1.2.2⟩
  unfold keyGenerate
  simp only
  cases params with
  | symmetric n =>
    simp only [generateKey]
    split
    · rename_i hn
      refine made_outcome env hp st hr caller _ _ _ must (Or.inl ⟨_, by simp, rfl, ?_⟩)
      rintro ⟨_, _, t, c, m, h1, h2⟩
      simp only [Asked, Option.some.injEq, Prod.mk.injEq] at h1
      obtain ⟨rfl, rfl, rfl⟩ := h1
      have hn' : n.toNat < 16 ∨ n.toNat > 512 := hn
      unfold Supported at h2
      omega
    · rename_i hn
      have hn' : ¬ (n.toNat < 16 ∨ n.toNat > 512) := hn
      cases hgr : g.random n.toNat with
      | none =>
        refine made_outcome env hp st hr caller _ _ _ must (Or.inl ⟨_, by simp, rfl, ?_⟩)
        rintro ⟨_, h, _⟩
        simp [Generates, hgr] at h
      | some r =>
        simp only
        have hl := hg.randomLen _ _ hgr
        refine made_outcome env hp st hr caller _ _ _ must ?_
        rcases create_iff rights KEY_TYPE_SYMMETRIC (Vector.replicate 1040 0) n.toNat r (by omega) env with ⟨d, h1, h2, h3, h4, h5, h6, h7, h8⟩ | ⟨s, hs, h1, h2⟩
        · exact Or.inr ⟨d, h1, h2, 0, 0, n.toNat, rfl, Or.inl ⟨rfl, by omega, by omega⟩, h6, h8, by simp, h5, by simp⟩
        · refine Or.inl ⟨s, hs, h1, fun hmu => ?_⟩
          exact h2 (hmu.1.1 _) hmu.1.2.1 (Or.inl ⟨rfl, by omega, by omega⟩)
  | ec c =>
    simp only [generateKey]
    have hasked : Asked (.ec c) = some (1, c, ecKeySizeFromCurve c) := by
      simp only [Asked, Option.some.injEq, Prod.mk.injEq, true_and]
      by_cases hc : c < 9
      · match c, hc with
        | 0, _ | 1, _ | 2, _ | 3, _ | 4, _ | 5, _ | 6, _ | 7, _ | 8, _ => simp [ecKeySizeFromCurve]
      · have h0 : ecKeySizeFromCurve c = 0 := by
          apply Classical.byContradiction
          intro h; exact hc (supported_ec c h).2
        rw [h0]
        repeat rw [if_neg (by omega)]
    split
    · rename_i hn
      refine made_outcome env hp st hr caller _ _ _ must (Or.inl ⟨_, by simp, rfl, ?_⟩)
      rintro ⟨_, _, t, c', m, h1, h2⟩
      rw [hasked, hn] at h1
      simp only [Option.some.injEq, Prod.mk.injEq] at h1
      obtain ⟨rfl, rfl, rfl⟩ := h1
      unfold Supported at h2
      simp at h2
    · rename_i hn
      obtain ⟨hs1, hc⟩ := supported_ec c hn
      have hcv : curveOf (tpOfCurve c) = c := curveOf_tpOfCurve c (by omega)
      cases hgr : g.ecKey c with
      | none =>
        refine made_outcome env hp st hr caller _ _ _ must (Or.inl ⟨_, by simp, rfl, ?_⟩)
        rintro ⟨_, h, _⟩
        simp [Generates, hgr] at h
      | some r =>
        simp only
        refine made_outcome env hp st hr caller _ _ _ must ?_
        rcases create_iff rights KEY_TYPE_EC (tpOfCurve c) (ecKeySizeFromCurve c) r (hg.ecLen _ _ hgr) env with ⟨d, h1, h2, h3, h4, h5, h6, h7, h8⟩ | ⟨s, hs, h1, h2⟩
        · refine Or.inr ⟨d, h1, h2, 1, c, _, hasked, ?_, h6, h8, fun _ => by rw [h7, hcv], h5, by simp⟩
          rw [hcv, Nat.mod_eq_of_lt (by omega)] at hs1
          exact hs1
        · exact Or.inl ⟨s, hs, h1, fun hmu => h2 (hmu.1.1 _) hmu.1.2.1 hs1⟩
  | rsa n =>
    simp only [generateKey]
    rw [if_neg (by simpa using hno n rfl)]
    cases hgr : g.rsaKey (intOfSize n * 8) with
    | none =>
      refine made_outcome env hp st hr caller _ _ _ must (Or.inl ⟨_, by simp, rfl, ?_⟩)
      rintro ⟨_, h, t, c, m, h1, h2⟩
      simp only [Asked, Option.some.injEq, Prod.mk.injEq] at h1
      obtain ⟨rfl, rfl, rfl⟩ := h1
      have hn : n.toNat ≤ 512 := by
        unfold Supported at h2
        simp at h2
        omega
      have hi : intOfSize n = (n.toNat : Int) := by
        unfold intOfSize
        simp only
        rw [if_pos (by omega)]
        omega
      rw [hi] at hgr
      simp [Generates, hgr] at h
    | some r =>
      simp only
      refine made_outcome env hp st hr caller _ _ _ must ?_
      rcases create_iff rights KEY_TYPE_RSA (Vector.replicate 1040 0) n.toNat r (hg.rsaLen _ _ hgr) env with ⟨d, h1, h2, h3, h4, h5, h6, h7, h8⟩ | ⟨s, hs, h1, h2⟩
      · refine Or.inr ⟨d, h1, h2, 2, 0, n.toNat, rfl, ?_, h6, h8, by simp, h5, by simp⟩
        unfold Supported KEY_TYPE_RSA at *
        simpa using h3
      · refine Or.inl ⟨s, hs, h1, fun hmu => ?_⟩
        obtain ⟨hru, _, t, c, m, h3, h4⟩ := hmu
        simp only [Asked, Option.some.injEq, Prod.mk.injEq] at h3
        obtain ⟨rfl, rfl, rfl⟩ := h3
        refine h2 (hru.1 _) hru.2.1 ?_
        unfold Supported KEY_TYPE_RSA at *
        simpa using h4
  | dh p q =>
    simp only [generateKey]
    cases p with
    | none =>
      refine made_outcome env hp st hr caller _ _ _ must (Or.inl ⟨_, by simp, rfl, ?_⟩)
      rintro ⟨_, h, _⟩
      simp [Generates] at h
    | some p =>
      simp only
      split
      · rename_i hsz
        refine made_outcome env hp st hr caller _ _ _ must (Or.inl ⟨_, by simp, rfl, ?_⟩)
        rintro ⟨_, _, t, c, m, h1, h2⟩
        cases q with
        | none => simp [Asked] at h1
        | some q =>
          simp only [Asked] at h1
          split at h1
          · simp only [Option.some.injEq, Prod.mk.injEq] at h1
            obtain ⟨rfl, rfl, rfl⟩ := h1
            unfold Supported at h2
            simp only [keyTypeSupportsDh, validDhSize, beq_self_eq_true, Bool.true_and, Bool.and_eq_true, Bool.not_eq_true', Bool.and_eq_false_iff,
              decide_eq_false_iff_not] at hsz
            omega
          · simp at h1
      · rename_i hsz
        simp only [keyTypeSupportsDh, validDhSize, beq_self_eq_true, Bool.true_and, Bool.not_eq_true', Bool.and_eq_false_iff,
          decide_eq_false_iff_not] at hsz
        cases q with
        | none =>
          refine made_outcome env hp st hr caller _ _ _ must (Or.inl ⟨_, by simp, rfl, ?_⟩)
          rintro ⟨_, h, _⟩
          simp [Generates] at h
        | some q =>
          simp only
          split
          · rename_i hq
            refine made_outcome env hp st hr caller _ _ _ must (Or.inl ⟨_, by simp, rfl, ?_⟩)
            rintro ⟨_, _, t, c, m, h1, h2⟩
            simp only [Asked] at h1
            rw [if_neg (by omega)] at h1
            simp at h1
          · rename_i hq
            have hasked : Asked (.dh (some p) (some q)) = some (3, 0, p.length) := by
              simp only [Asked]; rw [if_pos (by omega)]
            have hsup : ∀ c, Supported 3 c p.length := fun c => Or.inr (Or.inr (Or.inr ⟨rfl, by omega, by omega⟩))
            cases hgr : g.dhKey p q with
            | error s =>
              refine made_outcome env hp st hr caller _ _ _ must (Or.inl ⟨_, hg.dhFail _ _ _ hgr, rfl, ?_⟩)
              rintro ⟨_, h, _⟩
              simp [Generates, hgr, Except.toOption] at h
            | ok r =>
              simp only
              refine made_outcome env hp st hr caller _ _ _ must ?_
              rcases create_iff rights KEY_TYPE_DH (tpOfDh p q) p.length r (hg.dhLen _ _ _ hgr) env with ⟨d, h1, h2, h3, h4, h5, h6, h7, h8⟩ | ⟨s, hs, h1, h2⟩
              · refine Or.inr ⟨d, h1, h2, 3, 0, _, hasked, hsup 0, h6, h8, by simp, h5, ?_⟩
                intro p' q' hpq
                cases hpq
                rw [h7]
                exact tpOfDh_group p q (by omega) (by omega)
              · exact Or.inl ⟨s, hs, h1, fun hmu => h2 (hmu.1.1 _) hmu.1.2.1 (hsup _)⟩

/-- Rights of an import request. -/
def rightsOf : ImportFormat → Rights
  | .symmetricBytes r => r
  | .ecPrivateBytes _ r => r
  | .rsaPrivateKeyInfo r => r

/-- The key that an import request describes: type, curve, size. -/
def Given (u : UnwrapPrims) (input : Bytes) : ImportFormat → Option (Nat × Nat × Nat)
  | .symmetricBytes _ => some (0, 0, input.length)
  | .ecPrivateBytes c _ => if u.ecValid c input = true then some (1, c, ecKeySizeFromCurve c) else none
  | .rsaPrivateKeyInfo _ => some (2, 0, u.rsaSize input)

/-- **C52, import.**  The same for imported keys: for all inputs, the call succeeds only for documented sizes and makes a key of that type and
size with the given bytes and rights; it does succeed for every documented size if nothing fails outside; otherwise nothing changes. -/
theorem C52_import (env : Env) (hp : env.prims.Good) (u : UnwrapPrims) (st : KeyStore) (hr : KsReachable env.prims st) (input : Bytes)
    (hl : input.length + 16 < 2 ^ 64) (f : ImportFormat) (caller : Uuid) :
    Outcome env st caller (keyImport env u st input f caller)
      (fun d => ∃ t c n, Given u input f = some (t, c, n) ∧ Supported t c n ∧ d.header.type.toNat = t ∧ d.header.size.toNat = n ∧
        (t = 1 → curveOf d.header.typeParameters = c) ∧ d.header.rights = rightsOf f ∧ d.key = input)
      (Runs env st (rightsOf f) ∧ ∃ t c n, Given u input f = some (t, c, n) ∧ Supported t c n) := by
  unfold keyImport
  refine made_outcome env hp st hr caller _ _ _ (fun h => ⟨h.1.1, h.1.2.2⟩) ?_
  cases f with
  | symmetricBytes rights =>
    simp only [importKeyBytes]
    split
    · rename_i hn
      refine Or.inl ⟨_, by simp, rfl, ?_⟩
      rintro ⟨_, t, c, m, h1, h2⟩
      simp only [Given, Option.some.injEq, Prod.mk.injEq] at h1
      obtain ⟨rfl, rfl, rfl⟩ := h1
      unfold Supported at h2
      omega
    · rename_i hn
      rcases create_iff rights KEY_TYPE_SYMMETRIC (Vector.replicate 1040 0) input.length input hl env with ⟨d, h1, h2, h3, h4, h5, h6, h7, h8⟩ | ⟨s, hs, h1, h2⟩
      · exact Or.inr ⟨d, h1, h2, 0, 0, _, rfl, Or.inl ⟨rfl, by omega, by omega⟩, h6, h8, by simp, h5, h4⟩
      · exact Or.inl ⟨s, hs, h1, fun hmu => h2 (hmu.1.1 _) hmu.1.2.1 (Or.inl ⟨rfl, by omega, by omega⟩)⟩
  | ecPrivateBytes c rights =>
    simp only [importKeyBytes]
    cases hv : u.ecValid c input with
    | false =>
      simp only [Bool.false_eq_true, if_false, if_true]
      refine Or.inl ⟨_, by simp, rfl, ?_⟩
      rintro ⟨_, t, c', m, h1, h2⟩
      simp [Given, hv] at h1
    | true =>
      simp only [if_true]
      split
      · rename_i hn
        refine Or.inl ⟨_, by simp, rfl, ?_⟩
        rintro ⟨_, t, c', m, h1, h2⟩
        simp only [Given, hv, if_true, hn, Option.some.injEq, Prod.mk.injEq] at h1
        obtain ⟨rfl, rfl, rfl⟩ := h1
        unfold Supported at h2
        simp at h2
      · rename_i hn
        obtain ⟨hs1, hc⟩ := supported_ec c hn
        have hcv : curveOf (tpOfCurve c) = c := curveOf_tpOfCurve c (by omega)
        rcases create_iff rights KEY_TYPE_EC (tpOfCurve c) (ecKeySizeFromCurve c) input hl env with ⟨d, h1, h2, h3, h4, h5, h6, h7, h8⟩ | ⟨s, hs, h1, h2⟩
        · refine Or.inr ⟨d, h1, h2, 1, c, _, by simp [Given, hv], ?_, h6, h8, fun _ => by rw [h7, hcv], h5, h4⟩
          rw [hcv, Nat.mod_eq_of_lt (by omega)] at hs1
          exact hs1
        · exact Or.inl ⟨s, hs, h1, fun hmu => h2 (hmu.1.1 _) hmu.1.2.1 hs1⟩
  | rsaPrivateKeyInfo rights =>
    simp only [importKeyBytes]
    have bad : ∀ s, s ≠ Status.OK → ¬ (u.rsaSize input = 128 ∨ u.rsaSize input = 256 ∨ u.rsaSize input = 384 ∨ u.rsaSize input = 512) →
        ∃ s', s' ≠ Status.OK ∧ (s, (none : Option StoredKey)) = (s', none) ∧
          ¬ (Runs env st rights ∧ ∃ t c n, Given u input (.rsaPrivateKeyInfo rights) = some (t, c, n) ∧ Supported t c n) := by
      intro s hs hn
      refine ⟨s, hs, rfl, ?_⟩
      rintro ⟨_, t, c, m, h1, h2⟩
      simp only [Given, Option.some.injEq, Prod.mk.injEq] at h1
      obtain ⟨rfl, rfl, rfl⟩ := h1
      unfold Supported at h2
      simp at h2
      omega
    split
    · exact Or.inl (bad _ (by simp) (by omega))
    split
    · exact Or.inl (bad _ (by simp) (by omega))
    rename_i h1 h2
    have hsup : ∀ c, Supported 2 c (u.rsaSize input) := fun c => Or.inr (Or.inr (Or.inl ⟨rfl, by simp; omega⟩))
    rcases create_iff rights KEY_TYPE_RSA (Vector.replicate 1040 0) (u.rsaSize input) input hl env with ⟨d, h1, h2, h3, h4, h5, h6, h7, h8⟩ | ⟨s, hs, h1, h2⟩
    · exact Or.inr ⟨d, h1, h2, 2, 0, _, rfl, hsup 0, h6, h8, by simp, h5, h4⟩
    · exact Or.inl ⟨s, hs, h1, fun hmu => h2 (hmu.1.1 _) hmu.1.2.1 (hsup _)⟩

/-- **C52, NULL parameters** are refused. -/
theorem C52_null (env : Env) (g : GenEnv) (st : KeyStore) (rights : Rights) (caller : Uuid) :
    keyGenerate env g st rights none caller = some (st, .NULL_PARAMETER, SLOT_INVALID) := rfl

/-- **C52 is violated by RSA generation**: a modulus length of 2^28 bytes is not refused; its number of bits overflows `int` (rsa.c:619). -/
theorem C52_generate_violated (env : Env) (g : GenEnv) (st : KeyStore) (rights : Rights) (caller : Uuid) :
    keyGenerate env g st rights (some (.rsa 0x10000000)) caller = none := by
  have : ¬ FitsInt (intOfSize 0x10000000 * 8) := by decide
  simp [keyGenerate, generateKey, this, importMade]

/-! ## Concrete cases -/

def genv : GenEnv where
  random n := some (List.replicate n 7)
  ecKey _ := some [1, 2, 3]
  rsaKey _ := some [4, 5, 6]
  dhKey _ _ := .ok [7, 8]

theorem genv_good : genv.Good where
  randomLen := by intro n r h; simp [genv] at h; rw [← h]; simp
  ecLen := by intro n r h; simp [genv] at h; rw [← h]; decide
  rsaLen := by intro n r h; simp [genv] at h; rw [← h]; decide
  dhLen := by intro p q r h; simp [genv] at h; rw [← h]; decide
  dhFail := by intro p q s h; simp [genv] at h

def emptyStore : Option KeyStore := objectStoreInit WrappedKey 32

theorem empty_free : ∃ st, emptyStore = some st ∧ KsReachable C08.toy st ∧ ∃ h, h < st.slotCount ∧ (st.obj h).object = none := by
  have h1 : (emptyStore.map fun st => decide (30 < st.slotCount) && (st.obj 30).object.isNone) = some true := by decide +kernel
  cases h : emptyStore with
  | none => rw [h] at h1; simp at h1
  | some st =>
    rw [h] at h1
    simp only [Option.map_some, Option.some.injEq, Bool.and_eq_true, decide_eq_true_eq, Option.isNone_iff_eq_none] at h1
    exact ⟨st, rfl, ⟨32, st, [], by decide, h, by simp, rfl⟩, 30, h1⟩

/-- A 2048 bit RSA key is made, and P-521 and 257 byte symmetric ones. -/
example : ∃ st, emptyStore = some st ∧ ∀ params ∈ [GenParams.rsa 256, .ec 2, .symmetric 257],
    ∃ st' h, keyGenerate C08.env0 genv st rightsAllowAll (some params) C08.u7 = some (st', .OK, h) := by
  obtain ⟨st, h0, hr, hf⟩ := empty_free
  refine ⟨st, h0, ?_⟩
  intro params hp
  have key : ∀ params : GenParams, (∀ n, params = .rsa n → FitsInt (intOfSize n * 8)) → Generates genv params →
      (∃ t c n, Asked params = some (t, c, n) ∧ Supported t c n) →
      ∃ st' h, keyGenerate C08.env0 genv st rightsAllowAll (some params) C08.u7 = some (st', .OK, h) := by
    intro params hno hgen hask
    obtain ⟨st', s, h, h1, _, h2⟩ := C52_generate_partial C08.env0 C08.toy_good genv genv_good st hr rightsAllowAll params hno C08.u7
    rcases h2 with ⟨_, _, _, hm⟩ | ⟨rfl, _⟩
    · exact absurd ⟨⟨fun _ => rfl, by decide +kernel, hf⟩, hgen, hask⟩ hm
    · exact ⟨st', h, h1⟩
  simp only [List.mem_cons, List.not_mem_nil, or_false] at hp
  rcases hp with rfl | rfl | rfl
  · refine key _ ?_ rfl ⟨2, 0, 256, rfl, by simp [Supported]⟩
    intro n hn; cases hn; decide
  · exact key _ (by simp) rfl ⟨1, 2, 66, rfl, by simp [Supported]⟩
  · exact key _ (by simp) rfl ⟨0, 0, 257, rfl, by simp [Supported]⟩

end Sa.C52

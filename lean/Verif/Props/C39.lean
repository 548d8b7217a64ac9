import Verif.Lemmas.Rights
import Verif.Model.TypejRights

/-!
# C39: Type-J content rights map to exactly the documented flags

The specification is a set of equivalences between flags of the key and codes of the container, independent of order and repetition.
-/

namespace Sa.C39

/-- The codes with a meaning. -/
def known : List UInt8 := [0, 1, 2, 3, 4, 5, 8]

/-- The documented meaning of a set of codes, as the set of output flags: bit `i` is set. -/
def Means (codes : List UInt8) (i : Nat) : Prop :=
  (i = 12 ∧ 1 ∉ codes) ∨                    -- SVP optional
  (i = 11 ∧ 2 ∈ codes) ∨                    -- DTCP
  (i = 9 ∧ 3 ∈ codes) ∨                     -- HDCP 1.4
  (i = 10 ∧ 4 ∈ codes) ∨                    -- HDCP 2.2
  (i = 7 ∧ 5 ∈ codes) ∨                     -- analog with CGMS-A
  (i = 6 ∧ 5 ∈ codes ∧ 8 ∉ codes)           -- unprotected analog

/-- What the state of the loop must be after the codes `done`, when the other flags were those of `f0`. -/
structure After (f0 : UInt64) (done : List UInt8) (s : CkrState) : Prop where
  cgmsa : s.cgmsa = true ↔ 8 ∈ done
  analog : s.analog = true ↔ 5 ∈ done
  flags : ∀ i, Flag s.flags i ↔ Means done i ∨ (Flag f0 i ∧ ¬ (6 ≤ i ∧ i ≤ 12))

theorem step_after {f0 : UInt64} {done : List UInt8} {s : CkrState} (h : After f0 done s) (c : UInt8) :
    (c ∈ known → ∃ s', ckrStep s c = some s' ∧ After f0 (done ++ [c]) s') ∧ (c ∉ known → ckrStep s c = none) := by
  obtain ⟨hg, ha, hf⟩ := h
  constructor
  · intro hc
    simp only [known, List.mem_cons, List.not_mem_nil, or_false] at hc
    rcases hc with rfl | rfl | rfl | rfl | rfl | rfl | rfl
    · refine ⟨_, rfl, by simp [hg], by simp [ha], fun i => ?_⟩
      rw [hf]; simp [Means]
    · refine ⟨_, rfl, by simp [hg], by simp [ha], fun i => ?_⟩
      simp only [bitClear_flag _ _ _ (show FLAG_SVP_OPTIONAL < 64 by decide), hf]
      simp [Means, FLAG_SVP_OPTIONAL]; grind
    · refine ⟨_, rfl, by simp [hg], by simp [ha], fun i => ?_⟩
      simp only [bitSet_flag _ _ _ (show FLAG_DIGITAL_DTCP < 64 by decide), hf]
      simp [Means, FLAG_DIGITAL_DTCP]; grind
    · refine ⟨_, rfl, by simp [hg], by simp [ha], fun i => ?_⟩
      simp only [bitSet_flag _ _ _ (show FLAG_DIGITAL_HDCP14 < 64 by decide), hf]
      simp [Means, FLAG_DIGITAL_HDCP14]; grind
    · refine ⟨_, rfl, by simp [hg], by simp [ha], fun i => ?_⟩
      simp only [bitSet_flag _ _ _ (show FLAG_DIGITAL_HDCP22 < 64 by decide), hf]
      simp [Means, FLAG_DIGITAL_HDCP22]; grind
    · refine ⟨_, rfl, by simp [hg], by simp, fun i => ?_⟩
      simp only [bitSet_flag _ _ _ (show FLAG_ANALOG_CGMSA < 64 by decide)]
      by_cases h8 : s.cgmsa = true
      · simp only [h8, if_true, bitClear_flag _ _ _ (show FLAG_ANALOG_UNPROTECTED < 64 by decide), hf]
        have := hg.mp h8
        simp [Means, FLAG_ANALOG_CGMSA, FLAG_ANALOG_UNPROTECTED]; grind
      · simp only [h8, bitSet_flag _ _ _ (show FLAG_ANALOG_UNPROTECTED < 64 by decide), hf]
        have := fun h => h8 (hg.mpr h)
        simp [Means, FLAG_ANALOG_CGMSA, FLAG_ANALOG_UNPROTECTED, bitSet_flag, hf]; grind
    · by_cases h5 : s.analog = true
      · refine ⟨{ s with cgmsa := true, flags := bitSet (bitClear s.flags FLAG_ANALOG_UNPROTECTED) FLAG_ANALOG_CGMSA }, ?_, by simp, by simp [ha], fun i => ?_⟩
        · show (if s.analog = true then _ else _) = _
          rw [if_pos h5]
        · simp only [bitSet_flag _ _ _ (show FLAG_ANALOG_CGMSA < 64 by decide), bitClear_flag _ _ _ (show FLAG_ANALOG_UNPROTECTED < 64 by decide), hf]
          have := ha.mp h5
          simp [Means, FLAG_ANALOG_CGMSA, FLAG_ANALOG_UNPROTECTED]; grind
      · refine ⟨{ s with cgmsa := true }, ?_, by simp, by simp [ha], fun i => ?_⟩
        · show (if s.analog = true then _ else _) = _
          rw [if_neg h5]
        · have := fun h => h5 (ha.mpr h)
          simp only [hf]
          simp [Means]; grind
  · intro hc
    simp only [known, List.mem_cons, List.not_mem_nil, or_false, not_or] at hc
    obtain ⟨h0, h1, h2, h3, h4, h5, h8⟩ := hc
    unfold ckrStep
    simp [TYPEJ_RIGHT_NOT_SET, TYPEJ_RIGHT_SVP_REQUIRED, TYPEJ_RIGHT_DTCP, TYPEJ_RIGHT_HDCP_1_4, TYPEJ_RIGHT_HDCP_2_2, TYPEJ_RIGHT_ANALOG,
      TYPEJ_RIGHT_CGMSA_REQUIRED, h0, h1, h2, h3, h4, h5, h8]

theorem loop_after (f0 : UInt64) (rest : List UInt8) : ∀ (done : List UInt8) (s : CkrState), After f0 done s →
    ((∀ c ∈ rest, c ∈ known) → ∃ s', ckrLoop s rest = some s' ∧ After f0 (done ++ rest) s') ∧
    (∀ s', ckrLoop s rest = some s' → ∀ c ∈ rest, c ∈ known) := by
  induction rest with
  | nil => intro done s h; exact ⟨fun _ => ⟨s, rfl, by simpa using h⟩, fun _ _ c hc => by simp at hc⟩
  | cons c rest ih =>
    intro done s h
    obtain ⟨hk, hu⟩ := step_after h c
    by_cases hc : c ∈ known
    · obtain ⟨s1, hs1, ha1⟩ := hk hc
      obtain ⟨i1, i2⟩ := ih _ _ ha1
      have he : ckrLoop s (c :: rest) = ckrLoop s1 rest := by simp only [ckrLoop, hs1]
      rw [he]
      constructor
      · intro hall
        obtain ⟨s', e, a⟩ := i1 fun d hd => hall d (List.mem_cons_of_mem _ hd)
        exact ⟨s', e, by simpa using a⟩
      · intro s' hs' d hd
        rcases List.mem_cons.mp hd with rfl | hd
        · exact hc
        · exact i2 s' hs' d hd
    · have he : ckrLoop s (c :: rest) = none := by simp only [ckrLoop, hu hc]
      rw [he]
      exact ⟨fun hall => absurd (hall c List.mem_cons_self) hc, fun _ h => by simp at h⟩

/-- **C39.**  For every list of codes: it is rejected exactly if it contains an unknown code; otherwise the output protection flags (bits 6 to 12) of the
result are exactly those that the set of codes means, and all other flags are those that were there before. -/
theorem C39 (f0 : UInt64) (codes : List UInt8) :
    ((∃ c ∈ codes, c ∉ known) ↔ contentKeyRightsToUsageFlags f0 codes = none) ∧
    ∀ f, contentKeyRightsToUsageFlags f0 codes = some f → ∀ i,
      (6 ≤ i ∧ i ≤ 12 → (Flag f i ↔ Means codes i)) ∧ (¬ (6 ≤ i ∧ i ≤ 12) → (Flag f i ↔ Flag f0 i)) := by
  have h0 : After f0 [] ⟨bitSet (f0 &&& ~~~OUTPUT_PROTECTIONS_MASK) FLAG_SVP_OPTIONAL, false, false⟩ := by
    refine ⟨by simp, by simp, fun i => ?_⟩
    simp only [bitSet_flag _ _ _ (show FLAG_SVP_OPTIONAL < 64 by decide), flag_and, flag_not, outputMask_flag]
    have := flag_lt f0 i
    simp [Means, FLAG_SVP_OPTIONAL]; grind
  obtain ⟨h1, h2⟩ := loop_after f0 codes [] _ h0
  unfold contentKeyRightsToUsageFlags
  simp only [Option.map_eq_none_iff, Option.map_eq_some_iff, forall_exists_index, and_imp]
  constructor
  · constructor
    · rintro ⟨c, hc, hk⟩
      cases h : ckrLoop ⟨bitSet (f0 &&& ~~~OUTPUT_PROTECTIONS_MASK) FLAG_SVP_OPTIONAL, false, false⟩ codes with
      | none => rfl
      | some s => exact absurd (h2 s h c hc) hk
    · intro hn
      apply Classical.byContradiction
      intro hall
      obtain ⟨s, hs, _⟩ := h1 fun c hc => Classical.byContradiction fun hk => hall ⟨c, hc, hk⟩
      rw [hs] at hn; simp at hn
  · intro f s hs hf i
    obtain ⟨s', hs', ha⟩ := h1 (h2 s hs)
    rw [hs, Option.some.injEq] at hs'
    subst hs'
    subst hf
    have hi := ha.flags i
    simp only [List.nil_append] at hi
    refine ⟨fun hb hc => by rw [hi]; exact ⟨fun h' => h'.elim id fun h' => absurd ⟨hb, hc⟩ h'.2, Or.inl⟩, fun h => ?_⟩
    rw [hi]
    constructor
    · rintro (hm | hm)
      · unfold Means at hm; omega
      · exact hm.1
    · exact fun hf => Or.inr ⟨hf, h⟩

/-- The result does not depend on order or repetition. -/
theorem C39_order (f0 : UInt64) (a b : List UInt8) (h : ∀ c, c ∈ a ↔ c ∈ b) : contentKeyRightsToUsageFlags f0 a = contentKeyRightsToUsageFlags f0 b := by
  cases ha : contentKeyRightsToUsageFlags f0 a with
  | none =>
    obtain ⟨c, hc, hk⟩ := (C39 f0 a).1.mpr ha
    exact ((C39 f0 b).1.mp ⟨c, (h c).mp hc, hk⟩).symm
  | some f =>
    cases hb : contentKeyRightsToUsageFlags f0 b with
    | none =>
      obtain ⟨c, hc, hk⟩ := (C39 f0 b).1.mpr hb
      rw [(C39 f0 a).1.mp ⟨c, (h c).mpr hc, hk⟩] at ha; simp at ha
    | some g =>
      congr 1
      refine flag_ext f g fun i => ?_
      obtain ⟨a1, a2⟩ := (C39 f0 a).2 f ha i
      obtain ⟨b1, b2⟩ := (C39 f0 b).2 g hb i
      by_cases hi : 6 ≤ i ∧ i ≤ 12
      · rw [a1 hi, b1 hi]; simp only [Means, h]
      · rw [a2 hi, b2 hi]

/-- Codes HDCP 2.2, analog, CGMS-A required, analog again, with all other flags set before: SVP optional, HDCP 2.2, analog with CGMS-A. -/
example : contentKeyRightsToUsageFlags 0xFFFFFFFFFFFFFFFF [4, 5, 8, 5] = some 0xFFFFFFFFFFFFF4BF := by decide
example : contentKeyRightsToUsageFlags 0 [1, 3] = some 0x200 ∧ contentKeyRightsToUsageFlags 0 [3, 1, 3, 0] = some 0x200 ∧
    contentKeyRightsToUsageFlags 0 [5] = some 0x10C0 ∧ contentKeyRightsToUsageFlags 0 [5, 6] = none := by decide

end Sa.C39

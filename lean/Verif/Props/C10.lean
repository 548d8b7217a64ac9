import Verif.Lemmas.Rights

/-!
# C10: video output protection is enforced per output
-/

namespace Sa.C10

/-- The conditions of the English statement, output by output: flag number of sa_types.h and number of active outputs of that
kind. -/
def outputs (v : VideoOutputState) : List (Nat × Int) :=
  [(6, v.analogUnprotectedCount), (7, v.analogCgmsaCount), (8, v.digitalUnprotectedCount), (9, v.digitalHdcp14Count),
   (10, v.digitalHdcp22Count)]

/-- **C10.**  The output state is acceptable exactly if SVP is enabled or optional for the key, and every kind of output with at
least one active output is permitted by its flag. -/
theorem C10_output_iff (r : Rights) (v : VideoOutputState) :
    rightsAllowedVideoOutputState r v = true ↔
      (v.svpEnabled = true ∨ Flag r.usageFlags 12) ∧
      ∀ p ∈ outputs v, p.2 > 0 → Flag r.usageFlags p.1 := by
  have b := fun i hi => bitTest_iff r.usageFlags i hi
  have c := fun i hi => bitTest_false_iff r.usageFlags i hi
  unfold rightsAllowedVideoOutputState outputs FLAG_SVP_OPTIONAL FLAG_ANALOG_UNPROTECTED FLAG_ANALOG_CGMSA
    FLAG_DIGITAL_UNPROTECTED FLAG_DIGITAL_HDCP14 FLAG_DIGITAL_HDCP22
  simp only [List.forall_mem_cons, List.not_mem_nil, false_implies, implies_true, and_true]
  rw [← b 12 (by decide), ← b 6 (by decide), ← b 7 (by decide), ← b 8 (by decide), ← b 9 (by decide), ← b 10 (by decide)]
  cases bitTest r.usageFlags 12 <;> cases bitTest r.usageFlags 6 <;> cases bitTest r.usageFlags 7 <;>
    cases bitTest r.usageFlags 8 <;> cases bitTest r.usageFlags 9 <;> cases bitTest r.usageFlags 10 <;>
    cases v.svpEnabled <;> simp <;> omega

/-- **C10 (monotone).**  A key with more permitted flags is usable in every output state in which the other key is. -/
theorem C10_monotone (r r' : Rights) (h : ∀ i, Flag r.usageFlags i → Flag r'.usageFlags i) (v : VideoOutputState)
    (ha : rightsAllowedVideoOutputState r v = true) : rightsAllowedVideoOutputState r' v = true := by
  rw [C10_output_iff] at *
  exact ⟨ha.1.imp id (h 12), fun p hp hc => h _ (ha.2 p hp hc)⟩

/-- **C10 (monotone in the state).**  Switching outputs off, or SVP on, never makes a usable key unusable. -/
theorem C10_fewer_outputs (r : Rights) (v v' : VideoOutputState)
    (h1 : v'.analogUnprotectedCount ≤ v.analogUnprotectedCount) (h2 : v'.analogCgmsaCount ≤ v.analogCgmsaCount)
    (h3 : v'.digitalUnprotectedCount ≤ v.digitalUnprotectedCount) (h4 : v'.digitalHdcp14Count ≤ v.digitalHdcp14Count)
    (h5 : v'.digitalHdcp22Count ≤ v.digitalHdcp22Count) (h6 : v.svpEnabled = true → v'.svpEnabled = true)
    (ha : rightsAllowedVideoOutputState r v = true) : rightsAllowedVideoOutputState r v' = true := by
  rw [C10_output_iff] at *
  refine ⟨ha.1.imp h6 id, ?_⟩
  have ha := ha.2
  simp only [outputs, List.forall_mem_cons, List.not_mem_nil, false_implies, implies_true, and_true] at ha ⊢
  obtain ⟨a1, a2, a3, a4, a5⟩ := ha
  exact ⟨fun h => a1 (by omega), fun h => a2 (by omega), fun h => a3 (by omega), fun h => a4 (by omega),
    fun h => a5 (by omega)⟩

def hdmi22 : VideoOutputState := ⟨0, 0, 0, 0, 1, true⟩
def analog : VideoOutputState := ⟨1, 0, 0, 0, 1, true⟩
def strict : Rights := { rightsAllowAll with usageFlags := 0x410 }  -- DECRYPT, HDCP 2.2; SVP required

/-- Non-trivial cases. -/
example : rightsAllowedVideoOutputState strict hdmi22 = true := by decide
example : rightsAllowedVideoOutputState strict analog = false := by decide
example : rightsAllowedVideoOutputState strict { hdmi22 with svpEnabled := false } = false := by decide

end Sa.C10

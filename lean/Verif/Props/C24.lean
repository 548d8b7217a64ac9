import Verif.Lemmas.CencVerify
import Verif.Props.C10

/-!
# C24: Samples are validated before anything is processed

Full statement: a sample is accepted for processing only if the total of its subsample lengths has no 64-bit overflow and fits at the
offsets of both buffers; if any sample of a call is rejected nothing has been written for any of them.

The first half is proved (`C24_accepted`).  The second half holds for the checks made before processing starts (`C24_rejected`), but the
checks use the offsets from before the call: if two samples use the same `sa_buffer`, the second can still be rejected after the first has
been written (`C24_violated`).  Without sharing a call that starts processing only fails if the cipher itself fails (`C24_partial`).
-/

namespace Sa.C24

open CencSpec

/-- **C24 (accepted samples).**  For every session state, every state of the caller's buffers and every sample: if the sample passes the
checks, its number of bytes (the mathematical sum) is positive and below 2^64, and that many bytes exist at the current offsets of its
output and its input buffer. -/
theorem C24_accepted {σ : Type} (env : RightsEnv) (w : CencWorld σ) (hw : SvpReachable w.svp) (s : Sample) (u : Uuid)
    (hok : (verifySample env w s u).2 = .OK) :
    ∃ out input subs a b, s.out = some out ∧ s.input = some input ∧ s.subs = some subs ∧
      0 < total (subs.map Subsample.nat) ∧ total (subs.map Subsample.nat) < 2 ^ 64 ∧
      Located w.svp u (w.bufs out) (total (subs.map Subsample.nat)) a ∧
      Located w.svp u (w.bufs input) (total (subs.map Subsample.nat)) b := by
  obtain ⟨out, input, subs, a, b, h⟩ := (verifySample_spec env w (svpReachable_inv _ hw) s u).2 hok
  obtain ⟨hl, _⟩ := cencRequiredLength_spec subs h.required
  refine ⟨out, input, subs, a, b, h.hout, h.hinput, h.hsubs, ?_, ?_, h.locOut, h.locIn⟩
  · rw [← hl]
    rcases Nat.eq_zero_or_pos (cencRequiredLength subs).toNat with hz | hz
    · exact absurd (UInt64.toNat.inj (by rw [hz]; rfl)) h.required
    · exact hz
  · rw [← hl]; exact UInt64.toNat_lt _

/-- **C24 (rejected before processing).**  If any sample of a call does not pass the checks, the call fails, and memory, the offsets of all
buffers, the cipher contexts and the SVP table are as before; no byte was accessed. -/
theorem C24_rejected {σ : Type} (env : RightsEnv) (ops : SymOps σ) (fuel : Nat) (w : CencWorld σ) (hw : SvpReachable w.svp)
    (pre post : List Sample) (s : Sample) (u : Uuid) (hbad : (verifySample env w s u).2 ≠ .OK) :
    ∃ st, st ≠ Status.OK ∧ processCommonEncryption env ops fuel w (pre ++ s :: post) u = some (w, st, []) := by
  have inv := svpReachable_inv _ hw
  have hst : ∀ ss : List Sample, s ∈ ss → (verifyAll env w u ss).2 ≠ .OK := by
    intro ss
    induction ss with
    | nil => simp
    | cons t ss ih =>
      intro hs
      have hw1 : { w with svp := (verifySample env w t u).1 } = w := by rw [(verifySample_spec env w inv t u).1]
      unfold verifyAll
      simp only [hw1]
      by_cases hc : (verifySample env w t u).2 = .OK
      · rw [if_neg (by simp [hc])]
        rcases List.mem_cons.mp hs with rfl | hs
        · exact absurd hc hbad
        · exact ih hs
      · rw [if_pos hc]; exact hc
  have h1 := hst (pre ++ s :: post) (by simp)
  refine ⟨(verifyAll env w u (pre ++ s :: post)).2, h1, ?_⟩
  unfold processCommonEncryption
  simp only
  rw [if_pos h1, (verifyAll_spec env w inv _ u).1]

/-- **C24, provable part of the second half.**  If no two samples of a call share a buffer and the call fails, then either nothing has
been changed (and no sample was touched), or an operation of the cipher failed. -/
theorem C24_partial {σ : Type} (env : RightsEnv) (ops : SymOps σ) (fuel : Nat) (w w' : CencWorld σ) (hw : SvpReachable w.svp)
    (samples : List Sample) (u : Uuid) (st : Status) (rs : List (SampleResult σ)) (hsep : samples.Pairwise Unshared)
    (h : processCommonEncryption env ops fuel w samples u = some (w', st, rs)) (hst : st ≠ .OK) :
    (w' = w ∧ rs = []) ∨ ∃ r ∈ rs, r.failed = true := by
  have inv := svpReachable_inv _ hw
  unfold processCommonEncryption at h
  simp only at h
  obtain ⟨v1, v2⟩ := verifyAll_spec env w inv samples u
  rw [v1] at h
  by_cases hc : (verifyAll env w u samples).2 = .OK
  · rw [if_neg (by simp [hc])] at h
    exact Or.inr ((processAll_spec ops fuel u w w' inv samples st rs hsep (v2 hc) h).1 hst)
  · rw [if_pos hc] at h
    simp only [Option.some.injEq, Prod.mk.injEq] at h
    exact Or.inl ⟨h.1.symm, h.2.2.symm⟩

/-- A sample of 16 clear bytes from buffer `i` to buffer `o`. -/
def sample (o i : Nat) : Sample :=
  { iv := some (List.replicate 16 0), crypt := 0, skip := 0, subs := some [⟨16, 0⟩], context := 0, out := some o, input := some i }

/-- Time 1000 and an HDMI output with HDCP 2.2. -/
def env : RightsEnv := { time := 1000, video := some C10.hdmi22 }

/-- A clear output buffer 0 of 24 bytes, two clear input buffers 1 and 2 of 16 bytes, another output buffer 3, and a CTR context. -/
def world : CencWorld CtrState :=
  { svp := C20.st1,
    bufs := fun i => if i = 0 then .clear 1000 24 0 else if i = 1 then .clear 2000 16 0 else if i = 2 then .clear 3000 16 0
      else .clear 4000 16 0,
    mem := fun a => if 2000 ≤ a then 9 else 0,
    ciphers := fun _ => some ⟨true, rightsAllowAll, CIPHER_AES_CTR, ⟨0, 0⟩⟩ }

/-- Two samples with four buffers are processed. -/
example : (processCommonEncryption env (ctrOps fun _ _ => 1) 9 world [sample 0 1, sample 3 2] (Vector.replicate 16 7)).map (·.2.1) =
    some .OK := by decide +kernel

/-- With a second sample that does not fit nothing happens: the hypotheses of `C24_rejected` are met. -/
example : (verifySample env world (sample 9 8) (Vector.replicate 16 7)).2 ≠ .OK := by decide +kernel

/-- **C24 is violated**: two samples of 16 bytes share an output buffer of 24 bytes.  Both pass the checks (against offset 0); the first is
written, and then the second is rejected. -/
theorem C24_violated : ∃ w' st rs, processCommonEncryption env (ctrOps fun _ _ => 1) 9 world [sample 0 1, sample 0 2]
      (Vector.replicate 16 7) = some (w', st, rs) ∧ st = .INVALID_PARAMETER ∧ world.mem 1000 = 0 ∧ w'.mem 1000 = 9 ∧
      rs.map (·.failed) = [false, false] :=
  ⟨_, _, _, rfl, by decide +kernel, by decide +kernel, by decide +kernel, by decide +kernel⟩

end Sa.C24

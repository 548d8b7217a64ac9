import Verif.Props.C24

/-!
# C26: Overlapping buffers are rejected

Full statement: sample processing with clear input and output buffers is refused whenever the two byte ranges to be processed share a
byte.

The check made before processing is right (`C26_check`, also for SVP buffers), but it uses the offsets from before the call; if an earlier
sample of the same call moves the offset of a shared `sa_buffer`, overlapping ranges are processed (`C26_violated`).  Without sharing the
ranges processed are disjoint (`C26_partial`).
-/

namespace Sa.C26

open CencSpec

/-- **C26 (the check).**  If a sample passes the checks, no byte of the output range (of the length of the sample, at the current offset) is a
byte of the input range. -/
theorem C26_check {σ : Type} (env : RightsEnv) (w : CencWorld σ) (hw : SvpReachable w.svp) (s : Sample) (u : Uuid) (out input : Nat)
    (subs : List Subsample) (a b : Nat) (hout : s.out = some out) (hin : s.input = some input) (hsubs : s.subs = some subs)
    (ha : Located w.svp u (w.bufs out) (total (subs.map Subsample.nat)) a)
    (hb : Located w.svp u (w.bufs input) (total (subs.map Subsample.nat)) b)
    (hshare : ∃ x, (a ≤ x ∧ x < a + total (subs.map Subsample.nat)) ∧ (b ≤ x ∧ x < b + total (subs.map Subsample.nat))) :
    (verifySample env w s u).2 ≠ .OK := by
  intro hok
  obtain ⟨out', input', subs', a', b', h⟩ := (verifySample_spec env w (svpReachable_inv _ hw) s u).2 hok
  have e1 := h.hout; have e2 := h.hinput; have e3 := h.hsubs
  rw [hout] at e1; rw [hin] at e2; rw [hsubs] at e3
  simp only [Option.some.injEq] at e1 e2 e3
  subst e1 e2 e3
  have ea := located_unique _ _ _ _ _ _ ha h.locOut
  have eb := located_unique _ _ _ _ _ _ hb h.locIn
  subst ea eb
  have := h.apart
  unfold Apart at this
  obtain ⟨x, h1, h2⟩ := hshare
  omega

/-- **C26, provable part.**  If no two samples of a call share a buffer: for every sample that is processed, the range written and the
range read (both as long as the sample) have no byte in common. -/
theorem C26_partial {σ : Type} (env : RightsEnv) (ops : SymOps σ) (fuel : Nat) (w w' : CencWorld σ) (hw : SvpReachable w.svp)
    (samples : List Sample) (u : Uuid) (st : Status) (rs : List (SampleResult σ)) (hsep : samples.Pairwise Unshared)
    (h : processCommonEncryption env ops fuel w samples u = some (w', st, rs)) (i : Nat) (s : Sample) (r : SampleResult σ)
    (hs : samples[i]? = some s) (hr : rs[i]? = some r) :
    ∃ subs a b, s.subs = some subs ∧ r.place = some (a, b) ∧
      ∀ x, ¬ ((a ≤ x ∧ x < a + total (subs.map Subsample.nat)) ∧ (b ≤ x ∧ x < b + total (subs.map Subsample.nat))) := by
  have inv := svpReachable_inv _ hw
  unfold processCommonEncryption at h
  simp only at h
  obtain ⟨v1, v2⟩ := verifyAll_spec env w inv samples u
  rw [v1] at h
  by_cases hc : (verifyAll env w u samples).2 = .OK
  · rw [if_neg (by simp [hc])] at h
    obtain ⟨out, input, subs, a, b, k1, k2⟩ := (processAll_spec ops fuel u w w' inv samples st rs hsep (v2 hc) h).2 i s r hs hr
    refine ⟨subs, a, b, k1.hsubs, k2, fun x hx => ?_⟩
    have := k1.apart
    unfold Apart at this
    omega
  · rw [if_pos hc] at h
    simp only [Option.some.injEq, Prod.mk.injEq] at h
    obtain ⟨_, _, rfl⟩ := h
    simp at hr

/-- Output buffer 0 at 1000, input buffer 1 at 2000, input buffer 2 at 1020. -/
def world : CencWorld CtrState :=
  { C24.world with bufs := fun i => if i = 0 then .clear 1000 64 0 else if i = 1 then .clear 2000 16 0 else .clear 1020 16 0 }

/-- Two samples without sharing pass, so the hypotheses of `C26_partial` can be met. -/
example : [C24.sample 0 1, C24.sample 3 2].Pairwise Unshared := by
  simp [List.pairwise_cons, Unshared, Sample.buffers, C24.sample]

/-- A sample whose input is 8 bytes behind the start of its output is refused. -/
example : (verifySample C24.env { world with bufs := fun i => if i = 0 then .clear 1000 64 0 else .clear 1008 16 0 } (C24.sample 0 1)
    (Vector.replicate 16 7)).2 = .INVALID_PARAMETER := by decide +kernel

/-- **C26 is violated**: two samples of 16 bytes share their output buffer.  The second one, for which the offset is 16 by then, is
processed from 1020 to 1016: the ranges share 12 bytes, and the call succeeds. -/
theorem C26_violated : ∃ w' rs, processCommonEncryption C24.env (ctrOps fun _ _ => 1) 9 world [C24.sample 0 1, C24.sample 0 2]
      (Vector.replicate 16 7) = some (w', .OK, rs) ∧ rs.map (·.place) = [some (1000, 2000), some (1016, 1020)] :=
  ⟨_, _, rfl, by decide +kernel⟩

end Sa.C26

import Verif.Lemmas.CencSample

/-!
# C23: Common-encryption CTR decryption uses the right keystream

Full statement: decrypting the protected ranges of a sample with AES-CTR gives the same bytes as one CTR pass over their concatenation with
a 64-bit block counter that wraps modulo 2^64 and never carries into the upper half of the IV - for every IV and every split into ranges.

The code violates it in two ways.  If a range neither starts at a block boundary nor reaches the end of the block begun, the number of
full blocks underflows (cenc.c:51): bytes behind the range are decrypted and the keystream position is lost (`C23_violated_short`).  If a
range starts inside a block and its whole blocks go past the wrap of the counter, one block too many is decrypted before the counter is
set again (cenc.c:84), with a carry into the upper half (`C23_violated_carry`).  Proved for all other samples (`C23_partial`), in
particular for all samples with a pattern and all samples whose protected ranges are whole blocks (`C23_whole_blocks`), including
those where the counter wraps.
-/

namespace Sa.C23

open CencSpec

/-- The range of `n` bytes that follows `k` protected bytes starts at a block boundary, or it reaches the end of the block begun and its
whole blocks do not go past the wrap of the counter, which started at `lo`. -/
def GoodRange (lo k n : Nat) : Prop :=
  k % 16 = 0 ∨ (16 - k % 16 ≤ n ∧ (lo + k / 16) % 2 ^ 64 + (n - (16 - k % 16)) / 16 < 2 ^ 64)

/-- All protected ranges (`k` protected bytes precede the list). -/
def GoodRanges (lo : Nat) : Nat → List Subsample → Prop
  | _, [] => True
  | k, sub :: subs => GoodRange lo k sub.prot.toNat ∧ GoodRanges lo (k + sub.prot.toNat) subs

/-- Number of bytes of a sample. -/
def size (subs : List Subsample) : Nat := total (subs.map Subsample.nat)

/-- The mask of encrypted bytes of a sample in CTR mode. -/
def mask (crypt skip : UInt64) (subs : List Subsample) : List Bool := sampleMask true crypt.toNat skip.toNat (subs.map Subsample.nat)

theorem okList_of (lo k : Nat) (subs : List Subsample) (h : GoodRanges lo k subs) (hk : k + size subs < 2 ^ 64) :
    okList (ctrOk lo) k subs := by
  induction subs generalizing k with
  | nil => trivial
  | cons sub subs ih =>
    have : size (sub :: subs) = sub.clear.toNat + sub.prot.toNat + size subs := by simp [size, total, Subsample.nat]
    exact ⟨⟨by omega, h.1⟩, ih _ h.2 (by omega)⟩

/-- **C23, provable part.**  For every block cipher, key (in `E`), IV, pattern and list of subsamples such that either a pattern is used
or every range is a `GoodRange`: processing a sample of less than 2^31 bytes succeeds, and the output is the input with the encrypted bytes
replaced by one CTR pass over them with the 64-bit block counter.  Nothing outside the sample is accessed or changed. -/
theorem C23_partial (E : Nat → Nat → UInt8) (p : SampleParams) (subs : List Subsample) (m : Mem) (ctx : CtrState) (fuel : Nat)
    (hctr : p.ctr = true) (hsize : size subs < 2 ^ 31) (hfuel : size subs < 16 * fuel)
    (hdis : p.outA + size subs ≤ p.inA ∨ p.inA + size subs ≤ p.outA)
    (hpat : p.crypt.toNat < 2 ^ 60 ∧ p.skip.toNat < 2 ^ 60) (hgood : p.crypt ≠ 0 ∨ GoodRanges p.iv.lo.toNat 0 subs) :
    ∃ s off, cencRun (ctrOps E) p fuel subs m ctx = some (s, off, .OK) ∧ off.toNat = size subs ∧
      s.mem = writeAt m p.outA (merge (mask p.crypt p.skip subs) (readAt m p.inA (size subs))
        (ctrPass E p.iv.hi.toNat p.iv.lo.toNat (gather (mask p.crypt p.skip subs) (readAt m p.inA (size subs))))) ∧
      Within p.outA p.inA (size subs) s.trace := by
  have hhi : p.iv.hi.toNat < 2 ^ 64 := UInt64.toNat_lt _
  have hlo : p.iv.lo.toNat < 2 ^ 64 := UInt64.toNat_lt _
  have hrun : symSetIv (ctrOps E) ⟨m, ctx, p.iv, 0, false, []⟩ =
      (⟨m, ⟨p.iv.hi.toNat * 2 ^ 64 + p.iv.lo.toNat, 0⟩, p.iv, 0, false, []⟩, .OK) := rfl
  unfold cencRun
  simp only [hrun, ne_eq, not_true_eq_false, if_false]
  have h0 : Holds m p.outA p.inA (size subs) (CtrRel p.iv.hi.toNat p.iv.lo.toNat)
      (⟨m, ⟨p.iv.hi.toNat * 2 ^ 64 + p.iv.lo.toNat, 0⟩, p.iv, 0, false, []⟩ : Cenc CtrState) 0 0 0 [] := by
    refine ⟨(writeAt_nil _ _).symm, rfl, by simp, ?_, rfl, fun _ h => absurd h (by simp)⟩
    exact ⟨rfl, rfl, rfl, by simp [Nat.mod_eq_of_lt hlo], rfl, p.iv.lo.toNat, rfl, by simp⟩
  have hD := decSpec_ctr E p.iv.hi.toNat p.iv.lo.toNat hhi
  rw [← hctr] at hD
  obtain ⟨s, off, e, f1, _, f3⟩ := emits_subsamples m p.outA p.inA (size subs) hdis hsize (ctrOps E) (ctrStream E p.iv.hi.toNat p.iv.lo.toNat)
    (CtrRel p.iv.hi.toNat p.iv.lo.toNat) (ctrOk p.iv.lo.toNat) p rfl rfl hD (fun h => absurd h (by simp [ctrStream]))
    (fun k n h1 _ h3 => ⟨h3, Or.inl h1⟩) hpat.1 hpat.2 (by rw [hctr]; simp) fuel subs _ 0 0 0 [] h0
    (by show 0 + total _ ≤ size subs; unfold size; omega) (by omega) hfuel (fun _ => rfl) (fun hc _ => by
      rcases hgood with h | h
      · exact absurd hc h
      · exact okList_of _ 0 subs h (by omega))
  have hml : (sampleMask p.ctr p.crypt.toNat p.skip.toNat (subs.map Subsample.nat)).length = size subs := by
    unfold size sampleMask total
    generalize subs.map Subsample.nat = l
    induction l with
    | nil => rfl
    | cons a l ih =>
      simp only [List.flatMap_cons, List.length_append, ih, subMask, List.length_replicate, protectedMask_length, List.map_cons,
        List.sum_cons]
  rw [hml] at f1 f3
  refine ⟨s, off, e, ?_, ?_, f3.within⟩
  · rw [f1]; show 0 + size subs = _; omega
  · have := f3.mem
    simp only [UInt64.toNat_zero, Nat.add_zero, List.nil_append] at this
    rw [this]
    unfold mask
    rw [hctr]
    have hT : ∀ bs, (ctrStream E p.iv.hi.toNat p.iv.lo.toNat).T 0 bs = ctrPass E p.iv.hi.toNat p.iv.lo.toNat bs := by
      intro bs
      show bs.mapIdx _ = bs.mapIdx _
      congr 1
      funext i b
      rw [Nat.zero_add]
    rw [hT]

/-- **C23 for whole blocks**: the same without a condition on the counter if every protected range consists of whole blocks. -/
theorem C23_whole_blocks (E : Nat → Nat → UInt8) (p : SampleParams) (subs : List Subsample) (m : Mem) (ctx : CtrState) (fuel : Nat)
    (hctr : p.ctr = true) (hsize : size subs < 2 ^ 31) (hfuel : size subs < 16 * fuel)
    (hdis : p.outA + size subs ≤ p.inA ∨ p.inA + size subs ≤ p.outA)
    (hpat : p.crypt.toNat < 2 ^ 60 ∧ p.skip.toNat < 2 ^ 60) (hblocks : ∀ sub ∈ subs, sub.prot.toNat % 16 = 0) :
    ∃ s off, cencRun (ctrOps E) p fuel subs m ctx = some (s, off, .OK) ∧ off.toNat = size subs ∧
      s.mem = writeAt m p.outA (merge (mask p.crypt p.skip subs) (readAt m p.inA (size subs))
        (ctrPass E p.iv.hi.toNat p.iv.lo.toNat (gather (mask p.crypt p.skip subs) (readAt m p.inA (size subs))))) ∧
      Within p.outA p.inA (size subs) s.trace := by
  apply C23_partial E p subs m ctx fuel hctr hsize hfuel hdis hpat
  right
  have : ∀ k, k % 16 = 0 → GoodRanges p.iv.lo.toNat k subs := by
    clear hsize hfuel hdis
    induction subs with
    | nil => intro _ _; trivial
    | cons sub subs ih =>
      intro k hk
      have h1 := hblocks sub (by simp)
      exact ⟨Or.inl hk, ih (fun s hs => hblocks s (by simp [hs])) _ (by omega)⟩
  exact this 0 rfl

/-- The hypotheses are met by a sample whose counter wraps inside the second range, which starts in the middle of a block. -/
example : GoodRanges (2 ^ 64 - 2) 0 [⟨4, 20⟩, ⟨3, 12⟩, ⟨0, 5⟩] := by
  refine ⟨Or.inl rfl, Or.inr ⟨by decide, by decide⟩, Or.inl rfl, trivial⟩

/-- A keystream in which byte `j` of block `v` is `16 v + j` (modulo 256), so that the bytes show their position. -/
def posKeys (v j : Nat) : UInt8 := UInt8.ofNat (16 * v + j)

/-- A keystream whose bytes are the upper half of the counter block. -/
def nonceKeys (v _ : Nat) : UInt8 := UInt8.ofNat (v / 2 ^ 64)

/-- Parameters of a sample without pattern, output at 1000, input at 2000. -/
def params (lo : UInt64) : SampleParams := { ctr := true, crypt := 0, skip := 0, iv := ⟨7, lo⟩, outA := 1000, inA := 2000 }

/-- **C23 is violated (short ranges)**: three ranges of one byte each and an IV whose counter is 0.  The call succeeds, the third byte is
decrypted with byte 16 of the keystream instead of byte 2, and 14 bytes behind the three bytes of the output are overwritten. -/
theorem C23_violated_short : ∃ s off, cencRun (ctrOps posKeys) (params 0) 100 [⟨0, 1⟩, ⟨0, 1⟩, ⟨0, 1⟩] (fun _ => 0) ⟨0, 0⟩ = some (s, off, .OK) ∧
    s.mem 1002 = 16 ∧ ctrPass posKeys 7 0 [0, 0, 0] = [0, 1, 2] ∧
    s.mem 1010 ≠ 0 ∧ ¬ Within 1000 2000 3 s.trace := by
  refine ⟨_, _, rfl, by decide +kernel, by decide +kernel, by decide +kernel, ?_⟩
  intro h
  have := h ⟨1001, 2001, 15⟩ (by decide +kernel)
  simp at this

/-- **C23 is violated (carry)**: a range that starts inside a block and passes the wrap of the counter.  One block is decrypted with the
upper half of the IV incremented (8 instead of 7). -/
theorem C23_violated_carry : ∃ s off, cencRun (ctrOps nonceKeys) (params 0xFFFFFFFFFFFFFFFE) 100 [⟨0, 1⟩, ⟨0, 63⟩] (fun _ => 0) ⟨0, 0⟩ =
      some (s, off, .OK) ∧
    s.mem 1031 = 7 ∧ s.mem 1032 = 8 ∧ (∀ i < 64, (ctrPass nonceKeys 7 0xFFFFFFFFFFFFFFFE (List.replicate 64 0)).getD i 0 = 7) := by
  refine ⟨_, _, rfl, by decide +kernel, by decide +kernel, by decide +kernel⟩

end Sa.C23

import Verif.Props.C23
import Verif.Lemmas.CencFail
import Verif.Props.C20

/-!
# C25: Sample processing copies clear bytes, follows the pattern, advances the offsets and reports failures

Full statement: when sample processing succeeds the output has the same length as the input, every clear byte is copied unchanged, the
protected bytes are transformed following the crypt/skip pattern, and both offsets advance by exactly the sample length; if decryption of
any range failed the call does not report success.

Violated in three ways: with a pattern the failure of a range only ends the inner loop, and the status is overwritten by the next
subsample (cenc.c:258-261, `C25_violated_failure`); the length of a range is converted to `int` (symmetric.c:1383), so that a range of
2^32 bytes "succeeds" without being decrypted (`C25_violated_length`); and `crypt_byte_block * 16` wraps, so that some patterns never end
(cenc.c:250, `C25_violated_hang`).  For CTR the ranges of C23 are excluded as well.  Everything else is proved: the content of the output
(`C25_partial_ctr`, `C25_partial_cbc`, `C25_partial_pattern`), the offsets (`C25_offsets`, without restriction) and the reporting of
failures (`C25_reported_partial`: without a pattern, or with one subsample).
-/

namespace Sa.C25

open CencSpec C23

/-- What a sample becomes when CBC decryption starts again with the IV in every subsample (the pattern schemes of ISO/IEC 23001-7). -/
def restarted (dec : Bytes → Bytes) (iv : Bytes) (crypt skip : Nat) : List (Nat × Nat) → Bytes → Bytes
  | [], _ => []
  | sub :: subs, x =>
    let m := subMask false crypt skip sub
    let y := x.take (sub.1 + sub.2)
    merge m y (cbcPass dec iv (gather m y)) ++ restarted dec iv crypt skip subs (x.drop (sub.1 + sub.2))

/-- The sample with all its bytes after processing is `y`: memory at the output holds `y`, the rest of memory is as before, the offset is the
size, and only bytes of the sample were accessed. -/
structure Produces {σ : Type} (p : SampleParams) (subs : List Subsample) (m : Mem) (r : Option (Cenc σ × UInt64 × Status)) (y : Bytes) :
    Prop where
  ok : ∃ s off, r = some (s, off, .OK) ∧ s.mem = writeAt m p.outA y ∧ off.toNat = size subs ∧ y.length = size subs ∧ s.failed = false ∧
    Within p.outA p.inA (size subs) s.trace

theorem sampleMask_length (ctr : Bool) (c s : Nat) (subs : List Subsample) :
    (sampleMask ctr c s (subs.map Subsample.nat)).length = size subs := by
  unfold size sampleMask total
  generalize subs.map Subsample.nat = l
  induction l with
  | nil => rfl
  | cons a l ih =>
    simp only [List.flatMap_cons, List.length_append, ih, subMask, List.length_replicate, protectedMask_length, List.map_cons,
      List.sum_cons]

theorem merge_length (m : List Bool) (x d : Bytes) (h : m.length = x.length) (hd : d.length = (gather m x).length) :
    (merge m x d).length = x.length := by
  induction m generalizing x d with
  | nil => cases x <;> simp_all [merge]
  | cons b m ih =>
    cases x with
    | nil => simp at h
    | cons a x =>
      cases b with
      | false =>
        simp only [merge, List.length_cons, gather] at h hd ⊢
        rw [ih x d (by omega) hd]
      | true =>
        cases d with
        | nil => simp [gather] at hd
        | cons e d =>
          simp only [merge, List.length_cons, gather] at h hd ⊢
          rw [ih x d (by omega) (by omega)]

/-- Clear bytes stay what they are. -/
theorem merge_clear (m : List Bool) (x d : Bytes) (h : m.length = x.length) (hd : d.length = (gather m x).length) (i : Nat)
    (hi : m[i]? = some false) : (merge m x d)[i]? = x[i]? := by
  induction m generalizing x d i with
  | nil => simp at hi
  | cons b m ih =>
    cases x with
    | nil => simp at h
    | cons a x =>
      cases b with
      | false =>
        cases i with
        | zero => simp [merge]
        | succ i =>
          simp only [List.length_cons, gather, List.getElem?_cons_succ, merge] at h hd hi ⊢
          exact ih x d (by omega) hd i hi
      | true =>
        cases d with
        | nil => simp [gather] at hd
        | cons e d =>
          cases i with
          | zero => simp at hi
          | succ i =>
            simp only [List.length_cons, gather, List.getElem?_cons_succ, merge] at h hd hi ⊢
            exact ih x d (by omega) (by omega) i hi

/-- **C25, the clear bytes.**  In an output that is put together as specified, every byte outside the mask of encrypted bytes equals the
input byte at the same place. -/
theorem C25_clear_bytes (ctr : Bool) (p : SampleParams) (subs : List Subsample) (m : Mem) (d : Bytes)
    (hd : d.length = (gather (sampleMask ctr p.crypt.toNat p.skip.toNat (subs.map Subsample.nat)) (readAt m p.inA (size subs))).length)
    (i : Nat) (hi : (sampleMask ctr p.crypt.toNat p.skip.toNat (subs.map Subsample.nat))[i]? = some false) :
    writeAt m p.outA (merge (sampleMask ctr p.crypt.toNat p.skip.toNat (subs.map Subsample.nat)) (readAt m p.inA (size subs)) d) (p.outA + i) =
      m (p.inA + i) := by
  have hl := sampleMask_length ctr p.crypt.toNat p.skip.toNat subs
  have hx : (readAt m p.inA (size subs)).length = size subs := readAt_length _ _ _
  have hm := merge_length _ (readAt m p.inA (size subs)) d (by rw [hl, hx]) hd
  have hc := merge_clear _ (readAt m p.inA (size subs)) d (by rw [hl, hx]) hd i hi
  have hi' : i < size subs := by
    rw [← hl]
    rcases Nat.lt_or_ge i (sampleMask ctr p.crypt.toNat p.skip.toNat (subs.map Subsample.nat)).length with h | h
    · exact h
    · rw [List.getElem?_eq_none h] at hi; simp at hi
  unfold writeAt
  rw [if_pos (by rw [hm, hx]; omega), show p.outA + i - p.outA = i by omega, List.getD_eq_getElem?_getD, hc]
  simp [readAt, hi']

/-- **C25 for CTR.** -/
theorem C25_partial_ctr (E : Nat → Nat → UInt8) (p : SampleParams) (subs : List Subsample) (m : Mem) (ctx : CtrState) (fuel : Nat)
    (hctr : p.ctr = true) (hsize : size subs < 2 ^ 31) (hfuel : size subs < 16 * fuel)
    (hdis : p.outA + size subs ≤ p.inA ∨ p.inA + size subs ≤ p.outA)
    (hpat : p.crypt.toNat < 2 ^ 60 ∧ p.skip.toNat < 2 ^ 60) (hgood : p.crypt ≠ 0 ∨ GoodRanges p.iv.lo.toNat 0 subs) :
    let x := readAt m p.inA (size subs)
    let mk := sampleMask true p.crypt.toNat p.skip.toNat (subs.map Subsample.nat)
    ∃ s off, cencRun (ctrOps E) p fuel subs m ctx = some (s, off, .OK) ∧ off.toNat = size subs ∧
      s.mem = writeAt m p.outA (merge mk x (ctrPass E p.iv.hi.toNat p.iv.lo.toNat (gather mk x))) ∧
      (∀ i, mk[i]? = some false → s.mem (p.outA + i) = m (p.inA + i)) ∧
      (∀ a, a < p.outA ∨ p.outA + size subs ≤ a → s.mem a = m a) := by
  intro x mk
  obtain ⟨s, off, h1, h2, h3, _⟩ := C23_partial E p subs m ctx fuel hctr hsize hfuel hdis hpat hgood
  have hd : (ctrPass E p.iv.hi.toNat p.iv.lo.toNat (gather mk x)).length = (gather mk x).length := by simp [ctrPass]
  refine ⟨s, off, h1, h2, h3, ?_, ?_⟩
  · intro i hi
    rw [h3]
    exact C25_clear_bytes true p subs m _ hd i hi
  · intro a ha
    rw [h3]
    apply writeAt_out
    have hl := merge_length mk x _ (by rw [sampleMask_length, readAt_length]) hd
    rw [readAt_length] at hl
    rw [← hl] at ha
    exact ha

section cbc

variable (dec : Bytes → Bytes) (hdec : ∀ b, b.length = 16 → (dec b).length = 16)

theorem iv_bytes_length (iv : Iv) : iv.bytes.length = 16 := by simp [Iv.bytes]

include hdec in
/-- **C25 for CBC without a pattern** (the whole blocks of all protected ranges form one CBC message, the remaining bytes of a range are
clear). -/
theorem C25_partial_cbc (p : SampleParams) (subs : List Subsample) (m : Mem) (ctx : Bytes) (fuel : Nat)
    (hctr : p.ctr = false) (hc : p.crypt = 0) (hs : p.skip = 0) (hsize : size subs < 2 ^ 31) (hfuel : size subs < 16 * fuel)
    (hdis : p.outA + size subs ≤ p.inA ∨ p.inA + size subs ≤ p.outA) :
    let x := readAt m p.inA (size subs)
    let mk := sampleMask false 0 0 (subs.map Subsample.nat)
    Produces p subs m (cencRun (cbcOps dec) p fuel subs m ctx) (merge mk x (cbcPass dec p.iv.bytes (gather mk x))) := by
  intro x mk
  have hrun : symSetIv (cbcOps dec) ⟨m, ctx, p.iv, 0, false, []⟩ = (⟨m, p.iv.bytes, p.iv, 0, false, []⟩, .OK) := rfl
  unfold cencRun
  simp only [hrun, ne_eq, not_true_eq_false, if_false]
  let Rel : Nat → Block → Bytes → Iv → UInt64 → Prop := fun _ t ctx _ _ => ctx = t.val
  have h0 : Holds m p.outA p.inA (size subs) Rel (⟨m, p.iv.bytes, p.iv, 0, false, []⟩ : Cenc Bytes) 0 0
      (⟨p.iv.bytes, iv_bytes_length _⟩ : Block) [] :=
    ⟨(writeAt_nil _ _).symm, rfl, by simp, rfl, rfl, fun _ h => absurd h (by simp)⟩
  have hD := decSpec_cbc dec hdec
  rw [← hctr] at hD
  obtain ⟨s, off, e, f1, f2, f3⟩ := emits_subsamples m p.outA p.inA (size subs) hdis hsize (cbcOps dec) (cbcStream dec hdec) Rel
    (fun _ n => n % 16 = 0) p rfl rfl hD (fun _ _ _ h => h) (fun _ _ _ h _ => h) (by rw [hc]; decide) (by rw [hs]; decide)
    (by rw [hc]; simp) fuel subs _ 0 0 _ [] h0 (by show 0 + total _ ≤ size subs; unfold size; omega) (by omega) hfuel (fun _ => rfl)
    (fun _ h => absurd h (by rw [hctr]; simp))
  have hml := sampleMask_length p.ctr p.crypt.toNat p.skip.toNat subs
  rw [hml] at f1 f2 f3
  have hmk : sampleMask p.ctr p.crypt.toNat p.skip.toNat (subs.map Subsample.nat) = mk := by rw [hctr, hc, hs]; rfl
  rw [hmk] at f2 f3
  simp only [UInt64.toNat_zero, Nat.add_zero, List.nil_append, Nat.zero_add] at f1 f2 f3
  have hlen : (cbcPass dec p.iv.bytes (gather mk x)).length = (gather mk x).length :=
    (cbcStream dec hdec).len ⟨p.iv.bytes, iv_bytes_length _⟩ (gather mk x) f2
  refine ⟨⟨s, off, e, f3.mem, f1, ?_, f3.fine, f3.within⟩⟩
  rw [merge_length mk x _ (by rw [sampleMask_length, readAt_length]) hlen, readAt_length]

include hdec in
theorem resetOut_restarted (iv : Bytes) (hiv : iv.length = 16) (c sk : Nat) (m : Mem) (l : List (Nat × Nat)) (a : Nat) :
    resetOut (cbcStream dec hdec) ⟨iv, hiv⟩ false c sk m a l = restarted dec iv c sk l (readAt m a (total l)) := by
  induction l generalizing a with
  | nil => rfl
  | cons sub l ih =>
    have ht : total (sub :: l) = (sub.1 + sub.2) + total l := by simp [total]
    have h1 : (readAt m a (sub.1 + sub.2)).length = sub.1 + sub.2 := readAt_length _ _ _
    simp only [resetOut, restarted]
    rw [ht, readAt_append m a (sub.1 + sub.2) (total l), List.take_left' h1, List.drop_left' h1, ih]
    rfl

include hdec in
/-- **C25 for CBC with a pattern** (CBC starts again with the IV in every subsample). -/
theorem C25_partial_pattern (p : SampleParams) (subs : List Subsample) (m : Mem) (ctx : Bytes) (fuel : Nat)
    (hctr : p.ctr = false) (hc : p.crypt ≠ 0) (hpat : p.crypt.toNat < 2 ^ 60 ∧ p.skip.toNat < 2 ^ 60)
    (hsize : size subs < 2 ^ 31) (hfuel : size subs < 16 * fuel)
    (hdis : p.outA + size subs ≤ p.inA ∨ p.inA + size subs ≤ p.outA) :
    Produces p subs m (cencRun (cbcOps dec) p fuel subs m ctx)
      (restarted dec p.iv.bytes p.crypt.toNat p.skip.toNat (subs.map Subsample.nat) (readAt m p.inA (size subs))) := by
  have hrun : symSetIv (cbcOps dec) ⟨m, ctx, p.iv, 0, false, []⟩ = (⟨m, p.iv.bytes, p.iv, 0, false, []⟩, .OK) := rfl
  unfold cencRun
  simp only [hrun, ne_eq, not_true_eq_false, if_false]
  let Rel : Nat → Block → Bytes → Iv → UInt64 → Prop := fun _ t ctx _ _ => ctx = t.val
  have h0 : Holds m p.outA p.inA (size subs) Rel (⟨m, p.iv.bytes, p.iv, 0, false, []⟩ : Cenc Bytes) 0 0
      (⟨p.iv.bytes, iv_bytes_length _⟩ : Block) [] :=
    ⟨(writeAt_nil _ _).symm, rfl, by simp, rfl, rfl, fun _ h => absurd h (by simp)⟩
  have hD := decSpec_cbc dec hdec
  rw [← hctr] at hD
  obtain ⟨s, off, k', t', e, f1, f3⟩ := emits_reset m p.outA p.inA (size subs) hdis hsize (cbcOps dec) (cbcStream dec hdec) Rel
    (fun _ n => n % 16 = 0) p rfl rfl hD (fun _ _ _ h => h) (fun _ _ _ h _ => h) hpat.1 hpat.2 ⟨hc, hctr⟩
    ⟨p.iv.bytes, iv_bytes_length _⟩ (fun s k t _ => ⟨p.iv.bytes, rfl, rfl⟩) fuel subs _ 0 0 _ [] h0
    (by show 0 + total _ ≤ size subs; unfold size; omega) (by omega) hfuel rfl
  simp only [UInt64.toNat_zero, Nat.add_zero, List.nil_append, Nat.zero_add] at f1 f3
  rw [hctr, resetOut_restarted dec hdec] at f3
  refine ⟨⟨s, off, e, f3.mem, f1, ?_, f3.fine, f3.within⟩⟩
  have := f3.len
  rw [f1] at this
  exact this

end cbc

/-- **C25, the offsets.**  Whatever the cipher does: if a sample is processed successfully, the offsets of its output and input buffer
(two different buffers) advance by exactly the number of bytes of the sample, and no other buffer changes. -/
theorem C25_offsets {σ : Type} (ops : SymOps σ) (fuel : Nat) (w : CencWorld σ) (ctx : Nat) (iv : Bytes) (crypt skip : UInt64)
    (subs : List Subsample) (out input : Nat) (u : Uuid) (r : SampleResult σ) (hne : out ≠ input)
    (h : cencProcessSample ops fuel w ctx iv crypt skip subs out input u = some r) (hok : r.status = .OK) :
    ∃ n : UInt64, n.toNat = size subs ∧ r.world.bufs out = (w.bufs out).advance n ∧ r.world.bufs input = (w.bufs input).advance n ∧
      ∀ i, i ≠ out → i ≠ input → r.world.bufs i = w.bufs i := by
  unfold cencProcessSample at h
  cases hc : w.ciphers ctx with
  | none => rw [hc] at h; simp only [Option.some.injEq] at h; subst h; simp at hok
  | some c =>
    rw [hc] at h
    simp only at h
    split at h
    · simp only [Option.some.injEq] at h; subst h; simp at hok
    · rename_i hreq
      split at h
      · rename_i hs; simp only [Option.some.injEq] at h; subst h; exact absurd hok hs
      · split at h
        · rename_i hs; simp only [Option.some.injEq] at h; subst h; exact absurd hok hs
        · split at h
          · simp at h
          · rename_i s off st hrun
            simp only [Option.some.injEq] at h
            subst h
            simp only at hok
            subst hok
            have hoff : off = sum64 subs := by
              unfold cencRun at hrun
              simp only at hrun
              split at hrun
              · rename_i hs; simp only [Option.some.injEq, Prod.mk.injEq] at hrun; exact absurd hrun.2.2 hs
              · rw [cencSubsamples_off _ _ _ _ _ _ _ _ _ hrun]; simp
            obtain ⟨h1, h2⟩ := cencRequiredLength_spec subs hreq
            refine ⟨off, by rw [hoff, ← h2, h1]; rfl, ?_, ?_, ?_⟩
            · simp [hne]
            · simp [Ne.symm hne]
            · intro i h1 h2; simp [h1, h2]

/-- **C25, failures are reported (provable part).**  Whatever the cipher does: if processing a sample without a pattern, or with at most one
subsample, reports success, then no operation of the cipher failed. -/
theorem C25_reported_partial {σ : Type} (ops : SymOps σ) (fuel : Nat) (w : CencWorld σ) (ctx : Nat) (iv : Bytes) (crypt skip : UInt64)
    (subs : List Subsample) (out input : Nat) (u : Uuid) (r : SampleResult σ) (hp : crypt = 0 ∨ subs.length ≤ 1)
    (h : cencProcessSample ops fuel w ctx iv crypt skip subs out input u = some r) (hok : r.status = .OK) : r.failed = false := by
  unfold cencProcessSample at h
  cases hc : w.ciphers ctx with
  | none => rw [hc] at h; simp only [Option.some.injEq] at h; subst h; simp at hok
  | some c =>
    rw [hc] at h
    simp only at h
    split at h
    · simp only [Option.some.injEq] at h; subst h; rfl
    · split at h
      · simp only [Option.some.injEq] at h; subst h; rfl
      · split at h
        · simp only [Option.some.injEq] at h; subst h; rfl
        · split at h
          · simp at h
          · rename_i s off st hrun
            simp only [Option.some.injEq] at h
            subst h
            simp only at hok ⊢
            subst hok
            unfold cencRun at hrun
            simp only at hrun
            split at hrun
            · rename_i hs; simp only [Option.some.injEq, Prod.mk.injEq] at hrun; exact absurd hrun.2.2 hs
            · rename_i hs
              simp only [ne_eq, Decidable.not_not] at hs
              rw [hs] at hrun
              rw [cencSubsamples_failed _ _ _ _ _ _ _ _ hp hrun, symSetIv_failed _ _ hs]

/-- A cipher whose decryption fails after its IV has been set twice, and copies otherwise. -/
def failsOnce : SymOps Nat where
  decrypt s bs := if s = 2 then none else some (s, bs)
  setIv s _ := some (s + 1)

/-- A world with a 64 byte output buffer at 1000, a 64 byte input buffer at 2000 and a cipher context. -/
def world {σ : Type} (alg : Nat) (c : σ) : CencWorld σ :=
  { svp := C20.st1, bufs := fun i => if i = 0 then .clear 1000 64 0 else .clear 2000 64 0, mem := fun a => if 2000 ≤ a then 9 else 0,
    ciphers := fun _ => some ⟨true, rightsAllowAll, alg, c⟩ }

/-- A sample of 4 clear and 16 protected bytes is processed: the clear bytes are copied, the offsets are right. -/
example : (cencProcessSample (ctrOps posKeys) 10 (world CIPHER_AES_CTR ⟨0, 0⟩) 0 (List.replicate 16 0) 0 0 [⟨4, 16⟩] 0 1
    (Vector.replicate 16 7)).map (fun r => (r.status, r.failed, r.world.bufs 0, r.world.mem 1003)) =
      some (.OK, false, .clear 1000 64 20, 9) := by decide +kernel

/-- **C25 is violated (failure)**: CBC with pattern 1:1 and two subsamples of 16 bytes.  Decryption of the first fails; the call reports
success all the same, and the bytes of the first are copied to the output as they are. -/
theorem C25_violated_failure : ∃ r, cencProcessSample failsOnce 10 (world CIPHER_AES_CBC 0) 0 (List.replicate 16 0) 1 1
      [⟨0, 16⟩, ⟨0, 16⟩] 0 1 (Vector.replicate 16 7) = some r ∧ r.status = .OK ∧ r.failed = true ∧ r.world.mem 1000 = 9 :=
  ⟨_, rfl, by decide +kernel, by decide +kernel, by decide +kernel⟩

/-- A world with buffers of 2^32 bytes. -/
def bigWorld : CencWorld CtrState :=
  { svp := C20.st1, bufs := fun i => if i = 0 then .clear 0x200000000 0x100000000 0 else .clear 0x400000000 0x100000000 0,
    mem := fun a => if 0x400000000 ≤ a then 9 else 0,
    ciphers := fun _ => some ⟨true, rightsAllowAll, CIPHER_AES_CTR, ⟨0, 0⟩⟩ }

/-- **C25 is violated (length)**: a sample with one protected range of 2^32 bytes.  The call reports success and advances the offset by
2^32, but not one byte of the output has been written. -/
theorem C25_violated_length : ∃ r, cencProcessSample (ctrOps posKeys) 10 bigWorld 0 (List.replicate 16 1) 0 0 [⟨0, 0x100000000⟩] 0 1
      (Vector.replicate 16 7) = some r ∧ r.status = .OK ∧ r.world.bufs 0 = .clear 0x200000000 0x100000000 0x100000000 ∧
      r.trace.map (·.len) = [0] :=
  ⟨_, rfl, by decide +kernel, by decide +kernel, by decide +kernel⟩

theorem stripes_hang {σ : Type} (ops : SymOps σ) (p : SampleParams) (hc : p.crypt = 0x1000000000000000) (hs : p.skip = 0) (fuel : Nat)
    (s : Cenc σ) (off left : UInt64) (st : Status) (hl : ¬ left < 16) : cencStripes ops p fuel s off left st = none := by
  induction fuel generalizing s off st with
  | zero => rfl
  | succ fuel ih =>
    have h0 : p.crypt * 16 = 0 := by rw [hc]; decide
    have hb : (if (0 : UInt64) ≤ left / 16 * 16 then (0 : UInt64) else left / 16 * 16) = 0 :=
      if_pos (UInt64.le_iff_toNat_le.mpr (Nat.zero_le _))
    simp only [cencStripes]
    rw [if_neg hl]
    simp only [h0, hb, hs, show ¬ ((0 : UInt64) > 0) by decide, false_and, if_false]
    rw [UInt64.sub_zero]
    exact ih _ _ _

/-- **C25 is violated (endless loop)**: with `crypt_byte_block` 2^60 and no skip (the product with 16 is 0 modulo 2^64) processing a
sample of one protected block does not end, with any cipher. -/
theorem C25_violated_hang (fuel : Nat) : cencProcessSample (ctrOps posKeys) fuel (world CIPHER_AES_CTR ⟨0, 0⟩) 0 (List.replicate 16 0)
    0x1000000000000000 0 [⟨0, 16⟩] 0 1 (Vector.replicate 16 7) = none := by
  have key : ∀ (p : SampleParams) m ctx, p.crypt = 0x1000000000000000 → p.skip = 0 →
      cencRun (ctrOps posKeys) p fuel [⟨0, 16⟩] m ctx = none := by
    intro p m ctx hc hs
    unfold cencRun
    have hrun : symSetIv (ctrOps posKeys) ⟨m, ctx, p.iv, 0, false, []⟩ =
      (⟨m, ⟨p.iv.hi.toNat * 2 ^ 64 + p.iv.lo.toNat, 0⟩, p.iv, 0, false, []⟩, .OK) := rfl
    simp only [hrun, ne_eq, not_true_eq_false, if_false, cencSubsamples, show ¬ ((0 : UInt64) > 0) by decide]
    unfold cencProtected
    rw [if_pos (by decide), if_neg (by rw [hc]; decide)]
    cases hct : p.ctr with
    | true =>
      simp only [if_true, Bool.not_true, Bool.false_and, Bool.false_eq_true, if_false]
      rw [stripes_hang _ _ hc hs _ _ _ _ _ (by decide)]
    | false =>
      simp only [symSetIv, ctrOps, Bool.false_eq_true, if_false, Bool.not_false, Bool.true_and, ne_eq, not_true_eq_false, decide_false]
      rw [stripes_hang _ _ hc hs _ _ _ _ _ (by decide)]
  unfold cencProcessSample
  simp only [world]
  rw [if_neg (by decide), if_neg (by decide +kernel), if_neg (by decide +kernel), key _ _ _ rfl rfl]

end Sa.C25

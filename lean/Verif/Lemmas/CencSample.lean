import Verif.Lemmas.Cenc

/-!
# Lemmas about the processing of a sample
-/

namespace Sa

open CencSpec

variable {σ τ : Type}

/-- The invariant of `cenc_process_sample`: `O` has been written from `outA` on, nothing else has changed. -/
structure Holds (m0 : Mem) (outA inA N : Nat) (Rel : Nat → τ → σ → Iv → UInt64 → Prop) (s : Cenc σ) (off : UInt64) (k : Nat) (t : τ)
    (O : Bytes) : Prop where
  mem : s.mem = writeAt m0 outA O
  len : O.length = off.toNat
  le : off.toNat ≤ N
  rel : Rel k t s.ctx s.iv s.count
  fine : s.failed = false
  within : Within outA inA N s.trace

theorem Within.mono (outA inA n o i N : Nat) (cs : List Memcpy) (h : Within (outA + o) (inA + i) n cs) (h1 : o + n ≤ N) (h2 : i + n ≤ N) :
    Within outA inA N cs := by
  intro c hc
  have := h c hc
  omega

theorem u64_add_le (a b : UInt64) (N : Nat) (hN : N < 2 ^ 64) (h : a.toNat + b.toNat ≤ N) : (a + b).toNat = a.toNat + b.toNat := by
  rw [UInt64.toNat_add]; exact Nat.mod_eq_of_lt (by omega)

theorem u64_pos (a : UInt64) : a > 0 ↔ 0 < a.toNat := by
  constructor
  · intro h; simpa using UInt64.lt_iff_toNat_lt.mp h
  · intro h; exact UInt64.lt_iff_toNat_lt.mpr (by simpa using h)

theorem u64_min (a b : UInt64) : (if a ≤ b then a else b).toNat = min a.toNat b.toNat := by
  by_cases h : a ≤ b
  · rw [if_pos h]; have := UInt64.le_iff_toNat_le.mp h; omega
  · rw [if_neg h]; have := mt UInt64.le_iff_toNat_le.mpr h; omega

theorem u64_blocks (a : UInt64) : (a / 16 * 16).toNat = a.toNat / 16 * 16 := by
  have := UInt64.toNat_lt a
  rw [UInt64.toNat_mul, UInt64.toNat_div]
  exact Nat.mod_eq_of_lt (by show a.toNat / 16 * 16 < 2 ^ 64; omega)

theorem u64_mul16 (a : UInt64) (h : a.toNat < 2 ^ 60) : (a * 16).toNat = a.toNat * 16 := by
  rw [UInt64.toNat_mul]
  exact Nat.mod_eq_of_lt (by show a.toNat * 16 < 2 ^ 64; omega)

section

variable (m0 : Mem) (outA inA N : Nat) (hdis : outA + N ≤ inA ∨ inA + N ≤ outA) (hN : N < 2 ^ 31)
variable (ops : SymOps σ) (S : StreamSpec τ) (Rel : Nat → τ → σ → Iv → UInt64 → Prop) (okLen : Nat → Nat → Prop)

include hdis hN

omit hN in
theorem holds_read (s : Cenc σ) (off : UInt64) (k : Nat) (t : τ) (O : Bytes) (h : Holds m0 outA inA N Rel s off k t O) (n : Nat)
    (hn : off.toNat + n ≤ N) : readAt s.mem (inA + off.toNat) n = readAt m0 (inA + off.toNat) n := by
  rw [h.mem]
  apply readAt_writeAt_disjoint
  rw [h.len]
  have := h.le
  omega

theorem holds_copy (s : Cenc σ) (off : UInt64) (k : Nat) (t : τ) (O : Bytes) (h : Holds m0 outA inA N Rel s off k t O) (len : UInt64)
    (hn : off.toNat + len.toNat ≤ N) :
    Holds m0 outA inA N Rel (cencCopy s (outA + off.toNat) (inA + off.toNat) len) (off + len) k t
      (O ++ readAt m0 (inA + off.toNat) len.toNat) := by
  have hadd := u64_add_le off len N (by omega) hn
  refine ⟨?_, ?_, by rw [hadd]; exact hn, h.rel, h.fine, ?_⟩
  · show writeAt s.mem _ (readAt s.mem _ _) = _
    rw [holds_read m0 outA inA N hdis Rel s off k t O h _ hn, h.mem, ← h.len, writeAt_append]
  · rw [List.length_append, h.len, readAt_length, hadd]
  · intro c hc
    have hc : c ∈ s.trace ++ [⟨outA + off.toNat, inA + off.toNat, len.toNat⟩] := hc
    rcases List.mem_append.mp hc with hc | hc
    · exact h.within c hc
    · simp at hc; subst hc; simp only; omega

theorem holds_dec (ctr : Bool) (hD : DecSpec ops ctr S Rel okLen) (hstrict : S.strict = true → ∀ k n, okLen k n → n % 16 = 0)
    (s : Cenc σ) (off : UInt64) (k : Nat) (t : τ) (O : Bytes) (h : Holds m0 outA inA N Rel s off k t O) (n : UInt64)
    (hn : off.toNat + n.toNat ≤ N) (hok : okLen k n.toNat) :
    ∃ s', cencDecrypt ops ctr s (outA + off.toNat) (inA + off.toNat) n = (s', .OK) ∧
      Holds m0 outA inA N Rel s' (off + n) (k + n.toNat) (S.next t (readAt m0 (inA + off.toNat) n.toNat))
        (O ++ S.T t (readAt m0 (inA + off.toNat) n.toNat)) := by
  have hadd := u64_add_le off n N (by omega) hn
  obtain ⟨s', e, ⟨p1, p2, cs, p3, p4⟩, r⟩ := hD s k t (outA + off.toNat) (inA + off.toNat) n h.rel (by omega) hok (by omega)
  rw [holds_read m0 outA inA N hdis Rel s off k t O h _ hn] at p1 r
  have hlen : (S.T t (readAt m0 (inA + off.toNat) n.toNat)).length = n.toNat := by
    rw [S.len _ _ (fun hs => by rw [readAt_length]; exact hstrict hs k _ hok), readAt_length]
  refine ⟨s', e, ?_, ?_, by rw [hadd]; exact hn, r, p2.trans h.fine, ?_⟩
  · rw [p1, h.mem, ← h.len, writeAt_append]
  · rw [List.length_append, h.len, hlen, hadd]
  · rw [p3]
    intro c hc
    rcases List.mem_append.mp hc with hc | hc
    · exact h.within c hc
    · exact Within.mono outA inA n.toNat off.toNat off.toNat N cs p4 hn hn c hc

/-- `s'` is what processing a part of the sample with mask `mk` makes of `s`. -/
def Emits (m0 : Mem) (outA inA N : Nat) (S : StreamSpec τ) (Rel : Nat → τ → σ → Iv → UInt64 → Prop) (s' : Cenc σ) (off off' : UInt64)
    (k : Nat) (t : τ) (O : Bytes) (mk : List Bool) : Prop :=
  off'.toNat = off.toNat + mk.length ∧
  (S.strict = true → (gather mk (readAt m0 (inA + off.toNat) mk.length)).length % 16 = 0) ∧
  Holds m0 outA inA N Rel s' off' (k + (gather mk (readAt m0 (inA + off.toNat) mk.length)).length)
    (S.next t (gather mk (readAt m0 (inA + off.toNat) mk.length)))
    (O ++ merge mk (readAt m0 (inA + off.toNat) mk.length) (S.T t (gather mk (readAt m0 (inA + off.toNat) mk.length))))

omit hdis hN in
theorem Emits.nil (s : Cenc σ) (off : UInt64) (k : Nat) (t : τ) (O : Bytes) (h : Holds m0 outA inA N Rel s off k t O) :
    Emits m0 outA inA N S Rel s off off k t O [] := by
  refine ⟨by simp, fun _ => rfl, ?_⟩
  simp only [gather, merge, S.next_nil, List.append_nil, List.length_nil, Nat.add_zero]
  exact h

omit hdis hN in
/-- Two parts one after the other. -/
theorem Emits.append (s2 : Cenc σ) (off off1 off2 : UInt64) (k : Nat) (t : τ) (O : Bytes) (mk mk' : List Bool)
    (x : Bytes) (hx : x = readAt m0 (inA + off.toNat) mk.length) (ho1 : off1.toNat = off.toNat + mk.length)
    (hs : S.strict = true → (gather mk x).length % 16 = 0)
    (h2 : Emits m0 outA inA N S Rel s2 off1 off2 (k + (gather mk x).length) (S.next t (gather mk x))
      (O ++ merge mk x (S.T t (gather mk x))) mk') : Emits m0 outA inA N S Rel s2 off off2 k t O (mk ++ mk') := by
  obtain ⟨ho2, hs2, hh⟩ := h2
  have hxl : mk.length = x.length := by rw [hx, readAt_length]
  have hread : readAt m0 (inA + off.toNat) (mk ++ mk').length = x ++ readAt m0 (inA + off1.toNat) mk'.length := by
    rw [List.length_append, readAt_append, ho1, ← hx, Nat.add_assoc]
  unfold Emits
  rw [hread, gather_append _ _ _ _ hxl, S.app _ _ _ hs, merge_append _ _ _ _ _ _ hxl (S.len _ _ hs),
    S.next_app _ _ _ hs hs2, ← List.append_assoc, List.length_append (as := gather mk x), ← Nat.add_assoc]
  refine ⟨by rw [ho2, ho1, List.length_append]; omega, ?_, hh⟩
  intro h; have := hs h; have := hs2 h; omega

/-- A clear part. -/
theorem emits_clear (s : Cenc σ) (off : UInt64) (k : Nat) (t : τ) (O : Bytes) (h : Holds m0 outA inA N Rel s off k t O) (len : UInt64)
    (hn : off.toNat + len.toNat ≤ N) :
    Emits m0 outA inA N S Rel (cencCopy s (outA + off.toNat) (inA + off.toNat) len) off (off + len) k t O
      (List.replicate len.toNat false) := by
  have := holds_copy m0 outA inA N hdis hN Rel s off k t O h len hn
  refine ⟨?_, ?_, ?_⟩
  · rw [u64_add_le off len N (by omega) hn, List.length_replicate]
  · intro _; rw [gather_false]; rfl
  · rw [gather_false, S.next_nil, List.length_replicate]
    have hm := merge_false (readAt m0 (inA + off.toNat) len.toNat) (S.T t [])
    rw [readAt_length] at hm
    rw [hm]
    exact this

/-- An encrypted part. -/
theorem emits_dec (ctr : Bool) (hD : DecSpec ops ctr S Rel okLen) (hstrict : S.strict = true → ∀ k n, okLen k n → n % 16 = 0)
    (s : Cenc σ) (off : UInt64) (k : Nat) (t : τ) (O : Bytes) (h : Holds m0 outA inA N Rel s off k t O) (n : UInt64)
    (hn : off.toNat + n.toNat ≤ N) (hok : okLen k n.toNat) :
    ∃ s', cencDecrypt ops ctr s (outA + off.toNat) (inA + off.toNat) n = (s', .OK) ∧
      Emits m0 outA inA N S Rel s' off (off + n) k t O (List.replicate n.toNat true) := by
  obtain ⟨s', e, hh⟩ := holds_dec m0 outA inA N hdis hN ops S Rel okLen ctr hD hstrict s off k t O h n hn hok
  refine ⟨s', e, ?_, ?_, ?_⟩
  · rw [u64_add_le off n N (by omega) hn, List.length_replicate]
  · intro hs
    rw [List.length_replicate]
    have hg := gather_true (readAt m0 (inA + off.toNat) n.toNat)
    rw [readAt_length] at hg
    rw [hg, readAt_length]; exact hstrict hs k _ hok
  · rw [List.length_replicate]
    have hg := gather_true (readAt m0 (inA + off.toNat) n.toNat)
    rw [readAt_length] at hg
    rw [hg, readAt_length]
    have hm := merge_true (readAt m0 (inA + off.toNat) n.toNat) (S.T t (readAt m0 (inA + off.toNat) n.toNat))
      (S.len _ _ (fun hs => by rw [readAt_length]; exact hstrict hs k _ hok))
    rw [readAt_length] at hm
    rw [hm]
    exact hh

/-- The pattern loop. -/
theorem emits_stripes (p : SampleParams) (ho : p.outA = outA) (hi : p.inA = inA) (hD : DecSpec ops p.ctr S Rel okLen)
    (hstrict : S.strict = true → ∀ k n, okLen k n → n % 16 = 0)
    (hal : ∀ k n, k % 16 = 0 → n % 16 = 0 → k + n < 2 ^ 64 → okLen k n)
    (hc : p.crypt ≠ 0) (hc60 : p.crypt.toNat < 2 ^ 60) (hs60 : p.skip.toNat < 2 ^ 60)
    (fuel : Nat) (s : Cenc σ) (off left : UInt64) (k : Nat) (t : τ) (O : Bytes) (h : Holds m0 outA inA N Rel s off k t O)
    (hn : off.toNat + left.toNat ≤ N) (hk : k % 16 = 0) (hk64 : k + left.toNat < 2 ^ 64) (hf : left.toNat < 16 * fuel) :
    ∃ s' off' left', cencStripes ops p fuel s off left .OK = some (s', off', left', .OK) ∧
      off'.toNat + left'.toNat = off.toNat + left.toNat ∧ left'.toNat < 16 ∧
      ∃ mk, protectedMask p.ctr p.crypt.toNat p.skip.toNat left.toNat = mk ++ List.replicate left'.toNat false ∧
        Emits m0 outA inA N S Rel s' off off' k t O mk ∧
        (k + (gather mk (readAt m0 (inA + off.toNat) mk.length)).length) % 16 = 0 ∧
        (gather mk (readAt m0 (inA + off.toNat) mk.length)).length ≤ left.toNat := by
  have hcN : p.crypt.toNat ≠ 0 := fun h => hc (UInt64.toNat.inj (by simpa using h))
  induction fuel generalizing s off left k t O with
  | zero => omega
  | succ fuel ih =>
    unfold cencStripes
    by_cases h16 : left < 16
    · have h16' : left.toNat < 16 := by simpa using UInt64.lt_iff_toNat_lt.mp h16
      rw [if_pos h16]
      refine ⟨s, off, left, rfl, rfl, h16', [], ?_, Emits.nil m0 outA inA N S Rel s off k t O h, by simpa [gather] using hk, by simp [gather]⟩
      rw [protectedMask_small _ _ _ _ hcN h16']; rfl
    · have h16' : 16 ≤ left.toNat := by
        have := mt UInt64.lt_iff_toNat_lt.mpr h16
        simpa using this
      rw [if_neg h16]
      obtain ⟨b1, hb1⟩ : ∃ b : UInt64, b = if p.crypt * 16 ≤ left / 16 * 16 then p.crypt * 16 else left / 16 * 16 := ⟨_, rfl⟩
      have hb1' : b1.toNat = min (p.crypt.toNat * 16) (left.toNat / 16 * 16) := by
        rw [hb1, u64_min, u64_mul16 _ hc60, u64_blocks]
      have hb1pos : 0 < b1.toNat := by omega
      have hb116 : b1.toNat % 16 = 0 := by omega
      have hb1le : b1.toNat ≤ left.toNat := by omega
      obtain ⟨s1, e1, em1⟩ := emits_dec m0 outA inA N hdis hN ops S Rel okLen p.ctr hD hstrict s off k t O h b1 (by omega)
        (hal k _ hk hb116 (by omega))
      simp only [← hb1, ho, hi, if_pos ((u64_pos b1).mpr hb1pos), e1]
      rw [if_neg (by simp)]
      have hoff1 : (off + b1).toNat = off.toNat + b1.toNat := u64_add_le off b1 N (by omega) (by omega)
      have hleft1 : (left - b1).toNat = left.toNat - b1.toNat := UInt64.toNat_sub_of_le _ _ (UInt64.le_iff_toNat_le.mpr hb1le)
      obtain ⟨b2, hb2⟩ : ∃ b : UInt64, b = if p.skip * 16 ≤ (left - b1) / 16 * 16 then p.skip * 16 else (left - b1) / 16 * 16 := ⟨_, rfl⟩
      have hb2' : b2.toNat = min (p.skip.toNat * 16) ((left.toNat - b1.toNat) / 16 * 16) := by
        rw [hb2, u64_min, u64_mul16 _ hs60, u64_blocks, hleft1]
      have hb2le : b2.toNat ≤ left.toNat - b1.toNat := by omega
      have hmask := protectedMask_stripe p.ctr p.crypt.toNat p.skip.toNat left.toNat b1.toNat b2.toNat hcN hb1' hb2'
      have hg1 : (gather (List.replicate b1.toNat true) (readAt m0 (inA + off.toNat) (List.replicate b1.toNat true).length)).length = b1.toNat := by
        have hg := gather_true (readAt m0 (inA + off.toNat) b1.toNat)
        rw [readAt_length] at hg
        rw [List.length_replicate, hg, readAt_length]
      obtain ⟨f1, f2, f3⟩ := em1
      simp only [← hb2]
      by_cases hskip : p.skip > 0 ∧ b2 > 0
      · rw [if_pos hskip]
        have em2 := emits_clear m0 outA inA N hdis hN S Rel s1 (off + b1) _ _ _ f3 b2 (by omega)
        have hoff2 : (off + b1 + b2).toNat = off.toNat + b1.toNat + b2.toNat := by
          rw [u64_add_le (off + b1) b2 N (by omega) (by omega), hoff1]
        have hleft2 : (left - b1 - b2).toNat = left.toNat - b1.toNat - b2.toNat := by
          rw [UInt64.toNat_sub_of_le _ _ (UInt64.le_iff_toNat_le.mpr (by omega)), hleft1]
        have em12 := Emits.append m0 outA inA N S Rel _ off (off + b1) (off + b1 + b2) k t O (List.replicate b1.toNat true)
          (List.replicate b2.toNat false) _ rfl f1 f2 em2
        obtain ⟨g1, g2, g3⟩ := em12
        have hg2 : (gather (List.replicate b1.toNat true ++ List.replicate b2.toNat false)
            (readAt m0 (inA + off.toNat) (List.replicate b1.toNat true ++ List.replicate b2.toNat false).length)).length = b1.toNat := by
          rw [List.length_append, readAt_append, gather_append _ _ _ _ (by rw [readAt_length]), gather_false, List.append_nil, hg1]
        obtain ⟨s', off', left', e', h1', h2', mk, h3', h4', h5', h6'⟩ := ih _ (off + b1 + b2) (left - b1 - b2) _ _ _ g3 (by omega)
          (by rw [hg2]; omega) (by rw [hg2]; omega) (by omega)
        refine ⟨s', off', left', e', by omega, h2', List.replicate b1.toNat true ++ List.replicate b2.toNat false ++ mk, ?_, ?_, ?_, ?_⟩
        · rw [hmask, ← hleft2, h3']; simp only [List.append_assoc]
        · exact Emits.append m0 outA inA N S Rel _ off _ off' k t O _ mk _ rfl g1 g2 h4'
        · rw [List.length_append (as := _ ++ _), readAt_append, gather_append _ _ _ _ (by rw [readAt_length]), List.length_append, ← Nat.add_assoc]
          have : inA + off.toNat + (List.replicate b1.toNat true ++ List.replicate b2.toNat false).length = inA + (off + b1 + b2).toNat := by
            rw [g1]; omega
          rw [this]
          exact h5'
        · rw [List.length_append (as := _ ++ _), readAt_append, gather_append _ _ _ _ (by rw [readAt_length]), List.length_append]
          have : inA + off.toNat + (List.replicate b1.toNat true ++ List.replicate b2.toNat false).length = inA + (off + b1 + b2).toNat := by
            rw [g1]; omega
          rw [this, hg2]
          omega
      · rw [if_neg hskip]
        have hb20 : b2.toNat = 0 := by
          apply Classical.byContradiction
          intro hne
          apply hskip
          refine ⟨(u64_pos _).mpr ?_, (u64_pos _).mpr (by omega)⟩
          omega
        rw [hb20] at hmask
        obtain ⟨s', off', left', e', h1', h2', mk, h3', h4', h5', h6'⟩ := ih s1 (off + b1) (left - b1) _ _ _ f3 (by omega)
          (by rw [hg1]; omega) (by rw [hg1]; omega) (by omega)
        refine ⟨s', off', left', e', by omega, h2', List.replicate b1.toNat true ++ mk, ?_, ?_, ?_, ?_⟩
        · rw [hmask]
          simp only [List.replicate_zero, List.nil_append, Nat.sub_zero]
          rw [← hleft1, h3', List.append_assoc]
        · exact Emits.append m0 outA inA N S Rel _ off _ off' k t O _ mk _ rfl f1 f2 h4'
        · rw [List.length_append (as := List.replicate _ _), readAt_append, gather_append _ _ _ _ (by rw [readAt_length]), List.length_append,
            ← Nat.add_assoc]
          have : inA + off.toNat + (List.replicate b1.toNat true).length = inA + (off + b1).toNat := by rw [f1]; omega
          rw [this]
          exact h5'
        · rw [List.length_append (as := List.replicate _ _), readAt_append, gather_append _ _ _ _ (by rw [readAt_length]), List.length_append]
          have : inA + off.toNat + (List.replicate b1.toNat true).length = inA + (off + b1).toNat := by rw [f1]; omega
          rw [this, hg1]
          omega

omit hdis hN in
theorem gather_length_le (m : List Bool) (x : Bytes) : (gather m x).length ≤ m.length := by
  induction m generalizing x with
  | nil => simp [gather]
  | cons b m ih => cases x with
    | nil => cases b <;> simp [gather]
    | cons a as =>
      have := ih as
      cases b <;> simp [gather] <;> omega

/-- The protected part of a subsample, started in state `t` (after the IV has been set again, if it is). -/
theorem emits_protected (p : SampleParams) (ho : p.outA = outA) (hi : p.inA = inA) (hD : DecSpec ops p.ctr S Rel okLen)
    (hstrict : S.strict = true → ∀ k n, okLen k n → n % 16 = 0)
    (hal : ∀ k n, k % 16 = 0 → n % 16 = 0 → k + n < 2 ^ 64 → okLen k n)
    (hc60 : p.crypt.toNat < 2 ^ 60) (hs60 : p.skip.toNat < 2 ^ 60)
    (fuel : Nat) (s s0 : Cenc σ) (off prot : UInt64) (k : Nat) (t : τ) (O : Bytes) (h : Holds m0 outA inA N Rel s0 off k t O)
    (hset : if p.crypt ≠ 0 ∧ p.ctr = false then symSetIv ops { s with iv := p.iv } = (s0, .OK) else s0 = s)
    (hn : off.toNat + prot.toNat ≤ N) (hkoff : k ≤ off.toNat) (hf : prot.toNat < 16 * fuel)
    (hk : p.crypt ≠ 0 ∨ p.ctr = false → k % 16 = 0) (hok : p.crypt = 0 → p.ctr = true → okLen k prot.toNat) (hpos : 0 < prot.toNat) :
    ∃ s' off', cencProtected ops p fuel s off prot .OK = some (s', off', .OK, false) ∧
      Emits m0 outA inA N S Rel s' off off' k t O (protectedMask p.ctr p.crypt.toNat p.skip.toNat prot.toNat) ∧
      (p.crypt ≠ 0 ∨ p.ctr = false → (k + (gather (protectedMask p.ctr p.crypt.toNat p.skip.toNat prot.toNat)
        (readAt m0 (inA + off.toNat) (protectedMask p.ctr p.crypt.toNat p.skip.toNat prot.toNat).length)).length) % 16 = 0) := by
  unfold cencProtected
  rw [if_pos ((u64_pos _).mpr hpos)]
  by_cases hc : p.crypt = 0
  · rw [if_pos hc]
    rw [if_neg (fun h => h.1 hc)] at hset
    subst hset
    have hcN : p.crypt.toNat = 0 := by rw [hc]; rfl
    rw [hcN]
    cases hctr : p.ctr with
    | true =>
      rw [hctr] at hD
      obtain ⟨s1, e1, em1⟩ := emits_dec m0 outA inA N hdis hN ops S Rel okLen true hD hstrict s0 off k t O h prot hn (hok hc hctr)
      simp only [if_true, UInt64.sub_zero, ho, hi, e1]
      rw [if_neg (by simp), if_neg (by decide)]
      refine ⟨s1, off + prot, rfl, ?_, ?_⟩
      · rw [protectedMask_ctr]; exact em1
      · intro h; rcases h with h | h
        · exact absurd hc h
        · exact absurd h (by simp)
    | false =>
      rw [hctr] at hD
      have hk16 := hk (Or.inr hctr)
      have hrem : (prot % 16).toNat = prot.toNat % 16 := by rw [UInt64.toNat_mod]; rfl
      have hblk : (prot - prot % 16).toNat = prot.toNat / 16 * 16 := by
        rw [UInt64.toNat_sub_of_le _ _ (UInt64.le_iff_toNat_le.mpr (by rw [hrem]; omega)), hrem]; omega
      obtain ⟨s1, e1, em1⟩ := emits_dec m0 outA inA N hdis hN ops S Rel okLen false hD hstrict s0 off k t O h (prot - prot % 16)
        (by omega) (hal k _ hk16 (by omega) (by omega))
      simp only [Bool.false_eq_true, if_false, ho, hi, e1]
      rw [if_neg (by simp)]
      rw [hblk] at em1
      have hg1 : (gather (List.replicate (prot.toNat / 16 * 16) true) (readAt m0 (inA + off.toNat) (List.replicate (prot.toNat / 16 * 16) true).length)).length = prot.toNat / 16 * 16 := by
        have hg := gather_true (readAt m0 (inA + off.toNat) (prot.toNat / 16 * 16))
        rw [readAt_length] at hg
        rw [List.length_replicate, hg, readAt_length]
      have hoff1 : (off + (prot - prot % 16)).toNat = off.toNat + prot.toNat / 16 * 16 := by
        rw [u64_add_le _ _ N (by omega) (by omega), hblk]
      rw [protectedMask_cbc]
      obtain ⟨f1, f2, f3⟩ := em1
      have hend : (k + (gather (List.replicate (prot.toNat / 16 * 16) true ++ List.replicate (prot.toNat - prot.toNat / 16 * 16) false)
          (readAt m0 (inA + off.toNat) (List.replicate (prot.toNat / 16 * 16) true ++ List.replicate (prot.toNat - prot.toNat / 16 * 16) false).length)).length) % 16 = 0 := by
        rw [List.length_append, readAt_append, gather_append _ _ _ _ (by rw [readAt_length]), gather_false, List.append_nil, hg1]
        omega
      by_cases hr : prot % 16 > 0
      · rw [if_pos hr]
        refine ⟨_, _, rfl, ?_, fun _ => hend⟩
        have em2 := emits_clear m0 outA inA N hdis hN S Rel s1 _ _ _ _ f3 (prot % 16) (by omega)
        have := Emits.append m0 outA inA N S Rel _ off _ _ k t O _ _ _ rfl f1 f2 em2
        rw [show (prot % 16).toNat = prot.toNat - prot.toNat / 16 * 16 by omega] at this
        exact this
      · rw [if_neg hr]
        refine ⟨_, _, rfl, ?_, fun _ => hend⟩
        have hr' := mt (u64_pos _).mpr hr
        rw [show prot.toNat - prot.toNat / 16 * 16 = 0 by omega]
        simp only [List.replicate_zero, List.append_nil]
        exact ⟨f1, f2, f3⟩
  · rw [if_neg hc]
    have hcN : p.crypt.toNat ≠ 0 := fun h => hc (UInt64.toNat.inj (by simpa using h))
    have hk16 := hk (Or.inl hc)
    obtain ⟨s1, off1, left1, e1, e2, e3, mk, e4, em, e5, e6⟩ := emits_stripes m0 outA inA N hdis hN ops S Rel okLen p ho hi hD hstrict hal hc hc60 hs60
      fuel s0 off prot k t O h hn hk16 (by omega) hf
    have hstart : (if p.ctr then (s, Status.OK) else symSetIv ops { s with iv := p.iv }) = (s0, .OK) := by
      cases hctr : p.ctr with
      | true =>
        rw [if_neg (by rw [hctr]; simp)] at hset
        subst hset; simp
      | false =>
        rw [if_pos ⟨hc, hctr⟩] at hset
        simp [hset]
    simp only [hstart, ne_eq, not_true_eq_false, decide_false, Bool.and_false, Bool.false_eq_true, if_false, e1, ho, hi]
    obtain ⟨f1, f2, f3⟩ := em
    rw [e4]
    have hend : (k + (gather (mk ++ List.replicate left1.toNat false)
        (readAt m0 (inA + off.toNat) (mk ++ List.replicate left1.toNat false).length)).length) % 16 = 0 := by
      rw [List.length_append, readAt_append, gather_append _ _ _ _ (by rw [readAt_length]), gather_false, List.append_nil]
      exact e5
    by_cases hl : left1 > 0
    · rw [if_pos hl]
      refine ⟨_, _, rfl, ?_, fun _ => hend⟩
      have em2 := emits_clear m0 outA inA N hdis hN S Rel s1 _ _ _ _ f3 left1 (by omega)
      exact Emits.append m0 outA inA N S Rel _ off _ _ k t O _ _ _ rfl f1 f2 em2
    · rw [if_neg hl]
      refine ⟨_, _, rfl, ?_, fun _ => hend⟩
      have hl' := mt (u64_pos _).mpr hl
      rw [show left1.toNat = 0 by omega]
      simp only [List.replicate_zero, List.append_nil]
      exact ⟨f1, f2, f3⟩

/-- Lengths of a subsample as numbers. -/
def Subsample.nat (sub : Subsample) : Nat × Nat := (sub.clear.toNat, sub.prot.toNat)

/-- The clear part of a subsample. -/
theorem emits_clear' (s : Cenc σ) (off : UInt64) (k : Nat) (t : τ) (O : Bytes) (h : Holds m0 outA inA N Rel s off k t O) (len : UInt64)
    (hn : off.toNat + len.toNat ≤ N) :
    Emits m0 outA inA N S Rel (if len > 0 then cencCopy s (outA + off.toNat) (inA + off.toNat) len else s) off (off + len) k t O
      (List.replicate len.toNat false) := by
  by_cases hl : len > 0
  · rw [if_pos hl]; exact emits_clear m0 outA inA N hdis hN S Rel s off k t O h len hn
  · rw [if_neg hl]
    have hl0 : len = 0 := UInt64.toNat.inj (by have := mt (u64_pos _).mpr hl; show len.toNat = 0; omega)
    subst hl0
    rw [UInt64.add_zero]
    exact Emits.nil m0 outA inA N S Rel s off k t O h

/-- Which lists of protected ranges are decrypted correctly, from `k` bytes on. -/
def okList (okLen : Nat → Nat → Prop) : Nat → List Subsample → Prop
  | _, [] => True
  | k, sub :: subs => okLen k sub.prot.toNat ∧ okList okLen (k + sub.prot.toNat) subs

/-- All subsamples, when the IV is not set again. -/
theorem emits_subsamples (p : SampleParams) (ho : p.outA = outA) (hi : p.inA = inA) (hD : DecSpec ops p.ctr S Rel okLen)
    (hstrict : S.strict = true → ∀ k n, okLen k n → n % 16 = 0)
    (hal : ∀ k n, k % 16 = 0 → n % 16 = 0 → k + n < 2 ^ 64 → okLen k n)
    (hc60 : p.crypt.toNat < 2 ^ 60) (hs60 : p.skip.toNat < 2 ^ 60) (hreset : ¬ (p.crypt ≠ 0 ∧ p.ctr = false))
    (fuel : Nat) (subs : List Subsample) (s : Cenc σ) (off : UInt64) (k : Nat) (t : τ) (O : Bytes)
    (h : Holds m0 outA inA N Rel s off k t O) (hn : off.toNat + total (subs.map Subsample.nat) ≤ N) (hkoff : k ≤ off.toNat)
    (hf : N < 16 * fuel) (hk : p.crypt ≠ 0 ∨ p.ctr = false → k % 16 = 0) (hok : p.crypt = 0 → p.ctr = true → okList okLen k subs) :
    ∃ s' off', cencSubsamples ops p fuel subs s off .OK = some (s', off', .OK) ∧
      Emits m0 outA inA N S Rel s' off off' k t O (sampleMask p.ctr p.crypt.toNat p.skip.toNat (subs.map Subsample.nat)) := by
  induction subs generalizing s off k t O with
  | nil => exact ⟨s, off, rfl, Emits.nil m0 outA inA N S Rel s off k t O h⟩
  | cons sub subs ih =>
    have htot : total ((sub :: subs).map Subsample.nat) = sub.clear.toNat + sub.prot.toNat + total (subs.map Subsample.nat) := by
      simp [total, Subsample.nat]
    rw [htot] at hn
    unfold cencSubsamples
    simp only [ho, hi]
    have em1 := emits_clear' m0 outA inA N hdis hN S Rel s off k t O h sub.clear (by omega)
    obtain ⟨s1, hs1⟩ : ∃ s1, s1 = (if sub.clear > 0 then cencCopy s (outA + off.toNat) (inA + off.toNat) sub.clear else s) := ⟨_, rfl⟩
    rw [← hs1] at em1 ⊢
    have hoff1 : (off + sub.clear).toNat = off.toNat + sub.clear.toNat := u64_add_le _ _ N (by omega) (by omega)
    obtain ⟨f1, f2, f3⟩ := em1
    rw [gather_false, S.next_nil] at f3
    simp only [List.length_nil, Nat.add_zero] at f3
    have hmask : sampleMask p.ctr p.crypt.toNat p.skip.toNat ((sub :: subs).map Subsample.nat) =
        List.replicate sub.clear.toNat false ++ (protectedMask p.ctr p.crypt.toNat p.skip.toNat sub.prot.toNat ++
          sampleMask p.ctr p.crypt.toNat p.skip.toNat (subs.map Subsample.nat)) := by
      simp [sampleMask, subMask, Subsample.nat]
    rw [hmask]
    by_cases hp : sub.prot > 0
    · have hpos := (u64_pos _).mp hp
      obtain ⟨s2, off2, e2, em2, hend⟩ := emits_protected m0 outA inA N hdis hN ops S Rel okLen p ho hi hD hstrict hal hc60 hs60
        fuel s1 s1 (off + sub.clear) sub.prot k t _ f3 (by rw [if_neg hreset]) (by omega) (by omega) (by omega) hk
        (fun a b => (hok a b).1) hpos
      rw [e2]
      simp only
      obtain ⟨g1, g2, g3⟩ := em2
      have hgl := gather_length_le (protectedMask p.ctr p.crypt.toNat p.skip.toNat sub.prot.toNat)
        (readAt m0 (inA + (off + sub.clear).toNat) (protectedMask p.ctr p.crypt.toNat p.skip.toNat sub.prot.toNat).length)
      rw [protectedMask_length] at g1 hgl
      obtain ⟨s3, off3, e3, em3⟩ := ih s2 off2 _ _ _ g3 (by omega)
        (by rw [protectedMask_length]; omega)
        hend (fun a b => by
          have := (hok a b).2
          have hA : p.crypt.toNat = 0 := by rw [a]; rfl
          rw [hA, b, protectedMask_ctr, List.length_replicate]
          have hg := gather_true (readAt m0 (inA + (off + sub.clear).toNat) sub.prot.toNat)
          rw [readAt_length] at hg
          rw [hg, readAt_length]; exact this)
      refine ⟨s3, off3, e3, ?_⟩
      have em23 := Emits.append m0 outA inA N S Rel _ (off + sub.clear) _ _ _ _ _ _ _ _ rfl
        (by rw [protectedMask_length]; exact g1) g2 em3
      apply Emits.append m0 outA inA N S Rel _ off _ _ k t O _ _ _ rfl f1 f2
      rw [gather_false, S.next_nil]
      exact em23
    · have hp0 : sub.prot = 0 := UInt64.toNat.inj (by have := mt (u64_pos _).mpr hp; show sub.prot.toNat = 0; omega)
      have e2 : cencProtected ops p fuel s1 (off + sub.clear) sub.prot .OK = some (s1, off + sub.clear, .OK, false) := by
        unfold cencProtected
        rw [if_neg hp]
      rw [e2]
      simp only
      obtain ⟨s3, off3, e3, em3⟩ := ih s1 (off + sub.clear) k t _ f3 (by omega) (by omega) hk (fun a b => by
        have := (hok a b).2
        rw [hp0] at this; exact this)
      refine ⟨s3, off3, e3, ?_⟩
      have : protectedMask p.ctr p.crypt.toNat p.skip.toNat sub.prot.toNat = [] := by rw [hp0]; rfl
      rw [this, List.nil_append]
      apply Emits.append m0 outA inA N S Rel _ off _ _ k t O _ _ _ rfl f1 f2
      rw [gather_false, S.next_nil]
      exact em3

/-- Output of a sample whose IV is set again for every subsample. -/
def resetOut (S : StreamSpec τ) (t0 : τ) (ctr : Bool) (c sk : Nat) (m0 : Mem) (a : Nat) : List (Nat × Nat) → Bytes
  | [] => []
  | sub :: subs =>
    merge (subMask ctr c sk sub) (readAt m0 a (sub.1 + sub.2)) (S.T t0 (gather (subMask ctr c sk sub) (readAt m0 a (sub.1 + sub.2)))) ++
      resetOut S t0 ctr c sk m0 (a + (sub.1 + sub.2)) subs

/-- All subsamples, when the IV is set again for every one with protected bytes. -/
theorem emits_reset (p : SampleParams) (ho : p.outA = outA) (hi : p.inA = inA) (hD : DecSpec ops p.ctr S Rel okLen)
    (hstrict : S.strict = true → ∀ k n, okLen k n → n % 16 = 0)
    (hal : ∀ k n, k % 16 = 0 → n % 16 = 0 → k + n < 2 ^ 64 → okLen k n)
    (hc60 : p.crypt.toNat < 2 ^ 60) (hs60 : p.skip.toNat < 2 ^ 60) (hreset : p.crypt ≠ 0 ∧ p.ctr = false)
    (t0 : τ) (hset : ∀ (s : Cenc σ) k t, Rel k t s.ctx s.iv s.count →
      ∃ c, symSetIv ops { s with iv := p.iv } = ({ s with iv := p.iv, ctx := c }, .OK) ∧ Rel k t0 c p.iv s.count)
    (fuel : Nat) (subs : List Subsample) (s : Cenc σ) (off : UInt64) (k : Nat) (t : τ) (O : Bytes)
    (h : Holds m0 outA inA N Rel s off k t O) (hn : off.toNat + total (subs.map Subsample.nat) ≤ N) (hkoff : k ≤ off.toNat)
    (hf : N < 16 * fuel) (hk : k % 16 = 0) :
    ∃ s' off' k' t', cencSubsamples ops p fuel subs s off .OK = some (s', off', .OK) ∧
      off'.toNat = off.toNat + total (subs.map Subsample.nat) ∧
      Holds m0 outA inA N Rel s' off' k' t'
        (O ++ resetOut S t0 p.ctr p.crypt.toNat p.skip.toNat m0 (inA + off.toNat) (subs.map Subsample.nat)) := by
  induction subs generalizing s off k t O with
  | nil => exact ⟨s, off, k, t, rfl, by simp [total], by simpa [resetOut] using h⟩
  | cons sub subs ih =>
    have htot : total ((sub :: subs).map Subsample.nat) = sub.clear.toNat + sub.prot.toNat + total (subs.map Subsample.nat) := by
      simp [total, Subsample.nat]
    rw [htot] at hn ⊢
    unfold cencSubsamples
    simp only [ho, hi]
    have h1 := (emits_clear' m0 outA inA N hdis hN S Rel s off k t O h sub.clear (by omega)).2.2
    obtain ⟨s1, hs1⟩ : ∃ s1, s1 = (if sub.clear > 0 then cencCopy s (outA + off.toNat) (inA + off.toNat) sub.clear else s) := ⟨_, rfl⟩
    rw [← hs1] at h1 ⊢
    have hoff1 : (off + sub.clear).toNat = off.toNat + sub.clear.toNat := u64_add_le _ _ N (by omega) (by omega)
    rw [gather_false, S.next_nil] at h1
    simp only [List.length_nil, Nat.add_zero, List.length_replicate] at h1
    have hmf := merge_false (readAt m0 (inA + off.toNat) sub.clear.toNat) (S.T t [])
    rw [readAt_length] at hmf
    rw [hmf] at h1
    -- output of this subsample
    have hsub : merge (subMask p.ctr p.crypt.toNat p.skip.toNat sub.nat) (readAt m0 (inA + off.toNat) (sub.clear.toNat + sub.prot.toNat))
          (S.T t0 (gather (subMask p.ctr p.crypt.toNat p.skip.toNat sub.nat) (readAt m0 (inA + off.toNat) (sub.clear.toNat + sub.prot.toNat)))) =
        readAt m0 (inA + off.toNat) sub.clear.toNat ++
          merge (protectedMask p.ctr p.crypt.toNat p.skip.toNat sub.prot.toNat) (readAt m0 (inA + (off + sub.clear).toNat) sub.prot.toNat)
            (S.T t0 (gather (protectedMask p.ctr p.crypt.toNat p.skip.toNat sub.prot.toNat)
              (readAt m0 (inA + (off + sub.clear).toNat) sub.prot.toNat))) := by
      unfold subMask Subsample.nat
      simp only
      rw [readAt_append, gather_append _ _ _ _ (by rw [readAt_length, List.length_replicate]), gather_false, List.nil_append]
      have := merge_append (List.replicate sub.clear.toNat false) (protectedMask p.ctr p.crypt.toNat p.skip.toNat sub.prot.toNat)
        (readAt m0 (inA + off.toNat) sub.clear.toNat) (readAt m0 (inA + off.toNat + sub.clear.toNat) sub.prot.toNat) []
        (S.T t0 (gather (protectedMask p.ctr p.crypt.toNat p.skip.toNat sub.prot.toNat)
              (readAt m0 (inA + off.toNat + sub.clear.toNat) sub.prot.toNat))) (by rw [readAt_length, List.length_replicate])
        (by rw [gather_false])
      rw [List.nil_append] at this
      rw [this, hoff1, ← Nat.add_assoc]
      congr 1
      have hmf := merge_false (readAt m0 (inA + off.toNat) sub.clear.toNat) []
      rw [readAt_length] at hmf
      exact hmf
    have hrest : ∀ o3 : UInt64, o3.toNat = off.toNat + (sub.clear.toNat + sub.prot.toNat) →
        resetOut S t0 p.ctr p.crypt.toNat p.skip.toNat m0 (inA + off.toNat) ((sub :: subs).map Subsample.nat) =
        readAt m0 (inA + off.toNat) sub.clear.toNat ++
          merge (protectedMask p.ctr p.crypt.toNat p.skip.toNat sub.prot.toNat) (readAt m0 (inA + (off + sub.clear).toNat) sub.prot.toNat)
            (S.T t0 (gather (protectedMask p.ctr p.crypt.toNat p.skip.toNat sub.prot.toNat)
              (readAt m0 (inA + (off + sub.clear).toNat) sub.prot.toNat))) ++
          resetOut S t0 p.ctr p.crypt.toNat p.skip.toNat m0 (inA + o3.toNat) (subs.map Subsample.nat) := by
      intro o3 h3
      rw [← hsub, h3, ← Nat.add_assoc]
      rfl
    by_cases hp : sub.prot > 0
    · have hpos := (u64_pos _).mp hp
      obtain ⟨c, q1, q2⟩ := hset s1 k t h1.rel
      have h0 : Holds m0 outA inA N Rel { s1 with iv := p.iv, ctx := c } (off + sub.clear) k t0 (O ++ readAt m0 (inA + off.toNat) sub.clear.toNat) :=
        ⟨h1.mem, h1.len, h1.le, q2, h1.fine, h1.within⟩
      obtain ⟨s2, off2, e2, em2, hend⟩ := emits_protected m0 outA inA N hdis hN ops S Rel okLen p ho hi hD hstrict hal hc60 hs60
        fuel s1 _ (off + sub.clear) sub.prot k t0 _ h0 (by rw [if_pos hreset]; exact q1) (by omega) (by omega) (by omega) (fun _ => hk)
        (fun a _ => absurd a hreset.1) hpos
      rw [e2]
      simp only
      obtain ⟨g1, g2, g3⟩ := em2
      have hgl := gather_length_le (protectedMask p.ctr p.crypt.toNat p.skip.toNat sub.prot.toNat)
        (readAt m0 (inA + (off + sub.clear).toNat) (protectedMask p.ctr p.crypt.toNat p.skip.toNat sub.prot.toNat).length)
      rw [protectedMask_length] at g1 hgl
      obtain ⟨s3, off3, k3, t3, e3, o3, em3⟩ := ih s2 off2 _ _ _ g3 (by omega) (by rw [protectedMask_length]; omega) (hend (Or.inl hreset.1))
      refine ⟨s3, off3, k3, t3, e3, by omega, ?_⟩
      rw [hrest off2 (by omega)]
      rw [protectedMask_length] at em3
      simp only [List.append_assoc] at em3 ⊢
      exact em3
    · have hp0 : sub.prot = 0 := UInt64.toNat.inj (by have := mt (u64_pos _).mpr hp; show sub.prot.toNat = 0; omega)
      have e2 : cencProtected ops p fuel s1 (off + sub.clear) sub.prot .OK = some (s1, off + sub.clear, .OK, false) := by
        unfold cencProtected
        rw [if_neg hp]
      rw [e2]
      simp only
      obtain ⟨s3, off3, k3, t3, e3, o3, em3⟩ := ih s1 (off + sub.clear) k t _ h1 (by omega) (by omega) hk
      have hz : sub.prot.toNat = 0 := by rw [hp0]; rfl
      refine ⟨s3, off3, k3, t3, e3, by omega, ?_⟩
      rw [hrest (off + sub.clear) (by omega), hz]
      have : protectedMask p.ctr p.crypt.toNat p.skip.toNat 0 = [] := rfl
      rw [this]
      simp only [merge, List.append_nil]
      rw [List.append_assoc] at em3
      exact em3

end

end Sa

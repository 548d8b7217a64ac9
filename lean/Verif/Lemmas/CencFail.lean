import Verif.Lemmas.CencSample

/-!
# Failures of the cipher and offsets in sample processing

For every cipher (`SymOps`), whatever it does.
-/

namespace Sa

open CencSpec

variable {σ : Type}

theorem symDecrypt_failed (ops : SymOps σ) (ctr : Bool) (s : Cenc σ) (o i : Nat) (n : UInt64)
    (h : (symDecrypt ops ctr s o i n).2.1 = .OK) : (symDecrypt ops ctr s o i n).1.failed = s.failed := by
  revert h
  unfold symDecrypt
  split
  · intro h; simp at h
  · simp only
    split
    · intro h; simp at h
    · split
      · intro h; simp at h
      · intro _; rfl

theorem symSetIv_failed (ops : SymOps σ) (s : Cenc σ) (h : (symSetIv ops s).2 = .OK) : (symSetIv ops s).1.failed = s.failed := by
  revert h
  unfold symSetIv
  split
  · intro h; simp at h
  · intro _; rfl

theorem decryptRest_failed (ops : SymOps σ) (ctr : Bool) (s : Cenc σ) (o i : Nat) (n d f l : UInt64)
    (h : (decryptRest ops ctr s o i n d f l).2 = .OK) : (decryptRest ops ctr s o i n d f l).1.failed = s.failed := by
  have hd := symDecrypt_failed ops ctr s (o + d.toNat) (i + d.toNat) (n - d)
  revert h
  unfold decryptRest
  simp only
  generalize symDecrypt ops ctr s (o + d.toNat) (i + d.toNat) (n - d) = r at hd ⊢
  by_cases hr : r.2.1 = .OK
  · simp only [hr, ne_eq, not_true_eq_false, if_false]; intro _; exact hd hr
  · simp only [ne_eq, hr, not_false_eq_true, if_true]; intro h; first | exact absurd h hr | exact h.elim

theorem decryptPartial_failed (ops : SymOps σ) (s : Cenc σ) (o i : Nat) (l : UInt64)
    (h : (decryptPartial ops s o i l).2.1 = .OK) : (decryptPartial ops s o i l).1.failed = s.failed := by
  have hd := symDecrypt_failed ops true s o i l
  revert h
  unfold decryptPartial
  simp only
  split
  · generalize symDecrypt ops true s o i l = r at hd ⊢
    by_cases hr : r.2.1 = .OK
    · simp only [hr, ne_eq, not_true_eq_false, if_false]
      have hq := symSetIv_failed ops { r.1 with iv := { r.1.iv with lo := r.1.iv.lo + 1 } }
      generalize symSetIv ops { r.1 with iv := { r.1.iv with lo := r.1.iv.lo + 1 } } = q at hq ⊢
      by_cases hq2 : q.2 = .OK
      · simp only [hq2, not_true_eq_false, if_false]; intro _; rw [hq hq2]; exact hd hr
      · simp only [hq2, not_false_eq_true, if_true]; intro h; first | exact absurd h hq2 | exact h.elim
    · simp only [ne_eq, hr, not_false_eq_true, if_true]; intro h; first | exact absurd h hr | exact h.elim
  · intro _; rfl

theorem decryptBlocks_failed (ops : SymOps σ) (s : Cenc σ) (o i : Nat) (d b : UInt64)
    (h : (decryptBlocks ops s o i d b).2.1 = .OK) : (decryptBlocks ops s o i d b).1.failed = s.failed := by
  have hd := symDecrypt_failed ops true s (o + d.toNat) (i + d.toNat) (b * 16)
  revert h
  unfold decryptBlocks
  simp only
  split
  · generalize symDecrypt ops true s (o + d.toNat) (i + d.toNat) (b * 16) = r at hd ⊢
    by_cases hr : r.2.1 = .OK
    · simp only [hr, ne_eq, not_true_eq_false, if_false]
      have hq := symSetIv_failed ops { r.1 with iv := { r.1.iv with lo := r.1.iv.lo + b } }
      generalize symSetIv ops { r.1 with iv := { r.1.iv with lo := r.1.iv.lo + b } } = q at hq ⊢
      by_cases hq2 : q.2 = .OK
      · simp only [hq2, not_true_eq_false, if_false]; intro _; rw [hq hq2]; exact hd hr
      · simp only [hq2, not_false_eq_true, if_true]; intro h; first | exact absurd h hq2 | exact h.elim
    · simp only [ne_eq, hr, not_false_eq_true, if_true]; intro h; first | exact absurd h hr | exact h.elim
  · intro _; rfl

/-- A range whose decryption reports success: no operation of the cipher failed. -/
theorem cencDecrypt_failed (ops : SymOps σ) (ctr : Bool) (s : Cenc σ) (o i : Nat) (n : UInt64)
    (h : (cencDecrypt ops ctr s o i n).2 = .OK) : (cencDecrypt ops ctr s o i n).1.failed = s.failed := by
  revert h
  unfold cencDecrypt
  simp only
  generalize (if s.count % 16 = 0 then (0 : UInt64) else 16 - s.count % 16) = leading
  generalize (n - leading) / 16 = full
  obtain ⟨before, hb⟩ : ∃ before, before = (0xFFFFFFFFFFFFFFFF : UInt64) - s.iv.lo + 1 := ⟨_, rfl⟩
  rw [← hb]
  generalize (if leading > 0 then (1 : UInt64) else 0) = extra
  by_cases hn : n > 0
  · rw [if_pos hn]
    by_cases hroll : (decide (before ≤ full + extra) && ctr) = true
    · rw [if_pos hroll]
      have hp := decryptPartial_failed ops s o i leading
      generalize decryptPartial ops s o i leading = p at hp ⊢
      by_cases hp2 : p.2.1 = .OK
      · rw [if_neg (by simp [hp2])]
        generalize (if before ≤ full then before else full) = blocks
        have hq := decryptBlocks_failed ops p.1 o i p.2.2 blocks
        generalize decryptBlocks ops p.1 o i p.2.2 blocks = q at hq ⊢
        by_cases hq2 : q.2.1 = .OK
        · rw [if_neg (by simp [hq2])]
          by_cases hm : n > q.2.2
          · rw [if_pos hm]
            intro h
            rw [decryptRest_failed ops ctr q.1 o i n q.2.2 (full - blocks) 0 h, hq hq2, hp hp2]
          · rw [if_neg hm]
            intro _
            show q.1.failed = _
            rw [hq hq2, hp hp2]
        · rw [if_pos hq2]; intro h; exact absurd h hq2
      · rw [if_pos hp2]; intro h; exact absurd h hp2
    · rw [if_neg hroll]; intro h; exact decryptRest_failed ops ctr s o i n 0 full leading h
  · rw [if_neg hn]; intro _; rfl

theorem cencCopy_failed (s : Cenc σ) (o i : Nat) (n : UInt64) : (cencCopy s o i n).failed = s.failed := rfl

theorem u64_move (a l b : UInt64) : a + b + (l - b) = a + l := by
  apply UInt64.toNat.inj
  have := UInt64.toNat_lt a
  have := UInt64.toNat_lt l
  have := UInt64.toNat_lt b
  simp only [UInt64.toNat_add, UInt64.toNat_sub]
  omega

/-- The loop over the stripes: what is done plus what is left stays the same; if it reports success no operation failed. -/
theorem cencStripes_gen (ops : SymOps σ) (p : SampleParams) (fuel : Nat) (s s' : Cenc σ) (off left off' left' : UInt64) (st st' : Status)
    (h : cencStripes ops p fuel s off left st = some (s', off', left', st')) :
    off' + left' = off + left ∧ (st' = .OK → st = .OK → s'.failed = s.failed) := by
  induction fuel generalizing s off left st with
  | zero => simp [cencStripes] at h
  | succ fuel ih =>
    simp only [cencStripes] at h
    by_cases hl : left < 16
    · rw [if_pos hl] at h
      simp only [Option.some.injEq, Prod.mk.injEq] at h
      obtain ⟨rfl, rfl, rfl, rfl⟩ := h
      exact ⟨rfl, fun _ _ => rfl⟩
    · rw [if_neg hl] at h
      generalize (if p.crypt * 16 ≤ left / 16 * 16 then p.crypt * 16 else left / 16 * 16) = block at h
      by_cases hb : block > 0
      · simp only [if_pos hb] at h
        have hd := cencDecrypt_failed ops p.ctr s (p.outA + off.toNat) (p.inA + off.toNat) block
        generalize cencDecrypt ops p.ctr s (p.outA + off.toNat) (p.inA + off.toNat) block = r at h hd
        by_cases hr : r.2 = .OK
        · rw [if_neg (by simp [hr])] at h
          generalize (if p.skip * 16 ≤ (left - block) / 16 * 16 then p.skip * 16 else (left - block) / 16 * 16) = blk2 at h
          by_cases hc : p.skip > 0 ∧ blk2 > 0
          · rw [if_pos hc] at h
            obtain ⟨i1, i2⟩ := ih _ _ _ _ h
            refine ⟨?_, fun h1 _ => ?_⟩
            · rw [i1, u64_move, u64_move]
            · rw [i2 h1 hr, cencCopy_failed]; exact hd hr
          · rw [if_neg hc] at h
            obtain ⟨i1, i2⟩ := ih _ _ _ _ h
            refine ⟨?_, fun h1 _ => ?_⟩
            · rw [i1, u64_move]
            · rw [i2 h1 hr]; exact hd hr
        · rw [if_pos ⟨hb, hr⟩] at h
          simp only [Option.some.injEq, Prod.mk.injEq] at h
          obtain ⟨rfl, rfl, rfl, rfl⟩ := h
          exact ⟨rfl, fun h1 _ => absurd h1 hr⟩
      · simp only [if_neg hb] at h
        rw [if_neg (by intro h; exact hb h.1)] at h
        generalize (if p.skip * 16 ≤ (left - block) / 16 * 16 then p.skip * 16 else (left - block) / 16 * 16) = blk2 at h
        by_cases hc : p.skip > 0 ∧ blk2 > 0
        · rw [if_pos hc] at h
          obtain ⟨i1, i2⟩ := ih _ _ _ _ h
          exact ⟨by rw [i1, u64_move, u64_move], fun h1 h2 => i2 h1 h2⟩
        · rw [if_neg hc] at h
          obtain ⟨i1, i2⟩ := ih _ _ _ _ h
          exact ⟨by rw [i1, u64_move], fun h1 h2 => i2 h1 h2⟩

/-- The protected part of a subsample. -/
theorem cencProtected_gen (ops : SymOps σ) (p : SampleParams) (fuel : Nat) (s s' : Cenc σ) (off prot off' : UInt64) (st st' : Status)
    (stop : Bool) (h : cencProtected ops p fuel s off prot st = some (s', off', st', stop)) :
    (stop = true → st' ≠ .OK) ∧ (stop = false → off' = off + prot) ∧ (st' = .OK → st = .OK → s'.failed = s.failed) ∧
    (stop = false → p.crypt = 0 → st = .OK → st' = .OK) := by
  unfold cencProtected at h
  by_cases hp : prot > 0
  · rw [if_pos hp] at h
    by_cases hc : p.crypt = 0
    · simp only [if_pos hc] at h
      generalize hrem : (if p.ctr = true then (0 : UInt64) else prot % 16) = rem at h
      have hd := cencDecrypt_failed ops p.ctr s (p.outA + off.toNat) (p.inA + off.toNat) (prot - rem)
      generalize cencDecrypt ops p.ctr s (p.outA + off.toNat) (p.inA + off.toNat) (prot - rem) = r at h hd
      by_cases hr : r.2 = .OK
      · rw [if_neg (by simp [hr])] at h
        by_cases hm : rem > 0
        · rw [if_pos hm] at h
          simp only [Option.some.injEq, Prod.mk.injEq] at h
          obtain ⟨rfl, rfl, rfl, rfl⟩ := h
          refine ⟨by simp, fun _ => ?_, fun _ _ => hd hr, fun _ _ _ => hr⟩
          apply UInt64.toNat.inj
          have := UInt64.toNat_lt off
          have := UInt64.toNat_lt prot
          have := UInt64.toNat_lt rem
          simp only [UInt64.toNat_add, UInt64.toNat_sub]
          omega
        · rw [if_neg hm] at h
          simp only [Option.some.injEq, Prod.mk.injEq] at h
          obtain ⟨rfl, rfl, rfl, rfl⟩ := h
          refine ⟨by simp, fun _ => ?_, fun _ _ => hd hr, fun _ _ _ => hr⟩
          have : rem = 0 := UInt64.toNat.inj (by have := mt (u64_pos _).mpr hm; show rem.toNat = 0; omega)
          rw [this]; simp
      · rw [if_pos hr] at h
        simp only [Option.some.injEq, Prod.mk.injEq] at h
        obtain ⟨rfl, rfl, rfl, rfl⟩ := h
        exact ⟨fun _ => hr, by simp, fun h1 _ => absurd h1 hr, by simp⟩
    · simp only [if_neg hc] at h
      generalize hq : (if p.ctr = true then (s, st) else symSetIv ops { s with iv := p.iv }) = q at h
      have hqf : q.2 = .OK → st = .OK → q.1.failed = s.failed := by
        intro h1 h2
        subst hq
        by_cases hct : p.ctr = true
        · rw [if_pos hct]
        · rw [if_neg hct] at h1 ⊢; exact symSetIv_failed ops { s with iv := p.iv } h1
      have hq2 : p.ctr = true → q.2 = st := by intro hct; subst hq; rw [if_pos hct]
      by_cases he : (!p.ctr && decide (q.2 ≠ Status.OK)) = true
      · rw [if_pos he] at h
        simp only [Option.some.injEq, Prod.mk.injEq] at h
        obtain ⟨rfl, rfl, rfl, rfl⟩ := h
        simp at he
        exact ⟨fun _ => he.2, by simp, fun h1 _ => absurd h1 he.2, by simp⟩
      · rw [if_neg he] at h
        cases hs : cencStripes ops p fuel q.1 off prot q.2 with
        | none => rw [hs] at h; simp at h
        | some v =>
          obtain ⟨s1, off1, left1, st1⟩ := v
          rw [hs] at h
          simp only at h
          obtain ⟨g1, g2⟩ := cencStripes_gen ops p fuel q.1 s1 off prot off1 left1 q.2 st1 hs
          have hst : st = .OK → q.2 = .OK := by
            intro h0
            by_cases hct : p.ctr = true
            · rw [hq2 hct]; exact h0
            · simp [hct] at he; exact he
          by_cases hl : left1 > 0
          · rw [if_pos hl] at h
            simp only [Option.some.injEq, Prod.mk.injEq] at h
            obtain ⟨rfl, rfl, rfl, rfl⟩ := h
            exact ⟨by simp, fun _ => g1, fun h1 h2 => by rw [cencCopy_failed, g2 h1 (hst h2), hqf (hst h2) h2], fun _ h _ => absurd h hc⟩
          · rw [if_neg hl] at h
            simp only [Option.some.injEq, Prod.mk.injEq] at h
            obtain ⟨rfl, rfl, rfl, rfl⟩ := h
            have : left1 = 0 := UInt64.toNat.inj (by have := mt (u64_pos _).mpr hl; show left1.toNat = 0; omega)
            refine ⟨by simp, fun _ => ?_, fun h1 h2 => by rw [g2 h1 (hst h2), hqf (hst h2) h2], fun _ h _ => absurd h hc⟩
            rw [← g1, this]; simp
  · rw [if_neg hp] at h
    simp only [Option.some.injEq, Prod.mk.injEq] at h
    obtain ⟨rfl, rfl, rfl, rfl⟩ := h
    have : prot = 0 := UInt64.toNat.inj (by have := mt (u64_pos _).mpr hp; show prot.toNat = 0; omega)
    exact ⟨by simp, fun _ => by rw [this]; simp, fun _ _ => rfl, fun _ _ h => h⟩

/-- 64-bit sum of the lengths. -/
def sum64 : List Subsample → UInt64
  | [] => 0
  | sub :: subs => sub.clear + sub.prot + sum64 subs

/-- All subsamples: success means the offset has advanced by the sum of the lengths. -/
theorem cencSubsamples_off (ops : SymOps σ) (p : SampleParams) (fuel : Nat) (subs : List Subsample) (s s' : Cenc σ) (off off' : UInt64)
    (st : Status) (h : cencSubsamples ops p fuel subs s off st = some (s', off', .OK)) : off' = off + sum64 subs := by
  induction subs generalizing s off st with
  | nil =>
    simp only [cencSubsamples, Option.some.injEq, Prod.mk.injEq] at h
    rw [← h.2.1]; simp [sum64]
  | cons sub subs ih =>
    simp only [cencSubsamples] at h
    generalize (if sub.clear > 0 then cencCopy s (p.outA + off.toNat) (p.inA + off.toNat) sub.clear else s) = s1 at h
    cases hp : cencProtected ops p fuel s1 (off + sub.clear) sub.prot st with
    | none => rw [hp] at h; simp at h
    | some v =>
      obtain ⟨s2, off2, st2, stop⟩ := v
      obtain ⟨g1, g2, _⟩ := cencProtected_gen ops p fuel s1 s2 _ _ off2 st st2 stop hp
      rw [hp] at h
      cases stop with
      | true =>
        simp only [Option.some.injEq, Prod.mk.injEq] at h
        exact absurd h.2.2 (g1 rfl)
      | false =>
        simp only at h
        rw [ih _ _ _ h, g2 rfl]
        simp only [sum64, UInt64.add_assoc]

/-- Without a pattern: success means that no operation failed. -/
theorem cencSubsamples_failed (ops : SymOps σ) (p : SampleParams) (fuel : Nat) (subs : List Subsample) (s s' : Cenc σ) (off off' : UInt64)
    (hc : p.crypt = 0 ∨ subs.length ≤ 1) (h : cencSubsamples ops p fuel subs s off .OK = some (s', off', .OK)) :
    s'.failed = s.failed := by
  induction subs generalizing s off with
  | nil =>
    simp only [cencSubsamples, Option.some.injEq, Prod.mk.injEq] at h
    rw [← h.1]
  | cons sub subs ih =>
    simp only [cencSubsamples] at h
    have hs1 : (if sub.clear > 0 then cencCopy s (p.outA + off.toNat) (p.inA + off.toNat) sub.clear else s).failed = s.failed := by
      split <;> rfl
    generalize (if sub.clear > 0 then cencCopy s (p.outA + off.toNat) (p.inA + off.toNat) sub.clear else s) = s1 at h hs1
    cases hp : cencProtected ops p fuel s1 (off + sub.clear) sub.prot .OK with
    | none => rw [hp] at h; simp at h
    | some v =>
      obtain ⟨s2, off2, st2, stop⟩ := v
      obtain ⟨g1, g2, g3, g4⟩ := cencProtected_gen ops p fuel s1 s2 _ _ off2 .OK st2 stop hp
      rw [hp] at h
      cases stop with
      | true =>
        simp only [Option.some.injEq, Prod.mk.injEq] at h
        exact absurd h.2.2 (g1 rfl)
      | false =>
        simp only at h
        rcases hc with hc | hc
        · have hst := g4 rfl hc rfl
          subst hst
          rw [ih _ _ (Or.inl hc) h, g3 rfl rfl, hs1]
        · have hnil : subs = [] := List.length_eq_zero_iff.mp (by simpa using hc)
          subst hnil
          simp only [cencSubsamples, Option.some.injEq, Prod.mk.injEq] at h
          obtain ⟨rfl, _, h3⟩ := h
          rw [g3 h3 rfl, hs1]

/-- The required length is the mathematical sum, if it is not 0. -/
theorem cencRequiredLoop_spec (r : UInt64) (subs : List Subsample) (h : cencRequiredLoop r subs ≠ 0) :
    (cencRequiredLoop r subs).toNat = r.toNat + total (subs.map Subsample.nat) ∧ cencRequiredLoop r subs = r + sum64 subs := by
  induction subs generalizing r with
  | nil => exact ⟨rfl, by simp [cencRequiredLoop, sum64]⟩
  | cons sub subs ih =>
    simp only [cencRequiredLoop] at h ⊢
    rcases addOverflow_cases sub.clear sub.prot with ⟨h1, h2⟩ | ⟨h1, h2, h3⟩
    · rw [h1] at h; simp at h
    · rw [h1] at h ⊢
      simp only [Bool.false_eq_true, if_false] at h ⊢
      rcases addOverflow_cases r (addOverflow sub.clear sub.prot).2 with ⟨k1, k2⟩ | ⟨k1, k2, k3⟩
      · rw [k1] at h; simp at h
      · rw [k1] at h ⊢
        simp only [Bool.false_eq_true, if_false] at h ⊢
        obtain ⟨i1, i2⟩ := ih _ h
        constructor
        · rw [i1, k3, h3]; simp [total, Subsample.nat]; omega
        · rw [i2]
          show r + (sub.clear + sub.prot) + sum64 subs = r + (sub.clear + sub.prot + sum64 subs)
          rw [UInt64.add_assoc]

theorem cencRequiredLength_spec (subs : List Subsample) (h : cencRequiredLength subs ≠ 0) :
    (cencRequiredLength subs).toNat = total (subs.map Subsample.nat) ∧ cencRequiredLength subs = sum64 subs := by
  obtain ⟨h1, h2⟩ := cencRequiredLoop_spec 0 subs h
  exact ⟨by rw [cencRequiredLength, h1]; simp, by rw [cencRequiredLength, h2]; simp⟩

/-! ### A status other than OK is due to a failed operation -/

/-- The result keeps the mark of a failure, and a status other than OK comes with the mark. -/
def Blames (s : Cenc σ) (s' : Cenc σ) (st : Status) : Prop :=
  (s.failed = true → s'.failed = true) ∧ (st ≠ .OK → s'.failed = true)

theorem symDecrypt_blames (ops : SymOps σ) (ctr : Bool) (s : Cenc σ) (o i : Nat) (n : UInt64) :
    Blames s (symDecrypt ops ctr s o i n).1 (symDecrypt ops ctr s o i n).2.1 := by
  unfold symDecrypt
  split
  · exact ⟨fun _ => rfl, fun _ => rfl⟩
  · simp only
    split
    · exact ⟨fun _ => rfl, fun _ => rfl⟩
    · split
      · exact ⟨fun _ => rfl, fun _ => rfl⟩
      · exact ⟨fun h => h, fun h => absurd rfl h⟩

theorem symSetIv_blames (ops : SymOps σ) (s : Cenc σ) : Blames s (symSetIv ops s).1 (symSetIv ops s).2 := by
  unfold symSetIv
  split
  · exact ⟨fun _ => rfl, fun _ => rfl⟩
  · exact ⟨fun h => h, fun h => absurd rfl h⟩

theorem decryptRest_blames (ops : SymOps σ) (ctr : Bool) (s : Cenc σ) (o i : Nat) (n d f l : UInt64) :
    Blames s (decryptRest ops ctr s o i n d f l).1 (decryptRest ops ctr s o i n d f l).2 := by
  have hd := symDecrypt_blames ops ctr s (o + d.toNat) (i + d.toNat) (n - d)
  unfold decryptRest
  simp only
  generalize symDecrypt ops ctr s (o + d.toNat) (i + d.toNat) (n - d) = r at hd ⊢
  by_cases hr : r.2.1 = .OK
  · rw [if_neg (by simp [hr])]; exact ⟨hd.1, fun h => absurd rfl h⟩
  · rw [if_pos hr]; exact hd

theorem decryptPartial_blames (ops : SymOps σ) (s : Cenc σ) (o i : Nat) (l : UInt64) :
    Blames s (decryptPartial ops s o i l).1 (decryptPartial ops s o i l).2.1 := by
  have hd := symDecrypt_blames ops true s o i l
  unfold decryptPartial
  simp only
  split
  · generalize symDecrypt ops true s o i l = r at hd ⊢
    by_cases hr : r.2.1 = .OK
    · rw [if_neg (by simp [hr])]
      have hq := symSetIv_blames ops { r.1 with iv := { r.1.iv with lo := r.1.iv.lo + 1 } }
      generalize symSetIv ops { r.1 with iv := { r.1.iv with lo := r.1.iv.lo + 1 } } = q at hq ⊢
      by_cases hq2 : q.2 = .OK
      · rw [if_neg (by simp [hq2])]; exact ⟨fun h => hq.1 (hd.1 h), fun h => absurd rfl h⟩
      · rw [if_pos hq2]; exact ⟨fun h => hq.1 (hd.1 h), hq.2⟩
    · rw [if_pos hr]; exact hd
  · exact ⟨fun h => h, fun h => absurd rfl h⟩

theorem decryptBlocks_blames (ops : SymOps σ) (s : Cenc σ) (o i : Nat) (d b : UInt64) :
    Blames s (decryptBlocks ops s o i d b).1 (decryptBlocks ops s o i d b).2.1 := by
  have hd := symDecrypt_blames ops true s (o + d.toNat) (i + d.toNat) (b * 16)
  unfold decryptBlocks
  simp only
  split
  · generalize symDecrypt ops true s (o + d.toNat) (i + d.toNat) (b * 16) = r at hd ⊢
    by_cases hr : r.2.1 = .OK
    · rw [if_neg (by simp [hr])]
      have hq := symSetIv_blames ops { r.1 with iv := { r.1.iv with lo := r.1.iv.lo + b } }
      generalize symSetIv ops { r.1 with iv := { r.1.iv with lo := r.1.iv.lo + b } } = q at hq ⊢
      by_cases hq2 : q.2 = .OK
      · rw [if_neg (by simp [hq2])]; exact ⟨fun h => hq.1 (hd.1 h), fun h => absurd rfl h⟩
      · rw [if_pos hq2]; exact ⟨fun h => hq.1 (hd.1 h), hq.2⟩
    · rw [if_pos hr]; exact hd
  · exact ⟨fun h => h, fun h => absurd rfl h⟩

theorem cencDecrypt_blames (ops : SymOps σ) (ctr : Bool) (s : Cenc σ) (o i : Nat) (n : UInt64) :
    Blames s (cencDecrypt ops ctr s o i n).1 (cencDecrypt ops ctr s o i n).2 := by
  unfold cencDecrypt
  simp only
  generalize (if s.count % 16 = 0 then (0 : UInt64) else 16 - s.count % 16) = leading
  generalize (n - leading) / 16 = full
  obtain ⟨before, hb⟩ : ∃ before, before = (0xFFFFFFFFFFFFFFFF : UInt64) - s.iv.lo + 1 := ⟨_, rfl⟩
  rw [← hb]
  generalize (if leading > 0 then (1 : UInt64) else 0) = extra
  by_cases hn : n > 0
  · rw [if_pos hn]
    by_cases hroll : (decide (before ≤ full + extra) && ctr) = true
    · rw [if_pos hroll]
      have hp := decryptPartial_blames ops s o i leading
      generalize decryptPartial ops s o i leading = p at hp ⊢
      by_cases hp2 : p.2.1 = .OK
      · rw [if_neg (by simp [hp2])]
        generalize (if before ≤ full then before else full) = blocks
        have hq := decryptBlocks_blames ops p.1 o i p.2.2 blocks
        generalize decryptBlocks ops p.1 o i p.2.2 blocks = q at hq ⊢
        by_cases hq2 : q.2.1 = .OK
        · rw [if_neg (by simp [hq2])]
          by_cases hm : n > q.2.2
          · rw [if_pos hm]
            have := decryptRest_blames ops ctr q.1 o i n q.2.2 (full - blocks) 0
            exact ⟨fun h => this.1 (hq.1 (hp.1 h)), this.2⟩
          · rw [if_neg hm]; exact ⟨fun h => hq.1 (hp.1 h), fun h => absurd rfl h⟩
        · rw [if_pos hq2]; exact ⟨fun h => hq.1 (hp.1 h), hq.2⟩
      · rw [if_pos hp2]; exact hp
    · rw [if_neg hroll]; exact decryptRest_blames ops ctr s o i n 0 full leading
  · rw [if_neg hn]; exact ⟨fun h => h, fun h => absurd rfl h⟩

theorem cencStripes_blames (ops : SymOps σ) (p : SampleParams) (fuel : Nat) (s s' : Cenc σ) (off left off' left' : UInt64) (st st' : Status)
    (hst : st ≠ .OK → s.failed = true) (h : cencStripes ops p fuel s off left st = some (s', off', left', st')) : Blames s s' st' := by
  induction fuel generalizing s off left st with
  | zero => simp [cencStripes] at h
  | succ fuel ih =>
    simp only [cencStripes] at h
    by_cases hl : left < 16
    · rw [if_pos hl] at h
      simp only [Option.some.injEq, Prod.mk.injEq] at h
      obtain ⟨rfl, rfl, rfl, rfl⟩ := h
      exact ⟨fun h => h, hst⟩
    · rw [if_neg hl] at h
      generalize (if p.crypt * 16 ≤ left / 16 * 16 then p.crypt * 16 else left / 16 * 16) = block at h
      have hr : Blames s (if block > 0 then cencDecrypt ops p.ctr s (p.outA + off.toNat) (p.inA + off.toNat) block else (s, st)).1
          (if block > 0 then cencDecrypt ops p.ctr s (p.outA + off.toNat) (p.inA + off.toNat) block else (s, st)).2 := by
        split
        · exact cencDecrypt_blames ops p.ctr s _ _ block
        · exact ⟨fun h => h, hst⟩
      generalize (if block > 0 then cencDecrypt ops p.ctr s (p.outA + off.toNat) (p.inA + off.toNat) block else (s, st)) = r at h hr
      split at h
      · simp only [Option.some.injEq, Prod.mk.injEq] at h
        obtain ⟨rfl, rfl, rfl, rfl⟩ := h
        exact hr
      · generalize (if p.skip * 16 ≤ (left - block) / 16 * 16 then p.skip * 16 else (left - block) / 16 * 16) = blk2 at h
        split at h
        · have := ih (cencCopy r.1 _ _ _) _ _ _ hr.2 h
          exact ⟨fun h => this.1 (hr.1 h), this.2⟩
        · have := ih _ _ _ _ hr.2 h
          exact ⟨fun h => this.1 (hr.1 h), this.2⟩

theorem cencProtected_blames (ops : SymOps σ) (p : SampleParams) (fuel : Nat) (s s' : Cenc σ) (off prot off' : UInt64) (st st' : Status)
    (stop : Bool) (hst : st ≠ .OK → s.failed = true) (h : cencProtected ops p fuel s off prot st = some (s', off', st', stop)) :
    Blames s s' st' := by
  unfold cencProtected at h
  by_cases hp : prot > 0
  · rw [if_pos hp] at h
    by_cases hc : p.crypt = 0
    · simp only [if_pos hc] at h
      generalize (if p.ctr = true then (0 : UInt64) else prot % 16) = rem at h
      have hd := cencDecrypt_blames ops p.ctr s (p.outA + off.toNat) (p.inA + off.toNat) (prot - rem)
      generalize cencDecrypt ops p.ctr s (p.outA + off.toNat) (p.inA + off.toNat) (prot - rem) = r at h hd
      split at h
      · simp only [Option.some.injEq, Prod.mk.injEq] at h
        obtain ⟨rfl, rfl, rfl, rfl⟩ := h
        exact hd
      · split at h <;>
        · simp only [Option.some.injEq, Prod.mk.injEq] at h
          obtain ⟨rfl, rfl, rfl, rfl⟩ := h
          exact hd
    · simp only [if_neg hc] at h
      have hq : Blames s (if p.ctr = true then (s, st) else symSetIv ops { s with iv := p.iv }).1
          (if p.ctr = true then (s, st) else symSetIv ops { s with iv := p.iv }).2 := by
        split
        · exact ⟨fun h => h, hst⟩
        · exact symSetIv_blames ops { s with iv := p.iv }
      generalize (if p.ctr = true then (s, st) else symSetIv ops { s with iv := p.iv }) = q at h hq
      split at h
      · simp only [Option.some.injEq, Prod.mk.injEq] at h
        obtain ⟨rfl, rfl, rfl, rfl⟩ := h
        exact hq
      · cases hs : cencStripes ops p fuel q.1 off prot q.2 with
        | none => rw [hs] at h; simp at h
        | some v =>
          obtain ⟨s1, off1, left1, st1⟩ := v
          rw [hs] at h
          simp only at h
          have g := cencStripes_blames ops p fuel q.1 s1 off prot off1 left1 q.2 st1 hq.2 hs
          split at h <;>
          · simp only [Option.some.injEq, Prod.mk.injEq] at h
            obtain ⟨rfl, rfl, rfl, rfl⟩ := h
            exact ⟨fun h => g.1 (hq.1 h), g.2⟩
  · rw [if_neg hp] at h
    simp only [Option.some.injEq, Prod.mk.injEq] at h
    obtain ⟨rfl, rfl, rfl, rfl⟩ := h
    exact ⟨fun h => h, hst⟩

theorem cencSubsamples_blames (ops : SymOps σ) (p : SampleParams) (fuel : Nat) (subs : List Subsample) (s s' : Cenc σ) (off off' : UInt64)
    (st st' : Status) (hst : st ≠ .OK → s.failed = true) (h : cencSubsamples ops p fuel subs s off st = some (s', off', st')) :
    Blames s s' st' := by
  induction subs generalizing s off st with
  | nil =>
    simp only [cencSubsamples, Option.some.injEq, Prod.mk.injEq] at h
    obtain ⟨rfl, rfl, rfl⟩ := h
    exact ⟨fun h => h, hst⟩
  | cons sub subs ih =>
    simp only [cencSubsamples] at h
    have hs1 : (if sub.clear > 0 then cencCopy s (p.outA + off.toNat) (p.inA + off.toNat) sub.clear else s).failed = s.failed := by
      split <;> rfl
    generalize (if sub.clear > 0 then cencCopy s (p.outA + off.toNat) (p.inA + off.toNat) sub.clear else s) = s1 at h hs1
    cases hp : cencProtected ops p fuel s1 (off + sub.clear) sub.prot st with
    | none => rw [hp] at h; simp at h
    | some v =>
      obtain ⟨s2, off2, st2, stop⟩ := v
      have g := cencProtected_blames ops p fuel s1 s2 _ _ off2 st st2 stop (by rw [hs1]; exact hst) hp
      rw [hp] at h
      cases stop with
      | true =>
        simp only [Option.some.injEq, Prod.mk.injEq] at h
        obtain ⟨rfl, rfl, rfl⟩ := h
        exact ⟨fun h => g.1 (by rw [hs1]; exact h), g.2⟩
      | false =>
        simp only at h
        have := ih _ _ _ g.2 h
        exact ⟨fun h => this.1 (g.1 (by rw [hs1]; exact h)), this.2⟩

/-- Once the buffers are known, a status other than OK is due to a failed operation of the cipher. -/
theorem cencRun_blames (ops : SymOps σ) (p : SampleParams) (fuel : Nat) (subs : List Subsample) (m : Mem) (ctx : σ) (s : Cenc σ)
    (off : UInt64) (st : Status) (h : cencRun ops p fuel subs m ctx = some (s, off, st)) (hst : st ≠ .OK) : s.failed = true := by
  unfold cencRun at h
  simp only at h
  have hq := symSetIv_blames ops ⟨m, ctx, p.iv, 0, false, []⟩
  generalize symSetIv ops ⟨m, ctx, p.iv, 0, false, []⟩ = q at h hq
  split at h
  · simp only [Option.some.injEq, Prod.mk.injEq] at h
    obtain ⟨rfl, rfl, rfl⟩ := h
    exact hq.2 hst
  · exact (cencSubsamples_blames ops p fuel subs _ _ _ _ _ _ hq.2 h).2 hst

end Sa

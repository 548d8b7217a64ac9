import Verif.Lemmas.CencVerify

/-!
# Two libraries that behave alike give the same result for a sample
-/

namespace Sa

variable {α β : Type}

/-- Both fail, or both succeed with related results. -/
def OptRel {γ δ : Type} (R : γ → δ → Prop) : Option γ → Option δ → Prop
  | none, none => True
  | some a, some b => R a b
  | _, _ => False

/-- Related states give the same output and related states; if not `ctr`, for whole blocks. -/
structure SimOps (A : SymOps α) (B : SymOps β) (ctr : Bool) (R : α → β → Prop) : Prop where
  decrypt : ∀ x y b, R x y → (ctr = true ∨ b.length % 16 = 0) → OptRel (fun r q => R r.1 q.1 ∧ r.2 = q.2) (A.decrypt x b) (B.decrypt y b)
  setIv : ∀ x y iv, R x y → OptRel R (A.setIv x iv) (B.setIv y iv)

structure SimC (R : α → β → Prop) (s : Cenc α) (t : Cenc β) : Prop where
  mem : s.mem = t.mem
  ctx : R s.ctx t.ctx
  iv : s.iv = t.iv
  count : s.count = t.count
  failed : s.failed = t.failed
  trace : s.trace = t.trace

variable {A : SymOps α} {B : SymOps β} {ctr : Bool} {R : α → β → Prop}

/-- The state and the rest of the result are alike. -/
def SimP {γ : Type} (R : α → β → Prop) (r : Cenc α × γ) (q : Cenc β × γ) : Prop := SimC R r.1 q.1 ∧ r.2 = q.2

theorem sim_decrypt (h : SimOps A B ctr R) {s : Cenc α} {t : Cenc β} (hs : SimC R s t) (o i : Nat) (len : UInt64) :
    SimP R (symDecrypt A ctr s o i len) (symDecrypt B ctr t o i len) := by
  unfold symDecrypt
  by_cases hc : (!ctr && decide (len % 16 ≠ 0)) = true
  · rw [if_pos hc, if_pos hc]
    exact ⟨⟨hs.mem, hs.ctx, hs.iv, hs.count, rfl, hs.trace⟩, rfl⟩
  · rw [if_neg hc, if_neg hc]
    simp only
    by_cases hn : len.toNat % 2 ^ 32 ≥ 2 ^ 31
    · rw [if_pos hn, if_pos hn]
      exact ⟨⟨hs.mem, hs.ctx, hs.iv, hs.count, rfl, hs.trace⟩, rfl⟩
    · rw [if_neg hn, if_neg hn, hs.mem]
      have hcond : ctr = true ∨ (readAt t.mem i (len.toNat % 2 ^ 32)).length % 16 = 0 := by
        cases hctr : ctr with
        | true => exact Or.inl rfl
        | false =>
          right
          rw [hctr] at hc
          have : len % 16 = 0 := by simpa using hc
          have h1 := congrArg UInt64.toNat this
          simp only [UInt64.toNat_mod, UInt64.reduceToNat] at h1
          rw [readAt_length]
          omega
      have hd := h.decrypt s.ctx t.ctx (readAt t.mem i (len.toNat % 2 ^ 32)) hs.ctx hcond
      revert hd
      cases A.decrypt s.ctx (readAt t.mem i (len.toNat % 2 ^ 32)) with
      | none =>
        cases B.decrypt t.ctx (readAt t.mem i (len.toNat % 2 ^ 32)) with
        | none => intro _; exact ⟨⟨rfl, hs.ctx, hs.iv, hs.count, rfl, hs.trace⟩, rfl⟩
        | some q => intro hd; exact hd.elim
      | some r =>
        cases B.decrypt t.ctx (readAt t.mem i (len.toNat % 2 ^ 32)) with
        | none => intro hd; exact hd.elim
        | some q =>
          obtain ⟨r1, r2⟩ := r
          obtain ⟨q1, q2⟩ := q
          rintro ⟨h1, h2⟩
          simp only at h1 h2
          subst h2
          exact ⟨⟨rfl, h1, hs.iv, hs.count, hs.failed, by simp [hs.trace]⟩, rfl⟩

theorem sim_setIv (h : SimOps A B ctr R) {s : Cenc α} {t : Cenc β} (hs : SimC R s t) : SimP R (symSetIv A s) (symSetIv B t) := by
  unfold symSetIv
  have hd := h.setIv s.ctx t.ctx s.iv hs.ctx
  rw [← hs.iv]
  revert hd
  cases A.setIv s.ctx s.iv with
  | none =>
    cases B.setIv t.ctx s.iv with
    | none => intro _; exact ⟨⟨hs.mem, hs.ctx, rfl, hs.count, rfl, hs.trace⟩, rfl⟩
    | some q => intro hd; exact hd.elim
  | some r =>
    cases B.setIv t.ctx s.iv with
    | none => intro hd; exact hd.elim
    | some q => intro hd; exact ⟨⟨hs.mem, hd, rfl, hs.count, hs.failed, hs.trace⟩, rfl⟩

theorem SimC.setI {s : Cenc α} {t : Cenc β} (hs : SimC R s t) (iv : Iv) : SimC R { s with iv := iv } { t with iv := iv } :=
  ⟨hs.mem, hs.ctx, rfl, hs.count, hs.failed, hs.trace⟩

theorem SimC.setCount {s : Cenc α} {t : Cenc β} (hs : SimC R s t) (c : UInt64) : SimC R { s with count := c } { t with count := c } :=
  ⟨hs.mem, hs.ctx, hs.iv, rfl, hs.failed, hs.trace⟩

theorem sim_rest (h : SimOps A B ctr R) {s : Cenc α} {t : Cenc β} (hs : SimC R s t) (o i : Nat) (n done full leading : UInt64) :
    SimP R (decryptRest A ctr s o i n done full leading) (decryptRest B ctr t o i n done full leading) := by
  unfold decryptRest
  obtain ⟨h1, h2⟩ := sim_decrypt h hs (o + done.toNat) (i + done.toNat) (n - done)
  simp only
  rw [h2]
  split
  · exact ⟨h1, rfl⟩
  · exact ⟨⟨h1.mem, h1.ctx, by simp [h1.iv], by simp [h1.count], h1.failed, h1.trace⟩, rfl⟩

theorem sim_partial (h : SimOps A B true R) {s : Cenc α} {t : Cenc β} (hs : SimC R s t) (o i : Nat) (leading : UInt64) :
    SimP R (decryptPartial A s o i leading) (decryptPartial B t o i leading) := by
  unfold decryptPartial
  obtain ⟨h1, h2⟩ := sim_decrypt h hs o i leading
  split
  · simp only
    rw [h2, h1.iv]
    split
    · exact ⟨h1, rfl⟩
    · obtain ⟨h3, h4⟩ := sim_setIv h (h1.setI { (symDecrypt B true t o i leading).1.iv with lo := (symDecrypt B true t o i leading).1.iv.lo + 1 })
      rw [h4]
      split
      · exact ⟨h3, rfl⟩
      · exact ⟨⟨h3.mem, h3.ctx, h3.iv, by simp [h3.count], h3.failed, h3.trace⟩, rfl⟩
  · exact ⟨hs, rfl⟩

theorem sim_blocks (h : SimOps A B true R) {s : Cenc α} {t : Cenc β} (hs : SimC R s t) (o i : Nat) (done blocks : UInt64) :
    SimP R (decryptBlocks A s o i done blocks) (decryptBlocks B t o i done blocks) := by
  unfold decryptBlocks
  obtain ⟨h1, h2⟩ := sim_decrypt h hs (o + done.toNat) (i + done.toNat) (blocks * 16)
  split
  · simp only
    rw [h2, h1.iv]
    split
    · exact ⟨h1, rfl⟩
    · obtain ⟨h3, h4⟩ := sim_setIv h (h1.setI { (symDecrypt B true t (o + done.toNat) (i + done.toNat) (blocks * 16)).1.iv with
        lo := (symDecrypt B true t (o + done.toNat) (i + done.toNat) (blocks * 16)).1.iv.lo + blocks })
      rw [h4]
      split
      · exact ⟨h3, rfl⟩
      · exact ⟨⟨h3.mem, h3.ctx, h3.iv, by simp [h3.count], h3.failed, h3.trace⟩, rfl⟩
  · exact ⟨hs, rfl⟩

/-- `cencDecrypt` with its variables. -/
def rangeBody {σ : Type} (ops : SymOps σ) (ctr : Bool) (s : Cenc σ) (outA inA : Nat) (n leading full before : UInt64) : Cenc σ × Status :=
  if n > 0 then
    if decide (before ≤ full + (if leading > 0 then 1 else 0)) && ctr then
      let p := decryptPartial ops s outA inA leading
      if p.2.1 ≠ .OK then (p.1, p.2.1)
      else
        let blocks := if before ≤ full then before else full
        let q := decryptBlocks ops p.1 outA inA p.2.2 blocks
        if q.2.1 ≠ .OK then (q.1, q.2.1)
        else if n > q.2.2 then decryptRest ops ctr q.1 outA inA n q.2.2 (full - blocks) 0
        else (q.1, .OK)
    else decryptRest ops ctr s outA inA n 0 full leading
  else (s, .OK)

theorem cencDecrypt_body {σ : Type} (ops : SymOps σ) (ctr : Bool) (s : Cenc σ) (o i : Nat) (n : UInt64) :
    cencDecrypt ops ctr s o i n = rangeBody ops ctr s o i n (if s.count % 16 = 0 then 0 else 16 - s.count % 16) ((n - (if s.count % 16 = 0 then 0 else 16 - s.count % 16)) / 16)
      (0xFFFFFFFFFFFFFFFF - s.iv.lo + 1) := rfl

theorem sim_body (h : SimOps A B ctr R) {s : Cenc α} {t : Cenc β} (hs : SimC R s t) (o i : Nat) (n leading full before : UInt64) :
    SimP R (rangeBody A ctr s o i n leading full before) (rangeBody B ctr t o i n leading full before) := by
  unfold rangeBody
  generalize (if before ≤ full then before else full) = blocks
  by_cases hn : n > 0
  · rw [if_pos hn, if_pos hn]
    by_cases hr : (decide (before ≤ full + if leading > 0 then 1 else 0) && ctr) = true
    · rw [if_pos hr, if_pos hr]
      have hctr : ctr = true := by
        cases ctr with
        | true => rfl
        | false => simp at hr
      subst hctr
      obtain ⟨h1, h2⟩ := sim_partial h hs o i leading
      simp only
      rw [h2]
      split
      · exact ⟨h1, rfl⟩
      · obtain ⟨h3, h4⟩ := sim_blocks h h1 o i (decryptPartial B t o i leading).2.2 blocks
        rw [h4]
        split
        · exact ⟨h3, rfl⟩
        · split
          · exact sim_rest h h3 _ _ _ _ _ _
          · exact ⟨h3, rfl⟩
    · rw [if_neg hr, if_neg hr]
      exact sim_rest h hs _ _ _ _ _ _
  · rw [if_neg hn, if_neg hn]
    exact ⟨hs, rfl⟩

theorem sim_range (h : SimOps A B ctr R) {s : Cenc α} {t : Cenc β} (hs : SimC R s t) (o i : Nat) (n : UInt64) :
    SimP R (cencDecrypt A ctr s o i n) (cencDecrypt B ctr t o i n) := by
  rw [cencDecrypt_body, cencDecrypt_body, hs.count, hs.iv]
  exact sim_body h hs _ _ _ _ _ _

theorem sim_copy {s : Cenc α} {t : Cenc β} (hs : SimC R s t) (o i : Nat) (n : UInt64) : SimC R (cencCopy s o i n) (cencCopy t o i n) := by
  unfold cencCopy
  exact ⟨by simp [hs.mem], hs.ctx, hs.iv, hs.count, hs.failed, by simp [hs.trace]⟩

theorem sim_stripes (p : SampleParams) (h : SimOps A B p.ctr R) (fuel : Nat) {s : Cenc α} {t : Cenc β} (hs : SimC R s t) (off left : UInt64) (st : Status) :
    OptRel (SimP R) (cencStripes A p fuel s off left st) (cencStripes B p fuel t off left st) := by
  induction fuel generalizing s t off left st with
  | zero => exact True.intro
  | succ fuel ih =>
    unfold cencStripes
    simp only
    split
    · exact ⟨hs, rfl⟩
    · generalize (if p.crypt * 16 ≤ left / 16 * 16 then p.crypt * 16 else left / 16 * 16) = block
      have hr : SimP R (if block > 0 then cencDecrypt A p.ctr s (p.outA + off.toNat) (p.inA + off.toNat) block else (s, st))
          (if block > 0 then cencDecrypt B p.ctr t (p.outA + off.toNat) (p.inA + off.toNat) block else (t, st)) := by
        split
        · exact sim_range h hs _ _ _
        · exact ⟨hs, rfl⟩
      revert hr
      generalize (if block > 0 then cencDecrypt A p.ctr s (p.outA + off.toNat) (p.inA + off.toNat) block else (s, st)) = ra
      generalize (if block > 0 then cencDecrypt B p.ctr t (p.outA + off.toNat) (p.inA + off.toNat) block else (t, st)) = rb
      generalize (if p.skip * 16 ≤ (left - block) / 16 * 16 then p.skip * 16 else (left - block) / 16 * 16) = block2
      rintro ⟨h1, h2⟩
      rw [h2]
      split
      · exact ⟨h1, rfl⟩
      · split
        · exact ih (sim_copy h1 _ _ _) _ _ _
        · exact ih h1 _ _ _

theorem sim_protected (p : SampleParams) (h : SimOps A B p.ctr R) (fuel : Nat) {s : Cenc α} {t : Cenc β} (hs : SimC R s t) (off prot : UInt64) (st : Status) :
    OptRel (SimP R) (cencProtected A p fuel s off prot st) (cencProtected B p fuel t off prot st) := by
  unfold cencProtected
  split
  · split
    · simp only
      generalize (if p.ctr = true then (0 : UInt64) else prot % 16) = remainder
      obtain ⟨h1, h2⟩ := sim_range h hs (p.outA + off.toNat) (p.inA + off.toNat) (prot - remainder)
      rw [h2]
      split
      · exact ⟨h1, rfl⟩
      · split
        · exact ⟨sim_copy h1 _ _ _, rfl⟩
        · exact ⟨h1, rfl⟩
    · simp only
      have hr : SimP R (if p.ctr = true then (s, st) else symSetIv A { s with iv := p.iv }) (if p.ctr = true then (t, st) else symSetIv B { t with iv := p.iv }) := by
        split
        · exact ⟨hs, rfl⟩
        · exact sim_setIv h (hs.setI _)
      revert hr
      generalize (if p.ctr = true then (s, st) else symSetIv A { s with iv := p.iv }) = ra
      generalize (if p.ctr = true then (t, st) else symSetIv B { t with iv := p.iv }) = rb
      rintro ⟨h1, h2⟩
      rw [h2]
      split
      · exact ⟨h1, rfl⟩
      · have hq := sim_stripes p h fuel h1 off prot rb.2
        revert hq
        generalize cencStripes A p fuel _ off prot _ = ra
        generalize cencStripes B p fuel _ off prot _ = rb
        cases ra with
        | none =>
          cases rb with
          | none => intro _; exact True.intro
          | some q => intro hq; exact hq.elim
        | some r =>
          cases rb with
          | none => intro hq; exact hq.elim
          | some q =>
            obtain ⟨r1, r2, r3, r4⟩ := r
            obtain ⟨q1, q2, q3, q4⟩ := q
            rintro ⟨h3, h4⟩
            simp only [Prod.mk.injEq] at h3 h4
            obtain ⟨rfl, rfl, rfl⟩ := h4
            simp only
            split
            · exact ⟨sim_copy h3 _ _ _, rfl⟩
            · exact ⟨h3, rfl⟩
  · exact ⟨hs, rfl⟩

theorem sim_subsamples (p : SampleParams) (h : SimOps A B p.ctr R) (fuel : Nat) (subs : List Subsample) {s : Cenc α} {t : Cenc β} (hs : SimC R s t) (off : UInt64) (st : Status) :
    OptRel (SimP R) (cencSubsamples A p fuel subs s off st) (cencSubsamples B p fuel subs t off st) := by
  induction subs generalizing s t off st with
  | nil => exact ⟨hs, rfl⟩
  | cons sub subs ih =>
    unfold cencSubsamples
    simp only
    have h1 : SimC R (if sub.clear > 0 then cencCopy s (p.outA + off.toNat) (p.inA + off.toNat) sub.clear else s)
        (if sub.clear > 0 then cencCopy t (p.outA + off.toNat) (p.inA + off.toNat) sub.clear else t) := by
      split
      · exact sim_copy hs _ _ _
      · exact hs
    have hq := sim_protected p h fuel h1 (off + sub.clear) sub.prot st
    revert hq
    generalize cencProtected A p fuel _ (off + sub.clear) sub.prot st = ra
    generalize cencProtected B p fuel _ (off + sub.clear) sub.prot st = rb
    cases ra with
    | none =>
      cases rb with
      | none => intro _; exact True.intro
      | some q => intro hq; exact hq.elim
    | some r =>
      cases rb with
      | none => intro hq; exact hq.elim
      | some q =>
        obtain ⟨r1, r2, r3, r4⟩ := r
        obtain ⟨q1, q2, q3, q4⟩ := q
        rintro ⟨h3, h4⟩
        simp only [Prod.mk.injEq] at h3 h4
        obtain ⟨rfl, rfl, rfl⟩ := h4
        cases r4 with
        | true => exact ⟨h3, rfl⟩
        | false => exact ih h3 _ _

/-- A whole sample, from related states. -/
theorem sim_run (p : SampleParams) (h : SimOps A B p.ctr R) (fuel : Nat) (subs : List Subsample) (mem : Mem) (x : α) (y : β) (hxy : R x y) :
    OptRel (SimP R) (cencRun A p fuel subs mem x) (cencRun B p fuel subs mem y) := by
  unfold cencRun
  obtain ⟨h1, h2⟩ := sim_setIv h (s := ⟨mem, x, p.iv, 0, false, []⟩) (t := ⟨mem, y, p.iv, 0, false, []⟩) ⟨rfl, hxy, rfl, rfl, rfl, rfl⟩
  simp only
  rw [h2]
  split
  · exact ⟨h1, rfl⟩
  · exact sim_subsamples p h fuel subs h1 _ _

/-- The same if the states are related once the IV is set. -/
theorem sim_run_iv (p : SampleParams) (h : SimOps A B p.ctr R) (fuel : Nat) (subs : List Subsample) (mem : Mem) (x x' : α) (y y' : β) (hx : A.setIv x p.iv = some x')
    (hy : B.setIv y p.iv = some y') (hxy : R x' y') : OptRel (SimP R) (cencRun A p fuel subs mem x) (cencRun B p fuel subs mem y) := by
  unfold cencRun symSetIv
  simp only [hx, hy, ne_eq, not_true_eq_false, if_false]
  exact sim_subsamples p h fuel subs (s := ⟨mem, x', p.iv, 0, false, []⟩) (t := ⟨mem, y', p.iv, 0, false, []⟩) ⟨rfl, hxy, rfl, rfl, rfl, rfl⟩ _ _

/-! ## The processing of a sample comes to an end -/

theorem stripes_end {σ : Type} (ops : SymOps σ) (p : SampleParams) (hc : p.crypt ≠ 0) (h1 : p.crypt.toNat < 2 ^ 60) (fuel : Nat) (s : Cenc σ) (off left : UInt64) (st : Status)
    (hf : left.toNat < 16 * fuel) : cencStripes ops p fuel s off left st ≠ none := by
  induction fuel generalizing s off left st with
  | zero => omega
  | succ fuel ih =>
    unfold cencStripes
    simp only
    split
    · simp
    · rename_i hl
      have hl : 16 ≤ left.toNat := by
        have := UInt64.le_iff_toNat_le.mp (UInt64.not_lt.mp hl)
        simpa using this
      have hcp : 0 < p.crypt.toNat := by
        rcases Nat.eq_zero_or_pos p.crypt.toNat with h | h
        · exact absurd (UInt64.toNat_inj.mp (by simpa using h)) hc
        · exact h
      have hb : (if p.crypt * 16 ≤ left / 16 * 16 then p.crypt * 16 else left / 16 * 16).toNat = min (p.crypt.toNat * 16) (left.toNat / 16 * 16) := by
        rw [u64_min, u64_mul16 _ h1, u64_blocks]
      generalize (if p.crypt * 16 ≤ left / 16 * 16 then p.crypt * 16 else left / 16 * 16) = block at hb
      have hb1 : 16 ≤ block.toNat ∧ block.toNat ≤ left.toNat := by omega
      have hleft : (left - block).toNat = left.toNat - block.toNat := UInt64.toNat_sub_of_le _ _ (UInt64.le_iff_toNat_le.mpr hb1.2)
      have hb2 : (if p.skip * 16 ≤ (left - block) / 16 * 16 then p.skip * 16 else (left - block) / 16 * 16).toNat ≤ (left - block).toNat := by
        rw [u64_min, u64_blocks]
        omega
      generalize (if p.skip * 16 ≤ (left - block) / 16 * 16 then p.skip * 16 else (left - block) / 16 * 16) = block2 at hb2
      generalize (if block > 0 then cencDecrypt ops p.ctr s (p.outA + off.toNat) (p.inA + off.toNat) block else (s, st)) = r
      split
      · simp
      · split
        · apply ih
          rw [UInt64.toNat_sub_of_le _ _ (UInt64.le_iff_toNat_le.mpr hb2)]
          omega
        · apply ih
          omega

theorem protected_end {σ : Type} (ops : SymOps σ) (p : SampleParams) (h1 : p.crypt.toNat < 2 ^ 60) (fuel : Nat) (s : Cenc σ) (off prot : UInt64) (st : Status)
    (hf : prot.toNat < 16 * fuel) : cencProtected ops p fuel s off prot st ≠ none := by
  unfold cencProtected
  split
  · split
    · simp only
      generalize (if p.ctr = true then (0 : UInt64) else prot % 16) = remainder
      split
      · simp
      · split <;> simp
    · rename_i hc
      simp only
      generalize (if p.ctr = true then (s, st) else symSetIv ops { s with iv := p.iv }) = r
      split
      · simp
      · have := stripes_end ops p hc h1 fuel r.1 off prot r.2 hf
        split
        · rename_i he; exact absurd he this
        · split <;> simp
  · simp

theorem subsamples_end {σ : Type} (ops : SymOps σ) (p : SampleParams) (h1 : p.crypt.toNat < 2 ^ 60) (fuel : Nat) (subs : List Subsample) (s : Cenc σ) (off : UInt64) (st : Status)
    (hf : ∀ sub ∈ subs, sub.prot.toNat < 16 * fuel) : cencSubsamples ops p fuel subs s off st ≠ none := by
  induction subs generalizing s off st with
  | nil => simp [cencSubsamples]
  | cons sub subs ih =>
    unfold cencSubsamples
    simp only
    split
    · rename_i he
      exact absurd he (protected_end ops p h1 fuel _ _ _ _ (hf sub (by simp)))
    · simp
    · exact ih _ _ _ (fun x hx => hf x (by simp [hx]))

theorem run_end {σ : Type} (ops : SymOps σ) (p : SampleParams) (h1 : p.crypt.toNat < 2 ^ 60) (fuel : Nat) (subs : List Subsample) (mem : Mem) (ctx : σ)
    (hf : ∀ sub ∈ subs, sub.prot.toNat < 16 * fuel) : cencRun ops p fuel subs mem ctx ≠ none := by
  unfold cencRun
  simp only
  split
  · simp
  · exact subsamples_end ops p h1 fuel subs _ _ _ hf

end Sa

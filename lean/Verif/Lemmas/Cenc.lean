import Verif.Model.Cenc
import Verif.Model.CencSpec
import Verif.Lemmas.Svp
import Verif.Lemmas.Crypto

/-!
# Lemmas about common encryption
-/

namespace Sa

open CencSpec

/-! ## Memory -/

theorem readAt_length (m : Mem) (a n : Nat) : (readAt m a n).length = n := by simp [readAt]

theorem readAt_append (m : Mem) (a n k : Nat) : readAt m a (n + k) = readAt m a n ++ readAt m (a + n) k := by
  unfold readAt
  rw [List.range_add, List.map_append, List.map_map]
  congr 1
  apply List.map_congr_left
  intro i _
  simp [Nat.add_assoc]

theorem readAt_congr (m m' : Mem) (a n : Nat) (h : ∀ x, a ≤ x → x < a + n → m x = m' x) : readAt m a n = readAt m' a n := by
  unfold readAt
  apply List.map_congr_left
  intro i hi
  have := List.mem_range.mp hi
  exact h _ (by omega) (by omega)

theorem writeAt_nil (m : Mem) (a : Nat) : writeAt m a [] = m := by
  funext x
  unfold writeAt
  rw [if_neg]
  simp

theorem writeAt_out (m : Mem) (a : Nat) (bs : Bytes) (x : Nat) (h : x < a ∨ a + bs.length ≤ x) : writeAt m a bs x = m x := by
  unfold writeAt
  rw [if_neg]
  omega

theorem writeAt_append (m : Mem) (a : Nat) (b1 b2 : Bytes) : writeAt (writeAt m a b1) (a + b1.length) b2 = writeAt m a (b1 ++ b2) := by
  funext x
  unfold writeAt
  rw [List.length_append]
  by_cases h1 : a + b1.length ≤ x ∧ x < a + b1.length + b2.length
  · rw [if_pos h1, if_pos (by omega)]
    rw [List.getD_eq_getElem?_getD, List.getD_eq_getElem?_getD, List.getElem?_append_right (by omega)]
    congr 2
    omega
  · rw [if_neg h1]
    by_cases h2 : a ≤ x ∧ x < a + b1.length
    · rw [if_pos h2, if_pos (by omega)]
      rw [List.getD_eq_getElem?_getD, List.getD_eq_getElem?_getD, List.getElem?_append_left (by omega)]
    · rw [if_neg h2, if_neg (by omega)]

theorem readAt_writeAt (m : Mem) (a : Nat) (bs : Bytes) : readAt (writeAt m a bs) a bs.length = bs := by
  apply List.ext_getElem
  · simp [readAt]
  · intro i h1 h2
    simp only [readAt, List.getElem_map, List.getElem_range, writeAt]
    rw [if_pos (by omega)]
    simp [List.getD_eq_getElem?_getD, h2]

theorem readAt_writeAt_disjoint (m : Mem) (a : Nat) (bs : Bytes) (x n : Nat) (h : x + n ≤ a ∨ a + bs.length ≤ x) :
    readAt (writeAt m a bs) x n = readAt m x n := by
  apply readAt_congr
  intro y h1 h2
  exact writeAt_out m a bs y (by omega)

/-! ## Masks -/

theorem gather_append (m m' : List Bool) (x x' : Bytes) (h : m.length = x.length) :
    gather (m ++ m') (x ++ x') = gather m x ++ gather m' x' := by
  induction m generalizing x with
  | nil => cases x with
    | nil => rfl
    | cons a as => simp at h
  | cons b m ih => cases x with
    | nil => simp at h
    | cons a as =>
      have := ih as (by simpa using h)
      cases b <;> simp [gather, this]

theorem gather_false (n : Nat) (x : Bytes) : gather (List.replicate n false) x = [] := by
  induction n generalizing x with
  | zero => rfl
  | succ n ih => cases x <;> simp [gather, List.replicate_succ, ih]

theorem gather_true (x : Bytes) : gather (List.replicate x.length true) x = x := by
  induction x with
  | nil => rfl
  | cons a as ih => simp [gather, List.replicate_succ, ih]

theorem merge_append (m m' : List Bool) (x x' d d' : Bytes) (h : m.length = x.length) (hd : d.length = (gather m x).length) :
    merge (m ++ m') (x ++ x') (d ++ d') = merge m x d ++ merge m' x' d' := by
  induction m generalizing x d with
  | nil => cases x with
    | nil =>
      have : d = [] := by simpa [gather] using hd
      subst this; rfl
    | cons a as => simp at h
  | cons b m ih => cases x with
    | nil => simp at h
    | cons a as =>
      cases b with
      | false =>
        have := ih as d (by simpa using h) (by simpa [gather] using hd)
        simp [merge, this]
      | true =>
        cases d with
        | nil => simp [gather] at hd
        | cons e d =>
          have := ih as d (by simpa using h) (by simpa [gather] using hd)
          simp [merge, this]

theorem merge_false (x d : Bytes) : merge (List.replicate x.length false) x d = x := by
  induction x with
  | nil => rfl
  | cons a as ih => simp [merge, List.replicate_succ, ih]

theorem merge_true (x d : Bytes) (h : d.length = x.length) : merge (List.replicate x.length true) x d = d := by
  induction x generalizing d with
  | nil => simpa [merge] using h
  | cons a as ih => cases d with
    | nil => simp at h
    | cons e d => simp [merge, List.replicate_succ, ih d (by simpa using h)]

theorem protectedMask_length (ctr : Bool) (c s n : Nat) : (protectedMask ctr c s n).length = n := by simp [protectedMask]

theorem protectedMask_ctr (s n : Nat) : protectedMask true 0 s n = List.replicate n true := by
  apply List.ext_getElem
  · simp [protectedMask]
  · intro i h1 h2; simp [protectedMask]

theorem protectedMask_cbc (s n : Nat) :
    protectedMask false 0 s n = List.replicate (n / 16 * 16) true ++ List.replicate (n - n / 16 * 16) false := by
  apply List.ext_getElem
  · simp [protectedMask]; omega
  · intro i h1 h2
    rw [List.getElem_append]
    split
    · rename_i h; simp [protectedMask] at h ⊢; exact h
    · rename_i h; simp [protectedMask] at h ⊢; exact h

theorem protectedMask_small (ctr : Bool) (c s n : Nat) (hc : c ≠ 0) (hn : n < 16) : protectedMask ctr c s n = List.replicate n false := by
  apply List.ext_getElem
  · simp [protectedMask]
  · intro i h1 h2
    have : n / 16 = 0 := by omega
    simp [protectedMask, hc, this]

theorem protectedMask_stripe (ctr : Bool) (c s n b1 b2 : Nat) (hc : c ≠ 0) (h1 : b1 = min (c * 16) (n / 16 * 16))
    (h2 : b2 = min (s * 16) ((n - b1) / 16 * 16)) :
    protectedMask ctr c s n = List.replicate b1 true ++ (List.replicate b2 false ++ protectedMask ctr c s (n - b1 - b2)) := by
  have e1 : b1 ≤ c * 16 := by omega
  have e2 : b1 ≤ n / 16 * 16 := by omega
  have e3 : b2 ≤ s * 16 := by omega
  have e4 : b2 ≤ (n - b1) / 16 * 16 := by omega
  apply List.ext_getElem
  · simp [protectedMask]; omega
  · intro j g1 g2
    have hj : j < n := by simpa [protectedMask] using g1
    rw [List.getElem_append]
    split
    · rename_i h
      have h : j < b1 := by simpa using h
      have hq : j / 16 < c := by omega
      have : j / 16 % (c + s) = j / 16 := Nat.mod_eq_of_lt (by omega)
      simp [protectedMask, hc, this, hq]
      omega
    · rename_i h
      have h : ¬ j < b1 := by simpa using h
      rw [List.getElem_append]
      split
      · rename_i h'
        have h' : j - b1 < b2 := by simpa using h'
        have hb1 : b1 = c * 16 := by omega
        have hq : j / 16 < c + s := by omega
        have : j / 16 % (c + s) = j / 16 := Nat.mod_eq_of_lt hq
        simp [protectedMask, hc, this]
        omega
      · rename_i h'
        have h' : ¬ j - b1 < b2 := by simpa using h'
        simp only [protectedMask, List.length_replicate, List.getElem_map, List.getElem_range, hc, if_false]
        by_cases hb : b1 = c * 16 ∧ b2 = s * 16
        · have hd : j / 16 = (j - b1 - b2) / 16 + (c + s) := by omega
          rw [hd, Nat.add_mod_right]
          congr 1
          simp only [decide_eq_decide]
          omega
        · have hz : (n - b1 - b2) / 16 = 0 := by omega
          have : ¬ j < n / 16 * 16 := by omega
          simp [this, hz]

/-! ## Streams -/

/-- A cipher as a function of its state: what a string is decrypted to and the state afterwards.  `strict`: strings come in whole blocks. -/
structure StreamSpec (τ : Type) where
  T : τ → Bytes → Bytes
  next : τ → Bytes → τ
  strict : Bool
  nil : ∀ t, T t [] = []
  next_nil : ∀ t, next t [] = t
  len : ∀ t a, (strict = true → a.length % 16 = 0) → (T t a).length = a.length
  app : ∀ t a b, (strict = true → a.length % 16 = 0) → T t (a ++ b) = T t a ++ T (next t a) b
  next_app : ∀ t a b, (strict = true → a.length % 16 = 0) → (strict = true → b.length % 16 = 0) → next t (a ++ b) = next (next t a) b

variable {σ τ : Type}

/-- Accesses inside the two ranges. -/
def Within (outA inA n : Nat) (cs : List Memcpy) : Prop :=
  ∀ c ∈ cs, outA ≤ c.dst ∧ c.dst + c.len ≤ outA + n ∧ inA ≤ c.src ∧ c.src + c.len ≤ inA + n

/-- `s'` is `s` after the output bytes `bs` have been written, without a failure. -/
def Piece (s s' : Cenc σ) (outA inA n : Nat) (bs : Bytes) : Prop :=
  s'.mem = writeAt s.mem outA bs ∧ s'.failed = s.failed ∧ ∃ cs, s'.trace = s.trace ++ cs ∧ Within outA inA n cs

theorem Piece.refl (s : Cenc σ) (outA inA : Nat) : Piece s s outA inA 0 [] :=
  ⟨(writeAt_nil _ _).symm, rfl, [], by simp, fun _ h => absurd h (by simp)⟩

theorem Piece.trans (s s1 s2 : Cenc σ) (outA inA a b : Nat) (x y : Bytes) (hx : x.length = a)
    (h1 : Piece s s1 outA inA a x) (h2 : Piece s1 s2 (outA + a) (inA + a) b y) : Piece s s2 outA inA (a + b) (x ++ y) := by
  obtain ⟨m1, f1, c1, t1, w1⟩ := h1
  obtain ⟨m2, f2, c2, t2, w2⟩ := h2
  refine ⟨?_, f2.trans f1, c1 ++ c2, by rw [t2, t1, List.append_assoc], ?_⟩
  · rw [m2, m1, ← hx, writeAt_append]
  · intro c hc
    rcases List.mem_append.mp hc with h | h
    · have := w1 c h; omega
    · have := w2 c h; omega

/-- What is needed of `decrypt` (cenc.c:37-129): with a context in state `t` after `k` protected bytes, decrypting `n` bytes succeeds and
writes the decryption of the input bytes. -/
def DecSpec (ops : SymOps σ) (ctr : Bool) (S : StreamSpec τ) (Rel : Nat → τ → σ → Iv → UInt64 → Prop) (okLen : Nat → Nat → Prop) : Prop :=
  ∀ (s : Cenc σ) k t outA inA (n : UInt64), Rel k t s.ctx s.iv s.count → n.toNat < 2 ^ 31 → okLen k n.toNat →
    (outA + n.toNat ≤ inA ∨ inA + n.toNat ≤ outA) →
    ∃ s', cencDecrypt ops ctr s outA inA n = (s', .OK) ∧
      Piece s s' outA inA n.toNat (S.T t (readAt s.mem inA n.toNat)) ∧
      Rel (k + n.toNat) (S.next t (readAt s.mem inA n.toNat)) s'.ctx s'.iv s'.count

/-! ## CTR -/

/-- The CTR keystream from byte `k` on. -/
def ctrStream (E : Nat → Nat → UInt8) (hi lo : Nat) : StreamSpec Nat where
  T k bs := bs.mapIdx fun i b => b ^^^ keystream64 E hi lo (k + i)
  next k bs := k + bs.length
  strict := false
  nil _ := rfl
  next_nil _ := rfl
  len _ _ _ := List.length_mapIdx
  app k a b _ := by
    rw [List.mapIdx_append]
    congr 1
    apply List.ext_getElem
    · simp
    · intro i h1 h2
      simp only [List.getElem_mapIdx]
      rw [show k + (i + a.length) = k + a.length + i by omega]
  next_app k a b _ _ := by simp [Nat.add_assoc]

/-- State of `cenc_process_sample` after `k` protected bytes of CTR data. -/
structure CtrRel (hi lo : Nat) (k t : Nat) (c : CtrState) (iv : Iv) (count : UInt64) : Prop where
  tk : t = k
  cnt : count.toNat = k
  hiE : iv.hi.toNat = hi
  loE : iv.lo.toNat = (lo + k / 16) % 2 ^ 64
  usedE : c.used % 16 = k % 16
  ctxE : ∃ l, c.iv = hi * 2 ^ 64 + l ∧ l + c.used / 16 = iv.lo.toNat

/-- Decryption of `n` bytes by the OpenSSL context, as long as the lower half does not wrap. -/
theorem symDecrypt_ctr (E : Nat → Nat → UInt8) (hi lo k t : Nat) (s : Cenc CtrState) (hhi : hi < 2 ^ 64)
    (hR : CtrRel hi lo k t s.ctx s.iv s.count) (outA inA : Nat) (n : UInt64) (hn : n.toNat < 2 ^ 31) (hpos : 0 < n.toNat)
    (hno : s.iv.lo.toNat + (k % 16 + n.toNat - 1) / 16 < 2 ^ 64) :
    ∃ s', symDecrypt (ctrOps E) true s outA inA n = (s', .OK, n) ∧
      Piece s s' outA inA n.toNat ((ctrStream E hi lo).T k (readAt s.mem inA n.toNat)) ∧
      s'.iv = s.iv ∧ s'.count = s.count ∧ s'.ctx = ⟨s.ctx.iv, s.ctx.used + n.toNat⟩ := by
  have hmod : n.toNat % 2 ^ 32 = n.toNat := Nat.mod_eq_of_lt (by omega)
  refine ⟨{ s with mem := writeAt s.mem outA ((ctrStream E hi lo).T k (readAt s.mem inA n.toNat)), ctx := ⟨s.ctx.iv, s.ctx.used + n.toNat⟩, trace := s.trace ++ [⟨outA, inA, n.toNat⟩] }, ?_, ?_⟩
  · unfold symDecrypt
    simp only [Bool.not_true, Bool.false_and, Bool.false_eq_true, if_false, hmod]
    rw [if_neg (by omega)]
    have key : ∀ i, i < n.toNat → E ((s.ctx.iv + (s.ctx.used + i) / 16) % 2 ^ 128) ((s.ctx.used + i) % 16) = keystream64 E hi lo (k + i) := by
      intro i hi'
      unfold keystream64
      obtain ⟨l, hl1, hl2⟩ := hR.ctxE
      have hu := hR.usedE
      have hlo := hR.loE
      have ha : (s.ctx.used + i) % 16 = (k + i) % 16 := by omega
      have hb : (s.ctx.used + i) / 16 = s.ctx.used / 16 + (k % 16 + i) / 16 := by omega
      have hc : (k + i) / 16 = k / 16 + (k % 16 + i) / 16 := by omega
      rw [ha, hb, hc, hl1]
      have hd : (k % 16 + i) / 16 ≤ (k % 16 + n.toNat - 1) / 16 := by omega
      have he : (lo + (k / 16 + (k % 16 + i) / 16)) % 2 ^ 64 = s.iv.lo.toNat + (k % 16 + i) / 16 := by
        rw [← Nat.add_assoc, Nat.add_mod, ← hlo]
        rw [Nat.mod_eq_of_lt (a := (k % 16 + i) / 16) (by omega)]
        exact Nat.mod_eq_of_lt (by omega)
      rw [he]
      congr 1
      omega
    have hT : (readAt s.mem inA n.toNat).mapIdx (fun i b => b ^^^ E ((s.ctx.iv + (s.ctx.used + i) / 16) % 2 ^ 128) ((s.ctx.used + i) % 16)) =
        (ctrStream E hi lo).T k (readAt s.mem inA n.toNat) := by
      show _ = (readAt s.mem inA n.toNat).mapIdx fun i b => b ^^^ keystream64 E hi lo (k + i)
      apply List.ext_getElem
      · simp
      · intro i h1 h2
        have hi' : i < n.toNat := by simpa [readAt_length] using h1
        rw [List.getElem_mapIdx, List.getElem_mapIdx]
        exact congrArg _ (key i hi')
    show (({ s with mem := writeAt s.mem outA ((readAt s.mem inA n.toNat).mapIdx _), ctx := ⟨s.ctx.iv, s.ctx.used + (readAt s.mem inA n.toNat).length⟩, trace := s.trace ++ [⟨outA, inA, n.toNat⟩] } : Cenc CtrState), Status.OK, UInt64.ofNat (List.length ((readAt s.mem inA n.toNat).mapIdx _))) = _
    rw [hT, readAt_length, (ctrStream E hi lo).len _ _ (by simp [ctrStream]), readAt_length, UInt64.ofNat_toNat]
  · refine ⟨⟨rfl, rfl, _, rfl, ?_⟩, rfl, rfl, rfl⟩
    intro c hc
    simp at hc
    subst hc
    simp

theorem mod_add_small (a d m : Nat) (h : a % m + d < m) : (a + d) % m = a % m + d := by
  rw [Nat.add_mod]
  by_cases hd : d < m
  · rw [Nat.mod_eq_of_lt hd]; exact Nat.mod_eq_of_lt h
  · omega

theorem decryptRest_ctr (E : Nat → Nat → UInt8) (hi lo k t : Nat) (s : Cenc CtrState) (hhi : hi < 2 ^ 64)
    (hR : CtrRel hi lo k t s.ctx s.iv s.count) (outA inA : Nat) (n done full leading : UInt64) (hdone : done.toNat < n.toNat)
    (hn : n.toNat - done.toNat < 2 ^ 31) (hk : k + (n.toNat - done.toNat) < 2 ^ 64)
    (hadv : (full + (if leading > 0 then 1 else 0)).toNat = (k % 16 + (n.toNat - done.toNat)) / 16)
    (hno : s.iv.lo.toNat + (k % 16 + (n.toNat - done.toNat)) / 16 < 2 ^ 64) :
    ∃ s', decryptRest (ctrOps E) true s outA inA n done full leading = (s', .OK) ∧
      Piece s s' (outA + done.toNat) (inA + done.toNat) (n.toNat - done.toNat)
        ((ctrStream E hi lo).T k (readAt s.mem (inA + done.toNat) (n.toNat - done.toNat))) ∧
      CtrRel hi lo (k + (n.toNat - done.toNat)) (k + (n.toNat - done.toNat)) s'.ctx s'.iv s'.count := by
  have hsub : (n - done).toNat = n.toNat - done.toNat := UInt64.toNat_sub_of_le _ _ (UInt64.le_iff_toNat_le.mpr (by omega))
  obtain ⟨s1, e1, p1, i1, c1, x1⟩ := symDecrypt_ctr E hi lo k t s hhi hR (outA + done.toNat) (inA + done.toNat) (n - done)
    (by omega) (by omega) (by rw [hsub]; omega)
  rw [hsub] at p1 x1
  unfold decryptRest
  simp only [e1, ne_eq, not_true_eq_false, if_false]
  refine ⟨_, rfl, ⟨p1.1, p1.2⟩, ?_⟩
  obtain ⟨l, hl1, hl2⟩ := hR.ctxE
  have hu := hR.usedE
  have hlo := hR.loE
  have hlo' : (s.iv.lo + (full + (if leading > 0 then 1 else 0))).toNat = s.iv.lo.toNat + (k % 16 + (n.toNat - done.toNat)) / 16 := by
    rw [UInt64.toNat_add, hadv]
    exact Nat.mod_eq_of_lt hno
  refine ⟨rfl, ?_, ?_, ?_, ?_, l, ?_, ?_⟩
  · show (s1.count + (n - done)).toNat = _
    rw [c1, UInt64.toNat_add, hR.cnt, hsub]
    exact Nat.mod_eq_of_lt hk
  · show s1.iv.hi.toNat = _
    rw [i1]; exact hR.hiE
  · show (s1.iv.lo + _).toNat = _
    rw [i1, hlo', hlo]
    rw [show (k + (n.toNat - done.toNat)) / 16 = k / 16 + (k % 16 + (n.toNat - done.toNat)) / 16 by omega, ← Nat.add_assoc]
    exact (mod_add_small _ _ _ (by rw [← hlo]; exact hno)).symm
  · show s1.ctx.used % 16 = _
    rw [x1]; simp only; omega
  · show s1.ctx.iv = _
    rw [x1]; exact hl1
  · show l + s1.ctx.used / 16 = (s1.iv.lo + _).toNat
    rw [x1, i1, hlo']; simp only; omega

/-- Setting the IV to the next block of the stream. -/
theorem symSetIv_ctr (E : Nat → Nat → UInt8) (hi lo k : Nat) (s : Cenc CtrState) (hk : k % 16 = 0)
    (hhi : s.iv.hi.toNat = hi) (hlo : s.iv.lo.toNat = (lo + k / 16) % 2 ^ 64) (count : UInt64) (hc : count.toNat = k) :
    ∃ c, symSetIv (ctrOps E) s = ({ s with ctx := c }, .OK) ∧ CtrRel hi lo k k c s.iv count := by
  refine ⟨⟨s.iv.hi.toNat * 2 ^ 64 + s.iv.lo.toNat, 0⟩, rfl, rfl, hc, hhi, hlo, by simp [hk], s.iv.lo.toNat, by rw [hhi], by simp⟩

theorem decryptPartial_ctr (E : Nat → Nat → UInt8) (hi lo k t : Nat) (s : Cenc CtrState) (hhi : hi < 2 ^ 64)
    (hR : CtrRel hi lo k t s.ctx s.iv s.count) (outA inA : Nat) (leading : UInt64)
    (hl : leading.toNat = if k % 16 = 0 then 0 else 16 - k % 16) (hk : k + leading.toNat < 2 ^ 64) :
    ∃ s', decryptPartial (ctrOps E) s outA inA leading = (s', .OK, leading) ∧
      Piece s s' outA inA leading.toNat ((ctrStream E hi lo).T k (readAt s.mem inA leading.toNat)) ∧
      CtrRel hi lo (k + leading.toNat) (k + leading.toNat) s'.ctx s'.iv s'.count ∧ (k + leading.toNat) % 16 = 0 ∧
      (leading.toNat = 0 → s' = s) := by
  unfold decryptPartial
  by_cases hz : k % 16 = 0
  · rw [if_pos hz] at hl
    have hl0 : leading = 0 := UInt64.toNat.inj (by simpa using hl)
    subst hl0
    rw [if_neg (by decide)]
    refine ⟨s, rfl, ?_, ?_, by simpa using hz, fun _ => rfl⟩
    · exact Piece.refl s outA inA
    · have := hR.tk
      subst this
      exact hR
  · rw [if_neg hz] at hl
    rw [if_pos (UInt64.lt_iff_toNat_lt.mpr (by simp; omega))]
    obtain ⟨s1, e1, p1, i1, c1, x1⟩ := symDecrypt_ctr E hi lo k t s hhi hR outA inA leading (by omega) (by omega)
      (by have : (k % 16 + leading.toNat - 1) / 16 = 0 := by omega
          rw [this]; exact UInt64.toNat_lt _)
    simp only [e1, ne_eq, not_true_eq_false, if_false]
    have hlo := hR.loE
    have hlo1 : (s1.iv.lo + 1).toNat = (lo + (k + leading.toNat) / 16) % 2 ^ 64 := by
      rw [i1, UInt64.toNat_add, hlo, show (k + leading.toNat) / 16 = k / 16 + 1 by omega, ← Nat.add_assoc]
      show ((lo + k / 16) % 2 ^ 64 + 1) % 2 ^ 64 = _
      omega
    obtain ⟨c, q1, q2⟩ := symSetIv_ctr E hi lo (k + leading.toNat)
      { s1 with iv := { s1.iv with lo := s1.iv.lo + 1 } } (by omega) (by show s1.iv.hi.toNat = hi; rw [i1]; exact hR.hiE) hlo1
      (s1.count + leading) (by rw [c1, UInt64.toNat_add, hR.cnt]; exact Nat.mod_eq_of_lt hk)
    simp only [q1, not_true_eq_false, if_false]
    refine ⟨_, rfl, ⟨p1.1, p1.2⟩, q2, by omega, fun h => by omega⟩

theorem decryptBlocks_ctr (E : Nat → Nat → UInt8) (hi lo k t : Nat) (s : Cenc CtrState) (hhi : hi < 2 ^ 64)
    (hR : CtrRel hi lo k t s.ctx s.iv s.count) (hk16 : k % 16 = 0) (outA inA : Nat) (done blocks : UInt64)
    (hb : blocks.toNat * 16 < 2 ^ 31) (hk : k + blocks.toNat * 16 < 2 ^ 64) (hd : done.toNat + blocks.toNat * 16 < 2 ^ 64)
    (hno : s.iv.lo.toNat + blocks.toNat ≤ 2 ^ 64) :
    ∃ s' d', decryptBlocks (ctrOps E) s outA inA done blocks = (s', .OK, d') ∧ d'.toNat = done.toNat + blocks.toNat * 16 ∧
      Piece s s' (outA + done.toNat) (inA + done.toNat) (blocks.toNat * 16)
        ((ctrStream E hi lo).T k (readAt s.mem (inA + done.toNat) (blocks.toNat * 16))) ∧
      CtrRel hi lo (k + blocks.toNat * 16) (k + blocks.toNat * 16) s'.ctx s'.iv s'.count ∧ (blocks.toNat = 0 → s' = s) := by
  have hmul : (blocks * 16).toNat = blocks.toNat * 16 := by
    rw [UInt64.toNat_mul]; exact Nat.mod_eq_of_lt (by show blocks.toNat * 16 < 2 ^ 64; omega)
  unfold decryptBlocks
  by_cases hz : blocks = 0
  · subst hz
    rw [if_neg (by decide)]
    refine ⟨s, done, rfl, rfl, Piece.refl s _ _, ?_, fun _ => rfl⟩
    have := hR.tk
    subst this
    exact hR
  · have hpos : 0 < blocks.toNat := by
      rcases Nat.eq_zero_or_pos blocks.toNat with h | h
      · exact absurd (UInt64.toNat.inj (by simpa using h)) hz
      · exact h
    rw [if_pos (UInt64.lt_iff_toNat_lt.mpr (by simpa using hpos))]
    obtain ⟨s1, e1, p1, i1, c1, x1⟩ := symDecrypt_ctr E hi lo k t s hhi hR (outA + done.toNat) (inA + done.toNat) (blocks * 16)
      (by omega) (by omega) (by rw [hmul]; omega)
    rw [hmul] at p1 x1
    simp only [e1, ne_eq, not_true_eq_false, if_false]
    have hlo := hR.loE
    have hlo1 : (s1.iv.lo + blocks).toNat = (lo + (k + blocks.toNat * 16) / 16) % 2 ^ 64 := by
      rw [i1, UInt64.toNat_add, hlo, show (k + blocks.toNat * 16) / 16 = k / 16 + blocks.toNat by omega, ← Nat.add_assoc]
      simp [Nat.add_mod]
    obtain ⟨c, q1, q2⟩ := symSetIv_ctr E hi lo (k + blocks.toNat * 16)
      { s1 with iv := { s1.iv with lo := s1.iv.lo + blocks } } (by omega) (by show s1.iv.hi.toNat = hi; rw [i1]; exact hR.hiE) hlo1
      (s1.count + blocks * 16) (by rw [c1, UInt64.toNat_add, hR.cnt, hmul]; exact Nat.mod_eq_of_lt hk)
    simp only [q1, not_true_eq_false, if_false]
    refine ⟨_, _, rfl, ?_, ⟨p1.1, p1.2⟩, q2, fun h => by omega⟩
    rw [UInt64.toNat_add, hmul]; exact Nat.mod_eq_of_lt hd

/-- When a range of `n` protected bytes after `k` bytes is decrypted correctly: it starts at a block boundary, or it reaches the end of the
block begun and the whole blocks after it do not go past the wrap of the counter. -/
def ctrOk (lo k n : Nat) : Prop :=
  k + n < 2 ^ 64 ∧ (k % 16 = 0 ∨ (16 - k % 16 ≤ n ∧ (lo + k / 16) % 2 ^ 64 + (n - (16 - k % 16)) / 16 < 2 ^ 64))

theorem rollover_arith (l before full x blocks l1 : Nat) (hl : l < 2 ^ 64) (hb : before = (2 ^ 64 - l) % 2 ^ 64) (hx : x = 0 ∨ x = 1)
    (hf : full < 2 ^ 31) (hroll : before ≤ full + x) (hgood : x = 1 → l + full < 2 ^ 64) (hbl : blocks = min before full)
    (hl1 : l1 = (l + x) % 2 ^ 64) : l1 + blocks ≤ 2 ^ 64 ∧ (l1 + blocks) % 2 ^ 64 + (full - blocks) < 2 ^ 64 := by
  by_cases h0 : l = 0
  · subst h0
    have : before = 0 := by omega
    have : blocks = 0 := by omega
    rcases hx with h | h <;> subst h <;> omega
  · have hbe : before = 2 ^ 64 - l := by omega
    rcases hx with h | h
    · subst h
      have : blocks = before := by omega
      have : l1 = l := by omega
      omega
    · have := hgood h
      subst h
      have : before = full + 1 := by omega
      have : blocks = full := by omega
      by_cases hf0 : full = 0
      · omega
      · have : l1 = l + 1 := by omega
        omega

theorem decSpec_ctr (E : Nat → Nat → UInt8) (hi lo : Nat) (hhi : hi < 2 ^ 64) :
    DecSpec (ctrOps E) true (ctrStream E hi lo) (CtrRel hi lo) (ctrOk lo) := by
  intro s k t outA inA n hR hn hok hdis
  have htk := hR.tk
  subst htk
  have hnext : ∀ bs, (ctrStream E hi lo).next t bs = t + bs.length := fun _ => rfl
  rw [hnext, readAt_length]
  obtain ⟨hk, hal⟩ := hok
  have hlo := hR.loE
  have hll : s.iv.lo.toNat < 2 ^ 64 := UInt64.toNat_lt _
  have hc16 : (s.count % 16).toNat = t % 16 := by rw [UInt64.toNat_mod, hR.cnt]; rfl
  obtain ⟨leading, hld⟩ : ∃ l : UInt64, l = if s.count % 16 = 0 then 0 else 16 - s.count % 16 := ⟨_, rfl⟩
  have hl : leading.toNat = if t % 16 = 0 then 0 else 16 - t % 16 := by
    rw [hld]
    by_cases hz : t % 16 = 0
    · rw [if_pos (UInt64.toNat.inj (by rw [hc16]; simpa using hz)), if_pos hz]; rfl
    · rw [if_neg (fun h => hz (by rw [← hc16, h]; rfl)), if_neg hz]
      rw [UInt64.toNat_sub_of_le _ _ (UInt64.le_iff_toNat_le.mpr (by rw [hc16]; show t % 16 ≤ 16; omega)), hc16]
      rfl
  have hl16 : leading.toNat < 16 := by rw [hl]; split <;> omega
  have hpos : leading > 0 ↔ leading.toNat > 0 := by
    constructor
    · intro h; simpa using UInt64.lt_iff_toNat_lt.mp h
    · intro h; exact UInt64.lt_iff_toNat_lt.mpr (by simpa using h)
  unfold cencDecrypt
  simp only [← hld]
  by_cases hn0 : n = 0
  · subst hn0
    rw [if_neg (by decide)]
    refine ⟨s, rfl, ?_, ?_⟩
    · have : readAt s.mem inA (0 : UInt64).toNat = [] := rfl
      rw [this]
      exact Piece.refl s outA inA
    · exact hR
  · have hnpos : 0 < n.toNat := by
      rcases Nat.eq_zero_or_pos n.toNat with h | h
      · exact absurd (UInt64.toNat.inj (by simpa using h)) hn0
      · exact h
    rw [if_pos (UInt64.lt_iff_toNat_lt.mpr (by simpa using hnpos))]
    have hln : leading.toNat ≤ n.toNat := by
      rw [hl]; split
      · omega
      · rename_i hz; rcases hal with h | h
        · exact absurd h hz
        · exact h.1
    have hsub : (n - leading).toNat = n.toNat - leading.toNat := UInt64.toNat_sub_of_le _ _ (UInt64.le_iff_toNat_le.mpr hln)
    obtain ⟨full, hfd⟩ : ∃ f : UInt64, f = (n - leading) / 16 := ⟨_, rfl⟩
    have hf : full.toNat = (n.toNat - leading.toNat) / 16 := by rw [hfd, UInt64.toNat_div, hsub]; rfl
    obtain ⟨before, hbd⟩ : ∃ b : UInt64, b = 0xFFFFFFFFFFFFFFFF - s.iv.lo + 1 := ⟨_, rfl⟩
    have hb : before.toNat = (2 ^ 64 - s.iv.lo.toNat) % 2 ^ 64 := by
      rw [hbd, UInt64.toNat_add, UInt64.toNat_sub_of_le _ _ (UInt64.le_iff_toNat_le.mpr (by show _ ≤ 2 ^ 64 - 1; omega))]
      show (2 ^ 64 - 1 - s.iv.lo.toNat + 1) % 2 ^ 64 = _
      congr 1; omega
    have hsum : (full + (if leading > 0 then 1 else 0)).toNat = full.toNat + if leading.toNat > 0 then 1 else 0 := by
      rw [UInt64.toNat_add]
      by_cases h : leading > 0
      · rw [if_pos h, if_pos (hpos.mp h)]; exact Nat.mod_eq_of_lt (by show full.toNat + 1 < 2 ^ 64; omega)
      · rw [if_neg h, if_neg (fun h' => h (hpos.mpr h'))]; exact Nat.mod_eq_of_lt (by show full.toNat + 0 < 2 ^ 64; omega)
    have hadv : (t % 16 + n.toNat) / 16 = full.toNat + if leading.toNat > 0 then 1 else 0 := by
      rw [hf]
      by_cases hz : t % 16 = 0
      · rw [if_pos hz] at hl; rw [if_neg (by omega)]; omega
      · rw [if_neg hz] at hl; rw [if_pos (by omega)]; omega
    simp only [← hfd, ← hbd]
    by_cases hroll : before ≤ full + (if leading > 0 then 1 else 0)
    · rw [decide_eq_true hroll]
      have hroll' := UInt64.le_iff_toNat_le.mp hroll
      rw [hsum] at hroll'
      simp only [Bool.and_true, if_true]
      obtain ⟨s1, e1, p1, r1, k1, _⟩ := decryptPartial_ctr E hi lo t t s hhi hR outA inA leading hl (by omega)
      rw [e1]
      simp only [ne_eq, not_true_eq_false, if_false]
      obtain ⟨blocks, hbl⟩ : ∃ b : UInt64, b = if before ≤ full then before else full := ⟨_, rfl⟩
      have hblocks : blocks.toNat = min before.toNat full.toNat := by
        rw [hbl]
        by_cases h : before ≤ full
        · rw [if_pos h]; have := UInt64.le_iff_toNat_le.mp h; omega
        · rw [if_neg h]; have := mt UInt64.le_iff_toNat_le.mpr h; omega
      have hlo1 : s1.iv.lo.toNat = (s.iv.lo.toNat + if leading.toNat > 0 then 1 else 0) % 2 ^ 64 := by
        rw [r1.loE, hlo]
        by_cases hz : t % 16 = 0
        · rw [if_pos hz] at hl; rw [if_neg (by omega), hl]; simp
        · rw [if_neg hz] at hl; rw [if_pos (by omega), show (t + leading.toNat) / 16 = t / 16 + 1 by omega]; omega
      have hgood : leading.toNat > 0 → s.iv.lo.toNat + full.toNat < 2 ^ 64 := by
        intro h
        rcases hal with h' | h'
        · rw [if_pos h'] at hl; omega
        · rw [hlo, hf, hl, if_neg (by intro hz; rw [if_pos hz] at hl; omega)]; exact h'.2
      have hmulle : blocks.toNat * 16 + leading.toNat ≤ n.toNat := by omega
      have harith := rollover_arith s.iv.lo.toNat before.toNat full.toNat (if leading.toNat > 0 then 1 else 0) blocks.toNat _ hll hb
        (by split <;> simp) (by omega) hroll' (fun h => hgood (by
          apply Classical.byContradiction
          intro hx
          rw [if_neg hx] at h
          exact absurd h (by decide))) hblocks rfl
      have hbf : blocks.toNat ≤ full.toNat := by rw [hblocks]; exact Nat.min_le_right _ _
      rw [← hlo1] at harith
      clear hlo1 hgood hroll' hadv hl hal hsum hpos hb hblocks hroll hlo hll
      simp only [← hbl]
      clear hbl hbd hld hfd
      obtain ⟨s2, d2, e2, f2, p2, r2, _⟩ := decryptBlocks_ctr E hi lo (t + leading.toNat) (t + leading.toNat) s1 hhi r1 k1 outA inA leading blocks
        (by omega) (by omega) (by omega) (by
          exact harith.1)
      rw [e2]
      simp only [not_true_eq_false, if_false]
      -- the input has not been changed by the writes made so far
      have hread : readAt s1.mem (inA + leading.toNat) (blocks.toNat * 16) = readAt s.mem (inA + leading.toNat) (blocks.toNat * 16) := by
        rw [p1.1]
        apply readAt_writeAt_disjoint
        rw [(ctrStream E hi lo).len _ _ (by simp [ctrStream]), readAt_length]
        omega
      have p12 := Piece.trans s s1 s2 outA inA leading.toNat (blocks.toNat * 16) _ _
        (by rw [(ctrStream E hi lo).len _ _ (by simp [ctrStream]), readAt_length]) p1 p2
      rw [hread] at p12
      have happ : ∀ a b, (ctrStream E hi lo).T t (readAt s.mem inA a) ++ (ctrStream E hi lo).T (t + a) (readAt s.mem (inA + a) b) =
          (ctrStream E hi lo).T t (readAt s.mem inA (a + b)) := by
        intro a b
        rw [readAt_append, (ctrStream E hi lo).app _ _ _ (by simp [ctrStream]), hnext, readAt_length]
      rw [happ] at p12
      have hlo2 : s2.iv.lo.toNat = (s1.iv.lo.toNat + blocks.toNat) % 2 ^ 64 := by
        rw [r2.loE, r1.loE, show (t + leading.toNat + blocks.toNat * 16) / 16 = (t + leading.toNat) / 16 + blocks.toNat by omega]
        rw [Nat.mod_add_mod, Nat.add_assoc]
      by_cases hmore : n > d2
      · rw [if_pos hmore]
        have hmore' := UInt64.lt_iff_toNat_lt.mp hmore
        have hfsub : (full - blocks).toNat = full.toNat - blocks.toNat :=
          UInt64.toNat_sub_of_le _ _ (UInt64.le_iff_toNat_le.mpr (by omega))
        obtain ⟨s3, e3, p3, r3⟩ := decryptRest_ctr E hi lo _ _ s2 hhi r2 outA inA n d2 (full - blocks) 0 hmore' (by omega) (by omega)
          (by rw [if_neg (by decide), UInt64.toNat_add, hfsub]
              show (full.toNat - blocks.toNat + 0) % 2 ^ 64 = _
              rw [Nat.mod_eq_of_lt (by omega), f2, hf]
              omega)
          (by
            have e : (t + leading.toNat + blocks.toNat * 16) % 16 = 0 := by omega
            have e' : (0 + (n.toNat - (leading.toNat + blocks.toNat * 16))) / 16 = full.toNat - blocks.toNat := by omega
            rw [e, hlo2, f2, e']
            exact harith.2)
        refine ⟨s3, e3, ?_, ?_⟩
        · have hread3 : readAt s2.mem (inA + d2.toNat) (n.toNat - d2.toNat) = readAt s.mem (inA + d2.toNat) (n.toNat - d2.toNat) := by
            rw [p12.1]
            apply readAt_writeAt_disjoint
            rw [(ctrStream E hi lo).len _ _ (by simp [ctrStream]), readAt_length]
            omega
          rw [hread3, f2] at p3
          have := Piece.trans s s2 s3 outA inA (leading.toNat + blocks.toNat * 16) _ _ _
            (by rw [(ctrStream E hi lo).len _ _ (by simp [ctrStream]), readAt_length]) p12 p3
          rw [Nat.add_assoc t, happ] at this
          rw [show leading.toNat + blocks.toNat * 16 + (n.toNat - (leading.toNat + blocks.toNat * 16)) = n.toNat by omega] at this
          exact this
        · rw [f2, show t + leading.toNat + blocks.toNat * 16 + (n.toNat - (leading.toNat + blocks.toNat * 16)) = t + n.toNat by omega] at r3
          exact r3
      · rw [if_neg hmore]
        have hmore' := mt UInt64.lt_iff_toNat_lt.mpr hmore
        have hall : leading.toNat + blocks.toNat * 16 = n.toNat := by omega
        refine ⟨s2, rfl, ?_, ?_⟩
        · rw [hall] at p12; exact p12
        · rw [Nat.add_assoc, hall] at r2; exact r2
    · rw [decide_eq_false hroll]
      have hroll' := mt UInt64.le_iff_toNat_le.mpr hroll
      rw [hsum] at hroll'
      simp only [Bool.false_and, Bool.false_eq_true, if_false]
      obtain ⟨s3, e3, p3, r3⟩ := decryptRest_ctr E hi lo t t s hhi hR outA inA n 0 full leading (by simpa using hnpos) (by simpa using hn)
        (by simpa using hk) (by rw [hsum]; simpa using hadv.symm) (by
          have : (t % 16 + (n.toNat - (0 : UInt64).toNat)) / 16 = (t % 16 + n.toNat) / 16 := rfl
          rw [this, hadv]
          by_cases h : leading.toNat > 0
          · rw [if_pos h] at *; omega
          · rw [if_neg h] at *; omega)
      exact ⟨s3, e3, p3, r3⟩

/-! ## CBC -/

theorem cbcDec_append (dec : Bytes → Bytes) (n k : Nat) (iv a b : Bytes) (ha : a.length = n * 16) :
    cbcDec dec (n + k) iv (a ++ b) = cbcDec dec n iv a ++ cbcDec dec k (if a = [] then iv else a.drop (a.length - 16)) b := by
  induction n generalizing iv a with
  | zero =>
    have : a = [] := List.length_eq_zero_iff.mp (by omega)
    subst this
    simp [cbcDec]
  | succ n ih =>
    have hne : a ≠ [] := by intro h; subst h; simp at ha
    rw [show n + 1 + k = (n + k) + 1 by omega]
    simp only [cbcDec]
    rw [List.take_append_of_le_length (by omega), List.drop_append_of_le_length (by omega)]
    rw [ih _ (a.drop 16) (by rw [List.length_drop]; omega), List.append_assoc]
    congr 2
    rw [if_neg hne]
    by_cases hd : a.drop 16 = []
    · rw [if_pos hd]
      have : a.length = 16 := by
        have := congrArg List.length hd
        rw [List.length_drop] at this; simp at this; omega
      rw [this]
      simp [List.take_of_length_le (by omega : a.length ≤ 16)]
    · have hl : 0 < (a.drop 16).length := List.length_pos_iff.mpr hd
      rw [List.length_drop] at hl
      rw [if_neg hd, List.drop_drop, List.length_drop, show 16 + (a.length - 16 - 16) = a.length - 16 by omega]

/-- One block. -/
abbrev Block := { b : Bytes // b.length = 16 }

/-- The last block of a string, or `t` if there is none. -/
def lastBlock (t : Block) (bs : Bytes) : Block :=
  if h : 16 ≤ bs.length then ⟨bs.drop (bs.length - 16), by rw [List.length_drop]; omega⟩ else t

/-- AES-CBC decryption. -/
def cbcStream (dec : Bytes → Bytes) (hdec : ∀ b, b.length = 16 → (dec b).length = 16) : StreamSpec Block where
  T t bs := cbcDec dec (bs.length / 16) t.val bs
  next := lastBlock
  strict := true
  nil _ := rfl
  next_nil _ := rfl
  len t a h := by
    have := h rfl
    rw [cbcDec_length dec hdec _ _ _ t.property (by omega)]
    omega
  app t a b h := by
    have := h rfl
    rw [List.length_append, show (a.length + b.length) / 16 = a.length / 16 + b.length / 16 by omega]
    rw [cbcDec_append dec _ _ _ _ _ (by omega)]
    congr 1
    unfold lastBlock
    by_cases hz : a = []
    · subst hz; simp
    · have hp : 0 < a.length := List.length_pos_iff.mpr hz
      rw [if_neg hz, dif_pos (by omega)]
  next_app t a b h1 h2 := by
    have h1 := h1 rfl
    have h2 := h2 rfl
    apply Subtype.ext
    unfold lastBlock
    by_cases hb : 16 ≤ b.length
    · rw [dif_pos hb, dif_pos (by rw [List.length_append]; omega)]
      simp only [List.length_append]
      rw [show a.length + b.length - 16 = a.length + (b.length - 16) by omega, List.drop_append]
      simp
    · have hb0 : b = [] := List.length_eq_zero_iff.mp (by omega)
      subst hb0
      simp

theorem decSpec_cbc (dec : Bytes → Bytes) (hdec : ∀ b, b.length = 16 → (dec b).length = 16) :
    DecSpec (cbcOps dec) false (cbcStream dec hdec) (fun _ t ctx _ _ => ctx = t.val) (fun _ n => n % 16 = 0) := by
  intro s k t outA inA n hR hn hok hdis
  unfold cencDecrypt
  simp only [Bool.and_false, Bool.false_eq_true, if_false]
  by_cases hn0 : n = 0
  · subst hn0
    rw [if_neg (by decide)]
    have : readAt s.mem inA (0 : UInt64).toNat = [] := rfl
    refine ⟨s, rfl, ?_, ?_⟩
    · rw [this]; exact Piece.refl s outA inA
    · rw [this]; exact hR
  · have hnpos : 0 < n.toNat := by
      rcases Nat.eq_zero_or_pos n.toNat with h | h
      · exact absurd (UInt64.toNat.inj (by simpa using h)) hn0
      · exact h
    rw [if_pos (UInt64.lt_iff_toNat_lt.mpr (by simpa using hnpos))]
    unfold decryptRest symDecrypt
    have hmod : n.toNat % 2 ^ 32 = n.toNat := Nat.mod_eq_of_lt (by omega)
    have hn16 : n % 16 = 0 := UInt64.toNat.inj (by rw [UInt64.toNat_mod]; exact hok)
    have hsub : n - 0 = n := by simp
    simp only [hsub, hn16, hmod, show (0 : UInt64).toNat = 0 from rfl, Nat.add_zero, ne_eq, not_true_eq_false, decide_false, Bool.and_false,
      Bool.false_eq_true, if_false, show ¬ n.toNat ≥ 2 ^ 31 by omega]
    have hlen := readAt_length s.mem inA n.toNat
    have hdecr : (cbcOps dec).decrypt s.ctx (readAt s.mem inA n.toNat) =
        some ((lastBlock t (readAt s.mem inA n.toNat)).val, (cbcStream dec hdec).T t (readAt s.mem inA n.toNat)) := by
      unfold cbcOps lastBlock
      simp only [hlen]
      rw [if_neg (by omega), if_neg (by intro h; rw [h] at hlen; simp at hlen; omega), dif_pos (by omega), hR]
      simp [cbcStream, hlen]
    rw [hdecr]
    simp only [not_true_eq_false, if_false]
    refine ⟨_, rfl, ⟨rfl, rfl, _, rfl, ?_⟩, rfl⟩
    intro c hc
    simp at hc
    subst hc
    simp

end Sa

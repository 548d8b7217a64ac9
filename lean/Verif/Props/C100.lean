import Verif.Model.Random

/-!
# C100: random data is random

When `sa_crypto_random` returns OK, all of the buffer comes from the generator (sa_crypto.h:35-39); so do keys that are generated and what keys are wrapped with in the store; and
nothing is given out twice.
-/

namespace Sa.Rnd.C100

open Sa Sa.Rnd

/-- The pieces of random data in an answer, each with its length. -/
def pieces : Ans → List Bytes
  | .random .OK (some o) => [o]
  | .random _ _ => []
  | .made none => []
  | .made (some m) => m.key.toList ++ [m.inputs, m.iv]

/-- The pieces are successive parts of the generator's output between two places, so that no byte of it is in two of them. -/
inductive Parts (byte : Nat → UInt8) : Nat → Nat → List Bytes → Prop
  | nil {p q} : p ≤ q → Parts byte p q []
  | cons {p a q b l} : p ≤ a → (∀ i, i < b.length → b[i]? = some (byte (a + i))) → Parts byte (a + b.length) q l → Parts byte p q (b :: l)

theorem Parts.le {byte : Nat → UInt8} {p q : Nat} {l : List Bytes} (h : Parts byte p q l) : p ≤ q := by
  induction h with
  | nil h => exact h
  | cons h _ _ ih => omega

theorem Parts.append {byte : Nat → UInt8} {p q r : Nat} {l m : List Bytes} (h : Parts byte p q l) (h' : Parts byte q r m) : Parts byte p r (l ++ m) := by
  induction h with
  | nil hp =>
    cases h' with
    | nil h => exact .nil (by omega)
    | cons h1 h2 h3 => exact .cons (by omega) h2 h3
  | cons h1 h2 _ ih => exact .cons h1 h2 (ih h')

/-- What is asked for is less than 2 GiB, and memory is as long as it was asked for. -/
def Fine : Op × (Nat → Bytes) → Prop
  | (.random a out, _) => (∀ o, out = some o → o.length < 2 ^ 31) ∧ ∀ j, a.shared = some j → ∀ n, (j n).length = n
  | (_, junk) => ∀ n, (junk n).length = n

theorem part_length (g : Gen) (p n : Nat) : (g.part p n).length = n := by simp [Gen.part]

theorem part_get (g : Gen) (p n i : Nat) (h : i < n) : (g.part p n)[i]? = some (g.byte (p + i)) := by simp [Gen.part, h]

theorem int_small (n : Nat) (h : n < 2 ^ 31) : intOfSize (UInt64.ofNat n) = n := by
  unfold intOfSize
  have : (UInt64.ofNat n).toNat = n := by rw [UInt64.toNat_ofNat']; omega
  rw [this]
  simp only
  rw [Nat.mod_eq_of_lt (by omega), if_pos h]

/-- Draws of less than 2 GiB from a generator that answers with 1 or 0. -/
theorem rand_small (g : Gen) (hg : ∀ k, g.ret k = 1 ∨ g.ret k = 0) (s : St) (buf : Bytes) (h : buf.length < 2 ^ 31) :
    randBytes g s buf = some (true, g.part s.pos buf.length, ⟨s.calls + 1, s.pos + buf.length⟩) ∨ randBytes g s buf = some (false, buf, ⟨s.calls + 1, s.pos⟩) := by
  unfold randBytes
  simp only
  rw [int_small _ h, if_neg (by omega)]
  rcases hg s.calls with h1 | h1
  · left
    rw [if_pos h1]
    simp
  · right
    rw [if_neg (by rw [h1]; decide), if_pos h1]

theorem one (g : Gen) (s : St) (n : Nat) : Parts g.byte s.pos (s.pos + n) [g.part s.pos n] := by
  refine .cons (Nat.le_refl _) (fun i hi => ?_) (.nil ?_)
  · exact part_get _ _ _ _ (by rw [part_length] at hi; exact hi)
  · rw [part_length]; omega

theorem store_parts (g : Gen) (hg : ∀ k, g.ret k = 1 ∨ g.ret k = 0) (junk : Nat → Bytes) (hj : ∀ n, (junk n).length = n) (s : St) (key : Option Bytes) :
    ∃ m s', store g junk s key = some (m, s') ∧ s.pos ≤ s'.pos ∧ ∀ x, m = some x → x.key = key ∧ x.inputs.length = 96 ∧ x.iv.length = 16 ∧ Parts g.byte s.pos s'.pos [x.inputs, x.iv] := by
  unfold store
  rcases rand_small g hg s (junk 96) (by rw [hj]; decide) with h | h
  · rw [h, hj]
    simp only
    rcases rand_small g hg ⟨s.calls + 1, s.pos + 96⟩ (junk 16) (by rw [hj]; decide) with h' | h'
    · rw [h', hj]
      refine ⟨_, _, rfl, by simp only; omega, fun x hx => ?_⟩
      cases hx
      exact ⟨rfl, part_length _ _ _, part_length _ _ _, (one g s 96).append (one g ⟨s.calls + 1, s.pos + 96⟩ 16)⟩
    · rw [h']
      exact ⟨_, _, rfl, by simp only; omega, fun x hx => nomatch hx⟩
  · rw [h]
    exact ⟨_, _, rfl, Nat.le_refl _, fun x hx => nomatch hx⟩

theorem generate_parts (g : Gen) (hg : ∀ k, g.ret k = 1 ∨ g.ret k = 0) (junk : Nat → Bytes) (hj : ∀ n, (junk n).length = n) (s : St) (n : Nat) :
    ∃ m s', generate g junk s n = some (m, s') ∧ s.pos ≤ s'.pos ∧
      ∀ x, m = some x → 16 ≤ n ∧ n ≤ 512 ∧ ∃ k, x.key = some k ∧ k.length = n ∧ x.inputs.length = 96 ∧ x.iv.length = 16 ∧ Parts g.byte s.pos s'.pos [k, x.inputs, x.iv] := by
  unfold generate
  split
  · exact ⟨_, _, rfl, Nat.le_refl _, fun x hx => nomatch hx⟩
  rename_i hn
  rcases rand_small g hg s (junk n) (by rw [hj]; omega) with h | h
  · rw [h, hj]
    simp only
    obtain ⟨m, s', h1, h2, h3⟩ := store_parts g hg junk hj ⟨s.calls + 1, s.pos + n⟩ (some (g.part s.pos n))
    refine ⟨m, s', h1, by simp only at h2; omega, fun x hx => ?_⟩
    obtain ⟨a1, a2, a3, a4⟩ := h3 x hx
    exact ⟨by omega, by omega, _, a1, part_length _ _ _, a2, a3, (one g s n).append a4⟩
  · rw [h]
    exact ⟨_, _, rfl, Nat.le_refl _, fun x hx => nomatch hx⟩

/-- What `sa_crypto_random` does. -/
theorem random_parts (g : Gen) (hg : ∀ k, g.ret k = 1 ∨ g.ret k = 0) (a : Around) (out : Option Bytes) (junk : Nat → Bytes) (hf : Fine (.random a out, junk)) (s : St) :
    ∃ st o s', cryptoRandom g a s out = some (st, o, s') ∧ s.pos ≤ s'.pos ∧ ((st ≠ .OK ∧ o = out) ∨
      (st = .OK ∧ ∃ b b', out = some b ∧ o = some b' ∧ b'.length = b.length ∧ Parts g.byte s.pos s'.pos [b'])) := by
  unfold cryptoRandom
  split
  · exact ⟨_, _, _, rfl, Nat.le_refl _, .inl ⟨by decide, rfl⟩⟩
  cases out with
  | none => exact ⟨_, _, _, rfl, Nat.le_refl _, .inl ⟨by decide, rfl⟩⟩
  | some o =>
    simp only
    split
    · exact ⟨_, _, _, rfl, Nat.le_refl _, .inl ⟨by decide, rfl⟩⟩
    split
    · exact ⟨_, _, _, rfl, Nat.le_refl _, .inl ⟨by decide, rfl⟩⟩
    cases hs : a.shared with
    | none =>
      simp only
      rcases rand_small g hg s o (hf.1 o rfl) with h | h
      · rw [h]
        exact ⟨_, _, _, rfl, by simp only; omega, .inr ⟨rfl, o, _, rfl, rfl, part_length _ _ _, one g s _⟩⟩
      · rw [h]
        exact ⟨_, _, _, rfl, Nat.le_refl _, .inl ⟨by decide, rfl⟩⟩
    | some j =>
      have hj := hf.2 j hs
      simp only
      rcases rand_small g hg s (j o.length) (by rw [hj]; exact hf.1 o rfl) with h | h
      · rw [h, hj]
        exact ⟨_, _, _, rfl, by simp only; omega, .inr ⟨rfl, o, _, rfl, rfl, part_length _ _ _, one g s _⟩⟩
      · rw [h]
        exact ⟨_, _, _, rfl, Nat.le_refl _, .inl ⟨by decide, rfl⟩⟩

/-- What was answered to a request: a buffer of the length of the caller's, or the caller's as it was with an error; a key of the length asked for. -/
def Answers : Op → Ans → Prop
  | .random _ out, .random s o => (s ≠ .OK → o = out) ∧ (s = .OK → ∃ b b', out = some b ∧ o = some b' ∧ b'.length = b.length)
  | .generate n, .made m => ∀ x, m = some x → 16 ≤ n ∧ n ≤ 512 ∧ x.key.map List.length = some n ∧ x.inputs.length = 96 ∧ x.iv.length = 16
  | .store, .made m => ∀ x, m = some x → x.key = none ∧ x.inputs.length = 96 ∧ x.iv.length = 16
  | _, _ => False

theorem step_parts (g : Gen) (hg : ∀ k, g.ret k = 1 ∨ g.ret k = 0) (op : Op) (junk : Nat → Bytes) (hf : Fine (op, junk)) (s : St) :
    ∃ a s', step g junk s op = some (a, s') ∧ Answers op a ∧ Parts g.byte s.pos s'.pos (pieces a) := by
  cases op with
  | random ar out =>
    obtain ⟨st, o, s', h1, h2, h3⟩ := random_parts g hg ar out junk hf s
    refine ⟨.random st o, s', by simp only [step, h1], ?_, ?_⟩
    · rcases h3 with ⟨h3, h4⟩ | ⟨h3, b, b', h4, h5, h6, h7⟩
      · exact ⟨fun _ => h4, fun h => absurd h h3⟩
      · exact ⟨fun h => absurd h3 h, fun _ => ⟨b, b', h4, h5, h6⟩⟩
    · rcases h3 with ⟨h3, h4⟩ | ⟨h3, b, b', h4, h5, h6, h7⟩
      · have : pieces (.random st o) = [] := by
          unfold pieces
          cases st <;> first | exact absurd rfl h3 | rfl
        rw [this]; exact .nil h2
      · subst h3; subst h5; exact h7
  | generate n =>
    obtain ⟨m, s', h1, h2, h3⟩ := generate_parts g hg junk hf s n
    refine ⟨.made m, s', by simp [step, h1], ?_, ?_⟩
    · intro x hx
      obtain ⟨a1, a2, k, a3, a4, a5, a6, _⟩ := h3 x hx
      exact ⟨a1, a2, by rw [a3, ← a4]; rfl, a5, a6⟩
    · cases m with
      | none => exact .nil h2
      | some x =>
        obtain ⟨_, _, k, a3, _, _, _, a7⟩ := h3 x rfl
        show Parts _ _ _ (x.key.toList ++ _)
        rw [a3]; exact a7
  | store =>
    obtain ⟨m, s', h1, h2, h3⟩ := store_parts g hg junk hf s none
    refine ⟨.made m, s', by simp [step, h1], fun x hx => ⟨(h3 x hx).1, (h3 x hx).2.1, (h3 x hx).2.2.1⟩, ?_⟩
    cases m with
    | none => exact .nil h2
    | some x =>
      obtain ⟨a1, _, _, a4⟩ := h3 x rfl
      show Parts _ _ _ (x.key.toList ++ _)
      rw [a1]; exact a4

/-- Requests and answers side by side. -/
def AllAnswer : List (Op × (Nat → Bytes)) → List Ans → Prop
  | [], [] => True
  | o :: os, a :: as => Answers o.1 a ∧ AllAnswer os as
  | _, _ => False

/-- **C100 (partial).**  Whatever is asked for, in whatever order: each buffer that comes with OK has the caller's length and comes from the generator throughout; so does each key that
is generated, which has the length asked for, and what each key in the store is wrapped with; and all of these are successive parts of what the generator gives, so that nothing is
given twice.  With an error the caller's buffer is as it was.  Missing for the full property: buffers of 2 GiB and more (`C100_violated_long`, `C100_violated_overrun`), and
a generator that is not supported (`C100_violated_unsupported`). -/
theorem C100_random_partial (g : Gen) (hg : ∀ k, g.ret k = 1 ∨ g.ret k = 0) (ops : List (Op × (Nat → Bytes))) (hf : ∀ o ∈ ops, Fine o) (s : St) :
    ∃ as s', run g ops s = some (as, s') ∧ AllAnswer ops as ∧ Parts g.byte s.pos s'.pos (as.flatMap pieces) := by
  induction ops generalizing s with
  | nil => exact ⟨[], s, rfl, trivial, .nil (Nat.le_refl _)⟩
  | cons o ops ih =>
    obtain ⟨op, junk⟩ := o
    obtain ⟨a, s1, h1, h2, h3⟩ := step_parts g hg op junk (hf _ (by simp)) s
    obtain ⟨as, s', i1, i2, i3⟩ := ih (fun o ho => hf o (by simp [ho])) s1
    refine ⟨a :: as, s', ?_, ⟨h2, i2⟩, ?_⟩
    · simp only [run, h1, i1]
    · rw [List.flatMap_cons]
      exact h3.append i3

/-- Two pieces of random data are different parts of the generator's output. -/
theorem C100_disjoint (byte : Nat → UInt8) (p q : Nat) (l : List Bytes) (h : Parts byte p q l) (i j : Nat) (hij : i < j) (a b : Bytes) (ha : l[i]? = some a) (hb : l[j]? = some b) :
    ∃ x y, x + a.length ≤ y ∧ (∀ k, k < a.length → a[k]? = some (byte (x + k))) ∧ ∀ k, k < b.length → b[k]? = some (byte (y + k)) := by
  have place : ∀ {p q : Nat} {l : List Bytes}, Parts byte p q l → ∀ (j : Nat) (b : Bytes), l[j]? = some b → ∃ y, p ≤ y ∧ ∀ k, k < b.length → b[k]? = some (byte (y + k)) := by
    intro p q l h
    induction h with
    | nil _ => intro j b hb; simp at hb
    | cons h1 h2 h3 ih =>
      intro j b hb
      cases j with
      | zero => cases hb; exact ⟨_, h1, h2⟩
      | succ j =>
        obtain ⟨y, hy, hk⟩ := ih j b hb
        exact ⟨y, by omega, hk⟩
  induction h generalizing i j with
  | nil _ => simp at ha
  | cons h1 h2 h3 ih =>
    cases j with
    | zero => omega
    | succ j =>
      cases i with
      | zero =>
        cases ha
        obtain ⟨y, hy, hk⟩ := place h3 j b hb
        exact ⟨_, y, hy, h2, hk⟩
      | succ i => exact ih i j (by omega) ha hb

/-! ## Violations -/

theorem int_long (n : Nat) (h : n < 2 ^ 31) : intOfSize (UInt64.ofNat (2 ^ 32 + n)) = n := by
  unfold intOfSize
  have : (UInt64.ofNat (2 ^ 32 + n)).toNat = 2 ^ 32 + n := by rw [UInt64.toNat_ofNat']; omega
  rw [this]
  simp only
  rw [show (2 ^ 32 + n) % 2 ^ 32 = n by omega, if_pos h]

theorem int_neg (n : Nat) (h1 : 2 ^ 31 ≤ n) (h2 : n < 2 ^ 32) : intOfSize (UInt64.ofNat n) < 0 := by
  unfold intOfSize
  have : (UInt64.ofNat n).toNat = n := by rw [UInt64.toNat_ofNat']; omega
  rw [this]
  simp only
  rw [Nat.mod_eq_of_lt h2, if_neg (by omega)]
  omega

/-- **C100 is violated: 4 GiB and more.**  Of a buffer of 4 GiB and `n` bytes only the first `n` bytes are filled, with OK: none of a buffer of 4 GiB. -/
theorem C100_violated_long (g : Gen) (s : St) (hg : g.ret s.calls = 1) (n : Nat) (hn : n < 2 ^ 31) (b : Bytes) (hb : b.length = 2 ^ 32 + n) :
    ∃ s', cryptoRandom g ⟨true, true, none⟩ s (some b) = some (.OK, some (g.part s.pos n ++ b.drop n), s') := by
  unfold cryptoRandom
  rw [if_neg (by simp)]
  simp only
  rw [if_neg (by simp), if_neg (by omega)]
  unfold randBytes
  simp only
  rw [hb, int_long n hn, if_neg (by omega), if_pos hg]
  exact ⟨_, rfl⟩

/-- **C100 is violated: 2 GiB to 4 GiB.**  The count is negative, which OpenSSL 1.1 takes for a large one. -/
theorem C100_violated_overrun (g : Gen) (hg : g.strict = false) (s : St) (b : Bytes) (h1 : 2 ^ 31 ≤ b.length) (h2 : b.length < 2 ^ 32) :
    cryptoRandom g ⟨true, true, none⟩ s (some b) = none := by
  unfold cryptoRandom
  rw [if_neg (by simp)]
  simp only
  rw [if_neg (by simp), if_neg (by omega)]
  unfold randBytes
  simp only
  rw [if_pos (int_neg _ h1 h2), if_neg (by rw [hg]; simp)]

/-- **C100 is violated: a generator that is not supported.**  `RAND_bytes` then returns -1, which is taken for success: the buffer is as it was, with OK, and a generated key is
what was in memory. -/
theorem C100_violated_unsupported (g : Gen) (hg : ∀ k, g.ret k = -1) (s : St) (b : Bytes) (h : b ≠ []) (hb : b.length < 2 ^ 31) (junk : Nat → Bytes) (hj : ∀ n, (junk n).length = n) :
    (∃ s', cryptoRandom g ⟨true, true, none⟩ s (some b) = some (.OK, some b, s')) ∧
    ∃ s', generate g junk s 16 = some (some ⟨some (junk 16), junk 96, junk 16⟩, s') := by
  have hr : ∀ s buf, buf.length < 2 ^ 31 → randBytes g s buf = some (true, buf, ⟨s.calls + 1, s.pos⟩) := by
    intro s buf hl
    unfold randBytes
    simp only
    rw [int_small _ hl, if_neg (by omega), if_neg (by rw [hg]; decide), if_neg (by rw [hg]; decide)]
  constructor
  · unfold cryptoRandom
    rw [if_neg (by simp)]
    simp only
    rw [if_neg (by simp), if_neg (by rw [List.length_eq_zero_iff]; exact h), hr _ _ hb]
    exact ⟨_, rfl⟩
  · unfold generate
    rw [if_neg (by omega), hr _ _ (by rw [hj]; decide)]
    simp only
    unfold store
    rw [hr _ _ (by rw [hj]; decide)]
    simp only
    rw [hr _ _ (by rw [hj]; decide)]
    exact ⟨_, rfl⟩

/-! ## Concrete cases -/

/-- A generator that counts, and fails at its fourth call. -/
def count : Gen := ⟨fun n => UInt8.ofNat n, fun k => if k = 3 then 0 else 1, true⟩
def zeros (n : Nat) : Bytes := List.replicate n 0

example : ∀ k, count.ret k = 1 ∨ count.ret k = 0 := by
  intro k
  unfold count
  simp only
  split <;> simp

def ops0 : List (Op × (Nat → Bytes)) :=
  [(.random ⟨true, true, none⟩ (some [9, 9]), zeros), (.random ⟨true, true, some zeros⟩ (some [9]), zeros), (.random ⟨true, true, none⟩ none, zeros),
    (.random ⟨true, true, none⟩ (some [9, 9, 9]), zeros), (.random ⟨true, true, some zeros⟩ (some [7, 7, 7]), zeros), (.generate 16, zeros), (.generate 15, zeros), (.store, zeros)]

example : ∀ o ∈ ops0, Fine o := by
  have hz : ∀ n, (zeros n).length = n := fun n => List.length_replicate
  intro o ho
  simp only [ops0, List.mem_cons, List.not_mem_nil, or_false] at ho
  rcases ho with rfl | rfl | rfl | rfl | rfl | rfl | rfl | rfl <;>
    first
    | exact ⟨fun o h => by cases h <;> decide, fun j h => by cases h <;> exact hz⟩
    | exact hz

example : (run count ops0 ⟨0, 0⟩).map (fun r => (r.1.take 5, r.2)) =
    some ([.random .OK (some [0, 1]), .random .OK (some [2]), .random .NULL_PARAMETER none, .random .OK (some [3, 4, 5]), .random .INTERNAL_ERROR (some [7, 7, 7])], ⟨9, 246⟩) := by
  decide +kernel

end Sa.Rnd.C100

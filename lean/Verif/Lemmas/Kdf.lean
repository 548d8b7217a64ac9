import Verif.Model.Kdf
import Verif.Model.KdfSpec
import Verif.Lemmas.KeyHistory

/-!
# Key derivation: the loops compute the standards' blocks, and derived keys are in the store
-/

namespace Sa

theorem kdfWrite_some (dst : Bytes) (pos : Nat) (src : Bytes) (h : pos + src.length ≤ dst.length) :
    kdfWrite dst pos src = some (dst.take pos ++ src ++ dst.drop (pos + src.length)) := by
  unfold kdfWrite; rw [if_pos h]

theorem flatten_blocks_length (T : Nat → Bytes) (hl : Nat) (hT : ∀ i, (T (i + 1)).length = hl) (n : Nat) :
    ((List.range n).map fun j => T (j + 1)).flatten.length = hl * n := by
  induction n with
  | zero => simp
  | succ n ih =>
    rw [List.range_succ, List.map_append, List.flatten_append, List.length_append, ih]
    simp [hT, Nat.mul_succ]

theorem expandLoop_spec (T : Nat → Bytes) (ok : Nat → Bool) (hl : Nat) (hT : ∀ i, (T (i + 1)).length = hl)
    (block : Nat → Bytes → Option Bytes)
    (hblock : ∀ i tag, 1 ≤ i → (i = 1 ∨ tag = T (i - 1)) → block i tag = if ok i then some (T i) else none)
    (L r rem : Nat) (hr : if rem > 0 then rem < hl ∧ 1 ≤ r ∧ hl * (r - 1) + rem = L else hl * r = L) (fuel i : Nat) (tag derived : Bytes) (pos : Nat)
    (hfuel : fuel + i = r + 1) (hi : 1 ≤ i) (htag : i = 1 ∨ tag = T (i - 1)) (hlen : derived.length = L)
    (hpos : i ≤ r → pos = hl * (i - 1))
    (hder : derived.take (hl * (i - 1)) = (((List.range (i - 1)).map fun j => T (j + 1)).flatten).take L) :
    (expandLoop block r rem fuel i tag derived pos = some none ∧ ∃ j, ok j = false) ∨
    expandLoop block r rem fuel i tag derived pos = some (some ((((List.range r).map fun j => T (j + 1)).flatten).take L)) := by
  induction fuel generalizing i tag derived pos with
  | zero =>
    right
    have hri : i - 1 = r := by omega
    rw [hri] at hder
    unfold expandLoop
    rw [← hder, List.take_of_length_le]
    rw [hlen]
    by_cases h0 : rem > 0
    · rw [if_pos h0] at hr
      obtain ⟨a, b, c⟩ := hr
      have : hl * r = hl * (r - 1) + hl := by
        obtain ⟨r', rfl⟩ : ∃ r', r = r' + 1 := ⟨r - 1, by omega⟩
        simp [Nat.mul_succ]
      omega
    · rw [if_neg h0] at hr; omega
  | succ fuel ih =>
    unfold expandLoop
    have hir : i ≤ r := by omega
    rw [if_pos hir, hblock i tag hi htag]
    cases hok : ok i with
    | false => left; exact ⟨by simp, i, hok⟩
    | true =>
      simp only [if_true]
      obtain ⟨n, rfl⟩ : ∃ n, i = n + 1 := ⟨i - 1, by omega⟩
      have hp := hpos hir
      simp only [Nat.add_sub_cancel] at hp hder htag
      have hTl := hT n
      have hF := flatten_blocks_length T hl hT n
      generalize hc : (if n + 1 = r ∧ rem > 0 then rem else (T (n + 1)).length) = copy
      have hcl : copy ≤ (T (n + 1)).length ∧ pos + copy ≤ L ∧
          (copy = hl ∨ (n + 1 = r ∧ pos + copy = L ∧ copy ≤ hl)) := by
        rw [← hc]
        by_cases h0 : rem > 0
        · rw [if_pos h0] at hr
          obtain ⟨a, b, c⟩ := hr
          by_cases hn : n + 1 = r
          · rw [if_pos ⟨hn, h0⟩]
            have : r - 1 = n := by omega
            rw [this] at c
            omega
          · rw [if_neg (fun x => hn x.1)]
            have hle : hl * (n + 1) ≤ hl * (r - 1) := Nat.mul_le_mul_left _ (by omega)
            rw [Nat.mul_succ] at hle
            omega
        · rw [if_neg h0] at hr
          rw [if_neg (fun x => h0 x.2)]
          have hle : hl * (n + 1) ≤ hl * r := Nat.mul_le_mul_left _ hir
          rw [Nat.mul_succ] at hle
          omega
      clear hr
      obtain ⟨hc1, hc2, hc3⟩ := hcl
      rw [if_neg (by omega)]
      have hsl : ((T (n + 1)).take copy).length = copy := by rw [List.length_take]; omega
      rw [kdfWrite_some _ _ _ (by rw [hsl]; omega)]
      simp only
      have hdlen : (derived.take pos ++ (T (n + 1)).take copy ++ derived.drop (pos + ((T (n + 1)).take copy).length)).length = L := by
        simp only [List.length_append, List.length_take, List.length_drop]; omega
      have hdF : derived.take pos = ((List.range n).map fun j => T (j + 1)).flatten := by
        rw [hp, hder, List.take_of_length_le]
        rw [hF]; omega
      refine ih (n + 2) (T (n + 1)) _ (pos + copy) (by omega) (by omega) (Or.inr (by simp)) hdlen ?_ ?_
      · intro hnr
        rcases hc3 with h | ⟨h, _⟩
        · show pos + copy = hl * (n + 1); rw [Nat.mul_succ]; omega
        · omega
      · show List.take (hl * (n + 1)) _ = List.take L (((List.range (n + 1)).map fun j => T (j + 1)).flatten)
        rw [List.range_succ, List.map_append, List.flatten_append]
        simp only [List.map_cons, List.map_nil, List.flatten_cons, List.flatten_nil, List.append_nil]
        rw [hdF, hsl, Nat.mul_succ]
        have hpl : ((List.range n).map fun j => T (j + 1)).flatten.length = pos := by rw [hF, hp]
        rw [← hp]
        generalize ((List.range n).map fun j => T (j + 1)).flatten = F at *
        rcases hc3 with h | ⟨_, h, h'⟩
        · subst h
          rw [List.take_left' (by simp; omega), List.take_of_length_le (l := F ++ T (n + 1)) (by simp; omega),
            List.take_of_length_le (l := T (n + 1)) (by omega)]
        · rw [List.drop_eq_nil_of_le (by omega), List.append_nil, List.take_of_length_le (by simp; omega), ← h]
          rw [List.take_append, List.take_of_length_le (l := F) (by omega)]
          congr 2; omega

/-- The number of blocks and the remainder, for the digests there are. -/
theorem blocks_facts (d n L : Nat) (hd : digestLength d = some n) :
    blockCount L n = blocksFor L n ∧
    (if L % n > 0 then L % n < n ∧ 1 ≤ blockCount L n ∧ n * (blockCount L n - 1) + L % n = L else n * blockCount L n = L) ∧
    (L ≤ 512 → blockCount L n ≤ 26) ∧ n ≤ 64 := by
  have hn : n = 20 ∨ n = 32 ∨ n = 48 ∨ n = 64 := by
    unfold digestLength at hd
    split at hd <;> simp at hd <;> omega
  unfold blockCount blocksFor
  rcases hn with rfl | rfl | rfl | rfl
  all_goals
    refine ⟨?_, ?_, ?_, by omega⟩
    · split <;> omega
    · split
      · rename_i h; rw [if_pos (by omega)]; omega
      · rename_i h; rw [if_neg (by omega)]; omega
    · intro _; split <;> omega

/-- What each derivation function gives: failure, or the stored key made from the standard's bytes. -/
theorem kdfHkdf_spec (env : Env) (k : KdfEnv) (hk : k.prims.Good) (rights : Rights) (L d n : Nat) (hd : digestLength d = some n) (hL : L ≤ 512)
    (salt info : Option Bytes) (parent : StoredKey) :
    ((∃ s, s ≠ Status.OK ∧ kdfHkdf env k rights L d salt info parent = some (s, none)) ∧ ¬ (k.allocOk = true ∧ ∀ i, k.ok i = true)) ∨
    kdfHkdf env k rights L d salt info parent =
      some (kdfFinish env rights parent.header.rights L (hkdfSpec (k.prims.hmac d) n salt parent.key (info.getD []) L)) := by
  obtain ⟨hb, hr, h26, _⟩ := blocks_facts d n L hd
  unfold kdfHkdf
  rw [hd]
  simp only
  cases ha : k.allocOk with
  | false => left; exact ⟨⟨_, by simp, rfl⟩, by simp⟩
  | true =>
    cases h0 : k.ok 0 with
    | false => left; exact ⟨⟨_, by simp, rfl⟩, fun x => by have := x.2 0; rw [h0] at this; simp at this⟩
    | true =>
      simp only [Bool.not_true, Bool.false_eq_true, if_false]
      rw [if_neg (by have := h26 hL; omega)]
      have hprk : k.prims.hmac d (salt.getD [0]) parent.key = k.prims.hmac d (salt.getD (List.replicate n 0)) parent.key := by
        cases salt with
        | none => exact hk.hmacPad d n _ hd
        | some s => rfl
      rw [hprk]
      generalize hprk' : k.prims.hmac d (salt.getD (List.replicate n 0)) parent.key = prk
      rcases expandLoop_spec (fun i => hkdfT (k.prims.hmac d) prk (info.getD []) i) k.ok n (fun i => hk.hmacLen d n _ _ hd)
        (fun i tag => if k.ok i = true then
            some (k.prims.hmac d prk ((if i = 1 then [] else tag) ++ info.getD [] ++ [UInt8.ofNat i])) else none)
        (by
          intro i tag hi ht
          obtain ⟨m, rfl⟩ : ∃ m, i = m + 1 := ⟨i - 1, by omega⟩
          simp only [hkdfT]
          by_cases hm : m = 0
          · subst hm; simp [hkdfT]
          · rcases ht with h | h
            · omega
            · simp only [Nat.add_sub_cancel] at h
              have hm1 : ¬ (m + 1 = 1) := by omega
              simp only [h, if_neg hm1])
        L _ _ hr _ 1 [] ((List.range L).map k.garbage) 0 rfl (by omega) (Or.inl rfl) (by simp) (by simp) (by simp) with ⟨h, j, hj⟩ | h
      · left
        rw [h]
        exact ⟨⟨_, by simp, rfl⟩, fun x => by have := x.2 j; rw [hj] at this; simp at this⟩
      · right
        rw [h]
        simp only [hkdfSpec, hb, hprk']

theorem be32_small (i : Nat) (h : i ≤ 255) : be32 i = [0, 0, 0, UInt8.ofNat i] := by
  unfold be32
  have a : i / 2 ^ 24 = 0 := by omega
  have b : i / 2 ^ 16 = 0 := by omega
  have c : i / 2 ^ 8 = 0 := by omega
  rw [a, b, c]; rfl

theorem flatten_blocks_congr (T T' : Nat → Bytes) (r : Nat) (h : ∀ i, i < r → T i = T' i) :
    ((List.range r).map T).flatten = ((List.range r).map T').flatten := by
  congr 1
  apply List.map_congr_left
  intro a ha
  exact h a (List.mem_range.mp ha)

theorem kdfConcat_spec (env : Env) (k : KdfEnv) (hk : k.prims.Good) (rights : Rights) (L d n : Nat) (hd : digestLength d = some n) (hL : L ≤ 512)
    (info : Option Bytes) (parent : StoredKey) :
    ((∃ s, s ≠ Status.OK ∧ kdfConcat env k rights L d info parent = some (s, none)) ∧ ¬ (k.allocOk = true ∧ ∀ i, k.ok i = true)) ∨
    kdfConcat env k rights L d info parent =
      some (kdfFinish env rights parent.header.rights L (concatSpec (k.prims.hash d) n parent.key (info.getD []) L)) := by
  obtain ⟨hb, hr, h26, _⟩ := blocks_facts d n L hd
  unfold kdfConcat
  rw [hd]
  simp only
  cases ha : k.allocOk with
  | false => left; exact ⟨⟨_, by simp, rfl⟩, by simp⟩
  | true =>
    simp only [Bool.not_true, Bool.false_eq_true, if_false]
    have h26 := h26 hL
    rw [if_neg (by omega)]
    rcases expandLoop_spec (fun i => k.prims.hash d ([0, 0, 0, UInt8.ofNat i] ++ parent.key ++ info.getD [])) k.ok n
      (fun i => hk.hashLen d n _ hd) _ (fun i tag _ _ => rfl)
      L _ _ hr _ 1 [] ((List.range L).map k.garbage) 0 rfl (by omega) (Or.inl rfl) (by simp) (by simp) (by simp) with ⟨h, j, hj⟩ | h
    · left
      rw [h]
      exact ⟨⟨_, by simp, rfl⟩, fun x => by have := x.2 j; rw [hj] at this; simp at this⟩
    · right
      rw [h]
      simp only [concatSpec, ← hb]
      rw [flatten_blocks_congr]
      intro i hi
      rw [be32_small _ (by omega)]

theorem kdfX963_spec (env : Env) (k : KdfEnv) (hk : k.prims.Good) (rights : Rights) (L d n : Nat) (hd : digestLength d = some n) (hL : L ≤ 512)
    (info : Option Bytes) (parent : StoredKey) :
    ((∃ s, s ≠ Status.OK ∧ kdfX963 env k rights L d info parent = some (s, none)) ∧ ¬ (k.allocOk = true ∧ ∀ i, k.ok i = true)) ∨
    kdfX963 env k rights L d info parent =
      some (kdfFinish env rights parent.header.rights L (x963Spec (k.prims.hash d) n parent.key (info.getD []) L)) := by
  obtain ⟨hb, hr, h26, _⟩ := blocks_facts d n L hd
  unfold kdfX963
  rw [hd]
  simp only
  cases ha : k.allocOk with
  | false => left; exact ⟨⟨_, by simp, rfl⟩, by simp⟩
  | true =>
    simp only [Bool.not_true, Bool.false_eq_true, if_false]
    have h26 := h26 hL
    rw [if_neg (by omega)]
    rcases expandLoop_spec (fun i => k.prims.hash d (parent.key ++ [0, 0, 0, UInt8.ofNat i] ++ info.getD [])) k.ok n
      (fun i => hk.hashLen d n _ hd) _ (fun i tag _ _ => rfl)
      L _ _ hr _ 1 [] ((List.range L).map k.garbage) 0 rfl (by omega) (Or.inl rfl) (by simp) (by simp) (by simp) with ⟨h, j, hj⟩ | h
    · left
      rw [h]
      exact ⟨⟨_, by simp, rfl⟩, fun x => by have := x.2 j; rw [hj] at this; simp at this⟩
    · right
      rw [h]
      simp only [x963Spec, ← hb]
      rw [flatten_blocks_congr]
      intro i hi
      rw [be32_small _ (by omega)]

theorem cmacLoop_spec (k : KdfEnv) (hk : k.prims.Good) (key other : Bytes) (f : Bytes) (hf : f.length = 64) :
    (cmacLoop k key other 4 1 f = some none ∧ ∃ j, k.ok j = false) ∨
    cmacLoop k key other 4 1 f = some (some (k.prims.cmac key ([1] ++ other) ++ k.prims.cmac key ([2] ++ other) ++
      k.prims.cmac key ([3] ++ other) ++ k.prims.cmac key ([4] ++ other))) := by
  have e1 : UInt8.ofNat 1 = 1 := rfl
  have e2 : UInt8.ofNat 2 = 2 := rfl
  have e3 : UInt8.ofNat 3 = 3 := rfl
  have e4 : UInt8.ofNat 4 = 4 := rfl
  have l1 := hk.cmacLen key ([1] ++ other)
  have l2 := hk.cmacLen key ([2] ++ other)
  have l3 := hk.cmacLen key ([3] ++ other)
  have l4 := hk.cmacLen key ([4] ++ other)
  cases h1 : k.ok 1 with
  | false => left; exact ⟨by simp [cmacLoop, h1], 1, h1⟩
  | true =>
    unfold cmacLoop
    rw [if_pos (by omega), h1, e1, kdfWrite_some _ _ _ (by omega)]
    simp only [Bool.not_true, Bool.false_eq_true, if_false]
    cases h2 : k.ok 2 with
    | false => left; exact ⟨by simp [cmacLoop, h2], 2, h2⟩
    | true =>
      unfold cmacLoop
      rw [if_pos (by omega), h2, e2, kdfWrite_some _ _ _ (by simp only [List.length_append, List.length_take, List.length_drop, l1, l2, hf]; omega)]
      simp only [Bool.not_true, Bool.false_eq_true, if_false]
      cases h3 : k.ok 3 with
      | false => left; exact ⟨by simp [cmacLoop, h3], 3, h3⟩
      | true =>
        unfold cmacLoop
        rw [if_pos (by omega), h3, e3, kdfWrite_some _ _ _ (by simp only [List.length_append, List.length_take, List.length_drop, l1, l2, l3, hf]; omega)]
        simp only [Bool.not_true, Bool.false_eq_true, if_false]
        cases h4 : k.ok 4 with
        | false => left; exact ⟨by simp [cmacLoop, h4], 4, h4⟩
        | true =>
          right
          unfold cmacLoop
          rw [if_pos (by omega), h4, e4, kdfWrite_some _ _ _ (by simp only [List.length_append, List.length_take, List.length_drop, l1, l2, l3, l4, hf]; omega)]
          simp only [Bool.not_true, Bool.false_eq_true, if_false, cmacLoop]
          generalize k.prims.cmac key ([1] ++ other) = c1 at *
          generalize k.prims.cmac key ([2] ++ other) = c2 at *
          generalize k.prims.cmac key ([3] ++ other) = c3 at *
          generalize k.prims.cmac key ([4] ++ other) = c4 at *
          simp [List.take_append, List.drop_append, l1, l2, l3, l4, hf, List.take_of_length_le, List.drop_eq_nil_of_le]

theorem slice4 (b1 b2 b3 b4 : Bytes) (l1 : b1.length = 16) (l2 : b2.length = 16) (l3 : b3.length = 16) (l4 : b4.length = 16) (c m : Nat)
    (hc : 1 ≤ c) (hm : c + m ≤ 5) :
    ((b1 ++ b2 ++ b3 ++ b4).drop ((c - 1) * 16)).take (16 * m) = (([b1, b2, b3, b4].drop (c - 1)).take m).flatten := by
  have : c = 1 ∨ c = 2 ∨ c = 3 ∨ c = 4 ∨ c = 5 := by omega
  have hm' : m = 0 ∨ m = 1 ∨ m = 2 ∨ m = 3 ∨ m = 4 := by omega
  rcases this with rfl | rfl | rfl | rfl | rfl <;> rcases hm' with rfl | rfl | rfl | rfl | rfl <;>
    first
    | omega
    | simp [List.take_append, List.drop_append, l1, l2, l3, l4, List.take_of_length_le, List.drop_eq_nil_of_le]

theorem kdfCmac_spec (env : Env) (k : KdfEnv) (hk : k.prims.Good) (rights : Rights) (L c : Nat) (hL : L % 16 = 0) (hc : 1 ≤ c) (hc4 : c ≤ 4)
    (hLc : L / 16 ≤ 5 - c) (other : Option Bytes) (parent : StoredKey) :
    ((∃ s, s ≠ Status.OK ∧ kdfCmac env k rights L c other parent = some (s, none)) ∧
      ¬ ((k.allocOk = true ∧ ∀ i, k.ok i = true) ∧ (parent.key.length = 16 ∨ parent.key.length = 32))) ∨
    kdfCmac env k rights L c other parent =
      some (kdfFinish env rights parent.header.rights L (cmacSpec (k.prims.cmac parent.key) (other.getD []) c L)) := by
  unfold kdfCmac
  rw [if_neg (by omega), if_neg (by omega), if_neg (by omega)]
  cases ha : k.allocOk with
  | false => left; exact ⟨⟨_, by simp, rfl⟩, by simp⟩
  | true =>
    simp only [Bool.not_true, Bool.false_eq_true, if_false]
    by_cases hpl : parent.key.length = 16 ∨ parent.key.length = 32
    · rw [if_neg (fun x => x hpl)]
      rcases cmacLoop_spec k hk parent.key (other.getD []) ((List.range 64).map k.garbage) (by simp) with ⟨h, j, hj⟩ | h
      · left
        rw [h]
        exact ⟨⟨_, by simp, rfl⟩, fun x => by have := x.1.2 j; rw [hj] at this; simp at this⟩
      · right
        rw [h]
        simp only
        have l1 := hk.cmacLen parent.key ([1] ++ other.getD [])
        have l2 := hk.cmacLen parent.key ([2] ++ other.getD [])
        have l3 := hk.cmacLen parent.key ([3] ++ other.getD [])
        have l4 := hk.cmacLen parent.key ([4] ++ other.getD [])
        obtain ⟨m, rfl⟩ : ∃ m, L = 16 * m := ⟨L / 16, by omega⟩
        have hm : 16 * m / 16 = m := by omega
        rw [hm] at hLc
        have hspec : cmacSpec (k.prims.cmac parent.key) (other.getD []) c (16 * m) =
            (([k.prims.cmac parent.key ([1] ++ other.getD []), k.prims.cmac parent.key ([2] ++ other.getD []),
              k.prims.cmac parent.key ([3] ++ other.getD []), k.prims.cmac parent.key ([4] ++ other.getD [])].drop (c - 1)).take m).flatten := by
          unfold cmacSpec
          rw [hm]
          have hc' : c = 1 ∨ c = 2 ∨ c = 3 ∨ c = 4 := by omega
          have hm' : m = 0 ∨ m = 1 ∨ m = 2 ∨ m = 3 ∨ m = 4 := by omega
          rcases hc' with rfl | rfl | rfl | rfl <;> rcases hm' with rfl | rfl | rfl | rfl | rfl <;> first | omega | rfl
        rw [hspec]
        generalize k.prims.cmac parent.key ([1] ++ other.getD []) = b1 at *
        generalize k.prims.cmac parent.key ([2] ++ other.getD []) = b2 at *
        generalize k.prims.cmac parent.key ([3] ++ other.getD []) = b3 at *
        generalize k.prims.cmac parent.key ([4] ++ other.getD []) = b4 at *
        have hlen : (b1 ++ b2 ++ b3 ++ b4).length = 64 := by simp [l1, l2, l3, l4]
        rw [if_neg (by rw [hlen]; omega)]
        have hsl : (((b1 ++ b2 ++ b3 ++ b4).drop ((c - 1) * 16)).take (16 * m)).length = 16 * m := by
          rw [List.length_take, List.length_drop, hlen]; omega
        rw [kdfWrite_some _ _ _ (by rw [hsl]; simp), hsl, slice4 b1 b2 b3 b4 l1 l2 l3 l4 c m hc (by omega)]
        simp only [List.take_zero, List.nil_append]
        rw [List.drop_eq_nil_of_le (as := List.map k.garbage (List.range (16 * m))) (by simp), List.append_nil]
    · rw [if_pos hpl]
      left; exact ⟨⟨_, by simp, rfl⟩, fun x => hpl x.2⟩

end Sa

import Verif.Lemmas.Pad

/-!
# C17: padding round-trips and malformed padding is rejected
-/

namespace Sa.C17

/-- **C17 (acceptance).**  For every 16 byte block, the check never reads outside the block, reports the last byte `n` as pad value,
and accepts exactly if `1 ≤ n ≤ 16` and the last `n` bytes of the block all equal `n`. -/
theorem C17_accepts_iff (block : Bytes) (h : block.length = 16) :
    ∃ ok, padCheckPkcs7 block = some (ok, block[15]) ∧
      (ok = true ↔ ∃ n, 1 ≤ n ∧ n ≤ 16 ∧ (block.drop (16 - n)) = List.replicate n (UInt8.ofNat n) ∧ block[15].toNat = n) := by
  obtain ⟨v, b, h15, hp, hb⟩ := padCheckPkcs7_spec block (by omega)
  have hv : block[15] = v := by
    rw [List.getElem?_eq_getElem (by omega)] at h15; simpa using h15
  refine ⟨b, by rw [hv]; exact hp, hb.trans ?_⟩
  constructor
  · rintro ⟨h1, h2, hall⟩
    refine ⟨v.toNat, h1, h2, ?_, by rw [hv]⟩
    apply List.ext_getElem?
    intro k
    rw [List.getElem?_drop, List.getElem?_replicate]
    by_cases hk : k < v.toNat
    · rw [if_pos hk, hall _ (by omega) (by omega)]; simp
    · rw [if_neg hk, List.getElem?_eq_none (by omega)]
  · rintro ⟨n, h1, h2, hd, hn⟩
    rw [hv] at hn
    subst hn
    refine ⟨h1, h2, ?_⟩
    intro k hk1 hk2
    have := congrArg (·[k - (16 - v.toNat)]?) hd
    simp only [List.getElem?_drop, List.getElem?_replicate] at this
    rw [if_pos (by omega), show 16 - v.toNat + (k - (16 - v.toNat)) = k by omega] at this
    rw [this]; simp

/-- **C17 (round trip).**  Padding any block with any legal pad length `n` keeps its first `16 - n` bytes, and the check of the
result accepts and returns exactly `n`. -/
theorem C17_round_trip (block : Bytes) (h : block.length = 16) (n : UInt8) (h1 : 1 ≤ n.toNat) (h2 : n.toNat ≤ 16) :
    ∃ padded, padApplyPkcs7 block n = some padded ∧ padded.length = 16 ∧
      padded.take (16 - n.toNat) = block.take (16 - n.toNat) ∧ padCheckPkcs7 padded = some (true, n) := by
  refine ⟨_, padApplyPkcs7_spec block h n ⟨h1, h2⟩, ?_, ?_, ?_⟩
  · simp; omega
  · rw [List.take_append_of_le_length (by rw [List.length_take]; omega), List.take_take, Nat.min_self]
  · have hl : (block.take (16 - n.toNat) ++ List.replicate n.toNat n).length = 16 := by simp; omega
    have hg : ∀ k, 16 - n.toNat ≤ k → k < 16 →
        (block.take (16 - n.toNat) ++ List.replicate n.toNat n)[k]? = some n := by
      intro k hk1 hk2
      rw [List.getElem?_append_right (by simp; omega), List.getElem?_replicate, if_pos (by simp; omega)]
    obtain ⟨v, b, h15, hp, hb⟩ := padCheckPkcs7_spec _ (Nat.le_of_eq hl.symm)
    rw [hg 15 (by omega) (by omega)] at h15
    have : v = n := by simpa using h15.symm
    subst this
    rw [hp, hb.mpr ⟨h1, h2, hg⟩]

/-- Illegal pad lengths are refused. -/
theorem C17_apply_refuses (block : Bytes) (n : UInt8) (h : n.toNat = 0 ∨ 16 < n.toNat) : padApplyPkcs7 block n = none := by
  unfold padApplyPkcs7
  rw [if_pos ((u8_range n).mpr (by omega))]

/-- Non-trivial cases: a block padded with three bytes, and one with a wrong byte in the padding. -/
example : padCheckPkcs7 [1,2,3,4,5,6,7,8,9,10,11,12,13,3,3,3] = some (true, 3) := by decide
example : padCheckPkcs7 [1,2,3,4,5,6,7,8,9,10,11,12,13,3,4,3] = some (false, 3) := by decide
example : padApplyPkcs7 [1,2,3,4,5,6,7,8,9,10,11,12,13,14,15,16] 3 = some [1,2,3,4,5,6,7,8,9,10,11,12,13,3,3,3] := by decide

end Sa.C17

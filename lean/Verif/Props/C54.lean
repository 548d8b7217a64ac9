import Verif.Props.C53

/-!
# C54: unwrapping stays inside its buffers
-/

namespace Sa.C54

/-- **C54 (partial).**  No call of unwrap accesses memory out of bounds, unless it uses PKCS#7 padding with an empty input (see
`C54_violated`). -/
theorem C54_in_bounds_partial (env : Env) (hp : env.prims.Good) (u : UnwrapEnv) (hu : u.prims.Good) (st : KeyStore) (hr : KsReachable env.prims st)
    (t : UnwrapTarget) (params : UnwrapParams) (wrapping : Nat) (input : Bytes) (caller : Uuid) (hl : input.length + 16 < 2 ^ 64)
    (hb : ((∃ p, params = .cbc true p) ∨ params = .ecb true) → input ≠ []) :
    keyUnwrapOp env u st t params wrapping input caller ≠ none := by
  have hb : params.HasBlock input := by
    unfold UnwrapParams.HasBlock
    split
    · exact hb (Or.inr rfl)
    · exact hb (Or.inl ⟨_, rfl⟩)
    · exact trivial
  obtain ⟨st', s, h, he, _⟩ := keyUnwrapOp_cases env hp u hu st hr t params wrapping input caller hl hb
  rw [he]; simp

/-- **C54, empty input.**  With padding and an empty input the padding check reads the block before the start of the buffer
(unwrap.c:163-168 and 254-259). -/
theorem C54_violated : ∃ st, C29.stP = some st ∧ KsReachable C08.toy st ∧
    keyUnwrapOp C08.env0 C53.uenv st C53.sym (.ecb true) 31 [] C08.u7 = none ∧
    keyUnwrapOp C08.env0 C53.uenv st C53.sym (.cbc true (some (some (List.replicate 16 0)))) 31 [] C08.u7 = none := by
  obtain ⟨st, wk, h0, hre, hu, hal, hs, hk, hsz, hfree⟩ := C53.stP_unwraps
  have haes : keyTypeSupportsAes wk.header.type.toNat wk.header.size.toNat = true := by rw [hs, hsz]; decide
  refine ⟨st, h0, hre, ?_, ?_⟩
  · simp only [keyUnwrapOp]
    rw [if_neg (by simp)]
    unfold withKey
    rw [hu]
    simp only
    unfold unwrapGate
    rw [if_neg (by simp [hal]), if_neg (by simp [haes])]
    have : unwrapAesEcb C08.env0 C53.uenv C53.sym true [] wk = none := by
      unfold unwrapAesEcb
      rw [if_neg (by decide), if_neg (by simp [blocksAndKeyOk, hk]), if_neg (by decide)]
      rfl
    rw [this]
  · simp only [keyUnwrapOp]
    rw [if_neg (by simp [fixedBuf]), if_neg (by simp)]
    unfold withKey
    rw [hu]
    simp only
    unfold unwrapGate
    rw [if_neg (by simp [hal]), if_neg (by simp [haes])]
    have : unwrapAesCbc C08.env0 C53.uenv C53.sym true (List.replicate 16 0) [] wk = none := by
      unfold unwrapAesCbc
      rw [if_neg (by decide), if_neg (by simp [blocksAndKeyOk, hk]), if_neg (by decide)]
      rfl
    simp only [Option.getD_some]
    rw [this]

/-- Non-trivial case of the partial theorem: a padded key of two blocks. -/
example (st : KeyStore) (hr : KsReachable C08.toy st) :
    keyUnwrapOp C08.env0 C53.uenv st C53.sym (.ecb true) 31 (List.replicate 32 1) C08.u7 ≠ none :=
  C54_in_bounds_partial C08.env0 C08.toy_good C53.uenv C53.toyU_good st hr C53.sym (.ecb true) 31 (List.replicate 32 1) C08.u7 (by simp) (by simp)

end Sa.C54

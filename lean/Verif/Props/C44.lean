import Verif.Props.C53

/-!
# C44: authentication tags of wrapped keys

The property asks for a full tag of 16 bytes.  ChaCha20-Poly1305 does; AES-GCM accepts any tag of 1 to 16 bytes.
-/

namespace Sa.C44

/-- The tag given with the parameters, and the true one. -/
def GivenTag (u : UnwrapPrims) (wk : StoredKey) (params : UnwrapParams) (input : Bytes) (given full : Bytes) : Prop :=
  match params with
  | .gcm (some (some iv, aad, some tag)) => given = tag ∧ full = u.gcmTag wk.key iv (aad.get.getD []) input
  | .poly (some (some nonce, aad, some tag)) => given = tag ∧ full = u.polyTag wk.key nonce (aad.get.getD []) input
  | _ => False

/-- **C44 (partial).**  A key wrapped with AES-GCM or ChaCha20-Poly1305 is accepted only if a non-empty tag was given that agrees with the
true tag on all its bytes; for ChaCha20-Poly1305 it is the whole tag.  Missing: AES-GCM should also demand the whole tag (see
`C44_violated`); SoC containers are in C60. -/
theorem C44_tag_partial (env : Env) (hp : env.prims.Good) (u : UnwrapEnv) (hu : u.prims.Good) (st : KeyStore) (hr : KsReachable env.prims st)
    (t : UnwrapTarget) (params : UnwrapParams) (hq : (∃ p, params = .gcm p) ∨ (∃ p, params = .poly p)) (wrapping : Nat) (input : Bytes) (caller : Uuid)
    (hl : input.length + 16 < 2 ^ 64) (st' : KeyStore) (h : Nat)
    (hop : keyUnwrapOp env u st t params wrapping input caller = some (st', .OK, h)) :
    ∃ wk given full, KeyHeld env.prims st wrapping caller wk ∧ GivenTag u.prims wk params input given full ∧ 1 ≤ given.length ∧ given <+: full ∧
      ((∃ p, params = .poly p) ∨ given.length = 16 → given = full) := by
  have hb : params.HasBlock input := by
    rcases hq with ⟨p, rfl⟩ | ⟨p, rfl⟩ <;> exact trivial
  obtain ⟨st2, s, h2, he, _, hc⟩ := keyUnwrapOp_cases env hp u hu st hr t params wrapping input caller hl hb
  rw [hop] at he
  simp only [Option.some.injEq, Prod.mk.injEq] at he
  obtain ⟨rfl, rfl, rfl⟩ := he
  rcases hc with ⟨hs, _⟩ | ⟨_, wk, d, h1, _, _, _, hclear, _⟩
  · exact absurd rfl hs
  rcases hq with ⟨p, rfl⟩ | ⟨p, rfl⟩
  · match p, hclear with
    | some (some iv, aad, some tag), hclear =>
      simp only [UnwrapClear] at hclear
      refine ⟨wk, tag, _, h1, ⟨rfl, rfl⟩, hclear.2.1, hclear.2.2, ?_⟩
      rintro (⟨p, h⟩ | h)
      · simp at h
      · exact hclear.2.2.eq_of_length (by rw [h, hu.gcmTagLen])
  · match p, hclear with
    | some (some iv, aad, some tag), hclear =>
      simp only [UnwrapClear] at hclear
      refine ⟨wk, tag, _, h1, ⟨rfl, rfl⟩, ?_, ?_, fun _ => hclear.2⟩
      · rw [hclear.2, hu.polyTagLen]; omega
      · rw [hclear.2]; exact List.prefix_rfl

/-- **C44, AES-GCM with one byte.**  A key is accepted whose tag has a single byte: 255 of 256 forged inputs are refused, not all. -/
theorem C44_violated : ∃ st st' h wk, C29.stP = some st ∧ KsReachable C08.toy st ∧ KeyHeld C08.toy st 31 C08.u7 wk ∧
    keyUnwrapOp C08.env0 C53.uenv st C53.sym
      (.gcm (some (some (List.replicate 12 3), .null, some [(C53.toyU.gcmTag wk.key (List.replicate 12 3) [] (List.replicate 16 9)).headD 0]))) 31
      (List.replicate 16 9) C08.u7 = some (st', .OK, h) := by
  obtain ⟨st, wk, h0, hre, hu, hal, hs, hk, hsz, hfree⟩ := C53.stP_unwraps
  obtain ⟨st', h, he⟩ := C53.C53_complete C08.env0 C08.toy_good (fun _ => rfl) C53.uenv C53.toyU_good ⟨rfl, rfl⟩ st hre C53.sym (by decide +kernel) rfl
    (.gcm (some (some (List.replicate 12 3), .null, some [(C53.toyU.gcmTag wk.key (List.replicate 12 3) [] (List.replicate 16 9)).headD 0])))
    31 (List.replicate 16 9) C08.u7 (by simp [UnwrapAcceptable]) wk hu ⟨hs, Or.inl hsz⟩ hal
    (Or.inl (by rw [hk, hsz]; rfl)) (List.replicate 16 17) (by simp)
    (by simp only [UnwrapClear]; rw [hk]; decide) trivial hfree
  have hh : KeyHeld C08.toy st 31 C08.u7 wk := by
    rcases unwrap_holds C08.env0 C08.toy_good st (ksReachable_inv _ C08.toy_good st hre) 31 C08.u7 with ⟨s, hx, hy⟩ | ⟨k, hy, hh, _⟩
    · rw [hu] at hy; simp only [Option.some.injEq, Prod.mk.injEq, true_and] at hy; exact absurd hy.1.symm hx
    · rw [hu] at hy; simp only [Option.some.injEq, Prod.mk.injEq, true_and] at hy; rw [hy]; exact hh
  exact ⟨st, st', h, wk, h0, hre, hh, he⟩

end Sa.C44

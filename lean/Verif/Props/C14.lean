import Verif.Props.C13

/-!
# C14: exported containers are tamper evident and parsed within bounds
-/

namespace Sa.C14

/-- The three ladder constants of the integrity key (key_store.c:52-60). -/
def ladder1 : Bytes := [0xe5, 0x46, 0xb9, 0x91, 0xb5, 0x2c, 0x79, 0xf8, 0xab, 0x9f, 0x34, 0xb8, 0x85, 0x9a, 0xec, 0x19]
def ladder2 : Bytes := [0x77, 0x48, 0xbf, 0xc6, 0x21, 0x6d, 0x89, 0x19, 0x7c, 0x51, 0xc9, 0xaf, 0x52, 0xe3, 0xed, 0x2a]
def ladder3 : Bytes := [0x11, 0x5b, 0xb8, 0xf6, 0x1a, 0xe1, 0xbe, 0x28, 0x03, 0xb1, 0x98, 0x4a, 0xde, 0xff, 0x57, 0x08]

/-- The integrity key of a container: three decryptions starting from the root key of the device, the last one of the third constant xored with
the mixin, which is the first 16 bytes of the container. -/
def macKey (p : Prims) (container : Bytes) : Bytes :=
  p.aesDec (p.aesDec (p.aesDec p.rootKey ladder1) ladder2) (List.zipWith (· ^^^ ·) ladder3 (container.take 16))

theorem macKey_eq (p : Prims) (b : Bytes) (h : 16 ≤ b.length) :
    macKey p b = otpHwKeyLadder p p.rootKey (mixedInputs (takeVec 16 b).1).integrityKeyInputs := by
  unfold macKey otpHwKeyLadder mixedInputs
  simp only [Vector.toList_zipWith, takeVec_toList b h]
  rfl

theorem split3 (bs : Bytes) (a b c d n : Nat) (h : n = a + b + c + d) :
    (bs.take n).drop a = (bs.drop a).take b ++ (bs.drop (a + b)).take c ++ (bs.drop (a + b + c)).take d := by
  subst h
  rw [List.drop_take, show a + b + c + d - a = b + (c + d) by omega, List.take_add, List.drop_drop,
    List.take_add, List.drop_drop, List.append_assoc]

/-- **C14 (bounds).**  Importing never reads outside the supplied bytes, for every byte string that fits in memory and every
embedded length field, and on every path reports a status. -/
theorem C14_in_bounds (env : Env) (hp : env.prims.Good) (st : KeyStore) (bytes : Bytes) (hb : bytes.length < 2 ^ 64)
    (caller : Uuid) : ∃ r, keyStoreImportExported env st bytes caller = some r := by
  rcases importExported_spec env hp st bytes hb caller with ⟨r, h, _⟩ | ⟨sk, h, _⟩
  · exact ⟨r, h⟩
  · exact ⟨_, h⟩

/-- **C14 (tag).**  If an import succeeds, the last 32 bytes are the HMAC of *all* bytes between the mixin and the tag: header,
parameters and ciphertext, as they are in the supplied bytes. -/
theorem C14_tag_checked (env : Env) (hp : env.prims.Good) (st : KeyStore) (bytes : Bytes) (hb : bytes.length < 2 ^ 64)
    (caller : Uuid) (st' : KeyStore) (h : Nat) (hi : keyStoreImportExported env st bytes caller = some (st', .OK, h)) :
    1760 ≤ bytes.length ∧
    bytes.drop (bytes.length - 32) =
      env.prims.hmac256 (macKey env.prims bytes) ((bytes.take (bytes.length - 32)).drop 16) := by
  rcases importExported_spec env hp st bytes hb caller with ⟨r, h1, h2⟩ | ⟨sk, h1, _, _, hl, hun, _, _, _, _, _, hmac⟩
  · rw [h1, h2] at hi; simp at hi
  · have h16 : 16 ≤ contLength bytes := by
      obtain ⟨r, hr, hprop⟩ := keyUnwrap_safe env hp (mixedInputs (takeVec 16 bytes).1) (decodeHeader (bytes.drop 16))
        (decodeCipherParameters (bytes.drop 1688)) (bytes.drop 1712) (bytes.drop (1712 + contLength bytes))
        (by show contLength bytes ≤ _; rw [List.length_drop]; omega) (by rw [List.length_drop]; omega)
      rw [hun] at hr
      simp only [Option.some.injEq] at hr
      exact (hprop sk hr.symm).1
    refine ⟨by omega, ?_⟩
    have e1 : contSignature bytes = bytes.drop (bytes.length - 32) := by
      unfold contSignature
      rw [List.take_of_length_le (by rw [List.length_drop]; omega), show 1712 + contLength bytes = bytes.length - 32 by omega]
    rw [← e1, hmac]
    have e2 := split3 bytes 16 1672 24 (contLength bytes) (bytes.length - 32) (by omega)
    rw [macKey_eq env.prims bytes (by omega), e2]; rfl

/-- **C14 (tamper evidence).**  Two different containers with the same mixin and the same tag can both be accepted only if the MAC
collides on them: changing any header, parameter or ciphertext byte of an accepted container without a collision is rejected. -/
theorem C14_tamper_evident (env env' : Env) (hp : env.prims.Good) (he : env'.prims = env.prims) (st st' : KeyStore)
    (b b' : Bytes) (hb : b.length < 2 ^ 64) (hb' : b'.length < 2 ^ 64) (caller caller' : Uuid) (s1 s2 : KeyStore) (h h' : Nat)
    (hi : keyStoreImportExported env st b caller = some (s1, .OK, h))
    (hi' : keyStoreImportExported env' st' b' caller' = some (s2, .OK, h'))
    (hmix : b.take 16 = b'.take 16) (htag : b.drop (b.length - 32) = b'.drop (b'.length - 32)) (hne : b ≠ b') :
    ∃ m m', m ≠ m' ∧ env.prims.hmac256 (macKey env.prims b) m = env.prims.hmac256 (macKey env.prims b) m' := by
  obtain ⟨l1, t1⟩ := C14_tag_checked env hp st b hb caller s1 h hi
  obtain ⟨l2, t2⟩ := C14_tag_checked env' (he ▸ hp) st' b' hb' caller' s2 h' hi'
  have hk : macKey env'.prims b' = macKey env.prims b := by
    unfold macKey
    rw [hmix, he]
  rw [hk, he] at t2
  refine ⟨_, _, ?_, t1.symm.trans (htag.trans t2)⟩
  intro hm
  apply hne
  have join : ∀ x : Bytes, 1760 ≤ x.length → x = x.take 16 ++ (x.take (x.length - 32)).drop 16 ++ x.drop (x.length - 32) := by
    intro x hx
    have : x.take 16 = (x.take (x.length - 32)).take 16 := by rw [List.take_take]; congr 1; omega
    rw [this, List.take_append_drop, List.take_append_drop]
  rw [join b l1, join b' l2, hmix, hm, htag]

theorem xor_left_inj (a b c : Bytes) (h1 : b.length = a.length) (h2 : c.length = a.length)
    (h : List.zipWith (· ^^^ ·) a b = List.zipWith (· ^^^ ·) a c) : b = c := by
  induction a generalizing b c with
  | nil => simp at h1 h2; rw [h1, h2]
  | cons x a ih =>
    cases b with
    | nil => simp at h1
    | cons y b =>
      cases c with
      | nil => simp at h2
      | cons z c =>
        simp only [List.zipWith_cons_cons, List.cons.injEq] at h
        simp only [List.length_cons, Nat.add_right_cancel_iff] at h1 h2
        rw [ih b c h1 h2 h.2]
        have := h.1
        congr 1
        exact (UInt8.xor_right_inj x).mp this

/-- **C14 (mixin).**  The mixin is covered too: two accepted containers with the same tag and different mixins have different integrity keys,
so the MAC collides under two different keys.  (AES decryption with a fixed key does not map two blocks to one.) -/
theorem C14_mixin_covered (env env' : Env) (hp : env.prims.Good) (he : env'.prims = env.prims)
    (hinj : ∀ k a b, a.length = 16 → b.length = 16 → env.prims.aesDec k a = env.prims.aesDec k b → a = b) (st st' : KeyStore)
    (b b' : Bytes) (hb : b.length < 2 ^ 64) (hb' : b'.length < 2 ^ 64) (caller caller' : Uuid) (s1 s2 : KeyStore) (h h' : Nat)
    (hi : keyStoreImportExported env st b caller = some (s1, .OK, h))
    (hi' : keyStoreImportExported env' st' b' caller' = some (s2, .OK, h'))
    (hmix : b.take 16 ≠ b'.take 16) (htag : b.drop (b.length - 32) = b'.drop (b'.length - 32)) :
    ∃ k k' m m', k ≠ k' ∧ env.prims.hmac256 k m = env.prims.hmac256 k' m' := by
  obtain ⟨l1, t1⟩ := C14_tag_checked env hp st b hb caller s1 h hi
  obtain ⟨l2, t2⟩ := C14_tag_checked env' (he ▸ hp) st' b' hb' caller' s2 h' hi'
  rw [he] at t2
  refine ⟨_, _, _, _, ?_, t1.symm.trans (htag.trans t2)⟩
  intro hk
  apply hmix
  unfold macKey at hk
  have t16 : ∀ x : Bytes, 1760 ≤ x.length → (x.take 16).length = ladder3.length := by
    intro x hx; rw [List.length_take, Nat.min_eq_left (by omega)]; rfl
  have z16 : ∀ x : Bytes, 1760 ≤ x.length → (List.zipWith (· ^^^ ·) ladder3 (x.take 16)).length = 16 := by
    intro x hx; rw [List.length_zipWith, t16 x hx, Nat.min_self]; rfl
  exact xor_left_inj ladder3 _ _ (t16 b l1) (t16 b' l2) (hinj _ _ _ (z16 b l1) (z16 b' l2) hk)

/-! ## Concrete cases: the container of `C13.exported` is accepted by C13; with a byte of the embedded length changed, or
truncated, it is not. -/

open C08 C13 in
def tryImport (edit : Bytes → Bytes) : Option Status := do
  let st ← C08.st1
  let e ← exported
  let out ← e.out
  let i ← keyStoreImportExported env0 st (edit (out.take e.outLength)) u7
  pure i.2.1

example : tryImport (fun b => b.set 1711 1) = some .INVALID_KEY_FORMAT := by decide +kernel
example : tryImport (fun b => b.set 0 (b.headD 0 + 1)) = some .INVALID_KEY_FORMAT := by decide +kernel
example : tryImport (fun b => b.take 1775) = some .INVALID_KEY_FORMAT := by decide +kernel

end Sa.C14

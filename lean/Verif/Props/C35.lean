import Verif.Lemmas.CipherPair
import Verif.Props.C34

/-!
# C35: what was encrypted can be decrypted
-/

namespace Sa.C35

variable {σ : Type}

/-- **C35** (partial: for AES-CTR and ChaCha20 the last chunk has at most 16 bytes, see `C35_violated`; for AES-GCM the tag is not empty).
A context for encryption is opened in one session and one for decryption, with the same key and parameters, in another (or the same kind of)
session, after any sequences of calls there.  A client encrypts any chunks `ms` and then a last chunk `m`, and all its calls succeed.  Then,
with the context for decryption (and the tag that was returned), the calls with the same chunks of ciphertext (for the padding algorithms the
last block in the final call) all succeed, as long as the key may be used for decryption at that time, and together give the data back. -/
theorem C35_roundtrip_partial (p : CipherPrim σ) (view : σ → CipherView) (hp : p.Good view) (pair : σ → σ → Bytes → Prop) (hi : p.Inverse view pair)
    (slotsE slotsD : Nat) (hsE : slotsE < 2 ^ 64) (hsD : slotsD < 2 ^ 64) (wE0 wD0 wE wD wE1 wD1 : CipherWorld σ)
    (hE0 : cipherNew σ slotsE = some wE0) (hD0 : cipherNew σ slotsD = some wD0) (opsE opsD : List CipherOp) (hopsE : ∀ op ∈ opsE, op.oaepOk)
    (hopsD : ∀ op ∈ opsD, op.oaepOk) (hrE : cipherRun p wE0 opsE = some wE) (hrD : cipherRun p wD0 opsD = some wD)
    (params : InitParams) (alg : Nat) (halg : params.alg = some alg) (sk : StoredKey) (ienvE ienvD : InitEnv) (uE uD : Uuid) (hE hD : Nat)
    (hinE : cipherInit p wE params MODE_ENCRYPT (.OK, some sk) ienvE uE = some (wE1, .OK, hE))
    (hinD : cipherInit p wD params MODE_DECRYPT (.OK, some sk) ienvD uD = some (wD1, .OK, hD))
    (u u' : UnwrapPrims) (env env' : RightsEnv) (b b' : ClientBufs) (hb : b.Ok) (hb' : b'.Ok)
    (ms : List Bytes) (m : Bytes) (hms : ∀ x ∈ ms, x.length < 2 ^ 31) (hm : m.length < 2 ^ 31)
    (hstream : alg = CIPHER_AES_CTR ∨ alg = CIPHER_CHACHA20 → m.length ≤ 16) (tagBuf : Option (Option Bytes))
    (htag : ∀ t, tagBuf = some (some t) → 1 ≤ t.length)
    (wE2 wE3 : CipherWorld σ) (cs : List Bytes) (c : Bytes) (tag : Option Bytes)
    (henc : clearCalls p u env hE uE b wE1 ms = some (wE2, some cs))
    (hlast : clearCall (.last tagBuf) p u env wE2 hE uE b m = some (wE3, some (c, tag)))
    (hallow : rightsAllowedDecrypt env' sk.header.rights true = true) :
    ∃ wD2 outs wD3 out, clearCalls p u' env' hD uD b' wD1 (cs ++ (decryptEnd alg c).1) = some (wD2, some outs) ∧
      clearCall (.last (some tag)) p u' env' wD2 hD uD b' (decryptEnd alg c).2 = some (wD3, some (out, none)) ∧
      outs.flatten ++ out = ms.flatten ++ m := by
  obtain ⟨wE', e1, invE⟩ := cipherRun_inv p opsE (cipherNew_inv slotsE hsE wE0 hE0).1 hopsE
  obtain ⟨wD', e2, invD⟩ := cipherRun_inv p opsD (cipherNew_inv slotsD hsD wD0 hD0).1 hopsD
  rw [hrE] at e1
  rw [hrD] at e2
  simp only [Option.some.injEq] at e1 e2
  subst e1; subst e2
  obtain ⟨alg', h1, hpair⟩ := init_paired p hp hi invE invD params sk ienvE ienvD uE uD wE1 wD1 hE hD hinE hinD
  rw [halg] at h1
  simp only [Option.some.injEq] at h1
  subst h1
  have hallow' : modeAllowed env' MODE_DECRYPT sk.header.rights true = true := by
    unfold modeAllowed; rw [if_neg (by decide)]; exact hallow
  obtain ⟨wDa, outs, q, a1, a2, a3⟩ := pair_all hp hi u u' env env' b b' hb hb' hallow' ms hpair hms wE2 cs henc
  obtain ⟨wDb, outs2, wDc, out, b1, b2, b3⟩ := pair_last hp hi a3 u u' env env' b b' hb hb' m hm hstream tagBuf htag wE3 c tag hlast hallow'
  refine ⟨wDb, outs ++ outs2, wDc, out, clearCalls_append p u' env' hD uD b' cs _ _ _ _ _ _ a1 b1, b2, ?_⟩
  rw [List.flatten_append, List.append_assoc, ← b3, ← List.append_assoc, ← a2]
  rfl

/-! ## Examples: the identity with PKCS #7 padding of C34 -/

open C34

/-- What belongs together: everything output by `e` was given to `d`; `q` is what both hold back. -/
def toyPair (e d : Toy) (q : Bytes) : Prop :=
  e.alg = d.alg ∧ e.mode = MODE_ENCRYPT ∧ d.mode ≠ MODE_ENCRYPT ∧ (isPkcs7Alg e.alg = false → q = []) ∧
  (isPkcs7Alg e.alg = true → q = d.held ++ e.held ∧ e.held.length < 16 ∧ (d.held.length = 0 ∨ d.held.length = 16))

theorem toy_inverse : (toyCipher true).Inverse toyView toyPair where
  create := by
    intro alg key sp e d h1 h2
    simp only [toyCipher, Option.some.injEq] at h1 h2
    subst h1; subst h2
    exact ⟨rfl, rfl, (by decide : MODE_DECRYPT ≠ MODE_ENCRYPT), fun _ => rfl, fun _ => ⟨rfl, by simp, Or.inl rfl⟩⟩
  update := by
    intro e d q m e' c h _ hu
    obtain ⟨h1, h2, h3, h4, h5⟩ := h
    simp only [toyCipher] at hu ⊢
    rw [← h1]
    cases hk : isPkcs7Alg e.alg with
    | false =>
      rw [hk] at hu
      simp only [if_true, Prod.mk.injEq, Option.some.injEq] at hu ⊢
      obtain ⟨hu1, hu2⟩ := hu
      subst hu1; subst hu2
      refine ⟨d, m, [], ⟨rfl, rfl⟩, by rw [h4 hk]; simp, h1, h2, h3, fun _ => rfl, fun h => by rw [hk] at h; simp at h⟩
    | true =>
      rw [hk] at hu
      simp only [Bool.true_eq_false, if_false, if_pos h2, if_neg h3, Prod.mk.injEq, Option.some.injEq] at hu ⊢
      obtain ⟨hu1, hu2⟩ := hu
      obtain ⟨g1, g2, g3⟩ := h5 hk
      by_cases hc : c = []
      · rw [if_pos hc]
        refine ⟨d, [], d.held ++ e'.held, rfl, ?_, ?_⟩
        · subst hu1
          rw [hc] at hu2
          rw [g1, List.nil_append]
          show d.held ++ e.held ++ m = d.held ++ (e.held ++ m).drop _
          rw [List.append_assoc]
          congr 1
          conv => lhs; rw [← List.take_append_drop ((e.held ++ m).length / 16 * 16) (e.held ++ m), hu2]
          rfl
        · subst hu1
          refine ⟨h1, h2, h3, fun h => by rw [show isPkcs7Alg e.alg = true from hk] at h; simp at h, fun _ => ⟨rfl, ?_, g3⟩⟩
          show ((e.held ++ m).drop _).length < 16
          rw [List.length_drop]; omega
      · rw [if_neg hc]
        have hcl : c.length = (e.held ++ m).length / 16 * 16 := by rw [← hu2, List.length_take]; omega
        have hc0 : 0 < c.length := List.length_pos_iff.mpr hc
        refine ⟨_, _, (d.held ++ c).drop (((d.held ++ c).length - 1) / 16 * 16) ++ e'.held, rfl, ?_, ?_⟩
        · rw [← List.append_assoc, List.take_append_drop, g1]
          subst hu1
          show d.held ++ e.held ++ m = d.held ++ c ++ (e.held ++ m).drop _
          rw [List.append_assoc, List.append_assoc, ← hu2, List.take_append_drop]
        · subst hu1
          refine ⟨rfl, h2, h3, fun h => by rw [show isPkcs7Alg e.alg = true from hk] at h; simp at h, fun _ => ⟨rfl, ?_, ?_⟩⟩
          · show ((e.held ++ m).drop _).length < 16
            rw [List.length_drop]; omega
          · right
            show ((d.held ++ c).drop _).length = 16
            rw [List.length_drop, List.length_append]
            omega
  updateNil := by
    intro e d q h hk
    obtain ⟨h1, h2, h3, h4, h5⟩ := h
    simp only [toyCipher, toyView] at hk ⊢
    rw [if_neg (by rw [← h1, hk]; simp), if_neg h3]
    rfl
  finalPad := by
    intro e d q e' f h hk hf
    obtain ⟨h1, h2, h3, h4, h5⟩ := h
    simp only [toyCipher, toyView] at hk hf ⊢
    obtain ⟨g1, g2, g3⟩ := h5 hk
    rw [if_neg (by rw [hk]; simp), if_pos h2] at hf
    simp only [Prod.mk.injEq, Option.some.injEq] at hf
    obtain ⟨_, hf⟩ := hf
    have hfl : f.length = 16 := by rw [← hf]; simp
    have hfe : f ≠ [] := by intro h; rw [h] at hfl; simp at hfl
    rw [if_neg (by rw [← h1, hk]; simp), if_neg h3, if_neg hfe]
    have hn : ((d.held ++ f).length - 1) / 16 * 16 = d.held.length := by
      rw [List.length_append, hfl]; omega
    refine ⟨_, _, { d with held := [] }, e.held, rfl, ?_, ?_⟩
    · rw [hn]
      simp only [List.drop_left]
      rw [if_neg (by rw [← h1, hk]; simp), if_neg h3]
      have h15 : f.getD 15 0 = UInt8.ofNat (16 - e.held.length) := by
        rw [← hf, List.getD_eq_getElem?_getD, List.getElem?_take_of_lt (by omega), List.getElem?_append_right (by omega)]
        rw [List.getElem?_replicate, if_pos (by omega)]
        rfl
      have h15n : (f.getD 15 0).toNat = 16 - e.held.length := by
        rw [h15, UInt8.toNat_ofNat']; omega
      rw [h15n, if_pos ⟨hfl, by omega, by omega⟩]
      have : f.take (16 - (16 - e.held.length)) = e.held := by
        rw [← hf, List.take_take, Nat.min_eq_left (by omega), show 16 - (16 - e.held.length) = e.held.length by omega, List.take_left]
      rw [this]
    · rw [hn, List.take_left, g1]
  finalPlain := by
    intro e d q e' f h hk _ _
    obtain ⟨h1, _⟩ := h
    simp only [toyCipher, toyView] at hk ⊢
    rw [if_pos (by rw [← h1]; exact hk)]
    exact ⟨_, _, rfl⟩
  tagLen := by intro e t h; simp [toyCipher] at h; subst h; simp
  finalTag := by
    intro e d q m e1 c e2 f t n h ha hu hf ht _ _
    obtain ⟨h1, h2, h3, h4, h5⟩ := h
    have hk : isPkcs7Alg e.alg = false := by
      unfold toyView isAead at ha
      simp only [Bool.or_eq_true, beq_iff_eq] at ha
      rcases ha with h | h <;> rw [h] <;> rfl
    simp only [toyCipher] at hu ⊢
    rw [hk] at hu
    simp only [if_true, Prod.mk.injEq, Option.some.injEq] at hu
    refine ⟨d, d, d, [], rfl, ?_, ?_⟩
    · rw [← h1, hk]
      simp only [if_true]
      rw [h4 hk, hu.2]; rfl
    · rw [← h1, hk]; simp

/-- A session with two contexts for the same algorithm: 31 for encryption, 30 for decryption. -/
def both (params : InitParams) : CipherWorld Toy :=
  ((cipherNew Toy 32).bind fun w => cipherRun (toyCipher true) w [.init params MODE_ENCRYPT C27.key C36.ienv C08.u7,
    .init params MODE_DECRYPT C27.key C36.ienv C08.u7]).getD ⟨⟨⟨[], 0⟩, [], 0, false, 0⟩, fun _ => none, 0⟩

def bufs : ClientBufs := ⟨C20.st1, fun _ => 0, 0x400000000, 0x200000000⟩

example : bufs.Ok := by unfold ClientBufs.Ok; decide

def cbc : InitParams := .cbc true (some (some (List.replicate 16 1)))
def ctr : InitParams := .ctr (some (some (List.replicate 16 1)))
def data : Bytes := (List.range 32).map UInt8.ofNat

/-- The hypotheses are met by calls that succeed: AES-CBC with padding, a chunk of 32 bytes and a last chunk of 16 bytes, which gives two
blocks. -/
example : ((clearCalls (toyCipher true) noUnwrap C27.renv 31 C08.u7 bufs (both cbc) [data]).any fun r =>
    r.2 == some [data] && (clearCall (.last none) (toyCipher true) noUnwrap C27.renv r.1 31 C08.u7 bufs (data.take 16)).any fun r =>
      r.2 == some (data.take 16 ++ List.replicate 16 16, none)) = true := by
  decide +kernel

/-- and the decryption gives the data back. -/
example : ((clearCalls (toyCipher true) noUnwrap C27.renv 30 C08.u7 bufs (both cbc) [data, data.take 16]).any fun r =>
    r.2.isSome && (clearCall (.last (some none)) (toyCipher true) noUnwrap C27.renv r.1 30 C08.u7 bufs (List.replicate 16 16)).any fun r =>
      r.2 == some (data.take 16, none)) = true := by
  decide +kernel

/-- **C35 is violated**: with AES-CTR (and ChaCha20 likewise) a last chunk of 17 bytes is encrypted, but the context for decryption refuses a
last chunk of 17 bytes. -/
theorem C35_violated : ∃ c : Bytes, ∃ w w', clearCall (.last none) (toyCipher true) noUnwrap C27.renv (both ctr) 31 C08.u7 bufs (data.take 17) = some (w, some (c, none)) ∧
    c.length = 17 ∧ clearCall (.last none) (toyCipher true) noUnwrap C27.renv (both ctr) 30 C08.u7 bufs c = some (w', none) := by
  have h1 : (clearCall (.last none) (toyCipher true) noUnwrap C27.renv (both ctr) 31 C08.u7 bufs (data.take 17)).any
      (fun r => r.2 == some (data.take 17, none)) = true := by decide +kernel
  have h2 : (clearCall (.last none) (toyCipher true) noUnwrap C27.renv (both ctr) 30 C08.u7 bufs (data.take 17)).any (fun r => r.2 == none) = true := by
    decide +kernel
  simp only [Option.any_eq_true, beq_iff_eq] at h1 h2
  obtain ⟨⟨w, r⟩, h1, h1'⟩ := h1
  obtain ⟨⟨w', r'⟩, h2, h2'⟩ := h2
  simp only at h1' h2'
  subst h1'; subst h2'
  exact ⟨_, w, w', h1, by decide, h2⟩

end Sa.C35

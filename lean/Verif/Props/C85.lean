import Verif.Lemmas.EvpRun
import Verif.Props.C35

/-!
# C85: ciphertexts are those of the algorithm, direction, key, IV and additional data that were asked for
-/

namespace Sa.C85

open Sa.Evp

/-- **C85** (creation).  Making a symmetric context either gives none and leaves nothing allocated, or gives a context of the algorithm and
direction that were asked for, whose cipher has the key length of the key, with exactly this key and IV (for ChaCha20 counter and nonce),
padding only if it is asked for, the additional data, nothing processed yet, and nothing read behind the end of key or IV.  It gives one if
the lengths are right and OpenSSL does not fail. -/
theorem C85_create (ok : Nat → Bool) (alg mode : Nat) (key : Bytes) (p : SymParams) :
    (create ok alg mode key p = ⟨none, 0⟩ ∨ ∃ s ci, create ok alg mode key p = ⟨some ⟨alg, mode, s⟩, 2⟩ ∧
      (mode = MODE_ENCRYPT ∧ s.enc = true ∨ mode = MODE_DECRYPT ∧ s.enc = false) ∧ s.key = key ∧ s.oob = false ∧ s.held = [] ∧ s.done = [] ∧ s.cipher = some ci ∧
      ((∃ m, ci = .block m (key.length * 8) ∧ (key.length = 16 ∨ key.length = 32) ∧
          (m = .ecb ∧ (alg = CIPHER_AES_ECB ∧ s.padding = false ∨ alg = CIPHER_AES_ECB_PKCS7 ∧ s.padding = true) ∨
           m = .cbc ∧ (alg = CIPHER_AES_CBC ∧ s.padding = false ∨ alg = CIPHER_AES_CBC_PKCS7 ∧ s.padding = true) ∧ s.chain = p.iv ∧ p.iv.length = 16)) ∨
       ((key.length = 16 ∨ key.length = 32) ∧ ci = .ctr (key.length * 8) ∧ alg = CIPHER_AES_CTR ∧ s.iv = p.iv ∧ p.iv.length = 16) ∨
       ((key.length = 16 ∨ key.length = 32) ∧ ci = .gcm (key.length * 8) ∧ alg = CIPHER_AES_GCM ∧ s.iv = p.iv ∧ p.iv.length = 12 ∧
          (p.aad.length < 2 ^ 31 → s.aad = p.aad)) ∨
       (key.length = 32 ∧ ci = .chacha20 ∧ alg = CIPHER_CHACHA20 ∧ s.iv = p.counter ++ p.iv ∧ p.counter.length = 4 ∧ p.iv.length = 12) ∨
       (key.length = 32 ∧ ci = .poly ∧ alg = CIPHER_CHACHA20_POLY1305 ∧ s.iv = p.iv ∧ p.iv.length = 12 ∧ (p.aad.length < 2 ^ 31 → s.aad = p.aad)))) ∧
    ((∀ n, ok n = true) → (mode = MODE_ENCRYPT ∨ mode = MODE_DECRYPT) → p.aad.length < 2 ^ 31 →
      ((key.length = 16 ∨ key.length = 32) ∧ (alg = CIPHER_AES_ECB ∨ alg = CIPHER_AES_ECB_PKCS7) ∨
       (key.length = 16 ∨ key.length = 32) ∧ (alg = CIPHER_AES_CBC ∨ alg = CIPHER_AES_CBC_PKCS7 ∨ alg = CIPHER_AES_CTR) ∧ p.iv.length = 16 ∨
       (key.length = 16 ∨ key.length = 32) ∧ alg = CIPHER_AES_GCM ∧ p.iv.length = 12 ∨
       key.length = 32 ∧ alg = CIPHER_CHACHA20 ∧ p.counter.length = 4 ∧ p.iv.length = 12 ∨
       key.length = 32 ∧ alg = CIPHER_CHACHA20_POLY1305 ∧ p.iv.length = 12) →
      (create ok alg mode key p).ctx.isSome) := by
  constructor
  · by_cases hm : mode = MODE_ENCRYPT ∨ mode = MODE_DECRYPT
    · rcases (create_makes ok alg mode hm key p).1 with h | ⟨hf, h⟩
      · exact Or.inl h
      · right
        refine ⟨_, _, h, ?_, rfl, rfl, rfl, rfl, rfl, ?_⟩
        · rcases hm with h | h <;> subst h
          · exact Or.inl ⟨rfl, rfl⟩
          · exact Or.inr ⟨rfl, rfl⟩
        · have haad : isAead alg = true → p.aad.length < 2 ^ 31 → aadOf alg p = p.aad := fun h1 h2 => aadOf_eq alg p h2 h1
          unfold Fits at hf
          split at hf
          · rename_i ha
            rcases ha with ha | ha <;> subst ha
            · exact Or.inl ⟨.ecb, rfl, hf, Or.inl ⟨rfl, Or.inl ⟨rfl, rfl⟩⟩⟩
            · exact Or.inl ⟨.ecb, rfl, hf, Or.inl ⟨rfl, Or.inr ⟨rfl, rfl⟩⟩⟩
          · split at hf
            · rename_i ha
              rcases ha with ha | ha | ha <;> subst ha
              · exact Or.inl ⟨.cbc, rfl, hf.1, Or.inr ⟨rfl, Or.inl ⟨rfl, rfl⟩, rfl, hf.2⟩⟩
              · exact Or.inl ⟨.cbc, rfl, hf.1, Or.inr ⟨rfl, Or.inr ⟨rfl, rfl⟩, rfl, hf.2⟩⟩
              · exact Or.inr (Or.inl ⟨hf.1, rfl, rfl, rfl, hf.2⟩)
            · split at hf
              · rename_i ha
                subst ha
                exact Or.inr (Or.inr (Or.inl ⟨hf.1, rfl, rfl, rfl, hf.2.1, haad rfl⟩))
              · split at hf
                · rename_i ha
                  subst ha
                  exact Or.inr (Or.inr (Or.inr (Or.inl ⟨hf.1, rfl, rfl, rfl, hf.2.2, hf.2.1⟩)))
                · obtain ⟨ha, hf⟩ := hf
                  subst ha
                  exact Or.inr (Or.inr (Or.inr (Or.inr ⟨hf.1, rfl, rfl, rfl, hf.2.1, haad rfl⟩)))
    · left
      unfold create
      rw [if_pos ⟨fun h => hm (Or.inl h), fun h => hm (Or.inr h)⟩]
  · intro hok hm haad h
    have hmod : p.aad.length % 2 ^ 32 < 2 ^ 31 := by rw [Nat.mod_eq_of_lt (by omega)]; exact haad
    rw [(create_makes ok alg mode hm key p).2 ?_ hok]
    · rfl
    · unfold Fits
      rcases h with ⟨h1, h⟩ | ⟨h1, h, h2⟩ | ⟨h1, h, h2⟩ | ⟨h1, h, h2, h3⟩ | ⟨h1, h, h2⟩
      · rw [if_pos h]; exact h1
      · rw [if_neg (by rcases h with h | h | h <;> subst h <;> decide), if_pos h]; exact ⟨h1, h2⟩
      · subst h; exact ⟨h1, h2, hmod⟩
      · subst h; exact ⟨h1, h3, h2⟩
      · subst h; exact ⟨rfl, h1, h2, hmod⟩

/-- The state of a session in which a context was opened and used. -/
private theorem session {A : Algos} (hA : A.Good) (ok : Nat → Bool) (slots : Nat) (hs : slots < 2 ^ 64) (w0 w w1 w2 w3 : CipherWorld Ctx)
    (h0 : cipherNew Ctx slots = some w0) (ops : List CipherOp) (hops : ∀ op ∈ ops, op.oaepOk) (hr : cipherRun (prim A ok) w0 ops = some w)
    (params : InitParams) (hsym : symmetric params = true) (mode : Nat) (sk : StoredKey) (ienv : InitEnv) (caller : Uuid) (h : Nat)
    (hin : cipherInit (prim A ok) w params mode (.OK, some sk) ienv caller = some (w1, .OK, h))
    (u : UnwrapPrims) (env : RightsEnv) (b : ClientBufs) (hb : b.Ok) (before : List (List Bytes × Bytes))
    (hbefore : ∀ x ∈ before, ∀ m ∈ x.1, m.length < 2 ^ 31) (hused : used (prim A ok) u env h caller b w1 before = some w2)
    (ms : List Bytes) (hms : ∀ x ∈ ms, x.length < 2 ^ 31) (os : List Bytes)
    (hcalls : clearCalls (prim A ok) u env h caller b w2 ms = some (w3, some os)) :
    ∃ ptr o c, At A w3 h caller sk mode (lastIv params before) ptr o c ms.flatten os.flatten ∧
      (isStreamAlg o.alg = true ∨ ms.flatten.length % 16 = 0) := by
  obtain ⟨w', e1, inv⟩ := cipherRun_inv (prim A ok) ops (cipherNew_inv slots hs w0 h0).1 hops
  rw [hr] at e1
  simp only [Option.some.injEq] at e1
  subst e1
  obtain ⟨ptr, o, c, ha⟩ := init_at hA ok inv params mode sk ienv caller h (symmetric_alg params hsym) hin
  obtain ⟨c2, ha⟩ := ha.used hA u env b hb before hbefore hused
  obtain ⟨hal, c3, ha⟩ := ha.calls hA u env b hb ms hms os hcalls
  rw [List.nil_append, List.nil_append] at ha
  exact ⟨ptr, o, c3, ha, hal⟩

/-- **C85** (chunks, partial: chunks shorter than 2 GB, see `C34_violated_length`).  A client opens a context in any session, with any
symmetric algorithm without padding, uses it in any way, with other IVs set between, and then processes chunks.  If its calls succeed, what
they gave together is the ciphertext of all the chunks (for decryption: what the chunks decrypt to) for the algorithm, key and parameters
given when the context was opened, with the IV set last. -/
theorem C85_chunks_partial {A : Algos} (hA : A.Good) (ok : Nat → Bool) (slots : Nat) (hs : slots < 2 ^ 64) (w0 w w1 w2 w3 : CipherWorld Ctx)
    (h0 : cipherNew Ctx slots = some w0) (ops : List CipherOp) (hops : ∀ op ∈ ops, op.oaepOk) (hr : cipherRun (prim A ok) w0 ops = some w)
    (params : InitParams) (hsym : symmetric params = true) (mode : Nat) (sk : StoredKey) (ienv : InitEnv) (caller : Uuid) (h : Nat)
    (hin : cipherInit (prim A ok) w params mode (.OK, some sk) ienv caller = some (w1, .OK, h))
    (u : UnwrapPrims) (env : RightsEnv) (b : ClientBufs) (hb : b.Ok) (before : List (List Bytes × Bytes))
    (hbefore : ∀ x ∈ before, ∀ m ∈ x.1, m.length < 2 ^ 31) (hused : used (prim A ok) u env h caller b w1 before = some w2)
    (ms : List Bytes) (hms : ∀ x ∈ ms, x.length < 2 ^ 31) (os : List Bytes)
    (hcalls : clearCalls (prim A ok) u env h caller b w2 ms = some (w3, some os)) (hpad : pads params = false) :
    mode = MODE_ENCRYPT ∧ Encrypts A sk.key (lastIv params before) ms.flatten os.flatten ∨
    mode = MODE_DECRYPT ∧ Decrypts A sk.key (lastIv params before) ms.flatten os.flatten := by
  obtain ⟨ptr, o, c, ha, hal⟩ := session hA ok slots hs w0 w w1 w2 w3 h0 ops hops hr params hsym mode sk ienv caller h hin u env b hb before hbefore
    hused ms hms os hcalls
  obtain ⟨e, d⟩ := chunks_done hA (lastIv params before) o.alg mode ha.alg sk.key ha.fits ha.after
    (by rw [pads_alg _ _ ha.alg, (lastIv_pads before params).1]; exact hpad) hal
  rcases ha.modeOk with h | h
  · exact Or.inl ⟨h, e h⟩
  · exact Or.inr ⟨h, d h⟩

/-- **C85** (encryption, partial: chunks shorter than 2 GB; for the tag, less than 2 GB of additional data, see `C85_violated_aad`).  With the
last chunk too, for every symmetric algorithm, what the calls gave together is the ciphertext of all the data (with the padding, if it is asked
for), and the tag has as many bytes as the client asked for of the tag of additional data and ciphertext. -/
theorem C85_encrypt_partial {A : Algos} (hA : A.Good) (ok : Nat → Bool) (slots : Nat) (hs : slots < 2 ^ 64) (w0 w w1 w2 w3 w4 : CipherWorld Ctx)
    (h0 : cipherNew Ctx slots = some w0) (ops : List CipherOp) (hops : ∀ op ∈ ops, op.oaepOk) (hr : cipherRun (prim A ok) w0 ops = some w)
    (params : InitParams) (sk : StoredKey) (ienv : InitEnv) (caller : Uuid) (h : Nat)
    (hin : cipherInit (prim A ok) w params MODE_ENCRYPT (.OK, some sk) ienv caller = some (w1, .OK, h))
    (u : UnwrapPrims) (env : RightsEnv) (b : ClientBufs) (hb : b.Ok) (before : List (List Bytes × Bytes))
    (hbefore : ∀ x ∈ before, ∀ m ∈ x.1, m.length < 2 ^ 31) (hused : used (prim A ok) u env h caller b w1 before = some w2)
    (ms : List Bytes) (hms : ∀ x ∈ ms, x.length < 2 ^ 31) (cs : List Bytes)
    (hcalls : clearCalls (prim A ok) u env h caller b w2 ms = some (w3, some cs))
    (m : Bytes) (hm : m.length < 2 ^ 31) (tagBuf : Option (Option Bytes)) (c : Bytes) (tag : Option Bytes)
    (hlast : clearCall (.last tagBuf) (prim A ok) u env w3 h caller b m = some (w4, some (c, tag))) :
    Encrypts A sk.key (lastIv params before) (ms.flatten ++ m) (cs.flatten ++ c) ∧
    (aead params = false → tag = none) ∧
    (aead params = true → aadLen params < 2 ^ 31 → ∃ room, tagBuf = some (some room) ∧ room.length ≤ 16 ∧
      tag = (tagFor A sk.key (lastIv params before) (cs.flatten ++ c)).map (·.take room.length) ∧ tag.isSome) := by
  have hsym : symmetric params = true := by
    have := cipherInit_enc (prim A ok) w params (.OK, some sk) ienv caller w1 h hin
    cases params <;> first | rfl | simp [InitParams.alg] at this
  obtain ⟨ptr, o, c0, ha, _⟩ := session hA ok slots hs w0 w w1 w2 w3 h0 ops hops hr params hsym MODE_ENCRYPT sk ienv caller h hin u env b hb before hbefore
    hused ms hms cs hcalls
  obtain ⟨e, t⟩ := ha.last_enc hA u env b hb m hm tagBuf c tag hlast
  have hae : isAead o.alg = aead params := by rw [aead_alg _ _ ha.alg, (lastIv_pads before params).2.1]
  refine ⟨e, ?_, ?_⟩
  · intro hn
    rw [hae, hn] at t
    simpa using t
  · intro hy hl
    rw [if_pos (by rw [hae]; exact hy)] at t
    obtain ⟨tg, t1, t2, t3⟩ := t
    refine ⟨tg, t1, ?_, ?_, by rw [t3]; rfl⟩
    · unfold TagLen at t2
      split at t2 <;> omega
    · rw [t3, tag_for _ o.alg ha.alg sk.key _ (by rw [hae]; exact hy) ha.fits (by rw [(lastIv_pads before params).2.2]; exact hl)]
      rfl

/-- **C85** (decryption, partial: chunks shorter than 2 GB; for the tag, less than 2 GB of additional data).  With the last chunk too, for every
symmetric algorithm, what the calls gave together is what all the ciphertext decrypts to (with correct padding, if there is padding).  With an
algorithm that has a tag, the last call succeeds only if the client gave a tag of 1 to 16 bytes and it is the beginning of the tag of additional
data and ciphertext. -/
theorem C85_decrypt_partial {A : Algos} (hA : A.Good) (ok : Nat → Bool) (slots : Nat) (hs : slots < 2 ^ 64) (w0 w w1 w2 w3 w4 : CipherWorld Ctx)
    (h0 : cipherNew Ctx slots = some w0) (ops : List CipherOp) (hops : ∀ op ∈ ops, op.oaepOk) (hr : cipherRun (prim A ok) w0 ops = some w)
    (params : InitParams) (hsym : symmetric params = true) (sk : StoredKey) (ienv : InitEnv) (caller : Uuid) (h : Nat)
    (hin : cipherInit (prim A ok) w params MODE_DECRYPT (.OK, some sk) ienv caller = some (w1, .OK, h))
    (u : UnwrapPrims) (hu : u.Good) (env : RightsEnv) (b : ClientBufs) (hb : b.Ok) (before : List (List Bytes × Bytes))
    (hbefore : ∀ x ∈ before, ∀ m ∈ x.1, m.length < 2 ^ 31) (hused : used (prim A ok) u env h caller b w1 before = some w2)
    (cs : List Bytes) (hcs : ∀ x ∈ cs, x.length < 2 ^ 31) (ms : List Bytes)
    (hcalls : clearCalls (prim A ok) u env h caller b w2 cs = some (w3, some ms))
    (c : Bytes) (hc : c.length < 2 ^ 31) (tagBuf : Option (Option Bytes)) (m : Bytes) (tag : Option Bytes)
    (hlast : clearCall (.last tagBuf) (prim A ok) u env w3 h caller b c = some (w4, some (m, tag))) :
    Decrypts A sk.key (lastIv params before) (cs.flatten ++ c) (ms.flatten ++ m) ∧
    (aead params = true → aadLen params < 2 ^ 31 → ∃ given full, tagBuf = some (some given) ∧ 1 ≤ given.length ∧ given.length ≤ 16 ∧
      tagFor A sk.key (lastIv params before) (cs.flatten ++ c) = some full ∧ given = full.take given.length) := by
  obtain ⟨ptr, o, c0, ha, _⟩ := session hA ok slots hs w0 w w1 w2 w3 h0 ops hops hr params hsym MODE_DECRYPT sk ienv caller h hin u env b hb before hbefore
    hused cs hcs ms hcalls
  obtain ⟨e, t⟩ := ha.last_dec hA u hu env b hb c hc tagBuf m tag hlast
  have hae : isAead o.alg = aead params := by rw [aead_alg _ _ ha.alg, (lastIv_pads before params).2.1]
  refine ⟨e, ?_⟩
  intro hy hl
  obtain ⟨tg, t1, t2, t3, t4⟩ := t (by rw [hae]; exact hy)
  exact ⟨tg, _, t1, t2, t3,
    tag_for _ o.alg ha.alg sk.key _ (by rw [hae]; exact hy) ha.fits (by rw [(lastIv_pads before params).2.2]; exact hl), t4⟩

/-- **C85** (round trip, partial as `C35_roundtrip_partial`).  The round trip of C35, without assumptions about contexts: only that the
block cipher's decryption inverts its encryption. -/
theorem C85_roundtrip_partial {A : Algos} (hA : A.Good) (ok : Nat → Bool)
    (slotsE slotsD : Nat) (hsE : slotsE < 2 ^ 64) (hsD : slotsD < 2 ^ 64) (wE0 wD0 wE wD wE1 wD1 : CipherWorld Ctx)
    (hE0 : cipherNew Ctx slotsE = some wE0) (hD0 : cipherNew Ctx slotsD = some wD0) (opsE opsD : List CipherOp) (hopsE : ∀ op ∈ opsE, op.oaepOk)
    (hopsD : ∀ op ∈ opsD, op.oaepOk) (hrE : cipherRun (prim A ok) wE0 opsE = some wE) (hrD : cipherRun (prim A ok) wD0 opsD = some wD)
    (params : InitParams) (alg : Nat) (halg : params.alg = some alg) (sk : StoredKey) (ienvE ienvD : InitEnv) (uE uD : Uuid) (hE hD : Nat)
    (hinE : cipherInit (prim A ok) wE params MODE_ENCRYPT (.OK, some sk) ienvE uE = some (wE1, .OK, hE))
    (hinD : cipherInit (prim A ok) wD params MODE_DECRYPT (.OK, some sk) ienvD uD = some (wD1, .OK, hD))
    (u u' : UnwrapPrims) (env env' : RightsEnv) (b b' : ClientBufs) (hb : b.Ok) (hb' : b'.Ok)
    (ms : List Bytes) (m : Bytes) (hms : ∀ x ∈ ms, x.length < 2 ^ 31) (hm : m.length < 2 ^ 31)
    (hstream : alg = CIPHER_AES_CTR ∨ alg = CIPHER_CHACHA20 → m.length ≤ 16) (tagBuf : Option (Option Bytes))
    (htag : ∀ t, tagBuf = some (some t) → 1 ≤ t.length)
    (wE2 wE3 : CipherWorld Ctx) (cs : List Bytes) (c : Bytes) (tag : Option Bytes)
    (henc : clearCalls (prim A ok) u env hE uE b wE1 ms = some (wE2, some cs))
    (hlast : clearCall (.last tagBuf) (prim A ok) u env wE2 hE uE b m = some (wE3, some (c, tag)))
    (hallow : rightsAllowedDecrypt env' sk.header.rights true = true) :
    ∃ wD2 outs wD3 out, clearCalls (prim A ok) u' env' hD uD b' wD1 (cs ++ (decryptEnd alg c).1) = some (wD2, some outs) ∧
      clearCall (.last (some tag)) (prim A ok) u' env' wD2 hD uD b' (decryptEnd alg c).2 = some (wD3, some (out, none)) ∧
      outs.flatten ++ out = ms.flatten ++ m :=
  C35.C35_roundtrip_partial (prim A ok) view (prim_good hA ok) (Pair A) (prim_inverse hA ok) slotsE slotsD hsE hsD wE0 wD0 wE wD wE1 wD1 hE0 hD0 opsE opsD
    hopsE hopsD hrE hrD params alg halg sk ienvE ienvD uE uD hE hD hinE hinD u u' env env' b b' hb hb' ms m hms hm hstream tagBuf htag wE2 wE3 cs c tag
    henc hlast hallow

/-- **C85 is violated (additional data)**: 4 GB of additional data.  OpenSSL takes the length as an `int`, which becomes 0: for every session,
key and IV, opening the context has the same effect as opening it without additional data, so that none of it is authenticated. -/
theorem C85_violated_aad : ∃ aad : Bytes, aad.length = 2 ^ 32 ∧ ∀ (A : Algos) (ok : Nat → Bool) (w : CipherWorld Ctx) (iv : Bytes) (mode : Nat)
    (key : Status × Option StoredKey) (env : InitEnv) (caller : Uuid),
    cipherInit (prim A ok) w (.gcm (some (some iv, .bytes aad))) mode key env caller =
    cipherInit (prim A ok) w (.gcm (some (some iv, .bytes []))) mode key env caller := by
  refine ⟨List.replicate (2 ^ 32) 7, List.length_replicate, ?_⟩
  intro A ok w iv mode key env caller
  have hlen : (List.replicate (2 ^ 32) (7 : UInt8)).length = 2 ^ 32 := List.length_replicate
  generalize List.replicate (2 ^ 32) (7 : UInt8) = aad at hlen ⊢
  have hadd : addAad aad = addAad [] := by
    funext s
    unfold addAad
    rw [hlen, Nat.mod_self, List.take_zero]
    rfl
  have hgcm : ∀ key, aesGcm ok mode key iv aad = aesGcm ok mode key iv [] := by
    intro key
    unfold aesGcm
    rw [hadd]
  have hcreate : ∀ key, (prim A ok).create CIPHER_AES_GCM mode key ⟨iv, [], aad⟩ = (prim A ok).create CIPHER_AES_GCM mode key ⟨iv, [], []⟩ := by
    intro key
    show (create ok CIPHER_AES_GCM mode key ⟨iv, [], aad⟩).ctx.map _ = (create ok CIPHER_AES_GCM mode key ⟨iv, [], []⟩).ctx.map _
    congr 2
    unfold create
    split
    · rfl
    · exact hgcm key
  have hsym : ∀ (w : CipherWorld Ctx) keyPtr sk, initSymmetric (prim A ok) w CIPHER_AES_GCM mode true keyPtr sk ⟨iv, [], aad⟩ env caller =
      initSymmetric (prim A ok) w CIPHER_AES_GCM mode true keyPtr sk ⟨iv, [], []⟩ env caller := by
    intro w keyPtr sk
    unfold initSymmetric
    rw [hcreate]
  have hbad : (Buf.bytes aad).isBad = (Buf.bytes []).isBad := rfl
  have halg : ∀ (w : CipherWorld Ctx) keyPtr sk, initAlgorithm (prim A ok) w (.gcm (some (some iv, .bytes aad))) mode keyPtr sk env caller =
      initAlgorithm (prim A ok) w (.gcm (some (some iv, .bytes []))) mode keyPtr sk env caller := by
    intro w keyPtr sk
    unfold initAlgorithm
    simp only [hbad]
    have := hsym w keyPtr sk
    simp only [Buf.get, Option.getD_some]
    rw [this]
  unfold cipherInit
  simp only [halg]
  rfl

/-! ## Examples: a toy block cipher (xor with the key, then reversed), toy key stream and tags -/

def algos : Algos where
  enc k b := (b.mapIdx fun i x => x ^^^ k.getD i 0).reverse
  dec k b := b.reverse.mapIdx fun i x => x ^^^ k.getD i 0
  stream _ k iv i := k.getD 0 0 + iv.getD (i % 16) 0 + UInt8.ofNat i
  tag _ k iv aad c := List.replicate 16 (k.getD 0 0 + iv.getD 0 0 + aad.foldl (· + ·) 0 + c.foldl (· + ·) 1)

theorem algos_good : algos.Good where
  encLen := by intro k b h; simp [algos, h]
  decLen := by intro k b h; simp [algos, h]
  decEnc := by
    intro k b _
    simp only [algos, List.reverse_reverse]
    apply List.ext_getElem?
    intro i
    rw [List.getElem?_mapIdx, List.getElem?_mapIdx]
    cases b[i]? with
    | none => rfl
    | some x => simp [UInt8.xor_assoc]
  tagLen := by intro c k iv aad m; simp [algos]

def yes : Nat → Bool := fun _ => true

/-- Of `C85_create`: AES-GCM with a key of 32 bytes; an IV of 11 bytes is refused; OpenSSL fails when the key is set. -/
example : ((create yes CIPHER_AES_GCM MODE_ENCRYPT (List.replicate 32 7) ⟨List.replicate 12 1, [], [1, 2]⟩).ctx.map
      fun c => (c.evp.cipher, c.evp.enc, c.evp.iv, c.evp.aad)) = some (some (.gcm 256), true, List.replicate 12 1, [1, 2]) ∧
    (create yes CIPHER_AES_GCM MODE_ENCRYPT (List.replicate 32 7) ⟨List.replicate 11 1, [], [1, 2]⟩).ctx.isNone = true ∧
    (create (· != 4) CIPHER_AES_GCM MODE_ENCRYPT (List.replicate 32 7) ⟨List.replicate 12 1, [], [1, 2]⟩).live = 0 := by decide +kernel

/-- A session with two contexts for the same algorithm: 31 for encryption, 30 for decryption. -/
def both (params : InitParams) : CipherWorld Ctx :=
  ((cipherNew Ctx 32).bind fun w => cipherRun (prim algos yes) w [.init params MODE_ENCRYPT C27.key C36.ienv C08.u7,
    .init params MODE_DECRYPT C27.key C36.ienv C08.u7]).getD ⟨⟨⟨[], 0⟩, [], 0, false, 0⟩, fun _ => none, 0⟩

def gcm : InitParams := .gcm (some (some (List.replicate 12 1), .bytes [5, 6, 7]))

/-- The hypotheses of `C85_encrypt_partial` are met: AES-CBC with padding; first 32 bytes, then another IV, then 32 bytes and the last 5. -/
example : ((used (prim algos yes) C34.noUnwrap C27.renv 31 C08.u7 C35.bufs (both C35.cbc) [([C35.data], List.replicate 16 9)]).any fun w =>
    (clearCalls (prim algos yes) C34.noUnwrap C27.renv 31 C08.u7 C35.bufs w [C35.data]).any fun r => r.2.isSome &&
      (clearCall (.last none) (prim algos yes) C34.noUnwrap C27.renv r.1 31 C08.u7 C35.bufs [1, 2, 3, 4, 5]).any fun r =>
        r.2.any fun x => x.1.length == 16 && x.2 == none) = true := by
  decide +kernel

/-- Of `C85_encrypt_partial` and `C85_decrypt_partial`: AES-GCM; the tag is accepted, another is not. -/
example : ((clearCalls (prim algos yes) C34.noUnwrap C27.renv 31 C08.u7 C35.bufs (both gcm) [C35.data]).any fun r => r.2.any fun cs =>
    (clearCall (.last (some (some (List.replicate 16 0)))) (prim algos yes) C34.noUnwrap C27.renv r.1 31 C08.u7 C35.bufs [1, 2, 3]).any fun r => r.2.any fun x =>
      (clearCalls (prim algos yes) C34.noUnwrap C27.renv 30 C08.u7 C35.bufs (both gcm) cs).any fun d =>
        ((clearCall (.last (some x.2)) (prim algos yes) C34.noUnwrap C27.renv d.1 30 C08.u7 C35.bufs x.1).any fun e => e.2 == some ([1, 2, 3], none)) &&
        ((clearCall (.last (some (some (List.replicate 16 0)))) (prim algos yes) C34.noUnwrap C27.renv d.1 30 C08.u7 C35.bufs x.1).any fun e => e.2 == none)) = true := by
  decide +kernel

/-- Of `C85_chunks_partial`: AES-CTR with another counter. -/
example : ((used (prim algos yes) C34.noUnwrap C27.renv 30 C08.u7 C35.bufs (both C35.ctr) [([C35.data, [1]], List.replicate 16 9), ([], List.replicate 16 8)]).any
    fun w => (clearCalls (prim algos yes) C34.noUnwrap C27.renv 30 C08.u7 C35.bufs w [C35.data.take 3, [7]]).any fun r =>
      r.2 == some [[15, 17, 19], [21]]) = true := by
  decide +kernel

end Sa.C85

import Verif.Props.C55
import Verif.Props.C53
import Verif.Props.C45
import Verif.Model.Mac
import Verif.Model.Cipher
import Verif.Props.C36

/-!
# C65: an algorithm runs only with keys and parameters it is defined for
-/

namespace Sa.C65

/-! ## The kinds of keys, by the numbers of sa_types.h and the documentation of the algorithms -/

/-- A symmetric key with a length out of a list. -/
def Sym (sizes : List Nat) (h : Header) : Prop := h.type.toNat = 0 ∧ h.size.toNat ∈ sizes

/-- A symmetric key for HMAC. -/
def HmacKey (h : Header) : Prop := h.type.toNat = 0 ∧ 16 ≤ h.size.toNat ∧ h.size.toNat ≤ 512

/-- An RSA key of 1024, 2048, 3072 or 4096 bits. -/
def RsaKey (h : Header) : Prop := h.type.toNat = 2 ∧ h.size.toNat ∈ [128, 256, 384, 512]

/-- A Diffie-Hellman key. -/
def DhKey (h : Header) : Prop := h.type.toNat = 3 ∧ 0 < h.size.toNat ∧ h.size.toNat ≤ 512

/-- An EC key on one of the listed curves, with the size of the curve. -/
def EcKey (curves : List (Nat × Nat)) (h : Header) : Prop := h.type.toNat = 1 ∧ (curveOf h.typeParameters, h.size.toNat) ∈ curves

/-- The NIST curves P-256, P-384, P-521, P-192, P-224. -/
def nist : List (Nat × Nat) := [(0, 32), (1, 48), (2, 66), (7, 24), (8, 28)]
/-- Ed25519 and Ed448. -/
def edwards : List (Nat × Nat) := [(3, 32), (5, 57)]
/-- X25519 and X448. -/
def montgomery : List (Nat × Nat) := [(4, 32), (6, 56)]

theorem aes_iff (h : Header) : keyTypeSupportsAes h.type.toNat h.size.toNat = true ↔ Sym [16, 32] h := by
  simp [keyTypeSupportsAes, validAesSize, Sym, KEY_TYPE_SYMMETRIC]
theorem chacha_iff (h : Header) : keyTypeSupportsChacha20 h.type.toNat h.size.toNat = true ↔ Sym [32] h := by
  simp [keyTypeSupportsChacha20, Sym, KEY_TYPE_SYMMETRIC]
theorem hmac_iff (h : Header) : keyTypeSupportsHmac h.type.toNat h.size.toNat = true ↔ HmacKey h := by
  simp [keyTypeSupportsHmac, validHmacSize, HmacKey, KEY_TYPE_SYMMETRIC]
theorem rsa_iff (h : Header) : keyTypeSupportsRsa h.type.toNat h.size.toNat = true ↔ RsaKey h := by
  simp [keyTypeSupportsRsa, validRsaSize, RsaKey, KEY_TYPE_RSA, or_assoc]
theorem dh_iff (h : Header) : keyTypeSupportsDh h.type.toNat h.size.toNat = true ↔ DhKey h := by
  simp [keyTypeSupportsDh, validDhSize, DhKey, KEY_TYPE_DH, and_comm]
theorem ec_iff (h : Header) : keyTypeSupportsEc h.type.toNat (curveOf h.typeParameters) h.size.toNat = true ↔
    EcKey (nist ++ edwards ++ montgomery) h := by
  simp only [keyTypeSupportsEc, validEcSize, EcKey, KEY_TYPE_EC, nist, edwards, montgomery, ecKeySizeFromCurve, CURVE_P192, CURVE_P224, CURVE_P256,
    CURVE_P384, CURVE_P521, CURVE_ED25519, CURVE_X25519, CURVE_ED448, CURVE_X448, Bool.and_eq_true, Bool.or_eq_true, beq_iff_eq,
    List.cons_append, List.nil_append, List.mem_cons, Prod.mk.injEq, List.not_mem_nil, or_false]
  grind
theorem ec_nist (h : Header) (he : keyTypeSupportsEc h.type.toNat (curveOf h.typeParameters) h.size.toNat = true)
    (hp : isPCurve (curveOf h.typeParameters) = true) : EcKey nist h := by
  have := (ec_iff h).1 he
  simp only [EcKey, nist, edwards, montgomery, isPCurve, CURVE_P192, CURVE_P224, CURVE_P256,
    CURVE_P384, CURVE_P521, Bool.or_eq_true, beq_iff_eq,
    List.cons_append, List.nil_append, List.mem_cons, Prod.mk.injEq, List.not_mem_nil, or_false] at this hp ⊢
  omega

/-! ## Signatures -/

/-- What a signature algorithm needs. -/
def SignNeeds : SignParams → Header → Prop
  | .ecdsa q, h => ∃ digest pre, q = some (digest, pre) ∧ digest ≤ 3 ∧ EcKey nist h
  | .eddsa, h => EcKey edwards h
  | .pss q, h => ∃ digest mgf1 salt pre, q = some (digest, mgf1, salt, pre) ∧ digest ≤ 3 ∧ mgf1 ≤ 3 ∧ RsaKey h
  | .pkcs1 q, h => ∃ digest pre, q = some (digest, pre) ∧ digest ≤ 3 ∧ RsaKey h
  | .unknown, _ => False

/-- **C65, sa_crypto_sign**: also if only the length is asked for. -/
theorem C65_sign (p : SignPrims) (env : RightsEnv) (params : SignParams) (sk : StoredKey) (msg : Buf) (out : Bool) (n : Nat)
    (h : (cryptoSign p env params (.OK, some sk) msg out n).status = .OK) : SignNeeds params sk.header := by
  simp only [cryptoSign] at h
  generalize (if out = true then some n else none) = buf at h
  split at h; · cases h
  split at h; · cases h
  rw [if_neg (by simp)] at h
  split at h; · cases h
  cases params with
  | unknown => cases h
  | ecdsa q =>
    cases q with
    | none => cases h
    | some q =>
      obtain ⟨digest, pre⟩ := q
      simp only [signEcdsa] at h
      split at h; · cases h
      split at h; · cases h
      split at h; · cases h
      rename_i h1 h2 h3
      exact ⟨digest, pre, rfl, by omega, ec_nist _ (by simpa using h3) (by simpa using h2)⟩
  | eddsa =>
    simp only [signEddsa] at h
    split at h; · cases h
    split at h; · cases h
    rename_i h1 h2
    have := (ec_iff sk.header).1 (by simpa using h2)
    simp only [SignNeeds, EcKey, nist, edwards, montgomery, CURVE_ED25519, CURVE_ED448,
      List.cons_append, List.nil_append, List.mem_cons, Prod.mk.injEq, List.not_mem_nil, or_false] at this h1 ⊢
    omega
  | pss q =>
    cases q with
    | none => cases h
    | some q =>
      obtain ⟨digest, mgf1, salt, pre⟩ := q
      simp only [signPss] at h
      split at h; · cases h
      split at h; · cases h
      split at h; · cases h
      rename_i h1 h2 h3
      exact ⟨digest, mgf1, salt, pre, rfl, by omega, by omega, (rsa_iff _).1 (by simpa using h3)⟩
  | pkcs1 q =>
    cases q with
    | none => cases h
    | some q =>
      obtain ⟨digest, pre⟩ := q
      simp only [signPkcs1] at h
      split at h; · cases h
      split at h; · cases h
      rename_i h1 h3
      exact ⟨digest, pre, rfl, by omega, (rsa_iff _).1 (by simpa using h3)⟩

/-! ## Ciphers -/

/-- A buffer of exactly n bytes. -/
def Exact (b : Option Bytes) (n : Nat) : Prop := ∃ x, b = some x ∧ x.length = n

theorem exact_of {b : Option Bytes} {n : Nat} (h : ¬ fixedBuf b n ≠ .OK) : Exact b n := by
  cases b with
  | none => simp [fixedBuf] at h
  | some b =>
    refine ⟨b, rfl, ?_⟩
    simp only [fixedBuf] at h
    split at h
    · simp at h
    · omega

/-- What a cipher algorithm needs; 0 is decryption, 1 encryption. -/
def CipherNeeds (mode : Nat) : InitParams → Header → Prop
  | .ecb _, h => Sym [16, 32] h
  | .cbc _ iv, h => Sym [16, 32] h ∧ ∃ x, iv = some x ∧ Exact x 16
  | .ctr c, h => Sym [16, 32] h ∧ ∃ x, c = some x ∧ Exact x 16
  | .gcm q, h => Sym [16, 32] h ∧ ∃ iv aad, q = some (iv, aad) ∧ Exact iv 12 ∧ aad.isBad = false
  | .chacha20 q, h => Sym [32] h ∧ ∃ c n, q = some (c, n) ∧ Exact c 4 ∧ Exact n 12
  | .poly q, h => Sym [32] h ∧ ∃ n aad, q = some (n, aad) ∧ Exact n 12 ∧ aad.isBad = false
  | .pkcs1v15, h => RsaKey h ∧ mode = 0
  | .oaep q, h => RsaKey h ∧ mode = 0 ∧ ∃ d m l, q = some (d, m, l) ∧ l.isBad = false
  | .elgamal, h => EcKey nist h ∧ mode = 0
  | .unknown, _ => False

theorem initAlgorithm_needs {σ : Type} (p : CipherPrim σ) (w : CipherWorld σ) (params : InitParams) (mode keyPtr : Nat) (sk : StoredKey) (env : InitEnv)
    (caller : Uuid) (w' : CipherWorld σ) (c : Nat) (h : initAlgorithm p w params mode keyPtr sk env caller = some (w', .OK, c)) :
    CipherNeeds mode params sk.header := by
  cases params with
  | ecb b =>
    simp only [initAlgorithm] at h
    split at h; · simp at h
    rename_i h1
    exact (aes_iff _).1 (by simpa using h1)
  | cbc b iv =>
    simp only [initAlgorithm] at h
    split at h; · simp at h
    split at h; · simp at h
    split at h; · simp_all
    rename_i h1 _ iv h2
    exact ⟨(aes_iff _).1 (by simpa using h1), _, rfl, exact_of h2⟩
  | ctr iv =>
    simp only [initAlgorithm] at h
    split at h; · simp at h
    split at h; · simp at h
    split at h; · simp_all
    rename_i h1 _ iv h2
    exact ⟨(aes_iff _).1 (by simpa using h1), _, rfl, exact_of h2⟩
  | gcm q =>
    simp only [initAlgorithm] at h
    split at h; · simp at h
    split at h; · simp at h
    split at h; · simp_all
    split at h; · simp at h
    rename_i h1 _ iv aad h2 h3
    exact ⟨(aes_iff _).1 (by simpa using h1), _, _, rfl, exact_of h2, by simpa using h3⟩
  | chacha20 q =>
    simp only [initAlgorithm] at h
    split at h; · simp at h
    split at h; · simp at h
    split at h; · simp_all
    split at h; · simp_all
    rename_i h1 _ c n h2 h3
    exact ⟨(chacha_iff _).1 (by simpa using h1), _, _, rfl, exact_of h3, exact_of h2⟩
  | poly q =>
    simp only [initAlgorithm] at h
    split at h; · simp at h
    split at h; · simp at h
    split at h; · simp_all
    split at h; · simp at h
    rename_i h1 _ iv aad h2 h3
    exact ⟨(chacha_iff _).1 (by simpa using h1), _, _, rfl, exact_of h2, by simpa using h3⟩
  | pkcs1v15 =>
    simp only [initAlgorithm] at h
    split at h; · simp at h
    split at h; · simp at h
    rename_i h1 h2
    exact ⟨(rsa_iff _).1 (by simpa using h1), by simpa [MODE_DECRYPT] using h2⟩
  | oaep q =>
    simp only [initAlgorithm] at h
    split at h; · simp at h
    split at h; · simp at h
    split at h; · simp at h
    split at h; · simp at h
    rename_i _ d m l h0 h1 h2
    exact ⟨(rsa_iff _).1 (by simpa using h1), by simpa [MODE_DECRYPT] using h2, _, _, _, rfl, by simpa using h0⟩
  | elgamal =>
    simp only [initAlgorithm] at h
    split at h; · simp at h
    split at h; · simp at h
    split at h; · simp at h
    rename_i h1 h2 h3
    exact ⟨ec_nist _ (by simpa using h1) (by simpa using h3), by simpa [MODE_DECRYPT] using h2⟩
  | unknown => simp [initAlgorithm] at h

/-- **C65, sa_crypto_cipher_init**. -/
theorem C65_cipher {σ : Type} (p : CipherPrim σ) (w : CipherWorld σ) (params : InitParams) (mode : Nat) (sk : StoredKey) (env : InitEnv)
    (caller : Uuid) (w' : CipherWorld σ) (c : Nat) (h : cipherInit p w params mode (.OK, some sk) env caller = some (w', .OK, c)) :
    CipherNeeds mode params sk.header ∧ mode ≤ 1 := by
  simp only [cipherInit] at h
  split at h; · simp at h
  split at h; · simp at h
  rw [if_neg (by simp)] at h
  rename_i h0 h1
  have hm : mode ≤ 1 := by simp only [MODE_ENCRYPT, MODE_DECRYPT] at h1; omega
  refine ⟨?_, hm⟩
  generalize (if mode = MODE_ENCRYPT then _ else _ : Bool) = allowed at h
  cases allowed with
  | false =>
    simp only [Bool.not_false, if_true, Option.map_eq_some_iff] at h
    obtain ⟨_, _, h⟩ := h
    simp at h
  | true =>
    simp only [Bool.not_true, Bool.false_eq_true, if_false] at h
    split at h
    · cases h
    · rename_i hi
      exact initAlgorithm_needs _ _ _ _ _ _ _ _ _ _ hi
    · rename_i hn _
      simp only [Option.map_eq_some_iff, Prod.mk.injEq] at h
      obtain ⟨_, _, _, h, -⟩ := h
      exact (hn h).elim

/-- **C65, sa_crypto_cipher_update_iv**: 16 bytes, and only the AES modes that have an initialisation vector which can be replaced
(CBC, CBC with padding, CTR). -/
theorem C65_update_iv {σ : Type} (p : CipherPrim σ) (w : CipherWorld σ) (context : Nat) (iv : Option Bytes) (caller : Uuid) (w' : CipherWorld σ)
    (h : cipherUpdateIv p w context iv caller = some (w', .OK)) :
    Exact iv 16 ∧ ∃ st1 ptr o, objectStoreAcquire w.store context caller = (st1, .OK, some ptr) ∧ w.heap ptr = some (.obj o) ∧ o.alg ∈ [2, 3, 4] := by
  cases iv with
  | none => simp [cipherUpdateIv] at h
  | some iv =>
    simp only [cipherUpdateIv] at h
    rcases acquire_fail w.store context caller with ⟨st1, ptr, ha⟩ | ⟨s, hs, ha⟩
    · rw [ha] at h
      simp only at h
      split at h
      · rename_i o ho
        split at h
        · split at h
          · rename_i hal
            split at h; · simp at h
            rename_i hl
            refine ⟨⟨iv, rfl, by omega⟩, st1, ptr, o, ha, ho, ?_⟩
            simp only [CIPHER_AES_CBC, CIPHER_AES_CBC_PKCS7, CIPHER_AES_CTR] at hal
            simp only [List.mem_cons, List.not_mem_nil, or_false]
            exact hal
          · simp at h
        · cases h
      · cases h
    · rw [ha] at h
      simp only [Option.some.injEq, Prod.mk.injEq] at h
      exact absurd h.2 hs

/-- How much input the algorithms with one block take: RSA the size of the key, ElGamal two points. -/
def OneBlock (o : CipherObj) (h : Header) (bytes : Nat) : Prop :=
  (o.alg ∈ [6, 7] → bytes = h.size.toNat) ∧ (o.alg = 8 → bytes = 4 * h.size.toNat)

/-- **C65, sa_crypto_cipher_process with RSA or ElGamal**: exactly one block. -/
theorem C65_process {σ : Type} (p : CipherPrim σ) (u : UnwrapPrims) (env : RightsEnv) (o : CipherObj) (sk : StoredKey) (ctx : Option (SymCtx σ))
    (mem : Mem) (outA inA : Nat) (bytes : UInt64) (h : (processAlgorithm p u env o sk ctx mem outA inA bytes).status = .OK) :
    OneBlock o sk.header bytes.toNat := by
  have hs : sk.header.size.toUInt64.toNat = sk.header.size.toNat := by simp
  have hl : sk.header.size.toNat < 2 ^ 16 ∨ sk.header.size.toNat < 2 ^ 32 := by
    first | exact Or.inl sk.header.size.toNat_lt | exact Or.inr sk.header.size.toNat_lt
  refine ⟨fun ha => ?_, fun ha => ?_⟩
  · have : o.alg = 6 ∨ o.alg = 7 := by simpa using ha
    have h' : (processRsa (σ := σ) u env o sk mem outA inA bytes).status = .OK := by
      unfold processAlgorithm at h
      rw [if_neg (by rcases this with e | e <;> rw [e] <;> decide), if_pos (show o.alg = CIPHER_RSA_PKCS1V15 ∨ o.alg = CIPHER_RSA_OAEP from this)] at h
      exact h
    simp only [processRsa] at h'
    split at h'; · cases h'
    split at h'; · cases h'
    rename_i hb
    rw [Decidable.not_not.1 hb, hs]
  · have h' : (processElgamal (σ := σ) u env o sk mem outA inA bytes).status = .OK := by
      unfold processAlgorithm at h
      rw [if_neg (by rw [ha]; decide), if_neg (by rw [ha]; decide), if_pos (show o.alg = CIPHER_EC_ELGAMAL from ha)] at h
      exact h
    simp only [processElgamal] at h'
    split at h'; · cases h'
    split at h'; · cases h'
    rename_i hb
    rw [Decidable.not_not.1 hb, UInt64.toNat_mul, hs]
    simp only [UInt64.reduceToNat]
    omega

/-- And exactly such a block is decrypted if the cryptographic library can do it. -/
theorem C65_block_accepted {σ : Type} (p : CipherPrim σ) (u : UnwrapPrims) (env : RightsEnv) (o : CipherObj) (sk : StoredKey) (ctx : Option (SymCtx σ))
    (mem : Mem) (outA inA : Nat) (bytes : UInt64) (point : Bytes) (hk : EcKey nist sk.header) (ha : o.alg = 8) (hm : o.mode = 0)
    (hr : rightsAllowedDecrypt env sk.header.rights false = true) (hb : bytes.toNat = 4 * sk.header.size.toNat)
    (hd : u.elgamal sk.key (curveOf sk.header.typeParameters) (readAt mem inA bytes.toNat) = some point) (hp : point.length = 2 * sk.header.size.toNat) :
    (processAlgorithm p u env o sk ctx mem outA inA bytes).status = .OK ∧
    (processAlgorithm p u env o sk ctx mem outA inA bytes).mem = writeAt mem outA (point.take sk.header.size.toNat) := by
  have hs : sk.header.size.toUInt64.toNat = sk.header.size.toNat := by simp
  have hlt : sk.header.size.toNat ≤ 66 ∧ 0 < sk.header.size.toNat := by
    have := hk.2
    simp only [nist, List.mem_cons, Prod.mk.injEq, List.not_mem_nil, or_false] at this
    omega
  have hl : (readAt mem inA bytes.toNat).length = bytes.toNat := by simp [readAt]
  have e : processAlgorithm p u env o sk ctx mem outA inA bytes = ⟨none, writeAt mem outA (point.take sk.header.size.toNat), .OK,
      UInt64.ofNat (point.take sk.header.size.toNat).length, none⟩ := by
    unfold processAlgorithm
    rw [if_neg (by rw [ha]; decide), if_neg (by rw [ha]; decide), if_pos (show o.alg = CIPHER_EC_ELGAMAL from ha)]
    have h1 : ¬ sk.header.size.toUInt64 = 0 := fun hz => by rw [hz] at hs; simp at hs; omega
    have h2 : ¬ bytes ≠ sk.header.size.toUInt64 * 4 := by
      rw [Decidable.not_not]
      apply UInt64.toNat_inj.1
      rw [UInt64.toNat_mul, hs, hb]
      simp only [UInt64.reduceToNat]
      omega
    have h5 : ecDecryptElgamal u bytes.toNat sk (readAt mem inA bytes.toNat) = (.OK, point.take sk.header.size.toNat) := by
      simp only [ecDecryptElgamal]
      rw [if_neg (by omega), if_neg (by omega), hd]
      simp only
      rw [if_neg (by omega)]
    simp only [processElgamal]
    rw [if_neg h1, if_neg h2, if_neg (by rw [hm]; decide), if_neg (by rw [hr]; decide), h5]
  rw [e]
  exact ⟨rfl, rfl⟩

/-! ## Message authentication codes -/

/-- What a MAC algorithm needs: 0 is CMAC, 1 HMAC. -/
def MacNeeds (alg : Nat) (digest : Option Nat) (h : Header) : Prop :=
  (alg = 0 ∧ Sym [16, 32] h) ∨ (alg = 1 ∧ HmacKey h ∧ ∃ d, digest = some d ∧ d ≤ 3)

/-- **C65, sa_crypto_mac_init**. -/
theorem C65_mac {σ : Type} (p : MacPrim σ) (w : MacWorld σ) (alg : Nat) (digest : Option Nat) (sk : StoredKey) (env : RightsEnv) (allocOk : Bool)
    (caller : Uuid) (h : (macInit p w alg digest (.OK, some sk) env allocOk caller).2.status = .OK) : MacNeeds alg digest sk.header := by
  simp only [macInit] at h
  split at h
  · rename_i ha
    split at h; · cases h
    split at h; · simp_all
    split at h; · cases h
    split at h; · cases h
    split at h; · cases h
    rename_i d _ h1 h2 h3
    exact Or.inr ⟨ha, (hmac_iff _).1 (by simpa using h2), d, rfl, by omega⟩
  · split at h
    · rename_i ha
      split at h; · simp_all
      split at h; · cases h
      split at h; · cases h
      rename_i h1 h2
      exact Or.inl ⟨ha, (aes_iff _).1 (by simpa using h2)⟩
    · cases h

/-- **C65, sa_crypto_mac_process_key**: a symmetric key. -/
theorem C65_mac_key {σ : Type} (p : MacPrim σ) (w : MacWorld σ) (context : Nat) (sk : StoredKey) (caller : Uuid) (w' : MacWorld σ) (r : MacResp)
    (h : macProcessKey p w context (.OK, some sk) caller = some (w', r)) (hr : r.status = .OK) : sk.header.type.toNat = 0 := by
  refine Classical.byContradiction fun hn => ?_
  simp only [macProcessKey, withMac] at h
  rcases acquire_fail w.store context caller with ⟨st1, ptr, ha⟩ | ⟨s, hs, ha⟩
  · rw [ha] at h
    simp only at h
    split at h; · cases h
    rw [if_pos (show sk.header.type.toNat ≠ KEY_TYPE_SYMMETRIC from hn)] at h
    obtain ⟨-, rfl⟩ := Prod.mk.inj (Option.some.inj h)
    cases hr
  · rw [ha] at h
    simp only [Option.some.injEq, Prod.mk.injEq] at h
    obtain ⟨-, rfl⟩ := h
    exact hs hr

/-! ## Derivation, unwrapping, exchange -/

/-- The key behind a handle, as the caller gets it. -/
def Behind (env : Env) (st : KeyStore) (handle : Nat) (caller : Uuid) (h : Header) : Prop :=
  ∃ st1 sk, keyStoreUnwrap env st handle caller = some (st1, .OK, some sk) ∧ sk.header = h

theorem withKey_ok {env : Env} {st : KeyStore} {key : Nat} {caller : Uuid} {body : StoredKey → Option (Status × Option StoredKey)} {st' : KeyStore} {x : Nat}
    (h : withKey env st key caller body = some (st', .OK, x)) :
    ∃ st1 sk d, keyStoreUnwrap env st key caller = some (st1, .OK, some sk) ∧ body sk = some (.OK, some d) := by
  simp only [withKey] at h
  split at h
  · cases h
  · rename_i st1 sk hu
    split at h
    · cases h
    · rename_i d hd
      exact ⟨st1, sk, d, hu, hd⟩
    · simp at h
    · rename_i k hn hd hb
      simp only [Option.some.injEq, Prod.mk.injEq] at h
      obtain ⟨-, rfl, -⟩ := h
      cases k with
      | none => exact (hd rfl rfl).elim
      | some d => exact (hn d rfl rfl).elim
  · simp at h
  · rename_i k hn hd hb
    simp only [Option.some.injEq, Prod.mk.injEq] at h
    obtain ⟨-, rfl, -⟩ := h
    cases k with
    | none => exact (hd rfl rfl).elim
    | some d => exact (hn d rfl rfl).elim

theorem deriveFrom_ok {env : Env} {st : KeyStore} {key : Nat} {caller : Uuid} {typeOk : Header → Bool} {kdf : StoredKey → Option (Status × Option StoredKey)}
    {st' : KeyStore} {x : Nat} (h : deriveFrom env st key caller typeOk kdf = some (st', .OK, x)) :
    ∃ st1 sk, keyStoreUnwrap env st key caller = some (st1, .OK, some sk) ∧ sk.header.type.toNat = 0 ∧ typeOk sk.header = true := by
  simp only [deriveFrom] at h
  split at h
  · cases h
  · rename_i st1 sk hu
    split at h; · simp at h
    split at h; · simp at h
    split at h; · simp at h
    rename_i h1 h2 h3
    exact ⟨st1, sk, hu, by simpa [KEY_TYPE_SYMMETRIC] using h2, by simpa using h3⟩
  · simp at h
  · rename_i k hn hd hb
    simp only [Option.some.injEq, Prod.mk.injEq] at h
    obtain ⟨-, rfl, -⟩ := h
    cases k with
    | none => exact (hd rfl rfl).elim
    | some d => exact (hn d rfl rfl).elim

theorem rkl_ok {c : Option Bytes} (h : ¬ (rklComponent c).1 ≠ .OK) : Exact c 16 := by
  cases c with
  | none => simp [rklComponent] at h
  | some b =>
    refine ⟨b, rfl, ?_⟩
    simp only [rklComponent] at h
    split at h
    · assumption
    · simp at h

/-- What a derivation needs. -/
def DeriveNeeds (env : Env) (st : KeyStore) (caller : Uuid) : KdfParams → Prop
  | .rootKeyLadder _ c1 c2 c3 c4 => Exact c1 16 ∧ Exact c2 16 ∧ Exact c3 16 ∧ Exact c4 16
  | .hkdf n d k _ _ => n ≤ 512 ∧ d ≤ 3 ∧ ∃ h, Behind env st k caller h ∧ HmacKey h
  | .concat n d k _ => n ≤ 512 ∧ d ≤ 3 ∧ ∃ h, Behind env st k caller h ∧ h.type.toNat = 0
  | .x963 n d k _ => n ≤ 512 ∧ d ≤ 3 ∧ ∃ h, Behind env st k caller h ∧ h.type.toNat = 0
  | .cmac n c k _ => 1 ≤ c ∧ c ≤ 4 ∧ n % 16 = 0 ∧ n / 16 + c ≤ 5 ∧ ∃ h, Behind env st k caller h ∧ Sym [16, 32] h
  | .netflix e m => ∃ st1 st2 enc mac, keyStoreUnwrap env st e caller = some (st1, .OK, some enc) ∧
      keyStoreUnwrap env st1 m caller = some (st2, .OK, some mac) ∧ enc.header.type.toNat = 0 ∧ mac.header.type.toNat = 0 ∧
      enc.key.length = 16 ∧ mac.key.length = 32
  | .unknown => False

/-- **C65, sa_key_derive**. -/
theorem C65_derive (env : Env) (k : KdfEnv) (st : KeyStore) (rights : Rights) (params : KdfParams) (caller : Uuid) (st' : KeyStore) (x : Nat)
    (h : keyDerive env k st rights params caller = some (st', .OK, x)) : DeriveNeeds env st caller params := by
  cases params with
  | rootKeyLadder b c1 c2 c3 c4 =>
    simp only [keyDerive, deriveRootKeyLadder] at h
    split at h; · simp_all
    split at h; · simp_all
    split at h; · simp_all
    split at h; · simp_all
    rename_i h1 h2 h3 h4
    exact ⟨rkl_ok h1, rkl_ok h2, rkl_ok h3, rkl_ok h4⟩
  | hkdf n d k s i =>
    simp only [keyDerive] at h
    split at h; · simp at h
    split at h; · simp at h
    split at h; · simp at h
    split at h; · simp at h
    obtain ⟨st1, sk, hu, h1, h2⟩ := deriveFrom_ok h
    exact ⟨by omega, by omega, sk.header, ⟨st1, sk, hu, rfl⟩, (hmac_iff _).1 h2⟩
  | concat n d k i =>
    simp only [keyDerive] at h
    split at h; · simp at h
    split at h; · simp at h
    split at h; · simp at h
    obtain ⟨st1, sk, hu, h1, h2⟩ := deriveFrom_ok h
    exact ⟨by omega, by omega, sk.header, ⟨st1, sk, hu, rfl⟩, h1⟩
  | x963 n d k i =>
    simp only [keyDerive] at h
    split at h; · simp at h
    split at h; · simp at h
    split at h; · simp at h
    obtain ⟨st1, sk, hu, h1, h2⟩ := deriveFrom_ok h
    exact ⟨by omega, by omega, sk.header, ⟨st1, sk, hu, rfl⟩, h1⟩
  | cmac n c k i =>
    simp only [keyDerive] at h
    split at h; · simp at h
    split at h; · simp at h
    split at h; · simp at h
    split at h; · simp at h
    obtain ⟨st1, sk, hu, h1, h2⟩ := deriveFrom_ok h
    exact ⟨by omega, by omega, by omega, by omega, sk.header, ⟨st1, sk, hu, rfl⟩, (aes_iff _).1 h2⟩
  | netflix e m =>
    simp only [keyDerive, deriveNetflix] at h
    split at h
    · cases h
    · rename_i st1 enc hu
      split at h; · simp at h
      split at h; · simp at h
      rename_i _ ht
      split at h
      · cases h
      · rename_i st2 mac hu2
        split at h; · simp at h
        split at h; · simp at h
        rename_i _ ht2
        have hl : enc.key.length = 16 ∧ mac.key.length = 32 := by
          refine Classical.byContradiction fun hl => ?_
          have : kdfNetflixWrapping env k rights enc.header.rights enc mac = (.INVALID_PARAMETER, none) := by
            simp only [kdfNetflixWrapping]
            split
            · rfl
            · rename_i hne
              rw [if_pos (fun hm => hl ⟨by simpa using hne, hm⟩)]
          rw [this] at h
          simp at h
        exact ⟨st1, st2, enc, mac, hu, hu2, by simpa [KEY_TYPE_SYMMETRIC] using ht, by simpa [KEY_TYPE_SYMMETRIC] using ht2, hl.1, hl.2⟩
      · simp at h
      · rename_i k hn hd hb
        simp only [Option.some.injEq, Prod.mk.injEq] at h
        obtain ⟨-, rfl, -⟩ := h
        cases k with
        | none => exact (hd rfl rfl).elim
        | some d => exact (hn d rfl rfl).elim
    · simp at h
    · rename_i k hn hd hb
      simp only [Option.some.injEq, Prod.mk.injEq] at h
      obtain ⟨-, rfl, -⟩ := h
      cases k with
      | none => exact (hd rfl rfl).elim
      | some d => exact (hn d rfl rfl).elim
  | unknown => simp [keyDerive] at h

/-- What an unwrapping algorithm needs of the wrapping key, the wrapped bytes and its parameters. -/
def UnwrapNeeds (t : UnwrapTarget) (input : Bytes) : UnwrapParams → Header → Prop
  | .ecb _, h => Sym [16, 32] h ∧ input.length % 16 = 0
  | .cbc _ iv, h => Sym [16, 32] h ∧ input.length % 16 = 0 ∧ ∃ x, iv = some x ∧ Exact x 16
  | .ctr c, h => Sym [16, 32] h ∧ ∃ x, c = some x ∧ Exact x 16
  | .gcm q, h => Sym [16, 32] h ∧ ∃ iv aad tag, q = some (iv, aad, some tag) ∧ Exact iv 12 ∧ aad.isBad = false ∧ tag.length ≤ 16
  | .chacha20 q, h => Sym [32] h ∧ ∃ c n, q = some (c, n) ∧ Exact c 4 ∧ Exact n 12
  | .poly q, h => Sym [32] h ∧ ∃ n aad tag, q = some (n, aad, tag) ∧ Exact n 12 ∧ aad.isBad = false ∧ Exact tag 16
  | .rsa q, h => RsaKey h ∧ t.keyType = 0 ∧ input.length = h.size.toNat ∧ q ≠ some none
  | .elgamal q, h => EcKey nist h ∧ t.keyType = 0 ∧ input.length = 4 * h.size.toNat ∧
      ∃ offset length, q = some (offset, length) ∧ 16 ≤ length.toNat ∧ offset.toNat + length.toNat ≤ h.size.toNat
  | .unknown, _ => False

theorem gate_ok {env : Env} {typeOk : Header → Bool} {f : StoredKey → Option (Status × Option StoredKey)} {wk d : StoredKey}
    (h : unwrapGate env typeOk f wk = some (.OK, some d)) : typeOk wk.header = true ∧ f wk = some (.OK, some d) := by
  simp only [unwrapGate] at h
  split at h; · simp at h
  split at h; · simp at h
  rename_i h2
  exact ⟨by simpa using h2, h⟩

theorem elgamal_needs {env : Env} {u : UnwrapEnv} (hE : ∀ k c i, isPCurve c = false → u.prims.elgamal k c i = none) {t : UnwrapTarget} {offset length : UInt64}
    {input : Bytes} {wk d : StoredKey} (ht : keyTypeSupportsEc wk.header.type.toNat (curveOf wk.header.typeParameters) wk.header.size.toNat = true)
    (h : unwrapEc env u t offset length input wk = some (.OK, some d)) :
    EcKey nist wk.header ∧ input.length = 4 * wk.header.size.toNat ∧ 16 ≤ length.toNat ∧ offset.toNat + length.toNat ≤ wk.header.size.toNat := by
  simp only [unwrapEc] at h
  split at h; · simp at h
  split at h; · simp at h
  split at h; · simp at h
  split at h; · simp at h
  split at h; · simp at h
  split at h; · simp at h
  rename_i h1 h2 h3 h4 h5 h6
  have hs : ecKeySizeFromCurve (curveOf wk.header.typeParameters) = wk.header.size.toNat := by
    have := ((ec_iff _).1 ht).2
    simp only [nist, edwards, montgomery, List.cons_append, List.nil_append, List.mem_cons, Prod.mk.injEq, List.not_mem_nil, or_false] at this
    rcases this with h | h | h | h | h | h | h | h | h <;> rw [h.1, h.2] <;> rfl
  have hl : 16 ≤ length.toNat := by
    have : ¬ length.toNat < (16 : UInt64).toNat := h2
    simpa using this
  have ho := addOverflow_snd offset length (by simpa using h3)
  have hp : isPCurve (curveOf wk.header.typeParameters) = true := by
    refine Classical.byContradiction fun hn => ?_
    have hn : isPCurve (curveOf wk.header.typeParameters) = false := by simpa using hn
    have : ecDecryptElgamal u.prims (ecKeySizeFromCurve (curveOf wk.header.typeParameters)) wk input = (.OPERATION_NOT_ALLOWED, []) := by
      simp only [ecDecryptElgamal, hE _ _ _ hn, hn, Bool.false_eq_true, if_false, ite_self]
    rw [this] at h
    simp at h
  refine ⟨ec_nist _ ht hp, by omega, hl, by omega⟩

/-- **C65, sa_key_unwrap**: the cryptographic library can do ElGamal only on the NIST curves (`hE`; the code reports other curves but does not stop there). -/
theorem C65_unwrap (env : Env) (u : UnwrapEnv) (st : KeyStore) (t : UnwrapTarget) (params : UnwrapParams)
    (hE : (∃ q, params = .elgamal q) → ∀ k c i, isPCurve c = false → u.prims.elgamal k c i = none) (wrapping : Nat) (input : Bytes) (caller : Uuid) (st' : KeyStore) (x : Nat)
    (h : keyUnwrapOp env u st t params wrapping input caller = some (st', .OK, x)) :
    ∃ wk, Behind env st wrapping caller wk ∧ UnwrapNeeds t input params wk := by
  cases params with
  | ecb b =>
    simp only [keyUnwrapOp] at h
    split at h; · simp at h
    obtain ⟨st1, sk, d, hu, hb⟩ := withKey_ok h
    obtain ⟨h1, h2⟩ := gate_ok hb
    exact ⟨_, ⟨_, _, hu, rfl⟩, (aes_iff _).1 h1, by omega⟩
  | cbc b iv =>
    simp only [keyUnwrapOp] at h
    split at h; · simp at h
    split at h; · simp_all
    split at h; · simp at h
    rename_i hf _
    obtain ⟨st1, sk, d, hu, hb⟩ := withKey_ok h
    obtain ⟨h1, h2⟩ := gate_ok hb
    exact ⟨_, ⟨_, _, hu, rfl⟩, (aes_iff _).1 h1, by omega, _, rfl, exact_of hf⟩
  | ctr iv =>
    simp only [keyUnwrapOp] at h
    split at h; · simp at h
    split at h; · simp_all
    rename_i hf
    obtain ⟨st1, sk, d, hu, hb⟩ := withKey_ok h
    obtain ⟨h1, h2⟩ := gate_ok hb
    exact ⟨_, ⟨_, _, hu, rfl⟩, (aes_iff _).1 h1, _, rfl, exact_of hf⟩
  | gcm q =>
    simp only [keyUnwrapOp] at h
    split at h; · simp at h
    split at h; · simp_all
    split at h; · simp at h
    split at h; · simp at h
    split at h; · simp at h
    rename_i hf ha _ tag ht
    obtain ⟨st1, sk, d, hu, hb⟩ := withKey_ok h
    obtain ⟨h1, h2⟩ := gate_ok hb
    exact ⟨_, ⟨_, _, hu, rfl⟩, (aes_iff _).1 h1, _, _, _, rfl, exact_of hf, by simpa using ha, by omega⟩
  | chacha20 q =>
    simp only [keyUnwrapOp] at h
    split at h; · simp at h
    split at h; · simp_all
    split at h; · simp_all
    rename_i hf ha
    obtain ⟨st1, sk, d, hu, hb⟩ := withKey_ok h
    obtain ⟨h1, h2⟩ := gate_ok hb
    exact ⟨_, ⟨_, _, hu, rfl⟩, (chacha_iff _).1 h1, _, _, rfl, exact_of hf, exact_of ha⟩
  | poly q =>
    simp only [keyUnwrapOp] at h
    split at h; · simp at h
    split at h; · simp_all
    split at h; · simp at h
    split at h; · simp_all
    rename_i hf ha ht
    obtain ⟨st1, sk, d, hu, hb⟩ := withKey_ok h
    obtain ⟨h1, h2⟩ := gate_ok hb
    exact ⟨_, ⟨_, _, hu, rfl⟩, (chacha_iff _).1 h1, _, _, _, rfl, exact_of hf, by simpa using ha, exact_of ht⟩
  | rsa q =>
    simp only [keyUnwrapOp] at h
    split at h; · simp at h
    rename_i hk
    obtain ⟨st1, sk, d, hu, hb⟩ := withKey_ok h
    split at hb; · simp at hb
    split at hb; · simp at hb
    split at hb; · simp at hb
    rename_i h1 h2 h3
    refine ⟨_, ⟨_, _, hu, rfl⟩, (rsa_iff _).1 (by simpa using h1), by simpa [KEY_TYPE_SYMMETRIC] using hk, by omega, ?_⟩
    rintro rfl
    simp only [unwrapRsa] at hb
    split at hb <;> simp at hb
  | elgamal q =>
    simp only [keyUnwrapOp] at h
    split at h; · simp at h
    rename_i hk
    split at h; · simp at h
    obtain ⟨st1, sk, d, hu, hb⟩ := withKey_ok h
    obtain ⟨h1, h2⟩ := gate_ok hb
    obtain ⟨e1, e2, e3, e4⟩ := elgamal_needs (hE ⟨_, rfl⟩) h1 h2
    exact ⟨_, ⟨_, _, hu, rfl⟩, e1, by simpa [KEY_TYPE_SYMMETRIC] using hk, e2, _, _, rfl, e3, e4⟩
  | unknown => simp [keyUnwrapOp] at h

/-- **C65, sa_key_exchange with Diffie-Hellman**. -/
theorem C65_dh (env : Env) (a : AgreeEnv) (st : KeyStore) (rights : Rights) (key : Nat) (other : Bytes) (caller : Uuid) (st' : KeyStore) (x : Nat)
    (h : exchangeDh env a st rights key other caller = some (st', .OK, x)) : ∃ k, Behind env st key caller k ∧ DhKey k := by
  simp only [exchangeDh] at h
  obtain ⟨st1, sk, d, hu, hb⟩ := withKey_ok h
  split at hb; · simp at hb
  split at hb; · simp at hb
  rename_i h1
  exact ⟨_, ⟨_, _, hu, rfl⟩, (dh_iff _).1 (by simpa using h1)⟩

/-- **C65, sa_key_exchange with elliptic curves**: not with the keys for signatures. -/
theorem C65_ecdh (env : Env) (a : AgreeEnv) (st : KeyStore) (rights : Rights) (key : Nat) (other : Bytes) (caller : Uuid) (st' : KeyStore) (x : Nat)
    (h : exchangeEcdh env a st rights key other caller = some (st', .OK, x)) : ∃ k, Behind env st key caller k ∧ EcKey (nist ++ montgomery) k := by
  simp only [exchangeEcdh] at h
  obtain ⟨st1, sk, d, hu, hb⟩ := withKey_ok h
  split at hb; · simp at hb
  split at hb; · simp at hb
  rename_i h1
  refine ⟨_, ⟨_, _, hu, rfl⟩, ?_⟩
  have he := (ec_iff _).1 (by simpa using h1)
  simp only [ecComputeSharedSecret] at hb
  split at hb; · simp at hb
  rename_i hc
  simp only [EcKey, nist, edwards, montgomery, CURVE_ED25519, CURVE_ED448, List.cons_append, List.nil_append, List.mem_cons, Prod.mk.injEq, List.not_mem_nil,
    or_false] at he hc ⊢
  omega

/-- **C65, sa_key_exchange for Netflix**. -/
theorem C65_netflix (envs : Nat → Env) (k : KdfEnv) (a : AgreeEnv) (st : KeyStore) (rights : Rights) (key : Nat) (other : Bytes) (params : NetflixParams)
    (caller : Uuid) (o : NetflixOut) (h : exchangeNetflix envs k a st rights key other params caller = some o) (ho : o.status = .OK) :
    ∃ st1 st2 kw sk, keyStoreUnwrap (envs 0) st params.kw caller = some (st1, .OK, some kw) ∧ keyStoreUnwrap (envs 1) st1 key caller = some (st2, .OK, some sk) ∧
      kw.header.type.toNat = 0 ∧ kw.key.length = 16 ∧ DhKey sk.header := by
  simp only [exchangeNetflix, Option.bind_eq_some_iff] at h
  obtain ⟨o', hb, hc⟩ := h
  have ho' : o'.status = .OK := by
    simp only [netflixCleanup] at hc
    split at hc
    · simp only [Option.bind_eq_some_iff, Option.map_eq_some_iff] at hc
      obtain ⟨_, _, _, _, _, _, rfl⟩ := hc
      exact ho
    · rename_i hn
      exact Decidable.not_not.1 hn
  simp only [netflixBody] at hb
  split at hb
  · cases hb
  · rename_i st1 kw hu
    split at hb; · (cases hb; cases ho')
    split at hb; · (cases hb; cases ho')
    rename_i h1 h2
    split at hb
    · cases hb
    · rename_i st2 sk hu2
      split at hb; · (cases hb; cases ho')
      split at hb; · (cases hb; cases ho')
      rename_i h3 h4
      refine ⟨st1, st2, kw, sk, hu, hu2, by simpa [KEY_TYPE_SYMMETRIC] using h2, ?_, (dh_iff _).1 (by simpa using h4)⟩
      refine Classical.byContradiction fun hl => ?_
      split at hb
      · rename_i secret _
        have : kdfNetflixSharedSecret (envs 3) (envs 4) k params.rightsKe params.rightsKh kw secret = (.INVALID_PARAMETER, none, none) := by
          simp only [kdfNetflixSharedSecret]
          rw [if_pos hl]
        rw [this] at hb
        cases hb; cases ho'
      · cases hb; cases ho'
    · cases hb; cases ho'
    · rename_i k hn hd _
      cases hb
      cases ho'
      cases k with
      | none => exact (hd rfl rfl).elim
      | some d => exact (hn d rfl rfl).elim
  · cases hb; cases ho'
  · rename_i k hn hd _
    cases hb
    cases ho'
    cases k with
    | none => exact (hd rfl rfl).elim
    | some d => exact (hn d rfl rfl).elim

/-! ## Concrete cases -/

/-- Signatures: Ed25519 signs; an X25519 key does not, an RSA key does not sign with ECDSA. -/
example : (cryptoSign C55.toySign C27.renv .eddsa (.OK, some (C55.keyOf 1 3 32)) (.bytes [1]) true 64).status = .OK ∧
    (cryptoSign C55.toySign C27.renv .eddsa (.OK, some (C55.keyOf 1 4 32)) (.bytes [1]) true 64).status = .INVALID_PARAMETER ∧
    (cryptoSign C55.toySign C27.renv (.ecdsa (some (1, false))) (.OK, some (C55.keyOf 2 0 256)) (.bytes [1]) true 100).status = .INVALID_KEY_TYPE := by
  decide +kernel

/-- A world with an AES-CTR context 31 and an RSA context 30. -/
def world : CipherWorld Unit := ((cipherNew Unit 32).bind fun w => cipherRun C36.idCipher w (C36.ops.take 2)).getD ⟨⟨⟨[], 0⟩, [], 0, false, 0⟩, fun _ => none, 0⟩

example : ((cipherInit C36.idCipher world (.ctr (some (some (List.replicate 16 1)))) 0 C27.key C36.ienv C08.u7).map fun r => r.2.1) = some .OK ∧
    ((cipherInit C36.idCipher world (.ctr (some (some (List.replicate 15 1)))) 0 C27.key C36.ienv C08.u7).map fun r => r.2.1) = some .INVALID_PARAMETER ∧
    ((cipherInit C36.idCipher world (.ctr (some (some (List.replicate 16 1)))) 0 (.OK, some C36.rsaKey) C36.ienv C08.u7).map fun r => r.2.1) =
      some .INVALID_KEY_TYPE := by decide +kernel

example : ((cipherUpdateIv C36.idCipher world 31 (some (List.replicate 16 1)) C08.u7).map fun r => r.2) = some .OK ∧
    ((cipherUpdateIv C36.idCipher world 31 (some (List.replicate 12 1)) C08.u7).map fun r => r.2) = some .INVALID_PARAMETER ∧
    ((cipherUpdateIv C36.idCipher world 30 (some (List.replicate 16 1)) C08.u7).map fun r => r.2) = some .INVALID_PARAMETER := by decide +kernel

/-- A library that decrypts ElGamal on the curve P-256. -/
def elgamalU : UnwrapPrims := { C53.toyU with elgamal := fun _ c i => if isPCurve c then some (i.take 64) else none }

/-- A block of two points of P-256 meets the hypotheses of `C65_block_accepted`. -/
example : EcKey nist (C55.keyOf 1 0 32).header ∧ rightsAllowedDecrypt C27.renv (C55.keyOf 1 0 32).header.rights false = true ∧
    (128 : UInt64).toNat = 4 * (C55.keyOf 1 0 32).header.size.toNat ∧
    elgamalU.elgamal [1, 2, 3] (curveOf (C55.keyOf 1 0 32).header.typeParameters) (readAt (fun _ => 5) 7 128) = some (List.replicate 64 5) ∧
    (processAlgorithm (σ := Unit) C36.idCipher elgamalU C27.renv ⟨8, 0, none, some 1, none⟩ (C55.keyOf 1 0 32) none (fun _ => 5) 1000 7 128).status = .OK := by
  refine ⟨⟨by decide +kernel, by decide +kernel⟩, by decide +kernel, by decide +kernel, by decide +kernel, by decide +kernel⟩

/-- And the RSA block of `C65_process`. -/
example : (processAlgorithm (σ := Unit) C36.idCipher { C53.toyU with rsaPkcs1 := fun _ _ => some [1, 2] } C27.renv ⟨6, 0, none, some 1, none⟩ (C55.keyOf 2 0 256) none
      (fun _ => 5) 1000 7 256).status = .OK := by decide +kernel

example : (macNew _ 32).any (fun w => (macInit C27.toyPrim w 1 (some 1) C27.key C27.renv true C08.u7).2.status == .OK &&
    (macInit C27.toyPrim w 1 (some 1) (.OK, some C36.rsaKey) C27.renv true C08.u7).2.status == .INVALID_KEY_TYPE &&
    (macProcessKey C27.toyPrim (macInit C27.toyPrim w 1 (some 1) C27.key C27.renv true C08.u7).1 31 C27.key C08.u7).any (fun r => r.2.status == .OK)) = true := by
  decide +kernel

/-- Derivation: HKDF from the key of 16 bytes in the store of C29. -/
example : ∃ st, C29.stP = some st ∧ DeriveNeeds C08.env0 st C08.u7 (.hkdf 50 0 31 .null (.bytes [1, 2])) := by
  obtain ⟨st, pk, h0, hu, hf, hs, _, _, hfree⟩ := C29.stP_usable
  obtain ⟨st', h, he⟩ := C29.C29_supported C08.env0 C08.toy_good (fun _ => rfl) C29.kenv C29.toyKdf_good ⟨rfl, fun _ => rfl⟩ st (C29.stP_reachable st h0)
    rightsAllowAll (by decide +kernel) 50 0 31 (by omega) (by omega) .null (.bytes [1, 2]) (by simp) C08.u7 pk hu hf hs hfree
  exact ⟨st, h0, C65_derive _ _ _ _ _ _ _ _ he⟩

/-- Unwrapping with the same key. -/
example : ∃ st wk, C29.stP = some st ∧ Behind C08.env0 st 31 C08.u7 wk ∧
    UnwrapNeeds C53.sym (List.replicate 20 9) (.ctr (some (some (List.replicate 16 3)))) wk := by
  obtain ⟨st, wk, h0, hre, hu, hal, hs, hk, hsz, hfree⟩ := C53.stP_unwraps
  obtain ⟨st', h, he⟩ := C53.C53_complete C08.env0 C08.toy_good (fun _ => rfl) C53.uenv C53.toyU_good ⟨rfl, rfl⟩ st hre C53.sym (by decide +kernel) rfl
    (.ctr (some (some (List.replicate 16 3)))) 31 (List.replicate 20 9) C08.u7 (by simp [UnwrapAcceptable]) wk hu ⟨hs, Or.inl hsz⟩ hal
    (Or.inl (by rw [hk, hsz]; rfl)) (List.replicate 20 17) (by simp)
    (by simp only [UnwrapClear]; rw [hk]; decide) trivial hfree
  obtain ⟨k, hb, hn⟩ := C65_unwrap _ C53.uenv _ _ _ (fun h => by obtain ⟨_, h⟩ := h; cases h) _ _ _ _ _ he
  exact ⟨st, k, h0, hb, hn⟩

/-- Diffie-Hellman with the DH key in the store of C45. -/
example : ∃ st st' h, C45.stN C45.exchangeOnly = some st ∧ exchangeDh C08.env0 C45.agree st rightsAllowAll 30 [7] C08.u7 = some (st', .OK, h) := by
  obtain ⟨st, kw, sk, hst, hu0, hu1, hkw, hsk, hfree⟩ := C45.stN_usable
  simp only [C45.skOk, Bool.and_eq_true, beq_iff_eq] at hsk
  obtain ⟨⟨⟨e, f⟩, g⟩, _⟩ := hsk
  have hd : ∃ d, storedKeyCreate (C08.env0.ok .storedKeyAlloc) rightsAllowAll (some sk.header.rights) KEY_TYPE_SYMMETRIC (Vector.replicate 1040 0) 16
      (List.replicate 16 11) = (.OK, some d) := by
    unfold storedKeyCreate
    rw [if_neg (by decide +kernel), if_neg (by decide +kernel), if_neg (by simp [C08.env0])]
    exact ⟨_, rfl⟩
  obtain ⟨d, hd⟩ := hd
  obtain ⟨st', h, he⟩ := withKey_succeeds C08.env0 C08.toy_good (fun _ => rfl) st (C45.stN_reachable _ st hst) 30 C08.u7
    (fun sk => if !rightsAllowedExchange C08.env0.rights sk.header.rights then some (.OPERATION_NOT_ALLOWED, none)
      else if !keyTypeSupportsDh sk.header.type.toNat sk.header.size.toNat then some (.INVALID_KEY_TYPE, none)
      else match dhComputeSharedSecret C08.env0 C45.agree rightsAllowAll [7] sk with
        | (.OK, k) => some (.OK, k)
        | (_, _) => some (.INVALID_PARAMETER, none)) sk d hu1 (by
      rw [if_neg (by simp [e]), if_neg (by simp [f])]
      have : dhComputeSharedSecret C08.env0 C45.agree rightsAllowAll [7] sk = (.OK, some d) := by
        simp only [dhComputeSharedSecret, C45.agree, g]
        exact hd
      rw [this]) ⟨_, _, _, _, _, _, by simp, hd⟩ ⟨0, hfree 0 (by simp)⟩
  exact ⟨st, st', h, hst, he⟩

/-- A store with an EC key on P-256. -/
def ecOps : List KsOp := [.create C08.env0 rightsAllowAll none KEY_TYPE_EC (tpOfCurve 0) 32 [4, 4, 4] C08.u7]
def stE : Option KeyStore := (objectStoreInit WrappedKey 32).bind fun st => ksAfter C08.toy st ecOps

theorem stE_reachable : ∀ st, stE = some st → KsReachable C08.toy st := by
  intro st h
  unfold stE at h
  cases h0 : objectStoreInit WrappedKey 32 with
  | none => rw [h0] at h; simp at h
  | some s0 =>
    rw [h0] at h
    exact ⟨32, s0, ecOps, by decide, h0, by simp [ecOps, KsOp.Fits], h⟩

def ekOk (k : StoredKey) : Bool :=
  rightsAllowedExchange C08.env0.rights k.header.rights && keyTypeSupportsEc k.header.type.toNat (curveOf k.header.typeParameters) k.header.size.toNat &&
    curveOf k.header.typeParameters == 0 && k.key == [4, 4, 4]

/-- ECDH with it. -/
example : ∃ st st' h, stE = some st ∧ exchangeEcdh C08.env0 { C45.agree with ecdh := fun _ _ _ => .secret (List.replicate 32 7) } st rightsAllowAll 31 [7] C08.u7 =
    some (st', .OK, h) := by
  have h1 : (stE.map fun st => decide (30 < st.slotCount) && (st.obj 30).object.isNone) = some true := by decide +kernel
  have h2 : (stE.bind fun st => keyStoreUnwrap C08.env0 st 31 C08.u7).any (fun r => r.2.1 == .OK && r.2.2.any ekOk) = true := by decide +kernel
  cases h : stE with
  | none => rw [h] at h1; simp at h1
  | some st =>
    rw [h] at h1 h2
    have hr : KsReachable C08.env0.prims st := stE_reachable st h
    rcases unwrap_holds C08.env0 C08.toy_good st (ksReachable_inv _ C08.toy_good st hr) 31 C08.u7 with ⟨s, hs, he⟩ | ⟨sk, he, _⟩
    · simp [he] at h2
    simp only [Option.bind_some, he, Option.any_some, Bool.and_eq_true, ekOk, beq_iff_eq] at h2
    obtain ⟨-, ⟨⟨e, f⟩, c⟩, g⟩ := h2
    simp only [Option.map_some, Option.some.injEq, Bool.and_eq_true, decide_eq_true_eq, Option.isNone_iff_eq_none] at h1
    have hd : ∃ d, storedKeyCreate (C08.env0.ok .storedKeyAlloc) rightsAllowAll (some sk.header.rights) KEY_TYPE_SYMMETRIC (Vector.replicate 1040 0) 32
        (List.replicate 32 7) = (.OK, some d) := by
      unfold storedKeyCreate
      rw [if_neg (by decide +kernel), if_neg (by decide +kernel), if_neg (by simp [C08.env0])]
      exact ⟨_, rfl⟩
    obtain ⟨d, hd⟩ := hd
    obtain ⟨st', h', hw⟩ := withKey_succeeds C08.env0 C08.toy_good (fun _ => rfl) st hr 31 C08.u7 (fun sk =>
      if !rightsAllowedExchange C08.env0.rights sk.header.rights then some (.OPERATION_NOT_ALLOWED, none)
      else if !keyTypeSupportsEc sk.header.type.toNat (curveOf sk.header.typeParameters) sk.header.size.toNat then some (.INVALID_KEY_TYPE, none)
      else some (ecComputeSharedSecret C08.env0 { C45.agree with ecdh := fun _ _ _ => .secret (List.replicate 32 7) } rightsAllowAll [7] sk)) sk d he (by
        rw [if_neg (by simp [e]), if_neg (by simp [f])]
        have : ecComputeSharedSecret C08.env0 { C45.agree with ecdh := fun _ _ _ => .secret (List.replicate 32 7) } rightsAllowAll [7] sk = (.OK, some d) := by
          simp only [ecComputeSharedSecret, c]
          rw [if_neg (by decide)]
          exact hd
        rw [this]) ⟨_, _, _, _, _, _, by simp, hd⟩ ⟨30, h1⟩
    exact ⟨st, st', h', rfl, hw⟩

example : ∃ st o, C45.stN C45.exchangeOnly = some st ∧
    exchangeNetflix (fun _ => C08.env0) C29.kenv C45.agree st rightsAllowAll 30 [7] C45.nparams C08.u7 = some o ∧ o.status = .OK := C45.stN_succeeds

end Sa.C65

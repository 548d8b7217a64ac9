import Verif.Model.Evp
import Verif.Model.CipherSpec

/-!
# Lemmas about contexts made by `symmetric_create_*_context`
-/

namespace Sa.Evp

/-- What the rest of the model knows of a context. -/
def algOf (s : Ctx) : Nat :=
  match s.cipher with
  | some (.block .ecb _) => if s.padding then CIPHER_AES_ECB_PKCS7 else CIPHER_AES_ECB
  | some (.block .cbc _) => if s.padding then CIPHER_AES_CBC_PKCS7 else CIPHER_AES_CBC
  | some (.ctr _) => CIPHER_AES_CTR
  | some (.gcm _) => CIPHER_AES_GCM
  | some .chacha20 => CIPHER_CHACHA20
  | some .poly => CIPHER_CHACHA20_POLY1305
  | none => 99

def modeOf (enc : Bool) : Nat := if enc then MODE_ENCRYPT else MODE_DECRYPT

theorem modeOf_enc {b : Bool} : modeOf b = MODE_ENCRYPT ↔ b = true := by cases b <;> decide

def view (s : Ctx) : CipherView := ⟨algOf s, modeOf s.enc, s.held.length⟩

theorem xorWith_length (c b : Bytes) : (xorWith c b).length = b.length := by unfold xorWith; simp

theorem xorStream_length (ks : Nat → UInt8) (i : Nat) (b : Bytes) : (xorStream ks i b).length = b.length := by unfold xorStream; simp

theorem u8_xor_cancel (x y : UInt8) : x ^^^ y ^^^ y = x := by
  apply UInt8.toBitVec_inj.mp
  simp [BitVec.xor_assoc]

theorem xorWith_twice (c b : Bytes) : xorWith c (xorWith c b) = b := by
  apply List.ext_getElem?
  intro i
  unfold xorWith
  simp only [List.getElem?_mapIdx, Option.map_map]
  cases b[i]? with
  | none => rfl
  | some x => simp only [Option.map_some, Function.comp, u8_xor_cancel]

theorem xorStream_twice (ks : Nat → UInt8) (i : Nat) (b : Bytes) : xorStream ks i (xorStream ks i b) = b := by
  apply List.ext_getElem?
  intro j
  unfold xorStream
  simp only [List.getElem?_mapIdx, Option.map_map]
  cases b[j]? with
  | none => rfl
  | some x => simp only [Option.map_some, Function.comp, u8_xor_cancel]

theorem encBlocks_length {A : Algos} (hA : A.Good) (m : BlockMode) (key : Bytes) : ∀ (n : Nat) (chain b : Bytes), n * 16 ≤ b.length →
    (encBlocks A m key n chain b).1.length = n * 16
  | 0, _, _, _ => by simp [encBlocks]
  | n + 1, chain, b, h => by
    have hl : (b.take 16).length = 16 := by rw [List.length_take]; omega
    have hx : ∀ x, x.length = 16 → (A.enc key x).length = 16 := hA.encLen key
    unfold encBlocks
    simp only
    rw [List.length_append, encBlocks_length hA m key n _ _ (by rw [List.length_drop]; omega)]
    cases m
    · rw [hx _ hl]; omega
    · simp only; rw [hx _ (by rw [xorWith_length, hl])]; omega

theorem decBlocks_length {A : Algos} (hA : A.Good) (m : BlockMode) (key : Bytes) : ∀ (n : Nat) (chain b : Bytes), n * 16 ≤ b.length →
    (decBlocks A m key n chain b).1.length = n * 16
  | 0, _, _, _ => by simp [decBlocks]
  | n + 1, chain, b, h => by
    have hl : (b.take 16).length = 16 := by rw [List.length_take]; omega
    have hx : (A.dec key (b.take 16)).length = 16 := hA.decLen key _ hl
    unfold decBlocks
    simp only
    rw [List.length_append, decBlocks_length hA m key n _ _ (by rw [List.length_drop]; omega)]
    cases m
    · simp only; rw [hx]; omega
    · simp only; rw [xorWith_length, hx]; omega

theorem encBlocks_succ (A : Algos) (m : BlockMode) (key : Bytes) (n : Nat) (chain b : Bytes) : encBlocks A m key (n + 1) chain b =
    (A.enc key (match m with | .ecb => b.take 16 | .cbc => xorWith chain (b.take 16)) ++
      (encBlocks A m key n (A.enc key (match m with | .ecb => b.take 16 | .cbc => xorWith chain (b.take 16))) (b.drop 16)).1,
     (encBlocks A m key n (A.enc key (match m with | .ecb => b.take 16 | .cbc => xorWith chain (b.take 16))) (b.drop 16)).2) := rfl

theorem decBlocks_succ (A : Algos) (m : BlockMode) (key : Bytes) (n : Nat) (chain b : Bytes) : decBlocks A m key (n + 1) chain b =
    ((match m with | .ecb => A.dec key (b.take 16) | .cbc => xorWith chain (A.dec key (b.take 16))) ++
      (decBlocks A m key n (b.take 16) (b.drop 16)).1, (decBlocks A m key n (b.take 16) (b.drop 16)).2) := rfl

theorem encBlocks_add (A : Algos) (m : BlockMode) (key : Bytes) (k : Nat) : ∀ (n : Nat) (chain b : Bytes),
    encBlocks A m key (n + k) chain b =
      ((encBlocks A m key n chain b).1 ++ (encBlocks A m key k (encBlocks A m key n chain b).2 (b.drop (n * 16))).1,
       (encBlocks A m key k (encBlocks A m key n chain b).2 (b.drop (n * 16))).2)
  | 0, chain, b => by simp [encBlocks]
  | n + 1, chain, b => by
    rw [show n + 1 + k = (n + k) + 1 by omega]
    rw [encBlocks_succ, encBlocks_succ A m key n, encBlocks_add A m key k n]
    simp only
    rw [List.drop_drop, show 16 + n * 16 = (n + 1) * 16 by omega]
    simp only [List.append_assoc]

theorem decBlocks_add (A : Algos) (m : BlockMode) (key : Bytes) (k : Nat) : ∀ (n : Nat) (chain b : Bytes),
    decBlocks A m key (n + k) chain b =
      ((decBlocks A m key n chain b).1 ++ (decBlocks A m key k (decBlocks A m key n chain b).2 (b.drop (n * 16))).1,
       (decBlocks A m key k (decBlocks A m key n chain b).2 (b.drop (n * 16))).2)
  | 0, chain, b => by simp [decBlocks]
  | n + 1, chain, b => by
    rw [show n + 1 + k = (n + k) + 1 by omega]
    rw [decBlocks_succ, decBlocks_succ A m key n, decBlocks_add A m key k n]
    simp only
    rw [List.drop_drop, show 16 + n * 16 = (n + 1) * 16 by omega]
    simp only [List.append_assoc]

/-- Only the first `n` blocks count. -/
theorem encBlocks_take (A : Algos) (m : BlockMode) (key : Bytes) : ∀ (n : Nat) (chain b c : Bytes), n * 16 ≤ b.length →
    encBlocks A m key n chain (b ++ c) = encBlocks A m key n chain b
  | 0, _, _, _, _ => rfl
  | n + 1, chain, b, c, h => by
    unfold encBlocks
    simp only
    rw [List.take_append_of_le_length (by omega), List.drop_append_of_le_length (by omega), encBlocks_take A m key n _ _ _ (by rw [List.length_drop]; omega)]

theorem decBlocks_take (A : Algos) (m : BlockMode) (key : Bytes) : ∀ (n : Nat) (chain b c : Bytes), n * 16 ≤ b.length →
    decBlocks A m key n chain (b ++ c) = decBlocks A m key n chain b
  | 0, _, _, _, _ => rfl
  | n + 1, chain, b, c, h => by
    unfold decBlocks
    simp only
    rw [List.take_append_of_le_length (by omega), List.drop_append_of_le_length (by omega), decBlocks_take A m key n _ _ _ (by rw [List.length_drop]; omega)]

/-- Decryption inverts encryption. -/
theorem dec_enc {A : Algos} (hA : A.Good) (m : BlockMode) (key : Bytes) : ∀ (n : Nat) (chain b : Bytes), n * 16 ≤ b.length →
    decBlocks A m key n chain (encBlocks A m key n chain b).1 = (b.take (n * 16), (encBlocks A m key n chain b).2)
  | 0, chain, b, _ => by simp [decBlocks, encBlocks]
  | n + 1, chain, b, h => by
    have hl : (b.take 16).length = 16 := by rw [List.length_take]; omega
    have hh : b.take ((n + 1) * 16) = b.take 16 ++ (b.drop 16).take (n * 16) := by
      rw [show (n + 1) * 16 = 16 + n * 16 by omega, List.take_add]
    unfold encBlocks decBlocks
    simp only
    cases m with
    | ecb =>
      simp only
      have hx := hA.encLen key _ hl
      rw [List.take_append_of_le_length (by omega), List.drop_append_of_le_length (by omega), List.take_of_length_le (by omega),
        List.drop_of_length_le (by omega), List.nil_append, dec_enc hA _ key n _ _ (by rw [List.length_drop]; omega), hA.decEnc key _ hl, hh]
    | cbc =>
      simp only
      have hl' : (xorWith chain (b.take 16)).length = 16 := by rw [xorWith_length, hl]
      have hx := hA.encLen key _ hl'
      rw [List.take_append_of_le_length (by omega), List.drop_append_of_le_length (by omega), List.take_of_length_le (by omega),
        List.drop_of_length_le (by omega), List.nil_append, dec_enc hA _ key n _ _ (by rw [List.length_drop]; omega), hA.decEnc key _ hl',
        xorWith_twice, hh]

/-! ## Creation -/

/-- The cipher for an algorithm and a key. -/
def cipherOf (alg : Nat) (key : Bytes) : Cipher :=
  if alg = CIPHER_AES_ECB ∨ alg = CIPHER_AES_ECB_PKCS7 then .block .ecb (key.length * 8)
  else if alg = CIPHER_AES_CBC ∨ alg = CIPHER_AES_CBC_PKCS7 then .block .cbc (key.length * 8)
  else if alg = CIPHER_AES_CTR then .ctr (key.length * 8)
  else if alg = CIPHER_AES_GCM then .gcm (key.length * 8)
  else if alg = CIPHER_CHACHA20 then .chacha20
  else .poly

/-- The IV for an algorithm. -/
def ivOf (alg : Nat) (p : SymParams) : Bytes :=
  if alg = CIPHER_AES_ECB ∨ alg = CIPHER_AES_ECB_PKCS7 then []
  else if alg = CIPHER_CHACHA20 then p.counter ++ p.iv
  else p.iv

/-- The additional data that OpenSSL sees. -/
def aadOf (alg : Nat) (p : SymParams) : Bytes := if isAead alg then p.aad.take (p.aad.length % 2 ^ 32) else []

/-- A context as it should be when it is new. -/
def opened (alg mode : Nat) (key : Bytes) (p : SymParams) : Ctx :=
  { cipher := some (cipherOf alg key), enc := mode == MODE_ENCRYPT, key := key, iv := ivOf alg p, ivLen := (ivOf alg p).length,
    padding := isPkcs7Alg alg, aad := aadOf alg p, chain := ivOf alg p, held := [], done := [], tag := none, finished := false, oob := false }

/-- What the lengths have to be. -/
def Fits (alg : Nat) (key : Bytes) (p : SymParams) : Prop :=
  if alg = CIPHER_AES_ECB ∨ alg = CIPHER_AES_ECB_PKCS7 then key.length = 16 ∨ key.length = 32
  else if alg = CIPHER_AES_CBC ∨ alg = CIPHER_AES_CBC_PKCS7 ∨ alg = CIPHER_AES_CTR then (key.length = 16 ∨ key.length = 32) ∧ p.iv.length = 16
  else if alg = CIPHER_AES_GCM then (key.length = 16 ∨ key.length = 32) ∧ p.iv.length = 12 ∧ p.aad.length % 2 ^ 32 < 2 ^ 31
  else if alg = CIPHER_CHACHA20 then key.length = 32 ∧ p.iv.length = 12 ∧ p.counter.length = 4
  else alg = CIPHER_CHACHA20_POLY1305 ∧ key.length = 32 ∧ p.iv.length = 12 ∧ p.aad.length % 2 ^ 32 < 2 ^ 31

theorem aesBits_some (key : Bytes) (h : key.length = 16 ∨ key.length = 32) : aesBits key = some (key.length * 8) := by
  unfold aesBits
  rcases h with h | h <;> rw [h] <;> rfl

theorem aesBits_none (key : Bytes) (h : ¬ (key.length = 16 ∨ key.length = 32)) : aesBits key = none := by
  unfold aesBits
  rw [if_neg (fun h1 => h (Or.inl h1)), if_neg (fun h1 => h (Or.inr h1))]

/-- All calls succeed. -/
def AllOk (ok : Nat → Bool) : Prop := ∀ n, ok n = true

theorem make_cases (ok : Nat → Bool) (alg mode : Nat) (fs : List (Ctx → Option Ctx)) :
    make ok alg mode fs = ⟨none, 0⟩ ∨ ∃ s, calls (fun _ => true) 2 fs new = some s ∧ make ok alg mode fs = ⟨some ⟨alg, mode, s⟩, 2⟩ := by
  have h : ∀ (fs : List (Ctx → Option Ctx)) n k s s', calls ok n fs s = some s' → calls (fun _ => true) k fs s = some s' := by
    intro fs
    induction fs with
    | nil => intro n k s s' h; exact h
    | cons f fs ih =>
      intro n k s s' h
      unfold calls at h ⊢
      split at h
      · simp at h
      · rw [if_neg (by simp)]
        cases hf : f s with
        | none => rw [hf] at h; simp at h
        | some t =>
          rw [hf] at h
          simp only [Option.bind_some] at h ⊢
          exact ih _ _ _ _ h
  unfold make
  split
  · exact Or.inl rfl
  · split
    · exact Or.inl rfl
    · split
      · exact Or.inl rfl
      · rename_i s hs
        exact Or.inr ⟨s, h _ _ _ _ _ hs, rfl⟩

theorem make_ok {ok : Nat → Bool} (hok : AllOk ok) (alg mode : Nat) (fs : List (Ctx → Option Ctx)) :
    make ok alg mode fs = match calls (fun _ => true) 2 fs new with
      | none => ⟨none, 0⟩
      | some s => ⟨some ⟨alg, mode, s⟩, 2⟩ := by
  have : ok = fun _ => true := funext hok
  subst this
  unfold make
  simp only [Bool.not_true, Bool.false_eq_true, if_false]
  rfl

/-- A function that makes a context makes the one that is meant, or none. -/
def Makes (ok : Nat → Bool) (alg mode : Nat) (key : Bytes) (p : SymParams) (m : Made) : Prop :=
  (m = ⟨none, 0⟩ ∨ (Fits alg key p ∧ m = ⟨some ⟨alg, mode, opened alg mode key p⟩, 2⟩)) ∧
  (Fits alg key p → AllOk ok → m = ⟨some ⟨alg, mode, opened alg mode key p⟩, 2⟩)

theorem makes_of (ok : Nat → Bool) (alg mode : Nat) (key : Bytes) (p : SymParams) (fs : List (Ctx → Option Ctx)) 
    (h1 : Fits alg key p → calls (fun _ => true) 2 fs new = some (opened alg mode key p))
    (h2 : ∀ s, calls (fun _ => true) 2 fs new = some s → Fits alg key p) : Makes ok alg mode key p (make ok alg mode fs) := by
  constructor
  · rcases make_cases ok alg mode fs with h | ⟨s, hs, h⟩
    · exact Or.inl h
    · have hf := h2 s hs
      rw [h1 hf] at hs
      simp only [Option.some.injEq] at hs
      subst hs
      exact Or.inr ⟨hf, h⟩
  · intro hf hok
    rw [make_ok hok, h1 hf]

theorem makes_none (ok : Nat → Bool) (alg mode : Nat) (key : Bytes) (p : SymParams) (h : ¬ Fits alg key p) : Makes ok alg mode key p ⟨none, 0⟩ :=
  ⟨Or.inl rfl, fun hf => absurd hf h⟩

theorem take_len {α : Type} (l : List α) (n : Nat) (h : l.length = n) : l.take n = l := List.take_of_length_le (by omega)

theorem take_all {α : Type} (l : List α) : l.take l.length = l := List.take_length

theorem key_read (key : Bytes) : key.take (key.length * 8 / 8) = key ∧ ¬ (key.length < key.length * 8 / 8) := by
  rw [show key.length * 8 / 8 = key.length by omega, List.take_length]
  exact ⟨rfl, Nat.lt_irrefl _⟩

theorem aesEcb_makes (ok : Nat → Bool) (alg mode : Nat) (halg : alg = CIPHER_AES_ECB ∨ alg = CIPHER_AES_ECB_PKCS7) (key : Bytes) (p : SymParams) :
    Makes ok alg mode key p (aesEcb ok mode key (alg == CIPHER_AES_ECB_PKCS7)) := by
  have hF : Fits alg key p ↔ key.length = 16 ∨ key.length = 32 := by unfold Fits; rw [if_pos halg]
  unfold aesEcb
  by_cases hk : key.length = 16 ∨ key.length = 32
  · rw [aesBits_some key hk]
    simp only
    have ha : (if (alg == CIPHER_AES_ECB_PKCS7) = true then CIPHER_AES_ECB_PKCS7 else CIPHER_AES_ECB) = alg := by
      rcases halg with h | h <;> subst h <;> rfl
    rw [ha]
    refine makes_of ok alg mode key p _ (fun _ => ?_) (fun _ _ => hF.mpr hk)
    obtain ⟨k1, k2⟩ := key_read key
    rcases halg with h | h <;> subst h <;>
      simp [calls, init, setPadding, new, withIv, withKey, Cipher.keyLen, Cipher.ivLen, opened, cipherOf, ivOf, aadOf, isAead, isPkcs7Alg,
        CIPHER_AES_ECB, CIPHER_AES_ECB_PKCS7, CIPHER_AES_GCM, CIPHER_CHACHA20_POLY1305, CIPHER_AES_CBC_PKCS7]
  · rw [aesBits_none key hk]
    exact makes_none _ _ _ _ _ (fun h => hk (hF.mp h))

theorem aesCbc_makes (ok : Nat → Bool) (alg mode : Nat) (halg : alg = CIPHER_AES_CBC ∨ alg = CIPHER_AES_CBC_PKCS7) (key : Bytes) (p : SymParams) :
    Makes ok alg mode key p (aesCbc ok mode key p.iv (alg == CIPHER_AES_CBC_PKCS7)) := by
  have hF : Fits alg key p ↔ (key.length = 16 ∨ key.length = 32) ∧ p.iv.length = 16 := by
    unfold Fits
    rcases halg with h | h <;> subst h <;> simp [CIPHER_AES_ECB, CIPHER_AES_ECB_PKCS7, CIPHER_AES_CBC, CIPHER_AES_CBC_PKCS7]
  unfold aesCbc
  by_cases hk : key.length = 16 ∨ key.length = 32
  · rw [aesBits_some key hk]
    simp only
    by_cases hi : p.iv.length = 16
    · rw [if_neg (by simp [hi])]
      have ha : (if (alg == CIPHER_AES_CBC_PKCS7) = true then CIPHER_AES_CBC_PKCS7 else CIPHER_AES_CBC) = alg := by
        rcases halg with h | h <;> subst h <;> rfl
      rw [ha]
      refine makes_of ok alg mode key p _ (fun _ => ?_) (fun _ _ => hF.mpr ⟨hk, hi⟩)
      have ht := take_len p.iv 16 hi
      rcases halg with h | h <;> subst h <;>
        simp [calls, init, setPadding, new, withIv, withKey, Cipher.keyLen, Cipher.ivLen, opened, cipherOf, ivOf, aadOf, isAead, isPkcs7Alg, hi, ht,
          CIPHER_AES_ECB, CIPHER_AES_ECB_PKCS7, CIPHER_AES_GCM, CIPHER_CHACHA20_POLY1305, CIPHER_AES_CBC_PKCS7, CIPHER_AES_CBC, CIPHER_CHACHA20]
    · rw [if_pos hi]
      exact makes_none _ _ _ _ _ (fun h => hi (hF.mp h).2)
  · rw [aesBits_none key hk]
    exact makes_none _ _ _ _ _ (fun h => hk (hF.mp h).1)

theorem aesCtr_makes (ok : Nat → Bool) (mode : Nat) (key : Bytes) (p : SymParams) :
    Makes ok CIPHER_AES_CTR mode key p (aesCtr ok mode key p.iv) := by
  have hF : Fits CIPHER_AES_CTR key p ↔ (key.length = 16 ∨ key.length = 32) ∧ p.iv.length = 16 := by
    unfold Fits
    simp [CIPHER_AES_ECB, CIPHER_AES_ECB_PKCS7, CIPHER_AES_CBC, CIPHER_AES_CBC_PKCS7, CIPHER_AES_CTR]
  unfold aesCtr
  by_cases hk : key.length = 16 ∨ key.length = 32
  · rw [aesBits_some key hk]
    simp only
    by_cases hi : p.iv.length = 16
    · rw [if_neg (by simp [hi])]
      refine makes_of ok _ mode key p _ (fun _ => ?_) (fun _ _ => hF.mpr ⟨hk, hi⟩)
      have ht := take_len p.iv 16 hi
      simp [calls, init, setPadding, new, withIv, withKey, Cipher.keyLen, Cipher.ivLen, opened, cipherOf, ivOf, aadOf, isAead, isPkcs7Alg, hi, ht,
          CIPHER_AES_ECB, CIPHER_AES_ECB_PKCS7, CIPHER_AES_GCM, CIPHER_CHACHA20_POLY1305, CIPHER_AES_CBC_PKCS7, CIPHER_AES_CBC, CIPHER_CHACHA20, CIPHER_AES_CTR]
    · rw [if_pos hi]
      exact makes_none _ _ _ _ _ (fun h => hi (hF.mp h).2)
  · rw [aesBits_none key hk]
    exact makes_none _ _ _ _ _ (fun h => hk (hF.mp h).1)

theorem aesGcm_makes (ok : Nat → Bool) (mode : Nat) (key : Bytes) (p : SymParams) :
    Makes ok CIPHER_AES_GCM mode key p (aesGcm ok mode key p.iv p.aad) := by
  have hF : Fits CIPHER_AES_GCM key p ↔ (key.length = 16 ∨ key.length = 32) ∧ p.iv.length = 12 ∧ p.aad.length % 2 ^ 32 < 2 ^ 31 := by
    unfold Fits
    simp [CIPHER_AES_ECB, CIPHER_AES_ECB_PKCS7, CIPHER_AES_CBC, CIPHER_AES_CBC_PKCS7, CIPHER_AES_CTR, CIPHER_AES_GCM]
  unfold aesGcm
  by_cases hk : key.length = 16 ∨ key.length = 32
  · rw [aesBits_some key hk]
    simp only
    by_cases hi : p.iv.length = 12
    · rw [if_neg (by simp [hi])]
      have ht := take_len p.iv 12 hi
      refine makes_of ok _ mode key p _ (fun hf => ?_) (fun s hs => hF.mpr ⟨hk, hi, ?_⟩)
      · have ha := (hF.mp hf).2.2
        simp [calls, init, setPadding, setIvLen, addAad, new, withIv, withKey, Cipher.keyLen, Cipher.ivLen, Cipher.isAead, opened, cipherOf, ivOf, aadOf, isAead,
          isPkcs7Alg, hi, ht, ha, CIPHER_AES_ECB, CIPHER_AES_ECB_PKCS7, CIPHER_AES_GCM, CIPHER_CHACHA20_POLY1305, CIPHER_AES_CBC_PKCS7, CIPHER_AES_CBC,
          CIPHER_CHACHA20, CIPHER_AES_CTR]
      · simp [calls, init, setPadding, setIvLen, addAad, new, withIv, withKey, Cipher.keyLen, Cipher.ivLen, Cipher.isAead, hi] at hs
        omega
    · rw [if_pos hi]
      exact makes_none _ _ _ _ _ (fun h => hi (hF.mp h).2.1)
  · rw [aesBits_none key hk]
    exact makes_none _ _ _ _ _ (fun h => hk (hF.mp h).1)

theorem chacha20_makes (ok : Nat → Bool) (mode : Nat) (key : Bytes) (p : SymParams) :
    Makes ok CIPHER_CHACHA20 mode key p (chacha20 ok mode key p.iv p.counter) := by
  have hF : Fits CIPHER_CHACHA20 key p ↔ key.length = 32 ∧ p.iv.length = 12 ∧ p.counter.length = 4 := by
    unfold Fits
    simp [CIPHER_AES_ECB, CIPHER_AES_ECB_PKCS7, CIPHER_AES_CBC, CIPHER_AES_CBC_PKCS7, CIPHER_AES_CTR, CIPHER_AES_GCM, CIPHER_CHACHA20]
  unfold chacha20
  by_cases hk : key.length = 32
  · rw [if_neg (by simp [hk])]
    by_cases hc : p.counter.length = 4
    · rw [if_neg (by simp [hc])]
      by_cases hi : p.iv.length = 12
      · rw [if_neg (by simp [hi])]
        refine makes_of ok _ mode key p _ (fun hf => ?_) (fun s hs => hF.mpr ⟨hk, hi, hc⟩)
        have hl : (p.counter ++ p.iv).length = 16 := by rw [List.length_append, hc, hi]
        have ht := take_len _ 16 hl
        have htk := take_len _ 32 hk
        generalize hg : p.counter ++ p.iv = civ at *
        simp [calls, init, setPadding, new, withIv, withKey, Cipher.keyLen, Cipher.ivLen, opened, cipherOf, ivOf, aadOf, isAead, isPkcs7Alg, hl, ht, htk, hk, hg,
          CIPHER_AES_ECB, CIPHER_AES_ECB_PKCS7, CIPHER_AES_GCM, CIPHER_CHACHA20_POLY1305, CIPHER_AES_CBC_PKCS7, CIPHER_AES_CBC, CIPHER_CHACHA20, CIPHER_AES_CTR]
      · rw [if_pos hi]
        exact makes_none _ _ _ _ _ (fun h => hi (hF.mp h).2.1)
    · rw [if_pos hc]
      exact makes_none _ _ _ _ _ (fun h => hc (hF.mp h).2.2)
  · rw [if_pos hk]
    exact makes_none _ _ _ _ _ (fun h => hk (hF.mp h).1)

theorem poly_makes (ok : Nat → Bool) (mode : Nat) (key : Bytes) (p : SymParams) :
    Makes ok CIPHER_CHACHA20_POLY1305 mode key p (poly ok mode key p.iv p.aad) := by
  have hF : Fits CIPHER_CHACHA20_POLY1305 key p ↔ key.length = 32 ∧ p.iv.length = 12 ∧ p.aad.length % 2 ^ 32 < 2 ^ 31 := by
    unfold Fits
    simp [CIPHER_AES_ECB, CIPHER_AES_ECB_PKCS7, CIPHER_AES_CBC, CIPHER_AES_CBC_PKCS7, CIPHER_AES_CTR, CIPHER_AES_GCM, CIPHER_CHACHA20,
      CIPHER_CHACHA20_POLY1305]
  unfold poly
  by_cases hk : key.length = 32
  · rw [if_neg (by simp [hk])]
    by_cases hi : p.iv.length = 12
    · rw [if_neg (by simp [hi])]
      have ht := take_len p.iv 12 hi
      have htk := take_len _ 32 hk
      refine makes_of ok _ mode key p _ (fun hf => ?_) (fun s hs => hF.mpr ⟨hk, hi, ?_⟩)
      · have ha := (hF.mp hf).2.2
        simp [calls, init, setPadding, setIvLen, addAad, new, withIv, withKey, Cipher.keyLen, Cipher.ivLen, Cipher.isAead, opened, cipherOf, ivOf, aadOf, isAead,
          isPkcs7Alg, hi, ht, hk, htk, CIPHER_AES_ECB, CIPHER_AES_ECB_PKCS7, CIPHER_AES_GCM, CIPHER_CHACHA20_POLY1305, CIPHER_AES_CBC_PKCS7, CIPHER_AES_CBC,
          CIPHER_CHACHA20, CIPHER_AES_CTR]
        omega
      · simp [calls, init, setPadding, setIvLen, addAad, new, withIv, withKey, Cipher.keyLen, Cipher.ivLen, Cipher.isAead, hi] at hs
        omega
    · rw [if_pos hi]
      exact makes_none _ _ _ _ _ (fun h => hi (hF.mp h).2.1)
  · rw [if_pos hk]
    exact makes_none _ _ _ _ _ (fun h => hk (hF.mp h).1)

theorem create_makes (ok : Nat → Bool) (alg mode : Nat) (hm : mode = MODE_ENCRYPT ∨ mode = MODE_DECRYPT) (key : Bytes) (p : SymParams) :
    Makes ok alg mode key p (create ok alg mode key p) := by
  unfold create
  rw [if_neg (by rintro ⟨h1, h2⟩; rcases hm with h | h; exact h1 h; exact h2 h)]
  split
  · rename_i h; exact aesEcb_makes ok alg mode h key p
  · split
    · rename_i h; exact aesCbc_makes ok alg mode h key p
    · split
      · rename_i h; subst h; exact aesCtr_makes ok mode key p
      · split
        · rename_i h; subst h; exact aesGcm_makes ok mode key p
        · split
          · rename_i h; subst h; exact chacha20_makes ok mode key p
          · split
            · rename_i h; subst h; exact poly_makes ok mode key p
            · rename_i h1 h2 h3 h4 h5 h6
              refine makes_none _ _ _ _ _ (fun h => ?_)
              unfold Fits at h
              rw [if_neg h1, if_neg (by rintro (h | h | h); exact h2 (Or.inl h); exact h2 (Or.inr h); exact h3 h), if_neg h4, if_neg h5] at h
              exact h6 h.1

theorem create_some {ok : Nat → Bool} {alg mode : Nat} {key : Bytes} {p : SymParams} {c : SymCtx Ctx} (h : (create ok alg mode key p).ctx = some c) :
    (mode = MODE_ENCRYPT ∨ mode = MODE_DECRYPT) ∧ Fits alg key p ∧ c = ⟨alg, mode, opened alg mode key p⟩ := by
  by_cases hm : mode = MODE_ENCRYPT ∨ mode = MODE_DECRYPT
  · rcases (create_makes ok alg mode hm key p).1 with h1 | ⟨h1, h2⟩
    · rw [h1] at h; simp at h
    · rw [h2] at h
      simp only [Option.some.injEq] at h
      exact ⟨hm, h1, h.symm⟩
  · unfold create at h
    rw [if_pos ⟨fun h => hm (Or.inl h), fun h => hm (Or.inr h)⟩] at h
    simp at h

/-! ## The assumptions of C34 -/

theorem algOf_plain (s : Ctx) (m : BlockMode) (bits : Nat) (hc : s.cipher = some (.block m bits)) : isPkcs7Alg (algOf s) = s.padding ∧
    isStreamAlg (algOf s) = false ∧ isAead (algOf s) = false := by
  unfold algOf
  rw [hc]
  cases m <;> cases s.padding <;> exact ⟨rfl, rfl, rfl⟩

theorem algOf_stream (s : Ctx) (c : Cipher) (hc : s.cipher = some c) (hb : ∀ m bits, c ≠ .block m bits) :
    isPkcs7Alg (algOf s) = false ∧ isStreamAlg (algOf s) = true ∧ isAead (algOf s) = c.isAead := by
  unfold algOf
  rw [hc]
  cases c with
  | block m bits => exact absurd rfl (hb m bits)
  | _ => exact ⟨rfl, rfl, rfl⟩

/-- The kinds of contexts. -/
theorem ctx_cases (s : Ctx) : s.cipher = none ∨ (∃ m bits, s.cipher = some (.block m bits)) ∨ ∃ c, s.cipher = some c ∧ ∀ m bits, c ≠ .block m bits := by
  cases h : s.cipher with
  | none => exact Or.inl rfl
  | some c =>
    cases c with
    | block m bits => exact Or.inr (Or.inl ⟨m, bits, rfl⟩)
    | _ => exact Or.inr (Or.inr ⟨_, rfl, by simp⟩)

theorem update_none (A : Algos) (s : Ctx) (b : Bytes) (h : s.cipher = none) : update A s b = (s, none) := by
  unfold update; rw [h]

theorem update_block (A : Algos) (s : Ctx) (b : Bytes) (m : BlockMode) (bits : Nat) (h : s.cipher = some (.block m bits)) : update A s b =
    if s.enc || !s.padding then blockUpdate A m s b ((s.held ++ b).length / 16)
    else if b = [] then (s, some [])
    else blockUpdate A m s b (((s.held ++ b).length - 1) / 16) := by
  unfold update; rw [h]

theorem update_stream (A : Algos) (s : Ctx) (b : Bytes) (c : Cipher) (h : s.cipher = some c) (hb : ∀ m bits, c ≠ .block m bits) : update A s b =
    ({ s with done := s.done ++ if s.enc then xorStream (A.stream c s.key s.iv) s.done.length b else b },
      some (xorStream (A.stream c s.key s.iv) s.done.length b)) := by
  unfold update; rw [h]
  cases c with
  | block m bits => exact absurd rfl (hb m bits)
  | _ => rfl

theorem final_block (A : Algos) (s : Ctx) (m : BlockMode) (bits : Nat) (h : s.cipher = some (.block m bits)) : final A s =
    if !s.padding then (s, if s.held = [] then some [] else none)
    else if s.enc then
      ({ s with held := [], chain := (encBlocks A m s.key 1 s.chain (s.held ++ List.replicate (16 - s.held.length) (UInt8.ofNat (16 - s.held.length)))).2 },
        some (encBlocks A m s.key 1 s.chain (s.held ++ List.replicate (16 - s.held.length) (UInt8.ofNat (16 - s.held.length)))).1)
    else if s.held.length = 16 then
      match unpad (decBlocks A m s.key 1 s.chain s.held).1 with
      | none => (s, none)
      | some x => ({ s with held := [] }, some x)
    else (s, none) := by
  cases s with
  | mk =>
    simp only at h
    subst h
    rfl

theorem final_stream (A : Algos) (s : Ctx) (c : Cipher) (h : s.cipher = some c) (hb : ∀ m bits, c ≠ .block m bits) : final A s =
    if !c.isAead then (s, some [])
    else if s.enc then ({ s with finished := true }, some [])
    else match s.tag with
      | none => (s, none)
      | some t => if t = (A.tag c s.key s.iv s.aad s.done).take t.length then ({ s with finished := true }, some []) else (s, none) := by
  unfold final; rw [h]
  cases c with
  | block m bits => exact absurd rfl (hb m bits)
  | _ => rfl

theorem blockUpdate_len {A : Algos} (hA : A.Good) (m : BlockMode) (s : Ctx) (b : Bytes) (n : Nat) (hn : n * 16 ≤ (s.held ++ b).length) :
    ∃ o, (blockUpdate A m s b n).2 = some o ∧ o.length = n * 16 ∧ (blockUpdate A m s b n).1.held.length + n * 16 = s.held.length + b.length := by
  unfold blockUpdate
  simp only
  refine ⟨_, rfl, ?_, ?_⟩
  · split
    · exact encBlocks_length hA m _ n _ _ hn
    · exact decBlocks_length hA m _ n _ _ hn
  · rw [List.length_drop]
    rw [List.length_append] at hn ⊢
    omega

/-- Nothing but what is held, the chain, what is done and the tag changes. -/
theorem update_same (A : Algos) (s : Ctx) (b : Bytes) : (update A s b).1.cipher = s.cipher ∧ (update A s b).1.padding = s.padding ∧
    (update A s b).1.enc = s.enc ∧ (update A s b).1.key = s.key ∧ (update A s b).1.iv = s.iv ∧ (update A s b).1.aad = s.aad ∧
    (update A s b).1.tag = s.tag := by
  rcases ctx_cases s with h | ⟨m, bits, h⟩ | ⟨c, h, hb⟩
  · rw [update_none A s b h]; simp
  · rw [update_block A s b m bits h]
    unfold blockUpdate
    split
    · simp
    · split <;> simp
  · rw [update_stream A s b c h hb]; simp

theorem final_same (A : Algos) (s : Ctx) : (final A s).1.cipher = s.cipher ∧ (final A s).1.padding = s.padding ∧ (final A s).1.enc = s.enc := by
  rcases ctx_cases s with h | ⟨m, bits, h⟩ | ⟨c, h, hb⟩
  · unfold final; rw [h]; exact ⟨h, rfl, rfl⟩
  · rw [final_block A s m bits h]
    split
    · simp
    · split
      · simp
      · split
        · split <;> simp
        · simp
  · rw [final_stream A s c h hb]
    split
    · simp
    · split
      · simp
      · split
        · simp
        · split <;> simp

theorem algOf_congr {s t : Ctx} (h1 : t.cipher = s.cipher) (h2 : t.padding = s.padding) : algOf t = algOf s := by
  unfold algOf; rw [h1, h2]

theorem algOf_opened {alg mode : Nat} {key : Bytes} {p : SymParams} (h : Fits alg key p) : algOf (opened alg mode key p) = alg := by
  have hk : alg = 0 ∨ alg = 1 ∨ alg = 2 ∨ alg = 3 ∨ alg = 4 ∨ alg = 5 ∨ alg = 9 ∨ alg = 10 := by
    unfold Fits at h
    by_cases h1 : alg = CIPHER_AES_ECB ∨ alg = CIPHER_AES_ECB_PKCS7
    · simp only [CIPHER_AES_ECB, CIPHER_AES_ECB_PKCS7] at h1; omega
    · by_cases h2 : alg = CIPHER_AES_CBC ∨ alg = CIPHER_AES_CBC_PKCS7 ∨ alg = CIPHER_AES_CTR
      · simp only [CIPHER_AES_CBC, CIPHER_AES_CBC_PKCS7, CIPHER_AES_CTR] at h2; omega
      · by_cases h3 : alg = CIPHER_AES_GCM
        · simp only [CIPHER_AES_GCM] at h3; omega
        · by_cases h4 : alg = CIPHER_CHACHA20
          · simp only [CIPHER_CHACHA20] at h4; omega
          · rw [if_neg h1, if_neg h2, if_neg h3, if_neg h4] at h
            have h5 := h.1
            simp only [CIPHER_CHACHA20_POLY1305] at h5
            omega
  rcases hk with rfl | rfl | rfl | rfl | rfl | rfl | rfl | rfl <;> rfl

theorem prim_good {A : Algos} (hA : A.Good) (ok : Nat → Bool) : (prim A ok).Good view where
  create := by
    intro alg mode key sp s h
    simp only [prim, Option.map_eq_some_iff] at h
    obtain ⟨c, h1, h2⟩ := h
    obtain ⟨hm, hf, hc⟩ := create_some h1
    subst hc; subst h2
    unfold view
    simp only
    rw [algOf_opened hf]
    rcases hm with rfl | rfl <;> rfl
  updateKind := by
    intro s b
    obtain ⟨h1, h2, h3, _⟩ := update_same A s b
    exact ⟨algOf_congr h1 h2, congrArg modeOf h3⟩
  updateFail := by
    intro s b h
    simp only [prim] at h ⊢
    rcases ctx_cases s with hc | ⟨m, bits, hc⟩ | ⟨c, hc, hb⟩
    · rw [update_none A s b hc]
    · rw [update_block A s b m bits hc] at h
      unfold blockUpdate at h
      split at h
      · simp at h
      · split at h <;> simp at h
    · rw [update_stream A s b c hc hb] at h; simp at h
  updatePlain := by
    intro s b o hk hh hl ho
    simp only [prim, view] at *
    rcases ctx_cases s with hc | ⟨m, bits, hc⟩ | ⟨c, hc, hb⟩
    · rw [update_none A s b hc] at ho; simp at ho
    · obtain ⟨a1, a2, _⟩ := algOf_plain s m bits hc
      rw [a2] at hl
      rw [a1] at hk
      simp only [Bool.false_eq_true, false_or] at hl
      rw [update_block A s b m bits hc, hk] at ho ⊢
      simp only [Bool.not_false, Bool.or_true, if_true] at ho ⊢
      obtain ⟨o', b1, b2, b3⟩ := blockUpdate_len hA m s b ((s.held ++ b).length / 16) (by omega)
      rw [b1] at ho
      simp only [Option.some.injEq] at ho
      subst ho
      have hn : (s.held ++ b).length = s.held.length + b.length := List.length_append
      constructor <;> omega
    · rw [update_stream A s b c hc hb] at ho ⊢
      simp only [Option.some.injEq] at ho
      subst ho
      exact ⟨xorStream_length _ _ _, hh⟩
  updateEnc := by
    intro s b o hk hm ho
    simp only [prim, view] at *
    rcases ctx_cases s with hc | ⟨m, bits, hc⟩ | ⟨c, hc, hb⟩
    · rw [update_none A s b hc] at ho; simp at ho
    · have he : s.enc = true := modeOf_enc.mp hm
      rw [update_block A s b m bits hc, he] at ho ⊢
      simp only [Bool.true_or, if_true] at ho ⊢
      obtain ⟨o', b1, b2, b3⟩ := blockUpdate_len hA m s b ((s.held ++ b).length / 16) (by omega)
      rw [b1] at ho
      simp only [Option.some.injEq] at ho
      subst ho
      have hn : (s.held ++ b).length = s.held.length + b.length := List.length_append
      constructor <;> omega
    · rw [(algOf_stream s c hc hb).1] at hk; simp at hk
  updateDec := by
    intro s b o hk hm ho
    simp only [prim, view] at *
    rcases ctx_cases s with hc | ⟨m, bits, hc⟩ | ⟨c, hc, hb⟩
    · rw [update_none A s b hc] at ho; simp at ho
    · have he : s.enc = false := by
        cases h : s.enc with
        | false => rfl
        | true => exact absurd (modeOf_enc.mpr h) hm
      rw [(algOf_plain s m bits hc).1] at hk
      rw [update_block A s b m bits hc, he, hk] at ho ⊢
      simp only [Bool.not_true, Bool.or_false, Bool.false_eq_true, if_false] at ho ⊢
      by_cases hb : b = []
      · rw [if_pos hb] at ho ⊢
        simp only [Option.some.injEq] at ho
        exact ⟨fun _ => ⟨ho.symm, rfl⟩, fun h => absurd hb h⟩
      · rw [if_neg hb] at ho ⊢
        obtain ⟨o', b1, b2, b3⟩ := blockUpdate_len hA m s b (((s.held ++ b).length - 1) / 16) (by omega)
        rw [b1] at ho
        simp only [Option.some.injEq] at ho
        subst ho
        refine ⟨fun h => absurd h hb, fun _ => ?_⟩
        have hn : (s.held ++ b).length = s.held.length + b.length := List.length_append
        constructor <;> omega
    · rw [(algOf_stream s c hc hb).1] at hk; simp at hk
  finalKind := by
    intro s
    obtain ⟨h1, h2, h3⟩ := final_same A s
    exact ⟨algOf_congr h1 h2, congrArg modeOf h3⟩
  finalPlain := by
    intro s hk
    simp only [prim, view] at *
    rcases ctx_cases s with hc | ⟨m, bits, hc⟩ | ⟨c, hc, hb⟩
    · unfold final; rw [hc]; simp
    · rw [(algOf_plain s m bits hc).1] at hk
      rw [final_block A s m bits hc, hk]
      simp
    · rw [final_stream A s c hc hb]
      split
      · simp
      · split
        · simp
        · split
          · simp
          · split <;> simp
  finalEnc := by
    intro s hk hm hh
    simp only [prim, view] at *
    rcases ctx_cases s with hc | ⟨m, bits, hc⟩ | ⟨c, hc, hb⟩
    · unfold algOf at hk; rw [hc] at hk; simp [isPkcs7Alg, CIPHER_AES_ECB_PKCS7, CIPHER_AES_CBC_PKCS7] at hk
    · have he : s.enc = true := modeOf_enc.mp hm
      rw [(algOf_plain s m bits hc).1] at hk
      rw [final_block A s m bits hc, hk, he]
      simp only [Bool.not_true, Bool.false_eq_true, if_false, if_true]
      refine ⟨rfl, _, rfl, ?_⟩
      rw [encBlocks_length hA m _ 1 _ _ (by rw [List.length_append, List.length_replicate]; omega)]
    · rw [(algOf_stream s c hc hb).1] at hk; simp at hk
  finalDec := by
    intro s hk hm
    simp only [prim, view] at *
    rcases ctx_cases s with hc | ⟨m, bits, hc⟩ | ⟨c, hc, hb⟩
    · unfold algOf at hk; rw [hc] at hk; simp [isPkcs7Alg, CIPHER_AES_ECB_PKCS7, CIPHER_AES_CBC_PKCS7] at hk
    · have he : s.enc = false := by
        cases h : s.enc with
        | false => rfl
        | true => exact absurd (modeOf_enc.mpr h) hm
      rw [(algOf_plain s m bits hc).1] at hk
      rw [final_block A s m bits hc, hk, he]
      simp only [Bool.not_true, Bool.false_eq_true, if_false]
      split
      · split
        · exact ⟨Or.inr rfl, fun f h => by simp at h⟩
        · rename_i x hx
          refine ⟨Or.inl rfl, fun f h => ?_⟩
          simp only [Option.some.injEq] at h
          subst h
          unfold unpad at hx
          simp only at hx
          split at hx
          · simp only [Option.some.injEq] at hx
            subst hx
            rw [List.length_take]
            omega
          · simp at hx
      · exact ⟨Or.inr rfl, fun f h => by simp at h⟩
    · rw [(algOf_stream s c hc hb).1] at hk; simp at hk
  setIv := by
    intro s iv s' h
    simp only [prim, init, Option.none_or] at h
    split at h
    · simp at h
    · rename_i c hc
      simp only [Option.some.injEq] at h
      subst h
      unfold view algOf
      simp only [withIv, withKey]
      rw [hc]
      rfl
  setTag := by
    intro s t s' h
    simp only [prim, setTag] at h
    split at h
    · simp only [Option.some.injEq] at h
      subst h
      rfl
    · simp at h

/-! ## The assumptions of C35 -/

/-- `d` has been given the output of `e` and has output its input except for `q`. -/
structure Pair (A : Algos) (e d : Ctx) (q : Bytes) : Prop where
  cipher : d.cipher = e.cipher
  padding : d.padding = e.padding
  key : d.key = e.key
  iv : d.iv = e.iv
  aad : d.aad = e.aad
  enc : e.enc = true
  dec : d.enc = false
  done : d.done = e.done
  block : ∀ m bits, e.cipher = some (.block m bits) → e.held.length < 16 ∧ (d.held = [] ∨ (e.padding = true ∧ d.held.length = 16)) ∧
    (e.padding = false → e.held = []) ∧ q = (decBlocks A m e.key (d.held.length / 16) d.chain d.held).1 ++ e.held ∧
    (decBlocks A m e.key (d.held.length / 16) d.chain d.held).2 = e.chain
  stream : ∀ c, e.cipher = some c → (∀ m bits, c ≠ .block m bits) → q = []

theorem blockUpdate_enc (A : Algos) (m : BlockMode) (s : Ctx) (b : Bytes) (n : Nat) (h : s.enc = true) : blockUpdate A m s b n =
    ({ s with held := (s.held ++ b).drop (n * 16), chain := (encBlocks A m s.key n s.chain (s.held ++ b)).2 },
      some (encBlocks A m s.key n s.chain (s.held ++ b)).1) := by
  unfold blockUpdate; rw [h]; rfl

theorem blockUpdate_dec (A : Algos) (m : BlockMode) (s : Ctx) (b : Bytes) (n : Nat) (h : s.enc = false) : blockUpdate A m s b n =
    ({ s with held := (s.held ++ b).drop (n * 16), chain := (decBlocks A m s.key n s.chain (s.held ++ b)).2 },
      some (decBlocks A m s.key n s.chain (s.held ++ b)).1) := by
  unfold blockUpdate; rw [h]; rfl

/-- Encryption by a block cipher, chunk by chunk. -/
theorem update_enc (A : Algos) (s : Ctx) (b : Bytes) (m : BlockMode) (bits : Nat) (h : s.cipher = some (.block m bits)) (he : s.enc = true) :
    update A s b = ({ s with held := (s.held ++ b).drop ((s.held ++ b).length / 16 * 16),
                             chain := (encBlocks A m s.key ((s.held ++ b).length / 16) s.chain (s.held ++ b)).2 },
      some (encBlocks A m s.key ((s.held ++ b).length / 16) s.chain (s.held ++ b)).1) := by
  rw [update_block A s b m bits h, if_pos (by rw [he]; rfl)]
  exact blockUpdate_enc A m s b _ he

/-- What `d` holds and `n` more blocks. -/
theorem pair_dec {A : Algos} (hA : A.Good) (m : BlockMode) (key chainE chainD held t : Bytes) (n : Nat) (hn : n * 16 ≤ t.length)
    (hh : held.length = held.length / 16 * 16) (hc : (decBlocks A m key (held.length / 16) chainD held).2 = chainE) :
    decBlocks A m key (held.length / 16 + n) chainD (held ++ (encBlocks A m key n chainE t).1) =
      ((decBlocks A m key (held.length / 16) chainD held).1 ++ t.take (n * 16), (encBlocks A m key n chainE t).2) := by
  rw [decBlocks_add, decBlocks_take A m key _ _ _ _ (by omega), hc, ← hh, List.drop_left, dec_enc hA m key n _ _ hn]

theorem unpad_pad (b : Bytes) (h : b.length < 16) : unpad (b ++ List.replicate (16 - b.length) (UInt8.ofNat (16 - b.length))) = some b := by
  have h15 : (b ++ List.replicate (16 - b.length) (UInt8.ofNat (16 - b.length))).getD 15 0 = UInt8.ofNat (16 - b.length) := by
    rw [List.getD_eq_getElem?_getD, List.getElem?_append_right (by omega), List.getElem?_replicate, if_pos (by omega)]
    rfl
  have hn : (UInt8.ofNat (16 - b.length)).toNat = 16 - b.length := by rw [UInt8.toNat_ofNat']; omega
  unfold unpad
  simp only
  rw [h15, hn, show 16 - (16 - b.length) = b.length by omega, List.drop_left, List.take_left, if_pos ⟨by omega, by omega, rfl⟩]

theorem pair_update {A : Algos} (hA : A.Good) {e d : Ctx} {q : Bytes} (h : Pair A e d q) (m : Bytes)
    (hm : isStreamAlg (algOf e) = true ∨ isPkcs7Alg (algOf e) = true ∨ m.length % 16 = 0) (e' : Ctx) (c : Bytes) (hu : update A e m = (e', some c)) :
    ∃ d' o q', update A d c = (d', some o) ∧ q ++ m = o ++ q' ∧ Pair A e' d' q' := by
  rcases ctx_cases e with hc | ⟨bm, bits, hc⟩ | ⟨ci, hc, hb⟩
  · rw [update_none A e m hc] at hu; simp at hu
  · obtain ⟨a1, a2, _⟩ := algOf_plain e bm bits hc
    rw [a1, a2] at hm
    simp only [Bool.false_eq_true, false_or] at hm
    obtain ⟨b1, b2, b3, b4, b5⟩ := h.block bm bits hc
    rw [update_enc A e m bm bits hc h.enc] at hu
    simp only [Prod.mk.injEq, Option.some.injEq] at hu
    obtain ⟨hu1, hu2⟩ := hu
    have hcl : c.length = (e.held ++ m).length / 16 * 16 := by
      rw [← hu2]; exact encBlocks_length hA bm _ _ _ _ (by omega)
    have hheld : (e.held ++ m).drop ((e.held ++ m).length / 16 * 16) = e'.held := by rw [← hu1]
    have hheldlen : e'.held.length < 16 := by rw [← hheld, List.length_drop]; omega
    have hdh : d.held.length = d.held.length / 16 * 16 := by
      rcases b2 with h | ⟨_, h⟩ <;> rw [h] <;> rfl
    have hall := pair_dec hA bm e.key e.chain d.chain d.held (e.held ++ m) ((e.held ++ m).length / 16) (by omega) hdh b5
    rw [hu2] at hall
    have hch : e'.chain = (encBlocks A bm e.key ((e.held ++ m).length / 16) e.chain (e.held ++ m)).2 := by rw [← hu1]
    rw [← hch] at hall
    have htake : (e.held ++ m).take ((e.held ++ m).length / 16 * 16) ++ e'.held = e.held ++ m := by rw [← hheld, List.take_append_drop]
    have hqm : q ++ m = (decBlocks A bm e.key (d.held.length / 16) d.chain d.held).1 ++ (e.held ++ m).take ((e.held ++ m).length / 16 * 16) ++ e'.held := by
      rw [b4, List.append_assoc, List.append_assoc, htake]
    have same : e'.cipher = e.cipher ∧ e'.padding = e.padding ∧ e'.key = e.key ∧ e'.iv = e.iv ∧ e'.aad = e.aad ∧ e'.enc = e.enc ∧ e'.done = e.done := by
      rw [← hu1]; simp
    obtain ⟨s1, s2, s3, s4, s5, s6, s7⟩ := same
    cases hp : e.padding with
    | false =>
      have hd0 : d.held = [] := by
        rcases b2 with h | ⟨h, _⟩
        · exact h
        · rw [hp] at h; simp at h
      have he0 := b3 hp
      have hmm : m.length % 16 = 0 := by
        rcases hm with h | h
        · rw [hp] at h; simp at h
        · exact h
      have he' : e'.held = [] := by
        rw [← hheld, he0, List.nil_append]
        exact List.drop_of_length_le (by omega)
      rw [update_block A d c bm bits (by rw [h.cipher, hc]), h.padding, hp, h.dec]
      simp only [Bool.not_false, Bool.or_true, if_true]
      rw [blockUpdate_dec A bm d c _ h.dec, h.key]
      rw [hd0] at hall ⊢
      simp only [List.nil_append, List.length_nil, Nat.zero_div, Nat.zero_add] at hall ⊢
      rw [show c.length / 16 = (e.held ++ m).length / 16 by omega, hall]
      refine ⟨_, _, [], rfl, ?_, ?_⟩
      · rw [hqm, hd0, he']; simp
      · refine ⟨by rw [s1]; exact h.cipher, by rw [s2]; exact h.padding, by rw [s3], by rw [s4]; exact h.iv, by rw [s5]; exact h.aad,
          by rw [s6]; exact h.enc, h.dec, by rw [s7]; exact h.done, ?_, ?_⟩
        · intro bm' bits' hc'
          have hdrop : c.drop ((e.held ++ m).length / 16 * 16) = [] := List.drop_of_length_le (by omega)
          refine ⟨hheldlen, Or.inl hdrop, fun _ => he', ?_, ?_⟩
          · simp only [hdrop, List.length_nil, Nat.zero_div, decBlocks, List.nil_append]; exact he'.symm
          · simp only [hdrop, List.length_nil, Nat.zero_div, decBlocks]
        · intro c' _ _; rfl
    | true =>
      rw [update_block A d c bm bits (by rw [h.cipher, hc]), h.padding, hp, h.dec]
      simp only [Bool.not_true, Bool.or_false, Bool.false_eq_true, if_false]
      by_cases hce : c = []
      · rw [if_pos hce]
        have hn0 : (e.held ++ m).length / 16 = 0 := by rw [hce, List.length_nil] at hcl; omega
        refine ⟨d, [], _, rfl, hqm, ?_⟩
        refine ⟨by rw [s1]; exact h.cipher, by rw [s2]; exact h.padding, by rw [s3]; exact h.key, by rw [s4]; exact h.iv, by rw [s5]; exact h.aad,
          by rw [s6]; exact h.enc, h.dec, by rw [s7]; exact h.done, ?_, ?_⟩
        · intro bm' bits' hc'
          rw [s1, hc] at hc'
          simp only [Option.some.injEq, Cipher.block.injEq] at hc'
          obtain ⟨hc1, hc2⟩ := hc'
          subst hc1
          refine ⟨hheldlen, by rw [s2]; exact b2, fun hf => (by rw [s2, hp] at hf; simp at hf), ?_, ?_⟩
          · rw [s3, hn0]; simp
          · rw [s3, b5, hch, hn0]; rfl
        · intro c' hc' hb'
          rw [s1, hc] at hc'
          simp only [Option.some.injEq] at hc'
          exact absurd hc'.symm (hb' bm bits)
      · rw [if_neg hce]
        have hc0 : 0 < c.length := List.length_pos_iff.mpr hce
        have hlen : (d.held ++ c).length = d.held.length + c.length := List.length_append
        obtain ⟨k, hk⟩ : ∃ k, d.held.length / 16 + (e.held ++ m).length / 16 = k + 1 := ⟨d.held.length / 16 + (e.held ++ m).length / 16 - 1, by omega⟩
        have hkn : ((d.held ++ c).length - 1) / 16 = k := by omega
        rw [hkn, blockUpdate_dec A bm d c _ h.dec, h.key]
        rw [hk, decBlocks_add] at hall
        simp only [Prod.mk.injEq] at hall
        obtain ⟨hall1, hall2⟩ := hall
        have hdl : ((d.held ++ c).drop (k * 16)).length = 16 := by rw [List.length_drop]; omega
        refine ⟨_, _, (decBlocks A bm e.key 1 (decBlocks A bm e.key k d.chain (d.held ++ c)).2 ((d.held ++ c).drop (k * 16))).1 ++ e'.held, rfl, ?_, ?_⟩
        · rw [hqm, ← hall1, List.append_assoc]
        · refine ⟨by rw [s1]; exact h.cipher, by rw [s2]; exact h.padding, by rw [s3], by rw [s4]; exact h.iv, by rw [s5]; exact h.aad,
            by rw [s6]; exact h.enc, h.dec, by rw [s7]; exact h.done, ?_, ?_⟩
          · intro bm' bits' hc'
            rw [s1, hc] at hc'
            simp only [Option.some.injEq, Cipher.block.injEq] at hc'
            obtain ⟨hc1, hc2⟩ := hc'
            subst hc1
            refine ⟨hheldlen, Or.inr ⟨by rw [s2]; exact hp, hdl⟩, fun hf => (by rw [s2, hp] at hf; simp at hf), ?_, ?_⟩
            · simp only
              rw [hdl, s3]
            · simp only
              rw [hdl, s3]
              exact hall2
          · intro c' hc' hb'
            rw [s1, hc] at hc'
            simp only [Option.some.injEq] at hc'
            exact absurd hc'.symm (hb' bm bits)
  · rw [update_stream A e m ci hc hb, h.enc] at hu
    simp only [if_true, Prod.mk.injEq, Option.some.injEq] at hu
    obtain ⟨hu1, hu2⟩ := hu
    rw [update_stream A d c ci (by rw [h.cipher, hc]) hb, h.dec, h.key, h.iv, h.done]
    rw [← hu2, xorStream_twice]
    refine ⟨_, _, [], rfl, by rw [h.stream ci hc hb]; simp, ?_⟩
    subst hu1
    refine ⟨h.cipher, h.padding, rfl, rfl, h.aad, rfl, rfl, rfl, ?_, fun _ _ _ => rfl⟩
    intro bm bits hc'
    rw [hc] at hc'
    simp only [Option.some.injEq] at hc'
    exact absurd hc' (hb bm bits)

theorem prim_inverse {A : Algos} (hA : A.Good) (ok : Nat → Bool) : (prim A ok).Inverse view (Pair A) where
  create := by
    intro alg key sp e d h1 h2
    simp only [prim, Option.map_eq_some_iff] at h1 h2
    obtain ⟨c, h1, h1'⟩ := h1
    obtain ⟨c', h2, h2'⟩ := h2
    obtain ⟨_, _, hc⟩ := create_some h1
    obtain ⟨_, _, hc'⟩ := create_some h2
    subst hc; subst hc'; subst h1'; subst h2'
    exact ⟨rfl, rfl, rfl, rfl, rfl, rfl, rfl, rfl, fun _ _ _ => ⟨by simp [opened], Or.inl rfl, fun _ => rfl, by simp [opened, decBlocks], by simp [opened, decBlocks]⟩, fun _ _ _ => rfl⟩
  update := by
    intro e d q m e' c h hm hu
    exact pair_update hA h m hm e' c hu
  updateNil := by
    intro e d q h hk
    simp only [prim, view] at *
    rcases ctx_cases e with hc | ⟨m, bits, hc⟩ | ⟨c, hc, hb⟩
    · unfold algOf at hk; rw [hc] at hk; simp [isPkcs7Alg, CIPHER_AES_ECB_PKCS7, CIPHER_AES_CBC_PKCS7] at hk
    · rw [(algOf_plain e m bits hc).1] at hk
      rw [update_block A d [] m bits (by rw [h.cipher, hc]), h.padding, hk, h.dec]
      simp
    · rw [(algOf_stream e c hc hb).1] at hk; simp at hk
  finalPad := by
    intro e d q e' f h hk hf
    simp only [prim, view] at *
    rcases ctx_cases e with hc | ⟨m, bits, hc⟩ | ⟨c, hc, hb⟩
    · unfold algOf at hk; rw [hc] at hk; simp [isPkcs7Alg, CIPHER_AES_ECB_PKCS7, CIPHER_AES_CBC_PKCS7] at hk
    · rw [(algOf_plain e m bits hc).1] at hk
      obtain ⟨b1, b2, b3, b4, b5⟩ := h.block m bits hc
      rw [final_block A e m bits hc, hk, h.enc] at hf
      simp only [Bool.not_true, Bool.false_eq_true, if_false, if_true, Prod.mk.injEq, Option.some.injEq] at hf
      obtain ⟨_, hf⟩ := hf
      have htl : (e.held ++ List.replicate (16 - e.held.length) (UInt8.ofNat (16 - e.held.length))).length = 16 := by
        rw [List.length_append, List.length_replicate]; omega
      have hfl : f.length = 16 := by rw [← hf]; exact encBlocks_length hA m _ 1 _ _ (by omega)
      have hfe : f ≠ [] := by intro h; rw [h] at hfl; simp at hfl
      have hdc : d.cipher = some (.block m bits) := by rw [h.cipher, hc]
      have hdh : d.held.length = d.held.length / 16 * 16 := by
        rcases b2 with h | ⟨_, h⟩ <;> rw [h] <;> rfl
      have hkn : ((d.held ++ f).length - 1) / 16 = d.held.length / 16 := by rw [List.length_append]; omega
      rw [update_block A d f m bits hdc, h.padding, hk, h.dec]
      simp only [Bool.not_true, Bool.or_false, Bool.false_eq_true, if_false]
      rw [if_neg hfe, hkn, blockUpdate_dec A m d f _ h.dec, h.key, decBlocks_take A m _ _ _ _ _ (by omega), b5, ← hdh, List.drop_left]
      refine ⟨_, _, { d with held := [], chain := e.chain }, e.held, rfl, ?_, b4⟩
      rw [final_block A _ m bits (by exact hdc)]
      simp only [h.padding, hk, h.dec, h.key, hfl]
      simp only [Bool.not_true, Bool.false_eq_true, if_false, if_true]
      have hde := dec_enc hA m e.key 1 e.chain (e.held ++ List.replicate (16 - e.held.length) (UInt8.ofNat (16 - e.held.length))) (by omega)
      rw [← hf, hde]
      simp only
      rw [List.take_of_length_le (by omega), unpad_pad e.held b1]
    · rw [(algOf_stream e c hc hb).1] at hk; simp at hk
  finalPlain := by
    intro e d q e' f h hk ha hf
    simp only [prim, view] at *
    rcases ctx_cases e with hc | ⟨m, bits, hc⟩ | ⟨c, hc, hb⟩
    · unfold final at hf; rw [hc] at hf; simp at hf
    · rw [(algOf_plain e m bits hc).1] at hk
      obtain ⟨b1, b2, b3, b4, b5⟩ := h.block m bits hc
      rw [final_block A d m bits (by rw [h.cipher, hc]), h.padding, hk]
      have : d.held = [] := by
        rcases b2 with h | ⟨h, _⟩
        · exact h
        · rw [hk] at h; simp at h
      rw [this]
      exact ⟨d, [], rfl⟩
    · rw [(algOf_stream e c hc hb).2.2] at ha
      rw [final_stream A d c (by rw [h.cipher, hc]) hb, ha]
      exact ⟨d, [], rfl⟩
  tagLen := by
    intro e t h
    simp only [prim, getTag] at h
    split at h
    · split at h
      · simp only [Option.some.injEq] at h
        subst h
        exact hA.tagLen _ _ _ _ _
      · simp at h
    · simp at h
  finalTag := by
    intro e d q m e1 c e2 f t n h ha hu hf ht hn1 hn2
    simp only [prim, view] at *
    rcases ctx_cases e with hc | ⟨bm, bits, hc⟩ | ⟨ci, hc, hb⟩
    · unfold algOf at ha; rw [hc] at ha; simp [isAead, CIPHER_AES_GCM, CIPHER_CHACHA20_POLY1305] at ha
    · rw [(algOf_plain e bm bits hc).2.2] at ha; simp at ha
    · rw [(algOf_stream e ci hc hb).2.2] at ha
      rw [update_stream A e m ci hc hb, h.enc] at hu
      simp only [if_true, Prod.mk.injEq, Option.some.injEq] at hu
      obtain ⟨hu1, hu2⟩ := hu
      have s1 : e1.cipher = some ci := by rw [← hu1]; exact hc
      have s2 : e1.enc = true := by rw [← hu1]
      rw [final_stream A e1 ci s1 hb, ha, s2] at hf
      simp only [Bool.not_true, Bool.false_eq_true, if_false, if_true, Prod.mk.injEq, Option.some.injEq] at hf
      obtain ⟨hf1, _⟩ := hf
      have htag : t = A.tag ci e.key e.iv e.aad (e.done ++ c) := by
        unfold getTag at ht
        have hc2 : e2.cipher = some ci := by rw [← hf1]; exact s1
        have he2 : e2.enc = true := by rw [← hf1]
        have hf2 : e2.finished = true := by rw [← hf1]
        rw [hc2] at ht
        simp only [ha, he2, hf2, Bool.and_true, if_true, Option.some.injEq] at ht
        rw [← ht, ← hf1, ← hu1, ← hu2]
      have htl : t.length = 16 := by rw [htag]; exact hA.tagLen _ _ _ _ _
      have htn : (t.take n).length = n := by rw [List.length_take]; omega
      have hq := h.stream ci hc hb
      refine ⟨{ d with tag := some (t.take n) }, { d with tag := some (t.take n), done := d.done ++ c },
        { d with tag := some (t.take n), done := d.done ++ c, finished := true }, [], ?_, ?_, ?_⟩
      · unfold setTag
        rw [if_pos ⟨by rw [h.dec]; rfl, by omega, by omega⟩]
      · rw [update_stream A _ c ci (by show d.cipher = _; rw [h.cipher, hc]) hb]
        simp only [h.dec, Bool.false_eq_true, if_false, h.key, h.iv, h.done]
        rw [← hu2, xorStream_twice, hq]
        rfl
      · rw [final_stream A _ ci (by show d.cipher = _; rw [h.cipher, hc]) hb]
        simp only [ha, h.dec, Bool.not_true, Bool.false_eq_true, if_false, h.key, h.iv, h.aad, h.done]
        rw [htn, htag, if_pos rfl]

end Sa.Evp

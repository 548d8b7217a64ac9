import Verif.Model.ProviderSign

/-!
# C82: signatures made through the OpenSSL provider

An application that signs with a provider key gets the signature of the whole message, however it was cut into pieces, with the padding, digest,
mask generation digest and salt length that it asked for, in the encoding that OpenSSL uses; the announced length is enough; and what the provider
says about the signature algorithm is true.
-/

namespace Sa.Psig.C82

/-! ## Specification -/

/-- The digests that the API has: OpenSSL's number and the API's. -/
inductive Std : Nat → Nat → Prop
  | sha1 : Std 64 0
  | sha256 : Std 672 1
  | sha384 : Std 673 2
  | sha512 : Std 674 3

/-- Bytes of a digest (FIPS 180-4). -/
def hLen : Nat → Nat
  | 0 => 20
  | 1 => 32
  | 2 => 48
  | _ => 64

/-- The salt that an application asks for. -/
inductive Salt
  | digest
  | max
  | bytes (n : Nat)

/-- What an application asks for. -/
inductive Wish
  | pkcs1
  | pss (mgf1 : Option String) (salt : Salt)

/-- How it says so (openssl/rsa.h). -/
def Salt.number : Salt → Int
  | .digest => -1
  | .max => -3
  | .bytes n => n

def Wish.prm (digest : Option String) : Wish → Prm
  | .pkcs1 => { digest, pad := some 1 }
  | .pss m s => { digest, pad := some 6, mgf1 := m, salt := some s.number }

/-- RFC 8017, 9.1.1: the encoded message has ⌈(modBits - 1) / 8⌉ bytes, of which digest and two others are not salt. -/
def maxSalt (bits h : Nat) : Option Nat :=
  let em := (bits - 1 + 7) / 8
  if em < h + 2 then none else some (em - h - 2)

def saltOf (bits d : Nat) : Salt → Option Nat
  | .digest => some (hLen d)
  | .max => maxSalt bits (hLen d)
  | .bytes n => some n

/-- The digest of MGF1: the one named, or that of the message. -/
def mgf1Of (lib : Lib) (m : Nat) : Option String → Option Nat
  | none => some m
  | some n => lib.fetch n

/-- The signature that the application asks for, `d` being the digest of the message and `g` that of MGF1: the hash has already been made. -/
def wanted (bits d g : Nat) : Wish → Option SignParams
  | .pkcs1 => some (.pkcs1 (some (d, true)))
  | .pss _ s => (saltOf bits d s).map fun n => .pss (some (d, g, UInt64.ofNat n, true))

def updates (c : SCtx) (pieces : List Bytes) : SCtx := pieces.foldl (fun c b => (update c b).1) c

/-- The value of bytes, most significant first. -/
def value : Bytes → Nat
  | [] => 0
  | b :: bs => b.toNat * 256 ^ bs.length + value bs

/-! A reader of DER (X.690, 8.1.3, 8.3): short, one and two byte lengths. -/

def readLen : Bytes → Option (Nat × Bytes)
  | [] => none
  | b :: r =>
    if b.toNat < 128 then some (b.toNat, r)
    else match b.toNat, r with
      | 129, x :: r => if x.toNat < 128 then none else some (x.toNat, r)
      | 130, x :: y :: r => if x.toNat = 0 then none else some (x.toNat * 256 + y.toNat, r)
      | _, _ => none

def readTlv (tag : UInt8) : Bytes → Option (Bytes × Bytes)
  | [] => none
  | t :: r => if t ≠ tag then none else match readLen r with
    | none => none
    | some (n, r) => if r.length < n then none else some (r.take n, r.drop n)

/-- An INTEGER that is not negative and has no byte too many. -/
def readNat : Bytes → Option Nat
  | [] => none
  | [b] => if b.toNat < 128 then some b.toNat else none
  | b :: c :: r => if b.toNat ≥ 128 ∨ (b.toNat = 0 ∧ c.toNat < 128) then none else some (value (b :: c :: r))

/-- ECDSA-Sig-Value (RFC 3279, 2.2.3). -/
def readSig (b : Bytes) : Option (Nat × Nat) :=
  match readTlv 0x30 b with
  | some (c, []) => match readTlv 0x02 c with
    | some (r, c) => match readTlv 0x02 c with
      | some (s, []) => match readNat r, readNat s with
        | some r, some s => some (r, s)
        | _, _ => none
      | _ => none
    | none => none
  | _ => none

/-! ## Lemmas -/

theorem digest_of_std {m d : Nat} (h : Std m d) : digestFromMd (some m) = some d := by cases h <;> rfl

theorem digestLen_eq (d : Nat) : digestLen d = hLen d := by
  match d with
  | 0 => rfl
  | 1 => rfl
  | 2 => rfl
  | _ + 3 => rfl

theorem salt_eq (bits d : Nat) (hb : 0 < bits) (s : Salt) : saltLength s.number d bits = (saltOf bits d s).map fun n : Nat => (n : Int) := by
  have hl := digestLen_eq d
  cases s with
  | digest => simp [saltLength, Salt.number, saltOf, SALTLEN_DIGEST, hl]
  | max =>
    have e : saltLength (Salt.max).number d bits =
        (if (((bits + 7) / 8 : Nat) : Int) - (hLen d : Int) - 2 - (if bits % 8 = 1 then 1 else 0) < 0 then none
          else some ((((bits + 7) / 8 : Nat) : Int) - (hLen d : Int) - 2 - (if bits % 8 = 1 then 1 else 0))) := by
      simp only [saltLength, Salt.number, SALTLEN_DIGEST, SALTLEN_AUTO, SALTLEN_MAX, hl]
      rw [if_neg (by decide), if_pos (by decide)]
      by_cases h1 : bits % 8 = 1 <;> simp [h1]
    rw [e]
    simp only [saltOf, maxSalt]
    by_cases h1 : bits % 8 = 1
    · simp only [h1, if_true]
      by_cases h2 : (bits - 1 + 7) / 8 < hLen d + 2
      · rw [if_pos h2, if_pos (by omega)]; rfl
      · rw [if_neg h2, if_neg (by omega)]
        show some _ = some _
        congr 1; dsimp only; omega
    · simp only [h1, if_false]
      by_cases h2 : (bits - 1 + 7) / 8 < hLen d + 2
      · rw [if_pos h2, if_pos (by omega)]; rfl
      · rw [if_neg h2, if_neg (by omega)]
        show some _ = some _
        congr 1; dsimp only; omega
  | bytes n =>
    have h1 : ¬ ((n : Int) = -1) := by omega
    have h2 : ¬ ((n : Int) = -2 ∨ (n : Int) = -3) := by omega
    simp only [saltLength, Salt.number, saltOf, SALTLEN_DIGEST, SALTLEN_AUTO, SALTLEN_MAX, h1, h2, if_false]; rfl

theorem ofInt_nat (n : Nat) : UInt64.ofInt (n : Int) = UInt64.ofNat n := by
  apply UInt64.toNat_inj.mp
  simp [UInt64.ofInt]
  omega

theorem updates_eq (c : SCtx) (d : Bytes) (h : c.data = some d) (pieces : List Bytes) :
    updates c pieces = { c with data := some (d ++ pieces.flatten) } := by
  induction pieces generalizing c d with
  | nil => simp only [updates, List.foldl_nil, List.flatten_nil, List.append_nil]; cases c; simp_all
  | cons b bs ih =>
    have := ih { c with data := some (d ++ b) } (d ++ b) rfl
    simp only [updates, List.foldl_cons, List.flatten_cons, ← List.append_assoc] at this ⊢
    rw [show (update c b).1 = { c with data := some (d ++ b) } from by simp [update, h]]
    exact this

def Wish.mgf1 (g : Option Nat) : Wish → Option Nat
  | .pss (some _) _ => g
  | _ => none

def Wish.pad : Wish → Int
  | .pkcs1 => 1
  | .pss _ _ => 6

def Wish.salt : Wish → Int
  | .pkcs1 => -2
  | .pss _ s => s.number

/-- What the parameters of a wish leave in a fresh context. -/
theorem set_wish (lib : Lib) (k : Key) (w : Wish) (n : Option String) (md : Option Nat) 
    (hn : (n = none ∧ md = none) ∨ ∃ s m, n = some s ∧ lib.fetch s = some m ∧ md = some m)
    (g : Option Nat) (hg : ∀ s x, w = .pss (some s) x → lib.fetch s = g ∧ g.isSome) :
    signInit lib newctx k (some (w.prm n)) = (SCtx.mk (some k) none md (w.mgf1 g) w.pad w.salt, true) := by
  have hd : setDigest lib { newctx with key := some k } n = ({ newctx with key := some k, md := md }, true) := by
    rcases hn with ⟨rfl, rfl⟩ | ⟨s, m, rfl, hf, rfl⟩
    · rfl
    · simp only [setDigest, hf]
  cases w with
  | pkcs1 =>
    simp only [signInit, setParams, Wish.prm, hd]
    rfl
  | pss o s =>
    simp only [signInit, setParams, Wish.prm, hd]
    cases o with
    | none => rfl
    | some x =>
      obtain ⟨h1, h2⟩ := hg x s rfl
      cases hx : g with
      | none => rw [hx] at h2; cases h2
      | some y => rw [hx] at h1; simp [setPad, setMgf1, h1, newctx, RSA_PKCS1_PADDING, RSA_PKCS1_PSS_PADDING, Wish.mgf1, Wish.pad, Wish.salt]

/-- The parameters that a context makes. -/
theorem params_eq (c : SCtx) (k : Key) (m d g : Nat) (w : Wish) (ht : k.type = 2) (hb : 0 < k.bits) (hm : c.md = some m) (hd : Std m d)
    (hp : c.pad = w.pad) (hs : c.salt = w.salt)
    (hg : (digestFromMd c.mgf1).getD 1 = g) : signParams c k = wanted k.bits d g w := by
  have h1 := digest_of_std hd
  cases w with
  | pkcs1 => simp only [Wish.pad] at hp; simp [signParams, ht, hp, hm, h1, wanted, RSA_PKCS1_PADDING]
  | pss o s =>
    simp only [Wish.pad] at hp
    have h2 : c.salt = s.number := hs
    simp only [signParams, ht, hp, hm, h1, wanted, RSA_PKCS1_PADDING, RSA_PKCS1_PSS_PADDING, h2, hg, Option.getD_some, salt_eq k.bits d hb s]
    rw [if_pos trivial, if_neg (by decide), if_pos trivial]
    cases saltOf k.bits d s with
    | none => rfl
    | some n => simp [ofInt_nat]

/-! DER -/

theorem value_append (a : Bytes) (x : UInt8) : value (a ++ [x]) = value a * 256 + x.toNat := by
  induction a with
  | nil => simp [value]
  | cons b bs ih => simp only [List.cons_append, value, ih, List.length_append, List.length_singleton, Nat.pow_succ]; grind

theorem number_foldl (b : Bytes) (n : Nat) : b.foldl (fun n x => n * 256 + x.toNat) n = n * 256 ^ b.length + value b := by
  induction b generalizing n with
  | nil => simp [value]
  | cons x xs ih => simp only [List.foldl_cons, ih, value, List.length_cons, Nat.pow_succ]; grind

theorem number_eq (b : Bytes) : number b = value b := by simp [number, number_foldl]

theorem value_lt (b : Bytes) : value b < 256 ^ b.length := by
  induction b with
  | nil => simp [value]
  | cons x xs ih =>
    have hx : x.toNat < 256 := x.toNat_lt
    simp only [value, List.length_cons, Nat.pow_succ]
    have : x.toNat * 256 ^ xs.length ≤ 255 * 256 ^ xs.length := Nat.mul_le_mul_right _ (by omega)
    omega

theorem min_value (n : Nat) : value (minBytes n) = n := by
  induction n using Nat.strongRecOn with
  | _ n ih =>
    rw [minBytes]
    split
    · rename_i h; simp [value, h]
    · rename_i h
      rw [value_append, ih (n / 256) (by omega)]
      simp only [UInt8.toNat_ofNat']
      omega

theorem min_length (n k : Nat) (h : n < 256 ^ k) : (minBytes n).length ≤ k := by
  induction k generalizing n with
  | zero => rw [minBytes]; simp_all
  | succ k ih =>
    rw [minBytes]
    split
    · simp
    · simp only [List.length_append, List.length_singleton]
      have := ih (n / 256) (by rw [Nat.pow_succ] at h; omega)
      omega

/-- The first byte is not zero. -/
theorem min_head (n : Nat) : ∀ b bs, minBytes n = b :: bs → b.toNat ≠ 0 := by
  induction n using Nat.strongRecOn with
  | _ n ih =>
    intro b bs h
    rw [minBytes] at h
    split at h
    · simp at h
    · rename_i hn
      cases h' : minBytes (n / 256) with
      | nil =>
        rw [h'] at h
        simp only [List.nil_append, List.cons.injEq] at h
        rw [← h.1]
        have h0 : n / 256 = 0 := by have := min_value (n / 256); rw [h'] at this; simpa [value] using this.symm
        simp only [UInt8.toNat_ofNat']
        omega
      | cons x xs =>
        rw [h'] at h
        simp only [List.cons_append, List.cons.injEq] at h
        rw [← h.1]
        exact ih (n / 256) (by omega) x xs h'

theorem readNat_derInt (n : Nat) : readNat (derInt n) = some n := by
  have hv := min_value n
  have hh := min_head n
  unfold derInt
  cases h : minBytes n with
  | nil => rw [h] at hv; simp [value] at hv; simp [readNat, ← hv]
  | cons b bs =>
    rw [h] at hv
    have h0 := hh b bs h
    have hcast : (b ≥ 128) ↔ b.toNat ≥ 128 := by rw [ge_iff_le, UInt8.le_iff_toNat_le]; simp
    by_cases hb : b.toNat ≥ 128
    · simp only [hcast.mpr hb, if_true]
      have hc : ¬ ((0 : UInt8).toNat ≥ 128 ∨ ((0 : UInt8).toNat = 0 ∧ b.toNat < 128)) := by simp; omega
      simp only [readNat, hc, if_false, Option.some.injEq]
      rw [← hv]; simp [value]
    · have : ¬ b ≥ 128 := fun h => hb (hcast.mp h)
      simp only [this, if_false]
      cases bs with
      | nil => simp only [readNat]; rw [if_pos (by omega), ← hv]; simp [value]
      | cons c r => simp only [readNat]; rw [if_neg (by omega), hv]

theorem derInt_length (n k : Nat) (h : n < 256 ^ k) : 1 ≤ (derInt n).length ∧ (derInt n).length ≤ k + 1 := by
  have := min_length n k h
  unfold derInt
  cases h' : minBytes n with
  | nil => simp
  | cons b bs => rw [h'] at this; simp only; split <;> simp at this ⊢ <;> omega

theorem readLen_derLen (n : Nat) (h : n < 65536) (r : Bytes) : readLen (derLen n ++ r) = some (n, r) := by
  unfold derLen
  split
  · rename_i h1
    have : (UInt8.ofNat n).toNat = n := by simp; omega
    simp only [List.singleton_append, readLen, this]; rw [if_pos h1]
  · split
    · rename_i h1 h2
      have e : (UInt8.ofNat n).toNat = n := by simp; omega
      simp [readLen, e]; omega
    · rename_i h1 h2
      have e : (UInt8.ofNat (n / 256)).toNat = n / 256 := by simp; omega
      simp [readLen, e]; omega

theorem readTlv_tlv (t : UInt8) (b r : Bytes) (h : b.length < 65536) : readTlv t (tlv t b ++ r) = some (b, r) := by
  simp only [tlv, List.cons_append, List.append_assoc, readTlv]
  rw [if_neg (by simp), readLen_derLen _ h]
  simp

theorem tlv_length (t : UInt8) (b : Bytes) : (tlv t b).length = b.length + (if b.length < 128 then 2 else if b.length < 256 then 3 else 4) := by
  simp only [tlv, derLen]
  split
  · simp
  · split <;> simp

/-- The encoding of a signature can be read, and is at most nine bytes longer. -/
theorem encode_read (raw : Bytes) (h : raw.length ≤ 249) :
    readSig (encodeSignature raw) = some (value (raw.take (raw.length / 2)), value ((raw.drop (raw.length / 2)).take (raw.length / 2))) ∧
      (encodeSignature raw).length ≤ raw.length + 9 := by
  simp only [encodeSignature, number_eq]
  generalize hr : raw.take (raw.length / 2) = r
  generalize hs : (raw.drop (raw.length / 2)).take (raw.length / 2) = s
  have lr : r.length ≤ raw.length / 2 := by rw [← hr]; simp; omega
  have ls : s.length ≤ raw.length / 2 := by rw [← hs]; simp; omega
  have h1 := derInt_length _ _ (value_lt r)
  have h2 := derInt_length _ _ (value_lt s)
  have t1 := tlv_length 2 (derInt (value r))
  have t2 := tlv_length 2 (derInt (value s))
  rw [if_pos (by omega)] at t1 t2
  have l : (tlv 2 (derInt (value r)) ++ tlv 2 (derInt (value s))).length ≤ raw.length + 6 := by rw [List.length_append]; omega
  constructor
  · have e := readTlv_tlv 0x30 (tlv 2 (derInt (value r)) ++ tlv 2 (derInt (value s))) [] (by omega)
    rw [List.append_nil] at e
    have e1 := readTlv_tlv 2 (derInt (value r)) (tlv 2 (derInt (value s))) (by omega)
    have e2 := readTlv_tlv 2 (derInt (value s)) [] (by omega)
    rw [List.append_nil] at e2
    simp only [readSig, e, e1, e2, readNat_derInt]
  · rw [tlv_length]
    split
    · omega
    · rw [if_pos (by omega)]; omega

/-! ## Theorems -/

/-- What an application gets from a call with a buffer of `size` bytes when the API answers `a`. -/
def given (size : Nat) : Option Bytes → Ret
  | none => .fail
  | some b => if b.length > size then .overflow else .wrote b

/-- Wishes that the provider grants: MGF1 with a digest that the API has, and which is named unless digest and MGF1 both use SHA-256. -/
def Grants (lib : Lib) (m g : Nat) : Wish → Prop
  | .pkcs1 => True
  | .pss o _ => (∃ x, mgf1Of lib m o = some x ∧ Std x g) ∧ (o = none → m = 672)

theorem grants_mgf1 {lib : Lib} {m g : Nat} {w : Wish} (h : Grants lib m g w) :
    ∃ x, (∀ s t, w = .pss (some s) t → lib.fetch s = x ∧ x.isSome) ∧ (w ≠ .pkcs1 → (digestFromMd (w.mgf1 x)).getD 1 = g) := by
  cases w with
  | pkcs1 => exact ⟨none, (by intro s t h; cases h), fun h => absurd rfl h⟩
  | pss o s =>
    obtain ⟨⟨x, h1, h2⟩, h3⟩ := h
    cases o with
    | none =>
      simp only [mgf1Of, Option.some.injEq] at h1
      have := h3 rfl; subst h1; subst this
      refine ⟨none, (by intro s t h; cases h), fun _ => ?_⟩
      cases h2; rfl
    | some n =>
      refine ⟨some x, ?_, fun _ => ?_⟩
      · intro s t h; cases h; exact ⟨h1, rfl⟩
      · simp [Wish.mgf1, digest_of_std h2]

/-- **C82, RSA.**  With `EVP_DigestSign…` the signature is of the whole message, with `EVP_PKEY_sign` of the hash given, and padding, digest, MGF1
digest and salt length are those asked for: the digest's own length, the greatest that fits, or the number given.  If there is no such signature or
the API refuses, the application is told.  Missing: PSS without naming MGF1's digest for other digests than SHA-256 (`C82_violated_mgf1`), digests that the API does not have
(`C82_violated_digest`), and buffers that are too small (`C82_violated_size`). -/
theorem C82_rsa_partial (lib : Lib) (api : Api) (k : Key) (ht : k.type = 2) (hb : 0 < k.bits) (name : String) (m d g : Nat)
    (hf : lib.fetch name = some m) (hd : Std m d) (w : Wish) (hw : Grants lib m g w) :
    (∀ (pieces : List Bytes) (size : Nat),
      (digestInit lib newctx (some name) k (some (w.prm none))).2 = true ∧
      final lib api (updates (digestInit lib newctx (some name) k (some (w.prm none))).1 pieces) (some size) =
        given size ((wanted k.bits d g w).bind fun p => api.sign k.handle p (lib.hash m pieces.flatten))) ∧
    (∀ (tbs : Bytes) (size : Nat),
      (signInit lib newctx k (some (w.prm (some name)))).2 = true ∧
      sign api (signInit lib newctx k (some (w.prm (some name)))).1 (some size) tbs =
        given size ((wanted k.bits d g w).bind fun p => api.sign k.handle p tbs)) := by
  obtain ⟨x, hx, hg⟩ := grants_mgf1 hw
  have key : ∀ (data : Option Bytes), signParams (SCtx.mk (some k) data (some m) (w.mgf1 x) w.pad w.salt) k = wanted k.bits d g w := by
    intro data
    by_cases hp : w = .pkcs1
    · subst hp
      rw [params_eq _ k m d ((digestFromMd (Wish.mgf1 x .pkcs1)).getD 1) .pkcs1 ht hb rfl hd rfl rfl rfl]
      rfl
    · exact params_eq _ k m d g w ht hb rfl hd rfl rfl (hg hp)
  have hsign : ∀ (data : Option Bytes) (tbs : Bytes) (size : Nat),
      sign api (SCtx.mk (some k) data (some m) (w.mgf1 x) w.pad w.salt) (some size) tbs =
        given size ((wanted k.bits d g w).bind fun p => api.sign k.handle p tbs) := by
    intro data tbs size
    simp only [sign, key]
    cases wanted k.bits d g w with
    | none => rfl
    | some p =>
      simp only [Option.bind_some]
      cases api.sign k.handle p tbs with
      | none => rfl
      | some raw => simp [ht, given]
  constructor
  · intro pieces size
    have e : digestInit lib newctx (some name) k (some (w.prm none)) = (SCtx.mk (some k) (some []) (some m) (w.mgf1 x) w.pad w.salt, true) := by
      simp only [digestInit, set_wish lib k w none none (.inl ⟨rfl, rfl⟩) x hx]
      rw [if_neg (by simp [isEdwards, ht])]
      simp [hf]
    rw [e]
    refine ⟨rfl, ?_⟩
    rw [updates_eq _ [] rfl]
    simp only [final, List.nil_append]
    exact hsign _ _ _
  · intro tbs size
    rw [set_wish lib k w (some name) (some m) (.inr ⟨name, m, rfl, hf, rfl⟩) x hx]
    exact ⟨rfl, hsign _ _ _⟩

/-- **C82, ECDSA.**  The signature of the whole message, or of the hash given, comes out as the DER encoding of the two numbers that the API
returned one behind the other.  Missing: digests that the API does not have, and buffers shorter than nine bytes more than the signature of the API. -/
theorem C82_ecdsa_partial (lib : Lib) (api : Api) (k : Key) (ht : k.type = 1) (hc : isPCurve k.curve = true) (name : String) (m d : Nat)
    (hf : lib.fetch name = some m) (hd : Std m d) (pieces : List Bytes) (size : Nat) :
    (digestInit lib newctx (some name) k none).2 = true ∧
    match api.sign k.handle (.ecdsa (some (d, true))) (lib.hash m pieces.flatten) with
    | none => final lib api (updates (digestInit lib newctx (some name) k none).1 pieces) (some size) = .fail
    | some raw => raw.length ≤ 132 → raw.length + 9 ≤ size →
      ∃ b, final lib api (updates (digestInit lib newctx (some name) k none).1 pieces) (some size) = .wrote b ∧
        readSig b = some (value (raw.take (raw.length / 2)), value ((raw.drop (raw.length / 2)).take (raw.length / 2))) := by
  have hne : isEdwards k = false := by
    simp only [isEdwards, isPCurve, CURVE_ED25519, CURVE_ED448, CURVE_P256, CURVE_P384, CURVE_P521, CURVE_P192, CURVE_P224, Bool.or_eq_true, beq_iff_eq] at hc ⊢
    rcases hc with (((h | h) | h) | h) | h <;> rw [h] <;> simp
  have e : digestInit lib newctx (some name) k none = ({ newctx with key := some k, md := some m, data := some [] }, true) := by
    simp [digestInit, signInit, setParams, hne, hf]
  rw [e]
  refine ⟨rfl, ?_⟩
  have hp : ∀ data, signParams { newctx with key := some k, md := some m, data := data } k = some (.ecdsa (some (d, true))) := by
    intro data
    simp only [signParams, digest_of_std hd, ht, hc]
    rfl
  rw [updates_eq _ [] rfl]
  simp only [final, List.nil_append, sign, hp]
  cases hs : api.sign k.handle (.ecdsa (some (d, true))) (lib.hash m pieces.flatten) with
  | none => rfl
  | some raw =>
    simp only
    intro h1 h2
    obtain ⟨h3, h4⟩ := encode_read raw (by omega)
    simp only [ht, if_true]
    rw [if_neg (by omega)]
    exact ⟨_, rfl, h3⟩

/-- **C82, EdDSA.**  Messages are signed as they are, and a buffer that is too small is refused. -/
theorem C82_eddsa (lib : Lib) (api : Api) (k : Key) (he : isEdwards k = true) (message : Bytes) (size : Nat) :
    digestSign api (digestInit lib newctx none k none).1 (some size) message =
      match api.sign k.handle .eddsa message with
      | none => .fail
      | some b => if b.length > size then .fail else .wrote b := by
  have ht : k.type = 1 := by simp [isEdwards] at he; exact he.1
  have e : digestInit lib newctx none k none = ({ newctx with key := some k, md := none, data := none }, true) := by
    simp [digestInit, signInit, setParams, he]
  rw [e]
  simp [digestSign, ht]
  rfl

/-- What is assumed of the API here: signatures have the announced length (and those of ECDSA at most 249 bytes; P-521's have 132). -/
def Lengths (api : Api) : Prop := ∀ h p t raw, api.sign h p t = some raw → api.len h p = some raw.length ∧ raw.length ≤ 512 ∧
  ((∃ x, p = .ecdsa x) → raw.length ≤ 249)

/-- **C82, lengths.**  A buffer of the announced length is enough, whatever the context has been told. -/
theorem C82_room (lib : Lib) (api : Api) (ha : Lengths api) (c : SCtx) (n size : Nat) (hn : final lib api c none = .len n) (hs : n ≤ size)
    (b : Bytes) : sign api c (some size) b ≠ .overflow ∧ final lib api c (some size) ≠ .overflow := by
  have main : ∀ b, sign api c (some size) b ≠ .overflow := by
    intro b
    simp only [final, sign] at hn ⊢
    cases hk : c.key with
    | none => simp
    | some k =>
      simp only [hk] at hn ⊢
      cases hp : signParams c k with
      | none => simp
      | some p =>
        simp only [hp] at hn ⊢
        cases hr : api.sign k.handle p b with
        | none => simp
        | some raw =>
          obtain ⟨h1, _, h2⟩ := ha _ _ _ _ hr
          simp only [h1, Ret.len.injEq] at hn
          dsimp only
          by_cases ht : k.type = 1
          · rw [if_pos ht] at hn
            have hx : ∃ x, p = .ecdsa x := by
              simp only [signParams, ht] at hp
              rw [if_neg (by decide)] at hp
              simp only [if_true] at hp
              split at hp
              · exact ⟨_, (Option.some.inj hp).symm⟩
              · cases hp
            have := (encode_read raw (h2 hx)).2
            rw [if_pos ht, if_neg (by omega)]; simp
          · rw [if_neg ht] at hn
            rw [if_neg ht, if_neg (by omega)]; simp
  refine ⟨main b, ?_⟩
  cases hd : c.data with
  | none => simp [final, hd]
  | some d => cases hm : c.md with
    | none => simp [final, hd, hm]
    | some m => simp only [final, hd, hm]; exact main _

/-- **C82, verification.**  A signature made with RSA is verified with the same digests: what the API is told to sign with, OpenSSL is told to verify
with.  Missing: the same cases as in `C82_rsa_partial`. -/
theorem C82_verify_partial (lib : Lib) (k : Key) (ht : k.type = 2) (hb : 0 < k.bits) (name : String) (m d g : Nat) (hf : lib.fetch name = some m)
    (hd : Std m d) (o : Option String) (s : Salt) (hw : Grants lib m g (.pss o s)) (d' g' : Nat) (n : UInt64) (b : Bool)
    (hp : signParams (digestInit lib newctx (some name) k (some ((Wish.pss o s).prm none))).1 k = some (.pss (some (d', g', n, b)))) :
    let v := verifyWith (digestInit lib newctx (some name) k (some ((Wish.pss o s).prm none))).1
    v.pss = true ∧ digestFromMd v.digest = some d' ∧ digestFromMd v.mgf1 = some g' ∧ v.salt = s.number := by
  obtain ⟨x, hx, hg⟩ := grants_mgf1 hw
  have e : digestInit lib newctx (some name) k (some ((Wish.pss o s).prm none)) =
      (SCtx.mk (some k) (some []) (some m) ((Wish.pss o s).mgf1 x) 6 s.number, true) := by
    simp only [digestInit, set_wish lib k (.pss o s) none none (.inl ⟨rfl, rfl⟩) x hx]
    rw [if_neg (by simp [isEdwards, ht])]
    simp only [Option.bind_some, hf]
    rfl
  have hparams := params_eq (SCtx.mk (some k) (some []) (some m) ((Wish.pss o s).mgf1 x) 6 s.number) k m d g (.pss o s) ht hb rfl hd rfl rfl
    (hg (by simp))
  rw [e] at hp ⊢
  rw [hparams] at hp
  simp only [wanted, Option.map_eq_some_iff] at hp
  obtain ⟨r, _, hr⟩ := hp
  simp only [SignParams.pss.injEq, Option.some.injEq, Prod.mk.injEq] at hr
  obtain ⟨rfl, rfl, _⟩ := hr
  simp only [verifyWith, RSA_PKCS1_PSS_PADDING, if_true, digest_of_std hd, true_and, and_true]
  obtain ⟨⟨y, h1, h2⟩, h3⟩ := hw
  cases o with
  | none => simp only [mgf1Of, Option.some.injEq] at h1; subst h1; exact digest_of_std h2
  | some q =>
    have := (hx q s rfl).1
    simp only [mgf1Of] at h1
    rw [h1] at this
    simp only [Wish.mgf1, ← this]
    exact digest_of_std h2

/-! ### Names of algorithms -/

/-- An arc of an object identifier in base 128 (X.690, 8.19.2), for arcs below 2^21. -/
def arc (n : Nat) : Bytes :=
  if n < 128 then [UInt8.ofNat n]
  else if n < 16384 then [UInt8.ofNat (128 + n / 128), UInt8.ofNat (n % 128)]
  else [UInt8.ofNat (128 + n / 16384), UInt8.ofNat (128 + n / 128 % 128), UInt8.ofNat (n % 128)]

def oid : List Nat → Bytes
  | a :: b :: r => 0x06 :: UInt8.ofNat ((arc (a * 40 + b) ++ r.flatMap arc).length) :: (arc (a * 40 + b) ++ r.flatMap arc)
  | _ => []

/-- AlgorithmIdentifier with the parameters given. -/
def ident (o : List Nat) (params : Bytes) : Bytes := 0x30 :: UInt8.ofNat (oid o ++ params).length :: (oid o ++ params)

/-- Names of signature algorithms: RFC 8017, A.2.4 (NULL parameters), RFC 5758, 3.2 and RFC 3279, 2.2.3 (no parameters), RFC 8410, 3. -/
inductive Named : SCtx → Key → Bytes → Prop
  | rsa1 {c k} : c.md = some 64 → k.evp = 6 → c.pad = 1 → Named c k (ident [1, 2, 840, 113549, 1, 1, 5] [5, 0])
  | rsa256 {c k} : c.md = some 672 → k.evp = 6 → c.pad = 1 → Named c k (ident [1, 2, 840, 113549, 1, 1, 11] [5, 0])
  | rsa384 {c k} : c.md = some 673 → k.evp = 6 → c.pad = 1 → Named c k (ident [1, 2, 840, 113549, 1, 1, 12] [5, 0])
  | rsa512 {c k} : c.md = some 674 → k.evp = 6 → c.pad = 1 → Named c k (ident [1, 2, 840, 113549, 1, 1, 13] [5, 0])
  | ecdsa1 {c k} : c.md = some 64 → k.evp = 408 → Named c k (ident [1, 2, 840, 10045, 4, 1] [])
  | ecdsa256 {c k} : c.md = some 672 → k.evp = 408 → Named c k (ident [1, 2, 840, 10045, 4, 3, 2] [])
  | ecdsa384 {c k} : c.md = some 673 → k.evp = 408 → Named c k (ident [1, 2, 840, 10045, 4, 3, 3] [])
  | ecdsa512 {c k} : c.md = some 674 → k.evp = 408 → Named c k (ident [1, 2, 840, 10045, 4, 3, 4] [])
  | ed25519 {c k} : k.evp = 1087 → Named c k (ident [1, 3, 101, 112] [])
  | ed448 {c k} : k.evp = 1088 → Named c k (ident [1, 3, 101, 113] [])

/-- **C82, names.**  What the provider calls the signature is its name.  Missing: RSA with SHA-1 (`C82_violated_name`) and PSS (`C82_violated_pss_name`). -/
theorem C82_name_partial (c : SCtx) (k : Key) (b : Bytes) (h : algorithmId c k = some b) (h1 : k.evp = 6 → c.pad = 1 ∧ c.md ≠ some 64) :
    Named c k b := by
  have hmd : ∀ d, digestFromMd c.md = some d → Std (c.md.getD 0) d ∧ c.md = some (c.md.getD 0) := by
    intro d hd
    cases hc : c.md with
    | none => rw [hc] at hd; cases hd
    | some m =>
      rw [hc] at hd
      simp only [digestFromMd] at hd
      refine ⟨?_, rfl⟩
      simp only [Option.getD_some]
      by_cases h1 : m = NID_sha1
      · rw [if_pos h1] at hd; cases hd; subst h1; exact .sha1
      rw [if_neg h1] at hd
      by_cases h2 : m = NID_sha256
      · rw [if_pos h2] at hd; cases hd; subst h2; exact .sha256
      rw [if_neg h2] at hd
      by_cases h3 : m = NID_sha384
      · rw [if_pos h3] at hd; cases hd; subst h3; exact .sha384
      rw [if_neg h3] at hd
      by_cases h4 : m = NID_sha512
      · rw [if_pos h4] at hd; cases hd; subst h4; exact .sha512
      rw [if_neg h4] at hd; cases hd
  have pick : ∀ d n, digestFromMd c.md = some d → (∀ m, Std m d → m = n) → c.md = some n := by
    intro d n hd hn
    obtain ⟨h1, h2⟩ := hmd d hd
    rw [h2, hn _ h1]
  unfold algorithmId EVP_RSA EVP_EC EVP_ED25519 EVP_ED448 at h
  split at h
  · rename_i hk
    obtain ⟨h2, h3⟩ := h1 hk
    split at h
    · rename_i hd; exact absurd (pick _ 64 hd (by intro m hm; cases hm; rfl)) h3
    · rename_i hd; cases h; exact Named.rsa256 (pick _ 672 hd (by intro m hm; cases hm; rfl)) hk h2
    · rename_i hd; cases h; exact Named.rsa384 (pick _ 673 hd (by intro m hm; cases hm; rfl)) hk h2
    · rename_i hd; cases h; exact Named.rsa512 (pick _ 674 hd (by intro m hm; cases hm; rfl)) hk h2
    · cases h
  · split at h
    · rename_i hk
      split at h
      · rename_i hd; cases h; exact Named.ecdsa1 (pick _ 64 hd (by intro m hm; cases hm; rfl)) hk
      · rename_i hd; cases h; exact Named.ecdsa256 (pick _ 672 hd (by intro m hm; cases hm; rfl)) hk
      · rename_i hd; cases h; exact Named.ecdsa384 (pick _ 673 hd (by intro m hm; cases hm; rfl)) hk
      · rename_i hd; cases h; exact Named.ecdsa512 (pick _ 674 hd (by intro m hm; cases hm; rfl)) hk
      · cases h
    · split at h
      · rename_i hk; cases h; exact Named.ed25519 hk
      · split at h
        · rename_i hk; cases h; exact Named.ed448 hk
        · cases h

/-! ### Violations -/

/-- **C82 is violated: MGF1.**  With PSS and any digest but SHA-256 the mask is made with SHA-256 unless the application names MGF1's digest, though it
is verified (by this provider too) with the digest of the message: whatever key and salt. -/
theorem C82_violated_mgf1 (lib : Lib) (k : Key) (ht : k.type = 2) (hb : 0 < k.bits) (name : String) (hf : lib.fetch name = some 674) (s : Salt)
    (n : Nat) (hs : saltOf k.bits 3 s = some n) :
    let c := (digestInit lib newctx (some name) k (some ((Wish.pss none s).prm none))).1
    signParams c k = some (.pss (some (3, 1, UInt64.ofNat n, true))) ∧ (verifyWith c).mgf1 = some 674 := by
  have e : digestInit lib newctx (some name) k (some ((Wish.pss none s).prm none)) =
      (SCtx.mk (some k) (some []) (some 674) none 6 s.number, true) := by
    simp only [digestInit, set_wish lib k (.pss none s) none none (.inl ⟨rfl, rfl⟩) none (by intro s t h; cases h)]
    rw [if_neg (by simp [isEdwards, ht])]
    simp only [Option.bind_some, hf]
    rfl
  rw [e]
  refine ⟨?_, rfl⟩
  rw [params_eq (SCtx.mk (some k) (some []) (some 674) none 6 s.number) k 674 3 1 (.pss none s) ht hb rfl .sha512 rfl rfl rfl]
  simp [wanted, hs]

/-- **C82 is violated: digests.**  A message hashed with a digest that the API does not have (SHA3-256, for one: 1097) is signed as if it had been
hashed with SHA-256. -/
theorem C82_violated_digest (lib : Lib) (api : Api) (k : Key) (ht : k.type = 2) (name : String) (m : Nat) (hf : lib.fetch name = some m)
    (hm : ∀ d, ¬ Std m d) (pieces : List Bytes) (size : Nat) :
    final lib api (updates (digestInit lib newctx (some name) k none).1 pieces) (some size) =
      given size (api.sign k.handle (.pkcs1 (some (1, true))) (lib.hash m pieces.flatten)) := by
  have e : digestInit lib newctx (some name) k none = ({ newctx with key := some k, md := some m, data := some [] }, true) := by
    simp [digestInit, signInit, setParams, isEdwards, ht, hf]
  have hn : digestFromMd (some m) = none := by
    simp only [digestFromMd]
    rw [if_neg (by intro h; subst h; exact hm _ .sha1), if_neg (by intro h; subst h; exact hm _ .sha256),
      if_neg (by intro h; subst h; exact hm _ .sha384), if_neg (by intro h; subst h; exact hm _ .sha512)]
  rw [e, updates_eq _ [] rfl]
  have hp : ∀ data, signParams { newctx with key := some k, md := some m, data := data } k = some (.pkcs1 (some (1, true))) := by
    intro data
    simp only [signParams, hn, ht]
    rfl
  simp only [final, List.nil_append, sign, hp]
  cases api.sign k.handle (.pkcs1 (some (1, true))) (lib.hash m pieces.flatten) with
  | none => rfl
  | some raw => simp [given, ht]

/-- Something to sign with: digests that pad with zeros or cut to length, and signatures that name the key. -/
def lib0 : Lib where
  fetch n := if n = "SHA1" then some 64 else if n = "SHA256" then some 672 else if n = "SHA512" then some 674 else if n = "SHA3-256" then some 1097 else none
  hash m b := (b ++ List.replicate 64 0).take (if m = 64 then 20 else if m = 674 then 64 else 32)
  size m := if m = 64 then 20 else if m = 674 then 64 else 32

def api0 : Api where
  sign h p b := match p with
    | .ecdsa _ => some (List.replicate 31 0 ++ [200] ++ 129 :: (b ++ List.replicate 32 0).take 31)
    | _ => some ((UInt8.ofNat h :: b ++ List.replicate 256 0).take 256)
  len _ p := match p with
    | .ecdsa _ => some 64
    | _ => some 256

def rsa : Key := { handle := 7, type := 2, curve := 0, bits := 2048, evp := 6 }
def ec : Key := { handle := 8, type := 1, curve := 0, bits := 256, evp := 408 }
def ed : Key := { handle := 9, type := 1, curve := 3, bits := 256, evp := 1087 }

/-- **C82 is violated: sizes.**  A signature longer than the buffer is written behind its end, though the size of the buffer is given. -/
theorem C82_violated_size : final lib0 api0 (digestInit lib0 newctx (some "SHA256") rsa none).1 (some 255) = .overflow := by decide +kernel

/-- **C82 is violated: initialisation.**  Signing with a digest that does not exist seems to begin well; then NULL is followed. -/
theorem C82_violated_init (lib : Lib) (k : Key) (hk : isEdwards k = false) (name : String) (hf : lib.fetch name = none) (b : Bytes) :
    (digestInit lib newctx (some name) k none).2 = true ∧ (update (digestInit lib newctx (some name) k none).1 b).2 = .null := by
  simp [digestInit, signInit, setParams, hk, hf, update]

/-- **C82 is violated: a name.**  RSA with SHA-1 is called RSA with SHA-256. -/
theorem C82_violated_name : algorithmId (digestInit lib0 newctx (some "SHA1") rsa none).1 rsa = some (ident [1, 2, 840, 113549, 1, 1, 11] [5, 0]) := by
  decide +kernel

/-- **C82 is violated: names of PSS.**  Signatures with PSS are called by the name of the other padding. -/
theorem C82_violated_pss_name :
    algorithmId (digestInit lib0 newctx (some "SHA256") rsa (some ((Wish.pss none .max).prm none))).1 rsa =
      some (ident [1, 2, 840, 113549, 1, 1, 11] [5, 0]) := by decide +kernel

/-! ## Examples -/

example : Grants lib0 674 0 (.pss (some "SHA1") (.bytes 17)) ∧ wanted 2048 3 0 (.pss (some "SHA1") (.bytes 17)) = some (.pss (some (3, 0, 17, true))) ∧
    wanted 2048 3 0 (.pss (some "SHA1") .max) = some (.pss (some (3, 0, 190, true))) ∧
    wanted 2049 3 0 (.pss (some "SHA1") .max) = some (.pss (some (3, 0, 190, true))) ∧ wanted 512 3 0 (.pss (some "SHA1") .max) = none :=
  ⟨⟨⟨64, rfl, .sha1⟩, by simp⟩, rfl, rfl, rfl, rfl⟩

example : final lib0 api0 (updates (digestInit lib0 newctx (some "SHA1") rsa (some (Wish.pkcs1.prm none))).1 [[1, 2], [], [3]]) (some 256) =
    .wrote (7 :: 1 :: 2 :: 3 :: List.replicate 252 0) := by decide +kernel

/-- A number with leading zeros, and one that needs a zero in front. -/
example : readSig (encodeSignature (List.replicate 31 0 ++ [200] ++ 129 :: List.replicate 31 0)) = some (200, 129 * 256 ^ 31) ∧
    (encodeSignature (List.replicate 31 0 ++ [200] ++ 129 :: List.replicate 31 0)).length = 41 := by decide +kernel

/-- 9 bytes more: P-521 with numbers of full length cannot reach it, but 128 byte signatures would. -/
example : (encodeSignature (List.replicate 128 255)).length = 137 := by decide +kernel

example : api0.sign 8 (.ecdsa (some (1, true))) (lib0.hash 672 [1, 2, 3]) = some (List.replicate 31 0 ++ [200] ++ 129 :: 1 :: 2 :: 3 :: List.replicate 28 0) ∧
    final lib0 api0 (updates (digestInit lib0 newctx (some "SHA256") ec none).1 [[1], [2, 3]]) none = .len 73 := by decide +kernel

example : isEdwards ed = true ∧ digestSign api0 (digestInit lib0 newctx none ed none).1 (some 256) [1, 2] = .wrote (9 :: 1 :: 2 :: List.replicate 253 0) := by
  decide +kernel

example : Lengths api0 := by
  intro h p t raw hr
  cases p <;> simp only [api0, Option.some.injEq] at hr ⊢ <;> subst hr <;>
    simp only [List.length_append, List.length_cons, List.length_take, List.length_replicate, List.length_nil] <;>
    refine ⟨by omega, by omega, fun h => ?_⟩ <;> first | omega | (obtain ⟨x, hx⟩ := h; cases hx)

example : lib0.fetch "SHA3-256" = some 1097 ∧ (∀ d, ¬ Std 1097 d) := ⟨rfl, fun d h => by cases h⟩

example : algorithmId (digestInit lib0 newctx (some "SHA512") rsa none).1 rsa = some (ident [1, 2, 840, 113549, 1, 1, 13] [5, 0]) := by decide +kernel

end Sa.Psig.C82

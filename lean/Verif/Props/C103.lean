import Verif.Lemmas.CipherKeep
import Verif.Props.C34
import Verif.Props.C53
import Verif.Props.C102

/-!
# C103: what is encrypted with the public key of a handle is what the handle gives

Somebody who has the public key of a handle encrypts with it, by RSA or by ElGamal on a curve.  The one who has the handle unwraps a key or decrypts data.
-/

namespace Sa.Asym.C103

open Sa Sa.Agree Sa.Asym Sa.Agree.C101 Sa.Asym.C102

variable {κ ρ π σ : Type}

/-- Somebody who has a public key. -/
structure Sender (ρ π : Type) where
  rsa : (seed : Nat) → ρ → Enc → Bytes → Option Bytes
  /-- the curve and the point of the public key -/
  point : ρ → Option (Nat × π)
  base : Nat → π

/-- What is assumed of OpenSSL: RSA decryption undoes encryption, what is encrypted is as long as the modulus and what is decrypted is not longer; the points of a curve are a group in
which multiples are, and coordinates are two numbers of the length of the curve; public keys are decoded again. -/
structure Good (l : Lib κ ρ π) (s : Sender ρ π) : Prop where
  rsa : ∀ seed k e m c, s.rsa seed (l.pubOf k) e m = some c → l.rsaDecrypt k e c = some m ∧ c.length = l.bits k / 8
  shorter : ∀ k e c m, l.rsaDecrypt k e c = some m → m.length ≤ c.length
  pub : ∀ k, l.decPub (l.encPub (l.pubOf k)) = some (l.pubOf k)
  point : ∀ k c q, s.point (l.pubOf k) = some (c, q) → ∃ x, l.number k = some x ∧ q = l.mul c x (s.base c)
  comm : ∀ c x y p, l.mul c x (l.mul c y p) = l.mul c y (l.mul c x p)
  cancel : ∀ c m p, l.add c (l.add c m p) (l.neg c p) = m
  coordinates : ∀ c p b, l.coordinates c p = some b → l.point c b = some p ∧ b.length = 2 * ecKeySizeFromCurve c

/-- The two ways to encrypt. -/
inductive How where
  | rsa (e : Enc)
  | elgamal

/-- `data` is `m`, encrypted.  ElGamal: `m` is the point M, and what is sent are r·G and M + r·Q for some r. -/
def Sealed (l : Lib κ ρ π) (s : Sender ρ π) (pub : ρ) (how : How) (m data : Bytes) : Prop :=
  match how with
  | .rsa e => ∃ seed, s.rsa seed pub e m = some data
  | .elgamal => ∃ c q r M one two, s.point pub = some (c, q) ∧ l.coordinates c M = some m ∧ l.coordinates c (l.mul c r (s.base c)) = some one ∧
      l.coordinates c (l.add c M (l.mul c r q)) = some two ∧ data = one ++ two

/-- How something has to be encrypted for `sa_key_unwrap`, and what of it becomes the key: with ElGamal a part of the first coordinate. -/
def wrapped : UnwrapParams → Option (How × (Bytes → Bytes))
  | .rsa none => some (.rsa .pkcs1, id)
  | .rsa (some (some (d, mgf1, label))) => some (.rsa (.oaep d mgf1 (label.get.getD [])), id)
  | .elgamal (some (offset, length)) => some (.elgamal, fun m => (m.drop offset.toNat).take length.toNat)
  | _ => none

/-- The same for `sa_crypto_cipher_init` with `sa_crypto_cipher_process`: with ElGamal the first coordinate is output. -/
def encrypted : InitParams → Option (How × (Bytes → Bytes))
  | .pkcs1v15 => some (.rsa .pkcs1, id)
  | .oaep (some (d, mgf1, label)) => some (.rsa (.oaep d mgf1 (label.get.getD [])), id)
  | .elgamal => some (.elgamal, fun m => m.take (m.length / 2))
  | _ => none

/-- The header that is told for the handle agrees with the public key. -/
def Labelled (s : Sender ρ π) (h : Header) (pub : ρ) : Prop :=
  ∀ c q, s.point pub = some (c, q) → curveOf h.typeParameters = c ∧ h.size.toNat = ecKeySizeFromCurve c

/-! ## What OpenSSL decrypts -/

theorem opened_pkcs1 {l : Lib κ ρ π} {ok : Bool} {key data m : Bytes} (h : decryptPkcs1 l ok key data = some m) :
    ∃ k, l.priv RSA_ID key = some k ∧ l.rsaDecrypt k .pkcs1 data = some m := by
  unfold decryptPkcs1 at h
  obtain ⟨k, hk, h⟩ := Option.bind_eq_some_iff.1 h
  split at h
  · cases h
  · split at h
    · cases h
    · exact ⟨k, hk, h⟩

theorem opened_oaep {l : Lib κ ρ π} {ok : Bool} {key data m : Bytes} {d g : Nat} {label : Option Bytes} (h : decryptOaep l ok key d g label data = some m) :
    ∃ k, l.priv RSA_ID key = some k ∧ l.rsaDecrypt k (.oaep d g (label.getD [])) data = some m := by
  unfold decryptOaep at h
  obtain ⟨k, hk, h⟩ := Option.bind_eq_some_iff.1 h
  split at h
  · cases h
  · split at h
    · cases h
    · simp only [setPadding, Option.bind_some, setOaepMd] at h
      split at h
      · simp only [Option.bind_some, setMgf1] at h
        split at h
        · cases h
        · simp only [Option.bind_some] at h
          refine ⟨k, hk, ?_⟩
          split at h
          · simpa [setLabel, pkeyDecrypt] using h
          · rename_i hn
            have e : label.getD [] = [] := by
              cases label with
              | none => rfl
              | some b => cases b with
                | nil => rfl
                | cons x y => exact absurd rfl (hn x y)
            rw [e]
            simpa [pkeyDecrypt, Ctx.new] using h
      · cases h

theorem opened_elgamal {l : Lib κ ρ π} {ok : Bool} {key data m : Bytes} {curve : Nat} (h : decryptElgamal l ok key curve data = some m) :
    ∃ k c1 c2 x, l.priv (ecId curve) key = some k ∧ l.point curve (data.take (data.length / 2)) = some c1 ∧ l.point curve (data.drop (data.length / 2)) = some c2 ∧
      l.number k = some x ∧ l.coordinates curve (l.add curve c2 (l.neg curve (l.mul curve x c1))) = some m := by
  unfold decryptElgamal at h
  obtain ⟨k, hk, h⟩ := Option.bind_eq_some_iff.1 h
  split at h
  · cases h
  · split at h
    · cases h
    · obtain ⟨c1, h1, h⟩ := Option.bind_eq_some_iff.1 h
      obtain ⟨c2, h2, h⟩ := Option.bind_eq_some_iff.1 h
      obtain ⟨x, h3, h⟩ := Option.bind_eq_some_iff.1 h
      exact ⟨k, c1, c2, x, hk, h1, h2, h3, h⟩

/-- The parameters of Model/Unwrap.lean are as assumed there. -/
theorem unwrapping_good {l : Lib κ ρ π} {s : Sender ρ π} (hl : Good l s) (ok : Bool) {u : UnwrapPrims} (hu : u.Good) : (l.unwrapping ok u).Good where
  ctrLen := hu.ctrLen
  gcmLen := hu.gcmLen
  gcmTagLen := hu.gcmTagLen
  chachaLen := hu.chachaLen
  polyLen := hu.polyLen
  polyTagLen := hu.polyTagLen
  rsaPkcs1Len k m r h := by
    obtain ⟨_, _, h⟩ := opened_pkcs1 h
    exact hl.shorter _ _ _ _ h
  rsaOaepLen k d g lb m r h := by
    obtain ⟨_, _, h⟩ := opened_oaep h
    exact hl.shorter _ _ _ _ h

/-- The public key that is told for an RSA key. -/
theorem public_rsa {l : Lib κ ρ π} {s : Sender ρ π} (hl : Good l s) {sk : StoredKey} (ht : sk.header.type.toNat = KEY_TYPE_RSA) {b : Bytes} (hb : C69.publicOf l.der sk = some b) {pub : ρ}
    (hp : l.decPub b = some pub) : ∃ k, l.priv RSA_ID sk.key = some k ∧ pub = l.pubOf k := by
  unfold C69.publicOf at hb
  rw [ht] at hb
  simp [Lib.der, KEY_TYPE_RSA] at hb
  obtain ⟨k, hk, rfl⟩ := hb
  rw [hl.pub] at hp
  exact ⟨k, hk, (Option.some.inj hp).symm⟩

theorem public_ec {l : Lib κ ρ π} {s : Sender ρ π} (hl : Good l s) {sk : StoredKey} (ht : sk.header.type.toNat = KEY_TYPE_EC) {b : Bytes} (hb : C69.publicOf l.der sk = some b) {pub : ρ}
    (hp : l.decPub b = some pub) : ∃ k, l.priv (ecId (curveOf sk.header.typeParameters)) sk.key = some k ∧ pub = l.pubOf k := by
  unfold C69.publicOf at hb
  rw [ht] at hb
  simp [Lib.der, KEY_TYPE_RSA, KEY_TYPE_EC] at hb
  obtain ⟨k, hk, rfl⟩ := hb
  rw [hl.pub] at hp
  exact ⟨k, hk, (Option.some.inj hp).symm⟩

/-- RSA: what comes out is what was encrypted. -/
theorem rsa_same {l : Lib κ ρ π} {s : Sender ρ π} (hl : Good l s) {sk : StoredKey} (ht : sk.header.type.toNat = KEY_TYPE_RSA) {b : Bytes} (hb : C69.publicOf l.der sk = some b) {pub : ρ}
    (hp : l.decPub b = some pub) {e : Enc} {m data : Bytes} (hs : Sealed l s pub (.rsa e) m data) {k : κ} (hk : l.priv RSA_ID sk.key = some k) {out : Bytes}
    (ho : l.rsaDecrypt k e data = some out) : out = m := by
  obtain ⟨k', hk', rfl⟩ := public_rsa hl ht hb hp
  rw [hk] at hk'
  injection hk' with hk'
  subst hk'
  obtain ⟨seed, hs⟩ := hs
  have := (hl.rsa _ _ _ _ _ hs).1
  rw [ho] at this
  exact Option.some.inj this

/-- ElGamal: the point that comes out is the one that was encrypted. -/
theorem elgamal_same {l : Lib κ ρ π} {s : Sender ρ π} (hl : Good l s) {sk : StoredKey} (ht : sk.header.type.toNat = KEY_TYPE_EC) {b : Bytes} (hb : C69.publicOf l.der sk = some b) {pub : ρ}
    (hp : l.decPub b = some pub) (hlab : Labelled s sk.header pub) {m data : Bytes} (hs : Sealed l s pub .elgamal m data) {ok : Bool} {out : Bytes}
    (ho : decryptElgamal l ok sk.key (curveOf sk.header.typeParameters) data = some out) : out = m ∧ m.length = 2 * sk.header.size.toNat := by
  obtain ⟨k', hk', rfl⟩ := public_ec hl ht hb hp
  obtain ⟨k, c1, c2, x, hk, h1, h2, h3, h4⟩ := opened_elgamal ho
  rw [hk] at hk'
  injection hk' with hk'
  subst hk'
  obtain ⟨c, q, r, M, one, two, e1, e2, e3, e4, rfl⟩ := hs
  obtain ⟨rfl, hz⟩ := hlab _ _ e1
  obtain ⟨x', hx, rfl⟩ := hl.point _ _ _ e1
  rw [h3] at hx
  injection hx with hx
  subst hx
  obtain ⟨a1, a2⟩ := hl.coordinates _ _ _ e3
  obtain ⟨b1, b2⟩ := hl.coordinates _ _ _ e4
  have hhalf : (one ++ two).length / 2 = one.length := by rw [List.length_append]; omega
  rw [hhalf, List.take_left' rfl, a1] at h1
  rw [hhalf, List.drop_left' rfl, b1] at h2
  injection h1 with h1
  injection h2 with h2
  subst h1
  subst h2
  rw [hl.comm, hl.cancel, e2] at h4
  exact ⟨(Option.some.inj h4).symm, by rw [(hl.coordinates _ _ _ e2).2, hz]⟩

/-- What the definition of unwrapping (Model/UnwrapSpec.lean) has for these algorithms. -/
theorem opens {l : Lib κ ρ π} {s : Sender ρ π} (hl : Good l s) {sk : StoredKey} {b : Bytes} (hb : C69.publicOf l.der sk = some b) {pub : ρ}
    (hp : l.decPub b = some pub) (hlab : Labelled s sk.header pub) {params : UnwrapParams} {how : How} {part : Bytes → Bytes} (hw : wrapped params = some (how, part)) {m data : Bytes}
    (hs : Sealed l s pub how m data) {p : Prims} {ok : Bool} {u : UnwrapPrims} (hf : WrappingFits params sk.header) {key : Bytes}
    (hc : UnwrapClear p (l.unwrapping ok u) sk params data key) : key = part m := by
  unfold wrapped at hw
  split at hw
  · simp only [Option.some.injEq, Prod.mk.injEq] at hw
    obtain ⟨rfl, rfl⟩ := hw
    obtain ⟨k, hk, ho⟩ := opened_pkcs1 (show decryptPkcs1 l ok sk.key data = some key from hc)
    exact rsa_same hl hf.1 hb hp hs hk ho
  · simp only [Option.some.injEq, Prod.mk.injEq] at hw
    obtain ⟨rfl, rfl⟩ := hw
    obtain ⟨k, hk, ho⟩ := opened_oaep (show decryptOaep l ok sk.key _ _ _ data = some key from hc)
    exact rsa_same hl hf.1 hb hp hs hk ho
  · rename_i offset length
    simp only [Option.some.injEq, Prod.mk.injEq] at hw
    obtain ⟨rfl, rfl⟩ := hw
    obtain ⟨pt, h1, h2, h3, h4⟩ := hc
    obtain ⟨rfl, hlen⟩ := elgamal_same hl hf hb hp hlab hs (show decryptElgamal l ok sk.key _ data = some pt from h1)
    apply List.ext_getElem?
    intro i
    show _ = ((pt.drop offset.toNat).take length.toNat)[i]?
    by_cases hi : i < length.toNat
    · rw [h4 i hi, List.getElem?_take_of_lt hi, List.getElem?_drop]
    · rw [List.getElem?_eq_none (by omega), List.getElem?_eq_none (by rw [List.length_take]; omega)]
  · cases hw

/-- **C103** (unwrapping).  For every history of the key table, every handle and caller: somebody gets the public key that is told for a handle, and encrypts with it.  Unwrapping with the
handle, before or after, whatever is done in between except releasing it, either fails and changes nothing, or gives a new key whose bytes are exactly those that were encrypted (with
ElGamal, the part of the first coordinate that was asked for), with the padding, digests and label that were asked for; it has the type that was asked for and its rights are
restricted to those of the key. -/
theorem C103_unwrap (l : Lib κ ρ π) (s : Sender ρ π) (hl : Good l s) (p : Prims) (hp : p.Good) (one two : Env) (h1 : one.prims = p) (h2 : two.prims = p)
    (a b : KeyStore) (ha : KsReachable p a) (hb : KsReachable p b) (key : Nat) (hm : Meanwhile p a b key ∨ Meanwhile p b a key) (caller : Uuid)
    (buffer : Bytes) (a' : KeyStore) (answer : Answer) (hpub : taKeyGetPublic one l.der a (some buffer) buffer.length key caller = some (a', answer)) (hfine : answer.status = .OK)
    (pub : ρ) (hdec : l.decPub ((answer.out.getD []).take answer.outLength) = some pub) (hlab : ∀ h, (keyStoreGetHeader a key caller).2.2 = some h → Labelled s h pub)
    (params : UnwrapParams) (how : How) (part : Bytes → Bytes) (hw : wrapped params = some (how, part)) (m data : Bytes) (hs : Sealed l s pub how m data) (hd : data.length + 16 < 2 ^ 64)
    (allocOk sslOk ok : Bool) (u : UnwrapPrims) (hu : u.Good) (t : UnwrapTarget) :
    ∃ b' st h, keyUnwrapOp two ⟨l.unwrapping sslOk u, allocOk, ok⟩ b t params key data caller = some (b', st, h) ∧
      ((st ≠ .OK ∧ h = SLOT_INVALID ∧ Unchanged b b') ∨
       (st = .OK ∧ ∃ wk d, KeyHeld p b key caller wk ∧ NewKey p b b' h caller d ∧ d.key = part m ∧ d.header.type.toNat = t.keyType ∧
          d.header.rights = restrictChildRights t.rights (some wk.header.rights))) := by
  subst h1
  obtain ⟨_, k, hk, hpk⟩ := public_of hp ha hpub hfine
  obtain ⟨b', st, h, e, _, hc⟩ := C53.C53_unwrap two (by rw [h2]; exact hp) ⟨l.unwrapping sslOk u, allocOk, ok⟩ (unwrapping_good hl sslOk hu) b (by rw [h2]; exact hb) t params key data caller hd
    (by unfold wrapped at hw; unfold UnwrapParams.HasBlock; split <;> first | trivial | cases hw)
  refine ⟨b', st, h, e, hc.imp id ?_⟩
  rintro ⟨e1, wk, d, f1, f2, _, f4, f5, f6, f7, _, f9⟩
  have hun := f1.2 two rfl
  rw [f2] at hun
  have := same_key hp ha hb hm hk h2 hun
  subst this
  rw [h2] at f1 f5
  exact ⟨e1, wk, d, f1, f5, opens hl hpk hdec (hlab _ (by rw [hk.1])) hw hs f4 f6, f7, f9⟩

/-- **C103** (unwrapping works).  A key of 16 to 512 bytes that was encrypted with the public key is unwrapped, if the caller may unwrap with the handle, its key is one for the algorithm
whose modulus has the length that the header tells, the parameters are documented ones, there is a free slot and nothing fails outside. -/
theorem C103_unwraps (l : Lib κ ρ π) (s : Sender ρ π) (hl : Good l s) (env : Env) (hp : env.prims.Good) (hok : ∀ s, env.ok s = true) (st : KeyStore) (hr : KsReachable env.prims st) (key : Nat)
    (caller : Uuid) (wk : StoredKey) (hun : keyStoreUnwrap env st key caller = some (st, .OK, some wk)) (hal : rightsAllowedUnwrap env.rights wk.header.rights = true)
    (pub : ρ) (mine : Bytes) (hpk : C69.publicOf l.der wk = some mine) (hdec : l.decPub mine = some pub) (hlab : Labelled s wk.header pub)
    (hbits : wk.header.type.toNat = KEY_TYPE_RSA → ∀ k, l.priv RSA_ID wk.key = some k → l.bits k = 8 * wk.header.size.toNat)
    (params : UnwrapParams) (how : How) (part : Bytes → Bytes) (hw : wrapped params = some (how, part)) (m data : Bytes) (hs : Sealed l s pub how m data)
    (hfit : WrappingFits params wk.header)
    (hpar : ∀ d mgf1 label, params = .rsa (some (some (d, mgf1, label))) → d ≤ 3 ∧ mgf1 ≤ 3 ∧ label ≠ .bad)
    (hec : ∀ offset length, params = .elgamal (some (offset, length)) → isPCurve (curveOf wk.header.typeParameters) = true ∧ offset.toNat + length.toNat ≤ wk.header.size.toNat ∧
      keyTypeSupportsEc wk.header.type.toNat (curveOf wk.header.typeParameters) wk.header.size.toNat = true)
    (u : UnwrapPrims) (hu : u.Good) (t : UnwrapTarget) (hrv : rightsValidateFormat t.rights = true) (hkt : t.keyType = KEY_TYPE_SYMMETRIC)
    (hlen : 16 ≤ (part m).length ∧ (part m).length ≤ 512) (hfree : ∃ h, h < st.slotCount ∧ (st.obj h).object = none) :
    ∃ st' h, keyUnwrapOp env ⟨l.unwrapping true u, true, true⟩ st t params key data caller = some (st', .OK, h) := by
  have fin : ∀ (_ : UnwrapAcceptable t params data) (_ : UnwrapClear env.prims (l.unwrapping true u) wk params data (part m)) (_ : UnwrapLengths (l.unwrapping true u) params data wk),
      ∃ st' h, keyUnwrapOp env ⟨l.unwrapping true u, true, true⟩ st t params key data caller = some (st', .OK, h) := fun h1 h2 h3 =>
    C53.C53_complete env hp hok ⟨l.unwrapping true u, true, true⟩ (unwrapping_good hl true hu) ⟨rfl, rfl⟩ st hr t hrv hkt params key data caller h1 wk hun hfit hal
      (Or.inr (by
        unfold wrapped at hw
        unfold WrappingFits at hfit
        intro hsym
        split at hw
        · rw [hfit.1] at hsym; exact absurd hsym (by decide)
        · rw [hfit.1] at hsym; exact absurd hsym (by decide)
        · rw [show wk.header.type.toNat = KEY_TYPE_EC from hfit] at hsym; exact absurd hsym (by decide)
        · cases hw)) (part m) hlen h2 h3 hfree
  unfold wrapped at hw
  split at hw
  · simp only [Option.some.injEq, Prod.mk.injEq] at hw
    obtain ⟨rfl, rfl⟩ := hw
    obtain ⟨k, hk, rfl⟩ := public_rsa hl hfit.1 hpk hdec
    obtain ⟨seed, hs⟩ := hs
    obtain ⟨h1, h2⟩ := hl.rsa _ _ _ _ _ hs
    have hb := hbits hfit.1 k hk
    refine fin hkt ?_ ⟨by omega, by simp⟩
    show decryptPkcs1 l true wk.key data = some m
    unfold decryptPkcs1
    rw [hk, Option.bind_some, if_neg (by omega)]
    exact h1
  · rename_i d g label
    simp only [Option.some.injEq, Prod.mk.injEq] at hw
    obtain ⟨rfl, rfl⟩ := hw
    obtain ⟨k, hk, rfl⟩ := public_rsa hl hfit.1 hpk hdec
    obtain ⟨seed, hs⟩ := hs
    obtain ⟨h1, h2⟩ := hl.rsa _ _ _ _ _ hs
    have hb := hbits hfit.1 k hk
    obtain ⟨p1, p2, p3⟩ := hpar d g label rfl
    refine fin hkt ?_ ⟨by omega, ?_⟩
    · show decryptOaep l true wk.key d g label.get data = some m
      have p2' : ¬3 < g := by omega
      unfold decryptOaep
      rw [hk, Option.bind_some, if_neg (by omega)]
      cases hlb : label.get with
      | none =>
        rw [hlb] at h1
        simpa [setPadding, setOaepMd, setMgf1, pkeyDecrypt, p1, p2', Ctx.new] using h1
      | some bs =>
        rw [hlb] at h1
        cases bs with
        | nil => simpa [setPadding, setOaepMd, setMgf1, pkeyDecrypt, p1, p2', Ctx.new] using h1
        | cons x y => simpa [setPadding, setOaepMd, setMgf1, setLabel, pkeyDecrypt, p1, p2', Ctx.new] using h1
    · intro d' m' l' hh
      simp only [Option.some.injEq, Prod.mk.injEq] at hh
      obtain ⟨_, _, rfl⟩ := hh
      exact p3
  · rename_i offset length
    simp only [Option.some.injEq, Prod.mk.injEq] at hw
    obtain ⟨rfl, rfl⟩ := hw
    obtain ⟨k, hk, rfl⟩ := public_ec hl hfit hpk hdec
    obtain ⟨p1, p2, p3⟩ := hec offset length rfl
    have hs0 := hs
    obtain ⟨c, q, r, M, one, two, e1, e2, e3, e4, rfl⟩ := hs
    obtain ⟨rfl, hz⟩ := hlab _ _ e1
    obtain ⟨x, hx, rfl⟩ := hl.point _ _ _ e1
    obtain ⟨a1, a2⟩ := hl.coordinates _ _ _ e3
    obtain ⟨b1, b2⟩ := hl.coordinates _ _ _ e4
    obtain ⟨m1, m2⟩ := hl.coordinates _ _ _ e2
    have hhalf : (one ++ two).length / 2 = one.length := by rw [List.length_append]; omega
    have he : decryptElgamal l true wk.key (curveOf wk.header.typeParameters) (one ++ two) = some m := by
      unfold decryptElgamal
      rw [hk, Option.bind_some, if_neg (by rw [p1]; decide), if_neg (by decide), hhalf, List.take_left' rfl, List.drop_left' rfl, a1, Option.bind_some, b1, Option.bind_some, hx,
        Option.bind_some, hl.comm, hl.cancel, e2]
    have hpl : ((m.drop offset.toNat).take length.toNat).length = length.toNat := by
      rw [List.length_take, List.length_drop, m2, ← hz]
      omega
    refine fin hkt ⟨m, he, p2, hpl, fun i hi => ?_⟩ ⟨by have := hlen.1; simp only [hpl] at this; exact this, hz, ?_, ?_, p3⟩
    · show ((m.drop offset.toNat).take length.toNat)[i]? = _
      rw [List.getElem?_take_of_lt hi, List.getElem?_drop]
    · rw [List.length_append]; omega
    · intro pt hpt
      have hpt : decryptElgamal l true wk.key (curveOf wk.header.typeParameters) (one ++ two) = some pt := hpt
      rw [he] at hpt
      injection hpt with hpt
      rw [← hpt, m2, hz]
  · cases hw

/-! ## Decryption -/

/-- The type of key that the algorithm is for. -/
def TypeFits (params : InitParams) (h : Header) : Prop :=
  match params with
  | .pkcs1v15 | .oaep _ => h.type.toNat = KEY_TYPE_RSA
  | .elgamal => h.type.toNat = KEY_TYPE_EC
  | _ => False

theorem init_fits {prim : CipherPrim σ} {w w' : CipherWorld σ} {params : InitParams} {how : How} {part : Bytes → Bytes} (hw : encrypted params = some (how, part))
    {kr : Status × Option StoredKey} {env : InitEnv} {u : Uuid} {h : Nat} (hr : cipherInit prim w params MODE_DECRYPT kr env u = some (w', .OK, h)) :
    ∃ sk, kr = (.OK, some sk) ∧ TypeFits params sk.header := by
  obtain ⟨st, k⟩ := kr
  unfold cipherInit at hr
  simp only at hr
  split at hr
  · simp at hr
  · split at hr
    · simp at hr
    · split at hr
      · rename_i hs
        simp only [Option.some.injEq, Prod.mk.injEq] at hr
        exact absurd hr.2.1 hs
      · rename_i hs
        have hs : st = .OK := by simpa using hs
        subst hs
        cases k with
        | none => simp at hr
        | some sk =>
          refine ⟨sk, rfl, ?_⟩
          simp only at hr
          have h2 : ∀ (o : Option (CipherWorld σ)) (s : Status) (x : Nat), s ≠ .OK → Option.map (fun w => (w, s, x)) o ≠ some (w', Status.OK, h) := by
            intro o s x hs he
            simp only [Option.map_eq_some_iff, Prod.mk.injEq] at he
            obtain ⟨_, _, _, hb, _⟩ := he
            exact hs hb
          rw [if_neg (show ¬MODE_DECRYPT = MODE_ENCRYPT by decide)] at hr
          split at hr
          · exact absurd hr (h2 _ _ _ (by simp))
          · have ha : ∃ w2 h2, initAlgorithm prim (w.alloc (.key sk)) params MODE_DECRYPT w.next sk env u = some (w2, .OK, h2) := by
              split at hr
              · cases hr
              · rename_i e
                exact ⟨_, _, e⟩
              · rename_i hx _
                exact absurd hr (h2 _ _ _ (by intro hb; exact hx hb))
            obtain ⟨w2, h3, ha⟩ := ha
            unfold encrypted at hw
            unfold initAlgorithm at ha
            split at hw
            · simp only at ha
              split at ha
              · simp at ha
              · rename_i hk
                exact (supportsRsa (by simpa using hk)).1
            · simp only at ha
              split at ha
              · simp at ha
              · split at ha
                · simp at ha
                · rename_i hk
                  exact (supportsRsa (by simpa using hk)).1
            · simp only at ha
              split at ha
              · simp at ha
              · rename_i hk
                exact (C55.supportsEc_type (by simpa using hk)).1
            · cases hw

/-- **C103** (decryption).  For every history of the key table and of the cipher contexts: somebody gets the public key that is told for a handle, and encrypts with it.  Before or after,
with anything done in between except releasing the handle, a context for decryption is made with the handle.  Then, whatever else is done with this and with other contexts (and with
the key, which may even be released) as long as the context is not released, processing what was encrypted either writes nothing, or writes exactly what was encrypted to the place that
the output buffer stands for (with ElGamal: the first coordinate), says so much, and does so with the padding, digests and label that the context was made with. -/
theorem C103_decrypt (l : Lib κ ρ π) (s : Sender ρ π) (hl : Good l s) (p : Prims) (hp : p.Good) (one two : Env) (h1 : one.prims = p) (h2 : two.prims = p)
    (a b : KeyStore) (ha : KsReachable p a) (hb : KsReachable p b) (key : Nat) (hm : Meanwhile p a b key ∨ Meanwhile p b a key) (caller : Uuid)
    (buffer : Bytes) (a' : KeyStore) (answer : Answer) (hpub : taKeyGetPublic one l.der a (some buffer) buffer.length key caller = some (a', answer)) (hfine : answer.status = .OK)
    (pub : ρ) (hdec : l.decPub ((answer.out.getD []).take answer.outLength) = some pub) (hlab : ∀ h, (keyStoreGetHeader a key caller).2.2 = some h → Labelled s h pub)
    (prim : CipherPrim σ) (view : σ → CipherView) (hprim : prim.Good view) (slots : Nat) (hslots : slots < 2 ^ 64) (w0 : CipherWorld σ) (h0 : cipherNew σ slots = some w0)
    (ops : List CipherOp) (hops : ∀ op ∈ ops, op.oaepOk) (w : CipherWorld σ) (hrun : cipherRun prim w0 ops = some w)
    (b' : KeyStore) (kr : Status × Option StoredKey) (hkr : keyStoreUnwrap two b key caller = some (b', kr))
    (params : InitParams) (how : How) (part : Bytes → Bytes) (hw : encrypted params = some (how, part)) (env : InitEnv) (henv : env.lockOk = true ∧ env.labelOk = true)
    (w1 : CipherWorld σ) (h : Nat) (hinit : cipherInit prim w params MODE_DECRYPT kr env caller = some (w1, .OK, h))
    (more : List CipherOp) (hmore : ∀ op ∈ more, op.oaepOk) (hkeep : ∀ op ∈ more, ∀ c, op ≠ .release h c) (w2 : CipherWorld σ) (hrun2 : cipherRun prim w1 more = some w2)
    (m data : Bytes) (hs : Sealed l s pub how m data)
    (sslOk : Bool) (u : UnwrapPrims) (hu : u.Good) (renv : RightsEnv) (svp : SvpStore) (hsvp : SvpReachable svp) (mem : Mem) (out : Option RawBuffer) (input : SaBuffer)
    (n : UInt64) (hn : n.toNat = data.length) (hsmall : data.length < 2 ^ 31) (x : Nat) (hx : Located svp caller input data.length x) (hdata : readAt mem x data.length = data) :
    ∃ r, cipherProcess .more prim (l.unwrapping sslOk u) renv w2 svp mem h out (.buf input) n caller = some r ∧
      ((r.mem = mem ∧ (r.status = .OK → out = none)) ∨
       ∃ ob y outB, out = some (.buf ob) ∧ Located svp caller ob outB.length y ∧ r.mem = writeAt mem y outB ∧
         (r.status = .OK → outB = part m ∧ r.bytes.toNat = (part m).length)) := by
  subst h1
  obtain ⟨_, k, hk, hpk⟩ := public_of hp ha hpub hfine
  obtain ⟨sk, rfl, hty⟩ := init_fits hw hinit
  obtain ⟨rfl, _⟩ := used_held (by rw [h2]; exact hp) (by rw [h2]; exact hb) hkr
  have := same_key hp ha hb hm hk h2 hkr
  subst this
  have hlab := hlab _ (by rw [hk.1])
  obtain ⟨wx, hr0, inv, all⟩ := cipherRun_all prim (goodCtx_stable hprim) ops (cipherNew_inv slots hslots w0 h0).1 (cipherNew_all slots hslots w0 h0) hops
  rw [hrun] at hr0
  injection hr0 with hr0
  subst hr0
  have hasym : params.alg = some CIPHER_RSA_PKCS1V15 ∨ params.alg = some CIPHER_RSA_OAEP ∨ params.alg = some CIPHER_EC_ELGAMAL := by
    unfold encrypted at hw
    split at hw
    · exact Or.inl rfl
    · exact Or.inr (Or.inl rfl)
    · exact Or.inr (Or.inr rfl)
    · cases hw
  obtain ⟨inv1, ptr, o, hc, halg, hmode, hoaep⟩ := init_asym prim inv params sk env caller (fun _ => henv) w1 h hasym hinit
  have all1 : CtxAll (GoodCtx view) w1 := by
    have := cipherStep_all inv prim (goodCtx_stable hprim) all (.init params MODE_DECRYPT (.OK, some sk) env caller) (fun _ => henv) (w1, some .OK)
      (by show (cipherInit prim w params MODE_DECRYPT (.OK, some sk) env caller).map _ = _; rw [hinit]; rfl)
    exact this
  obtain ⟨wy, hr2, inv2, all2⟩ := cipherRun_all prim (goodCtx_stable hprim) more inv1 all1 hmore
  rw [hrun2] at hr2
  injection hr2 with hr2
  subst hr2
  obtain ⟨_, hc2⟩ := HasCtx.keptAll prim more inv1 hc hmore hkeep hrun2
  obtain ⟨r, e, _, _, hcall⟩ := C34.call_ok hprim (l.unwrapping sslOk u) (unwrapping_good hl sslOk hu) .more renv inv2 all2 svp (svpReachable_inv svp hsvp) mem h out (.buf input) n (by omega) caller
  refine ⟨r, e, ?_⟩
  rcases hcall with ⟨hmem, hst⟩ | ⟨ob, ib, ptr', o', sk', ctx', y, x', outB, e1, e2, e3, _, e5, e6, e7, e8⟩
  · exact Or.inl ⟨hmem, fun hok => (hst hok).1⟩
  · obtain ⟨_, rfl, rfl, rfl, rfl⟩ := hc2.unique e3
    injection e2 with e2
    subst e2
    rw [hn] at e6 e8
    have := located_unique _ _ _ _ _ _ hx e6
    subst this
    rw [hdata] at e8
    refine Or.inr ⟨ob, y, outB, e1, e5, e7, fun hok => ?_⟩
    obtain ⟨f1, f2, _⟩ := e8 hok
    have : outB = part m := by
      unfold encrypted at hw
      split at hw
      · simp only [Option.some.injEq, Prod.mk.injEq] at hw
        obtain ⟨rfl, rfl⟩ := hw
        simp only [InitParams.alg, Option.some.injEq] at halg
        simp only [CipherOutputs, ← halg, if_true] at f1
        obtain ⟨k, hk, ho⟩ := opened_pkcs1 (show decryptPkcs1 l sslOk sk.key data = some outB from f1)
        exact rsa_same hl hty hpk hdec hs hk ho
      · rename_i d g label
        simp only [Option.some.injEq, Prod.mk.injEq] at hw
        obtain ⟨rfl, rfl⟩ := hw
        simp only [InitParams.alg, Option.some.injEq] at halg
        obtain ⟨d', g', label', hq, ho⟩ := hoaep _ rfl
        simp only [Option.some.injEq, Prod.mk.injEq] at hq
        obtain ⟨rfl, rfl, rfl⟩ := hq
        simp only [CipherOutputs, ← halg, ho] at f1
        rw [if_neg (by decide), if_pos trivial] at f1
        obtain ⟨k, hk, ho⟩ := opened_oaep (show decryptOaep l sslOk sk.key d g label.get data = some outB from f1)
        exact rsa_same hl hty hpk hdec hs hk ho
      · simp only [Option.some.injEq, Prod.mk.injEq] at hw
        obtain ⟨rfl, rfl⟩ := hw
        simp only [InitParams.alg, Option.some.injEq] at halg
        simp only [CipherOutputs, ← halg] at f1
        rw [if_neg (by decide), if_neg (by decide)] at f1
        obtain ⟨pt, g1, g2⟩ := f1
        obtain ⟨rfl, hlen⟩ := elgamal_same hl hty hpk hdec hlab hs (show decryptElgamal l sslOk sk.key _ data = some pt from g1)
        show outB = pt.take (pt.length / 2)
        rw [g2, hlen, Nat.mul_div_cancel_left _ (by decide)]
      · cases hw
    exact ⟨this, by rw [f2, this]⟩

/-! ## A concrete case -/

def tagOf : Enc → UInt8
  | .pkcs1 => 0
  | .oaep d g label => UInt8.ofNat (16 + 4 * d + g) + sum label

/-- Keys are bytes; the public key is the next one; the points of all curves are the bytes with their addition. -/
def toyLib : Lib UInt8 UInt8 UInt8 :=
  { C102.toy with
    rsaDecrypt := fun k e c => if c.head? = some (k + 1 + tagOf e) then some ((c.drop 2).take (c.getD 1 0).toNat) else none
    coordinates := fun c q => if ecKeySizeFromCurve c = 0 then none else some (List.replicate (2 * ecKeySizeFromCurve c) q) }

/-- The public key 8 is one for RSA; the others are on P-256, where the base point is 1. -/
def toySender : Sender UInt8 UInt8 where
  rsa seed p e m := if m.length ≤ 117 then some ((p + tagOf e) :: UInt8.ofNat m.length :: (m ++ List.replicate (126 - m.length) (UInt8.ofNat seed))) else none
  point p := if p = 8 then none else some (0, p - 1)
  base _ := 1

theorem toyLib_good : Good toyLib toySender where
  rsa seed k e m c h := by
    simp only [toySender] at h
    split at h
    · rename_i hm
      injection h with h
      subst h
      refine ⟨?_, ?_⟩
      · show (if some (k + 1 + tagOf e) = some (k + 1 + tagOf e) then _ else _) = _
        rw [if_pos rfl]
        have e : (UInt8.ofNat m.length).toNat = m.length := by
          rw [UInt8.toNat_ofNat']
          omega
        simp [e]
      · show _ = 1024 / 8
        simp only [List.length_cons, List.length_append, List.length_replicate]
        omega
    · cases h
  shorter k e c m h := by
    simp only [toyLib] at h
    split at h
    · injection h with h
      subst h
      rw [List.length_take, List.length_drop]
      omega
    · cases h
  pub k := rfl
  point k c q h := by
    simp only [toySender] at h
    split at h
    · cases h
    simp only [Option.some.injEq, Prod.mk.injEq] at h
    obtain ⟨rfl, rfl⟩ := h
    refine ⟨k.toNat, rfl, ?_⟩
    show (k + 1) - 1 = UInt8.ofNat k.toNat * 1
    simp
  comm c x y p := by
    show UInt8.ofNat x * (UInt8.ofNat y * p) = UInt8.ofNat y * (UInt8.ofNat x * p)
    rw [← UInt8.mul_assoc, UInt8.mul_comm (UInt8.ofNat x), UInt8.mul_assoc]
  cancel c m p := by
    show (m + p) + (0 - p) = m
    rw [UInt8.zero_sub, ← UInt8.sub_eq_add_neg, UInt8.add_sub_cancel]
  coordinates c p b h := by
    simp only [toyLib] at h
    split at h
    · cases h
    · rename_i hc
      injection h with h
      subst h
      refine ⟨?_, List.length_replicate ..⟩
      show (List.replicate _ p).head? = some p
      rw [List.head?_replicate, if_neg (by omega)]

/-- The public key of a key in the table is told. -/
theorem tells {st : KeyStore} {d : StoredKey} (hr : KsReachable C08.toy st) (hk : KeyHeld C08.toy st 31 C08.u7 d) (hri : d.header.rights = rightsAllowAll) {mine : Bytes}
    (hm : C69.publicOf toyLib.der d = some mine) (hn : mine ≠ []) {buffer : Bytes} (hb : mine.length ≤ buffer.length) :
    ∃ a, taKeyGetPublic C08.env0 toyLib.der st (some buffer) buffer.length 31 C08.u7 = some (st, a) ∧ a.status = .OK ∧ (a.out.getD []).take a.outLength = mine := by
  obtain ⟨a, e, h1, _⟩ := C69.C69_public_partial C08.env0 C08.toy_good toyLib.der st hr (some buffer) buffer.length 31 C08.u7 (fun o h => congrArg List.length (Option.some.inj h).symm)
  have hok := h1.2 ⟨d, mine, ⟨hk, usable hri⟩, hm, hn, fun _ => hb⟩
  obtain ⟨_, k, hk', hp⟩ := public_of (show C08.env0.prims.Good from C08.toy_good) hr e hok
  have hd : k = d := by
    have hu := hk.2 C08.env0 rfl
    rw [usable hri] at hu
    exact (KeyHeld.unique _ st 31 C08.u7 k d C08.env0 rfl hk' hu).symm
  rw [hd, hm] at hp
  exact ⟨a, e, hok, (Option.some.inj hp).symm⟩

def secret : Bytes := List.replicate 16 5

/-- OAEP with SHA-256, MGF1 with SHA-1 and a label. -/
def sealedOaep : Bytes := (toySender.rsa 3 8 (.oaep 1 0 [4, 4]) secret).getD []

/-- 3·G and M + 3·Q for the point 5 and the public key 10, whose point is 9. -/
def sealedPoint : Bytes := List.replicate 64 3 ++ List.replicate 64 32

def target : UnwrapTarget := { rights := rightsAllowAll, keyType := KEY_TYPE_SYMMETRIC, curve := none }

theorem sealed_oaep : Sealed toyLib toySender 8 (.rsa (.oaep 1 0 [4, 4])) secret sealedOaep := ⟨3, by decide +kernel⟩

theorem sealed_point : Sealed toyLib toySender 10 .elgamal (List.replicate 64 5) sealedPoint :=
  ⟨0, 9, 3, 5, List.replicate 64 3, List.replicate 64 32, by decide +kernel, by decide +kernel, by decide +kernel, by decide +kernel, rfl⟩

theorem labelled_rsa (h : Header) : Labelled toySender h 8 := fun c q hq => by simp [toySender] at hq

/-- An RSA key: a key that somebody encrypted with OAEP is unwrapped. -/
example : ∃ st a st' h d, taKeyGetPublic C08.env0 toyLib.der st (some [0, 0]) 2 31 C08.u7 = some (st, a) ∧ a.status = .OK ∧
    keyUnwrapOp C08.env0 ⟨toyLib.unwrapping true C53.toyU, true, true⟩ st target (.rsa (some (some (1, 0, .bytes [4, 4])))) 31 sealedOaep C08.u7 = some (st', .OK, h) ∧
    NewKey C08.toy st st' h C08.u7 d ∧ d.key = secret := by
  obtain ⟨st, d, hr, hk, hu, h1, h2, _, h4, h5, _, hfree⟩ := stored (kt := KEY_TYPE_RSA) (tp := Vector.replicate 1040 0) (size := 128) (key := [7]) (by decide) (by decide +kernel)
  have hpub : C69.publicOf toyLib.der d = some [1, 8] := by
    unfold C69.publicOf
    rw [h2, h5]
    rfl
  have hsz : d.header.size.toNat = 128 := by rw [h4]; rfl
  obtain ⟨a, ha, hok, hout⟩ := tells hr hk h1 hpub (by simp) (buffer := [0, 0]) (by simp)
  obtain ⟨st', h, he⟩ := C103_unwraps toyLib toySender toyLib_good C08.env0 C08.toy_good (fun _ => rfl) st hr 31 C08.u7 d hu (by rw [h1]; decide +kernel) 8 [1, 8] hpub rfl
    (labelled_rsa _) (by intro _ k hk; rw [hsz]; rfl) (.rsa (some (some (1, 0, .bytes [4, 4])))) _ _ rfl secret sealedOaep sealed_oaep
    ⟨by rw [h2]; rfl, Or.inl hsz⟩
    (by intro d g lb hh; simp only [UnwrapParams.rsa.injEq, Option.some.injEq, Prod.mk.injEq] at hh; obtain ⟨rfl, rfl, rfl⟩ := hh; exact ⟨by decide, by decide, by simp⟩)
    (by intro _ _ hh; cases hh) C53.toyU C53.toyU_good target (by decide +kernel) rfl (by decide) hfree
  obtain ⟨b', s', h', e', hc⟩ := C103_unwrap toyLib toySender toyLib_good C08.toy C08.toy_good C08.env0 C08.env0 rfl rfl st st hr hr 31 (Or.inl (nothing_done _ _ _)) C08.u7 [0, 0] st a ha hok
    8 (by rw [hout]; rfl) (fun h _ => labelled_rsa h) (.rsa (some (some (1, 0, .bytes [4, 4])))) _ _ rfl secret sealedOaep sealed_oaep (by decide +kernel) true true true C53.toyU C53.toyU_good target
  rw [he] at e'
  simp only [Option.some.injEq, Prod.mk.injEq] at e'
  obtain ⟨rfl, rfl, rfl⟩ := e'
  rcases hc with ⟨hc, _⟩ | ⟨_, wk, d', _, hn, hd, _⟩
  · exact absurd rfl hc
  · exact ⟨st, a, st', h, d', ha, hok, he, hn, hd⟩

/-- A key on P-256: 16 bytes of the first coordinate, from byte 8 on, are unwrapped. -/
example : ∃ st a st' h d, taKeyGetPublic C08.env0 toyLib.der st (some [0, 0]) 2 31 C08.u7 = some (st, a) ∧ a.status = .OK ∧
    keyUnwrapOp C08.env0 ⟨toyLib.unwrapping true C53.toyU, true, true⟩ st target (.elgamal (some (8, 16))) 31 sealedPoint C08.u7 = some (st', .OK, h) ∧
    NewKey C08.toy st st' h C08.u7 d ∧ d.key = secret := by
  obtain ⟨st, d, hr, hk, hu, h1, h2, h3, h4, h5, _, hfree⟩ := stored (kt := KEY_TYPE_EC) (tp := tpOfCurve 0) (size := 32) (key := [9]) (by decide) (by decide +kernel)
  have hcu : curveOf d.header.typeParameters = 0 := by rw [h3]; decide +kernel
  have hpub : C69.publicOf toyLib.der d = some [1, 10] := by
    unfold C69.publicOf
    rw [h2, h5]
    rfl
  have hsz : d.header.size.toNat = 32 := by rw [h4]; rfl
  have hlab : Labelled toySender d.header 10 := fun c q hq => by
    have : c = 0 := by simp [toySender] at hq; exact hq.1.symm
    subst this
    exact ⟨hcu, hsz⟩
  obtain ⟨a, ha, hok, hout⟩ := tells hr hk h1 hpub (by simp) (buffer := [0, 0]) (by simp)
  obtain ⟨st', h, he⟩ := C103_unwraps toyLib toySender toyLib_good C08.env0 C08.toy_good (fun _ => rfl) st hr 31 C08.u7 d hu (by rw [h1]; decide +kernel) 10 [1, 10] hpub rfl
    hlab (by intro ht; rw [h2] at ht; exact absurd ht (by decide)) (.elgamal (some (8, 16))) _ _ rfl (List.replicate 64 5) sealedPoint sealed_point
    (by show _ = _; rw [h2]; rfl) (by intro _ _ _ hh; cases hh)
    (by intro o n hh; simp only [UnwrapParams.elgamal.injEq, Option.some.injEq, Prod.mk.injEq] at hh; obtain ⟨rfl, rfl⟩ := hh; exact ⟨by rw [hcu]; decide, by rw [hsz]; decide, by rw [hcu, h2, h4]; decide⟩)
    C53.toyU C53.toyU_good target (by decide +kernel) rfl (by decide) hfree
  obtain ⟨b', s', h', e', hc⟩ := C103_unwrap toyLib toySender toyLib_good C08.toy C08.toy_good C08.env0 C08.env0 rfl rfl st st hr hr 31 (Or.inl (nothing_done _ _ _)) C08.u7 [0, 0] st a ha hok
    10 (by rw [hout]; rfl) (fun h hh => by rw [hk.1] at hh; injection hh with hh; rw [← hh]; exact hlab) (.elgamal (some (8, 16))) _ _ rfl (List.replicate 64 5) sealedPoint sealed_point (by decide +kernel) true true true
    C53.toyU C53.toyU_good target
  rw [he] at e'
  simp only [Option.some.injEq, Prod.mk.injEq] at e'
  obtain ⟨rfl, rfl, rfl⟩ := e'
  rcases hc with ⟨hc, _⟩ | ⟨_, wk, d', _, hn, hd, _⟩
  · exact absurd rfl hc
  · exact ⟨st, a, st', h, d', ha, hok, he, hn, hd.trans (by decide)⟩

/-! Decryption: the key as a value. -/

def keyOf (kt : Nat) (tp : Vector UInt8 1040) (size : Nat) (key : Bytes) : StoredKey :=
  ⟨⟨MAGIC, Vector.replicate 4 0, restrictChildRights rightsAllowAll none, UInt8.ofNat kt, Vector.replicate 7 0, tp, UInt16.ofNat size, Vector.replicate 6 0⟩, key⟩

theorem created {kt size : Nat} {tp : Vector UInt8 1040} {key : Bytes} {d : StoredKey} (h : (storedKeyCreate true rightsAllowAll none kt tp size key).2 = some d) : d = keyOf kt tp size key := by
  unfold storedKeyCreate at h
  split at h
  · cases h
  · split at h
    · cases h
    · split at h
      · cases h
      · exact (Option.some.inj h).symm

def w0 : CipherWorld C34.Toy := (cipherNew C34.Toy 32).getD ⟨⟨⟨[], 0⟩, [], 0, false, 0⟩, fun _ => none, 0⟩

theorem w0_new : cipherNew C34.Toy 32 = some w0 := by
  have h : (cipherNew C34.Toy 32).isSome = true := by decide +kernel
  obtain ⟨w, hw⟩ := Option.isSome_iff_exists.1 h
  unfold w0
  rw [hw]
  rfl

def rsaKey : StoredKey := keyOf KEY_TYPE_RSA (Vector.replicate 1040 0) 128 [7]

def afterInit (params : InitParams) (sk : StoredKey) : CipherWorld C34.Toy := ((cipherInit (C34.toyCipher true) w0 params MODE_DECRYPT (.OK, some sk) C36.ienv C08.u7).map (·.1)).getD w0

theorem init_ok {params : InitParams} {sk : StoredKey}
    (h : ((cipherInit (C34.toyCipher true) w0 params MODE_DECRYPT (.OK, some sk) C36.ienv C08.u7).map (·.2)) = some (.OK, 31)) :
    cipherInit (C34.toyCipher true) w0 params MODE_DECRYPT (.OK, some sk) C36.ienv C08.u7 = some (afterInit params sk, .OK, 31) := by
  unfold afterInit
  cases e : cipherInit (C34.toyCipher true) w0 params MODE_DECRYPT (.OK, some sk) C36.ienv C08.u7 with
  | none => rw [e] at h; cases h
  | some r =>
    rw [e] at h
    obtain ⟨w, x⟩ := r
    exact congrArg some (congrArg (Prod.mk w) (Option.some.inj h))

def memOf (data : Bytes) : Mem := fun a => if 0x400000000 ≤ a then data.getD (a - 0x400000000) 0 else 0

/-- An RSA key: what somebody encrypted with OAEP is decrypted. -/
example : ∃ st a, taKeyGetPublic C08.env0 toyLib.der st (some [0, 0]) 2 31 C08.u7 = some (st, a) ∧ a.status = .OK ∧
    keyStoreUnwrap C08.env0 st 31 C08.u7 = some (st, .OK, some rsaKey) ∧
    cipherInit (C34.toyCipher true) w0 (.oaep (some (1, 0, .bytes [4, 4]))) MODE_DECRYPT (.OK, some rsaKey) C36.ienv C08.u7 =
      some (afterInit (.oaep (some (1, 0, .bytes [4, 4]))) rsaKey, .OK, 31) ∧
    ∃ r, cipherProcess .more (C34.toyCipher true) (toyLib.unwrapping true C53.toyU) C27.renv (afterInit (.oaep (some (1, 0, .bytes [4, 4]))) rsaKey) C20.st1 (memOf sealedOaep) 31
        (some (.buf (.clear 0x200000000 128 0))) (.buf (.clear 0x400000000 128 0)) 128 C08.u7 = some r ∧ r.status = .OK ∧
      ∃ y, r.mem = writeAt (memOf sealedOaep) y secret ∧ Located C20.st1 C08.u7 (.clear 0x200000000 128 0) 16 y := by
  obtain ⟨st, d, hr, hk, hu, h1, h2, _, h4, h5, hcr, _⟩ := stored (kt := KEY_TYPE_RSA) (tp := Vector.replicate 1040 0) (size := 128) (key := [7]) (by decide) (by decide +kernel)
  have hpub : C69.publicOf toyLib.der d = some [1, 8] := by
    unfold C69.publicOf
    rw [h2, h5]
    rfl
  have hd : d = rsaKey := created hcr
  obtain ⟨a, ha, hok, hout⟩ := tells hr hk h1 hpub (by simp) (buffer := [0, 0]) (by simp)
  rw [hd] at hu
  have hi := init_ok (params := .oaep (some (1, 0, .bytes [4, 4]))) (sk := rsaKey) (by decide +kernel)
  have hres : (cipherProcess .more (C34.toyCipher true) (toyLib.unwrapping true C53.toyU) C27.renv (afterInit (.oaep (some (1, 0, .bytes [4, 4]))) rsaKey) C20.st1 (memOf sealedOaep) 31
        (some (.buf (.clear 0x200000000 128 0))) (.buf (.clear 0x400000000 128 0)) 128 C08.u7).map (·.status) = some .OK := by decide +kernel
  obtain ⟨r, e, hc⟩ := C103_decrypt toyLib toySender toyLib_good C08.toy C08.toy_good C08.env0 C08.env0 rfl rfl st st hr hr 31 (Or.inl (nothing_done _ _ _)) C08.u7 [0, 0] st a ha hok
    8 (by rw [hout]; rfl) (fun h _ => labelled_rsa h) (C34.toyCipher true) C34.toyView C34.toyCipher_good 32 (by decide) w0 w0_new [] (by simp) w0 rfl st _ hu
    (.oaep (some (1, 0, .bytes [4, 4]))) _ _ rfl C36.ienv ⟨rfl, rfl⟩ _ 31 hi [] (by simp) (by simp) _ rfl secret sealedOaep sealed_oaep true C53.toyU C53.toyU_good C27.renv C20.st1 C20.st1_reachable
    (memOf sealedOaep) (some (.buf (.clear 0x200000000 128 0))) (.clear 0x400000000 128 0) 128 (by decide +kernel) (by decide +kernel) 0x400000000 ⟨by decide, by decide +kernel, by decide, rfl⟩ (by decide +kernel)
  rw [e] at hres
  have hres : r.status = .OK := Option.some.inj hres
  refine ⟨st, a, ha, hok, hu, hi, r, e, hres, ?_⟩
  rcases hc with ⟨_, hc⟩ | ⟨ob, y, outB, e1, e2, e3, e4⟩
  · exact absurd (hc hres) (by simp)
  · obtain ⟨rfl, _⟩ := e4 hres
    simp only [Option.some.injEq, RawBuffer.buf.injEq] at e1
    subst e1
    exact ⟨y, e3, e2⟩

end Sa.Asym.C103

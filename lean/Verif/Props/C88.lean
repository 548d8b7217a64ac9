import Verif.Model.ProviderExch

/-!
# C88: key exchange through the OpenSSL provider, and the rights of the keys that the provider makes

Two applications that exchange keys through the provider have the same secret, and can do with it whatever they want.
-/

namespace Sa.Px.C88

/-! ## Specification -/

/-- What an application does with a context before it derives: `EVP_PKEY_derive_init`, `EVP_PKEY_derive_set_peer`, `EVP_PKEY_CTX_dup`. -/
inductive Setting
  | key (k : KeyData)
  | peer (k : KeyData)
  | copy

def apply (c : XCtx) : Setting → XCtx
  | .key k => init c k
  | .peer k => setPeer c k
  | .copy => dupctx c

/-- The context after settings, the last first. -/
def applyAll : List Setting → XCtx
  | [] => newctx
  | s :: earlier => apply (applyAll earlier) s

/-- The key and the peer set last. -/
def lastKey : List Setting → Option KeyData
  | [] => none
  | .key k :: _ => some k
  | _ :: earlier => lastKey earlier

def lastPeer : List Setting → Option KeyData
  | [] => none
  | .peer k :: _ => some k
  | _ :: earlier => lastPeer earlier

/-- Which keys agree how: finite field Diffie-Hellman (0) for DH keys, elliptic curve Diffie-Hellman (1) for keys on the NIST curves, Curve25519
and Curve448 (numbers of OpenSSL). -/
def meantAlg : Nat → Option Nat
  | 28 => some 0
  | 408 | 1034 | 1035 => some 1
  | _ => none

/-- The API agrees: the key that it makes is the secret of the key and the public key given, with the rights given. -/
def Agrees (api : Api ω) (value : ω → Nat → Option β) (rights : ω → Nat → Option Rights) (dh : Nat → β → List UInt8 → β) : Prop :=
  ∀ w r alg h pub w' h', api.exchange w r alg h pub = (w', some h') →
    ∃ i v, h = some i ∧ value w i = some v ∧ value w' h' = some (dh alg v pub) ∧ rights w' h' = some r

/-- Everything that a key can be used for is allowed, at a time, with the outputs as they are, and to a TA. -/
def Everything (env : RightsEnv) (caller : Uuid) (r : Rights) : Prop :=
  rightsAllowedUuid r caller = true ∧ rightsAllowedDerive env r = true ∧ rightsAllowedExchange env r = true ∧ rightsAllowedUnwrap env r = true ∧
  rightsAllowedSign env r = true ∧ rightsAllowedClear r = true ∧ (∀ sym, rightsAllowedDecrypt env r sym = true ∧ rightsAllowedEncrypt env r sym = true) ∧
  bitTest r.usageFlags FLAG_CACHEABLE = true

/-! ## Lemmas -/

theorem key_last (ss : List Setting) : (applyAll ss).key = lastKey ss := by
  induction ss with
  | nil => rfl
  | cons s ss ih => cases s with
    | key k => rfl
    | peer k => exact ih
    | copy => exact ih

theorem peer_last (ss : List Setting) : (applyAll ss).peer = lastPeer ss := by
  induction ss with
  | nil => rfl
  | cons s ss ih => cases s with
    | key k => exact ih
    | peer k => rfl
    | copy => exact ih

theorem alg_meant (t : Nat) : algOf t = meantAlg t := by
  unfold algOf PKEY_DH PKEY_EC PKEY_X25519 PKEY_X448 EXCHANGE_DH EXCHANGE_ECDH
  by_cases h1 : t = 28
  · subst h1; rfl
  by_cases h2 : t = 408
  · subst h2; rfl
  by_cases h3 : t = 1034
  · subst h3; rfl
  by_cases h4 : t = 1035
  · subst h4; rfl
  rw [if_neg h1, if_neg (by omega)]
  unfold meantAlg
  split <;> first | contradiction | rfl

/-! ## The property -/

/-- A secret that an application gets is a new key: that of the private key and the peer set last, exchanged as their kind is, with all rights.
Nothing is exchanged without room for its handle.  (Partial: C88_violated_peer.) -/
theorem C88_secret_partial {api : Api ω} (ha : Agrees api value rights dh) (w w' : ω) (ss : List Setting) (room : Option Nat)
    (hd : derive api w (applyAll ss) room = (w', .secret h)) :
    ∃ k p alg i v pub, lastKey ss = some k ∧ lastPeer ss = some p ∧ meantAlg k.type = some alg ∧ k.handle = some i ∧ value w i = some v ∧
      p.pub = some pub ∧ value w' h = some (dh alg v pub) ∧ rights w' h = some rightsAllowAll ∧ ∃ n, room = some n ∧ 8 ≤ n := by
  unfold derive at hd
  rw [key_last, peer_last] at hd
  cases room with
  | none => cases hd
  | some n =>
  simp only at hd
  by_cases hn : n < 8
  · rw [if_pos hn] at hd; cases hd
  rw [if_neg hn] at hd
  cases hk : lastKey ss with
  | none => rw [hk] at hd; cases hd
  | some k =>
  rw [hk] at hd
  simp only at hd
  cases hm : algOf k.type with
  | none => rw [hm] at hd; cases hd
  | some alg =>
  rw [hm] at hd
  simp only at hd
  cases hp : lastPeer ss with
  | none => rw [hp] at hd; cases hd
  | some p =>
  rw [hp] at hd
  simp only at hd
  cases hpub : p.pub with
  | none => rw [hpub] at hd; cases hd
  | some pub =>
  rw [hpub] at hd
  simp only at hd
  cases he : api.exchange w rightsAllowAll alg k.handle pub with
  | mk w2 r =>
  rw [he] at hd
  cases r with
  | none => cases hd
  | some h2 =>
    cases hd
    obtain ⟨i, v, h1, h2, h3, h4⟩ := ha _ _ _ _ _ _ _ he
    exact ⟨k, p, alg, i, v, pub, rfl, rfl, by rw [← alg_meant, hm], h1, h2, hpub, h3, h4, n, rfl, Nat.le_of_not_lt hn⟩

/-- With a private key and a peer, an application with room gets what the API answers, and only the API changes the keys. -/
theorem C88_answers (api : Api ω) (w : ω) (ss : List Setting) (hk : lastKey ss = some k) (hp : lastPeer ss = some p)
    (hm : meantAlg k.type = some alg) (hpub : p.pub = some pub) (hn : 8 ≤ n) :
    derive api w (applyAll ss) (some n) = ((api.exchange w rightsAllowAll alg k.handle pub).1,
      match (api.exchange w rightsAllowAll alg k.handle pub).2 with
      | some h => .secret h
      | none => .fail) := by
  unfold derive
  rw [key_last, peer_last, hk, hp]
  simp only
  rw [if_neg (Nat.not_lt.mpr hn), alg_meant, hm]
  simp only [hpub]
  cases api.exchange w rightsAllowAll alg k.handle pub with
  | mk w r => cases r <;> rfl

/-- **C88**: asked without a buffer, the call makes no key and answers the length that is needed: with less room the call fails and makes no key, and
more room makes no difference. -/
theorem C88_length (api : Api ω) (w : ω) (ss : List Setting) : ∃ n, derive api w (applyAll ss) none = (w, .length n) ∧
    (∀ m, m < n → derive api w (applyAll ss) (some m) = (w, .fail)) ∧
    ∀ m, n ≤ m → derive api w (applyAll ss) (some m) = derive api w (applyAll ss) (some n) := by
  refine ⟨8, rfl, fun m hm => ?_, fun m hm => ?_⟩
  · simp only [derive, if_pos hm]
  · simp only [derive]
    rw [if_neg (by omega), if_neg (by omega)]

/-- Two applications, each with its own keys, that gave each other their public keys have the same secret. -/
theorem C88_agree {api : Api ω} {api' : Api ω'} {pubOf : β → List UInt8} {dh : Nat → β → List UInt8 → β} (ha : Agrees api value rights dh) (hb : Agrees api' value' rights' dh)
    (hdh : ∀ alg a b, dh alg a (pubOf b) = dh alg b (pubOf a))
    (w w1 : ω) (v v1 : ω') (ss ss' : List Setting) (room room' : Option Nat)
    (hA : lastKey ss = some kA) (hB : lastKey ss' = some kB) (hpA : lastPeer ss = some kB') (hpB : lastPeer ss' = some kA')
    (htype : kA.type = kB.type)
    (hkA : kA.handle = some i) (hkB : kB.handle = some j) (hvA : value w i = some a) (hvB : value' v j = some b)
    (hpubA : kA'.pub = some (pubOf a)) (hpubB : kB'.pub = some (pubOf b))
    (hd : derive api w (applyAll ss) room = (w1, .secret h)) (hd' : derive api' v (applyAll ss') room' = (v1, .secret h')) :
    ∃ s, value w1 h = some s ∧ value' v1 h' = some s := by
  obtain ⟨k, p, alg, i1, x, pub, e1, e2, e3, e4, e5, e6, e7, _⟩ := C88_secret_partial ha w w1 ss room hd
  obtain ⟨k', p', alg', i2, y, pub', f1, f2, f3, f4, f5, f6, f7, _⟩ := C88_secret_partial hb v v1 ss' room' hd'
  rw [hA] at e1; cases e1
  rw [hB] at f1; cases f1
  rw [hpA] at e2; cases e2
  rw [hpB] at f2; cases f2
  rw [hkA] at e4; cases e4
  rw [hkB] at f4; cases f4
  rw [hvA] at e5; cases e5
  rw [hvB] at f5; cases f5
  rw [hpubA] at f6; cases f6
  rw [hpubB] at e6; cases e6
  rw [htype, f3] at e3
  cases e3
  exact ⟨_, e7, by rw [f7, hdh]⟩

/-- Keys that the provider makes (by exchange, import, generation and derivation) can be used for everything, by every TA, at every time but the
last that can be written, with every state of the outputs that can be asked for. -/
theorem C88_rights (env : RightsEnv) (caller : Uuid) (ht : env.time < 0xFFFFFFFFFFFFFFFF) (hv : env.video = some v) :
    Everything env caller rightsAllowAll := by
  have hflags : ∀ f < 14, bitTest rightsAllowAll.usageFlags f = true := by decide +kernel
  have htime : rightsAllowedTime rightsAllowAll env.time = true := by
    unfold rightsAllowedTime
    rw [if_neg (show ¬ env.time < rightsAllowAll.notBefore from fun h => by
      have : env.time < 0 := h
      exact absurd (UInt64.lt_iff_toNat_lt.mp this) (Nat.not_lt_zero _))]
    rw [if_neg (show ¬ env.time ≥ rightsAllowAll.notOnOrAfter from fun h => by
      have h1 : (0xFFFFFFFFFFFFFFFF : UInt64) ≤ env.time := h
      have := UInt64.le_iff_toNat_le.mp h1
      have := UInt64.lt_iff_toNat_lt.mp ht
      omega)]
  have hvideo : validateVideoOutputState env rightsAllowAll = true := by
    simp only [validateVideoOutputState, hv, rightsAllowedVideoOutputState, FLAG_SVP_OPTIONAL, FLAG_ANALOG_UNPROTECTED, FLAG_ANALOG_CGMSA,
      FLAG_DIGITAL_UNPROTECTED, FLAG_DIGITAL_HDCP14, FLAG_DIGITAL_HDCP22, hflags 12 (by decide), hflags 6 (by decide), hflags 7 (by decide),
      hflags 8 (by decide), hflags 9 (by decide), hflags 10 (by decide)]
    rfl
  refine ⟨?_, ?_, ?_, ?_, ?_, ?_, ?_, hflags 13 (by decide)⟩
  · unfold rightsAllowedUuid
    rw [show rightsAllowAll.allowedTas.toList = ALL_MATCH :: List.replicate 31 NO_MATCH from by decide +kernel]
    unfold rightsAllowedUuidLoop
    rw [if_neg (by decide), if_pos (by decide)]
  · simp only [rightsAllowedDerive, FLAG_DERIVE, hflags 1 (by decide), htime]; rfl
  · simp only [rightsAllowedExchange, FLAG_KEY_EXCHANGE, hflags 0 (by decide), htime]; rfl
  · simp only [rightsAllowedUnwrap, FLAG_UNWRAP, hflags 2 (by decide), htime]; rfl
  · simp only [rightsAllowedSign, FLAG_SIGN, hflags 5 (by decide), htime]; rfl
  · simp only [rightsAllowedClear, FLAG_SVP_OPTIONAL, hflags 12 (by decide)]; rfl
  · intro sym
    simp only [rightsAllowedDecrypt, rightsAllowedEncrypt, FLAG_DECRYPT, FLAG_ENCRYPT, hflags 3 (by decide), hflags 4 (by decide), htime, hvideo]
    cases sym <;> exact ⟨rfl, rfl⟩

/-- Violation: an application that forgets to set the peer is not told so; NULL is used. -/
theorem C88_violated_peer (api : Api ω) (w : ω) (k : KeyData) (alg : Nat) (hm : meantAlg k.type = some alg) (hn : 8 ≤ n) :
    derive api w (applyAll [.key k]) (some n) = (w, .null) := by
  unfold derive
  rw [key_last, peer_last]
  simp only [lastKey, lastPeer]
  rw [if_neg (Nat.not_lt.mpr hn), alg_meant, hm]

/-! ## Examples -/

/-- A store of numbers; two numbers agree on their product. -/
def shelf : Api (List (Nat × Rights)) where
  exchange w r alg h pub := match h with
    | none => (w, none)
    | some i => match w[i]? with
      | none => (w, none)
      | some v => (w ++ [(alg + v.1 * pub.length, r)], some w.length)

def number (w : List (Nat × Rights)) (h : Nat) : Option Nat := w[h]?.map (·.1)
def rightsOf (w : List (Nat × Rights)) (h : Nat) : Option Rights := w[h]?.map (·.2)

theorem shelf_agrees : Agrees shelf number rightsOf fun alg a p => alg + a * p.length := by
  intro w r alg h pub w' h' he
  cases h with
  | none => cases he
  | some i =>
    simp only [shelf] at he
    cases hi : w[i]? with
    | none => rw [hi] at he; cases he
    | some v =>
      rw [hi] at he
      simp only [Prod.mk.injEq, Option.some.injEq] at he
      obtain ⟨rfl, rfl⟩ := he
      exact ⟨i, v.1, rfl, by simp [number, hi], by simp [number], by simp [rightsOf]⟩

def alice : KeyData := ⟨408, some 0, some [1, 2, 3]⟩
def bob : KeyData := ⟨408, some 0, some [1, 2, 3, 4, 5]⟩
def other : KeyData := ⟨28, some 7, some [1]⟩

example : (derive shelf [(3, rightsAllowAll)] (applyAll [.copy, .peer bob, .peer other, .key alice]) (some 8)).2 = .secret 1 := by decide +kernel
example : number (derive shelf [(3, rightsAllowAll)] (applyAll [.copy, .peer bob, .peer other, .key alice]) (some 8)).1 1 = some 16 := by decide +kernel
example : number (derive shelf [(5, rightsAllowAll)] (applyAll [.peer alice, .key bob]) (some 9)).1 1 = some 16 := by decide +kernel
example : (derive shelf [(5, rightsAllowAll)] (applyAll [.peer alice, .key bob]) (some 7)).2 = .fail := by decide +kernel
example : (derive shelf [(5, rightsAllowAll)] (applyAll [.peer alice, .key bob]) none).2 = .length 8 := by decide +kernel
example : Everything ⟨1700000000, some ⟨1, 1, 1, 1, 1, false⟩⟩ (Vector.replicate 16 9) rightsAllowAll :=
  C88_rights _ _ (by decide) rfl

end Sa.Px.C88

import Verif.Model.ProviderKdf
import Verif.Props.C30
import Verif.Props.C31

/-!
# C77: Keys derived through the OpenSSL provider are those of the standards

Violated for CMAC (other blocks for longer keys, length in bytes instead of bits, writing behind the memory), after a reset and for
duplicates.  Otherwise it is so (`C77_derive_partial`, `C77_cmac_partial`).
-/

namespace Sa.Pv.C77

variable {ω : Type}

/-- What an application asked for by giving parameters. -/
structure Asked where
  key : Option Nat := none
  digest : Option String := none
  salt : Option Bytes := none
  info : Option Bytes := none
  separator : Int := 0
  l : Int := 0

/-- What is given later counts. -/
def Asked.give (a : Asked) (p : KdfPrm) : Asked :=
  { key := p.saKey.or (p.key.or a.key)
    digest := p.digest.or a.digest
    salt := p.salt.or a.salt
    info := p.info.or a.info
    separator := p.useSeparator.getD a.separator
    l := p.useL.getD a.l }

def asked (ps : List KdfPrm) : Asked := ps.foldl Asked.give {}

/-- The names of the digests (NIST and OpenSSL) and their codes in the API. -/
def digestOf (n : String) : Option Nat :=
  if n ∈ ["SHA1", "SHA-1"] then some 0
  else if n ∈ ["SHA256", "SHA2-256", "SHA-256"] then some 1
  else if n ∈ ["SHA384", "SHA2-384", "SHA-384"] then some 2
  else if n ∈ ["SHA512", "SHA2-512", "SHA-512"] then some 3
  else none

/-- The key of the standards: HKDF (RFC 5869), single-step KDF (SP 800-56C), X9.63. -/
def standard (p : KdfPrims) (alg d : Nat) (a : Asked) (L : Nat) (parent : Bytes) : Bytes :=
  let n := (digestLength d).getD 0
  if alg = KDF_HKDF then hkdfSpec (p.hmac d) n a.salt parent (a.info.getD []) L
  else if alg = KDF_CONCAT then concatSpec (p.hash d) n parent (a.info.getD []) L
  else x963Spec (p.hash d) n parent (a.info.getD []) L

/-- The key of SP 800-108 in counter mode with CMAC, an 8-bit counter, label and context: block i is CMAC(i | label | 0 | context | L), i =
1, 2, ..., where L is the length in bits. -/
def cmacStandard (cmac : Bytes → Bytes) (a : Asked) (L : Nat) : Bytes :=
  let fixed := a.salt.getD [] ++ (if a.separator = 1 then [0] else []) ++ a.info.getD [] ++ (if a.l = 1 then be32 (8 * L) else [])
  (((List.range ((L + 15) / 16)).map fun i => cmac (UInt8.ofNat (i + 1) :: fixed)).flatten).take L

/-- `EVP_KDF_CTX_set_params` several times. -/
def sets (api : KdfApi ω) : ω → KdfCtx → List KdfPrm → ω × KdfCtx × Bool
  | w, c, [] => (w, c, true)
  | w, c, p :: ps => match kdfSet api w c (some p) with
    | (w, c, true) => sets api w c ps
    | r => r

/-- The context holds what was asked for. -/
structure Holds (alg : Nat) (c : KdfCtx) (a : Asked) : Prop where
  alg : c.alg = alg
  key : c.key = a.key
  digest : c.digest = a.digest.bind digestFromName
  salt : c.salt = a.salt
  saltLength : c.saltLength = (a.salt.getD []).length
  info : c.info = a.info
  infoLength : c.infoLength = (a.info.getD []).length
  separator : c.useSeparator = a.separator
  l : c.useL = a.l

theorem setKey_eq {api : KdfApi ω} {w w' : ω} {c c' : KdfCtx} {k : Option Nat} (h : kdfSetKey api w c k = (w', c', true)) :
    c' = { c with key := k.or c.key } := by
  cases k with
  | none => simp only [kdfSetKey, Prod.mk.injEq] at h; rw [← h.2.1]; rfl
  | some k =>
    simp only [kdfSetKey] at h
    split at h
    · simp at h
    · simp only [Prod.mk.injEq] at h
      rw [← h.2.1]; rfl

theorem set_eq {api : KdfApi ω} {w w' : ω} {c c' : KdfCtx} {p : KdfPrm} (h : kdfSet api w c (some p) = (w', c', true)) :
    c' = kdfSetRest { c with key := p.saKey.or (p.key.or c.key) } p := by
  simp only [kdfSet] at h
  split at h
  · simp at h
  · rename_i h1
    have e1 := setKey_eq h1
    split at h
    · simp at h
    · rename_i h2
      have e2 := setKey_eq h2
      simp only [Prod.mk.injEq] at h
      rw [← h.2.1, e2, e1]

theorem Holds.give {api : KdfApi ω} {w w' : ω} {alg : Nat} {c c' : KdfCtx} {a : Asked} {p : KdfPrm} (hh : Holds alg c a)
    (h : kdfSet api w c (some p) = (w', c', true)) : Holds alg c' (a.give p) := by
  rw [set_eq h]
  obtain ⟨h1, h2, h3, h4, h5, h6, h7, h8, h9⟩ := hh
  obtain ⟨pk, psk, pd, pdg, ps, pi, pse, pl⟩ := p
  constructor
  · exact h1
  · simp [kdfSetRest, Asked.give, h2]
  · cases pdg <;> simp [kdfSetRest, Asked.give, h3]
  · cases ps <;> simp [kdfSetRest, Asked.give, h4]
  · cases ps <;> simp [kdfSetRest, Asked.give, h5]
  · cases pi <;> simp [kdfSetRest, Asked.give, h6]
  · cases pi <;> simp [kdfSetRest, Asked.give, h7]
  · simp [kdfSetRest, Asked.give, h8]
  · simp [kdfSetRest, Asked.give, h9]

theorem sets_holds {api : KdfApi ω} {alg : Nat} (ps : List KdfPrm) : ∀ {w w' : ω} {c c' : KdfCtx} {a : Asked}, Holds alg c a →
    sets api w c ps = (w', c', true) → Holds alg c' (ps.foldl Asked.give a) := by
  induction ps with
  | nil => intro w w' c c' a hh h; simp only [sets, Prod.mk.injEq] at h; rw [← h.2.1]; exact hh
  | cons p ps ih =>
    intro w w' c c' a hh h
    simp only [sets] at h
    cases hk : kdfSet api w c (some p) with
    | mk w1 r =>
      obtain ⟨c1, b⟩ := r
      rw [hk] at h
      cases b with
      | false => simp at h
      | true => exact ih (hh.give hk) h

theorem new_holds (alg : Nat) : Holds alg (kdfNew alg) {} := by constructor <;> rfl

/-- Setting parameters keeps the store reachable. -/
theorem setKey_reachable (env : Env) (k : KdfEnv) (caller : Uuid) {st st' : KeyStore} {c c' : KdfCtx} {o : Option Nat} {b : Bool}
    (hr : KsReachable env.prims st) (h : kdfSetKey (taKdf env k caller) st c o = (st', c', b)) : KsReachable env.prims st' := by
  cases o with
  | none => simp only [kdfSetKey, Prod.mk.injEq] at h; rw [← h.1]; exact hr
  | some n =>
    simp only [kdfSetKey] at h
    split at h
    · simp only [Prod.mk.injEq] at h; rw [← h.1]; exact hr
    · simp only [Prod.mk.injEq] at h
      rw [← h.1]
      cases c.key with
      | none => exact hr
      | some old =>
        simp only [taKdf]
        cases hx : keyStoreRemove st old caller with
        | returned s x y => exact ksReachable_step env.prims st s hr (.remove old caller) trivial (.removed x) (by simp only [ksStep, hx])
        | blocks s => exact ksReachable_step env.prims st s hr (.remove old caller) trivial .waits (by simp only [ksStep, hx])

theorem set_reachable (env : Env) (k : KdfEnv) (caller : Uuid) {st st' : KeyStore} {c c' : KdfCtx} {p : Option KdfPrm} {b : Bool}
    (hr : KsReachable env.prims st) (h : kdfSet (taKdf env k caller) st c p = (st', c', b)) : KsReachable env.prims st' := by
  cases p with
  | none => simp only [kdfSet, Prod.mk.injEq] at h; rw [← h.1]; exact hr
  | some p =>
    simp only [kdfSet] at h
    split at h
    · rename_i h1
      simp only [Prod.mk.injEq] at h; rw [← h.1]; exact setKey_reachable env k caller hr h1
    · rename_i h1
      have r1 := setKey_reachable env k caller hr h1
      split at h <;> rename_i h2 <;> (simp only [Prod.mk.injEq] at h; rw [← h.1]; exact setKey_reachable env k caller r1 h2)

theorem sets_reachable (env : Env) (k : KdfEnv) (caller : Uuid) (ps : List KdfPrm) : ∀ {st st' : KeyStore} {c c' : KdfCtx} {b : Bool},
    KsReachable env.prims st → sets (taKdf env k caller) st c ps = (st', c', b) → KsReachable env.prims st' := by
  induction ps with
  | nil => intro st st' c c' b hr h; simp only [sets, Prod.mk.injEq] at h; rw [← h.1]; exact hr
  | cons p ps ih =>
    intro st st' c c' b hr h
    simp only [sets] at h
    cases hk : kdfSet (taKdf env k caller) st c (some p) with
    | mk w1 r =>
      obtain ⟨c1, b1⟩ := r
      rw [hk] at h
      have r1 := set_reachable env k caller hr hk
      cases b1 with
      | false => simp only [Prod.mk.injEq] at h; rw [← h.1]; exact r1
      | true => exact ih r1 h

/-- Symmetric keys are never so short that a handle would not fit in their place. -/
theorem size_ge (p : Prims) (hp : p.Good) (st : KeyStore) (hr : KsReachable p st) (h : Nat) (u : Uuid) (d : StoredKey)
    (hd : KeyHeld p st h u d) (ht : d.header.type.toNat = KEY_TYPE_SYMMETRIC) : 16 ≤ d.header.size.toNat := by
  obtain ⟨w, k, _, _, hw, _, e⟩ := ksHeader_ok p st (ksReachable_inv p hp st hr) h u st d.header hd.1
  have := hw.made.size
  rw [← e, ht] at this
  revert this
  generalize curveOf d.header.typeParameters = c
  generalize d.header.size.toNat = s
  intro h
  simp [keyTypeSupportsAny, keyTypeSupportsAes, keyTypeSupportsHmac, keyTypeSupportsRsa, keyTypeSupportsEc, keyTypeSupportsDh,
    validAesSize, validHmacSize, KEY_TYPE_SYMMETRIC, KEY_TYPE_EC, KEY_TYPE_RSA, KEY_TYPE_DH] at h
  omega

/-- There is no key with the invalid handle. -/
theorem no_key (p : Prims) (hp : p.Good) (st : KeyStore) (hr : KsReachable p st) (u : Uuid) (d : StoredKey) :
    ¬KeyHeld p st (2 ^ 64 - 1) u d := by
  intro h
  have := h.1
  unfold keyStoreGetHeader at this
  have hs := (ksReachable_inv p hp st hr).small
  rw [if_pos (by omega)] at this
  simp at this

theorem digest_names {n : String} {d : Nat} (h : digestOf n = some d) : digestFromName n = some d := by
  unfold digestOf at h
  repeat' split at h
  all_goals first
    | (rename_i hm; simp only [List.mem_cons, List.not_mem_nil, or_false] at hm; injection h with h; subst h
       rcases hm with e | e | e <;> subst e <;> decide)
    | (rename_i hm; simp only [List.mem_cons, List.not_mem_nil, or_false] at hm; injection h with h; subst h
       rcases hm with e | e <;> subst e <;> decide)
    | exact absurd h (by simp)

/-- What a derivation gives: nothing and no change, or one new key with the bytes `bytes parent` where the parent is the key asked for. -/
def Derives (env : Env) (st : KeyStore) (caller : Uuid) (a : Asked) (bytes : Bytes → Bytes) (r : Option (KeyStore × KdfCtx × Option Nat)) :
    Prop :=
  ∃ st' c h, r = some (st', c, h) ∧ KsReachable env.prims st' ∧
    ((h = none ∧ Unchanged st st') ∨
     ∃ h' parent pk d, h = some h' ∧ a.key = some parent ∧ KeyHeld env.prims st parent caller pk ∧ NewKey env.prims st st' h' caller d ∧
      d.key = bytes pk.key)

theorem derives_of (env : Env) (hp : env.prims.Good) (k : KdfEnv) (st : KeyStore) (hr : KsReachable env.prims st) (caller : Uuid) (a : Asked)
    (c c1 : KdfCtx) (p : KdfPrm) (L : Nat) (q : KdfParams) (bytes : Bytes → Bytes)
    (hs : kdfSet (taKdf env k caller) st c (some p) = (st, c1, true)) (hq : kdfParams c1 L = some (some q))
    (ho : ∃ st' s h, keyDerive env k st rightsAllowAll q caller = some (st', s, h) ∧ KsReachable env.prims st' ∧
      ((s ≠ .OK ∧ Unchanged st st') ∨
       (s = .OK ∧ ∃ pk d, KeyHeld env.prims st (a.key.getD (2 ^ 64 - 1)) caller pk ∧ NewKey env.prims st st' h caller d ∧
          d.key = bytes pk.key ∧ d.header.size.toNat = L ∧ d.header.type.toNat = KEY_TYPE_SYMMETRIC))) :
    Derives env st caller a bytes (kdfDerive (taKdf env k caller) st c L (some p)) := by
  obtain ⟨st', s, h, he, hre, ho⟩ := ho
  unfold kdfDerive
  rw [hs]
  simp only
  rw [hq]
  simp only [taKdf]
  rw [he]
  rcases ho with ⟨hs, hu⟩ | ⟨hs, pk, d, h1, h2, h3, h4, h5⟩
  · refine ⟨st', c1, none, ?_, hre, Or.inl ⟨rfl, hu⟩⟩
    cases s <;> first | exact absurd rfl hs | rfl
  · subst hs
    have := size_ge _ hp st' hre h caller d h2.holds h5
    refine ⟨st', c1, some h, ?_, hre, Or.inr ⟨h, ?_⟩⟩
    · simp only
      rw [if_neg (by omega)]
    · cases hk : a.key with
      | some n => exact ⟨n, pk, d, rfl, rfl, by rw [hk] at h1; exact h1, h2, h3⟩
      | none =>
        rw [hk] at h1
        exact absurd h1 (no_key _ hp st hr _ _)

theorem toBuf_get (o : Option Bytes) : (toBuf o (o.getD []).length).get = o := by
  cases o with
  | none => rfl
  | some b => simp [toBuf, Buf.get]

/-- Nothing more is given with the call. -/
theorem set_nothing (api : KdfApi ω) (w : ω) (c : KdfCtx) : kdfSet api w c (some {}) = (w, c, true) := rfl

/-- Giving parameters with the call is the same as giving them before. -/
theorem C77_params (api : KdfApi ω) (w w' : ω) (c c' : KdfCtx) (p : KdfPrm) (L : Nat) (h : kdfSet api w c (some p) = (w', c', true)) :
    kdfDerive api w c L (some p) = kdfDerive api w' c' L (some {}) := by
  unfold kdfDerive
  rw [h, set_nothing]

/-- What the code does, with its own reading of the names of digests. -/
theorem derives_digest (env : Env) (hp : env.prims.Good) (k : KdfEnv) (hk : k.prims.Good) (st0 st : KeyStore)
    (hr : KsReachable env.prims st0) (caller : Uuid) (alg : Nat) (ha : alg = KDF_HKDF ∨ alg = KDF_CONCAT ∨ alg = KDF_X963) (c : KdfCtx)
    (ps : List KdfPrm) (hs : sets (taKdf env k caller) st0 (kdfNew alg) ps = (st, c, true)) (L d : Nat) (n : String)
    (hn : (asked ps).digest = some n) (hd : digestFromName n = some d) :
    KsReachable env.prims st ∧
    Derives env st caller (asked ps) (standard k.prims alg d (asked ps) L) (kdfDerive (taKdf env k caller) st c L (some {})) := by
  have hr' := sets_reachable env k caller ps hr hs
  have hh : Holds alg c (asked ps) := sets_holds ps (new_holds alg) hs
  refine ⟨hr', ?_⟩
  have hdig : c.digest = some d := by rw [hh.digest, hn]; exact hd
  rcases ha with rfl | rfl | rfl
  · refine derives_of env hp k st hr' caller (asked ps) c c {} L _ _ (set_nothing _ _ _) (by unfold kdfParams; rw [if_pos hh.alg]) ?_
    obtain ⟨st', s, h, h1, h2, h3⟩ := C29.C29_hkdf env hp k hk st hr' rightsAllowAll L (c.digest.getD (2 ^ 32 - 1)) (c.key.getD (2 ^ 64 - 1))
      (toBuf c.salt c.saltLength) (toBuf c.info c.infoLength) caller
    refine ⟨st', s, h, h1, h2, h3.imp (fun x => ⟨x.1, x.2.2⟩) ?_⟩
    rintro ⟨hs, m, pk, dk, e1, e2, e3, e4, _, e6, e7, _⟩
    rw [hh.salt, hh.saltLength, hh.info, hh.infoLength, toBuf_get, toBuf_get, hdig] at e4
    rw [hdig] at e1
    rw [hh.key] at e2
    refine ⟨hs, pk, dk, e2, e3, ?_, e6, e7⟩
    rw [e4]
    simp only [Option.getD_some] at e1
    simp [standard, e1]
  · refine derives_of env hp k st hr' caller (asked ps) c c {} L _ _ (set_nothing _ _ _)
      (by unfold kdfParams; rw [if_neg (by rw [hh.alg]; decide), if_pos hh.alg]) ?_
    obtain ⟨st', s, h, h1, h2, h3⟩ := C30.C30_concat env hp k hk st hr' rightsAllowAll L (c.digest.getD (2 ^ 32 - 1)) (c.key.getD (2 ^ 64 - 1))
      (toBuf c.info c.infoLength) caller
    refine ⟨st', s, h, h1, h2, h3.imp (fun x => ⟨x.1, x.2.2⟩) ?_⟩
    rintro ⟨hs, m, pk, dk, e1, e2, e3, e4, _, e6, e7, _⟩
    rw [hh.info, hh.infoLength, toBuf_get, hdig] at e4
    rw [hdig] at e1
    rw [hh.key] at e2
    refine ⟨hs, pk, dk, e2, e3, ?_, e6, e7⟩
    rw [e4]
    simp only [Option.getD_some] at e1
    simp [standard, e1, KDF_HKDF, KDF_CONCAT]
  · refine derives_of env hp k st hr' caller (asked ps) c c {} L _ _ (set_nothing _ _ _)
      (by unfold kdfParams; rw [if_neg (by rw [hh.alg]; decide), if_neg (by rw [hh.alg]; decide), if_pos hh.alg]) ?_
    obtain ⟨st', s, h, h1, h2, h3⟩ := C30.C30_x963 env hp k hk st hr' rightsAllowAll L (c.digest.getD (2 ^ 32 - 1)) (c.key.getD (2 ^ 64 - 1))
      (toBuf c.info c.infoLength) caller
    refine ⟨st', s, h, h1, h2, h3.imp (fun x => ⟨x.1, x.2.2⟩) ?_⟩
    rintro ⟨hs, m, pk, dk, e1, e2, e3, e4, _, e6, e7, _⟩
    rw [hh.info, hh.infoLength, toBuf_get, hdig] at e4
    rw [hdig] at e1
    rw [hh.key] at e2
    refine ⟨hs, pk, dk, e2, e3, ?_, e6, e7⟩
    rw [e4]
    simp only [Option.getD_some] at e1
    simp [standard, e1, KDF_HKDF, KDF_CONCAT, KDF_X963]

/-- **C77** (missing: CMAC; contexts that were reset or duplicated; names of digests that only begin like that of a supported one; the call
without a list of parameters).  With whatever parameters, in any order and number, given to a new context, deriving gives the key of the
standard from the key and the digest, salt and info given last, or fails without effect. -/
theorem C77_derive_partial (env : Env) (hp : env.prims.Good) (k : KdfEnv) (hk : k.prims.Good) (st0 st : KeyStore)
    (hr : KsReachable env.prims st0) (caller : Uuid) (alg : Nat) (ha : alg = KDF_HKDF ∨ alg = KDF_CONCAT ∨ alg = KDF_X963) (c : KdfCtx)
    (ps : List KdfPrm) (hs : sets (taKdf env k caller) st0 (kdfNew alg) ps = (st, c, true)) (L d : Nat) (n : String)
    (hn : (asked ps).digest = some n) (hd : digestOf n = some d) :
    KsReachable env.prims st ∧
    Derives env st caller (asked ps) (standard k.prims alg d (asked ps) L) (kdfDerive (taKdf env k caller) st c L (some {})) :=
  derives_digest env hp k hk st0 st hr caller alg ha c ps hs L d n hn (digest_names hd)

/-- What the code gives to the TA as the fixed data of CMAC. -/
def fixed (a : Asked) (L : Nat) : Bytes :=
  a.salt.getD [] ++ (if a.separator = 1 then [0] else []) ++ a.info.getD [] ++ (if a.l = 1 then be32 L else [])

theorem otherData_eq {alg : Nat} {c : KdfCtx} {a : Asked} (hh : Holds alg c a) (hl : a.l = 0 ∨ a.l = 1) (L : Nat) :
    otherData c L = some (fixed a L) := by
  unfold otherData
  simp only
  rw [hh.saltLength, hh.infoLength, hh.salt, hh.info, hh.separator, hh.l]
  rw [if_neg]
  · unfold fixed
    rcases hl with h | h <;> rw [h] <;> simp <;> rfl
  · rcases hl with h | h <;> rw [h] <;> (split <;> simp [htobe32] <;> omega)

/-- What the code does for CMAC: the key consists of the blocks from number `counter` on, where `counter` is the number of blocks. -/
theorem cmac_derives (env : Env) (hp : env.prims.Good) (k : KdfEnv) (hk : k.prims.Good) (st0 st : KeyStore)
    (hr : KsReachable env.prims st0) (caller : Uuid) (c : KdfCtx)
    (ps : List KdfPrm) (hs : sets (taKdf env k caller) st0 (kdfNew KDF_CMAC) ps = (st, c, true)) (L : Nat)
    (hl : (asked ps).l = 0 ∨ (asked ps).l = 1) (hL : L ≤ 64) :
    KsReachable env.prims st ∧
    Derives env st caller (asked ps) (fun key => cmacSpec (k.prims.cmac key) (fixed (asked ps) L) ((L + 15) / 16) L)
      (kdfDerive (taKdf env k caller) st c L (some {})) ∧
    (¬(L = 16 ∨ L = 32) → kdfDerive (taKdf env k caller) st c L (some {}) = some (st, c, none)) := by
  have hr' := sets_reachable env k caller ps hr hs
  have hh : Holds KDF_CMAC c (asked ps) := sets_holds ps (new_holds KDF_CMAC) hs
  have hcnt : L / 16 + (if L % 16 = 0 then 0 else 1) = (L + 15) / 16 := by split <;> omega
  have hq : kdfParams c L = some (some (.cmac L ((L + 15) / 16) (c.key.getD (2 ^ 64 - 1)) (.bytes (fixed (asked ps) L)))) := by
    unfold kdfParams
    simp only
    rw [if_neg (by rw [hh.alg]; decide), if_neg (by rw [hh.alg]; decide), if_neg (by rw [hh.alg]; decide), if_pos hh.alg, if_neg (by omega),
      otherData_eq hh hl, hcnt]
  refine ⟨hr', ?_, ?_⟩
  · refine derives_of env hp k st hr' caller (asked ps) c c {} L _ _ (set_nothing _ _ _) hq ?_
    obtain ⟨st', s, h, h1, h2, h3⟩ := C31.C31_cmac env hp k hk st hr' rightsAllowAll L ((L + 15) / 16) (c.key.getD (2 ^ 64 - 1))
      (.bytes (fixed (asked ps) L)) caller
    refine ⟨st', s, h, h1, h2, h3.imp (fun x => ⟨x.1, x.2.2⟩) ?_⟩
    rintro ⟨hs, _, pk, dk, e2, e3, e4, _, e6, e7, _⟩
    rw [hh.key] at e2
    exact ⟨hs, pk, dk, e2, e3, e4, e6, e7⟩
  · intro hno
    unfold kdfDerive
    rw [set_nothing]
    simp only
    rw [hq]
    simp only [taKdf]
    by_cases h0 : C31.Accepted L ((L + 15) / 16)
    · unfold C31.Accepted at h0
      omega
    · rw [C31.C31_rejected env k st rightsAllowAll L _ _ _ (by simp) caller h0]

/-- **C77, CMAC** (missing: keys other than of 16 bytes; the length in the fixed data). -/
theorem C77_cmac_partial (env : Env) (hp : env.prims.Good) (k : KdfEnv) (hk : k.prims.Good) (st0 st : KeyStore)
    (hr : KsReachable env.prims st0) (caller : Uuid) (c : KdfCtx)
    (ps : List KdfPrm) (hs : sets (taKdf env k caller) st0 (kdfNew KDF_CMAC) ps = (st, c, true)) (hl : (asked ps).l = 0) :
    KsReachable env.prims st ∧
    Derives env st caller (asked ps) (fun key => cmacStandard (k.prims.cmac key) (asked ps) 16)
      (kdfDerive (taKdf env k caller) st c 16 (some {})) := by
  obtain ⟨h1, h2, _⟩ := cmac_derives env hp k hk st0 st hr caller c ps hs 16 (Or.inl hl) (by omega)
  refine ⟨h1, ?_⟩
  have : (fun key => cmacStandard (k.prims.cmac key) (asked ps) 16) =
      (fun key => cmacSpec (k.prims.cmac key) (fixed (asked ps) 16) ((16 + 15) / 16) 16) := by
    funext key
    unfold cmacStandard cmacSpec fixed
    simp [hl, List.take_of_length_le, hk.cmacLen]
  rw [this]
  exact h2

/-- **C77 is violated**: a key of 32 bytes consists of the blocks 2 and 3. -/
theorem C77_violated_blocks (env : Env) (hp : env.prims.Good) (k : KdfEnv) (hk : k.prims.Good) (st0 st : KeyStore)
    (hr : KsReachable env.prims st0) (caller : Uuid) (c : KdfCtx)
    (ps : List KdfPrm) (hs : sets (taKdf env k caller) st0 (kdfNew KDF_CMAC) ps = (st, c, true)) (hl : (asked ps).l = 0) :
    Derives env st caller (asked ps) (fun key => k.prims.cmac key (2 :: fixed (asked ps) 32) ++ k.prims.cmac key (3 :: fixed (asked ps) 32))
      (kdfDerive (taKdf env k caller) st c 32 (some {})) := by
  have h := (cmac_derives env hp k hk st0 st hr caller c ps hs 32 (Or.inl hl) (by omega)).2.1
  have : (fun key => cmacSpec (k.prims.cmac key) (fixed (asked ps) 32) ((32 + 15) / 16) 32) =
      (fun key => k.prims.cmac key (2 :: fixed (asked ps) 32) ++ k.prims.cmac key (3 :: fixed (asked ps) 32)) := by
    funext key
    simp [cmacSpec, List.range_succ]
  rw [← this]
  exact h

/-- **C77 is violated**: keys of 48 and 64 bytes are always refused, although 64 is reported as the size. -/
theorem C77_violated_long (env : Env) (hp : env.prims.Good) (k : KdfEnv) (hk : k.prims.Good) (st0 st : KeyStore)
    (hr : KsReachable env.prims st0) (caller : Uuid) (c : KdfCtx)
    (ps : List KdfPrm) (hs : sets (taKdf env k caller) st0 (kdfNew KDF_CMAC) ps = (st, c, true)) (L : Nat) (hL : L = 48 ∨ L = 64)
    (hl : (asked ps).l = 0 ∨ (asked ps).l = 1) :
    kdfDerive (taKdf env k caller) st c L (some {}) = some (st, c, none) :=
  (cmac_derives env hp k hk st0 st hr caller c ps hs L hl (by omega)).2.2 (by omega)

/-- **C77 is violated**: the length in the fixed data counts bytes, where the standard counts bits. -/
theorem C77_violated_length (env : Env) (hp : env.prims.Good) (k : KdfEnv) (hk : k.prims.Good) (st0 st : KeyStore)
    (hr : KsReachable env.prims st0) (caller : Uuid) (c : KdfCtx)
    (ps : List KdfPrm) (hs : sets (taKdf env k caller) st0 (kdfNew KDF_CMAC) ps = (st, c, true)) (hl : (asked ps).l = 1) :
    Derives env st caller (asked ps) (fun key => k.prims.cmac key (1 :: ((asked ps).salt.getD [] ++
        (if (asked ps).separator = 1 then [0] else []) ++ (asked ps).info.getD [] ++ [0, 0, 0, 16])))
      (kdfDerive (taKdf env k caller) st c 16 (some {})) := by
  have h := (cmac_derives env hp k hk st0 st hr caller c ps hs 16 (Or.inr hl) (by omega)).2.1
  have : (fun key => cmacSpec (k.prims.cmac key) (fixed (asked ps) 16) ((16 + 15) / 16) 16) =
      (fun key => k.prims.cmac key (1 :: ((asked ps).salt.getD [] ++
        (if (asked ps).separator = 1 then [0] else []) ++ (asked ps).info.getD [] ++ [0, 0, 0, 16]))) := by
    funext key
    simp [cmacSpec, fixed, hl, be32]
  rw [← this]
  exact h

/-- **C77 is violated**, whatever the API does: a number other than 0 and 1 for "use-l" makes the code write behind its memory. -/
theorem C77_violated_memory (api : KdfApi ω) (w0 w : ω) (c : KdfCtx) (ps : List KdfPrm) (L : Nat) (hL : L ≤ 64)
    (hs : sets api w0 (kdfNew KDF_CMAC) ps = (w, c, true)) (hl : (asked ps).l ≠ 0 ∧ (asked ps).l ≠ 1) :
    kdfDerive api w c L (some {}) = none := by
  have hh : Holds KDF_CMAC c (asked ps) := sets_holds ps (new_holds KDF_CMAC) hs
  have : otherData c L = none := by
    unfold otherData
    simp only
    rw [hh.saltLength, hh.infoLength, hh.salt, hh.info, hh.separator, hh.l, if_pos]
    rw [if_neg hl.2, if_pos hl.1]
    split <;> simp [htobe32] <;> omega
  unfold kdfDerive
  rw [set_nothing]
  simp only
  unfold kdfParams
  simp only
  rw [if_neg (by rw [hh.alg]; decide), if_neg (by rw [hh.alg]; decide), if_neg (by rw [hh.alg]; decide), if_pos hh.alg, if_neg (by omega), this]

/-- **C77 is violated**: after a reset of a context with a salt, HKDF without a salt is always refused, whatever else is given. -/
theorem C77_violated_reset (env : Env) (k : KdfEnv) (caller : Uuid) (st0 st1 st2 st3 : KeyStore) (c1 c2 c3 : KdfCtx) (ps p2 : List KdfPrm)
    (hs : sets (taKdf env k caller) st0 (kdfNew KDF_HKDF) ps = (st1, c1, true)) (hsalt : ∃ b, (asked ps).salt = some b ∧ b ≠ [])
    (hreset : kdfReset (taKdf env k caller) st1 c1 = (st2, c2)) (hs2 : sets (taKdf env k caller) st2 c2 p2 = (st3, c3, true))
    (hno : ∀ p ∈ p2, p.salt = none) (L : Nat) :
    kdfDerive (taKdf env k caller) st3 c3 L (some {}) = some (st3, c3, none) := by
  have hh : Holds KDF_HKDF c1 (asked ps) := sets_holds ps (new_holds KDF_HKDF) hs
  obtain ⟨b, hb, hne⟩ := hsalt
  have hlen : c1.saltLength ≠ 0 := by
    rw [hh.saltLength, hb]
    simpa using hne
  have hkeep : ∀ (p2 : List KdfPrm) (s s' : KeyStore) (c c' : KdfCtx), (∀ p ∈ p2, p.salt = none) →
      sets (taKdf env k caller) s c p2 = (s', c', true) → c'.salt = c.salt ∧ c'.saltLength = c.saltLength ∧ c'.alg = c.alg := by
    intro p2
    induction p2 with
    | nil => intro s s' c c' _ h; simp only [sets, Prod.mk.injEq] at h; rw [← h.2.1]; exact ⟨rfl, rfl, rfl⟩
    | cons p p2 ih =>
      intro s s' c c' hn h
      simp only [sets] at h
      cases hk : kdfSet (taKdf env k caller) s c (some p) with
      | mk w1 r =>
        obtain ⟨c1, x⟩ := r
        rw [hk] at h
        cases x with
        | false => simp at h
        | true =>
          have e := set_eq hk
          have i := ih w1 s' c1 c' (fun q hq => hn q (List.mem_cons_of_mem _ hq)) h
          rw [e] at i
          simpa [kdfSetRest, hn p List.mem_cons_self] using i
  obtain ⟨k1, k2, k3⟩ := hkeep p2 st2 st3 c2 c3 hno hs2
  have e : c2 = (kdfReset (taKdf env k caller) st1 c1).2 := by rw [hreset]
  have s2 : c2.salt = none ∧ c2.saltLength = c1.saltLength ∧ c2.alg = c1.alg := by rw [e]; exact ⟨rfl, rfl, rfl⟩
  have hbad : toBuf c3.salt c3.saltLength = .bad := by
    rw [k1, k2, s2.1, s2.2.1]
    cases hc : c1.saltLength with
    | zero => exact absurd hc hlen
    | succ n => rfl
  unfold kdfDerive
  rw [set_nothing]
  simp only
  unfold kdfParams
  simp only
  rw [if_pos (by rw [k3, s2.2.2]; exact hh.alg), hbad]
  simp only [taKdf, keyDerive]
  by_cases hi : (toBuf c3.info c3.infoLength).isBad
  · rw [if_pos hi]
  · rw [if_neg hi, if_pos (by rfl)]

/-- **C77 is violated**, whatever the API does: a duplicate never derives a key, however it was set up and whatever is given to it. -/
theorem C77_violated_dup (api : KdfApi ω) (w0 w1 : ω) (c d e : KdfCtx) (ps : List KdfPrm) (hd : kdfDup c = some d)
    (hs : sets api w0 d ps = (w1, e, true)) (L : Nat) :
    kdfDerive api w1 e L (some {}) = some (w1, e, none) := by
  have hkeep : ∀ (ps : List KdfPrm) (s s' : ω) (c c' : KdfCtx), sets api s c ps = (s', c', true) → c'.alg = c.alg := by
    intro ps
    induction ps with
    | nil => intro s s' c c' h; simp only [sets, Prod.mk.injEq] at h; rw [← h.2.1]
    | cons p p2 ih =>
      intro s s' c c' h
      simp only [sets] at h
      cases hk : kdfSet api s c (some p) with
      | mk w1 r =>
        obtain ⟨c1, x⟩ := r
        rw [hk] at h
        cases x with
        | false => simp at h
        | true =>
          have i := ih w1 s' c1 c' h
          rw [set_eq hk] at i
          exact i
  have h0 : d.alg = 0 := by
    unfold kdfDup at hd
    split at hd
    · simp at hd
    · simp only [Option.some.injEq] at hd; rw [← hd]
  have h1 : e.alg = 0 := by rw [hkeep ps w0 w1 d e hs, h0]
  unfold kdfDerive
  rw [set_nothing]
  simp only
  unfold kdfParams
  simp only
  rw [if_neg (by rw [h1]; decide), if_neg (by rw [h1]; decide), if_neg (by rw [h1]; decide), if_neg (by rw [h1]; decide)]

/-- **C77 is violated**, whatever the API does: to duplicate a context with a salt after a reset, the code reads from NULL. -/
theorem C77_violated_null (api : KdfApi ω) (w : ω) (c : KdfCtx) (h : 0 < c.saltLength) : kdfDup (kdfReset api w c).2 = none := by
  unfold kdfDup
  rw [if_pos (Or.inl ⟨h, rfl⟩)]

/-- **C77 is violated**: asked for a key with SHA-512/256, SHA-512/224 or other digests whose name begins with that of a supported one, the
code derives one with the digest of that name. -/
theorem C77_violated_digest (env : Env) (hp : env.prims.Good) (k : KdfEnv) (hk : k.prims.Good) (st0 st : KeyStore)
    (hr : KsReachable env.prims st0) (caller : Uuid) (alg : Nat) (ha : alg = KDF_HKDF ∨ alg = KDF_CONCAT ∨ alg = KDF_X963) (c : KdfCtx)
    (ps : List KdfPrm) (hs : sets (taKdf env k caller) st0 (kdfNew alg) ps = (st, c, true)) (L : Nat)
    (hn : (asked ps).digest = some "SHA2-512/256" ∨ (asked ps).digest = some "SHA512-224" ∨ (asked ps).digest = some "SHA-512/256") :
    Derives env st caller (asked ps) (standard k.prims alg 3 (asked ps) L) (kdfDerive (taKdf env k caller) st c L (some {})) := by
  rcases hn with h | h | h
  · exact (derives_digest env hp k hk st0 st hr caller alg ha c ps hs L 3 _ h (by decide)).2
  · exact (derives_digest env hp k hk st0 st hr caller alg ha c ps hs L 3 _ h (by decide)).2
  · exact (derives_digest env hp k hk st0 st hr caller alg ha c ps hs L 3 _ h (by decide)).2

/-! ## Concrete cases -/

/-- An application that gives the key, then the digest and the info. -/
def given : List KdfPrm := [{ saKey := some 31, salt := some [9] }, { digest := some "SHA1", info := some [1, 2], salt := some [8] }]

theorem given_sets (alg : Nat) : ∃ st c, C29.stP = some st ∧ sets (taKdf C08.env0 C29.kenv C08.u7) st (kdfNew alg) given = (st, c, true) ∧
    Holds alg c { key := some 31, digest := some "SHA1", salt := some [8], info := some [1, 2] } := by
  obtain ⟨st, pk, h0, hu, _⟩ := C29.stP_usable
  have hok : (taKdf C08.env0 C29.kenv C08.u7).keyOk st 31 = true := by
    have : (C29.stP.map fun st => (keyStoreGetHeader st 31 C08.u7).2.1) = some .OK := by decide +kernel
    rw [h0] at this
    simp only [Option.map_some, Option.some.injEq] at this
    simp [taKdf, this]
  have e : sets (taKdf C08.env0 C29.kenv C08.u7) st (kdfNew alg) given =
      (st, { kdfNew alg with key := some 31, salt := some [8], saltLength := 1, info := some [1, 2], infoLength := 2, digest := some 0 }, true) := by
    simp only [given, sets, kdfSet, kdfSetKey, hok, kdfNew]
    rfl
  exact ⟨st, _, h0, e, sets_holds _ (new_holds alg) e⟩

/-- A key of 50 bytes is derived. -/
example : ∃ st c st' c' h, sets (taKdf C08.env0 C29.kenv C08.u7) st (kdfNew KDF_HKDF) given = (st, c, true) ∧ KsReachable C08.env0.prims st ∧
    kdfDerive (taKdf C08.env0 C29.kenv C08.u7) st c 50 (some {}) = some (st', c', some h) := by
  obtain ⟨st, c, h0, hs, hh⟩ := given_sets KDF_HKDF
  obtain ⟨st2, pk, h0', hu, hf, hy, _, _, hfree⟩ := C29.stP_usable
  rw [h0] at h0'
  injection h0' with h0'
  subst h0'
  obtain ⟨st', h, he⟩ := C29.C29_supported C08.env0 C08.toy_good (fun _ => rfl) C29.kenv C29.toyKdf_good ⟨rfl, fun _ => rfl⟩ st
    (C29.stP_reachable st h0) rightsAllowAll (by decide +kernel) 50 0 31 (by omega) (by omega) (.bytes [8]) (.bytes [1, 2]) (by simp) C08.u7 pk
    hu hf hy hfree
  refine ⟨st, c, st', c, h, hs, C29.stP_reachable st h0, ?_⟩
  have hq : kdfParams c 50 = some (some (.hkdf 50 0 31 (.bytes [8]) (.bytes [1, 2]))) := by
    unfold kdfParams
    simp only [hh.alg, if_true, hh.key, hh.digest, hh.salt, hh.saltLength, hh.info, hh.infoLength]
    rfl
  unfold kdfDerive
  rw [set_nothing]
  simp only
  rw [hq]
  simp only [taKdf]
  rw [he]
  rfl

/-- With CMAC a key of 32 bytes is derived, and by `C77_violated_blocks` it is another than that of the standard. -/
example : ∃ st c st' c' h, sets (taKdf C08.env0 C29.kenv C08.u7) st (kdfNew KDF_CMAC) given = (st, c, true) ∧ KsReachable C08.env0.prims st ∧
    kdfDerive (taKdf C08.env0 C29.kenv C08.u7) st c 32 (some {}) = some (st', c', some h) := by
  obtain ⟨st, c, h0, hs, hh⟩ := given_sets KDF_CMAC
  obtain ⟨st2, pk, h0', hu, hf, hy, hk, hz, hfree⟩ := C29.stP_usable
  rw [h0] at h0'
  injection h0' with h0'
  subst h0'
  obtain ⟨st', h, he⟩ := C31.C31_supported C08.env0 C08.toy_good (fun _ => rfl) C29.kenv C29.toyKdf_good ⟨rfl, fun _ => rfl⟩ st
    (C29.stP_reachable st h0) rightsAllowAll (by decide +kernel) 32 2 31 (by unfold C31.Accepted; omega) (by omega) (.bytes [8, 1, 2]) (by simp)
    C08.u7 pk hu hf hy (by rw [hk, hz]; rfl) (Or.inl hz) hfree
  refine ⟨st, c, st', c, h, hs, C29.stP_reachable st h0, ?_⟩
  have hq : kdfParams c 32 = some (some (.cmac 32 2 31 (.bytes [8, 1, 2]))) := by
    unfold kdfParams
    simp only
    rw [if_neg (by rw [hh.alg]; decide), if_neg (by rw [hh.alg]; decide), if_neg (by rw [hh.alg]; decide), if_pos hh.alg, if_neg (by omega),
      otherData_eq hh (Or.inl rfl), hh.key]
    rfl
  unfold kdfDerive
  rw [set_nothing]
  simp only
  rw [hq]
  simp only [taKdf]
  rw [he]
  rfl

example : cmacStandard (C29.toyKdf.cmac (List.replicate 16 5)) (asked given) 32 ≠
    C29.toyKdf.cmac (List.replicate 16 5) (2 :: fixed (asked given) 32) ++ C29.toyKdf.cmac (List.replicate 16 5) (3 :: fixed (asked given) 32) := by
  decide +kernel
/-- The length in bits would be 128. -/
example : cmacStandard id { l := 1 } 16 = [1, 0, 0, 0, 128] := by decide
/-- A duplicate of a context with a key. -/
example : kdfDup { kdfNew KDF_HKDF with key := some 31, deleteKey := true } = some { kdfNew 0 with key := some 0 } := by decide

end Sa.Pv.C77

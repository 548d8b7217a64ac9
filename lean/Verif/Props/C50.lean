import Verif.Props.C34
import Verif.Props.C24

/-!
# C50: open contexts respect the validity of the key
-/

namespace Sa.C50

variable {σ : Type}

/-- The algorithms for which the output requirements of the key count: all but RSA (6, 7) and EC ElGamal (8), sa_types.h. -/
def symmetricAlg (alg : Nat) : Prop := alg ≠ 6 ∧ alg ≠ 7 ∧ alg ≠ 8

/-- A key with rights `r` may process data at the time and with the video outputs of `env`: the mode (1 is encryption) is one of its usages,
the time is in its validity window and, for a symmetric algorithm, the state of the outputs is known and each of them is permitted. -/
def Usable (env : RightsEnv) (r : Rights) (alg mode : Nat) : Prop :=
  Flag r.usageFlags (if mode = 1 then 3 else 4) ∧ r.notBefore.toNat ≤ env.time.toNat ∧ env.time.toNat < r.notOnOrAfter.toNat ∧
  (symmetricAlg alg → ∃ v, env.video = some v ∧ (v.svpEnabled = true ∨ Flag r.usageFlags 12) ∧
    ∀ p ∈ C10.outputs v, p.2 > 0 → Flag r.usageFlags p.1)

theorem time_iff (r : Rights) (t : UInt64) : rightsAllowedTime r t = true ↔ r.notBefore.toNat ≤ t.toNat ∧ t.toNat < r.notOnOrAfter.toNat := by
  unfold rightsAllowedTime
  split
  · rename_i h; rw [UInt64.lt_iff_toNat_lt] at h; simp; omega
  · rename_i h
    rw [UInt64.lt_iff_toNat_lt] at h
    split
    · rename_i h2; rw [ge_iff_le, UInt64.le_iff_toNat_le] at h2; simp; omega
    · rename_i h2; rw [ge_iff_le, UInt64.le_iff_toNat_le] at h2; simp; omega

theorem video_iff (env : RightsEnv) (r : Rights) : validateVideoOutputState env r = true ↔
    ∃ v, env.video = some v ∧ (v.svpEnabled = true ∨ Flag r.usageFlags 12) ∧ ∀ p ∈ C10.outputs v, p.2 > 0 → Flag r.usageFlags p.1 := by
  unfold validateVideoOutputState
  cases hv : env.video with
  | none => simp
  | some v =>
    simp only [Option.some.injEq]
    rw [C10.C10_output_iff]
    constructor
    · intro h; exact ⟨v, rfl, h⟩
    · rintro ⟨_, rfl, h⟩; exact h

theorem modeAllowed_iff (env : RightsEnv) (r : Rights) (mode : Nat) (sym : Bool) : modeAllowed env mode r sym = true ↔
    Flag r.usageFlags (if mode = 1 then 3 else 4) ∧ rightsAllowedTime r env.time = true ∧ (sym = true → validateVideoOutputState env r = true) := by
  have b := fun i hi => bitTest_iff r.usageFlags i hi
  unfold modeAllowed rightsAllowedEncrypt rightsAllowedDecrypt FLAG_ENCRYPT FLAG_DECRYPT MODE_ENCRYPT
  by_cases h : mode = 1
  · rw [if_pos h, if_pos h, ← b 3 (by decide)]
    cases bitTest r.usageFlags 3 <;> cases rightsAllowedTime r env.time <;> cases sym <;> cases validateVideoOutputState env r <;> simp
  · rw [if_neg h, if_neg h, ← b 4 (by decide)]
    cases bitTest r.usageFlags 4 <;> cases rightsAllowedTime r env.time <;> cases sym <;> cases validateVideoOutputState env r <;> simp

theorem usable_iff (env : RightsEnv) (r : Rights) (alg mode : Nat) (sym : Bool) (hs : sym = true ↔ symmetricAlg alg) :
    Usable env r alg mode ↔ modeAllowed env mode r sym = true := by
  rw [modeAllowed_iff, time_iff, video_iff, hs]
  unfold Usable
  constructor
  · rintro ⟨a, b, c, d⟩; exact ⟨a, ⟨b, c⟩, d⟩
  · rintro ⟨a, ⟨b, c⟩, d⟩; exact ⟨a, b, c, d⟩

/-- Nothing was processed. -/
structure Idle (ctx : Option (SymCtx σ)) (mem : Mem) (r : AlgResult σ) : Prop where
  ctx : r.ctx = ctx ∨ r.ctx = none
  mem : r.mem = mem
  tag : r.tag = none
  status : r.status ≠ .OK

theorem run_idle (p : CipherPrim σ) (u : UnwrapPrims) (k : ProcKind) (env : RightsEnv) (o : CipherObj) (sk : StoredKey)
    (ctx : Option (SymCtx σ)) (mem : Mem) (outA inA : Nat) (required bytes : UInt64)
    (hasym : ctx = none → o.alg = CIPHER_RSA_PKCS1V15 ∨ o.alg = CIPHER_RSA_OAEP ∨ o.alg = CIPHER_EC_ELGAMAL)
    (hsym : ctx.isSome → o.alg ≠ CIPHER_RSA_PKCS1V15 ∧ o.alg ≠ CIPHER_RSA_OAEP ∧ o.alg ≠ CIPHER_EC_ELGAMAL)
    (hm : o.mode = MODE_ENCRYPT ∨ o.mode = MODE_DECRYPT)
    (hno : modeAllowed env o.mode sk.header.rights ctx.isSome = false) :
    Idle ctx mem (k.run p u env o sk ctx mem outA inA required bytes) := by
  have f : ∀ c s b, (c = ctx ∨ c = none) → s ≠ Status.OK → Idle ctx mem (⟨c, mem, s, b, none⟩ : AlgResult σ) :=
    fun c s b hc hs => ⟨hc, rfl, rfl, hs⟩
  cases ctx with
  | none =>
    have hdec : ∀ hd : o.mode = MODE_DECRYPT, rightsAllowedDecrypt env sk.header.rights false = false := by
      intro hd
      unfold modeAllowed at hno
      rw [if_neg (by rw [hd]; decide)] at hno
      exact hno
    cases k with
    | more =>
      simp only [ProcKind.run, processAlgorithm]
      split
      · unfold processSymmetric
        split
        · exact f _ _ _ (Or.inl rfl) (by simp)
        · exact f _ _ _ (Or.inl rfl) (by simp)
      · split
        · unfold processRsa
          simp only
          split
          · exact f _ _ _ (Or.inl rfl) (by simp)
          · split
            · exact f _ _ _ (Or.inl rfl) (by simp)
            · split
              · exact f _ _ _ (Or.inl rfl) (by simp)
              · rename_i hd
                simp only [ne_eq, Classical.not_not] at hd
                rw [if_pos (by rw [hdec hd]; rfl)]
                exact f _ _ _ (Or.inl rfl) (by simp)
        · split
          · unfold processElgamal
            simp only
            split
            · exact f _ _ _ (Or.inl rfl) (by simp)
            · split
              · exact f _ _ _ (Or.inl rfl) (by simp)
              · split
                · exact f _ _ _ (Or.inl rfl) (by simp)
                · rename_i hd
                  simp only [ne_eq, Classical.not_not] at hd
                  rw [if_pos (by rw [hdec hd]; rfl)]
                  exact f _ _ _ (Or.inl rfl) (by simp)
          · exact f _ _ _ (Or.inl rfl) (by simp)
    | last tag =>
      simp only [ProcKind.run, lastAlgorithm]
      have h := hasym rfl
      rw [if_neg (by rcases h with h | h | h <;> rw [h] <;> decide), if_neg (by rcases h with h | h | h <;> rw [h] <;> decide),
        if_neg (by rcases h with h | h | h <;> rw [h] <;> decide)]
      exact f _ _ _ (Or.inl rfl) (by simp)
  | some c =>
    have hno' : (!modeAllowed env o.mode sk.header.rights true) = true := by
      have : modeAllowed env o.mode sk.header.rights true = false := hno
      rw [this]; rfl
    obtain ⟨n1, n2, n3⟩ := hsym rfl
    cases k with
    | more =>
      simp only [ProcKind.run, processAlgorithm]
      split
      · unfold processSymmetric
        split
        · exact f _ _ _ (Or.inl rfl) (by simp)
        · exact f _ _ _ (Or.inl rfl) (by simp)
      · rw [if_neg (by rintro (h | h); exact n1 h; exact n2 h)]
        exact f _ _ _ (Or.inr rfl) (by simp)
    | last tag =>
      simp only [ProcKind.run, lastAlgorithm]
      split
      · unfold lastPkcs7
        split
        · exact f _ _ _ (Or.inl rfl) (by simp)
        · simp only
          split
          · exact f _ _ _ (Or.inl rfl) (by simp)
          · exact f _ _ _ (Or.inl rfl) (by simp)
      · split
        · unfold lastStream
          simp only
          rw [if_pos hno']
          exact f _ _ _ (Or.inl rfl) (by simp)
        · split
          · unfold lastAead
            simp only
            split
            · exact f _ _ _ (Or.inl rfl) (by simp)
            · split
              · exact f _ _ _ (Or.inl rfl) (by simp)
              · exact f _ _ _ (Or.inl rfl) (by simp)
              · by_cases htl : (if o.alg = CIPHER_AES_GCM then (‹Bytes›).length > 16 else (‹Bytes›).length ≠ 16)
                · rw [if_pos htl]; exact f _ _ _ (Or.inl rfl) (by simp)
                · rw [if_neg htl]
                  exact f _ _ _ (Or.inl rfl) (by simp)
          · exact f _ _ _ (Or.inl rfl) (by simp)

theorem setSym_same (w : CipherWorld σ) (o : CipherObj) (ctx c : Option (SymCtx σ)) (h : w.symOf o = some ctx) (hc : c = ctx ∨ c = none) :
    (w.setSym o c).heap = w.heap := by
  unfold CipherWorld.setSym
  cases hs : o.sym with
  | none => rfl
  | some sp =>
    cases c with
    | none => rfl
    | some c =>
      simp only [reduceCtorEq, or_false] at hc
      subst hc
      unfold CipherWorld.symOf at h
      rw [hs] at h
      simp only at h
      split at h
      · rename_i c' hc'
        simp only [Option.some.injEq] at h
        subst h
        funext x
        show (if x = sp then _ else w.heap x) = _
        split
        · rename_i e; rw [e, hc']
        · rfl
      · simp at h

/-- **C50 (ciphers, partial: MAC contexts do not meet the property, see `C50_violated`).**  After any sequence of calls on the cipher contexts
of a new session, at any times, consider a call of `sa_crypto_cipher_process` or `sa_crypto_cipher_process_last` for a context whose key is not
usable at the time of the call.  It processes nothing: memory, the buffers and all contexts are as before, no tag is given, and the call fails,
unless it only asks for the size of the output. -/
theorem C50_cipher_partial (p : CipherPrim σ) (view : σ → CipherView) (hp : p.Good view) (u : UnwrapPrims) (slots : Nat)
    (hs : slots < 2 ^ 64) (w0 : CipherWorld σ) (h0 : cipherNew σ slots = some w0) (ops : List CipherOp) (hops : ∀ op ∈ ops, op.oaepOk) :
    ∃ w, cipherRun p w0 ops = some w ∧ ∀ (svp : SvpStore), SvpReachable svp → ∀ (k : ProcKind) (env : RightsEnv) (mem : Mem) (h : Nat)
      (out : Option RawBuffer) (input : RawBuffer) (bytes : UInt64) (caller : Uuid) ptr o sk ctx, HasCtx w h caller ptr o sk ctx →
      ¬ Usable env sk.header.rights o.alg o.mode →
      ∃ r, cipherProcess k p u env w svp mem h out input bytes caller = some r ∧ r.mem = mem ∧ r.svp = svp ∧ r.out = out ∧ r.input = input ∧
        r.tag = none ∧ r.world.heap = w.heap ∧ (r.status = .OK → out = none) := by
  obtain ⟨w, hr, inv, all⟩ := cipherRun_all p (goodCtx_stable hp) ops (cipherNew_inv slots hs w0 h0).1 (cipherNew_all slots hs w0 h0) hops
  refine ⟨w, hr, ?_⟩
  intro svp hsvp k env mem h out input bytes caller ptr o sk ctx hc hno
  have hg := all _ _ _ _ _ _ hc
  have hsy : ctx.isSome = true ↔ symmetricAlg o.alg := by
    unfold symmetricAlg
    constructor
    · intro h
      obtain ⟨c, e⟩ := Option.isSome_iff_exists.mp h
      exact (hg.sym c e).2.2.2
    · intro h
      cases ctx with
      | some _ => rfl
      | none =>
        obtain ⟨n1, n2, n3⟩ := h
        rcases hg.asym rfl with e | e | e
        · exact absurd e n1
        · exact absurd e n2
        · exact absurd e n3
  rw [usable_iff env _ _ _ _ hsy] at hno
  have hno : modeAllowed env o.mode sk.header.rights ctx.isSome = false := by simpa using hno
  rcases cipherProcess_eq inv k p u env svp mem h out input bytes caller with ⟨s, hs, _, e⟩ | ⟨ptr', o', sk', ctx', st1, hc', ha, e⟩
  · refine ⟨_, e, rfl, rfl, rfl, rfl, rfl, rfl, ?_⟩
    cases k with
    | more => simp
    | last => intro h; exact absurd h hs
  · obtain ⟨_, rfl, rfl, rfl, rfl⟩ := hc.unique hc'
    refine ⟨_, e, ?_⟩
    have inv' := svpReachable_inv svp hsvp
    unfold processAcquired
    simp only
    cases out with
    | none => exact ⟨rfl, rfl, rfl, rfl, rfl, rfl, fun _ => rfl⟩
    | some out =>
      cases out with
      | badType => exact ⟨rfl, rfl, rfl, rfl, rfl, rfl, by simp⟩
      | buf ob =>
        cases input with
        | badType => exact ⟨rfl, rfl, rfl, rfl, rfl, rfl, by simp⟩
        | buf ib =>
          simp only
          split
          · exact ⟨rfl, rfl, rfl, rfl, rfl, rfl, by simp⟩
          · split
            · exact ⟨rfl, rfl, rfl, rfl, rfl, rfl, by simp⟩
            · split
              · exact ⟨rfl, rfl, rfl, rfl, rfl, rfl, by simp⟩
              · obtain ⟨a1, a2, a3, a4, _⟩ := convertBuffer_spec svp inv' ob (k.required o sk bytes (some (RawBuffer.buf ob)).isNone) caller
                split
                · rename_i hst
                  exact ⟨rfl, a2, rfl, rfl, rfl, rfl, fun h => absurd h hst⟩
                · obtain ⟨b1, b2, b3, b4, _⟩ := convertBuffer_spec _ a1 ib bytes caller
                  rw [b2, a2]
                  split
                  · rename_i hst2
                    exact ⟨rfl, rfl, rfl, rfl, rfl, rfl, fun h => absurd h hst2⟩
                  · have hi := run_idle p u k env o sk ctx mem (convertBuffer svp ob (k.required o sk bytes (some (RawBuffer.buf ob)).isNone) caller).addr
                      (convertBuffer (convertBuffer svp ob (k.required o sk bytes (some (RawBuffer.buf ob)).isNone) caller).store ib bytes caller).addr
                      (k.required o sk bytes (some (RawBuffer.buf ob)).isNone) bytes hg.asym
                      (fun h => by obtain ⟨c, e⟩ := Option.isSome_iff_exists.mp h; exact (hg.sym c e).2.2.2) hg.mode hno
                    rw [if_pos hi.status]
                    exact ⟨hi.mem, rfl, rfl, rfl, hi.tag, setSym_same w o ctx _ hc.sym hi.ctx, fun h => absurd h hi.status⟩

/-- **C50 (common encryption).**  If the key of the context of any of the samples is not usable for decryption at the time of the call, the call
fails, and memory, buffers and contexts are as before. -/
theorem C50_cenc_partial (env : RightsEnv) (ops : SymOps σ) (fuel : Nat) (w : CencWorld σ) (hw : SvpReachable w.svp) (samples : List Sample)
    (u : Uuid) (s : Sample) (hs : s ∈ samples) (c : CencCipher σ) (hc : w.ciphers s.context = some c)
    (hno : ¬ Usable env c.rights c.algorithm 0) :
    ∃ st, st ≠ Status.OK ∧ processCommonEncryption env ops fuel w samples u = some (w, st, []) := by
  obtain ⟨pre, post, rfl⟩ := List.append_of_mem hs
  apply C24.C24_rejected env ops fuel w hw pre post s u
  intro hok
  apply hno
  unfold verifySample at hok
  split at hok
  · simp at hok
  · split at hok
    · simp at hok
    · split at hok
      · simp at hok
      · split at hok
        · simp at hok
        · split at hok
          · simp at hok
          · simp at hok
          · split at hok
            · simp at hok
            · rw [hc] at hok
              simp only at hok
              split at hok
              · simp at hok
              · split at hok
                · simp at hok
                · rename_i hal
                  split at hok
                  · simp at hok
                  · rename_i halg
                    have hm : modeAllowed env 0 c.rights true = true := by
                      unfold modeAllowed
                      rw [if_neg (by decide)]
                      simpa using hal
                    refine (usable_iff env c.rights c.algorithm 0 true ?_).mpr hm
                    simp only [true_iff]
                    unfold symmetricAlg
                    unfold CIPHER_AES_CTR CIPHER_AES_CBC at halg
                    refine ⟨?_, ?_, ?_⟩ <;> intro h <;> simp [h] at halg

/-- **C50 (MAC contexts, partial).**  A MAC context is created only with a key that may sign and that is valid when the context is created. -/
theorem C50_mac_partial (p : MacPrim σ) (w : MacWorld σ) (alg : Nat) (digest : Option Nat) (sk : StoredKey) (env : RightsEnv) (allocOk : Bool)
    (caller : Uuid)
    (hno : ¬ (Flag sk.header.rights.usageFlags 5 ∧ sk.header.rights.notBefore.toNat ≤ env.time.toNat ∧
      env.time.toNat < sk.header.rights.notOnOrAfter.toNat)) :
    (macInit p w alg digest (.OK, some sk) env allocOk caller).1 = w ∧ (macInit p w alg digest (.OK, some sk) env allocOk caller).2.status ≠ .OK := by
  have hs : rightsAllowedSign env sk.header.rights = false := by
    rw [← time_iff, ← bitTest_iff _ _ (by decide)] at hno
    unfold rightsAllowedSign FLAG_SIGN
    cases h1 : bitTest sk.header.rights.usageFlags 5
    · rfl
    · cases h2 : rightsAllowedTime sk.header.rights env.time
      · rfl
      · rw [h1, h2] at hno; simp at hno
  unfold macInit
  simp only [hs]
  split
  · cases digest <;> simp
  · split <;> simp

/-! ## Examples -/

/-- A 16 byte key that expires at time 2000 and may only be shown on outputs with HDCP 2.2. -/
def expiring : StoredKey := { C27.key16 with header := { C27.key16.header with rights := { rightsAllowAll with usageFlags := 0x143F, notOnOrAfter := 2000 } } }

def late : RightsEnv := { time := 2000, video := some C10.hdmi22 }
def exposed : RightsEnv := { time := 1000, video := some C10.analog }

def ops : List CipherOp := [.init (.ctr (some (some (List.replicate 16 1)))) MODE_ENCRYPT (.OK, some expiring) C36.ienv C08.u7]

def world : CipherWorld C34.Toy := ((cipherNew C34.Toy 32).bind fun w => cipherRun (C34.toyCipher true) w ops).getD ⟨⟨⟨[], 0⟩, [], 0, false, 0⟩, fun _ => none, 0⟩

def call (env : RightsEnv) : Option Status :=
  (cipherProcess .more (C34.toyCipher true) C34.noUnwrap env world C20.st1 C34.mem0 31 (some (C34.outBuf 21)) (C34.inBuf 21) 21 C08.u7).map (·.status)

/-- The context is usable at time 1000, and refuses to work after the key has expired, or with an analog output. -/
example : call C27.renv = some .OK := by decide +kernel
example : call late = some .OPERATION_NOT_ALLOWED := by decide +kernel
example : call exposed = some .OPERATION_NOT_ALLOWED := by decide +kernel

/-- The hypothesis of the theorem is met by these calls. -/
example : ¬ Usable late expiring.header.rights CIPHER_AES_CTR MODE_ENCRYPT := by
  rintro ⟨_, _, h, _⟩
  exact absurd h (by decide)

/-- The calls on a MAC context, each with the time and the outputs at which it happens: the clock is read by `init` only. -/
def macCalls (env : RightsEnv) : List MacOp :=
  [.init MAC_HMAC (some 1) (.OK, some expiring) C27.renv true C08.u7, .process 31 (some [1, 2]) C08.u7, .compute 31 (some 32) C08.u7,
   .init MAC_HMAC (some 1) (.OK, some expiring) env true C08.u7]

/-- **C50 is violated for MAC contexts**: a MAC context is created at time 1000 with a key that expires at 2000.  `sa_crypto_mac_process` and
`sa_crypto_mac_compute` read neither the clock nor the rights of the key (ta_sa_crypto_mac_process.c:24-100, ta_sa_crypto_mac_compute.c:27-137),
so they go on to give MACs at any time; at time 2000 the key is refused for a new context. -/
theorem C50_violated : (¬ (late.time.toNat < expiring.header.rights.notOnOrAfter.toNat)) ∧
    ((macNew _ 32).bind fun w => (macRun C27.toyPrim w (macCalls late)).map fun r => r.2.map fun x => (x.2.status, x.2.out.map (·.length))) =
    some [(.OK, none), (.OK, none), (.OK, some 32), (.OPERATION_NOT_ALLOWED, none)] := by
  refine ⟨by decide, by decide +kernel⟩

end Sa.C50

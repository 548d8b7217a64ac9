import Verif.Lemmas.CipherRun
import Verif.Props.C36

/-!
# C34: what a cipher call writes, and the offsets it leaves
-/

namespace Sa.C34

variable {σ : Type}

/-- `b'` is `b` with the offset advanced by `n` bytes (without wrapping). -/
def MovedBy (n : Nat) : SaBuffer → SaBuffer → Prop
  | .clear a l o, .clear a' l' o' => a' = a ∧ l' = l ∧ o'.toNat = o.toNat + n
  | .svp h o, .svp h' o' => h' = h ∧ o'.toNat = o.toNat + n
  | _, _ => False

theorem advance_moved (st : SvpStore) (u : Uuid) (b : SaBuffer) (k a : Nat) (n : UInt64) (hl : Located st u b k a) (hn : n.toNat ≤ k) :
    MovedBy n.toNat b (b.advance n) := by
  cases b with
  | clear ad l o =>
    obtain ⟨_, h2, h3, _⟩ := hl
    refine ⟨rfl, rfl, ?_⟩
    rw [UInt64.toNat_add]
    have := l.toNat_lt
    omega
  | svp h o =>
    obtain ⟨r, hr, h2, _⟩ := hl
    refine ⟨rfl, ?_⟩
    rw [UInt64.toNat_add]
    have := r.size.toNat_lt
    omega

theorem located_le (st : SvpStore) (u : Uuid) (b : SaBuffer) (n m a : Nat) (h : Located st u b n a) (hm : m ≤ n) : Located st u b m a := by
  cases b with
  | clear => obtain ⟨h1, h2, h3, h4⟩ := h; exact ⟨h1, by omega, h3, h4⟩
  | svp => obtain ⟨r, h1, h2, h3⟩ := h; exact ⟨r, h1, by omega, h3⟩

/-- What C34 asks of a call (with context `h`, buffers, and `bytes` bytes to process) that leaves `r`.  If it fails the buffers are as they
were.  Either nothing is written (and the call fails or only asks for the size); or the buffers are of known types, and the written bytes
`outB` are all inside the output buffer of the caller, from its offset on; the input is in the input buffer; if the output is clear then the
input is clear and the key allows it; and if the call succeeds `outB` is the output of the cipher for exactly the `bytes` bytes of the input
at its offset, the number of bytes produced is reported, the output offset is advanced by it and the input offset by `bytes`. -/
def CallOk (p : CipherPrim σ) (u : UnwrapPrims) (k : ProcKind) (w : CipherWorld σ) (svp : SvpStore) (mem : Mem) (h : Nat) (out : Option RawBuffer)
    (input : RawBuffer) (bytes : UInt64) (caller : Uuid) (r : ProcResult σ) : Prop :=
  (r.status ≠ .OK → r.out = out ∧ r.input = input) ∧ r.svp = svp ∧
  ((r.mem = mem ∧ (r.status = .OK → out = none ∧ r.out = out ∧ r.input = input)) ∨
   ∃ ob ib ptr o sk ctx a b outB, out = some (.buf ob) ∧ input = .buf ib ∧ HasCtx w h caller ptr o sk ctx ∧
     (ob.isClear = true → ib.isClear = true ∧ Flag sk.header.rights.usageFlags FLAG_SVP_OPTIONAL) ∧
     Located svp caller ob outB.length a ∧ Located svp caller ib bytes.toNat b ∧ r.mem = writeAt mem a outB ∧
     (r.status = .OK → CipherOutputs p u k o sk ctx (readAt mem b bytes.toNat) outB ∧ r.bytes.toNat = outB.length ∧
       (∃ ob', r.out = some (.buf ob') ∧ MovedBy outB.length ob ob') ∧ ∃ ib', r.input = .buf ib' ∧ MovedBy bytes.toNat ib ib'))

theorem call_ok {p : CipherPrim σ} {view : σ → CipherView} (hp : p.Good view) (u : UnwrapPrims) (hu : u.Good) (k : ProcKind) (env : RightsEnv)
    {w : CipherWorld σ} (inv : CipherInv w) (all : CtxAll (GoodCtx view) w) (svp : SvpStore) (hsvp : SvpInv svp) (mem : Mem) (h : Nat)
    (out : Option RawBuffer) (input : RawBuffer) (bytes : UInt64) (hb : bytes.toNat < 2 ^ 31) (caller : Uuid) :
    ∃ r, cipherProcess k p u env w svp mem h out input bytes caller = some r ∧ CallOk p u k w svp mem h out input bytes caller r := by
  rcases cipherProcess_eq inv k p u env svp mem h out input bytes caller with ⟨s, hs, _, e⟩ | ⟨ptr, o, sk, ctx, st1, hc, ha, e⟩
  · refine ⟨_, e, fun _ => ⟨rfl, rfl⟩, rfl, Or.inl ⟨rfl, ?_⟩⟩
    cases k with
    | more => simp
    | last => intro h; exact absurd h hs
  · refine ⟨_, e, ?_⟩
    have hg := all _ _ _ _ _ _ hc
    have fail : ∀ (wd : CipherWorld σ) s, s ≠ Status.OK → CallOk p u k w svp mem h out input bytes caller ⟨wd, svp, mem, out, input, bytes, none, s⟩ :=
      fun wd s hs => ⟨fun _ => ⟨rfl, rfl⟩, rfl, Or.inl ⟨rfl, fun h => absurd h hs⟩⟩
    unfold processAcquired
    simp only
    cases out with
    | none => exact ⟨fun _ => ⟨rfl, rfl⟩, rfl, Or.inl ⟨rfl, fun _ => ⟨rfl, rfl, rfl⟩⟩⟩
    | some out =>
      cases out with
      | badType => exact fail _ _ (by simp)
      | buf ob =>
        cases input with
        | badType => exact fail _ _ (by simp)
        | buf ib =>
          simp only
          split
          · exact fail _ _ (by simp)
          · split
            · exact fail _ _ (by simp)
            · rename_i hc1
              split
              · exact fail _ _ (by simp)
              · rename_i hc2
                obtain ⟨a1, a2, a3, a4, _⟩ := convertBuffer_spec svp hsvp ob (k.required o sk bytes (some (RawBuffer.buf ob)).isNone) caller
                split
                · rename_i hst
                  rw [a2]
                  exact fail _ _ hst
                · rename_i hst
                  simp only [ne_eq, Classical.not_not] at hst
                  obtain ⟨b1, b2, b3, b4, _⟩ := convertBuffer_spec _ a1 ib bytes caller
                  rw [b2, a2]
                  split
                  · rename_i hst2
                    exact fail _ _ hst2
                  · rename_i hst2
                    simp only [ne_eq, Classical.not_not] at hst2
                    have hl1 := a4 hst
                    have hl2 := (located_iff svp _ a3 caller ib bytes.toNat _).mp (b4 hst2)
                    have hrun := run_ok hp u hu k env o sk ctx hg mem (convertBuffer svp ob (k.required o sk bytes (some (RawBuffer.buf ob)).isNone) caller).addr
                      (convertBuffer (convertBuffer svp ob (k.required o sk bytes (some (RawBuffer.buf ob)).isNone) caller).store ib bytes caller).addr
                      (k.required o sk bytes (some (RawBuffer.buf ob)).isNone) bytes
                    obtain ⟨outB, c1, c2, c3⟩ := hrun.out
                    have hclear : ob.isClear = true → ib.isClear = true ∧ Flag sk.header.rights.usageFlags FLAG_SVP_OPTIONAL := by
                      intro hcl
                      rw [hcl] at hc1 hc2
                      refine ⟨by simpa using hc1, ?_⟩
                      rw [← bitTest_iff _ _ (by decide)]
                      unfold rightsAllowedClear at hc2
                      simpa using hc2
                    have hl1' := located_le svp caller ob _ outB.length _ hl1 c2
                    split
                    · rename_i hst3
                      exact ⟨fun _ => ⟨rfl, rfl⟩, rfl, Or.inr ⟨ob, ib, ptr, o, sk, ctx, _, _, outB, rfl, rfl, hc, hclear, hl1', hl2, c1, fun h => absurd h hst3⟩⟩
                    · rename_i hst3
                      simp only [ne_eq, Classical.not_not] at hst3
                      obtain ⟨d1, d2, d3⟩ := c3 hst3
                      have hlen : outB.length < 2 ^ 64 := by
                        have := (k.required o sk bytes false).toNat_lt
                        omega
                      have hbl : (UInt64.ofNat outB.length).toNat = outB.length := by
                        rw [UInt64.toNat_ofNat']; omega
                      refine ⟨by simp, rfl, Or.inr ⟨ob, ib, ptr, o, sk, ctx, _, _, outB, rfl, rfl, hc, hclear, hl1', hl2, c1, fun _ => ⟨d3 hb, ?_, ⟨_, rfl, ?_⟩, _, rfl, ?_⟩⟩⟩
                      · rw [d1, hbl]
                      · have := advance_moved svp caller ob _ _ (UInt64.ofNat outB.length) hl1' (by rw [hbl]; exact Nat.le_refl _)
                        rw [hbl] at this
                        rw [d1]; exact this
                      · exact advance_moved svp caller ib _ _ bytes hl2 (Nat.le_refl _)

/-- **C34** (partial: for calls that process less than 2^31 bytes; see `C34_violated_length`; and for an OpenSSL in which finishing an
encryption leaves nothing held back, see `C34_violated_twice`).  After any sequence of calls on the cipher contexts of a new session, with any
state of the SVP buffers and any memory, any call of `sa_crypto_cipher_process` or `sa_crypto_cipher_process_last` meets `CallOk`.  (The calls
before may have any lengths.) -/
theorem C34_process_partial (p : CipherPrim σ) (view : σ → CipherView) (hp : p.Good view) (u : UnwrapPrims) (hu : u.Good) (slots : Nat)
    (hs : slots < 2 ^ 64) (w0 : CipherWorld σ) (h0 : cipherNew σ slots = some w0) (ops : List CipherOp) (hops : ∀ op ∈ ops, op.oaepOk)
    (svp : SvpStore) (hsvp : SvpReachable svp) (k : ProcKind) (env : RightsEnv) (mem : Mem) (h : Nat) (out : Option RawBuffer) (input : RawBuffer)
    (bytes : UInt64) (hb : bytes.toNat < 2 ^ 31) (caller : Uuid) :
    ∃ w r, cipherRun p w0 ops = some w ∧ cipherProcess k p u env w svp mem h out input bytes caller = some r ∧
      CallOk p u k w svp mem h out input bytes caller r := by
  obtain ⟨w, hr, inv, all⟩ := cipherRun_all p (goodCtx_stable hp) ops (cipherNew_inv slots hs w0 h0).1 (cipherNew_all slots hs w0 h0) hops
  obtain ⟨r, e, hc⟩ := call_ok hp u hu k env inv all svp (svpReachable_inv svp hsvp) mem h out input bytes hb caller
  exact ⟨w, r, hr, e, hc⟩

/-! ## A cipher for the examples: the identity with PKCS #7 padding -/

structure Toy where
  alg : Nat
  mode : Nat
  held : Bytes

/-- `resets`: finishing leaves nothing held back, as in OpenSSL 3. -/
def toyCipher (resets : Bool) : CipherPrim Toy where
  create alg mode _ _ := some ⟨alg, mode, []⟩
  update s b :=
    if isPkcs7Alg s.alg = false then (s, some b)
    else
      let t := s.held ++ b
      if s.mode = MODE_ENCRYPT then ({ s with held := t.drop (t.length / 16 * 16) }, some (t.take (t.length / 16 * 16)))
      else if b = [] then (s, some [])
      else ({ s with held := t.drop ((t.length - 1) / 16 * 16) }, some (t.take ((t.length - 1) / 16 * 16)))
  final s :=
    if isPkcs7Alg s.alg = false then (s, some [])
    else if s.mode = MODE_ENCRYPT then
      ((if resets then { s with held := [] } else s),
        some ((s.held ++ List.replicate 16 (UInt8.ofNat (16 - s.held.length))).take 16))
    else
      let n := (s.held.getD 15 0).toNat
      if s.held.length = 16 ∧ 1 ≤ n ∧ n ≤ 16 then ({ s with held := [] }, some (s.held.take (16 - n))) else (s, none)
  setIv s _ := some { s with held := [] }
  getTag _ := some (List.replicate 16 0)
  setTag s _ := some s

def toyView (s : Toy) : CipherView := ⟨s.alg, s.mode, s.held.length⟩

theorem toyCipher_good : (toyCipher true).Good toyView where
  create := by intro alg mode key sp s h; simp [toyCipher] at h; subst h; rfl
  updateKind := by
    intro s b
    unfold toyCipher toyView
    simp only
    split
    · exact ⟨rfl, rfl⟩
    · split
      · exact ⟨rfl, rfl⟩
      · split <;> exact ⟨rfl, rfl⟩
  updateFail := by
    intro s b
    unfold toyCipher toyView
    simp only
    split
    · simp
    · split
      · simp
      · split <;> simp
  updatePlain := by
    intro s b o h1 h2 _ h4
    unfold toyCipher at h4 ⊢
    unfold toyView at h1 h2 ⊢
    simp only at h1 h2 h4 ⊢
    rw [if_pos h1] at h4 ⊢
    simp only [Option.some.injEq] at h4
    exact ⟨by rw [h4], h2⟩
  updateEnc := by
    intro s b o h1 h2 h4
    unfold toyCipher at h4 ⊢
    unfold toyView at h1 h2 ⊢
    simp only at h1 h2 h4 ⊢
    rw [if_neg (by rw [h1]; simp), if_pos h2] at h4 ⊢
    simp only [Option.some.injEq] at h4
    subst h4
    simp only [List.length_take, List.length_drop, List.length_append]
    omega
  updateDec := by
    intro s b o h1 h2 h4
    unfold toyCipher at h4 ⊢
    unfold toyView at h1 h2 ⊢
    simp only at h1 h2 h4 ⊢
    rw [if_neg (by rw [h1]; simp), if_neg h2] at h4 ⊢
    refine ⟨?_, ?_⟩
    · intro hb
      rw [if_pos hb] at h4 ⊢
      simp only [Option.some.injEq] at h4
      exact ⟨h4.symm, rfl⟩
    · intro hb
      rw [if_neg hb] at h4 ⊢
      simp only [Option.some.injEq] at h4
      subst h4
      have : 0 < b.length := List.length_pos_iff.mpr hb
      simp only [List.length_take, List.length_drop, List.length_append]
      omega
  finalKind := by
    intro s
    unfold toyCipher toyView
    simp only
    split
    · exact ⟨rfl, rfl⟩
    · split
      · exact ⟨rfl, rfl⟩
      · split <;> exact ⟨rfl, rfl⟩
  finalPlain := by
    intro s h1
    unfold toyCipher
    unfold toyView at h1 ⊢
    simp only at h1 ⊢
    rw [if_pos h1]
    simp
  finalEnc := by
    intro s h1 h2 _
    unfold toyCipher
    unfold toyView at h1 h2 ⊢
    simp only at h1 h2 ⊢
    rw [if_neg (by rw [h1]; simp), if_pos h2]
    refine ⟨rfl, _, rfl, ?_⟩
    simp
  finalDec := by
    intro s h1 h2
    unfold toyCipher
    unfold toyView at h1 h2 ⊢
    simp only at h1 h2 ⊢
    rw [if_neg (by rw [h1]; simp), if_neg h2]
    split
    · refine ⟨Or.inl rfl, ?_⟩
      intro f hf
      simp only [Option.some.injEq] at hf
      subst hf
      simp only [List.length_take]
      omega
    · simp
  setIv := by intro s iv s' h; simp [toyCipher] at h; subst h; rfl
  setTag := by intro s t s' h; simp [toyCipher] at h; subst h; rfl

/-- A session with an AES-CTR context (31) and an AES-CBC-PKCS7 context (30), both for encryption. -/
def ops : List CipherOp :=
  [.init (.ctr (some (some (List.replicate 16 1)))) MODE_ENCRYPT C27.key C36.ienv C08.u7,
   .init (.cbc true (some (some (List.replicate 16 1)))) MODE_ENCRYPT C27.key C36.ienv C08.u7]

example : ∀ op ∈ ops, op.oaepOk := by
  intro op h
  simp only [ops, List.mem_cons, List.not_mem_nil, or_false] at h
  rcases h with rfl | rfl <;> intro h <;> simp [InitParams.alg] at h <;> exact absurd h (by decide)

def world (resets : Bool) : CipherWorld Toy := ((cipherNew Toy 32).bind fun w => cipherRun (toyCipher resets) w ops).getD ⟨⟨⟨[], 0⟩, [], 0, false, 0⟩, fun _ => none, 0⟩

def noUnwrap : UnwrapPrims := ⟨fun _ _ m => m, fun _ _ m => m, fun _ _ _ _ => List.replicate 16 0, fun _ _ m => m, fun _ _ m => m,
  fun _ _ _ _ => List.replicate 16 0, fun _ _ => none, fun _ _ _ _ _ => none, fun _ _ _ => none, fun _ _ => true, fun _ => 0⟩

/-- Input bytes are 9, everything else is 0. -/
def mem0 : Mem := fun a => if 0x400000000 ≤ a then 9 else 0

def inBuf (n : UInt64) : RawBuffer := .buf (.clear 0x400000000 n 0)
def outBuf (n : UInt64) : RawBuffer := .buf (.clear 0x200000000 n 0)

/-- The hypotheses are met by calls that succeed: 21 bytes of AES-CTR; a last chunk of 5 bytes with padding. -/
example : (cipherProcess .more (toyCipher true) noUnwrap C27.renv (world true) C20.st1 mem0 31 (some (outBuf 21)) (inBuf 21) 21 C08.u7).any
    (fun r => r.status == .OK && r.bytes == 21 && r.out == some (.buf (.clear 0x200000000 21 21)) && r.mem 0x200000014 == 9) = true := by
  decide +kernel
example : (cipherProcess (.last none) (toyCipher true) noUnwrap C27.renv (world true) C20.st1 mem0 30 (some (outBuf 16)) (inBuf 5) 5 C08.u7).any
    (fun r => r.status == .OK && r.bytes == 16 && r.out == some (.buf (.clear 0x200000000 16 16)) && r.mem 0x200000004 == 9 &&
      r.mem 0x200000005 == 11) = true := by
  decide +kernel

/-- **C34 is violated (length)**: a call with 2^32 + 16 bytes.  OpenSSL takes the length as an `int`, so only 16 bytes are processed and 16 are
written; but the call succeeds and advances the input offset by 2^32 + 16. -/
theorem C34_violated_length : ∃ r, cipherProcess .more (toyCipher true) noUnwrap C27.renv (world true) C20.st1 mem0 31
      (some (outBuf 0x100000010)) (inBuf 0x100000010) 0x100000010 C08.u7 = some r ∧ r.status = .OK ∧ r.bytes = 16 ∧
      r.out = some (.buf (.clear 0x200000000 0x100000010 16)) ∧ r.input = .buf (.clear 0x400000000 0x100000010 0x100000010) ∧
      r.mem 0x200000010 = mem0 0x200000010 :=
  ⟨_, rfl, by decide +kernel, by decide +kernel, by decide +kernel, by decide +kernel, by decide +kernel⟩

/-- **C34 is violated (two last chunks)**: with an OpenSSL that leaves the rest in the context when an encryption is finished (1.1.1), a last
chunk of 5 bytes followed by one of 15 bytes.  Both times 16 bytes of output are validated, but the second call writes 32 bytes: 16 of them
behind the end of the output buffer. -/
theorem C34_violated_twice : ∃ r1 r2,
    cipherProcess (.last none) (toyCipher false) noUnwrap C27.renv (world false) C20.st1 mem0 30 (some (outBuf 16)) (inBuf 5) 5 C08.u7 = some r1 ∧
    r1.status = .OK ∧
    cipherProcess (.last none) (toyCipher false) noUnwrap C27.renv r1.world C20.st1 mem0 30 (some (outBuf 16)) (inBuf 15) 15 C08.u7 = some r2 ∧
    r2.status = .OK ∧ r2.bytes = 32 ∧ r2.mem (0x200000000 + 16) ≠ mem0 (0x200000000 + 16) :=
  ⟨_, _, rfl, by decide +kernel, rfl, by decide +kernel, by decide +kernel, by decide +kernel⟩

end Sa.C34

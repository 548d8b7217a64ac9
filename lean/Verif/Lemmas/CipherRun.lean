import Verif.Lemmas.CipherCtx
import Verif.Model.CipherSpec

/-!
# What the functions for the cipher algorithms write
-/

namespace Sa

variable {σ : Type}

/-- The number of bytes a context may hold back between calls. -/
def HeldOk (alg mode held : Nat) : Prop :=
  if isPkcs7Alg alg = true then (if mode = MODE_ENCRYPT then held = 0 else held = 0 ∨ held = 16) else held = 0

structure GoodSym (view : σ → CipherView) (c : SymCtx σ) : Prop where
  alg : (view c.evp).alg = c.alg
  mode : (view c.evp).mode = c.mode
  held : HeldOk c.alg c.mode (view c.evp).held

theorem pkcs7_not_stream (alg : Nat) (h : isPkcs7Alg alg = true) : isStreamAlg alg = false := by
  unfold isPkcs7Alg CIPHER_AES_ECB_PKCS7 CIPHER_AES_CBC_PKCS7 at h
  unfold isStreamAlg CIPHER_AES_CTR CIPHER_AES_GCM CIPHER_CHACHA20 CIPHER_CHACHA20_POLY1305
  simp only [Bool.or_eq_true, beq_iff_eq] at h
  rcases h with h | h <;> subst h <;> rfl

theorem u64_mod16 (a : UInt64) : a % 16 = 0 ↔ a.toNat % 16 = 0 := by
  rw [← UInt64.toNat_inj, UInt64.toNat_mod]; rfl

/-- One update of an OpenSSL context by `n` bytes. -/
theorem update_good {p : CipherPrim σ} {view : σ → CipherView} (hp : p.Good view) (c : SymCtx σ) (hg : GoodSym view c) (b o : Bytes)
    (hb : isStreamAlg c.alg = true ∨ b.length % 16 = 0) (hu : (p.update c.evp b).2 = some o) :
    o.length ≤ b.length ∧ (isPkcs7Alg c.alg = false → o.length = b.length) ∧
    (isPkcs7Alg c.alg = true → c.mode = MODE_ENCRYPT → o.length = b.length) ∧ GoodSym view { c with evp := (p.update c.evp b).1 } := by
  obtain ⟨k1, k2⟩ := hp.updateKind c.evp b
  cases hk : isPkcs7Alg c.alg with
  | false =>
    have hheld : (view c.evp).held = 0 := by have := hg.held; unfold HeldOk at this; rw [hk] at this; simpa using this
    obtain ⟨h1, h2⟩ := hp.updatePlain c.evp b o (by rw [hg.alg]; exact hk) hheld (by rw [hg.alg]; exact hb) hu
    refine ⟨by omega, fun _ => h1, by simp, ⟨by rw [k1]; exact hg.alg, by rw [k2]; exact hg.mode, ?_⟩⟩
    unfold HeldOk
    simp only [hk, Bool.false_eq_true, if_false]
    exact h2
  | true =>
    have hb' : b.length % 16 = 0 := by
      rcases hb with hb | hb
      · rw [pkcs7_not_stream c.alg hk] at hb; simp at hb
      · exact hb
    by_cases hm : c.mode = MODE_ENCRYPT
    · have hheld : (view c.evp).held = 0 := by have := hg.held; unfold HeldOk at this; rw [if_pos hk, if_pos hm] at this; exact this
      obtain ⟨h1, h2⟩ := hp.updateEnc c.evp b o (by rw [hg.alg]; exact hk) (by rw [hg.mode]; exact hm) hu
      rw [hheld] at h1 h2
      refine ⟨by omega, by simp, fun _ _ => by omega, ⟨by rw [k1]; exact hg.alg, by rw [k2]; exact hg.mode, ?_⟩⟩
      unfold HeldOk
      simp only [hk, if_true, hm]
      omega
    · have hheld : (view c.evp).held = 0 ∨ (view c.evp).held = 16 := by
        have := hg.held; unfold HeldOk at this; rw [if_pos hk, if_neg hm] at this; exact this
      obtain ⟨h1, h2⟩ := hp.updateDec c.evp b o (by rw [hg.alg]; exact hk) (by rw [hg.mode]; exact hm) hu
      by_cases hn : b = []
      · obtain ⟨h3, h4⟩ := h1 hn
        subst h3
        refine ⟨by simp, by simp, fun _ h => absurd h hm, ⟨by rw [k1]; exact hg.alg, by rw [k2]; exact hg.mode, ?_⟩⟩
        unfold HeldOk
        simp only [hk, if_true, hm, if_false]
        rw [h4]; exact hheld
      · obtain ⟨h3, h4⟩ := h2 hn
        have hpos : 0 < b.length := List.length_pos_iff.mpr hn
        refine ⟨by omega, by simp, fun _ h => absurd h hm, ⟨by rw [k1]; exact hg.alg, by rw [k2]; exact hg.mode, ?_⟩⟩
        unfold HeldOk
        simp only [hk, if_true, hm, if_false]
        omega

theorem update_fail_good {p : CipherPrim σ} {view : σ → CipherView} (hp : p.Good view) (c : SymCtx σ) (hg : GoodSym view c) (b : Bytes)
    (hu : (p.update c.evp b).2 = none) : GoodSym view { c with evp := (p.update c.evp b).1 } := by
  have := hp.updateFail c.evp b hu
  exact ⟨by rw [this]; exact hg.alg, by rw [this]; exact hg.mode, by rw [this]; exact hg.held⟩

/-- Update and finish: how much is output, and what is held back afterwards. -/
theorem last_good {p : CipherPrim σ} {view : σ → CipherView} (hp : p.Good view) (c : SymCtx σ) (hg : GoodSym view c) (b o : Bytes)
    (hne : isStreamAlg c.alg = true ∨ isPkcs7Alg c.alg = true) (hb : isPkcs7Alg c.alg = true → c.mode ≠ MODE_ENCRYPT → b.length % 16 = 0)
    (hu : (p.update c.evp b).2 = some o) :
    let e := (p.update c.evp b).1
    o.length ≤ b.length ∧ GoodSym view { c with evp := (p.final e).1 } ∧
    (∀ f, (p.final e).2 = some f → (isPkcs7Alg c.alg = false → f = [] ∧ o.length = b.length) ∧
      (isPkcs7Alg c.alg = true → o.length + f.length ≤ 16 * (b.length / 16 + 1) ∧
        (c.mode = MODE_ENCRYPT → o.length + f.length = 16 * (b.length / 16 + 1)))) := by
  intro e
  obtain ⟨k1, k2⟩ := hp.updateKind c.evp b
  obtain ⟨k3, k4⟩ := hp.finalKind e
  have ka : (view e).alg = c.alg := by rw [k1]; exact hg.alg
  have km : (view e).mode = c.mode := by rw [k2]; exact hg.mode
  cases hk : isPkcs7Alg c.alg with
  | false =>
    have hst : isStreamAlg c.alg = true := by rw [hk] at hne; simpa using hne
    obtain ⟨a1, a2, _, a4⟩ := update_good hp c hg b o (Or.inl hst) hu
    obtain ⟨b1, b2⟩ := hp.finalPlain e (by rw [ka]; exact hk)
    refine ⟨a1, ⟨by rw [k3]; exact ka, by rw [k4]; exact km, ?_⟩, ?_⟩
    · show HeldOk c.alg c.mode _
      rw [b1]; exact a4.held
    · intro f hf
      exact ⟨fun _ => ⟨b2 f hf, a2 hk⟩, by simp⟩
  | true =>
    by_cases hm : c.mode = MODE_ENCRYPT
    · have hheld : (view c.evp).held = 0 := by have := hg.held; unfold HeldOk at this; rw [if_pos hk, if_pos hm] at this; exact this
      obtain ⟨h1, h2⟩ := hp.updateEnc c.evp b o (by rw [hg.alg]; exact hk) (by rw [hg.mode]; exact hm) hu
      rw [hheld] at h1 h2
      have hlt : (view e).held < 16 := by rw [h2]; exact Nat.mod_lt _ (by omega)
      obtain ⟨b1, f0, b2, b3⟩ := hp.finalEnc e (by rw [ka]; exact hk) (by rw [km]; exact hm) hlt
      refine ⟨by omega, ⟨by rw [k3]; exact ka, by rw [k4]; exact km, ?_⟩, ?_⟩
      · unfold HeldOk
        simp only [hk, if_true, hm]
        exact b1
      · intro f hf
        rw [b2] at hf
        simp only [Option.some.injEq] at hf
        subst hf
        refine ⟨by simp, fun _ => ⟨by omega, fun _ => by omega⟩⟩
    · have hb' := hb hk hm
      obtain ⟨a1, _, _, a4⟩ := update_good hp c hg b o (Or.inr hb') hu
      obtain ⟨b1, b2⟩ := hp.finalDec e (by rw [ka]; exact hk) (by rw [km]; exact hm)
      have ah := a4.held
      unfold HeldOk at ah
      simp only [hk, if_true, hm, if_false] at ah
      refine ⟨a1, ⟨by rw [k3]; exact ka, by rw [k4]; exact km, ?_⟩, ?_⟩
      · unfold HeldOk
        simp only [hk, if_true, hm, if_false]
        change (view e).held = 0 ∨ (view e).held = 16 at ah
        rcases b1 with b1 | b1
        · exact Or.inl b1
        · rw [b1]; exact ah
      · intro f hf
        have := b2 f hf
        refine ⟨by simp, fun _ => ⟨by omega, fun h => absurd h hm⟩⟩

/-- `symmetric_context_encrypt` and `symmetric_context_decrypt`. -/
theorem symContextUpdate_spec {p : CipherPrim σ} {view : σ → CipherView} (hp : p.Good view) (mode : Nat) (c : SymCtx σ) (hg : GoodSym view c)
    (mem : Mem) (outA inA : Nat) (len : UInt64) :
    let r := symContextUpdate p mode c mem outA inA len
    r.ctx.alg = c.alg ∧ r.ctx.mode = c.mode ∧ GoodSym view r.ctx ∧ (r.status ≠ .OK → r.mem = mem) ∧
    (r.status = .OK → ∃ o, (p.update c.evp (readAt mem inA (len.toNat % 2 ^ 32))).2 = some o ∧ r.mem = writeAt mem outA o ∧
      r.outLength = UInt64.ofNat o.length ∧ o.length ≤ len.toNat % 2 ^ 32) := by
  intro r
  have hr : r = symContextUpdate p mode c mem outA inA len := rfl
  clear_value r
  unfold symContextUpdate at hr
  by_cases h1 : c.mode ≠ mode
  · rw [if_pos h1] at hr; subst hr; exact ⟨rfl, rfl, hg, fun _ => rfl, by simp⟩
  · rw [if_neg h1] at hr
    by_cases h2 : (!isStreamAlg c.alg && decide (len % 16 ≠ 0)) = true
    · rw [if_pos (by simpa using h2)] at hr; subst hr; exact ⟨rfl, rfl, hg, fun _ => rfl, by simp⟩
    · rw [if_neg (by simpa using h2)] at hr
      simp only at hr
      by_cases h3 : len.toNat % 2 ^ 32 ≥ 2 ^ 31
      · rw [if_pos h3] at hr; subst hr; exact ⟨rfl, rfl, hg, fun _ => rfl, by simp⟩
      · rw [if_neg h3] at hr
        have hb : isStreamAlg c.alg = true ∨ (readAt mem inA (len.toNat % 2 ^ 32)).length % 16 = 0 := by
          rw [readAt_length]
          cases hs : isStreamAlg c.alg with
          | true => exact Or.inl rfl
          | false =>
            right
            have : len % 16 = 0 := by rw [hs] at h2; simpa using h2
            have := (u64_mod16 len).mp this
            omega
        generalize hu : p.update c.evp (readAt mem inA (len.toNat % 2 ^ 32)) = q at hr
        obtain ⟨e, o⟩ := q
        cases o with
        | none =>
          simp only at hr
          subst hr
          have := update_fail_good hp c hg (readAt mem inA (len.toNat % 2 ^ 32)) (by rw [hu])
          rw [hu] at this
          exact ⟨rfl, rfl, this, fun _ => rfl, by simp⟩
        | some o =>
          simp only at hr
          subst hr
          obtain ⟨a1, _, _, a4⟩ := update_good hp c hg (readAt mem inA (len.toNat % 2 ^ 32)) o hb (by rw [hu])
          rw [hu] at a4
          rw [readAt_length] at a1
          exact ⟨rfl, rfl, a4, by simp, fun _ => ⟨o, rfl, rfl, rfl, a1⟩⟩

/-- `symmetric_context_encrypt_last` and `symmetric_context_decrypt_last`. -/
theorem symContextLast_spec {p : CipherPrim σ} {view : σ → CipherView} (hp : p.Good view) (mode : Nat) (c : SymCtx σ) (hg : GoodSym view c)
    (hne : isStreamAlg c.alg = true ∨ isPkcs7Alg c.alg = true) (mem : Mem) (outA inA : Nat) (outLength len : UInt64)
    (hb : isPkcs7Alg c.alg = true → c.mode ≠ MODE_ENCRYPT → len.toNat % 16 = 0) :
    let r := symContextLast p mode c mem outA inA outLength len
    let n := len.toNat % 2 ^ 32
    r.ctx.alg = c.alg ∧ r.ctx.mode = c.mode ∧ GoodSym view r.ctx ∧
    (r.status ≠ .OK → ∃ o : Bytes, r.mem = writeAt mem outA o ∧ o.length ≤ n) ∧
    (r.status = .OK → ∃ o f, (p.update c.evp (readAt mem inA n)).2 = some o ∧ (p.final (p.update c.evp (readAt mem inA n)).1).2 = some f ∧
      r.mem = writeAt mem outA (o ++ f) ∧ r.outLength = UInt64.ofNat (o ++ f).length ∧
      (isPkcs7Alg c.alg = false → f = [] ∧ o.length = n) ∧ (isPkcs7Alg c.alg = true → (o ++ f).length ≤ 16 * (n / 16 + 1))) := by
  intro r n
  have hn : n = len.toNat % 2 ^ 32 := rfl
  have hr : r = symContextLast p mode c mem outA inA outLength len := rfl
  clear_value r
  unfold symContextLast at hr
  have hnil : ∃ o : Bytes, mem = writeAt mem outA o ∧ o.length ≤ n := ⟨[], (writeAt_nil mem outA).symm, by simp⟩
  by_cases h1 : c.mode ≠ mode
  · rw [if_pos h1] at hr; subst hr; exact ⟨rfl, rfl, hg, fun _ => hnil, by simp⟩
  · rw [if_neg h1] at hr
    by_cases h2 : c.alg = CIPHER_AES_ECB ∨ c.alg = CIPHER_AES_CBC
    · rw [if_pos h2] at hr; subst hr; exact ⟨rfl, rfl, hg, fun _ => hnil, by simp⟩
    · rw [if_neg h2] at hr
      by_cases h3 : lastTooLong mode c.alg len = true
      · rw [if_pos h3] at hr; subst hr; exact ⟨rfl, rfl, hg, fun _ => hnil, by simp⟩
      · rw [if_neg h3] at hr
        simp only at hr
        by_cases h4 : len.toNat % 2 ^ 32 ≥ 2 ^ 31
        · rw [if_pos h4] at hr; subst hr; exact ⟨rfl, rfl, hg, fun _ => hnil, by simp⟩
        · rw [if_neg h4] at hr
          rw [← hn] at hr
          have hb' : isPkcs7Alg c.alg = true → c.mode ≠ MODE_ENCRYPT → (readAt mem inA n).length % 16 = 0 := by
            intro x y; rw [readAt_length]; have := hb x y; omega
          generalize hu : p.update c.evp (readAt mem inA n) = q at hr
          obtain ⟨e, o⟩ := q
          cases o with
          | none =>
            simp only at hr
            subst hr
            have := update_fail_good hp c hg (readAt mem inA n) (by rw [hu])
            rw [hu] at this
            exact ⟨rfl, rfl, this, fun _ => hnil, by simp⟩
          | some o =>
            simp only at hr
            have hl := last_good hp c hg (readAt mem inA n) o hne hb' (by rw [hu])
            simp only [hu, readAt_length] at hl
            obtain ⟨l1, l2, l3⟩ := hl
            generalize hf : p.final e = q2 at hr
            obtain ⟨e2, f⟩ := q2
            rw [hf] at l2 l3
            cases f with
            | none =>
              simp only at hr
              subst hr
              exact ⟨rfl, rfl, l2, fun _ => ⟨o, rfl, l1⟩, by simp⟩
            | some f =>
              simp only at hr
              subst hr
              obtain ⟨m1, m2⟩ := l3 f rfl
              refine ⟨rfl, rfl, l2, by simp, fun _ => ⟨o, f, rfl, rfl, writeAt_append _ _ _ _, by rw [List.length_append], m1, ?_⟩⟩
              intro hk
              rw [List.length_append]
              exact (m2 hk).1

/-- What holds of every context. -/
structure GoodCtx (view : σ → CipherView) (o : CipherObj) (sk : StoredKey) (ctx : Option (SymCtx σ)) : Prop where
  mode : o.mode = MODE_ENCRYPT ∨ o.mode = MODE_DECRYPT
  known : ∃ q : InitParams, q.alg = some o.alg
  asym : ctx = none → o.alg = CIPHER_RSA_PKCS1V15 ∨ o.alg = CIPHER_RSA_OAEP ∨ o.alg = CIPHER_EC_ELGAMAL
  sym : ∀ c, ctx = some c → c.alg = o.alg ∧ c.mode = o.mode ∧ GoodSym view c ∧
    o.alg ≠ CIPHER_RSA_PKCS1V15 ∧ o.alg ≠ CIPHER_RSA_OAEP ∧ o.alg ≠ CIPHER_EC_ELGAMAL

theorem GoodCtx.with {view : σ → CipherView} {o : CipherObj} {sk : StoredKey} {c c' : SymCtx σ} (h : GoodCtx view o sk (some c))
    (ha : c'.alg = c.alg) (hm : c'.mode = c.mode) (hg : GoodSym view c') : GoodCtx view o sk (some c') := by
  obtain ⟨h1, h2, _, h4⟩ := h.sym c rfl
  refine ⟨h.mode, h.known, by simp, ?_⟩
  intro c'' hc
  simp only [Option.some.injEq] at hc
  subst hc
  exact ⟨by rw [ha, h1], by rw [hm, h2], hg, h4⟩

/-- What a function for an algorithm leaves: a good context, and at most `limit` bytes of output, which are those of the cipher. -/
structure RunOk (p : CipherPrim σ) (view : σ → CipherView) (u : UnwrapPrims) (k : ProcKind) (env : RightsEnv) (o : CipherObj) (sk : StoredKey)
    (ctx : Option (SymCtx σ)) (mem : Mem) (outA inA : Nat) (bytes : UInt64) (limit : Nat) (r : AlgResult σ) : Prop where
  good : ∀ c, r.ctx = some c → ctx.isSome → GoodCtx view o sk (some c)
  out : ∃ outB : Bytes, r.mem = writeAt mem outA outB ∧ outB.length ≤ limit ∧
    (r.status = .OK → r.bytes = UInt64.ofNat outB.length ∧ modeAllowed env o.mode sk.header.rights ctx.isSome = true ∧
      (bytes.toNat < 2 ^ 31 → CipherOutputs p u k o sk ctx (readAt mem inA bytes.toNat) outB))

/-- Nothing was done. -/
theorem RunOk.fail {p : CipherPrim σ} {view : σ → CipherView} {u : UnwrapPrims} {k : ProcKind} {env : RightsEnv} {o : CipherObj} {sk : StoredKey}
    {ctx : Option (SymCtx σ)} {mem : Mem} {outA inA : Nat} {bytes : UInt64} {limit : Nat} (hg : GoodCtx view o sk ctx) (ctx' : Option (SymCtx σ))
    (hc : ∀ c, ctx' = some c → ctx = some c) (s : Status) (hs : s ≠ .OK) (b : UInt64) (t : Option Bytes) :
    RunOk p view u k env o sk ctx mem outA inA bytes limit ⟨ctx', mem, s, b, t⟩ := by
  refine ⟨?_, [], (writeAt_nil _ _).symm, by simp, fun h => absurd h hs⟩
  intro c h _
  rw [← hc c h]; exact hg

theorem mod_small (n : Nat) (h : n < 2 ^ 31) : n % 2 ^ 32 = n := by omega

theorem processSymmetric_ok {p : CipherPrim σ} {view : σ → CipherView} (hp : p.Good view) (u : UnwrapPrims) (env : RightsEnv) (o : CipherObj)
    (sk : StoredKey) (ctx : Option (SymCtx σ)) (hg : GoodCtx view o sk ctx) (mem : Mem) (outA inA : Nat) (bytes : UInt64) :
    RunOk p view u .more env o sk ctx mem outA inA bytes bytes.toNat (processSymmetric p env o sk ctx mem outA inA bytes) := by
  unfold processSymmetric
  split
  · exact RunOk.fail hg _ (fun _ h => h) _ (by simp) _ _
  · cases ctx with
    | none => exact RunOk.fail hg _ (fun _ h => h) _ (by simp) _ _
    | some c =>
      simp only
      split
      · exact RunOk.fail hg _ (fun _ h => h) _ (by simp) _ _
      · rename_i hal
        obtain ⟨g1, g2, g3, _⟩ := hg.sym c rfl
        obtain ⟨a1, a2, a3, a4, a5⟩ := symContextUpdate_spec hp o.mode c g3 mem outA inA bytes
        split
        · rename_i hst
          refine ⟨?_, [], ?_, by simp, fun h => absurd h hst⟩
          · intro c' hc' _
            simp only [Option.some.injEq] at hc'
            rw [← hc']; exact hg.with a1 a2 a3
          · rw [writeAt_nil]; exact a4 hst
        · rename_i hst
          simp only [ne_eq, Classical.not_not] at hst
          obtain ⟨ob, b1, b2, b3, b4⟩ := a5 hst
          refine ⟨?_, ob, b2, by omega, ?_⟩
          · intro c' hc' _
            simp only [Option.some.injEq] at hc'
            rw [← hc']; exact hg.with a1 a2 a3
          · intro _
            refine ⟨b3, by simpa using hal, ?_⟩
            intro hlt
            rw [mod_small _ hlt] at b1
            exact b1

theorem processRsa_ok {p : CipherPrim σ} {view : σ → CipherView} (u : UnwrapPrims) (hu : u.Good) (env : RightsEnv) (o : CipherObj)
    (sk : StoredKey) (hg : GoodCtx view o sk none) (halg : o.alg = CIPHER_RSA_PKCS1V15 ∨ o.alg = CIPHER_RSA_OAEP) (mem : Mem) (outA inA : Nat) (bytes : UInt64) :
    RunOk p view u .more env o sk none mem outA inA bytes sk.header.size.toNat (processRsa u env o sk mem outA inA bytes) := by
  unfold processRsa
  simp only
  split
  · exact RunOk.fail hg _ (fun _ h => h) _ (by simp) _ _
  · split
    · exact RunOk.fail hg _ (fun _ h => h) _ (by simp) _ _
    · rename_i hlen
      split
      · exact RunOk.fail hg _ (fun _ h => h) _ (by simp) _ _
      · rename_i hmode
        split
        · exact RunOk.fail hg _ (fun _ h => h) _ (by simp) _ _
        · rename_i hal
          simp only [ne_eq, Classical.not_not] at hlen hmode
          split
          · exact RunOk.fail hg _ (fun _ h => h) _ (by simp) _ _
          · rename_i clear hclear
            have hbytes : bytes.toNat = sk.header.size.toNat := by rw [hlen]; rfl
            have hout : CipherOutputs p u .more o sk none (readAt mem inA bytes.toNat) clear ∧ clear.length ≤ bytes.toNat := by
              unfold CipherOutputs
              simp only
              by_cases h1 : o.alg = CIPHER_RSA_PKCS1V15
              · rw [if_pos h1] at hclear ⊢
                refine ⟨hclear, ?_⟩
                have := hu.rsaPkcs1Len _ _ _ hclear
                rw [readAt_length] at this; exact this
              · rw [if_neg h1] at hclear ⊢
                rw [if_pos (by rcases halg with h | h; exact absurd h h1; exact h)]
                cases ho : o.oaep with
                | none =>
                  rw [ho] at hclear
                  refine ⟨hclear, ?_⟩
                  have := hu.rsaOaepLen _ _ _ _ _ _ hclear
                  rw [readAt_length] at this; exact this
                | some q =>
                  obtain ⟨d, m, l⟩ := q
                  rw [ho] at hclear
                  refine ⟨hclear, ?_⟩
                  have := hu.rsaOaepLen _ _ _ _ _ _ hclear
                  rw [readAt_length] at this; exact this
            refine ⟨by simp, clear, rfl, by omega, fun _ => ⟨rfl, ?_, fun _ => hout.1⟩⟩
            unfold modeAllowed
            rw [if_neg (by rw [hmode]; decide)]
            simpa using hal

theorem ecDecryptElgamal_ok (u : UnwrapPrims) (n : Nat) (sk : StoredKey) (input clear : Bytes) (h : ecDecryptElgamal u n sk input = (.OK, clear)) :
    clear.length = sk.header.size.toNat ∧ ∃ point, u.elgamal sk.key (curveOf sk.header.typeParameters) input = some point ∧
      clear = point.take sk.header.size.toNat := by
  unfold ecDecryptElgamal at h
  simp only at h
  have hf : (if isPCurve (curveOf sk.header.typeParameters) = true then Status.INTERNAL_ERROR else .OPERATION_NOT_ALLOWED) ≠ .OK := by
    split <;> simp
  split at h
  · simp only [Prod.mk.injEq] at h; exact absurd h.1 hf
  · split at h
    · simp only [Prod.mk.injEq] at h; exact absurd h.1 hf
    · split at h
      · simp only [Prod.mk.injEq] at h; exact absurd h.1 hf
      · split at h
        · simp only [Prod.mk.injEq] at h; exact absurd h.1 hf
        · rename_i point hp hl
          simp only [Prod.mk.injEq, true_and] at h
          refine ⟨?_, point, hp, h.symm⟩
          rw [← h, List.length_take]; omega

theorem processElgamal_ok {p : CipherPrim σ} {view : σ → CipherView} (u : UnwrapPrims) (env : RightsEnv) (o : CipherObj)
    (sk : StoredKey) (hg : GoodCtx view o sk none) (halg : o.alg = CIPHER_EC_ELGAMAL) (mem : Mem) (outA inA : Nat) (bytes : UInt64) :
    RunOk p view u .more env o sk none mem outA inA bytes sk.header.size.toNat (processElgamal u env o sk mem outA inA bytes) := by
  unfold processElgamal
  simp only
  split
  · exact RunOk.fail hg _ (fun _ h => h) _ (by simp) _ _
  · split
    · exact RunOk.fail hg _ (fun _ h => h) _ (by simp) _ _
    · split
      · exact RunOk.fail hg _ (fun _ h => h) _ (by simp) _ _
      · rename_i hmode
        split
        · exact RunOk.fail hg _ (fun _ h => h) _ (by simp) _ _
        · rename_i hal
          split
          · rename_i clear hclear
            obtain ⟨h1, h2⟩ := ecDecryptElgamal_ok u _ sk _ clear hclear
            refine ⟨by simp, clear, rfl, by omega, fun _ => ⟨rfl, ?_, fun _ => ?_⟩⟩
            · simp only [ne_eq, Classical.not_not] at hmode
              unfold modeAllowed
              rw [if_neg (by rw [hmode]; decide)]
              simpa using hal
            · unfold CipherOutputs
              simp only
              rw [if_neg (by rw [halg]; decide), if_neg (by rw [halg]; decide)]
              exact h2
          · exact RunOk.fail hg _ (fun _ h => h) _ (by simp) _ _

theorem lastPkcs7_ok {p : CipherPrim σ} {view : σ → CipherView} (hp : p.Good view) (u : UnwrapPrims) (env : RightsEnv) (o : CipherObj)
    (sk : StoredKey) (ctx : Option (SymCtx σ)) (hg : GoodCtx view o sk ctx) (halg : isPkcs7Alg o.alg = true) (tag : Option (Option Bytes)) (mem : Mem)
    (outA inA : Nat) (required bytes : UInt64) :
    RunOk p view u (.last tag) env o sk ctx mem outA inA bytes (16 * (bytes.toNat / 16 + 1)) (lastPkcs7 p env o sk ctx mem outA inA required bytes) := by
  unfold lastPkcs7
  split
  · exact RunOk.fail hg _ (fun _ h => h) _ (by simp) _ _
  · cases ctx with
    | none => exact RunOk.fail hg _ (fun _ h => h) _ (by simp) _ _
    | some c =>
      simp only
      split
      · exact RunOk.fail hg _ (fun _ h => h) _ (by simp) _ _
      · rename_i hmod
        split
        · exact RunOk.fail hg _ (fun _ h => h) _ (by simp) _ _
        · rename_i hal
          obtain ⟨g1, g2, g3, _⟩ := hg.sym c rfl
          have hb : isPkcs7Alg c.alg = true → c.mode ≠ MODE_ENCRYPT → bytes.toNat % 16 = 0 := by
            intro _ hm
            apply Classical.byContradiction
            intro hc
            exact hmod ⟨by rw [← g2]; exact hm, fun h => hc ((u64_mod16 bytes).mp h)⟩
          obtain ⟨a1, a2, a3, a4, a5⟩ := symContextLast_spec hp o.mode c g3 (Or.inr (by rw [g1]; exact halg)) mem outA inA required bytes hb
          split
          · rename_i hst
            obtain ⟨ob, b1, b2⟩ := a4 hst
            refine ⟨?_, ob, b1, by omega, fun h => absurd h hst⟩
            intro c' hc' _
            simp only [Option.some.injEq] at hc'
            rw [← hc']; exact hg.with a1 a2 a3
          · rename_i hst
            simp only [ne_eq, Classical.not_not] at hst
            obtain ⟨x, y, b1, b2, b3, b4, _, b5⟩ := a5 hst
            refine ⟨?_, x ++ y, b3, ?_, ?_⟩
            · intro c' hc' _
              simp only [Option.some.injEq] at hc'
              rw [← hc']; exact hg.with a1 a2 a3
            · have := b5 (by rw [g1]; exact halg); omega
            · intro _
              refine ⟨b4, by simpa using hal, ?_⟩
              intro hlt
              rw [mod_small _ hlt] at b1 b2
              refine ⟨c.evp, x, y, ?_, b1, b2, rfl⟩
              rw [if_neg]
              rintro ⟨h, _⟩
              unfold isPkcs7Alg CIPHER_AES_ECB_PKCS7 CIPHER_AES_CBC_PKCS7 at halg
              unfold isAead CIPHER_AES_GCM CIPHER_CHACHA20_POLY1305 at h
              simp only [Bool.or_eq_true, beq_iff_eq] at halg h
              omega

/-- The last chunk of the ciphers that do not pad. -/
theorem lastPlain_ok {p : CipherPrim σ} {view : σ → CipherView} (hp : p.Good view) (o : CipherObj) (sk : StoredKey) (c : SymCtx σ)
    (hg : GoodCtx view o sk (some c)) (halg : isStreamAlg o.alg = true) (e : σ) (he : view e = view c.evp) (mode : Nat) (mem : Mem) (outA inA : Nat) (bytes : UInt64) :
    let r := symContextLast p mode { c with evp := e } mem outA inA bytes bytes
    GoodCtx view o sk (some r.ctx) ∧ (r.status ≠ .OK → ∃ ob : Bytes, r.mem = writeAt mem outA ob ∧ ob.length ≤ bytes.toNat) ∧
    (r.status = .OK → ∃ x y, (p.update e (readAt mem inA (bytes.toNat % 2 ^ 32))).2 = some x ∧
      (p.final (p.update e (readAt mem inA (bytes.toNat % 2 ^ 32))).1).2 = some y ∧ r.mem = writeAt mem outA (x ++ y) ∧
      r.outLength = UInt64.ofNat (x ++ y).length ∧ (x ++ y).length ≤ bytes.toNat) := by
  intro r
  obtain ⟨g1, g2, g3, _⟩ := hg.sym c rfl
  have g3' : GoodSym view { c with evp := e } := ⟨by show (view e).alg = _; rw [he]; exact g3.alg, by show (view e).mode = _; rw [he]; exact g3.mode,
    by show HeldOk _ _ (view e).held; rw [he]; exact g3.held⟩
  have hnp : isPkcs7Alg c.alg = false := by
    cases hk : isPkcs7Alg c.alg with
    | false => rfl
    | true => have := pkcs7_not_stream c.alg hk; rw [g1, halg] at this; simp at this
  obtain ⟨a1, a2, a3, a4, a5⟩ := symContextLast_spec hp mode { c with evp := e } g3' (Or.inl (by show isStreamAlg c.alg = true; rw [g1]; exact halg)) mem outA inA bytes bytes
    (by intro h; change isPkcs7Alg c.alg = true at h; rw [hnp] at h; simp at h)
  refine ⟨hg.with a1 a2 a3, ?_, ?_⟩
  · intro hs
    obtain ⟨ob, b1, b2⟩ := a4 hs
    exact ⟨ob, b1, by omega⟩
  · intro hs
    obtain ⟨x, y, b1, b2, b3, b4, b5, _⟩ := a5 hs
    obtain ⟨b6, b7⟩ := b5 hnp
    refine ⟨x, y, b1, b2, b3, b4, ?_⟩
    rw [b6, List.append_nil]; omega

theorem lastStream_ok {p : CipherPrim σ} {view : σ → CipherView} (hp : p.Good view) (u : UnwrapPrims) (env : RightsEnv) (o : CipherObj)
    (sk : StoredKey) (ctx : Option (SymCtx σ)) (hg : GoodCtx view o sk ctx) (halg : o.alg = CIPHER_AES_CTR ∨ o.alg = CIPHER_CHACHA20)
    (tag : Option (Option Bytes)) (mem : Mem) (outA inA : Nat) (bytes : UInt64) :
    RunOk p view u (.last tag) env o sk ctx mem outA inA bytes bytes.toNat (lastStream p env o sk ctx mem outA inA bytes) := by
  have hstream : isStreamAlg o.alg = true := by rcases halg with h | h <;> rw [h] <;> decide
  have hna : isAead o.alg = false := by rcases halg with h | h <;> rw [h] <;> decide
  unfold lastStream
  cases ctx with
  | none => exact RunOk.fail hg _ (fun _ h => h) _ (by simp) _ _
  | some c =>
    simp only
    split
    · exact RunOk.fail hg _ (fun _ h => h) _ (by simp) _ _
    · rename_i hal
      obtain ⟨a1, a2, a3⟩ := lastPlain_ok hp o sk c hg hstream c.evp rfl o.mode mem outA inA bytes
      split
      · rename_i hst
        obtain ⟨ob, b1, b2⟩ := a2 hst
        refine ⟨?_, ob, b1, b2, fun h => absurd h hst⟩
        intro c' hc' _
        simp only [Option.some.injEq] at hc'
        rw [← hc']; exact a1
      · rename_i hst
        simp only [ne_eq, Classical.not_not] at hst
        obtain ⟨x, y, b1, b2, b3, b4, b5⟩ := a3 hst
        refine ⟨?_, x ++ y, b3, b5, ?_⟩
        · intro c' hc' _
          simp only [Option.some.injEq] at hc'
          rw [← hc']; exact a1
        · intro _
          refine ⟨b4, by simpa using hal, ?_⟩
          intro hlt
          rw [mod_small _ hlt] at b1 b2
          refine ⟨c.evp, x, y, ?_, b1, b2, rfl⟩
          rw [if_neg (by rw [hna]; simp)]

theorem lastAead_ok {p : CipherPrim σ} {view : σ → CipherView} (hp : p.Good view) (u : UnwrapPrims) (env : RightsEnv) (o : CipherObj)
    (sk : StoredKey) (ctx : Option (SymCtx σ)) (hg : GoodCtx view o sk ctx) (halg : o.alg = CIPHER_AES_GCM ∨ o.alg = CIPHER_CHACHA20_POLY1305)
    (tag : Option (Option Bytes)) (mem : Mem) (outA inA : Nat) (bytes : UInt64) :
    RunOk p view u (.last tag) env o sk ctx mem outA inA bytes bytes.toNat (lastAead p env o sk ctx mem outA inA bytes tag) := by
  have hstream : isStreamAlg o.alg = true := by rcases halg with h | h <;> rw [h] <;> decide
  have hna : isAead o.alg = true := by rcases halg with h | h <;> rw [h] <;> decide
  unfold lastAead
  simp only
  split
  · exact RunOk.fail hg _ (fun _ h => h) _ (by simp) _ _
  · cases ctx with
    | none => exact RunOk.fail hg _ (fun _ h => h) _ (by simp) _ _
    | some c =>
      simp only
      split
      · exact RunOk.fail hg _ (fun _ h => h) _ (by simp) _ _
      · exact RunOk.fail hg _ (fun _ h => h) _ (by simp) _ _
      · rename_i tg
        by_cases htl : (if o.alg = CIPHER_AES_GCM then tg.length > 16 else tg.length ≠ 16)
        · rw [if_pos htl]
          exact RunOk.fail hg _ (fun _ h => h) _ (by simp) _ _
        · rw [if_neg htl]
          split
          · exact RunOk.fail hg _ (fun _ h => h) _ (by simp) _ _
          · rename_i hal
            split
            · rename_i hm
              obtain ⟨a1, a2, a3⟩ := lastPlain_ok hp o sk c hg hstream c.evp rfl MODE_ENCRYPT mem outA inA bytes
              split
              · rename_i hst
                obtain ⟨ob, b1, b2⟩ := a2 hst
                refine ⟨?_, ob, b1, b2, fun h => absurd h hst⟩
                intro c' hc' _
                simp only [Option.some.injEq] at hc'
                rw [← hc']; exact a1
              · rename_i hst
                simp only [ne_eq, Classical.not_not] at hst
                obtain ⟨x, y, b1, b2, b3, b4, b5⟩ := a3 hst
                split
                · refine ⟨?_, x ++ y, b3, b5, ?_⟩
                  · intro c' hc' _
                    simp only [Option.some.injEq] at hc'
                    rw [← hc']; exact a1
                  · intro _
                    refine ⟨b4, by simpa using hal, ?_⟩
                    intro hlt
                    rw [mod_small _ hlt] at b1 b2
                    refine ⟨c.evp, x, y, ?_, b1, b2, rfl⟩
                    rw [if_neg (by simp [hm])]
                · rename_i s' t' hns _
                  refine ⟨?_, x ++ y, b3, b5, ?_⟩
                  · intro c' hc' _
                    simp only [Option.some.injEq] at hc'
                    rw [← hc']; exact a1
                  · intro h; exact absurd h (by intro h2; simp only at h2; simp_all)
            · rename_i hm
              split
              · exact RunOk.fail hg _ (fun _ h => h) _ (by simp) _ _
              · rename_i e he
                obtain ⟨a1, a2, a3⟩ := lastPlain_ok hp o sk c hg hstream e (hp.setTag _ _ _ he) MODE_DECRYPT mem outA inA bytes
                split
                · rename_i hst
                  obtain ⟨ob, b1, b2⟩ := a2 hst
                  refine ⟨?_, ob, b1, b2, fun h => absurd h hst⟩
                  intro c' hc' _
                  simp only [Option.some.injEq] at hc'
                  rw [← hc']; exact a1
                · rename_i hst
                  simp only [ne_eq, Classical.not_not] at hst
                  obtain ⟨x, y, b1, b2, b3, b4, b5⟩ := a3 hst
                  refine ⟨?_, x ++ y, b3, b5, ?_⟩
                  · intro c' hc' _
                    simp only [Option.some.injEq] at hc'
                    rw [← hc']; exact a1
                  · intro _
                    refine ⟨b4, by simpa using hal, ?_⟩
                    intro hlt
                    rw [mod_small _ hlt] at b1 b2
                    refine ⟨e, x, y, ?_, b1, b2, rfl⟩
                    rw [if_pos ⟨hna, hm⟩]
                    exact ⟨tg, rfl, he⟩

/-- The algorithms. -/
theorem known_alg (o : CipherObj) (h : ∃ q : InitParams, q.alg = some o.alg) : o.alg ≤ 10 := by
  obtain ⟨q, hq⟩ := h
  cases q <;> simp only [InitParams.alg, Option.some.injEq] at hq <;>
    first
      | (rw [← hq]; decide)
      | (rename_i b; cases b <;> simp only [Bool.false_eq_true, if_false, if_true] at hq <;> rw [← hq] <;> decide)
      | (rename_i b _; cases b <;> simp only [Bool.false_eq_true, if_false, if_true] at hq <;> rw [← hq] <;> decide)
      | simp at hq

theorem RunOk.mono {p : CipherPrim σ} {view : σ → CipherView} {u : UnwrapPrims} {k : ProcKind} {env : RightsEnv} {o : CipherObj} {sk : StoredKey}
    {ctx : Option (SymCtx σ)} {mem : Mem} {outA inA : Nat} {bytes : UInt64} {limit limit' : Nat} {r : AlgResult σ}
    (h : RunOk p view u k env o sk ctx mem outA inA bytes limit r) (hl : limit ≤ limit') : RunOk p view u k env o sk ctx mem outA inA bytes limit' r := by
  obtain ⟨ob, h1, h2, h3⟩ := h.out
  exact ⟨h.good, ob, h1, by omega, h3⟩

/-- The two calls: what they leave, whatever `required` is passed on; and at most as much is written as was validated. -/
theorem run_ok {p : CipherPrim σ} {view : σ → CipherView} (hp : p.Good view) (u : UnwrapPrims) (hu : u.Good) (k : ProcKind) (env : RightsEnv)
    (o : CipherObj) (sk : StoredKey) (ctx : Option (SymCtx σ)) (hg : GoodCtx view o sk ctx) (mem : Mem) (outA inA : Nat) (required bytes : UInt64) :
    RunOk p view u k env o sk ctx mem outA inA bytes (k.required o sk bytes false).toNat (k.run p u env o sk ctx mem outA inA required bytes) := by
  have hk := known_alg o hg.known
  cases k with
  | more =>
    unfold ProcKind.run ProcKind.required processAlgorithm
    simp only
    cases ctx with
    | none =>
      have hsz : sk.header.size.toUInt64.toNat = sk.header.size.toNat := rfl
      rcases hg.asym rfl with h | h | h
      · rw [if_neg (by rw [h]; decide), if_pos (Or.inl h)]
        have hreq : processRequired o.alg sk.header.size.toUInt64 bytes (false && o.mode == MODE_ENCRYPT) = sk.header.size.toUInt64 := by
          unfold processRequired; rw [if_neg (by rw [h]; decide), if_neg (by rw [h]; decide), if_pos (by rw [h]; decide)]
        rw [hreq, hsz]
        exact processRsa_ok u hu env o sk hg (Or.inl h) mem outA inA bytes
      · rw [if_neg (by rw [h]; decide), if_pos (Or.inr h)]
        have hreq : processRequired o.alg sk.header.size.toUInt64 bytes (false && o.mode == MODE_ENCRYPT) = sk.header.size.toUInt64 := by
          unfold processRequired; rw [if_neg (by rw [h]; decide), if_neg (by rw [h]; decide), if_pos (by rw [h]; decide)]
        rw [hreq, hsz]
        exact processRsa_ok u hu env o sk hg (Or.inr h) mem outA inA bytes
      · rw [if_neg (by rw [h]; decide), if_neg (by rw [h]; decide), if_pos h]
        have hreq : processRequired o.alg sk.header.size.toUInt64 bytes (false && o.mode == MODE_ENCRYPT) = sk.header.size.toUInt64 := by
          unfold processRequired; rw [if_neg (by rw [h]; decide), if_neg (by rw [h]; decide), if_pos (by rw [h]; decide)]
        rw [hreq, hsz]
        exact processElgamal_ok u env o sk hg h mem outA inA bytes
    | some c =>
      obtain ⟨_, _, _, n1, n2, n3⟩ := hg.sym c rfl
      have hall : (isStreamAlg o.alg || isPkcs7Alg o.alg || o.alg == CIPHER_AES_ECB || o.alg == CIPHER_AES_CBC) = true ∧
          processRequired o.alg sk.header.size.toUInt64 bytes (false && o.mode == MODE_ENCRYPT) = bytes := by
        unfold processRequired
        simp only [Bool.false_and, Bool.false_eq_true, if_false, UInt64.add_zero]
        generalize o.alg = a at *
        unfold CIPHER_RSA_PKCS1V15 at n1 ⊢
        unfold CIPHER_RSA_OAEP at n2 ⊢
        unfold CIPHER_EC_ELGAMAL at n3 ⊢
        have : a = 0 ∨ a = 1 ∨ a = 2 ∨ a = 3 ∨ a = 4 ∨ a = 5 ∨ a = 9 ∨ a = 10 := by omega
        rcases this with h | h | h | h | h | h | h | h <;> subst h <;> exact ⟨by decide, rfl⟩
      rw [hall.2, if_pos hall.1]
      exact processSymmetric_ok hp u env o sk _ hg mem outA inA bytes
  | last tag =>
    unfold ProcKind.run ProcKind.required lastAlgorithm lastRequired
    simp only
    by_cases h1 : isPkcs7Alg o.alg = true
    · rw [if_pos h1, if_pos h1]
      by_cases hb : bytes > 16
      · unfold lastPkcs7
        rw [if_pos hb]
        exact RunOk.fail hg _ (fun _ h => h) _ (by simp) _ _
      · refine (lastPkcs7_ok hp u env o sk ctx hg h1 tag mem outA inA required bytes).mono ?_
        have hb' : ¬ (16 : UInt64).toNat < bytes.toNat := mt UInt64.lt_iff_toNat_lt.mpr hb
        have h16 : (16 : UInt64).toNat = 16 := rfl
        have h1' : (1 : UInt64).toNat = 1 := rfl
        rw [UInt64.toNat_mul, UInt64.toNat_add, UInt64.toNat_div]
        rw [h16] at hb' ⊢
        rw [h1']
        omega
    · rw [if_neg h1, if_neg h1]
      by_cases h2 : o.alg = CIPHER_AES_CTR ∨ o.alg = CIPHER_CHACHA20
      · rw [if_pos h2, if_pos (by rcases h2 with h | h <;> rw [h] <;> decide)]
        exact lastStream_ok hp u env o sk ctx hg h2 tag mem outA inA bytes
      · rw [if_neg h2]
        by_cases h3 : o.alg = CIPHER_AES_GCM ∨ o.alg = CIPHER_CHACHA20_POLY1305
        · rw [if_pos h3, if_pos (by rcases h3 with h | h <;> rw [h] <;> decide)]
          exact lastAead_ok hp u env o sk ctx hg h3 tag mem outA inA bytes
        · rw [if_neg h3]
          exact RunOk.fail hg _ (fun _ h => h) _ (by simp) _ _

/-- `GoodCtx` holds of every context of a reachable store.  (The assumption on the RSA and EC primitives is not needed here.) -/
theorem goodCtx_run {p : CipherPrim σ} {view : σ → CipherView} (hp : p.Good view) (k : ProcKind) (u : UnwrapPrims) (env : RightsEnv) (o : CipherObj)
    (sk : StoredKey) (ctx : Option (SymCtx σ)) (mem : Mem) (outA inA : Nat) (required bytes : UInt64) (hg : GoodCtx view o sk ctx) (c : SymCtx σ)
    (hc : (k.run p u env o sk ctx mem outA inA required bytes).ctx = some c) (hs : ctx.isSome) : GoodCtx view o sk (some c) := by
  obtain ⟨c0, rfl⟩ := Option.isSome_iff_exists.mp hs
  obtain ⟨_, _, _, n1, n2, n3⟩ := hg.sym c0 rfl
  cases k with
  | more =>
    unfold ProcKind.run processAlgorithm at hc
    simp only at hc
    split at hc
    · exact (processSymmetric_ok hp u env o sk _ hg mem outA inA bytes).good c hc hs
    · rw [if_neg (by rintro (h | h); exact n1 h; exact n2 h)] at hc
      simp at hc
  | last tag =>
    unfold ProcKind.run lastAlgorithm at hc
    simp only at hc
    split at hc
    · rename_i h; exact (lastPkcs7_ok hp u env o sk _ hg h tag mem outA inA required bytes).good c hc hs
    · split at hc
      · rename_i h; exact (lastStream_ok hp u env o sk _ hg h tag mem outA inA bytes).good c hc hs
      · split at hc
        · rename_i h; exact (lastAead_ok hp u env o sk _ hg h tag mem outA inA bytes).good c hc hs
        · simp only [Option.some.injEq] at hc; rw [← hc]; exact hg

theorem goodCtx_stable {p : CipherPrim σ} {view : σ → CipherView} (hp : p.Good view) : CtxStable p (GoodCtx view) where
  init := by
    intro o sk ctx h1 h2 h3 h4 h5
    cases hs : o.sym with
    | none =>
      have := h4 hs
      subst this
      refine ⟨h2, h3, ?_, by simp⟩
      intro _
      apply Classical.byContradiction
      intro hc
      rw [hs] at h1
      have := h1.mpr ⟨fun h => hc (Or.inl h), fun h => hc (Or.inr (Or.inl h)), fun h => hc (Or.inr (Or.inr h))⟩
      simp at this
    | some sp =>
      have hsome : o.sym.isSome := by rw [hs]; rfl
      obtain ⟨evp, prm, e1, e2⟩ := h5 hsome
      subst e1
      refine ⟨h2, h3, by simp, ?_⟩
      intro c hc
      simp only [Option.some.injEq] at hc
      subst hc
      have hv := hp.create _ _ _ _ _ e2
      refine ⟨rfl, rfl, ⟨by show (view evp).alg = _; rw [hv], by show (view evp).mode = _; rw [hv], ?_⟩, h1.mp hsome⟩
      show HeldOk o.alg o.mode (view evp).held
      rw [hv]
      unfold HeldOk
      simp
  run := by
    intro k u env o sk ctx mem outA inA required bytes hg c hc hs
    exact goodCtx_run hp k u env o sk ctx mem outA inA required bytes hg c hc hs
  setIv := by
    intro o sk c e iv hg he
    obtain ⟨g1, g2, g3, _⟩ := hg.sym c rfl
    have hv := hp.setIv _ _ _ he
    refine hg.with rfl rfl ⟨by show (view e).alg = _; rw [hv]; exact g3.alg, by show (view e).mode = _; rw [hv]; exact g3.mode, ?_⟩
    show HeldOk c.alg c.mode (view e).held
    rw [hv]
    unfold HeldOk
    simp

end Sa

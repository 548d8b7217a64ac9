import Verif.Lemmas.WholeCenc
import Verif.Props.C25

/-!
# What common encryption writes, with contexts of a library

The library is described by `DecLib`; `SimOps` carries the theorems of C25 over to it.
-/

namespace Sa

open CencSpec C23

variable {σ : Type}

/-! ## The IV of a sample -/

theorem digits8 (b0 b1 b2 b3 b4 b5 b6 b7 : UInt8) :
    ((List.range 8).map fun i => UInt8.ofNat ((UInt64.ofNat ([b0, b1, b2, b3, b4, b5, b6, b7].foldl (fun a (x : UInt8) => a * 256 + x.toNat) 0)).toNat / 256 ^ (7 - i))) =
      [b0, b1, b2, b3, b4, b5, b6, b7] := by
  have h0 := b0.toNat_lt; have h1 := b1.toNat_lt; have h2 := b2.toNat_lt; have h3 := b3.toNat_lt
  have h4 := b4.toNat_lt; have h5 := b5.toNat_lt; have h6 := b6.toNat_lt; have h7 := b7.toNat_lt
  simp only [List.foldl_cons, List.foldl_nil, UInt64.toNat_ofNat', List.range, List.range.loop, List.map_cons, List.map_nil, List.cons.injEq, and_true,
    ← UInt8.toNat_inj, UInt8.toNat_ofNat']
  simp only [Nat.zero_mul, Nat.zero_add, Nat.sub_zero, Nat.reduceSub, Nat.reducePow, Nat.pow_zero, Nat.div_one] at *
  refine ⟨?_, ?_, ?_, ?_, ?_, ?_, ?_, ?_⟩ <;> omega

theorem ivOfBytes_bytes (iv : Bytes) (h : iv.length = 16) : (ivOfBytes iv).bytes = iv := by
  match iv, h with
  | [a0, a1, a2, a3, a4, a5, a6, a7, b0, b1, b2, b3, b4, b5, b6, b7], _ =>
    have e1 := digits8 a0 a1 a2 a3 a4 a5 a6 a7
    have e2 := digits8 b0 b1 b2 b3 b4 b5 b6 b7
    simp only [Iv.bytes, ivOfBytes, List.take, List.drop]
    rw [e1, e2]; rfl

/-! ## The library -/

/-- The last 16 bytes. -/
def endBlock (b : Bytes) : Bytes := b.drop (b.length - 16)

/-- From state `x` of the library's context the IV `v` was set, and `m` was then processed, in multiples of `blk` bytes. -/
inductive Since (p : CipherPrim σ) (blk : Nat) (x : σ) (v : Iv) : Bytes → σ → Prop where
  | iv {x'} : p.setIv x v.bytes = some x' → Since p blk x v [] x'
  | more {m x' b x'' o} : Since p blk x v m x' → b.length % blk = 0 → p.update x' b = (x'', some o) → Since p blk x v (m ++ b) x''

/-- `x` is a state of a context of the library made for decryption with this algorithm and key. -/
def Reaches (p : CipherPrim σ) (alg : Nat) (key : Bytes) (x : σ) : Prop := ∃ sp e, p.create alg MODE_DECRYPT key sp = some e ∧ LibSteps p e x

/-- Assumption about the library (AES in OpenSSL): in whatever state a context for CTR or CBC is, its IV can be set; after that it decrypts in CTR mode with a 128 bit counter, or whole blocks in
CBC mode.  `E key v j` is byte `j` of the encryption of block `v` with `key`, `dec key` the decryption of a block. -/
structure DecLib (p : CipherPrim σ) (E : Bytes → Nat → Nat → UInt8) (dec : Bytes → Bytes → Bytes) : Prop where
  setIv : ∀ alg key x (v : Iv), alg = CIPHER_AES_CTR ∨ alg = CIPHER_AES_CBC → Reaches p alg key x → ∃ x', p.setIv x v.bytes = some x'
  ctr : ∀ key x v m x' b, Reaches p CIPHER_AES_CTR key x → Since p 1 x v m x' → ∃ x'', p.update x' b =
    (x'', some (b.mapIdx fun i c => c ^^^ E key ((v.hi.toNat * 2 ^ 64 + v.lo.toNat + (m.length + i) / 16) % 2 ^ 128) ((m.length + i) % 16)))
  cbc : ∀ key x v m x' b, Reaches p CIPHER_AES_CBC key x → Since p 16 x v m x' → b.length % 16 = 0 → ∃ x'', p.update x' b =
    (x'', some (cbcDec (dec key) (b.length / 16) (endBlock (v.bytes ++ m)) b))
  block : ∀ key b, b.length = 16 → (dec key b).length = 16

theorem Reaches.moves {p : CipherPrim σ} {alg : Nat} {key : Bytes} {x x' : σ} (h : Reaches p alg key x) (hm : Moves p (some x) (some x')) : Reaches p alg key x' := by
  obtain ⟨sp, e, h1, h2⟩ := h
  exact ⟨sp, e, h1, Moves.trans (p := p) (x := some e) (y := some x) (z := some x') h2 hm⟩

theorem Since.moves {p : CipherPrim σ} {blk : Nat} {x x' : σ} {v : Iv} {m : Bytes} (h : Since p blk x v m x') : Moves p (some x) (some x') := by
  induction h with
  | iv h => exact LibSteps.setIv (.refl _) h
  | @more m x' b x'' o _ _ h2 ih =>
    have := LibSteps.update (p := p) b ih
    rw [h2] at this
    exact this

/-- A context in CTR mode. -/
def RCtr (p : CipherPrim σ) (key : Bytes) (x : Option (SymCtx σ)) (c : CtrState) : Prop :=
  ∃ k x0 v m, x = some k ∧ Reaches p CIPHER_AES_CTR key x0 ∧ Since p 1 x0 v m k.evp ∧ c = ⟨v.hi.toNat * 2 ^ 64 + v.lo.toNat, m.length⟩

/-- A context in CBC mode. -/
def RCbc (p : CipherPrim σ) (key : Bytes) (x : Option (SymCtx σ)) (c : Bytes) : Prop :=
  ∃ k x0 v m, x = some k ∧ Reaches p CIPHER_AES_CBC key x0 ∧ Since p 16 x0 v m k.evp ∧ c = endBlock (v.bytes ++ m)

theorem ctr_start {p : CipherPrim σ} {E : Bytes → Nat → Nat → UInt8} {dec : Bytes → Bytes → Bytes} (hl : DecLib p E dec) {key : Bytes} {k : SymCtx σ} (h : Reaches p CIPHER_AES_CTR key k.evp)
    (v : Iv) : ∃ x', (cencOps p).setIv (some k) v = some x' ∧ RCtr p key x' ⟨v.hi.toNat * 2 ^ 64 + v.lo.toNat, 0⟩ := by
  obtain ⟨x', hx⟩ := hl.setIv _ key _ v (.inl rfl) h
  exact ⟨some { k with evp := x' }, by simp [cencOps, hx], { k with evp := x' }, k.evp, v, [], rfl, h, .iv hx, rfl⟩

theorem cbc_start {p : CipherPrim σ} {E : Bytes → Nat → Nat → UInt8} {dec : Bytes → Bytes → Bytes} (hl : DecLib p E dec) {key : Bytes} {k : SymCtx σ} (h : Reaches p CIPHER_AES_CBC key k.evp)
    (v : Iv) : ∃ x', (cencOps p).setIv (some k) v = some x' ∧ RCbc p key x' v.bytes := by
  obtain ⟨x', hx⟩ := hl.setIv _ key _ v (.inr rfl) h
  refine ⟨some { k with evp := x' }, by simp [cencOps, hx], { k with evp := x' }, k.evp, v, [], rfl, h, .iv hx, ?_⟩
  simp [endBlock, C25.iv_bytes_length]

theorem ctr_sim {p : CipherPrim σ} {E : Bytes → Nat → Nat → UInt8} {dec : Bytes → Bytes → Bytes} (hl : DecLib p E dec) (key : Bytes) : SimOps (cencOps p) (ctrOps (E key)) true (RCtr p key) where
  decrypt := by
    rintro x y b ⟨k, x0, v, m, rfl, h1, h2, rfl⟩ _
    obtain ⟨x'', hu⟩ := hl.ctr key x0 v m k.evp b h1 h2
    simp only [cencOps, hu]
    refine ⟨⟨{ k with evp := x'' }, x0, v, m ++ b, rfl, h1, .more h2 (Nat.mod_one _) hu, ?_⟩, rfl⟩
    simp
  setIv := by
    rintro x y v ⟨k, x0, v0, m, rfl, h1, h2, rfl⟩
    obtain ⟨x', e, hr⟩ := ctr_start hl (h1.moves h2.moves) v
    rw [e]; exact hr

theorem cbc_sim {p : CipherPrim σ} {E : Bytes → Nat → Nat → UInt8} {dec : Bytes → Bytes → Bytes} (hl : DecLib p E dec) (key : Bytes) :
    SimOps (cencOps p) (cbcOps (dec key)) false (RCbc p key) where
  decrypt := by
    rintro x y b ⟨k, x0, v, m, rfl, h1, h2, rfl⟩ hb
    have hb : b.length % 16 = 0 := by simpa using hb
    obtain ⟨x'', hu⟩ := hl.cbc key x0 v m k.evp b h1 h2 hb
    simp only [cencOps, cbcOps, hu]
    rw [if_neg (by simp [hb])]
    refine ⟨⟨{ k with evp := x'' }, x0, v, m ++ b, rfl, h1, .more h2 hb hu, ?_⟩, rfl⟩
    simp only
    split
    · rename_i he; subst he; simp
    · rename_i he
      have : 0 < b.length := List.length_pos_iff.mpr he
      unfold endBlock
      rw [← List.append_assoc, List.length_append, show (v.bytes ++ m).length + b.length - 16 = (v.bytes ++ m).length + (b.length - 16) from by omega, List.drop_append]
      simp
  setIv := by
    rintro x y v ⟨k, x0, v0, m, rfl, h1, h2, rfl⟩
    obtain ⟨x', e, hr⟩ := cbc_start hl (h1.moves h2.moves) v
    rw [e]; exact hr

/-! ## Samples -/

/-- What a sample becomes in common encryption: its bytes are `x`, its (clear, protected) lengths `subs`. -/
def decrypted (E : Bytes → Nat → Nat → UInt8) (dec : Bytes → Bytes → Bytes) (alg : Nat) (key iv : Bytes) (crypt skip : Nat) (subs : List (Nat × Nat)) (x : Bytes) : Bytes :=
  if alg = CIPHER_AES_CTR then
    merge (sampleMask true crypt skip subs) x (ctrPass (E key) (ivOfBytes iv).hi.toNat (ivOfBytes iv).lo.toNat (gather (sampleMask true crypt skip subs) x))
  else if crypt = 0 then merge (sampleMask false 0 0 subs) x (cbcPass (dec key) iv (gather (sampleMask false 0 0 subs) x))
  else C25.restarted (dec key) iv crypt skip subs x

theorem run_content {p : CipherPrim σ} {E : Bytes → Nat → Nat → UInt8} {dec : Bytes → Bytes → Bytes} (hl : DecLib p E dec) (alg : Nat) (halg : alg = CIPHER_AES_CTR ∨ alg = CIPHER_AES_CBC)
    (key iv : Bytes) (hiv : iv.length = 16) (k : SymCtx σ) (hk : Reaches p alg key k.evp) (q : SampleParams) (hq : q.ctr = (alg == CIPHER_AES_CTR)) (hv : q.iv = ivOfBytes iv)
    (subs : List Subsample) (m : Mem) (fuel : Nat) (hsize : size subs < 2 ^ 31) (hfuel : size subs < 16 * fuel) (hdis : Apart q.outA q.inA (size subs))
    (hpat : q.crypt.toNat < 2 ^ 60 ∧ q.skip.toNat < 2 ^ 60) (hz : ¬(q.crypt = 0 ∧ q.skip ≠ 0)) (hgood : alg = CIPHER_AES_CTR → q.crypt ≠ 0 ∨ GoodRanges q.iv.lo.toNat 0 subs) :
    ∃ s off, cencRun (cencOps p) q fuel subs m (some k) = some (s, off, .OK) ∧ off.toNat = size subs ∧
      s.mem = writeAt m q.outA (decrypted E dec alg key iv q.crypt.toNat q.skip.toNat (subs.map Subsample.nat) (readAt m q.inA (size subs))) := by
  rcases halg with rfl | rfl
  · obtain ⟨x', e, hr⟩ := ctr_start hl hk q.iv
    have hc : q.ctr = true := by rw [hq]; rfl
    have sim := sim_run_iv q (by rw [hc]; exact ctr_sim hl key) fuel subs m (some k) x' ⟨0, 0⟩ _ e rfl hr
    obtain ⟨s, off, g1, g2, g3, _⟩ := C25.C25_partial_ctr (E key) q subs m ⟨0, 0⟩ fuel hc hsize hfuel hdis hpat (hgood rfl)
    rw [g1] at sim
    cases hrun : cencRun (cencOps p) q fuel subs m (some k) with
    | none => rw [hrun] at sim; exact sim.elim
    | some t =>
      rw [hrun] at sim
      obtain ⟨s1, r1⟩ := t
      obtain ⟨sm, e2⟩ := sim
      simp only at e2
      subst e2
      refine ⟨s1, off, rfl, g2, ?_⟩
      rw [sm.mem, g3, decrypted, if_pos rfl, hv]
  · obtain ⟨x', e, hr⟩ := cbc_start hl hk q.iv
    have hc : q.ctr = false := by rw [hq]; rfl
    have sim := sim_run_iv q (by rw [hc]; exact cbc_sim hl key) fuel subs m (some k) x' [] _ e rfl hr
    have hb : q.iv.bytes = iv := by rw [hv]; exact ivOfBytes_bytes iv hiv
    have hp : C25.Produces q subs m (cencRun (cbcOps (dec key)) q fuel subs m [])
        (decrypted E dec CIPHER_AES_CBC key iv q.crypt.toNat q.skip.toNat (subs.map Subsample.nat) (readAt m q.inA (size subs))) := by
      rw [decrypted, if_neg (by decide), ← hb]
      by_cases h0 : q.crypt = 0
      · rw [if_pos (by rw [h0]; rfl)]
        have h1 : q.skip = 0 := Classical.byContradiction fun h => hz ⟨h0, h⟩
        exact C25.C25_partial_cbc (dec key) (hl.block key) q subs m [] fuel hc h0 h1 hsize hfuel hdis
      · rw [if_neg (show ¬q.crypt.toNat = 0 from fun h => h0 (UInt64.toNat_inj.mp h))]
        exact C25.C25_partial_pattern (dec key) (hl.block key) q subs m [] fuel hc h0 hpat hsize hfuel hdis
    obtain ⟨s, off, g1, g3, g2, _⟩ := hp.ok
    rw [g1] at sim
    cases hrun : cencRun (cencOps p) q fuel subs m (some k) with
    | none => rw [hrun] at sim; exact sim.elim
    | some t =>
      rw [hrun] at sim
      obtain ⟨s1, r1⟩ := t
      obtain ⟨sm, e2⟩ := sim
      simp only at e2
      subst e2
      exact ⟨s1, off, rfl, g2, by rw [sm.mem, g3]⟩

/-! ## What is verified -/

/-- What `verify_sample` requires of the context besides `Accepted`. -/
structure Permitted (env : RightsEnv) (w : CencWorld σ) (s : Sample) (c : CencCipher σ) : Prop where
  cipher : w.ciphers s.context = some c
  mode : c.decryptMode = true
  right : rightsAllowedDecrypt env c.rights true = true
  alg : c.algorithm = CIPHER_AES_CTR ∨ c.algorithm = CIPHER_AES_CBC
  clear : ∀ out input, s.out = some out → s.input = some input → (w.bufs out).isClear = true → (w.bufs input).isClear = true ∧ Flag c.rights.usageFlags FLAG_SVP_OPTIONAL
  pattern : ¬(s.crypt = 0 ∧ s.skip ≠ 0)

theorem verifySample_permits (env : RightsEnv) (w : CencWorld σ) (s : Sample) (u : Uuid) (h : (verifySample env w s u).2 = .OK) : ∃ c, Permitted env w s c := by
  unfold verifySample at h
  cases hiv : s.iv with
  | none => rw [hiv] at h; cases h
  | some iv =>
    rw [hiv] at h
    simp only at h
    split at h
    · cases h
    · cases hsub : s.subs with
      | none => rw [hsub] at h; cases h
      | some subs =>
        rw [hsub] at h
        simp only at h
        split at h
        · cases h
        · cases hout : s.out with
          | none => rw [hout] at h; cases h
          | some out =>
            cases hin : s.input with
            | none => rw [hout, hin] at h; cases h
            | some input =>
              rw [hout, hin] at h
              simp only at h
              split at h
              · cases h
              · rename_i hz
                cases hc : w.ciphers s.context with
                | none => rw [hc] at h; cases h
                | some c =>
                  rw [hc] at h
                  simp only at h
                  split at h
                  · cases h
                  · rename_i h1
                    split at h
                    · cases h
                    · rename_i h2
                      split at h
                      · cases h
                      · rename_i h3
                        split at h
                        · cases h
                        · rename_i h4
                          split at h
                          · cases h
                          · rename_i h5
                            refine ⟨c, hc, by simpa using h1, by simpa using h2, by omega, ?_, hz⟩
                            rintro _ _ rfl' rfl'' ho
                            rw [hout] at rfl'; rw [hin] at rfl''
                            cases rfl'; cases rfl''
                            refine ⟨Classical.byContradiction fun hn => h4 ⟨ho, hn⟩, ?_⟩
                            have hcl : rightsAllowedClear c.rights = true := by
                              cases hx : rightsAllowedClear c.rights with
                              | true => rfl
                              | false => exact absurd ⟨ho, by rw [hx]; rfl⟩ h5
                            unfold rightsAllowedClear at hcl
                            exact (bitTest_iff _ _ (by decide)).mp (by simpa using hcl)

theorem verifyAll_permits (env : RightsEnv) (w : CencWorld σ) (inv : SvpInv w.svp) (ss : List Sample) (u : Uuid) (h : (verifyAll env w u ss).2 = .OK) :
    ∀ s ∈ ss, ∃ c, Permitted env w s c := by
  induction ss with
  | nil => simp
  | cons s ss ih =>
    obtain ⟨v1, _⟩ := verifySample_spec env w inv s u
    unfold verifyAll at h
    simp only at h
    rw [v1] at h
    by_cases hc : (verifySample env w s u).2 = .OK
    · rw [if_neg (by simp [hc])] at h
      intro t ht
      rcases List.mem_cons.mp ht with rfl | ht
      · exact verifySample_permits env w t u hc
      · exact ih h t ht
    · rw [if_pos hc] at h; exact absurd h hc

/-! ## A sample and all samples -/

/-- The offsets of both buffers of a sample have advanced. -/
def advanced (bufs : Nat → SaBuffer) (out input : Nat) (n : UInt64) : Nat → SaBuffer := fun i => if i = out ∨ i = input then (bufs i).advance n else bufs i

theorem sample_content {p : CipherPrim σ} {E : Bytes → Nat → Nat → UInt8} {dec : Bytes → Bytes → Bytes} (hl : DecLib p E dec) (fuel : Nat) (w : CencWorld (Option (SymCtx σ)))
    (inv : SvpInv w.svp) (s : Sample) (u : Uuid) (out input : Nat) (subs : List Subsample) (a b : Nat) (h : Accepted w s u out input subs a b) (iv : Bytes) (hiv : iv.length = 16)
    (c : CencCipher (Option (SymCtx σ))) (hc : w.ciphers s.context = some c) (halg : c.algorithm = CIPHER_AES_CTR ∨ c.algorithm = CIPHER_AES_CBC) (key : Bytes) (k : SymCtx σ)
    (hk : c.ctx = some k) (hx : Reaches p c.algorithm key k.evp) (hsize : size subs < 2 ^ 31) (hfuel : size subs < 16 * fuel)
    (hpat : s.crypt.toNat < 2 ^ 60 ∧ s.skip.toNat < 2 ^ 60) (hz : ¬(s.crypt = 0 ∧ s.skip ≠ 0))
    (hgood : c.algorithm = CIPHER_AES_CTR → s.crypt ≠ 0 ∨ GoodRanges (ivOfBytes iv).lo.toNat 0 subs) :
    ∃ r n, cencProcessSample (cencOps p) fuel w s.context iv s.crypt s.skip subs out input u = some r ∧ r.status = .OK ∧ n.toNat = size subs ∧
      r.world.mem = writeAt w.mem a (decrypted E dec c.algorithm key iv s.crypt.toNat s.skip.toNat (subs.map Subsample.nat) (readAt w.mem b (size subs))) ∧
      r.world.bufs = advanced w.bufs out input n := by
  obtain ⟨hlen, _⟩ := cencRequiredLength_spec subs h.required
  unfold cencProcessSample
  rw [hc]
  simp only
  rw [if_neg h.required]
  have h1 := convertBuffer_spec w.svp inv (w.bufs out) (cencRequiredLength subs) u
  simp only at h1
  generalize convertBuffer w.svp (w.bufs out) (cencRequiredLength subs) u = c1 at h1 ⊢
  obtain ⟨i1, g1, b1, o1, e1⟩ := h1
  have hc1 : c1.status = .OK := e1 ⟨a, by rw [hlen]; exact h.locOut⟩
  rw [if_neg (by simp [hc1])]
  have h2 := convertBuffer_spec c1.store i1 (w.bufs input) (cencRequiredLength subs) u
  simp only at h2
  generalize convertBuffer c1.store (w.bufs input) (cencRequiredLength subs) u = c2 at h2 ⊢
  obtain ⟨i2, g2, b2, o2, e2⟩ := h2
  have hc2 : c2.status = .OK := e2 ⟨b, by rw [hlen, located_iff w.svp c1.store b1]; exact h.locIn⟩
  rw [if_neg (by simp [hc2])]
  have ha : c1.addr = a := by
    have := o1 hc1
    rw [hlen] at this
    exact located_unique _ _ _ _ _ _ this h.locOut
  have hb : c2.addr = b := by
    have := o2 hc2
    rw [hlen, located_iff w.svp c1.store b1] at this
    exact located_unique _ _ _ _ _ _ this h.locIn
  rw [ha, hb, hk]
  obtain ⟨s1, off, r1, r2, r3⟩ := run_content hl c.algorithm halg key iv hiv k hx
    { ctr := c.algorithm == CIPHER_AES_CTR, crypt := s.crypt, skip := s.skip, iv := ivOfBytes iv, outA := a, inA := b } rfl rfl subs w.mem fuel hsize hfuel h.apart hpat hz hgood
  rw [r1]
  refine ⟨_, off, rfl, rfl, r2, r3, ?_⟩
  have hne : out ≠ input := by
    rintro rfl
    have := located_unique _ _ _ _ _ _ h.locOut h.locIn
    have h3 := h.apart
    have h0 : cencRequiredLength subs ≠ 0 := h.required
    rw [← hlen] at h3
    have : (cencRequiredLength subs).toNat ≠ 0 := fun hn => h0 (UInt64.toNat_inj.mp hn)
    unfold Apart at h3
    omega
  funext i
  simp only [if_true, advanced]
  by_cases hi : i = out
  · subst hi; simp [hne]
  · by_cases hj : i = input
    · subst hj; simp [hi]
    · simp [hi, hj]

/-- The samples are decrypted one after the other, each with the key of its context (`K`), from where its input buffer is to where its output buffer is. -/
inductive Decrypts (E : Bytes → Nat → Nat → UInt8) (dec : Bytes → Bytes → Bytes) (svps : SvpStore) (u : Uuid) (K : Nat → Nat → Bytes → Prop) :
    List Sample → Mem → (Nat → SaBuffer) → Mem → (Nat → SaBuffer) → Prop where
  | nil {m bufs} : Decrypts E dec svps u K [] m bufs m bufs
  | cons {s ss m bufs m' bufs' iv subs out input a b alg key n} : s.iv = some iv → s.subs = some subs → s.out = some out → s.input = some input → K s.context alg key →
      Located svps u (bufs out) (size subs) a → Located svps u (bufs input) (size subs) b → n.toNat = size subs →
      Decrypts E dec svps u K ss (writeAt m a (decrypted E dec alg key iv s.crypt.toNat s.skip.toNat (subs.map Subsample.nat) (readAt m b (size subs)))) (advanced bufs out input n) m' bufs' →
      Decrypts E dec svps u K (s :: ss) m bufs m' bufs'

/-- Samples whose content is specified: not of 2^31 bytes or more (`C25_violated_length`), patterns that do not wrap (`C25_violated_hang`), and for CTR without a pattern ranges as in C23. -/
structure Sample.Regular (fuel : Nat) (ctr : Prop) (s : Sample) : Prop where
  size : ∀ subs, s.subs = some subs → C23.size subs < 2 ^ 31 ∧ C23.size subs < 16 * fuel
  pattern : s.crypt.toNat < 2 ^ 60 ∧ s.skip.toNat < 2 ^ 60
  ranges : ctr → s.crypt ≠ 0 ∨ ∀ iv subs, s.iv = some iv → s.subs = some subs → GoodRanges (ivOfBytes iv).lo.toNat 0 subs

theorem all_content {p : CipherPrim σ} {E : Bytes → Nat → Nat → UInt8} {dec : Bytes → Bytes → Bytes} (hl : DecLib p E dec) (fuel : Nat) (u : Uuid) (ss : List Sample)
    (K : Nat → Nat → Bytes → Prop) (w : CencWorld (Option (SymCtx σ))) (inv : SvpInv w.svp) (hsep : ss.Pairwise Unshared)
    (hacc : ∀ s ∈ ss, ∃ out input subs a b, Accepted w s u out input subs a b)
    (hok : ∀ s ∈ ss, ¬(s.crypt = 0 ∧ s.skip ≠ 0) ∧ ∃ c k key, w.ciphers s.context = some c ∧ (c.algorithm = CIPHER_AES_CTR ∨ c.algorithm = CIPHER_AES_CBC) ∧ c.ctx = some k ∧
      Reaches p c.algorithm key k.evp ∧ K s.context c.algorithm key ∧ s.Regular fuel (c.algorithm = CIPHER_AES_CTR)) :
    ∃ w' rs, processAll (cencOps p) fuel u w ss = some (w', .OK, rs) ∧ Decrypts E dec w.svp u K ss w.mem w.bufs w'.mem w'.bufs := by
  induction ss generalizing w with
  | nil => exact ⟨w, [], rfl, .nil⟩
  | cons s ss ih =>
    obtain ⟨out, input, subs, a, b, h⟩ := hacc s (by simp)
    obtain ⟨hz, c, k, key, hc, halg, hk, hx, hK, hreg⟩ := hok s (by simp)
    obtain ⟨iv, hiv, hivl⟩ := h.iv
    obtain ⟨z1, z2⟩ := hreg.size subs h.hsubs
    obtain ⟨r, n, r1, r2, r3, r4, r5⟩ := sample_content hl fuel w inv s u out input subs a b h iv hivl c hc halg key k hk hx z1 z2 hreg.pattern hz
      (fun hq => (hreg.ranges hq).imp id (fun f => f iv subs hiv h.hsubs))
    obtain ⟨g1, _, _, g4, g5⟩ := cencProcessSample_spec (cencOps p) fuel w inv s u out input subs a b h iv r r1
    obtain ⟨_, _, q3⟩ := processSample_rel (shifts_rel p) fuel w inv s.context iv s.crypt s.skip subs out input u r r1
    have hs1 := List.pairwise_cons.mp hsep
    have hnot : ∀ t ∈ ss, ∀ j, j ∈ t.buffers → r.world.bufs j = w.bufs j := by
      intro t ht j hj
      apply g4
      · rintro rfl; exact hs1.1 t ht j (by simp [Sample.buffers, h.hout]) hj
      · rintro rfl; exact hs1.1 t ht j (by simp [Sample.buffers, h.hinput]) hj
    obtain ⟨w', rs, e1, e2⟩ := ih r.world (by rw [g1]; exact inv) hs1.2
      (by
        intro t ht
        obtain ⟨o, i, su, x, y, q⟩ := hacc t (List.mem_cons_of_mem _ ht)
        have k1 := hnot t ht o (by simp [Sample.buffers, q.hout])
        have k2 := hnot t ht i (by simp [Sample.buffers, q.hinput])
        exact ⟨o, i, su, x, y, q.iv, q.hout, q.hinput, q.hsubs, g5 _ q.cipher, q.required, by rw [g1, k1]; exact q.locOut, by rw [g1, k2]; exact q.locIn, q.apart⟩)
      (by
        intro t ht
        obtain ⟨tz, c0, k0, key0, t1, t2, t3, t4, t5, t6⟩ := hok t (List.mem_cons_of_mem _ ht)
        refine ⟨tz, ?_⟩
        have hrel := q3 w.ciphers t.context (CRel.refl (shifts_rel p) _)
        rw [t1] at hrel
        cases hcc : r.world.ciphers t.context with
        | none => rw [hcc] at hrel; exact hrel.elim
        | some c1 =>
          rw [hcc] at hrel
          obtain ⟨_, _, x3, x4⟩ := hrel
          unfold Shifts at x4
          rw [t3] at x4
          cases hc1 : c1.ctx with
          | none => rw [hc1] at x4; exact x4.elim
          | some k1 =>
            rw [hc1] at x4
            exact ⟨c1, k1, key0, rfl, by rw [x3]; exact t2, hc1, by rw [x3]; exact t4.moves x4, by rw [x3]; exact t5, by rw [x3]; exact t6⟩)
    refine ⟨w', r :: rs, ?_, .cons hiv h.hsubs h.hout h.hinput hK h.locOut h.locIn r3 ?_⟩
    · simp only [processAll, hiv, h.hout, h.hinput, h.hsubs, Option.getD_some, r1]
      rw [if_neg (by simp [r2]), e1]
    · rw [g1, r4, r5] at e2
      exact e2

end Sa

import Verif.Lemmas.CencContent
import Verif.Props.C107

/-!
# C109: samples in common encryption are decrypted with the key which the handle of their context denoted

For the TA as a whole: any number of sessions and callers, all calls.
-/

namespace Sa.Whole.C109

open C105 C106 C107

variable {κ ρ π σ τ : Type}

/-! ## What is required of a sample -/

/-- In the history `rs` the context of the sample was made by the caller, in this session, for decryption with `k` and parameters `params`; the rights of `k` allow the caller now to
decrypt, and to have the result where the caller gets it. -/
structure Admitted (p : Prims) (d : Device σ τ) (w0 : Ta σ τ) (rs : List (Request κ ρ π)) (svps : SvpStore) (s : Nat) (u : Uuid) (env : RightsEnv) (bufs : Nat → SaBuffer) (q : Sample)
    (params : InitParams) (k : StoredKey) (x : σ) (out input : Nat) (subs : List Subsample) (a b : Nat) : Prop where
  opened : Opened p d w0 rs s q.context u params MODE_DECRYPT k (some x)
  alg : params.alg = some CIPHER_AES_CTR ∨ params.alg = some CIPHER_AES_CBC
  right : rightsAllowedDecrypt env k.header.rights true = true
  iv : ∃ iv, q.iv = some iv ∧ iv.length = 16
  hout : q.out = some out
  hinput : q.input = some input
  hsubs : q.subs = some subs
  clear : (bufs out).isClear = true → (bufs input).isClear = true ∧ Flag k.header.rights.usageFlags FLAG_SVP_OPTIONAL
  locOut : Located svps u (bufs out) (C23.size subs) a
  locIn : Located svps u (bufs input) (C23.size subs) b
  apart : Apart a b (C23.size subs)
  nonempty : 0 < C23.size subs

/-- What is known when a call has passed the checks, and how the call goes on. -/
theorem admitted {view : σ → CipherView} {p : Prims} {d : Device σ τ} {w0 w : Ta σ τ} {rs : List (Request κ ρ π)} (known : Known p d view w0 rs w) {s : Nat} {t : Tables σ τ}
    (ht : tablesOf w s = some t) {u : Uuid} (env : RightsEnv) (mem : Mem) (bufs : Nat → SaBuffer) (samples : List Sample)
    (hv : (verifyAll env ⟨t.svps, bufs, mem, cencView t.ciphers u⟩ u samples).2 = .OK) (inv : CipherInv t.ciphers) :
    ∀ q ∈ samples, ∃ ptr o sk ctx params out input subs a b, HasCtx t.ciphers q.context u ptr o sk (some ctx) ∧ params.alg = some o.alg ∧
      Permitted env ⟨t.svps, bufs, mem, cencView t.ciphers u⟩ q (seen o sk (some ctx)) ∧ Admitted p d w0 rs t.svps s u env bufs q params sk ctx.evp out input subs a b := by
  intro q hq
  have hsv := known.svps s t ht
  obtain ⟨out, input, subs, a, b, hacc⟩ := (verifyAll_spec env ⟨t.svps, bufs, mem, cencView t.ciphers u⟩ hsv samples u).2 hv q hq
  obtain ⟨c, hperm⟩ := verifyAll_permits env ⟨t.svps, bufs, mem, cencView t.ciphers u⟩ hsv samples u hv q hq
  rcases cencView_cases inv u q.context with ⟨e, _⟩ | ⟨ptr, o, sk, ctx, hc, e, _⟩
  · have := hperm.cipher; simp only [e] at this; cases this
  · have hce : c = seen o sk ctx := by
      have := hperm.cipher
      simp only [e] at this
      exact (Option.some.inj this).symm
    subst hce
    have hmode : o.mode = MODE_DECRYPT := by simpa [seen] using hperm.mode
    obtain ⟨_, params, h2, h3, g4⟩ := known.ciphers s t ht q.context u ptr o sk ctx hc
    have halg : o.alg = CIPHER_AES_CTR ∨ o.alg = CIPHER_AES_CBC := hperm.alg
    cases ctx with
    | none =>
      have := (known.good s t ht _ _ _ _ _ _ hc).asym rfl
      exfalso
      rcases this with h | h | h <;> rw [h] at halg <;> revert halg <;> decide
    | some ctx =>
      rw [hmode] at g4
      refine ⟨ptr, o, sk, ctx, params, out, input, subs, a, b, hc, h2, hperm, g4, ?_, hperm.right, hacc.iv, hacc.hout, hacc.hinput, hacc.hsubs,
        hperm.clear out input hacc.hout hacc.hinput, hacc.locOut, hacc.locIn, hacc.apart, ?_⟩
      · rw [h2]
        rcases halg with h | h <;> rw [h]
        · exact Or.inl rfl
        · exact Or.inr rfl
      · have h0 := hacc.required
        obtain ⟨hlen, _⟩ := cencRequiredLength_spec subs h0
        unfold C23.size
        rw [← hlen]
        exact Nat.pos_of_ne_zero fun hn => h0 (UInt64.toNat_inj.mp hn)

/-- A call to process samples: the checks, and the processing if they are passed. -/
theorem cenc_shape {view : σ → CipherView} {p : Prims} {d : Device σ τ} {w0 w : Ta σ τ} {rs : List (Request κ ρ π)} (known : Known p d view w0 rs w) {s : Nat} {u : Uuid} {env : RightsEnv}
    {fuel : Nat} {mem : Mem} {bufs : Nat → SaBuffer} {samples : List Sample} {w' : Ta σ τ} {st : Status} {mem' : Mem} {bufs' : Nat → SaBuffer}
    (hc : handle (κ := κ) (ρ := ρ) (π := π) d w (.call s u (.cenc env fuel mem bufs samples)) = some (w', .reply (.samples st mem' bufs'))) :
    ∃ t, tablesOf w s = some t ∧ CipherInv t.ciphers ∧
      ((st ≠ .OK ∧ mem' = mem ∧ bufs' = bufs) ∨
       ((verifyAll env ⟨t.svps, bufs, mem, cencView t.ciphers u⟩ u samples).2 = .OK ∧
        ∃ cw l, processAll (cencOps d.cipher) fuel u ⟨t.svps, bufs, mem, cencView t.ciphers u⟩ samples = some (cw, st, l) ∧ mem' = cw.mem ∧ bufs' = cw.bufs)) := by
  rcases call_cases (κ := κ) (ρ := ρ) (π := π) d w known.inv.ta s u (.cenc env fuel mem bufs samples) with ⟨s', e, _⟩ | ⟨ptr, t, h4, h5, h6, e⟩
  · rw [e] at hc; cases hc
  · have ht : tablesOf w s = some t := by simp [tablesOf, h4, h6]
    refine ⟨t, ht, (known.inv.tabs ptr t h6).ciphers, ?_⟩
    rw [e] at hc
    cases hr : cencCall d.cipher env fuel t.ciphers t.svps mem bufs samples u with
    | none => simp only [serve, hr, Option.map_none] at hc; cases hc
    | some r =>
      simp only [serve, hr, Option.map_some, Option.some.injEq, Prod.mk.injEq, Told.reply.injEq, Reply.samples.injEq] at hc
      obtain ⟨_, rfl, rfl, rfl⟩ := hc
      unfold cencCall at hr
      split at hr
      · cases hr
      · cases hq : processCommonEncryption env (cencOps d.cipher) fuel ⟨t.svps, bufs, mem, cencView t.ciphers u⟩ samples u with
        | none => rw [hq] at hr; cases hr
        | some x =>
          obtain ⟨cw, st, l⟩ := x
          rw [hq] at hr
          cases hr
          unfold processCommonEncryption at hq
          simp only at hq
          rw [(verifyAll_spec env ⟨t.svps, bufs, mem, cencView t.ciphers u⟩ (known.svps s t ht) samples u).1] at hq
          split at hq
          · rename_i hst
            cases hq
            exact Or.inl ⟨hst, rfl, rfl⟩
          · rename_i hst
            exact Or.inr ⟨Classical.byContradiction hst, cw, l, hq, rfl, rfl⟩

/-- **C109, what is checked.**  After any history of calls `Cmd.Fine` (see C105): if a call to process samples is answered with a failure and memory and the buffers' offsets are as they were, nothing is
claimed; otherwise, for every sample, whatever it is: its context is one that the caller made in this session, for decryption with CTR or CBC, the key with which it was made grants decryption to the
caller now, clear output is made only of clear input and if the key has the flag for it, and both ranges are inside of the caller's buffers and apart. -/
theorem C109_checked_partial {view : σ → CipherView} (p : Prims) (hp : p.Good) (d : Device σ τ) (hm : MacsGood d.mac) (hd : d.cipher.Good view) (w0 : Ta σ τ)
    (h0 : start σ τ = some w0) (rs : List (Request κ ρ π)) (hf : ∀ r ∈ rs, r.Fine p) (hpr : ∀ r ∈ rs, PrivOk r) (w : Ta σ τ) (ts : List (Uuid × Told)) (hw : handleAll d w0 rs = some (w, ts))
    (s : Nat) (u : Uuid) (env : RightsEnv) (fuel : Nat) (mem : Mem) (bufs : Nat → SaBuffer) (samples : List Sample)
    (w' : Ta σ τ) (st : Status) (mem' : Mem) (bufs' : Nat → SaBuffer)
    (hc : handle (κ := κ) (ρ := ρ) (π := π) d w (.call s u (.cenc env fuel mem bufs samples)) = some (w', .reply (.samples st mem' bufs'))) :
    (st ≠ .OK ∧ mem' = mem ∧ bufs' = bufs) ∨
    ∃ t, tablesOf w s = some t ∧ ∀ q ∈ samples, ∃ params k x out input subs a b, Admitted p d w0 rs t.svps s u env bufs q params k x out input subs a b := by
  obtain ⟨i0, e0⟩ := start_ok p d w0 h0
  have known := known_all p hp d hm hd w0 [] rs w0 ⟨i0, ⟨[], rfl⟩, fun s t ht => (by rw [e0] at ht; simp at ht), fun s t ht => (by rw [e0] at ht; simp at ht),
    fun s t ht => (by rw [e0] at ht; simp at ht)⟩ hf hpr w ts hw
  rw [List.nil_append] at known
  obtain ⟨t, ht, inv, hcase⟩ := cenc_shape known hc
  rcases hcase with h | ⟨hv, _⟩
  · exact Or.inl h
  · refine Or.inr ⟨t, ht, fun q hq => ?_⟩
    obtain ⟨_, _, sk, ctx, params, out, input, subs, a, b, _, _, _, h⟩ := admitted known ht env mem bufs samples hv inv q hq
    exact ⟨params, sk, ctx.evp, out, input, subs, a, b, h⟩

/-! ## What is written -/

/-- A state of a context is one of a context of the library made with the key. -/
theorem opened_lib {p : Prims} {d : Device σ τ} {w0 : Ta σ τ} {rs : List (Request κ ρ π)} {s h : Nat} {u : Uuid} {params : InitParams} {mode : Nat} {k : StoredKey} {x : Option σ}
    (ho : Opened p d w0 rs s h u params mode k x) : ∃ x0, Starts d.cipher params mode k x0 ∧ Moves d.cipher x0 x := by
  induction ho with
  | init _ _ _ _ _ hs => exact ⟨_, hs, .refl _ _⟩
  | @fed rs ts w w' s h u params mode k x kind up env mem out ib bytes mem' out' in' n tag t b alg x' _ _ _ _ _ _ _ hthen ih =>
    obtain ⟨x0, h1, h2⟩ := ih
    refine ⟨x0, h1, h2.trans ?_⟩
    cases x with
    | none => exact hthen
    | some e =>
      cases kind with
      | more =>
        rw [show x' = _ from hthen]
        exact LibSteps.update _ (.refl e)
      | last tg =>
        obtain ⟨e0, g1, rfl⟩ := hthen
        split at g1
        · obtain ⟨_, _, g2⟩ := g1
          exact LibSteps.final (.update _ (.setTag (.refl e) g2))
        · subst g1
          exact LibSteps.final (.update _ (.refl _))
  | iv _ _ _ hs ih =>
    obtain ⟨x0, h1, h2⟩ := ih
    exact ⟨x0, h1, h2.trans (LibSteps.setIv (.refl _) hs)⟩
  | lost _ _ _ _ hmv ih => obtain ⟨x0, h1, h2⟩ := ih; exact ⟨x0, h1, h2.trans hmv⟩
  | cenc _ _ _ _ hmv ih => obtain ⟨x0, h1, h2⟩ := ih; exact ⟨x0, h1, h2.trans hmv⟩
  | other _ _ _ _ ih => exact ih

theorem opened_reaches {p : Prims} {d : Device σ τ} {w0 : Ta σ τ} {rs : List (Request κ ρ π)} {s h : Nat} {u : Uuid} {params : InitParams} {k : StoredKey} {x : σ} {alg : Nat}
    (ho : Opened p d w0 rs s h u params MODE_DECRYPT k (some x)) (ha : params.alg = some alg) : Reaches d.cipher alg k.key x := by
  obtain ⟨x0, h1, h2⟩ := opened_lib ho
  cases x0 with
  | none => cases h2
  | some e =>
    obtain ⟨_, alg', g1, g2⟩ := h1
    rw [ha] at g1
    cases g1
    exact ⟨params.sym, e, g2, h2⟩

/-- The key with which, and the algorithm for which, the caller made a context for decryption. -/
def KeyOf (p : Prims) (d : Device σ τ) (w0 : Ta σ τ) (rs : List (Request κ ρ π)) (s : Nat) (u : Uuid) (h alg : Nat) (key : Bytes) : Prop :=
  ∃ params k x, Opened p d w0 rs s h u params MODE_DECRYPT k x ∧ params.alg = some alg ∧ k.key = key

/-- **C109, what is written.**  After any history of calls `Cmd.Fine`, of samples that are `Regular` and of which no two share a buffer: either the call fails and nothing has changed, or it succeeds
and the memory is what results when one sample after the other is decrypted with the key which the handle denoted when its context was made, whatever was processed with the context
since; the offsets advance by the sizes of the samples.  The library is assumed to decrypt as in `DecLib`. -/
theorem C109_content_partial {view : σ → CipherView} (p : Prims) (hp : p.Good) (d : Device σ τ) (hm : MacsGood d.mac) (hd : d.cipher.Good view) (E : Bytes → Nat → Nat → UInt8)
    (dec : Bytes → Bytes → Bytes) (hl : DecLib d.cipher E dec) (w0 : Ta σ τ)
    (h0 : start σ τ = some w0) (rs : List (Request κ ρ π)) (hf : ∀ r ∈ rs, r.Fine p) (hpr : ∀ r ∈ rs, PrivOk r) (w : Ta σ τ) (ts : List (Uuid × Told)) (hw : handleAll d w0 rs = some (w, ts))
    (s : Nat) (u : Uuid) (env : RightsEnv) (fuel : Nat) (mem : Mem) (bufs : Nat → SaBuffer) (samples : List Sample) (hsep : samples.Pairwise Unshared)
    (hreg : ∀ q ∈ samples, ∀ alg key, KeyOf p d w0 rs s u q.context alg key → q.Regular fuel (alg = CIPHER_AES_CTR))
    (w' : Ta σ τ) (st : Status) (mem' : Mem) (bufs' : Nat → SaBuffer)
    (hc : handle (κ := κ) (ρ := ρ) (π := π) d w (.call s u (.cenc env fuel mem bufs samples)) = some (w', .reply (.samples st mem' bufs'))) :
    (st ≠ .OK ∧ mem' = mem ∧ bufs' = bufs) ∨
    (st = .OK ∧ ∃ t, tablesOf w s = some t ∧ Decrypts E dec t.svps u (KeyOf p d w0 rs s u) samples mem bufs mem' bufs') := by
  obtain ⟨i0, e0⟩ := start_ok p d w0 h0
  have known := known_all p hp d hm hd w0 [] rs w0 ⟨i0, ⟨[], rfl⟩, fun s t ht => (by rw [e0] at ht; simp at ht), fun s t ht => (by rw [e0] at ht; simp at ht),
    fun s t ht => (by rw [e0] at ht; simp at ht)⟩ hf hpr w ts hw
  rw [List.nil_append] at known
  obtain ⟨t, ht, inv, hcase⟩ := cenc_shape known hc
  rcases hcase with h | ⟨hv, cw, l, hp1, rfl, rfl⟩
  · exact Or.inl h
  · have hsv := known.svps s t ht
    obtain ⟨cw', l', e1, e2⟩ := all_content hl fuel u samples (KeyOf p d w0 rs s u) ⟨t.svps, bufs, mem, cencView t.ciphers u⟩ hsv hsep
      ((verifyAll_spec env ⟨t.svps, bufs, mem, cencView t.ciphers u⟩ hsv samples u).2 hv)
      (by
        intro q hq
        obtain ⟨ptr, o, sk, ctx, params, out, input, subs, a, b, _, h2, h3, h4⟩ := admitted known ht env mem bufs samples hv inv q hq
        have hK : KeyOf p d w0 rs s u q.context o.alg sk.key := ⟨params, sk, _, h4.opened, h2, rfl⟩
        exact ⟨h3.pattern, _, ctx, sk.key, h3.cipher, h3.alg, rfl, opened_reaches h4.opened h2, hK, hreg q hq _ _ hK⟩)
    rw [e1] at hp1
    cases hp1
    exact Or.inr ⟨rfl, t, ht, e2⟩

/-! ## A history -/

/-- A toy library: the toy of C34, but what it does in CTR and CBC mode depends on the key and the position. -/
structure Lib where
  toy : C34.Toy
  key : Bytes
  used : Nat
  prev : Bytes

def keyStream (key : Bytes) (_ j : Nat) : UInt8 := key.getD j 0
def keyBlock (key b : Bytes) : Bytes := b.mapIdx fun i c => c ^^^ key.getD i 0

def lib : CipherPrim Lib where
  create alg mode key sp := ((C34.toyCipher true).create alg mode key sp).map fun t => ⟨t, key, 0, []⟩
  update s b :=
    if s.toy.alg = CIPHER_AES_CTR then
      ({ s with used := s.used + b.length }, some (b.mapIdx fun i c => c ^^^ s.key.getD ((s.used + i) % 16) 0))
    else if s.toy.alg = CIPHER_AES_CBC ∧ s.prev.length = 16 ∧ b.length % 16 = 0 then
      ({ s with prev := endBlock (s.prev ++ b) }, some (cbcDec (keyBlock s.key) (b.length / 16) s.prev b))
    else ({ s with toy := ((C34.toyCipher true).update s.toy b).1 }, ((C34.toyCipher true).update s.toy b).2)
  final s := ({ s with toy := ((C34.toyCipher true).final s.toy).1 }, ((C34.toyCipher true).final s.toy).2)
  setIv s iv := some { s with toy := { s.toy with held := [] }, used := 0, prev := iv }
  getTag _ := some (List.replicate 16 0)
  setTag s _ := some s

theorem keyBlock_length (key b : Bytes) (h : b.length = 16) : (keyBlock key b).length = 16 := by simp [keyBlock, h]

theorem lib_good : lib.Good (fun s => C34.toyView s.toy) where
  create := by
    intro alg mode key sp s h
    simp only [lib, Option.map_eq_some_iff] at h
    obtain ⟨t, h1, rfl⟩ := h
    exact C34.toyCipher_good.create alg mode key sp t h1
  updateKind := by
    intro s b
    simp only [lib]
    split
    · exact ⟨rfl, rfl⟩
    · split
      · exact ⟨rfl, rfl⟩
      · exact C34.toyCipher_good.updateKind s.toy b
  updateFail := by
    intro s b
    simp only [lib]
    split
    · intro h; cases h
    · split
      · intro h; cases h
      · exact C34.toyCipher_good.updateFail s.toy b
  updatePlain := by
    intro s b o h1 h2 h3
    simp only [lib]
    split
    · intro h; cases h; exact ⟨by simp, h2⟩
    · split
      · rename_i hc
        intro h; cases h
        refine ⟨?_, h2⟩
        rw [cbcDec_length _ (keyBlock_length s.key) _ _ _ hc.2.1 (by omega)]
        omega
      · exact C34.toyCipher_good.updatePlain s.toy b o h1 h2 h3
  updateEnc := by
    intro s b o h1
    have h1' : isPkcs7Alg s.toy.alg = true := h1
    simp only [lib]
    split
    · rename_i hc; rw [hc] at h1'; cases h1'
    · split
      · rename_i hc; rw [hc.1] at h1'; cases h1'
      · exact C34.toyCipher_good.updateEnc s.toy b o h1
  updateDec := by
    intro s b o h1
    have h1' : isPkcs7Alg s.toy.alg = true := h1
    simp only [lib]
    split
    · rename_i hc; rw [hc] at h1'; cases h1'
    · split
      · rename_i hc; rw [hc.1] at h1'; cases h1'
      · exact C34.toyCipher_good.updateDec s.toy b o h1
  finalKind := fun s => C34.toyCipher_good.finalKind s.toy
  finalPlain := fun s => C34.toyCipher_good.finalPlain s.toy
  finalEnc := fun s => C34.toyCipher_good.finalEnc s.toy
  finalDec := fun s => C34.toyCipher_good.finalDec s.toy
  setIv := by intro s iv s' h; simp only [lib, Option.some.injEq] at h; subst h; rfl
  setTag := by intro s t s' h; simp only [lib, Option.some.injEq] at h; subst h; rfl

theorem lib_update (s : Lib) (b : Bytes) : (lib.update s b).1.toy.alg = s.toy.alg ∧ (lib.update s b).1.key = s.key := by
  refine ⟨(lib_good.updateKind s b).1, ?_⟩
  simp only [lib]
  split
  · rfl
  · split <;> rfl

theorem lib_reaches {alg : Nat} {key : Bytes} {x : Lib} (h : Reaches lib alg key x) : x.toy.alg = alg ∧ x.key = key := by
  obtain ⟨sp, e, h1, h2⟩ := h
  induction h2 with
  | refl => simp only [lib, C34.toyCipher, Option.map_some, Option.some.injEq] at h1; subst h1; exact ⟨rfl, rfl⟩
  | update b _ ih => exact ⟨(lib_update _ b).1.trans ih.1, (lib_update _ b).2.trans ih.2⟩
  | final _ ih => exact ⟨(lib_good.finalKind _).1.trans ih.1, ih.2⟩
  | setIv _ h ih => simp only [lib, Option.some.injEq] at h; subst h; exact ih
  | setTag _ h ih => simp only [lib, Option.some.injEq] at h; subst h; exact ih

theorem lib_ctr {key : Bytes} {x x' : Lib} {v : Iv} {m : Bytes} (hr : Reaches lib CIPHER_AES_CTR key x) (h : Since lib 1 x v m x') :
    x'.toy.alg = CIPHER_AES_CTR ∧ x'.key = key ∧ x'.used = m.length := by
  induction h with
  | iv h => obtain ⟨a, b⟩ := lib_reaches hr; simp only [lib, Option.some.injEq] at h; subst h; exact ⟨a, b, rfl⟩
  | more _ _ h ih =>
    obtain ⟨a, b, c⟩ := ih
    simp only [lib, if_pos a, Prod.mk.injEq] at h
    obtain ⟨rfl, _⟩ := h
    exact ⟨a, b, by simp [c]⟩

theorem lib_cbc {key : Bytes} {x x' : Lib} {v : Iv} {m : Bytes} (hr : Reaches lib CIPHER_AES_CBC key x) (h : Since lib 16 x v m x') :
    x'.toy.alg = CIPHER_AES_CBC ∧ x'.key = key ∧ x'.prev.length = 16 ∧ x'.prev = endBlock (v.bytes ++ m) := by
  induction h with
  | iv h =>
    obtain ⟨a, b⟩ := lib_reaches hr
    simp only [lib, Option.some.injEq] at h
    subst h
    exact ⟨a, b, C25.iv_bytes_length v, by simp [endBlock, C25.iv_bytes_length]⟩
  | @more m x1 b x2 o _ h2 h ih =>
    obtain ⟨a, e, c, f⟩ := ih
    simp only [lib, if_neg (show ¬x1.toy.alg = CIPHER_AES_CTR from by rw [a]; decide), if_pos (show x1.toy.alg = CIPHER_AES_CBC ∧ x1.prev.length = 16 ∧ b.length % 16 = 0 from ⟨a, c, h2⟩),
      Prod.mk.injEq] at h
    obtain ⟨rfl, _⟩ := h
    refine ⟨a, e, ?_, ?_⟩
    · simp [endBlock, c]
    · simp only
      have hb : b = [] ∨ 16 ≤ b.length := by
        rcases b with _ | ⟨y, b⟩
        · exact Or.inl rfl
        · right; simp only [List.length_cons] at h2 ⊢; omega
      rcases hb with rfl | hb
      · rw [List.append_nil, List.append_nil, ← f]; simp [endBlock, c]
      · unfold endBlock
        rw [← List.append_assoc, List.length_append, List.length_append, show (v.bytes ++ m).length + b.length - 16 = (v.bytes ++ m).length + (b.length - 16) from by omega,
          show x1.prev.length + b.length - 16 = x1.prev.length + (b.length - 16) from by omega, List.drop_append, List.drop_append,
          List.drop_eq_nil_of_le (as := x1.prev) (by omega), List.drop_eq_nil_of_le (as := v.bytes ++ m) (by omega)]
        simp

/-- The assumption about the library can be met. -/
theorem lib_dec : DecLib lib keyStream keyBlock where
  setIv := fun _ _ _ _ _ _ => ⟨_, rfl⟩
  ctr := by
    intro key x v m x' b hr h
    obtain ⟨a, c, e⟩ := lib_ctr hr h
    refine ⟨{ x' with used := x'.used + b.length }, ?_⟩
    simp only [lib, if_pos a, c, e, keyStream]
  cbc := by
    intro key x v m x' b hr h hb
    obtain ⟨a, c, e, f⟩ := lib_cbc hr h
    refine ⟨{ x' with prev := endBlock (x'.prev ++ b) }, ?_⟩
    simp only [lib, if_neg (show ¬x'.toy.alg = CIPHER_AES_CTR from by rw [a]; decide), if_pos (show x'.toy.alg = CIPHER_AES_CBC ∧ x'.prev.length = 16 ∧ b.length % 16 = 0 from ⟨a, e, hb⟩), c]
    rw [← f]
  block := fun key b => keyBlock_length key b

/-- A device with this library. -/
def dev : Device Lib (MacKind × Bytes × Bytes) := ⟨lib, C106.toyPrim⟩

/-- Four buffers of 64 bytes. -/
def buffers (i : Nat) : SaBuffer :=
  if i = 0 then .clear 0x200000000 64 0 else if i = 1 then .clear 0x400000000 64 0 else if i = 2 then .clear 0x600000000 64 0 else .clear 0x800000000 64 0

/-- 4 clear bytes and 20 protected ones, for CTR mode. -/
def sampleA : Sample := { iv := some (List.replicate 16 0), crypt := 0, skip := 0, subs := some [⟨4, 20⟩], context := 31, out := some 0, input := some 1 }
/-- Two protected blocks, for CBC mode, of which one is encrypted. -/
def sampleB : Sample := { iv := some (List.replicate 16 2), crypt := 1, skip := 1, subs := some [⟨0, 32⟩], context := 31, out := some 2, input := some 3 }

/-- A key is made, and with it a context for decryption. -/
def history (params : InitParams) : List (Request Unit Unit Unit) :=
  [.open C08.u7 1, .call 31 C08.u7 (.keys gen1), .call 31 C08.u7 (.cipherInit env1 params MODE_DECRYPT 31 C36.ienv)]

def ctr : InitParams := .ctr (some (some (List.replicate 16 1)))
def cbc : InitParams := .cbc false (some (some (List.replicate 16 1)))

/-- Then a sample is processed. -/
def process (q : Sample) : Request Unit Unit Unit := .call 31 C08.u7 (.cenc C27.renv 9 C34.mem0 buffers [q])

/-- What is told: statuses and, of samples, some bytes of the outputs. -/
def brief : Told → Option (Status × List UInt8)
  | .opened s _ => some (s, [])
  | .reply (.made s _) => some (s, [])
  | .reply (.samples s m _) => some (s, [m 0x200000003, m 0x200000004, m 0x600000000, m 0x600000010])
  | _ => none

/-- The histories are among those the theorems speak about, the samples are too ... -/
example (params : InitParams) (hp : params = ctr ∨ params = cbc) : (∀ r ∈ history params, r.Fine light) ∧ ∀ r ∈ history params, PrivOk r := by
  constructor <;> intro r hr <;> simp only [history, List.mem_cons, List.not_mem_nil, or_false] at hr
  · rcases hr with rfl | rfl | rfl
    · exact True.intro
    · exact (⟨rfl, C52.genv_good, fun n e => by simp at e⟩ : gen1.Fine light)
    · exact ⟨rfl, fun h => absurd h (by rcases hp with rfl | rfl <;> decide)⟩
  · rcases hr with rfl | rfl | rfl <;> exact True.intro
example : dev.cipher.Good (fun s => C34.toyView s.toy) ∧ DecLib dev.cipher keyStream keyBlock := ⟨lib_good, lib_dec⟩
example : [sampleA, sampleB].Pairwise Unshared ∧ ∀ q ∈ [sampleA, sampleB], ∀ c, q.Regular 9 c := by
  refine ⟨by simp [Unshared, Sample.buffers, sampleA, sampleB], ?_⟩
  intro q hq c
  simp only [List.mem_cons, List.not_mem_nil, or_false] at hq
  rcases hq with rfl | rfl
  · refine ⟨?_, by decide, fun _ => Or.inr ?_⟩
    · intro subs h; cases h; decide
    · intro iv subs h1 h2; cases h2; exact ⟨Or.inl rfl, True.intro⟩
  · refine ⟨?_, by decide, fun _ => Or.inl (by decide)⟩
    intro subs h; cases h; decide
example : (process sampleA).Fine light ∧ (process sampleB).Fine light := by
  constructor <;> intro q hq <;> simp only [List.mem_cons, List.not_mem_nil, or_false] at hq <;> subst hq
  · exact ⟨by decide, fun subs h => by cases h; decide⟩
  · exact ⟨by decide, fun subs h => by cases h; decide⟩
/-- ... and this is what is told: the key consists of bytes 7, the input of bytes 9 (that is also what is in memory above 0x400000000 before). -/
example : (((start Lib _).bind fun w => handleAll dev w (history ctr ++ [process sampleA])).map fun r => r.2.map fun x => brief x.2) =
    some [some (.OK, []), some (.OK, []), some (.OK, []), some (.OK, [9, 9 ^^^ 7, 9, 9])] := by
  decide +kernel
example : (((start Lib _).bind fun w => handleAll dev w (history cbc ++ [process sampleB])).map fun r => r.2.map fun x => brief x.2) =
    some [some (.OK, []), some (.OK, []), some (.OK, []), some (.OK, [0, 0, 9 ^^^ 7 ^^^ 2, 9])] := by
  decide +kernel

end Sa.Whole.C109

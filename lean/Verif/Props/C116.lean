import Verif.Props.C114

/-!
# C116: what is encrypted in pieces with a key is decrypted, in any other pieces, with any copy of the key

For the TA as a whole: any number of sessions and callers, all calls.
-/

namespace Sa.Whole.C116

open C105 C106 C107 C110 C114

variable {κ ρ π σ τ : Type}

/-! ## What is claimed -/

/-- The parameters are those of an algorithm of secret keys without padding: what goes in comes out at once.  (Pieces of AES-ECB and AES-CBC must consist of whole blocks.) -/
def Plain (params : InitParams) (alg : Nat) : Prop :=
  privately params = false ∧ params.alg = some alg ∧ isPkcs7Alg alg = false

/-- By the requests and what was told: context `h` was made with the key of `a` in the session of `a`, and since then these pieces were processed in it with success, and nothing else; of each
piece there is what was in the input buffer before the call, and what is in the output buffer after it. -/
inductive Stream (d : Device σ τ) (w0 : Ta σ τ) (a : Place κ ρ π) (params : InitParams) (mode h : Nat) : List (Request κ ρ π) → List (Bytes × Bytes) → Prop where
  | init {ts w w' env ienv} : handleAll (κ := κ) (ρ := ρ) (π := π) d w0 a.past = some (w, ts) →
      handle (κ := κ) (ρ := ρ) (π := π) d w (.call a.s a.u (.cipherInit env params mode a.h ienv)) = some (w', .reply (.made .OK h)) →
      Stream d w0 a params mode h (a.past ++ [.call a.s a.u (.cipherInit env params mode a.h ienv)]) []
  | fed {rs pieces ts w w' up env mem ob ib bytes mem' out' in' n tag t x y} : Stream d w0 a params mode h rs pieces →
      handleAll (κ := κ) (ρ := ρ) (π := π) d w0 rs = some (w, ts) →
      handle (κ := κ) (ρ := ρ) (π := π) d w (.call a.s a.u (.cipherProcess .more up env mem h (some (.buf ob)) (.buf ib) bytes)) =
        some (w', .reply (.processed .OK mem' out' in' n tag)) →
      bytes.toNat < 2 ^ 31 → ((∃ alg, params.alg = some alg ∧ isStreamAlg alg = true) ∨ bytes.toNat % 16 = 0) → tablesOf w a.s = some t →
      Located t.svps a.u ib bytes.toNat x → Located t.svps a.u ob bytes.toNat y →
      Stream d w0 a params mode h (rs ++ [.call a.s a.u (.cipherProcess .more up env mem h (some (.buf ob)) (.buf ib) bytes)])
        (pieces ++ [(readAt mem x bytes.toNat, readAt mem' y bytes.toNat)])
  | other {rs pieces ts w w' r told} : Stream d w0 a params mode h rs pieces → handleAll (κ := κ) (ρ := ρ) (π := π) d w0 rs = some (w, ts) →
      handle (κ := κ) (ρ := ρ) (π := π) d w r = some (w', told) → ¬Handles a.s h r told → Stream d w0 a params mode h (rs ++ [r]) pieces

/-- The same, and possibly a last piece, processed with the call that ends the processing (for which the tag is given, if the mode has one and the context is for decryption). -/
inductive Processed (d : Device σ τ) (w0 : Ta σ τ) (a : Place κ ρ π) (params : InitParams) (mode h : Nat) : List (Request κ ρ π) → List (Bytes × Bytes) → Prop where
  | sofar {rs pieces} : Stream d w0 a params mode h rs pieces → Processed d w0 a params mode h rs pieces
  | last {rs pieces ts w w' tag up env mem ob ib bytes mem' out' in' n tag' t x y} : Stream d w0 a params mode h rs pieces →
      handleAll (κ := κ) (ρ := ρ) (π := π) d w0 rs = some (w, ts) →
      handle (κ := κ) (ρ := ρ) (π := π) d w (.call a.s a.u (.cipherProcess (.last tag) up env mem h (some (.buf ob)) (.buf ib) bytes)) =
        some (w', .reply (.processed .OK mem' out' in' n tag')) →
      bytes.toNat < 2 ^ 31 → ((∃ alg, params.alg = some alg ∧ isStreamAlg alg = true) ∨ bytes.toNat % 16 = 0) → tablesOf w a.s = some t →
      Located t.svps a.u ib bytes.toNat x → Located t.svps a.u ob bytes.toNat y →
      Processed d w0 a params mode h (rs ++ [.call a.s a.u (.cipherProcess (.last tag) up env mem h (some (.buf ob)) (.buf ib) bytes)])
        (pieces ++ [(readAt mem x bytes.toNat, readAt mem' y bytes.toNat)])

/-- All that went in, and all that came out. -/
def ins (pieces : List (Bytes × Bytes)) : Bytes := pieces.flatMap (·.1)
def outs (pieces : List (Bytes × Bytes)) : Bytes := pieces.flatMap (·.2)

/-- A run of the library: from `e`, these pieces lead to `f`.  Tags may be set. -/
inductive Run (p : CipherPrim σ) (alg : Nat) (e : σ) : List (Bytes × Bytes) → σ → Prop where
  | nil : Run p alg e [] e
  | step {pieces f m c} : Run p alg e pieces f → isStreamAlg alg = true ∨ m.length % 16 = 0 → (p.update f m).2 = some c → Run p alg e (pieces ++ [(m, c)]) (p.update f m).1
  | tag {pieces f t g} : Run p alg e pieces f → p.setTag f t = some g → Run p alg e pieces g

/-- What is assumed of the library (OpenSSL's EVP_EncryptUpdate and EVP_DecryptUpdate): a context for decryption undoes, in whatever pieces, what a context for encryption with the same key
and parameters did. -/
def Undone (p : CipherPrim σ) : Prop :=
  ∀ alg key sp e f pieces pieces' e' f', isPkcs7Alg alg = false → p.create alg MODE_ENCRYPT key sp = some e → p.create alg MODE_DECRYPT key sp = some f →
    Run p alg e pieces e' → Run p alg f pieces' f' → ins pieces' <+: outs pieces → outs pieces' = (ins pieces).take (ins pieces').length

/-! ## Runs -/

/-- A run without tags. -/
inductive Ran (p : CipherPrim σ) (alg : Nat) (e : σ) : List (Bytes × Bytes) → σ → Prop where
  | nil : Ran p alg e [] e
  | step {pieces f m c} : Ran p alg e pieces f → isStreamAlg alg = true ∨ m.length % 16 = 0 → (p.update f m).2 = some c → Ran p alg e (pieces ++ [(m, c)]) (p.update f m).1

theorem Ran.run {p : CipherPrim σ} {alg : Nat} {e f : σ} {pieces : List (Bytes × Bytes)} (h : Ran p alg e pieces f) : Run p alg e pieces f := by
  induction h with
  | nil => exact .nil
  | step _ h1 h2 ih => exact .step ih h1 h2


theorem ran_one {p : CipherPrim σ} {alg : Nat} {e f g : σ} {pieces : List (Bytes × Bytes)} (h : Ran p alg e pieces f) (h' : Ran p alg e pieces g) : f = g := by
  have key : ∀ {ps : List (Bytes × Bytes)} {f : σ}, Ran p alg e ps f → f = ps.foldl (fun s q => (p.update s q.1).1) e := by
    intro ps f h
    induction h with
    | nil => rfl
    | step _ _ _ ih => rw [List.foldl_append, ← ih]; rfl
  rw [key h, key h']

/-- The library's context is the one for the key of `a`, and `pieces` led to the state `f` of it. -/
def Made (p : Prims) (d : Device σ τ) (view : σ → CipherView) (w0 : Ta σ τ) (a : Place κ ρ π) (params : InitParams) (alg mode : Nat) (pieces : List (Bytes × Bytes)) (k : StoredKey) (f : σ) :
    Prop :=
  a.Is p d w0 k ∧ (∃ env : Env, env.prims = p ∧ useResult env k a.u = (.OK, some k)) ∧
    ∃ e, d.cipher.create alg mode k.key params.sym = some e ∧ Ran d.cipher alg e pieces f ∧ view f = ⟨alg, mode, 0⟩

theorem made_step {view : σ → CipherView} {p : Prims} {d : Device σ τ} (hd : d.cipher.Good view) {w0 : Ta σ τ} {a : Place κ ρ π} {params : InitParams} {alg mode : Nat} (hp : Plain params alg)
    {pieces : List (Bytes × Bytes)} {k : StoredKey} {f : σ} {m c : Bytes} (h : Made p d view w0 a params alg mode pieces k f) (hl : isStreamAlg alg = true ∨ m.length % 16 = 0)
    (hu : (d.cipher.update f m).2 = some c) :
    c.length = m.length ∧ Made p d view w0 a params alg mode (pieces ++ [(m, c)]) k (d.cipher.update f m).1 := by
  obtain ⟨h1, h2, e, h3, h4, h5⟩ := h
  obtain ⟨l1, l2⟩ := hd.updatePlain f m c (by rw [h5]; exact hp.2.2) (by rw [h5]) (by rw [h5]; exact hl) hu
  obtain ⟨l3, l4⟩ := hd.updateKind f m
  refine ⟨l1, h1, h2, e, h3, .step h4 hl hu, ?_⟩
  rw [h5] at l3 l4
  generalize view (d.cipher.update f m).1 = v at l2 l3 l4
  cases v
  simp_all

/-- What is known of a context in which pieces were processed. -/
theorem stream_state {view : σ → CipherView} (p : Prims) (hp : p.Good) (d : Device σ τ) (hm : MacsGood d.mac) (hd : d.cipher.Good view) (w0 : Ta σ τ) (h0 : start σ τ = some w0)
    (a : Place κ ρ π) {params : InitParams} {alg mode h : Nat} (hpl : Plain params alg) {rs : List (Request κ ρ π)} {pieces : List (Bytes × Bytes)}
    (m : Stream d w0 a params mode h rs pieces) (hf : ∀ r ∈ rs, r.Fine p) (hpr : ∀ r ∈ rs, PrivOk r) :
    (pieces = [] ∨ ∃ k f, Made p d view w0 a params alg mode pieces k f) ∧
    ∀ u' params' mode' k x, Opened p d w0 rs a.s h u' params' mode' k x → u' = a.u ∧ params' = params ∧ mode' = mode ∧ ∃ f, x = some f ∧ Made p d view w0 a params alg mode pieces k f := by
  induction m with
  | init hw hh =>
    refine ⟨Or.inl rfl, fun u' params' mode' k x o => ?_⟩
    rcases opened_last o rfl hw hh with ⟨_, _, _, h1, _, h3, h4, h5⟩ | ⟨_, _, _, _, _, _, _, _, _, _, _, _, _, _, _, _, h1, _⟩ | ⟨_, _, _, h1, _⟩ |
      ⟨_, _, _, _, _, _, _, _, _, _, _, _, _, _, h1, _⟩ | ⟨h1, _⟩ | ⟨_, _, _, _, _, _, _, _, _, h1, _⟩
    · cases h1
      refine ⟨rfl, rfl, rfl, ?_⟩
      cases x with
      | none => have := (show privately params = true from h5); rw [hpl.1] at this; cases this
      | some e =>
        obtain ⟨_, alg', g1, g2⟩ := h5
        rw [hpl.2.1] at g1; cases g1
        exact ⟨e, rfl, ⟨_, _, hw, h3⟩, ⟨_, (hf _ (List.mem_append_right _ (List.mem_singleton.2 rfl))).1, h4⟩, e, g2, .nil, hd.create _ _ _ _ _ g2⟩
    · cases h1
    · cases h1
    · cases h1
    · exact absurd ⟨rfl, rfl⟩ h1
    · cases h1
  | @fed rs pieces ts w w' up env mem ob ib bytes mem' out' in' n tag t x y m hw hh hb hl ht hx hy ih =>
    have hf' : ∀ r ∈ rs, r.Fine p := fun r hr => hf r (List.mem_append_left _ hr)
    have hpr' : ∀ r ∈ rs, PrivOk r := fun r hr => hpr r (List.mem_append_left _ hr)
    obtain ⟨_, ih⟩ := ih hf' hpr'
    have hup : up.Good := hpr _ (List.mem_append_right _ (List.mem_singleton.2 rfl))
    have hl' : isStreamAlg alg = true ∨ (readAt mem x bytes.toNat).length % 16 = 0 := by
      rw [readAt_length]
      rcases hl with ⟨alg', g1, g2⟩ | hl
      · rw [hpl.2.1] at g1; cases g1; exact Or.inl g2
      · exact Or.inr hl
    rcases (C107_process_partial p hp d hm hd w0 h0 rs hf' hpr' w ts hw a.s a.u h .more up hup env mem _ _ bytes w' .OK mem' out' in' n tag hh).2 with
      ⟨_, g⟩ | ⟨params', mode', k, x', t', ob', ib', a', b', outB, o, ht', e1, e2, _, l1, l2, hmem, g⟩
    · cases g rfl
    · cases e1; cases e2
      rw [ht] at ht'; cases ht'
      obtain ⟨_, rfl, rfl, f, rfl, hmade⟩ := ih _ _ _ _ _ o
      have hgives : (d.cipher.update f (readAt mem b' bytes.toNat)).2 = some outB := (g rfl).2 hb
      rw [← located_one hx l2] at hgives
      obtain ⟨hlen, hmade'⟩ := made_step hd hpl hmade hl' hgives
      rw [readAt_length] at hlen
      have hout : readAt mem' y bytes.toNat = outB := by
        rw [hlen] at l1
        rw [hmem, located_one hy l1, ← hlen]
        exact readAt_writeAt _ _ _
      rw [hout]
      refine ⟨Or.inr ⟨k, _, hmade'⟩, fun u2 params2 mode2 k2 x2 o2 => ?_⟩
      rcases opened_last o2 rfl hw hh with ⟨_, _, _, h1, _⟩ | ⟨_, _, _, _, _, _, _, _, _, _, _, _, _, _, _, _, h1, _, _, h2, h3, h4, h5, h6⟩ | ⟨_, _, _, h1, _⟩ |
        ⟨_, _, _, _, _, _, _, _, _, _, _, _, _, _, h1, h2, h3, _⟩ | ⟨h1, _⟩ | ⟨_, _, _, _, _, _, _, _, _, h1, _⟩
      · cases h1
      · cases h1
        obtain ⟨_, rfl, rfl, f2, rfl, hmade2⟩ := ih _ _ _ _ _ h2
        obtain ⟨_, _, _, rfl, _⟩ := C107_one hf' o h2
        have : f = f2 := by
          obtain ⟨_, _, e, c1, c2, _⟩ := hmade
          obtain ⟨_, _, e', c1', c2', _⟩ := hmade2
          rw [c1] at c1'; cases c1'
          exact ran_one c2 c2'
        subst this
        rw [ht] at h3; cases h3
        rw [← located_one hx h4] at h6
        exact ⟨rfl, rfl, rfl, _, h6, hmade'⟩
      · cases h1
      · cases h1
        cases h2
        rcases h3 with h3 | h3
        · exact absurd rfl h3
        · omega
      · exact absurd ⟨rfl, rfl, by simp⟩ h1
      · cases h1
  | other m hw hh hn ih =>
    obtain ⟨i1, i2⟩ := ih (fun r hr => hf r (List.mem_append_left _ hr)) (fun r hr => hpr r (List.mem_append_left _ hr))
    refine ⟨i1, fun u' params' mode' k x o => ?_⟩
    rcases opened_last o rfl hw hh with ⟨_, _, _, rfl, rfl, _⟩ | ⟨_, _, _, _, _, _, _, _, _, _, _, _, _, _, _, _, rfl, rfl, _⟩ | ⟨_, _, _, rfl, rfl, _⟩ |
      ⟨_, _, _, _, _, _, _, _, _, _, _, _, _, _, rfl, rfl, h3, _⟩ | ⟨_, h2⟩ | ⟨_, _, _, _, _, _, _, _, _, rfl, rfl, h3, _⟩
    · exact absurd ⟨rfl, rfl⟩ hn
    · exact absurd ⟨rfl, rfl, by simp⟩ hn
    · exact absurd ⟨rfl, rfl⟩ hn
    · refine absurd ⟨rfl, rfl, fun hn => ?_⟩ hn
      rcases h3 with h3 | h3
      · exact h3 hn.1
      · exact h3.1 hn.2
    · exact i2 _ _ _ _ _ h2
    · exact absurd ⟨rfl, h3⟩ hn

/-- The same for pieces of which the last may have been processed with the last call. -/
theorem processed_run {view : σ → CipherView} (p : Prims) (hp : p.Good) (d : Device σ τ) (hm : MacsGood d.mac) (hd : d.cipher.Good view) (w0 : Ta σ τ) (h0 : start σ τ = some w0)
    (a : Place κ ρ π) {params : InitParams} {alg mode h : Nat} (hpl : Plain params alg) {rs : List (Request κ ρ π)} {pieces : List (Bytes × Bytes)}
    (m : Processed d w0 a params mode h rs pieces) (hf : ∀ r ∈ rs, r.Fine p) (hpr : ∀ r ∈ rs, PrivOk r) :
    pieces = [] ∨ ∃ k e f, a.Is p d w0 k ∧ (∃ env : Env, env.prims = p ∧ useResult env k a.u = (.OK, some k)) ∧ d.cipher.create alg mode k.key params.sym = some e ∧
      Run d.cipher alg e pieces f := by
  cases m with
  | sofar m =>
    rcases (stream_state p hp d hm hd w0 h0 a hpl m hf hpr).1 with h1 | ⟨k, f, h1, h2, e, h3, h4, _⟩
    · exact Or.inl h1
    · exact Or.inr ⟨k, e, f, h1, h2, h3, h4.run⟩
  | @last rs pieces ts w w' tag up env mem ob ib bytes mem' out' in' n tag' t x y m hw hh hb hl ht hx hy =>
    have hf' : ∀ r ∈ rs, r.Fine p := fun r hr => hf r (List.mem_append_left _ hr)
    have hpr' : ∀ r ∈ rs, PrivOk r := fun r hr => hpr r (List.mem_append_left _ hr)
    have state := (stream_state p hp d hm hd w0 h0 a hpl m hf' hpr').2
    have hup : up.Good := hpr _ (List.mem_append_right _ (List.mem_singleton.2 rfl))
    have hl' : isStreamAlg alg = true ∨ (readAt mem x bytes.toNat).length % 16 = 0 := by
      rw [readAt_length]
      rcases hl with ⟨alg', g1, g2⟩ | hl
      · rw [hpl.2.1] at g1; cases g1; exact Or.inl g2
      · exact Or.inr hl
    rcases (C107_process_partial p hp d hm hd w0 h0 rs hf' hpr' w ts hw a.s a.u h (.last tag) up hup env mem _ _ bytes w' .OK mem' out' in' n tag' hh).2 with
      ⟨_, g⟩ | ⟨params', mode', k, x', t', ob', ib', a', b', outB, o, ht', e1, e2, _, l1, l2, hmem, g⟩
    · cases g rfl
    · cases e1; cases e2
      rw [ht] at ht'; cases ht'
      obtain ⟨_, rfl, rfl, f, rfl, h1, h2, e, h3, h4, h5⟩ := state _ _ _ _ _ o
      obtain ⟨f0, c, c', hg, hu, hfin, hout⟩ := (g rfl).2 hb
      rw [← located_one hx l2] at hu hfin
      have h6 : view f0 = view f ∧ Run d.cipher alg e pieces f0 := by
        by_cases hc : tagged params' = true ∧ mode' ≠ MODE_ENCRYPT
        · rw [if_pos hc] at hg
          obtain ⟨t, _, hg⟩ := hg
          exact ⟨hd.setTag _ _ _ hg, .tag h4.run hg⟩
        · rw [if_neg hc] at hg
          subst hg
          exact ⟨rfl, h4.run⟩
      rw [h5] at h6
      obtain ⟨hlen, _⟩ := hd.updatePlain f0 _ c (by rw [h6.1]; exact hpl.2.2) (by rw [h6.1]) (by rw [h6.1]; exact hl') hu
      have hkind := (hd.updateKind f0 (readAt mem x bytes.toNat)).1
      rw [h6.1] at hkind
      have hnil := (hd.finalPlain _ (by rw [hkind]; exact hpl.2.2)).2 _ hfin
      subst hnil
      rw [List.append_nil] at hout
      subst hout
      rw [readAt_length] at hlen
      have hout : readAt mem' y bytes.toNat = outB := by
        rw [hlen] at l1
        rw [hmem, located_one hy l1, ← hlen]
        exact readAt_writeAt _ _ _
      rw [hout]
      exact Or.inr ⟨k, e, _, h1, h2, h3, .step h6.2 hl' hu⟩

theorem stream_length {d : Device σ τ} {w0 : Ta σ τ} {a : Place κ ρ π} {params : InitParams} {mode h : Nat} {rs : List (Request κ ρ π)} {pieces : List (Bytes × Bytes)}
    (m : Stream d w0 a params mode h rs pieces) : (outs pieces).length = (ins pieces).length := by
  induction m with
  | init _ _ => rfl
  | fed _ _ _ _ _ _ _ _ ih =>
    unfold outs ins at ih ⊢
    rw [List.flatMap_append, List.flatMap_append, List.length_append, List.length_append, ih]
    simp [readAt_length]
  | other _ _ _ _ ih => exact ih

theorem processed_length {d : Device σ τ} {w0 : Ta σ τ} {a : Place κ ρ π} {params : InitParams} {mode h : Nat} {rs : List (Request κ ρ π)} {pieces : List (Bytes × Bytes)}
    (m : Processed d w0 a params mode h rs pieces) : (outs pieces).length = (ins pieces).length := by
  cases m with
  | sofar m => exact stream_length m
  | last m =>
    have ih := stream_length m
    unfold outs ins at ih ⊢
    rw [List.flatMap_append, List.flatMap_append, List.length_append, List.length_append, ih]
    simp [readAt_length]

/-- A key that is used at a place is the key of the place. -/
theorem is_one {p : Prims} {d : Device σ τ} {w0 : Ta σ τ} {a : Place κ ρ π} {k k' : StoredKey} (h : a.Is p d w0 k) (h' : a.Is p d w0 k') {env : Env} (he : env.prims = p)
    (hu : useResult env k' a.u = (.OK, some k')) : k' = k := by
  obtain ⟨w, ts, e, _, t, ht, hk⟩ := h
  obtain ⟨w', ts', e', _, t', ht', hk'⟩ := h'
  rw [e] at e'; cases e'
  rw [ht] at ht'; cases ht'
  exact KeyHeld.unique p _ _ _ _ _ env he hk (by rw [hk'.2 env he, hu])

/-! ## The property -/

/-- **C116.**  A key is at place `a`; `b` and `c` are places with copies of it.  With the copy at `b` data is encrypted, in any pieces; with the copy at `c` the result, or a part of it from its
beginning, is decrypted with the same parameters, in any pieces.  Whatever else was asked of the TA meanwhile, by anyone: what comes out is the data that was encrypted.
(Partial: for requests that are `Fine` and `PrivOk`, and for the algorithms without padding.) -/
theorem C116_back_partial {view : σ → CipherView} (p : Prims) (hp : p.Good) (d : Device σ τ) (hm : MacsGood d.mac) (hd : d.cipher.Good view) (hun : Undone d.cipher) (w0 : Ta σ τ)
    (h0 : start σ τ = some w0) (a : Place κ ρ π) (ha : ∀ r ∈ a.past, r.Fine p) (k0 : StoredKey) (hk0 : a.Is p d w0 k0)
    (b c : Place κ ρ π) (hb : Copy d w0 a b) (hc : Copy d w0 a c) (hbf : ∀ r ∈ b.past, r.Fine p) (hcf : ∀ r ∈ c.past, r.Fine p)
    (params : InitParams) (alg : Nat) (hpl : Plain params alg) (h h' : Nat) (rs rs' : List (Request κ ρ π)) (pieces pieces' : List (Bytes × Bytes))
    (enc : Processed d w0 b params MODE_ENCRYPT h rs pieces) (dec : Processed d w0 c params MODE_DECRYPT h' rs' pieces')
    (hrs : ∀ r ∈ rs, r.Fine p ∧ PrivOk r) (hrs' : ∀ r ∈ rs', r.Fine p ∧ PrivOk r) (hpre : ins pieces' <+: outs pieces) :
    outs pieces' = (ins pieces).take (ins pieces').length ∧ (ins pieces' = outs pieces → outs pieces' = ins pieces) := by
  have le := processed_length enc
  have main : outs pieces' = (ins pieces).take (ins pieces').length := by
    have ld := processed_length dec
    rcases processed_run p hp d hm hd w0 h0 b hpl enc (fun r hr => (hrs r hr).1) (fun r hr => (hrs r hr).2) with rfl | ⟨k, e, f, k1, ⟨env, k2, k3⟩, k4, k5⟩
    · have : ins pieces' = [] := by simpa [outs] using hpre
      rw [this] at ld ⊢
      simpa using ld
    rcases processed_run p hp d hm hd w0 h0 c hpl dec (fun r hr => (hrs' r hr).1) (fun r hr => (hrs' r hr).2) with rfl | ⟨k', e', f', l1, ⟨env', l2, l3⟩, l4, l5⟩
    · simp [outs, ins]
    obtain ⟨q, _, same⟩ := C114_same_partial p hp d hm w0 h0 a ha k0 hk0
    have e1 := is_one (same b hb hbf) k1 k2 k3
    have e2 := is_one (same c hc hcf) l1 l2 l3
    subst e1 e2
    exact hun alg _ _ e e' pieces pieces' f f' hpl.2.2 k4 l4 k5 l5 hpre
  refine ⟨main, fun all => ?_⟩
  rw [main, all, le, List.take_length]

/-! ## A key, a context for encryption, and one for decryption -/

/-- A toy cipher: adds the first byte of the key to every byte, or subtracts it.  It does no padding. -/
def adder : CipherPrim (Nat × Nat × UInt8) where
  create alg mode key _ := some (alg, mode, key.headD 0)
  update s b :=
    if isPkcs7Alg s.1 = true then (s, none)
    else (s, some (b.map fun x => if s.2.1 = MODE_ENCRYPT then x + s.2.2 else x - s.2.2))
  final s := if isPkcs7Alg s.1 = true ∧ s.2.1 = MODE_ENCRYPT then (s, some (List.replicate 16 0)) else (s, some [])
  setIv s _ := some s
  getTag _ := some []
  setTag s _ := some s

def adderView (s : Nat × Nat × UInt8) : CipherView := ⟨s.1, s.2.1, 0⟩

theorem adder_good : adder.Good adderView := by
  constructor
  · intro alg mode key sp s h; cases h; rfl
  · intro s b; unfold adder; simp only; split <;> exact ⟨rfl, rfl⟩
  · intro s b _; unfold adder; simp only; split <;> rfl
  · intro s b o h1 _ _ h
    have h1 : isPkcs7Alg s.1 = false := h1
    simp only [adder, h1, Bool.false_eq_true, if_false, Option.some.injEq] at h ⊢
    subst h
    exact ⟨by rw [List.length_map], rfl⟩
  · intro s b o h1 _ h
    have h1 : isPkcs7Alg s.1 = true := h1
    simp [adder, h1] at h
  · intro s b o h1 _ h
    have h1 : isPkcs7Alg s.1 = true := h1
    simp [adder, h1] at h
  · intro s; unfold adder; simp only; split <;> exact ⟨rfl, rfl⟩
  · intro s h1
    have h1 : isPkcs7Alg s.1 = false := h1
    simp only [adder, h1, Bool.false_eq_true, false_and, if_false]
    exact ⟨trivial, fun f h => by cases h; rfl⟩
  · intro s h1 h2 _
    have h1 : isPkcs7Alg s.1 = true := h1
    have h2 : s.2.1 = MODE_ENCRYPT := h2
    simp only [adder, h1, h2, and_self, if_true]
    exact ⟨rfl, _, rfl, by rw [List.length_replicate]⟩
  · intro s h1 h2
    have h2 : ¬s.2.1 = MODE_ENCRYPT := h2
    simp only [adder, h2, and_false, if_false]
    exact ⟨Or.inl rfl, fun f h => by cases h; simp⟩
  · intro s iv s' h; cases h; rfl
  · intro s t s' h; cases h; rfl

theorem adder_ran {alg mode : Nat} {v : UInt8} (ha : isPkcs7Alg alg = false) {pieces : List (Bytes × Bytes)} {f : Nat × Nat × UInt8} (h : Run adder alg (alg, mode, v) pieces f) :
    f = (alg, mode, v) ∧ outs pieces = (ins pieces).map fun x => if mode = MODE_ENCRYPT then x + v else x - v := by
  induction h with
  | nil => exact ⟨rfl, rfl⟩
  | @step pieces f m c _ _ h ih =>
    obtain ⟨rfl, ih⟩ := ih
    simp only [adder, ha, Bool.false_eq_true, if_false, Option.some.injEq] at h ⊢
    refine ⟨trivial, ?_⟩
    unfold outs ins at ih ⊢
    simp only [List.flatMap_append, List.map_append, ih, ← h, List.flatMap_cons, List.flatMap_nil, List.append_nil]
  | tag _ h ih => cases h; exact ih

/-- The library of the theorem can be had. -/
theorem adder_undone : Undone adder := by
  intro alg key sp e f pieces pieces' e' f' ha he hf h h' hp
  cases he; cases hf
  have g := (adder_ran ha h).2
  have g' := (adder_ran ha h').2
  rw [g']
  obtain ⟨t, ht⟩ := hp
  rw [g] at ht
  have : ins pieces' = ((ins pieces).take (ins pieces').length).map fun x => x + key.headD 0 := by
    have := congrArg (List.take (ins pieces').length) ht
    rw [List.take_left, ← List.map_take] at this
    simpa using this
  generalize hn : (ins pieces').length = n at this
  rw [this, List.map_map]
  exact (List.map_congr_left fun x _ => by simp [show ¬MODE_DECRYPT = MODE_ENCRYPT by decide]).trans (List.map_id _)

def dev : Device (Nat × Nat × UInt8) (MacKind × Bytes × Bytes) := ⟨adder, C106.toyPrim⟩

def keyed : List (Request Unit Unit Unit) := [.open C08.u7 1, .call 31 C08.u7 (.keys gen1)]
def at31 : Place Unit Unit Unit := ⟨keyed, 31, C08.u7, 31⟩
def ctr : InitParams := .ctr (some (some (List.replicate 16 1)))
def opening (mode : Nat) : Request Unit Unit Unit := .call 31 C08.u7 (.cipherInit env1 ctr mode 31 C36.ienv)
def two (mem : Mem) : Request Unit Unit Unit := .call 31 C08.u7 (.cipherProcess .more C34.noUnwrap C27.renv mem 31 (some (C34.outBuf 32)) (C34.inBuf 2) 2)

example : Plain ctr CIPHER_AES_CTR := ⟨rfl, rfl, rfl⟩

/-- Two bytes are processed in the context, with this result. -/
def gives (mode : Nat) (mem : Mem) (v : UInt8) : Bool :=
  (start (Nat × Nat × UInt8) (MacKind × Bytes × Bytes)).any fun w0 => (handleAll dev w0 keyed).any fun r => (handle dev r.1 (opening mode)).any fun r1 =>
    (match r1.2 with | .reply (.made .OK h) => h == 31 | _ => false) && (tablesOf r1.1 31).isSome && (handle dev r1.1 (two mem)).any fun r2 =>
      match r2.2 with | .reply (.processed .OK m _ _ _ _) => m 0x200000000 == v && m 0x200000001 == v | _ => false

theorem stream_of {mode : Nat} {mem : Mem} {v : UInt8} (h : gives mode mem v = true) :
    ∃ w0, start (Nat × Nat × UInt8) (MacKind × Bytes × Bytes) = some w0 ∧
      Stream dev w0 at31 ctr mode 31 (keyed ++ [opening mode] ++ [two mem]) [([mem 0x400000000, mem 0x400000001], [v, v])] := by
  unfold gives at h
  cases h0 : start (Nat × Nat × UInt8) (MacKind × Bytes × Bytes) with
  | none => simp [h0] at h
  | some w0 =>
  cases hw : handleAll dev w0 keyed with
  | none => simp [h0, hw] at h
  | some r =>
  obtain ⟨w, ts⟩ := r
  cases hx : handle dev w (opening mode) with
  | none => simp [h0, hw, hx] at h
  | some q =>
  obtain ⟨w1, told⟩ := q
  cases hy : handle dev w1 (two mem) with
  | none => simp [h0, hw, hx, hy] at h
  | some q =>
  obtain ⟨w2, told2⟩ := q
  cases ht : tablesOf w1 31 with
  | none => simp [h0, hw, hx, ht] at h
  | some t =>
  simp only [h0, hw, hx, hy, ht, Option.any_some, Option.isSome_some, Bool.and_true, Bool.and_eq_true] at h
  obtain ⟨h1, h2⟩ := h
  split at h1
  · rename_i x
    have hx31 : x = 31 := by simpa using h1
    subst hx31
    split at h2
    · rename_i m _ _ _ _
      simp only [Bool.and_eq_true, beq_iff_eq] at h2
      have s1 : Stream dev w0 at31 ctr mode 31 (keyed ++ [opening mode]) [] := Stream.init (a := at31) hw hx
      have hw1 := handleAll_snoc dev keyed _ _ _ hw _ _ _ hx
      have s2 := Stream.fed (a := at31) s1 hw1 hy (by decide) (Or.inl ⟨_, rfl, rfl⟩) ht (x := 0x400000000) (y := 0x200000000) ⟨by decide, by decide, by decide, by decide⟩
        ⟨by decide, by decide, by decide, by decide⟩
      refine ⟨w0, rfl, ?_⟩
      have e : readAt m 0x200000000 (2 : UInt64).toNat = [v, v] := by
        rw [← h2.1]
        show [m 0x200000000, m 0x200000001] = _
        rw [h2.2, h2.1]
      rw [e] at s2
      exact s2
    · cases h2
  · cases h1

/-- Two bytes 9 become 16; with a context for decryption two bytes 16 become 9. -/
theorem encrypts : gives MODE_ENCRYPT C34.mem0 16 = true := by decide +kernel
theorem decrypts : gives MODE_DECRYPT (fun _ => 16) 9 = true := by decide +kernel

theorem keyed_fine : ∀ r ∈ keyed, r.Fine light := by
  intro r hr
  simp only [keyed, List.mem_cons, List.not_mem_nil, or_false] at hr
  rcases hr with rfl | rfl
  · exact True.intro
  · exact (⟨rfl, C52.genv_good, fun n e => by simp at e⟩ : gen1.Fine light)

theorem request_fine (mode : Nat) (mem : Mem) : ∀ r ∈ keyed ++ [opening mode] ++ [two mem], r.Fine light ∧ PrivOk r := by
  intro r hr
  rw [List.append_assoc] at hr
  rcases List.mem_append.mp hr with hr | hr
  · refine ⟨keyed_fine r hr, ?_⟩
    simp only [keyed, List.mem_cons, List.not_mem_nil, or_false] at hr
    rcases hr with rfl | rfl <;> exact True.intro
  · simp only [List.cons_append, List.nil_append, List.mem_cons, List.not_mem_nil, or_false] at hr
    rcases hr with rfl | rfl
    · exact ⟨⟨rfl, fun h => absurd h (by decide)⟩, True.intro⟩
    · exact ⟨True.intro, noUnwrap_good⟩

/-- The hypotheses are met by these two streams (of the copies that are the handle itself), and what the theorem says of them is that 9, 9 comes back. -/
example : ∃ w0, start (Nat × Nat × UInt8) (MacKind × Bytes × Bytes) = some w0 ∧ Copy dev w0 at31 at31 ∧
    Stream dev w0 at31 ctr MODE_ENCRYPT 31 (keyed ++ [opening MODE_ENCRYPT] ++ [two C34.mem0]) [([9, 9], [16, 16])] ∧
    Stream dev w0 at31 ctr MODE_DECRYPT 31 (keyed ++ [opening MODE_DECRYPT] ++ [two fun _ => 16]) [([16, 16], [9, 9])] ∧
    ins [([16, 16], [9, 9])] <+: outs [([9, 9], ([16, 16] : Bytes))] := by
  obtain ⟨w0, h0, h1⟩ := stream_of encrypts
  obtain ⟨w0', h0', h2⟩ := stream_of decrypts
  rw [h0] at h0'; cases h0'
  exact ⟨w0, h0, .here, h1, h2, ⟨[], rfl⟩⟩

def lastTwo (mem : Mem) : Request Unit Unit Unit := .call 31 C08.u7 (.cipherProcess (.last none) C34.noUnwrap C27.renv mem 31 (some (C34.outBuf 32)) (C34.inBuf 2) 2)

theorem finishes : ((start (Nat × Nat × UInt8) (MacKind × Bytes × Bytes)).any fun w0 => (handleAll dev w0 keyed).any fun r => (handle dev r.1 (opening MODE_ENCRYPT)).any fun r1 =>
    (match r1.2 with | .reply (.made .OK h) => h == 31 | _ => false) && (tablesOf r1.1 31).any fun _ => (handle dev r1.1 (lastTwo C34.mem0)).any fun r2 =>
      match r2.2 with | .reply (.processed .OK m _ _ _ _) => m 0x200000000 == 16 && m 0x200000001 == 16 | _ => false) = true := by decide +kernel

/-- Data may be processed with the last call, too. -/
example : ∃ w0 c, start (Nat × Nat × UInt8) (MacKind × Bytes × Bytes) = some w0 ∧
    Processed dev w0 at31 ctr MODE_ENCRYPT 31 (keyed ++ [opening MODE_ENCRYPT] ++ [lastTwo C34.mem0]) [([9, 9], c)] := by
  obtain ⟨w0, h0, g1⟩ := (Option.any_eq_true _ _).1 finishes
  obtain ⟨⟨w, ts⟩, hw, g2⟩ := (Option.any_eq_true _ _).1 g1
  obtain ⟨⟨w1, t1⟩, h1, g3⟩ := (Option.any_eq_true _ _).1 g2
  obtain ⟨c1, g4⟩ := Bool.and_eq_true_iff.1 g3
  obtain ⟨t, ht, g5⟩ := (Option.any_eq_true _ _).1 g4
  obtain ⟨⟨w2, t2⟩, h2, c2⟩ := (Option.any_eq_true _ _).1 g5
  simp only at c1 c2
  split at c1
  · rename_i x
    have hx31 : x = 31 := by simpa using c1
    subst hx31
    split at c2
    · have s1 : Stream dev w0 at31 ctr MODE_ENCRYPT 31 (keyed ++ [opening MODE_ENCRYPT]) [] := Stream.init (a := at31) hw h1
      have e1 := handleAll_snoc dev keyed _ _ _ hw _ _ _ h1
      exact ⟨w0, _, h0, Processed.last (a := at31) s1 e1 h2 (by decide) (Or.inl ⟨_, rfl, rfl⟩) ht (x := 0x400000000) (y := 0x200000000) ⟨by decide, by decide, by decide, by decide⟩
        ⟨by decide, by decide, by decide, by decide⟩⟩
    · cases c2
  · cases c1

/-- The key is there. -/
example : ∃ w0 k, start (Nat × Nat × UInt8) (MacKind × Bytes × Bytes) = some w0 ∧ at31.Is light dev w0 k := by
  have h : ((start (Nat × Nat × UInt8) (MacKind × Bytes × Bytes)).any fun w0 => (handleAll dev w0 keyed).any fun r =>
      decide (C104.holders keyed r.2 31 = some C08.u7) && books keyed r.2 31 31) = true := by decide +kernel
  cases h0 : start (Nat × Nat × UInt8) (MacKind × Bytes × Bytes) with
  | none => simp [h0] at h
  | some w0 =>
  cases hw : handleAll dev w0 keyed with
  | none => simp [h0, hw] at h
  | some r =>
  simp only [h0, hw, Option.any_some, Bool.and_eq_true, decide_eq_true_eq] at h
  obtain ⟨k, hk⟩ := (C105_book_partial light light_good dev macs_good w0 h0 keyed keyed_fine r.1 r.2 hw 31 C08.u7 31).1.2 h
  exact ⟨w0, k, rfl, r.1, r.2, hw, hk⟩

end Sa.Whole.C116

import Verif.Lemmas.CipherWatch
import Verif.Lemmas.Inquiry
import Verif.Lemmas.WholeCenc
import Verif.Props.C106

/-!
# C107: data is encrypted or decrypted with the key which the handle denoted, and in the order in which it was processed

For the TA as a whole: any number of sessions and callers, all calls.
-/

namespace Sa.Whole.C107

open C105 C106

variable {κ ρ π σ τ : Type}

/-! ## The history of a cipher context -/

/-- A request that, with this answer, makes cipher context `h` of session `s`, changes it or ends it. -/
def Handles (s h : Nat) : Request κ ρ π → Told → Prop
  | .open _ _, .opened .OK s' => s' = s
  | .close s' _, .closed .OK => s' = s
  | .call s' _ (.cipherInit _ _ _ _ _), .reply (.made .OK h') => s' = s ∧ h' = h
  | .call s' _ (.cipherProcess _ _ _ _ h' out _ _), .reply (.processed st _ _ _ _ _) => s' = s ∧ h' = h ∧ ¬(st = .OK ∧ out = none)
  | .call s' _ (.cenc _ _ _ _ samples), .reply (.samples _ _ _) => s' = s ∧ ∃ q ∈ samples, q.context = h
  | .call s' _ (.cipherUpdateIv h' _), .reply (.status .OK) => s' = s ∧ h' = h
  | .call s' _ (.cipherRelease h'), .reply (.status .OK) => s' = s ∧ h' = h
  | _, _ => False

/-- The algorithms of private keys. -/
def privately : InitParams → Bool
  | .pkcs1v15 => true
  | .oaep _ => true
  | .elgamal => true
  | _ => false

/-- The state of the library with which a context begins: that of a new context of the library for the bytes of the key and the parameters given; none if the algorithm is one of private
keys. -/
def Starts (p : CipherPrim σ) (params : InitParams) (mode : Nat) (k : StoredKey) : Option σ → Prop
  | some e => privately params = false ∧ ∃ alg, params.alg = some alg ∧ p.create alg mode k.key params.sym = some e
  | none => privately params = true

/-- By the history `rs`, cipher context `h` of session `s` was made by `u` with the parameters `params`, for encryption or decryption (`mode`), with key `k`, and has not been released; `x` is
the state in which the library's context is.  It is determined by the data processed with success, in order, and by the IVs set; of a call that failed, and of one
that processes samples in common encryption, it is known only that it called the library with the context. -/
inductive Opened (p : Prims) (d : Device σ τ) (w0 : Ta σ τ) : List (Request κ ρ π) → Nat → Nat → Uuid → InitParams → Nat → StoredKey → Option σ → Prop where
  | init {rs ts w w' s h u env params mode key ienv k x} : handleAll (κ := κ) (ρ := ρ) (π := π) d w0 rs = some (w, ts) →
      handle (κ := κ) (ρ := ρ) (π := π) d w (.call s u (.cipherInit env params mode key ienv)) = some (w', .reply (.made .OK h)) →
      Denotes p w s u key k → useResult env k u = (.OK, some k) → modeAllowed ienv.rights mode k.header.rights (k.header.type.toNat == KEY_TYPE_SYMMETRIC) = true →
      Starts d.cipher params mode k x → Opened p d w0 (rs ++ [.call s u (.cipherInit env params mode key ienv)]) s h u params mode k x
  | fed {rs ts w w' s h u params mode k x kind up env mem out ib bytes mem' out' in' n tag t b alg x'} : Opened p d w0 rs s h u params mode k x →
      handleAll (κ := κ) (ρ := ρ) (π := π) d w0 rs = some (w, ts) →
      handle (κ := κ) (ρ := ρ) (π := π) d w (.call s u (.cipherProcess kind up env mem h (some out) (.buf ib) bytes)) = some (w', .reply (.processed .OK mem' out' in' n tag)) →
      bytes.toNat < 2 ^ 31 → tablesOf w s = some t → Located t.svps u ib bytes.toNat b → params.alg = some alg →
      Then d.cipher kind alg mode (readAt mem b bytes.toNat) x x' →
      Opened p d w0 (rs ++ [.call s u (.cipherProcess kind up env mem h (some out) (.buf ib) bytes)]) s h u params mode k x'
  | iv {rs ts w w' s h u params mode k e iv e'} : Opened p d w0 rs s h u params mode k (some e) → handleAll (κ := κ) (ρ := ρ) (π := π) d w0 rs = some (w, ts) →
      handle (κ := κ) (ρ := ρ) (π := π) d w (.call s u (.cipherUpdateIv h (some iv))) = some (w', .reply (.status .OK)) → d.cipher.setIv e iv = some e' →
      Opened p d w0 (rs ++ [.call s u (.cipherUpdateIv h (some iv))]) s h u params mode k (some e')
  | lost {rs ts w w' s h u params mode k x kind up env mem out input bytes st mem' out' in' n tag x'} : Opened p d w0 rs s h u params mode k x →
      handleAll (κ := κ) (ρ := ρ) (π := π) d w0 rs = some (w, ts) →
      handle (κ := κ) (ρ := ρ) (π := π) d w (.call s u (.cipherProcess kind up env mem h out input bytes)) = some (w', .reply (.processed st mem' out' in' n tag)) →
      st ≠ .OK ∨ (out ≠ none ∧ 2 ^ 31 ≤ bytes.toNat) → Moves d.cipher x x' →
      Opened p d w0 (rs ++ [.call s u (.cipherProcess kind up env mem h out input bytes)]) s h u params mode k x'
  | cenc {rs ts w w' s h u params mode k x env fuel mem bufs samples st mem' bufs' x'} : Opened p d w0 rs s h u params mode k x →
      handleAll (κ := κ) (ρ := ρ) (π := π) d w0 rs = some (w, ts) →
      handle (κ := κ) (ρ := ρ) (π := π) d w (.call s u (.cenc env fuel mem bufs samples)) = some (w', .reply (.samples st mem' bufs')) → (∃ q ∈ samples, q.context = h) →
      Moves d.cipher x x' → Opened p d w0 (rs ++ [.call s u (.cenc env fuel mem bufs samples)]) s h u params mode k x'
  | other {rs ts w w' s h u params mode k x r told} : Opened p d w0 rs s h u params mode k x → handleAll (κ := κ) (ρ := ρ) (π := π) d w0 rs = some (w, ts) →
      handle (κ := κ) (ρ := ρ) (π := π) d w r = some (w', told) → ¬Handles s h r told → Opened p d w0 (rs ++ [r]) s h u params mode k x

/-- The modes with a tag. -/
def tagged : InitParams → Bool
  | .gcm _ => true
  | .poly _ => true
  | _ => false

/-- What the library gives for `m` in the state `x` of a context made with `params` for `mode` with key `k`. -/
def Gives (p : CipherPrim σ) (up : UnwrapPrims) (kind : ProcKind) (params : InitParams) (mode : Nat) (k : StoredKey) (x : Option σ) (m out : Bytes) : Prop :=
  match x, kind with
  | some e, .more => (p.update e m).2 = some out
  | some e, .last tag => ∃ e0 a b,
      (if tagged params = true ∧ mode ≠ MODE_ENCRYPT then ∃ t, tag = some (some t) ∧ p.setTag e t = some e0 else e0 = e) ∧
      (p.update e0 m).2 = some a ∧ (p.final (p.update e0 m).1).2 = some b ∧ out = a ++ b
  | none, .more =>
    match params with
    | .pkcs1v15 => up.rsaPkcs1 k.key m = some out
    | .oaep (some (digest, mgf1, label)) => up.rsaOaep k.key digest mgf1 label.get m = some out
    | .elgamal => ∃ point, up.elgamal k.key (curveOf k.header.typeParameters) m = some point ∧ out = point.take k.header.size.toNat
    | _ => False
  | none, .last _ => False

theorem tagged_iff {params : InitParams} {alg : Nat} (h : params.alg = some alg) : isAead alg = tagged params := by
  cases params with
  | ecb b => cases b <;> cases h <;> rfl
  | cbc b _ => cases b <;> cases h <;> rfl
  | _ => cases h <;> rfl

theorem gives_of {p : CipherPrim σ} {view : σ → CipherView} {up : UnwrapPrims} {kind : ProcKind} {params : InitParams} {o : CipherObj} {k : StoredKey} {ctx : Option (SymCtx σ)} {m out : Bytes}
    (ha : params.alg = some o.alg) (ho : OaepOf params o) (hg : GoodCtx view o k ctx) (h : CipherOutputs p up kind o k ctx m out) :
    Gives p up kind params o.mode k (ctx.map (·.evp)) m out := by
  unfold CipherOutputs at h
  unfold Gives
  cases ctx with
  | some c =>
    cases kind with
    | more => exact h
    | last tag => simpa [tagged_iff ha] using h
  | none =>
    cases kind with
    | last tag => exact h
    | more =>
      simp only [Option.map_none] at h ⊢
      have asym := hg.asym rfl
      cases params with
      | ecb b => cases b <;> (simp only [InitParams.alg, Option.some.injEq] at ha; rw [← ha] at asym; exfalso; revert asym; decide)
      | cbc b x => cases b <;> (simp only [InitParams.alg, Option.some.injEq] at ha; rw [← ha] at asym; exfalso; revert asym; decide)
      | pkcs1v15 =>
        simp only [InitParams.alg, Option.some.injEq] at ha
        rw [if_pos ha.symm] at h
        exact h
      | oaep q =>
        simp only [InitParams.alg, Option.some.injEq] at ha
        rw [if_neg (by rw [← ha]; decide), if_pos ha.symm] at h
        obtain ⟨a, b, l, rfl, e⟩ := ho q rfl
        rw [e] at h
        exact h
      | elgamal =>
        simp only [InitParams.alg, Option.some.injEq] at ha
        rw [if_neg (by rw [← ha]; decide), if_neg (by rw [← ha]; decide)] at h
        exact h
      | unknown => cases ha
      | _ => simp only [InitParams.alg, Option.some.injEq] at ha; rw [← ha] at asym; exfalso; revert asym; decide

/-! ## The calls on cipher contexts -/

/-- A call is on cipher contexts, or leaves them. -/
theorem serve_cipher (p : Prims) (d : Device σ τ) (t t' : Tables σ τ) (ok : SvpsOk t.svps) (u : Uuid) (c : Cmd κ ρ π) (hf : c.Fine p) (q : Reply) (h : serve d t u c = some (t', q)) :
    (t'.ciphers = t.ciphers ∧ SvpInv t'.svps ∧ ∀ s h, ¬Handles (κ := κ) (ρ := ρ) (π := π) s h (.call s u c) (.reply q)) ∨
    (∃ env params mode key ienv ks a r, c = .cipherInit env params mode key ienv ∧ keyStoreUnwrap env t.keys key u = some (ks, a) ∧
      cipherInit d.cipher t.ciphers params mode a ienv u = some r ∧ t'.ciphers = r.1 ∧ t'.svps = t.svps ∧ q = .made r.2.1 r.2.2) ∨
    (∃ kind up env mem x out input bytes r, c = .cipherProcess kind up env mem x out input bytes ∧
      cipherProcess kind d.cipher up env t.ciphers t.svps mem x out input bytes u = some r ∧ t'.ciphers = r.world ∧ t'.svps = r.svp ∧
      q = .processed r.status r.mem r.out r.input r.bytes r.tag) ∨
    (∃ x iv r, c = .cipherUpdateIv x iv ∧ cipherUpdateIv d.cipher t.ciphers x iv u = some r ∧ t'.ciphers = r.1 ∧ t'.svps = t.svps ∧ q = .status r.2) ∨
    (∃ x r, c = .cipherRelease x ∧ cipherRelease t.ciphers x u = some r ∧ t'.ciphers = r.1 ∧ t'.svps = t.svps ∧ q = (match r.2 with | some s => .status s | none => .waits)) ∨
    (∃ env fuel mem bufs samples r, c = .cenc env fuel mem bufs samples ∧ cencCall d.cipher env fuel t.ciphers t.svps mem bufs samples u = some r ∧ t'.ciphers = r.world ∧ t'.svps = r.svp ∧
      q = .samples r.status r.mem r.bufs) := by
  have hv := ok.inv
  cases c with
  | cipherInit env params mode key ienv =>
    simp only [serve] at h
    cases hk : keyStoreUnwrap env t.keys key u with
    | none => rw [hk] at h; simp at h
    | some y =>
      obtain ⟨ks, a1, a2⟩ := y
      rw [hk] at h
      simp only [Option.map_eq_some_iff, Prod.mk.injEq] at h
      obtain ⟨y, hy, rfl, rfl⟩ := h
      exact Or.inr (Or.inl ⟨env, params, mode, key, ienv, ks, (a1, a2), y, rfl, hk, hy, rfl, rfl, rfl⟩)
  | cipherProcess kind up env mem x out input bytes =>
    simp only [serve, Option.map_eq_some_iff, Prod.mk.injEq] at h
    obtain ⟨y, hy, rfl, rfl⟩ := h
    exact Or.inr (Or.inr (Or.inl ⟨kind, up, env, mem, x, out, input, bytes, y, rfl, hy, rfl, rfl, rfl⟩))
  | cipherUpdateIv x iv =>
    simp only [serve, Option.map_eq_some_iff, Prod.mk.injEq] at h
    obtain ⟨y, hy, rfl, rfl⟩ := h
    exact Or.inr (Or.inr (Or.inr (Or.inl ⟨x, iv, y, rfl, hy, rfl, rfl, rfl⟩)))
  | cipherRelease x =>
    simp only [serve, Option.map_eq_some_iff, Prod.mk.injEq] at h
    obtain ⟨y, hy, rfl, rfl⟩ := h
    exact Or.inr (Or.inr (Or.inr (Or.inr (Or.inl ⟨x, y, rfl, hy, rfl, rfl, rfl⟩))))
  | cenc env fuel mem bufs samples =>
    simp only [serve, Option.map_eq_some_iff, Prod.mk.injEq] at h
    obtain ⟨y, hy, rfl, rfl⟩ := h
    exact Or.inr (Or.inr (Or.inr (Or.inr (Or.inr ⟨env, fuel, mem, bufs, samples, y, rfl, hy, rfl, rfl, rfl⟩))))
  | keys c =>
    simp only [serve, Option.map_eq_some_iff, Prod.mk.injEq] at h
    obtain ⟨y, hy, rfl, rfl⟩ := h
    exact Or.inl ⟨rfl, hv, by simp [Handles]⟩
  | macInit env alg digest key ok =>
    simp only [serve] at h
    split at h
    · cases h
    · cases h
      exact Or.inl ⟨rfl, hv, by simp [Handles]⟩
  | macProcessKey env x key =>
    simp only [serve] at h
    split at h
    · cases h
    · simp only [Option.map_eq_some_iff, Prod.mk.injEq] at h
      obtain ⟨y, hy, rfl, rfl⟩ := h
      exact Or.inl ⟨rfl, hv, by simp [Handles]⟩
  | svpCheck e x offset length digest hash hashLength =>
    obtain ⟨s, h1, _⟩ := C68.C68_partial e hf.1 t.svps ok.reach x (ok.buffer x) offset length digest hash hashLength hf.2 u
    simp only [serve, h1, Option.map_some, Option.some.injEq, Prod.mk.injEq] at h
    obtain ⟨rfl, rfl⟩ := h
    exact Or.inl ⟨rfl, hv, by simp [Handles]⟩
  | svpKeyCheck a b e f g i =>
    simp only [serve, Option.map_eq_some_iff, Prod.mk.injEq] at h
    obtain ⟨y, hy, rfl, rfl⟩ := h
    exact Or.inl ⟨rfl, by rw [show (_ : Tables σ τ).svps = y.2.1 from rfl, keyCheck_svps hv hy]; exact hv, by simp [Handles]⟩
  | svpRelease x =>
    simp only [serve] at h
    rcases svpRelease_cases t.svps hv x u with ⟨_, _, e⟩ | ⟨_, e, i, _⟩ | ⟨_, _, e, i, _⟩ | ⟨_, _, e, i, _⟩
    · rw [e] at h; cases h; exact Or.inl ⟨rfl, hv, by simp [Handles]⟩
    · rw [e] at h; cases h; exact Or.inl ⟨rfl, i, by simp [Handles]⟩
    · rw [e] at h; cases h; exact Or.inl ⟨rfl, i, by simp [Handles]⟩
    · rw [e] at h; cases h; exact Or.inl ⟨rfl, i, by simp [Handles]⟩
  | svpCreate a b => simp only [serve] at h; cases h; exact Or.inl ⟨rfl, svpCreate_inv _ hv _ _ _, by simp [Handles]⟩
  | svpWrite a b x y => simp only [serve] at h; cases h; exact Or.inl ⟨rfl, by simp only [taSvpBufferWrite_store _ hv]; exact hv, by simp [Handles]⟩
  | svpCopy a b x => simp only [serve] at h; cases h; exact Or.inl ⟨rfl, by simp only [taSvpBufferCopy_store _ hv]; exact hv, by simp [Handles]⟩
  | _ =>
    simp only [serve, Option.map_eq_some_iff, Prod.mk.injEq] at h
    obtain ⟨y, hy, rfl, rfl⟩ := h
    exact Or.inl ⟨rfl, hv, by simp [Handles]⟩

/-! ## Histories -/

/-- Of the library's functions for private keys, which the device brings along with a call, it is assumed that they write no more than they may. -/
def PrivOk : Request κ ρ π → Prop
  | .call _ _ (.cipherProcess _ up _ _ _ _ _ _) => up.Good
  | _ => True

/-- What holds after the history `rs`. -/
structure Known (p : Prims) (d : Device σ τ) (view : σ → CipherView) (w0 : Ta σ τ) (rs : List (Request κ ρ π)) (w : Ta σ τ) : Prop where
  inv : C105.WInv p d w
  run : ∃ ts, handleAll d w0 rs = some (w, ts)
  svps : ∀ s t, tablesOf w s = some t → SvpInv t.svps
  good : ∀ s t, tablesOf w s = some t → CtxAll (GoodCtx view) t.ciphers
  ciphers : ∀ s t, tablesOf w s = some t → ∀ h u ptr o sk ctx, HasCtx t.ciphers h u ptr o sk ctx → u = (w.clients.obj s).ownerUuid ∧
    ∃ params, params.alg = some o.alg ∧ OaepOf params o ∧ Opened p d w0 rs s h u params o.mode sk (ctx.map (·.evp))

theorem starts_of {p : CipherPrim σ} {params : InitParams} {o : CipherObj} {k : StoredKey} {ctx : Option (SymCtx σ)} (ha : params.alg = some o.alg)
    (hc : match ctx with | none => True | some c => p.create o.alg o.mode k.key params.sym = some c.evp)
    (hn : ctx = none ↔ o.alg = CIPHER_RSA_PKCS1V15 ∨ o.alg = CIPHER_RSA_OAEP ∨ o.alg = CIPHER_EC_ELGAMAL) : Starts p params o.mode k (ctx.map (·.evp)) := by
  have key : privately params = true ↔ o.alg = CIPHER_RSA_PKCS1V15 ∨ o.alg = CIPHER_RSA_OAEP ∨ o.alg = CIPHER_EC_ELGAMAL := by
    cases params with
    | ecb b => cases b <;> (simp only [InitParams.alg, Option.some.injEq] at ha; rw [← ha]; decide)
    | cbc b x => cases b <;> (simp only [InitParams.alg, Option.some.injEq] at ha; rw [← ha]; simp only [privately]; decide)
    | unknown => cases ha
    | _ => simp only [InitParams.alg, Option.some.injEq] at ha; rw [← ha]; simp only [privately]; decide
  rw [← hn] at key
  cases ctx with
  | some c => exact ⟨by cases hq : privately params with | false => rfl | true => exact absurd (key.1 hq) (by simp), o.alg, ha, hc⟩
  | none => exact key.2 rfl

theorem handles_init {s h h' : Nat} {u : Uuid} {env : Env} {params : InitParams} {mode key : Nat} {ienv : InitEnv} {st : Status}
    (hh : Handles (κ := κ) (ρ := ρ) (π := π) s h (.call s u (.cipherInit env params mode key ienv)) (.reply (.made st h'))) : st = .OK ∧ h' = h := by
  cases st <;> first | exact ⟨rfl, hh.2⟩ | exact hh.elim

theorem handles_iv {s h x : Nat} {u : Uuid} {iv : Option Bytes} {st : Status}
    (hh : Handles (κ := κ) (ρ := ρ) (π := π) s h (.call s u (.cipherUpdateIv x iv)) (.reply (.status st))) : st = .OK ∧ x = h := by
  cases st <;> first | exact ⟨rfl, hh.2⟩ | exact hh.elim

theorem handles_release {s h x : Nat} {u : Uuid} {st : Option Status}
    (hh : Handles (κ := κ) (ρ := ρ) (π := π) s h (.call s u (.cipherRelease x)) (.reply (match st with | some s => .status s | none => .waits))) : st = some .OK ∧ x = h := by
  cases st with
  | none => exact hh.elim
  | some st => cases st <;> first | exact ⟨rfl, hh.2⟩ | exact hh.elim

theorem known_step {view : σ → CipherView} (p : Prims) (hp : p.Good) (d : Device σ τ) (hm : MacsGood d.mac) (hd : d.cipher.Good view) (w0 : Ta σ τ)
    (rs : List (Request κ ρ π)) (w : Ta σ τ) (hk : Known p d view w0 rs w) (r : Request κ ρ π) (hf : r.Fine p) (hpr : PrivOk r) (w' : Ta σ τ) (told : Told)
    (hh : handle d w r = some (w', told)) : Known p d view w0 (rs ++ [r]) w' := by
  obtain ⟨ts, hrun⟩ := hk.run
  obtain ⟨w1, told1, e1, st⟩ := handle_ok p hp d hm w hk.inv r hf
  rw [hh] at e1
  cases e1
  have sameOwner : ∀ s t, tablesOf w s = some t → (∀ u, ¬(r = .close s u ∧ told = .closed .OK)) → (w'.clients.obj s).ownerUuid = (w.clients.obj s).ownerUuid := fun s t ht hn =>
    (st.keeps s t ht hn).1
  have all : ∀ s t', tablesOf w' s = some t' → SvpInv t'.svps ∧ CtxAll (GoodCtx view) t'.ciphers ∧
      ∀ h u ptr o sk ctx, HasCtx t'.ciphers h u ptr o sk ctx → u = (w'.clients.obj s).ownerUuid ∧
        ∃ params, params.alg = some o.alg ∧ OaepOf params o ∧ Opened p d w0 (rs ++ [r]) s h u params o.mode sk (ctx.map (·.evp)) := by
    intro s t' ht'
    rcases tables_after d w hk.inv.ta r w' told hh s t' ht' with ⟨ht, hc, ho, hn⟩ | ⟨u, c, q, t, rfl, rfl, ht, hu, hs⟩ | ⟨u, ptr, rfl, rfl, hnew⟩
    · refine ⟨hk.svps s t' ht, hk.good s t' ht, fun h u ptr o sk ctx hx => ?_⟩
      obtain ⟨h1, params, h2, h3, h4⟩ := hk.ciphers s t' ht h u ptr o sk ctx hx
      refine ⟨h1.trans (sameOwner s _ ht hc).symm, params, h2, h3, .other h4 hrun hh ?_⟩
      intro htouch
      unfold Handles at htouch
      split at htouch
      all_goals first
        | exact htouch.elim
        | (obtain ⟨rfl, _⟩ := htouch; exact hn _ _ _ ⟨rfl, rfl⟩)
        | (subst htouch; first | exact ho rfl | exact hc _ ⟨rfl, rfl⟩)
    · have hv := hk.svps s t ht
      have hg := hk.good s t ht
      have hx := hk.ciphers s t ht
      have howner := sameOwner s t ht (by simp)
      obtain ⟨ptr0, _, hheap⟩ := tables_heap ht
      have inv := (hk.inv.tabs ptr0 t hheap).ciphers
      have keep : ∀ h u2 ptr o sk ctx, HasCtx t.ciphers h u2 ptr o sk ctx → ¬Handles (κ := κ) (ρ := ρ) (π := π) s h (.call s u c) (.reply q) → u2 = (w'.clients.obj s).ownerUuid ∧
          ∃ params, params.alg = some o.alg ∧ OaepOf params o ∧ Opened p d w0 (rs ++ [.call s u c]) s h u2 params o.mode sk (ctx.map (·.evp)) := by
        intro h u2 ptr o sk ctx hc hn
        obtain ⟨h1, params, h2, h3, g4⟩ := hx h u2 ptr o sk ctx hc
        exact ⟨h1.trans howner.symm, params, h2, h3, .other g4 hrun hh hn⟩
      rcases serve_cipher p d t t' (hk.inv.tabs ptr0 t hheap).svps u c hf q hs with ⟨h3, h4, h5⟩ | ⟨env, params, mode, key, ienv, ks, a, r, rfl, h3, h4, h5, h6, rfl⟩ |
        ⟨kind, up, env, mem, x, out, input, bytes, r, rfl, h4, h5, h6, rfl⟩ | ⟨x, iv, r, rfl, h4, h5, h6, rfl⟩ | ⟨x, r, rfl, h4, h5, h6, rfl⟩ |
        ⟨env, fuel, mem, bufs, samples, r, rfl, h4, h5, h6, rfl⟩
      · exact ⟨h4, by rw [h3]; exact hg, fun h u2 ptr o sk ctx hc => keep h u2 ptr o sk ctx (by rw [← h3]; exact hc) (h5 s h)⟩
      · have hall : CtxAll (GoodCtx view) r.1 := by
          have := cipherStep_all inv d.cipher (goodCtx_stable hd) hg (.init params mode a ienv u) hf.2 (r.1, some r.2.1) (by simp only [cipherStep, h4, Option.map_some])
          exact this
        refine ⟨by rw [h6]; exact hv, by rw [h5]; exact hall, ?_⟩
        rw [h5]
        intro h u2 ptr o sk ctx hc
        rcases init_watch d.cipher inv params mode a ienv u hf.2 r h4 with ⟨h7, same⟩ | ⟨ptr', o', sk', ctx', k1, k2, k3, k4, k5, k6, k7, k8, k9, n⟩
        · refine keep h u2 ptr o sk ctx (same.all hc) ?_
          exact fun ht => h7 (handles_init ht).1
        · by_cases hh2 : h = r.2.2
          · subst hh2
            obtain ⟨rfl, rfl, rfl, rfl, rfl⟩ := hc.unique k3
            subst k2
            obtain ⟨l1, l2⟩ := used hp hk.inv ht hu hf.1 h3
            subst k5
            rw [k1] at hh
            rw [howner]
            exact ⟨hu.symm, params, k4, k6, .init hrun hh l1 l2 k7 (starts_of k4 k8 k9)⟩
          · refine keep h u2 ptr o sk ctx (n.beside inv _ _ _ _ _ _ hh2 hc) ?_
            exact fun ht => hh2 (handles_init ht).2.symm
      · have hall : CtxAll (GoodCtx view) r.world := by
          have := cipherStep_all inv d.cipher (goodCtx_stable hd) hg (.process kind up env t.svps mem x out input bytes u) True.intro (r.world, some r.status)
            (by simp only [cipherStep, h4, Option.map_some])
          exact this
        obtain ⟨l1, l2⟩ := process_watch hd up hpr kind env inv hg t.svps hv mem x out input bytes u r h4
        refine ⟨by rw [h6, l1]; exact hv, by rw [h5]; exact hall, ?_⟩
        rw [h5]
        intro h u2 ptr o sk ctx hc
        by_cases hh2 : h = x
        · subst hh2
          rcases l2 with ⟨m1, m2, _⟩ | ⟨ptr', o', sk', ctx0, ctx', m1, m2, m3, _⟩
          · rw [m2] at hc
            obtain ⟨h1, params, h2, h3, g4⟩ := hx h u2 ptr o sk ctx hc
            obtain rfl : u2 = u := h1.trans hu
            exact ⟨h1.trans howner.symm, params, h2, h3, .lost g4 hrun hh (Or.inl m1) (.refl _ _)⟩
          · obtain ⟨rfl, rfl, rfl, rfl, rfl⟩ := hc.unique m2
            obtain ⟨h1, params, h2, h3, g4⟩ := hx h u2 ptr o sk ctx0 m1
            refine ⟨h1.trans howner.symm, params, h2, h3, ?_⟩
            by_cases hok : r.status = .OK
            · rcases m3.wrote with ⟨_, n2⟩ | ⟨ob, ib, a, b, outB, rfl, rfl, _, _, n5, _, n7⟩
              · obtain ⟨rfl, _⟩ := m3.asked hok (n2 hok)
                refine (.other g4 hrun hh ?_)
                intro ht
                exact ht.2.2 ⟨hok, n2 hok⟩
              · obtain ⟨_, n8⟩ := n7 hok
                by_cases hb : bytes.toNat < 2 ^ 31
                · rw [hok] at hh
                  exact .fed g4 hrun hh hb ht n5 h2 (n8 hb).2
                · exact .lost g4 hrun hh (Or.inr ⟨by simp, by omega⟩) m3.moves
            · exact .lost g4 hrun hh (Or.inl hok) m3.moves
        · refine keep h u2 ptr o sk ctx ?_ (fun ht => hh2 ht.2.1.symm)
          rcases l2 with ⟨_, m2, _⟩ | ⟨ptr', o', sk', ctx0, ctx', m1, m2, m3, m4⟩
          · rw [← m2]; exact hc
          · exact m4 _ _ _ _ _ _ hh2 hc
      · have hall : CtxAll (GoodCtx view) r.1 := by
          have := cipherStep_all inv d.cipher (goodCtx_stable hd) hg (.updateIv x iv u) True.intro (r.1, some r.2) (by simp only [cipherStep, h4, Option.map_some])
          exact this
        refine ⟨by rw [h6]; exact hv, by rw [h5]; exact hall, ?_⟩
        rw [h5]
        intro h u2 ptr o sk ctx hc
        rcases updateIv_watch d.cipher inv x iv u r h4 with ⟨m1, m2⟩ | ⟨ptr', o', sk', c', iv', e, m1, rfl, m3, m4, m5, m6⟩
        · rw [m2] at hc
          refine keep h u2 ptr o sk ctx hc ?_
          exact fun ht => m1 (handles_iv ht).1
        · by_cases hh2 : h = x
          · subst hh2
            obtain ⟨rfl, rfl, rfl, rfl, rfl⟩ := hc.unique m5
            obtain ⟨h1, params, h2, h3, g4⟩ := hx h u2 ptr o sk _ m1
            rw [m3] at hh
            exact ⟨h1.trans howner.symm, params, h2, h3, .iv g4 hrun hh m4⟩
          · refine keep h u2 ptr o sk ctx (m6 _ _ _ _ _ _ hh2 hc) ?_
            exact fun ht => hh2 (handles_iv ht).2.symm
      · have hall : CtxAll (GoodCtx view) r.1 := by
          have := cipherStep_all inv d.cipher (goodCtx_stable hd) hg (.release x u) True.intro r (by simp only [cipherStep, h4])
          exact this
        refine ⟨by rw [h6]; exact hv, by rw [h5]; exact hall, ?_⟩
        rw [h5]
        intro h u2 ptr o sk ctx hc
        rcases release_watch inv x u r h4 with ⟨m1, m2⟩ | ⟨m1, m2, m3⟩
        · refine keep h u2 ptr o sk ctx (m2 _ _ _ _ _ _ hc) ?_
          exact fun ht => m1 (handles_release ht).1
        · by_cases hh2 : h = x
          · subst hh2
            exact absurd hc (m2 _ _ _ _ _)
          · refine keep h u2 ptr o sk ctx (m3 _ _ _ _ _ _ hh2 hc) ?_
            exact fun ht => hh2 (handles_release ht).2.symm
      · obtain ⟨l1, _, l3⟩ := cencCall_watch d.cipher env fuel inv t.svps hv mem bufs samples u r h4
        refine ⟨by rw [h6, l1]; exact hv, by rw [h5]; exact cencCall_good hd env fuel inv hg t.svps hv mem bufs samples u r h4, ?_⟩
        rw [h5]
        intro h u2 ptr o sk ctx hc
        obtain ⟨ctx0, m1, m2⟩ := l3 h u2 ptr o sk ctx hc
        by_cases hh2 : ∃ q ∈ samples, q.context = h
        · obtain ⟨h1, params, h2, h3, g4⟩ := hx h u2 ptr o sk ctx0 m1
          obtain rfl : u2 = u := h1.trans hu
          refine ⟨h1.trans howner.symm, params, h2, h3, .cenc g4 hrun hh hh2 ?_⟩
          rcases m2 with rfl | ⟨_, _, m2⟩
          · exact .refl _ _
          · exact m2
        · rcases m2 with rfl | ⟨_, m2, _⟩
          · exact keep h u2 ptr o sk ctx m1 (fun ht => hh2 ht.2)
          · exact absurd m2 hh2
    · unfold newTables at hnew
      split at hnew
      · rename_i k c m v _ h2 _ h4
        simp only [Option.some.injEq] at hnew
        subst hnew
        refine ⟨svpReachable_inv v ⟨256, v, [], by decide, h4, rfl⟩, cipherNew_all 256 (by decide) c h2, fun h u ptr o sk ctx hc => ?_⟩
        exact absurd hc (by
          have := cipherNew_all (P := fun _ _ _ => False) 256 (by decide) c h2
          exact fun hc => this _ _ _ _ _ _ hc)
      · cases hnew
  exact ⟨st.inv, ⟨_, handleAll_snoc d rs w0 w ts hrun r w' told hh⟩, fun s t' ht => (all s t' ht).1, fun s t' ht => (all s t' ht).2.1, fun s t' ht => (all s t' ht).2.2⟩

theorem known_all {view : σ → CipherView} (p : Prims) (hp : p.Good) (d : Device σ τ) (hm : MacsGood d.mac) (hd : d.cipher.Good view) (w0 : Ta σ τ)
    (rs more : List (Request κ ρ π)) (w : Ta σ τ) (hk : Known p d view w0 rs w) (hf : ∀ r ∈ more, r.Fine p) (hpr : ∀ r ∈ more, PrivOk r) (w' : Ta σ τ) (ts : List (Uuid × Told))
    (hh : handleAll d w more = some (w', ts)) : Known p d view w0 (rs ++ more) w' := by
  induction more generalizing rs w ts with
  | nil => cases hh; simpa using hk
  | cons r more ih =>
    simp only [handleAll] at hh
    cases h1 : handle d w r with
    | none => rw [h1] at hh; simp at hh
    | some z =>
      rw [h1] at hh
      simp only at hh
      cases h3 : handleAll d z.1 more with
      | none => rw [h3] at hh; simp at hh
      | some y =>
        rw [h3] at hh
        simp only [Option.some.injEq, Prod.mk.injEq] at hh
        obtain ⟨rfl, rfl⟩ := hh
        have := ih (rs ++ [r]) z.1 (known_step p hp d hm hd w0 rs w hk r (hf r (by simp)) (hpr r (by simp)) z.1 z.2 h1) (fun q hq => hf q (by simp [hq])) (fun q hq => hpr q (by simp [hq])) y.2 h3
        simpa using this

/-! ## The property -/

/-- **C107.**  After any history of a TA, a call that processes data in cipher context `h` of session `s`:
* if it fails, the offsets of the caller's buffers stay what they were;
* it writes nothing (and succeeds only as a query of the size), or what it writes lies within the buffer the caller gave for output: memory of the caller or an SVP buffer of this session.  It
  is written to memory outside of SVP buffers only if the input came from such memory, too, and the rights of the key allow output that is not protected;
* if it succeeds, the right to encrypt or decrypt is there now, and what is written is what the library gives for the input in the state `x` of the context or, for private keys, the
  decryption - with the key `k` that the handle denoted when this caller made the context, with the parameters then given.  `x` is the state after all data processed in this context before,
  in order; nothing else that was done, by anyone, has an influence. -/
theorem C107_process_partial {view : σ → CipherView} (p : Prims) (hp : p.Good) (d : Device σ τ) (hm : MacsGood d.mac) (hd : d.cipher.Good view) (w0 : Ta σ τ)
    (h0 : start σ τ = some w0) (rs : List (Request κ ρ π)) (hf : ∀ r ∈ rs, r.Fine p) (hpr : ∀ r ∈ rs, PrivOk r) (w : Ta σ τ) (ts : List (Uuid × Told)) (hw : handleAll d w0 rs = some (w, ts))
    (s : Nat) (u : Uuid) (h : Nat) (kind : ProcKind) (up : UnwrapPrims) (hup : up.Good) (env : RightsEnv) (mem : Mem) (out : Option RawBuffer) (input : RawBuffer) (bytes : UInt64)
    (w' : Ta σ τ) (st : Status) (mem' : Mem) (out' : Option RawBuffer) (in' : RawBuffer) (n : UInt64) (tag : Option Bytes)
    (hc : handle (κ := κ) (ρ := ρ) (π := π) d w (.call s u (.cipherProcess kind up env mem h out input bytes)) = some (w', .reply (.processed st mem' out' in' n tag))) :
    (st ≠ .OK → out' = out ∧ in' = input) ∧
    ((mem' = mem ∧ (st = .OK → out = none)) ∨
     ∃ params mode k x t ob ib a b outB, Opened p d w0 rs s h u params mode k x ∧ tablesOf w s = some t ∧ out = some (.buf ob) ∧ input = .buf ib ∧
      (ob.isClear = true → ib.isClear = true ∧ Flag k.header.rights.usageFlags FLAG_SVP_OPTIONAL) ∧ Located t.svps u ob outB.length a ∧ Located t.svps u ib bytes.toNat b ∧
      mem' = writeAt mem a outB ∧
      (st = .OK → modeAllowed env mode k.header.rights x.isSome = true ∧
        (bytes.toNat < 2 ^ 31 → Gives d.cipher up kind params mode k x (readAt mem b bytes.toNat) outB))) := by
  obtain ⟨i0, e0⟩ := start_ok p d w0 h0
  have known := known_all p hp d hm hd w0 [] rs w0 ⟨i0, ⟨[], rfl⟩, fun s t ht => (by rw [e0] at ht; simp at ht), fun s t ht => (by rw [e0] at ht; simp at ht),
    fun s t ht => (by rw [e0] at ht; simp at ht)⟩ hf hpr w ts hw
  rw [List.nil_append] at known
  rcases call_cases (κ := κ) (ρ := ρ) (π := π) d w known.inv.ta s u (.cipherProcess kind up env mem h out input bytes) with ⟨s', e, _⟩ | ⟨ptr, t, h4, h5, h6, e⟩
  · rw [e] at hc; cases hc
  · have ht : tablesOf w s = some t := by simp [tablesOf, h4, h6]
    rw [e] at hc
    cases hr : cipherProcess kind d.cipher up env t.ciphers t.svps mem h out input bytes u with
    | none => simp only [serve, hr, Option.map_none] at hc; cases hc
    | some r =>
      simp only [serve, hr, Option.map_some, Option.some.injEq, Prod.mk.injEq, Told.reply.injEq, Reply.processed.injEq] at hc
      obtain ⟨_, rfl, rfl, rfl, rfl, rfl, rfl⟩ := hc
      have hg := known.good s t ht
      obtain ⟨_, l2⟩ := process_watch hd up hup kind env (known.inv.tabs ptr t h6).ciphers hg t.svps (known.svps s t ht) mem h out input bytes u r hr
      rcases l2 with ⟨m1, _, m3, m4, m5⟩ | ⟨ptr', o, sk, ctx, ctx', m1, _, m3, _⟩
      · exact ⟨fun _ => ⟨m4, m5⟩, Or.inl ⟨m3, fun hn => absurd hn m1⟩⟩
      · refine ⟨m3.failed, ?_⟩
        rcases m3.wrote with n1 | ⟨ob, ib, a, b, outB, n1, n2, n3, n4, n5, n6, n7⟩
        · exact Or.inl n1
        · obtain ⟨_, params, h2, h3, g4⟩ := known.ciphers s t ht h u ptr' o sk ctx m1
          refine Or.inr ⟨params, o.mode, sk, _, t, ob, ib, a, b, outB, g4, ht, n1, n2, n3, n4, n5, n6, fun hok => ?_⟩
          obtain ⟨k1, k2⟩ := n7 hok
          refine ⟨by simpa using k1, fun hb => gives_of h2 h3 (hg _ _ _ _ _ _ m1) (k2 hb).1⟩

/-! ## One history, one context -/

/-- A call on context `h` of session `s` that failed, or processed 2^31 bytes or more, or samples in common encryption. -/
def Failing (s h : Nat) : Request κ ρ π → Told → Prop
  | .call s' _ (.cipherProcess _ _ _ _ h' out _ bytes), .reply (.processed st _ _ _ _ _) => s' = s ∧ h' = h ∧ (st ≠ .OK ∨ (out ≠ none ∧ 2 ^ 31 ≤ bytes.toNat))
  | .call s' _ (.cenc _ _ _ _ samples), .reply (.samples _ _ _) => s' = s ∧ ∃ q ∈ samples, q.context = h
  | _, _ => False

/-- No such call is in the history. -/
def Clean (d : Device σ τ) (w0 : Ta σ τ) (rs : List (Request κ ρ π)) (s h : Nat) : Prop :=
  ∀ pre r, pre ++ [r] <+: rs → ∀ w ts w' told, handleAll d w0 pre = some (w, ts) → handle d w r = some (w', told) → ¬Failing s h r told

theorem Clean.init {d : Device σ τ} {w0 : Ta σ τ} {rs : List (Request κ ρ π)} {r : Request κ ρ π} {s h : Nat} (hc : Clean d w0 (rs ++ [r]) s h) : Clean d w0 rs s h :=
  fun pre q hp => hc pre q (hp.trans (List.prefix_append rs [r]))

theorem located_one {sv : SvpStore} {u : Uuid} {b : SaBuffer} {n a a' : Nat} (h : Located sv u b n a) (h' : Located sv u b n a') : a = a' := by
  cases b with
  | clear x y z => exact h.2.2.2.trans h'.2.2.2.symm
  | svp x y =>
    obtain ⟨r, h1, _, h2⟩ := h
    obtain ⟨r', h1', _, h2'⟩ := h'
    have := h1.2.1
    rw [h1'.2.1] at this
    simp only [Option.some.injEq, Svp.mk.injEq] at this
    rw [h2, h2', this]

theorem then_one {p : CipherPrim σ} {k : ProcKind} {alg mode : Nat} {m : Bytes} {x y y' : Option σ} (h : Then p k alg mode m x y) (h' : Then p k alg mode m x y') : y = y' := by
  cases x with
  | none => exact (show y = none from h).trans (show y' = none from h').symm
  | some e =>
    cases k with
    | more => exact (show y = _ from h).trans (show y' = _ from h').symm
    | last tag =>
      obtain ⟨e0, h1, h2⟩ := h
      obtain ⟨e0', h1', h2'⟩ := h'
      have : e0 = e0' := by
        by_cases hc : isAead alg = true ∧ mode ≠ MODE_ENCRYPT
        · rw [if_pos hc] at h1 h1'
          obtain ⟨t, h3, h4⟩ := h1
          obtain ⟨t', h3', h4'⟩ := h1'
          rw [h3] at h3'; cases h3'
          rw [h4] at h4'; cases h4'
          rfl
        · rw [if_neg hc] at h1 h1'
          rw [h1, h1']
      subst this
      rw [h2, h2']

theorem starts_one {p : CipherPrim σ} {params : InitParams} {mode : Nat} {k : StoredKey} {x y : Option σ} (h : Starts p params mode k x) (h' : Starts p params mode k y) : x = y := by
  cases x with
  | none => cases y with
    | none => rfl
    | some b => have := (show privately params = true from h); rw [h'.1] at this; cases this
  | some a => cases y with
    | none => have := (show privately params = true from h'); rw [h.1] at this; cases this
    | some b =>
      obtain ⟨_, g, h1, h2⟩ := h
      obtain ⟨_, g', h1', h2'⟩ := h'
      rw [h1] at h1'; cases h1'
      rw [h2] at h2'; cases h2'
      rfl

/-- What the last request did to a context. -/
theorem opened_last {p : Prims} {d : Device σ τ} {w0 w w' : Ta σ τ} {L rs : List (Request κ ρ π)} {r : Request κ ρ π} {ts : List (Uuid × Told)} {told : Told} {s h : Nat} {u : Uuid}
    {params : InitParams} {mode : Nat} {k : StoredKey} {x : Option σ} (m : Opened p d w0 L s h u params mode k x) (hl : L = rs ++ [r]) (hw : handleAll d w0 rs = some (w, ts))
    (hh : handle d w r = some (w', told)) :
    (∃ env key ienv, r = .call s u (.cipherInit env params mode key ienv) ∧ told = .reply (.made .OK h) ∧ Denotes p w s u key k ∧ useResult env k u = (.OK, some k) ∧
      Starts d.cipher params mode k x) ∨
    (∃ x0 kind up env mem out ib bytes mem' out' in' n tag t b alg, r = .call s u (.cipherProcess kind up env mem h (some out) (.buf ib) bytes) ∧
      told = .reply (.processed .OK mem' out' in' n tag) ∧ bytes.toNat < 2 ^ 31 ∧ Opened p d w0 rs s h u params mode k x0 ∧ tablesOf w s = some t ∧ Located t.svps u ib bytes.toNat b ∧
      params.alg = some alg ∧ Then d.cipher kind alg mode (readAt mem b bytes.toNat) x0 x) ∨
    (∃ e iv e', r = .call s u (.cipherUpdateIv h (some iv)) ∧ told = .reply (.status .OK) ∧ Opened p d w0 rs s h u params mode k (some e) ∧ d.cipher.setIv e iv = some e' ∧ x = some e') ∨
    (∃ x0 kind up env mem out input bytes st mem' out' in' n tag, r = .call s u (.cipherProcess kind up env mem h out input bytes) ∧
      told = .reply (.processed st mem' out' in' n tag) ∧ (st ≠ .OK ∨ (out ≠ none ∧ 2 ^ 31 ≤ bytes.toNat)) ∧ Opened p d w0 rs s h u params mode k x0) ∨
    (¬Handles s h r told ∧ Opened p d w0 rs s h u params mode k x) ∨
    (∃ x0 env fuel mem bufs samples st mem' bufs', r = .call s u (.cenc env fuel mem bufs samples) ∧ told = .reply (.samples st mem' bufs') ∧ (∃ q ∈ samples, q.context = h) ∧
      Opened p d w0 rs s h u params mode k x0) := by
  cases m with
  | init a b c e f g =>
    obtain ⟨rfl, hr⟩ := List.append_inj' hl rfl
    simp only [List.cons.injEq, and_true] at hr
    subst hr
    rw [hw] at a; cases a
    rw [hh] at b; cases b
    exact Or.inl ⟨_, _, _, rfl, rfl, c, e, g⟩
  | fed m a b c e f g i =>
    obtain ⟨rfl, hr⟩ := List.append_inj' hl rfl
    simp only [List.cons.injEq, and_true] at hr
    subst hr
    rw [hw] at a; cases a
    rw [hh] at b; cases b
    exact Or.inr (Or.inl ⟨_, _, _, _, _, _, _, _, _, _, _, _, _, _, _, _, rfl, rfl, c, m, e, f, g, i⟩)
  | iv m a b c =>
    obtain ⟨rfl, hr⟩ := List.append_inj' hl rfl
    simp only [List.cons.injEq, and_true] at hr
    subst hr
    rw [hw] at a; cases a
    rw [hh] at b; cases b
    exact Or.inr (Or.inr (Or.inl ⟨_, _, _, rfl, rfl, m, c, rfl⟩))
  | lost m a b c e =>
    obtain ⟨rfl, hr⟩ := List.append_inj' hl rfl
    simp only [List.cons.injEq, and_true] at hr
    subst hr
    rw [hw] at a; cases a
    rw [hh] at b; cases b
    exact Or.inr (Or.inr (Or.inr (Or.inl ⟨_, _, _, _, _, _, _, _, _, _, _, _, _, _, rfl, rfl, c, m⟩)))
  | other m a b c =>
    obtain ⟨rfl, hr⟩ := List.append_inj' hl rfl
    simp only [List.cons.injEq, and_true] at hr
    subst hr
    rw [hw] at a; cases a
    rw [hh] at b; cases b
    exact Or.inr (Or.inr (Or.inr (Or.inr (Or.inl ⟨c, m⟩))))
  | cenc m a b c e =>
    obtain ⟨rfl, hr⟩ := List.append_inj' hl rfl
    simp only [List.cons.injEq, and_true] at hr
    subst hr
    rw [hw] at a; cases a
    rw [hh] at b; cases b
    exact Or.inr (Or.inr (Or.inr (Or.inr (Or.inr ⟨_, _, _, _, _, _, _, _, _, rfl, rfl, c, m⟩))))

/-- **C107 (one history, one context).**  What `Opened` says about a context is determined by the history: one maker, one set of parameters, one direction, one key; and if no processing in it
failed (or was of 2^31 bytes or more, or common encryption), one state. -/
theorem C107_one {p : Prims} {d : Device σ τ} {w0 : Ta σ τ} {rs : List (Request κ ρ π)} (hf : ∀ r ∈ rs, r.Fine p) {s h : Nat} {u u' : Uuid} {params params' : InitParams} {mode mode' : Nat}
    {k k' : StoredKey} {x x' : Option σ} (m : Opened p d w0 rs s h u params mode k x) (m' : Opened p d w0 rs s h u' params' mode' k' x') :
    u = u' ∧ params = params' ∧ mode = mode' ∧ k = k' ∧ (Clean d w0 rs s h → x = x') := by
  induction m generalizing u' params' mode' k' x' with
  | init a b c e f g =>
    rcases opened_last m' rfl a b with ⟨_, _, _, h1, _, h3, h4, h5⟩ | ⟨_, _, _, _, _, _, _, _, _, _, _, _, _, _, _, _, h1, _⟩ | ⟨_, _, _, h1, _⟩ | ⟨_, _, _, _, _, _, _, _, _, _, _, _, _, _, h1, _⟩ | ⟨h1, _⟩ | ⟨_, _, _, _, _, _, _, _, _, h1, _⟩
    · cases h1
      have := denotes_one (hf _ (List.mem_append_right _ (List.mem_singleton.2 rfl))).1 c h3 e h4
      subst this
      exact ⟨rfl, rfl, rfl, rfl, fun _ => starts_one g h5⟩
    · cases h1
    · cases h1
    · cases h1
    · exact absurd ⟨rfl, rfl⟩ h1
    · cases h1
  | fed m a b c e f g i ih =>
    rcases opened_last m' rfl a b with ⟨_, _, _, h1, _⟩ | ⟨_, _, _, _, _, _, _, _, _, _, _, _, _, _, _, _, h1, _, _, h2, h3, h4, h5, h6⟩ | ⟨_, _, _, h1, _⟩ |
      ⟨_, _, _, _, _, _, _, _, _, _, _, _, _, _, h1, h2, h3, _⟩ | ⟨h1, _⟩ | ⟨_, _, _, _, _, _, _, _, _, h1, _⟩
    · cases h1
    · cases h1
      obtain ⟨_, rfl, rfl, i3, i4⟩ := ih (fun r hr => hf r (List.mem_append_left _ hr)) h2
      refine ⟨rfl, rfl, rfl, i3, fun hc => ?_⟩
      have := i4 hc.init
      subst this
      rw [e] at h3; cases h3
      rw [g] at h5; cases h5
      rw [← located_one f h4] at h6
      exact then_one i h6
    · cases h1
    · cases h1
      cases h2
      rcases h3 with h3 | h3
      · exact absurd rfl h3
      · omega
    · exact absurd ⟨rfl, rfl, by simp⟩ h1
    · cases h1
  | iv m a b c ih =>
    rcases opened_last m' rfl a b with ⟨_, _, _, h1, _⟩ | ⟨_, _, _, _, _, _, _, _, _, _, _, _, _, _, _, _, h1, _⟩ | ⟨_, _, _, h1, _, h2, h3, rfl⟩ |
      ⟨_, _, _, _, _, _, _, _, _, _, _, _, _, _, h1, _⟩ | ⟨h1, _⟩ | ⟨_, _, _, _, _, _, _, _, _, h1, _⟩
    · cases h1
    · cases h1
    · cases h1
      obtain ⟨_, i1, i2, i3, i4⟩ := ih (fun r hr => hf r (List.mem_append_left _ hr)) h2
      refine ⟨rfl, i1, i2, i3, fun hc => ?_⟩
      have := i4 hc.init
      cases this
      rw [c] at h3; cases h3
      rfl
    · cases h1
    · exact absurd ⟨rfl, rfl⟩ h1
    · cases h1
  | lost m a b c e ih =>
    rcases opened_last m' rfl a b with ⟨_, _, _, h1, _⟩ | ⟨_, _, _, _, _, _, _, _, _, _, _, _, _, _, _, _, h1, h2, h3, _⟩ | ⟨_, _, _, h1, _⟩ |
      ⟨_, _, _, _, _, _, _, _, _, _, _, _, _, _, h1, _, _, h2⟩ | ⟨h1, _⟩ | ⟨_, _, _, _, _, _, _, _, _, h1, _⟩
    · cases h1
    · cases h1
      cases h2
      rcases c with c | c
      · exact absurd rfl c
      · omega
    · cases h1
    · cases h1
      obtain ⟨_, i1, i2, i3, _⟩ := ih (fun r hr => hf r (List.mem_append_left _ hr)) h2
      exact ⟨rfl, i1, i2, i3, fun hc => absurd ⟨rfl, rfl, c⟩ (hc _ _ (List.prefix_refl _) _ _ _ _ a b)⟩
    · refine absurd ⟨rfl, rfl, fun hn => ?_⟩ h1
      rcases c with c | c
      · exact c hn.1
      · exact c.1 hn.2
    · cases h1
  | cenc m a b c e ih =>
    rcases opened_last m' rfl a b with ⟨_, _, _, h1, _⟩ | ⟨_, _, _, _, _, _, _, _, _, _, _, _, _, _, _, _, h1, _⟩ | ⟨_, _, _, h1, _⟩ |
      ⟨_, _, _, _, _, _, _, _, _, _, _, _, _, _, h1, _⟩ | ⟨h1, _⟩ | ⟨_, _, _, _, _, _, _, _, _, h1, _, _, h2⟩
    · cases h1
    · cases h1
    · cases h1
    · cases h1
    · exact absurd ⟨rfl, c⟩ h1
    · cases h1
      obtain ⟨_, i1, i2, i3, _⟩ := ih (fun r hr => hf r (List.mem_append_left _ hr)) h2
      exact ⟨rfl, i1, i2, i3, fun hc => absurd ⟨rfl, c⟩ (hc _ _ (List.prefix_refl _) _ _ _ _ a b)⟩
  | other m a b c ih =>
    rcases opened_last m' rfl a b with ⟨_, _, _, rfl, rfl, _⟩ | ⟨_, _, _, _, _, _, _, _, _, _, _, _, _, _, _, _, rfl, rfl, _⟩ | ⟨_, _, _, rfl, rfl, _⟩ |
      ⟨_, _, _, _, _, _, _, _, _, _, _, _, _, _, rfl, rfl, h3, _⟩ | ⟨_, h2⟩ | ⟨_, _, _, _, _, _, _, _, _, rfl, rfl, h3, _⟩
    · exact absurd ⟨rfl, rfl⟩ c
    · exact absurd ⟨rfl, rfl, by simp⟩ c
    · exact absurd ⟨rfl, rfl⟩ c
    · refine absurd ⟨rfl, rfl, fun hn => ?_⟩ c
      rcases h3 with h3 | h3
      · exact h3 hn.1
      · exact h3.1 hn.2
    · obtain ⟨i0, i1, i2, i3, i4⟩ := ih (fun r hr => hf r (List.mem_append_left _ hr)) h2
      exact ⟨i0, i1, i2, i3, fun hc => i4 hc.init⟩
    · exact absurd ⟨rfl, h3⟩ c

/-! ## A history -/

/-- A device with a toy cipher, which holds back what does not fill a block. -/
def dev : Device C34.Toy (MacKind × Bytes × Bytes) := ⟨C34.toyCipher true, C106.toyPrim⟩

theorem noUnwrap_good : C34.noUnwrap.Good := by
  constructor <;> intros <;> simp_all [C34.noUnwrap]

/-- A call that processes `n` bytes in context 31. -/
def chunk (kind : ProcKind) (n : UInt64) (mem : Mem) : Request Unit Unit Unit :=
  .call 31 C08.u7 (.cipherProcess kind C34.noUnwrap C27.renv mem 31 (some (C34.outBuf 32)) (C34.inBuf n) n)

/-- What is told: statuses, the numbers of bytes written, and the bytes at 0x200000000 and five bytes later. -/
def brief : Told → Option (Status × UInt64 × UInt8 × UInt8)
  | .opened s _ => some (s, 0, 0, 0)
  | .reply (.made s _) => some (s, 0, 0, 0)
  | .reply (.processed s m _ _ n _) => some (s, n, m 0x200000000, m 0x200000005)
  | _ => none

/-- A key is made and a context for decryption with it; 16 bytes are processed. -/
def history : List (Request Unit Unit Unit) :=
  [.open C08.u7 1, .call 31 C08.u7 (.keys gen1), .call 31 C08.u7 (.cipherInit env1 (.cbc true (some (some (List.replicate 16 1)))) MODE_DECRYPT 31 C36.ienv),
   chunk .more 16 (fun _ => 7)]

/-- It is among those the theorem speaks about ... -/
example : (∀ r ∈ history, r.Fine light) ∧ ∀ r ∈ history, PrivOk r := by
  constructor <;> intro r hr <;> simp only [history, List.mem_cons, List.not_mem_nil, or_false] at hr
  · rcases hr with rfl | rfl | rfl | rfl
    · exact True.intro
    · exact (⟨rfl, C52.genv_good, fun n e => by simp at e⟩ : gen1.Fine light)
    · exact ⟨rfl, fun h => absurd h (by decide)⟩
    · exact True.intro
  · rcases hr with rfl | rfl | rfl | rfl
    · exact True.intro
    · exact True.intro
    · exact True.intro
    · exact noUnwrap_good
example : dev.cipher.Good C34.toyView := C34.toyCipher_good
/-- ... and the next call gives these bytes, which were held back, not those it was given (9). -/
example : (((start C34.Toy _).bind fun w => handleAll dev w (history ++ [chunk .more 16 C34.mem0])).map fun r => r.2.map fun x => brief x.2) =
    some [some (.OK, 0, 0, 0), some (.OK, 0, 0, 0), some (.OK, 0, 0, 0), some (.OK, 0, 7, 7), some (.OK, 16, 7, 7)] := by
  decide +kernel

end Sa.Whole.C107

import Verif.Lemmas.WholeKeys
import Verif.Lemmas.Inquiry
import Verif.Lemmas.Cipher
import Verif.Lemmas.Mac
import Verif.Lemmas.WholeSvp
import Verif.Lemmas.WholeCenc
import Verif.Props.C104

/-!
# C105: a key handle denotes one key, from the call that gives it until it is released

For the TA as a whole: any number of sessions and callers, all calls.
-/

namespace Sa.Whole.C105

variable {κ ρ π σ τ : Type}

/-! ## What is asked of the calls -/

/-- The outside world of a call: it is made on the device with the secrets `p`; OpenSSL behaves; lengths fit in memory and lengths given are those of the buffers.  The calls known to go
wrong are not covered: RSA keys of absurd sizes (`C52_generate_violated`), unwrapping nothing with padding (`C53`), provisioning of structures that are too short (`C99`). -/
def _root_.Sa.Whole.Call.Fine (p : Prims) : Call κ ρ π → Prop
  | .generate env g _ params => env.prims = p ∧ g.Good ∧ ∀ n, params = some (.rsa n) → FitsInt (intOfSize n * 8)
  | .import env _ input _ => env.prims = p ∧ input.length + 16 < 2 ^ 64
  | .importExported env input => env.prims = p ∧ input.length < 2 ^ 64
  | .importSoc env e _ _ => env.prims = p ∧ e.prims.Good ∧ ∀ d r, e.kc.bio d = some r → r.length + 16 < 2 ^ 64
  | .importTypej e _ _ _ => e.ks.prims = p ∧ e.Good
  | .unwrap env u _ params _ input => env.prims = p ∧ u.prims.Good ∧ input.length + 16 < 2 ^ 64 ∧ params.HasBlock input
  | .derive env k _ _ => env.prims = p ∧ k.prims.Good
  | .exchangeDh env a _ _ _ => env.prims = p ∧ a.Good
  | .exchangeEcdh env a _ _ _ => env.prims = p ∧ a.Good
  | .exchangeNetflix envs k a _ _ _ _ => (∀ i, (envs i).prims = p) ∧ k.prims.Good ∧ a.Good
  | .export env _ _ out n => env.prims = p ∧ ∀ o, out = some o → o.length = n
  | .getPublic env _ out n _ => env.prims = p ∧ ∀ o, out = some o → o.length = n
  | .digest env _ hash out n _ _ => env.prims = p ∧ C68.HashGood hash ∧ ∀ o, out = some o → o.length = n
  | .sign _ _ _ env _ _ _ _ _ => env.prims = p
  | .provision v e c => v.one.prims = p ∧ v.two.prims = p ∧ e.prims.Good ∧ (∀ d r, e.kc.bio d = some r → r.length + 16 < 2 ^ 64) ∧ Prov.C99.Sound v c
  | .header _ => True
  | .release _ => True

/-- The same for all calls.  Not covered: an OAEP context that cannot be locked or whose label cannot be allocated (C38), key checks of 2 GiB and more, SVP
buffers over regions that wrap around the address space (`C22_violated`: they have no memory, and checking one is undefined), checks whose hash is not as long as stated (C68), samples whose
pattern wraps (`C25_violated_hang`). -/
def _root_.Sa.Whole.Cmd.Fine (p : Prims) : Cmd κ ρ π → Prop
  | .keys c => c.Fine p
  | .cipherInit env params _ _ ienv => env.prims = p ∧ (params.alg = some CIPHER_RSA_OAEP → ienv.lockOk = true ∧ ienv.labelOk = true)
  | .macInit env _ _ _ _ => env.prims = p
  | .macProcessKey env _ _ => env.prims = p
  | .svpKeyCheck env _ _ _ bytes _ => env.prims = p ∧ bytes.toNat < 2 ^ 31
  | .svpCreate m n => m ≠ 0 → m.toNat + n.toNat < 2 ^ 64
  | .svpCheck e _ _ _ _ hash hashLength => C68.HashGood e.hash ∧ ∀ x, hash = some x → x.length = hashLength.toNat ∧ hashLength.toNat < 2 ^ 63
  | .cenc _ fuel _ _ samples => ∀ s ∈ samples, s.Ends fuel
  | _ => True

def _root_.Sa.Whole.Request.Fine (p : Prims) : Request κ ρ π → Prop
  | .call _ _ c => c.Fine p
  | _ => True

/-- MACs are computed by an incremental implementation of some function. -/
def MacsGood (m : MacPrim τ) : Prop := ∃ mac view, m.Good mac view

/-! ## One call -/

/-- What a call did to the table of keys: besides the keys given, those are in use that were and were not released; they are what they were. -/
structure Effect (p : Prims) (st : KeyStore) (u : Uuid) (c : Call κ ρ π) (st' : KeyStore) (r : Reply) : Prop where
  reach : KsReachable p st'
  returns : r ≠ .waits
  was : ∀ x ∈ given r, (st.obj x).object = none
  live : ∀ x, (st'.obj x).object.isSome = true ↔ x ∈ given r ∨ ((st.obj x).object.isSome = true ∧ ¬(c = .release x ∧ r = .status .OK))
  keeps : ∀ x, (st.obj x).object.isSome → ¬(c = .release x ∧ r = .status .OK) → st'.obj x = st.obj x
  owner : ∀ x ∈ given r, (st'.obj x).ownerUuid = u

theorem effect_of {p : Prims} {st : KeyStore} {u : Uuid} {c : Call κ ρ π} (hc : ∀ h, c ≠ .release h) {x : Option (KeyStore × Reply)}
    (h : ∃ st' r, x = some (st', r) ∧ Served p st u st' r) : ∃ st' r, x = some (st', r) ∧ Effect p st u c st' r := by
  obtain ⟨st', r, h1, h2⟩ := h
  exact ⟨st', r, h1, h2.reach, h2.returns, h2.grown.was, fun x => by simp [hc, h2.grown.live x], fun x hx _ => h2.grown.keeps x hx, fun x hx => (h2.grown.is x hx).2⟩

theorem serveKeys_ok (p : Prims) (hp : p.Good) (st : KeyStore) (hr : KsReachable p st) (caller : Uuid) (c : Call κ ρ π) (hf : c.Fine p) :
    ∃ st' r, serveKeys st caller c = some (st', r) ∧ Effect p st caller c st' r := by
  by_cases hrel : ∃ key, c = .release key
  · obtain ⟨key, rfl⟩ := hrel
    rcases remove_reach p hp st hr key caller with ⟨s, hs, h1, _⟩ | ⟨st', f, h1, h2, h3, h4, h5, h6⟩
    · refine ⟨st, .status s, by simp only [serveKeys, h1], hr, by simp, by simp [given], fun x => ?_, fun x _ _ => rfl, by simp [given]⟩
      simp [given, hs]
    · refine ⟨st', .status .OK, by simp only [serveKeys, h1], h2, by simp, by simp [given], fun x => ?_, fun x _ hn => h6 x ?_, by simp [given]⟩
      · by_cases hx : x = key
        · subst hx; simp [given, h5]
        · simp [given, h6 x hx, Ne.symm hx]
      · rintro rfl; exact hn ⟨rfl, rfl⟩
  refine effect_of (fun h e => hrel ⟨h, e⟩) ?_
  cases c with
  | generate env g rights params =>
    obtain ⟨rfl, hg, hn⟩ := hf
    refine served_made hp hr ?_
    cases params with
    | none => exact ⟨_, _, _, rfl, hr, Or.inl ⟨by simp, .refl _⟩⟩
    | some params =>
      obtain ⟨st', s, h, h1, h2, h3⟩ := C52.C52_generate_partial env hp g hg st hr rights params (fun n e => hn n (by rw [e])) caller
      exact ⟨st', s, h, h1, h2, h3.imp (fun h => ⟨h.1, Unchanged.alike h.2.2.1⟩) (fun ⟨h, d, n, _⟩ => ⟨h, d, n⟩)⟩
  | «import» env u input format =>
    obtain ⟨rfl, hl⟩ := hf
    refine served_made hp hr ?_
    obtain ⟨st', s, h, h1, h2, h3⟩ := C52.C52_import env hp u st hr input hl format caller
    exact ⟨st', s, h, h1, h2, h3.imp (fun h => ⟨h.1, Unchanged.alike h.2.2.1⟩) (fun ⟨h, d, n, _⟩ => ⟨h, d, n⟩)⟩
  | importExported env input =>
    obtain ⟨rfl, hl⟩ := hf
    refine served_made hp hr ?_
    have inv := ksReachable_inv _ hp st hr
    have reach : ∀ r, keyStoreImportExported env st input caller = some r → KsReachable env.prims r.1 := fun r e =>
      ksReachable_step env.prims st r.1 hr (.importExported env input caller) hl (.imported r.2.1 r.2.2) (by simp only [ksStep]; rw [show ({ env with prims := env.prims } : Env) = env from rfl, e]; rfl)
    rcases importExported_spec env hp st input hl caller with ⟨r, h1, rfl⟩ | ⟨sk, h1, hm, hs, _⟩
    · exact ⟨_, _, _, h1, hr, Or.inl ⟨by simp, .refl _⟩⟩
    · have hre := reach _ h1
      obtain ⟨h2, h3, h4⟩ := importStoredKey_spec env hp st inv sk hm hs caller
      generalize keyStoreImportStoredKey env st sk caller = q at *
      obtain ⟨st', s, h⟩ := q
      simp only at hre h2 h3 h4
      refine ⟨st', s, h, h1, hre, ?_⟩
      rcases h4 with ⟨a, _, b⟩ | ⟨a, b, c, w, hw, hob⟩
      · exact Or.inl ⟨a, Unchanged.alike b⟩
      · exact Or.inr ⟨a, sk, (Added.newKey hp ⟨hre, b, h3, c, w, hw, hob⟩ hr)⟩
  | importSoc env e input params =>
    obtain ⟨rfl, hu, hsz⟩ := hf
    refine served_made hp hr ?_
    obtain ⟨st', s, h, h1, h2, h3⟩ := soc_ok env hp e hu hsz st hr input params caller
    exact ⟨st', s, h, h1, h2, h3.imp (fun h => ⟨h.1, h.2.2⟩) (fun ⟨h, d, n⟩ => ⟨h, d, n.newKey hp hr⟩)⟩
  | importTypej e input khmac kcipher =>
    obtain ⟨rfl, hg⟩ := hf
    refine served_made hp hr ?_
    obtain ⟨st', s, h, h1, h2, h3⟩ := Kc.C40.import_cases e hg st hr input khmac kcipher caller
    exact ⟨st', s, h, h1, h2, h3.imp (fun h => ⟨h.1, Unchanged.alike h.2.2⟩) (fun ⟨h, d, n, _⟩ => ⟨h, d, n⟩)⟩
  | unwrap env u t params wrapping input =>
    obtain ⟨rfl, hu, hl, hb⟩ := hf
    refine served_made hp hr ?_
    obtain ⟨st', s, h, h1, h2, h3⟩ := keyUnwrapOp_cases env hp u hu st hr t params wrapping input caller hl hb
    exact ⟨st', s, h, h1, h2, h3.imp (fun h => ⟨h.1, Unchanged.alike h.2.2⟩) (fun ⟨h, _, d, _, _, _, _, _, _, _, _, n⟩ => ⟨h, d, n⟩)⟩
  | derive env k rights params =>
    obtain ⟨rfl, hk⟩ := hf
    exact served_made hp hr (derive_ok env hp k hk st hr rights params caller)
  | exchangeDh env a rights key other =>
    obtain ⟨rfl, ha⟩ := hf
    exact served_made hp hr (exchangeDh_ok env hp a ha st hr rights key other caller)
  | exchangeEcdh env a rights key other =>
    obtain ⟨rfl, ha⟩ := hf
    exact served_made hp hr (exchangeEcdh_ok env hp a ha st hr rights key other caller)
  | exchangeNetflix envs k a rights key other params =>
    obtain ⟨he, hk, ha⟩ := hf
    obtain ⟨o, h1, h2, h3⟩ := exchangeNetflix_cases p hp envs he k hk a ha st hr rights key other params caller
    refine ⟨o.store, .three o.status o.key o.ke o.kh, by simp only [serveKeys, h1]; rfl, h2, by simp, ?_⟩
    rcases h3 with ⟨hs, _, h3⟩ | ⟨hs, s1, s2, h3⟩
    · have : given (.three o.status o.key o.ke o.kh) = [] := by
        generalize o.status = s at hs
        cases s <;> first | exact absurd rfl hs | rfl
      rw [this]
      exact .none caller h3.2
    · obtain ⟨_, _, _, _, _, _, _, _, _, _, _, _, a1, a2, a3, _⟩ := h3.keys
      rw [hs]
      have g := ((Grown.one hp hr a1.reach (a1.newKey hp hr)).append (.one hp a1.reach a2.reach (a2.newKey hp a1.reach))).append (.one hp a2.reach a3.reach (a3.newKey hp a2.reach))
      refine ⟨fun x hx => g.was x ?_, fun x hx => g.is x ?_, fun x hx => g.others x ?_⟩
      all_goals
        simp only [given, List.mem_cons, List.mem_append, List.not_mem_nil, or_false] at hx ⊢
        try simp only [not_or] at hx ⊢
        first
          | (rcases hx with h | h | h <;> simp [h])
          | (obtain ⟨x1, x2, x3⟩ := hx; simp [x1, x2, x3])
  | «export» env key mixin out outLength =>
    obtain ⟨rfl, ho⟩ := hf
    obtain ⟨r, h1, h2, _⟩ := ksExport_cases env hp st (ksReachable_inv _ hp st hr) key mixin out outLength ho caller
    refine ⟨st, _, by simp only [serveKeys, h1, Option.map_some, h2]; rfl, served_same hr ?_ ?_⟩ <;> first | rfl | simp
  | header key =>
    refine ⟨st, _, by simp only [serveKeys]; rw [ksHeader_store st (ksReachable_inv p hp st hr).len], served_same hr ?_ ?_⟩ <;> first | rfl | simp
  | release key => exact absurd ⟨key, rfl⟩ hrel
  | getPublic env der out outLength key =>
    obtain ⟨rfl, ho⟩ := hf
    obtain ⟨a, h1, _⟩ := C69.C69_public_partial env hp der st hr out outLength key caller ho
    refine ⟨st, _, by simp only [serveKeys, h1]; rfl, served_same hr ?_ ?_⟩ <;> first | rfl | simp
  | digest env ok hash out outLength key digest =>
    obtain ⟨rfl, hh, ho⟩ := hf
    obtain ⟨a, h1, _⟩ := C69.C69_digest_partial env hp ok hash hh st hr out outLength key digest caller ho
    refine ⟨st, _, by simp only [serveKeys, h1]; rfl, served_same hr ?_ ?_⟩ <;> first | rfl | simp
  | sign l seed ok env params key msg out outLength =>
    obtain rfl := hf
    obtain ⟨s, k, h1, _⟩ := ksUnwrap_cases env hp st (ksReachable_inv _ hp st hr) key caller
    refine ⟨st, _, by simp only [serveKeys, Asym.taSign, h1]; rfl, served_same hr ?_ ?_⟩ <;> first | rfl | simp
  | provision v e c =>
    obtain ⟨h1, h2, hu, hsz, hc⟩ := hf
    obtain ⟨st', s, g1, g2, g3⟩ := provision_ok hp v h1 h2 e hu hsz st hr c hc caller
    exact ⟨st', .status s, by simp only [serveKeys, g1]; rfl, g2, by simp, .none caller g3⟩

/-- What holds of the tables of a session between calls. -/
structure TabInv (p : Prims) (d : Device σ τ) (t : Tables σ τ) : Prop where
  keys : KsReachable p t.keys
  ciphers : CipherInv t.ciphers
  macs : ∀ mac view, d.mac.Good mac view → ∃ know, MacInv d.mac view t.macs know
  svps : SvpsOk t.svps

/-- The keys given by a call. -/
def gives : Cmd κ ρ π → Reply → List Nat
  | .keys _, r => given r
  | _, _ => []

/-- What a call does to the keys of its session. -/
structure Kept (u : Uuid) (cmd : Cmd κ ρ π) (t t' : Tables σ τ) (r : Reply) : Prop where
  returns : ∀ c, cmd = .keys c → r ≠ .waits
  was : ∀ x ∈ gives cmd r, (t.keys.obj x).object = none
  live : ∀ x, (t'.keys.obj x).object.isSome = true ↔ x ∈ gives cmd r ∨ ((t.keys.obj x).object.isSome = true ∧ ¬(cmd = .keys (.release x) ∧ r = .status .OK))
  keeps : ∀ x, (t.keys.obj x).object.isSome → ¬(cmd = .keys (.release x) ∧ r = .status .OK) → t'.keys.obj x = t.keys.obj x
  owner : ∀ x ∈ gives cmd r, (t'.keys.obj x).ownerUuid = u

theorem Kept.same {u : Uuid} {cmd : Cmd κ ρ π} {t t' : Tables σ τ} {r : Reply} (h : t'.keys = t.keys) (hc : ∀ c, cmd ≠ .keys c) : Kept u cmd t t' r := by
  have hg : gives cmd r = [] := by cases cmd <;> first | exact absurd rfl (hc _) | rfl
  exact ⟨fun c e => absurd e (hc c), by simp [hg], fun x => by simp [hg, h, hc], fun x _ _ => by rw [h], by simp [hg]⟩

theorem keyCheck_ok (env : Env) (hp : env.prims.Good) (e : CheckEnv) (ks : KeyStore) (hks : KsReachable env.prims ks) (sv : SvpStore) (key : Nat) (input : Option CheckBuffer)
    (bytes : UInt64) (hb : bytes.toNat < 2 ^ 31) (expected : Option Bytes) (caller : Uuid) :
    ∃ sv' s, taSvpKeyCheck env e ks sv key input bytes expected caller = some (ks, sv', s) := by
  unfold taSvpKeyCheck
  cases input with
  | none => exact ⟨_, _, rfl⟩
  | some b =>
    simp only
    split
    · exact ⟨_, _, rfl⟩
    rename_i h16
    cases expected with
    | none => exact ⟨_, _, rfl⟩
    | some x =>
      simp only
      split
      · exact ⟨_, _, rfl⟩
      rename_i hx
      rcases unwrap_holds env hp ks (ksReachable_inv _ hp ks hks) key caller with ⟨s, hs, he⟩ | ⟨k, he, _⟩
      · rw [he]
        cases s <;> first | exact absurd rfl hs | exact ⟨_, _, rfl⟩
      · rw [he]
        simp only
        split
        · exact ⟨_, _, rfl⟩
        · have hbody : ∃ q, keyCheckBody env e sv b bytes x caller k = some q := by
            unfold keyCheckBody
            simp only
            split
            · exact ⟨_, rfl⟩
            · have : ∃ r, svpKeyCheck env.prims e ((convertBuffer sv b.view bytes caller).bytes.getD 0).toNat bytes.toNat x k.key = some r := by
                unfold svpKeyCheck
                have cmp : ∃ r, memcmpConstant (ecbDec (env.prims.aesDec k.key) (bytes.toNat / 16)
                    (memRead e.mem ((convertBuffer sv b.view bytes caller).bytes.getD 0).toNat bytes.toNat)) x bytes.toNat = some r := by
                  obtain ⟨r, h1, _⟩ := memcmp_eq (ecbDec (env.prims.aesDec k.key) (bytes.toNat / 16) (memRead e.mem ((convertBuffer sv b.view bytes caller).bytes.getD 0).toNat bytes.toNat)) x
                    bytes.toNat (by rw [ecbDec_len _ (fun b hb => hp.decLen _ _ hb) _ _ (by rw [memRead_length]; omega)]; omega) (by omega)
                  exact ⟨r, h1⟩
                obtain ⟨r, h1⟩ := cmp
                rw [h1, if_neg (show ¬ bytes.toNat ≥ 2 ^ 31 by omega)]
                simp only
                repeat' split
                all_goals exact ⟨_, rfl⟩
              obtain ⟨r, h1⟩ := this
              rw [h1]
              exact ⟨_, rfl⟩
          obtain ⟨q, h1⟩ := hbody
          rw [h1]
          exact ⟨_, _, rfl⟩

theorem serve_ok (p : Prims) (hp : p.Good) (d : Device σ τ) (hm : MacsGood d.mac) (t : Tables σ τ) (inv : TabInv p d t) (u : Uuid) (cmd : Cmd κ ρ π) (hf : cmd.Fine p) :
    ∃ t' r, serve d t u cmd = some (t', r) ∧ TabInv p d t' ∧ Kept u cmd t t' r := by
  have macStep : ∀ op : MacOp, ∃ w' r, macStep d.mac t.macs op = some (w', r) ∧ ∀ mac view, d.mac.Good mac view → ∃ know, MacInv d.mac view w' know := by
    intro op
    obtain ⟨mac, view, hg⟩ := hm
    obtain ⟨know, hi⟩ := inv.macs mac view hg
    obtain ⟨w', r, h1, _⟩ := macStep_inv hg t.macs know hi op
    refine ⟨w', r, h1, fun mac' view' hg' => ?_⟩
    obtain ⟨know', hi'⟩ := inv.macs mac' view' hg'
    obtain ⟨w'', r', h1', h2', _⟩ := macStep_inv hg' t.macs know' hi' op
    rw [h1] at h1'
    cases h1'
    exact ⟨_, h2'⟩
  cases cmd with
  | keys c =>
    obtain ⟨st', r, h1, h2⟩ := serveKeys_ok p hp t.keys inv.keys u c hf
    exact ⟨{ t with keys := st' }, r, by simp only [serve, h1]; rfl, ⟨h2.reach, inv.ciphers, inv.macs, inv.svps⟩, fun _ _ => h2.returns, h2.was,
      fun x => by simpa [gives] using h2.live x, fun x hx hn => h2.keeps x hx (by simpa using hn), h2.owner⟩
  | cipherInit env params mode key ienv =>
    obtain ⟨rfl, ho⟩ := hf
    obtain ⟨s, k, h1, _⟩ := ksUnwrap_cases env hp t.keys (ksReachable_inv _ hp t.keys inv.keys) key u
    obtain ⟨r, h2, h3⟩ := cipherStep_inv inv.ciphers d.cipher (.init params mode (s, k) ienv u) ho
    simp only [cipherStep, Option.map_eq_some_iff] at h2
    obtain ⟨q, h2, rfl⟩ := h2
    refine ⟨⟨t.keys, q.1, t.macs, t.svps⟩, _, by simp only [serve, h1, h2]; rfl, ⟨inv.keys, h3, inv.macs, inv.svps⟩, .same rfl (by simp)⟩
  | cipherProcess k up env mem context out input bytes =>
    obtain ⟨r, h2, h3⟩ := cipherProcess_inv inv.ciphers k d.cipher up env t.svps mem context out input bytes u
    refine ⟨⟨t.keys, r.world, t.macs, r.svp⟩, _, by simp only [serve, h2]; rfl, ⟨inv.keys, h3, inv.macs,
      by rw [process_svps inv.ciphers k d.cipher up env t.svps inv.svps.inv mem context out input bytes u r h2]; exact inv.svps⟩, .same rfl (by simp)⟩
  | cipherUpdateIv context iv =>
    obtain ⟨r, h2, h3⟩ := cipherStep_inv inv.ciphers d.cipher (.updateIv context iv u) trivial
    simp only [cipherStep, Option.map_eq_some_iff] at h2
    obtain ⟨q, h2, rfl⟩ := h2
    refine ⟨⟨t.keys, q.1, t.macs, t.svps⟩, _, by simp only [serve, h2]; rfl, ⟨inv.keys, h3, inv.macs, inv.svps⟩, .same rfl (by simp)⟩
  | cipherRelease context =>
    obtain ⟨r, h2, h3⟩ := cipherStep_inv inv.ciphers d.cipher (.release context u) trivial
    simp only [cipherStep] at h2
    refine ⟨⟨t.keys, r.1, t.macs, t.svps⟩, _, by simp only [serve, h2]; rfl, ⟨inv.keys, h3, inv.macs, inv.svps⟩, .same rfl (by simp)⟩
  | cenc env fuel mem bufs samples =>
    obtain ⟨r, h2⟩ := cencCall_end d.cipher env fuel inv.ciphers t.svps mem bufs samples hf u
    obtain ⟨h3, h4, _⟩ := cencCall_watch d.cipher env fuel inv.ciphers t.svps inv.svps.inv mem bufs samples u r h2
    refine ⟨⟨t.keys, r.world, t.macs, r.svp⟩, _, by simp only [serve, h2]; rfl, ⟨inv.keys, h4, inv.macs, .same inv.svps h3⟩, .same rfl (by simp)⟩
  | macInit env alg digest key allocOk =>
    obtain rfl := hf
    obtain ⟨s, k, h1, _⟩ := ksUnwrap_cases env hp t.keys (ksReachable_inv _ hp t.keys inv.keys) key u
    obtain ⟨w', r, h2, h3⟩ := macStep (.init alg digest (s, k) env.rights allocOk u)
    simp only [Sa.macStep, Option.some.injEq] at h2
    refine ⟨⟨t.keys, t.ciphers, w', t.svps⟩, _, by simp only [serve, h1, h2]; rfl, ⟨inv.keys, inv.ciphers, h3, inv.svps⟩, .same rfl (by simp)⟩
  | macProcess context input =>
    obtain ⟨w', r, h2, h3⟩ := macStep (.process context input u)
    simp only [Sa.macStep] at h2
    refine ⟨⟨t.keys, t.ciphers, w', t.svps⟩, _, by simp only [serve, h2]; rfl, ⟨inv.keys, inv.ciphers, h3, inv.svps⟩, .same rfl (by simp)⟩
  | macProcessKey env context key =>
    obtain rfl := hf
    obtain ⟨s, k, h1, _⟩ := ksUnwrap_cases env hp t.keys (ksReachable_inv _ hp t.keys inv.keys) key u
    obtain ⟨w', r, h2, h3⟩ := macStep (.processKey context (s, k) u)
    simp only [Sa.macStep] at h2
    refine ⟨⟨t.keys, t.ciphers, w', t.svps⟩, _, by simp only [serve, h1, h2]; rfl, ⟨inv.keys, inv.ciphers, h3, inv.svps⟩, .same rfl (by simp)⟩
  | macCompute context out =>
    obtain ⟨w', r, h2, h3⟩ := macStep (.compute context out u)
    simp only [Sa.macStep] at h2
    refine ⟨⟨t.keys, t.ciphers, w', t.svps⟩, _, by simp only [serve, h2]; rfl, ⟨inv.keys, inv.ciphers, h3, inv.svps⟩, .same rfl (by simp)⟩
  | macRelease context =>
    obtain ⟨w', r, h2, h3⟩ := macStep (.release context u)
    simp only [Sa.macStep] at h2
    refine ⟨⟨t.keys, t.ciphers, w', t.svps⟩, _, by simp only [serve, h2]; rfl, ⟨inv.keys, inv.ciphers, h3, inv.svps⟩, .same rfl (by simp)⟩
  | svpCreate m n => exact ⟨_, _, rfl, ⟨inv.keys, inv.ciphers, inv.macs, (svpCreate_ok inv.svps m n hf u).1⟩, .same rfl (by simp)⟩
  | svpWrite o i n l => exact ⟨_, _, rfl, ⟨inv.keys, inv.ciphers, inv.macs, SvpsOk.same inv.svps (taSvpBufferWrite_store t.svps inv.svps.inv o i n l u)⟩, .same rfl (by simp)⟩
  | svpCopy o i l => exact ⟨_, _, rfl, ⟨inv.keys, inv.ciphers, inv.macs, SvpsOk.same inv.svps (taSvpBufferCopy_store t.svps inv.svps.inv o i l u)⟩, .same rfl (by simp)⟩
  | svpCheck e svp offset length digest hash hashLength =>
    obtain ⟨s, h1, _⟩ := C68.C68_partial e hf.1 t.svps inv.svps.reach svp (inv.svps.buffer svp) offset length digest hash hashLength hf.2 u
    exact ⟨t, _, by simp only [serve, h1]; rfl, ⟨inv.keys, inv.ciphers, inv.macs, inv.svps⟩, .same rfl (by simp)⟩
  | svpKeyCheck env e key input bytes expected =>
    obtain ⟨rfl, hb⟩ := hf
    obtain ⟨sv', s, h1⟩ := keyCheck_ok env hp e t.keys inv.keys t.svps key input bytes hb expected u
    refine ⟨⟨t.keys, t.ciphers, t.macs, sv'⟩, _, by simp only [serve, h1]; rfl, ⟨inv.keys, inv.ciphers, inv.macs, .same inv.svps (keyCheck_svps inv.svps.inv h1)⟩, .same rfl (by simp)⟩
  | svpRelease svp =>
    rcases svpRelease_ok inv.svps svp u with ⟨s, _, e, _⟩ | ⟨b, st', e, ok, _⟩
    · exact ⟨t, _, by simp only [serve, e]; rfl, ⟨inv.keys, inv.ciphers, inv.macs, inv.svps⟩, .same rfl (by simp)⟩
    · exact ⟨⟨t.keys, t.ciphers, t.macs, st'⟩, _, by simp only [serve, e]; rfl, ⟨inv.keys, inv.ciphers, inv.macs, ok⟩, .same rfl (by simp)⟩

/-! ## The TA -/

/-- The tables of a session. -/
def tablesOf (w : Ta σ τ) (s : Nat) : Option (Tables σ τ) := (w.clients.obj s).object.bind w.heap

/-- In session `s`, which is `u`'s, handle `h` denotes the key `k`: its header is told, and it is this key that is used where the rights allow it. -/
def Denotes (p : Prims) (w : Ta σ τ) (s : Nat) (u : Uuid) (h : Nat) (k : StoredKey) : Prop :=
  (w.clients.obj s).ownerUuid = u ∧ ∃ t, tablesOf w s = some t ∧ KeyHeld p t.keys h u k

/-- Invariant of the TA between requests. -/
structure WInv (p : Prims) (d : Device σ τ) (w : Ta σ τ) : Prop where
  ta : TaInv w
  tabs : ∀ ptr t, w.heap ptr = some t → TabInv p d t
  owned : ∀ s t, tablesOf w s = some t → ∀ x, (t.keys.obj x).object.isSome → (t.keys.obj x).ownerUuid = (w.clients.obj s).ownerUuid

/-- Handle `h` of session `s` is in use. -/
def Live (w : Ta σ τ) (s h : Nat) : Prop := ∃ t, tablesOf w s = some t ∧ (t.keys.obj h).object.isSome

theorem new_tables (p : Prims) (d : Device σ τ) (t : Tables σ τ) (h : newTables σ τ = some t) : TabInv p d t ∧ ∀ x, (t.keys.obj x).object = none := by
  unfold newTables at h
  cases h1 : objectStoreInit WrappedKey 256 with
  | none => rw [h1] at h; simp at h
  | some k =>
    cases h2 : cipherNew σ 256 with
    | none => rw [h1, h2] at h; simp at h
    | some c =>
      cases h3 : macNew τ 256 with
      | none => rw [h1, h2, h3] at h; simp at h
      | some m =>
        cases h4 : objectStoreInit Svp 256 with
        | none => rw [h1, h2, h3, h4] at h; simp at h
        | some s =>
          rw [h1, h2, h3, h4] at h
          simp only [Option.some.injEq] at h
          subst h
          obtain ⟨_, _, _, _, h5⟩ := objectStoreInit_inv 256 k (by decide) h1
          exact ⟨⟨⟨256, k, [], by decide, h1, by simp, rfl⟩, (cipherNew_inv 256 (by decide) c h2).1, fun mac view _ => ⟨_, macInv_new d.mac view 256 (by decide) m h3⟩, (svpsOk_new s h4).1⟩,
            fun x => by simp [h5, StoreObject.zero]⟩

theorem start_ok (p : Prims) (d : Device σ τ) (w : Ta σ τ) (h : start σ τ = some w) : WInv p d w ∧ ∀ s, tablesOf w s = none := by
  have inv := start_inv w h
  unfold start at h
  cases h0 : objectStoreInit Nat 256 with
  | none => rw [h0] at h; simp at h
  | some st =>
    rw [h0] at h
    simp only [Option.map_some, Option.some.injEq] at h
    subst h
    obtain ⟨_, _, _, _, h5⟩ := objectStoreInit_inv 256 st (by decide) h0
    have none_ : ∀ s, tablesOf (⟨st, fun _ => none⟩ : Ta σ τ) s = none := fun s => by simp [tablesOf, h5, StoreObject.zero]
    exact ⟨⟨inv, fun ptr t e => by simp at e, fun s t e => by rw [none_] at e; simp at e⟩, none_⟩

/-- The book that callers can keep: which handles of which sessions are keys, from the requests and what was told. -/
def book (own : Nat → Nat → Bool) (x : Request κ ρ π × Uuid × Told) (s h : Nat) : Bool :=
  match x with
  | (.open _ _, _, .opened .OK s') => if s = s' then false else own s h
  | (.close s' _, _, .closed .OK) => if s = s' then false else own s h
  | (.call s' _ (.keys (.release h')), _, .reply (.status .OK)) => if s = s' ∧ h = h' then false else own s h
  | (.call s' _ (.keys _), _, .reply r) => if s = s' ∧ h ∈ given r then true else own s h
  | _ => own s h

def books (rs : List (Request κ ρ π)) (ts : List (Uuid × Told)) : Nat → Nat → Bool := (rs.zip ts).foldl book fun _ _ => false

/-- What a request did. -/
structure Step (p : Prims) (d : Device σ τ) (w : Ta σ τ) (r : Request κ ρ π) (w' : Ta σ τ) (told : Told) : Prop where
  inv : WInv p d w'
  returns : told ≠ .waits
  answered : ∀ s u c, r = .call s u (.keys c) → told ≠ .reply .waits
  says : ∀ own : Nat → Nat → Bool, (∀ s h, own s h = true ↔ Live w s h) → ∀ s h, book own (r, r.caller, told) s h = true ↔ Live w' s h
  fresh : ∀ s u c q, r = .call s u (.keys c) → told = .reply q → ∀ h ∈ given q, ¬Live w s h
  keeps : ∀ s t, tablesOf w s = some t → (∀ u, ¬(r = .close s u ∧ told = .closed .OK)) →
    (w'.clients.obj s).ownerUuid = (w.clients.obj s).ownerUuid ∧ ∃ t', tablesOf w' s = some t' ∧
      ∀ h, (t.keys.obj h).object.isSome → (∀ u, ¬(r = .call s u (.keys (.release h)) ∧ told = .reply (.status .OK))) → t'.keys.obj h = t.keys.obj h

theorem step_same {p : Prims} {d : Device σ τ} {w : Ta σ τ} {r : Request κ ρ π} {told : Told} (inv : WInv p d w) (h1 : told ≠ .waits)
    (h2 : ∀ r, told ≠ .reply r) (h3 : told ≠ .closed .OK) (h4 : ∀ s, told ≠ .opened .OK s) : Step p d w r w told := by
  refine ⟨inv, h1, fun _ _ _ _ => h2 _, fun own ho s h => ?_, fun _ _ _ q _ e => absurd e (h2 q), fun s t ht _ => ⟨rfl, t, ht, fun _ _ _ => rfl⟩⟩
  rw [← ho]
  unfold book
  split
  all_goals first | rfl | skip
  all_goals
    rename_i e
    simp only [Prod.mk.injEq] at e
    obtain ⟨_, _, e⟩ := e
    first | exact absurd e (h2 _) | exact absurd e h3 | exact absurd e (h4 _)

theorem handle_ok (p : Prims) (hp : p.Good) (d : Device σ τ) (hm : MacsGood d.mac) (w : Ta σ τ) (inv : WInv p d w) (r : Request κ ρ π) (hf : r.Fine p) :
    ∃ w' told, handle d w r = some (w', told) ∧ Step p d w r w' told := by
  cases r with
  | «open» u ptr =>
    rcases open_cases (κ := κ) (ρ := ρ) (π := π) d w inv.ta u ptr with ⟨st, s, n, e, hs, hl, hob⟩ | ⟨st, n, tb, e, hnew, hn, hl, hfree, hob⟩
    · have hi := handle_inv d w inv.ta _ _ e
      have same : ∀ s, tablesOf (⟨st, w.heap⟩ : Ta σ τ) s = tablesOf w s := fun s => by simp [tablesOf, hob]
      refine ⟨_, _, e, ⟨hi, inv.tabs, fun s t ht => by rw [same] at ht; simp only [hob]; exact inv.owned s t ht⟩, by simp, by simp, fun own ho s' h => ?_, by simp, fun s' t ht _ =>
        ⟨by simp only [hob], t, by rw [same]; exact ht, fun _ _ _ => rfl⟩⟩
      have : book own ((.open u ptr : Request κ ρ π), (Request.open u ptr : Request κ ρ π).caller, .opened s n) s' h = own s' h := by
        cases s <;> first | exact absurd rfl hs | rfl
      rw [this, ho]
      simp only [Live, same]
    · have hi := handle_inv d w inv.ta _ _ e
      obtain ⟨hti, hte⟩ := new_tables p d tb hnew
      have other : ∀ s, s ≠ n → tablesOf (⟨st, fun p => if p = ptr then some tb else w.heap p⟩ : Ta σ τ) s = tablesOf w s := by
        intro s hs
        simp only [tablesOf, hob, if_neg hs]
        cases hq : (w.clients.obj s).object with
        | none => rfl
        | some q =>
          simp only [Option.bind_some]
          rw [if_neg]
          rintro rfl
          have := inv.ta.inHeap s q hq
          rw [hn] at this; simp at this
      have this_ : tablesOf (⟨st, fun p => if p = ptr then some tb else w.heap p⟩ : Ta σ τ) n = some tb := by simp [tablesOf, hob]
      refine ⟨_, _, e, ⟨hi, fun q t ht => ?_, fun s t ht x hx => ?_⟩, by simp, by simp, fun own ho s h => ?_, by simp, fun s t ht _ => ?_⟩
      · simp only at ht
        split at ht
        · cases ht; exact hti
        · exact inv.tabs q t ht
      · by_cases hs : s = n
        · subst hs
          rw [this_] at ht; cases ht
          rw [hte] at hx; simp at hx
        · rw [other s hs] at ht
          simp only [hob, if_neg hs]
          exact inv.owned s t ht x hx
      · simp only [book]
        by_cases hs : s = n
        · subst hs
          simp [Live, this_, hte]
        · simp only [if_neg hs, Live, other s hs]
          exact ho s h
      · have hs : s ≠ n := by
          rintro rfl
          simp [tablesOf, hfree] at ht
        exact ⟨by simp only [hob, if_neg hs], t, by rw [other s hs]; exact ht, fun _ _ _ => rfl⟩
  | close n u =>
    rcases close_cases (κ := κ) (ρ := ρ) (π := π) d w inv.ta n u with ⟨s, e, hs, _⟩ | ⟨st, ptr, e, h4, h5, hl, hi, hob⟩
    · exact ⟨_, _, e, step_same inv (by simp) (by simp) (by simp [hs]) (by simp)⟩
    · have hti := handle_inv d w inv.ta _ _ e
      have other : ∀ s, s ≠ n → tablesOf (⟨st, fun p => if p = ptr then none else w.heap p⟩ : Ta σ τ) s = tablesOf w s := by
        intro s hs
        simp only [tablesOf, hob, if_neg hs]
        cases hq : (w.clients.obj s).object with
        | none => rfl
        | some q =>
          simp only [Option.bind_some]
          rw [if_neg]
          rintro rfl
          exact hs (inv.ta.inj s n q hq h4)
      have this_ : tablesOf (⟨st, fun p => if p = ptr then none else w.heap p⟩ : Ta σ τ) n = none := by simp [tablesOf, hob]
      refine ⟨_, _, e, ⟨hti, fun q t ht => ?_, fun s t ht x hx => ?_⟩, by simp, by simp, fun own ho s h => ?_, by simp, fun s t ht hno => ?_⟩
      · simp only at ht
        split at ht
        · cases ht
        · exact inv.tabs q t ht
      · by_cases hs : s = n
        · subst hs
          rw [this_] at ht; cases ht
        · rw [other s hs] at ht
          simp only [hob, if_neg hs]
          exact inv.owned s t ht x hx
      · simp only [book]
        by_cases hs : s = n
        · subst hs
          simp [Live, this_]
        · simp only [if_neg hs, Live, other s hs]
          exact ho s h
      · have hs : s ≠ n := by
          rintro rfl
          exact hno u ⟨rfl, rfl⟩
        exact ⟨by simp only [hob, if_neg hs], t, by rw [other s hs]; exact ht, fun _ _ _ => rfl⟩
  | call n u c =>
    rcases call_cases d w inv.ta n u c with ⟨s, e, _⟩ | ⟨ptr, tb, h4, h5, h6, e⟩
    · exact ⟨_, _, e, step_same inv (by simp) (by simp) (by simp) (by simp)⟩
    · obtain ⟨t', r, hs, hinv, hk⟩ := serve_ok p hp d hm tb (inv.tabs ptr tb h6) u c hf
      rw [hs] at e
      simp only [Option.map_some] at e
      have hti := handle_inv d w inv.ta _ _ e
      have before : tablesOf w n = some tb := by simp [tablesOf, h4, h6]
      have other : ∀ s, s ≠ n → tablesOf (⟨w.clients, fun p => if p = ptr then some t' else w.heap p⟩ : Ta σ τ) s = tablesOf w s := by
        intro s hs
        simp only [tablesOf]
        cases hq : (w.clients.obj s).object with
        | none => rfl
        | some q =>
          simp only [Option.bind_some]
          rw [if_neg]
          rintro rfl
          exact hs (inv.ta.inj s n q hq h4)
      have this_ : tablesOf (⟨w.clients, fun p => if p = ptr then some t' else w.heap p⟩ : Ta σ τ) n = some t' := by simp [tablesOf, h4]
      refine ⟨_, _, e, ⟨hti, fun q t ht => ?_, fun s t ht x hx => ?_⟩, by simp, fun s v c' ec => ?_, fun own ho s h => ?_, fun s v c' q ec eq h hh => ?_, fun s t ht hno => ?_⟩
      · simp only at ht
        split at ht
        · cases ht; exact hinv
        · exact inv.tabs q t ht
      · by_cases hs : s = n
        · subst hs
          rw [this_] at ht; cases ht
          rcases (hk.live x).1 hx with hg | ⟨hg, hnr⟩
          · rw [hk.owner x hg]; exact h5.symm
          · rw [hk.keeps x hg hnr]; exact inv.owned s tb before x hg
        · rw [other s hs] at ht
          exact inv.owned s t ht x hx
      · simp only [Request.call.injEq] at ec
        have := hk.returns c' ec.2.2
        simpa using this
      · have hlive : Live (⟨w.clients, fun p => if p = ptr then some t' else w.heap p⟩ : Ta σ τ) s h ↔
            (s = n ∧ h ∈ gives c r) ∨ (Live w s h ∧ ¬(s = n ∧ c = .keys (.release h) ∧ r = .status .OK)) := by
          by_cases hs : s = n
          · subst hs
            simp only [Live, this_, before, Option.some.injEq, exists_eq_left', true_and]
            exact hk.live h
          · simp [Live, other s hs, hs]
        rw [hlive, ← ho]
        cases c with
        | keys c =>
          by_cases hrel : ∃ x, c = .release x
          · obtain ⟨x, rfl⟩ := hrel
            by_cases hr : r = .status .OK
            · subst hr
              simp only [book, gives, given]
              by_cases hh : s = n ∧ h = x
              · simp [hh]
              · rw [if_neg hh]
                have hh' : ¬(s = n ∧ x = h) := fun e => hh ⟨e.1, e.2.symm⟩
                simp [hh']
            · have : book own ((.call n u (.keys (.release x)) : Request κ ρ π), (Request.call n u (.keys (.release x)) : Request κ ρ π).caller, .reply r) s h =
                  if s = n ∧ h ∈ given r then true else own s h := by
                cases r with
                | status st => cases st <;> first | exact absurd rfl hr | rfl
                | _ => rfl
              rw [this]
              by_cases hh : s = n ∧ h ∈ given r <;> simp [hh, hr, gives]
          · have : book own (.call n u (.keys c), (Request.call n u (.keys c) : Request κ ρ π).caller, .reply r) s h = if s = n ∧ h ∈ given r then true else own s h := by
              cases c <;> first | rfl | exact absurd ⟨_, rfl⟩ hrel
            rw [this]
            have hnr : c ≠ .release h := fun e => hrel ⟨h, e⟩
            by_cases hh : s = n ∧ h ∈ given r <;> simp [hh, hnr, gives]
        | _ => simp [book, gives]
      · simp only [Request.call.injEq] at ec
        obtain ⟨rfl, rfl, rfl⟩ := ec
        cases eq
        rintro ⟨t, e1, e2⟩
        rw [before] at e1; cases e1
        rw [hk.was h hh] at e2; simp at e2
      · by_cases hs : s = n
        · subst hs
          rw [before] at ht; cases ht
          exact ⟨rfl, t', this_, fun h hh hnr => hk.keeps h hh (fun e => hnr u ⟨by rw [e.1], by rw [e.2]⟩)⟩
        · exact ⟨rfl, t, by rw [other s hs]; exact ht, fun _ _ _ => rfl⟩

theorem live_iff (p : Prims) (hp : p.Good) (d : Device σ τ) (w : Ta σ τ) (inv : WInv p d w) (s h : Nat) : Live w s h ↔ ∃ u k, Denotes p w s u h k := by
  constructor
  · rintro ⟨t, ht, hl⟩
    obtain ⟨ptr, h1, h2⟩ := Option.bind_eq_some_iff.1 ht
    have ki := ksReachable_inv p hp t.keys (inv.tabs ptr t h2).keys
    cases ho : (t.keys.obj h).object with
    | none => rw [ho] at hl; simp at hl
    | some wk =>
      obtain ⟨k, hk⟩ := ki.keys h wk ho
      exact ⟨_, k, rfl, t, ht, holds_of p hp t.keys ki h _ wk k ho (inv.owned s t ht h hl) hk.1⟩
  · rintro ⟨u, k, hu, t, ht, hk⟩
    obtain ⟨ptr, h1, h2⟩ := Option.bind_eq_some_iff.1 ht
    obtain ⟨wk, _, h3, _⟩ := ksHeader_ok p t.keys (ksReachable_inv p hp t.keys (inv.tabs ptr t h2).keys) h u _ _ hk.1
    exact ⟨t, ht, by rw [h3]; rfl⟩

/-- Only the holder of a session closes it, and only its calls are served. -/
theorem only_holder (d : Device σ τ) (w w' : Ta σ τ) (inv : TaInv w) (s : Nat) (u : Uuid) :
    (handle (κ := κ) (ρ := ρ) (π := π) d w (.close s u) = some (w', .closed .OK) → (w.clients.obj s).ownerUuid = u) ∧
    ∀ (c : Cmd κ ρ π) r, handle d w (.call s u c) = some (w', .reply r) → (w.clients.obj s).ownerUuid = u := by
  constructor
  · intro h
    rcases close_cases (κ := κ) (ρ := ρ) (π := π) d w inv s u with ⟨st, e, hs, _⟩ | ⟨_, _, _, _, h5, _⟩
    · rw [e] at h; cases h; exact absurd rfl hs
    · exact h5
  · intro c r h
    rcases call_cases d w inv s u c with ⟨st, e, hs, _⟩ | ⟨_, _, _, h5, _⟩
    · rw [e] at h; cases h
    · exact h5

theorem denotes_step {p : Prims} (hp : p.Good) {d : Device σ τ} {w w' : Ta σ τ} (inv : WInv p d w) {r : Request κ ρ π} {told : Told} (hh : handle d w r = some (w', told))
    (st : Step p d w r w' told) {s : Nat} {u : Uuid} {h : Nat} {k : StoredKey} (hk : Denotes p w s u h k) (h1 : r ≠ .close s u) (h2 : r ≠ .call s u (.keys (.release h))) :
    Denotes p w' s u h k := by
  obtain ⟨hu, t, ht, hk⟩ := hk
  obtain ⟨ptr, g1, g2⟩ := Option.bind_eq_some_iff.1 ht
  obtain ⟨a1, t', a2, a3⟩ := st.keeps s t ht (fun v e => by
    obtain ⟨rfl, rfl⟩ := e
    rw [((only_holder d w w' inv.ta s v).1 hh).symm.trans hu] at h1
    exact h1 rfl)
  obtain ⟨ptr', g1', g2'⟩ := Option.bind_eq_some_iff.1 a2
  have ki := ksReachable_inv p hp t.keys (inv.tabs ptr t g2).keys
  obtain ⟨wk, _, h3, _⟩ := ksHeader_ok p t.keys ki h u _ _ hk.1
  refine ⟨a1.trans hu, t', a2, Agree.C101.held_stays hp ki (ksReachable_inv p hp t'.keys (st.inv.tabs ptr' t' g2').keys) hk (a3 h (by rw [h3]; rfl) fun v e => ?_)⟩
  obtain ⟨rfl, rfl⟩ := e
  rw [((only_holder d w w' inv.ta s v).2 _ _ hh).symm.trans hu] at h2
  exact h2 rfl

theorem all_ok (p : Prims) (hp : p.Good) (d : Device σ τ) (hm : MacsGood d.mac) (rs : List (Request κ ρ π)) (hf : ∀ r ∈ rs, r.Fine p) (w : Ta σ τ) (inv : WInv p d w) :
    ∃ w' ts, handleAll d w rs = some (w', ts) ∧ WInv p d w' ∧ ts.length = rs.length ∧
      (∀ x ∈ rs.zip ts, x.2.2 ≠ .waits ∧ ∀ s u c, x.1 = .call s u (.keys c) → x.2.2 ≠ .reply .waits) ∧
      (∀ own : Nat → Nat → Bool, (∀ s h, own s h = true ↔ Live w s h) → ∀ s h, (rs.zip ts).foldl book own s h = true ↔ Live w' s h) ∧
      ∀ s u h k, Denotes p w s u h k → (∀ r ∈ rs, r ≠ .close s u ∧ r ≠ .call s u (.keys (.release h))) → Denotes p w' s u h k := by
  induction rs generalizing w with
  | nil => exact ⟨w, [], rfl, inv, rfl, by simp, fun own ho => ho, fun _ _ _ _ h _ => h⟩
  | cons r rs ih =>
    obtain ⟨w1, told, h1, h2⟩ := handle_ok p hp d hm w inv r (hf r (by simp))
    obtain ⟨w2, ts, h3, h4, h5, h6, h7, h8⟩ := ih (fun r hr => hf r (by simp [hr])) w1 h2.inv
    refine ⟨w2, (r.caller, told) :: ts, by simp only [handleAll, h1, h3], h4, by simp [h5], ?_, fun own ho => ?_, fun s u h k hk hn => ?_⟩
    · intro x hx
      rcases List.mem_cons.1 (by simpa using hx) with rfl | hx
      · exact ⟨h2.returns, h2.answered⟩
      · exact h6 x hx
    · exact h7 _ (h2.says own ho)
    · exact h8 s u h k (denotes_step hp inv h1 h2 hk (hn r (by simp)).1 (hn r (by simp)).2) fun r hr => hn r (by simp [hr])

/-- After a history from the start. -/
theorem from_start (p : Prims) (hp : p.Good) (d : Device σ τ) (hm : MacsGood d.mac) (w0 : Ta σ τ) (h0 : start σ τ = some w0) (rs : List (Request κ ρ π)) (hf : ∀ r ∈ rs, r.Fine p)
    (w : Ta σ τ) (ts : List (Uuid × Told)) (hw : handleAll d w0 rs = some (w, ts)) :
    WInv p d w ∧ (∀ s h, books rs ts s h = true ↔ Live w s h) ∧ ∀ s, C104.holders rs ts s = (w.clients.obj s).object.map fun _ => (w.clients.obj s).ownerUuid := by
  obtain ⟨i0, e0⟩ := start_ok p d w0 h0
  obtain ⟨w', ts', h1, h2, _, _, h3, _⟩ := all_ok p hp d hm rs hf w0 i0
  rw [hw] at h1
  cases h1
  refine ⟨h2, h3 _ fun s h => by simp [Live, e0], ?_⟩
  exact (C104.holds_all d rs w0 i0.ta (fun _ => none) (fun s => by
    have := e0 s
    unfold tablesOf at this
    cases hq : (w0.clients.obj s).object with
    | none => rfl
    | some q =>
      have hin := i0.ta.inHeap s q hq
      rw [hq] at this
      simp only [Option.bind_some] at this
      rw [this] at hin; simp at hin) w ts hw).2

/-! ## The property -/

/-- **C105 (all is answered).**  Take any history of requests to a TA that starts without sessions, from any number of callers, that meets `Fine`: the TA serves all of it.  No request
runs into undefined behaviour, whatever came before, closing a session never waits and neither does any call on keys: releasing a key returns. -/
theorem C105_answered_partial (p : Prims) (hp : p.Good) (d : Device σ τ) (hm : MacsGood d.mac) (w0 : Ta σ τ) (h0 : start σ τ = some w0) (rs : List (Request κ ρ π))
    (hf : ∀ r ∈ rs, r.Fine p) :
    ∃ w ts, handleAll d w0 rs = some (w, ts) ∧ ts.length = rs.length ∧ ∀ x ∈ rs.zip ts, x.2.2 ≠ .waits ∧ ∀ s u c, x.1 = .call s u (.keys c) → x.2.2 ≠ .reply .waits := by
  obtain ⟨w, ts, h1, _, h3, h4, _⟩ := all_ok p hp d hm rs hf w0 (start_ok p d w0 h0).1
  exact ⟨w, ts, h1, h3, h4⟩

/-- **C105 (the book is right).**  After any such history handle `h` denotes a key for `u` in session `s` if and only if `u` holds `s` and `h` was given in it by a call that made a key,
and not released since - by the requests and what was told.  A call that asks for the header is then told that of the key, and otherwise fails. -/
theorem C105_book_partial (p : Prims) (hp : p.Good) (d : Device σ τ) (hm : MacsGood d.mac) (w0 : Ta σ τ) (h0 : start σ τ = some w0) (rs : List (Request κ ρ π))
    (hf : ∀ r ∈ rs, r.Fine p) (w : Ta σ τ) (ts : List (Uuid × Told)) (hw : handleAll d w0 rs = some (w, ts)) (s : Nat) (u : Uuid) (h : Nat) :
    ((∃ k, Denotes p w s u h k) ↔ C104.holders rs ts s = some u ∧ books rs ts s h = true) ∧
    (∀ k, Denotes p w s u h k → ∃ w', handle (κ := κ) (ρ := ρ) (π := π) d w (.call s u (.keys (.header h))) = some (w', .reply (.header .OK (some k.header)))) ∧
    ((¬∃ k, Denotes p w s u h k) → ∀ w' hd, handle (κ := κ) (ρ := ρ) (π := π) d w (.call s u (.keys (.header h))) ≠ some (w', .reply (.header .OK hd))) := by
  obtain ⟨inv, hb, hh⟩ := from_start p hp d hm w0 h0 rs hf w ts hw
  refine ⟨?_, ?_, ?_⟩
  · rw [hb, hh]
    constructor
    · rintro ⟨k, hk⟩
      have hl := (live_iff p hp d w inv s h).2 ⟨u, k, hk⟩
      obtain ⟨t, ht, _⟩ := id hl
      obtain ⟨ptr, g1, _⟩ := Option.bind_eq_some_iff.1 ht
      exact ⟨by rw [g1, hk.1]; rfl, hl⟩
    · rintro ⟨h1, h2⟩
      obtain ⟨v, k, hk⟩ := (live_iff p hp d w inv s h).1 h2
      have : v = u := by
        have e := hk.1
        cases hq : (w.clients.obj s).object with
        | none => rw [hq] at h1; simp at h1
        | some q => rw [hq] at h1; simp only [Option.map_some, Option.some.injEq] at h1; exact e.symm.trans h1
      exact ⟨k, this ▸ hk⟩
  · rintro k ⟨hu, t, ht, hk⟩
    obtain ⟨ptr, g1, g2⟩ := Option.bind_eq_some_iff.1 ht
    rcases call_cases (κ := κ) (ρ := ρ) (π := π) d w inv.ta s u (.keys (.header h)) with ⟨_, _, _, hbad⟩ | ⟨ptr', t', g3, _, g5, e⟩
    · rcases hbad with hbad | hbad
      · rw [hbad] at g1; simp at g1
      · exact absurd hu hbad
    · rw [g1] at g3; cases g3
      rw [g2] at g5; cases g5
      rw [e]
      simp only [serve, serveKeys, hk.1, Option.map_some]
      exact ⟨_, rfl⟩
  · intro hno w' hd he
    rcases call_cases (κ := κ) (ρ := ρ) (π := π) d w inv.ta s u (.keys (.header h)) with ⟨_, e, _⟩ | ⟨ptr, t, g1, g2, g3, e⟩
    · rw [e] at he; cases he
    · rw [e] at he
      have ht : tablesOf w s = some t := by simp [tablesOf, g1, g3]
      have ki := ksReachable_inv p hp t.keys (inv.tabs ptr t g3).keys
      have hst := ksHeader_store t.keys ki.len h u
      obtain ⟨k', s', hd', eg⟩ : ∃ k' s' hd', keyStoreGetHeader t.keys h u = (k', s', hd') := ⟨_, _, _, rfl⟩
      simp only [serve, serveKeys, eg, Option.map_some, Option.some.injEq, Prod.mk.injEq, Told.reply.injEq, Reply.header.injEq] at he
      obtain ⟨_, rfl, rfl⟩ := he
      rw [eg] at hst
      simp only at hst
      subst hst
      cases hd' with
      | none =>
        exfalso
        unfold keyStoreGetHeader at eg
        split at eg
        · simp at eg
        · rcases acquire_fail t.keys h u with ⟨st1, wk, ha⟩ | ⟨x, hx, ha⟩
          · rw [ha] at eg; simp at eg
          · rw [ha] at eg
            cases x <;> first | exact absurd rfl hx | simp at eg
      | some hd' =>
        obtain ⟨wk, k, h1, h2, h3, _, h5⟩ := ksHeader_ok p t.keys ki h u _ hd' eg
        exact hno ⟨k, g2, t, ht, holds_of p hp t.keys ki h u wk k h1 h2 h3⟩

/-- **C105 (one handle, one key).**  A handle that denotes a key goes on to denote that key, with that header and those bytes, over any further history in which its holder does not
release it and does not close the session: whatever other keys are made, released, agreed or provisioned, and whatever others do. -/
theorem C105_stays_partial (p : Prims) (hp : p.Good) (d : Device σ τ) (hm : MacsGood d.mac) (w0 : Ta σ τ) (h0 : start σ τ = some w0) (rs : List (Request κ ρ π))
    (hf : ∀ r ∈ rs, r.Fine p) (w : Ta σ τ) (ts : List (Uuid × Told)) (hw : handleAll d w0 rs = some (w, ts)) (s : Nat) (u : Uuid) (h : Nat) (k : StoredKey)
    (hk : Denotes p w s u h k) (more : List (Request κ ρ π)) (hmore : ∀ r ∈ more, r.Fine p) (hn : ∀ r ∈ more, r ≠ .close s u ∧ r ≠ .call s u (.keys (.release h))) :
    ∃ w' ts', handleAll d w more = some (w', ts') ∧ Denotes p w' s u h k := by
  obtain ⟨inv, _⟩ := from_start p hp d hm w0 h0 rs hf w ts hw
  obtain ⟨w', ts', h1, _, _, _, _, h2⟩ := all_ok p hp d hm more hmore w inv
  exact ⟨w', ts', h1, h2 s u h k hk hn⟩

/-- **C105 (handles given are new).**  A handle that a call gives is not in the book: no handle denotes two keys. -/
theorem C105_fresh_partial (p : Prims) (hp : p.Good) (d : Device σ τ) (hm : MacsGood d.mac) (w0 : Ta σ τ) (h0 : start σ τ = some w0) (rs : List (Request κ ρ π))
    (hf : ∀ r ∈ rs, r.Fine p) (w : Ta σ τ) (ts : List (Uuid × Told)) (hw : handleAll d w0 rs = some (w, ts)) (s : Nat) (u : Uuid) (c : Call κ ρ π) (hc : c.Fine p)
    (w' : Ta σ τ) (r : Reply) (hr : handle d w (.call s u (.keys c)) = some (w', .reply r)) (h : Nat) (hh : h ∈ given r) :
    books rs ts s h = false ∧ ∃ k, Denotes p w' s u h k := by
  obtain ⟨inv, hb, _⟩ := from_start p hp d hm w0 h0 rs hf w ts hw
  obtain ⟨w1, told, h1, h2⟩ := handle_ok p hp d hm w inv (.call s u (.keys c)) hc
  rw [hr] at h1
  cases h1
  have hnl := h2.fresh s u c r rfl rfl h hh
  refine ⟨by rw [← hb] at hnl; simpa using hnl, ?_⟩
  have hl : Live w' s h := by
    rw [← h2.says (books rs ts) hb]
    cases c with
    | release x =>
      cases r with
      | status st => simp [given] at hh
      | _ => simp [book, hh]
    | _ => simp [book, hh]
  obtain ⟨v, k, hk⟩ := (live_iff p hp d w' h2.inv s h).1 hl
  have hu := (only_holder d w w' inv.ta s u).2 _ _ hr
  have : v = u := by
    obtain ⟨t, ht, _⟩ := hl
    rcases call_cases d w inv.ta s u (.keys c) with ⟨_, e, _⟩ | ⟨ptr, t, g1, g2, g3, e⟩
    · rw [e] at hr; cases hr
    · rw [e] at hr
      cases hs : serve d t u (.keys c) with
      | none => rw [hs] at hr; simp at hr
      | some y =>
        rw [hs] at hr; cases hr
        exact hk.1.symm.trans g2
  exact ⟨k, this ▸ hk⟩

/-! ## A history -/

/-- A call that makes a symmetric key. -/
def gen : Call Unit Unit Unit := .generate C08.env0 C52.genv rightsAllowAll (some (.symmetric 16))

/-- Two TAs open sessions and make keys; the first tries the session of the second, releases one of its two keys and asks for it. -/
def history : List (Request Unit Unit Unit) :=
  [.open C08.u7 1, .open C08.u8 2, .call 31 C08.u7 (.keys gen), .call 31 C08.u7 (.keys gen), .call 30 C08.u8 (.keys gen), .call 30 C08.u7 (.keys gen),
   .call 31 C08.u7 (.keys (.release 31)), .call 31 C08.u7 (.keys (.header 31))]

/-- It is among those the theorems speak about. -/
example : ∀ r ∈ history, r.Fine C08.toy := by
  intro r hr
  have hg : gen.Fine C08.toy := ⟨rfl, C52.genv_good, fun n e => by simp at e⟩
  simp only [history, List.mem_cons, List.not_mem_nil, or_false] at hr
  rcases hr with rfl | rfl | rfl | rfl | rfl | rfl | rfl | rfl
  · exact True.intro
  · exact True.intro
  · exact hg
  · exact hg
  · exact hg
  · exact hg
  · exact True.intro
  · exact True.intro
example : MacsGood C104.dev.mac :=
  ⟨fun _ _ _ => [], fun _ => (.cmac, [], []), fun _ _ _ h => by simp [C104.dev] at h, fun _ _ h => by simp [C104.dev] at h, fun _ _ _ => rfl, fun _ _ h => by simp [C104.dev] at h⟩
/-- What they are told: each key its own number; the other's session is refused; the handle released is no key. -/
example : (((start Unit Unit).bind fun w => handleAll C104.dev w history).map fun r => r.2.map fun x => C104.brief x.2) =
    some [some (.OK, 31), some (.OK, 30), some (.OK, 31), some (.OK, 30), some (.OK, 31), some (.OPERATION_NOT_ALLOWED, 0), none, some (.INVALID_PARAMETER, 0)] := by
  decide +kernel
/-- The book before the release: in session 31 both handles, in session 30 one ... -/
example : (((start Unit Unit).bind fun w => handleAll C104.dev w (history.take 6)).map fun r =>
    [books history r.2 31 31, books history r.2 31 30, books history r.2 31 29, books history r.2 30 31, books history r.2 30 30]) = some [true, true, false, true, false] := by
  decide +kernel
/-- ... and after it: the first handle is not a key, so that another call may give it. -/
example : (((start Unit Unit).bind fun w => handleAll C104.dev w history).map fun r => [books history r.2 31 31, books history r.2 31 30]) = some [false, true] := by
  decide +kernel
/-- A key made after a release may get the same handle. -/
example : (((start Unit Unit).bind fun w => handleAll C104.dev w ([.open C08.u7 1, .call 31 C08.u7 (.keys gen), .call 31 C08.u7 (.keys (.release 31)), .call 31 C08.u7 (.keys gen)] :
    List (Request Unit Unit Unit))).map fun r => r.2.map fun x => C104.brief x.2) = some [some (.OK, 31), some (.OK, 31), none, some (.OK, 31)] := by
  decide +kernel

end Sa.Whole.C105

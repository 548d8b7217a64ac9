import Verif.Props.C116
import Verif.Lemmas.Derive
import Verif.Lemmas.NetflixRun
import Verif.Props.C31

/-!
# C118: what is derived from a key is the same with every copy of it

For the TA as a whole: any number of sessions and callers, all calls.
-/

namespace Sa.Whole.C118

open C105 C106 C110 C114

variable {κ ρ π σ τ : Type}

/-! ## What is claimed -/

/-- How a key is derived from one other: algorithm and parameters, but for the handle. -/
inductive Recipe where
  | hkdf (keyLength digest : Nat) (salt info : Buf)
  | concat (keyLength digest : Nat) (info : Buf)
  | x963 (keyLength digest : Nat) (info : Buf)
  | cmac (keyLength counter : Nat) (other : Buf)

/-- The parameters of the call that derives from handle `h`. -/
def Recipe.from (h : Nat) : Recipe → KdfParams
  | .hkdf L digest salt info => .hkdf L digest h salt info
  | .concat L digest info => .concat L digest h info
  | .x963 L digest info => .x963 L digest h info
  | .cmac L counter other => .cmac L counter h other

def Recipe.length : Recipe → Nat
  | .hkdf L _ _ _ => L
  | .concat L _ _ => L
  | .x963 L _ _ => L
  | .cmac L _ _ => L

/-- What it gives for the bytes of a key, by RFC 5869, NIST SP 800-56A, ANSI X9.63 and NIST SP 800-108. -/
def Recipe.bytes (k : KdfPrims) (key : Bytes) : Recipe → Bytes
  | .hkdf L digest salt info => hkdfSpec (k.hmac digest) ((digestLength digest).getD 0) salt.get key (info.get.getD []) L
  | .concat L digest info => concatSpec (k.hash digest) ((digestLength digest).getD 0) key (info.get.getD []) L
  | .x963 L digest info => x963Spec (k.hash digest) ((digestLength digest).getD 0) key (info.get.getD []) L
  | .cmac L counter other => cmacSpec (k.cmac key) (other.get.getD []) counter L

/-! ## What is in the slot of a key that was derived -/

/-- Between these two tables slot `x`, which was free, has been filled, and that is all. -/
def Beside (st st' : KeyStore) (x : Nat) : Prop := st'.slotCount = st.slotCount ∧ (st.obj x).object = none ∧ ∀ y, y ≠ x → st'.obj y = st.obj y

theorem from_held (env : Env) (hp : env.prims.Good) (st : KeyStore) (hr : KsReachable env.prims st) (rights : Rights) (parent : Nat) (caller : Uuid) (typeOk : Header → Bool)
    (kdf : StoredKey → Option (Status × Option StoredKey)) (L : Nat) (hL : L ≤ 512) (bytes : Bytes → Bytes) (hb : ∀ b, (bytes b).length = L)
    (hk : ∀ pk, (∃ s, s ≠ Status.OK ∧ kdf pk = some (s, none)) ∨ kdf pk = some (kdfFinish env rights pk.header.rights L (bytes pk.key)))
    (st' : KeyStore) (x : Nat) (hx : deriveFrom env st parent caller typeOk kdf = some (st', .OK, x)) (q : StoredKey) (hq : KeyHeld env.prims st parent caller q) :
    ∃ d, Held env.prims st' x caller d ∧ kdfFinish env rights q.header.rights L (bytes q.key) = (.OK, some d) ∧ (bytes q.key).length = L ∧ Beside st st' x := by
  have inv := ksReachable_inv _ hp st hr
  unfold deriveFrom at hx
  rcases unwrap_holds env hp st inv parent caller with ⟨s, hs, he⟩ | ⟨pk, he, hh, _, _⟩
  · rw [he] at hx
    cases s <;> first | exact absurd rfl hs | cases hx
  · obtain rfl := KeyHeld.unique _ _ _ _ _ _ env rfl hq he
    rw [he] at hx
    simp only at hx
    by_cases h1 : (!rightsAllowedDerive env.rights pk.header.rights) = true
    · rw [if_pos h1] at hx; cases hx
    rw [if_neg h1] at hx
    by_cases h2 : pk.header.type.toNat ≠ KEY_TYPE_SYMMETRIC
    · rw [if_pos h2] at hx; cases hx
    rw [if_neg h2] at hx
    by_cases h3 : (!typeOk pk.header) = true
    · rw [if_pos h3] at hx; cases hx
    rw [if_neg h3] at hx
    rcases hk pk with ⟨s, hs, hf⟩ | hf
    · rw [hf] at hx
      cases s <;> first | exact absurd rfl hs | cases hx
    · rcases storedKeyCreate_cases (env.ok .storedKeyAlloc) rights (some pk.header.rights) KEY_TYPE_SYMMETRIC (Vector.replicate 1040 0) L (bytes pk.key) with ⟨d, hc⟩ | ⟨s, hs, hc⟩
      · have hf' : kdfFinish env rights pk.header.rights L (bytes pk.key) = (.OK, some d) := hc
        rw [hf, hf'] at hx
        simp only [Option.some.injEq] at hx
        obtain ⟨_, _, _, _, _, hkey, hm⟩ := storedKeyCreate_ok hc
        have hlen := hb pk.key
        have hsm : KeySmall d.key := by rw [hkey]; unfold KeySmall; rw [paddedSize_eq]; omega
        obtain ⟨_, i2, i3⟩ := importStoredKey_spec env hp st inv d hm hsm caller
        rw [hx] at i2 i3
        rcases i3 with ⟨hno, _⟩ | ⟨_, _, hfree, w3, hw3, hobj⟩
        · exact absurd rfl hno
        · simp only at hobj
          exact ⟨d, ⟨w3, by rw [hobj, if_pos rfl], by rw [hobj, if_pos rfl], hw3⟩, hf', hlen, i2, hfree, fun y hy => by rw [hobj, if_neg hy]⟩
      · have hf' : kdfFinish env rights pk.header.rights L (bytes pk.key) = (s, none) := hc
        rw [hf, hf'] at hx
        cases s <;> first | exact absurd rfl hs | cases hx

theorem derived_held (env : Env) (hp : env.prims.Good) (k : KdfEnv) (hk : k.prims.Good) (st : KeyStore) (hr : KsReachable env.prims st) (rights : Rights) (r : Recipe) (parent : Nat)
    (caller : Uuid) (st' : KeyStore) (x : Nat) (hx : keyDerive env k st rights (r.from parent) caller = some (st', .OK, x)) (q : StoredKey) (hq : KeyHeld env.prims st parent caller q) :
    ∃ d, Held env.prims st' x caller d ∧ kdfFinish env rights q.header.rights r.length (r.bytes k.prims q.key) = (.OK, some d) ∧ (r.bytes k.prims q.key).length = r.length ∧ Beside st st' x := by
  cases r with
  | hkdf L digest salt info =>
    simp only [Recipe.from, keyDerive] at hx
    by_cases h1 : info.isBad = true; · rw [if_pos h1] at hx; cases hx
    rw [if_neg h1] at hx
    by_cases h2 : salt.isBad = true; · rw [if_pos h2] at hx; cases hx
    rw [if_neg h2] at hx
    by_cases h3 : L > 512; · rw [if_pos h3] at hx; cases hx
    rw [if_neg h3] at hx
    by_cases h4 : digest > 3; · rw [if_pos h4] at hx; cases hx
    rw [if_neg h4] at hx
    obtain ⟨n, hd⟩ := digest_le_3 digest (by omega)
    refine from_held env hp st hr rights parent caller _ _ L (by omega) (fun b => Recipe.bytes k.prims b (.hkdf L digest salt info)) (fun b => ?_) (fun pk => ?_) st' x hx q hq
    · simp only [Recipe.bytes, hd, Option.getD_some]
      exact hkdfSpec_length _ hk digest n hd _ _ _ _
    · simp only [Recipe.bytes, hd, Option.getD_some]
      exact (kdfHkdf_spec env k hk rights L digest n hd (by omega) salt.get info.get pk).imp (·.1) id
  | concat L digest info =>
    simp only [Recipe.from, keyDerive] at hx
    by_cases h1 : info.isBad = true; · rw [if_pos h1] at hx; cases hx
    rw [if_neg h1] at hx
    by_cases h3 : L > 512; · rw [if_pos h3] at hx; cases hx
    rw [if_neg h3] at hx
    by_cases h4 : digest > 3; · rw [if_pos h4] at hx; cases hx
    rw [if_neg h4] at hx
    obtain ⟨n, hd⟩ := digest_le_3 digest (by omega)
    refine from_held env hp st hr rights parent caller _ _ L (by omega) (fun b => Recipe.bytes k.prims b (.concat L digest info)) (fun b => ?_) (fun pk => ?_) st' x hx q hq
    · simp only [Recipe.bytes, hd, Option.getD_some]
      exact concatSpec_length _ hk digest n hd _ _ _
    · simp only [Recipe.bytes, hd, Option.getD_some]
      exact (kdfConcat_spec env k hk rights L digest n hd (by omega) info.get pk).imp (·.1) id
  | x963 L digest info =>
    simp only [Recipe.from, keyDerive] at hx
    by_cases h1 : info.isBad = true; · rw [if_pos h1] at hx; cases hx
    rw [if_neg h1] at hx
    by_cases h3 : L > 512; · rw [if_pos h3] at hx; cases hx
    rw [if_neg h3] at hx
    by_cases h4 : digest > 3; · rw [if_pos h4] at hx; cases hx
    rw [if_neg h4] at hx
    obtain ⟨n, hd⟩ := digest_le_3 digest (by omega)
    refine from_held env hp st hr rights parent caller _ _ L (by omega) (fun b => Recipe.bytes k.prims b (.x963 L digest info)) (fun b => ?_) (fun pk => ?_) st' x hx q hq
    · simp only [Recipe.bytes, hd, Option.getD_some]
      exact x963Spec_length _ hk digest n hd _ _ _
    · simp only [Recipe.bytes, hd, Option.getD_some]
      exact (kdfX963_spec env k hk rights L digest n hd (by omega) info.get pk).imp (·.1) id
  | cmac L counter other =>
    simp only [Recipe.from, keyDerive] at hx
    by_cases h1 : other.isBad = true; · rw [if_pos h1] at hx; cases hx
    rw [if_neg h1] at hx
    by_cases h2 : counter < 1 ∨ counter > 4; · rw [if_pos h2] at hx; cases hx
    rw [if_neg h2] at hx
    by_cases h3 : L % 16 ≠ 0; · rw [if_pos h3] at hx; cases hx
    rw [if_neg h3] at hx
    by_cases h4 : L / 16 > 5 - counter; · rw [if_pos h4] at hx; cases hx
    rw [if_neg h4] at hx
    refine from_held env hp st hr rights parent caller _ _ L (by omega) (fun b => Recipe.bytes k.prims b (.cmac L counter other)) (fun b => ?_) (fun pk => ?_) st' x hx q hq
    · simp only [Recipe.bytes]
      exact cmacSpec_length _ (fun _ => hk.cmacLen _ _) _ _ _ (by omega)
    · simp only [Recipe.bytes]
      exact (kdfCmac_spec env k hk rights L counter (by omega) (by omega) (by omega) (by omega) other.get pk).imp (·.1) id

theorem created_unique {x y : Bool} {rights : Rights} {parent : Option Rights} {type size : Nat} {tp : Vector UInt8 1040} {input : Bytes} {m m' : StoredKey}
    (h : storedKeyCreate x rights parent type tp size input = (.OK, some m)) (h' : storedKeyCreate y rights parent type tp size input = (.OK, some m')) : m = m' := by
  unfold storedKeyCreate at h h'
  by_cases h1 : (!keyTypeSupportsAny type (curveOf tp) size) = true
  · rw [if_pos h1] at h; cases h
  rw [if_neg h1] at h h'
  by_cases h2 : (!rightsValidateFormat rights) = true
  · rw [if_pos h2] at h; cases h
  rw [if_neg h2] at h h'
  cases x
  · cases h
  cases y
  · cases h'
  cases h
  cases h'
  rfl

/-! ## The property -/

/-- The request that derives a key, with the rights asked for, from the key at a place. -/
def derivation (b : Place κ ρ π) (env : Env) (k : KdfEnv) (rights : Rights) (r : Recipe) : Request κ ρ π := .call b.s b.u (.keys (.derive env k rights (r.from b.h)))

/-- Where the new key is. -/
def newPlace (b : Place κ ρ π) (env : Env) (k : KdfEnv) (rights : Rights) (r : Recipe) (x : Nat) : Place κ ρ π := ⟨b.past ++ [derivation b env k rights r], b.s, b.u, x⟩

theorem derived_place (p : Prims) (hp : p.Good) (d : Device σ τ) (hm : MacsGood d.mac) (w0 : Ta σ τ) (h0 : start σ τ = some w0) (b : Place κ ρ π) (hb : ∀ r ∈ b.past, r.Fine p)
    {q : StoredKey} (hq : b.Is p d w0 q) {env : Env} (he : env.prims = p) {k : KdfEnv} (hk : k.prims.Good) {rights : Rights} {r : Recipe} {w w' : Ta σ τ} {ts : List (Uuid × Told)} {x : Nat}
    (hw : handleAll d w0 b.past = some (w, ts)) (hh : handle d w (derivation b env k rights r) = some (w', .reply (.made .OK x))) :
    ∃ n, kdfFinish env rights q.header.rights r.length (r.bytes k.prims q.key) = (.OK, some n) ∧ (r.bytes k.prims q.key).length = r.length ∧
      ∀ e, Copy d w0 (newPlace b env k rights r x) e → (∀ r ∈ e.past, r.Fine p) → e.Is p d w0 n := by
  obtain ⟨w1, ts1, e1, _, t, ht, hkh⟩ := hq
  rw [hw] at e1; cases e1
  have inv := run_inv hp hm h0 hb hw
  obtain ⟨t', st', g1, _, g2, ht', hu'⟩ := keys_call inv.ta hh
  rw [ht] at g1; cases g1
  obtain ⟨ptr, _, hptr⟩ := tables_heap ht
  simp only [serveKeys, Option.map_eq_some_iff, Prod.mk.injEq, Reply.made.injEq] at g2
  obtain ⟨⟨q1, q2, q3⟩, e, rfl, rfl, rfl⟩ := g2
  subst he
  obtain ⟨n, f1, f2, f3, _⟩ := derived_held env hp k hk t.keys (inv.tabs ptr t hptr).keys rights r b.h b.u _ _ e q hkh
  refine ⟨n, f2, f3, fun e he hfe => ?_⟩
  obtain ⟨w, ts, ew, hw'⟩ := has_copy hp hm h0 he hfe (handleAll_snoc d _ _ _ _ hw _ _ _ hh) ⟨hu', _, ht', f1⟩
  exact ⟨w, ts, ew, hw'.denotes hp (run_inv hp hm h0 hfe ew)⟩

/-- **C118.**  A key is at place `a`; `b` and `c` are places with copies of it.  From each a key is derived in the same way (by HKDF, the concatenation KDF, X9.63 or CMAC), by whomever and
whenever.  If both calls succeed, the new keys have the same bytes, those the standard gives for the bytes of the key, of the length asked for, wherever they are copied to; and if the same rights were asked for, they are one key. -/
theorem C118_same_partial (p : Prims) (hp : p.Good) (d : Device σ τ) (hm : MacsGood d.mac) (w0 : Ta σ τ) (h0 : start σ τ = some w0) (a : Place κ ρ π) (ha : ∀ r ∈ a.past, r.Fine p)
    (k0 : StoredKey) (hk0 : a.Is p d w0 k0) (b c : Place κ ρ π) (cb : Copy d w0 a b) (cc : Copy d w0 a c) (hb : ∀ r ∈ b.past, r.Fine p) (hc : ∀ r ∈ c.past, r.Fine p)
    (r : Recipe) (env env' : Env) (he : env.prims = p) (he' : env'.prims = p) (kdf kdf' : KdfEnv) (hk : kdf.prims.Good) (hkk : kdf'.prims = kdf.prims) (rights rights' : Rights)
    (w w1 : Ta σ τ) (ts : List (Uuid × Told)) (x : Nat) (hw : handleAll d w0 b.past = some (w, ts)) (hx : handle d w (derivation b env kdf rights r) = some (w1, .reply (.made .OK x)))
    (w' w1' : Ta σ τ) (ts' : List (Uuid × Told)) (x' : Nat) (hw' : handleAll d w0 c.past = some (w', ts'))
    (hx' : handle d w' (derivation c env' kdf' rights' r) = some (w1', .reply (.made .OK x'))) :
    ∃ q n n', a.Is p d w0 q ∧ (∀ e, Copy d w0 (newPlace b env kdf rights r x) e → (∀ r ∈ e.past, r.Fine p) → e.Is p d w0 n) ∧
      (∀ e, Copy d w0 (newPlace c env' kdf' rights' r x') e → (∀ r ∈ e.past, r.Fine p) → e.Is p d w0 n') ∧
      n.key = r.bytes kdf.prims q.key ∧ n'.key = n.key ∧ n.key.length = r.length ∧ n.header.size.toNat = r.length ∧ n.header.rights = restrictChildRights rights (some k0.header.rights) ∧
      (rights = rights' → n = n') := by
  obtain ⟨q, hqa, same⟩ := C114_same_partial p hp d hm w0 h0 a ha k0 hk0
  have hhd : k0.header = q.header := by
    obtain ⟨w, ts, e, _, t1, ht1, g1⟩ := hqa
    obtain ⟨w', ts', e', _, t2, ht2, g2⟩ := hk0
    rw [e] at e'; cases e'
    rw [ht1] at ht2; cases ht2
    exact held_header g1 g2
  obtain ⟨n, f1, fl, f2⟩ := derived_place p hp d hm w0 h0 b hb (same b cb hb) he hk hw hx
  obtain ⟨n', f1', _, f2'⟩ := derived_place p hp d hm w0 h0 c hc (same c cc hc) he' (hkk ▸ hk) hw' hx'
  rw [hkk] at f1'
  unfold kdfFinish at f1 f1'
  obtain ⟨_, g2, _, _, g5, g6, _⟩ := storedKeyCreate_ok f1
  obtain ⟨_, _, _, _, _, g6', _⟩ := storedKeyCreate_ok f1'
  refine ⟨q, n, n', hqa, f2, f2', g6, by rw [g6, g6'], ?_, g5, by rw [hhd]; exact g2, fun hrr => ?_⟩
  · rw [g6, fl]
  · subst hrr
    exact created_unique f1 f1'

/-! ## Netflix derivation -/

/-- The key that Netflix derivation makes of an encryption key and an HMAC key (HKDF with SHA-256 and fixed salt and info, cut to 16 bytes). -/
def netflixBytes (k : KdfPrims) (enc hmac : Bytes) : Bytes := (k.hmac 1 (k.hmac 1 netflixSalt (enc ++ hmac)) netflixInfo).take 16

theorem netflix_held (env : Env) (hp : env.prims.Good) (k : KdfEnv) (st : KeyStore) (hr : KsReachable env.prims st) (rights : Rights) (kenc khmac : Nat)
    (caller : Uuid) (st' : KeyStore) (x : Nat) (hx : keyDerive env k st rights (.netflix kenc khmac) caller = some (st', .OK, x)) (q1 q2 : StoredKey) (h1 : KeyHeld env.prims st kenc caller q1)
    (h2 : KeyHeld env.prims st khmac caller q2) :
    ∃ d, Held env.prims st' x caller d ∧ kdfFinish env rights q1.header.rights 16 (netflixBytes k.prims q1.key q2.key) = (.OK, some d) := by
  have inv := ksReachable_inv _ hp st hr
  simp only [keyDerive] at hx
  unfold deriveNetflix at hx
  rcases unwrap_holds env hp st inv kenc caller with ⟨s, hs, he⟩ | ⟨p1, he, _⟩
  · rw [he] at hx
    cases s <;> first | exact absurd rfl hs | cases hx
  obtain rfl := KeyHeld.unique _ _ _ _ _ _ env rfl h1 he
  rw [he] at hx
  simp only at hx
  by_cases c1 : (!rightsAllowedDerive env.rights p1.header.rights) = true
  · rw [if_pos c1] at hx; cases hx
  rw [if_neg c1] at hx
  by_cases c2 : p1.header.type.toNat ≠ KEY_TYPE_SYMMETRIC
  · rw [if_pos c2] at hx; cases hx
  rw [if_neg c2] at hx
  rcases unwrap_holds env hp st inv khmac caller with ⟨s, hs, he2⟩ | ⟨p2, he2, _⟩
  · rw [he2] at hx
    cases s <;> first | exact absurd rfl hs | cases hx
  obtain rfl := KeyHeld.unique _ _ _ _ _ _ env rfl h2 he2
  rw [he2] at hx
  simp only at hx
  by_cases c3 : (!rightsAllowedDerive env.rights p2.header.rights) = true
  · rw [if_pos c3] at hx; cases hx
  rw [if_neg c3] at hx
  by_cases c4 : p2.header.type.toNat ≠ KEY_TYPE_SYMMETRIC
  · rw [if_pos c4] at hx; cases hx
  rw [if_neg c4] at hx
  unfold kdfNetflixWrapping at hx
  by_cases c5 : p1.key.length ≠ 16
  · rw [if_pos c5] at hx; cases hx
  rw [if_neg c5] at hx
  by_cases c6 : p2.key.length ≠ 32
  · rw [if_pos c6] at hx; cases hx
  rw [if_neg c6] at hx
  by_cases c7 : (!k.allocOk) = true
  · rw [if_pos c7] at hx; cases hx
  rw [if_neg c7] at hx
  by_cases c8 : (!k.ok 0) = true ∨ (!k.ok 1) = true
  · rw [if_pos c8] at hx; cases hx
  rw [if_neg c8] at hx
  simp only at hx
  rcases storedKeyCreate_cases (env.ok .storedKeyAlloc) rights (some p1.header.rights) KEY_TYPE_SYMMETRIC (Vector.replicate 1040 0) 16 (netflixBytes k.prims p1.key p2.key) with ⟨d, hc⟩ | ⟨s, hs, hc⟩
  · have hc' := hc
    unfold netflixBytes at hc'
    rw [hc'] at hx
    simp only [Option.some.injEq] at hx
    obtain ⟨_, _, _, _, _, hkey, hm⟩ := storedKeyCreate_ok hc
    have hlen : (netflixBytes k.prims p1.key p2.key).length ≤ 16 := by unfold netflixBytes; rw [List.length_take]; omega
    have hsm : KeySmall d.key := by rw [hkey]; unfold KeySmall; rw [paddedSize_eq]; omega
    obtain ⟨_, _, i3⟩ := importStoredKey_spec env hp st inv d hm hsm caller
    rw [hx] at i3
    rcases i3 with ⟨hno, _⟩ | ⟨_, _, _, w3, hw3, hobj⟩
    · exact absurd rfl hno
    · simp only at hobj
      exact ⟨d, ⟨w3, by rw [hobj, if_pos rfl], by rw [hobj, if_pos rfl], hw3⟩, hc⟩
  · unfold netflixBytes at hc
    rw [hc] at hx
    cases s <;> first | exact absurd rfl hs | cases hx

/-- The request that derives a key in this way. -/
def netflixDerivation (s : Nat) (u : Uuid) (enc hmac : Nat) (env : Env) (k : KdfEnv) (rights : Rights) : Request κ ρ π := .call s u (.keys (.derive env k rights (.netflix enc hmac)))

theorem netflix_place (p : Prims) (hp : p.Good) (d : Device σ τ) (hm : MacsGood d.mac) (w0 : Ta σ τ) (h0 : start σ τ = some w0) {rs : List (Request κ ρ π)} (hb : ∀ r ∈ rs, r.Fine p)
    {s : Nat} {u : Uuid} {enc hmac : Nat} {q1 q2 : StoredKey} (hq1 : Place.Is p d w0 ⟨rs, s, u, enc⟩ q1) (hq2 : Place.Is p d w0 ⟨rs, s, u, hmac⟩ q2) {env : Env} (he : env.prims = p)
    {k : KdfEnv} {rights : Rights} {w w' : Ta σ τ} {ts : List (Uuid × Told)} {x : Nat}
    (hw : handleAll d w0 rs = some (w, ts)) (hh : handle d w (netflixDerivation (κ := κ) (ρ := ρ) (π := π) s u enc hmac env k rights) = some (w', .reply (.made .OK x))) :
    ∃ n, kdfFinish env rights q1.header.rights 16 (netflixBytes k.prims q1.key q2.key) = (.OK, some n) ∧
      ∀ e, Copy d w0 ⟨rs ++ [netflixDerivation s u enc hmac env k rights], s, u, x⟩ e → (∀ r ∈ e.past, r.Fine p) → e.Is p d w0 n := by
  obtain ⟨w1, ts1, e1, _, t, ht, hk1⟩ := hq1
  rw [hw] at e1; cases e1
  obtain ⟨w2, ts2, e2, _, t2, ht2, hk2⟩ := hq2
  rw [hw] at e2; cases e2
  rw [ht] at ht2; cases ht2
  have inv := run_inv hp hm h0 hb hw
  obtain ⟨t', st', g1, _, g2, ht', hu'⟩ := keys_call inv.ta hh
  rw [ht] at g1; cases g1
  obtain ⟨ptr, _, hptr⟩ := tables_heap ht
  simp only [serveKeys, Option.map_eq_some_iff, Prod.mk.injEq, Reply.made.injEq] at g2
  obtain ⟨⟨y1, y2, y3⟩, e, rfl, rfl, rfl⟩ := g2
  subst he
  obtain ⟨n, f1, f2⟩ := netflix_held env hp k t.keys (inv.tabs ptr t hptr).keys rights enc hmac u _ _ e q1 q2 hk1 hk2
  refine ⟨n, f2, fun e he hfe => ?_⟩
  obtain ⟨w, ts, ew, hw'⟩ := has_copy hp hm h0 he hfe (handleAll_snoc d _ _ _ _ hw _ _ _ hh) ⟨hu', _, ht', f1⟩
  exact ⟨w, ts, ew, hw'.denotes hp (run_inv hp hm h0 hfe ew)⟩

/-- **C118 (two keys).**  The same for Netflix derivation, from copies of an encryption key and copies of an HMAC key. -/
theorem C118_netflix_partial (p : Prims) (hp : p.Good) (d : Device σ τ) (hm : MacsGood d.mac) (w0 : Ta σ τ) (h0 : start σ τ = some w0) (a1 a2 : Place κ ρ π)
    (ha1 : ∀ r ∈ a1.past, r.Fine p) (ha2 : ∀ r ∈ a2.past, r.Fine p) (k1 k2 : StoredKey) (hk1 : a1.Is p d w0 k1) (hk2 : a2.Is p d w0 k2)
    (rs rs' : List (Request κ ρ π)) (hb : ∀ r ∈ rs, r.Fine p) (hc : ∀ r ∈ rs', r.Fine p) (s s' : Nat) (u u' : Uuid) (enc enc' hmac hmac' : Nat)
    (c1 : Copy d w0 a1 ⟨rs, s, u, enc⟩) (c2 : Copy d w0 a2 ⟨rs, s, u, hmac⟩) (c1' : Copy d w0 a1 ⟨rs', s', u', enc'⟩) (c2' : Copy d w0 a2 ⟨rs', s', u', hmac'⟩)
    (env env' : Env) (he : env.prims = p) (he' : env'.prims = p) (kdf kdf' : KdfEnv) (hk : kdf.prims.Good) (hkk : kdf'.prims = kdf.prims) (rights rights' : Rights)
    (w w1 : Ta σ τ) (ts : List (Uuid × Told)) (x : Nat) (hw : handleAll d w0 rs = some (w, ts))
    (hx : handle d w (netflixDerivation (κ := κ) (ρ := ρ) (π := π) s u enc hmac env kdf rights) = some (w1, .reply (.made .OK x)))
    (w' w1' : Ta σ τ) (ts' : List (Uuid × Told)) (x' : Nat) (hw' : handleAll d w0 rs' = some (w', ts'))
    (hx' : handle d w' (netflixDerivation (κ := κ) (ρ := ρ) (π := π) s' u' enc' hmac' env' kdf' rights') = some (w1', .reply (.made .OK x'))) :
    ∃ q1 q2 n n', a1.Is p d w0 q1 ∧ a2.Is p d w0 q2 ∧
      (∀ e, Copy d w0 ⟨rs ++ [netflixDerivation s u enc hmac env kdf rights], s, u, x⟩ e → (∀ r ∈ e.past, r.Fine p) → e.Is p d w0 n) ∧
      (∀ e, Copy d w0 ⟨rs' ++ [netflixDerivation s' u' enc' hmac' env' kdf' rights'], s', u', x'⟩ e → (∀ r ∈ e.past, r.Fine p) → e.Is p d w0 n') ∧
      n.key = netflixBytes kdf.prims q1.key q2.key ∧ n'.key = n.key ∧ n.key.length = 16 ∧ n.header.size.toNat = 16 ∧
      n.header.rights = restrictChildRights rights (some k1.header.rights) ∧ (rights = rights' → n = n') := by
  obtain ⟨q1, hq1, same1⟩ := C114_same_partial p hp d hm w0 h0 a1 ha1 k1 hk1
  obtain ⟨q2, hq2, same2⟩ := C114_same_partial p hp d hm w0 h0 a2 ha2 k2 hk2
  have hhd : k1.header = q1.header := by
    obtain ⟨w, ts, e, _, t1, ht1, g1⟩ := hq1
    obtain ⟨w', ts', e', _, t2, ht2, g2⟩ := hk1
    rw [e] at e'; cases e'
    rw [ht1] at ht2; cases ht2
    exact held_header g1 g2
  obtain ⟨n, f1, f2⟩ := netflix_place p hp d hm w0 h0 hb (same1 _ c1 hb) (same2 _ c2 hb) he hw hx
  obtain ⟨n', f1', f2'⟩ := netflix_place p hp d hm w0 h0 hc (same1 _ c1' hc) (same2 _ c2' hc) he' hw' hx'
  rw [hkk] at f1'
  unfold kdfFinish at f1 f1'
  obtain ⟨_, g2, _, _, g5, g6, _⟩ := storedKeyCreate_ok f1
  obtain ⟨_, _, _, _, _, g6', _⟩ := storedKeyCreate_ok f1'
  refine ⟨q1, q2, n, n', hq1, hq2, f2, f2', g6, by rw [g6, g6'], ?_, g5, by rw [hhd]; exact g2, fun hrr => ?_⟩
  · rw [g6]; unfold netflixBytes; rw [List.length_take, hk.hmacLen 1 32 _ _ rfl]; rfl
  · subst hrr
    exact created_unique f1 f1'

/-! ## A case -/

def recipe : Recipe := .cmac 16 1 (.bytes [1, 2])
def later : Place Unit Unit Unit := ⟨C116.keyed ++ [.open C08.u7 2], 31, C08.u7, 31⟩

/-- After these calls there is a key at handle 31 from which keys can be derived with AES-CMAC, and there is room for another. -/
def ready (rs : List (Request Unit Unit Unit)) : Bool :=
  (start Unit (MacKind × Bytes × Bytes)).any fun w0 => (handleAll C106.dev w0 rs).any fun r => decide ((r.1.clients.obj 31).ownerUuid = C08.u7) && (tablesOf r.1 31).any fun t =>
    decide (30 < t.keys.slotCount) && (t.keys.obj 30).object.isNone && (keyStoreUnwrap env1 t.keys 31 C08.u7).any fun x => x.2.1 == .OK && x.2.2.any fun pk =>
      decide (Flag pk.header.rights.usageFlags 1) && pk.header.type.toNat == 0 && pk.key.length == 16 && pk.header.size.toNat == 16

theorem ready_now : ready C116.keyed = true := by decide +kernel
theorem ready_later : ready later.past = true := by decide +kernel

theorem later_fine : ∀ r ∈ later.past, r.Fine light := by
  intro r hr
  rcases List.mem_append.1 hr with hr | hr
  · exact C116.keyed_fine r hr
  · simp only [List.mem_cons, List.not_mem_nil, or_false] at hr
    subst hr
    trivial

theorem works {rs : List (Request Unit Unit Unit)} (hf : ∀ r ∈ rs, r.Fine light) (h : ready rs = true) (w0 : Ta Unit (MacKind × Bytes × Bytes)) (h0 : start Unit (MacKind × Bytes × Bytes) = some w0) :
    (∃ k, Place.Is light C106.dev w0 ⟨rs, 31, C08.u7, 31⟩ k) ∧
    ∃ w ts w1 x, handleAll C106.dev w0 rs = some (w, ts) ∧ handle C106.dev w (derivation ⟨rs, 31, C08.u7, 31⟩ env1 C29.kenv rightsAllowAll recipe) = some (w1, .reply (.made .OK x)) := by
  unfold ready at h
  rw [h0, Option.any_some] at h
  obtain ⟨⟨w, ts⟩, hw, h⟩ := (Option.any_eq_true _ _).1 h
  rw [Bool.and_eq_true, decide_eq_true_eq] at h
  obtain ⟨ho, h⟩ := h
  obtain ⟨t, ht, h⟩ := (Option.any_eq_true _ _).1 h
  simp only [Bool.and_eq_true, decide_eq_true_eq, Option.isNone_iff_eq_none] at h
  obtain ⟨h1, h2⟩ := h
  have inv := run_inv light_good ⟨_, _, C106.toyPrim_good⟩ h0 hf hw
  obtain ⟨ptr, hptr0, hptr⟩ := tables_heap ht
  have hr := (inv.tabs ptr t hptr).keys
  rcases unwrap_holds env1 light_good t.keys (ksReachable_inv _ light_good _ hr) 31 C08.u7 with ⟨s, hs, he⟩ | ⟨pk, he, hh, _⟩
  · simp [he] at h2
  · simp only [he, Option.any_some, Bool.and_eq_true, beq_iff_eq, decide_eq_true_eq] at h2
    obtain ⟨_, ⟨⟨a, b⟩, c⟩, e⟩ := h2
    refine ⟨⟨pk, w, ts, hw, ho, t, ht, hh⟩, ?_⟩
    obtain ⟨st', x, hx⟩ := C31.C31_supported env1 light_good (fun _ => rfl) C29.kenv C29.toyKdf_good ⟨rfl, fun _ => rfl⟩ t.keys hr rightsAllowAll (by decide +kernel) 16 1 31
      (by unfold C31.Accepted; decide) (by decide) (.bytes [1, 2]) (by simp) C08.u7 pk he a b (by rw [c, e]) (.inl e) ⟨30, h1⟩
    rcases call_cases C106.dev w inv.ta 31 C08.u7 (.keys (.derive env1 C29.kenv rightsAllowAll (recipe.from 31)) : Cmd Unit Unit Unit) with ⟨_, _, _, hn⟩ | ⟨ptr', t', g1, _, g3, g⟩
    · exfalso
      rcases hn with hn | hn
      · simp [tablesOf, hn] at ht
      · exact hn ho
    · have : t' = t := by simpa [tablesOf, g1, g3] using ht
      subst this
      refine ⟨w, ts, ⟨w.clients, fun p => if p = ptr' then some { t' with keys := st' } else w.heap p⟩, x, hw, ?_⟩
      show handle C106.dev w (.call 31 C08.u7 (.keys (.derive env1 C29.kenv rightsAllowAll (recipe.from 31)))) = _
      rw [g]
      simp only [serve, serveKeys, recipe, Recipe.from, hx, Option.map_some]

/-- The key at handle 31 is used for a derivation; or a session is opened and it is used then.  All the hypotheses are met. -/
example : ∃ w0 k, start Unit (MacKind × Bytes × Bytes) = some w0 ∧ C116.at31.Is light C106.dev w0 k ∧ (∀ r ∈ C116.at31.past, r.Fine light) ∧ (∀ r ∈ later.past, r.Fine light) ∧
    Copy C106.dev w0 C116.at31 C116.at31 ∧ Copy C106.dev w0 C116.at31 later ∧ C29.kenv.prims.Good ∧
    (∃ w ts w1 x, handleAll C106.dev w0 C116.at31.past = some (w, ts) ∧ handle C106.dev w (derivation C116.at31 env1 C29.kenv rightsAllowAll recipe) = some (w1, .reply (.made .OK x))) ∧
    (∃ w ts w1 x, handleAll C106.dev w0 later.past = some (w, ts) ∧ handle C106.dev w (derivation later env1 C29.kenv rightsAllowAll recipe) = some (w1, .reply (.made .OK x))) := by
  cases h0 : start Unit (MacKind × Bytes × Bytes) with
  | none => exact absurd ready_now (by simp [ready, h0])
  | some w0 =>
  obtain ⟨⟨k, hk⟩, h1⟩ := works C116.keyed_fine ready_now w0 h0
  obtain ⟨_, h2⟩ := works later_fine ready_later w0 h0
  refine ⟨w0, k, rfl, hk, C116.keyed_fine, later_fine, .here, .kept _ .here (fun r hr => ?_), C29.toyKdf_good, h1, h2⟩
  simp only [List.mem_cons, List.not_mem_nil, or_false] at hr
  subst hr
  constructor <;> intro h <;> cases h

/-- What the recipe gives for a key of sixteen bytes 5. -/
example : recipe.bytes C29.kenv.prims (List.replicate 16 5) = (List.range 16).map fun i => UInt8.ofNat (11 + i) := by decide +kernel

/-! ### Netflix derivation -/

/-- From the key of 16 bytes one of 32 bytes is derived: these two serve as encryption key and HMAC key. -/
def wide : Recipe := .cmac 32 1 (.bytes [1, 2])
def both : List (Request Unit Unit Unit) := C116.keyed ++ [derivation C116.at31 env1 C29.kenv rightsAllowAll wide]

theorem both_fine : ∀ r ∈ both, r.Fine light := by
  intro r hr
  rcases List.mem_append.1 hr with hr | hr
  · exact C116.keyed_fine r hr
  · simp only [List.mem_cons, List.not_mem_nil, or_false] at hr
    subst hr
    exact ⟨rfl, C29.toyKdf_good⟩

theorem roomy : ((start Unit (MacKind × Bytes × Bytes)).any fun w0 => (handleAll C106.dev w0 C116.keyed).any fun r => decide ((r.1.clients.obj 31).ownerUuid = C08.u7) &&
    (tablesOf r.1 31).any fun t => decide (30 < t.keys.slotCount) && (t.keys.obj 30).object.isNone && (t.keys.obj 29).object.isNone && (keyStoreUnwrap env1 t.keys 31 C08.u7).any fun x =>
      x.2.1 == .OK && x.2.2.any fun pk => decide (pk.header.rights = rightsAllowAll) && pk.header.type.toNat == 0 && pk.key.length == 16 && pk.header.size.toNat == 16) = true := by
  decide +kernel

theorem all_again : restrictChildRights rightsAllowAll (some rightsAllowAll) = rightsAllowAll := by decide +kernel
theorem all_derive : rightsAllowedDerive env1.rights rightsAllowAll = true := by decide +kernel

theorem netflix_succeeds (st : KeyStore) (hr : KsReachable light st) (kenc khmac : Nat) (u : Uuid) (q1 q2 : StoredKey) (h1 : keyStoreUnwrap env1 st kenc u = some (st, .OK, some q1))
    (h2 : keyStoreUnwrap env1 st khmac u = some (st, .OK, some q2)) (r1 : q1.header.rights = rightsAllowAll) (r2 : q2.header.rights = rightsAllowAll)
    (t1 : q1.header.type.toNat = KEY_TYPE_SYMMETRIC) (t2 : q2.header.type.toNat = KEY_TYPE_SYMMETRIC) (l1 : q1.key.length = 16) (l2 : q2.key.length = 32)
    (hfree : ∃ h, h < st.slotCount ∧ (st.obj h).object = none) : ∃ st' x, keyDerive env1 C29.kenv st rightsAllowAll (.netflix kenc khmac) u = some (st', .OK, x) := by
  simp only [keyDerive]
  unfold deriveNetflix
  rw [h1]
  simp only
  rw [r1, all_derive, if_neg (by simp), if_neg (by simp [t1]), h2]
  simp only
  rw [r2, all_derive, if_neg (by simp), if_neg (by simp [t2])]
  unfold kdfNetflixWrapping
  rw [if_neg (by simp [l1]), if_neg (by simp [l2]), if_neg (by simp [C29.kenv]), if_neg (by simp [C29.kenv])]
  simp only
  obtain ⟨d, hd, _, _, hm⟩ := createSym_succeeds rightsAllowAll rightsAllowAll (by decide +kernel) 16 (by decide) (netflixBytes C29.toyKdf q1.key q2.key)
    (by unfold netflixBytes; rw [List.length_take, C29.toyKdf_good.hmacLen 1 32 _ _ rfl]; rfl)
  have hd' : storedKeyCreate (env1.ok .storedKeyAlloc) rightsAllowAll (some rightsAllowAll) KEY_TYPE_SYMMETRIC (Vector.replicate 1040 0) 16
      ((C29.kenv.prims.hmac 1 (C29.kenv.prims.hmac 1 netflixSalt (q1.key ++ q2.key)) netflixInfo).take 16) = (.OK, some d) := hd
  rw [hd']
  simp only
  have := importStoredKey_succeeds env1 (fun _ => rfl) st (ksReachable_inv _ light_good st hr) d hm u hfree
  generalize keyStoreImportStoredKey env1 st d u = y at this
  obtain ⟨a, b, c⟩ := y
  simp only at this
  subst this
  exact ⟨a, c, rfl⟩

/-- All the hypotheses are met. -/
example : ∃ w0 x k1 k2, start Unit (MacKind × Bytes × Bytes) = some w0 ∧ C116.at31.Is light C106.dev w0 k1 ∧ Place.Is light C106.dev w0 ⟨both, 31, C08.u7, x⟩ k2 ∧
    (∀ r ∈ both, r.Fine light) ∧ Copy C106.dev w0 C116.at31 ⟨both, 31, C08.u7, 31⟩ ∧ Copy C106.dev w0 ⟨both, 31, C08.u7, x⟩ ⟨both, 31, C08.u7, x⟩ ∧ C29.kenv.prims.Good ∧
    ∃ w ts w1 y, handleAll C106.dev w0 both = some (w, ts) ∧
      handle C106.dev w (netflixDerivation (κ := Unit) (ρ := Unit) (π := Unit) 31 C08.u7 31 x env1 C29.kenv rightsAllowAll) = some (w1, .reply (.made .OK y)) := by
  obtain ⟨w0, h0, h⟩ := (Option.any_eq_true _ _).1 roomy
  obtain ⟨⟨w, ts⟩, hw, h⟩ := (Option.any_eq_true _ _).1 h
  rw [Bool.and_eq_true, decide_eq_true_eq] at h
  obtain ⟨ho, h⟩ := h
  obtain ⟨t, ht, h⟩ := (Option.any_eq_true _ _).1 h
  simp only [Bool.and_eq_true, decide_eq_true_eq, Option.isNone_iff_eq_none] at h
  obtain ⟨⟨⟨h1, h30⟩, h29⟩, h2⟩ := h
  have inv := run_inv light_good ⟨_, _, C106.toyPrim_good⟩ h0 C116.keyed_fine hw
  obtain ⟨ptr, _, hptr⟩ := tables_heap ht
  have hr := (inv.tabs ptr t hptr).keys
  have ki := ksReachable_inv _ light_good _ hr
  rcases unwrap_holds env1 light_good t.keys ki 31 C08.u7 with ⟨s, hs, he⟩ | ⟨pk, he, hh, _⟩
  · simp [he] at h2
  simp only [he, Option.any_some, Bool.and_eq_true, beq_iff_eq, decide_eq_true_eq] at h2
  obtain ⟨_, ⟨⟨a, b⟩, c⟩, e⟩ := h2
  have hpk : Held light t.keys 31 C08.u7 pk := by
    obtain ⟨k', _, t1, ht1, hk'⟩ := has_of light_good inv ⟨ho, t, ht, hh⟩
    rw [ht] at ht1; cases ht1
    obtain ⟨wk, g1, g2, g3⟩ := hk'
    have := KeyHeld.unique _ _ _ _ _ _ env1 rfl (holds_of light light_good t.keys ki 31 C08.u7 wk k' g1 g2 g3) he
    subst this
    exact ⟨wk, g1, g2, g3⟩
  obtain ⟨st', x, hx⟩ := C31.C31_supported env1 light_good (fun _ => rfl) C29.kenv C29.toyKdf_good ⟨rfl, fun _ => rfl⟩ t.keys hr rightsAllowAll (by decide +kernel) 32 1 31
    (by unfold C31.Accepted; decide) (by decide) (.bytes [1, 2]) (by simp) C08.u7 pk he (by rw [a]; decide +kernel) b (by rw [c, e]) (.inl e) ⟨30, h1, h30⟩
  obtain ⟨n, hn, hf, hl, s1, s2, s3⟩ := derived_held env1 light_good C29.kenv C29.toyKdf_good t.keys hr rightsAllowAll wide 31 C08.u7 st' x hx pk hh
  obtain ⟨_, n2, n3, _, _, n6, _⟩ := storedKeyCreate_ok hf
  rw [a, all_again] at n2
  have hne : 31 ≠ x := by
    intro hc
    obtain ⟨wk, g1, _⟩ := hpk
    rw [hc, s2] at g1
    cases g1
  -- the call
  have hcall : ∃ w1, handle C106.dev w (derivation C116.at31 env1 C29.kenv rightsAllowAll wide) = some (w1, .reply (.made .OK x)) ∧ (w1.clients.obj 31).ownerUuid = C08.u7 ∧
      tablesOf w1 31 = some { t with keys := st' } := by
    rcases call_cases C106.dev w inv.ta 31 C08.u7 (.keys (.derive env1 C29.kenv rightsAllowAll (wide.from 31)) : Cmd Unit Unit Unit) with ⟨_, _, _, hn⟩ | ⟨ptr', t', g1, g2, g3, g⟩
    · exfalso
      rcases hn with hn | hn
      · simp [tablesOf, hn] at ht
      · exact hn ho
    · have : t' = t := by simpa [tablesOf, g1, g3] using ht
      subst this
      refine ⟨⟨w.clients, fun p => if p = ptr' then some { t' with keys := st' } else w.heap p⟩, ?_, g2, by simp [tablesOf, g1]⟩
      show handle C106.dev w (.call 31 C08.u7 (.keys (.derive env1 C29.kenv rightsAllowAll (wide.from 31)))) = _
      rw [g]
      simp only [serve, serveKeys, wide, Recipe.from, hx, Option.map_some]
  obtain ⟨w1, hc1, ho1, ht1⟩ := hcall
  obtain ⟨ts1, hw1⟩ : ∃ ts1, handleAll C106.dev w0 both = some (w1, ts1) := ⟨_, handleAll_snoc C106.dev _ _ _ _ hw _ _ _ hc1⟩
  have inv1 := run_inv light_good ⟨_, _, C106.toyPrim_good⟩ h0 both_fine hw1
  obtain ⟨ptr1, _, hptr1⟩ := tables_heap ht1
  have hr1 := (inv1.tabs ptr1 _ hptr1).keys
  have hpk1 : Held light st' 31 C08.u7 pk := by
    obtain ⟨wk, g1, g2, g3⟩ := hpk
    exact ⟨wk, by rw [s3 _ hne]; exact g1, by rw [s3 _ hne]; exact g2, g3⟩
  obtain ⟨_, _, e1, k1⟩ := Has.denotes light_good inv1 (h := 31) ⟨ho1, _, ht1, hpk1⟩
  rw [ht1] at e1; cases e1
  have d2 := Has.denotes light_good inv1 (h := x) ⟨ho1, _, ht1, hn⟩
  obtain ⟨_, _, e2, k2⟩ := id d2
  rw [ht1] at e2; cases e2
  have use1 : useResult env1 pk C08.u7 = (.OK, some pk) := by
    have := hh.2 env1 rfl
    rw [he] at this
    simp only [Option.some.injEq, Prod.mk.injEq, true_and] at this
    exact this.symm
  have use2 : useResult env1 n C08.u7 = (.OK, some n) := by
    unfold useResult at use1 ⊢
    rw [n2]
    rw [a] at use1
    split at use1
    · rename_i hc
      rw [if_pos hc]
      rfl
    · cases use1
  obtain ⟨st2, y, hy⟩ := netflix_succeeds st' hr1 31 x C08.u7 pk n (by rw [k1.2 env1 rfl, use1]) (by rw [k2.2 env1 rfl, use2]) a n2 b n3 c (by rw [n6, hl]; rfl) (by
    by_cases hx30 : x = 30
    · exact ⟨29, by rw [s1]; omega, by rw [s3 29 (by omega)]; exact h29⟩
    · exact ⟨30, by rw [s1]; omega, by rw [s3 30 (fun h => hx30 h.symm)]; exact h30⟩)
  refine ⟨w0, x, pk, n, h0, ⟨w, ts, hw, ho, t, ht, hh⟩, ⟨w1, ts1, hw1, d2⟩, both_fine, .kept _ .here (fun r hr => ?_), .here, C29.toyKdf_good, w1, ts1, ?_⟩
  · simp only [List.mem_cons, List.not_mem_nil, or_false] at hr
    subst hr
    constructor <;> intro h <;> cases h
  · rcases call_cases C106.dev w1 inv1.ta 31 C08.u7 (.keys (.derive env1 C29.kenv rightsAllowAll (.netflix 31 x)) : Cmd Unit Unit Unit) with ⟨_, _, _, hn⟩ | ⟨ptr', t', g1, g2, g3, g⟩
    · exfalso
      rcases hn with hn | hn
      · simp [tablesOf, hn] at ht1
      · exact hn ho1
    · have : t' = { t with keys := st' } := by simpa [tablesOf, g1, g3] using ht1
      subst this
      refine ⟨⟨w1.clients, fun p => if p = ptr' then some { t with keys := st2 } else w1.heap p⟩, y, hw1, ?_⟩
      show handle C106.dev w1 (.call 31 C08.u7 (.keys (.derive env1 C29.kenv rightsAllowAll (.netflix 31 x)))) = _
      rw [g]
      simp only [serve, serveKeys, hy, Option.map_some]

end Sa.Whole.C118

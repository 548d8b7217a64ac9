import Verif.Lemmas.Typej
import Verif.Props.C59
import Verif.Lemmas.TypejSample

/-!
# C40: importing Type-J containers

`C40_authentic`: a key is imported only from an authentic text and with suitable helper keys.  The memory part of the property is false
(`C40_violated…`): a part that is not base64 makes the parser free a block twice before anything is authenticated, and so do, in authentic containers, an undecodable
`contentKey` and a `contentKeyTransportIv` that does not decode to 16 bytes.  `C40_heap_partial` says when the heap stays intact, `C40_unauthentic_partial` that nothing but
the first of these can happen without the MAC key.
-/

namespace Sa.Kc.C40

/-- The text is `header.payload.mac`, where the decoded mac is the HMAC-SHA256 of `header.payload` under `key`. -/
def Authentic (e : TjEnv) (key s header payload : Bytes) : Prop :=
  ∃ m mac, s = header ++ ascii "." ++ payload ++ ascii "." ++ m ∧ (0x2e : UInt8) ∉ header ∧ (0x2e : UInt8) ∉ payload ∧
    e.kc.bio (b64Data e.kc m true) = some mac ∧ mac.length = 32 ∧ mac = e.kdf.hmac 1 key (header ++ ascii "." ++ payload)

theorem run_authentic {e : TjEnv} {s : Bytes} {mk wk : StoredKey} {r : Option StoredKey} (t : TjRun e s mk wk r) : Authentic e mk.key s t.h t.p := by
  have hd : ascii "." = [0x2e] := by decide
  refine ⟨t.m, t.mac, ?_, t.split.2.1, t.split.2.2.1, t.macText, t.macOk.1, ?_⟩
  · rw [hd]; simp [t.split.1]
  · rw [← t.macOk.2, hd]; simp

theorem sign_flag {env : RightsEnv} {r : Rights} (h : rightsAllowedSign env r = true) : Flag r.usageFlags 5 := by
  unfold rightsAllowedSign at h
  split at h
  · simp at h
  · rename_i hb
    exact (bitTest_iff _ 5 (by omega)).mp (by simpa [FLAG_SIGN] using hb)

theorem unwrap_flag {env : RightsEnv} {r : Rights} (h : rightsAllowedUnwrap env r = true) : Flag r.usageFlags 2 := by
  unfold rightsAllowedUnwrap at h
  split at h
  · simp at h
  · rename_i hb
    exact (bitTest_iff _ 2 (by omega)).mp (by simpa [FLAG_UNWRAP] using hb)

theorem macKeyOk {e : TjEnv} {mk : StoredKey} (h : tjMacKeyOk e mk = .OK) :
    Flag mk.header.rights.usageFlags 5 ∧ keyTypeSupportsHmac mk.header.type.toNat mk.header.size.toNat = true := by
  unfold tjMacKeyOk at h
  split at h
  · simp at h
  split at h
  · simp at h
  rename_i h1 h2
  exact ⟨sign_flag (by simpa using h1), by simpa using h2⟩

theorem cipherKeyOk {e : TjEnv} {wk : StoredKey} (h : tjCipherKeyOk e wk = .OK) :
    Flag wk.header.rights.usageFlags 2 ∧ keyTypeSupportsAes wk.header.type.toNat wk.header.size.toNat = true := by
  unfold tjCipherKeyOk at h
  split at h
  · simp at h
  split at h
  · simp at h
  rename_i h1 h2
  exact ⟨unwrap_flag (by simpa using h1), by simpa using h2⟩

/-- All that is known of a call that imported `d`. -/
structure Imported (e : TjEnv) (st : KeyStore) (input : Bytes) (khmac kcipher : Nat) (caller : Uuid) (d : StoredKey) : Prop where
  made : ∃ mk wk, KeyHeld e.ks.prims st khmac caller mk ∧ useResult e.ks mk caller = (.OK, some mk) ∧ Flag mk.header.rights.usageFlags 5 ∧
    keyTypeSupportsHmac mk.header.type.toNat mk.header.size.toNat = true ∧
    KeyHeld e.ks.prims st kcipher caller wk ∧ useResult e.ks wk caller = (.OK, some wk) ∧ Flag wk.header.rights.usageFlags 2 ∧
    keyTypeSupportsAes wk.header.type.toNat wk.header.size.toNat = true ∧
    ∃ r : TjRun e input mk wk (some d), TjMade e r.fields r.rights wk d

theorem import_cases (e : TjEnv) (hg : e.Good) (st : KeyStore) (hr : KsReachable e.ks.prims st) (input : Bytes) (khmac kcipher : Nat) (caller : Uuid) :
    ∃ st' s h, keyImportTypej e st input khmac kcipher caller = some (st', s, h) ∧ KsReachable e.ks.prims st' ∧
      ((s ≠ .OK ∧ h = SLOT_INVALID ∧ Unchanged st st') ∨
       (s = .OK ∧ ∃ d, NewKey e.ks.prims st st' h caller d ∧ Imported e st input khmac kcipher caller d)) := by
  have inv := ksReachable_inv _ hg.prims st hr
  unfold keyImportTypej
  rcases unwrap_holds e.ks hg.prims st inv khmac caller with ⟨s, hs, he⟩ | ⟨mk, he, hh, _, _⟩
  · rw [he]
    refine ⟨st, s, SLOT_INVALID, ?_, hr, Or.inl ⟨hs, rfl, fun _ => rfl⟩⟩
    cases s <;> first | exact absurd rfl hs | rfl
  · rw [he]
    simp only
    by_cases hm : tjMacKeyOk e mk = .OK
    · rw [if_neg (by simpa using hm)]
      have hkf : ∀ pk, KeyFn e.ks (fun wk => if tjCipherKeyOk e wk ≠ .OK then some (tjCipherKeyOk e wk, none) else some (typejUnwrap e input mk wk).status) pk := by
        intro pk
        unfold KeyFn
        by_cases hc : tjCipherKeyOk e pk = .OK
        · refine ⟨(typejUnwrap e input mk pk).status.1, (typejUnwrap e input mk pk).status.2, ?_, ?_⟩
          · simp only; rw [if_neg (by simpa using hc)]
          · intro k h1 h2
            unfold P.status at h1 h2
            split at h2
            · rename_i r hr'
              simp only at h2
              subst h2
              obtain ⟨run⟩ := typejUnwrap_ok hr'
              obtain ⟨d, hd, hmade⟩ := tjUnwrapKey_ok hg run.keyOk
              cases hd
              exact hmade.created
            · exact nomatch h2
        · exact ⟨tjCipherKeyOk e pk, none, by simp only; rw [if_pos hc], fun _ _ h => nomatch h⟩
      obtain ⟨st', s, h, hw, hre, hc⟩ := withKey_cases e.ks hg.prims st hr kcipher caller _ hkf
      refine ⟨st', s, h, hw, hre, ?_⟩
      rcases hc with ⟨a, b, c, _⟩ | ⟨a, wk, d, k1, k2, k3, k4⟩
      · exact Or.inl ⟨a, b, c⟩
      · refine Or.inr ⟨a, d, k4, ?_⟩
        by_cases hck : tjCipherKeyOk e wk = .OK
        · rw [if_neg (by simpa using hck)] at k3
          simp only [Option.some.injEq] at k3
          unfold P.status at k3
          split at k3
          · rename_i r hr'
            simp only [Prod.mk.injEq, true_and] at k3
            subst k3
            obtain ⟨run⟩ := typejUnwrap_ok hr'
            obtain ⟨d', hd, hmade⟩ := tjUnwrapKey_ok hg run.keyOk
            cases hd
            obtain ⟨f1, f2⟩ := macKeyOk hm
            obtain ⟨g1, g2⟩ := cipherKeyOk hck
            exact ⟨mk, wk, hh, useResult_of_unwrap e.ks st khmac caller mk hh he, f1, f2, k1, k2, g1, g2, run, hmade⟩
          · simp at k3
        · rw [if_pos hck] at k3
          simp at k3
    · rw [if_pos hm]
      exact ⟨st, _, SLOT_INVALID, rfl, hr, Or.inl ⟨hm, rfl, fun _ => rfl⟩⟩

/-- **C40, authenticity (partial).**  For every store reached by any history, every text and any failures outside, the call either fails and changes nothing, or it made exactly one key,
owned by the caller; then the text is authentic under the bytes of a key that the caller holds and may use now, that has the sign right and a type and size for HMAC;
and the wrapped key was decrypted under a key that the caller holds and may use now, that has the unwrap right and is an AES key.
Missing: the memory part, see `C40_heap_partial`. -/
theorem C40_authentic (e : TjEnv) (hg : e.Good) (st : KeyStore) (hr : KsReachable e.ks.prims st) (input : Bytes) (khmac kcipher : Nat) (caller : Uuid) :
    ∃ st' s h, keyImportTypej e st input khmac kcipher caller = some (st', s, h) ∧
      ((s ≠ .OK ∧ h = SLOT_INVALID ∧ Unchanged st st') ∨
       (s = .OK ∧ ∃ d mk wk header payload, NewKey e.ks.prims st st' h caller d ∧
        KeyHeld e.ks.prims st khmac caller mk ∧ useResult e.ks mk caller = (.OK, some mk) ∧ Flag mk.header.rights.usageFlags 5 ∧
        (mk.header.type.toNat = 0 ∧ 16 ≤ mk.header.size.toNat ∧ mk.header.size.toNat ≤ 512) ∧
        KeyHeld e.ks.prims st kcipher caller wk ∧ useResult e.ks wk caller = (.OK, some wk) ∧ Flag wk.header.rights.usageFlags 2 ∧
        (wk.header.type.toNat = 0 ∧ (wk.header.size.toNat = 16 ∨ wk.header.size.toNat = 32)) ∧
        Authentic e mk.key input header payload)) := by
  obtain ⟨st', s, h, he, _, hc⟩ := import_cases e hg st hr input khmac kcipher caller
  refine ⟨st', s, h, he, hc.imp id ?_⟩
  rintro ⟨a, d, hn, ⟨mk, wk, h1, h2, h3, h4, h5, h6, h7, h8, r, hm⟩⟩
  refine ⟨a, d, mk, wk, r.h, r.p, hn, h1, h2, h3, ?_, h5, h6, h7, ?_, run_authentic r⟩
  · simp only [keyTypeSupportsHmac, validHmacSize, KEY_TYPE_SYMMETRIC, Bool.and_eq_true, beq_iff_eq, decide_eq_true_eq] at h4; omega
  · simp only [keyTypeSupportsAes, validAesSize, KEY_TYPE_SYMMETRIC, Bool.and_eq_true, Bool.or_eq_true, beq_iff_eq] at h8; omega

/-! ## Memory -/

open C59 (Groups Open Once OnceFreed Clean)

/-- Not the use of an unset variable or a NULL pointer, nor a read outside an object. -/
def Harmless (e : Ev) : Prop := Clean e ∧ e ≠ .outside

theorem h_alloc (b n) : Harmless (.alloc b n) := ⟨C59.clean_alloc _ _, fun h => nomatch h⟩
theorem h_free (b) : Harmless (.free b) := ⟨C59.clean_free _, fun h => nomatch h⟩
theorem h_fill (b n) : Harmless (.fill b n) := ⟨C59.clean_fill _ _, fun h => nomatch h⟩
theorem h_one {e : Ev} (h : Harmless e) : All Harmless [e] := by rw [all_cons]; exact ⟨h, all_nil _⟩

/-- The parts of the text, if there are three, are base64. -/
def PartsDecode (env : Env) (s : Bytes) : Prop :=
  ∀ h p m, splitDots s = some (h, p, m) →
    (env.bio (b64Data env h true)).isSome ∧ (env.bio (b64Data env p true)).isSome ∧ (env.bio (b64Data env m true)).isSome

/-- Fields that the parser handles without harm.  Fields that are missing or of a wrong type are allowed, except for the list of TAs. -/
structure Wholesome (env : Env) (fields : List (Bytes × Js.Json)) : Prop where
  rights : ∀ k s, Js.find (ascii "contentKeyRights") fields = some (k, .str s) → Groups s
  key : ∀ k s, Js.find (ascii "contentKey") fields = some (k, .str s) → Groups s ∧ ∃ r, env.bio (b64Data env s false) = some r ∧ r ≠ []
  iv : ∀ k s, Js.find (ascii "contentKeyTransportIv") fields = some (k, .str s) → Groups s ∧ ∃ r, env.bio (b64Data env s false) = some r ∧ r.length = 16
  ids : ∀ k v, Js.find (ascii "entitledTaIds") fields = some (k, v) → ∃ l, v = .arr l ∧ ∀ x ∈ l, ∃ s, x = .str s

theorem b64_harmless (env : Env) (b : Blk) (s : Bytes) (url : Bool) (h : url = true ∨ Groups s) : All Harmless (b64Decode env (.fill b) (some s) url).1 := by
  unfold b64Decode
  simp only
  rw [if_neg (by rcases h with h | h <;> simp [h]; exact fun _ => h)]
  split
  · exact all_nil _
  · exact h_one (h_fill _ _)

theorem life_b64 (env : Env) (b c : Blk) (s : Bytes) (url : Bool) : life b (b64Decode env (.fill c) (some s) url).1 = [] :=
  life_plain _ _ (b64_plain _ _ _ _ fun _ => plain_fill _ _)

theorem rightsFlags_evs (env : Env) (s : Bytes) :
    (tjRightsFlags env s).evs = .alloc .rights (b64DecodedLength s.length) :: ((b64Decode env (.fill .rights) (some s) false).1 ++ [.free .rights]) := by
  unfold tjRightsFlags
  rw [bind_ok (m := P.emit _) (a := ()) rfl]
  simp only [P.emit, List.singleton_append]
  congr 1
  rw [bind_ok (a := ()) rfl]
  simp only
  congr 1
  rw [bind_ok (a := ()) rfl]
  simp only [List.singleton_append, List.cons.injEq, true_and]
  split
  · rfl
  · split <;> rfl

theorem taIds_facts (env : Env) : (l : List Js.Json) → (∀ v ∈ l, ∃ s, v = .str s) →
    All Harmless (tjTaIds env l).evs ∧ (∀ b, b ≠ .taIds → life b (tjTaIds env l).evs = []) ∧
    ((∃ r, (tjTaIds env l).res = .ok r) → life .taIds (tjTaIds env l).evs = []) ∧
    ((∃ e, (tjTaIds env l).res = .error e) → life .taIds (tjTaIds env l).evs = [false])
  | [], _ => ⟨all_nil _, (fun _ _ => rfl), (fun _ => rfl), fun ⟨_, h⟩ => nomatch h⟩
  | v :: l, h => by
    obtain ⟨s, rfl⟩ := h v (.head _)
    unfold tjTaIds
    simp only [Js.asString]
    split
    · refine ⟨h_one (h_free _), (fun b hb => ?_), (fun ⟨r, hr⟩ => nomatch hr), fun _ => rfl⟩
      show life b [.free .taIds] = []
      rw [C59.life_cons_free, if_neg (Ne.symm hb)]; rfl
    · obtain ⟨i1, i2, i3, i4⟩ := taIds_facts env l fun v hv => h v (.tail _ hv)
      refine ⟨all_bind i1 fun _ _ => all_pure _ _, (fun b hb => life_bind_nil (i2 b hb) fun _ _ => rfl), (fun ⟨r, hr⟩ => ?_), fun ⟨e, he⟩ => ?_⟩
      · obtain ⟨r', hr', _, _⟩ := bind_res hr
        exact life_bind_nil (i3 ⟨r', hr'⟩) fun _ _ => rfl
      · cases hres : (tjTaIds env l).res with
        | ok r => rw [bind_ok hres] at he; exact nomatch he
        | error e' => rw [bind_error hres]; exact i4 ⟨e', hres⟩

theorem entitled_facts (env : Env) (fields : List (Bytes × Js.Json)) (h : Wholesome env fields) :
    All Harmless (tjEntitledTaIds env fields).evs ∧ (∀ b, b ≠ .taIds → life b (tjEntitledTaIds env fields).evs = []) ∧
    Once (life .taIds (tjEntitledTaIds env fields).evs) := by
  unfold tjEntitledTaIds
  split
  · exact ⟨all_nil _, (fun _ _ => rfl), .inl rfl⟩
  rename_i k v hf
  obtain ⟨l, rfl, hs⟩ := h.ids k v hf
  simp only [Js.asArray]
  obtain ⟨i1, i2, i3, i4⟩ := taIds_facts env l hs
  rw [bind_ok (m := P.emit _) (a := ()) rfl]
  simp only [P.emit, List.singleton_append, C59.life_cons_alloc, all_cons]
  by_cases hl : l.length > 32
  · rw [if_pos hl]
    refine ⟨⟨h_alloc _ _, h_one (h_free _)⟩, (fun b hb => ?_), .inr rfl⟩
    rw [if_neg (Ne.symm hb)]
    show [] ++ life b [.free .taIds] = []
    rw [C59.life_cons_free, if_neg (Ne.symm hb)]; rfl
  · rw [if_neg hl]
    refine ⟨⟨h_alloc _ _, all_bind i1 fun _ _ => all_bind (h_one (h_free _)) fun _ _ => all_pure _ _⟩, (fun b hb => ?_), ?_⟩
    · rw [if_neg (Ne.symm hb), List.nil_append]
      refine life_bind_nil (i2 b hb) fun _ _ => ?_
      rw [bind_ok (a := ()) rfl]
      show life b ([.free .taIds] ++ []) = []
      rw [List.append_nil, C59.life_cons_free, if_neg (Ne.symm hb)]; rfl
    · right
      rw [if_pos trivial]
      cases hres : (tjTaIds env l).res with
      | error e => rw [bind_error hres, i4 ⟨e, hres⟩]; rfl
      | ok r => rw [bind_ok hres, life_append, i3 ⟨r, hres⟩]; rfl

theorem id_nil (fields : List (Bytes × Js.Json)) : (tjContentKeyId fields).evs = [] := by
  unfold tjContentKeyId
  cases hm : (need "contentKeyId" fields).res with
  | error s => rw [bind_error hm]; exact need_nil _ _
  | ok a =>
    rw [bind_ok hm]
    simp only [need_nil, List.nil_append]
    cases hs : (stringOf a).res with
    | error s => rw [bind_error hs]; exact stringOf_nil _
    | ok b => rw [bind_ok hs]; simp only [stringOf_nil, List.nil_append]; split <;> rfl

theorem usage_nil (f : UInt64) (v : Js.Json) : (tjUsage f v).evs = [] := by
  unfold tjUsage
  simp only
  split <;> rfl

theorem date_nil (e : TjEnv) (v : Js.Json) : (tjDate e v).evs = [] := by
  unfold tjDate
  cases hs : (stringOf v).res with
  | error s => rw [bind_error hs]; exact stringOf_nil _
  | ok b => rw [bind_ok hs]; simp only [stringOf_nil, List.nil_append]; split <;> rfl

theorem all_of_nil {Q : Ev → Prop} {es : List Ev} (h : es = []) : All Q es := by rw [h]; exact all_nil _
theorem life_of_nil {b : Blk} {es : List Ev} (h : es = []) : life b es = [] := by rw [h]; rfl

theorem fields_facts (e : TjEnv) (fields : List (Bytes × Js.Json)) (h : Wholesome e.kc fields) :
    All Harmless (tjFieldsToRights e fields).evs ∧ (∀ b, b ≠ .taIds → b ≠ .rights → life b (tjFieldsToRights e fields).evs = []) ∧
    (∀ b, Once (life b (tjFieldsToRights e fields).evs)) := by
  obtain ⟨e1, e2, e3⟩ := entitled_facts e.kc fields h
  have hr : ∀ v s, (need "contentKeyRights" fields).res = .ok v → (stringOf v).res = .ok s → Groups s := by
    intro v s hv hs
    obtain ⟨k, hk⟩ := need_ok hv
    exact h.rights k s (by rw [hk, stringOf_ok hs])
  have lr : ∀ b s, b ≠ Blk.rights → life b (tjRightsFlags e.kc s).evs = [] := by
    intro b s hb
    rw [rightsFlags_evs, C59.life_cons_alloc, if_neg (Ne.symm hb), life_append, life_b64, C59.life_cons_free, if_neg (Ne.symm hb)]; rfl
  have tail : ∀ (b : Blk), b ≠ .taIds → ∀ (f : UInt64) (v : Js.Json) (id : Vector UInt8 64), life b (do
      let v ← need "contentKeyUsage" fields
      let flags ← tjUsage f v
      let v ← need "contentKeyNotBefore" fields
      let notBefore ← tjDate e v
      let v ← need "contentKeyNotOnOrAfter" fields
      let notOnOrAfter ← tjDate e v
      let v ← need "contentKeyCacheable" fields
      let flags := if Js.asBool v then bitSet flags FLAG_CACHEABLE else flags
      let tas ← tjEntitledTaIds e.kc fields
      pure { id := id, usageFlags := flags, childUsageFlags := 0, notBefore := notBefore, notOnOrAfter := notOnOrAfter, allowedTas := tas : Rights}).evs = [] := by
    intro b hb f v id
    refine life_bind_nil (life_of_nil (need_nil _ _)) fun _ _ => life_bind_nil (life_of_nil (usage_nil _ _)) fun _ _ => ?_
    refine life_bind_nil (life_of_nil (need_nil _ _)) fun _ _ => life_bind_nil (life_of_nil (date_nil _ _)) fun _ _ => ?_
    refine life_bind_nil (life_of_nil (need_nil _ _)) fun _ _ => life_bind_nil (life_of_nil (date_nil _ _)) fun _ _ => ?_
    exact life_bind_nil (life_of_nil (need_nil _ _)) fun _ _ => life_bind_nil (e2 b hb) fun _ _ => rfl
  refine ⟨?_, fun b hb1 hb2 => ?_, fun b => ?_⟩
  · unfold tjFieldsToRights
    refine all_bind (all_of_nil (id_nil _)) fun _ _ => all_bind (all_of_nil (need_nil _ _)) fun v hv => all_bind (all_of_nil (stringOf_nil _)) fun s hs => ?_
    refine all_bind ?_ fun _ _ => all_bind (all_of_nil (need_nil _ _)) fun _ _ => all_bind (all_of_nil (usage_nil _ _)) fun _ _ => ?_
    · rw [rightsFlags_evs, all_cons, all_append]
      exact ⟨h_alloc _ _, b64_harmless _ _ _ _ (.inr (hr v s hv hs)), h_one (h_free _)⟩
    refine all_bind (all_of_nil (need_nil _ _)) fun _ _ => all_bind (all_of_nil (date_nil _ _)) fun _ _ => ?_
    refine all_bind (all_of_nil (need_nil _ _)) fun _ _ => all_bind (all_of_nil (date_nil _ _)) fun _ _ => ?_
    exact all_bind (all_of_nil (need_nil _ _)) fun _ _ => all_bind e1 fun _ _ => all_pure _ _
  · unfold tjFieldsToRights
    refine life_bind_nil (life_of_nil (id_nil _)) fun _ _ => life_bind_nil (life_of_nil (need_nil _ _)) fun v hv => life_bind_nil (life_of_nil (stringOf_nil _)) fun s hs => ?_
    exact life_bind_nil (lr b s hb2) fun f _ => tail b hb1 f v _
  · unfold tjFieldsToRights
    have h0 : Once [] := .inl rfl
    refine life_bind_left h0 (life_of_nil (id_nil _)) fun id _ => life_bind_left h0 (life_of_nil (need_nil _ _)) fun v hv => ?_
    refine life_bind_left h0 (life_of_nil (stringOf_nil _)) fun s hs => ?_
    by_cases hb : b = .rights
    · subst hb
      refine life_bind_right (G := Once) ?_ fun f _ => tail _ (by decide) f v _
      right
      rw [rightsFlags_evs, C59.life_cons_alloc, life_append, life_b64]; rfl
    · refine life_bind_left h0 (lr b s hb) fun f _ => ?_
      refine life_bind_left h0 (life_of_nil (need_nil _ _)) fun _ _ => life_bind_left h0 (life_of_nil (usage_nil _ _)) fun _ _ => ?_
      refine life_bind_left h0 (life_of_nil (need_nil _ _)) fun _ _ => life_bind_left h0 (life_of_nil (date_nil _ _)) fun _ _ => ?_
      refine life_bind_left h0 (life_of_nil (need_nil _ _)) fun _ _ => life_bind_left h0 (life_of_nil (date_nil _ _)) fun _ _ => ?_
      refine life_bind_left h0 (life_of_nil (need_nil _ _)) fun _ _ => life_bind_right (G := Once) ?_ fun _ _ => rfl
      by_cases hb2 : b = .taIds
      · rw [hb2]; exact e3
      · exact .inl (e2 b hb2)

theorem emit_evs {es : List Ev} {f : Unit → P α} : (P.emit es >>= f).evs = es ++ (f ()).evs := by
  rw [bind_ok (m := P.emit es) (a := ()) rfl]; rfl

theorem contentKey_facts (env : Env) (fields : List (Bytes × Js.Json)) (h : Wholesome env fields) :
    All Harmless (tjContentKey env fields).evs ∧ (∀ b, b ≠ .contentKey → life b (tjContentKey env fields).evs = []) ∧
    Open (life .contentKey (tjContentKey env fields).evs) := by
  unfold tjContentKey
  cases hv : (need "contentKey" fields).res with
  | error s => rw [bind_error hv]; simp only [need_nil]; exact ⟨all_nil _, (fun _ _ => rfl), .inl rfl⟩
  | ok v =>
    rw [bind_ok hv]
    simp only [need_nil, List.nil_append]
    cases hs : (stringOf v).res with
    | error s => rw [bind_error hs]; simp only [stringOf_nil]; exact ⟨all_nil _, (fun _ _ => rfl), .inl rfl⟩
    | ok s =>
      rw [bind_ok hs]
      simp only [stringOf_nil, List.nil_append]
      obtain ⟨k, hk⟩ := need_ok hv
      obtain ⟨hg, r, hb, _⟩ := h.key k s (by rw [hk, stringOf_ok hs])
      have hd : b64Decode env (.fill .contentKey) (some s) false = ([.fill .contentKey r.length], some r) := by
        unfold b64Decode
        simp only [hb]
        rw [if_neg (fun h => h.2 hg)]
        rfl
      simp only [hd, emit_evs, List.singleton_append]
      refine ⟨?_, (fun b hb => ?_), .inr rfl⟩
      · rw [all_cons]; exact ⟨h_alloc _ _, h_one (h_fill _ _)⟩
      · rw [C59.life_cons_alloc, if_neg (Ne.symm hb)]; rfl

theorem iv_facts (env : Env) (fields : List (Bytes × Js.Json)) (h : Wholesome env fields) :
    All Harmless (tjIv env fields).evs ∧ (∀ b, b ≠ .iv → life b (tjIv env fields).evs = []) ∧
    Open (life .iv (tjIv env fields).evs) := by
  unfold tjIv
  cases hv : (need "contentKeyTransportIv" fields).res with
  | error s => rw [bind_error hv]; simp only [need_nil]; exact ⟨all_nil _, (fun _ _ => rfl), .inl rfl⟩
  | ok v =>
    rw [bind_ok hv]
    simp only [need_nil, List.nil_append]
    cases hs : (stringOf v).res with
    | error s => rw [bind_error hs]; simp only [stringOf_nil]; exact ⟨all_nil _, (fun _ _ => rfl), .inl rfl⟩
    | ok s =>
      rw [bind_ok hs]
      simp only [stringOf_nil, List.nil_append]
      obtain ⟨k, hk⟩ := need_ok hv
      obtain ⟨hg, r, hb, hl⟩ := h.iv k s (by rw [hk, stringOf_ok hs])
      have hd : b64Decode env (.fill .iv) (some s) false = ([.fill .iv r.length], some r) := by
        unfold b64Decode
        simp only [hb]
        rw [if_neg (fun h => h.2 hg)]
        rfl
      simp only [hd, emit_evs, List.singleton_append]
      rw [if_neg (by simpa using hl)]
      refine ⟨?_, (fun b hb => ?_), .inr rfl⟩
      · rw [all_cons]; exact ⟨h_alloc _ _, h_one (h_fill _ _)⟩
      · rw [C59.life_cons_alloc, if_neg (Ne.symm hb)]; rfl

theorem ofUnwrap_nil {r : Option (Status × Option StoredKey)} (h : r ≠ none) : (ofUnwrap r).evs = [] := by
  match r, h with
  | some (s, k), _ => cases s <;> rfl

theorem ecb_some {e : TjEnv} (hg : e.Good) (t : UnwrapTarget) (pad : Bool) (ck : Bytes) (wk : StoredKey) (hl : ck.length + 16 < 2 ^ 64) (hn : ck ≠ []) :
    unwrapAesEcb e.ks e.u t pad ck wk ≠ none := by
  have hb : (UnwrapParams.ecb pad).HasBlock ck := by cases pad <;> first | exact hn | trivial
  rcases ecbBody e.ks hg.prims e.u t pad ck wk hl hb with ⟨s, _, he⟩ | ⟨d, he, _⟩ <;> rw [he] <;> simp

theorem cbc_some {e : TjEnv} (hg : e.Good) (t : UnwrapTarget) (pad : Bool) (iv ck : Bytes) (wk : StoredKey) (hl : ck.length + 16 < 2 ^ 64) (hiv : iv.length = 16)
    (hn : ck ≠ []) : unwrapAesCbc e.ks e.u t pad iv ck wk ≠ none := by
  have hb : (UnwrapParams.cbc pad (some (some iv))).HasBlock ck := by cases pad <;> first | exact hn | trivial
  rcases cbcBody e.ks hg.prims e.u t pad iv ck wk hiv hl hb with ⟨s, _, he⟩ | ⟨d, he, _⟩ <;> rw [he] <;> simp

/-- What the functions unwrapping the key do to the blocks before the final frees. -/
def KeyBlocks (es : List Ev) : Prop :=
  All Harmless es ∧ (∀ b, b ≠ .contentKey → b ≠ .iv → life b es = []) ∧ ∀ b, Open (life b es)

theorem close_facts {m : P α} (h : KeyBlocks m.evs) :
    All Harmless (tjClose m).evs ∧ (∀ b, b ≠ .contentKey → b ≠ .iv → life b (tjClose m).evs = []) ∧ ∀ b, Once (life b (tjClose m).evs) := by
  obtain ⟨h1, h2, h3⟩ := h
  unfold tjClose P.after
  simp only
  refine ⟨?_, fun b b1 b2 => ?_, fun b => ?_⟩
  · rw [all_append]
    refine ⟨h1, ?_⟩
    intro x hx
    obtain ⟨b, _, rfl⟩ := List.mem_map.mp hx
    exact h_free _
  · rw [life_append, life_filter_free b _ (by decide), h2 b b1 b2]; simp
  · rw [life_append, life_filter_free b _ (by decide)]
    rcases h3 b with h | h
    · rw [h]; left; simp
    · by_cases hb : b ∈ [Blk.contentKey, .iv]
      · rw [h, if_pos ⟨hb, by simp⟩]; exact .inr rfl
      · simp only [List.mem_cons, List.not_mem_nil, or_false, not_or] at hb
        rw [h2 b hb.1 hb.2] at h
        exact nomatch h

theorem unwrapWith_facts {e : TjEnv} (hg : e.Good) (fields : List (Bytes × Js.Json)) (h : Wholesome e.kc fields) (rights : Rights) (wk : StoredKey) (ck : Bytes)
    (hl : ck.length + 16 < 2 ^ 64) (hn : ck ≠ []) (alg : Option (Bool × Bool)) :
    All Harmless (tjUnwrapWith e fields rights wk ck alg).evs ∧ (∀ b, b ≠ .iv → life b (tjUnwrapWith e fields rights wk ck alg).evs = []) ∧
    Open (life .iv (tjUnwrapWith e fields rights wk ck alg).evs) := by
  unfold tjUnwrapWith
  split
  · exact ⟨all_nil _, (fun _ _ => rfl), .inl rfl⟩
  · have := ofUnwrap_nil (ecb_some hg (tjTarget rights) (by assumption) ck wk hl hn)
    exact ⟨all_of_nil this, (fun _ _ => life_of_nil this), .inl (life_of_nil this)⟩
  · rename_i pad
    obtain ⟨i1, i2, i3⟩ := iv_facts e.kc fields h
    have hnil : ∀ iv, (tjIv e.kc fields).res = .ok iv → (match (ofUnwrap (unwrapAesCbc e.ks e.u (tjTarget rights) pad iv ck wk)).res with
        | .ok _ => ofUnwrap (unwrapAesCbc e.ks e.u (tjTarget rights) pad iv ck wk)
        | .error _ => (⟨(ofUnwrap (unwrapAesCbc e.ks e.u (tjTarget rights) pad iv ck wk)).evs, .error .INTERNAL_ERROR⟩ : P (Option StoredKey))).evs = [] := by
      intro iv hiv
      obtain ⟨_, _, _, _, hl16⟩ := tjIv_ok hiv
      have := ofUnwrap_nil (cbc_some hg (tjTarget rights) pad iv ck wk hl hl16 hn)
      split <;> exact this
    exact ⟨all_bind i1 fun iv hiv => all_of_nil (hnil iv hiv), (fun b hb => life_bind_nil (i2 b hb) fun iv hiv => life_of_nil (hnil iv hiv)),
      life_bind_right (G := Open) i3 fun iv hiv => life_of_nil (hnil iv hiv)⟩

theorem key_facts {e : TjEnv} (hg : e.Good) (fields : List (Bytes × Js.Json)) (h : Wholesome e.kc fields) (rights : Rights) (wk : StoredKey) :
    All Harmless (tjUnwrapKey e fields rights wk).evs ∧ (∀ b, b ≠ .contentKey → b ≠ .iv → life b (tjUnwrapKey e fields rights wk).evs = []) ∧
    ∀ b, Once (life b (tjUnwrapKey e fields rights wk).evs) := by
  obtain ⟨c1, c2, c3⟩ := contentKey_facts e.kc fields h
  have size : ∀ ck, (tjContentKey e.kc fields).res = .ok ck → ck.length + 16 < 2 ^ 64 ∧ ck ≠ [] := by
    intro ck hck
    obtain ⟨k, s, hf, hb⟩ := tjContentKey_ok hck
    obtain ⟨_, r, hr, hn⟩ := h.key k s hf
    rw [hb] at hr
    cases hr
    exact ⟨hg.size _ _ hb, hn⟩
  have o0 : Open [] := .inl rfl
  have v2 : All Harmless (tjUnwrapV2 e fields rights wk).evs ∧ (∀ b, b ≠ .contentKey → b ≠ .iv → life b (tjUnwrapV2 e fields rights wk).evs = []) ∧
      ∀ b, Once (life b (tjUnwrapV2 e fields rights wk).evs) := by
    unfold tjUnwrapV2
    have last : ∀ (Q : List Ev → Prop), Q [] → ∀ (n : Nat) (k : Option StoredKey),
        Q (if (k.map (·.key.length)).getD 0 ≠ n then .fail .INVALID_KEY_FORMAT else pure k : P (Option StoredKey)).evs := by
      intro Q hQ n k; split <;> exact hQ
    refine close_facts ⟨?_, fun b b1 b2 => ?_, fun b => ?_⟩
    · refine all_bind (all_of_nil (need_nil _ _)) fun va _ => all_bind c1 fun ck hck => all_bind (all_of_nil (need_nil _ _)) fun vl _ => ?_
      exact all_bind (unwrapWith_facts hg fields h rights wk ck (size ck hck).1 (size ck hck).2 _).1 fun k _ => last (All Harmless) (all_nil _) _ _
    · refine life_bind_nil (life_of_nil (need_nil _ _)) fun va _ => life_bind_nil (c2 b b1) fun ck hck => life_bind_nil (life_of_nil (need_nil _ _)) fun vl _ => ?_
      exact life_bind_nil ((unwrapWith_facts hg fields h rights wk ck (size ck hck).1 (size ck hck).2 _).2.1 b b2) fun k _ => last (life b · = []) rfl _ _
    · refine life_bind_left o0 (life_of_nil (need_nil _ _)) fun va _ => ?_
      by_cases hb : b = .contentKey
      · subst hb
        refine life_bind_right c3 fun ck hck => life_bind_nil (life_of_nil (need_nil _ _)) fun vl _ => ?_
        exact life_bind_nil ((unwrapWith_facts hg fields h rights wk ck (size ck hck).1 (size ck hck).2 _).2.1 _ (by decide)) fun k _ => last (life _ · = []) rfl _ _
      · refine life_bind_left o0 (c2 b hb) fun ck hck => life_bind_left o0 (life_of_nil (need_nil _ _)) fun vl _ => ?_
        have hw := unwrapWith_facts hg fields h rights wk ck (size ck hck).1 (size ck hck).2 (tjAlgorithm (Js.asString va))
        refine life_bind_right (G := Open) ?_ fun k _ => last (life _ · = []) rfl _ _
        by_cases hb2 : b = .iv
        · rw [hb2]; exact hw.2.2
        · exact .inl (hw.2.1 b hb2)
  unfold tjUnwrapKey
  split
  · unfold tjUnwrapV1
    have rest : ∀ ck, (tjContentKey e.kc fields).res = .ok ck → (if ck.length % 16 ≠ 0 then .fail .INVALID_KEY_FORMAT else
        ofUnwrap (unwrapAesEcb e.ks e.u (tjTarget rights) false ck wk) : P (Option StoredKey)).evs = [] := by
      intro ck hck
      split
      · rfl
      · exact ofUnwrap_nil (ecb_some hg _ _ _ _ (size ck hck).1 (size ck hck).2)
    refine close_facts ⟨all_bind c1 fun ck hck => all_of_nil (rest ck hck), (fun b b1 _ => life_bind_nil (c2 b b1) fun ck hck => life_of_nil (rest ck hck)), fun b => ?_⟩
    refine life_bind_right (G := Open) ?_ fun ck hck => life_of_nil (rest ck hck)
    by_cases hb : b = .contentKey
    · rw [hb]; exact c3
    · exact .inl (c2 b hb)
  split
  · exact v2
  split
  · exact v2
  · exact ⟨all_nil _, (fun _ _ _ => rfl), fun _ => .inl rfl⟩

theorem part_evs (env : Env) (b : Blk) (s r : Bytes) (h : env.bio (b64Data env s true) = some r) :
    tjUnpackPart env b s = ⟨[.alloc b (b64DecodedLength s.length), .fill b r.length], .ok r⟩ := by
  unfold tjUnpackPart b64Decode
  simp only [h]
  rw [if_neg (fun h => nomatch h.1)]
  rfl

/-- Unpacking text whose parts decode. -/
theorem unpack_facts (env : Env) (s : Bytes) (h : PartsDecode env s) :
    All Harmless (tjUnpack env s).evs ∧ ((∃ e, (tjUnpack env s).res = .error e) → OnceFreed (tjUnpack env s).evs) ∧
    ((∃ u, (tjUnpack env s).res = .ok u) → ∀ b, life b (tjUnpack env s).evs = if b ∈ [Blk.header, .payload, .mac, .unpacked] then [true] else []) := by
  unfold tjUnpack
  simp only
  cases hs : splitDots s with
  | none =>
    have hb : tjUnpackBody env s = .fail .INVALID_KEY_FORMAT := by unfold tjUnpackBody; rw [hs]
    rw [hb]
    refine ⟨?_, (fun _ b => ?_), fun ⟨_, h⟩ => nomatch h⟩
    · show All Harmless [.alloc .unpacked 112, .free .unpacked]
      rw [all_cons]; exact ⟨h_alloc _ _, h_one (h_free _)⟩
    · show life b [.alloc .unpacked 112, .free .unpacked] = [] ∨ life b [.alloc .unpacked 112, .free .unpacked] = [true, false]
      rw [C59.life_cons_alloc, C59.life_cons_free]
      by_cases hb : Blk.unpacked = b
      · rw [if_pos hb, if_pos hb]; exact .inr rfl
      · rw [if_neg hb, if_neg hb]; exact .inl rfl
  | some x =>
    obtain ⟨hd, p, m⟩ := x
    obtain ⟨h1, h2, h3⟩ := h hd p m hs
    obtain ⟨r1, h1⟩ := Option.isSome_iff_exists.mp h1
    obtain ⟨r2, h2⟩ := Option.isSome_iff_exists.mp h2
    obtain ⟨r3, h3⟩ := Option.isSome_iff_exists.mp h3
    have hb : tjUnpackBody env s = ⟨[.alloc .header (b64DecodedLength hd.length), .fill .header r1.length, .alloc .payload (b64DecodedLength p.length),
        .fill .payload r2.length, .alloc .mac (b64DecodedLength m.length), .fill .mac r3.length], .ok (hd, p, ⟨r1, r2, r3⟩)⟩ := by
      unfold tjUnpackBody; rw [hs]; simp only [part_evs _ _ _ _ h1, part_evs _ _ _ _ h2, part_evs _ _ _ _ h3]; rfl
    rw [hb]
    refine ⟨?_, (fun ⟨_, h⟩ => nomatch h), fun _ b => ?_⟩
    · simp only [all_cons]
      exact ⟨h_alloc _ _, h_alloc _ _, h_fill _ _, h_alloc _ _, h_fill _ _, h_alloc _ _, h_fill _ _, all_nil _⟩
    · cases b <;> rfl

theorem mac_nil (e : TjEnv) (h p mac key : Bytes) : (tjVerifyMac e h p mac key).evs = [] := by
  unfold tjVerifyMac
  split
  · rfl
  split
  · rfl
  split <;> rfl

theorem json_harmless (env : Env) (a b : Blk) (t : Bytes) : All Harmless (socJson env a b t).evs := by
  unfold socJson
  split
  · exact all_nil _
  · split
    · exact h_one (h_alloc _ _)
    · rw [all_cons]; exact ⟨h_alloc _ _, h_one (h_alloc _ _)⟩

/-- **C40, memory (partial).**  If the parts of the text are base64 and, in case the text is authentic, the fields of the payload are `Wholesome`, then every block allocated
is freed exactly once, whether the container is accepted or not, and nothing unset, NULL or outside an object is used.  Missing: the conditions, which the code does not check. -/
theorem C40_heap_partial (e : TjEnv) (hg : e.Good) (s : Bytes) (mk wk : StoredKey) (hd : PartsDecode e.kc s)
    (hw : ∀ h p pl fields, Authentic e mk.key s h p → e.kc.bio (b64Data e.kc p true) = some pl → parseJson e.kc pl = some (.obj fields) → Wholesome e.kc fields) :
    OnceFreed (typejUnwrap e s mk wk).evs ∧ ∀ x ∈ (typejUnwrap e s mk wk).evs, Harmless x := by
  obtain ⟨u1, u2, u3⟩ := unpack_facts e.kc s hd
  unfold typejUnwrap
  simp only
  split
  · rename_i st hu; exact ⟨u2 ⟨_, hu⟩, u1⟩
  rename_i h p u hu
  obtain ⟨m, hs, t1, t2, t3⟩ := tjUnpack_ok hu
  have u3 := u3 ⟨_, hu⟩
  have hau : ∀ r, (tjVerifyMac e h p u.mac mk.key).res = .ok r → ∀ fields, parseJson e.kc u.payload = some (.obj fields) → Wholesome e.kc fields := by
    intro r hm fields hj
    obtain ⟨m1, m2⟩ := tjVerifyMac_ok hm
    have hdot : ascii "." = [0x2e] := by decide
    obtain ⟨s1, s2, s3, _⟩ := (splitDots_iff _ _ _ _).mp hs
    refine hw h p u.payload fields ⟨m, u.mac, ?_, s2, s3, t3, m1, ?_⟩ t2 hj
    · rw [hdot]; simp [s1]
    · rw [← m2, hdot]; simp
  have body : All Harmless (tjUnwrapBody e h p u mk wk).evs ∧
      (∀ b ∈ [Blk.header, .payload, .mac, .unpacked], life b (tjUnwrapBody e h p u mk wk).evs = []) ∧
      (∀ b ∈ [Blk.payloadJson, .payloadFields], Open (life b (tjUnwrapBody e h p u mk wk).evs)) ∧
      (∀ b, b ∉ [Blk.payloadJson, .payloadFields] → Once (life b (tjUnwrapBody e h p u mk wk).evs)) := by
    have js := fun b => C59.life_json e.kc b .payloadJson .payloadFields (by decide) u.payload
    unfold tjUnwrapBody
    refine ⟨?_, fun b hb => ?_, fun b hb => ?_, fun b hb => ?_⟩
    · refine all_bind (all_of_nil (mac_nil _ _ _ _ _)) fun r hm => all_bind (json_harmless _ _ _ _) fun fields hf => ?_
      have wf := hau r hm fields (socJson_ok hf)
      exact all_bind (fields_facts e fields wf).1 fun rights _ => (key_facts hg fields wf rights wk).1
    · have hne : b ≠ .payloadJson ∧ b ≠ .payloadFields ∧ b ≠ .taIds ∧ b ≠ .rights ∧ b ≠ .contentKey ∧ b ≠ .iv := by
        simp only [List.mem_cons, List.not_mem_nil, or_false] at hb
        rcases hb with rfl | rfl | rfl | rfl <;> decide
      obtain ⟨n1, n2, n3, n4, n5, n6⟩ := hne
      refine life_bind_nil (life_of_nil (mac_nil _ _ _ _ _)) fun r hm => life_bind_nil ((js b).2 n1 n2) fun fields hf => ?_
      have wf := hau r hm fields (socJson_ok hf)
      exact life_bind_nil ((fields_facts e fields wf).2.1 b n3 n4) fun rights _ => (key_facts hg fields wf rights wk).2.1 b n5 n6
    · have hne : b ≠ .taIds ∧ b ≠ .rights ∧ b ≠ .contentKey ∧ b ≠ .iv := by
        simp only [List.mem_cons, List.not_mem_nil, or_false] at hb
        rcases hb with rfl | rfl <;> decide
      obtain ⟨n3, n4, n5, n6⟩ := hne
      refine life_bind_left (G := Open) (.inl rfl) (life_of_nil (mac_nil _ _ _ _ _)) fun r hm => life_bind_right (js b).1 fun fields hf => ?_
      have wf := hau r hm fields (socJson_ok hf)
      exact life_bind_nil ((fields_facts e fields wf).2.1 b n3 n4) fun rights _ => (key_facts hg fields wf rights wk).2.1 b n5 n6
    · simp only [List.mem_cons, List.not_mem_nil, or_false, not_or] at hb
      have h0 : Once [] := .inl rfl
      refine life_bind_left h0 (life_of_nil (mac_nil _ _ _ _ _)) fun r hm => life_bind_left h0 ((js b).2 hb.1 hb.2) fun fields hf => ?_
      have wf := hau r hm fields (socJson_ok hf)
      have hf := fields_facts e fields wf
      by_cases hb2 : b = .taIds ∨ b = .rights
      · refine life_bind_right (G := Once) (hf.2.2 b) fun rights _ => (key_facts hg fields wf rights wk).2.1 b ?_ ?_
        · rcases hb2 with rfl | rfl <;> decide
        · rcases hb2 with rfl | rfl <;> decide
      · rw [not_or] at hb2
        exact life_bind_left h0 (hf.2.1 b hb2.1 hb2.2) fun rights _ => (key_facts hg fields wf rights wk).2.2 b
  obtain ⟨b1, b2, b3, b4⟩ := body
  simp only
  constructor
  · intro b
    rw [life_append]
    unfold tjFinalFree
    rw [life_filter_free b _ (by decide), life_append, u3 b]
    by_cases hb : b ∈ [Blk.header, .payload, .mac, .unpacked]
    · rw [b2 b hb, if_pos hb]
      right
      have : b ∈ [Blk.header, .payload, .mac, .unpacked, .payloadJson, .payloadFields] := by
        simp only [List.mem_cons, List.not_mem_nil, or_false] at hb ⊢; rcases hb with rfl | rfl | rfl | rfl <;> simp
      simp [this]
    · rw [if_neg hb, List.nil_append]
      by_cases hb2 : b ∈ [Blk.payloadJson, .payloadFields]
      · have : b ∈ [Blk.header, .payload, .mac, .unpacked, .payloadJson, .payloadFields] := by
          simp only [List.mem_cons, List.not_mem_nil, or_false] at hb2 ⊢; rcases hb2 with rfl | rfl <;> simp
        rcases b3 b hb2 with h | h
        · rw [h]; left; simp
        · rw [h]; right; simp [this]
      · have : b ∉ [Blk.header, .payload, .mac, .unpacked, .payloadJson, .payloadFields] := by
          simp only [List.mem_cons, List.not_mem_nil, or_false, not_or] at hb hb2 ⊢; grind
        rw [if_neg (fun h => this h.1), List.append_nil]
        exact b4 b hb2
  · show All Harmless _
    rw [all_append, all_append]
    refine ⟨⟨u1, b1⟩, ?_⟩
    intro x hx
    unfold tjFinalFree at hx
    obtain ⟨b, _, rfl⟩ := List.mem_map.mp hx
    exact h_free _

/-- **C40, memory, without the MAC key (partial).**  A text that is not authentic does no harm if its parts are base64. -/
theorem C40_unauthentic_partial (e : TjEnv) (hg : e.Good) (s : Bytes) (mk wk : StoredKey) (hd : PartsDecode e.kc s) (hn : ∀ h p, ¬ Authentic e mk.key s h p) :
    OnceFreed (typejUnwrap e s mk wk).evs ∧ ∀ x ∈ (typejUnwrap e s mk wk).evs, Harmless x :=
  C40_heap_partial e hg s mk wk hd fun h p _ _ ha => absurd ha (hn h p)

/-! ## Concrete cases -/

/-- The containers of both versions are accepted; every block is allocated and freed. -/
example : Sample.outcome (typejUnwrap (Tj.env (Tj.v1 [] (Sample.str Sample.b16)) 0) Tj.text C27.key16 C27.key16) = some (0, 16) ∧
    ∀ b ∈ [Blk.unpacked, .header, .payload, .mac, .payloadJson, .payloadFields, .rights, .contentKey],
      life b (typejUnwrap (Tj.env (Tj.v1 [] (Sample.str Sample.b16)) 0) Tj.text C27.key16 C27.key16).evs = [true, false] := by decide +kernel

example : Sample.outcome (typejUnwrap (Tj.env (Tj.v2 "aesCbcNone" (Sample.str Sample.b16) (Sample.str Sample.b16) 16) 0) Tj.text C27.key16 C27.key16) = some (0, 16) ∧
    ∀ b ∈ [Blk.unpacked, .header, .payload, .mac, .payloadJson, .payloadFields, .rights, .contentKey, .iv],
      life b (typejUnwrap (Tj.env (Tj.v2 "aesCbcNone" (Sample.str Sample.b16) (Sample.str Sample.b16) 16) 0) Tj.text C27.key16 C27.key16).evs = [true, false] := by
  decide +kernel

/-- Another MAC is refused. -/
example : (typejUnwrap (Tj.env (Tj.v1 [] (Sample.str Sample.b16)) 0) (ascii "hhhh.pppp." ++ List.replicate 32 0x6e ++ List.replicate 12 0x3d) C27.key16 C27.key16).status.1 =
    .INVALID_KEY_FORMAT := by decide +kernel

/-- The key in the store `C29.stP` can be both helper keys, and the container is accepted with it. -/
example : (C29.stP.bind fun st => keyStoreUnwrap C08.env0 st 31 C08.u7).any (fun r => r.2.2.any fun k =>
    tjMacKeyOk (Tj.env [] 0) k == .OK && tjCipherKeyOk (Tj.env [] 0) k == .OK &&
    Sample.outcome (typejUnwrap (Tj.env (Tj.v1 [] (Sample.str Sample.b16)) 0) Tj.text k k) == some (0, 16)) = true := by decide +kernel

/-- The sample meets the hypotheses of `C40_heap_partial`. -/
example : PartsDecode (Tj.env (Tj.v1 [] (Sample.str Sample.b16)) 0).kc Tj.text ∧ ∀ h p pl fields,
    Authentic (Tj.env (Tj.v1 [] (Sample.str Sample.b16)) 0) C27.key16.key Tj.text h p →
    (Tj.env (Tj.v1 [] (Sample.str Sample.b16)) 0).kc.bio (b64Data (Tj.env (Tj.v1 [] (Sample.str Sample.b16)) 0).kc p true) = some pl →
    parseJson (Tj.env (Tj.v1 [] (Sample.str Sample.b16)) 0).kc pl = some (.obj fields) → Wholesome (Tj.env (Tj.v1 [] (Sample.str Sample.b16)) 0).kc fields := by
  have e1 : splitDots Tj.text = some (ascii "hhhh", ascii "pppp", Tj.mac) := by decide +kernel
  constructor
  · intro h p m hs
    rw [e1] at hs
    cases hs
    decide +kernel
  · rintro h p pl fields ⟨m, mac, hs, n1, n2, hm, hl, _⟩ hb hj
    have hne : m ≠ [] := by
      rintro rfl
      simp only [Tj.env, b64Data, List.length_nil] at hm
      cases hm
      exact nomatch hl
    have := (splitDots_iff Tj.text h p m).mpr ⟨by rw [hs]; simp [show ascii "." = [0x2e] from by decide], n1, n2, hne⟩
    rw [e1] at this
    cases this
    have e2 : (Tj.env (Tj.v1 [] (Sample.str Sample.b16)) 0).kc.bio (b64Data (Tj.env (Tj.v1 [] (Sample.str Sample.b16)) 0).kc (ascii "pppp") true) = some (ascii "ppp") := by
      decide +kernel
    rw [e2] at hb
    cases hb
    have e3 : (match parseJson (Tj.env (Tj.v1 [] (Sample.str Sample.b16)) 0).kc (ascii "ppp") with
      | some (.obj l) =>
        (match Js.find (ascii "contentKeyRights") l with | some (_, .str s) => s.length % 4 == 0 | _ => true) &&
        (match Js.find (ascii "contentKey") l with
          | some (_, .str s) => s == ascii Sample.b16
          | _ => true) && (Js.find (ascii "contentKeyTransportIv") l).isNone && (Js.find (ascii "entitledTaIds") l).isNone
      | _ => true) = true := by decide +kernel
    rw [hj] at e3
    simp only [Bool.and_eq_true] at e3
    obtain ⟨⟨⟨a1, a2⟩, a3⟩, a4⟩ := e3
    refine ⟨?_, ?_, ?_, ?_⟩
    · intro k s hf; rw [hf] at a1; unfold Groups; simpa using a1
    · intro k s hf
      rw [hf] at a2
      simp only [beq_iff_eq] at a2
      subst a2
      exact ⟨by unfold Groups; decide, List.replicate 16 0x41, by decide +kernel, by decide⟩
    · intro k s hf; rw [hf] at a3; simp at a3
    · intro k s hf; rw [hf] at a4; simp at a4

/-- **C40 is violated before authentication**: a header that is not base64 is freed twice; the MAC is not even looked at. -/
theorem C40_violated_parts : ∃ (e : TjEnv) (s : Bytes), e.Good ∧ (∀ mk h p, ¬ Authentic e mk s h p) ∧
    ∀ mk wk, life .header (typejUnwrap e s mk wk).evs = [true, false, false] := by
  refine ⟨Tj.env [] 0, ascii "xxxx.pppp.mmmm", Tj.env_good _ _, ?_, fun _ _ => ?_⟩
  · rintro mk h p ⟨m, mac, hs, n1, n2, hm, hl, _⟩
    have e1 : splitDots (ascii "xxxx.pppp.mmmm") = some (ascii "xxxx", ascii "pppp", ascii "mmmm") := by decide +kernel
    have hne : m ≠ [] := by
      rintro rfl
      simp only [Tj.env, b64Data, List.length_nil] at hm
      cases hm
      exact nomatch hl
    have := (splitDots_iff (ascii "xxxx.pppp.mmmm") h p m).mpr ⟨by rw [hs]; simp [show ascii "." = [0x2e] from by decide], n1, n2, hne⟩
    rw [e1] at this
    cases this
    have e2 : (Tj.env [] 0).kc.bio (b64Data (Tj.env [] 0).kc (ascii "mmmm") true) = some (ascii "mmm") := by decide +kernel
    rw [e2] at hm
    cases hm
    exact nomatch hl
  · have : (match (tjUnpack (Tj.env [] 0).kc (ascii "xxxx.pppp.mmmm")).res with | .error _ => true | .ok _ => false) = true := by decide +kernel
    unfold typejUnwrap
    cases hu : (tjUnpack (Tj.env [] 0).kc (ascii "xxxx.pppp.mmmm")).res with
    | ok x => rw [hu] at this; exact nomatch this
    | error s =>
      simp only [hu]
      decide +kernel

/-- **… and after it**: an initialisation vector of 12 bytes, or a wrapped key that is not base64, is freed twice. -/
theorem C40_violated_fields : (∃ (e : TjEnv) (s : Bytes) (mk wk : StoredKey), e.Good ∧ life .iv (typejUnwrap e s mk wk).evs = [true, false, false]) ∧
    ∃ (e : TjEnv) (s : Bytes) (mk wk : StoredKey), e.Good ∧ life .contentKey (typejUnwrap e s mk wk).evs = [true, false, false] :=
  ⟨⟨Tj.env (Tj.v2 "aesCbcNone" (Sample.str Sample.b16) (Sample.str Sample.b12) 16) 0, Tj.text, C27.key16, C27.key16, Tj.env_good _ _, by decide +kernel⟩,
    ⟨Tj.env (Tj.v1 [] (Sample.str "xxxx")) 0, Tj.text, C27.key16, C27.key16, Tj.env_good _ _, by decide +kernel⟩⟩

/-- **… and for reads**: a list of TAs that is no list makes the parser use an unset length and go through NULL; an empty wrapped key with padding makes it read before the beginning of a block. -/
theorem C40_violated_reads : (∃ (e : TjEnv) (s : Bytes) (mk wk : StoredKey), e.Good ∧ Ev.uninit ∈ (typejUnwrap e s mk wk).evs ∧ Ev.null ∈ (typejUnwrap e s mk wk).evs) ∧
    ∃ (e : TjEnv) (s : Bytes) (mk wk : StoredKey), e.Good ∧ Ev.outside ∈ (typejUnwrap e s mk wk).evs :=
  ⟨⟨Tj.env (Tj.v1 [("entitledTaIds", [.int 7])] (Sample.str Sample.b16)) 1, Tj.text, C27.key16, C27.key16, Tj.env_good _ _, by decide +kernel, by decide +kernel⟩,
    ⟨Tj.env (Tj.v2 "aesEcbPkcs5" (Sample.str "") (Sample.str Sample.b12) 16) 0, Tj.text, C27.key16, C27.key16, Tj.env_good _ _, by decide +kernel⟩⟩

end Sa.Kc.C40

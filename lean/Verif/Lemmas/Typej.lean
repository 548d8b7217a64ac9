import Verif.Model.Typej
import Verif.Lemmas.KcLife
import Verif.Lemmas.Unwrap

/-! What successful runs of the Type-J parser went through. -/

namespace Sa.Kc

/-- The three parts of a text. -/
theorem splitDots_iff (s h p m : Bytes) :
    splitDots s = some (h, p, m) ↔ s = h ++ 0x2e :: (p ++ 0x2e :: m) ∧ (0x2e : UInt8) ∉ h ∧ (0x2e : UInt8) ∉ p ∧ m ≠ [] := by
  have find : ∀ (a b : Bytes), (0x2e : UInt8) ∉ a → (a ++ 0x2e :: b).findIdx? (· == 0x2e) = some a.length := by
    intro a b ha
    induction a with
    | nil => rfl
    | cons x xs ih =>
      simp only [List.mem_cons, not_or] at ha
      have hx : (x == 0x2e) = false := by simp; exact fun h => ha.1 h.symm
      simp [List.findIdx?_cons, hx, ih ha.2]
  have back : ∀ (a : Bytes) i, a.findIdx? (· == 0x2e) = some i → a = a.take i ++ 0x2e :: a.drop (i + 1) ∧ (0x2e : UInt8) ∉ a.take i := by
    intro a
    induction a with
    | nil => intro i h; simp at h
    | cons x xs ih =>
      intro i h
      rw [List.findIdx?_cons] at h
      by_cases hx : x = 0x2e
      · simp [hx] at h; subst h; simp [hx]
      · have : (x == 0x2e) = false := by simp [hx]
        rw [this] at h
        simp only [Bool.false_eq_true, if_false, Option.map_eq_some_iff] at h
        obtain ⟨j, hj, rfl⟩ := h
        obtain ⟨e, n⟩ := ih j hj
        constructor
        · simp only [List.take_succ_cons, List.drop_succ_cons, List.cons_append]; rw [← e]
        · simp only [List.take_succ_cons, List.mem_cons, not_or]; exact ⟨fun h => hx h.symm, n⟩
  constructor
  · intro hs
    unfold splitDots at hs
    split at hs
    · simp at hs
    rename_i i hi
    simp only at hs
    split at hs
    · simp at hs
    split at hs
    · simp at hs
    rename_i j hj
    split at hs
    · simp at hs
    rename_i hm
    simp only [Option.some.injEq, Prod.mk.injEq] at hs
    obtain ⟨rfl, rfl, rfl⟩ := hs
    obtain ⟨e1, n1⟩ := back _ _ hi
    obtain ⟨e2, n2⟩ := back _ _ hj
    exact ⟨by rw [← e2, ← e1], n1, n2, fun h => hm (by rw [h]; rfl)⟩
  · rintro ⟨rfl, hh, hp, hm⟩
    unfold splitDots
    rw [find _ _ hh]
    have hd : (h ++ 0x2e :: (p ++ 0x2e :: m)).drop (h.length + 1) = p ++ 0x2e :: m := by
      rw [List.drop_append]; simp
    have ht : (h ++ 0x2e :: (p ++ 0x2e :: m)).take h.length = h := by simp
    simp only [hd, ht]
    rw [if_neg (by simp), find _ _ hp]
    have hd : (p ++ 0x2e :: m).drop (p.length + 1) = m := by rw [List.drop_append]; simp
    have ht : (p ++ 0x2e :: m).take p.length = p := by simp
    simp only [hd, ht]
    rw [if_neg (by simpa using hm)]

theorem tjUnpackPart_ok {env : Env} {b : Blk} {s r : Bytes} (h : (tjUnpackPart env b s).res = .ok r) : env.bio (b64Data env s true) = some r := by
  unfold tjUnpackPart b64Decode at h
  simp only at h
  cases hb : env.bio (b64Data env s true) with
  | none => rw [hb] at h; exact nomatch h
  | some x => rw [hb] at h; cases h; rfl

theorem tjUnpack_ok {env : Env} {s hd p : Bytes} {u : Unpacked} (h : (tjUnpack env s).res = .ok (hd, p, u)) :
    ∃ m, splitDots s = some (hd, p, m) ∧ env.bio (b64Data env hd true) = some u.header ∧ env.bio (b64Data env p true) = some u.payload ∧
      env.bio (b64Data env m true) = some u.mac := by
  unfold tjUnpack at h
  simp only at h
  split at h
  · rename_i u' hu
    cases h
    unfold tjUnpackBody at hu
    split at hu
    · exact nomatch hu
    · rename_i hd p m hs
      obtain ⟨a, ha, hu, _⟩ := bind_res hu
      obtain ⟨b, hb, hu, _⟩ := bind_res hu
      obtain ⟨c, hc, hu, _⟩ := bind_res hu
      cases hu
      exact ⟨m, hs, tjUnpackPart_ok ha, tjUnpackPart_ok hb, tjUnpackPart_ok hc⟩
  · exact nomatch h

theorem tjVerifyMac_ok {e : TjEnv} {h p mac key : Bytes} {r : Unit} (hr : (tjVerifyMac e h p mac key).res = .ok r) :
    mac.length = 32 ∧ e.kdf.hmac 1 key (h ++ 0x2e :: p) = mac := by
  unfold tjVerifyMac at hr
  split at hr
  · exact nomatch hr
  split at hr
  · exact nomatch hr
  split at hr
  · exact nomatch hr
  rename_i h1 _ h2
  refine ⟨Classical.byContradiction h1, ?_⟩
  have := Classical.byContradiction h2
  simpa [DIGEST_SHA256] using this

/-- What a successful run went through. -/
structure TjRun (e : TjEnv) (s : Bytes) (mk wk : StoredKey) (r : Option StoredKey) where
  (h p m hdr pl mac : Bytes)
  (fields : List (Bytes × Js.Json))
  (rights : Rights)
  split : s = h ++ 0x2e :: (p ++ 0x2e :: m) ∧ (0x2e : UInt8) ∉ h ∧ (0x2e : UInt8) ∉ p ∧ m ≠ []
  hdrText : e.kc.bio (b64Data e.kc h true) = some hdr
  plText : e.kc.bio (b64Data e.kc p true) = some pl
  macText : e.kc.bio (b64Data e.kc m true) = some mac
  macOk : mac.length = 32 ∧ e.kdf.hmac 1 mk.key (h ++ 0x2e :: p) = mac
  json : parseJson e.kc pl = some (.obj fields)
  rightsOk : (tjFieldsToRights e fields).res = .ok rights
  keyOk : (tjUnwrapKey e fields rights wk).res = .ok r

theorem typejUnwrap_ok {e : TjEnv} {s : Bytes} {mk wk : StoredKey} {r : Option StoredKey} (h : (typejUnwrap e s mk wk).res = .ok r) :
    Nonempty (TjRun e s mk wk r) := by
  unfold typejUnwrap at h
  simp only at h
  split at h
  · exact nomatch h
  rename_i hd p u hu
  obtain ⟨m, hs, h1, h2, h3⟩ := tjUnpack_ok hu
  unfold tjUnwrapBody at h
  simp only at h
  obtain ⟨_, hm, h, _⟩ := bind_res h
  obtain ⟨fields, hf, h, _⟩ := bind_res h
  obtain ⟨rights, hr, h, _⟩ := bind_res h
  exact ⟨⟨hd, p, m, u.header, u.payload, u.mac, fields, rights, (splitDots_iff _ _ _ _).mp hs, h1, h2, h3, tjVerifyMac_ok hm, socJson_ok hf, hr, h⟩⟩

/-- What `tjContentKey` gives. -/
theorem tjContentKey_ok {env : Env} {fields : List (Bytes × Js.Json)} {r : Bytes} (h : (tjContentKey env fields).res = .ok r) :
    ∃ k s, Js.find (ascii "contentKey") fields = some (k, .str s) ∧ env.bio (b64Data env s false) = some r := by
  unfold tjContentKey at h
  obtain ⟨v, hv, h, _⟩ := bind_res h
  obtain ⟨k, hk⟩ := need_ok hv
  obtain ⟨s, hs, h, _⟩ := bind_res h
  unfold stringOf at hs
  split at hs
  · exact nomatch hs
  rename_i s' hs'
  cases hs
  obtain ⟨_, _, h, _⟩ := bind_res h
  obtain ⟨_, _, h, _⟩ := bind_res h
  refine ⟨k, s, ?_, ?_⟩
  · cases v <;> simp [Js.asString] at hs'
    rw [hk, hs']
  · unfold b64Decode at h
    simp only at h
    cases hb : env.bio (b64Data env s false) with
    | none =>
      rw [hb] at h; simp only at h
      obtain ⟨_, _, h, _⟩ := bind_res h
      exact nomatch h
    | some x => rw [hb] at h; cases h; rfl

theorem stringOf_ok {v : Js.Json} {s : Bytes} (h : (stringOf v).res = .ok s) : v = .str s := by
  unfold stringOf at h
  split at h
  · exact nomatch h
  rename_i s' hs'
  cases h
  cases v <;> simp [Js.asString] at hs'
  rw [hs']

theorem tjIv_ok {env : Env} {fields : List (Bytes × Js.Json)} {r : Bytes} (h : (tjIv env fields).res = .ok r) :
    ∃ k s, Js.find (ascii "contentKeyTransportIv") fields = some (k, .str s) ∧ env.bio (b64Data env s false) = some r ∧ r.length = 16 := by
  unfold tjIv at h
  obtain ⟨v, hv, h, _⟩ := bind_res h
  obtain ⟨k, hk⟩ := need_ok hv
  obtain ⟨s, hs, h, _⟩ := bind_res h
  obtain ⟨_, _, h, _⟩ := bind_res h
  obtain ⟨_, _, h, _⟩ := bind_res h
  refine ⟨k, s, by rw [hk, stringOf_ok hs], ?_⟩
  unfold b64Decode at h
  simp only at h
  cases hb : env.bio (b64Data env s false) with
  | none =>
    rw [hb] at h; simp only at h
    obtain ⟨_, _, h, _⟩ := bind_res h
    exact nomatch h
  | some x =>
    rw [hb] at h
    simp only at h
    split at h
    · obtain ⟨_, _, h, _⟩ := bind_res h
      exact nomatch h
    · rename_i hl
      cases h
      exact ⟨rfl, Classical.byContradiction hl⟩

theorem ofUnwrap_ok {r : Option (Status × Option StoredKey)} {k : Option StoredKey} (h : (ofUnwrap r).res = .ok k) : r = some (.OK, k) := by
  cases r with
  | none => exact nomatch h
  | some x =>
    obtain ⟨s, k'⟩ := x
    cases s <;> first | (cases h; rfl) | exact nomatch h

/-- Assumptions on the environment. -/
structure TjEnv.Good (e : TjEnv) : Prop where
  kc : e.kc.Good
  /-- everything decoded fits the address space -/
  size : ∀ d r, e.kc.bio d = some r → r.length + 16 < 2 ^ 64
  prims : e.ks.prims.Good
  u : e.u.prims.Good

/-- What the fields say about how the key is wrapped: algorithm (and initialisation vector), wrapped key. -/
inductive TjWrapped (env : Env) (fields : List (Bytes × Js.Json)) : UnwrapParams → Bytes → Prop
  | v1 {k s ck} : tjVersion fields = 1 → Js.find (ascii "contentKey") fields = some (k, .str s) → env.bio (b64Data env s false) = some ck →
      TjWrapped env fields (.ecb false) ck
  | ecb {k s ck ka a pad} : tjVersion fields = 2 ∨ tjVersion fields = 3 → Js.find (ascii "contentKey") fields = some (k, .str s) →
      env.bio (b64Data env s false) = some ck → Js.find (ascii "contentKeyTransportAlgorithm") fields = some (ka, .str a) →
      a = ascii (if pad then "aesEcbPkcs5" else "aesEcbNone") → TjWrapped env fields (.ecb pad) ck
  | cbc {k s ck ka a pad ki si iv} : tjVersion fields = 2 ∨ tjVersion fields = 3 → Js.find (ascii "contentKey") fields = some (k, .str s) →
      env.bio (b64Data env s false) = some ck → Js.find (ascii "contentKeyTransportAlgorithm") fields = some (ka, .str a) →
      a = ascii (if pad then "aesCbcPkcs5" else "aesCbcNone") →
      Js.find (ascii "contentKeyTransportIv") fields = some (ki, .str si) → env.bio (b64Data env si false) = some iv → iv.length = 16 →
      TjWrapped env fields (.cbc pad (some (some iv))) ck

theorem tjAlgorithm_ok {s : Option Bytes} {b pad : Bool} (h : tjAlgorithm s = some (b, pad)) :
    s = some (ascii (if b then (if pad then "aesCbcPkcs5" else "aesCbcNone") else (if pad then "aesEcbPkcs5" else "aesEcbNone"))) := by
  unfold tjAlgorithm at h
  split at h
  · exact nomatch h
  repeat' split at h
  all_goals first | (rename_i he; cases h; rw [he]; rfl) | exact nomatch h

theorem ecb_ok {e : TjEnv} (hg : e.Good) {t : UnwrapTarget} {pad : Bool} {ck : Bytes} {wk : StoredKey} {k : Option StoredKey} (hl : ck.length + 16 < 2 ^ 64)
    (h : unwrapAesEcb e.ks e.u t pad ck wk = some (.OK, k)) :
    ∃ d, k = some d ∧ Created e.ks d ∧ UnwrapClear e.ks.prims e.u.prims wk (.ecb pad) ck d.key ∧
      d.header.rights = restrictChildRights t.rights (some wk.header.rights) ∧ d.header.type.toNat = t.keyType ∧
      ImportShape e.u.prims t.keyType t.curve d.key d := by
  have hb : (UnwrapParams.ecb pad).HasBlock ck := by
    cases pad with
    | false => trivial
    | true =>
      intro hc
      subst hc
      unfold unwrapAesEcb at h
      split at h
      · simp at h
      split at h
      · simp at h
      split at h
      · simp at h
      simp [unwrapPadded, ecbDec] at h
  rcases ecbBody e.ks hg.prims e.u t pad ck wk hl hb with ⟨s, hs, he⟩ | ⟨d, he, h2⟩
  · rw [h] at he; simp only [Option.some.injEq, Prod.mk.injEq] at he; exact absurd he.1.symm hs
  · rw [h] at he; simp only [Option.some.injEq, Prod.mk.injEq, true_and] at he; exact ⟨d, he, h2⟩

theorem cbc_ok {e : TjEnv} (hg : e.Good) {t : UnwrapTarget} {pad : Bool} {iv ck : Bytes} {wk : StoredKey} {k : Option StoredKey} (hl : ck.length + 16 < 2 ^ 64)
    (hiv : iv.length = 16) (h : unwrapAesCbc e.ks e.u t pad iv ck wk = some (.OK, k)) :
    ∃ d, k = some d ∧ Created e.ks d ∧ UnwrapClear e.ks.prims e.u.prims wk (.cbc pad (some (some iv))) ck d.key ∧
      d.header.rights = restrictChildRights t.rights (some wk.header.rights) ∧ d.header.type.toNat = t.keyType ∧
      ImportShape e.u.prims t.keyType t.curve d.key d := by
  have hb : (UnwrapParams.cbc pad (some (some iv))).HasBlock ck := by
    cases pad with
    | false => trivial
    | true =>
      intro hc
      subst hc
      unfold unwrapAesCbc at h
      split at h
      · simp at h
      split at h
      · simp at h
      split at h
      · simp at h
      simp [unwrapPadded, cbcDec] at h
  rcases cbcBody e.ks hg.prims e.u t pad iv ck wk hiv hl hb with ⟨s, hs, he⟩ | ⟨d, he, h2⟩
  · rw [h] at he; simp only [Option.some.injEq, Prod.mk.injEq] at he; exact absurd he.1.symm hs
  · rw [h] at he; simp only [Option.some.injEq, Prod.mk.injEq, true_and] at he; exact ⟨d, he, h2⟩

/-- The key a successful run makes. -/
structure TjMade (e : TjEnv) (fields : List (Bytes × Js.Json)) (rights : Rights) (wk d : StoredKey) : Prop where
  created : Created e.ks d
  clear : ∃ params ck, TjWrapped e.kc fields params ck ∧ UnwrapClear e.ks.prims e.u.prims wk params ck d.key
  length : tjVersion fields ≠ 1 → ∃ k v, Js.find (ascii "contentKeyLength") fields = some (k, v) ∧ (d.key.length : Int) = Js.asInteger v % 2 ^ 64
  rights : d.header.rights = restrictChildRights rights (some wk.header.rights)
  type : d.header.type.toNat = KEY_TYPE_SYMMETRIC
  shape : ImportShape e.u.prims KEY_TYPE_SYMMETRIC none d.key d

theorem tjUnwrapWith_ok {e : TjEnv} (hg : e.Good) {fields : List (Bytes × Js.Json)} {rights : Rights} {wk : StoredKey} {ck : Bytes}
    {alg : Option (Bool × Bool)} {k : Option StoredKey} (hl : ck.length + 16 < 2 ^ 64) (h : (tjUnwrapWith e fields rights wk ck alg).res = .ok k) :
    ∃ b pad params d, alg = some (b, pad) ∧ k = some d ∧ Created e.ks d ∧ UnwrapClear e.ks.prims e.u.prims wk params ck d.key ∧
      d.header.rights = restrictChildRights rights (some wk.header.rights) ∧ d.header.type.toNat = KEY_TYPE_SYMMETRIC ∧
      ImportShape e.u.prims KEY_TYPE_SYMMETRIC none d.key d ∧
      (b = false → params = .ecb pad) ∧ (b = true → ∃ k s iv, params = .cbc pad (some (some iv)) ∧
        Js.find (ascii "contentKeyTransportIv") fields = some (k, .str s) ∧ e.kc.bio (b64Data e.kc s false) = some iv ∧ iv.length = 16) := by
  unfold tjUnwrapWith at h
  split at h
  · exact nomatch h
  · rename_i pad
    obtain ⟨d, hd, c, cl, r, ty, sh⟩ := ecb_ok hg hl (ofUnwrap_ok h)
    exact ⟨false, pad, _, d, rfl, hd, c, cl, r, ty, sh, fun _ => rfl, fun h => nomatch h⟩
  · rename_i pad
    obtain ⟨iv, hiv, h, _⟩ := bind_res h
    obtain ⟨ki, si, hf, hb, hlen⟩ := tjIv_ok hiv
    simp only at h
    split at h
    · obtain ⟨d, hd, c, cl, r, ty, sh⟩ := cbc_ok hg hl hlen (ofUnwrap_ok h)
      exact ⟨true, pad, _, d, rfl, hd, c, cl, r, ty, sh, (fun h => nomatch h), fun _ => ⟨ki, si, iv, rfl, hf, hb, hlen⟩⟩
    · exact nomatch h

theorem tjUnwrapKey_ok {e : TjEnv} (hg : e.Good) {fields : List (Bytes × Js.Json)} {rights : Rights} {wk : StoredKey} {k : Option StoredKey}
    (h : (tjUnwrapKey e fields rights wk).res = .ok k) : ∃ d, k = some d ∧ TjMade e fields rights wk d := by
  have v2 : (tjVersion fields = 2 ∨ tjVersion fields = 3) → (tjUnwrapV2 e fields rights wk).res = .ok k → ∃ d, k = some d ∧ TjMade e fields rights wk d := by
    intro hv h
    unfold tjUnwrapV2 tjClose P.after at h
    simp only at h
    obtain ⟨va, hva, h, _⟩ := bind_res h
    obtain ⟨ka, hka⟩ := need_ok hva
    obtain ⟨ck, hck, h, _⟩ := bind_res h
    obtain ⟨kc, sc, hkc, hbc⟩ := tjContentKey_ok hck
    obtain ⟨vl, hvl, h, _⟩ := bind_res h
    obtain ⟨kl, hkl⟩ := need_ok hvl
    obtain ⟨k', hk', h, _⟩ := bind_res h
    obtain ⟨b, pad, params, d, ha, hkd, c, cl, r, ty, sh, f0, f1⟩ := tjUnwrapWith_ok hg (hg.size _ _ hbc) hk'
    subst hkd
    split at h
    · exact nomatch h
    rename_i hlen
    cases h
    have ha := tjAlgorithm_ok ha
    have hva' : va = .str (ascii (if b then (if pad then "aesCbcPkcs5" else "aesCbcNone") else (if pad then "aesEcbPkcs5" else "aesEcbNone"))) := by
      cases va <;> simp [Js.asString] at ha
      rw [ha]
    refine ⟨d, rfl, c, ⟨params, ck, ?_, cl⟩, fun _ => ⟨kl, vl, hkl, ?_⟩, r, ty, sh⟩
    · cases b with
      | false => rw [f0 rfl]; exact .ecb hv hkc hbc (by rw [hka, hva']; rfl) rfl
      | true =>
        obtain ⟨ki, si, iv, rfl, hf, hb, hl⟩ := f1 rfl
        exact .cbc hv hkc hbc (by rw [hka, hva']; rfl) rfl hf hb hl
    · have := Classical.byContradiction hlen
      simp only [Option.map_some, Option.getD_some] at this
      rw [this, Int.toNat_of_nonneg (Int.emod_nonneg _ (by decide))]
  unfold tjUnwrapKey at h
  split at h
  · rename_i hv
    unfold tjUnwrapV1 tjClose P.after at h
    simp only at h
    obtain ⟨ck, hck, h, _⟩ := bind_res h
    obtain ⟨kc, sc, hkc, hbc⟩ := tjContentKey_ok hck
    split at h
    · exact nomatch h
    obtain ⟨d, hd, c, cl, r, ty, sh⟩ := ecb_ok hg (hg.size _ _ hbc) (ofUnwrap_ok h)
    exact ⟨d, hd, c, ⟨_, _, .v1 hv hkc hbc, cl⟩, fun hn => absurd hv hn, r, ty, sh⟩
  split at h
  · rename_i hv; exact v2 (Or.inl hv) h
  split at h
  · rename_i hv; exact v2 (Or.inr hv) h
  · exact nomatch h

end Sa.Kc

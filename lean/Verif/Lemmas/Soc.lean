import Verif.Lemmas.Kc

/-! Successful runs of the SoC container parser. -/

namespace Sa.Kc

theorem socUnpackPart_ok {env : Env} {b : Blk} {s r : Bytes} (h : (socUnpackPart env b s).res = .ok r) : env.bio (b64Data env s true) = some r := by
  unfold socUnpackPart b64Decode at h
  simp only at h
  cases hb : env.bio (b64Data env s true) with
  | none => rw [hb] at h; exact nomatch h
  | some r' => rw [hb] at h; cases h; rfl

theorem socUnpack_ok {env : Env} {s : Bytes} {u : Unpacked} (h : (socUnpack env s).res = .ok u) :
    ∃ hd p m, splitDots s = some (hd, p, m) ∧ env.bio (b64Data env hd true) = some u.header ∧ env.bio (b64Data env p true) = some u.payload ∧
      env.bio (b64Data env m true) = some u.mac := by
  unfold socUnpack at h
  simp only at h
  split at h
  · rename_i u' hu
    cases h
    unfold socUnpackBody at hu
    split at hu
    · exact nomatch hu
    · rename_i hd p m hs
      obtain ⟨a, ha, hu, _⟩ := bind_res hu
      obtain ⟨b, hb, hu, _⟩ := bind_res hu
      obtain ⟨c, hc, hu, _⟩ := bind_res hu
      cases hu
      exact ⟨hd, p, m, hs, socUnpackPart_ok ha, socUnpackPart_ok hb, socUnpackPart_ok hc⟩
  · exact nomatch h

theorem socJson_ok {env : Env} {a b : Blk} {t : Bytes} {l : List (Bytes × Js.Json)} (h : (socJson env a b t).res = .ok l) :
    parseJson env t = some (.obj l) := by
  unfold socJson at h
  split at h
  · exact nomatch h
  · rename_i v hv
    split at h
    · exact nomatch h
    · rename_i l' hl
      cases h
      cases v with
      | obj l'' => simp only [Js.asMap, Option.some.injEq] at hl; rw [hv, hl]
      | _ => exact nomatch hl

/-- What a successful run went through. -/
structure SocRun (e : SocEnv) (s : Bytes) (params : Option SocParams) (r : Option StoredKey) where
  (h p m hdr pl tag : Bytes)
  (hf pf : List (Bytes × Js.Json))
  (alg : Bytes)
  (pay : Payload)
  split : splitDots s = some (h, p, m)
  bh : e.kc.bio (b64Data e.kc h true) = some hdr
  bp : e.kc.bio (b64Data e.kc p true) = some pl
  bm : e.kc.bio (b64Data e.kc m true) = some tag
  jh : parseJson e.kc hdr = some (.obj hf)
  jp : parseJson e.kc pl = some (.obj pf)
  head : (socParseHeader hf).res = .ok alg
  payload : (socParsePayload e.kc pf).res = .ok pay
  dec : (socDecryptKeyAndVerifyMac e alg pay tag params).res = .ok r

theorem socUnwrap_ok {e : SocEnv} {s : Bytes} {params : Option SocParams} {r : Option StoredKey} (h : (socUnwrap e s params).res = .ok r) :
    Nonempty (SocRun e s params r) := by
  unfold socUnwrap at h
  simp only at h
  split at h
  · exact nomatch h
  · rename_i u hu
    obtain ⟨hd, p, m, h1, h2, h3, h4⟩ := socUnpack_ok hu
    simp only at h
    unfold socUnwrapBody at h
    obtain ⟨hf, a1, h, _⟩ := bind_res h
    obtain ⟨alg, a2, h, _⟩ := bind_res h
    obtain ⟨pf, a3, h, _⟩ := bind_res h
    obtain ⟨pay, a4, h, _⟩ := bind_res h
    exact ⟨⟨hd, p, m, u.header, u.payload, u.mac, hf, pf, alg, pay, h1, h2, h3, h4, socJson_ok a1, socJson_ok a3, a2, a4, h⟩⟩

/-- What a successfully parsed payload says. -/
structure PayloadOf (env : Env) (fields : List (Bytes × Js.Json)) (pay : Payload) : Prop where
  version : ∃ k v, Js.find (ascii "containerVersion") fields = some (k, v) ∧ pay.version = toU8 (Js.asInteger v)
  root : (socRoot env pay.version fields).res = .ok pay.root
  keyType : ∃ k, Js.find (ascii "keyType") fields = some (k, .str pay.keyType)
  encKey : ∃ k v, Js.find (ascii "encryptedKey") fields = some (k, v) ∧ (socEncryptedKey env v).res = .ok pay.encKey
  iv : ∃ k v r, Js.find (ascii "iv") fields = some (k, v) ∧ (socFixed env .iv 12 false v).res = .ok r ∧ pay.iv = (r ++ List.replicate 12 0).take 12
  usage : ∃ k v, Js.find (ascii "keyUsage") fields = some (k, v) ∧ pay.usage = toU8 (Js.asInteger v)
  decUsage : pay.decUsage = if pay.usage = 2 then (match Js.find (ascii "decryptedKeyUsage") fields with | none => 0 | some e => toU8 (Js.asInteger e.2)) else 0
  taIds : (socEntitledTaIds env fields).res = .ok pay.taIds
  c1 : ∃ k v r, Js.find (ascii "c1") fields = some (k, v) ∧ (socFixed env .c1 16 false v).res = .ok r ∧ pay.c1 = r.take 16
  c2 : ∃ k v r, Js.find (ascii "c2") fields = some (k, v) ∧ (socFixed env .c2 16 true v).res = .ok r ∧ pay.c2 = r.take 16
  c3 : ∃ k v r, Js.find (ascii "c3") fields = some (k, v) ∧ (socFixed env .c3 16 false v).res = .ok r ∧ pay.c3 = r.take 16

theorem socParsePayload_ok {env : Env} {fields : List (Bytes × Js.Json)} {pay : Payload} (h : (socParsePayload env fields).res = .ok pay) :
    PayloadOf env fields pay := by
  unfold socParsePayload at h
  obtain ⟨v1, a1, h, _⟩ := bind_res h
  obtain ⟨root, a2, h, _⟩ := bind_res h
  obtain ⟨v2, a3, h, _⟩ := bind_res h
  obtain ⟨kt, a4, h, _⟩ := bind_res h
  obtain ⟨v3, a5, h, _⟩ := bind_res h
  obtain ⟨ek, a6, h, _⟩ := bind_res h
  obtain ⟨v4, a7, h, _⟩ := bind_res h
  obtain ⟨iv, a8, h, _⟩ := bind_res h
  obtain ⟨v5, a9, h, _⟩ := bind_res h
  obtain ⟨ta, a10, h, _⟩ := bind_res h
  obtain ⟨v6, a11, h, _⟩ := bind_res h
  obtain ⟨c1, a12, h, _⟩ := bind_res h
  obtain ⟨v7, a13, h, _⟩ := bind_res h
  obtain ⟨c2, a14, h, _⟩ := bind_res h
  obtain ⟨v8, a15, h, _⟩ := bind_res h
  obtain ⟨c3, a16, h, _⟩ := bind_res h
  cases h
  obtain ⟨k1, b1⟩ := need_ok a1
  obtain ⟨k2, b2⟩ := need_ok a3
  obtain ⟨k3, b3⟩ := need_ok a5
  obtain ⟨k4, b4⟩ := need_ok a7
  obtain ⟨k5, b5⟩ := need_ok a9
  obtain ⟨k6, b6⟩ := need_ok a11
  obtain ⟨k7, b7⟩ := need_ok a13
  obtain ⟨k8, b8⟩ := need_ok a15
  refine ⟨⟨k1, v1, b1, rfl⟩, a2, ⟨k2, ?_⟩, ⟨k3, v3, b3, a6⟩, ⟨k4, v4, iv, b4, a8, rfl⟩, ⟨k5, v5, b5, rfl⟩, rfl, a10, ⟨k6, v6, c1, b6, a12, rfl⟩,
    ⟨k7, v7, c2, b7, a14, rfl⟩, ⟨k8, v8, c3, b8, a16, rfl⟩⟩
  cases v2 with
  | str s => cases a4; exact b2
  | _ => exact nomatch a4

/-- A stored key has the type and the size asked for. -/
theorem storedKeyCreate_ok {allocOk : Bool} {rights : Rights} {parent : Option Rights} {kt : Nat} {tp : Vector UInt8 1040} {size : Nat} {input : Bytes} {sk : StoredKey}
    (h : storedKeyCreate allocOk rights parent kt tp size input = (.OK, some sk)) :
    sk.header.type = UInt8.ofNat kt ∧ sk.header.size = UInt16.ofNat size ∧ sk.header.typeParameters = tp ∧ sk.key = input ∧
      sk.header.rights = restrictChildRights rights parent := by
  unfold storedKeyCreate at h
  split at h
  · exact nomatch h
  · split at h
    · exact nomatch h
    · split at h
      · exact nomatch h
      · cases h; exact ⟨rfl, rfl, rfl, rfl, rfl⟩

theorem socStore_ok {e : SocEnv} {info : KeyInfo} {rights : Rights} {key : Bytes} {sk : StoredKey} (h : socStore e info rights key = (.OK, some sk)) :
    sk.header.type = UInt8.ofNat info.keyType ∧ sk.header.size = UInt16.ofNat info.size ∧ sk.key = key ∧ sk.header.rights = rights ∧
      (info.keyType = KEY_TYPE_EC → sk.header.typeParameters = tpOfCurve (info.curve.getD (2 ^ 32 - 1))) ∧
      (info.keyType ≠ KEY_TYPE_RSA → info.keyType ≠ KEY_TYPE_EC → key.length = info.size) := by
  unfold socStore at h
  split at h
  · rename_i hk
    split at h
    · exact nomatch h
    · split at h
      · exact nomatch h
      · obtain ⟨a, b, c, d, f⟩ := storedKeyCreate_ok h
        exact ⟨a, b, d, f, fun h => by rw [hk] at h; exact absurd h (by decide), fun h => absurd hk h⟩
  · split at h
    · rename_i hk
      simp only at h
      generalize (if e.prims.ecValid (info.curve.getD (2 ^ 32 - 1)) key = true then ecKeySizeFromCurve (info.curve.getD (2 ^ 32 - 1)) else 0) = n at h
      split at h
      · exact nomatch h
      · split at h
        · exact nomatch h
        · obtain ⟨a, b, c, d, f⟩ := storedKeyCreate_ok h
          exact ⟨a, b, d, f, fun _ => c, fun _ h => absurd hk h⟩
    · rename_i hk
      split at h
      · exact nomatch h
      · rename_i hl
        obtain ⟨a, b, c, d, f⟩ := storedKeyCreate_ok h
        exact ⟨a, b, d, f, fun h => absurd h hk, fun _ _ => Classical.byContradiction hl⟩

/-- What a successful decryption went through. -/
theorem socDecrypt_ok {e : SocEnv} {p : Payload} {tag aad : Bytes} {info : KeyInfo} {c1 c2 c3 : Bytes} {params : Option SocParams} {sk : StoredKey}
    (h : (socDecrypt e p tag aad info c1 c2 c3 params).res = .ok (some sk)) :
    ∃ key rights, otpUnwrapAesGcm e p.root.orUnique c1 c2 c3 p.encKey p.iv aad tag = .ok key ∧
      socFieldsToRights info.keyType info.subtype p params = .ok rights ∧ socStore e info rights key = (.OK, some sk) := by
  unfold socDecrypt at h
  simp only at h
  cases h1 : otpUnwrapAesGcm e p.root.orUnique c1 c2 c3 p.encKey p.iv aad tag with
  | error s => rw [h1] at h; cases s <;> simp_all
  | ok key =>
    rw [h1] at h
    simp only at h
    cases h2 : socFieldsToRights info.keyType info.subtype p params with
    | error s => rw [h2] at h; cases s <;> simp_all
    | ok rights =>
      rw [h2] at h
      simp only at h
      refine ⟨key, rights, rfl, rfl, ?_⟩
      generalize socStore e info rights key = r at h ⊢
      obtain ⟨s, k⟩ := r
      cases s <;> simp_all

theorem socDecryptVerify_ok {e : SocEnv} {alg : Bytes} {p : Payload} {tag : Bytes} {params : Option SocParams} {r : Option StoredKey}
    (h : (socDecryptKeyAndVerifyMac e alg p tag params).res = .ok r) :
    ∃ aad info, (socBuildAad e.kc alg p).res = .ok aad ∧ (socKeyTypeAndSize e.kc p.keyType).res = .ok info ∧
      (socDecrypt e p tag aad info (p.c1 ++ e.kc.junk (16 - p.c1.length)) (p.c2 ++ e.kc.junk (16 - p.c2.length)) (p.c3 ++ e.kc.junk (16 - p.c3.length))
        params).res = .ok r := by
  unfold socDecryptKeyAndVerifyMac at h
  obtain ⟨aad, a1, h, _⟩ := bind_res h
  obtain ⟨info, a2, h, _⟩ := bind_res h
  exact ⟨aad, info, a1, a2, h⟩

end Sa.Kc

import Verif.Lemmas.SocSample

/-!
# C43: writes into the fixed-size fields of SoC container parsing

The intended property is false: neither the length of the initialisation vector nor that of the ladder inputs nor the number of TA identifiers is checked before they are
written, and the key type string is copied into the buffer for the authenticated data without looking at its length (`C43_violated…`; all of this
happens before the container is authenticated).  `C43_partial`: containers whose fields fit never make the parser write outside.
-/

namespace Sa.Kc.C43

/-- Sizes of the objects: `uint8_t iv[GCM_IV_LENGTH]`, `uint8_t c1[SYM_128_KEY_SIZE]`, …, 32 TA identifiers of 36 characters, `uint8_t aad[1300]`, `char id[64]`. -/
def capacity : Fld → Nat
  | .iv => 12
  | .c1 | .c2 | .c3 => 16
  | .taIds => 32 * 36
  | .aad => 1300
  | .rightsId => 64

/-- The event does not write outside the object. -/
def Inside (e : Ev) : Prop := ∀ f off n, e = .write f off n → off + n ≤ capacity f

instance (e : Ev) : Decidable (Inside e) :=
  match e with
  | .write f off n => decidable_of_iff (off + n ≤ capacity f) ⟨fun h _ _ _ he => by cases he; exact h, fun h => h _ _ _ rfl⟩
  | .alloc _ _ => isTrue fun _ _ _ h => nomatch h
  | .free _ => isTrue fun _ _ _ h => nomatch h
  | .fill _ _ => isTrue fun _ _ _ h => nomatch h
  | .readLit _ _ => isTrue fun _ _ _ h => nomatch h
  | .null => isTrue fun _ _ _ h => nomatch h
  | .uninit => isTrue fun _ _ _ h => nomatch h
  | .outside => isTrue fun _ _ _ h => nomatch h

/-- A string field that decodes to at most `size` bytes. -/
def DecodesTo (env : Env) (fields : List (Bytes × Js.Json)) (name : String) (url : Bool) (size : Nat) : Prop :=
  ∀ k s r, Js.find (ascii name) fields = some (k, .str s) → env.bio (b64Data env s url) = some r → r.length ≤ size

/-- A payload whose fields fit. -/
structure Modest (env : Env) (fields : List (Bytes × Js.Json)) : Prop where
  iv : DecodesTo env fields "iv" false 12
  c1 : DecodesTo env fields "c1" false 16
  c2 : DecodesTo env fields "c2" true 16
  c3 : DecodesTo env fields "c3" false 16
  ids : ∀ k l, Js.find (ascii "entitledTaIds") fields = some (k, .arr l) → l.length ≤ 32
  keyType : ∀ k s, Js.find (ascii "keyType") fields = some (k, .str s) → s.length ≤ 72

theorem inside_alloc (b n) : Inside (.alloc b n) := fun _ _ _ h => nomatch h
theorem inside_free (b) : Inside (.free b) := fun _ _ _ h => nomatch h
theorem inside_fill (b n) : Inside (.fill b n) := fun _ _ _ h => nomatch h
theorem inside_uninit : Inside .uninit := fun _ _ _ h => nomatch h
theorem inside_null : Inside .null := fun _ _ _ h => nomatch h
theorem inside_readLit (a b) : Inside (.readLit a b) := fun _ _ _ h => nomatch h

theorem one (e : Ev) (h : Inside e) : All Inside [e] := by rw [all_cons]; exact ⟨h, all_nil _⟩

theorem b64_inside (env : Env) (dst : Nat → Ev) (s : Option Bytes) (url : Bool)
    (h : ∀ t r, s = some t → env.bio (b64Data env t url) = some r → Inside (dst r.length)) : All Inside (b64Decode env dst s url).1 := by
  unfold b64Decode
  split
  · exact all_nil _
  · rename_i t
    simp only
    have hu : All Inside (if url = false ∧ t.length % 4 ≠ 0 then [Ev.uninit] else []) := by
      split
      · exact one _ inside_uninit
      · exact all_nil _
    split
    · exact hu
    · rename_i r hr
      rw [all_append]
      exact ⟨hu, one _ (h t r rfl hr)⟩

theorem cmp_inside (env : Env) (s : Bytes) (l : String) : All Inside (cmpLit env s l).evs := one _ (inside_readLit _ _)

theorem emit_inside (es : List Ev) (h : All Inside es) (k : Unit → P β) (hk : All Inside (k ()).evs) : All Inside (P.emit es >>= k).evs :=
  all_bind h fun _ _ => hk

theorem stringLength_inside (env : Env) (s : Option Bytes) : All Inside (stringLength env s).evs := by
  cases s
  · exact one _ inside_uninit
  · exact all_nil _

theorem stringOf_inside (v : Js.Json) : All Inside (stringOf v).evs := by unfold stringOf; split <;> exact all_nil _

theorem fixed_inside (env : Env) (f : Fld) (size : Nat) (url : Bool) (v : Js.Json) (hf : size ≤ capacity f)
    (h : ∀ s r, v = .str s → env.bio (b64Data env s url) = some r → r.length ≤ size) : All Inside (socFixed env f size url v).evs := by
  unfold socFixed
  refine all_bind (stringLength_inside _ _) fun len _ => ?_
  refine emit_inside _ (b64_inside _ _ _ _ fun t r ht hr => ?_) _ ?_
  · intro f' off n he
    cases he
    rw [Nat.zero_add]
    refine Nat.le_trans (h t r ?_ hr) hf
    cases v with
    | str s => cases ht; rfl
    | _ => exact nomatch ht
  · split
    · split
      · exact all_fail _ _
      · exact all_pure _ _
    · exact all_pure _ _

theorem encKey_inside (env : Env) (v : Js.Json) : All Inside (socEncryptedKey env v).evs := by
  unfold socEncryptedKey
  refine all_bind (stringLength_inside _ _) fun len _ => ?_
  refine emit_inside _ (one _ (inside_alloc _ _)) _ (emit_inside _ (b64_inside _ _ _ _ fun _ _ _ _ => inside_fill _ _) _ ?_)
  split
  · exact emit_inside _ (one _ (inside_free _)) _ (all_fail _ _)
  · exact all_pure _ _

theorem root_inside (env : Env) (v : UInt8) (fields : List (Bytes × Js.Json)) : All Inside (socRoot env v fields).evs := by
  unfold socRoot
  split
  · unfold socRootKeyType
    split
    · exact all_nil _
    · split
      · refine emit_inside _ (one _ inside_uninit) _ ?_
        split
        · exact all_pure _ _
        · exact emit_inside _ (one _ inside_null) _ (all_fail _ _)
      · refine all_bind (cmp_inside _ _ _) fun b _ => ?_
        split
        · exact all_pure _ _
        · refine all_bind (cmp_inside _ _ _) fun b _ => ?_
          split
          · exact all_pure _ _
          · exact all_fail _ _
  · exact all_nil _

theorem taIds_inside (env : Env) : (l : List Js.Json) → (i : Nat) → i + l.length ≤ 32 → All Inside (socTaIds env i l).evs
  | [], _, _ => all_nil _
  | v :: l, i, hi => by
    unfold socTaIds
    split
    · refine emit_inside _ (one _ inside_uninit) _ ?_
      split
      · exact emit_inside _ (one _ (inside_free _)) _ (all_fail _ _)
      · exact emit_inside _ (one _ inside_null) _ (all_fail _ _)
    · split
      · exact emit_inside _ (one _ (inside_free _)) _ (all_fail _ _)
      · rename_i hs
        rw [List.length_cons] at hi
        refine emit_inside _ (one _ fun f off n he => ?_) _ (all_bind (taIds_inside env l (i + 1) (by omega)) fun _ _ => all_pure _ _)
        cases he
        have : (UUID_LENGTH : Nat) = 36 := rfl
        simp only [capacity]
        have hs : _ = UUID_LENGTH := Classical.byContradiction hs
        rw [hs, this]; omega

theorem entitled_inside (env : Env) (fields : List (Bytes × Js.Json))
    (h : ∀ k l, Js.find (ascii "entitledTaIds") fields = some (k, .arr l) → l.length ≤ 32) : All Inside (socEntitledTaIds env fields).evs := by
  unfold socEntitledTaIds
  split
  · exact all_nil _
  · rename_i k v hf
    split
    · exact all_nil _
    · rename_i l hl
      have hv : v = .arr l := by
        cases v with
        | arr l' => cases hl; rfl
        | _ => exact nomatch hl
      rw [hv] at hf
      refine emit_inside _ (one _ (inside_alloc _ _)) _ (all_bind (taIds_inside env l 0 (by have := h k l hf; omega)) fun _ _ => ?_)
      exact emit_inside _ (one _ (inside_free _)) _ (all_pure _ _)

theorem payload_inside (env : Env) (fields : List (Bytes × Js.Json)) (h : Modest env fields) : All Inside (socParsePayload env fields).evs := by
  have hfix : ∀ (name : String) (f : Fld) (url : Bool) (size : Nat) (v : Js.Json), size ≤ capacity f → DecodesTo env fields name url size →
      (need name fields).res = .ok v → All Inside (socFixed env f size url v).evs := by
    intro name f url size v hc hd hn
    obtain ⟨k, hk⟩ := need_ok hn
    exact fixed_inside env f size url v hc fun s r hv hr => hd k s r (by rw [hk, hv]) hr
  unfold socParsePayload
  refine all_bind (all_need _ _ _) fun v1 _ => all_bind (root_inside _ _ _) fun root _ => all_bind (all_need _ _ _) fun v2 _ => all_bind (stringOf_inside _) fun kt _ => ?_
  refine all_bind (all_need _ _ _) fun v3 _ => all_bind (encKey_inside _ _) fun ek _ => all_bind (all_need _ _ _) fun v4 h4 => ?_
  refine all_bind (hfix _ _ _ _ _ (by decide) h.iv h4) fun iv _ => all_bind (all_need _ _ _) fun v5 _ => ?_
  refine all_bind (entitled_inside _ _ h.ids) fun ta _ => all_bind (all_need _ _ _) fun v6 h6 => all_bind (hfix _ _ _ _ _ (by decide) h.c1 h6) fun c1 _ => ?_
  refine all_bind (all_need _ _ _) fun v7 h7 => all_bind (hfix _ _ _ _ _ (by decide) h.c2 h7) fun c2 _ => ?_
  exact all_bind (all_need _ _ _) fun v8 h8 => all_bind (hfix _ _ _ _ _ (by decide) h.c3 h8) fun c3 _ => all_pure _ _

theorem put_inside (aad src : Bytes) (k : Bytes → P β) (h : aad.length + src.length ≤ 1300) (hk : All Inside (k (aad ++ src)).evs) :
    All Inside (aadPut aad src >>= k).evs := by
  refine all_bind (one _ fun f off n he => ?_) fun a ha => ?_
  · cases he; exact h
  · cases ha; exact hk

theorem aadTaIds_inside : (l : List Bytes) → (aad : Bytes) → (∀ s ∈ l, s.length = 36) → aad.length + 36 * l.length ≤ 1300 → All Inside (aadTaIds aad l).evs
  | [], _, _, _ => all_nil _
  | s :: l, aad, hs, h => by
    have h1 := hs s (.head _)
    rw [List.length_cons] at h
    refine put_inside _ _ _ (by rw [List.length_map]; omega) (aadTaIds_inside l _ (fun t ht => hs t (.tail _ ht)) ?_)
    rw [List.length_append, List.length_map]; omega

theorem hmac_inside (env : Env) (s : Bytes) : All Inside (isHmacName env s).evs := by
  unfold isHmacName
  refine all_bind (cmp_inside _ _ _) fun b _ => ?_
  split
  · exact all_pure _ _
  · refine all_bind (cmp_inside _ _ _) fun b _ => ?_
    split
    · exact all_pure _ _
    · exact cmp_inside _ _ _

/-- Authenticated data of at most 7 + 1 + 6 + 72 + 1 + 1 + 12 + 48 + 32 · 36 = 1300 bytes. -/
theorem aad_inside (env : Env) (he : env.Good) (alg : Bytes) (p : Payload) (hk : p.keyType.length ≤ 72) (hiv : p.iv.length = 12) (h1 : p.c1.length ≤ 16)
    (h2 : p.c2.length ≤ 16) (h3 : p.c3.length ≤ 16) (hid : ∀ s ∈ p.taIds, s.length = 36) : All Inside (socBuildAad env alg p).evs := by
  unfold socBuildAad
  refine all_bind ?_ fun b hb => ?_
  · unfold isA128Gcm; split
    · exact all_nil _
    · exact cmp_inside _ _ _
  split
  · exact all_fail _ _
  rename_i hbt
  have halg : alg.length = 7 := by
    apply Classical.byContradiction
    intro hn
    rw [isA128Gcm, if_pos hn] at hb
    cases hb
    exact hbt rfl
  refine put_inside _ _ _ (by simp only [List.length_nil]; omega) ?_
  split
  · exact all_fail _ _
  refine put_inside _ _ _ (by simp [halg]) ?_
  refine all_bind (m := aadRoot (([] ++ alg) ++ [p.version]) p) ?_ fun a ha => ?_
  · unfold aadRoot
    split
    · have hx : ∀ s : String, (ascii s).length = 6 → All Inside (aadPut (([] ++ alg) ++ [p.version]) (ascii s)).evs := by
        intro s hs
        refine one _ fun f off n he => ?_
        cases he
        simp only [List.length_append, List.length_nil, List.length_singleton, hs, halg]
        decide
      split
      · exact hx _ rfl
      · exact hx _ rfl
      · exact all_nil _
    · exact all_nil _
  have hal : a.length ≤ 14 := by
    unfold aadRoot at ha
    have h6 : (ascii "unique").length = 6 ∧ (ascii "common").length = 6 := ⟨rfl, rfl⟩
    split at ha
    · split at ha
      · cases ha; simp only [List.length_append, List.length_nil, List.length_singleton, h6.1, halg]; omega
      · cases ha; simp only [List.length_append, List.length_nil, List.length_singleton, h6.2, halg]; omega
      · cases ha; simp only [List.length_append, List.length_nil, List.length_singleton, halg]; omega
    · cases ha; simp only [List.length_append, List.length_nil, List.length_singleton, halg]; omega
  split
  · exact all_fail _ _
  refine put_inside _ _ _ (by omega) ?_
  split
  · exact all_fail _ _
  refine all_bind ?_ fun hm _ => ?_
  · unfold isKeyOnlyHmac; split
    · exact hmac_inside _ _
    · exact all_nil _
  split
  · exact all_fail _ _
  refine put_inside _ _ _ (by simp only [List.length_append, List.length_singleton]; omega) ?_
  refine all_bind ?_ fun a2 ha2 => ?_
  · unfold aadDecUsage
    split
    · split
      · exact all_fail _ _
      · refine one _ fun f off n he => ?_
        cases he
        simp only [List.length_append, List.length_singleton, capacity]; omega
    · exact all_nil _
  have hal2 : a2.length ≤ 88 := by
    unfold aadDecUsage at ha2
    split at ha2
    · split at ha2
      · exact nomatch ha2
      · cases ha2; simp only [List.length_append, List.length_singleton]; omega
    · cases ha2; simp only [List.length_append, List.length_singleton]; omega
  clear ha2 ha
  refine put_inside _ _ _ (by omega) ?_
  have hl : ∀ (c : Bytes), c.length ≤ 16 → All Inside (ladderInput env c).evs ∧ ∀ x, (ladderInput env c).res = .ok x → x.length = 16 := by
    intro c hc
    refine ⟨?_, fun x hx => ?_⟩
    · unfold ladderInput
      simp only
      split
      · exact one _ inside_uninit
      · exact all_nil _
    · cases hx
      rw [List.length_append, he.junk]; omega
  refine all_bind (hl _ h1).1 fun x1 hx1 => ?_
  have e1 := (hl _ h1).2 _ hx1
  refine put_inside _ _ _ (by simp only [List.length_append]; omega) ?_
  refine all_bind (hl _ h2).1 fun x2 hx2 => ?_
  have e2 := (hl _ h2).2 _ hx2
  refine put_inside _ _ _ (by simp only [List.length_append]; omega) ?_
  refine all_bind (hl _ h3).1 fun x3 hx3 => ?_
  have e3 := (hl _ h3).2 _ hx3
  refine put_inside _ _ _ (by simp only [List.length_append]; omega) ?_
  split
  · exact all_fail _ _
  · exact aadTaIds_inside _ _ hid (by simp only [List.length_append]; omega)

theorem taIds_ok (env : Env) : (l : List Js.Json) → (i : Nat) → (r : List Bytes) → (socTaIds env i l).res = .ok r → ∀ s ∈ r, s.length = 36
  | [], _, r, h => by cases h; intro s hs; exact nomatch hs
  | v :: l, i, r, h => by
    unfold socTaIds at h
    split at h
    · obtain ⟨_, _, h, _⟩ := bind_res h
      split at h
      · obtain ⟨_, _, h, _⟩ := bind_res h; exact nomatch h
      · obtain ⟨_, _, h, _⟩ := bind_res h; exact nomatch h
    · rename_i s _
      split at h
      · obtain ⟨_, _, h, _⟩ := bind_res h; exact nomatch h
      · rename_i hs
        obtain ⟨_, _, h, _⟩ := bind_res h
        obtain ⟨r', hr, h, _⟩ := bind_res h
        cases h
        intro t ht
        cases ht with
        | head => exact Classical.byContradiction hs
        | tail _ ht => exact taIds_ok env l _ r' hr t ht

theorem entitled_ok (env : Env) (fields : List (Bytes × Js.Json)) (r : List Bytes) (h : (socEntitledTaIds env fields).res = .ok r) : ∀ s ∈ r, s.length = 36 := by
  unfold socEntitledTaIds at h
  split at h
  · cases h; intro s hs; exact nomatch hs
  · split at h
    · cases h; intro s hs; exact nomatch hs
    · obtain ⟨_, _, h, _⟩ := bind_res h
      obtain ⟨ids, h1, h, _⟩ := bind_res h
      obtain ⟨_, _, h, _⟩ := bind_res h
      cases h
      exact taIds_ok env _ _ _ h1

theorem keyType_inside (env : Env) (s : Bytes) : (l : List (String × KeyInfo)) → All Inside (socKeyTypeFrom env s l).evs
  | [] => all_nil _
  | (n, i) :: l => by
    unfold socKeyTypeFrom
    refine all_bind (cmp_inside _ _ _) fun b _ => ?_
    split
    · exact all_pure _ _
    · exact keyType_inside env s l

theorem unpackPart_inside (env : Env) (b : Blk) (s : Bytes) : All Inside (socUnpackPart env b s).evs := by
  unfold socUnpackPart
  simp only [all_cons]
  exact ⟨inside_alloc _ _, b64_inside _ _ _ _ fun _ _ _ _ => inside_fill _ _⟩

theorem frees_inside (bs : List Blk) : All Inside (bs.map Ev.free) := by
  intro e he
  rw [List.mem_map] at he
  obtain ⟨b, _, rfl⟩ := he
  exact inside_free b

theorem unpack_inside (env : Env) (s : Bytes) : All Inside (socUnpack env s).evs := by
  have hb : All Inside (.alloc .unpacked 112 :: (socUnpackBody env s).evs) := by
    rw [all_cons]
    refine ⟨inside_alloc _ _, ?_⟩
    unfold socUnpackBody
    split
    · exact all_fail _ _
    · exact all_bind (unpackPart_inside _ _ _) fun _ _ => all_bind (unpackPart_inside _ _ _) fun _ _ => all_bind (unpackPart_inside _ _ _) fun _ _ => all_pure _ _
  unfold socUnpack
  simp only
  split
  · exact hb
  · rw [all_append]
    refine ⟨hb, ?_⟩
    unfold socUnpackedFree
    rw [all_append]
    exact ⟨frees_inside _, one _ (inside_free _)⟩

theorem json_inside (env : Env) (a b : Blk) (t : Bytes) : All Inside (socJson env a b t).evs := by
  unfold socJson
  split
  · exact all_fail _ _
  · split
    · exact one _ (inside_alloc _ _)
    · simp only [all_cons]; exact ⟨inside_alloc _ _, inside_alloc _ _, all_nil _⟩

/-- **C43 for containers whose fields fit**: an initialisation vector of at most 12 bytes, ladder inputs of at most 16 bytes, at most 32 TA identifiers, a key type of at most
72 characters.  Then no part of the import writes outside the fixed-size fields, whatever else the container says, whether or not it is authentic, and whatever memory
holds.  Missing for the full property: the four conditions, which the code does not check. -/
theorem C43_partial (e : SocEnv) (he : e.kc.Good) (s : Bytes) (params : Option SocParams)
    (h : ∀ hd p m pl fields, splitDots s = some (hd, p, m) → e.kc.bio (b64Data e.kc p true) = some pl → parseJson e.kc pl = some (.obj fields) → Modest e.kc fields) :
    ∀ f off n, Ev.write f off n ∈ (socUnwrap e s params).evs → off + n ≤ capacity f := by
  suffices ha : All Inside (socUnwrap e s params).evs from fun f off n hm => ha _ hm f off n rfl
  unfold socUnwrap
  simp only
  split
  · exact unpack_inside _ _
  · rename_i u hu
    obtain ⟨hd, p, m, a1, a2, a3, a4⟩ := socUnpack_ok hu
    simp only [all_append]
    refine ⟨⟨unpack_inside _ _, ?_⟩, frees_inside _⟩
    unfold socUnwrapBody
    refine all_bind (json_inside _ _ _ _) fun hf _ => all_bind ?_ fun alg _ => all_bind (json_inside _ _ _ _) fun pf hpf => ?_
    · unfold socParseHeader
      exact all_bind (all_need _ _ _) fun _ _ => stringOf_inside _
    have hmod := h hd p m u.payload pf a1 a3 (socJson_ok hpf)
    refine all_bind (payload_inside _ _ hmod) fun pay hp => ?_
    have hpay := socParsePayload_ok hp
    obtain ⟨k, hk⟩ := hpay.keyType
    unfold socDecryptKeyAndVerifyMac
    refine all_bind (aad_inside _ he _ _ (hmod.keyType k _ hk) ?_ ?_ ?_ ?_ (entitled_ok _ _ _ hpay.taIds)) fun aad _ => all_bind (keyType_inside _ _ _) fun info _ => ?_
    · obtain ⟨_, _, r, _, _, hr⟩ := hpay.iv
      rw [hr, List.length_take, List.length_append, List.length_replicate]; omega
    · obtain ⟨_, _, r, _, _, hr⟩ := hpay.c1
      rw [hr, List.length_take]; omega
    · obtain ⟨_, _, r, _, _, hr⟩ := hpay.c2
      rw [hr, List.length_take]; omega
    · obtain ⟨_, _, r, _, _, hr⟩ := hpay.c3
      rw [hr, List.length_take]; omega
    · unfold socDecrypt
      simp only [all_cons]
      exact ⟨inside_alloc _ _, inside_free _, all_nil _⟩

/-- The payload of the sample container. -/
def fine : List Js.Event := Sample.payload "AES-128" (Sample.str Sample.b16) (Sample.str Sample.b12) [.startArr, .str (List.replicate 36 0x30), .endArr]

/-- The sample container meets the conditions and is accepted; it writes its TA identifier and its initialisation vector. -/
example : Sample.outcome (socUnwrap (Sample.socEnv fine 0) Sample.text none) = some (0, 16) ∧
    Ev.write .taIds 0 36 ∈ (socUnwrap (Sample.socEnv fine 0) Sample.text none).evs ∧
    Ev.write .iv 0 12 ∈ (socUnwrap (Sample.socEnv fine 0) Sample.text none).evs := by decide +kernel

/-- Decidable form of the conditions. -/
def modestB (env : Env) (fields : List (Bytes × Js.Json)) : Bool :=
  let dec := fun (name : String) (url : Bool) (size : Nat) =>
    match Js.find (ascii name) fields with
    | some (_, .str s) => (match env.bio (b64Data env s url) with | some r => decide (r.length ≤ size) | none => true)
    | _ => true
  dec "iv" false 12 && dec "c1" false 16 && dec "c2" true 16 && dec "c3" false 16 &&
    (match Js.find (ascii "entitledTaIds") fields with | some (_, .arr l) => decide (l.length ≤ 32) | _ => true) &&
    (match Js.find (ascii "keyType") fields with | some (_, .str s) => decide (s.length ≤ 72) | _ => true)

theorem modestB_spec (env : Env) (fields : List (Bytes × Js.Json)) (h : modestB env fields = true) : Modest env fields := by
  unfold modestB at h
  simp only [Bool.and_eq_true] at h
  obtain ⟨⟨⟨⟨⟨h1, h2⟩, h3⟩, h4⟩, h5⟩, h6⟩ := h
  refine ⟨?_, ?_, ?_, ?_, ?_, ?_⟩
  · intro k s r hf hr; rw [hf] at h1; simp only [hr, decide_eq_true_eq] at h1; exact h1
  · intro k s r hf hr; rw [hf] at h2; simp only [hr, decide_eq_true_eq] at h2; exact h2
  · intro k s r hf hr; rw [hf] at h3; simp only [hr, decide_eq_true_eq] at h3; exact h3
  · intro k s r hf hr; rw [hf] at h4; simp only [hr, decide_eq_true_eq] at h4; exact h4
  · intro k l hf; rw [hf] at h5; simpa using h5
  · intro k s hf; rw [hf] at h6; simpa using h6

example : ∀ hd p m pl fields, splitDots Sample.text = some (hd, p, m) → (Sample.socEnv fine 0).kc.bio (b64Data (Sample.socEnv fine 0).kc p true) = some pl →
    parseJson (Sample.socEnv fine 0).kc pl = some (.obj fields) → Modest (Sample.socEnv fine 0).kc fields := by
  intro hd p m pl fields h1 h2 h3
  apply modestB_spec
  have e1 : splitDots Sample.text = some (ascii "hhhh", ascii "pppp", ascii "mmmm") := by decide +kernel
  rw [e1] at h1
  cases h1
  have e2 : (Sample.socEnv fine 0).kc.bio (b64Data (Sample.socEnv fine 0).kc (ascii "pppp") true) = some (ascii "ppp") := by decide +kernel
  rw [e2] at h2
  cases h2
  have e3 : (match parseJson (Sample.socEnv fine 0).kc (ascii "ppp") with | some (.obj l) => modestB (Sample.socEnv fine 0).kc l | _ => true) = true := by decide +kernel
  rw [h3] at e3
  exact e3

/-- **Violated for the initialisation vector**: 20 characters decode to 15 bytes, which are written to the 12 bytes of `iv`; the container need not be authentic. -/
theorem C43_violated_iv : ∃ (e : SocEnv) (s : Bytes), e.kc.Good ∧ Ev.write .iv 0 15 ∈ (socUnwrap e s none).evs ∧ 15 > capacity .iv ∧
    Sample.outcome (socUnwrap e s none) = none :=
  ⟨Sample.socEnv (Sample.payload "AES-128" (Sample.str Sample.b16) (Sample.str "AAAAAAAAAAAAAAAAAAAA") [.startArr, .endArr]) 0, ascii "hhhh.pppp.nnnn",
    Sample.env_good _ _ _, by decide +kernel, by decide, by decide +kernel⟩

/-- **Violated for the TA identifiers**: the 33rd identifier is written behind the array. -/
theorem C43_violated_ids : ∃ (e : SocEnv) (s : Bytes), e.kc.Good ∧ Ev.write .taIds (32 * 36) 36 ∈ (socUnwrap e s none).evs ∧ 32 * 36 + 36 > capacity .taIds :=
  ⟨Sample.socEnv (Sample.payload "AES-128" (Sample.str Sample.b16) (Sample.str Sample.b12)
      (.startArr :: List.replicate 33 (.str (List.replicate 36 0x30)) ++ [.endArr])) 0, Sample.text,
    Sample.env_good _ _ _, by decide +kernel, by decide⟩

/-- **Violated for the authenticated data**: a key type of 1400 characters is copied into the buffer of 1300 bytes. -/
theorem C43_violated_aad : ∃ (e : SocEnv) (s : Bytes), e.kc.Good ∧ Ev.write .aad 8 1400 ∈ (socUnwrap e s none).evs ∧ 8 + 1400 > capacity .aad :=
  ⟨Sample.socEnv (Sample.payloadEvents [("containerVersion", [.int 4]), ("keyType", [.str (List.replicate 1400 0x41)]), ("encryptedKey", Sample.str Sample.b16),
      ("iv", Sample.str Sample.b12), ("keyUsage", [.int 1]), ("c1", Sample.str Sample.b16), ("c2", Sample.str Sample.b16), ("c3", Sample.str Sample.b16)]) 0, Sample.text,
    Sample.env_good _ _ _, by decide +kernel, by decide⟩

/-- **Violated for a ladder input**: 24 characters without padding decode to 18 bytes. -/
theorem C43_violated_ladder : ∃ (e : SocEnv) (s : Bytes), e.kc.Good ∧ Ev.write .c1 0 18 ∈ (socUnwrap e s none).evs ∧ 18 > capacity .c1 :=
  ⟨Sample.socEnv (Sample.payloadEvents [("containerVersion", [.int 4]), ("keyType", Sample.str "AES-128"), ("encryptedKey", Sample.str Sample.b16),
      ("iv", Sample.str Sample.b12), ("keyUsage", [.int 1]), ("c1", Sample.str "AAAAAAAAAAAAAAAAAAAAAAAA"), ("c2", Sample.str Sample.b16),
      ("c3", Sample.str Sample.b16)]) 0, Sample.text,
    Sample.env_good _ _ _, by decide +kernel, by decide⟩

end Sa.Kc.C43

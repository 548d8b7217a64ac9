import Verif.Lemmas.KcLife
import Verif.Lemmas.SocSample

/-!
# C59: memory use of SoC container parsing

The intended property — whatever the container says, every block is freed exactly once after its allocation, and neither unset variables nor NULL pointers nor memory behind
string literals are used — is false (`C59_violated…`); all the violations happen before the container is authenticated.  It holds for containers whose fields have the
expected JSON types and lengths (`C59_partial`).  That decoded text always fits the blocks allocated for it holds for all containers (`C59_fills`).
-/

namespace Sa.Kc.C59

/-- No unset variable, no NULL pointer, nothing behind a literal. -/
def Clean (e : Ev) : Prop := e ≠ .uninit ∧ e ≠ .null ∧ ∀ size n, e = .readLit size n → n ≤ size

/-- Allocated and freed once, in this order, or never allocated nor freed; `life` lists allocations (`true`) and frees (`false`) of a block. -/
def OnceFreed (es : List Ev) : Prop := ∀ b, life b es = [] ∨ life b es = [true, false]

/-- A string of whole base64 groups. -/
def Groups (s : Bytes) : Prop := s.length % 4 = 0

/-- A payload whose fields have the expected types and lengths. -/
structure WellTyped (env : Env) (fields : List (Bytes × Js.Json)) : Prop where
  root : ∀ k v, Js.find (ascii "rootKeyType") fields = some (k, v) → ∃ s, v = .str s ∧ s.length ≤ 7
  keyType : ∀ k s, Js.find (ascii "keyType") fields = some (k, .str s) → s.length ≤ 8
  encKey : ∀ k v, Js.find (ascii "encryptedKey") fields = some (k, v) → ∃ s r, v = .str s ∧ Groups s ∧ env.bio (b64Data env s false) = some r
  iv : ∀ k v, Js.find (ascii "iv") fields = some (k, v) → ∃ s, v = .str s ∧ Groups s
  ids : ∀ k l, Js.find (ascii "entitledTaIds") fields = some (k, .arr l) → ∀ v ∈ l, ∃ s, v = .str s
  c1 : ∀ k v, Js.find (ascii "c1") fields = some (k, v) → ∃ s r, v = .str s ∧ Groups s ∧ env.bio (b64Data env s false) = some r ∧ r.length ≥ 16
  c2 : ∀ k v, Js.find (ascii "c2") fields = some (k, v) → ∃ s r, v = .str s ∧ env.bio (b64Data env s true) = some r ∧ r.length ≥ 16
  c3 : ∀ k v, Js.find (ascii "c3") fields = some (k, v) → ∃ s r, v = .str s ∧ Groups s ∧ env.bio (b64Data env s false) = some r ∧ r.length ≥ 16

theorem clean_alloc (b n) : Clean (.alloc b n) := ⟨(fun h => nomatch h), (fun h => nomatch h), fun _ _ h => nomatch h⟩
theorem clean_free (b) : Clean (.free b) := ⟨(fun h => nomatch h), (fun h => nomatch h), fun _ _ h => nomatch h⟩
theorem clean_fill (b n) : Clean (.fill b n) := ⟨(fun h => nomatch h), (fun h => nomatch h), fun _ _ h => nomatch h⟩
theorem clean_write (f o n) : Clean (.write f o n) := ⟨(fun h => nomatch h), (fun h => nomatch h), fun _ _ h => nomatch h⟩
theorem one (e : Ev) (h : Clean e) : All Clean [e] := by rw [all_cons]; exact ⟨h, all_nil _⟩

theorem b64_clean (env : Env) (dst : Nat → Ev) (hd : ∀ n, Clean (dst n)) (s : Bytes) (url : Bool) (h : url = true ∨ Groups s) :
    All Clean (b64Decode env dst (some s) url).1 := by
  unfold b64Decode
  simp only
  rw [if_neg (by rintro ⟨h1, h2⟩; rcases h with h | h; · rw [h1] at h; exact nomatch h
                 · exact h2 h)]
  split
  · exact all_nil _
  · exact one _ (hd _)

theorem cmp_clean (env : Env) (s : Bytes) (l : String) (h : s.length ≤ (ascii l).length + 1) : All Clean (cmpLit env s l).evs :=
  one _ ⟨(fun h => nomatch h), (fun h => nomatch h), fun _ _ he => by cases he; exact h⟩

theorem fixed_clean (env : Env) (f : Fld) (size : Nat) (url : Bool) (s : Bytes) (h : url = true ∨ Groups s) : All Clean (socFixed env f size url (.str s)).evs := by
  unfold socFixed
  refine all_bind (m := stringLength env (some s)) (all_nil _) fun len _ => all_bind (m := P.emit _) (b64_clean _ _ (fun _ => clean_write _ _ _) s url h) fun _ _ => ?_
  split
  · split
    · exact all_fail _ _
    · exact all_pure _ _
  · exact all_pure _ _

theorem encKey_clean (env : Env) (s : Bytes) (h : Groups s) : All Clean (socEncryptedKey env (.str s)).evs := by
  unfold socEncryptedKey
  refine all_bind (m := stringLength env (some s)) (all_nil _) fun len _ => all_bind (m := P.emit _) (one _ (clean_alloc _ _)) fun _ _ => ?_
  refine all_bind (m := P.emit _) (b64_clean _ _ (fun _ => clean_fill _ _) s false (.inr h)) fun _ _ => ?_
  split
  · exact all_bind (m := P.emit _) (one _ (clean_free _)) fun _ _ => all_fail _ _
  · exact all_pure _ _

theorem root_clean (env : Env) (v : UInt8) (fields : List (Bytes × Js.Json)) (h : WellTyped env fields) : All Clean (socRoot env v fields).evs := by
  unfold socRoot
  split
  · unfold socRootKeyType
    split
    · exact all_nil _
    · rename_i k v hf
      obtain ⟨s, rfl, hs⟩ := h.root k v hf
      simp only [Js.asString]
      refine all_bind (cmp_clean _ _ _ (by have : (ascii "unique").length = 6 := rfl; omega)) fun b _ => ?_
      split
      · exact all_pure _ _
      · refine all_bind (cmp_clean _ _ _ (by have : (ascii "common").length = 6 := rfl; omega)) fun b _ => ?_
        split
        · exact all_pure _ _
        · exact all_fail _ _
  · exact all_nil _

theorem taIds_clean (env : Env) : (l : List Js.Json) → (i : Nat) → (∀ v ∈ l, ∃ s, v = .str s) → All Clean (socTaIds env i l).evs
  | [], _, _ => all_nil _
  | v :: l, i, h => by
    obtain ⟨s, rfl⟩ := h v (.head _)
    unfold socTaIds
    simp only [Js.asString]
    split
    · exact all_bind (m := P.emit _) (one _ (clean_free _)) fun _ _ => all_fail _ _
    · exact all_bind (m := P.emit _) (one _ (clean_write _ _ _)) fun _ _ => all_bind (taIds_clean env l (i + 1) fun v hv => h v (.tail _ hv)) fun _ _ => all_pure _ _

theorem entitled_clean (env : Env) (fields : List (Bytes × Js.Json)) (h : WellTyped env fields) : All Clean (socEntitledTaIds env fields).evs := by
  unfold socEntitledTaIds
  split
  · exact all_nil _
  · rename_i k v hf
    split
    · exact all_nil _
    · rename_i l hl
      have hv : v = .arr l := by
        cases v with
        | arr l' => cases hl; rfl
        | _ => exact nomatch hl
      rw [hv] at hf
      refine all_bind (m := P.emit _) (one _ (clean_alloc _ _)) fun _ _ => all_bind (taIds_clean env l 0 (h.ids k l hf)) fun _ _ => ?_
      exact all_bind (m := P.emit _) (one _ (clean_free _)) fun _ _ => all_pure _ _

theorem payload_clean (env : Env) (fields : List (Bytes × Js.Json)) (h : WellTyped env fields) : All Clean (socParsePayload env fields).evs := by
  have hn : ∀ n, All Clean (need n fields).evs := fun n => by rw [need_nil]; exact all_nil _
  unfold socParsePayload
  refine all_bind (hn _) fun v1 _ => all_bind (root_clean _ _ _ h) fun root _ => all_bind (hn _) fun v2 _ => all_bind (by rw [stringOf_nil]; exact all_nil _) fun kt _ => ?_
  refine all_bind (hn _) fun v3 h3 => all_bind ?_ fun ek _ => all_bind (hn _) fun v4 h4 => all_bind ?_ fun iv _ => all_bind (hn _) fun v5 _ => ?_
  · obtain ⟨k, hk⟩ := need_ok h3
    obtain ⟨s, r, rfl, hs, _⟩ := h.encKey k v3 hk
    exact encKey_clean env s hs
  · obtain ⟨k, hk⟩ := need_ok h4
    obtain ⟨s, rfl, hs⟩ := h.iv k v4 hk
    exact fixed_clean _ _ _ _ _ (.inr hs)
  refine all_bind (entitled_clean _ _ h) fun ta _ => all_bind (hn _) fun v6 h6 => all_bind ?_ fun c1 _ => ?_
  · obtain ⟨k, hk⟩ := need_ok h6
    obtain ⟨s, r, rfl, hs, _⟩ := h.c1 k v6 hk
    exact fixed_clean _ _ _ _ _ (.inr hs)
  refine all_bind (hn _) fun v7 h7 => all_bind ?_ fun c2 _ => all_bind (hn _) fun v8 h8 => all_bind ?_ fun c3 _ => all_pure _ _
  · obtain ⟨k, hk⟩ := need_ok h7
    obtain ⟨s, r, rfl, _⟩ := h.c2 k v7 hk
    exact fixed_clean _ _ _ _ _ (.inl rfl)
  · obtain ⟨k, hk⟩ := need_ok h8
    obtain ⟨s, r, rfl, hs, _⟩ := h.c3 k v8 hk
    exact fixed_clean _ _ _ _ _ (.inr hs)

theorem put_clean (aad src : Bytes) : All Clean (aadPut aad src).evs := one _ (clean_write _ _ _)

theorem aadTaIds_clean : (l : List Bytes) → (aad : Bytes) → All Clean (aadTaIds aad l).evs
  | [], _ => all_nil _
  | _ :: l, _ => all_bind (put_clean _ _) fun _ _ => aadTaIds_clean l _

theorem ladder_clean (env : Env) (c : Bytes) (h : c.length ≥ 16) : All Clean (ladderInput env c).evs := by
  unfold ladderInput
  simp only
  rw [if_neg (by omega)]
  exact all_nil _

theorem aad_clean (env : Env) (alg : Bytes) (p : Payload) (hk : p.keyType.length ≤ 8) (h1 : p.c1.length ≥ 16) (h2 : p.c2.length ≥ 16) (h3 : p.c3.length ≥ 16) :
    All Clean (socBuildAad env alg p).evs := by
  unfold socBuildAad
  refine all_bind ?_ fun b hb => ?_
  · unfold isA128Gcm; split
    · exact all_nil _
    · rename_i h7
      exact cmp_clean _ _ _ (by have : (ascii "A128GCM").length = 7 := rfl; omega)
  split
  · exact all_fail _ _
  refine all_bind (put_clean _ _) fun _ _ => ?_
  split
  · exact all_fail _ _
  refine all_bind (put_clean _ _) fun _ _ => all_bind ?_ fun _ _ => ?_
  · unfold aadRoot
    split
    · split
      · exact put_clean _ _
      · exact put_clean _ _
      · exact all_nil _
    · exact all_nil _
  split
  · exact all_fail _ _
  refine all_bind (put_clean _ _) fun _ _ => ?_
  split
  · exact all_fail _ _
  refine all_bind ?_ fun _ _ => ?_
  · unfold isKeyOnlyHmac isHmacName
    have e1 : (ascii "HMAC-128").length = 8 := rfl
    have e2 : (ascii "HMAC-160").length = 8 := rfl
    have e3 : (ascii "HMAC-256").length = 8 := rfl
    split
    · refine all_bind (cmp_clean _ _ _ (by omega)) fun b _ => ?_
      split
      · exact all_pure _ _
      · refine all_bind (cmp_clean _ _ _ (by omega)) fun b _ => ?_
        split
        · exact all_pure _ _
        · exact cmp_clean _ _ _ (by omega)
    · exact all_nil _
  split
  · exact all_fail _ _
  refine all_bind (put_clean _ _) fun _ _ => all_bind ?_ fun _ _ => ?_
  · unfold aadDecUsage
    split
    · split
      · exact all_fail _ _
      · exact put_clean _ _
    · exact all_nil _
  refine all_bind (put_clean _ _) fun _ _ => all_bind (ladder_clean _ _ h1) fun _ _ => all_bind (put_clean _ _) fun _ _ => all_bind (ladder_clean _ _ h2) fun _ _ => ?_
  refine all_bind (put_clean _ _) fun _ _ => all_bind (ladder_clean _ _ h3) fun _ _ => all_bind (put_clean _ _) fun _ _ => ?_
  split
  · exact all_fail _ _
  · exact aadTaIds_clean _ _

theorem keyType_clean (env : Env) (s : Bytes) : (l : List (String × KeyInfo)) → (∀ e ∈ l, s.length ≤ (ascii e.1).length + 1) → All Clean (socKeyTypeFrom env s l).evs
  | [], _ => all_nil _
  | (n, i) :: l, h => by
    unfold socKeyTypeFrom
    refine all_bind (cmp_clean _ _ _ (h _ (.head _))) fun b _ => ?_
    split
    · exact all_pure _ _
    · exact keyType_clean env s l fun e he => h e (.tail _ he)

theorem unpackPart_clean (env : Env) (b : Blk) (s : Bytes) : All Clean (socUnpackPart env b s).evs := by
  unfold socUnpackPart
  simp only [all_cons]
  exact ⟨clean_alloc _ _, b64_clean _ _ (fun _ => clean_fill _ _) _ _ (.inl rfl)⟩

theorem frees_clean (bs : List Blk) : All Clean (bs.map Ev.free) := by
  intro e he
  rw [List.mem_map] at he
  obtain ⟨b, _, rfl⟩ := he
  exact clean_free b

theorem unpack_clean (env : Env) (s : Bytes) : All Clean (socUnpack env s).evs := by
  have hb : All Clean (.alloc .unpacked 112 :: (socUnpackBody env s).evs) := by
    rw [all_cons]
    refine ⟨clean_alloc _ _, ?_⟩
    unfold socUnpackBody
    split
    · exact all_fail _ _
    · exact all_bind (unpackPart_clean _ _ _) fun _ _ => all_bind (unpackPart_clean _ _ _) fun _ _ => all_bind (unpackPart_clean _ _ _) fun _ _ => all_pure _ _
  unfold socUnpack
  simp only
  split
  · exact hb
  · rw [all_append]
    refine ⟨hb, ?_⟩
    unfold socUnpackedFree
    rw [all_append]
    exact ⟨frees_clean _, one _ (clean_free _)⟩

theorem json_clean (env : Env) (a b : Blk) (t : Bytes) : All Clean (socJson env a b t).evs := by
  unfold socJson
  split
  · exact all_fail _ _
  · split
    · exact one _ (clean_alloc _ _)
    · simp only [all_cons]; exact ⟨clean_alloc _ _, clean_alloc _ _, all_nil _⟩

theorem c_long (env : Env) (f : Fld) (url : Bool) (s r x : Bytes) (hr : env.bio (b64Data env s url) = some r) (hl : r.length ≥ 16)
    (h : (socFixed env f 16 url (.str s)).res = .ok x) : (x.take 16).length ≥ 16 := by
  unfold socFixed at h
  obtain ⟨_, _, h, _⟩ := bind_res h
  obtain ⟨_, _, h, _⟩ := bind_res h
  simp only [Js.asString, b64Decode, hr] at h
  cases h
  rw [List.length_take]; omega

/-! Allocations and frees. -/

theorem life_cons_alloc (b c : Blk) (n : Nat) (es : List Ev) : life b (.alloc c n :: es) = (if c = b then [true] else []) ++ life b es := by
  unfold life
  rw [List.filterMap_cons]
  by_cases hc : c = b <;> simp [hc]

theorem life_cons_free (b c : Blk) (es : List Ev) : life b (.free c :: es) = (if c = b then [false] else []) ++ life b es := by
  unfold life
  rw [List.filterMap_cons]
  by_cases hc : c = b <;> simp [hc]

theorem life_unpackPart (env : Env) (b c : Blk) (s : Bytes) : life b (socUnpackPart env c s).evs = if c = b then [true] else [] := by
  have : life b (b64Decode env (.fill c) (some s) true).1 = [] := life_plain _ _ (b64_plain _ _ _ _ fun _ => plain_fill _ _)
  unfold socUnpackPart
  simp only
  rw [life_cons_alloc, this, List.append_nil]

/-- Nothing, or an allocation not yet followed by a free. -/
def Open (l : List Bool) : Prop := l = [] ∨ l = [true]

/-- Nothing, or an allocation and a free. -/
def Once (l : List Bool) : Prop := l = [] ∨ l = [true, false]

theorem unpackBody_life (env : Env) (s : Bytes) (b : Blk) : (b ≠ .header → b ≠ .payload → b ≠ .mac → life b (socUnpackBody env s).evs = []) ∧ Open (life b (socUnpackBody env s).evs) := by
  unfold socUnpackBody
  split
  · exact ⟨fun _ _ _ => rfl, .inl rfl⟩
  · rename_i h p m _
    constructor
    · intro h1 h2 h3
      refine life_bind_nil (by rw [life_unpackPart, if_neg (Ne.symm h1)]) fun _ _ => life_bind_nil (by rw [life_unpackPart, if_neg (Ne.symm h2)]) fun _ _ => ?_
      exact life_bind_nil (by rw [life_unpackPart, if_neg (Ne.symm h3)]) fun _ _ => rfl
    · by_cases h1 : b = .header
      · subst h1
        refine life_bind_right (G := Open) (by rw [life_unpackPart]; exact .inr rfl) fun _ _ => ?_
        exact life_bind_nil (by rw [life_unpackPart]; rfl) fun _ _ => life_bind_nil (by rw [life_unpackPart]; rfl) fun _ _ => rfl
      · refine life_bind_left (G := Open) (.inl rfl) (by rw [life_unpackPart, if_neg (Ne.symm h1)]) fun _ _ => ?_
        by_cases h2 : b = .payload
        · subst h2
          refine life_bind_right (G := Open) (by rw [life_unpackPart]; exact .inr rfl) fun _ _ => ?_
          exact life_bind_nil (by rw [life_unpackPart]; rfl) fun _ _ => rfl
        · refine life_bind_left (G := Open) (.inl rfl) (by rw [life_unpackPart, if_neg (Ne.symm h2)]) fun _ _ => ?_
          refine life_bind_right (G := Open) ?_ fun _ _ => rfl
          rw [life_unpackPart]
          split
          · exact .inr rfl
          · exact .inl rfl

/-- A successful unpacking leaves the four blocks allocated, a failed one frees what it allocated. -/
theorem unpack_life (env : Env) (s : Bytes) : (∀ e, (socUnpack env s).res = .error e → OnceFreed (socUnpack env s).evs) ∧
    ∀ u, (socUnpack env s).res = .ok u → ∀ b, Open (life b (socUnpack env s).evs) ∧
      (b ≠ .header → b ≠ .payload → b ≠ .mac → b ≠ .unpacked → life b (socUnpack env s).evs = []) := by
  have hb := fun b => unpackBody_life env s b
  unfold socUnpack
  simp only
  cases hr : (socUnpackBody env s).res with
  | ok u =>
    simp only
    refine ⟨(fun e h => nomatch h), fun u' _ b => ⟨?_, fun h1 h2 h3 h4 => ?_⟩⟩
    · rw [life_cons_alloc]
      by_cases hu : Blk.unpacked = b
      · rw [if_pos hu, (hb b).1 (by rw [← hu]; decide) (by rw [← hu]; decide) (by rw [← hu]; decide)]; exact .inr rfl
      · rw [if_neg hu]; exact (hb b).2
    · rw [life_cons_alloc, if_neg (Ne.symm h4), (hb b).1 h1 h2 h3]; rfl
  | error e =>
    simp only
    refine ⟨fun _ _ b => ?_, fun u h => nomatch h⟩
    rw [life_append, life_cons_alloc]
    unfold socUnpackedFree
    rw [life_append, life_filter_free b _ (by decide), life_cons_free, life_nil]
    by_cases hu : Blk.unpacked = b
    · subst hu
      rw [(hb _).1 (by decide) (by decide) (by decide)]
      exact .inr rfl
    · rw [if_neg hu, if_neg hu]
      rcases (hb b).2 with h | h
      · rw [h]; simp
      · rw [h]
        by_cases hm : b ∈ [Blk.mac, .header, .payload]
        · simp only [hm, true_and, List.mem_singleton, if_true]; exact .inr rfl
        · simp only [List.mem_cons, List.not_mem_nil, or_false, not_or] at hm
          rw [(hb b).1 hm.2.1 hm.2.2 hm.1] at h
          exact nomatch h

theorem life_json (env : Env) (b v f : Blk) (hvf : v ≠ f) (t : Bytes) : Open (life b (socJson env v f t).evs) ∧ (b ≠ v → b ≠ f → life b (socJson env v f t).evs = []) := by
  unfold socJson
  split
  · exact ⟨.inl rfl, fun _ _ => rfl⟩
  · split
    · simp only [life_cons_alloc, life_nil]
      refine ⟨?_, fun h _ => by rw [if_neg (Ne.symm h)]; rfl⟩
      split
      · exact .inr rfl
      · exact .inl rfl
    · simp only [life_cons_alloc, life_nil]
      refine ⟨?_, fun h1 h2 => by rw [if_neg (Ne.symm h1), if_neg (Ne.symm h2)]; rfl⟩
      by_cases h1 : v = b
      · rw [if_pos h1, if_neg (by rw [← h1]; exact Ne.symm hvf)]; exact .inr rfl
      · rw [if_neg h1]
        split
        · exact .inr rfl
        · exact .inl rfl

theorem life_encKey (env : Env) (b : Blk) (s r : Bytes) (hr : env.bio (b64Data env s false) = some r) :
    life b (socEncryptedKey env (.str s)).evs = if Blk.encryptedKey = b then [true] else [] := by
  unfold socEncryptedKey
  have hp : life b (b64Decode env (.fill .encryptedKey) (some s) false).1 = [] := life_plain _ _ (b64_plain _ _ _ _ fun _ => plain_fill _ _)
  have hd : (b64Decode env (.fill .encryptedKey) (some s) false).2 = some r := by unfold b64Decode; simp only [hr]
  simp only [Js.asString]
  rw [bind_ok (m := stringLength env (some s)) (a := s.length) rfl]
  show life b ([] ++ (P.emit _ >>= _).evs) = _
  rw [List.nil_append, bind_ok (m := P.emit _) (a := ()) rfl]
  show life b ([_] ++ (P.emit _ >>= _).evs) = _
  rw [List.singleton_append, life_cons_alloc, bind_ok (m := P.emit _) (a := ()) rfl]
  simp only [hd]
  show (if Blk.encryptedKey = b then [true] else []) ++ life b ((b64Decode env (.fill .encryptedKey) (some s) false).1 ++ []) = _
  rw [List.append_nil, hp, List.append_nil]

theorem life_taIds (env : Env) (b : Blk) : (l : List Js.Json) → (i : Nat) → (∀ v ∈ l, ∃ s, v = .str s) →
    (b ≠ .taIds → life b (socTaIds env i l).evs = []) ∧
    ((∃ r, (socTaIds env i l).res = .ok r) → life b (socTaIds env i l).evs = []) ∧
    ((∃ e, (socTaIds env i l).res = .error e) → life .taIds (socTaIds env i l).evs = [false])
  | [], _, _ => ⟨fun _ => rfl, fun _ => rfl, fun ⟨_, h⟩ => nomatch h⟩
  | v :: l, i, h => by
    obtain ⟨s, rfl⟩ := h v (.head _)
    unfold socTaIds
    simp only [Js.asString]
    split
    · refine ⟨fun hb => ?_, fun ⟨r, hr⟩ => ?_, fun _ => rfl⟩
      · show life b [.free .taIds] = []
        rw [life_cons_free, if_neg (Ne.symm hb)]; rfl
      · exact nomatch hr
    · have ih := life_taIds env b l (i + 1) fun v hv => h v (.tail _ hv)
      have ih' := life_taIds env .taIds l (i + 1) fun v hv => h v (.tail _ hv)
      refine ⟨fun hb => ?_, fun ⟨r, hr⟩ => ?_, fun ⟨e, he⟩ => ?_⟩
      · exact life_bind_nil (m := P.emit _) rfl fun _ _ => life_bind_nil (ih.1 hb) fun _ _ => rfl
      · obtain ⟨_, _, hr, _⟩ := bind_res hr
        obtain ⟨r', hr', _, _⟩ := bind_res hr
        exact life_bind_nil (m := P.emit _) rfl fun _ _ => life_bind_nil (ih.2.1 ⟨r', hr'⟩) fun _ _ => rfl
      · rw [bind_ok (m := P.emit _) (a := ()) rfl] at he ⊢
        simp only at he ⊢
        rw [life_append]
        cases hres : (socTaIds env (i + 1) l).res with
        | ok r => rw [bind_ok hres] at he; exact nomatch he
        | error e' =>
          rw [bind_error hres, ih'.2.2 ⟨e', hres⟩]
          rfl

theorem life_entitled (env : Env) (b : Blk) (fields : List (Bytes × Js.Json)) (h : WellTyped env fields) :
    (b ≠ .taIds → life b (socEntitledTaIds env fields).evs = []) ∧
    (Once (life b (socEntitledTaIds env fields).evs)) := by
  have key : (b ≠ .taIds → life b (socEntitledTaIds env fields).evs = []) ∧
      (Once (life .taIds (socEntitledTaIds env fields).evs)) := by
    unfold socEntitledTaIds
    split
    · exact ⟨fun _ => rfl, .inl rfl⟩
    · rename_i k v hf
      split
      · exact ⟨fun _ => rfl, .inl rfl⟩
      · rename_i l hl
        have hv : v = .arr l := by
          cases v with
          | arr l' => cases hl; rfl
          | _ => exact nomatch hl
        rw [hv] at hf
        have hs := h.ids k l hf
        rw [bind_ok (m := P.emit _) (a := ()) rfl]
        simp only [P.emit, List.singleton_append, life_cons_alloc]
        constructor
        · intro hb
          rw [if_neg (Ne.symm hb), List.nil_append]
          refine life_bind_nil ((life_taIds env b l 0 hs).1 hb) fun _ _ => ?_
          rw [bind_ok (a := ()) rfl]
          show life b ([.free .taIds] ++ []) = []
          rw [List.append_nil, life_cons_free, if_neg (Ne.symm hb)]; rfl
        · right
          rw [if_pos trivial]
          cases hres : (socTaIds env 0 l).res with
          | error e => rw [bind_error hres, (life_taIds env .taIds l 0 hs).2.2 ⟨e, hres⟩]; rfl
          | ok r =>
            rw [bind_ok hres, life_append, (life_taIds env .taIds l 0 hs).2.1 ⟨r, hres⟩]
            rfl
  refine ⟨key.1, ?_⟩
  by_cases hb : b = .taIds
  · rw [hb]; exact key.2
  · exact .inl (key.1 hb)

/-- Parsing the payload allocates the encrypted key and, for a while, the array of identifiers. -/
theorem payload_life (env : Env) (b : Blk) (fields : List (Bytes × Js.Json)) (h : WellTyped env fields) :
    (b ≠ .encryptedKey → b ≠ .taIds → life b (socParsePayload env fields).evs = []) ∧
    (b = .encryptedKey → Open (life b (socParsePayload env fields).evs)) ∧
    (b = .taIds → Once (life b (socParsePayload env fields).evs)) := by
  have hn : ∀ n, life b (need n fields).evs = [] := fun n => by rw [need_nil]; rfl
  have hpl : ∀ f size url v, life b (socFixed env f size url v).evs = [] := fun f size url v => life_plain _ _ (fixed_plain env f size url v)
  have hst : ∀ v, life b (stringOf v).evs = [] := fun v => by rw [stringOf_nil]; rfl
  -- the three parts around the encrypted key and the identifiers
  have hek : ∀ v3, (need "encryptedKey" fields).res = .ok v3 → life b (socEncryptedKey env v3).evs = if Blk.encryptedKey = b then [true] else [] := by
    intro v3 h3
    obtain ⟨k, hk⟩ := need_ok h3
    obtain ⟨s, r, rfl, _, hr⟩ := h.encKey k v3 hk
    exact life_encKey env b s r hr
  refine ⟨fun h1 h2 => ?_, fun h1 => ?_, fun h1 => ?_⟩
  · unfold socParsePayload
    refine life_bind_nil (hn _) fun v1 _ => life_bind_nil (life_plain _ _ (root_plain _ _ _)) fun _ _ => life_bind_nil (hn _) fun _ _ => life_bind_nil (hst _) fun _ _ => ?_
    refine life_bind_nil (hn _) fun v3 h3 => life_bind_nil (by rw [hek v3 h3, if_neg (Ne.symm h1)]) fun _ _ => ?_
    refine life_bind_nil (hn _) fun _ _ => life_bind_nil (hpl _ _ _ _) fun _ _ => life_bind_nil (hn _) fun _ _ => life_bind_nil ((life_entitled env b fields h).1 h2) fun _ _ => ?_
    refine life_bind_nil (hn _) fun _ _ => life_bind_nil (hpl _ _ _ _) fun _ _ => life_bind_nil (hn _) fun _ _ => life_bind_nil (hpl _ _ _ _) fun _ _ => ?_
    exact life_bind_nil (hn _) fun _ _ => life_bind_nil (hpl _ _ _ _) fun _ _ => rfl
  · have h2 : b ≠ .taIds := by rw [h1]; decide
    unfold socParsePayload
    have h0 : Open [] := .inl rfl
    refine life_bind_left h0 (hn _) fun v1 _ => life_bind_left h0 (life_plain _ _ (root_plain _ _ _)) fun _ _ => life_bind_left h0 (hn _) fun _ _ => life_bind_left h0 (hst _) fun _ _ => ?_
    refine life_bind_left h0 (hn _) fun v3 h3 => life_bind_right (by rw [hek v3 h3, if_pos h1.symm]; exact .inr rfl) fun _ _ => ?_
    refine life_bind_nil (hn _) fun _ _ => life_bind_nil (hpl _ _ _ _) fun _ _ => life_bind_nil (hn _) fun _ _ => life_bind_nil ((life_entitled env b fields h).1 h2) fun _ _ => ?_
    refine life_bind_nil (hn _) fun _ _ => life_bind_nil (hpl _ _ _ _) fun _ _ => life_bind_nil (hn _) fun _ _ => life_bind_nil (hpl _ _ _ _) fun _ _ => ?_
    exact life_bind_nil (hn _) fun _ _ => life_bind_nil (hpl _ _ _ _) fun _ _ => rfl
  · have h2 : b ≠ .encryptedKey := by rw [h1]; decide
    have h0 : Once [] := .inl rfl
    unfold socParsePayload
    refine life_bind_left h0 (hn _) fun v1 _ => life_bind_left h0 (life_plain _ _ (root_plain _ _ _)) fun _ _ => life_bind_left h0 (hn _) fun _ _ => life_bind_left h0 (hst _) fun _ _ => ?_
    refine life_bind_left h0 (hn _) fun v3 h3 => life_bind_left h0 (by rw [hek v3 h3, if_neg (Ne.symm h2)]) fun _ _ => ?_
    refine life_bind_left h0 (hn _) fun _ _ => life_bind_left h0 (hpl _ _ _ _) fun _ _ => life_bind_left h0 (hn _) fun _ _ => ?_
    refine life_bind_right (G := Once) (life_entitled env b fields h).2 fun _ _ => ?_
    refine life_bind_nil (hn _) fun _ _ => life_bind_nil (hpl _ _ _ _) fun _ _ => life_bind_nil (hn _) fun _ _ => life_bind_nil (hpl _ _ _ _) fun _ _ => ?_
    exact life_bind_nil (hn _) fun _ _ => life_bind_nil (hpl _ _ _ _) fun _ _ => rfl

theorem decrypt_life (e : SocEnv) (b : Blk) (alg : Bytes) (p : Payload) (tag : Bytes) (params : Option SocParams) :
    (b ≠ .key → life b (socDecryptKeyAndVerifyMac e alg p tag params).evs = []) ∧
    (Once (life b (socDecryptKeyAndVerifyMac e alg p tag params).evs)) := by
  unfold socDecryptKeyAndVerifyMac
  have hd : ∀ aad info c1 c2 c3, life b (socDecrypt e p tag aad info c1 c2 c3 params).evs = if Blk.key = b then [true, false] else [] := by
    intro aad info c1 c2 c3
    unfold socDecrypt
    simp only [life_cons_alloc, life_cons_free, life_nil]
    by_cases hb : Blk.key = b <;> simp [hb]
  constructor
  · intro hb
    refine life_bind_nil (life_plain _ _ (aad_plain _ _ _)) fun _ _ => life_bind_nil (life_plain _ _ (keyType_plain _ _ _)) fun _ _ => ?_
    rw [hd, if_neg (Ne.symm hb)]
  · have h0 : Once [] := .inl rfl
    refine life_bind_left h0 (life_plain _ _ (aad_plain _ _ _)) fun _ _ => life_bind_left h0 (life_plain _ _ (keyType_plain _ _ _)) fun _ _ => ?_
    rw [hd]
    split
    · exact .inr rfl
    · exact .inl rfl

/-- The blocks freed at the end. -/
def finalBlocks : List Blk := [.mac, .header, .payload, .unpacked, .headerJson, .headerFields, .payloadJson, .payloadFields, .encryptedKey]

theorem header_nil (fields : List (Bytes × Js.Json)) : (socParseHeader fields).evs = [] := by
  unfold socParseHeader
  cases hm : (need "alg" fields).res with
  | error s => rw [bind_error hm]; exact need_nil _ _
  | ok a => rw [bind_ok hm]; simp only [need_nil, stringOf_nil]; rfl

/-- What the body leaves to be freed. -/
theorem body_life (e : SocEnv) (b : Blk) (u : Unpacked) (params : Option SocParams)
    (h : ∀ fields, parseJson e.kc u.payload = some (.obj fields) → WellTyped e.kc fields) :
    (b ∈ finalBlocks → Open (life b (socUnwrapBody e u params).evs)) ∧
    (b ∈ [Blk.mac, .header, .payload, .unpacked] → life b (socUnwrapBody e u params).evs = []) ∧
    (b ∉ finalBlocks → Once (life b (socUnwrapBody e u params).evs)) := by
  have hj1 := life_json e.kc b .headerJson .headerFields (by decide) u.header
  have hj2 := life_json e.kc b .payloadJson .payloadFields (by decide) u.payload
  have hh : ∀ hf, life b (socParseHeader hf).evs = [] := fun hf => by rw [header_nil]; rfl
  unfold socUnwrapBody
  refine ⟨fun hb => ?_, fun hb => ?_, fun hb => ?_⟩
  · have h0 : Open [] := .inl rfl
    have nk : b ≠ .key := by rintro rfl; revert hb; decide
    have nt : b ≠ .taIds := by rintro rfl; revert hb; decide
    by_cases b1 : b = .headerJson ∨ b = .headerFields
    · have n1 : b ≠ .payloadJson := by rintro rfl; revert b1; decide
      have n2 : b ≠ .payloadFields := by rintro rfl; revert b1; decide
      have n3 : b ≠ .encryptedKey := by rintro rfl; revert b1; decide
      refine life_bind_right hj1.1 fun hf _ => life_bind_nil (hh _) fun alg _ => life_bind_nil (hj2.2 n1 n2) fun pf hpf => ?_
      exact life_bind_nil ((payload_life e.kc b pf (h pf (socJson_ok hpf))).1 n3 nt) fun p _ => (decrypt_life e b alg p u.mac params).1 nk
    · rw [not_or] at b1
      refine life_bind_left h0 (hj1.2 b1.1 b1.2) fun hf _ => life_bind_left h0 (hh _) fun alg _ => ?_
      by_cases b2 : b = .payloadJson ∨ b = .payloadFields
      · have n3 : b ≠ .encryptedKey := by rintro rfl; revert b2; decide
        refine life_bind_right hj2.1 fun pf hpf => ?_
        exact life_bind_nil ((payload_life e.kc b pf (h pf (socJson_ok hpf))).1 n3 nt) fun p _ => (decrypt_life e b alg p u.mac params).1 nk
      · rw [not_or] at b2
        refine life_bind_left h0 (hj2.2 b2.1 b2.2) fun pf hpf => ?_
        have hp := payload_life e.kc b pf (h pf (socJson_ok hpf))
        by_cases b3 : b = .encryptedKey
        · exact life_bind_right (hp.2.1 b3) fun p _ => (decrypt_life e b alg p u.mac params).1 nk
        · exact .inl (life_bind_nil (hp.1 b3 nt) fun p _ => (decrypt_life e b alg p u.mac params).1 nk)
  · simp only [List.mem_cons, List.not_mem_nil, or_false] at hb
    have hne : b ≠ .key ∧ b ≠ .taIds ∧ b ≠ .headerJson ∧ b ≠ .headerFields ∧ b ≠ .payloadJson ∧ b ≠ .payloadFields ∧ b ≠ .encryptedKey := by
      rcases hb with rfl | rfl | rfl | rfl <;> decide
    obtain ⟨n1, n2, n3, n4, n5, n6, n7⟩ := hne
    refine life_bind_nil (hj1.2 n3 n4) fun hf _ => life_bind_nil (hh _) fun alg _ => life_bind_nil (hj2.2 n5 n6) fun pf hpf => ?_
    exact life_bind_nil ((payload_life e.kc b pf (h pf (socJson_ok hpf))).1 n7 n2) fun p _ => (decrypt_life e b alg p u.mac params).1 n1
  · have h0 : Once [] := .inl rfl
    simp only [finalBlocks, List.mem_cons, List.not_mem_nil, or_false, not_or] at hb
    obtain ⟨_, _, _, _, n3, n4, n5, n6, n7⟩ := hb
    refine life_bind_left h0 (hj1.2 n3 n4) fun hf _ => life_bind_left h0 (hh _) fun alg _ => life_bind_left h0 (hj2.2 n5 n6) fun pf hpf => ?_
    have hp := payload_life e.kc b pf (h pf (socJson_ok hpf))
    by_cases nt : b = .taIds
    · exact life_bind_right (G := Once) (hp.2.2 nt) fun p _ => (decrypt_life e b alg p u.mac params).1 (by rw [nt]; decide)
    · exact life_bind_left h0 (hp.1 n7 nt) fun p _ => (decrypt_life e b alg p u.mac params).2

/-- **C59 for containers whose fields have the expected types and lengths**: every block is freed exactly once, and no unset variable, NULL pointer or memory behind a literal is
used, whether the container is accepted or not.  Missing for the full property: the conditions of `WellTyped`, which the code does not check. -/
theorem C59_partial (e : SocEnv) (s : Bytes) (params : Option SocParams)
    (h : ∀ hd p m pl fields, splitDots s = some (hd, p, m) → e.kc.bio (b64Data e.kc p true) = some pl → parseJson e.kc pl = some (.obj fields) → WellTyped e.kc fields) :
    OnceFreed (socUnwrap e s params).evs ∧ ∀ x ∈ (socUnwrap e s params).evs, Clean x := by
  unfold socUnwrap
  simp only
  split
  · rename_i st hu
    exact ⟨(unpack_life _ _).1 st hu, unpack_clean _ _⟩
  · rename_i u hu
    obtain ⟨hd, p, m, a1, a2, a3, a4⟩ := socUnpack_ok hu
    have hw : ∀ fields, parseJson e.kc u.payload = some (.obj fields) → WellTyped e.kc fields := fun fields hf => h hd p m u.payload fields a1 a3 hf
    simp only
    constructor
    · intro b
      obtain ⟨p1, p2, p3⟩ := body_life e b u params hw
      obtain ⟨q1, q2⟩ := (unpack_life e.kc s).2 u hu b
      rw [life_append]
      unfold socFinalFree
      rw [life_filter_free b _ (by decide), life_append]
      have comb : ∀ l : List Bool, b ∈ finalBlocks → Open l → l ++ (if b ∈ finalBlocks ∧ true ∈ l then [false] else []) = [] ∨
          l ++ (if b ∈ finalBlocks ∧ true ∈ l then [false] else []) = [true, false] := by
        rintro l hb (rfl | rfl)
        · simp
        · simp [hb]
      by_cases hb : b ∈ finalBlocks
      · apply comb _ hb
        by_cases hb4 : b ∈ [Blk.mac, .header, .payload, .unpacked]
        · rw [p2 hb4, List.append_nil]; exact q1
        · simp only [List.mem_cons, List.not_mem_nil, or_false, not_or] at hb4
          rw [q2 hb4.2.1 hb4.2.2.1 hb4.1 hb4.2.2.2, List.nil_append]; exact p1 hb
      · have hb' : b ∉ finalBlocks := hb
        rw [if_neg (fun h => hb h.1), List.append_nil]
        simp only [finalBlocks, List.mem_cons, List.not_mem_nil, or_false, not_or] at hb
        obtain ⟨m1, m2, m3, m4, _⟩ := hb
        rw [q2 m2 m3 m1 m4, List.nil_append]
        exact p3 hb'
    · show All Clean _
      rw [all_append, all_append]
      refine ⟨⟨unpack_clean _ _, ?_⟩, frees_clean _⟩
      unfold socUnwrapBody
      refine all_bind (json_clean _ _ _ _) fun hf _ => all_bind (by rw [header_nil]; exact all_nil _) fun alg _ => all_bind (json_clean _ _ _ _) fun pf hpf => ?_
      have hwt := hw pf (socJson_ok hpf)
      refine all_bind (payload_clean _ _ hwt) fun pay hp => ?_
      have hpay := socParsePayload_ok hp
      obtain ⟨k, hk⟩ := hpay.keyType
      have h8 := hwt.keyType k _ hk
      unfold socDecryptKeyAndVerifyMac
      refine all_bind (aad_clean _ _ _ h8 ?_ ?_ ?_) fun aad _ => all_bind (keyType_clean _ _ _ ?_) fun info _ => ?_
      · obtain ⟨k, v, r, hf, hx, hr⟩ := hpay.c1
        obtain ⟨s, r', rfl, _, hb, hl⟩ := hwt.c1 k v hf
        rw [hr]; exact c_long _ _ _ _ _ _ hb hl hx
      · obtain ⟨k, v, r, hf, hx, hr⟩ := hpay.c2
        obtain ⟨s, r', rfl, hb, hl⟩ := hwt.c2 k v hf
        rw [hr]; exact c_long _ _ _ _ _ _ hb hl hx
      · obtain ⟨k, v, r, hf, hx, hr⟩ := hpay.c3
        obtain ⟨s, r', rfl, _, hb, hl⟩ := hwt.c3 k v hf
        rw [hr]; exact c_long _ _ _ _ _ _ hb hl hx
      · have : ∀ e ∈ socKeyTypes, 8 ≤ (ascii e.1).length + 1 := by decide
        exact fun e he => Nat.le_trans h8 (this e he)
      · unfold socDecrypt
        simp only [all_cons]
        exact ⟨clean_alloc _ _, clean_free _, all_nil _⟩

/-! Decoded text fits the blocks. -/

/-- Every decoding into a block fits the allocation of the block. -/
def FillsFit (es : List Ev) : Prop := ∀ b n, Ev.fill b n ∈ es → ∃ size, Ev.alloc b size ∈ es ∧ n ≤ size

theorem fits_append {x y : List Ev} (hx : FillsFit x) (hy : FillsFit y) : FillsFit (x ++ y) := by
  intro b n h
  rcases List.mem_append.1 h with h | h
  · obtain ⟨size, ha, hn⟩ := hx b n h; exact ⟨size, List.mem_append_left _ ha, hn⟩
  · obtain ⟨size, ha, hn⟩ := hy b n h; exact ⟨size, List.mem_append_right _ ha, hn⟩

theorem fits_bind {m : P α} {f : α → P β} (h1 : FillsFit m.evs) (h2 : ∀ a, m.res = .ok a → FillsFit (f a).evs) : FillsFit (m >>= f).evs := by
  cases hm : m.res with
  | error s => rw [bind_error hm]; exact h1
  | ok a => rw [bind_ok hm]; exact fits_append h1 (h2 a hm)

/-- No decoding into a block. -/
def NoFill (e : Ev) : Prop := ∀ b n, e ≠ .fill b n

theorem fits_none {es : List Ev} (h : All NoFill es) : FillsFit es := fun b n hm => absurd rfl (h _ hm b n)

theorem fits_nil : FillsFit [] := fun _ _ h => nomatch h
theorem nf_one {e : Ev} (h : ∀ b n, e ≠ .fill b n) : FillsFit [e] := fits_none (by rw [all_cons]; exact ⟨h, all_nil _⟩)

theorem b64_fits (env : Env) (he : env.Good) (b : Blk) (s : Bytes) (url : Bool) : FillsFit (.alloc b (b64DecodedLength s.length) :: (b64Decode env (.fill b) (some s) url).1) := by
  have hl := b64Decode_length env he (.fill b) s url
  have hu : All NoFill (if url = false ∧ s.length % 4 ≠ 0 then [Ev.uninit] else []) := by
    split
    · rw [all_cons]; exact ⟨(fun _ _ h => nomatch h), all_nil _⟩
    · exact all_nil _
  unfold b64Decode at hl ⊢
  simp only at hl ⊢
  intro c n h
  rcases List.mem_cons.1 h with h | h
  · exact nomatch h
  · split at h
    · exact absurd rfl (hu _ h c n)
    · rename_i r hr
      rw [hr] at hl
      rcases List.mem_append.1 h with h | h
      · exact absurd rfl (hu _ h c n)
      · rw [List.mem_singleton] at h
        cases h
        exact ⟨_, .head _, hl r rfl⟩

theorem b64_write_fits (env : Env) (f : Fld) (s : Option Bytes) (url : Bool) : FillsFit (b64Decode env (.write f 0) s url).1 := by
  refine fits_none ?_
  unfold b64Decode
  split
  · exact all_nil _
  · rename_i s
    have hu : All NoFill (if url = false ∧ s.length % 4 ≠ 0 then [Ev.uninit] else []) := by
      split
      · rw [all_cons]; exact ⟨(fun _ _ h => nomatch h), all_nil _⟩
      · exact all_nil _
    simp only
    split
    · exact hu
    · rw [all_append, all_cons]; exact ⟨hu, (fun _ _ h => nomatch h), all_nil _⟩

theorem len_fits (env : Env) (s : Option Bytes) : FillsFit (stringLength env s).evs := by
  cases s with
  | none => exact nf_one (fun _ _ h => nomatch h)
  | some s => exact fits_nil

theorem fixed_fits (env : Env) (f : Fld) (size : Nat) (url : Bool) (v : Js.Json) : FillsFit (socFixed env f size url v).evs := by
  unfold socFixed
  refine fits_bind (len_fits _ _) fun len _ => fits_bind (m := P.emit _) (b64_write_fits _ _ _ _) fun _ _ => ?_
  split
  · split <;> exact fits_nil
  · exact fits_nil

theorem encKey_fits (env : Env) (he : env.Good) (v : Js.Json) : FillsFit (socEncryptedKey env v).evs := by
  unfold socEncryptedKey
  cases Js.asString v with
  | none =>
    simp only
    refine fits_bind (len_fits _ _) fun len _ => fits_bind (m := P.emit _) (nf_one (fun _ _ h => nomatch h)) fun _ _ => fits_bind (m := P.emit _) fits_nil fun _ _ => ?_
    exact fits_bind (m := P.emit _) (nf_one (fun _ _ h => nomatch h)) fun _ _ => fits_nil
  | some s =>
    simp only
    rw [bind_ok (m := stringLength env (some s)) (a := s.length) rfl]
    simp only
    rw [bind_ok (m := P.emit _) (a := ()) rfl]
    simp only
    have hb := b64_fits env he .encryptedKey s false
    cases hd : (b64Decode env (.fill .encryptedKey) (some s) false).2 with
    | none =>
      have : FillsFit ((Ev.alloc .encryptedKey (b64DecodedLength s.length) :: (b64Decode env (.fill .encryptedKey) (some s) false).1) ++ [.free .encryptedKey]) :=
        fits_append hb (nf_one (fun _ _ h => nomatch h))
      exact this
    | some r =>
      have : FillsFit ((Ev.alloc .encryptedKey (b64DecodedLength s.length) :: (b64Decode env (.fill .encryptedKey) (some s) false).1) ++ []) := fits_append hb fits_nil
      exact this

theorem cmp_fits (env : Env) (s : Bytes) (l : String) : FillsFit (cmpLit env s l).evs := nf_one (fun _ _ h => nomatch h)

theorem root_fits (env : Env) (v : UInt8) (fields : List (Bytes × Js.Json)) : FillsFit (socRoot env v fields).evs := by
  unfold socRoot
  split
  · unfold socRootKeyType
    split
    · exact fits_nil
    · split
      · refine fits_bind (m := P.emit _) (nf_one (fun _ _ h => nomatch h)) fun _ _ => ?_
        split
        · exact fits_nil
        · exact fits_bind (m := P.emit _) (nf_one (fun _ _ h => nomatch h)) fun _ _ => fits_nil
      · refine fits_bind (cmp_fits _ _ _) fun b _ => ?_
        split
        · exact fits_nil
        · refine fits_bind (cmp_fits _ _ _) fun b _ => ?_
          split <;> exact fits_nil
  · exact fits_nil

theorem taIds_fits (env : Env) : (l : List Js.Json) → (i : Nat) → FillsFit (socTaIds env i l).evs
  | [], _ => fits_nil
  | v :: l, i => by
    unfold socTaIds
    split
    · refine fits_bind (m := P.emit _) (nf_one (fun _ _ h => nomatch h)) fun _ _ => ?_
      split
      · exact fits_bind (m := P.emit _) (nf_one (fun _ _ h => nomatch h)) fun _ _ => fits_nil
      · exact fits_bind (m := P.emit _) (nf_one (fun _ _ h => nomatch h)) fun _ _ => fits_nil
    · split
      · exact fits_bind (m := P.emit _) (nf_one (fun _ _ h => nomatch h)) fun _ _ => fits_nil
      · exact fits_bind (m := P.emit _) (nf_one (fun _ _ h => nomatch h)) fun _ _ => fits_bind (taIds_fits env l (i + 1)) fun _ _ => fits_nil

theorem entitled_fits (env : Env) (fields : List (Bytes × Js.Json)) : FillsFit (socEntitledTaIds env fields).evs := by
  unfold socEntitledTaIds
  split
  · exact fits_nil
  · split
    · exact fits_nil
    · refine fits_bind (m := P.emit _) (nf_one (fun _ _ h => nomatch h)) fun _ _ => fits_bind (taIds_fits _ _ _) fun _ _ => ?_
      exact fits_bind (m := P.emit _) (nf_one (fun _ _ h => nomatch h)) fun _ _ => fits_nil

theorem payload_fits (env : Env) (he : env.Good) (fields : List (Bytes × Js.Json)) : FillsFit (socParsePayload env fields).evs := by
  have hn : ∀ n, FillsFit (need n fields).evs := fun n => by rw [need_nil]; exact fits_nil
  unfold socParsePayload
  refine fits_bind (hn _) fun v1 _ => fits_bind (root_fits _ _ _) fun root _ => fits_bind (hn _) fun v2 _ => fits_bind (by rw [stringOf_nil]; exact fits_nil) fun kt _ => ?_
  refine fits_bind (hn _) fun v3 h3 => fits_bind (encKey_fits _ he _) fun ek _ => fits_bind (hn _) fun v4 h4 => fits_bind (fixed_fits _ _ _ _ _) fun iv _ => fits_bind (hn _) fun v5 _ => ?_
  refine fits_bind (entitled_fits _ _) fun ta _ => fits_bind (hn _) fun v6 h6 => fits_bind (fixed_fits _ _ _ _ _) fun c1 _ => ?_
  exact fits_bind (hn _) fun v7 h7 => fits_bind (fixed_fits _ _ _ _ _) fun c2 _ => fits_bind (hn _) fun v8 h8 => fits_bind (fixed_fits _ _ _ _ _) fun c3 _ => fits_nil

theorem put_fits (aad src : Bytes) : FillsFit (aadPut aad src).evs := nf_one (fun _ _ h => nomatch h)

theorem aadTaIds_fits : (l : List Bytes) → (aad : Bytes) → FillsFit (aadTaIds aad l).evs
  | [], _ => fits_nil
  | _ :: l, _ => fits_bind (put_fits _ _) fun _ _ => aadTaIds_fits l _

theorem ladder_fits (env : Env) (c : Bytes) : FillsFit (ladderInput env c).evs := by
  unfold ladderInput
  simp only
  split
  · exact nf_one (fun _ _ h => nomatch h)
  · exact fits_nil

theorem aad_fits (env : Env) (alg : Bytes) (p : Payload) : FillsFit (socBuildAad env alg p).evs := by
  unfold socBuildAad
  refine fits_bind ?_ fun b hb => ?_
  · unfold isA128Gcm; split
    · exact fits_nil
    · exact cmp_fits _ _ _
  split
  · exact fits_nil
  refine fits_bind (put_fits _ _) fun _ _ => ?_
  split
  · exact fits_nil
  refine fits_bind (put_fits _ _) fun _ _ => fits_bind ?_ fun _ _ => ?_
  · unfold aadRoot
    split
    · split
      · exact put_fits _ _
      · exact put_fits _ _
      · exact fits_nil
    · exact fits_nil
  split
  · exact fits_nil
  refine fits_bind (put_fits _ _) fun _ _ => ?_
  split
  · exact fits_nil
  refine fits_bind ?_ fun _ _ => ?_
  · unfold isKeyOnlyHmac isHmacName
    split
    · refine fits_bind (cmp_fits _ _ _) fun b _ => ?_
      split
      · exact fits_nil
      · refine fits_bind (cmp_fits _ _ _) fun b _ => ?_
        split
        · exact fits_nil
        · exact cmp_fits _ _ _
    · exact fits_nil
  split
  · exact fits_nil
  refine fits_bind (put_fits _ _) fun _ _ => fits_bind ?_ fun _ _ => ?_
  · unfold aadDecUsage
    split
    · split
      · exact fits_nil
      · exact put_fits _ _
    · exact fits_nil
  refine fits_bind (put_fits _ _) fun _ _ => fits_bind (ladder_fits _ _) fun _ _ => fits_bind (put_fits _ _) fun _ _ => fits_bind (ladder_fits _ _) fun _ _ => ?_
  refine fits_bind (put_fits _ _) fun _ _ => fits_bind (ladder_fits _ _) fun _ _ => fits_bind (put_fits _ _) fun _ _ => ?_
  split
  · exact fits_nil
  · exact aadTaIds_fits _ _

theorem keyType_fits (env : Env) (s : Bytes) : (l : List (String × KeyInfo)) → FillsFit (socKeyTypeFrom env s l).evs
  | [] => fits_nil
  | (n, i) :: l => by
    unfold socKeyTypeFrom
    refine fits_bind (cmp_fits _ _ _) fun b _ => ?_
    split
    · exact fits_nil
    · exact keyType_fits env s l

theorem unpack_fits (env : Env) (he : env.Good) (s : Bytes) : FillsFit (socUnpack env s).evs := by
  have hp : ∀ b t, FillsFit (socUnpackPart env b t).evs := fun b t => b64_fits env he b t true
  have hb : FillsFit (.alloc .unpacked 112 :: (socUnpackBody env s).evs) := by
    rw [← List.singleton_append]
    refine fits_append (nf_one (fun _ _ h => nomatch h)) ?_
    unfold socUnpackBody
    split
    · exact fits_nil
    · exact fits_bind (hp _ _) fun _ _ => fits_bind (hp _ _) fun _ _ => fits_bind (hp _ _) fun _ _ => fits_nil
  unfold socUnpack
  simp only
  split
  · exact hb
  · refine fits_append hb (fits_none ?_)
    intro e he'
    unfold socUnpackedFree at he'
    rcases List.mem_append.1 he' with h | h
    · rw [List.mem_map] at h; obtain ⟨b, _, rfl⟩ := h; exact fun _ _ h => nomatch h
    · rw [List.mem_singleton] at h; rw [h]; exact fun _ _ h => nomatch h

/-- **Heap blocks are large enough, for all containers**: whatever is decoded into an allocated block fits it. -/
theorem C59_fills (e : SocEnv) (he : e.kc.Good) (s : Bytes) (params : Option SocParams) : FillsFit (socUnwrap e s params).evs := by
  unfold socUnwrap
  simp only
  split
  · exact unpack_fits _ he _
  · rename_i u hu
    refine fits_append (fits_append (unpack_fits _ he _) ?_) (fits_none ?_)
    · unfold socUnwrapBody
      have hj : ∀ a b t, FillsFit (socJson e.kc a b t).evs := by
        intro a b t
        refine fits_none ?_
        unfold socJson
        split
        · exact all_nil _
        · split
          · rw [all_cons]; exact ⟨(fun _ _ h => nomatch h), all_nil _⟩
          · rw [all_cons, all_cons]; exact ⟨(fun _ _ h => nomatch h), (fun _ _ h => nomatch h), all_nil _⟩
      refine fits_bind (hj _ _ _) fun hf _ => fits_bind (by rw [header_nil]; exact fits_nil) fun alg _ => fits_bind (hj _ _ _) fun pf _ => ?_
      refine fits_bind (payload_fits _ he _) fun pay _ => ?_
      unfold socDecryptKeyAndVerifyMac
      refine fits_bind (aad_fits _ _ _) fun aad _ => fits_bind (keyType_fits _ _ _) fun info _ => ?_
      unfold socDecrypt
      refine fits_none ?_
      simp only [all_cons]
      exact ⟨(fun _ _ h => nomatch h), (fun _ _ h => nomatch h), all_nil _⟩
    · intro x hx
      unfold socFinalFree at hx
      rw [List.mem_map] at hx
      obtain ⟨b, _, rfl⟩ := hx
      exact fun _ _ h => nomatch h

/-! The sample container meets the conditions of `C59_partial`. -/

/-- The payload of the sample container: version 5, all fields present. -/
def fine : List Js.Event :=
  Sample.payloadEvents [("containerVersion", [.int 5]), ("rootKeyType", Sample.str "common"), ("keyType", Sample.str "AES-128"), ("encryptedKey", Sample.str Sample.b16),
    ("iv", Sample.str Sample.b12), ("keyUsage", [.int 1]), ("entitledTaIds", [.startArr, .str (List.replicate 36 0x30), .endArr]),
    ("c1", Sample.str Sample.b16), ("c2", Sample.str Sample.b16), ("c3", Sample.str Sample.b16)]

/-- Decidable form of `WellTyped`. -/
def wellTypedB (env : Env) (fields : List (Bytes × Js.Json)) : Bool :=
  let dec := fun (name : String) (url : Bool) (size : Nat) =>
    match Js.find (ascii name) fields with
    | none => true
    | some (_, .str s) => (url || s.length % 4 == 0) && (match env.bio (b64Data env s url) with | some r => decide (r.length ≥ size) | none => false)
    | _ => false
  dec "encryptedKey" false 0 && dec "c1" false 16 && dec "c2" true 16 && dec "c3" false 16 && dec "iv" false 0 &&
    (match Js.find (ascii "entitledTaIds") fields with | some (_, .arr l) => l.all (fun v => match v with | .str _ => true | _ => false) | _ => true) &&
    (match Js.find (ascii "keyType") fields with | some (_, .str s) => decide (s.length ≤ 8) | _ => true) &&
    (match Js.find (ascii "rootKeyType") fields with | none => true | some (_, .str s) => decide (s.length ≤ 7) | _ => false)

theorem wellTypedB_spec (env : Env) (fields : List (Bytes × Js.Json)) (h : wellTypedB env fields = true) : WellTyped env fields := by
  have dec : ∀ (name : String) (url : Bool) (size : Nat) (k : Bytes) (v : Js.Json),
      (match Js.find (ascii name) fields with
        | none => true
        | some (_, .str s) => (url || s.length % 4 == 0) && (match env.bio (b64Data env s url) with | some r => decide (r.length ≥ size) | none => false)
        | _ => false) = true →
      Js.find (ascii name) fields = some (k, v) → ∃ s r, v = .str s ∧ (url = true ∨ Groups s) ∧ env.bio (b64Data env s url) = some r ∧ r.length ≥ size := by
    intro name url size k v h hf
    rw [hf] at h
    cases v with
    | str s =>
      simp only [Bool.and_eq_true, Bool.or_eq_true, beq_iff_eq] at h
      obtain ⟨h1, h2⟩ := h
      split at h2
      · rename_i r hr; exact ⟨s, r, rfl, h1, hr, by simpa using h2⟩
      · exact nomatch h2
    | _ => exact nomatch h
  have drop : ∀ s, (false = true ∨ Groups s) → Groups s := fun s h => h.resolve_left (fun h => nomatch h)
  unfold wellTypedB at h
  simp only [Bool.and_eq_true] at h
  obtain ⟨⟨⟨⟨⟨⟨⟨h1, h2⟩, h3⟩, h4⟩, h5⟩, h6⟩, h7⟩, h8⟩ := h
  refine ⟨?_, ?_, ?_, ?_, ?_, ?_, ?_, ?_⟩
  · intro k v hf; rw [hf] at h8
    cases v with
    | str s => exact ⟨s, rfl, by simpa using h8⟩
    | _ => exact nomatch h8
  · intro k s hf; rw [hf] at h7; simpa using h7
  · intro k v hf; obtain ⟨s, r, a, b, c, _⟩ := dec _ _ _ k v h1 hf; exact ⟨s, r, a, drop _ b, c⟩
  · intro k v hf; obtain ⟨s, r, a, b, _, _⟩ := dec _ _ _ k v h5 hf; exact ⟨s, a, drop _ b⟩
  · intro k l hf v hv; rw [hf] at h6
    have := List.all_eq_true.1 h6 v hv
    cases v with
    | str s => exact ⟨s, rfl⟩
    | _ => exact nomatch this
  · intro k v hf; obtain ⟨s, r, a, b, c, d⟩ := dec _ _ _ k v h2 hf; exact ⟨s, r, a, drop _ b, c, d⟩
  · intro k v hf; obtain ⟨s, r, a, b, c, d⟩ := dec _ _ _ k v h3 hf; exact ⟨s, r, a, c, d⟩
  · intro k v hf; obtain ⟨s, r, a, b, c, d⟩ := dec _ _ _ k v h4 hf; exact ⟨s, r, a, drop _ b, c, d⟩

example : ∀ hd p m pl fields, splitDots Sample.text = some (hd, p, m) → (Sample.socEnv fine 0).kc.bio (b64Data (Sample.socEnv fine 0).kc p true) = some pl →
    parseJson (Sample.socEnv fine 0).kc pl = some (.obj fields) → WellTyped (Sample.socEnv fine 0).kc fields := by
  intro hd p m pl fields h1 h2 h3
  apply wellTypedB_spec
  have e1 : splitDots Sample.text = some (ascii "hhhh", ascii "pppp", ascii "mmmm") := by decide +kernel
  rw [e1] at h1
  cases h1
  have e2 : (Sample.socEnv fine 0).kc.bio (b64Data (Sample.socEnv fine 0).kc (ascii "pppp") true) = some (ascii "ppp") := by decide +kernel
  rw [e2] at h2
  cases h2
  have e3 : (match parseJson (Sample.socEnv fine 0).kc (ascii "ppp") with | some (.obj l) => wellTypedB (Sample.socEnv fine 0).kc l | _ => true) = true := by decide +kernel
  rw [h3] at e3
  exact e3

/-- It is accepted; all its blocks are allocated. -/
example : Sample.outcome (socUnwrap (Sample.socEnv fine 0) Sample.text none) = some (0, 16) ∧
    ∀ b ∈ [Blk.unpacked, .header, .payload, .mac, .headerJson, .headerFields, .payloadJson, .payloadFields, .encryptedKey, .taIds, .key],
      life b (socUnwrap (Sample.socEnv fine 0) Sample.text none).evs = [true, false] := by decide +kernel

/-- **Violated for frees**: an encrypted key that is not a string is freed twice; the container need not be authentic. -/
theorem C59_violated_double_free : ∃ (e : SocEnv) (s : Bytes), e.kc.Good ∧ life .encryptedKey (socUnwrap e s none).evs = [true, false, false] :=
  ⟨Sample.socEnv (Sample.payload "AES-128" [.int 7] (Sample.str Sample.b12) [.startArr, .endArr]) 0, ascii "hhhh.pppp.nnnn", Sample.env_good _ _ _, by decide +kernel⟩

/-- **Violated for unset variables and leaks**: an identifier that is not a string is compared with an unset length; if that happens to be 36, NULL is read. -/
theorem C59_violated_unset : ∃ (e : SocEnv) (s : Bytes), e.kc.Good ∧ Ev.uninit ∈ (socUnwrap e s none).evs ∧ Ev.null ∈ (socUnwrap e s none).evs :=
  ⟨Sample.socEnv (Sample.payload "AES-128" (Sample.str Sample.b16) (Sample.str Sample.b12) [.startArr, .int 7, .endArr]) 36, ascii "hhhh.pppp.nnnn",
    Sample.env_good _ _ _, by decide +kernel, by decide +kernel⟩

/-- **Violated for ladder inputs**: a ladder input of 3 bytes is accepted; the other 13 bytes are unset memory. -/
theorem C59_violated_ladder : ∃ (e : SocEnv) (s : Bytes), e.kc.Good ∧ Ev.write .c2 0 3 ∈ (socUnwrap e s none).evs ∧ Ev.uninit ∈ (socUnwrap e s none).evs ∧
    Sample.outcome (socUnwrap e s none) = some (0, 16) :=
  ⟨Sample.socEnv (Sample.payloadEvents [("containerVersion", [.int 4]), ("keyType", Sample.str "AES-128"), ("encryptedKey", Sample.str Sample.b16),
      ("iv", Sample.str Sample.b12), ("keyUsage", [.int 1]), ("c1", Sample.str Sample.b16), ("c2", Sample.str "AAAA"), ("c3", Sample.str Sample.b16)]) 0, Sample.text,
    Sample.env_good _ _ _, by decide +kernel, by decide +kernel, by decide +kernel⟩

/-- **Violated for literals**: a root key type of 12 characters makes the comparison read 12 bytes of a literal of 7. -/
theorem C59_violated_literal : ∃ (e : SocEnv) (s : Bytes), e.kc.Good ∧ Ev.readLit 7 12 ∈ (socUnwrap e s none).evs :=
  ⟨Sample.socEnv (Sample.payloadEvents [("containerVersion", [.int 5]), ("rootKeyType", Sample.str "abcdefghijkl")]) 0, Sample.text, Sample.env_good _ _ _, by decide +kernel⟩

end Sa.Kc.C59

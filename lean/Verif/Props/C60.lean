import Verif.Props.C42

/-!
# C60: what the tag of an SoC container protects

`authData` is the documented layout of the authenticated data (soc_key_container.h and the comments of `build_aad`).  `C60_partial`: if a container yields a key, a non-empty
tag was given that agrees with the GCM tag over the encrypted key and `authData` of what the container says, under the key that the ladder derives from what it says;
and the stored key is the decryption.  `C60_binding`: that data determines everything it is built from, so nobody can change the meaning of a container without changing the
authenticated data.  The whole tag should be demanded, but is not (`C60_violated`).
-/

namespace Sa.Kc.C60

/-- What a container says apart from the encrypted key. -/
structure Meaning where
  version : UInt8
  root : Root
  keyType : Bytes
  usage : UInt8
  /-- usage of the keys this key unwraps, if it is for unwrapping -/
  decUsage : UInt8
  iv : Bytes
  c1 : Bytes
  c2 : Bytes
  c3 : Bytes
  /-- in lower case -/
  tas : List Bytes

def rootName : Root → String
  | .undefined => ""
  | .unique => "unique"
  | .common => "common"

/-- Layout of the authenticated data. -/
def authData (m : Meaning) : Bytes :=
  ascii "A128GCM" ++ [m.version] ++ ascii (rootName m.root) ++ m.keyType ++ [m.usage] ++ (if m.usage = 2 then [m.decUsage] else []) ++
    m.iv ++ m.c1 ++ m.c2 ++ m.c3 ++ m.tas.flatten

/-- The byte `c` in lower case. -/
def lower (c : UInt8) : UInt8 := if 'A'.toNat ≤ c.toNat ∧ c.toNat ≤ 'Z'.toNat then UInt8.ofNat (c.toNat + 32) else c

theorem lower_eq (c : UInt8) : lower c = lowerChar c := by
  have : ∀ n : Fin 256, lower (UInt8.ofNat n.val) = lowerChar (UInt8.ofNat n.val) := by decide +kernel
  have h := this ⟨c.toNat, c.toNat_lt⟩
  simpa using h

/-- `m` is what the fields of the payload say.  Strings of base64 text have the meaning the base64 library gives them. -/
structure Says (env : Env) (fields : List (Bytes × Js.Json)) (m : Meaning) : Prop where
  version : ∃ k v, Js.find (ascii "containerVersion") fields = some (k, v) ∧ (m.version.toNat : Int) = Js.asInteger v % 256
  noRoot : m.version < 5 ∨ Js.find (ascii "rootKeyType") fields = none → m.root = .undefined
  root : ∀ k s, m.version ≥ 5 → Js.find (ascii "rootKeyType") fields = some (k, .str s) → (0 : UInt8) ∉ s → s ≠ [] →
    m.root ≠ .undefined ∧ s <+: ascii (rootName m.root)
  keyType : ∃ k, Js.find (ascii "keyType") fields = some (k, .str m.keyType)
  usage : ∃ k v, Js.find (ascii "keyUsage") fields = some (k, v) ∧ (m.usage.toNat : Int) = Js.asInteger v % 256
  decUsage : m.usage = 2 → ∃ k v, Js.find (ascii "decryptedKeyUsage") fields = some (k, v) ∧ (m.decUsage.toNat : Int) = Js.asInteger v % 256
  iv : ∀ k s r, Js.find (ascii "iv") fields = some (k, .str s) → env.bio (b64Data env s false) = some r → r.length = 12 → m.iv = r
  c1 : ∀ k s r, Js.find (ascii "c1") fields = some (k, .str s) → env.bio (b64Data env s false) = some r → r.length = 16 → m.c1 = r
  c2 : ∀ k s r, Js.find (ascii "c2") fields = some (k, .str s) → env.bio (b64Data env s true) = some r → r.length = 16 → m.c2 = r
  c3 : ∀ k s r, Js.find (ascii "c3") fields = some (k, .str s) → env.bio (b64Data env s false) = some r → r.length = 16 → m.c3 = r
  noTas : Js.find (ascii "entitledTaIds") fields = none → m.tas = []
  tas : ∀ k l, Js.find (ascii "entitledTaIds") fields = some (k, .arr l) → ∃ ss : List Bytes, l = ss.map .str ∧ m.tas = ss.map (·.map lower)

/-- Meanings of accepted containers. -/
structure Sensible (m : Meaning) : Prop where
  version : m.version ≥ 4
  root : m.version < 5 → m.root = .undefined
  keyType : m.keyType ≠ [] ∧ ∃ d ∈ C42.documented, m.keyType <+: ascii d.1
  usage : 1 ≤ m.usage ∧ m.usage ≤ 3
  decUsage : (m.usage = 2 → 1 ≤ m.decUsage ∧ m.decUsage ≤ 3) ∧ (m.usage ≠ 2 → m.decUsage = 0)
  iv : m.iv.length = 12
  c1 : m.c1.length = 16
  c2 : m.c2.length = 16
  c3 : m.c3.length = 16
  tas : m.tas.length ≤ 32 ∧ ∀ t ∈ m.tas, t.length = 36

/-! The data determines the meaning. -/

/-- The part of the data before the usage contains none of the bytes 1, 2, 3. -/
theorem split_at {p : UInt8 → Bool} : {x y : Bytes} → {a b : UInt8} → {r s : Bytes} → (∀ c ∈ x, p c = false) → (∀ c ∈ y, p c = false) → p a = true → p b = true →
    x ++ a :: r = y ++ b :: s → x = y ∧ a = b ∧ r = s
  | [], [], _, _, _, _, _, _, _, _, h => by cases h; exact ⟨rfl, rfl, rfl⟩
  | [], c :: y, a, _, _, _, _, hy, ha, _, h => by
    simp only [List.nil_append, List.cons_append, List.cons.injEq] at h
    rw [h.1, hy c (.head _)] at ha; exact nomatch ha
  | c :: x, [], _, b, _, _, hx, _, _, hb, h => by
    simp only [List.nil_append, List.cons_append, List.cons.injEq] at h
    rw [← h.1, hx c (.head _)] at hb; exact nomatch hb
  | c :: x, d :: y, _, _, _, _, hx, hy, ha, hb, h => by
    simp only [List.cons_append, List.cons.injEq] at h
    obtain ⟨rfl, h⟩ := h
    obtain ⟨h1, h2, h3⟩ := split_at (fun c h => hx c (.tail _ h)) (fun c h => hy c (.tail _ h)) ha hb h
    exact ⟨by rw [h1], h2, h3⟩

/-- Pieces of equal size. -/
theorem flatten_inj : {x y : List Bytes} → (∀ t ∈ x, t.length = 36) → (∀ t ∈ y, t.length = 36) → x.flatten = y.flatten → x = y
  | [], [], _, _, _ => rfl
  | [], t :: y, _, hy, h => by
    have := congrArg List.length h
    simp only [List.flatten_nil, List.flatten_cons, List.length_append, List.length_nil, hy t (.head _)] at this
    omega
  | t :: x, [], hx, _, h => by
    have := congrArg List.length h
    simp only [List.flatten_nil, List.flatten_cons, List.length_append, List.length_nil, hx t (.head _)] at this
    omega
  | t :: x, u :: y, hx, hy, h => by
    simp only [List.flatten_cons] at h
    obtain ⟨h1, h2⟩ := List.append_inj h (by rw [hx t (.head _), hy u (.head _)])
    rw [h1, flatten_inj (fun c h => hx c (.tail _ h)) (fun c h => hy c (.tail _ h)) h2]

def small (c : UInt8) : Bool := 1 ≤ c && c ≤ 3

theorem names_big : ∀ d ∈ C42.documented, (∀ c ∈ ascii d.1, small c = false) ∧ ((ascii d.1).headD 0 ≠ 0x75 ∧ (ascii d.1).headD 0 ≠ 0x63) := by decide +kernel

theorem prefix_mem {x y : Bytes} (h : x <+: y) (c : UInt8) (hc : c ∈ x) : c ∈ y := h.subset hc

/-- The name of the root and the key type can be told apart. -/
theorem root_keyType {r1 r2 : Root} {k1 k2 : Bytes} (h1 : k1 ≠ [] ∧ ∃ d ∈ C42.documented, k1 <+: ascii d.1) (h2 : k2 ≠ [] ∧ ∃ d ∈ C42.documented, k2 <+: ascii d.1)
    (h : ascii (rootName r1) ++ k1 = ascii (rootName r2) ++ k2) : r1 = r2 ∧ k1 = k2 := by
  have head : ∀ k : Bytes, (k ≠ [] ∧ ∃ d ∈ C42.documented, k <+: ascii d.1) → ∃ c t, k = c :: t ∧ c ≠ 0x75 ∧ c ≠ 0x63 := by
    rintro k ⟨hk, d, hd, hp⟩
    cases k with
    | nil => exact absurd rfl hk
    | cons c t =>
      obtain ⟨t', ht⟩ := hp
      have := (names_big d hd).2
      rw [← ht] at this
      exact ⟨c, t, rfl, this⟩
  obtain ⟨c1, t1, rfl, n1, n1'⟩ := head k1 h1
  obtain ⟨c2, t2, rfl, n2, n2'⟩ := head k2 h2
  have e1 : ascii (rootName .undefined) = [] := rfl
  have e2 : ascii (rootName .unique) = [0x75, 0x6e, 0x69, 0x71, 0x75, 0x65] := rfl
  have e3 : ascii (rootName .common) = [0x63, 0x6f, 0x6d, 0x6d, 0x6f, 0x6e] := rfl
  cases r1 <;> cases r2 <;> simp only [e1, e2, e3, List.nil_append, List.cons_append, List.cons.injEq] at h <;>
    first
      | exact ⟨rfl, by simp only [List.cons.injEq]; simp_all⟩
      | (exfalso; obtain ⟨h, _⟩ := h; first | exact n1 h | exact n1' h | exact n2 h.symm | exact n2' h.symm | exact absurd h (by decide))

/-- **C60, the authenticated data determines the meaning.** -/
theorem C60_binding (m n : Meaning) (hm : Sensible m) (hn : Sensible n) (h : authData m = authData n) : m = n := by
  have wf : ∀ m : Meaning, authData m = ascii "A128GCM" ++ (m.version :: ((ascii (rootName m.root) ++ m.keyType) ++ m.usage ::
      ((if m.usage = 2 then [m.decUsage] else []) ++ (m.iv ++ (m.c1 ++ (m.c2 ++ (m.c3 ++ m.tas.flatten))))))) := by
    intro m; simp only [authData, List.append_assoc, List.singleton_append, List.cons_append, List.nil_append]
  rw [wf, wf] at h
  have h := List.append_cancel_left h
  simp only [List.cons.injEq] at h
  obtain ⟨hv, h⟩ := h
  have big : ∀ m : Meaning, Sensible m → ∀ c ∈ ascii (rootName m.root) ++ m.keyType, small c = false := by
    intro m hm c hc
    rcases List.mem_append.1 hc with hc | hc
    · have : ∀ r : Root, ∀ c ∈ ascii (rootName r), small c = false := by intro r; cases r <;> decide
      exact this _ c hc
    · obtain ⟨d, hd, hp⟩ := hm.keyType.2
      exact (names_big d hd).1 c (prefix_mem hp c hc)
  have us : ∀ m : Meaning, Sensible m → small m.usage = true := by
    intro m hm; simp only [small, Bool.and_eq_true, decide_eq_true_eq]; exact hm.usage
  obtain ⟨h1, h2, h⟩ := split_at (big m hm) (big n hn) (us m hm) (us n hn) h
  obtain ⟨hr, hk⟩ := root_keyType hm.keyType hn.keyType h1
  have h3 : m.decUsage = n.decUsage ∧ m.iv ++ (m.c1 ++ (m.c2 ++ (m.c3 ++ m.tas.flatten))) = n.iv ++ (n.c1 ++ (n.c2 ++ (n.c3 ++ n.tas.flatten))) := by
    by_cases hu : m.usage = 2
    · rw [if_pos hu, if_pos (by rw [← h2]; exact hu)] at h
      simp only [List.singleton_append, List.cons.injEq] at h
      exact h
    · rw [if_neg hu, if_neg (by rw [← h2]; exact hu)] at h
      exact ⟨by rw [hm.decUsage.2 hu, hn.decUsage.2 (by rw [← h2]; exact hu)], h⟩
  obtain ⟨hd, h⟩ := h3
  obtain ⟨hi, h⟩ := List.append_inj h (by rw [hm.iv, hn.iv])
  obtain ⟨hc1, h⟩ := List.append_inj h (by rw [hm.c1, hn.c1])
  obtain ⟨hc2, h⟩ := List.append_inj h (by rw [hm.c2, hn.c2])
  obtain ⟨hc3, h⟩ := List.append_inj h (by rw [hm.c3, hn.c3])
  have ht := flatten_inj hm.tas.2 hn.tas.2 h
  cases m; cases n
  simp only at hv hr hk h2 hd hi hc1 hc2 hc3 ht
  subst hv hr hk h2 hd hi hc1 hc2 hc3 ht
  rfl

/-! Accepted containers. -/

/-- The meaning of the payload. -/
def meaningOf (env : Env) (p : Payload) : Meaning :=
  let full := fun c : Bytes => c ++ env.junk (16 - c.length)
  ⟨p.version, if p.version ≥ 5 then p.root else .undefined, p.keyType, p.usage, p.decUsage, p.iv, full p.c1, full p.c2, full p.c3, p.taIds.map (·.map lower)⟩

theorem aadTaIds_ok : (l : List Bytes) → (aad : Bytes) → (aadTaIds aad l).res = .ok (aad ++ (l.map (·.map lower)).flatten)
  | [], aad => by show Except.ok aad = _; simp
  | id :: l, aad => by
    have : (id.map lower) = id.map lowerChar := by simp only [funext lower_eq]
    show (aadPut aad (id.map lowerChar) >>= fun aad => aadTaIds aad l).res = _
    rw [bind_ok (a := aad ++ id.map lowerChar) rfl]
    simp only [aadTaIds_ok l, List.map_cons, List.flatten_cons, this, List.append_assoc]

theorem aadRoot_ok (aad : Bytes) (p : Payload) {r : Bytes} (h : (aadRoot aad p).res = .ok r) : r = aad ++ ascii (rootName (if p.version ≥ 5 then p.root else .undefined)) := by
  unfold aadRoot at h
  split at h
  · rename_i hv
    rw [if_pos hv]
    cases hr : p.root <;> rw [hr] at h <;> cases h
    · exact (List.append_nil aad).symm
    · rfl
    · rfl
  · rename_i hv
    rw [if_neg hv]
    cases h
    exact (List.append_nil aad).symm

theorem aadDecUsage_ok (aad : Bytes) (p : Payload) {r : Bytes} (h : (aadDecUsage aad p).res = .ok r) :
    r = aad ++ (if p.usage = 2 then [p.decUsage] else []) ∧ (p.usage = 2 → 1 ≤ p.decUsage ∧ p.decUsage ≤ 3) := by
  unfold aadDecUsage at h
  split at h
  · rename_i hu
    split at h
    · exact nomatch h
    · rename_i hd
      cases h
      rw [if_pos hu]
      refine ⟨rfl, fun _ => ?_⟩
      rw [not_or] at hd
      obtain ⟨a, b⟩ := hd
      have a' : p.decUsage.toNat ≠ 0 := fun h => a (UInt8.toNat_inj.1 h)
      constructor
      · rw [UInt8.le_iff_toNat_le]; show 1 ≤ _; omega
      · exact UInt8.not_lt.1 b
  · rename_i hu
    cases h
    rw [if_neg hu, List.append_nil]
    exact ⟨rfl, fun h => absurd h hu⟩

theorem isA128Gcm_ok (env : Env) (alg : Bytes) (h : (isA128Gcm env alg).res = .ok true) : alg = ascii "A128GCM" := by
  unfold isA128Gcm at h
  split at h
  · exact nomatch h
  · rename_i hl
    have hl : alg.length = 7 := Classical.byContradiction hl
    unfold cmpLit at h
    simp only [Except.ok.injEq, beq_iff_eq] at h
    rw [hl] at h
    exact h.symm

/-- The data built by the code has the documented layout. -/
theorem socBuildAad_ok {env : Env} {alg : Bytes} {p : Payload} {aad : Bytes} (h : (socBuildAad env alg p).res = .ok aad) :
    alg = ascii "A128GCM" ∧ aad = authData (meaningOf env p) ∧ p.version ≥ 4 ∧ p.keyType ≠ [] ∧ (1 ≤ p.usage ∧ p.usage ≤ 3) ∧
      (p.usage = 2 → 1 ≤ p.decUsage ∧ p.decUsage ≤ 3) ∧ p.taIds.length ≤ 32 := by
  unfold socBuildAad at h
  obtain ⟨b, hb, h, _⟩ := bind_res h
  cases b with
  | false => exact nomatch h
  | true =>
  have ha := isA128Gcm_ok env alg hb
  simp only [Bool.not_true, Bool.false_eq_true, if_false] at h
  obtain ⟨a1, e1, h, _⟩ := bind_res h
  cases e1
  split at h
  · exact nomatch h
  rename_i hv
  obtain ⟨a2, e2, h, _⟩ := bind_res h
  cases e2
  obtain ⟨a3, e3, h, _⟩ := bind_res h
  have e3 := aadRoot_ok _ _ e3
  split at h
  · exact nomatch h
  rename_i hk
  obtain ⟨a4, e4, h, _⟩ := bind_res h
  cases e4
  split at h
  · exact nomatch h
  rename_i hu
  obtain ⟨hm, e5, h, _⟩ := bind_res h
  split at h
  · exact nomatch h
  obtain ⟨a6, e6, h, _⟩ := bind_res h
  cases e6
  obtain ⟨a7, e7, h, _⟩ := bind_res h
  obtain ⟨e7, hd⟩ := aadDecUsage_ok _ _ e7
  obtain ⟨a8, e8, h, _⟩ := bind_res h
  cases e8
  obtain ⟨c1, f1, h, _⟩ := bind_res h
  cases f1
  obtain ⟨a9, e9, h, _⟩ := bind_res h
  cases e9
  obtain ⟨c2, f2, h, _⟩ := bind_res h
  cases f2
  obtain ⟨a10, e10, h, _⟩ := bind_res h
  cases e10
  obtain ⟨c3, f3, h, _⟩ := bind_res h
  cases f3
  obtain ⟨a11, e11, h, _⟩ := bind_res h
  cases e11
  split at h
  · exact nomatch h
  rename_i ht
  rw [aadTaIds_ok] at h
  cases h
  refine ⟨ha, ?_, UInt8.not_lt.1 hv, fun h => hk (by rw [h]; rfl), ?_, hd, by omega⟩
  · rw [e7, e3, ha]
    simp only [authData, meaningOf, List.append_assoc, List.nil_append]
    rfl
  · rw [not_or] at hu
    have : p.usage.toNat ≠ 0 := fun h => hu.1 (UInt8.toNat_inj.1 h)
    exact ⟨by rw [UInt8.le_iff_toNat_le]; show 1 ≤ _; omega, UInt8.not_lt.1 hu.2⟩

theorem toU8_mod (n : Int) : ((toU8 n).toNat : Int) = n % 256 := by
  unfold toU8
  rw [UInt8.toNat_ofNat']
  omega

theorem fixed_eq {env : Env} {f : Fld} {size : Nat} {url : Bool} {s r x : Bytes} (hr : env.bio (b64Data env s url) = some r)
    (h : (socFixed env f size url (.str s)).res = .ok x) : x = r := by
  unfold socFixed at h
  obtain ⟨_, _, h, _⟩ := bind_res h
  obtain ⟨_, _, h, _⟩ := bind_res h
  simp only [Js.asString, b64Decode, hr] at h
  cases h
  rfl

theorem encKey_eq {env : Env} {s r x : Bytes} (hr : env.bio (b64Data env s false) = some r)
    (h : (socEncryptedKey env (.str s)).res = .ok x) : x = r := by
  unfold socEncryptedKey at h
  obtain ⟨_, _, h, _⟩ := bind_res h
  obtain ⟨_, _, h, _⟩ := bind_res h
  obtain ⟨_, _, h, _⟩ := bind_res h
  simp only [Js.asString, b64Decode, hr] at h
  cases h
  rfl

/-- A key is only decrypted from a string that can be decoded. -/
theorem encKey_str {env : Env} {v : Js.Json} {x : Bytes} (h : (socEncryptedKey env v).res = .ok x) : ∃ s, v = .str s ∧ env.bio (b64Data env s false) = some x := by
  cases v with
  | str s =>
    cases hr : env.bio (b64Data env s false) with
    | some r => exact ⟨s, rfl, by rw [hr, encKey_eq hr h]⟩
    | none =>
      unfold socEncryptedKey at h
      obtain ⟨_, _, h, _⟩ := bind_res h
      obtain ⟨_, _, h, _⟩ := bind_res h
      obtain ⟨_, _, h, _⟩ := bind_res h
      simp only [Js.asString, b64Decode, hr] at h
      obtain ⟨_, _, h, _⟩ := bind_res h
      exact nomatch h
  | _ =>
    unfold socEncryptedKey at h
    obtain ⟨_, _, h, _⟩ := bind_res h
    obtain ⟨_, _, h, _⟩ := bind_res h
    obtain ⟨_, _, h, _⟩ := bind_res h
    simp only [Js.asString, b64Decode] at h
    obtain ⟨_, _, h, _⟩ := bind_res h
    exact nomatch h

theorem taIds_ok (env : Env) : (l : List Js.Json) → (i : Nat) → (r : List Bytes) → (socTaIds env i l).res = .ok r → l = r.map .str ∧ ∀ t ∈ r, t.length = 36
  | [], _, _, h => by cases h; exact ⟨rfl, fun _ h => nomatch h⟩
  | v :: l, i, r, h => by
    unfold socTaIds at h
    split at h
    · obtain ⟨_, _, h, _⟩ := bind_res h
      split at h
      · obtain ⟨_, _, h, _⟩ := bind_res h; exact nomatch h
      · obtain ⟨_, _, h, _⟩ := bind_res h; exact nomatch h
    · rename_i s hs
      have hv : v = .str s := by
        cases v with
        | str s' => cases hs; rfl
        | _ => exact nomatch hs
      split at h
      · obtain ⟨_, _, h, _⟩ := bind_res h; exact nomatch h
      · rename_i hl
        obtain ⟨_, _, h, _⟩ := bind_res h
        obtain ⟨r', hr', h, _⟩ := bind_res h
        obtain ⟨h1, h2⟩ := taIds_ok env l (i + 1) r' hr'
        cases h
        refine ⟨by rw [hv, h1]; rfl, fun t ht => ?_⟩
        rcases List.mem_cons.1 ht with rfl | ht
        · exact Classical.byContradiction hl
        · exact h2 t ht

theorem entitled_ok {env : Env} {fields : List (Bytes × Js.Json)} {r : List Bytes} (h : (socEntitledTaIds env fields).res = .ok r) :
    (Js.find (ascii "entitledTaIds") fields = none → r = []) ∧ (∀ k l, Js.find (ascii "entitledTaIds") fields = some (k, .arr l) → l = r.map .str) ∧
    (∀ t ∈ r, t.length = 36) := by
  unfold socEntitledTaIds at h
  split at h
  · rename_i hf
    cases h
    exact ⟨(fun _ => rfl), (fun k l h => by rw [hf] at h; exact nomatch h), fun _ h => nomatch h⟩
  · rename_i k v hf
    split at h
    · rename_i ha
      cases h
      refine ⟨(fun _ => rfl), (fun k l h => ?_), fun _ h => nomatch h⟩
      rw [hf] at h; cases h; exact nomatch ha
    · rename_i l ha
      obtain ⟨_, _, h, _⟩ := bind_res h
      obtain ⟨r', hr', h, _⟩ := bind_res h
      obtain ⟨_, _, h, _⟩ := bind_res h
      obtain ⟨h1, h2⟩ := taIds_ok env l 0 r' hr'
      cases h
      refine ⟨(fun h => by rw [hf] at h; exact nomatch h), (fun k l' h => ?_), h2⟩
      rw [hf] at h; cases h; cases ha; exact h1

theorem cmp_prefix {env : Env} {s : Bytes} {name : String} (h0 : (0 : UInt8) ∉ s) (h : (cmpLit env s name).res = .ok true) : s <+: ascii name := by
  apply C42.matches_prefix env s name h0
  unfold cmpLit at h
  simp only [Except.ok.injEq] at h
  exact h

theorem root_ok {env : Env} {v : UInt8} {fields : List (Bytes × Js.Json)} {r : Root} (h : (socRoot env v fields).res = .ok r) :
    (v < 5 ∨ Js.find (ascii "rootKeyType") fields = none → r = .undefined) ∧
    (∀ k s, v ≥ 5 → Js.find (ascii "rootKeyType") fields = some (k, .str s) → (0 : UInt8) ∉ s → s ≠ [] → r ≠ .undefined ∧ s <+: ascii (rootName r)) := by
  unfold socRoot at h
  split at h
  · rename_i hv
    unfold socRootKeyType at h
    split at h
    · rename_i hf
      cases h
      exact ⟨(fun _ => rfl), fun k s _ h => by rw [hf] at h; exact nomatch h⟩
    · rename_i k w hf
      refine ⟨fun h' => ?_, fun k' s _ h' h0 _ => ?_⟩
      · rcases h' with h' | h'
        · exact absurd hv (UInt8.not_le.2 h')
        · rw [hf] at h'; exact nomatch h'
      · rw [hf] at h'
        cases h'
        simp only [Js.asString] at h
        obtain ⟨b, hb, h, _⟩ := bind_res h
        cases b with
        | true =>
          cases h
          exact ⟨(fun h => nomatch h), cmp_prefix h0 hb⟩
        | false =>
          simp only [Bool.false_eq_true, if_false] at h
          obtain ⟨b, hb, h, _⟩ := bind_res h
          cases b with
          | true =>
            cases h
            exact ⟨(fun h => nomatch h), cmp_prefix h0 hb⟩
          | false => exact nomatch h
  · rename_i hv
    cases h
    exact ⟨(fun _ => rfl), fun k s h _ => absurd h hv⟩

theorem full_eq (env : Env) (r : Bytes) (h : r.length = 16) (he : env.Good) : r.take 16 ++ env.junk (16 - (r.take 16).length) = r := by
  have h1 : r.take 16 = r := List.take_of_length_le (by omega)
  rw [h1, h]
  have := he.junk (16 - 16)
  have h2 : env.junk (16 - 16) = [] := List.eq_nil_of_length_eq_zero this
  rw [h2, List.append_nil]

theorem meaning_says {env : Env} (he : env.Good) {fields : List (Bytes × Js.Json)} {pay : Payload} (h : PayloadOf env fields pay)
    (hd : pay.usage = 2 → 1 ≤ pay.decUsage) : Says env fields (meaningOf env pay) := by
  obtain ⟨r1, r2⟩ := root_ok h.root
  obtain ⟨t1, t2, _⟩ := entitled_ok h.taIds
  refine ⟨?_, fun hv => ?_, fun k s hv hf h0 hs => ?_, h.keyType, ?_, fun hu => ?_, ?_, ?_, ?_, ?_, ?_, ?_⟩
  · obtain ⟨k, v, hf, hv⟩ := h.version
    exact ⟨k, v, hf, by rw [meaningOf]; simp only [hv, toU8_mod]⟩
  · simp only [meaningOf] at hv ⊢
    split
    · exact r1 hv
    · rfl
  · simp only [meaningOf] at hv ⊢
    rw [if_pos hv]
    exact r2 k s hv hf h0 hs
  · obtain ⟨k, v, hf, hv⟩ := h.usage
    exact ⟨k, v, hf, by rw [meaningOf]; simp only [hv, toU8_mod]⟩
  · simp only [meaningOf] at hu ⊢
    have h1 := hd hu
    have h2 := h.decUsage
    rw [if_pos hu] at h2
    cases hf : Js.find (ascii "decryptedKeyUsage") fields with
    | none => rw [hf] at h2; rw [h2] at h1; exact absurd h1 (by decide)
    | some e => rw [hf] at h2; exact ⟨e.1, e.2, rfl, by rw [h2]; exact toU8_mod _⟩
  · intro k s r hf hr hl
    obtain ⟨k', v', x, hf', hx, hi⟩ := h.iv
    rw [hf] at hf'
    cases hf'
    have := fixed_eq hr hx
    simp only [meaningOf]
    rw [hi, this, List.take_append_of_le_length (by omega), List.take_of_length_le (by omega)]
  · intro k s r hf hr hl
    obtain ⟨k', v', x, hf', hx, hi⟩ := h.c1
    rw [hf] at hf'; cases hf'
    simp only [meaningOf]
    rw [hi, fixed_eq hr hx]; exact full_eq env r hl he
  · intro k s r hf hr hl
    obtain ⟨k', v', x, hf', hx, hi⟩ := h.c2
    rw [hf] at hf'; cases hf'
    simp only [meaningOf]
    rw [hi, fixed_eq hr hx]; exact full_eq env r hl he
  · intro k s r hf hr hl
    obtain ⟨k', v', x, hf', hx, hi⟩ := h.c3
    rw [hf] at hf'; cases hf'
    simp only [meaningOf]
    rw [hi, fixed_eq hr hx]; exact full_eq env r hl he
  · intro hf; simp only [meaningOf]; rw [t1 hf]; rfl
  · intro k l hf; exact ⟨pay.taIds, t2 k l hf, rfl⟩

/-- The key that the ladder derives for a meaning: from the device's own root key unless the common one is named. -/
def ladderRoot (r : Root) : Root := if r = .common then .common else .unique

/-- **C60 for the import.**  If a container yields a key, then with what the container says: a non-empty tag was given that agrees with the GCM tag over the encrypted key and
the authenticated data; a tag of 16 bytes is the GCM tag; the key is the decryption; and what it says is sensible, so that `C60_binding` applies.  Missing for the full
property: the tag can be shorter than 16 bytes (`C60_violated`). -/
theorem C60_partial (e : SocEnv) (he : e.kc.Good) (htag : ∀ k iv a m, (e.prims.gcmTag k iv a m).length = 16) (s : Bytes) (params : Option SocParams) (sk : StoredKey)
    (h : (socUnwrap e s params).res = .ok (some sk)) :
    ∃ hd p m pl tag fields mean kn enc encKey key, splitDots s = some (hd, p, m) ∧ e.kc.bio (b64Data e.kc p true) = some pl ∧ e.kc.bio (b64Data e.kc m true) = some tag ∧
      parseJson e.kc pl = some (.obj fields) ∧ Says e.kc fields mean ∧
      Js.find (ascii "encryptedKey") fields = some (kn, .str enc) ∧ e.kc.bio (b64Data e.kc enc false) = some encKey ∧
      e.ladder (ladderRoot mean.root) mean.c1 mean.c2 mean.c3 = .ok key ∧
      1 ≤ tag.length ∧ tag <+: e.prims.gcmTag key mean.iv (authData mean) encKey ∧ (tag.length = 16 → tag = e.prims.gcmTag key mean.iv (authData mean) encKey) ∧
      sk.key = e.prims.gcmDec key mean.iv encKey ∧ ((0 : UInt8) ∉ mean.keyType → Sensible mean) := by
  obtain ⟨r⟩ := socUnwrap_ok h
  obtain ⟨aad, info, ha, hi, hd⟩ := socDecryptVerify_ok r.dec
  obtain ⟨key, rights, hg, hr, hs⟩ := socDecrypt_ok hd
  have hp := socParsePayload_ok r.payload
  obtain ⟨_, haad, hv, hk, hu, hdu, hta⟩ := socBuildAad_ok ha
  obtain ⟨kn, v, hkn, hek⟩ := hp.encKey
  obtain ⟨enc, rfl, henc⟩ := encKey_str hek
  obtain ⟨hrt1, hrt2⟩ := root_ok hp.root
  have hroot : (if r.pay.version ≥ 5 then r.pay.root else .undefined) = r.pay.root := by
    split
    · rfl
    · rename_i h; rw [hrt1 (.inl (UInt8.not_le.1 h))]
  unfold otpUnwrapAesGcm at hg
  split at hg
  · exact nomatch hg
  rename_i lk hlk
  split at hg
  · exact nomatch hg
  rename_i ht16
  split at hg
  · exact nomatch hg
  split at hg
  · exact nomatch hg
  rename_i ht0
  split at hg
  · exact nomatch hg
  rename_i htg
  cases hg
  have htg : r.tag = (e.prims.gcmTag lk r.pay.iv aad r.pay.encKey).take r.tag.length := Classical.byContradiction htg
  have hpre : r.tag <+: e.prims.gcmTag lk r.pay.iv aad r.pay.encKey := by rw [htg]; exact List.take_prefix _ _
  refine ⟨r.h, r.p, r.m, r.pl, r.tag, r.pf, meaningOf e.kc r.pay, kn, enc, r.pay.encKey, lk, r.split, r.bp, r.bm, r.jp, meaning_says he hp (fun h => (hdu h).1), hkn, henc, ?_, by omega, ?_, ?_, ?_, ?_⟩
  · rw [← hlk]
    simp only [meaningOf]
    rw [hroot]
    cases r.pay.root <;> rfl
  · rw [← haad]; exact hpre
  · intro hl
    rw [← haad]
    exact hpre.eq_of_length (by rw [hl]; exact (htag _ _ _ _).symm)
  · exact (socStore_ok hs).2.2.1
  · intro h0
    have hlen : ∀ c : Bytes, c.length ≤ 16 → (c ++ e.kc.junk (16 - c.length)).length = 16 := fun c hc => by
      rw [List.length_append, he.junk]; omega
    refine ⟨hv, fun hv => ?_, ⟨hk, ?_⟩, hu, ⟨hdu, fun hn => ?_⟩, ?_, ?_, ?_, ?_, ?_, ?_⟩
    · simp only [meaningOf]; rw [hroot]; exact hrt1 (.inl hv)
    · obtain ⟨name, hm, hb⟩ := C42.from_ok e.kc _ _ _ hi
      obtain ⟨d, hd, hdn, _⟩ := C42.table_documented _ hm
      exact ⟨d, hd, by rw [hdn]; exact C42.matches_prefix e.kc _ _ h0 hb⟩
    · have := hp.decUsage
      rw [if_neg (show ¬ r.pay.usage = 2 from hn)] at this
      exact this
    · obtain ⟨_, _, x, _, _, hiv⟩ := hp.iv
      simp only [meaningOf]
      rw [hiv, List.length_take, List.length_append, List.length_replicate]; omega
    · obtain ⟨_, _, x, _, _, hc⟩ := hp.c1
      exact hlen _ (by rw [hc, List.length_take]; omega)
    · obtain ⟨_, _, x, _, _, hc⟩ := hp.c2
      exact hlen _ (by rw [hc, List.length_take]; omega)
    · obtain ⟨_, _, x, _, _, hc⟩ := hp.c3
      exact hlen _ (by rw [hc, List.length_take]; omega)
    · simp only [meaningOf, List.length_map]; exact hta
    · intro t ht
      simp only [meaningOf, List.mem_map] at ht
      obtain ⟨t', ht', rfl⟩ := ht
      rw [List.length_map]
      exact (entitled_ok hp.taIds).2.2 t' ht'

/-- A container of version 5 for the common root key. -/
def fine : List Js.Event :=
  Sample.payloadEvents [("containerVersion", [.int 5]), ("rootKeyType", Sample.str "common"), ("keyType", Sample.str "AES-128"), ("encryptedKey", Sample.str Sample.b16),
    ("iv", Sample.str Sample.b12), ("keyUsage", [.int 2]), ("decryptedKeyUsage", [.int 1]), ("entitledTaIds", [.startArr, .str (List.replicate 36 0x41), .endArr]),
    ("c1", Sample.str Sample.b16), ("c2", Sample.str Sample.b16), ("c3", Sample.str Sample.b16)]

/-- It is accepted (here with a tag of 16 bytes), and the hypotheses of `C60_partial` hold. -/
example : Sample.outcome (socUnwrap (Sample.socEnv fine 0) (ascii "hhhh.pppp.mmmmmmmmmmmmmmmm========") none) = some (0, 16) ∧
    (Sample.socEnv fine 0).kc.Good ∧ ∀ k iv a m, ((Sample.socEnv fine 0).prims.gcmTag k iv a m).length = 16 :=
  ⟨by decide +kernel, Sample.env_good _ _ _, fun _ _ _ _ => List.length_replicate⟩

/-- Another tag of 16 bytes is refused. -/
example : Sample.outcome (socUnwrap (Sample.socEnv fine 0) (ascii "hhhh.pppp.mmmmmmmmmmmmmmmn========") none) = none := by decide +kernel

def sample : Meaning :=
  ⟨5, .common, ascii "AES-128", 2, 1, List.replicate 12 1, List.replicate 16 2, List.replicate 16 3, List.replicate 16 4, [List.replicate 36 0x61]⟩

example : Sensible sample where
  version := by decide
  root := by decide
  keyType := by decide +kernel
  usage := by decide
  decUsage := by decide
  iv := rfl
  c1 := rfl
  c2 := rfl
  c3 := rfl
  tas := by decide

/-- **Violated for short tags**: a container whose tag has a single byte is accepted. -/
theorem C60_violated : ∃ (e : SocEnv) (s : Bytes), e.kc.Good ∧ (∀ k iv a m, (e.prims.gcmTag k iv a m).length = 16) ∧
    (∃ m, splitDots s = some (ascii "hhhh", ascii "pppp", m) ∧ e.kc.bio (b64Data e.kc m true) = some [0x6d]) ∧ Sample.outcome (socUnwrap e s none) = some (0, 16) :=
  ⟨Sample.socEnv fine 0, ascii "hhhh.pppp.m===", Sample.env_good _ _ _, fun _ _ _ _ => List.length_replicate, ⟨ascii "m===", by decide +kernel, by decide +kernel⟩,
    by decide +kernel⟩

end Sa.Kc.C60

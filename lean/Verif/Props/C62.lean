import Verif.Props.C12
import Verif.Props.C39
import Verif.Props.C40
import Verif.Props.C49

/-!
# C62: the key imported from a Type-J container is the one it describes

`Described` says field by field what the documentation of the containers says about the key and its rights, and how the rights of the wrapping key limit them (C11, C12).
The usage is only right if it is given as an integer (`C62_violated_usage`).
-/

namespace Sa.Kc.C62

/-- The wrapping key is for unwrapping only and has flags for the keys it unwraps; then these limit the usage, otherwise its own flags limit the outputs. -/
def UnwrapOnly (wk : Rights) : Prop := (∀ j, j ≤ 5 → Flag wk.usageFlags j → j = 2) ∧ wk.childUsageFlags ≠ 0

/-- What the rights of the wrapping key leave of the flag `i`. -/
def Passes (wk : Rights) (i : Nat) : Prop :=
  if i ≤ 5 then UnwrapOnly wk → Flag wk.childUsageFlags i
  else if i ≤ 12 then ¬ UnwrapOnly wk → Flag wk.usageFlags i
  else True

/-- The seconds `n` since 1970 are the canonical date in the field. -/
def IsDate (fields : List (Bytes × Js.Json)) (name : String) (n : UInt64) : Prop :=
  ∃ k s, Js.find (ascii name) fields = some (k, .str s) ∧ ∀ t, C47.Real t → 1970 ≤ t.year → t.year ≤ 9999 → s = C47.text t ++ ascii "Z" → C47.clock n.toNat = t

structure Described (e : TjEnv) (fields : List (Bytes × Js.Json)) (wk d : StoredKey) : Prop where
  id : ∃ k s, Js.find (ascii "contentKeyId") fields = some (k, .str s) ∧ s.length ≤ 63 ∧
    ∀ text rest, s = text ++ rest → (0 : UInt8) ∉ text → (rest = [] ∨ rest.head? = some 0) →       -- the text ends at a zero byte, if it has one
      d.header.rights.id.toList = text ++ List.replicate (64 - text.length) 0
  outputs : ∃ k s codes, Js.find (ascii "contentKeyRights") fields = some (k, .str s) ∧ e.kc.bio (b64Data e.kc s false) = some codes ∧ (∀ c ∈ codes, c ∈ C39.known) ∧
    ∀ i, 6 ≤ i → i ≤ 12 → (Flag d.header.rights.usageFlags i ↔ C39.Means codes i ∧ Passes wk.header.rights i)
  usage : ∀ k n, Js.find (ascii "contentKeyUsage") fields = some (k, .int n) → 0 ≤ n ∧ n ≤ 3 ∧
    ∀ u : C49.Use, Flag d.header.rights.usageFlags u.bit ↔ C49.Grants n false false u ∧ Passes wk.header.rights u.bit
  notBefore : IsDate fields "contentKeyNotBefore" d.header.rights.notBefore
  notOnOrAfter : IsDate fields "contentKeyNotOnOrAfter" d.header.rights.notOnOrAfter
  cacheable : ∃ k v, Js.find (ascii "contentKeyCacheable") fields = some (k, v) ∧ (Flag d.header.rights.usageFlags 13 ↔ v = .bool true)
  noMore : ∀ i, 14 ≤ i → ¬ Flag d.header.rights.usageFlags i
  noChild : d.header.rights.childUsageFlags = 0
  key : ∃ params wrapped, TjWrapped e.kc fields params wrapped ∧ UnwrapClear e.ks.prims e.u.prims wk params wrapped d.key
  length : ∀ k n, Js.find (ascii "contentKeyContainerVersion") fields = some (k, .int n) → n ≠ 1 →
    ∃ k v, Js.find (ascii "contentKeyLength") fields = some (k, v) ∧ (d.key.length : Int) = Js.asInteger v % 2 ^ 64
  type : d.header.type.toNat = KEY_TYPE_SYMMETRIC

theorem restrict_flags (r wk : Rights) (i : Nat) : Flag (restrictChildRights r (some wk)).usageFlags i ↔ Flag r.usageFlags i ∧ Passes wk i := by
  unfold restrictChildRights
  simp only
  have hu : (wk.usageFlags &&& KEY_ONLY_MASK ≠ 0 ∨ wk.childUsageFlags = 0) ↔ ¬ UnwrapOnly wk := by
    rw [keyOnly_ne_zero_iff]
    unfold UnwrapOnly
    constructor
    · rintro (⟨j, h5, h2, hf⟩ | h) ⟨h1, h3⟩
      · exact h2 (h1 j h5 hf)
      · exact h3 h
    · intro h
      apply Classical.byContradiction
      intro hn
      rw [not_or] at hn
      exact h ⟨fun j h5 hf => Classical.byContradiction fun h2 => hn.1 ⟨j, h5, h2, hf⟩, hn.2⟩
  unfold Passes
  by_cases h : UnwrapOnly wk
  · rw [if_neg (by rw [hu]; exact not_not_intro h), flag_restrict, keyUsageMask_flag]
    split
    · simp_all
    · rename_i h5
      split <;> simp_all <;> exact fun _ hc => absurd hc (by omega)
  · rw [if_pos (hu.mpr h), flag_restrict, outputMask_flag]
    split
    · rename_i h5
      simp only [h, false_implies, and_true]
      exact ⟨fun a => a.1, fun a => ⟨a, fun b => by omega⟩⟩
    · split
      · rename_i h5 h12
        simp only [h, not_false_eq_true, true_implies]
        exact ⟨fun a => ⟨a.1, a.2 ⟨by omega, h12⟩⟩, fun a => ⟨a.1, fun _ => a.2⟩⟩
      · simp only [and_true]
        exact ⟨fun a => a.1, fun a => ⟨a, fun b => by omega⟩⟩

theorem restrict_rest (r : Rights) (p : Option Rights) : (restrictChildRights r p).id = r.id ∧ (restrictChildRights r p).childUsageFlags = r.childUsageFlags ∧
    (restrictChildRights r p).notBefore = r.notBefore ∧ (restrictChildRights r p).notOnOrAfter = r.notOnOrAfter := by
  unfold restrictChildRights
  cases p with
  | none => exact ⟨rfl, rfl, rfl, rfl⟩
  | some p => simp only; split <;> exact ⟨rfl, rfl, rfl, rfl⟩

theorem takeWhile_text (text rest : Bytes) (h : (0 : UInt8) ∉ text) (hr : rest = [] ∨ rest.head? = some 0) : (text ++ rest).takeWhile (· ≠ 0) = text := by
  induction text with
  | nil =>
    rcases hr with rfl | hr
    · rfl
    · cases rest with
      | nil => rfl
      | cons c rest =>
        simp only [List.head?_cons, Option.some.injEq] at hr
        subst hr
        rfl
  | cons c s ih =>
    simp only [List.mem_cons, not_or] at h
    rw [List.cons_append, List.takeWhile_cons_of_pos (by simpa using fun e => h.1 e.symm), ih h.2]

theorem id_text (text rest : Bytes) (h0 : (0 : UInt8) ∉ text) (hr : rest = [] ∨ rest.head? = some 0) (hl : (text ++ rest).length ≤ 63) :
    (tjId (text ++ rest)).toList = text ++ List.replicate (64 - text.length) 0 := by
  have hl' : text.length ≤ 63 := by rw [List.length_append] at hl; omega
  unfold tjId
  apply List.ext_getElem
  · simp; omega
  · intro i h1 h2
    simp only [Vector.getElem_toList, Vector.getElem_ofFn, takeWhile_text text rest h0 hr, List.getD_eq_getElem?_getD, List.getElem_append]
    split
    · rename_i h; rw [List.getElem?_eq_getElem h]; rfl
    · rename_i h; rw [List.getElem?_eq_none (by omega)]; simp

theorem date_ok {e : TjEnv} (hs : C47.Good e.strptime) {fields : List (Bytes × Js.Json)} {name : String} {k : Bytes} {v : Js.Json} {n : UInt64}
    (hf : Js.find (ascii name) fields = some (k, v)) (h : (tjDate e v).res = .ok n) : IsDate fields name n := by
  unfold tjDate at h
  obtain ⟨s, h1, h2, _⟩ := bind_res h
  clear h
  have hv := stringOf_ok h1
  subst hv
  have h := h2
  refine ⟨k, s, hf, fun t ht h0 h9 he => ?_⟩
  split at h
  · exact nomatch h
  · rename_i m hm
    have hm' := Except.ok.inj h
    subst hm'
    rw [he] at hm
    obtain ⟨n', e1, e2⟩ := (C47.C47_partial hs t ht h9 (fun hl => by rw [hl] at h0; exact absurd h0 (by decide))).2 h0
    rw [show ascii "Z" = [0x5a] from rfl, e1] at hm
    cases hm
    exact e2

theorem find_int {fields : List (Bytes × Js.Json)} {name : String} {k k' : Bytes} {v : Js.Json} {n : Int} (h : Js.find (ascii name) fields = some (k, v))
    (h' : Js.find (ascii name) fields = some (k', .int n)) : v = .int n := by
  rw [h] at h'; cases h'; rfl

theorem run_described {e : TjEnv} (hs : C47.Good e.strptime) {s : Bytes} {mk wk d : StoredKey} (run : TjRun e s mk wk (some d))
    (made : TjMade e run.fields run.rights wk d) : Described e run.fields wk d := by
  have hr := run.rightsOk
  unfold tjFieldsToRights at hr
  obtain ⟨id, hid, hr, _⟩ := bind_res hr
  obtain ⟨v1, hv1, hr, _⟩ := bind_res hr
  obtain ⟨s1, hs1, hr, _⟩ := bind_res hr
  obtain ⟨f1, hf1, hr, _⟩ := bind_res hr
  obtain ⟨v2, hv2, hr, _⟩ := bind_res hr
  obtain ⟨f2, hf2, hr, _⟩ := bind_res hr
  obtain ⟨v3, hv3, hr, _⟩ := bind_res hr
  obtain ⟨nb, hnb, hr, _⟩ := bind_res hr
  obtain ⟨v4, hv4, hr, _⟩ := bind_res hr
  obtain ⟨na, hna, hr, _⟩ := bind_res hr
  obtain ⟨v5, hv5, hr, _⟩ := bind_res hr
  obtain ⟨tas, ht, hr, _⟩ := bind_res hr
  have hr := (Except.ok.inj hr).symm
  obtain ⟨k1, hk1⟩ := need_ok hv1
  obtain ⟨k2, hk2⟩ := need_ok hv2
  obtain ⟨k3, hk3⟩ := need_ok hv3
  obtain ⟨k4, hk4⟩ := need_ok hv4
  obtain ⟨k5, hk5⟩ := need_ok hv5
  have hs1 := stringOf_ok hs1
  subst hs1
  obtain ⟨q1, q2, q3, q4⟩ := restrict_rest run.rights (some wk.header.rights)
  -- the output rights
  unfold tjRightsFlags at hf1
  obtain ⟨_, _, hf1, _⟩ := bind_res hf1
  obtain ⟨_, _, hf1, _⟩ := bind_res hf1
  obtain ⟨_, _, hf1, _⟩ := bind_res hf1
  cases hb : e.kc.bio (b64Data e.kc s1 false) with
  | none => simp only [b64Decode, hb] at hf1; exact nomatch hf1
  | some codes =>
  simp only [b64Decode, hb] at hf1
  split at hf1
  · exact nomatch hf1
  rename_i f1' hc
  have hf1 := Except.ok.inj hf1
  subst hf1
  obtain ⟨c1, c2⟩ := C39.C39 0 codes
  have c2 := c2 _ hc
  -- the usage
  unfold tjUsage at hf2
  obtain ⟨u1, u2, u3⟩ := C49.C49_exact f1' (Js.asInteger v2) KEY_TYPE_SYMMETRIC AES_SUBTYPE
  simp only at hf2
  split at hf2
  · exact nomatch hf2
  rename_i hok
  have hok : (keyUsageToUsageFlags f1' (Js.asInteger v2) KEY_TYPE_SYMMETRIC AES_SUBTYPE).2 = .OK := Classical.byContradiction hok
  have hf2 := Except.ok.inj hf2
  subst hf2
  have hfl : run.rights.usageFlags =
      if Js.asBool v5 then bitSet (keyUsageToUsageFlags f1' (Js.asInteger v2) KEY_TYPE_SYMMETRIC AES_SUBTYPE).1 FLAG_CACHEABLE
      else (keyUsageToUsageFlags f1' (Js.asInteger v2) KEY_TYPE_SYMMETRIC AES_SUBTYPE).1 := by rw [hr]
  have hother : ∀ i, i ≠ 13 → (Flag run.rights.usageFlags i ↔ Flag (keyUsageToUsageFlags f1' (Js.asInteger v2) KEY_TYPE_SYMMETRIC AES_SUBTYPE).1 i) := by
    intro i hi
    rw [hfl]
    split
    · rw [C49.flag_set _ _ _ (by decide)]; exact ⟨fun h => h.resolve_right hi, Or.inl⟩
    · exact Iff.rfl
  have hd : ∀ i, Flag d.header.rights.usageFlags i ↔ Flag run.rights.usageFlags i ∧ Passes wk.header.rights i := by
    intro i; rw [made.rights]; exact restrict_flags _ _ _
  have zero : ∀ i, ¬ Flag (0 : UInt64) i := fun i h => by simp [Flag] at h
  refine ⟨?_, ⟨k1, s1, codes, hk1, hb, ?_, ?_⟩, ?_, ?_, ?_, ⟨k5, v5, hk5, ?_⟩, ?_, ?_, made.clear, ?_, made.type⟩
  · unfold tjContentKeyId at hid
    obtain ⟨v, hv, hid, _⟩ := bind_res hid
    obtain ⟨k, hk⟩ := need_ok hv
    obtain ⟨si, hsi, hid', _⟩ := bind_res hid
    clear hid
    have hsi := stringOf_ok hsi
    subst hsi
    have hid := hid'
    split at hid
    · exact nomatch hid
    rename_i hl
    have hid := Except.ok.inj hid
    refine ⟨k, si, hk, by omega, fun text rest ht h0 hrest => ?_⟩
    rw [made.rights, q1, hr, ← hid, ht]
    exact id_text text rest h0 hrest (by rw [← ht]; omega)
  · intro c hcm
    apply Classical.byContradiction
    intro hn
    rw [c1.mp ⟨c, hcm, hn⟩] at hc
    exact nomatch hc
  · intro i h6 h12
    rw [hd, hother i (by omega), u3 i h6, (c2 i).1 ⟨h6, h12⟩]
  · intro k n hn
    have hv := find_int hk2 hn
    subst hv
    have hb := u1.mp hok
    refine ⟨hb.1, hb.2, fun u => ?_⟩
    rw [hd, hother _ (by cases u <;> decide), u2 hok u]
    have : decide (KEY_TYPE_SYMMETRIC = 1 ∨ KEY_TYPE_SYMMETRIC = 3) = false := by decide
    have h2 : decide (AES_SUBTYPE = 2) = false := by decide
    rw [this, h2]
    rfl
  · rw [made.rights, q3, hr]; exact date_ok hs hk3 hnb
  · rw [made.rights, q4, hr]; exact date_ok hs hk4 hna
  · rw [hd, hfl]
    have h13 : ¬ Flag (keyUsageToUsageFlags f1' (Js.asInteger v2) KEY_TYPE_SYMMETRIC AES_SUBTYPE).1 13 := by
      rw [u3 13 (by omega), (c2 13).2 (by omega)]; exact zero 13
    have hp : Passes wk.header.rights 13 := by unfold Passes; rw [if_neg (by omega), if_neg (by omega)]; trivial
    cases v5 with
    | bool b =>
      cases b
      · simp only [Js.asBool, Bool.false_eq_true, if_false]
        exact ⟨fun h => absurd h.1 h13, fun h => nomatch h⟩
      · simp only [Js.asBool, if_true]
        exact ⟨fun _ => trivial, fun _ => ⟨(C49.flag_set _ _ _ (by decide)).mpr (Or.inr rfl), hp⟩⟩
    | _ =>
      simp only [Js.asBool, Bool.false_eq_true, if_false]
      exact ⟨fun h => absurd h.1 h13, fun h => nomatch h⟩
  · intro i hi hf
    rw [hd, hother i (by omega), u3 i (by omega), (c2 i).2 (by omega)] at hf
    exact zero i hf.1
  · rw [made.rights, q2, hr]
  · intro k n hn h1
    refine made.length ?_
    unfold tjVersion
    rw [hn]
    exact h1

/-- **C62 (partial).**  For every state of the store and every container, if the import succeeds, the new key is the one that the (authentic, C40) payload describes under the
wrapping key.  Missing: a usage that is not given as an integer, for which the claim is false (`C62_violated_usage`); dates that are not in the canonical form. -/
theorem C62_partial (e : TjEnv) (hg : e.Good) (hs : C47.Good e.strptime) (st st' : KeyStore) (hr : KsReachable e.ks.prims st) (input : Bytes) (khmac kcipher h : Nat)
    (caller : Uuid) (hi : keyImportTypej e st input khmac kcipher caller = some (st', .OK, h)) :
    ∃ mk wk d header payload pl fields, NewKey e.ks.prims st st' h caller d ∧ KeyHeld e.ks.prims st khmac caller mk ∧ KeyHeld e.ks.prims st kcipher caller wk ∧
      C40.Authentic e mk.key input header payload ∧ e.kc.bio (b64Data e.kc payload true) = some pl ∧ parseJson e.kc pl = some (.obj fields) ∧
      Described e fields wk d := by
  obtain ⟨st1, s, h1, he, _, hc⟩ := C40.import_cases e hg st hr input khmac kcipher caller
  rw [hi] at he
  cases he
  rcases hc with ⟨hn, _⟩ | ⟨_, d, hn, ⟨mk, wk, k1, _, _, _, k2, _, _, _, run, made⟩⟩
  · exact absurd rfl hn
  exact ⟨mk, wk, d, run.h, run.p, run.pl, run.fields, hn, k1, k2, C40.run_authentic run, run.plText, run.json, run_described hs run made⟩

/-! ## Concrete cases -/

/-- Two runs of the sample: the key is for data (derive, encrypt, decrypt, sign), HDCP 1.4, 2.2 and analog, cacheable, from 2020 to 2030; under a wrapping key that only has HDCP 2.2
nothing else of the outputs is left. -/
example : (match (typejUnwrap (Tj.env (Tj.v1 [] (Sample.str Sample.b16)) 0) Tj.text C27.key16 C27.key16).res with
    | .ok (some d) => (d.header.rights.usageFlags, d.header.rights.notBefore, d.header.rights.notOnOrAfter, d.header.rights.id.toList.take 4, d.key.length)
    | _ => (0, 0, 0, [], 0)) = (0x36fa, 1577836800, 1893456000, ascii "key" ++ [0], 16) := by decide +kernel

example : (match (typejUnwrap (Tj.env (Tj.v1 [] (Sample.str Sample.b16)) 0) Tj.text C27.key16
      { C27.key16 with header := { C27.key16.header with rights := { rightsAllowAll with usageFlags := 0x414 } } }).res with
    | .ok (some d) => d.header.rights.usageFlags
    | _ => 0) = 0x243a := by decide +kernel

/-- The hypotheses are met by the sample. -/
example : (Tj.env (Tj.v1 [] (Sample.str Sample.b16)) 0).Good ∧ C47.Good (Tj.env (Tj.v1 [] (Sample.str Sample.b16)) 0).strptime := ⟨Tj.env_good _ _, C47.strict_good⟩

/-- The container of the sample with the given usage. -/
def usageSample (usage : List Js.Event) : P (Option StoredKey) :=
  typejUnwrap (Tj.env (Sample.payloadEvents ([("contentKeyId", Sample.str "key"), ("contentKeyRights", [.str [3, 5, 4, 0x3d]]), ("contentKeyUsage", usage),
    ("contentKeyNotBefore", Sample.str "2020-01-01T00:00:00Z"), ("contentKeyNotOnOrAfter", Sample.str "2030-01-01T00:00:00Z"),
    ("contentKeyCacheable", [.bool true]), ("contentKey", Sample.str Sample.b16)])) 0) Tj.text C27.key16 C27.key16

/-- **C62 is violated by a usage that is not an integer**: the text `2` in place of the number 2 (keys only) gives a key for data and keys, which may encrypt, decrypt and sign. -/
theorem C62_violated_usage : ∃ a b, (usageSample [.int 2]).res = .ok (some a) ∧ (usageSample (Sample.str "2")).res = .ok (some b) ∧
    (∀ i, i ≤ 5 → (Flag a.header.rights.usageFlags i ↔ i = 2)) ∧ (∀ i, 1 ≤ i → i ≤ 5 → Flag b.header.rights.usageFlags i) := by
  have key : ∀ (r : P (Option StoredKey)) (f : UInt64), (match r.res with | .ok (some d) => decide (d.header.rights.usageFlags = f) | _ => false) = true →
      ∃ d, r.res = .ok (some d) ∧ d.header.rights.usageFlags = f := by
    intro r f h
    split at h
    · rename_i d hd; exact ⟨d, hd, by simpa using h⟩
    · exact nomatch h
  obtain ⟨a, a1, a2⟩ := key (usageSample [.int 2]) 0x36c4 (by decide +kernel)
  obtain ⟨b, b1, b2⟩ := key (usageSample (Sample.str "2")) 0x36fe (by decide +kernel)
  refine ⟨a, b, a1, b1, fun i hi => ?_, fun i h1 hi => ?_⟩
  · rw [a2]
    have : ∀ i : Fin 6, (Flag 0x36c4 i.val ↔ i.val = 2) := by unfold Flag; decide
    exact this ⟨i, by omega⟩
  · rw [b2]
    have : ∀ i : Fin 6, 1 ≤ i.val → Flag 0x36fe i.val := by unfold Flag; decide
    exact this ⟨i, by omega⟩ h1

end Sa.Kc.C62

import Verif.Props.C09
import Verif.Props.C19
import Verif.Props.C40
import Verif.Props.C60

/-!
# C61: only the TAs a container lists can use the key

A container without a list is for every TA.  For a list of canonical texts of UUIDs exactly the listed TAs are entitled (`C61_typej_partial`, `C61_soc_partial`), and what the
store says to the TA that imported the container follows that (`C61_store`).  Other lists have surprising meanings (`C61_violated_…`): the results of converting the texts are
ignored, an SoC container with a list that is empty or no list is for every TA.
-/

namespace Sa.Kc.C61

open C19 (IsTextOf)

/-- The texts entitle the TA: it is listed, or sixteen bytes FF, which stand for every TA. -/
def Entitles (ss : List Bytes) (u : Uuid) : Prop := ∃ s ∈ ss, IsTextOf s u.toList ∨ IsTextOf s (List.replicate 16 0xff)

def Canonical (s : Bytes) : Prop := ∃ b, IsTextOf s b

/-- The nil UUID, which is never entitled by name. -/
def nil : Uuid := Vector.replicate 16 0

theorem containerUuid_text {s b : Bytes} (h : IsTextOf s b) : (containerUuid s).toList = b := by
  unfold containerUuid
  rw [C19.C19_canonical s b _ h (by simp)]
  apply List.ext_getElem
  · simp [h.1]
  · intro i h1 h2
    simp [List.getD_eq_getElem?_getD, List.getElem?_eq_getElem h2]

theorem containerUuid_eq {s : Bytes} {u : Uuid} (hs : Canonical s) : containerUuid s = u ↔ IsTextOf s u.toList := by
  constructor
  · rintro rfl
    obtain ⟨b, hb⟩ := hs
    rw [containerUuid_text hb]; exact hb
  · intro h
    have := containerUuid_text h
    exact Vector.toList_inj.1 this

theorem allowedTasOf_mem (ss : List Bytes) (h : ss.length ≤ 32) (u : Uuid) (hu : u ≠ nil) :
    (∃ i : Fin 32, (allowedTasOf ss)[i] = u) ↔ ∃ s ∈ ss, containerUuid s = u := by
  unfold allowedTasOf
  constructor
  · rintro ⟨i, hi⟩
    simp only [Fin.getElem_fin, Vector.getElem_ofFn, List.getD_eq_getElem?_getD] at hi
    cases hx : (ss.map containerUuid)[i.val]? with
    | none =>
      rw [hx] at hi
      exact absurd hi.symm hu
    | some x =>
      rw [hx] at hi
      obtain ⟨s, hs, rfl⟩ := List.mem_map.1 (List.mem_of_getElem? hx)
      exact ⟨s, hs, hi⟩
  · rintro ⟨s, hs, rfl⟩
    obtain ⟨n, hn, rfl⟩ := List.getElem_of_mem hs
    refine ⟨⟨n, by omega⟩, ?_⟩
    simp only [Fin.getElem_fin, Vector.getElem_ofFn, List.getD_eq_getElem?_getD]
    rw [List.getElem?_eq_getElem (by simpa using hn)]
    simp

/-- The list of a key made of the texts. -/
theorem list_allows (r : Rights) (ss : List Bytes) (hr : r.allowedTas = allowedTasOf ss) (hl : ss.length ≤ 32) (u : Uuid) :
    (u ≠ nil → Entitles ss u → rightsAllowedUuid r u = true) ∧
    ((∀ s ∈ ss, Canonical s) → rightsAllowedUuid r u = true → Entitles ss u) := by
  have hff : (Vector.replicate 16 0xff : Uuid).toList = List.replicate 16 0xff := by decide
  have ffn : (Vector.replicate 16 0xff : Uuid) ≠ nil := by decide
  rw [C09.C09_allowed_iff_member, hr, allowedTasOf_mem ss hl _ ffn]
  constructor
  · rintro hu ⟨s, hs, h | h⟩
    · refine Or.inr ?_
      obtain ⟨i, hi⟩ := (allowedTasOf_mem ss hl u hu).mpr ⟨s, hs, (containerUuid_eq ⟨_, h⟩).mpr h⟩
      exact ⟨i, hi, hu⟩
    · exact Or.inl ⟨s, hs, (containerUuid_eq ⟨_, h⟩).mpr (hff ▸ h)⟩
  · rintro hc (⟨s, hs, h⟩ | ⟨i, hi, hu⟩)
    · exact ⟨s, hs, Or.inr (hff ▸ (containerUuid_eq (hc s hs)).mp h)⟩
    · obtain ⟨s, hs, h⟩ := (allowedTasOf_mem ss hl u hu).mp ⟨i, hi⟩
      exact ⟨s, hs, Or.inl ((containerUuid_eq (hc s hs)).mp h)⟩

theorem all_allows (r : Rights) (hr : r.allowedTas = (allowedTasOf []).set 0 ALL_MATCH) (u : Uuid) : rightsAllowedUuid r u = true := by
  rw [C09.C09_allowed_iff_member, hr]
  exact Or.inl ⟨0, by decide⟩

/-- The rights follow the list of the container.  `any`: also an empty list. -/
structure Enforced (any : Prop) (fields : List (Bytes × Js.Json)) (r : Rights) : Prop where
  /-- without a list every TA is entitled -/
  none : Js.find (ascii "entitledTaIds") fields = none → ∀ u, rightsAllowedUuid r u = true
  /-- with a list of at most 32 strings of 36 bytes, all that are listed are entitled, and no others if the texts are canonical -/
  list : ∀ k l, Js.find (ascii "entitledTaIds") fields = some (k, .arr l) → ∃ ss : List Bytes, l = ss.map .str ∧ ss.length ≤ 32 ∧ (∀ s ∈ ss, s.length = 36) ∧
    ∀ u, (u ≠ nil → Entitles ss u → rightsAllowedUuid r u = true) ∧
      ((any ∨ ss ≠ []) → (∀ s ∈ ss, Canonical s) → rightsAllowedUuid r u = true → Entitles ss u)

theorem Enforced.congr {any : Prop} {fields : List (Bytes × Js.Json)} {r r' : Rights} (h : r'.allowedTas = r.allowedTas) (he : Enforced any fields r) : Enforced any fields r' := by
  have : ∀ u, rightsAllowedUuid r' u = rightsAllowedUuid r u := fun u => by unfold rightsAllowedUuid; rw [h]
  exact ⟨fun hn u => by rw [this]; exact he.none hn u, fun k l hf => by simpa only [this] using he.list k l hf⟩

theorem restrict_tas (r : Rights) (p : Option Rights) : (restrictChildRights r p).allowedTas = r.allowedTas := by
  unfold restrictChildRights
  cases p with
  | none => rfl
  | some p => simp only; split <;> rfl

theorem tjTaIds_ok (env : Env) : (l : List Js.Json) → (r : List Bytes) → (tjTaIds env l).res = .ok r → l = r.map .str ∧ ∀ t ∈ r, t.length = 36
  | [], _, h => by cases h; exact ⟨rfl, fun _ h => nomatch h⟩
  | v :: l, r, h => by
    unfold tjTaIds at h
    split at h
    · obtain ⟨_, _, h, _⟩ := bind_res h
      split at h
      · obtain ⟨_, _, h, _⟩ := bind_res h; exact nomatch h
      · obtain ⟨_, _, h, _⟩ := bind_res h; exact nomatch h
    · rename_i s hs
      have hv : v = .str s := by
        cases v with
        | str s' => cases hs; rfl
        | _ => exact nomatch hs
      split at h
      · obtain ⟨_, _, h, _⟩ := bind_res h; exact nomatch h
      · rename_i hl
        obtain ⟨r', hr', h, _⟩ := bind_res h
        obtain ⟨h1, h2⟩ := tjTaIds_ok env l r' hr'
        cases h
        refine ⟨by rw [hv, h1]; rfl, fun t ht => ?_⟩
        rcases List.mem_cons.1 ht with rfl | ht
        · exact Classical.byContradiction hl
        · exact h2 t ht

theorem tjEntitled_enforced {env : Env} {fields : List (Bytes × Js.Json)} {v : Vector Uuid 32} (h : (tjEntitledTaIds env fields).res = .ok v) (r : Rights)
    (hr : r.allowedTas = v) : Enforced True fields r := by
  unfold tjEntitledTaIds at h
  split at h
  · rename_i hf
    cases h
    exact ⟨fun _ u => all_allows r hr u, fun k l h => by rw [hf] at h; exact nomatch h⟩
  · rename_i k v hf
    refine ⟨(fun h => by rw [hf] at h; exact nomatch h), fun k' l hf' => ?_⟩
    rw [hf] at hf'
    cases hf'
    simp only [Js.asArray] at h
    obtain ⟨_, _, h, _⟩ := bind_res h
    split at h
    · obtain ⟨_, _, h, _⟩ := bind_res h; exact nomatch h
    · rename_i hl
      obtain ⟨ids, hi, h, _⟩ := bind_res h
      obtain ⟨_, _, h, _⟩ := bind_res h
      obtain ⟨h1, h2⟩ := tjTaIds_ok env l ids hi
      rw [← Except.ok.inj h] at hr
      have hl' : ids.length ≤ 32 := by
        have := congrArg List.length h1
        simp only [List.length_map] at this
        omega
      refine ⟨ids, h1, hl', h2, fun u => ⟨(list_allows r ids hr hl' u).1, fun _ => (list_allows r ids hr hl' u).2⟩⟩

theorem held_enforced {p : Prims} {st : KeyStore} {h : Nat} {caller : Uuid} {d : StoredKey} (hh : KeyHeld p st h caller d) (env : Sa.Env) (he : env.prims = p) :
    (rightsAllowedUuid d.header.rights caller = false → keyStoreUnwrap env st h caller = some (st, .OPERATION_NOT_ALLOWED, none)) ∧
    (∀ k, keyStoreUnwrap env st h caller = some (st, .OK, some k) → rightsAllowedUuid d.header.rights caller = true) := by
  have hu := hh.2 env he
  constructor
  · intro hf
    rw [hu]
    unfold useResult
    rw [if_neg (by rw [hf]; simp)]
  · intro k hk
    rw [hu] at hk
    unfold useResult at hk
    split at hk
    · rename_i h; exact h.1
    · simp at hk

theorem run_enforced {e : TjEnv} {s : Bytes} {mk wk d : StoredKey} (run : TjRun e s mk wk (some d)) (made : TjMade e run.fields run.rights wk d) :
    splitDots s = some (run.h, run.p, run.m) ∧ Enforced True run.fields d.header.rights := by
  have hr := run.rightsOk
  unfold tjFieldsToRights at hr
  obtain ⟨_, _, hr, _⟩ := bind_res hr
  obtain ⟨_, _, hr, _⟩ := bind_res hr
  obtain ⟨_, _, hr, _⟩ := bind_res hr
  obtain ⟨_, _, hr, _⟩ := bind_res hr
  obtain ⟨_, _, hr, _⟩ := bind_res hr
  obtain ⟨_, _, hr, _⟩ := bind_res hr
  obtain ⟨_, _, hr, _⟩ := bind_res hr
  obtain ⟨_, _, hr, _⟩ := bind_res hr
  obtain ⟨_, _, hr, _⟩ := bind_res hr
  obtain ⟨_, _, hr, _⟩ := bind_res hr
  obtain ⟨_, _, hr, _⟩ := bind_res hr
  obtain ⟨tas, ht, hr, _⟩ := bind_res hr
  have ht' : run.rights.allowedTas = tas := by rw [← Except.ok.inj hr]
  refine ⟨(splitDots_iff _ _ _ _).mpr run.split, (tjEntitled_enforced ht _ ht').congr ?_⟩
  rw [made.rights, restrict_tas]

/-- `fields` are the fields of the payload of the text. -/
def PayloadIs (env : Env) (s : Bytes) (fields : List (Bytes × Js.Json)) : Prop :=
  ∃ hd p m pl, splitDots s = some (hd, p, m) ∧ env.bio (b64Data env p true) = some pl ∧ parseJson env pl = some (.obj fields)

/-- **C61, Type-J containers (partial).**  For every accepted container: the key follows the list in the payload, whatever the rights of the wrapping key.  Missing: lists with
texts that are not canonical (`C61_violated_malformed`), and values that are no list, for which an unset variable decides (`C40_violated_reads`). -/
theorem C61_typej_partial (e : TjEnv) (hg : e.Good) (s : Bytes) (mk wk d : StoredKey) (h : (typejUnwrap e s mk wk).res = .ok (some d)) :
    ∃ fields, PayloadIs e.kc s fields ∧ Enforced True fields d.header.rights := by
  obtain ⟨run⟩ := typejUnwrap_ok h
  obtain ⟨d', hd', made⟩ := tjUnwrapKey_ok hg run.keyOk
  cases hd'
  obtain ⟨h1, h2⟩ := run_enforced run made
  exact ⟨run.fields, ⟨run.h, run.p, run.m, run.pl, h1, run.plText, run.json⟩, h2⟩

/-- **C61 in the store, Type-J (partial).**  If a TA imports a container, the store refuses it the use of the key, at any time and with any outputs, if the rights do not entitle it;
and these rights follow the list. -/
theorem C61_typej_store_partial (e : TjEnv) (hg : e.Good) (st st' : KeyStore) (hr : KsReachable e.ks.prims st) (input : Bytes) (khmac kcipher h : Nat) (caller : Uuid)
    (hi : keyImportTypej e st input khmac kcipher caller = some (st', .OK, h)) :
    ∃ fields d, PayloadIs e.kc input fields ∧ Enforced True fields d ∧
      ∀ env : Sa.Env, env.prims = e.ks.prims →
        (rightsAllowedUuid d caller = false → keyStoreUnwrap env st' h caller = some (st', .OPERATION_NOT_ALLOWED, none)) ∧
        (∀ k, keyStoreUnwrap env st' h caller = some (st', .OK, some k) → rightsAllowedUuid d caller = true) := by
  obtain ⟨st1, s, h1, he, _, hc⟩ := C40.import_cases e hg st hr input khmac kcipher caller
  rw [hi] at he
  cases he
  rcases hc with ⟨hs, _⟩ | ⟨_, d, hn, ⟨mk, wk, _, _, _, _, _, _, _, _, run, made⟩⟩
  · exact absurd rfl hs
  obtain ⟨r1, r2⟩ := run_enforced run made
  exact ⟨run.fields, d.header.rights, ⟨run.h, run.p, run.m, run.pl, r1, run.plText, run.json⟩, r2, held_enforced hn.holds⟩

/-- **C61, SoC containers (partial).**  The same, except that an empty list entitles everybody (`C61_violated_empty`), and so does a value that is no list (`C61_violated_no_list`). -/
theorem C61_soc_partial (e : SocEnv) (s : Bytes) (params : Option SocParams) (d : StoredKey) (h : (socUnwrap e s params).res = .ok (some d)) :
    ∃ fields, PayloadIs e.kc s fields ∧ Enforced False fields d.header.rights := by
  obtain ⟨r⟩ := socUnwrap_ok h
  obtain ⟨aad, info, ha, hi, hd⟩ := socDecryptVerify_ok r.dec
  obtain ⟨key, rights, hg, hr, hs⟩ := socDecrypt_ok hd
  obtain ⟨t1, t2, t3⟩ := C60.entitled_ok (socParsePayload_ok r.payload).taIds
  refine ⟨r.pf, ⟨r.h, r.p, r.m, r.pl, r.split, r.bp, r.jp⟩, ?_⟩
  have hst : d.header.rights = rights := (socStore_ok hs).2.2.2.1
  rw [hst]
  unfold socFieldsToRights at hr
  split at hr
  · exact nomatch hr
  split at hr
  · exact nomatch hr
  split at hr
  · exact nomatch hr
  rename_i hlen
  cases hr
  have hlen : r.pay.taIds.length ≤ 32 := by omega
  refine ⟨fun hn u => ?_, fun k l hf => ⟨r.pay.taIds, t2 k l hf, hlen, t3, fun u => ?_⟩⟩
  · exact all_allows _ (by rw [t1 hn]; rfl) u
  · by_cases hz : r.pay.taIds.length = 0
    · refine ⟨fun _ _ => all_allows _ (by rw [if_pos hz]) u, fun hne => ?_⟩
      rcases hne with h | h
      · exact h.elim
      · exact absurd (List.eq_nil_of_length_eq_zero hz) h
    · refine ⟨(list_allows _ r.pay.taIds (by simp only; rw [if_neg hz]) hlen u).1, fun _ => (list_allows _ r.pay.taIds (by simp only; rw [if_neg hz]) hlen u).2⟩

/-- The key of an accepted SoC container comes from `stored_key_create`. -/
theorem soc_created {env : Sa.Env} {e : SocEnv} (hu : e.prims.Good) (hal : e.allocOk = env.ok .storedKeyAlloc) (hsz : ∀ d r, e.kc.bio d = some r → r.length + 16 < 2 ^ 64)
    {s : Bytes} {params : Option SocParams} {d : StoredKey} (h : (socUnwrap e s params).res = .ok (some d)) : Created env d := by
  obtain ⟨r⟩ := socUnwrap_ok h
  obtain ⟨aad, info, ha, hi, hd⟩ := socDecryptVerify_ok r.dec
  obtain ⟨key, rights, hg, hr, hs⟩ := socDecrypt_ok hd
  obtain ⟨_, _, _, hek⟩ := (socParsePayload_ok r.payload).encKey
  obtain ⟨_, rfl, henc⟩ := C60.encKey_str hek
  have hl : key.length + 16 < 2 ^ 64 := by
    have := hsz _ _ henc
    unfold otpUnwrapAesGcm at hg
    repeat' split at hg
    all_goals first | (cases hg; rw [hu.gcmLen]; exact this) | exact nomatch hg
  have : ∃ kt tp size, storedKeyCreate e.allocOk rights none kt tp size key = (.OK, some d) := by
    unfold socStore at hs
    split at hs
    · split at hs
      · cases hs
      split at hs
      · cases hs
      exact ⟨_, _, _, hs⟩
    split at hs
    · dsimp only at hs
      generalize (if e.prims.ecValid (info.curve.getD (2 ^ 32 - 1)) key then ecKeySizeFromCurve (info.curve.getD (2 ^ 32 - 1)) else 0) = n at hs
      split at hs
      · cases hs
      split at hs
      · cases hs
      exact ⟨_, _, _, hs⟩
    split at hs
    · cases hs
    exact ⟨_, _, _, hs⟩
  obtain ⟨kt, tp, size, hc⟩ := this
  exact ⟨rights, none, kt, tp, size, key, hl, hal ▸ hc⟩

/-- **C61 in the store, SoC (partial).** -/
theorem C61_soc_store_partial (env : Sa.Env) (hp : env.prims.Good) (e : SocEnv) (hu : e.prims.Good) (hal : e.allocOk = env.ok .storedKeyAlloc)
    (hsz : ∀ d r, e.kc.bio d = some r → r.length + 16 < 2 ^ 64) (st st' : KeyStore) (hr : KsReachable env.prims st) (input : Bytes) (params : Option SocParams) (h : Nat)
    (caller : Uuid) (hi : keyImportSoc env e st input params caller = some (st', .OK, h)) :
    ∃ fields d, PayloadIs e.kc input fields ∧ Enforced False fields d ∧
      ∀ env' : Sa.Env, env'.prims = env.prims →
        (rightsAllowedUuid d caller = false → keyStoreUnwrap env' st' h caller = some (st', .OPERATION_NOT_ALLOWED, none)) ∧
        (∀ k, keyStoreUnwrap env' st' h caller = some (st', .OK, some k) → rightsAllowedUuid d caller = true) := by
  unfold keyImportSoc P.status at hi
  cases hres : (socUnwrap e input params).res with
  | error s =>
    rw [hres] at hi
    simp only [importMade] at hi
    cases s <;> simp at hi
  | ok k =>
    rw [hres] at hi
    cases k with
    | none => simp [importMade] at hi
    | some d =>
      simp only [importMade, Option.some.injEq] at hi
      obtain ⟨fields, f1, f2⟩ := C61_soc_partial e input params d hres
      obtain ⟨st1, s, h1, he, _, hc⟩ := import_created env hp st hr d caller (soc_created hu hal hsz hres)
      rw [hi] at he
      cases he
      rcases hc with ⟨hs, _⟩ | ⟨_, hn⟩
      · exact absurd rfl hs
      · exact ⟨fields, d.header.rights, f1, f2, held_enforced hn.holds⟩

/-! ## Concrete cases -/

/-- Does the key of a run allow the TA? -/
def allows (r : P (Option StoredKey)) (u : Uuid) : Option Bool :=
  match r.res with
  | .ok (some d) => some (rightsAllowedUuid d.header.rights u)
  | _ => none

/-- The TA with sixteen bytes `b`. -/
def ta (b : UInt8) : Uuid := Vector.replicate 16 b

def tj (ids : List Js.Event) : P (Option StoredKey) := typejUnwrap (Tj.env (Tj.v1 [("entitledTaIds", ids)] (Sample.str Sample.b16)) 0) Tj.text C27.key16 C27.key16

def soc (ids : List Js.Event) : P (Option StoredKey) := socUnwrap (Sample.socEnv (Sample.payload "AES-128" (Sample.str Sample.b16) (Sample.str Sample.b12) ids) 0) Sample.text none

def list (l : List String) : List Js.Event := .startArr :: (l.map fun s => .str (ascii s)) ++ [.endArr]

/-- Two TAs are listed and allowed, others are not. -/
example : let l := list ["07070707-0707-0707-0707-070707070707", "0a0A0a0a-0a0a-0a0a-0a0a-0a0a0a0a0a0a"]
    [allows (tj l) (ta 7), allows (tj l) (ta 10), allows (tj l) (ta 8), allows (soc l) (ta 7), allows (soc l) (ta 10), allows (soc l) (ta 8)] =
      [some true, some true, some false, some true, some true, some false] := by decide +kernel

/-- Nobody is entitled by the empty list of a Type-J container. -/
example : allows (tj (list [])) (ta 7) = some false := by decide +kernel

/-- The Type-J samples meet the hypotheses, and the texts are canonical. -/
example : (Tj.env (Tj.v1 [("entitledTaIds", list ["07070707-0707-0707-0707-070707070707"])] (Sample.str Sample.b16)) 0).Good ∧
    Canonical (ascii "07070707-0707-0707-0707-070707070707") := ⟨Tj.env_good _ _, List.replicate 16 7, by decide +kernel⟩

theorem allowed_of {r : P (Option StoredKey)} {u : Uuid} (h : allows r u = some true) : ∃ d, r.res = .ok (some d) ∧ rightsAllowedUuid d.header.rights u = true := by
  unfold allows at h
  split at h
  · rename_i d hd; exact ⟨d, hd, by simpa using h⟩
  · exact nomatch h

/-- **C61 is violated by malformed texts**: in containers of both kinds, a text that is not the canonical text of any UUID entitles a TA, here the one with fourteen bytes 07 and
two bytes 00. -/
theorem C61_violated_malformed : ∃ (t : String) (u : Uuid), (∀ b, ¬ IsTextOf (ascii t) b) ∧
    (∃ d, (tj (list [t])).res = .ok (some d) ∧ rightsAllowedUuid d.header.rights u = true) ∧
    ∃ d, (soc (list [t])).res = .ok (some d) ∧ rightsAllowedUuid d.header.rights u = true := by
  refine ⟨"07070707-0707-0707-0707-07070707xxxx", Vector.ofFn fun i => if i.val < 14 then 7 else 0, ?_, allowed_of (by decide +kernel), allowed_of (by decide +kernel)⟩
  intro b h
  have h1 := C19.C19_canonical _ b (List.replicate 16 0) h (by simp)
  have h2 : (convertUuid (ascii "07070707-0707-0707-0707-07070707xxxx") (List.replicate 16 0)).map (·.1) = some false := by decide +kernel
  rw [h1] at h2
  exact nomatch h2

/-- **… and by SoC containers with an empty list**, which are for every TA. -/
theorem C61_violated_empty : ∃ d, (soc (list [])).res = .ok (some d) ∧ ∀ u, rightsAllowedUuid d.header.rights u = true := by
  have : ∃ d, (soc (list [])).res = .ok (some d) ∧ (d.header.rights.allowedTas[(0 : Fin 32)] = Vector.replicate 16 0xff) := by
    have h : (match (soc (list [])).res with | .ok (some d) => decide (d.header.rights.allowedTas[(0 : Fin 32)] = Vector.replicate 16 0xff) | _ => false) = true := by decide +kernel
    split at h
    · rename_i d hd; exact ⟨d, hd, by simpa using h⟩
    · exact nomatch h
  obtain ⟨d, h1, h2⟩ := this
  exact ⟨d, h1, fun u => (C09.C09_allowed_iff_member _ u).mpr (.inl ⟨0, h2⟩)⟩

/-- **… and by SoC containers that give a single text in place of the list**: the key is not for that TA alone but for every TA. -/
theorem C61_violated_no_list : ∃ d, (soc (Sample.str "07070707-0707-0707-0707-070707070707")).res = .ok (some d) ∧ ∀ u, rightsAllowedUuid d.header.rights u = true := by
  have : ∃ d, (soc (Sample.str "07070707-0707-0707-0707-070707070707")).res = .ok (some d) ∧ (d.header.rights.allowedTas[(0 : Fin 32)] = Vector.replicate 16 0xff) := by
    have h : (match (soc (Sample.str "07070707-0707-0707-0707-070707070707")).res with
      | .ok (some d) => decide (d.header.rights.allowedTas[(0 : Fin 32)] = Vector.replicate 16 0xff) | _ => false) = true := by decide +kernel
    split at h
    · rename_i d hd; exact ⟨d, hd, by simpa using h⟩
    · exact nomatch h
  obtain ⟨d, h1, h2⟩ := this
  exact ⟨d, h1, fun u => (C09.C09_allowed_iff_member _ u).mpr (.inl ⟨0, h2⟩)⟩

end Sa.Kc.C61

import Verif.Model.Provision
import Verif.Lemmas.ObjectStore
import Verif.Props.C61
import Verif.Props.C08

/-!
# C99: provisioning a key

`sa_key_provision_ta` hands an object with keys in containers over to the TA.  Nothing of it stays in SecApi (sa_key.h:215-217), and it is OK only if every container of the object
is genuine.
-/

namespace Sa.Prov.C99

open Sa Sa.Kc Sa.Prov

/-- Two stores that hold the same: every object with its owner and references, and the same places are free. -/
structure Same (a b : KeyStore) : Prop where
  count : b.slotCount = a.slotCount
  down : b.isShuttingDown = a.isShuttingDown
  held : ∀ h o, (a.obj h).object = some o → b.obj h = a.obj h
  free : ∀ h, (a.obj h).object = none → (b.obj h).object = none

theorem Same.refl (a : KeyStore) : Same a a := ⟨rfl, rfl, fun _ _ _ => rfl, fun _ h => h⟩

theorem Same.trans {a b c : KeyStore} (h : Same a b) (g : Same b c) : Same a c where
  count := g.count.trans h.count
  down := g.down.trans h.down
  held i o hi := (g.held i o (by rw [h.held i o hi]; exact hi)).trans (h.held i o hi)
  free i hi := g.free i (h.free i hi)

/-- A container of a key that is genuine: its tag agrees with that of AES-GCM, under the key of the key ladder for what the container says, over the encrypted key and what the
container says. -/
def Genuine (e : SocEnv) (s : Bytes) : Prop :=
  ∃ hd p m pl tag fields mean kn enc encKey key, splitDots s = some (hd, p, m) ∧ e.kc.bio (b64Data e.kc p true) = some pl ∧
    e.kc.bio (b64Data e.kc m true) = some tag ∧ parseJson e.kc pl = some (.obj fields) ∧ C60.Says e.kc fields mean ∧
    Js.find (ascii "encryptedKey") fields = some (kn, .str enc) ∧ e.kc.bio (b64Data e.kc enc false) = some encKey ∧
    e.ladder (C60.ladderRoot mean.root) mean.c1 mean.c2 mean.c3 = .ok key ∧
    1 ≤ tag.length ∧ tag <+: e.prims.gcmTag key mean.iv (C60.authData mean) encKey

/-- The containers of an object: the private key of a Widevine or PlayReady device; the HMAC key and the wrapping key of Netflix. -/
def containers (kind : Nat) (o : Obj) : List (Option Bytes) := if kind = 4 then [o.first, o.second] else [o.first]

/-- Which calls the documentation has refused, and how: NULL or empty arguments, kinds that are not supported, other kinds. -/
def refusal (c : Call) : Option Status :=
  if c.input.isNone ∨ c.params.isNone ∨ c.inLength = 0 then some .NULL_PARAMETER
  else if c.kind = 2 ∨ c.kind = 3 then some .OPERATION_NOT_SUPPORTED
  else if c.kind > 4 then some .INVALID_PARAMETER
  else match c.input with
    | none => none
    | some o =>
      let needed := if c.kind = 4 then [o.first, o.second, o.third] else [o.first, o.second]
      if ∃ p ∈ needed, p.getD [] = [] then some .NULL_PARAMETER else none

/-! ## The store -/

/-- What an import does to the store. -/
inductive Left (a b : KeyStore) (caller : Uuid) : Status → Nat → Prop
  | none {s} : s ≠ .OK → StoreInv b → Same a b → Left a b caller s SLOT_INVALID
  | one {slot} : StoreInv b → b.slotCount = a.slotCount → b.isShuttingDown = a.isShuttingDown → slot < a.slotCount → (a.obj slot).object = none →
      (∃ w, (b.obj slot).object = some w) → (b.obj slot).referenceCount = 0 → (b.obj slot).ownerUuid = caller → (∀ h, h ≠ slot → b.obj h = a.obj h) →
      Left a b caller .OK slot

theorem add_left (st : KeyStore) (inv : StoreInv st) (hs : st.isShuttingDown = false) (w : WrappedKey) (u : Uuid) :
    Left st (objectStoreAdd st w u).1 u (objectStoreAdd st w u).2.1 (objectStoreAdd st w u).2.2 := by
  obtain ⟨h1, h2, h3, h4, h5⟩ := add_spec st inv hs w u
  rcases h5 with ⟨a1, a2, a3, a4⟩ | ⟨a1, a2, a3, a4⟩
  · rw [a1, a2]
    exact .none (by decide) h1 ⟨h2, h3.trans hs.symm, fun h o _ => a4 h, fun h hh => by rw [a4]; exact hh⟩
  · rw [a1]
    refine .one h1 h2 (h3.trans hs.symm) a2 a3 ⟨w, by rw [a4, if_pos rfl]⟩ (by rw [a4, if_pos rfl]) (by rw [a4, if_pos rfl]) fun h hh => ?_
    rw [a4, if_neg hh]

theorem import_left {env : Sa.Env} {e : SocEnv} {st st' : KeyStore} {input : Bytes} {params : SocParams} {caller : Uuid} {s : Status} {key : Nat}
    (inv : StoreInv st) (hs : st.isShuttingDown = false) (h : taImport env e st input params caller = some (st', s, key)) : Left st st' caller s key := by
  unfold taImport at h
  split at h
  · cases h
    exact .none (by decide) inv (.refl _)
  · unfold keyImportSoc importMade P.status at h
    cases hr : (socUnwrap e input (some params)).res with
    | error t =>
      rw [hr] at h
      cases t <;> cases h <;> exact .none (by decide) inv (.refl _)
    | ok k =>
      rw [hr] at h
      cases k with
      | none => cases h; exact .none (by decide) inv (.refl _)
      | some d =>
        simp only [Option.some.injEq] at h
        unfold keyStoreImportStoredKey at h
        split at h
        · cases h; exact .none (by decide) inv (.refl _)
        split at h
        · cases h; exact .none (by decide) inv (.refl _)
        split at h
        · cases h; exact .none (by decide) inv (.refl _)
        · rename_i w _
          have := add_left st inv hs w caller
          rw [h] at this
          exact this

theorem release_left {a b : KeyStore} {caller : Uuid} {slot : Nat} {s : Status} (h : Left a b caller s slot) (hs : s = .OK) (hd : a.isShuttingDown = false) :
    ∃ c, taRelease b slot caller = some (c, .OK) ∧ StoreInv c ∧ Same a c := by
  cases h with
  | none h1 => exact absurd hs h1
  | one h1 h2 h3 h4 h5 h6 h7 h8 h9 =>
    obtain ⟨w, h6⟩ := h6
    have hlt : slot < b.slotCount := h2 ▸ h4
    let b1 : KeyStore := { b with releaseCount := b.releaseCount + 1 }
    have hb1 : StoreInv b1 := ⟨h1.wf, h1.count, h1.len, h1.small, h1.bits, h1.empty⟩
    obtain ⟨g1, g2, g3, g4, g5⟩ := storeRemoveBody_spec b1 hb1 slot (some caller) hlt
    have hobj : ∀ i, b1.obj i = b.obj i := fun _ => rfl
    rcases g5 with ⟨_, q⟩ | ⟨_, _, u, hu, hne⟩ | ⟨_, _, _, q⟩ | ⟨o, q1, q2, q3, q4, q5⟩
    · rw [hobj, h6] at q; cases q
    · cases hu; rw [hobj] at hne; exact absurd h8 hne
    · rw [hobj] at q; exact absurd h7 q
    · refine ⟨decrementReleaseCount (storeRemoveBody b1 slot (some caller)).1, ?_, ?_, ?_⟩
      · unfold taRelease keyStoreRemove objectStoreRemove
        rw [if_neg (by omega)]
        have hi : incrementReleaseCount b = (b1, true) := by
          unfold incrementReleaseCount
          rw [if_neg (by rw [h3, hd]; exact Bool.false_ne_true)]
        rw [hi]
        cases hr : storeRemoveBody b1 slot (some caller) with
        | mk x y =>
          rw [hr] at q4
          simp only at q4
          subst q4
          simp [hr]
      · exact ⟨g1.wf, g1.count, g1.len, g1.small, g1.bits, g1.empty⟩
      · refine ⟨g2.trans h2, g3.trans h3, fun i o' hi => ?_, fun i hi => ?_⟩
        · have hne : i ≠ slot := by rintro rfl; rw [h5] at hi; cases hi
          show (storeRemoveBody b1 slot (some caller)).1.obj i = _
          rw [q5, if_neg hne, hobj, h9 i hne]
        · show ((storeRemoveBody b1 slot (some caller)).1.obj i).object = none
          rw [q5]
          split
          · rfl
          · rename_i hne
            rw [hobj, h9 i hne]; exact hi

theorem Left.after {a a' b : KeyStore} {caller : Uuid} {s : Status} {key : Nat} (hsame : Same a a') (h : Left a' b caller s key) : 
    s ≠ .OK → Same a b := by
  intro hs
  cases h with
  | none _ _ h3 => exact hsame.trans h3
  | one => exact absurd rfl hs

theorem left_ok {a b : KeyStore} {caller : Uuid} {key : Nat} {s : Status} (inv : StoreInv a) (h : Left a b caller s key) : s = .OK ↔ key ≠ SLOT_INVALID := by
  cases h with
  | none h1 => exact ⟨fun h => absurd h h1, fun h => absurd rfl h⟩
  | one _ _ _ h4 =>
    refine ⟨fun _ => ?_, fun _ => rfl⟩
    have := inv.small
    unfold SLOT_INVALID
    omega

/-- The end of the call: what was imported last is released. -/
theorem finish {a a' b : KeyStore} {caller : Uuid} {s : Status} {key : Nat} (hd : a.isShuttingDown = false) (inv' : StoreInv a') (hsame : Same a a')
    (h : Left a' b caller s key) :
    ∃ c, (if key ≠ SLOT_INVALID then match taRelease b key caller with | none => none | some (st, _) => some (st, s) else some (b, s)) = some (c, s) ∧ StoreInv c ∧ Same a c := by
  by_cases hk : key = SLOT_INVALID
  · rw [if_neg (by simpa using hk)]
    have hs : s ≠ .OK := fun hs => (left_ok inv' h).1 hs hk
    cases h with
    | none _ h2 h3 => exact ⟨b, rfl, h2, hsame.trans h3⟩
    | one => exact absurd rfl hs
  · rw [if_pos hk]
    obtain ⟨c, hc, h1, h2⟩ := release_left h ((left_ok inv' h).2 hk) (hsame.down.trans hd)
    rw [hc]
    exact ⟨c, rfl, h1, hsame.trans h2⟩

theorem import_some (env : Sa.Env) (e : SocEnv) (st : KeyStore) (input : Bytes) (params : SocParams) (caller : Uuid) :
    ∃ st' s key, taImport env e st input params caller = some (st', s, key) := by
  unfold taImport
  split
  · exact ⟨_, _, _, rfl⟩
  · unfold keyImportSoc importMade
    split
    · rename_i h; cases h
    all_goals exact ⟨_, _, _, rfl⟩

/-- The parts an object has, each of which is an address and a length of 8 bytes each: key and certificate, or two keys and the ESN. -/
def parts (kind : Nat) : Nat := if kind = 4 then 3 else 2

theorem structSize_eq (kind : Nat) : structSize kind = parts kind * 16 := by
  unfold structSize parts
  split <;> rfl

/-- Nothing is asked of the call but that the TA's copies stay inside their memory and that the command could be allocated. -/
structure Sound (v : Env2) (c : Call) : Prop where
  command : v.command = true
  size : parts c.kind * 16 ≤ c.inLength
  params : ∀ p, c.params = some p → p.length ≤ 624

/-! ## Refused calls -/

theorem missing_iff (p : Option Bytes) : missing p = true ↔ p.getD [] = [] := by
  cases p with
  | none => simp [missing]
  | some b => cases b <;> simp [missing]

theorem preprocess_eq (c : Call) : preprocess c = (refusal c).getD .OK := by
  unfold preprocess refusal
  rcases hi : c.input with _ | o
  · simp
  rcases hp : c.params with _ | p
  · simp
  simp only [Option.isNone_some, Bool.false_eq_true, false_or]
  by_cases hl : c.inLength = 0
  · simp [hl]
  rw [if_neg hl, if_neg hl]
  have m := missing_iff
  match hk : c.kind with
  | 0 => 
    have a := m o.first; have b := m o.second
    by_cases h1 : missing o.first = true <;> by_cases h2 : missing o.second = true <;> simp_all
  | 1 => 
    have a := m o.first; have b := m o.second
    by_cases h1 : missing o.first = true <;> by_cases h2 : missing o.second = true <;> simp_all
  | 2 => simp
  | 3 => simp
  | 4 => 
    have a := m o.first; have b := m o.second; have c := m o.third
    by_cases h1 : missing o.first = true <;> by_cases h2 : missing o.second = true <;> by_cases h3 : missing o.third = true <;> simp_all
  | n + 5 => simp

/-- **C99: what is refused.**  A call that the documentation has refused returns that status and leaves the store as it is, whatever may fail. -/
theorem C99_refused (v : Env2) (e : SocEnv) (st : KeyStore) (c : Call) (caller : Uuid) (s : Status) (h : refusal c = some s) :
    provision v e st c caller = some (st, s) := by
  have hp := preprocess_eq c
  rw [h, Option.getD_some] at hp
  have hne : s ≠ .OK := by
    rintro rfl
    unfold refusal at h
    repeat' split at h
    all_goals simp at h
    all_goals (first | (split at h <;> simp at h) | skip)
  unfold provision
  rw [if_pos (by rw [hp]; exact hne), hp]

/-! ## Nothing stays -/

theorem invoke_runs (v : Env2) (e : SocEnv) (st : KeyStore) (kind : Nat) (o : Obj) (n : Nat) (p : SocParams) (caller : Uuid) (inv : StoreInv st) (hd : st.isShuttingDown = false)
    (hn : parts kind * 16 ≤ n) (hp : p.length ≤ 624) :
    ∃ b s key, invoke v e st kind o n p caller = some (b, s, key) ∧
      ((b = st ∧ key = SLOT_INVALID) ∨ ∃ a, StoreInv a ∧ Same st a ∧ Left a b caller s key) := by
  unfold invoke
  split
  · exact ⟨_, _, _, rfl, .inl ⟨rfl, rfl⟩⟩
  rw [if_neg (by omega), if_neg (by have := structSize_eq kind; omega)]
  split
  · obtain ⟨st1, s1, k1, h1⟩ := import_some v.one e st (o.first.getD []) p caller
    exact ⟨st1, s1, k1, h1, .inr ⟨st, inv, .refl _, import_left inv hd h1⟩⟩
  split
  · obtain ⟨st1, s1, k1, h1⟩ := import_some v.one e st (o.first.getD []) p caller
    have l1 := import_left inv hd h1
    simp only [h1]
    by_cases hs : s1 = .OK
    · rw [if_neg (by simpa using hs), if_pos ((left_ok inv l1).1 hs)]
      obtain ⟨st2, hr, i2, sm2⟩ := release_left l1 hs hd
      simp only [hr]
      rw [if_neg (by simp)]
      obtain ⟨st3, s3, k3, h3⟩ := import_some v.two e st2 (o.second.getD []) p caller
      exact ⟨st3, s3, k3, h3, .inr ⟨st2, i2, sm2, import_left i2 (sm2.down.trans hd) h3⟩⟩
    · rw [if_pos hs]
      exact ⟨st1, s1, k1, rfl, .inr ⟨st, inv, .refl _, l1⟩⟩
  · exact ⟨_, _, _, rfl, .inl ⟨rfl, rfl⟩⟩

theorem provision_runs (v : Env2) (e : SocEnv) (st : KeyStore) (c : Call) (caller : Uuid) (inv : StoreInv st) (hd : st.isShuttingDown = false) (hv : Sound v c) :
    ∃ st' s, provision v e st c caller = some (st', s) ∧ StoreInv st' ∧ Same st st' := by
  unfold provision
  split
  · exact ⟨_, _, rfl, inv, .refl _⟩
  rename_i hpre
  have hpre : preprocess c = .OK := Decidable.not_not.1 hpre
  split
  · exact ⟨_, _, rfl, inv, .refl _⟩
  rw [if_neg (by rw [hv.command]; simp)]
  split
  · exact ⟨_, _, rfl, inv, .refl _⟩
  cases hi : c.input with
  | none => unfold preprocess at hpre; rw [hi] at hpre; cases hpre
  | some o =>
  cases hp : c.params with
  | none => unfold preprocess at hpre; rw [hi, hp] at hpre; cases hpre
  | some p =>
  simp only
  obtain ⟨b, s, key, hb, hc⟩ := invoke_runs v e st c.kind o c.inLength p caller inv hd hv.size (hv.params p hp)
  rw [hb]
  rcases hc with ⟨rfl, rfl⟩ | ⟨a, ia, sa, l⟩
  · exact ⟨b, s, by simp, inv, .refl _⟩
  · obtain ⟨d, hd', i, sm⟩ := finish hd ia sa l
    exact ⟨d, s, hd', i, sm⟩

/-- **C99, nothing is kept (partial).**  Whatever is provisioned, and whatever fails on the way, the store holds afterwards what it held before: no key is added, none is taken
away or changes its owner, and the handles that were free are free.  Missing for the full property: the command must have been allocated, the structure must be as long as its
kind has it and the parameters no longer than theirs (`C99_violated_null`, `C99_violated_short`, `C99_violated_parameters`). -/
theorem C99_nothing_kept_partial (v : Env2) (e : SocEnv) (st : KeyStore) (c : Call) (caller : Uuid) (inv : StoreInv st) (hd : st.isShuttingDown = false)
    (hv : refusal c = none → Sound v c) : ∃ st' s, provision v e st c caller = some (st', s) ∧ StoreInv st' ∧ Same st st' := by
  cases hr : refusal c with
  | some s => exact ⟨st, s, C99_refused v e st c caller s hr, inv, .refl _⟩
  | none => exact provision_runs v e st c caller inv hd (hv hr)

/-! ## Genuine keys -/

theorem import_genuine {env : Sa.Env} {e : SocEnv} {st st' : KeyStore} {input : Bytes} {params : SocParams} {caller : Uuid} {key : Nat} (he : e.kc.Good)
    (htag : ∀ k iv a m, (e.prims.gcmTag k iv a m).length = 16) (h : taImport env e st input params caller = some (st', .OK, key)) : Genuine e input := by
  unfold taImport at h
  split at h
  · cases h
  · unfold keyImportSoc importMade P.status at h
    cases hr : (socUnwrap e input (some params)).res with
    | error t =>
      rw [hr] at h
      cases t <;> simp at h
    | ok k =>
      rw [hr] at h
      cases k with
      | none => simp at h
      | some d =>
        obtain ⟨hd, p, m, pl, tag, fields, mean, kn, enc, encKey, key, a1, a2, a3, a4, a5, a6, a7, a8, a9, a10, _, _, _⟩ := C60.C60_partial e he htag input _ d hr
        exact ⟨hd, p, m, pl, tag, fields, mean, kn, enc, encKey, key, a1, a2, a3, a4, a5, a6, a7, a8, a9, a10⟩

/-- **C99, only genuine keys (partial).**  When provisioning returns OK, the kind is one of the three that are supported, the object is there, and each container in it - both of
them for Netflix - is genuine.  Missing: a tag can be shorter than 16 bytes, see C60. -/
theorem C99_genuine_partial (v : Env2) (e : SocEnv) (he : e.kc.Good) (htag : ∀ k iv a m, (e.prims.gcmTag k iv a m).length = 16) (st st' : KeyStore) (c : Call) (caller : Uuid)
    (h : provision v e st c caller = some (st', .OK)) :
    (c.kind = 0 ∨ c.kind = 1 ∨ c.kind = 4) ∧ ∃ o, c.input = some o ∧ ∀ k ∈ containers c.kind o, ∃ s, k = some s ∧ Genuine e s := by
  have hf : refusal c = none := by
    cases hr : refusal c with
    | none => rfl
    | some s =>
      have hpre := preprocess_eq c
      rw [hr, Option.getD_some] at hpre
      have := C99_refused v e st c caller s hr
      rw [h] at this
      cases this
      unfold refusal at hr
      repeat' split at hr
      all_goals simp at hr
      all_goals (first | (split at hr <;> simp at hr) | skip)
  have hpre := preprocess_eq c
  rw [hf] at hpre
  unfold provision at h
  rw [if_neg (by rw [hpre]; simp)] at h
  split at h
  · cases h
  split at h
  · cases h
  split at h
  · cases h
  cases hi : c.input with
  | none => rw [hi] at h; cases h
  | some o =>
  cases hp : c.params with
  | none => rw [hi, hp] at h; cases h
  | some p =>
  rw [hi, hp] at h
  simp only at h
  have hinv : ∃ b k, invoke v e st c.kind o c.inLength p caller = some (b, .OK, k) := by
    split at h
    · cases h
    · rename_i b s k hb
      refine ⟨b, k, ?_⟩
      rw [hb]
      have : s = .OK := by
        split at h
        · split at h
          · cases h
          · cases h; rfl
        · cases h; rfl
      rw [this]
  clear h
  obtain ⟨b, k, h⟩ := hinv
  have hget : ∀ q : Option Bytes, Genuine e (q.getD []) → ∃ s, q = some s ∧ Genuine e s := by
    intro q hq
    cases q with
    | some s => exact ⟨s, rfl, hq⟩
    | none =>
      obtain ⟨_, _, _, _, _, _, _, _, _, _, _, hsp, _⟩ := hq
      cases hsp
  unfold invoke at h
  split at h
  · cases h
  split at h
  · cases h
  split at h
  · cases h
  split at h
  · rename_i hk
    have hg := import_genuine he htag h
    refine ⟨hk.elim .inl (fun h => .inr (.inl h)), o, rfl, fun q hq => ?_⟩
    unfold containers at hq
    rw [if_neg (by omega)] at hq
    rw [List.mem_singleton.1 hq]
    exact hget _ hg
  split at h
  · rename_i hk
    refine ⟨.inr (.inr hk), o, rfl, ?_⟩
    obtain ⟨st1, s1, k1, h1⟩ := import_some v.one e st (o.first.getD []) p caller
    simp only [h1] at h
    by_cases hs : s1 = .OK
    · subst hs
      have hg1 := import_genuine he htag h1
      have hg2 : Genuine e (o.second.getD []) := by
        rw [if_neg (by simp)] at h
        split at h
        · split at h
          · cases h
          · split at h
            · rename_i hne; simp only [Option.some.injEq, Prod.mk.injEq] at h; exact absurd h.2.1 hne
            · exact import_genuine he htag h
        · exact import_genuine he htag h
      unfold containers
      rw [if_pos hk]
      intro q hq
      simp only [List.mem_cons, List.not_mem_nil, or_false] at hq
      rcases hq with rfl | rfl
      · exact hget _ hg1
      · exact hget _ hg2
    · rw [if_pos hs] at h
      simp only [Option.some.injEq, Prod.mk.injEq] at h
      exact absurd h.2.1 hs
  · rename_i h1 h2
    exfalso
    have := hf
    unfold refusal at this
    repeat' split at this
    all_goals first | cases this | (simp_all; done) | skip
    all_goals omega

/-! ## What is accepted -/

theorem soc_made {e : SocEnv} {s : Bytes} {params : Option SocParams} {d : StoredKey} (h : (socUnwrap e s params).res = .ok (some d)) : HeaderMade d.header := by
  obtain ⟨r⟩ := socUnwrap_ok h
  obtain ⟨aad, info, ha, hi, hd⟩ := socDecryptVerify_ok r.dec
  obtain ⟨key, rights, hg, hr, hs⟩ := socDecrypt_ok hd
  have : ∃ kt tp size, storedKeyCreate e.allocOk rights none kt tp size key = (.OK, some d) := by
    unfold socStore at hs
    split at hs
    · split at hs
      · cases hs
      split at hs
      · cases hs
      exact ⟨_, _, _, hs⟩
    split at hs
    · dsimp only at hs
      generalize (if e.prims.ecValid (info.curve.getD (2 ^ 32 - 1)) key then ecKeySizeFromCurve (info.curve.getD (2 ^ 32 - 1)) else 0) = n at hs
      repeat' split at hs
      all_goals first | (cases hs; done) | exact ⟨_, _, _, hs⟩
    split at hs
    · cases hs
    exact ⟨_, _, _, hs⟩
  obtain ⟨kt, tp, size, hc⟩ := this
  exact (storedKeyCreate_ok hc).2.2.2.2.2.2

theorem import_accepts (env : Sa.Env) (hok : ∀ s, env.ok s = true) (e : SocEnv) (st : KeyStore) (inv : StoreInv st) (hd : st.isShuttingDown = false) (input : Bytes)
    (params : SocParams) (caller : Uuid) (hfree : ∃ h, h < st.slotCount ∧ (st.obj h).object = none) (d : StoredKey) (h : (socUnwrap e input (some params)).res = .ok (some d)) :
    ∃ st' key, taImport env e st input params caller = some (st', .OK, key) := by
  have hne : input ≠ [] := by
    rintro rfl
    obtain ⟨r⟩ := socUnwrap_ok h
    cases r.split
  unfold taImport
  rw [if_neg hne]
  unfold keyImportSoc importMade P.status
  rw [h]
  simp only
  unfold keyStoreImportStoredKey
  rw [if_neg (by simp [(validateHeaderFormat_iff _).mpr (soc_made h).toHeaderOk]), if_neg (by simp [hok])]
  obtain ⟨w, hw⟩ := wrappedKeyCreate_succeeds env hok env.randInputs d
  rw [hw]
  simp only
  obtain ⟨_, _, _, _, h4⟩ := add_spec st inv hd w caller
  rcases h4 with ⟨_, _, c, _⟩ | ⟨a, _⟩
  · obtain ⟨h, hh, hn⟩ := hfree
    have := c h hh; rw [hn] at this; simp at this
  · exact ⟨(objectStoreAdd st w caller).1, (objectStoreAdd st w caller).2.2, by rw [← a]⟩

/-- **C99, what is accepted (partial).**  An object that is complete, of a kind that is supported, and of which each container is one that `sa_key_import` reads, is provisioned when
nothing fails and one handle is free: one is enough, also for the two keys of Netflix.  Missing: the conditions of `C99_nothing_kept_partial`. -/
theorem C99_accepted_partial (v : Env2) (hs : v.session = true) (hm : v.memory = true) (h1 : ∀ s, v.one.ok s = true) (h2 : ∀ s, v.two.ok s = true) (e : SocEnv) (st : KeyStore)
    (inv : StoreInv st) (hd : st.isShuttingDown = false) (hfree : ∃ h, h < st.slotCount ∧ (st.obj h).object = none) (c : Call) (caller : Uuid) (hr : refusal c = none)
    (hv : Sound v c) (o : Obj) (hi : c.input = some o) (p : SocParams) (hp : c.params = some p) (hp0 : p.length ≠ 0)
    (hk : ∀ k ∈ containers c.kind o, ∃ s d, k = some s ∧ (socUnwrap e s (some p)).res = .ok (some d)) :
    ∃ st', provision v e st c caller = some (st', .OK) := by
  have hpre := preprocess_eq c
  rw [hr] at hpre
  obtain ⟨f1, d1, hf1, hu1⟩ := hk o.first (by unfold containers; split <;> simp)
  have hinv : ∃ b key, invoke v e st c.kind o c.inLength p caller = some (b, .OK, key) := by
    unfold invoke
    rw [if_neg hp0, if_neg (by have := hv.params p hp; omega), if_neg (by have := hv.size; have := structSize_eq c.kind; omega)]
    obtain ⟨b, key, hb⟩ := import_accepts v.one h1 e st inv hd f1 p caller hfree d1 hu1
    rw [hf1, Option.getD_some, hb]
    split
    · exact ⟨b, key, rfl⟩
    · split
      · rename_i hk4
        have l := import_left inv hd hb
        simp only
        rw [if_neg (by simp), if_pos ((left_ok inv l).1 rfl)]
        obtain ⟨st2, hrl, i2, sm2⟩ := release_left l rfl hd
        rw [hrl]
        simp only
        rw [if_neg (by simp)]
        obtain ⟨f2, d2, hf2, hu2⟩ := hk o.second (by unfold containers; rw [if_pos hk4]; simp)
        rw [hf2, Option.getD_some]
        obtain ⟨i, hi1, hi2⟩ := hfree
        exact import_accepts v.two h2 e st2 i2 (sm2.down.trans hd) f2 p caller ⟨i, by rw [sm2.count]; exact hi1, sm2.free i hi2⟩ d2 hu2
      · exact ⟨st, _, rfl⟩
  obtain ⟨b, key, hb⟩ := hinv
  obtain ⟨st', s, hpr, _, _⟩ := provision_runs v e st c caller inv hd hv
  refine ⟨st', ?_⟩
  rw [hpr]
  unfold provision at hpr
  rw [if_neg (by rw [hpre]; simp), if_neg (by rw [hs]; simp), if_neg (by rw [hv.command]; simp), if_neg (by rw [hm]; simp), hi, hp] at hpr
  simp only [hb] at hpr
  split at hpr
  · split at hpr
    · cases hpr
    · cases hpr; rfl
  · cases hpr; rfl

/-! ## Violations -/

/-- A container that is read, and an environment in which nothing fails. -/
def soc0 : SocEnv := Sample.socEnv (Sample.payload "AES-128" (Sample.str Sample.b16) (Sample.str Sample.b12) [.startArr, .endArr]) 0
def v0 : Env2 := ⟨true, true, true, C08.env0, C08.env0⟩
def object0 : Obj := ⟨some Sample.text, some Sample.text, some [1]⟩
def params0 : SocParams := ⟨624, 2, 1⟩
def call0 (kind : Nat) : Call := ⟨kind, some object0, 48, some params0⟩

/-- **C99 is violated: memory for the command.**  When it cannot be had, every call that is not refused reads through NULL. -/
theorem C99_violated_null (v : Env2) (hv : v.session = true) (hc : v.command = false) (e : SocEnv) (st : KeyStore) (c : Call) (caller : Uuid) (hr : refusal c = none) :
    provision v e st c caller = none := by
  have hpre := preprocess_eq c
  rw [hr] at hpre
  unfold provision
  rw [if_neg (by rw [hpre]; simp), if_neg (by rw [hv]; simp), if_pos hc]

/-- **C99 is violated: a short structure.**  With a length that is shorter than the structure of its kind, the TA reads behind the copy of it. -/
theorem C99_violated_short (v : Env2) (hv : v.session = true) (hm : v.memory = true) (e : SocEnv) (st : KeyStore) (c : Call) (caller : Uuid) (hr : refusal c = none)
    (hp : ∀ p, c.params = some p → p.length ≠ 0) (hl : c.inLength < parts c.kind * 16) : provision v e st c caller = none := by
  have hpre := preprocess_eq c
  rw [hr] at hpre
  unfold provision
  rw [if_neg (by rw [hpre]; simp), if_neg (by rw [hv]; simp)]
  split
  · rfl
  rw [if_neg (by rw [hm]; simp)]
  cases hi : c.input with
  | none => rfl
  | some o =>
    cases hq : c.params with
    | none => rfl
    | some p =>
      have : invoke v e st c.kind o c.inLength p caller = none := by
        unfold invoke
        rw [if_neg (hp p hq), if_pos (show c.inLength < structSize c.kind by rw [structSize_eq]; exact hl), ite_self]
      simp only [this]

/-- **C99 is violated: long parameters.**  The first two bytes of the parameters say how much of them is copied, beyond the end of the copy's memory. -/
theorem C99_violated_parameters (v : Env2) (hv : v.session = true) (hm : v.memory = true) (e : SocEnv) (st : KeyStore) (c : Call) (caller : Uuid) (hr : refusal c = none)
    (p : SocParams) (hp : c.params = some p) (hl : 624 < p.length) : provision v e st c caller = none := by
  have hpre := preprocess_eq c
  rw [hr] at hpre
  unfold provision
  rw [if_neg (by rw [hpre]; simp), if_neg (by rw [hv]; simp)]
  split
  · rfl
  rw [if_neg (by rw [hm]; simp)]
  cases hi : c.input with
  | none => rfl
  | some o =>
    have : invoke v e st c.kind o c.inLength p caller = none := by
      unfold invoke
      rw [if_neg (by omega), if_pos hl]
    rw [hp]
    simp only [this]

/-! ## Concrete cases -/

/-- The calls of the violations are not refused, and the sample is sound. -/
example : refusal (call0 0) = none ∧ refusal (call0 1) = none ∧ refusal (call0 4) = none ∧ refusal { call0 4 with inLength := 32 } = none ∧
    refusal (call0 2) = some .OPERATION_NOT_SUPPORTED ∧ refusal (call0 5) = some .INVALID_PARAMETER ∧
    refusal { call0 0 with input := some ⟨some [], some [1], none⟩ } = some .NULL_PARAMETER := by decide

example : Sound v0 (call0 4) := ⟨rfl, by decide, fun p h => by cases h; decide⟩

/-- Status and number of keys held. -/
def result (r : Option (KeyStore × Status)) : Option (Status × Nat) :=
  r.map fun x => (x.2, ((List.range x.1.slotCount).filter fun i => (x.1.obj i).object.isSome).length)

/-- With a key of another in a store of 32: both keys of Netflix are provisioned, and the store holds one key as before. -/
example : C08.st1.bind (fun st => result (provision v0 soc0 st (call0 4) C08.u8)) = some (.OK, 1) := by decide +kernel

/-- A second container that is not genuine. -/
example : C08.st1.bind (fun st => result (provision v0 soc0 st { call0 4 with input := some { object0 with second := some [1, 2] } } C08.u8)) =
    some (.INVALID_KEY_FORMAT, 1) := by decide +kernel

/-- The hypotheses of `C99_genuine_partial` and `C99_accepted_partial`. -/
example : soc0.kc.Good ∧ ∀ k iv a m, (soc0.prims.gcmTag k iv a m).length = 16 := ⟨Sample.env_good _ _ _, fun _ _ _ _ => rfl⟩
example : ∃ d, (socUnwrap soc0 Sample.text (some params0)).res = .ok (some d) := by
  have : (Sample.outcome (socUnwrap soc0 Sample.text (some params0))).isSome := by decide +kernel
  unfold Sample.outcome at this
  split at this
  · exact ⟨_, by assumption⟩
  · cases this

end Sa.Prov.C99

import Verif.Lemmas.Lineage
import Verif.Props.C11
import Verif.Props.C109

/-!
# C110: no key of a line, however long, may be output where the first may not

For the TA as a whole: any number of sessions and callers, all calls.
-/

namespace Sa.Whole.C110

open C105 C106 C107

variable {κ ρ π σ τ : Type}

/-! ## Lines of keys -/

/-- The handle of the key from which a call makes a key.  Of the calls of Netflix this is the key whose rights are passed on (C46): the encryption key, and Kw. -/
def sources : Call κ ρ π → List Nat
  | .unwrap _ _ _ _ wrapping _ => [wrapping]
  | .derive _ _ _ (.hkdf _ _ parent _ _) => [parent]
  | .derive _ _ _ (.concat _ _ parent _) => [parent]
  | .derive _ _ _ (.x963 _ _ parent _) => [parent]
  | .derive _ _ _ (.cmac _ _ parent _) => [parent]
  | .derive _ _ _ (.netflix kenc _) => [kenc]
  | .exchangeDh _ _ _ key _ => [key]
  | .exchangeEcdh _ _ _ key _ => [key]
  | .exchangeNetflix _ _ _ _ _ _ params => [params.kw]
  | .importTypej _ _ _ kcipher => [kcipher]
  | _ => []

/-- By the history `rs`, the key `k` which handle `h` of `u`'s session `s` denotes comes from `k0`: it is `k0`; or it was made from a key that comes from `k0` by unwrapping, derivation or
exchange; or it was exported and imported again, by whomever.  `as` are the keys from which others were made on the way. -/
inductive Line (p : Prims) (d : Device σ τ) (w0 : Ta σ τ) (k0 : StoredKey) : List (Request κ ρ π) → Nat → Uuid → Nat → StoredKey → List StoredKey → Prop where
  | first {rs ts w s u h} : handleAll (κ := κ) (ρ := ρ) (π := π) d w0 rs = some (w, ts) → Denotes p w s u h k0 → Line p d w0 k0 rs s u h k0 []
  | later {rs more ts w s u h k as} : Line p d w0 k0 rs s u h k as → handleAll (κ := κ) (ρ := ρ) (π := π) d w0 (rs ++ more) = some (w, ts) → Denotes p w s u h k →
      Line p d w0 k0 (rs ++ more) s u h k as
  | child {rs ts w w' s u h kp as c q x k} : Line p d w0 k0 rs s u h kp as → handleAll (κ := κ) (ρ := ρ) (π := π) d w0 rs = some (w, ts) →
      handle (κ := κ) (ρ := ρ) (π := π) d w (.call s u (.keys c)) = some (w', .reply q) → h ∈ sources c → x ∈ given q → Denotes p w' s u x k →
      Line p d w0 k0 (rs ++ [.call s u (.keys c)]) s u x k (kp :: as)
  | moved {rs ts w w1 s u h k as env mixin buf n out more ts2 w2 w3 s' u' env' x k'} : Line p d w0 k0 rs s u h k as → handleAll (κ := κ) (ρ := ρ) (π := π) d w0 rs = some (w, ts) →
      handle (κ := κ) (ρ := ρ) (π := π) d w (.call s u (.keys (.export env h mixin (some buf) buf.length))) = some (w1, .reply (.exported .OK n (some out))) →
      handleAll (κ := κ) (ρ := ρ) (π := π) d w0 (rs ++ [.call s u (.keys (.export env h mixin (some buf) buf.length))] ++ more) = some (w2, ts2) →
      handle (κ := κ) (ρ := ρ) (π := π) d w2 (.call s' u' (.keys (.importExported env' (out.take n)))) = some (w3, .reply (.made .OK x)) → Denotes p w3 s' u' x k' →
      Line p d w0 k0 (rs ++ [.call s u (.keys (.export env h mixin (some buf) buf.length))] ++ more ++ [.call s' u' (.keys (.importExported env' (out.take n)))]) s' u' x k' as

/-- The keys whose output flags bind those made from them (see C11): there is another use than unwrapping, or there are no flags for children. -/
def Binds (r : Rights) : Prop := (∃ j, j ≤ 5 ∧ j ≠ 2 ∧ Flag r.usageFlags j) ∨ r.childUsageFlags = 0

/-! ## One call -/

theorem bound {r parent : Rights} (hp : Binds parent) {i : Nat} (h6 : 6 ≤ i) (h12 : i ≤ 12) (hf : Flag (restrictChildRights r (some parent)).usageFlags i) : Flag parent.usageFlags i := by
  unfold restrictChildRights at hf
  simp only at hf
  rw [if_pos (hp.imp (keyOnly_ne_zero_iff _).mpr id), flag_restrict] at hf
  exact hf.2 ((outputMask_flag i).mpr ⟨h6, h12⟩)

theorem breeds (p : Prims) (hp : p.Good) (st : KeyStore) (hr : KsReachable p st) (u : Uuid) (c : Call κ ρ π) (hf : c.Fine p) {st' : KeyStore} {q : Reply}
    (hs : serveKeys st u c = some (st', q)) {h x : Nat} (hh : h ∈ sources c) (hx : x ∈ given q) : Bred p st u h st' x := by
  cases c with
  | unwrap env ue t params wrapping input =>
    obtain ⟨rfl, hu, hl, hb⟩ := hf
    simp only [sources, List.mem_singleton] at hh
    subst hh
    refine bred_of hs hx ?_
    obtain ⟨st1, s, y, h1, _, h3⟩ := keyUnwrapOp_cases env hp ue hu st hr t params h input u hl hb
    refine ⟨st1, s, y, h1, fun ok => ?_⟩
    rcases h3 with ⟨h3, _⟩ | ⟨_, wk, dk, a, _, _, _, _, e, _, _, n⟩
    · exact absurd ok h3
    · exact ⟨_, wk, dk, a, n.holds, e⟩
  | derive env k rights params =>
    obtain ⟨rfl, hk⟩ := hf
    refine bred_of hs hx ?_
    cases params with
    | hkdf L digest parent salt info =>
      simp only [sources, List.mem_singleton] at hh
      subst hh
      obtain ⟨st1, s, y, h1, _, h3⟩ := C29.C29_hkdf env hp k hk st hr rights L digest h salt info u
      refine ⟨st1, s, y, h1, fun ok => ?_⟩
      rcases h3 with ⟨h3, _⟩ | ⟨_, _, pk, dk, _, a, n, _, _, _, _, e⟩
      · exact absurd ok h3
      · exact ⟨_, pk, dk, a, n.holds, e⟩
    | concat L digest parent info =>
      simp only [sources, List.mem_singleton] at hh
      subst hh
      obtain ⟨st1, s, y, h1, _, h3⟩ := C30.C30_concat env hp k hk st hr rights L digest h info u
      refine ⟨st1, s, y, h1, fun ok => ?_⟩
      rcases h3 with ⟨h3, _⟩ | ⟨_, _, pk, dk, _, a, n, _, _, _, _, e⟩
      · exact absurd ok h3
      · exact ⟨_, pk, dk, a, n.holds, e⟩
    | x963 L digest parent info =>
      simp only [sources, List.mem_singleton] at hh
      subst hh
      obtain ⟨st1, s, y, h1, _, h3⟩ := C30.C30_x963 env hp k hk st hr rights L digest h info u
      refine ⟨st1, s, y, h1, fun ok => ?_⟩
      rcases h3 with ⟨h3, _⟩ | ⟨_, _, pk, dk, _, a, n, _, _, _, _, e⟩
      · exact absurd ok h3
      · exact ⟨_, pk, dk, a, n.holds, e⟩
    | cmac L counter parent other =>
      simp only [sources, List.mem_singleton] at hh
      subst hh
      obtain ⟨st1, s, y, h1, _, h3⟩ := C31.C31_cmac env hp k hk st hr rights L counter h other u
      refine ⟨st1, s, y, h1, fun ok => ?_⟩
      rcases h3 with ⟨h3, _⟩ | ⟨_, _, pk, dk, a, n, _, _, _, _, e⟩
      · exact absurd ok h3
      · exact ⟨_, pk, dk, a, n.holds, e⟩
    | netflix kenc khmac =>
      simp only [sources, List.mem_singleton] at hh
      subst hh
      obtain ⟨st1, s, y, h1, _, h3⟩ := deriveNetflix_cases env hp k hk st hr rights h khmac u
      refine ⟨st1, s, y, h1, fun ok => ?_⟩
      rcases h3 with ⟨h3, _⟩ | ⟨_, pk, _, dk, a, _, _, _, n, _, e⟩
      · exact absurd ok h3
      · exact ⟨_, pk, dk, a, n.holds, e⟩
    | _ => simp [sources] at hh
  | exchangeDh env a rights key other =>
    obtain ⟨rfl, ha⟩ := hf
    simp only [sources, List.mem_singleton] at hh
    subst hh
    exact bred_of hs hx (exchangeDh_bred env hp a ha st hr rights h other u)
  | exchangeEcdh env a rights key other =>
    obtain ⟨rfl, ha⟩ := hf
    simp only [sources, List.mem_singleton] at hh
    subst hh
    exact bred_of hs hx (exchangeEcdh_bred env hp a ha st hr rights h other u)
  | exchangeNetflix envs k a rights key other params =>
    obtain ⟨he, hk, ha⟩ := hf
    simp only [sources, List.mem_singleton] at hh
    subst hh
    obtain ⟨o, h1, h3⟩ := C45.C45_all_or_nothing p hp envs he k hk a ha st hr rights key other params u (0, 0, 0)
    simp only [serveKeys, h1, Option.map_some, Option.some.injEq, Prod.mk.injEq] at hs
    obtain ⟨rfl, rfl⟩ := hs
    obtain ⟨ok, hx⟩ := given_three hx
    rcases h3 with ⟨h3, _⟩ | ⟨_, _, _, _, _, _, _, kw, sk, z, enc, hm, wrap, a1, _, _, a2, a3, a4, _, _, _, e2, e3, e4⟩
    · exact absurd ok h3
    · rcases hx with rfl | rfl | rfl
      · exact ⟨_, kw, wrap, a1, a4, e4⟩
      · exact ⟨_, kw, enc, a1, a2, e2⟩
      · exact ⟨_, kw, hm, a1, a3, e3⟩
  | importTypej e input khmac kcipher =>
    obtain ⟨rfl, hg⟩ := hf
    simp only [sources, List.mem_singleton] at hh
    subst hh
    refine bred_of hs hx ?_
    obtain ⟨st1, s, y, h1, _, h3⟩ := Kc.C40.import_cases e hg st hr input khmac h u
    refine ⟨st1, s, y, h1, fun ok => ?_⟩
    rcases h3 with ⟨h3, _⟩ | ⟨_, dk, n, m⟩
    · exact absurd ok h3
    · obtain ⟨mk, wk, _, _, _, _, a, _, _, _, r, t⟩ := m.made
      exact ⟨_, wk, dk, a, n.holds, t.rights⟩
  | _ => simp [sources] at hh

/-! ## The TA -/

theorem held_header {p : Prims} {st : KeyStore} {h : Nat} {u : Uuid} {k k' : StoredKey} (a : KeyHeld p st h u k) (b : KeyHeld p st h u k') : k'.header = k.header := by
  have := a.1
  rw [b.1] at this
  simpa using this

theorem run_inv {p : Prims} (hp : p.Good) {d : Device σ τ} (hm : MacsGood d.mac) {w0 : Ta σ τ} (h0 : start σ τ = some w0) {rs : List (Request κ ρ π)} (hf : ∀ r ∈ rs, r.Fine p)
    {w : Ta σ τ} {ts : List (Uuid × Told)} (hw : handleAll d w0 rs = some (w, ts)) : C105.WInv p d w := by
  obtain ⟨w', ts', h1, h2, _⟩ := all_ok p hp d hm rs hf w0 (start_ok p d w0 h0).1
  rw [hw] at h1
  cases h1
  exact h2

/-- A call on the keys that is answered: the tables before and after. -/
theorem keys_call {d : Device σ τ} {w w' : Ta σ τ} (inv : TaInv w) {s : Nat} {u : Uuid} {c : Call κ ρ π} {q : Reply}
    (h : handle (κ := κ) (ρ := ρ) (π := π) d w (.call s u (.keys c)) = some (w', .reply q)) :
    ∃ t st', tablesOf w s = some t ∧ (w.clients.obj s).ownerUuid = u ∧ serveKeys t.keys u c = some (st', q) ∧ tablesOf w' s = some { t with keys := st' } ∧
      (w'.clients.obj s).ownerUuid = u := by
  rcases call_cases d w inv s u (.keys c) with ⟨_, e, _⟩ | ⟨ptr, t, g1, g2, g3, e⟩
  · rw [e] at h; cases h
  · rw [e] at h
    cases hs : serveKeys t.keys u c with
    | none => simp [serve, hs] at h
    | some y =>
      simp only [serve, hs, Option.map_some, Option.some.injEq, Prod.mk.injEq, Told.reply.injEq] at h
      obtain ⟨rfl, rfl⟩ := h
      exact ⟨t, y.1, by simp [tablesOf, g1, g3], g2, hs, by simp [tablesOf, g1], g2⟩

/-- The rights of a key that is exported, and of one that is imported from the bytes given. -/
theorem moved_rights {p : Prims} (hp : p.Good) {env env' : Env} (he : env.prims = p) (he' : env'.prims = p) {st st2 st3 : KeyStore} (hr : KsReachable p st) (hr2 : KsReachable p st2)
    {key x n : Nat} {mixin : Option Bytes} {buf out : Bytes} {u u' : Uuid} {k k' : StoredKey} (hl : (out.take n).length < 2 ^ 64)
    (h1 : (keyStoreExport env st key mixin (some buf) buf.length u).map (fun r => (r.store, Reply.exported r.status r.outLength r.out)) = some (st, .exported .OK n (some out)))
    (h2 : (keyStoreImportExported env' st2 (out.take n) u').map (fun r => (r.1, Reply.made r.2.1 r.2.2)) = some (st3, .made .OK x))
    (hk : KeyHeld p st key u k) (hk' : KeyHeld p st3 x u' k') : k'.header.rights = k.header.rights ∧ Flag k.header.rights.usageFlags 13 := by
  subst he
  have inv := ksReachable_inv _ hp st hr
  have inv2 := ksReachable_inv _ hp st2 hr2
  obtain ⟨r, hx, _, hc⟩ := ksExport_cases env hp st inv key mixin (some buf) buf.length (by simp) u
  rw [hx] at h1
  simp only [Option.map_some, Option.some.injEq, Prod.mk.injEq, Reply.exported.injEq] at h1
  obtain ⟨_, hok, rfl, hro'⟩ := h1
  rcases hc with ⟨hno, _⟩ | ⟨_, w, sk, ho, hu, hw1, hks, h13, hm, hlen, hc⟩
  · exact absurd hok hno
  rcases hc with ⟨hn, _⟩ | ⟨b, rw', hb, hle, hw, hd, hro⟩
  · simp at hn
  rw [hro'] at hro
  simp only [Option.some.injEq] at hro
  have hsk : k.header = sk.header := held_header (holds_of env.prims hp st inv key u w sk ho hu hw1) hk
  have hdrop : ∃ rest, (out.take r.outLength).drop 16 = encodeHeader rw'.header ++ rest := by
    have hsig : rw'.signature.length = 32 := by rw [hw.mac]; exact hp.macLen _ _
    have htake : out.take r.outLength = mixin.getD (List.replicate 16 0) ++ encodeHeader rw'.header ++
        encodeCipherParameters rw'.cipherParameters ++ rw'.ciphertext ++ rw'.signature := by
      rw [hro]
      apply List.take_left'
      rw [hlen]
      simp only [List.length_append, hm, encodeHeader_length, encodeCipherParameters_length, hw.ctLen, hsig]; omega
    refine ⟨encodeCipherParameters rw'.cipherParameters ++ (rw'.ciphertext ++ rw'.signature), ?_⟩
    rw [htake]
    simp only [List.append_assoc]
    exact List.drop_left' hm
  obtain ⟨rest, hdrop⟩ := hdrop
  refine ⟨?_, by rw [hsk, ← hw1.header]; exact h13⟩
  rcases importExported_spec env' (he' ▸ hp) st2 (out.take r.outLength) hl u' with ⟨r', e1, rfl⟩ | ⟨sk', e1, hm', hs', _, _, _, e2, _⟩
  · rw [e1] at h2; simp at h2
  · rw [hdrop, decodeHeader_encode] at e2
    rw [e1] at h2
    obtain ⟨i1, i2, i3⟩ := importStoredKey_spec env' (he' ▸ hp) st2 (he' ▸ inv2) sk' hm' hs' u'
    rw [he'] at i1 i3
    generalize hres : keyStoreImportStoredKey env' st2 sk' u' = res at *
    obtain ⟨st3', s, y⟩ := res
    simp only [Option.map_some, Option.some.injEq, Prod.mk.injEq, Reply.made.injEq] at h2
    obtain ⟨rfl, rfl, rfl⟩ := h2
    rcases i3 with ⟨hno, _⟩ | ⟨_, g1, g2, w3, hw3, hobj⟩
    · exact absurd rfl hno
    · simp only at g1 g2 hobj i1
      have ho3 : (st3'.obj y).object = some w3 := by rw [hobj, if_pos rfl]
      have hu3 : (st3'.obj y).ownerUuid = u' := by rw [hobj, if_pos rfl]
      have := held_header (holds_of env.prims hp st3' i1 y u' w3 sk' ho3 hu3 hw3) hk'
      rw [this, e2, hw.header, hsk]

/-! ## The property -/

/-- **C110.**  Over any history of calls `Cmd.Fine` (see C105): a key that comes from `k0` - through any number of derivations, unwrappings, exchanges, exports and imports, in whatever
sessions - has no output flag (6 to 12) that `k0` does not have, provided that the keys from which others were made on the way are of the kind that binds.  Missing for the full property:
keys that can only unwrap and have flags for children (`C110_violated`), and the second keys of the calls of Netflix (C46). -/
theorem C110_outputs_partial (p : Prims) (hp : p.Good) (d : Device σ τ) (hm : MacsGood d.mac) (w0 : Ta σ τ) (h0 : start σ τ = some w0) (k0 : StoredKey) (rs : List (Request κ ρ π))
    (hf : ∀ r ∈ rs, r.Fine p) (s : Nat) (u : Uuid) (h : Nat) (k : StoredKey) (as : List StoredKey) (hl : Line p d w0 k0 rs s u h k as) (hb : ∀ a ∈ as, Binds a.header.rights) :
    ∀ i, 6 ≤ i → i ≤ 12 → Flag k.header.rights.usageFlags i → Flag k0.header.rights.usageFlags i := by
  have den : ∀ {rs : List (Request κ ρ π)} {s u h k as}, Line p d w0 k0 rs s u h k as → ∃ w ts, handleAll d w0 rs = some (w, ts) ∧ Denotes p w s u h k := by
    intro rs s u h k as hl
    cases hl with
    | first a b => exact ⟨_, _, a, b⟩
    | later _ a b => exact ⟨_, _, a, b⟩
    | child _ a b _ _ c => exact ⟨_, _, handleAll_snoc d _ _ _ _ a _ _ _ b, c⟩
    | moved _ _ _ a b c => exact ⟨_, _, handleAll_snoc d _ _ _ _ a _ _ _ b, c⟩
  induction hl with
  | first _ _ => exact fun i _ _ h => h
  | later _ _ _ ih => exact ih (fun r hr => hf r (by simp [hr])) hb
  | @child rs ts w w' s u h kp as c q x k hl hw hh hsrc hx hk ih =>
    intro i h6 h12 hfl
    have hf1 : ∀ r ∈ rs, r.Fine p := fun r hr => hf r (by simp [hr])
    refine ih hf1 (fun a ha => hb a (by simp [ha])) i h6 h12 ?_
    obtain ⟨w1, ts1, e1, den1⟩ := den hl
    rw [hw] at e1; cases e1
    have inv := run_inv hp hm h0 hf1 hw
    obtain ⟨t, st', ht, hu, hs, ht', _⟩ := keys_call inv.ta hh
    obtain ⟨ptr, _, hp2⟩ := tables_heap ht
    obtain ⟨asked, kp', k', a1, a2, a3⟩ := breeds p hp t.keys (inv.tabs ptr t hp2).keys u c (hf (.call s u (.keys c)) (by simp)) hs hsrc hx
    obtain ⟨_, t1, ht1, hk1⟩ := den1
    rw [ht] at ht1; cases ht1
    obtain ⟨_, t2, ht2, hk2⟩ := hk
    rw [ht'] at ht2; cases ht2
    rw [held_header a2 hk2, a3, held_header hk1 a1] at hfl
    exact bound (hb kp (by simp)) h6 h12 hfl
  | @moved rs ts w w1 s u h k as env mixin buf n out more ts2 w2 w3 s' u' env' x k' hl hw hx hw2 hi hk ih =>
    intro i h6 h12 hfl
    have hf1 : ∀ r ∈ rs, r.Fine p := fun r hr => hf r (by simp [hr])
    refine ih hf1 hb i h6 h12 ?_
    obtain ⟨w', ts', e1, den1⟩ := den hl
    rw [hw] at e1; cases e1
    have inv := run_inv hp hm h0 hf1 hw
    have inv2 := run_inv hp hm h0 (fun r hr => hf r (List.mem_append_left _ hr)) hw2
    obtain ⟨t, st', ht, hu, hs, ht', _⟩ := keys_call inv.ta hx
    obtain ⟨t2, st3, ht2, hu2, hs2, ht3, _⟩ := keys_call inv2.ta hi
    obtain ⟨ptr, _, hp1⟩ := tables_heap ht
    obtain ⟨ptr2, _, hp2⟩ := tables_heap ht2
    obtain ⟨_, t1, e1, hk1⟩ := den1
    rw [ht] at e1; cases e1
    obtain ⟨_, t4, e4, hk2⟩ := hk
    rw [ht3] at e4; cases e4
    have f1 : Call.Fine p (.export env h mixin (some buf) buf.length : Call κ ρ π) := hf (.call s u (.keys (.export env h mixin (some buf) buf.length))) (by simp)
    have f2 : Call.Fine p (.importExported env' (out.take n) : Call κ ρ π) := hf (.call s' u' (.keys (.importExported env' (out.take n)))) (by simp)
    simp only [serveKeys] at hs hs2
    have same : st' = t.keys := by
      obtain ⟨r, e, e2, _⟩ := ksExport_cases env (f1.1 ▸ hp) t.keys (f1.1 ▸ ksReachable_inv _ hp _ (inv.tabs ptr t hp1).keys) h mixin (some buf) buf.length (by simp) u
      rw [e] at hs
      simp only [Option.map_some, Option.some.injEq, Prod.mk.injEq] at hs
      rw [← hs.1, e2]
    subst same
    have := moved_rights hp f1.1 f2.1 (inv.tabs ptr t hp1).keys (inv2.tabs ptr2 t2 hp2).keys f2.2 hs hs2 hk1 hk2
    rw [this.1] at hfl
    exact hfl

/-- Keys that bind: what they tell is kept (used below). -/
theorem never_clear {p : Prims} (hp : p.Good) {d : Device σ τ} (hm : MacsGood d.mac) {w0 : Ta σ τ} (h0 : start σ τ = some w0) {k0 : StoredKey}
    (h6 : ¬Flag k0.header.rights.usageFlags FLAG_SVP_OPTIONAL) {rs pre : List (Request κ ρ π)} (hf : ∀ r ∈ rs, r.Fine p) (hpre : pre <+: rs) {s' : Nat} {u' : Uuid} {h' : Nat}
    {k : StoredKey} {as : List StoredKey} (hl : Line p d w0 k0 pre s' u' h' k as) (hb : ∀ a ∈ as, Binds a.header.rights) {b : Bool}
    (hc : b = true → Flag k.header.rights.usageFlags FLAG_SVP_OPTIONAL) : b = false := by
  cases b with
  | false => rfl
  | true => exact absurd (C110_outputs_partial p hp d hm w0 h0 k0 pre (fun r hr => hf r (hpre.subset hr)) s' u' h' k as hl hb _ (by decide) (by decide) (hc rfl)) h6

/-- **C110, what it means for content.**  If `k0` does not allow output outside of protected memory, then a call that processes data in a context that was made with a key that comes from `k0`
writes nothing, or writes inside of an SVP buffer of the session - over any history, whatever rights were asked for on the way. -/
theorem C110_content_partial {view : σ → CipherView} (p : Prims) (hp : p.Good) (d : Device σ τ) (hm : MacsGood d.mac) (hd : d.cipher.Good view) (w0 : Ta σ τ)
    (h0 : start σ τ = some w0) (rs : List (Request κ ρ π)) (hf : ∀ r ∈ rs, r.Fine p) (hpr : ∀ r ∈ rs, PrivOk r) (w : Ta σ τ) (ts : List (Uuid × Told)) (hw : handleAll d w0 rs = some (w, ts))
    (k0 : StoredKey) (h6 : ¬Flag k0.header.rights.usageFlags FLAG_SVP_OPTIONAL) (pre : List (Request κ ρ π)) (hpre : pre <+: rs) (s' : Nat) (u' : Uuid) (h' : Nat) (k : StoredKey)
    (as : List StoredKey) (hl : Line p d w0 k0 pre s' u' h' k as) (hb : ∀ a ∈ as, Binds a.header.rights)
    (s : Nat) (u : Uuid) (h : Nat) (params : InitParams) (mode : Nat) (x : Option σ) (ho : Opened p d w0 rs s h u params mode k x)
    (kind : ProcKind) (up : UnwrapPrims) (hup : up.Good) (env : RightsEnv) (mem : Mem) (out : Option RawBuffer) (input : RawBuffer) (bytes : UInt64)
    (w' : Ta σ τ) (st : Status) (mem' : Mem) (out' : Option RawBuffer) (in' : RawBuffer) (n : UInt64) (tag : Option Bytes)
    (hc : handle (κ := κ) (ρ := ρ) (π := π) d w (.call s u (.cipherProcess kind up env mem h out input bytes)) = some (w', .reply (.processed st mem' out' in' n tag))) :
    mem' = mem ∨ ∃ ob a outB t, out = some (.buf ob) ∧ ob.isClear = false ∧ tablesOf w s = some t ∧ Located t.svps u ob outB.length a ∧ mem' = writeAt mem a outB := by
  obtain ⟨_, hcase⟩ := C107_process_partial p hp d hm hd w0 h0 rs hf hpr w ts hw s u h kind up hup env mem out input bytes w' st mem' out' in' n tag hc
  rcases hcase with ⟨e, _⟩ | ⟨params', mode', k', x', t, ob, ib, a, b, outB, g1, g2, g3, _, g5, g6, _, g8, _⟩
  · exact Or.inl e
  · obtain ⟨_, _, _, rfl, _⟩ := C107_one hf ho g1
    exact Or.inr ⟨ob, a, outB, t, g3, never_clear hp hm h0 h6 hf hpre hl hb (fun e => (g5 e).2), g2, g6, g8⟩

/-- **C110, the same for samples in common encryption.**  A call that does more than fail at once has, for each sample in such a context, an SVP buffer of the session for output. -/
theorem C110_samples_partial {view : σ → CipherView} (p : Prims) (hp : p.Good) (d : Device σ τ) (hm : MacsGood d.mac) (hd : d.cipher.Good view) (w0 : Ta σ τ)
    (h0 : start σ τ = some w0) (rs : List (Request κ ρ π)) (hf : ∀ r ∈ rs, r.Fine p) (hpr : ∀ r ∈ rs, PrivOk r) (w : Ta σ τ) (ts : List (Uuid × Told)) (hw : handleAll d w0 rs = some (w, ts))
    (k0 : StoredKey) (h6 : ¬Flag k0.header.rights.usageFlags FLAG_SVP_OPTIONAL) (pre : List (Request κ ρ π)) (hpre : pre <+: rs) (s' : Nat) (u' : Uuid) (h' : Nat) (k : StoredKey)
    (as : List StoredKey) (hl : Line p d w0 k0 pre s' u' h' k as) (hb : ∀ a ∈ as, Binds a.header.rights)
    (s : Nat) (u : Uuid) (env : RightsEnv) (fuel : Nat) (mem : Mem) (bufs : Nat → SaBuffer) (samples : List Sample)
    (w' : Ta σ τ) (st : Status) (mem' : Mem) (bufs' : Nat → SaBuffer)
    (hc : handle (κ := κ) (ρ := ρ) (π := π) d w (.call s u (.cenc env fuel mem bufs samples)) = some (w', .reply (.samples st mem' bufs'))) :
    (st ≠ .OK ∧ mem' = mem ∧ bufs' = bufs) ∨
    ∃ t, tablesOf w s = some t ∧ ∀ q ∈ samples, ∀ params mode x, Opened p d w0 rs s q.context u params mode k x →
      ∃ out subs a, q.out = some out ∧ q.subs = some subs ∧ (bufs out).isClear = false ∧ Located t.svps u (bufs out) (C23.size subs) a := by
  refine (C109.C109_checked_partial p hp d hm hd w0 h0 rs hf hpr w ts hw s u env fuel mem bufs samples w' st mem' bufs' hc).imp id ?_
  rintro ⟨t, ht, hall⟩
  refine ⟨t, ht, fun q hq params mode x ho => ?_⟩
  obtain ⟨params', k', x', out, input, subs, a, b, had⟩ := hall q hq
  obtain ⟨_, _, _, rfl, _⟩ := C107_one hf ho had.opened
  exact ⟨out, subs, a, had.hout, had.hsubs, never_clear hp hm h0 h6 hf hpre hl hb (fun e => (had.clear e).2), had.locOut⟩

/-! ## Histories, and a violation -/

/-- The full statement: all keys bind. -/
def NoGain : Prop :=
  ∀ (κ ρ π σ τ : Type) (p : Prims) (_ : p.Good) (d : Device σ τ) (_ : MacsGood d.mac) (w0 : Ta σ τ) (_ : start σ τ = some w0) (k0 : StoredKey) (rs : List (Request κ ρ π))
    (_ : ∀ r ∈ rs, r.Fine p) (s : Nat) (u : Uuid) (h : Nat) (k : StoredKey) (as : List StoredKey) (_ : Line p d w0 k0 rs s u h k as),
    ∀ i, 6 ≤ i → i ≤ 12 → Flag k.header.rights.usageFlags i → Flag k0.header.rights.usageFlags i

theorem macs_good : MacsGood C107.dev.mac := ⟨_, _, C106.toyPrim_good⟩

/-- A key with the flags `f`, and the flags `child` for its children. -/
def make (f child : UInt64) : Call Unit Unit Unit := .generate env1 C52.genv { rightsAllowAll with usageFlags := f, childUsageFlags := child } (some (.symmetric 16))

theorem make_fine (f child : UInt64) : (make f child).Fine light := ⟨rfl, C52.genv_good, fun n e => by simp at e⟩

def counter : UnwrapParams := .ctr (some (some (List.replicate 16 3)))

/-- A key unwrapped with that of handle 31, which asks for all rights. -/
def unwrap : Call Unit Unit Unit := .unwrap env1 C53.uenv C53.sym counter 31 (List.replicate 20 9)

theorem unwrap_fine : unwrap.Fine light := ⟨rfl, C53.toyU_good, by decide, by simp [counter, UnwrapParams.HasBlock]⟩

def before (f child : UInt64) : List (Request Unit Unit Unit) := [.open C08.u7 1, .call 31 C08.u7 (.keys (make f child))]

theorem before_fine (f child : UInt64) : ∀ r ∈ before f child, r.Fine light := by
  intro r hr
  simp only [before, List.mem_cons, List.not_mem_nil, or_false] at hr
  rcases hr with rfl | rfl
  · exact True.intro
  · exact make_fine f child

/-- The flags of a child depend on the parent's two sets of flags only. -/
theorem flags_of (r : Rights) : (restrictChildRights rightsAllowAll (some r)).usageFlags =
    (restrictChildRights rightsAllowAll (some { rightsAllowAll with usageFlags := r.usageFlags, childUsageFlags := r.childUsageFlags })).usageFlags := by
  unfold restrictChildRights
  simp only

/-- What is checked of the TA after `before f child`. -/
def ready (f child : UInt64) : Bool :=
  ((start C34.Toy (MacKind × Bytes × Bytes)).bind fun w0 => handleAll C107.dev w0 (before f child)).any fun r =>
    (tablesOf r.1 31).any fun t => decide ((r.1.clients.obj 31).ownerUuid = C08.u7) && (decide (30 < t.keys.slotCount) && (t.keys.obj 30).object.isNone) &&
      (keyStoreUnwrap env1 t.keys 31 C08.u7).any fun q => q.2.2.any fun wk =>
        rightsAllowedUnwrap env1.rights wk.header.rights && wk.header.type.toNat == 0 && wk.header.size.toNat == 16 && wk.key.length == 16 &&
          wk.header.rights.usageFlags == f && wk.header.rights.childUsageFlags == child

theorem line_of {f child : UInt64} (h : ready f child = true) : ∃ w0 k0 x k, start C34.Toy (MacKind × Bytes × Bytes) = some w0 ∧
    Line light C107.dev w0 k0 (before f child ++ [.call 31 C08.u7 (.keys unwrap)]) 31 C08.u7 x k [k0] ∧ k0.header.rights.usageFlags = f ∧ k0.header.rights.childUsageFlags = child ∧
      k.header.rights = restrictChildRights rightsAllowAll (some k0.header.rights) := by
  unfold ready at h
  cases h0 : start C34.Toy (MacKind × Bytes × Bytes) with
  | none => rw [h0] at h; simp at h
  | some w0 =>
    rw [h0] at h
    cases hw : handleAll C107.dev w0 (before f child) with
    | none => simp [hw] at h
    | some r =>
      obtain ⟨w, ts⟩ := r
      have inv := run_inv light_good macs_good h0 (before_fine f child) hw
      simp only [hw, Option.bind_some, Option.any_some] at h
      cases ht : tablesOf w 31 with
      | none => simp [ht] at h
      | some t =>
        obtain ⟨ptr, _, h2⟩ := tables_heap ht
        have hr := (inv.tabs ptr t h2).keys
        rcases unwrap_holds env1 light_good t.keys (ksReachable_inv _ light_good _ hr) 31 C08.u7 with ⟨s, hs, he⟩ | ⟨wk, he, hd, _⟩
        · simp [ht, he] at h
        simp only [ht, he, Option.any_some, Bool.and_eq_true, decide_eq_true_eq, beq_iff_eq, Option.isNone_iff_eq_none] at h
        obtain ⟨⟨hu, hfree⟩, ⟨⟨⟨⟨hal, hty⟩, hsz⟩, hl⟩, hf⟩, hc⟩ := h
        obtain ⟨st', x, hx⟩ := C53.C53_complete env1 light_good (fun _ => rfl) C53.uenv C53.toyU_good ⟨rfl, rfl⟩ t.keys hr C53.sym (by decide +kernel) rfl counter 31
          (List.replicate 20 9) C08.u7 (by simp [counter, UnwrapAcceptable]) wk he ⟨hty, Or.inl hsz⟩ hal (Or.inl (by rw [hl, hsz]))
          (C53.uenv.prims.aesCtr wk.key (List.replicate 16 3) (List.replicate 20 9)) (by simp [C53.uenv, C53.toyU]) rfl True.intro ⟨30, hfree⟩
        obtain ⟨st1, s, y, e1, _, e2⟩ := keyUnwrapOp_cases env1 light_good C53.uenv C53.toyU_good t.keys hr C53.sym counter 31 (List.replicate 20 9) C08.u7 (by simp)
          (by simp [counter, UnwrapParams.HasBlock])
        rw [hx] at e1
        simp only [Option.some.injEq, Prod.mk.injEq] at e1
        obtain ⟨rfl, rfl, rfl⟩ := e1
        rcases e2 with ⟨e2, _⟩ | ⟨_, wk', k, a, _, _, _, _, e, _, _, n⟩
        · exact absurd rfl e2
        rw [held_header hd a] at e
        have hsv : serveKeys t.keys C08.u7 unwrap = some (st', .made .OK x) := by
          unfold unwrap
          simp only [serveKeys]
          rw [hx]
          rfl
        rcases call_cases C107.dev w inv.ta 31 C08.u7 (.keys unwrap) with ⟨_, _, _, bad⟩ | ⟨ptr', t', g1, g2, g3, eh⟩
        · rcases bad with bad | bad
          · simp [tablesOf, bad] at ht
          · exact absurd hu bad
        have : t' = t := by simpa [tablesOf, g1, g3] using ht
        subst this
        simp only [serve, hsv, Option.map_some] at eh
        exact ⟨w0, wk, x, k, rfl, .child (.first hw ⟨hu, t', ht, hd⟩) hw eh (by simp [unwrap, sources]) (by simp [given]) ⟨g2, { t' with keys := st' }, by simp [tablesOf, g1], n.holds⟩, hf, hc, e⟩

/-- A key for unwrapping and decryption (0x14) that may be output on HDCP 2.2 (0x400) only: the key unwrapped with it, which asks for all rights, may be output there only. -/
example : ∃ w0 k0 x k, start C34.Toy (MacKind × Bytes × Bytes) = some w0 ∧ Line light C107.dev w0 k0 (before 0x414 0x10 ++ [.call 31 C08.u7 (.keys unwrap)]) 31 C08.u7 x k [k0] ∧
    Binds k0.header.rights ∧ Flag k.header.rights.usageFlags 10 ∧ ¬Flag k.header.rights.usageFlags 9 := by
  obtain ⟨w0, k0, x, k, a, b, c, d, e⟩ := line_of (f := 0x414) (child := 0x10) (by decide +kernel)
  refine ⟨w0, k0, x, k, a, b, Or.inl ⟨4, by decide, by decide, by rw [c]; decide⟩, ?_, ?_⟩
  · rw [e, flags_of, c, d]; decide
  · rw [e, flags_of, c, d]; decide

/-- **C110, the violation.**  With a key for unwrapping only (0x404) that may be output on HDCP 2.2 only and whose children may be used for decryption (0x10) a key is unwrapped that may be
output everywhere: neither the flags of the one nor those for its children have these outputs (see C11). -/
theorem C110_violated : ¬NoGain := by
  intro h
  obtain ⟨w0, k0, x, k, a, b, c, d, e⟩ := line_of (f := 0x404) (child := 0x10) (by decide +kernel)
  have fine : ∀ r ∈ before 0x404 0x10 ++ [.call 31 C08.u7 (.keys unwrap)], Request.Fine light r := by
    intro r hr
    rcases List.mem_append.mp hr with hr | hr
    · exact before_fine _ _ r hr
    · simp only [List.mem_singleton] at hr
      subst hr
      exact unwrap_fine
  have := h _ _ _ _ _ light light_good C107.dev macs_good w0 a k0 _ fine 31 C08.u7 x k [k0] b 9 (by decide) (by decide) (by rw [e, flags_of, c, d]; decide)
  rw [c] at this
  revert this
  decide

end Sa.Whole.C110

import Verif.Props.C102
import Verif.Props.C13
import Verif.Props.C110

/-!
# C114: a key that is kept, or exported and imported again, however often, is one key

For the TA as a whole: any number of sessions and callers, all calls.  It has one header, and what is signed with it by one of its handles verifies with the public key told for another.
-/

namespace Sa.Whole.C114

open C105 C106 C107 C110

variable {κ ρ π σ τ : Type}

/-! ## What is claimed -/

/-- A place where a key may be: after the requests `past`, handle `h` of `u`'s session `s`. -/
structure Place (κ ρ π : Type) where
  past : List (Request κ ρ π)
  s : Nat
  u : Uuid
  h : Nat

/-- After the requests the handle denotes `k`. -/
def Place.Is (p : Prims) (d : Device σ τ) (w0 : Ta σ τ) (a : Place κ ρ π) (k : StoredKey) : Prop :=
  ∃ w ts, handleAll d w0 a.past = some (w, ts) ∧ Denotes p w a.s a.u a.h k

/-- By the requests and what was told: the key of `b` is that of `a`.  The handle is the same and was kept; or the key was exported, and what was told was imported at any later time in any
session by anybody. -/
inductive Copy (d : Device σ τ) (w0 : Ta σ τ) (a : Place κ ρ π) : Place κ ρ π → Prop where
  | here : Copy d w0 a a
  | kept {rs s u h} (more : List (Request κ ρ π)) : Copy d w0 a ⟨rs, s, u, h⟩ → (∀ r ∈ more, r ≠ .close s u ∧ r ≠ .call s u (.keys (.release h))) → Copy d w0 a ⟨rs ++ more, s, u, h⟩
  | moved {rs ts w w1 s u h env mixin buf n out more ts2 w2 w3 s' u' env' x} : Copy d w0 a ⟨rs, s, u, h⟩ → handleAll (κ := κ) (ρ := ρ) (π := π) d w0 rs = some (w, ts) →
      handle (κ := κ) (ρ := ρ) (π := π) d w (.call s u (.keys (.export env h mixin (some buf) buf.length))) = some (w1, .reply (.exported .OK n (some out))) →
      handleAll (κ := κ) (ρ := ρ) (π := π) d w0 (rs ++ [.call s u (.keys (.export env h mixin (some buf) buf.length))] ++ more) = some (w2, ts2) →
      handle (κ := κ) (ρ := ρ) (π := π) d w2 (.call s' u' (.keys (.importExported env' (out.take n)))) = some (w3, .reply (.made .OK x)) →
      Copy d w0 a ⟨rs ++ [.call s u (.keys (.export env h mixin (some buf) buf.length))] ++ more ++ [.call s' u' (.keys (.importExported env' (out.take n)))], s', u', x⟩

/-! ## What the slots hold -/

/-- The slot has `k` in its wrapping.  (`Denotes` does not tell keys apart that can never be used.) -/
def Held (p : Prims) (st : KeyStore) (h : Nat) (u : Uuid) (k : StoredKey) : Prop :=
  ∃ w, (st.obj h).object = some w ∧ (st.obj h).ownerUuid = u ∧ Wraps p w k

def Has (p : Prims) (w : Ta σ τ) (s : Nat) (u : Uuid) (h : Nat) (k : StoredKey) : Prop :=
  (w.clients.obj s).ownerUuid = u ∧ ∃ t, tablesOf w s = some t ∧ Held p t.keys h u k

theorem wraps_unique {p : Prims} (hp : p.Good) (env : Env) {w : WrappedKey} {k k' : StoredKey} (h : Wraps p w k) (h' : Wraps p w k') : k' = k := by
  have a := unwrap_wraps { env with prims := p, ok := fun _ => true } hp w k h [] []
  have b := unwrap_wraps { env with prims := p, ok := fun _ => true } hp w k' h' [] []
  rw [a] at b
  simpa using b.symm

theorem Has.denotes {p : Prims} (hp : p.Good) {d : Device σ τ} {w : Ta σ τ} (inv : C105.WInv p d w) {s : Nat} {u : Uuid} {h : Nat} {k : StoredKey} (hk : Has p w s u h k) :
    Denotes p w s u h k := by
  obtain ⟨hu, t, ht, wk, h1, h2, h3⟩ := hk
  obtain ⟨ptr, _, g2⟩ := tables_heap ht
  exact ⟨hu, t, ht, holds_of p hp t.keys (ksReachable_inv p hp _ (inv.tabs ptr t g2).keys) h u wk k h1 h2 h3⟩

theorem has_of {p : Prims} (hp : p.Good) {d : Device σ τ} {w : Ta σ τ} (inv : C105.WInv p d w) {s : Nat} {u : Uuid} {h : Nat} {k : StoredKey} (hk : Denotes p w s u h k) :
    ∃ k', Has p w s u h k' := by
  obtain ⟨hu, t, ht, hk⟩ := hk
  obtain ⟨ptr, _, g2⟩ := tables_heap ht
  obtain ⟨wk, k', h1, h2, h3, _⟩ := ksHeader_ok p t.keys (ksReachable_inv p hp _ (inv.tabs ptr t g2).keys) h u _ _ hk.1
  exact ⟨k', hu, t, ht, wk, h1, h2, h3⟩

theorem has_step {p : Prims} {d : Device σ τ} {w w' : Ta σ τ} (inv : C105.WInv p d w) {r : Request κ ρ π} {told : Told} (hh : handle d w r = some (w', told))
    (st : Step p d w r w' told) {s : Nat} {u : Uuid} {h : Nat} {k : StoredKey} (hk : Has p w s u h k) (h1 : r ≠ .close s u) (h2 : r ≠ .call s u (.keys (.release h))) :
    Has p w' s u h k := by
  obtain ⟨hu, t, ht, wk, g1, g2, g3⟩ := hk
  obtain ⟨a1, t', a2, a3⟩ := st.keeps s t ht (fun v e => by
    obtain ⟨rfl, rfl⟩ := e
    rw [((only_holder d w w' inv.ta s v).1 hh).symm.trans hu] at h1
    exact h1 rfl)
  have same := a3 h (by rw [g1]; rfl) fun v e => by
    obtain ⟨rfl, rfl⟩ := e
    rw [((only_holder d w w' inv.ta s v).2 _ _ hh).symm.trans hu] at h2
    exact h2 rfl
  exact ⟨a1.trans hu, t', a2, wk, by rw [same, g1], by rw [same, g2], g3⟩

theorem has_all {p : Prims} (hp : p.Good) {d : Device σ τ} (hm : MacsGood d.mac) {s : Nat} {u : Uuid} {h : Nat} {k : StoredKey} (rs : List (Request κ ρ π)) (hf : ∀ r ∈ rs, r.Fine p)
    (hn : ∀ r ∈ rs, r ≠ .close s u ∧ r ≠ .call s u (.keys (.release h))) (w : Ta σ τ) (inv : C105.WInv p d w) (hk : Has p w s u h k) :
    ∃ w' ts, handleAll d w rs = some (w', ts) ∧ Has p w' s u h k := by
  induction rs generalizing w with
  | nil => exact ⟨w, [], rfl, hk⟩
  | cons r rs ih =>
    obtain ⟨w1, told, h1, h2⟩ := handle_ok p hp d hm w inv r (hf r (by simp))
    obtain ⟨w2, ts, h3, h4⟩ := ih (fun r hr => hf r (by simp [hr])) (fun r hr => hn r (by simp [hr])) w1 h2.inv
      (has_step inv h1 h2 hk (hn r (by simp)).1 (hn r (by simp)).2)
    exact ⟨w2, (r.caller, told) :: ts, by simp only [handleAll, h1, h3], h4⟩

theorem handleAll_append (d : Device σ τ) (rs more : List (Request κ ρ π)) (w w1 w2 : Ta σ τ) (ts ts2 : List (Uuid × Told)) (h : handleAll d w rs = some (w1, ts))
    (h2 : handleAll d w1 more = some (w2, ts2)) : handleAll d w (rs ++ more) = some (w2, ts ++ ts2) := by
  induction rs generalizing w ts with
  | nil => cases h; simpa using h2
  | cons q rs ih =>
    simp only [handleAll, List.cons_append] at h ⊢
    cases e : handle d w q with
    | none => simp [e] at h
    | some r =>
      rw [e] at h
      simp only at h ⊢
      cases e1 : handleAll d r.1 rs with
      | none => simp [e1] at h
      | some r1 =>
        rw [e1] at h
        cases h
        rw [ih r.1 r1.2 e1]
        rfl

/-- The bytes of an export, imported: the key that was exported, or no key. -/
theorem imported (env : Env) (hp : env.prims.Good) (st : KeyStore) (caller : Uuid) (m : Bytes) (hm : m.length = 16) (rw' : WrappedKey) (sk : StoredKey) (h : Wraps env.prims rw' sk)
    (hd : rw'.derivationInputs = mixedInputs (takeVec 16 m).1) (hl : 1744 + paddedSize sk.key.length < 2 ^ 64) :
    keyStoreImportExported env st (m ++ encodeHeader rw'.header ++ encodeCipherParameters rw'.cipherParameters ++ rw'.ciphertext ++ rw'.signature) caller =
      some (keyStoreImportStoredKey env st sk caller) ∨
    ∃ r, keyStoreImportExported env st (m ++ encodeHeader rw'.header ++ encodeCipherParameters rw'.cipherParameters ++ rw'.ciphertext ++ rw'.signature) caller = some r ∧
      r.2.1 ≠ .OK := by
  have hsig : rw'.signature.length = 32 := by rw [h.mac]; exact hp.macLen _ _
  have hwl : (m ++ encodeHeader rw'.header ++ encodeCipherParameters rw'.cipherParameters ++ rw'.ciphertext ++
      rw'.signature).length = 1744 + paddedSize sk.key.length := by
    simp only [List.length_append, hm, encodeHeader_length, encodeCipherParameters_length, h.ctLen, hsig]; omega
  have hP : paddedSize sk.key.length % 16 = 0 ∧ 16 ≤ paddedSize sk.key.length := by unfold paddedSize; omega
  generalize hB : (m ++ encodeHeader rw'.header ++ encodeCipherParameters rw'.cipherParameters ++ rw'.ciphertext ++
      rw'.signature) = B at *
  have d1 : B.drop 16 = encodeHeader rw'.header ++ (encodeCipherParameters rw'.cipherParameters ++ (rw'.ciphertext ++
      rw'.signature)) := by
    rw [← hB]; simp only [List.append_assoc]; exact List.drop_left' hm
  have d2 : B.drop 1688 = encodeCipherParameters rw'.cipherParameters ++ (rw'.ciphertext ++ rw'.signature) := by
    have : B.drop 1688 = (B.drop 16).drop 1672 := by rw [List.drop_drop]
    rw [this, d1]; exact List.drop_left' (encodeHeader_length _)
  have d3 : B.drop 1712 = rw'.ciphertext ++ rw'.signature := by
    have : B.drop 1712 = (B.drop 1688).drop 24 := by rw [List.drop_drop]
    rw [this, d2]; exact List.drop_left' (encodeCipherParameters_length _)
  have d0 : (takeVec 16 B).1 = (takeVec 16 m).1 := by
    apply Vector.toList_inj.mp
    rw [takeVec_toList _ (by omega), takeVec_toList _ (by omega), ← hB]
    simp only [List.append_assoc]
    rw [List.take_append_of_le_length (by omega)]
  have hlen : (UInt64.ofNat B.length).toNat = B.length := by rw [UInt64.toNat_ofNat']; omega
  unfold keyStoreImportExported
  simp only
  rw [if_neg (by
      rw [UInt64.lt_iff_toNat_lt, hlen]
      have : (16 + 1672 + 24 + 16 + 32 : UInt64).toNat = 1760 := by decide
      omega)]
  rw [if_neg (by omega), d1, decodeHeader_encode]
  rw [if_neg (by
      have : HeaderOk rw'.header := by rw [h.header]; exact h.made.toHeaderOk
      simp [(validateHeaderFormat_iff _).mpr this])]
  rw [if_neg (by omega)]
  simp only [show 16 + 1672 = 1688 from rfl, show 1688 + 24 = 1712 from rfl]
  rw [d2, decodeCipherParameters_encode]
  have hlc := h.len
  rw [if_neg (by
      rw [UInt64.lt_iff_toNat_lt, ne_eq, ← UInt64.toNat_inj, UInt64.toNat_mod, hlc]
      have e1 : (16 : UInt64).toNat = 16 := rfl
      have e2 : (0 : UInt64).toNat = 0 := rfl
      rw [e1, e2]; omega)]
  rw [if_neg (by
      simp only [ne_eq, Decidable.not_not]
      apply UInt64.toNat_inj.mp
      rw [hlen, hwl]
      simp only [UInt64.toNat_add, UInt64.toNat_ofNat, hlc]; omega)]
  rw [d3, hlc, List.drop_left' h.ctLen, d0, ← hd]
  have := unwrap_wraps env hp rw' sk h rw'.signature []
  rw [List.append_nil] at this
  rw [this]
  split
  · rename_i e
    cases e
  · exact Or.inr ⟨_, rfl, by simp⟩
  · rename_i e
    split at e
    · cases e; exact Or.inl rfl
    · cases e

/-- A key that is exported, and the one that is imported from the bytes given. -/
theorem moved_key {p : Prims} (hp : p.Good) {env env' : Env} (he : env.prims = p) (he' : env'.prims = p) {st st' st2 st3 : KeyStore} (hr : KsReachable p st) (hr2 : KsReachable p st2)
    {key x n : Nat} {mixin : Option Bytes} {buf out : Bytes} {u u' : Uuid} {k : StoredKey} (hl : (out.take n).length < 2 ^ 64)
    (h1 : (keyStoreExport env st key mixin (some buf) buf.length u).map (fun r => (r.store, Reply.exported r.status r.outLength r.out)) = some (st', .exported .OK n (some out)))
    (h2 : (keyStoreImportExported env' st2 (out.take n) u').map (fun r => (r.1, Reply.made r.2.1 r.2.2)) = some (st3, .made .OK x))
    (hk : Held p st key u k) : Held p st3 x u' k := by
  subst he
  have inv := ksReachable_inv _ hp st hr
  have inv2 := ksReachable_inv _ hp st2 hr2
  obtain ⟨r, hx, _, hc⟩ := ksExport_cases env hp st inv key mixin (some buf) buf.length (by simp) u
  rw [hx] at h1
  simp only [Option.map_some, Option.some.injEq, Prod.mk.injEq, Reply.exported.injEq] at h1
  obtain ⟨_, hok, rfl, hro'⟩ := h1
  rcases hc with ⟨hno, _⟩ | ⟨_, w, sk, ho, hu, hw1, hks, h13, hm, hlen, hc⟩
  · exact absurd hok hno
  rcases hc with ⟨hn, _⟩ | ⟨b, rw', hb, hle, hw, hd, hro⟩
  · simp at hn
  rw [hro'] at hro
  simp only [Option.some.injEq] at hro
  obtain ⟨w', ho', _, hw'⟩ := hk
  rw [ho] at ho'
  cases ho'
  obtain rfl := wraps_unique hp env hw1 hw'
  have hsig : rw'.signature.length = 32 := by rw [hw.mac]; exact hp.macLen _ _
  have htake : out.take r.outLength = mixin.getD (List.replicate 16 0) ++ encodeHeader rw'.header ++
      encodeCipherParameters rw'.cipherParameters ++ rw'.ciphertext ++ rw'.signature := by
    rw [hro]
    apply List.take_left'
    rw [hlen]
    simp only [List.length_append, hm, encodeHeader_length, encodeCipherParameters_length, hw.ctLen, hsig]; omega
  have hl' : 1744 + paddedSize k.key.length < 2 ^ 64 := by
    rw [htake] at hl
    simp only [List.length_append, hm, encodeHeader_length, encodeCipherParameters_length, hw.ctLen, hsig] at hl
    omega
  rw [htake] at h2
  rcases imported env' (he' ▸ hp) st2 u' _ hm rw' k (he' ▸ hw) hd hl' with e | ⟨r', e, hno⟩
  · rw [e] at h2
    obtain ⟨i1, i2, i3⟩ := importStoredKey_spec env' (he' ▸ hp) st2 (he' ▸ inv2) k hw1.made hks u'
    rw [he'] at i1 i3
    generalize hres : keyStoreImportStoredKey env' st2 k u' = res at *
    obtain ⟨st3', s, y⟩ := res
    simp only [Option.map_some, Option.some.injEq, Prod.mk.injEq, Reply.made.injEq] at h2
    obtain ⟨rfl, rfl, rfl⟩ := h2
    rcases i3 with ⟨hno, _⟩ | ⟨_, g1, g2, w3, hw3, hobj⟩
    · exact absurd rfl hno
    · simp only at g1 g2 hobj i1
      exact ⟨w3, by rw [hobj, if_pos rfl], by rw [hobj, if_pos rfl], hw3⟩
  · rw [e] at h2
    simp only [Option.map_some, Option.some.injEq, Prod.mk.injEq, Reply.made.injEq] at h2
    exact absurd h2.2.1 hno

/-- Copies have the key. -/
theorem has_copy {p : Prims} (hp : p.Good) {d : Device σ τ} (hm : MacsGood d.mac) {w0 : Ta σ τ} (h0 : start σ τ = some w0) {a b : Place κ ρ π} (hc : Copy d w0 a b)
    (hf : ∀ r ∈ b.past, r.Fine p) {wa : Ta σ τ} {ta : List (Uuid × Told)} (hw : handleAll d w0 a.past = some (wa, ta)) {k : StoredKey} (hk : Has p wa a.s a.u a.h k) :
    ∃ w ts, handleAll d w0 b.past = some (w, ts) ∧ Has p w b.s b.u b.h k := by
  induction hc with
  | here => exact ⟨wa, ta, hw, hk⟩
  | @kept rs s u h more hc hn ih =>
    obtain ⟨w, ts, e, hk⟩ := ih (fun r hr => hf r (by simp [hr]))
    have inv := run_inv hp hm h0 (fun r hr => hf r (by simp [hr])) e
    obtain ⟨w', ts', e', hk'⟩ := has_all hp hm more (fun r hr => hf r (by simp [hr])) hn w inv hk
    exact ⟨w', ts ++ ts', handleAll_append d rs more w0 w w' ts ts' e e', hk'⟩
  | @moved rs ts w w1 s u h env mixin buf n out more ts2 w2 w3 s' u' env' x hc hw1 hx hw2 hi ih =>
    have hf1 : ∀ r ∈ rs, r.Fine p := fun r hr => hf r (by simp [hr])
    obtain ⟨w', ts', e, hk⟩ := ih hf1
    rw [hw1] at e; cases e
    have inv := run_inv hp hm h0 hf1 hw1
    have inv2 := run_inv hp hm h0 (fun r hr => hf r (List.mem_append_left _ hr)) hw2
    obtain ⟨t, st', ht, hu, hs, ht', _⟩ := keys_call inv.ta hx
    obtain ⟨t2, st3, ht2, hu2, hs2, ht3, hu3⟩ := keys_call inv2.ta hi
    obtain ⟨ptr, _, hp1⟩ := tables_heap ht
    obtain ⟨ptr2, _, hp2⟩ := tables_heap ht2
    obtain ⟨_, t1, e1, hk1⟩ := hk
    rw [ht] at e1; cases e1
    have f1 : Call.Fine p (.export env h mixin (some buf) buf.length : Call κ ρ π) := hf (.call s u (.keys (.export env h mixin (some buf) buf.length))) (by simp)
    have f2 : Call.Fine p (.importExported env' (out.take n) : Call κ ρ π) := hf (.call s' u' (.keys (.importExported env' (out.take n)))) (by simp)
    simp only [serveKeys] at hs hs2
    have := moved_key hp f1.1 f2.1 (inv.tabs ptr t hp1).keys (inv2.tabs ptr2 t2 hp2).keys f2.2 hs hs2 hk1
    exact ⟨_, _, handleAll_snoc d _ _ _ _ hw2 _ _ _ hi, hu3, _, ht3, this⟩

/-! ## The property -/

/-- **C114 (one key).**  Over any history of calls `Cmd.Fine` (see C105): if a handle denotes a key, then there is a key that it denotes and that is denoted by every copy of it - by the handle
while it is kept, and by what becomes of the key when it is exported and imported, by whomever, in whatever session, any number of times, and whatever happens to the handles from which it
was exported.  It is the same key: its bytes, type and rights. -/
theorem C114_same_partial (p : Prims) (hp : p.Good) (d : Device σ τ) (hm : MacsGood d.mac) (w0 : Ta σ τ) (h0 : start σ τ = some w0) (a : Place κ ρ π) (ha : ∀ r ∈ a.past, r.Fine p)
    (k0 : StoredKey) (h : a.Is p d w0 k0) : ∃ k, a.Is p d w0 k ∧ ∀ b, Copy d w0 a b → (∀ r ∈ b.past, r.Fine p) → b.Is p d w0 k := by
  obtain ⟨w, ts, e, hk⟩ := h
  have inv := run_inv hp hm h0 ha e
  obtain ⟨k, hk⟩ := has_of hp inv hk
  refine ⟨k, ⟨w, ts, e, hk.denotes hp inv⟩, fun b hc hf => ?_⟩
  obtain ⟨w', ts', e', hk'⟩ := has_copy hp hm h0 hc hf e hk
  exact ⟨w', ts', e', hk'.denotes hp (run_inv hp hm h0 hf e')⟩

/-- **C114 (one header).**  All copies are told the same header. -/
theorem C114_header_partial (p : Prims) (hp : p.Good) (d : Device σ τ) (hm : MacsGood d.mac) (w0 : Ta σ τ) (h0 : start σ τ = some w0) (a : Place κ ρ π) (ha : ∀ r ∈ a.past, r.Fine p)
    (k0 : StoredKey) (h : a.Is p d w0 k0) (b : Place κ ρ π) (hc : Copy d w0 a b) (hf : ∀ r ∈ b.past, r.Fine p) :
    ∃ w ts w', handleAll d w0 b.past = some (w, ts) ∧ handle (κ := κ) (ρ := ρ) (π := π) d w (.call b.s b.u (.keys (.header b.h))) = some (w', .reply (.header .OK (some k0.header))) := by
  obtain ⟨k, ⟨wa, ta, ea, hka⟩, hk⟩ := C114_same_partial p hp d hm w0 h0 a ha k0 h
  obtain ⟨w, ts, e, hd⟩ := hk b hc hf
  obtain ⟨w', e'⟩ := (C105_book_partial p hp d hm w0 h0 b.past hf w ts e b.s b.u b.h).2.1 k hd
  obtain ⟨wa', ta', ea', hka'⟩ := h
  rw [ea] at ea'; cases ea'
  obtain ⟨_, t, ht, g⟩ := hka
  obtain ⟨_, t', ht', g'⟩ := hka'
  rw [ht] at ht'; cases ht'
  exact ⟨w, ts, w', e, by rw [e', held_header g' g]⟩

open Asym in
/-- **C114 (one public key).**  The public key that is told for one copy and a signature that is made with another belong together: everybody who has the public key finds that the signature
is one of the message, with the algorithm, digest, MGF1 digest and length of the salt that were asked for (see C102; also for what is missing: salts of PSS longer than 255, and the signature
must be written). -/
theorem C114_verifies_partial (l : Lib κ ρ π) (v : Asym.C102.Checker ρ) (hl : Asym.C102.Good l v) (p : Prims) (hp : p.Good) (d : Device σ τ) (hm : MacsGood d.mac) (w0 : Ta σ τ)
    (h0 : start σ τ = some w0) (a : Place κ ρ π) (ha : ∀ r ∈ a.past, r.Fine p) (k0 : StoredKey) (h : a.Is p d w0 k0)
    (b c : Place κ ρ π) (hb : Copy d w0 a b) (hfb : ∀ r ∈ b.past, r.Fine p) (hc : Copy d w0 a c) (hfc : ∀ r ∈ c.past, r.Fine p)
    (wb : Ta σ τ) (tb : List (Uuid × Told)) (eb : handleAll d w0 b.past = some (wb, tb)) (one : Env) (h1 : one.prims = p) (buffer : Bytes) (wb' : Ta σ τ) (answer : Answer)
    (hpub : handle (κ := κ) (ρ := ρ) (π := π) d wb (.call b.s b.u (.keys (.getPublic one l.der (some buffer) buffer.length b.h))) = some (wb', .reply (.answer answer)))
    (hfine : answer.status = .OK)
    (wc : Ta σ τ) (tc : List (Uuid × Told)) (ec : handleAll d w0 c.past = some (wc, tc)) (two : Env) (h2 : two.prims = p) (seed : Nat) (ok : Bool) (params : SignParams) (msg : Buf) (n : Nat)
    (wc' : Ta σ τ) (r : SignResp) (hsig : handle d wc (.call c.s c.u (.keys (.sign l seed ok two params c.h msg true n))) = some (wc', .reply (.signed r)))
    (hok : r.status = .OK) (sig : Bytes) (hs : r.out = some sig) :
    ∃ pub, l.decPub ((answer.out.getD []).take answer.outLength) = some pub ∧ Asym.C102.Verifies l v pub params (msg.get.getD []) sig := by
  subst h1
  obtain ⟨k, _, hk⟩ := C114_same_partial _ hp d hm w0 h0 a ha k0 h
  obtain ⟨w, ts, e, _, t, ht, hkb⟩ := hk b hb hfb
  rw [eb] at e; cases e
  obtain ⟨w, ts, e, _, t2, ht2, hkc⟩ := hk c hc hfc
  rw [ec] at e; cases e
  have invb := run_inv hp hm h0 hfb eb
  have invc := run_inv hp hm h0 hfc ec
  obtain ⟨t', st', g1, _, g2, _⟩ := keys_call invb.ta hpub
  rw [ht] at g1; cases g1
  obtain ⟨t', st2', g3, _, g4, _⟩ := keys_call invc.ta hsig
  rw [ht2] at g3; cases g3
  obtain ⟨ptr, _, hp1⟩ := tables_heap ht
  obtain ⟨ptr2, _, hp2⟩ := tables_heap ht2
  simp only [serveKeys, Option.map_eq_some_iff, Prod.mk.injEq, Reply.answer.injEq, Reply.signed.injEq] at g2 g4
  obtain ⟨⟨q1, q2⟩, g2, rfl, rfl⟩ := g2
  obtain ⟨⟨q3, q4⟩, g4, rfl, rfl⟩ := g4
  have hpk : C69.publicOf l.der k = some ((q2.out.getD []).take q2.outLength) := by
    obtain ⟨a', e, _, h3, _⟩ := C69.C69_public_partial one hp l.der t.keys (invb.tabs ptr t hp1).keys (some buffer) buffer.length b.h b.u (fun o h => congrArg List.length (Option.some.inj h).symm)
    rw [g2] at e
    simp only [Option.some.injEq, Prod.mk.injEq] at e
    obtain ⟨rfl, rfl⟩ := e
    obtain ⟨k', dd, hcu, hd, _, hlen, _, o', ho, _, ht, _⟩ := h3 hfine
    have : k' = k := KeyHeld.unique _ _ _ _ _ _ one rfl hkb (by rw [hcu.1.2 one rfl, hcu.2])
    rw [← this, hd, ho, hlen, Option.getD_some, ht]
  obtain ⟨_, sk, hu, rfl⟩ := Asym.C102.sign_uses (by rw [h2]; exact hp) (by rw [h2]; exact (invc.tabs ptr2 t2 hp2).keys) g4 hok
  obtain rfl := KeyHeld.unique _ _ _ _ _ _ two h2 hkc hu
  obtain ⟨_, h3, h4, h5⟩ := Asym.C102.signed_by hok hs
  obtain ⟨k', e1, e2⟩ := Asym.C102.verifies hl h3 h4 h5
  rw [hpk] at e1
  injection e1 with e1
  exact ⟨l.pubOf k', by rw [e1, hl.pub], e2⟩


/-! ## A concrete case: a key on P-256 which is exported and imported -/

/-- A session of `u7` and a key for all purposes in it. -/
def made : List (Request UInt8 UInt8 UInt8) := [.open C08.u7 1, .call 31 C08.u7 (.keys (.generate env1 C52.genv rightsAllowAll (some (.ec 0))))]

theorem made_fine : ∀ r ∈ made, r.Fine light := by
  intro r hr
  simp only [made, List.mem_cons, List.not_mem_nil, or_false] at hr
  rcases hr with rfl | rfl
  · exact True.intro
  · exact ⟨rfl, C52.genv_good, fun n e => by simp at e⟩

/-- What comes next, and whether the reply and the TA afterwards are as wanted. -/
def after (c : Call UInt8 UInt8 UInt8) (good : Ta C34.Toy (MacKind × Bytes × Bytes) → Reply → Bool) : Bool :=
  (start C34.Toy (MacKind × Bytes × Bytes)).any fun w0 => (handleAll C107.dev w0 made).any fun r => (handle C107.dev r.1 (.call 31 C08.u7 (.keys c))).any fun q =>
    match q.2 with
    | .reply x => good q.1 x
    | _ => false

def ask : Call UInt8 UInt8 UInt8 := .getPublic env1 Asym.C102.toy.der (some [0, 0]) 2 31

def signing : Call UInt8 UInt8 UInt8 := .sign Asym.C102.toy 9 true env1 (.ecdsa (some (1, false))) 31 (.bytes [1, 2, 3]) true 64

/-- The public key is told, and a signature is made. -/
example : after ask (fun _ q => match q with
    | .answer a => a.status == .OK && a.out == some [1, 2] && a.outLength == 2
    | _ => false) = true := by decide +kernel

example : after signing (fun _ q => match q with
    | .signed r => r.status == .OK && r.out.isSome
    | _ => false) = true := by decide +kernel

def exporting : Call UInt8 UInt8 UInt8 := .export env1 31 none (some (List.replicate 1800 0)) (List.replicate 1800 (0 : UInt8)).length

theorem exporting_ok : after exporting (fun _ q => match q with
    | .exported .OK _ (some _) => true
    | _ => false) = true := by decide +kernel

theorem made_free : ((start C34.Toy (MacKind × Bytes × Bytes)).any fun w0 => (handleAll C107.dev w0 made).any fun r =>
    (tablesOf r.1 31).any fun t => decide (30 < t.keys.slotCount) && (t.keys.obj 30).object.isNone) = true := by decide +kernel

/-- The key is exported, and what was told is imported: there is a second handle for it, which is a copy of the first. -/
example : ∃ w0 k n out x, start C34.Toy (MacKind × Bytes × Bytes) = some w0 ∧ Place.Is light C107.dev w0 ⟨made, 31, C08.u7, 31⟩ k ∧
    Copy C107.dev w0 ⟨made, 31, C08.u7, 31⟩ ⟨made ++ [.call 31 C08.u7 (.keys exporting)] ++ [] ++ [.call 31 C08.u7 (.keys (.importExported env1 (List.take n out)))], 31, C08.u7, x⟩ ∧
    (∀ r ∈ made ++ [.call 31 C08.u7 (.keys exporting)] ++ [] ++ [.call 31 C08.u7 (.keys (.importExported env1 (List.take n out)))], Request.Fine light r) := by
  have h := exporting_ok
  unfold after at h
  cases h0 : start C34.Toy (MacKind × Bytes × Bytes) with
  | none => simp [h0] at h
  | some w0 =>
  cases hw : handleAll C107.dev w0 made with
  | none => simp [h0, hw] at h
  | some r =>
  obtain ⟨w, ts⟩ := r
  cases hx : handle C107.dev w (.call 31 C08.u7 (.keys exporting)) with
  | none => simp [h0, hw, hx] at h
  | some q =>
  obtain ⟨w1, told⟩ := q
  simp only [h0, hw, hx, Option.any_some] at h
  split at h
  · rename_i q
    split at h
    · rename_i n out
      have h2 := made_free
      have fx : Call.Fine light exporting := ⟨rfl, fun o e => by cases e; rfl⟩
      have inv := run_inv light_good macs_good h0 made_fine hw
      have hw1 := handleAll_snoc C107.dev made _ _ _ hw _ _ _ hx
      have f1 : ∀ r ∈ made ++ [.call 31 C08.u7 (.keys exporting)], Request.Fine light r := fun r hr => by
        rcases List.mem_append.mp hr with hr | hr
        · exact made_fine r hr
        · simp only [List.mem_singleton] at hr; subst hr; exact fx
      have inv1 := run_inv light_good macs_good h0 f1 hw1
      obtain ⟨t, st', ht, hu, hs, ht', hu'⟩ := keys_call inv.ta hx
      obtain ⟨ptr, _, g1⟩ := tables_heap ht
      simp only [h0, hw, ht, Option.any_some, Bool.and_eq_true, decide_eq_true_eq, Option.isNone_iff_eq_none] at h2
      obtain ⟨ptr1, e1, g2⟩ := tables_heap ht'
      simp only [exporting, serveKeys, Option.map_eq_some_iff, Prod.mk.injEq, Reply.exported.injEq] at hs
      obtain ⟨r, hr, hst, hok, rfl, hout⟩ := hs
      obtain ⟨r', hr', hsame, hcase⟩ := ksExport_cases env1 light_good t.keys (ksReachable_inv _ light_good _ (inv.tabs ptr t g1).keys) 31 none (some (List.replicate 1800 0)) _ (fun b e => by cases e; rfl) C08.u7
      rw [hr] at hr'; cases hr'
      rcases hcase with ⟨hno, _⟩ | ⟨_, wk, sk, ho, hou, hwr, _, _, _, _, hlen⟩
      · exact absurd hok hno
      rw [hsame] at hst
      subst hst
      have hol : (out.take r.outLength).length < 2 ^ 64 := by
        rcases hlen with ⟨e, _⟩ | ⟨_, _, _, hle, _⟩
        · cases e
        · rw [List.length_replicate] at hle
          rw [List.length_take]
          omega
      obtain ⟨st3, x, hi, _⟩ := C13.C13_export_import light light_good t.keys t.keys (inv.tabs ptr t g1).keys (inv.tabs ptr t g1).keys 31 none (List.replicate 1800 0) (by rw [List.length_replicate]; decide)
        C08.u7 C08.u7 env1 env1 rfl rfl r hr hok out hout (fun _ => rfl) ⟨30, h2⟩
      have hsv : serveKeys (κ := UInt8) (ρ := UInt8) (π := UInt8) t.keys C08.u7 (.importExported env1 (List.take r.outLength out)) = some (st3, .made .OK x) := by
        simp only [serveKeys]
        rw [hi]
        rfl
      rcases call_cases C107.dev w1 inv1.ta 31 C08.u7 (.keys (.importExported env1 (List.take r.outLength out)) : Cmd UInt8 UInt8 UInt8) with ⟨_, _, _, bad⟩ | ⟨ptr', t', b1, b2, b3, eh⟩
      · rcases bad with bad | bad
        · simp [tablesOf, bad] at ht'
        · exact absurd hu' bad
      have : t' = { t with keys := t.keys } := by simpa [tablesOf, b1, b3] using ht'
      subst this
      simp only [serve, hsv, Option.map_some] at eh
      refine ⟨w0, sk, r.outLength, out, x, rfl, ⟨w, ts, hw, Has.denotes light_good inv ⟨hu, _, ht, wk, ho, hou, hwr⟩⟩,
        .moved .here hw hx (by rw [List.append_nil]; exact hw1) eh, fun r' hr' => ?_⟩
      rcases List.mem_append.mp hr' with hr' | hr'
      · exact f1 r' (by simpa using hr')
      · simp only [List.mem_singleton] at hr'; subst hr'; exact ⟨rfl, hol⟩
    · cases h
  · cases h

end Sa.Whole.C114

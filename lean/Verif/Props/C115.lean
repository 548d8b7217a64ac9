import Verif.Props.C103
import Verif.Props.C114

/-!
# C115: a key that somebody encrypts for a handle arrives wherever a copy of the key is

For the TA as a whole: any number of sessions and callers, all calls.  The public key may be told for one copy of a key (see C114) and unwrapping be done with another, in any order.
-/

namespace Sa.Whole.C115

open C105 C106 C107 C110 C114

variable {κ ρ π σ τ : Type}

/-- What is told as the public key is that of the key which is denoted. -/
theorem public_told {p : Prims} (hp : p.Good) {d : Device σ τ} {w w' : Ta σ τ} (inv : C105.WInv p d w) {s : Nat} {u : Uuid} {h : Nat} {k : StoredKey} (hk : Denotes p w s u h k)
    {env : Env} (he : env.prims = p) {der : Nat → Nat → Bytes → Option Bytes} {buffer : Bytes} {answer : Answer}
    (hpub : handle (κ := κ) (ρ := ρ) (π := π) d w (.call s u (.keys (.getPublic env der (some buffer) buffer.length h))) = some (w', .reply (.answer answer))) (hok : answer.status = .OK) :
    C69.publicOf der k = some ((answer.out.getD []).take answer.outLength) := by
  subst he
  obtain ⟨_, t, ht, hk⟩ := hk
  obtain ⟨t', st', g1, _, g2, _⟩ := keys_call inv.ta hpub
  rw [ht] at g1; cases g1
  obtain ⟨ptr, _, hp1⟩ := tables_heap ht
  simp only [serveKeys, Option.map_eq_some_iff, Prod.mk.injEq, Reply.answer.injEq] at g2
  obtain ⟨⟨q1, q2⟩, g2, rfl, rfl⟩ := g2
  obtain ⟨a', e, _, h3, _⟩ := C69.C69_public_partial env hp der t.keys (inv.tabs ptr t hp1).keys (some buffer) buffer.length h u (fun o h => congrArg List.length (Option.some.inj h).symm)
  rw [g2] at e
  simp only [Option.some.injEq, Prod.mk.injEq] at e
  obtain ⟨rfl, rfl⟩ := e
  obtain ⟨k', dd, hcu, hd, _, hlen, _, o', ho, _, ht, _⟩ := h3 hok
  have : k' = k := KeyHeld.unique _ _ _ _ _ _ env rfl hk (by rw [hcu.1.2 env rfl, hcu.2])
  rw [← this, hd, ho, hlen, Option.getD_some, ht]

/-- What is in the slot of a key that was unwrapped. -/
theorem unwrapped (env : Env) (hp : env.prims.Good) (u : UnwrapEnv) (hu : u.prims.Good) (st : KeyStore) (hr : KsReachable env.prims st) (t : UnwrapTarget) (params : UnwrapParams)
    (wrapping : Nat) (input : Bytes) (caller : Uuid) (hl : input.length + 16 < 2 ^ 64) (hb : params.HasBlock input) (st' : KeyStore) (s : Status) (h : Nat)
    (hx : keyUnwrapOp env u st t params wrapping input caller = some (st', s, h)) (wk : StoredKey) (hk : KeyHeld env.prims st wrapping caller wk) :
    (s ≠ .OK ∧ h = SLOT_INVALID) ∨
    (s = .OK ∧ ∃ d, Held env.prims st' h caller d ∧ WrappingFits params wk.header ∧ UnwrapClear env.prims u.prims wk params input d.key ∧
      d.header.rights = restrictChildRights t.rights (some wk.header.rights) ∧ d.header.type.toNat = t.keyType) := by
  rcases keyUnwrapOp_cases env hp u hu st hr t params wrapping input caller hl hb with ⟨st1, s1, y, e, _, hc⟩
  rw [hx] at e
  simp only [Option.some.injEq, Prod.mk.injEq] at e
  obtain ⟨rfl, rfl, rfl⟩ := e
  rcases hc with ⟨a, b, _⟩ | ⟨a, wk', _, g1, g2, _⟩
  · exact Or.inl ⟨a, b⟩
  refine Or.inr ⟨a, ?_⟩
  subst a
  have hun : keyStoreUnwrap env st wrapping caller = some (st, .OK, some wk') := by rw [g1.2 env rfl, g2]
  obtain rfl := KeyHeld.unique _ _ _ _ _ _ env rfl hk hun
  rcases keyUnwrapOp_shape env hp u hu st t params wrapping input caller hl hb with ⟨_, s, hs, he⟩ | ⟨body, he, hg⟩
  · rw [hx] at he
    simp only [Option.some.injEq, Prod.mk.injEq] at he
    exact absurd he.2.1.symm hs
  rw [he] at hx
  unfold withKey at hx
  rw [hun] at hx
  simp only at hx
  rcases (hg wk').body with ⟨s', hs', hb'⟩ | ⟨d, hb', hc, x1, x2, x3, x4⟩
  · rw [hb'] at hx
    cases s' <;> first | exact absurd rfl hs' | cases hx
  · obtain ⟨_, f⟩ := (hg wk').allowed d hb'
    rw [hb'] at hx
    simp only [Option.some.injEq] at hx
    obtain ⟨_, _, _, _, _, _, hlen, hd⟩ := hc
    obtain ⟨_, _, _, _, _, hkey, hm⟩ := storedKeyCreate_ok hd
    have hsm : KeySmall d.key := by rw [hkey]; unfold KeySmall; rw [paddedSize_eq]; omega
    obtain ⟨_, _, i3⟩ := importStoredKey_spec env hp st (ksReachable_inv _ hp st hr) d hm hsm caller
    rw [hx] at i3
    rcases i3 with ⟨hno, _⟩ | ⟨_, _, _, w3, hw3, hobj⟩
    · exact absurd rfl hno
    · simp only at hobj
      exact ⟨d, ⟨w3, by rw [hobj, if_pos rfl], by rw [hobj, if_pos rfl], hw3⟩, f, x1, x2, x3⟩

open Asym in
/-- **C115.**  Over any history of calls `Cmd.Fine` (see C105): somebody gets the public key that is told for one copy of a key, and encrypts `m` with it, by RSA or by ElGamal on a curve.
Unwrapping this with any copy of the key, before or after, either fails and gives no handle, or gives a handle that denotes a key whose bytes are exactly those that were encrypted (with
ElGamal, the part of the first coordinate that was asked for), which has the type that was asked for and rights that are those asked for, restricted to those of the key; and so do
all copies of it. -/
theorem C115_arrives_partial (l : Lib κ ρ π) (sd : Asym.C103.Sender ρ π) (hl : Asym.C103.Good l sd) (p : Prims) (hp : p.Good) (d : Device σ τ) (hm : MacsGood d.mac) (w0 : Ta σ τ)
    (h0 : start σ τ = some w0) (a : Place κ ρ π) (ha : ∀ r ∈ a.past, r.Fine p) (k0 : StoredKey) (h : a.Is p d w0 k0)
    (b c : Place κ ρ π) (hb : Copy d w0 a b) (hfb : ∀ r ∈ b.past, r.Fine p) (hc : Copy d w0 a c) (hfc : ∀ r ∈ c.past, r.Fine p)
    (wb : Ta σ τ) (tb : List (Uuid × Told)) (eb : handleAll d w0 b.past = some (wb, tb)) (one : Env) (h1 : one.prims = p) (buffer : Bytes) (wb' : Ta σ τ) (answer : Answer)
    (hpub : handle (κ := κ) (ρ := ρ) (π := π) d wb (.call b.s b.u (.keys (.getPublic one l.der (some buffer) buffer.length b.h))) = some (wb', .reply (.answer answer)))
    (hfine : answer.status = .OK) (pub : ρ) (hdec : l.decPub ((answer.out.getD []).take answer.outLength) = some pub) (hlab : Asym.C103.Labelled sd k0.header pub)
    (params : UnwrapParams) (how : Asym.C103.How) (part : Bytes → Bytes) (hw : Asym.C103.wrapped params = some (how, part)) (m data : Bytes) (hs : Asym.C103.Sealed l sd pub how m data)
    (hd : data.length + 16 < 2 ^ 64) (wc : Ta σ τ) (tc : List (Uuid × Told)) (ec : handleAll d w0 c.past = some (wc, tc)) (two : Env) (h2 : two.prims = p) (allocOk sslOk ok : Bool)
    (up : UnwrapPrims) (hu : up.Good) (t : UnwrapTarget) (wc' : Ta σ τ) (st : Status) (x : Nat)
    (hun : handle (κ := κ) (ρ := ρ) (π := π) d wc (.call c.s c.u (.keys (.unwrap two ⟨l.unwrapping sslOk up, allocOk, ok⟩ t params c.h data))) = some (wc', .reply (.made st x))) :
    (st ≠ .OK ∧ x = SLOT_INVALID) ∨
    (st = .OK ∧ ∃ k, k.key = part m ∧ k.header.type.toNat = t.keyType ∧ k.header.rights = restrictChildRights t.rights (some k0.header.rights) ∧
      ∀ e : Place κ ρ π, Copy d w0 ⟨c.past ++ [.call c.s c.u (.keys (.unwrap two ⟨l.unwrapping sslOk up, allocOk, ok⟩ t params c.h data))], c.s, c.u, x⟩ e → (∀ r ∈ e.past, r.Fine p) →
        e.Is p d w0 k) := by
  obtain ⟨k, hka, hk⟩ := C114_same_partial _ hp d hm w0 h0 a ha k0 h
  have hhd : k0.header = k.header := by
    obtain ⟨w, ts, e, _, t1, ht1, g1⟩ := hka
    obtain ⟨w', ts', e', _, t2, ht2, g2⟩ := h
    rw [e] at e'; cases e'
    rw [ht1] at ht2; cases ht2
    exact held_header g1 g2
  obtain ⟨w, ts, e, hkb⟩ := hk b hb hfb
  rw [eb] at e; cases e
  have invb := run_inv hp hm h0 hfb eb
  have hpk := public_told hp invb hkb h1 hpub hfine
  obtain ⟨w, ts, e, _, t2, ht2, hkc⟩ := hk c hc hfc
  rw [ec] at e; cases e
  have invc := run_inv hp hm h0 hfc ec
  obtain ⟨t', st2', g3, _, g4, ht3, hu3⟩ := keys_call invc.ta hun
  rw [ht2] at g3; cases g3
  obtain ⟨ptr2, _, hp2⟩ := tables_heap ht2
  have hblock : params.HasBlock data := by
    unfold Asym.C103.wrapped at hw; unfold UnwrapParams.HasBlock; split <;> first | trivial | cases hw
  simp only [serveKeys, Option.map_eq_some_iff, Prod.mk.injEq, Reply.made.injEq] at g4
  obtain ⟨⟨q1, q2, q3⟩, e, rfl, rfl, rfl⟩ := g4
  subst h2
  rcases unwrapped two hp ⟨l.unwrapping sslOk up, allocOk, ok⟩ (Asym.C103.unwrapping_good hl sslOk hu) t2.keys (invc.tabs ptr2 t2 hp2).keys t params c.h data c.u hd hblock _ _ _ e k hkc with
    hno | ⟨e1, dk, f1, f2, f3, f4, f5⟩
  · exact Or.inl hno
  · refine Or.inr ⟨e1, dk, Asym.C103.opens hl hpk hdec (hhd ▸ hlab) hw hs f2 f3, f5, by rw [hhd]; exact f4, fun e he hfe => ?_⟩
    obtain ⟨w, ts, ew, hw'⟩ := has_copy hp hm h0 he hfe (handleAll_snoc d _ _ _ _ ec _ _ _ hun) ⟨hu3, _, ht3, f1⟩
    exact ⟨w, ts, ew, hw'.denotes hp (run_inv hp hm h0 hfe ew)⟩

/-! ## A concrete case: a key is encrypted with OAEP for an RSA key of the session and unwrapped -/

def genEnv : GenEnv := { C52.genv with rsaKey := fun _ => some [7] }

def made : List (Request UInt8 UInt8 UInt8) := [.open C08.u7 1, .call 31 C08.u7 (.keys (.generate env1 genEnv rightsAllowAll (some (.rsa 128))))]

theorem genEnv_good : genEnv.Good :=
  { C52.genv_good with rsaLen := by intro n r h; simp only [genEnv, Option.some.injEq] at h; rw [← h]; decide }

theorem made_fine : ∀ r ∈ made, r.Fine light := by
  intro r hr
  simp only [made, List.mem_cons, List.not_mem_nil, or_false] at hr
  rcases hr with rfl | rfl
  · exact True.intro
  · exact ⟨rfl, genEnv_good, fun n e => by cases e; unfold FitsInt; decide⟩

/-- The reply to a call after `made`. -/
def after (c : Call UInt8 UInt8 UInt8) (good : Reply → Bool) : Bool :=
  (start C34.Toy (MacKind × Bytes × Bytes)).any fun w0 => (handleAll C107.dev w0 made).any fun r => (handle C107.dev r.1 (.call 31 C08.u7 (.keys c))).any fun q =>
    match q.2 with
    | .reply x => good x
    | _ => false

/-- The public key that is told is the one for which `sealedOaep` is made; `labelled_rsa` says that the header fits it. -/
example : after (.getPublic env1 Asym.C103.toyLib.der (some [0, 0]) 2 31) (fun q => match q with
    | .answer a => a.status == .OK && a.out == some [1, 8] && a.outLength == 2
    | _ => false) = true := by decide +kernel

example : Asym.C103.Sealed Asym.C103.toyLib Asym.C103.toySender 8 (.rsa (.oaep 1 0 [4, 4])) Asym.C103.secret Asym.C103.sealedOaep := Asym.C103.sealed_oaep

def params : UnwrapParams := .rsa (some (some (1, 0, .bytes [4, 4])))

def unwrap : Call UInt8 UInt8 UInt8 := .unwrap env1 ⟨Asym.C103.toyLib.unwrapping true C53.toyU, true, true⟩ Asym.C103.target params 31 Asym.C103.sealedOaep

theorem made_ready : ((start C34.Toy (MacKind × Bytes × Bytes)).any fun w0 => (handleAll C107.dev w0 made).any fun r =>
    (tablesOf r.1 31).any fun t => decide ((r.1.clients.obj 31).ownerUuid = C08.u7) && (decide (30 < t.keys.slotCount) && (t.keys.obj 30).object.isNone) &&
      (keyStoreUnwrap env1 t.keys 31 C08.u7).any fun q => q.2.2.any fun wk =>
        rightsAllowedUnwrap env1.rights wk.header.rights && (wk.header.type == 2 && (wk.header.size.toNat == 128 && wk.key == [7]))) = true := by decide +kernel

/-- The call gives a handle. -/
example : ∃ w0 w ts w' x, start C34.Toy (MacKind × Bytes × Bytes) = some w0 ∧ handleAll C107.dev w0 made = some (w, ts) ∧
    handle C107.dev w (.call 31 C08.u7 (.keys unwrap)) = some (w', .reply (.made .OK x)) := by
  have h := made_ready
  cases h0 : start C34.Toy (MacKind × Bytes × Bytes) with
  | none => simp [h0] at h
  | some w0 =>
  cases hw : handleAll C107.dev w0 made with
  | none => simp [h0, hw] at h
  | some r =>
  obtain ⟨w, ts⟩ := r
  have inv := run_inv light_good macs_good h0 made_fine hw
  cases ht : tablesOf w 31 with
  | none => simp [h0, hw, ht] at h
  | some t =>
  obtain ⟨ptr, _, g⟩ := tables_heap ht
  have hr := (inv.tabs ptr t g).keys
  rcases unwrap_holds env1 light_good t.keys (ksReachable_inv _ light_good _ hr) 31 C08.u7 with ⟨s, hs, he⟩ | ⟨wk, he, hd, _⟩
  · simp [h0, hw, ht, he] at h
  simp only [h0, hw, ht, he, Option.any_some, Bool.and_eq_true, decide_eq_true_eq, beq_iff_eq, Option.isNone_iff_eq_none] at h
  obtain ⟨⟨hu, hfree⟩, hal, hty, hsz, hkey⟩ := h
  have hpub : C69.publicOf Asym.C103.toyLib.der wk = some [1, 8] := by
    unfold C69.publicOf
    rw [hty, hkey]
    rfl
  obtain ⟨st', x, hx⟩ := Asym.C103.C103_unwraps Asym.C103.toyLib Asym.C103.toySender Asym.C103.toyLib_good env1 light_good (fun _ => rfl) t.keys hr 31 C08.u7 wk he hal 8 [1, 8] hpub rfl
    (Asym.C103.labelled_rsa _) (by intro _ k hk; rw [hsz]; rfl) params _ _ rfl Asym.C103.secret Asym.C103.sealedOaep Asym.C103.sealed_oaep
    ⟨by rw [hty]; rfl, Or.inl hsz⟩
    (by intro d g lb hh; simp only [params, UnwrapParams.rsa.injEq, Option.some.injEq, Prod.mk.injEq] at hh; obtain ⟨rfl, rfl, rfl⟩ := hh; exact ⟨by decide, by decide, by simp⟩)
    (by intro _ _ hh; cases hh) C53.toyU C53.toyU_good Asym.C103.target (by decide +kernel) rfl (by decide) ⟨30, hfree⟩
  have hsv : serveKeys t.keys C08.u7 unwrap = some (st', .made .OK x) := by
    unfold unwrap
    simp only [serveKeys]
    rw [hx]
    rfl
  rcases call_cases C107.dev w inv.ta 31 C08.u7 (.keys unwrap) with ⟨_, _, _, bad⟩ | ⟨ptr', t', b1, b2, b3, eh⟩
  · rcases bad with bad | bad
    · simp [tablesOf, bad] at ht
    · exact absurd hu bad
  have : t' = t := by simpa [tablesOf, b1, b3] using ht
  subst this
  simp only [serve, hsv, Option.map_some] at eh
  exact ⟨w0, w, ts, _, x, rfl, hw, eh⟩

end Sa.Whole.C115

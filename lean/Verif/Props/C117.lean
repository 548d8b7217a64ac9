import Verif.Props.C116

/-!
# C117: a MAC is the same with every copy of a key, however the message was cut

For the TA as a whole: any number of sessions and callers, all calls.
-/

namespace Sa.Whole.C117

open C105 C106 C110 C114

variable {κ ρ π σ τ : Type}

/-! ## What is claimed -/

/-- A piece of a message: data, or the key at a place. -/
inductive Piece (κ ρ π : Type) where
  | data (bytes : Bytes)
  | key (a : Place κ ρ π)

/-- By the requests and what was told: MAC context `h` was made with the key of `a` in the session of `a`, and since then these pieces were processed in it with success, and nothing else. -/
inductive Fed (d : Device σ τ) (w0 : Ta σ τ) (a : Place κ ρ π) (alg : Nat) (digest : Option Nat) (h : Nat) : List (Request κ ρ π) → List (Piece κ ρ π) → Prop where
  | init {ts w w' env ok r} : handleAll (κ := κ) (ρ := ρ) (π := π) d w0 a.past = some (w, ts) →
      handle (κ := κ) (ρ := ρ) (π := π) d w (.call a.s a.u (.macInit env alg digest a.h ok)) = some (w', .reply (.mac r)) → r.status = .OK → r.handle = h →
      Fed d w0 a alg digest h (a.past ++ [.call a.s a.u (.macInit env alg digest a.h ok)]) []
  | data {rs pieces ts w w' bytes r} : Fed d w0 a alg digest h rs pieces → handleAll (κ := κ) (ρ := ρ) (π := π) d w0 rs = some (w, ts) →
      handle (κ := κ) (ρ := ρ) (π := π) d w (.call a.s a.u (.macProcess h (some bytes))) = some (w', .reply (.mac r)) → r.status = .OK →
      Fed d w0 a alg digest h (rs ++ [.call a.s a.u (.macProcess h (some bytes))]) (pieces ++ [.data bytes])
  | key {rs pieces ts w w' env x r} : Fed d w0 a alg digest h rs pieces → handleAll (κ := κ) (ρ := ρ) (π := π) d w0 rs = some (w, ts) →
      handle (κ := κ) (ρ := ρ) (π := π) d w (.call a.s a.u (.macProcessKey env h x)) = some (w', .reply (.mac r)) → r.status = .OK →
      Fed d w0 a alg digest h (rs ++ [.call a.s a.u (.macProcessKey env h x)]) (pieces ++ [.key ⟨rs, a.s, a.u, x⟩])
  | other {rs pieces ts w w' r told} : Fed d w0 a alg digest h rs pieces → handleAll (κ := κ) (ρ := ρ) (π := π) d w0 rs = some (w, ts) →
      handle (κ := κ) (ρ := ρ) (π := π) d w r = some (w', told) → ¬Touches a.s h r told → Fed d w0 a alg digest h (rs ++ [r]) pieces

/-- The messages are alike: the same data, cut in whatever way, and between it keys that are copies of one key. -/
inductive Alike (p : Prims) (d : Device σ τ) (w0 : Ta σ τ) : List (Piece κ ρ π) → List (Piece κ ρ π) → Prop where
  | nil : Alike p d w0 [] []
  | data {ps qs} {xs ys : List Bytes} : Alike p d w0 ps qs → xs.flatten = ys.flatten → Alike p d w0 (ps ++ xs.map .data) (qs ++ ys.map .data)
  | key {ps qs a b c k} : Alike p d w0 ps qs → (∀ r ∈ a.past, r.Fine p) → (∀ r ∈ b.past, r.Fine p) → (∀ r ∈ c.past, r.Fine p) → a.Is p d w0 k →
      Copy d w0 a b → Copy d w0 a c → Alike p d w0 (ps ++ [.key b]) (qs ++ [.key c])

/-! ## What pieces mean -/

/-- The key at a place, which is used there, has these bytes. -/
def UsedAt (p : Prims) (d : Device σ τ) (w0 : Ta σ τ) (a : Place κ ρ π) (bytes : Bytes) : Prop :=
  ∃ k, a.Is p d w0 k ∧ (∃ env : Env, env.prims = p ∧ useResult env k a.u = (.OK, some k)) ∧ bytes = k.key

def Means (p : Prims) (d : Device σ τ) (w0 : Ta σ τ) : List (Piece κ ρ π) → Bytes → Prop
  | [], m => m = []
  | .data x :: ps, m => ∃ m', Means p d w0 ps m' ∧ m = x ++ m'
  | .key a :: ps, m => ∃ x m', UsedAt p d w0 a x ∧ Means p d w0 ps m' ∧ m = x ++ m'

theorem means_append {p : Prims} {d : Device σ τ} {w0 : Ta σ τ} (ps qs : List (Piece κ ρ π)) (m : Bytes) :
    Means p d w0 (ps ++ qs) m ↔ ∃ x y, Means p d w0 ps x ∧ Means p d w0 qs y ∧ m = x ++ y := by
  induction ps generalizing m with
  | nil => exact ⟨fun h => ⟨[], m, rfl, h, rfl⟩, fun ⟨x, y, h1, h2, h3⟩ => by cases h1; rw [h3]; exact h2⟩
  | cons q ps ih =>
    cases q with
    | data b =>
      constructor
      · rintro ⟨m', h1, rfl⟩
        obtain ⟨x, y, h2, h3, rfl⟩ := (ih _).1 h1
        exact ⟨b ++ x, y, ⟨x, h2, rfl⟩, h3, by rw [List.append_assoc]⟩
      · rintro ⟨_, y, ⟨x, h1, rfl⟩, h2, rfl⟩
        exact ⟨x ++ y, (ih _).2 ⟨x, y, h1, h2, rfl⟩, by rw [List.append_assoc]⟩
    | key a =>
      constructor
      · rintro ⟨b, m', h0, h1, rfl⟩
        obtain ⟨x, y, h2, h3, rfl⟩ := (ih _).1 h1
        exact ⟨b ++ x, y, ⟨b, x, h0, h2, rfl⟩, h3, by rw [List.append_assoc]⟩
      · rintro ⟨_, y, ⟨b, x, h0, h1, rfl⟩, h2, rfl⟩
        exact ⟨b, x ++ y, h0, (ih _).2 ⟨x, y, h1, h2, rfl⟩, by rw [List.append_assoc]⟩

theorem means_data {p : Prims} {d : Device σ τ} {w0 : Ta σ τ} (xs : List Bytes) (m : Bytes) (h : Means (κ := κ) (ρ := ρ) (π := π) p d w0 (xs.map .data) m) : m = xs.flatten := by
  induction xs generalizing m with
  | nil => exact h
  | cons x xs ih =>
    obtain ⟨m', h1, rfl⟩ := h
    rw [ih m' h1, List.flatten_cons]

theorem used_copies {p : Prims} (hp : p.Good) {d : Device σ τ} (hm : MacsGood d.mac) {w0 : Ta σ τ} (h0 : start σ τ = some w0) {a b c : Place κ ρ π} {k : StoredKey} {x y : Bytes}
    (ha : ∀ r ∈ a.past, r.Fine p) (hb : ∀ r ∈ b.past, r.Fine p) (hc : ∀ r ∈ c.past, r.Fine p) (hk : a.Is p d w0 k) (cb : Copy d w0 a b) (cc : Copy d w0 a c)
    (ux : UsedAt p d w0 b x) (uy : UsedAt p d w0 c y) : x = y := by
  obtain ⟨q, _, same⟩ := C114_same_partial p hp d hm w0 h0 a ha k hk
  obtain ⟨k1, i1, ⟨e1, p1, u1⟩, rfl⟩ := ux
  obtain ⟨k2, i2, ⟨e2, p2, u2⟩, rfl⟩ := uy
  rw [C116.is_one (same b cb hb) i1 p1 u1, C116.is_one (same c cc hc) i2 p2 u2]

theorem alike_means {p : Prims} (hp : p.Good) {d : Device σ τ} (hm : MacsGood d.mac) {w0 : Ta σ τ} (h0 : start σ τ = some w0) {ps qs : List (Piece κ ρ π)} (h : Alike p d w0 ps qs) {m m' : Bytes}
    (h1 : Means p d w0 ps m) (h2 : Means p d w0 qs m') : m = m' := by
  induction h generalizing m m' with
  | nil => exact h1.trans h2.symm
  | data _ e ih =>
    obtain ⟨x, y, a1, a2, rfl⟩ := (means_append _ _ _).1 h1
    obtain ⟨x', y', b1, b2, rfl⟩ := (means_append _ _ _).1 h2
    rw [ih a1 b1, means_data _ _ a2, means_data _ _ b2, e]
  | key _ fa fb fc hk cb cc ih =>
    obtain ⟨x, y, a1, ⟨v, _, a2, a3, rfl⟩, rfl⟩ := (means_append _ _ _).1 h1
    obtain ⟨x', y', b1, ⟨v', _, b2, b3, rfl⟩, rfl⟩ := (means_append _ _ _).1 h2
    cases a3; cases b3
    rw [ih a1 b1, used_copies hp hm h0 fa fb fc hk cb cc a2 b2]

/-- What C106 says about a context agrees with the pieces. -/
theorem fed_made {p : Prims} {d : Device σ τ} {w0 : Ta σ τ} {a : Place κ ρ π} {alg : Nat} {digest : Option Nat} {h : Nat} {rs : List (Request κ ρ π)} {pieces : List (Piece κ ρ π)}
    (m : Fed d w0 a alg digest h rs pieces) (hf : ∀ r ∈ rs, r.Fine p) {u : Uuid} {kind : MacKind} {key msg : Bytes} (m' : C106.Made p d w0 rs a.s h u kind key msg) :
    kind = macKindOf alg digest ∧ UsedAt p d w0 a key ∧ Means p d w0 pieces msg := by
  induction m generalizing msg with
  | init hw hh ho hx =>
    rcases made_last m' rfl hw hh with ⟨_, _, _, _, _, _, k, h1, _, _, _, h3, h4, h5, rfl, rfl⟩ | ⟨_, _, _, h1, _⟩ | ⟨_, _, _, _, _, h1, _⟩ | ⟨h1, _⟩
    · cases h1
      exact ⟨h3, ⟨k, ⟨_, _, hw, h4⟩, ⟨_, hf _ (List.mem_append_right _ (List.mem_singleton.2 rfl)), h5⟩, rfl⟩, rfl⟩
    · cases h1
    · cases h1
    · exact absurd ⟨rfl, ho, hx⟩ h1
  | data _ hw hh ho ih =>
    rcases made_last m' rfl hw hh with ⟨_, _, _, _, _, _, _, h1, _⟩ | ⟨_, _, _, h1, _, _, h2, rfl⟩ | ⟨_, _, _, _, _, h1, _⟩ | ⟨h1, _⟩
    · cases h1
    · cases h1
      obtain ⟨i1, i2, i3⟩ := ih (fun r hr => hf r (List.mem_append_left _ hr)) h2
      exact ⟨i1, i2, (means_append _ _ _).2 ⟨_, _, i3, ⟨[], rfl, by rw [List.append_nil]⟩, rfl⟩⟩
    · cases h1
    · exact absurd ⟨rfl, ho, rfl⟩ h1
  | key _ hw hh ho ih =>
    rcases made_last m' rfl hw hh with ⟨_, _, _, _, _, _, _, h1, _⟩ | ⟨_, _, _, h1, _⟩ | ⟨_, _, _, _, k, h1, _, _, h2, h4, h5, rfl⟩ | ⟨h1, _⟩
    · cases h1
    · cases h1
    · cases h1
      obtain ⟨i1, i2, i3⟩ := ih (fun r hr => hf r (List.mem_append_left _ hr)) h2
      exact ⟨i1, i2, (means_append _ _ _).2 ⟨_, _, i3, ⟨_, [], ⟨k, ⟨_, _, hw, h4⟩, ⟨_, hf _ (List.mem_append_right _ (List.mem_singleton.2 rfl)), h5⟩, rfl⟩, rfl,
        by rw [List.append_nil]⟩, rfl⟩⟩
    · exact absurd ⟨rfl, ho, rfl⟩ h1
  | other _ hw hh hn ih =>
    rcases made_last m' rfl hw hh with ⟨_, _, _, _, _, _, _, rfl, rfl, h3, h4, _⟩ | ⟨_, _, _, rfl, rfl, h3, _⟩ | ⟨_, _, _, _, _, rfl, rfl, h3, _⟩ | ⟨_, h2⟩
    · exact absurd ⟨rfl, h3, h4⟩ hn
    · exact absurd ⟨rfl, h3, rfl⟩ hn
    · exact absurd ⟨rfl, h3, rfl⟩ hn
    · exact ih (fun r hr => hf r (List.mem_append_left _ hr)) h2

/-! ## The property -/

/-- **C117.**  A key is at place `a`; `b` and `c` are places with copies of it.  With each a MAC context is made, for the same algorithm, and messages that are alike are processed: the same data,
in whatever pieces, and copies of the same keys.  Whatever else was asked of the TA meanwhile, by anyone: if both calls that compute the MAC succeed, they give the same MAC. -/
theorem C117_same_partial {mac : MacKind → Bytes → Bytes → Bytes} {view : τ → MacKind × Bytes × Bytes} (p : Prims) (hp : p.Good) (d : Device σ τ) (hm : d.mac.Good mac view) (w0 : Ta σ τ)
    (h0 : start σ τ = some w0) (a : Place κ ρ π) (ha : ∀ r ∈ a.past, r.Fine p) (k0 : StoredKey) (hk0 : a.Is p d w0 k0)
    (b c : Place κ ρ π) (cb : Copy d w0 a b) (cc : Copy d w0 a c) (hb : ∀ r ∈ b.past, r.Fine p) (hc : ∀ r ∈ c.past, r.Fine p)
    (alg : Nat) (digest : Option Nat) (h h' : Nat) (rs rs' : List (Request κ ρ π)) (pieces pieces' : List (Piece κ ρ π))
    (f : Fed d w0 b alg digest h rs pieces) (f' : Fed d w0 c alg digest h' rs' pieces') (hrs : ∀ r ∈ rs, r.Fine p) (hrs' : ∀ r ∈ rs', r.Fine p) (hal : Alike p d w0 pieces pieces')
    (w w1 : Ta σ τ) (ts : List (Uuid × Told)) (n : Nat) (r : MacResp) (hw : handleAll d w0 rs = some (w, ts))
    (hr : handle (κ := κ) (ρ := ρ) (π := π) d w (.call b.s b.u (.macCompute h (some n))) = some (w1, .reply (.mac r))) (ok : r.status = .OK)
    (w' w1' : Ta σ τ) (ts' : List (Uuid × Told)) (n' : Nat) (r' : MacResp) (hw' : handleAll d w0 rs' = some (w', ts'))
    (hr' : handle (κ := κ) (ρ := ρ) (π := π) d w' (.call c.s c.u (.macCompute h' (some n'))) = some (w1', .reply (.mac r'))) (ok' : r'.status = .OK) :
    r.out = r'.out ∧ r.out.isSome = true := by
  have hmg : MacsGood d.mac := ⟨mac, view, hm⟩
  obtain ⟨kind, key, msg, m1, e1⟩ := C106_mac_partial p hp d hm w0 h0 rs hrs w ts hw _ _ h n w1 r hr ok
  obtain ⟨kind', key', msg', m2, e2⟩ := C106_mac_partial p hp d hm w0 h0 rs' hrs' w' ts' hw' _ _ h' n' w1' r' hr' ok'
  obtain ⟨a1, a2, a3⟩ := fed_made f hrs m1
  obtain ⟨b1, b2, b3⟩ := fed_made f' hrs' m2
  rw [e1, e2, a1, b1, used_copies hp hmg h0 ha hb hc hk0 cb cc a2 b2, alike_means hp hmg h0 hal a3 b3]
  exact ⟨rfl, rfl⟩

/-! ## One key, one message, cut in two ways -/

def keyed : List (Request Unit Unit Unit) := [.open C08.u7 1, .call 31 C08.u7 (.keys gen1)]
def at31 : Place Unit Unit Unit := ⟨keyed, 31, C08.u7, 31⟩
def opening : Request Unit Unit Unit := .call 31 C08.u7 (.macInit env1 MAC_CMAC none 31 true)
def part (x : Bytes) : Request Unit Unit Unit := .call 31 C08.u7 (.macProcess 31 (some x))
def asking : Request Unit Unit Unit := .call 31 C08.u7 (.macCompute 31 (some 16))

/-- All succeeds, and this is the MAC. -/
def computes (x y mac : Bytes) : Bool :=
  (start Unit (MacKind × Bytes × Bytes)).any fun w0 => (handleAll C106.dev w0 keyed).any fun r => (handle C106.dev r.1 opening).any fun r1 =>
    (match r1.2 with | .reply (.mac q) => q.status == .OK && q.handle == 31 | _ => false) && (handle C106.dev r1.1 (part x)).any fun r2 =>
    (match r2.2 with | .reply (.mac q) => q.status == .OK | _ => false) && (handle C106.dev r2.1 (part y)).any fun r3 =>
    (match r3.2 with | .reply (.mac q) => q.status == .OK | _ => false) && (handle C106.dev r3.1 asking).any fun r4 =>
    match r4.2 with | .reply (.mac q) => q.status == .OK && q.out == some mac | _ => false

theorem said {P : MacResp → Bool} {t : Told} (h : (match t with | .reply (.mac q) => P q | _ => false) = true) : ∃ q, t = .reply (.mac q) ∧ P q = true := by
  split at h
  · exact ⟨_, rfl, h⟩
  · cases h

theorem fed_of {x y mac : Bytes} (hc : computes x y mac = true) :
    ∃ w0 w ts w1 r, start Unit (MacKind × Bytes × Bytes) = some w0 ∧ Fed C106.dev w0 at31 MAC_CMAC none 31 (keyed ++ [opening] ++ [part x] ++ [part y]) [.data x, .data y] ∧
      handleAll C106.dev w0 (keyed ++ [opening] ++ [part x] ++ [part y]) = some (w, ts) ∧ handle C106.dev w asking = some (w1, .reply (.mac r)) ∧ r.status = .OK ∧ r.out = some mac := by
  unfold computes at hc
  obtain ⟨w0, h0, hc⟩ := (Option.any_eq_true _ _).1 hc
  obtain ⟨⟨w, ts⟩, hw, hc⟩ := (Option.any_eq_true _ _).1 hc
  obtain ⟨⟨w1, t1⟩, h1, hc⟩ := (Option.any_eq_true _ _).1 hc
  obtain ⟨c1, hc⟩ := Bool.and_eq_true_iff.1 hc
  obtain ⟨⟨w2, t2⟩, h2, hc⟩ := (Option.any_eq_true _ _).1 hc
  obtain ⟨c2, hc⟩ := Bool.and_eq_true_iff.1 hc
  obtain ⟨⟨w3, t3⟩, h3, hc⟩ := (Option.any_eq_true _ _).1 hc
  obtain ⟨c3, hc⟩ := Bool.and_eq_true_iff.1 hc
  obtain ⟨⟨w4, t4⟩, h4, c4⟩ := (Option.any_eq_true _ _).1 hc
  obtain ⟨q1, rfl, c1⟩ := said c1
  obtain ⟨q2, rfl, c2⟩ := said c2
  obtain ⟨q3, rfl, c3⟩ := said c3
  obtain ⟨q4, rfl, c4⟩ := said c4
  simp only [Bool.and_eq_true, beq_iff_eq] at c1 c2 c3 c4
  have s1 : Fed C106.dev w0 at31 MAC_CMAC none 31 (keyed ++ [opening]) [] := Fed.init (a := at31) hw h1 c1.1 c1.2
  have e1 := handleAll_snoc C106.dev keyed _ _ _ hw _ _ _ h1
  have s2 := Fed.data (a := at31) s1 e1 h2 c2
  have e2 := handleAll_snoc C106.dev _ _ _ _ e1 _ _ _ h2
  have s3 := Fed.data (a := at31) s2 e2 h3 c3
  have e3 := handleAll_snoc C106.dev _ _ _ _ e2 _ _ _ h3
  exact ⟨w0, w3, _, w4, q4, h0, s3, e3, h4, c4.1, c4.2⟩

theorem first : computes [1, 2] [3] ([1, 2, 3, 7] ++ List.replicate 12 0) = true := by decide +kernel
theorem second : computes [1] [2, 3] ([1, 2, 3, 7] ++ List.replicate 12 0) = true := by decide +kernel

/-- The hypotheses are met by two contexts that are fed in different pieces (both with the key's own handle, a copy of itself). -/
example : ∃ w0, start Unit (MacKind × Bytes × Bytes) = some w0 ∧ Copy C106.dev w0 at31 at31 ∧
    Fed C106.dev w0 at31 MAC_CMAC none 31 (keyed ++ [opening] ++ [part [1, 2]] ++ [part [3]]) [.data [1, 2], .data [3]] ∧
    Fed C106.dev w0 at31 MAC_CMAC none 31 (keyed ++ [opening] ++ [part [1]] ++ [part [2, 3]]) [.data [1], .data [2, 3]] ∧
    Alike light C106.dev w0 [.data [1, 2], .data [3]] ([.data [1], .data [2, 3]] : List (Piece Unit Unit Unit)) := by
  obtain ⟨w0, _, _, _, _, h0, h1, _⟩ := fed_of first
  obtain ⟨w0', _, _, _, _, h0', h2, _⟩ := fed_of second
  rw [h0] at h0'; cases h0'
  exact ⟨w0, h0, .here, h1, h2, Alike.data (xs := [[1, 2], [3]]) (ys := [[1], [2, 3]]) .nil rfl⟩

/-- The key is there. -/
example : ∃ w0 k, start Unit (MacKind × Bytes × Bytes) = some w0 ∧ (∀ r ∈ at31.past, r.Fine light) ∧ at31.Is light C106.dev w0 k := by
  have h : ((start Unit (MacKind × Bytes × Bytes)).any fun w0 => (handleAll C106.dev w0 keyed).any fun r =>
      decide (C104.holders keyed r.2 31 = some C08.u7) && books keyed r.2 31 31) = true := by decide +kernel
  obtain ⟨w0, h0, h⟩ := (Option.any_eq_true _ _).1 h
  obtain ⟨⟨w, ts⟩, hw, h⟩ := (Option.any_eq_true _ _).1 h
  simp only [Bool.and_eq_true, decide_eq_true_eq] at h
  have hf : ∀ r ∈ keyed, r.Fine light := C116.keyed_fine
  obtain ⟨k, hk⟩ := (C105_book_partial light light_good C106.dev ⟨_, _, C106.toyPrim_good⟩ w0 h0 keyed hf w ts hw 31 C08.u7 31).1.2 h
  exact ⟨w0, k, h0, hf, w, ts, hw, hk⟩

end Sa.Whole.C117

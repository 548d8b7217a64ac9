import Verif.Lemmas.Mac
import Verif.Props.C08

/-!
# C27: a MAC context is finished once
-/

namespace Sa.C27

/-- **C27.**  Take any sequence of calls on a new session, by any callers, with any keys, any failures of OpenSSL and of allocations.  All
calls return.  If the calls and responses so far say that a MAC was returned for the context `h` (`macTrack`: the context was created, not
released since, and a `compute` with a buffer succeeded), then any later process, process-key or compute call on `h`, by anyone, fails. -/
theorem C27_finished {σ : Type} (p : MacPrim σ) (mac : MacKind → Bytes → Bytes → Bytes) (view : σ → MacKind × Bytes × Bytes)
    (hp : p.Good mac view) (n : Nat) (hn : n < 2 ^ 64) (w0 : MacWorld σ) (h0 : macNew σ n = some w0) (ops : List MacOp) :
    ∃ w hist, macRun p w0 ops = some (w, hist) ∧
      ∀ h e, macTrack hist h = some e → e.done = true →
        (∀ input u, ∃ w' r, macProcess p w h input u = some (w', r) ∧ r.status ≠ .OK ∧ r.out = none) ∧
        (∀ key u, ∃ w' r, macProcessKey p w h key u = some (w', r) ∧ r.status ≠ .OK ∧ r.out = none) ∧
        (∀ k u, ∃ w' r, macCompute p w h (some k) u = some (w', r) ∧ r.status ≠ .OK ∧ r.out = none) := by
  obtain ⟨w, hist, hrun, inv⟩ := macRun_inv hp ops w0 _ (macInv_new p view n hn w0 h0)
  refine ⟨w, hist, hrun, ?_⟩
  intro h e he hd
  have hout : ∀ op w' r, macStep p w op = some (w', r) → r.status ≠ .OK → r.out = none := macStep_fail_out p w
  refine ⟨?_, ?_, ?_⟩
  · intro input u
    obtain ⟨w', r, h1, _, h2, _⟩ := macStep_inv hp w _ inv (.process h input u)
    have hs : r.status ≠ .OK := by
      intro hok
      obtain ⟨e', k1, _, k3⟩ := h2 h input u rfl hok
      have : macTrack hist h = some e' := k1
      rw [he] at this
      simp only [Option.some.injEq] at this
      subst this
      rw [hd] at k3; simp at k3
    exact ⟨w', r, h1, hs, hout _ w' r h1 hs⟩
  · intro key u
    obtain ⟨w', r, h1, _, _, h2, _⟩ := macStep_inv hp w _ inv (.processKey h key u)
    have hs : r.status ≠ .OK := by
      intro hok
      obtain ⟨e', k1, _, k3⟩ := h2 h key u rfl hok
      have : macTrack hist h = some e' := k1
      rw [he] at this
      simp only [Option.some.injEq] at this
      subst this
      rw [hd] at k3; simp at k3
    exact ⟨w', r, h1, hs, hout _ w' r h1 hs⟩
  · intro k u
    obtain ⟨w', r, h1, _, _, _, h2, _⟩ := macStep_inv hp w _ inv (.compute h (some k) u)
    have hs : r.status ≠ .OK := by
      intro hok
      obtain ⟨e', k1, _, k3, _⟩ := h2 h k u rfl hok
      have : macTrack hist h = some e' := k1
      rw [he] at this
      simp only [Option.some.injEq] at this
      subst this
      rw [hd] at k3; simp at k3
    exact ⟨w', r, h1, hs, hout _ w' r h1 hs⟩

/-- **C27, size queries.**  After any sequence of calls, `compute` with a NULL output, by anyone on any handle, leaves everything as it
was. -/
theorem C27_size_query {σ : Type} (p : MacPrim σ) (mac : MacKind → Bytes → Bytes → Bytes) (view : σ → MacKind × Bytes × Bytes)
    (hp : p.Good mac view) (n : Nat) (hn : n < 2 ^ 64) (w0 : MacWorld σ) (h0 : macNew σ n = some w0) (ops : List MacOp)
    (w : MacWorld σ) (hist : List (MacOp × MacResp)) (hrun : macRun p w0 ops = some (w, hist)) (h : Nat) (u : Uuid) :
    ∃ r, macCompute p w h none u = some (w, r) ∧ r.out = none := by
  obtain ⟨w', hist', hrun', inv⟩ := macRun_inv hp ops w0 _ (macInv_new p view n hn w0 h0)
  rw [hrun] at hrun'
  simp only [Option.some.injEq, Prod.mk.injEq] at hrun'
  obtain ⟨rfl, rfl⟩ := hrun'
  obtain ⟨w', r, h1, _, _, _, _, h2⟩ := macStep_inv hp w _ inv (.compute h none u)
  have := h2 h u rfl
  subst this
  exact ⟨r, h1, macCompute_none_out p w' h u w' r h1⟩

/-! A MAC for the examples: the "MAC" of a message under a key is both, cut or filled to the length. -/

def toyMac (k : MacKind) (key msg : Bytes) : Bytes := ((key ++ msg) ++ List.replicate 64 0).take (k.length.getD 0)

def toyPrim : MacPrim (MacKind × Bytes × Bytes) where
  create k key := some (k, key, [])
  update s bs := if bs = [0xFF] then (s, false) else ((s.1, s.2.1, s.2.2 ++ bs), true)
  final s := (s, some (toyMac s.1 s.2.1 s.2.2))

theorem toyPrim_good : toyPrim.Good toyMac id where
  create := by intro k key s h; simp [toyPrim] at h; simp [← h]
  update := by
    intro s bs h
    unfold toyPrim at h ⊢
    simp only at h ⊢
    by_cases hb : bs = [0xFF]
    · rw [if_pos hb] at h; simp at h
    · rw [if_neg hb]; rfl
  updateFail := by
    intro s bs h
    unfold toyPrim at h ⊢
    simp only at h ⊢
    by_cases hb : bs = [0xFF]
    · rw [if_pos hb]
    · rw [if_neg hb] at h; simp at h
  final := by intro s m h; simp [toyPrim] at h; simp [← h]

/-- A 16 byte symmetric key with all rights. -/
def key16 : StoredKey where
  header := ⟨Vector.replicate 4 0, Vector.replicate 4 0, rightsAllowAll, 0, Vector.replicate 7 0, Vector.replicate 1040 0, 16, Vector.replicate 6 0⟩
  key := List.replicate 16 7

def key : Status × Option StoredKey := (.OK, some key16)

def renv : RightsEnv := { time := 1000, video := some C10.hdmi22 }

/-- Create an HMAC-SHA-256 context, process some data, a chunk on which OpenSSL fails, ask for the size, process a key, compute with too small
a buffer, compute, and then everything again. -/
def ops : List MacOp :=
  [.init MAC_HMAC (some 1) key renv true C08.u7, .process 31 (some [1, 2]) C08.u7, .process 31 (some [0xFF]) C08.u7, .compute 31 none C08.u7,
   .process 31 (some [3]) C08.u8, .processKey 31 key C08.u7, .compute 31 (some 31) C08.u7, .compute 31 (some 40) C08.u7,
   .process 31 (some [1, 2]) C08.u7, .processKey 31 key C08.u7, .compute 31 (some 40) C08.u7, .compute 31 none C08.u7]

/-- The run and its responses: the hypotheses of the theorem are met after the eighth call. -/
example : ((macNew _ 256).bind fun w => (macRun toyPrim w ops).map fun r => r.2.map fun x => (x.2.status, x.2.outLength)) =
    some [(.OK, none), (.OK, none), (.INTERNAL_ERROR, none), (.OK, some 32), (.OPERATION_NOT_ALLOWED, none), (.OK, none),
      (.INVALID_PARAMETER, none), (.OK, some 32), (.INVALID_PARAMETER, none), (.INVALID_PARAMETER, none), (.INVALID_PARAMETER, none),
      (.OK, some 32)] := by decide +kernel

example : ((macNew _ 256).bind fun w => (macRun toyPrim w (ops.take 8)).bind fun r => (macTrack r.2 31).map (·.done)) = some true := by
  decide +kernel

end Sa.C27

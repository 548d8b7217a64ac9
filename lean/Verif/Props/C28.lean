import Verif.Props.C27

/-!
# C28: the MAC is of all processed data, in order
-/

namespace Sa.C28

/-- **C28.**  Take any sequence of calls on a new session, by any callers, with any keys, any failures of OpenSSL (a failed `EVP_MAC_update`
absorbs nothing) and of allocations.  If a `compute` with a buffer then succeeds on `h`, the calls and responses so far say that `h` is a
context created by this caller from a key, and what is returned is the MAC under this key of the concatenation, in order, of the data and
keys of the process and process-key calls on `h` that succeeded since. -/
theorem C28_chunks {σ : Type} (p : MacPrim σ) (mac : MacKind → Bytes → Bytes → Bytes) (view : σ → MacKind × Bytes × Bytes)
    (hp : p.Good mac view) (n : Nat) (hn : n < 2 ^ 64) (w0 : MacWorld σ) (h0 : macNew σ n = some w0) (ops : List MacOp)
    (w : MacWorld σ) (hist : List (MacOp × MacResp)) (hrun : macRun p w0 ops = some (w, hist))
    (h k : Nat) (u : Uuid) (w' : MacWorld σ) (r : MacResp) (hc : macCompute p w h (some k) u = some (w', r)) (hok : r.status = .OK) :
    ∃ e, macTrack hist h = some e ∧ e.owner = u ∧ e.done = false ∧ r.out = some (mac e.kind e.key e.msg) := by
  obtain ⟨w1, hist', hrun', inv⟩ := macRun_inv hp ops w0 _ (macInv_new p view n hn w0 h0)
  rw [hrun] at hrun'
  simp only [Option.some.injEq, Prod.mk.injEq] at hrun'
  obtain ⟨rfl, rfl⟩ := hrun'
  obtain ⟨w2, r', h1, _, _, _, h2, _⟩ := macStep_inv hp w _ inv (.compute h (some k) u)
  have h1 : macCompute p w h (some k) u = some (w2, r') := h1
  rw [hc] at h1
  simp only [Option.some.injEq, Prod.mk.injEq] at h1
  obtain ⟨rfl, rfl⟩ := h1
  exact h2 h k u rfl hok

/-- **C28, the MAC is obtained.**  If OpenSSL's final call does not fail, then for every context that the calls and responses say exists and
is not finished, its owner gets the MAC into any buffer that is long enough, and the size query says how long. -/
theorem C28_obtained {σ : Type} (p : MacPrim σ) (mac : MacKind → Bytes → Bytes → Bytes) (view : σ → MacKind × Bytes × Bytes)
    (hp : p.Good mac view) (hf : ∀ s, (p.final s).2.isSome = true) (n : Nat) (hn : n < 2 ^ 64) (w0 : MacWorld σ)
    (h0 : macNew σ n = some w0) (ops : List MacOp)
    (w : MacWorld σ) (hist : List (MacOp × MacResp)) (hrun : macRun p w0 ops = some (w, hist))
    (h : Nat) (e : MacEntry) (he : macTrack hist h = some e) (hd : e.done = false) :
    ∃ len, e.kind.length = some len ∧ ∀ k, len ≤ k → ∃ w' r, macCompute p w h (some k) e.owner = some (w', r) ∧ r.status = .OK ∧
      r.outLength = some len ∧ r.out = some (mac e.kind e.key e.msg) := by
  obtain ⟨w1, hist', hrun', inv⟩ := macRun_inv hp ops w0 _ (macInv_new p view n hn w0 h0)
  rw [hrun] at hrun'
  simp only [Option.some.injEq, Prod.mk.injEq] at hrun'
  obtain ⟨rfl, rfl⟩ := hrun'
  obtain ⟨len, h1, h2⟩ := macCompute_live w _ inv hf h e he hd
  refine ⟨len, h1, ?_⟩
  intro k hk
  obtain ⟨w', r, h3, h4, h5⟩ := h2 k hk
  obtain ⟨e', j1, _, _, j4⟩ := C28_chunks p mac view hp n hn w0 h0 ops w hist hrun h k e.owner w' r h3 h4
  rw [he] at j1
  simp only [Option.some.injEq] at j1
  subst j1
  exact ⟨w', r, h3, h4, h5, j4⟩

/-- The example of C27: the MAC returned is the one of `[1, 2]` and the key. -/
example : ((macNew _ 256).bind fun w => (macRun C27.toyPrim w C27.ops).bind fun r => (r.2[7]?).map fun x => x.2.out) =
    some (some (C27.toyMac (.hmac 1) (List.replicate 16 7) ([1, 2] ++ List.replicate 16 7))) := by decide +kernel

/-- A context made after another one was released, in the same slot, starts afresh. -/
example : ((macNew _ 256).bind fun w => (macRun C27.toyPrim w (C27.ops.take 3 ++
      [.release 31 C08.u7, .init MAC_CMAC none C27.key C27.renv true C08.u7, .process 31 (some [5]) C08.u7, .compute 31 (some 16) C08.u7])).bind
      fun r => (r.2[6]?).map fun x => x.2.out) =
    some (some (C27.toyMac .cmac (List.replicate 16 7) [5])) := by decide +kernel

end Sa.C28

import Verif.Lemmas.Cipher
import Verif.Props.C27

/-!
# C36: who owns the clear copy of the key of a cipher context
-/

namespace Sa.C36

variable {σ : Type}

/-- The context with handle `h` is in the table. -/
def Live (w : CipherWorld σ) (h : Nat) : Prop := (w.store.obj h).object ≠ none

/-- The object of the context `h` has the clear key copy `sk` at the address `x`. -/
def KeyAt (w : CipherWorld σ) (h x : Nat) (sk : StoredKey) : Prop :=
  ∃ ptr o, (w.store.obj h).object = some ptr ∧ w.heap ptr = some (.obj o) ∧ o.key = some x ∧ w.heap x = some (.key sk)

/-- The memory at `x` belongs to the context `h`: it is its object, its symmetric context or its key copy. -/
def BelongsTo (w : CipherWorld σ) (x h : Nat) : Prop :=
  ∃ ptr o, (w.store.obj h).object = some ptr ∧ w.heap ptr = some (.obj o) ∧ (x = ptr ∨ o.sym = some x ∨ o.key = some x)

/-- **C36** (partial: for RSA-OAEP it is assumed that, after the context was put into the table, its lock and the memory for the label are
obtained; see `C36_violated`).  After any sequence of calls on the cipher contexts of a new session (nothing in it is undefined behaviour),
`sa_crypto_cipher_init` with any parameters and any result of unwrapping the key either fails, and then the table and the memory are what
they were, so that the copy of the key it made (at the fresh address `w.next`) is free and in no context; or it succeeds, and then there is
exactly one new context, it is the only one that refers to that copy, and the copy is the unwrapped key. -/
theorem C36_init_partial (p : CipherPrim σ) (slots : Nat) (hs : slots < 2 ^ 64) (w0 : CipherWorld σ) (h0 : cipherNew σ slots = some w0)
    (ops : List CipherOp) (hops : ∀ op ∈ ops, op.oaepOk) (params : InitParams) (mode : Nat) (key : Status × Option StoredKey) (env : InitEnv)
    (hoaep : params.alg = some CIPHER_RSA_OAEP → env.lockOk = true ∧ env.labelOk = true) (u : Uuid) :
    ∃ w w' s h, cipherRun p w0 ops = some w ∧ cipherInit p w params mode key env u = some (w', s, h) ∧
      ((s ≠ .OK ∧ h = SLOT_INVALID ∧ (∀ x, w'.heap x = w.heap x) ∧ (∀ x, w'.store.obj x = w.store.obj x) ∧ w'.heap w.next = none) ∨
       (s = .OK ∧ ¬ Live w h ∧ (∃ sk, key = (.OK, some sk) ∧ KeyAt w' h w.next sk) ∧ (∀ h', BelongsTo w' w.next h' → h' = h) ∧
        (∀ x, x ≠ h → w'.store.obj x = w.store.obj x) ∧ (∀ x, w.heap x ≠ none → w'.heap x = w.heap x))) := by
  obtain ⟨w, hr, inv⟩ := cipherRun_inv p ops (cipherNew_inv slots hs w0 h0).1 hops
  have hnext : w.heap w.next = none := by
    cases hx : w.heap w.next with
    | none => rfl
    | some v => have := inv.fresh w.next (by rw [hx]; simp); omega
  rcases cipherInit_cases p w inv.live inv.fresh params mode key env hoaep u with ⟨w', s, e, hs', same⟩ | ⟨w', h, ptr, o, sk, e, hk, _, _, _, _, _, _, n⟩
  · exact ⟨w, w', s, SLOT_INVALID, hr, e, Or.inl ⟨hs', rfl, same.heap, same.store, by rw [same.heap, hnext]⟩⟩
  · refine ⟨w, w', .OK, h, hr, e, Or.inr ⟨rfl, ?_, ⟨sk, hk, ptr, o, ?_, n.obj, n.key, n.keyCell⟩, ?_, ?_, ?_⟩⟩
    · unfold Live; rw [n.free]; simp
    · rw [n.store, if_pos rfl]
    · intro h' hb
      have inv' := inv.new h ptr o sk u n
      exact inv'.inj h' h w.next hb ⟨ptr, o, by rw [n.store, if_pos rfl], n.obj, Or.inr (Or.inr n.key)⟩
    · intro x hx; rw [n.store, if_neg hx]
    · intro x hx; exact n.old x (inv.fresh x hx)

/-- **C36, histories** (partial, as above).  After any sequence of calls: every live context has its object and its key copy; every piece of
memory in use belongs to exactly one live context; and releasing a context that is not in use by its owner frees exactly its memory. -/
theorem C36_owned_partial (p : CipherPrim σ) (slots : Nat) (hs : slots < 2 ^ 64) (w0 : CipherWorld σ) (h0 : cipherNew σ slots = some w0)
    (ops : List CipherOp) (hops : ∀ op ∈ ops, op.oaepOk) :
    ∃ w, cipherRun p w0 ops = some w ∧
      (∀ h, Live w h → ∃ x sk, KeyAt w h x sk) ∧
      (∀ x, w.heap x ≠ none → ∃ h, BelongsTo w x h ∧ ∀ h', BelongsTo w x h' → h' = h) ∧
      (∀ h, Live w h → (w.store.obj h).referenceCount = 0 →
        ∃ w', cipherRelease w h (w.store.obj h).ownerUuid = some (w', some .OK) ∧ ¬ Live w' h ∧
          (∀ x, BelongsTo w x h → w'.heap x = none) ∧ ∀ x, ¬ BelongsTo w x h → w'.heap x = w.heap x) := by
  obtain ⟨w, hr, inv⟩ := cipherRun_inv p ops (cipherNew_inv slots hs w0 h0).1 hops
  refine ⟨w, hr, ?_, ?_, ?_⟩
  · intro h hl
    unfold Live at hl
    cases ho : (w.store.obj h).object with
    | none => exact absurd ho hl
    | some ptr =>
      obtain ⟨o, kp, sk, a, b, c, _⟩ := inv.shape h ptr ho
      exact ⟨kp, sk, ptr, o, ho, a, b, c⟩
  · intro x hx
    obtain ⟨h, hh⟩ := inv.leak x hx
    exact ⟨h, hh, fun h' hb => inv.inj h' h x hb hh⟩
  · intro h hl hrc
    have hlt : ∀ v, (w.store.obj h).object = some v → h < w.store.slotCount := by
      intro v hv
      apply Classical.byContradiction
      intro hge
      have := obj_ge w.store inv.live.toStoreInv h (by omega)
      rw [this] at hv; simp at hv
    unfold cipherRelease
    rcases remove_spec w.store inv.live h (w.store.obj h).ownerUuid with ⟨_, ho⟩ | ⟨_, _, _, hu⟩ | ⟨st', _, _, _, _, _, _, _, hr⟩ | ⟨st', ptr, he, _, _, _, ho, _, _, hst⟩
    · exact absurd ho hl
    · exact absurd rfl hu
    · exact absurd hrc hr
    · rw [he]
      obtain ⟨w1, e1, e2, e3, e4, e5⟩ := cipherFree_spec inv h ptr ho
      simp only [e1, Option.map_some]
      refine ⟨_, rfl, ?_, e4, e5⟩
      unfold Live
      show ¬ (st'.obj h).object ≠ none
      rw [hst, if_pos rfl]
      simp

/-! ## Examples and the violation -/

/-- A cipher that changes nothing. -/
def idCipher : CipherPrim Unit where
  create _ _ _ _ := some ()
  update s b := (s, some b)
  final s := (s, some [])
  setIv s _ := some s
  getTag _ := some (List.replicate 16 0)
  setTag s _ := some s

def rsaKey : StoredKey where
  header := { C27.key16.header with type := 2, size := 256 }
  key := List.replicate 300 7

def ienv : InitEnv := ⟨C27.renv, true, true, true⟩

/-- An AES-CTR context, an RSA context, a failing call, release. -/
def ops : List CipherOp :=
  [.init (.ctr (some (some (List.replicate 16 1)))) MODE_DECRYPT C27.key ienv C08.u7,
   .init (.oaep (some (1, 1, .bytes [1, 2]))) MODE_DECRYPT (.OK, some rsaKey) ienv C08.u7,
   .init .elgamal MODE_DECRYPT C27.key ienv C08.u7, .release 31 C08.u7]

/-- The hypotheses are met, and the run is not trivial: context 30 remains and memory 31's was released. -/
example : ∀ op ∈ ops, op.oaepOk := by
  intro op h
  simp only [ops, List.mem_cons, List.not_mem_nil, or_false] at h
  rcases h with rfl | rfl | rfl | rfl <;> simp [CipherOp.oaepOk, ienv]

example : (cipherNew Unit 32).any (fun w => (cipherRun idCipher w ops).any fun w =>
    (w.store.obj 30).object == some 4 && (w.heap 3).isSome && (w.heap 0).isNone && (w.heap 1).isNone && (w.heap 2).isNone &&
    (w.store.obj 31).object.isNone && w.next == 6) = true := by decide +kernel

/-- The context is in the table and its key copy is not allocated. -/
def danglingKey (w : CipherWorld Unit) (h : Nat) (u : Uuid) : Bool :=
  match objectStoreAcquire w.store h u with
  | (_, .OK, some ptr) => match w.heap ptr with
    | some (.obj o) => match o.key with
      | some x => (w.heap x).isNone
      | none => false
    | _ => false
  | _ => false

theorem danglingKey_spec (w : CipherWorld Unit) (h : Nat) (u : Uuid) (hd : danglingKey w h u = true) :
    ∃ st ptr o x, objectStoreAcquire w.store h u = (st, .OK, some ptr) ∧ w.heap ptr = some (.obj o) ∧ o.key = some x ∧ w.heap x = none := by
  unfold danglingKey at hd
  split at hd
  · split at hd
    · split at hd
      · rename_i st ptr e _ o ho _ x hx
        exact ⟨st, ptr, o, x, e, ho, hx, by simpa using hd⟩
      · simp at hd
    · simp at hd
  · simp at hd

/-- `C36` fails for the code as it is: `ta_sa_crypto_cipher_init_rsa_oaep` (ta_sa_crypto_cipher_init.c:774-807) puts the context into the
table and then sets the OAEP parameters.  If the memory for the label is not obtained the call fails, and the caller frees the key copy
(line 1018) although the context remains: the context is in the table, its key copy is freed memory, and using it or releasing it is
undefined behaviour. -/
theorem C36_violated : ∃ (w0 w : CipherWorld Unit) (h : Nat),
    cipherNew Unit 32 = some w0 ∧
    cipherInit idCipher w0 (.oaep (some (1, 1, .bytes [1, 2]))) MODE_DECRYPT (.OK, some rsaKey) { ienv with labelOk := false } C08.u7 = some (w, .INTERNAL_ERROR, h) ∧
    Live w h ∧ (∀ x sk, ¬ KeyAt w h x sk) ∧ cipherRelease w h C08.u7 = none ∧
    ∀ k u env svp mem out input bytes, cipherProcess k idCipher u env w svp mem h out input bytes C08.u7 = none := by
  have hrun : ((cipherNew Unit 32).any fun w0 => (cipherInit idCipher w0 (.oaep (some (1, 1, .bytes [1, 2]))) MODE_DECRYPT (.OK, some rsaKey)
      { ienv with labelOk := false } C08.u7).any fun r => r.2.1 == .INTERNAL_ERROR && danglingKey r.1 r.2.2 C08.u7 &&
        (cipherRelease r.1 r.2.2 C08.u7).isNone) = true := by decide +kernel
  simp only [Option.any_eq_true] at hrun
  obtain ⟨w0, h0, ⟨w, s, h⟩, h1, h2⟩ := hrun
  simp only [Bool.and_eq_true, beq_iff_eq, Option.isNone_iff_eq_none] at h2
  obtain ⟨⟨rfl, hd⟩, hrel⟩ := h2
  obtain ⟨st, ptr, o, x, e, ho, hx, hf⟩ := danglingKey_spec w h C08.u7 hd
  obtain ⟨_, _, hobj, _, _⟩ := (acquire_ok_iff w.store h C08.u7 st ptr).mp e
  refine ⟨w0, w, h, h0, h1, by unfold Live; rw [hobj]; simp, ?_, hrel, ?_⟩
  · rintro y sk ⟨p', o', a, b, c, d⟩
    rw [hobj] at a
    simp only [Option.some.injEq] at a
    subst a
    rw [ho] at b
    simp only [Option.some.injEq, Cell.obj.injEq] at b
    subst b
    rw [hx] at c
    simp only [Option.some.injEq] at c
    subst c
    rw [hf] at d; simp at d
  · intro k u env svp mem out input bytes
    unfold cipherProcess
    rw [e]
    have hk : w.keyOf o = none := by unfold CipherWorld.keyOf; rw [hx]; simp only [hf]
    simp only [ho, hk]

end Sa.C36

import Verif.Lemmas.Balance
import Verif.Lemmas.StoreHistory
import Verif.Props.C51

/-!
# C33: an API call gives back every reference and lock it took

`runProg u p args fresh w orc` is a run of entry point `p` by caller `u` on the tables `w`; `orc` decides every data dependent branch, so "for all
`orc`" covers every path of the function, successful or not.
-/

namespace Sa.C33

/-- The specification: reference counts and lock depths are as before; what is referenced stays where it is. -/
structure Returned (w w' : BWorld) : Prop where
  refs : ∀ k h, ((w'.store k).obj h).referenceCount = ((w.store k).obj h).referenceCount
  locks : ∀ k obj, w'.lock k obj = w.lock k obj
  inPlace : ∀ k h, ((w.store k).obj h).referenceCount ≠ 0 → (w'.store k).obj h = (w.store k).obj h

theorem returned_of {w w' : BWorld} (h : SameBorrows w w') : Returned w w' where
  refs := h.count
  locks := h.lock
  inPlace k x hx := by
    have h1 := h.keep k x hx
    have h2 := h.count k x
    unfold BWorld.rc at h2
    cases ha : (w'.store k).obj x
    cases hb : (w.store k).obj x
    rw [ha, hb] at h1 h2
    simp only at h1 h2
    rw [h1.1, h1.2, h2]

/-- **C33 (all entry points but three).**  Whatever path the call takes, it returns every reference and every lock. -/
theorem C33_returned (a : CallArgs) (name : String) (p : Prog) (hp : (name, p) ∈ apiProgs a) (u : Uuid) (args : PVar → Nat) (fresh : Nat) (w : BWorld)
    (hi : ∀ k, StoreInv (w.store k)) (orc : List Bool) (e : Bool) (w' : BWorld) (hr : runProg u p args fresh w orc = some (e, w')) :
    Returned w w' ∧ ∀ k, StoreInv (w'.store k) := by
  have := prog_same p (apiProgs_ok a name p hp) args fresh w hi orc hr (Or.inr rfl)
  exact ⟨returned_of this.1, this.2⟩

/-- A run of calls of those entry points; `none`: one of them does not return. -/
def runCalls : List (CallArgs × Nat × Uuid × (PVar → Nat) × Nat × List Bool) → BWorld → Option BWorld
  | [], w => some w
  | (a, n, u, args, fresh, orc) :: rest, w =>
    match (apiProgs a)[n]? with
    | none => runCalls rest w
    | some (_, p) =>
      match runProg u p args fresh w orc with
      | none => none
      | some (_, w') => runCalls rest w'

/-- **C33 (histories).**  When nothing is borrowed, every history of those calls by any callers terminates, afterwards nothing is borrowed, no mutex
is held, and the removal of any object (release of a context or buffer, closing of a session) terminates. -/
theorem C33_history_partial (calls : List (CallArgs × Nat × Uuid × (PVar → Nat) × Nat × List Bool)) (w : BWorld) (hi : ∀ k, StoreInv (w.store k))
    (hz : ∀ k h, ((w.store k).obj h).referenceCount = 0) (hl : ∀ k obj, w.lock k obj = 0) :
    ∃ w', runCalls calls w = some w' ∧ (∀ k h, ((w'.store k).obj h).referenceCount = 0) ∧ (∀ k obj, w'.lock k obj = 0) ∧
      ∀ k h u, ∃ st s fr, objectStoreRemove (w'.store k) h u = .returned st s fr := by
  induction calls generalizing w with
  | nil => exact ⟨w, rfl, hz, hl, fun k h u => remove_returns _ (hi k) h u (hz k h)⟩
  | cons c rest ih =>
    obtain ⟨a, n, u, args, fresh, orc⟩ := c
    simp only [runCalls]
    cases hg : (apiProgs a)[n]? with
    | none => exact ih w hi hz hl
    | some np =>
      obtain ⟨name, p⟩ := np
      have hmem := List.mem_of_getElem? hg
      obtain ⟨⟨e, w'⟩, hr⟩ := prog_returns (u := u) p (apiProgs_ok a name p hmem) args fresh w hi hz orc
      simp only [hr]
      have h2 := C33_returned a name p hmem u args fresh w hi orc e w' hr
      exact ih w' h2.2 (fun k h => by rw [h2.1.refs]; exact hz k h) (fun k x => by rw [h2.1.locks]; exact hl k x)

/-- **C33 (partial, the rest).**  `sa_crypto_cipher_process`, `sa_crypto_cipher_process_last` and `sa_svp_buffer_release` return what they took unless
they run into one of the `return` statements in the middle.

Missing: these `return`s, see `C33_violated_cipher` and `C33_violated_svp`. -/
theorem C33_returned_partial (a : CallArgs) (p : Prog) (hp : p = cipherProcessProg ∨ p = svpBufferReleaseProg a) (u : Uuid) (args : PVar → Nat)
    (fresh : Nat) (w : BWorld) (hi : ∀ k, StoreInv (w.store k)) (orc : List Bool) (w' : BWorld)
    (hr : runProg u p args fresh w orc = some (false, w')) : Returned w w' ∧ ∀ k, StoreInv (w'.store k) := by
  have hok : progOk true p = true := by rcases hp with rfl | rfl <;> rfl
  have := prog_same p hok args fresh w hi orc hr (Or.inl rfl)
  exact ⟨returned_of this.1, this.2⟩

/-! ## The violations -/

def u1 : Uuid := Vector.replicate 16 1

/-- A table with one object, under handle 31. -/
def one (k : Nat) : ObjectStore Nat := (objectStoreAdd C04.st32 k u1).1

theorem one_inv (k : Nat) : StoreInv (one k) := by
  have hl := liveInv_init 32 C04.st32 (by omega) C51.st32_init
  exact (add_spec C04.st32 hl.toStoreInv hl.up k u1).1

def world1 : BWorld := ⟨fun k => match k with | .client => one 1 | .cipher => one 2 | .mac => one 3 | .svp => one 4 | .key => one 5, fun _ _ => 0⟩

theorem world1_inv : ∀ k, StoreInv (world1.store k) := by intro k; cases k <;> exact one_inv _

def h31 : PVar → Nat := fun _ => 31

/-- The call takes the path through the first `return` inside the block. -/
def earlyPath : List Bool := [false, false, false, false, true]

/-- **C33 is violated** by `sa_crypto_cipher_process`: with a buffer of unknown type (line 431) it returns without giving back the session and the
context; the context stays locked, and releasing it, or closing the session, never terminates. -/
theorem C33_violated_cipher : ∃ w', runProg u1 cipherProcessProg h31 9 world1 earlyPath = some (true, w') ∧
    ((w'.store .client).obj 31).referenceCount = 1 ∧ ((w'.store .cipher).obj 31).referenceCount = 1 ∧ w'.lock .cipher 2 = 1 ∧
    (∃ st, objectStoreRemove (w'.store .cipher) 31 u1 = .blocks st) ∧ (∃ st, objectStoreRemove (w'.store .client) 31 u1 = .blocks st) := by
  refine ⟨_, rfl, by decide +kernel, by decide +kernel, by decide +kernel, ⟨_, rfl⟩, ⟨_, rfl⟩⟩

/-- **C33 is violated** by `sa_svp_buffer_release` when the memory of the buffer cannot be taken (svp_store.c:233): the call reports success, the
buffer keeps a reference and its lock, and every later release of it never terminates. -/
theorem C33_violated_svp : ∃ w', runProg u1 (svpBufferReleaseProg ⟨h31, []⟩) h31 9 world1 [false, false, false, false, true] = some (true, w') ∧
    ((w'.store .client).obj 31).referenceCount = 0 ∧ ((w'.store .svp).obj 31).referenceCount = 1 ∧ w'.lock .svp 4 = 1 ∧
    (∃ st, objectStoreRemove (w'.store .svp) 31 u1 = .blocks st) := by
  refine ⟨_, rfl, by decide +kernel, by decide +kernel, by decide +kernel, ⟨_, rfl⟩⟩

/-! ## Examples -/

/-- `sa_svp_buffer_copy` of a buffer onto itself borrows it twice, and locks it twice, before the copy. -/
example : ∃ r, runStmts u1 [sop (.acquire .client), sop (.acquire .out), sop (.acquire .in_)] world1 (frame h31 9) [] false = some r ∧
    ((r.2.1.store .svp).obj 31).referenceCount = 2 ∧ r.2.1.lock .svp 4 = 2 := ⟨_, rfl, by decide +kernel, by decide +kernel⟩

/-- The hypotheses of `C33_returned` hold for it, on the path that succeeds, and nothing is borrowed afterwards. -/
example : ∃ p w', ("ta_sa_svp_buffer_copy", p) ∈ apiProgs ⟨h31, []⟩ ∧ runProg u1 p h31 9 world1 [] = some (false, w') ∧
    ((w'.store .svp).obj 31).referenceCount = 0 ∧ w'.lock .svp 4 = 0 ∧ ((w'.store .svp).obj 31).object = some 4 :=
  ⟨_, _, List.mem_of_getElem? (i := 21) rfl, rfl, by decide +kernel, by decide +kernel, by decide +kernel⟩

/-- A session with a context, a buffer and a key on which nothing is borrowed; two samples, then the release of the context. -/
example : ∃ w', runCalls [(⟨h31, [h31, h31]⟩, 19, u1, h31, 9, []), (⟨h31, []⟩, 1, u1, h31, 9, [])] world1 = some w' ∧
    ((w'.store .cipher).obj 31).object = none := ⟨_, rfl, by decide +kernel⟩

example : ∃ w', runProg u1 cipherProcessProg h31 9 world1 [] = some (false, w') := ⟨_, rfl⟩

end Sa.C33

import Verif.Lemmas.Dispatch
import Verif.Props.C37

/-!
# C58: Memory declared input-only is never written

The untrusted side declares for each parameter of a command whether it is input, output or both.  No command writes the memory of an input parameter, nor
hands it to an API function as an output buffer.
-/

namespace Sa.C58
open Sa.Ta Sa.C37

/-- The event writes the memory of a parameter that was declared as input. -/
def writesInput (p : Params) : Ev → Bool
  | .copyOut i _ _ => isIn (p i)
  | .store i _ => isIn (p i)
  | .pass i _ true => isIn (p i)
  | _ => false

def NoWr (p : Params) (l : List Ev) : Prop := ∀ e ∈ l, writesInput p e = false

theorem nw_nil {p : Params} : NoWr p [] := by simp [NoWr]
theorem nw_cons {p : Params} {e : Ev} {l : List Ev} (h : writesInput p e = false) (h' : NoWr p l) : NoWr p (e :: l) := by
  intro x hx
  rcases List.mem_cons.mp hx with rfl | hx
  · exact h
  · exact h' x hx
theorem nw_bad {p : Params} : NoWr p bad := nw_cons rfl nw_nil
theorem nw_nul {p : Params} : NoWr p nul := nw_cons rfl nw_nil
theorem nw_ite {p : Params} {c : Prop} [Decidable c] {a b : List Ev} (ha : c → NoWr p a) (hb : ¬ c → NoWr p b) : NoWr p (if c then a else b) := by
  split
  · exact ha ‹_›
  · exact hb ‹_›
theorem nw_version {p : Params} {cmd : Bytes} {n : Nat} {k : List Ev} (hk : NoWr p k) : NoWr p (version cmd n k) :=
  nw_cons rfl (nw_ite (fun _ => nw_cons rfl nw_nil) fun _ => hk)

/-- A parameter that must be an output if it is present is not an input. -/
theorem out_not_in {q : TaParam} (h : (notOut q && notNull q) = false) : isIn q = false := by
  unfold notOut notNull at h
  unfold isIn
  rcases q with ⟨ty, m, n⟩
  simp only [Bool.and_eq_false_iff, Bool.or_eq_false_iff, bne_eq_false_iff_eq, beq_eq_false_iff_ne] at h ⊢
  omega
theorem inout_not_in {q : TaParam} (h : (notInOut q && notNull q) = false) : isIn q = false := by
  unfold notInOut notNull at h
  unfold isIn
  rcases q with ⟨ty, m, n⟩
  simp only [Bool.and_eq_false_iff, Bool.or_eq_false_iff, bne_eq_false_iff_eq, beq_eq_false_iff_ne] at h ⊢
  omega
theorem notOut_not_in {q : TaParam} (h : notOut q = false) : isIn q = false := out_not_in (by rw [h]; rfl)

variable {p : Params} {cmd : Bytes} {name : String} {n : Nat}

theorem nw_only : NoWr p (invokeOnly name n cmd p) := nw_ite (fun _ => nw_bad) fun _ => nw_version (nw_cons rfl nw_nil)
theorem nw_onlyIn : NoWr p (invokeOnlyIn name n cmd p) := nw_ite (fun _ => nw_bad) fun _ => nw_version (nw_cons rfl nw_nil)
theorem nw_out : NoWr p (invokeOut name n cmd p) := by
  refine nw_ite (fun _ => nw_bad) fun h => nw_cons rfl (nw_ite (fun _ => nw_bad) fun _ => nw_version (nw_cons ?_ (nw_cons rfl nw_nil)))
  simp only [Bool.or_eq_true, not_or, Bool.not_eq_true] at h
  exact out_not_in h.1.1.2
theorem nw_outIn : NoWr p (invokeOutIn name n cmd p) := by
  refine nw_ite (fun _ => nw_bad) fun h => nw_cons rfl (nw_ite (fun _ => nw_bad) fun _ => nw_version (nw_cons ?_ (nw_cons rfl (nw_cons rfl nw_nil))))
  simp only [Bool.or_eq_true, not_or, Bool.not_eq_true] at h
  exact out_not_in h.1.1.2
theorem nw_keyGenerate : NoWr p (invokeKeyGenerate cmd p) :=
  nw_ite (fun _ => nw_bad) fun _ => nw_version (nw_ite (fun _ => nw_ite (fun _ => nw_nul) fun _ => nw_cons rfl (nw_cons rfl (nw_cons rfl nw_nil))) fun _ => nw_cons rfl nw_nil)
theorem nw_rights {k : List Ev} (hk : NoWr p k) : NoWr p (importRights p k) := nw_ite (fun _ => nw_nul) fun _ => nw_ite (fun _ => nw_bad) fun _ => nw_cons rfl hk
theorem nw_keyImport : NoWr p (invokeKeyImport cmd p) := by
  have hc : NoWr p [.pass 1 (p 1).size false, .call "key_import"] := nw_cons rfl (nw_cons rfl nw_nil)
  refine nw_ite (fun _ => nw_bad) fun _ => nw_ite (fun _ => nw_nul) fun _ => nw_version ?_
  simp only
  split
  · exact nw_rights hc
  · exact nw_rights hc
  · exact nw_rights hc
  · exact nw_ite (fun _ => nw_nul) fun _ => hc
  · exact nw_ite (fun _ => nw_ite (fun _ => nw_nul) fun _ => nw_cons rfl hc) fun _ => hc
  · exact nw_ite (fun _ => nw_nul) fun _ => nw_ite (fun _ => nw_bad) fun _ => nw_cons rfl hc
  · exact hc
theorem nw_keyProvision : NoWr p (invokeKeyProvision cmd p) := by
  refine nw_ite (fun _ => nw_bad) fun _ => nw_ite (fun _ => nw_nul) fun _ => nw_version ?_
  simp only
  have hr : NoWr p (.deref 3 4 :: (match (p 3).mem.map (fun b => fld b 0 4) with
      | some 0 => [.deref 1 32, .foreign, .call "key_import"]
      | some 1 => [.deref 1 32, .foreign, .call "key_import"]
      | some 4 => [.deref 1 48, .foreign, .call "key_import", .call "key_release", .foreign, .call "key_import"]
      | _ => [.ret .OK])) := by
    refine nw_cons rfl ?_
    split <;> simp [NoWr, writesInput]
  exact nw_ite (fun _ => nw_ite (fun _ => nw_nul) fun _ => nw_cons rfl hr) fun _ => hr
theorem nw_struct {k : List Ev} (hk : NoWr p k) : NoWr p (unwrapStruct p n k) := nw_ite (fun _ => nw_nul) fun _ => nw_ite (fun _ => nw_bad) fun _ => nw_cons rfl hk
theorem nw_structAad {k : List Ev} (hk : NoWr p k) : NoWr p (unwrapStructAad p n k) :=
  nw_ite (fun _ => nw_nul) fun _ => nw_ite (fun _ => nw_bad) fun _ => nw_ite (fun _ => nw_nul) fun _ => nw_cons rfl (nw_cons rfl hk)
theorem nw_keyUnwrap : NoWr p (invokeKeyUnwrap cmd p) := by
  have hc : NoWr p [.pass 1 (p 1).size false, .call "key_unwrap"] := nw_cons rfl (nw_cons rfl nw_nil)
  refine nw_ite (fun _ => nw_bad) fun _ => nw_version ?_
  simp only
  split
  · exact nw_struct hc
  · exact nw_struct hc
  · exact nw_struct hc
  · exact nw_structAad hc
  · exact nw_struct (nw_cons rfl hc)
  · exact nw_struct (nw_cons rfl hc)
  · exact nw_struct hc
  · exact nw_structAad hc
  · exact hc
theorem nw_keyDerive : NoWr p (invokeKeyDerive cmd p) := by
  refine nw_ite (fun _ => nw_bad) fun _ => nw_version ?_
  have hc : ∀ dst k, NoWr p k → NoWr p (if (p 1).mem.isNone then nul else .copyIn 1 (p 1).size dst :: k) := fun _ _ hk =>
    nw_ite (fun _ => nw_nul) fun _ => nw_cons rfl hk
  have h0 : NoWr p [.call "key_derive"] := nw_cons rfl nw_nil
  simp only
  split
  · exact hc _ _ h0
  · exact hc _ _ (nw_cons rfl (nw_cons rfl h0))
  · exact hc _ _ (nw_cons rfl h0)
  · exact hc _ _ (nw_cons rfl h0)
  · exact hc _ _ (nw_cons rfl h0)
  · exact hc _ _ h0
  · exact hc _ _ h0
  · exact nw_bad
theorem nw_keyExchange : NoWr p (invokeKeyExchange cmd p) := by
  refine nw_ite (fun _ => nw_bad) fun h => nw_ite (fun _ => nw_nul) fun _ => nw_version
    (nw_ite (fun _ => nw_ite (fun _ => nw_nul) fun _ => nw_ite (fun _ => nw_bad) fun _ => ?_) fun _ => nw_cons rfl (nw_cons rfl nw_nil))
  simp only [Bool.or_eq_true, not_or, Bool.not_eq_true] at h
  exact nw_cons rfl (nw_cons rfl (nw_cons rfl (nw_cons (inout_not_in h.1.2) nw_nil)))
theorem nw_keyHeader : NoWr p (invokeKeyHeader cmd p) := by
  refine nw_ite (fun _ => nw_bad) fun h => nw_version (nw_cons rfl (nw_cons ?_ nw_nil))
  simp only [Bool.or_eq_true, not_or, Bool.not_eq_true] at h
  exact notOut_not_in h.1.1.1.2
theorem nw_random : NoWr p (invokeRandom cmd p) := by
  refine nw_ite (fun _ => nw_bad) fun h => nw_ite (fun _ => nw_nul) fun _ => nw_version (nw_cons ?_ (nw_cons rfl nw_nil))
  simp only [Bool.or_eq_true, not_or, Bool.not_eq_true] at h
  exact notOut_not_in h.1.1.2
theorem nw_cipherInit : NoWr p (invokeCipherInit cmd p) := by
  refine nw_ite (fun _ => nw_bad) fun _ => nw_version ?_
  have hi : ∀ k, NoWr p k → NoWr p (if (p 1).mem.isNone then nul else .pass 1 (p 1).size false :: k) := fun _ hk =>
    nw_ite (fun _ => nw_nul) fun _ => nw_cons rfl hk
  have h0 : NoWr p [.call "cipher_init"] := nw_cons rfl nw_nil
  simp only
  split
  · exact hi _ h0
  · exact hi _ h0
  · exact hi _ h0
  · exact hi _ (nw_cons rfl h0)
  · exact nw_ite (fun _ => nw_nul) fun _ => nw_ite (fun _ => nw_bad) fun _ => nw_cons rfl (nw_cons rfl h0)
  · exact nw_ite (fun _ => nw_nul) fun _ => nw_cons rfl (nw_cons rfl h0)
  · exact hi _ (nw_cons rfl h0)
  · exact h0
theorem nw_inIn : NoWr p (invokeInIn name n cmd p) := nw_ite (fun _ => nw_bad) fun _ => nw_ite (fun _ => nw_nul) fun _ => nw_version (nw_cons rfl (nw_cons rfl nw_nil))
theorem nw_macProcess : NoWr p (invokeMacProcess cmd p) := nw_ite (fun _ => nw_bad) fun _ => nw_version (nw_cons rfl (nw_cons rfl nw_nil))
theorem nw_svpWrite {alloc : Bool} : NoWr p (invokeSvpWrite alloc cmd p) :=
  nw_ite (fun _ => nw_bad) fun _ => nw_ite (fun _ => nw_nul) fun _ => nw_version (nw_ite (fun _ => nw_nul) fun _ => nw_cons rfl (nw_cons rfl (nw_cons rfl nw_nil)))
theorem nw_svpCopy {alloc : Bool} : NoWr p (invokeSvpCopy alloc cmd p) :=
  nw_ite (fun _ => nw_bad) fun _ => nw_ite (fun _ => nw_nul) fun _ => nw_version (nw_ite (fun _ => nw_nul) fun _ => nw_cons rfl (nw_cons rfl nw_nil))
theorem nw_buffer {i : Fin 4} {t : Nat} {w : Bool} (h : w = true → t = 0 → isIn (p i) = false) : writesInput p (buffer p i t w) = false := by
  unfold buffer
  split
  · cases w
    · rfl
    · exact h rfl ‹_›
  · rfl
theorem nw_keyCheck : NoWr p (invokeSvpKeyCheck cmd p) :=
  nw_ite (fun _ => nw_bad) fun _ => nw_ite (fun _ => nw_nul) fun _ => nw_version (nw_cons (nw_buffer fun h => nomatch h) (nw_cons rfl (nw_cons rfl nw_nil)))
theorem nw_cipherProcess {last : Bool} (h1 : fld cmd 24 4 = 0 → isIn (p 1) = false) : NoWr p (invokeCipherProcess last cmd p) := by
  refine nw_ite (fun _ => nw_bad) fun h => nw_ite (fun _ => nw_nul) fun _ => nw_version (nw_cons (nw_buffer fun _ => h1) (nw_cons (nw_buffer fun h => nomatch h)
    (nw_ite (fun _ => nw_cons ?_ (nw_cons rfl nw_nil)) fun _ => nw_cons rfl nw_nil)))
  simp only [Bool.or_eq_true, not_or, Bool.not_eq_true] at h
  exact inout_not_in h.2
theorem nw_cenc {alloc : Bool} (h2 : fld cmd 56 4 = 0 → isIn (p 2) = false) : NoWr p (invokeCenc alloc cmd p) := by
  refine nw_ite (fun _ => nw_bad) fun _ => nw_ite (fun _ => nw_nul) fun _ => nw_ite (fun _ => nw_bad) fun _ => nw_version ?_
  exact nw_ite (fun _ => nw_bad) fun _ => nw_ite (fun _ => nw_cons rfl nw_nil) fun _ => nw_cons rfl (nw_cons (nw_buffer fun _ => h2)
    (nw_cons (nw_buffer fun h => nomatch h) (nw_cons rfl nw_nil)))

/-- The commands and parameters for which an input is used as an output. -/
def Hole (id : Nat) (p : Params) : Prop :=
  match id with
  | 18 | 19 => fld (cmdOf p) 24 4 = 0 ∧ isIn (p 1) = true     -- cipher processing, clear output
  | 36 => fld (cmdOf p) 56 4 = 0 ∧ isIn (p 2) = true          -- common encryption, clear output
  | _ => False

theorem nw_invoke (id : Nat) (alloc : Bool) (p : Params) (hh : ¬ Hole id p) : NoWr p (invoke id alloc (cmdOf p) p) := by
  have hor : ∀ {a : Prop} {b : Bool}, ¬ (a ∧ b = true) → (a → b = false) := fun h ha => Bool.eq_false_iff.mpr fun hb => h ⟨ha, hb⟩
  by_cases hid : id ≤ 37
  · match id, hid, hh with
    | 0, _, _ => exact nw_cons rfl nw_nil
    | 1, _, _ => exact nw_only
    | 2, _, _ => exact nw_out
    | 3, _, _ => exact nw_only
    | 4, _, _ => exact nw_only
    | 5, _, _ => exact nw_keyGenerate
    | 6, _, _ => exact nw_outIn
    | 7, _, _ => exact nw_keyImport
    | 8, _, _ => exact nw_keyUnwrap
    | 9, _, _ => exact nw_out
    | 10, _, _ => exact nw_keyDerive
    | 11, _, _ => exact nw_keyExchange
    | 12, _, _ => exact nw_onlyIn
    | 13, _, _ => exact nw_keyHeader
    | 14, _, _ => exact nw_out
    | 15, _, _ => exact nw_random
    | 16, _, _ => exact nw_cipherInit
    | 17, _, _ => exact nw_inIn
    | 18, _, hh => exact nw_cipherProcess (hor hh)
    | 19, _, hh => exact nw_cipherProcess (hor hh)
    | 20, _, _ => exact nw_onlyIn
    | 21, _, _ => exact nw_only
    | 22, _, _ => exact nw_macProcess
    | 23, _, _ => exact nw_onlyIn
    | 24, _, _ => exact nw_out
    | 25, _, _ => exact nw_onlyIn
    | 26, _, _ => exact nw_outIn
    | 27, _, _ => exact nw_onlyIn
    | 28, _, _ => exact nw_cons rfl nw_nil
    | 29, _, _ => exact nw_only
    | 30, _, _ => exact nw_cons rfl nw_nil
    | 31, _, _ => exact nw_only
    | 32, _, _ => exact nw_svpWrite
    | 33, _, _ => exact nw_svpCopy
    | 34, _, _ => exact nw_keyCheck
    | 35, _, _ => exact nw_inIn
    | 36, _, hh => exact nw_cenc (hor hh)
    | 37, _, _ => exact nw_keyProvision
    | n + 38, h, _ => omega
  · obtain ⟨k, rfl⟩ : ∃ k, id = k + 38 := ⟨id - 38, by omega⟩
    exact nw_cons rfl nw_nil

theorem nw_handler (id : Nat) (alloc0 alloc1 : Bool) (p : Params) (hh : ¬ Hole id p) : NoWr p (handler id alloc0 alloc1 p) := by
  refine nw_ite (fun _ => nw_nul) fun _ => nw_ite (fun _ => nw_cons rfl nw_nil) fun _ => ?_
  intro e he
  rw [List.cons_append, List.mem_cons, List.mem_append] at he
  rcases he with rfl | he | he
  · rfl
  · exact nw_invoke id alloc1 p hh e he
  · split at he
    · rename_i h
      simp only [List.mem_singleton] at he
      subst he
      simp only [isInOut, Bool.or_eq_true, beq_iff_eq] at h
      simp only [writesInput, isIn, Bool.or_eq_false_iff, beq_eq_false_iff_ne]
      omega
    · simp at he

/-- **C58 for all commands except cipher processing (18, 19) and common encryption (36)**: whatever the parameters, the memory of an input parameter is not
written by the dispatcher nor handed to the API function as output. -/
theorem C58_commands (id : Nat) (hid : id ≠ 18 ∧ id ≠ 19 ∧ id ≠ 36) (alloc0 alloc1 : Bool) (p : Params) :
    ∀ e ∈ handler id alloc0 alloc1 p, writesInput p e = false := by
  refine nw_handler id alloc0 alloc1 p ?_
  unfold Hole
  split <;> first | omega | exact not_false

/-- **C58 (partial).**  The other commands respect it unless the parameter of the clear output is declared as input.

Missing: that case; it is accepted by the code, see `C58_violated_process` and `C58_violated_cenc`. -/
theorem C58_partial (id : Nat) (alloc0 alloc1 : Bool) (p : Params) (hh : ¬ Hole id p) : ∀ e ∈ handler id alloc0 alloc1 p, writesInput p e = false :=
  nw_handler id alloc0 alloc1 p hh

/-- **C58 is violated** by cipher processing: the check of the output parameter (ta.c:1234) refuses only the type INOUT, so an input memory is accepted as a
clear output, while a memory declared as input and output is refused. -/
theorem C58_violated_process :
    (∃ p, (∀ i, (p i).WF) ∧ isIn (p 1) = true ∧ .pass 1 16 true ∈ handler 18 true true p ∧ .call "cipher_process" ∈ handler 18 true true p) ∧
    (∀ id, id = 18 ∨ id = 19 → ∀ p, isInOut (p 1) = true → ∀ name, .call name ∉ handler id true true p) := by
  refine ⟨⟨params (mem 7 (cmdStruct 55 [])) (mem 5 (List.replicate 16 1)) (mem 5 (List.replicate 16 2)) none_, ?_, rfl, ?_, ?_⟩, ?_⟩
  · exact wf_params (wf_mem _ _ (by decide)) (wf_mem _ _ (by decide)) (wf_mem _ _ (by decide)) wf_none
  · exact List.mem_of_getElem? (i := 2) (by rfl)
  · exact List.mem_of_getElem? (i := 4) (by rfl)
  · intro id hid p hp name h
    have hn : notNull (p 1) = true := by
      simp only [isInOut, Bool.or_eq_true, beq_iff_eq] at hp
      unfold notNull
      rcases hp with hp | hp <;> rw [hp] <;> rfl
    have hi : invoke id true (cmdOf p) p = bad := by
      rcases hid with rfl | rfl
      · show invokeCipherProcess false _ _ = _
        unfold invokeCipherProcess
        rw [if_pos (by simp [hp, hn])]
      · show invokeCipherProcess true _ _ = _
        unfold invokeCipherProcess
        rw [if_pos (by simp [hp, hn])]
    unfold handler at h
    split at h
    · simp [nul] at h
    · split at h
      · simp at h
      · change _ ∈ _ :: invoke id true (cmdOf p) p ++ _ at h
        rw [hi] at h
        split at h <;> simp [bad] at h

/-- **C58 is violated** by common encryption: the output parameter may be declared as input. -/
theorem C58_violated_cenc :
    ∃ p, (∀ i, (p i).WF) ∧ isIn (p 2) = true ∧ .pass 2 16 true ∈ handler 36 true true p ∧ .call "process_common_encryption" ∈ handler 36 true true p := by
  refine ⟨params (mem 7 (cmdStruct 39 ([1, 0, 0, 0, 0, 0, 0, 0] ++ List.replicate 40 0))) (mem 5 (List.replicate 16 1)) (mem 5 (List.replicate 16 2))
    (mem 5 (List.replicate 16 2)), ?_, rfl, ?_, ?_⟩
  · exact wf_params (wf_mem _ _ (by decide)) (wf_mem _ _ (by decide)) (wf_mem _ _ (by decide)) (wf_mem _ _ (by decide))
  · exact List.mem_of_getElem? (i := 3) (by rfl)
  · exact List.mem_of_getElem? (i := 5) (by rfl)

/-- A public key command with an output buffer of eight bytes: it is handed to the API function for writing, and it is not an input. -/
example : let p := params (mem 7 (1 :: List.replicate 7 0 ++ 8 :: List.replicate 15 0)) (mem 6 (List.replicate 8 0)) none_ none_
    .pass 1 8 true ∈ handler 9 true true p ∧ .call "key_get_public" ∈ handler 9 true true p ∧ isIn (p 1) = false :=
  ⟨List.mem_of_getElem? (i := 3) (by rfl), List.mem_of_getElem? (i := 4) (by rfl), rfl⟩

end Sa.C58

import Verif.Model.Dispatch

namespace Sa.Ta

/-- The memory of parameter `i` has at least `n` bytes. -/
def Has (p : Params) (i : Fin 4) (n : Nat) : Prop := ∃ b, (p i).mem = some b ∧ n ≤ b.length

/-- A memory access is in bounds.  A NULL pointer may be handed to an API function (they all check for NULL). -/
def Ev.Safe (p : Params) : Ev → Prop
  | .cmd n => n ≤ (p 0).size
  | .copyIn i n dst => n ≤ dst ∧ Has p i n
  | .copyOut i n src => n ≤ src ∧ Has p i n
  | .deref i n => Has p i n
  | .store i n => Has p i n
  | .table i count elt alloc => count * elt ≤ alloc ∧ Has p i (count * elt)
  | .pass i n _ => ∀ b, (p i).mem = some b → n ≤ b.length
  | .foreign => False
  | .call _ => True
  | .ret _ => True

def SafeAll (p : Params) (l : List Ev) : Prop := ∀ e ∈ l, e.Safe p

theorem safe_nil {p : Params} : SafeAll p [] := by simp [SafeAll]
theorem safe_cons {p : Params} {e : Ev} {l : List Ev} (h : e.Safe p) (h' : SafeAll p l) : SafeAll p (e :: l) := by
  intro x hx
  rcases List.mem_cons.mp hx with rfl | hx
  · exact h
  · exact h' x hx
theorem safe_cons_iff {p : Params} {e : Ev} {l : List Ev} : SafeAll p (e :: l) ↔ e.Safe p ∧ SafeAll p l := by
  simp [SafeAll]
theorem safe_bad {p : Params} : SafeAll p bad := safe_cons trivial safe_nil
theorem safe_nul {p : Params} : SafeAll p nul := safe_cons trivial safe_nil
theorem safe_ite {p : Params} {c : Prop} [Decidable c] {a b : List Ev} (ha : c → SafeAll p a) (hb : ¬ c → SafeAll p b) :
    SafeAll p (if c then a else b) := by
  split
  · exact ha ‹_›
  · exact hb ‹_›
theorem safe_append {p : Params} {a b : List Ev} (ha : SafeAll p a) (hb : SafeAll p b) : SafeAll p (a ++ b) := by
  intro x hx
  rcases List.mem_append.mp hx with h | h
  · exact ha x h
  · exact hb x h
theorem safe_version {p : Params} {cmd : Bytes} {n : Nat} {k : List Ev} (h : n = (p 0).size) (hk : SafeAll p k) : SafeAll p (version cmd n k) := by
  unfold version
  refine safe_cons (by simp [Ev.Safe, h]) (safe_ite (fun _ => safe_cons trivial safe_nil) fun _ => hk)
theorem safe_call {p : Params} {s : String} : SafeAll p [.call s] := safe_cons trivial safe_nil
theorem has_size {p : Params} (hw : ∀ i, (p i).WF) {i : Fin 4} {n : Nat} (hm : (p i).mem.isNone = false) (hn : n ≤ (p i).size) : Has p i n := by
  cases h : (p i).mem with
  | none => rw [h] at hm; simp at hm
  | some b => exact ⟨b, h, by rw [(hw i).2 b h]; exact hn⟩
theorem safe_pass {p : Params} (hw : ∀ i, (p i).WF) {i : Fin 4} {w : Bool} : Ev.Safe p (.pass i (p i).size w) := by
  intro b hb; rw [(hw i).2 b hb]; exact Nat.le_refl _
theorem safe_pass_le {p : Params} (hw : ∀ i, (p i).WF) {i : Fin 4} {w : Bool} {n : Nat} (h : n ≤ (p i).size) : Ev.Safe p (.pass i n w) := by
  intro b hb; rw [(hw i).2 b hb]; exact h
/-- An output buffer whose length was compared with the size of the parameter. -/
theorem safe_out {p : Params} (hw : ∀ i, (p i).WF) {i : Fin 4} {n : Nat} {w : Bool} (h : ¬ (notNull (p i) && (p i).size != n) = true) :
    Ev.Safe p (.pass i n w) := by
  intro b hb
  rw [(hw i).2 b hb]
  simp only [notNull, hb, Option.isSome_some, Bool.or_true, Bool.true_or, Bool.true_and, bne_iff_ne, ne_eq, Decidable.not_not] at h
  omega

variable {p : Params} (hw : ∀ i, (p i).WF) {cmd : Bytes}

theorem size_eq {c : Bool} {n : Nat} {q : TaParam} {a : Bool} (h : ¬ (a || q.size != n || c) = true) : n = q.size := by
  simp only [Bool.or_eq_true, bne_iff_ne, ne_eq, not_or, Decidable.not_not] at h
  exact h.1.2.symm

theorem safe_invokeOnly {name : String} {n : Nat} : SafeAll p (invokeOnly name n cmd p) := by
  unfold invokeOnly
  refine safe_ite (fun _ => safe_bad) fun h => safe_version ?_ safe_call
  simp only [Bool.or_eq_true, bne_iff_ne, ne_eq, not_or, Decidable.not_not] at h
  omega

theorem safe_invokeOnlyIn {name : String} {n : Nat} : SafeAll p (invokeOnlyIn name n cmd p) := by
  unfold invokeOnlyIn
  refine safe_ite (fun _ => safe_bad) fun h => safe_version ?_ safe_call
  simp only [Bool.or_eq_true, bne_iff_ne, ne_eq, not_or, Decidable.not_not] at h
  omega

include hw

theorem safe_invokeOut {name : String} {n : Nat} : SafeAll p (invokeOut name n cmd p) := by
  unfold invokeOut
  refine safe_ite (fun _ => safe_bad) fun h => ?_
  simp only [Bool.or_eq_true, bne_iff_ne, ne_eq, not_or, Decidable.not_not] at h
  have hn : n = (p 0).size := by omega
  refine safe_cons (by simp [Ev.Safe, hn]) (safe_ite (fun _ => safe_bad) fun h2 => safe_version hn (safe_cons (safe_out hw h2) safe_call))

theorem safe_invokeOutIn {name : String} {n : Nat} : SafeAll p (invokeOutIn name n cmd p) := by
  unfold invokeOutIn
  refine safe_ite (fun _ => safe_bad) fun h => ?_
  simp only [Bool.or_eq_true, bne_iff_ne, ne_eq, not_or, Decidable.not_not] at h
  have hn : n = (p 0).size := by omega
  refine safe_cons (by simp [Ev.Safe, hn]) (safe_ite (fun _ => safe_bad) fun h2 => safe_version hn (safe_cons (safe_out hw h2)
    (safe_cons (safe_pass hw) safe_call)))

theorem safe_invokeKeyGenerate : SafeAll p (invokeKeyGenerate cmd p) := by
  unfold invokeKeyGenerate
  refine safe_ite (fun _ => safe_bad) fun h => ?_
  simp only [Bool.or_eq_true, bne_iff_ne, ne_eq, not_or, Decidable.not_not] at h
  exact safe_version (by omega) (safe_ite (fun _ => safe_ite (fun _ => safe_nul) fun _ => safe_cons (safe_pass hw) (safe_cons (safe_pass hw) safe_call))
    fun _ => safe_call)

theorem safe_importRights {k : List Ev} (hk : SafeAll p k) : SafeAll p (importRights p k) := by
  unfold importRights
  refine safe_ite (fun _ => safe_nul) fun h1 => safe_ite (fun _ => safe_bad) fun h2 => ?_
  simp only [Bool.or_eq_true, not_or, Bool.not_eq_true] at h1
  simp only [bne_iff_ne, ne_eq, Decidable.not_not] at h2
  exact safe_cons ⟨by omega, has_size hw h1.2 (Nat.le_refl _)⟩ hk

theorem safe_invokeKeyImport (hs : fld cmd 16 4 = 4 → isIn (p 2) = true → (p 2).size ≤ 624) : SafeAll p (invokeKeyImport cmd p) := by
  unfold invokeKeyImport
  refine safe_ite (fun _ => safe_bad) fun h => safe_ite (fun _ => safe_nul) fun _ => ?_
  simp only [Bool.or_eq_true, bne_iff_ne, ne_eq, not_or, Decidable.not_not] at h
  refine safe_version (by omega) ?_
  have hc : SafeAll p [.pass 1 (p 1).size false, .call "key_import"] := safe_cons (safe_pass hw) safe_call
  simp only
  split
  · exact safe_importRights hw hc
  · exact safe_importRights hw hc
  · exact safe_importRights hw hc
  · exact safe_ite (fun _ => safe_nul) fun _ => hc
  · rename_i he
    refine safe_ite (fun hi => safe_ite (fun _ => safe_nul) fun h1 => ?_) fun _ => hc
    simp only [Bool.or_eq_true, not_or, Bool.not_eq_true] at h1
    exact safe_cons ⟨hs he hi, has_size hw h1.1 (Nat.le_refl _)⟩ hc
  · refine safe_ite (fun _ => safe_nul) fun h1 => safe_ite (fun _ => safe_bad) fun h2 => ?_
    simp only [Bool.or_eq_true, not_or, Bool.not_eq_true] at h1
    simp only [bne_iff_ne, ne_eq, Decidable.not_not] at h2
    exact safe_cons ⟨by omega, has_size hw h1.2 (Nat.le_refl _)⟩ hc
  · exact hc

theorem safe_unwrapStruct {n : Nat} {k : List Ev} (hk : (p 2).size = n → SafeAll p k) : SafeAll p (unwrapStruct p n k) := by
  unfold unwrapStruct
  refine safe_ite (fun _ => safe_nul) fun h1 => safe_ite (fun _ => safe_bad) fun h2 => ?_
  simp only [Bool.not_eq_true] at h1
  simp only [bne_iff_ne, ne_eq, Decidable.not_not] at h2
  exact safe_cons ⟨by omega, has_size hw h1 (Nat.le_refl _)⟩ (hk h2)

theorem safe_unwrapStructAad {n : Nat} {k : List Ev} (hk : SafeAll p k) : SafeAll p (unwrapStructAad p n k) := by
  unfold unwrapStructAad
  refine safe_ite (fun _ => safe_nul) fun h1 => safe_ite (fun _ => safe_bad) fun h2 => safe_ite (fun _ => safe_nul) fun _ => ?_
  simp only [Bool.not_eq_true] at h1
  simp only [bne_iff_ne, ne_eq, Decidable.not_not] at h2
  exact safe_cons ⟨by omega, has_size hw h1 (Nat.le_refl _)⟩ (safe_cons (safe_pass hw) hk)

theorem safe_invokeKeyUnwrap : SafeAll p (invokeKeyUnwrap cmd p) := by
  unfold invokeKeyUnwrap
  refine safe_ite (fun _ => safe_bad) fun h => ?_
  simp only [Bool.or_eq_true, bne_iff_ne, ne_eq, not_or, Decidable.not_not] at h
  refine safe_version (by omega) ?_
  have hc : SafeAll p [.pass 1 (p 1).size false, .call "key_unwrap"] := safe_cons (safe_pass hw) safe_call
  simp only
  split
  · exact safe_unwrapStruct hw fun _ => hc
  · exact safe_unwrapStruct hw fun _ => hc
  · exact safe_unwrapStruct hw fun _ => hc
  · exact safe_unwrapStructAad hw hc
  · exact safe_unwrapStruct hw fun _ => safe_cons (safe_pass hw) hc
  · exact safe_unwrapStruct hw fun h2 => safe_cons (safe_pass_le hw (by omega)) hc
  · exact safe_unwrapStruct hw fun _ => hc
  · exact safe_unwrapStructAad hw hc
  · exact hc

/-- Size of the structure behind a key derivation command (sa_ta_types.h:264-299). -/
def deriveSize : Nat → Nat
  | 0 => 64
  | 1 => 24
  | 2 => 24
  | 3 => 24
  | 4 => 24
  | 5 => 16
  | 6 => 64
  | _ => 0

theorem safe_invokeKeyDerive (hs : fld cmd 624 4 ≤ 6 → (p 1).size ≤ deriveSize (fld cmd 624 4)) : SafeAll p (invokeKeyDerive cmd p) := by
  unfold invokeKeyDerive
  refine safe_ite (fun _ => safe_bad) fun h => ?_
  simp only [Bool.or_eq_true, bne_iff_ne, ne_eq, not_or, Decidable.not_not] at h
  refine safe_version (by omega) ?_
  have hc : ∀ dst k, (p 1).size ≤ dst → SafeAll p k → SafeAll p (if (p 1).mem.isNone then nul else .copyIn 1 (p 1).size dst :: k) := by
    intro dst k hd hk
    refine safe_ite (fun _ => safe_nul) fun h1 => safe_cons ⟨hd, has_size hw (Bool.eq_false_iff.mpr h1) (Nat.le_refl _)⟩ hk
  simp only
  split
  · rename_i e; rw [e] at hs; exact hc _ _ (hs (by omega)) safe_call
  · rename_i e; rw [e] at hs; exact hc _ _ (hs (by omega)) (safe_cons (safe_pass hw) (safe_cons (safe_pass hw) safe_call))
  · rename_i e; rw [e] at hs; exact hc _ _ (hs (by omega)) (safe_cons (safe_pass hw) safe_call)
  · rename_i e; rw [e] at hs; exact hc _ _ (hs (by omega)) (safe_cons (safe_pass hw) safe_call)
  · rename_i e; rw [e] at hs; exact hc _ _ (hs (by omega)) (safe_cons (safe_pass hw) safe_call)
  · rename_i e; rw [e] at hs; exact hc _ _ (hs (by omega)) safe_call
  · rename_i e; rw [e] at hs; exact hc _ _ (hs (by omega)) safe_call
  · exact safe_bad

theorem safe_invokeKeyExchange : SafeAll p (invokeKeyExchange cmd p) := by
  unfold invokeKeyExchange
  refine safe_ite (fun _ => safe_bad) fun h => safe_ite (fun _ => safe_nul) fun _ => ?_
  simp only [Bool.or_eq_true, bne_iff_ne, ne_eq, not_or, Decidable.not_not] at h
  refine safe_version (by omega) (safe_ite (fun _ => safe_ite (fun _ => safe_nul) fun h1 => safe_ite (fun _ => safe_bad) fun h2 => ?_)
    fun _ => safe_cons (safe_pass hw) safe_call)
  simp only [Bool.not_eq_true] at h1
  simp only [bne_iff_ne, ne_eq, Decidable.not_not] at h2
  exact safe_cons ⟨by omega, has_size hw h1 (Nat.le_refl _)⟩ (safe_cons (safe_pass hw) (safe_cons trivial
    (safe_cons ⟨by omega, has_size hw h1 (Nat.le_refl _)⟩ safe_nil)))

theorem safe_invokeKeyHeader (hs : (p 1).mem.isSome = true) : SafeAll p (invokeKeyHeader cmd p) := by
  unfold invokeKeyHeader
  refine safe_ite (fun _ => safe_bad) fun h => ?_
  simp only [Bool.or_eq_true, bne_iff_ne, ne_eq, not_or, Decidable.not_not] at h
  refine safe_version (by omega) (safe_cons trivial (safe_cons (has_size hw (by simpa using hs) (by omega)) safe_nil))

theorem safe_invokeRandom : SafeAll p (invokeRandom cmd p) := by
  unfold invokeRandom
  refine safe_ite (fun _ => safe_bad) fun h => safe_ite (fun _ => safe_nul) fun _ => ?_
  simp only [Bool.or_eq_true, bne_iff_ne, ne_eq, not_or, Decidable.not_not] at h
  exact safe_version (by omega) (safe_cons (safe_pass hw) safe_call)

theorem safe_invokeCipherInit : SafeAll p (invokeCipherInit cmd p) := by
  unfold invokeCipherInit
  refine safe_ite (fun _ => safe_bad) fun h => ?_
  simp only [Bool.or_eq_true, bne_iff_ne, ne_eq, not_or, Decidable.not_not] at h
  refine safe_version (by omega) ?_
  have hi : ∀ k, SafeAll p k → SafeAll p (if (p 1).mem.isNone then nul else .pass 1 (p 1).size false :: k) := fun k hk =>
    safe_ite (fun _ => safe_nul) fun _ => safe_cons (safe_pass hw) hk
  simp only
  split
  · exact hi _ safe_call
  · exact hi _ safe_call
  · exact hi _ safe_call
  · exact hi _ (safe_cons (safe_pass hw) safe_call)
  · refine safe_ite (fun _ => safe_nul) fun h1 => safe_ite (fun _ => safe_bad) fun h2 => ?_
    simp only [Bool.not_eq_true] at h1
    simp only [bne_iff_ne, ne_eq, Decidable.not_not] at h2
    exact safe_cons ⟨by omega, has_size hw h1 (Nat.le_refl _)⟩ (safe_cons (safe_pass hw) safe_call)
  · exact safe_ite (fun _ => safe_nul) fun _ => safe_cons (safe_pass hw) (safe_cons (safe_pass hw) safe_call)
  · exact hi _ (safe_cons (safe_pass hw) safe_call)
  · exact safe_call

theorem safe_invokeInIn {name : String} {n : Nat} : SafeAll p (invokeInIn name n cmd p) := by
  unfold invokeInIn
  refine safe_ite (fun _ => safe_bad) fun h => safe_ite (fun _ => safe_nul) fun _ => ?_
  simp only [Bool.or_eq_true, bne_iff_ne, ne_eq, not_or, Decidable.not_not] at h
  exact safe_version (by omega) (safe_cons (safe_pass hw) safe_call)

theorem safe_invokeMacProcess : SafeAll p (invokeMacProcess cmd p) := by
  unfold invokeMacProcess
  refine safe_ite (fun _ => safe_bad) fun h => ?_
  simp only [Bool.or_eq_true, bne_iff_ne, ne_eq, not_or, Decidable.not_not] at h
  exact safe_version (by omega) (safe_cons (safe_pass hw) safe_call)

theorem safe_buffer {i : Fin 4} {t : Nat} {w : Bool} (h : t ≠ 0 → Has p i 8) : (buffer p i t w).Safe p := by
  unfold buffer
  split
  · exact safe_pass hw
  · exact h ‹_›

theorem safe_invokeCipherProcess {last : Bool} (h1 : fld cmd 24 4 ≠ 0 → Has p 1 8) (h2 : fld cmd 40 4 ≠ 0 → Has p 2 8) :
    SafeAll p (invokeCipherProcess last cmd p) := by
  unfold invokeCipherProcess
  refine safe_ite (fun _ => safe_bad) fun h => safe_ite (fun _ => safe_nul) fun _ => ?_
  simp only [Bool.or_eq_true, bne_iff_ne, ne_eq, not_or, Decidable.not_not] at h
  exact safe_version (by omega) (safe_cons (safe_buffer hw h1) (safe_cons (safe_buffer hw h2)
    (safe_ite (fun _ => safe_cons (safe_pass hw) safe_call) fun _ => safe_call)))

theorem safe_svpOffsets {alloc : Bool} {i : Fin 4} {k : List Ev} (hm : (p i).mem.isNone = false) (hk : SafeAll p k) : SafeAll p (svpOffsets alloc p i k) := by
  unfold svpOffsets
  have hs := (hw i).1
  have hd : (p i).size / 24 * 24 ≤ (p i).size := Nat.div_mul_le_self _ _
  refine safe_ite (fun _ => safe_nul) fun _ => safe_cons ⟨?_, has_size hw hm hd⟩ hk
  rw [Nat.mod_eq_of_lt (by omega)]
  exact Nat.le_refl _

theorem safe_invokeSvpWrite {alloc : Bool} : SafeAll p (invokeSvpWrite alloc cmd p) := by
  unfold invokeSvpWrite
  refine safe_ite (fun _ => safe_bad) fun h => safe_ite (fun _ => safe_nul) fun h1 => ?_
  simp only [Bool.or_eq_true, bne_iff_ne, ne_eq, not_or, Decidable.not_not] at h
  simp only [Bool.or_eq_true, not_or, Bool.not_eq_true] at h1
  exact safe_version (by omega) (safe_svpOffsets hw h1.1.2 (safe_cons (safe_pass hw) safe_call))

theorem safe_invokeSvpCopy {alloc : Bool} : SafeAll p (invokeSvpCopy alloc cmd p) := by
  unfold invokeSvpCopy
  refine safe_ite (fun _ => safe_bad) fun h => safe_ite (fun _ => safe_nul) fun h1 => ?_
  simp only [Bool.or_eq_true, bne_iff_ne, ne_eq, not_or, Decidable.not_not] at h
  simp only [Bool.or_eq_true, not_or, Bool.not_eq_true] at h1
  exact safe_version (by omega) (safe_svpOffsets hw h1.1 safe_call)

theorem safe_invokeSvpKeyCheck (hs : fld cmd 16 4 ≠ 0 → Has p 1 8) : SafeAll p (invokeSvpKeyCheck cmd p) := by
  unfold invokeSvpKeyCheck
  refine safe_ite (fun _ => safe_bad) fun h => safe_ite (fun _ => safe_nul) fun _ => ?_
  simp only [Bool.or_eq_true, bne_iff_ne, ne_eq, not_or, Decidable.not_not] at h
  exact safe_version (by omega) (safe_cons (safe_buffer hw hs) (safe_cons (safe_pass hw) safe_call))

theorem safe_invokeCenc {alloc : Bool} (hc : fld cmd 40 8 < 2 ^ 60) (h2 : fld cmd 56 4 ≠ 0 → Has p 2 8) (h3 : fld cmd 72 4 ≠ 0 → Has p 3 8) :
    SafeAll p (invokeCenc alloc cmd p) := by
  unfold invokeCenc
  refine safe_ite (fun _ => safe_bad) fun h => safe_ite (fun _ => safe_nul) fun h1 => safe_ite (fun _ => safe_bad) fun _ => ?_
  simp only [Bool.or_eq_true, bne_iff_ne, ne_eq, not_or, Decidable.not_not] at h
  simp only [Bool.or_eq_true, not_or, Bool.not_eq_true] at h1
  refine safe_version (by omega) ?_
  simp only
  refine safe_ite (fun _ => safe_bad) fun h4 => safe_ite (fun _ => safe_cons trivial safe_nil) fun _ => ?_
  simp only [bne_iff_ne, ne_eq, Decidable.not_not] at h4
  rw [Nat.mod_eq_of_lt (by omega)] at h4
  rw [Nat.mod_eq_of_lt (by omega)]
  exact safe_cons ⟨Nat.le_refl _, has_size hw h1.1.1 (by omega)⟩ (safe_cons (safe_buffer hw h2) (safe_cons (safe_buffer hw h3) safe_call))

end Sa.Ta

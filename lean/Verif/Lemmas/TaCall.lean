import Verif.Model.TaCall

/-!
The two models of the command handler agree: `Model/Dispatch.lean` lists its memory accesses, `Model/TaCall.lean` gives the arguments of the call.
-/

namespace Sa.Cl
open Sa.Ta

/-- The name under which `Model/Dispatch.lean` records a call. -/
def fname : Call → String
  | .getVersion .. => "get_version"
  | .getName .. => "get_name"
  | .getDeviceId .. => "get_device_id"
  | .getTaUuid .. => "get_ta_uuid"
  | .keyGenerate .. => "key_generate"
  | .keyExport .. => "key_export"
  | .keyImport .. => "key_import"
  | .keyUnwrap .. => "key_unwrap"
  | .keyGetPublic .. => "key_get_public"
  | .keyDerive .. => "key_derive"
  | .keyExchange .. => "key_exchange"
  | .keyRelease .. => "key_release"
  | .keyHeader .. => "key_header"
  | .keyDigest .. => "key_digest"
  | .random .. => "crypto_random"
  | .cipherInit .. => "cipher_init"
  | .cipherUpdateIv .. => "cipher_update_iv"
  | .cipherProcess .. => "cipher_process"
  | .cipherProcessLast .. => "cipher_process_last"
  | .cipherRelease .. => "cipher_release"
  | .macInit .. => "mac_init"
  | .macProcess .. => "mac_process"
  | .macProcessKey .. => "mac_process_key"
  | .macCompute .. => "mac_compute"
  | .macRelease .. => "mac_release"
  | .sign .. => "sign"
  | .svpSupported => "svp_supported"
  | .svpCreate .. => "svp_buffer_create"
  | .svpRelease .. => "svp_buffer_release"
  | .svpWrite .. => "svp_buffer_write"
  | .svpCopy .. => "svp_buffer_copy"
  | .svpKeyCheck .. => "svp_key_check"
  | .svpCheck .. => "svp_buffer_check"
  | .cenc .. => "process_common_encryption"

/-- The call in a list of events, or the status returned instead. -/
def outcome : List Ev → Option (Except Status String)
  | [] => none
  | .call n :: _ => some (.ok n)
  | .ret s :: _ => some (.error s)
  | .cmd _ :: l => outcome l
  | .copyIn _ _ _ :: l => outcome l
  | .copyOut _ _ _ :: l => outcome l
  | .deref _ _ :: l => outcome l
  | .store _ _ :: l => outcome l
  | .table _ _ _ _ :: l => outcome l
  | .pass _ _ _ :: l => outcome l
  | .foreign :: l => outcome l

/-- The outcome of a received call. -/
def outcomeOf : Except Status Call → Option (Except Status String)
  | .ok c => some (.ok (fname c))
  | .error s => some (.error s)

theorem outcome_append (l r : List Ev) (h : outcome l ≠ none) : outcome (l ++ r) = outcome l := by
  induction l with
  | nil => exact absurd rfl h
  | cons a l ih => cases a <;> first | rfl | exact ih h

theorem outcome_ite (c : Prop) [Decidable c] (a b : List Ev) : outcome (if c then a else b) = if c then outcome a else outcome b := by split <;> rfl
theorem outcomeOf_ite (c : Prop) [Decidable c] (a b : Except Status Call) : outcomeOf (if c then a else b) = if c then outcomeOf a else outcomeOf b := by split <;> rfl
theorem outcome_buffer (p : Params) (i : Fin 4) (t : Nat) (w : Bool) (l : List Ev) : outcome (buffer p i t w :: l) = outcome l := by
  unfold buffer
  split <;> rfl

theorem outcomeOf_ok (c : Call) : outcomeOf (.ok c) = some (.ok (fname c)) := rfl
theorem outcomeOf_error (s : Status) : outcomeOf (.error s) = some (.error s) := rfl

/-- Both sides branch on the same conditions. -/
macro "same" "[" ls:Lean.Parser.Tactic.simpLemma,* "]" : tactic => `(tactic| (
    simp only [outcome_ite, outcomeOf_ite, outcome_buffer, outcome, outcomeOf_ok, outcomeOf_error, bad, nul, nullP, invalidP, version, versioned, $ls,*]))

variable {id : Nat} {p : Params} {cmd : Bytes} {n : Nat} {name : String} {c : Call}

theorem agree_only (hc : fname c = name) : outcome (invokeOnly name n cmd p) = outcomeOf (only true n cmd p c) := by
  subst hc
  same [invokeOnly, only]
  rfl
theorem agree_onlyIn (hc : fname c = name) : outcome (invokeOnlyIn name n cmd p) = outcomeOf (only false n cmd p c) := by
  subst hc
  same [invokeOnlyIn, only]
  rfl
theorem agree_out {c : Bool → Nat → Call} (hc : ∀ a b, fname (c a b) = name) : outcome (invokeOut name n cmd p) = outcomeOf (withOut n cmd p c) := by
  same [invokeOut, withOut, hc]
theorem agree_in {c : In → Call} (hc : ∀ a, fname (c a) = name) : outcome (invokeInIn name n cmd p) = outcomeOf (withIn n cmd p c) := by
  same [invokeInIn, withIn, hc]
theorem agree_export : outcome (invokeOutIn "key_export" 24 cmd p) = outcomeOf (taKeyExport cmd p) := by same [invokeOutIn, taKeyExport]; rfl
theorem agree_sign : outcome (invokeOutIn "sign" 48 cmd p) = outcomeOf (taSign cmd p) := by
  same [invokeOutIn, taSign]
  repeat' (split <;> try rfl)
theorem agree_macProcess : outcome (invokeMacProcess cmd p) = outcomeOf (taMacProcess cmd p) := by same [invokeMacProcess, taMacProcess]; rfl
theorem agree_svpWrite : outcome (invokeSvpWrite true cmd p) = outcomeOf (taSvpWrite cmd p) := by same [invokeSvpWrite, taSvpWrite, svpOffsets]; rfl
theorem agree_svpCopy : outcome (invokeSvpCopy true cmd p) = outcomeOf (taSvpCopy cmd p) := by same [invokeSvpCopy, taSvpCopy, svpOffsets]; rfl
theorem agree_keyCheck : outcome (invokeSvpKeyCheck cmd p) = outcomeOf (taSvpKeyCheck cmd p) := by same [invokeSvpKeyCheck, taSvpKeyCheck]; rfl
theorem agree_cenc : outcome (invokeCenc true cmd p) = outcomeOf (taCenc cmd p) := by same [invokeCenc, taCenc]; rfl
theorem agree_process (l : Bool) : outcome (invokeCipherProcess l cmd p) = outcomeOf (taCipherProcess l cmd p) := by
  same [invokeCipherProcess, taCipherProcess]
  cases l <;> rfl
theorem agree_generate : outcome (invokeKeyGenerate cmd p) = outcomeOf (taKeyGenerate cmd p) := by
  same [invokeKeyGenerate, taKeyGenerate]
  repeat' (split <;> try rfl)
  all_goals simp_all
theorem agree_exchange : outcome (invokeKeyExchange cmd p) = outcomeOf (taKeyExchange cmd p) := by
  same [invokeKeyExchange, taKeyExchange]
  cases h2 : (p 2).mem <;> same [Option.isNone_none, Option.isNone_some, if_true, Bool.false_eq_true, if_false] <;> rfl
theorem agree_import : outcome (invokeKeyImport cmd p) = outcomeOf (taKeyImport cmd p) := by
  same [invokeKeyImport, taKeyImport, importRights, taRights]
  cases h2 : (p 2).mem
  all_goals
    same [Option.isNone_none, Option.isNone_some, Bool.or_true, Bool.or_false, Bool.true_or, Bool.false_or, if_true]
    repeat' (split <;> try (first | rfl | (exfalso; simp_all; done)))
theorem agree_unwrap : outcome (invokeKeyUnwrap cmd p) = outcomeOf (taKeyUnwrap cmd p) := by
  same [invokeKeyUnwrap, taKeyUnwrap, taUnwrapPrm, unwrapStruct, unwrapStructAad, taStruct]
  cases h2 : (p 2).mem <;> cases h3 : (p 3).mem
  all_goals
    same [Option.isNone_none, Option.isNone_some, Bool.or_true, Bool.or_false, Bool.true_or, Bool.false_or, if_true, Bool.false_eq_true, if_false]
    repeat' (split <;> try (first | rfl | (exfalso; simp_all; done)))
theorem agree_derive : outcome (invokeKeyDerive cmd p) = outcomeOf (taKeyDerive cmd p) := by
  same [invokeKeyDerive, taKeyDerive, taDerivePrm, taStruct1]
  cases h1 : (p 1).mem
  all_goals
    same [Option.isNone_none, Option.isNone_some, Bool.or_true, Bool.or_false, Bool.true_or, Bool.false_or, if_true, Bool.false_eq_true, if_false]
    repeat' (split <;> try (first | rfl | (exfalso; simp_all; done)))
theorem agree_cipherInit : outcome (invokeCipherInit cmd p) = outcomeOf (taCipherInit cmd p) := by
  same [invokeCipherInit, taCipherInit]
  cases h1 : (p 1).mem <;> cases h2 : (p 2).mem
  all_goals
    same [Option.isNone_none, Option.isNone_some, Bool.or_true, Bool.or_false, Bool.true_or, Bool.false_or, if_true, Bool.false_eq_true, if_false]
    repeat' (split <;> try (first | rfl | (exfalso; simp_all; done)))

theorem agree_invoke (hid : id ≠ 37) (hn : isNull (p 0) = false) : outcome (invoke id true ((p 0).mem.getD []) p) = outcomeOf (received id p) := by
  unfold received
  rw [if_neg (by rw [hn]; decide)]
  by_cases h : id ≤ 36
  · match id, h with
    | 0, _ => rfl
    | 1, _ => exact agree_only rfl
    | 2, _ => exact agree_out fun _ _ => rfl
    | 3, _ => exact agree_only rfl
    | 4, _ => exact agree_only rfl
    | 5, _ => exact agree_generate
    | 6, _ => exact agree_export
    | 7, _ => exact agree_import
    | 8, _ => exact agree_unwrap
    | 9, _ => exact agree_out fun _ _ => rfl
    | 10, _ => exact agree_derive
    | 11, _ => exact agree_exchange
    | 12, _ => exact agree_onlyIn rfl
    | 13, _ => same [invoke, invokeKeyHeader]; rfl
    | 14, _ => exact agree_out fun _ _ => rfl
    | 15, _ => same [invoke, invokeRandom]; rfl
    | 16, _ => exact agree_cipherInit
    | 17, _ => exact agree_in fun _ => rfl
    | 18, _ => exact agree_process false
    | 19, _ => exact agree_process true
    | 20, _ => exact agree_onlyIn rfl
    | 21, _ => exact agree_only rfl
    | 22, _ => exact agree_macProcess
    | 23, _ => exact agree_onlyIn rfl
    | 24, _ => exact agree_out fun _ _ => rfl
    | 25, _ => exact agree_onlyIn rfl
    | 26, _ => exact agree_sign
    | 27, _ => exact agree_onlyIn rfl
    | 28, _ => rfl
    | 29, _ => exact agree_only rfl
    | 30, _ => rfl
    | 31, _ => exact agree_only rfl
    | 32, _ => exact agree_svpWrite
    | 33, _ => exact agree_svpCopy
    | 34, _ => exact agree_keyCheck
    | 35, _ => exact agree_in fun _ => rfl
    | 36, _ => exact agree_cenc
    | n + 37, hx => omega
  · obtain ⟨k, rfl⟩ : ∃ k, id = k + 38 := ⟨id - 38, by omega⟩
    rfl

/-- For every command but provisioning, and for all parameters: the handler calls the function `received` says, or returns the status it says. -/
theorem agree (hid : id ≠ 37) : outcome (handler id true true p) = outcomeOf (received id p) := by
  by_cases hn : isNull (p 0) = true
  · unfold handler received
    rw [if_pos hn, if_pos hn]
    rfl
  · have hn : isNull (p 0) = false := by simpa using hn
    have := agree_invoke (p := p) hid hn
    unfold handler
    rw [if_neg (by rw [hn]; decide), if_neg (by decide)]
    rw [outcome_append]
    · exact this
    show outcome (invoke id true ((p 0).mem.getD []) p) ≠ none
    rw [this]
    cases received id p <;> simp [outcomeOf]

end Sa.Cl

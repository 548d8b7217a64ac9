import Verif.Model.EnginePkey
import Verif.Props.C82

/-!
# C92: signatures made and verified through the OpenSSL engine

An application that signs with a key of the engine gets the signature with the padding, digest, mask generation digest and length of the salt that
it asked for last on that context (or the one it was copied from), in the encoding of OpenSSL, and never one that does not fit its buffer; what cannot
be signed so is refused; and the engine verifies what it has signed.
-/

namespace Sa.Ek.C92

open Sa.Psig (Lib Key Api Ret Verify)
open Sa.Psig.C82 (Std hLen maxSalt readSig value digest_of_std encode_read given)

/-! ## Specification -/

abbrev Trace := List (Op × Ans)

/-- What has been asked of a context; `none`: nothing has. -/
structure Asked where
  key : Key
  pad : Option Int := none
  salt : Option Int := none
  md : Option (Option Nat) := none
  mgf1 : Option Nat := none
  label : Bytes := []
  deriving DecidableEq

/-- The last word counts.  The digest of OAEP and that of signatures are one setting, as in OpenSSL. -/
def ask (a : Asked) : Ctrl → Asked
  | .md m => { a with md := some m }
  | .padding n => { a with pad := some n }
  | .salt n => { a with salt := some n }
  | .oaepMd m => { a with md := some m }
  | .mgf1 m => { a with mgf1 := m }
  | .label l => { a with label := l.getD [] }

/-- Read off the operations that succeeded, the last first. -/
def asked : Trace → Nat → Option Asked
  | [], _ => none
  | (.new k _, .made j) :: tr, i => if j = i then some { key := k } else asked tr i
  | (.ctrl j x, .ok) :: tr, i => if j = i then (asked tr i).map (ask · x) else asked tr i
  | (.copy k _ _, .made j) :: tr, i => if j = i then asked tr k else asked tr i
  | (.free j, .ok) :: tr, i => if j = i then none else asked tr i
  | _ :: tr, i => asked tr i

/-- The length of the salt: RFC 8017 and openssl/rsa.h; nothing asked for is the greatest. -/
def saltBytes (bits d : Nat) (s : Int) : Option Nat :=
  if s = -1 then some (hLen d)
  else if s = -2 ∨ s = -3 then maxSalt bits (hLen d)
  else if 0 ≤ s then some s.toNat
  else none

/-- The RSA signature that is meant, with digest `d` and `g` for MGF1 in the API's numbers: PKCS #1 v1.5 if no padding was asked for. -/
def wanted (a : Asked) (d g : Nat) : Option SignParams :=
  match a.pad.getD 1 with
  | 1 => some (.pkcs1 (some (d, true)))
  | 6 => (saltBytes a.key.bits d (a.salt.getD (-2))).map fun n => .pss (some (d, g, UInt64.ofNat n, true))
  | _ => none

/-- Keys: what OpenSSL and the API say of them agrees. -/
def IsRsa (k : Key) : Prop := k.evp = 6 ∧ k.type = 2 ∧ 0 < k.bits
def IsEc (k : Key) : Prop := k.evp = 408 ∧ k.type = 1 ∧ isPCurve k.curve = true
def IsEd (k : Key) : Prop := k.type = 1 ∧ (k.curve = 3 ∨ k.curve = 5)

/-! ## Lemmas -/

/-- What a context should look like. -/
def appOf (a : Asked) (label : Option Bytes) : App :=
  if a.key.evp = 6 then { pad := a.pad.getD 1, salt := a.salt.getD (-2), md := a.md.getD (some 64), mgf1 := a.mgf1.or (some 64), label }
  else { pad := a.pad.getD 0, salt := a.salt.getD 0, md := a.md.getD none, mgf1 := a.mgf1, label }

def cell (w : World) (i : Nat) : Option Ctx := w.ctxs[i]?.join

def Right : Option Ctx → Option Asked → Prop
  | some c, some a => c.key = a.key ∧ ∃ l, c.app = appOf a l ∧ l.getD [] = a.label
  | none, none => True
  | _, _ => False

theorem lt_of {l : List α} (h : l[i]? = some v) : i < l.length := (List.getElem?_eq_some_iff.mp h).1

theorem cell_of {w : World} (h : w.ctxs[i]? = some x) : cell w i = x := by unfold cell; rw [h]; rfl

theorem cell_set {l : List (Option Ctx)} (hk : k < l.length) (v : Option Ctx) (i : Nat) :
    (l.set k v)[i]?.join = if i = k then v else l[i]?.join := by
  simp only [List.getElem?_set]
  by_cases h : i = k
  · subst h; rw [if_pos rfl, if_pos rfl, if_pos hk]; rfl
  · rw [if_neg (Ne.symm h), if_neg h]

theorem cell_new (l : List (Option Ctx)) (v : Option Ctx) (i : Nat) :
    (l ++ [v])[i]?.join = if i = l.length then v else l[i]?.join := by
  by_cases h : i = l.length
  · subst h; simp
  · rw [if_neg h]
    rcases Nat.lt_or_gt_of_ne h with h | h
    · rw [List.getElem?_append_left h]
    · rw [List.getElem?_eq_none (by simp; omega), List.getElem?_eq_none (by omega)]

theorem cell_end (l : List (Option Ctx)) : l[l.length]?.join = none := by simp

theorem right_ctrl (hr : Right (some c) (some a)) (hx : pkeyCtrl c.app x = some b) : Right (some { c with app := b }) (some (ask a x)) := by
  obtain ⟨hk, l, he, hl⟩ := hr
  cases x with
  | md m =>
    simp only [pkeyCtrl, Option.some.injEq] at hx; subst hx
    refine ⟨hk, l, ?_, hl⟩
    by_cases h : a.key.evp = 6 <;> simp [he, ask, appOf, h]
  | padding n =>
    simp only [pkeyCtrl, Option.some.injEq] at hx; subst hx
    refine ⟨hk, l, ?_, hl⟩
    by_cases h : a.key.evp = 6 <;> simp [he, ask, appOf, h]
  | salt n =>
    simp only [pkeyCtrl] at hx
    split at hx
    · simp only [Option.some.injEq] at hx; subst hx
      refine ⟨hk, l, ?_, hl⟩
      by_cases h : a.key.evp = 6 <;> simp [he, ask, appOf, h]
    · cases hx
  | oaepMd m =>
    cases m with
    | none => cases hx
    | some m =>
      simp only [pkeyCtrl, Option.isNone_some, Bool.false_eq_true, if_false, Option.some.injEq] at hx; subst hx
      refine ⟨hk, l, ?_, hl⟩
      by_cases h : a.key.evp = 6 <;> simp [he, ask, appOf, h]
  | mgf1 m =>
    cases m with
    | none => cases hx
    | some m =>
      simp only [pkeyCtrl, Option.isNone_some, Bool.false_eq_true, if_false, Option.some.injEq] at hx; subst hx
      refine ⟨hk, l, ?_, hl⟩
      by_cases h : a.key.evp = 6 <;> simp [he, ask, appOf, h]
  | label l' =>
    simp only [pkeyCtrl, Option.some.injEq] at hx; subst hx
    refine ⟨hk, l', ?_, rfl⟩
    by_cases h : a.key.evp = 6 <;> simp [he, ask, appOf, h]

theorem right_copy (hr : Right (some c) (some a)) : Right (some { c with app := pkeyCopy c.app }) (some a) := by
  obtain ⟨hk, l, he, hl⟩ := hr
  refine ⟨hk, l.bind fun l => if l.length = 0 then none else some l, ?_, ?_⟩
  · by_cases h : a.key.evp = 6 <;> simp [pkeyCopy, he, appOf, h]
  · rw [← hl]
    cases l with
    | none => rfl
    | some l => cases l <;> rfl

theorem right_run (r : Rsa) : ∀ (ops : List Op) (i : Nat), Right (cell (run r ops).1 i) (asked (run r ops).2 i)
  | [], i => by simp [run, empty, cell, asked, Right]
  | op :: ops, i => by
    have ih := right_run r ops
    simp only [run]
    generalize (run r ops).1 = w at *
    generalize (run r ops).2 = tr at *
    cases op with
    | new k mem =>
      cases mem with
      | false =>
        show Right ((w.ctxs ++ [none])[i]?.join) (asked tr i)
        rw [cell_new]
        by_cases hi : i = w.ctxs.length
        · have := ih i; unfold cell at this; rw [hi, cell_end] at this; rw [if_pos hi, hi]; exact this
        · rw [if_neg hi]; exact ih i
      | true =>
        show Right ((w.ctxs ++ [some ⟨k, pkeyInit k⟩])[i]?.join) (if w.ctxs.length = i then some { key := k } else asked tr i)
        rw [cell_new]
        by_cases hi : i = w.ctxs.length
        · rw [if_pos hi, if_pos hi.symm]
          refine ⟨rfl, none, ?_, rfl⟩
          by_cases h : k.evp = 6
          · simp only [pkeyInit, appOf, Psig.EVP_RSA, h, if_true]; rfl
          · simp only [pkeyInit, appOf, Psig.EVP_RSA, h, if_false]; rfl
        · rw [if_neg hi, if_neg (Ne.symm hi)]; exact ih i
    | ctrl j x =>
      simp only [step]
      split
      · rename_i c hc
        have hj := ih j
        rw [cell_of hc] at hj
        cases hp : pkeyCtrl c.app x with
        | none => exact ih i
        | some b =>
          show Right ((w.ctxs.set j (some { c with app := b }))[i]?.join) (if j = i then (asked tr i).map (ask · x) else asked tr i)
          rw [cell_set (lt_of hc)]
          by_cases hi : i = j
          · subst hi
            rw [if_pos rfl, if_pos rfl]
            cases ha : asked tr i with
            | none => rw [ha] at hj; exact hj.elim
            | some a => rw [ha] at hj; exact right_ctrl hj hp
          · rw [if_neg hi, if_neg (Ne.symm hi)]; exact ih i
      · exact ih i
    | copy j mem ml =>
      simp only [step]
      split
      · rename_i c hc
        have hj := ih j
        rw [cell_of hc] at hj
        have hnone : Right ((w.ctxs ++ [none])[i]?.join) (asked tr i) := by
          rw [cell_new]
          by_cases hi : i = w.ctxs.length
          · have := ih i; unfold cell at this; rw [hi, cell_end] at this; rw [if_pos hi, hi]; exact this
          · rw [if_neg hi]; exact ih i
        unfold copy
        split
        · exact hnone
        · split
          · exact hnone
          · show Right ((w.ctxs ++ [some { c with app := pkeyCopy c.app }])[i]?.join) (if w.ctxs.length = i then asked tr j else asked tr i)
            rw [cell_new]
            by_cases hi : i = w.ctxs.length
            · rw [if_pos hi, if_pos hi.symm]
              cases ha : asked tr j with
              | none => rw [ha] at hj; exact hj.elim
              | some a => rw [ha] at hj; exact right_copy hj
            · rw [if_neg hi, if_neg (Ne.symm hi)]; exact ih i
      · exact ih i
    | decrypt j out msg =>
      simp only [step]
      split <;> exact ih i
    | free j =>
      simp only [step]
      split
      · rename_i c hc
        show Right ((w.ctxs.set j none)[i]?.join) (if j = i then none else asked tr i)
        rw [cell_set (lt_of hc)]
        by_cases hi : i = j
        · rw [if_pos hi, if_pos hi.symm]; trivial
        · rw [if_neg hi, if_neg (Ne.symm hi)]; exact ih i
      · exact ih i

/-- The context that was asked. -/
theorem found (r : Rsa) {ops : List Op} {i : Nat} {a : Asked} (h : asked (run r ops).2 i = some a) :
    ∃ l, (run r ops).1.ctxs[i]?.join = some ⟨a.key, appOf a l⟩ ∧ l.getD [] = a.label := by
  have := right_run r ops i
  rw [h] at this
  unfold cell at this
  cases hc : (run r ops).1.ctxs[i]?.join with
  | none => rw [hc] at this; exact this.elim
  | some c =>
    rw [hc] at this
    obtain ⟨hk, l, he, hl⟩ := this
    refine ⟨l, ?_, hl⟩
    cases c
    simp only at hk he
    subst hk; subst he; rfl

theorem salt_some {s : Int} {bits d : Nat} (hb : 0 < bits) (hs : -3 ≤ s) :
    Psig.saltLength s d bits = (saltBytes bits d s).map fun n : Nat => (n : Int) := by
  by_cases h1 : s = -1
  · subst h1; exact Psig.C82.salt_eq bits d hb .digest
  · by_cases h2 : s = -2 ∨ s = -3
    · have : Psig.saltLength s d bits = Psig.saltLength (-3) d bits := by
        rcases h2 with rfl | rfl
        · simp [Psig.saltLength, Psig.SALTLEN_DIGEST, Psig.SALTLEN_AUTO, Psig.SALTLEN_MAX]
        · rfl
      rw [this]
      have h3 : saltBytes bits d s = maxSalt bits (hLen d) := by simp only [saltBytes, if_neg h1, if_pos h2]
      rw [h3]
      exact Psig.C82.salt_eq bits d hb .max
    · obtain ⟨n, rfl⟩ : ∃ n : Nat, s = n := ⟨s.toNat, by omega⟩
      have h3 : saltBytes bits d n = some n := by simp only [saltBytes, if_neg h1, if_neg h2]; rw [if_pos (by omega)]; simp
      rw [h3]
      exact Psig.C82.salt_eq bits d hb (.bytes n)

theorem params1 {a : App} {k : Key} (ht : k.type = 2) (hp : a.pad = 1) :
    signParams a k = (Psig.digestFromMd a.md).map fun d => .pkcs1 (some (d, true)) := by
  have h : a.pad = Psig.RSA_PKCS1_PADDING := hp
  unfold signParams
  rw [if_pos ht, if_pos h]
  cases Psig.digestFromMd a.md <;> rfl

theorem params6 {a : App} {k : Key} (ht : k.type = 2) (hp : a.pad = 6) :
    signParams a k = (Psig.digestFromMd a.md).bind fun d => (Psig.digestFromMd a.mgf1).bind fun g =>
      (Psig.saltLength a.salt d k.bits).map fun n => .pss (some (d, g, UInt64.ofInt n, true)) := by
  have h : a.pad = Psig.RSA_PKCS1_PSS_PADDING := hp
  have h1 : ¬ a.pad = Psig.RSA_PKCS1_PADDING := by rw [hp]; decide
  unfold signParams
  rw [if_pos ht, if_neg h1, if_pos h]
  cases Psig.digestFromMd a.md with
  | none => rfl
  | some d => cases Psig.digestFromMd a.mgf1 with
    | none => rfl
    | some g => simp only [Option.bind_some]; cases Psig.saltLength a.salt d k.bits <;> rfl

theorem params0 {a : App} {k : Key} (ht : k.type = 2) (h1 : a.pad ≠ 1) (h6 : a.pad ≠ 6) : signParams a k = none := by
  have h : ¬ a.pad = Psig.RSA_PKCS1_PADDING := h1
  have h' : ¬ a.pad = Psig.RSA_PKCS1_PSS_PADDING := h6
  unfold signParams
  rw [if_pos ht, if_neg h, if_neg h']

theorem paramsEc {a : App} {k : Key} (hk : IsEc k) : signParams a k = (Psig.digestFromMd a.md).map fun d => .ecdsa (some (d, true)) := by
  obtain ⟨_, ht, hc⟩ := hk
  unfold signParams
  rw [if_neg (by omega), if_pos ht, hc]
  simp only [Bool.not_true, Bool.false_eq_true, if_false]
  cases Psig.digestFromMd a.md <;> rfl

theorem app_rsa {a : Asked} (hk : IsRsa a.key) (l : Option Bytes) :
    appOf a l = { pad := a.pad.getD 1, salt := a.salt.getD (-2), md := a.md.getD (some 64), mgf1 := a.mgf1.or (some 64), label := l } := by
  unfold appOf; rw [if_pos hk.1]

theorem app_ec {a : Asked} (hk : IsEc a.key) (l : Option Bytes) :
    appOf a l = { pad := a.pad.getD 0, salt := a.salt.getD 0, md := a.md.getD none, mgf1 := a.mgf1, label := l } := by
  unfold appOf; rw [if_neg (by have := hk.1; omega)]

theorem sign_rsa (api : Api) (a : App) {k : Key} (hk : IsRsa k) (size : Nat) (tbs : Bytes) :
    evpSign api a k (some size) tbs =
      if size < (k.bits + 7) / 8 then .fail else given size ((signParams a k).bind fun p => api.sign k.handle p tbs) := by
  unfold evpSign
  rw [if_pos (show k.evp = Psig.EVP_RSA from hk.1)]
  show (if size < (k.bits + 7) / 8 then _ else _) = _
  split
  · rfl
  · unfold pkeySign
    cases signParams a k with
    | none => rfl
    | some p =>
      simp only [Option.bind_some]
      cases api.sign k.handle p tbs with
      | none => rfl
      | some b =>
        have : ¬ k.type = 1 := by have := hk.2.1; omega
        simp only [if_neg this, given]

theorem sign_ec (api : Api) (a : App) {k : Key} (hk : IsEc k) (size : Nat) (tbs : Bytes) :
    evpSign api a k (some size) tbs =
      given size (((signParams a k).bind fun p => api.sign k.handle p tbs).map Psig.encodeSignature) := by
  unfold evpSign
  rw [if_neg (show ¬ k.evp = Psig.EVP_RSA by have := hk.1; unfold Psig.EVP_RSA; omega)]
  unfold pkeySign
  cases signParams a k with
  | none => rfl
  | some p =>
    simp only [Option.bind_some]
    cases api.sign k.handle p tbs with
    | none => rfl
    | some b => simp only [if_pos hk.2.1, given, Option.map_some]

theorem params_rsa {a : Asked} {l : Option Bytes} {m d g : Nat} (hk : IsRsa a.key) (hm : a.md = some (some m)) (hd : Std m d)
    (hp : a.pad.getD 1 = 6 → (∃ n, a.mgf1 = some n ∧ Std n g) ∧ -3 ≤ a.salt.getD (-2)) :
    signParams (appOf a l) a.key = wanted a d g := by
  have hmd := digest_of_std hd
  rw [app_rsa hk]
  unfold wanted
  split
  · rename_i h
    rw [params1 hk.2.1 h, hm]
    simp only [Option.getD_some, hmd, Option.map_some]
  · rename_i h
    obtain ⟨⟨n, hn, hg⟩, hs⟩ := hp h
    rw [params6 hk.2.1 h, hm, hn]
    simp only [Option.getD_some, hmd, Option.or_some, digest_of_std hg, Option.bind_some, salt_some hk.2.2 hs]
    cases saltBytes a.key.bits d (a.salt.getD (-2)) with
    | none => rfl
    | some n => simp [Psig.C82.ofInt_nat]
  · rename_i h1 h6
    exact params0 hk.2.1 h1 h6

theorem std_of {o : Option Nat} {d : Nat} (h : Psig.digestFromMd o = some d) : ∃ m, o = some m ∧ Std m d := by
  cases o with
  | none => cases h
  | some m =>
    refine ⟨m, rfl, ?_⟩
    have e : Psig.digestFromMd (some m) = if m = 64 then some 0 else if m = 672 then some 1 else if m = 673 then some 2 else
        if m = 674 then some 3 else none := rfl
    rw [e] at h
    split at h
    · cases h; subst m; exact .sha1
    · split at h
      · cases h; subst m; exact .sha256
      · split at h
        · cases h; subst m; exact .sha384
        · split at h
          · cases h; subst m; exact .sha512
          · cases h

/-! ## Theorems -/

/-- **C92, RSA.**  The signature given is that meant by what was asked for last, if the buffer has room for signatures of the key; without a buffer
the length of those is given, and with less room the call fails.
Missing: PSS without a digest named for MGF1 (`C92_violated_mgf1`), and no digest named at all (`C92_violated_raw`). -/
theorem C92_rsa_partial (r : Rsa) (api : Api) {ops : List Op} {i : Nat} {a : Asked} {m d g : Nat} (h : asked (run r ops).2 i = some a)
    (hk : IsRsa a.key) (hm : a.md = some (some m)) (hd : Std m d)
    (hp : a.pad.getD 1 = 6 → (∃ n, a.mgf1 = some n ∧ Std n g) ∧ -3 ≤ a.salt.getD (-2)) (tbs : Bytes) :
    signAt api (run r ops).1 i none tbs = some (.len ((a.key.bits + 7) / 8)) ∧
    ∀ size, signAt api (run r ops).1 i (some size) tbs = some (
      if size < (a.key.bits + 7) / 8 then .fail
      else given size ((wanted a d g).bind fun p => api.sign a.key.handle p tbs)) := by
  obtain ⟨l, hc, _⟩ := found r h
  have hpar := params_rsa (l := l) hk hm hd hp
  simp only [signAt, hc, Option.map_some]
  refine ⟨?_, fun size => ?_⟩
  · unfold evpSign
    rw [if_pos (show a.key.evp = Psig.EVP_RSA from hk.1)]
    rfl
  · rw [sign_rsa api _ hk, hpar]

/-- **C92, whole messages.**  `EVP_DigestSign…` gives the signature of the hash of the message, in however many pieces the message was given. -/
theorem C92_message_partial (r : Rsa) (lib : Lib) (api : Api) {ops : List Op} {i : Nat} {a : Asked} {m d g : Nat} (h : asked (run r ops).2 i = some a)
    (hk : IsRsa a.key) (hm : a.md = some (some m)) (hd : Std m d)
    (hp : a.pad.getD 1 = 6 → (∃ n, a.mgf1 = some n ∧ Std n g) ∧ -3 ≤ a.salt.getD (-2)) (message : Bytes) (pieces : List Bytes)
    (hpieces : pieces.flatten = message) (size : Nat) (hs : (a.key.bits + 7) / 8 ≤ size) :
    finalAt lib api (run r ops).1 i m pieces (some size) =
      some (given size ((wanted a d g).bind fun p => api.sign a.key.handle p (lib.hash m message))) := by
  have := (C92_rsa_partial r api h hk hm hd hp (lib.hash m message)).2 size
  rw [if_neg (by omega)] at this
  rw [← this, ← hpieces]
  rfl

/-- **C92, refusals.**  A digest that the API does not have, or another padding, is refused. -/
theorem C92_refused (r : Rsa) (api : Api) {ops : List Op} {i : Nat} {a : Asked} (h : asked (run r ops).2 i = some a) (hk : IsRsa a.key ∨ IsEc a.key)
    (hr : (∃ o, a.md = some o ∧ ∀ m d, o = some m → ¬ Std m d) ∨ IsRsa a.key ∧ a.pad.getD 1 ≠ 1 ∧ a.pad.getD 1 ≠ 6) (tbs : Bytes) (size : Nat) :
    signAt api (run r ops).1 i (some size) tbs = some .fail := by
  obtain ⟨l, hc, _⟩ := found r h
  have hnone : ∀ o, (∀ m d, o = some m → ¬ Std m d) → Psig.digestFromMd o = none := by
    intro o hn
    cases hd : Psig.digestFromMd o with
    | none => rfl
    | some d => obtain ⟨m, hm, hs⟩ := std_of hd; exact absurd hs (hn m d hm)
  have hp : signParams (appOf a l) a.key = none := by
    rcases hr with ⟨o, ho, hn⟩ | ⟨hk', h1, h6⟩
    · have hd := hnone o hn
      rcases hk with hk | hk
      · rw [app_rsa hk]
        by_cases h1 : a.pad.getD 1 = 1
        · rw [params1 hk.2.1 h1, ho]; simp only [Option.getD_some, hd, Option.map_none]
        · by_cases h6 : a.pad.getD 1 = 6
          · rw [params6 hk.2.1 h6, ho]; simp only [Option.getD_some, hd, Option.bind_none]
          · exact params0 hk.2.1 h1 h6
      · rw [app_ec hk, paramsEc hk, ho]; simp only [Option.getD_some, hd, Option.map_none]
    · rw [app_rsa hk']; exact params0 hk'.2.1 h1 h6
  simp only [signAt, hc, Option.map_some]
  rcases hk with hk | hk
  · rw [sign_rsa api _ hk, hp]; split <;> rfl
  · rw [sign_ec api _ hk, hp]; rfl

/-- **C92, ECDSA.**  The signature of the API, in DER.  Missing: buffers that are too small (`C92_violated_size`). -/
theorem C92_ecdsa_partial (r : Rsa) (api : Api) {ops : List Op} {i : Nat} {a : Asked} {m d : Nat} (h : asked (run r ops).2 i = some a)
    (hk : IsEc a.key) (hm : a.md = some (some m)) (hd : Std m d) (tbs : Bytes) (size : Nat) :
    match api.sign a.key.handle (.ecdsa (some (d, true))) tbs with
    | none => signAt api (run r ops).1 i (some size) tbs = some .fail
    | some raw => raw.length ≤ 132 → raw.length + 9 ≤ size →
      ∃ b, signAt api (run r ops).1 i (some size) tbs = some (.wrote b) ∧
        readSig b = some (value (raw.take (raw.length / 2)), value ((raw.drop (raw.length / 2)).take (raw.length / 2))) := by
  obtain ⟨l, hc, _⟩ := found r h
  have hp : signParams (appOf a l) a.key = some (.ecdsa (some (d, true))) := by
    rw [app_ec hk, paramsEc hk, hm]; simp only [Option.getD_some, digest_of_std hd, Option.map_some]
  simp only [signAt, hc, Option.map_some]
  rw [sign_ec api _ hk, hp]
  simp only [Option.bind_some]
  cases api.sign a.key.handle (.ecdsa (some (d, true))) tbs with
  | none => rfl
  | some raw =>
    simp only
    intro hl hs
    obtain ⟨h1, h2⟩ := encode_read raw (by omega)
    refine ⟨_, ?_, h1⟩
    simp only [Option.map_some, given]
    rw [if_neg (by omega)]

/-- **C92, lengths.**  Given a buffer of the length that is announced, nothing is written behind its end, whatever the context was asked for; the API is assumed to give RSA signatures
of the length of the modulus and ECDSA signatures of the length that it announces. -/
theorem C92_room (r : Rsa) (api : Api) (ops : List Op) (i n size : Nat) (tbs tbs' : Bytes) {a : Asked} (h : asked (run r ops).2 i = some a)
    (hk : IsRsa a.key ∨ IsEc a.key)
    (h1 : IsRsa a.key → ∀ p t b, api.sign a.key.handle p t = some b → b.length ≤ (a.key.bits + 7) / 8)
    (h2 : IsEc a.key → ∀ p t b, api.sign a.key.handle p t = some b → api.len a.key.handle p = some b.length ∧ b.length ≤ 132)
    (hn : signAt api (run r ops).1 i none tbs = some (.len n)) (hs : n ≤ size) :
    signAt api (run r ops).1 i (some size) tbs' ≠ some .overflow := by
  obtain ⟨l, hc, _⟩ := found r h
  simp only [signAt, hc, Option.map_some, Option.some.injEq, ne_eq] at hn ⊢
  rcases hk with hk | hk
  · have e : evpSign api (appOf a l) a.key none tbs = .len ((a.key.bits + 7) / 8) := by
      unfold evpSign
      rw [if_pos (show a.key.evp = Psig.EVP_RSA from hk.1)]
      rfl
    rw [e] at hn
    cases hn
    rw [sign_rsa api _ hk]
    split
    · simp
    · cases signParams (appOf a l) a.key with
      | none => simp [given]
      | some p =>
        simp only [Option.bind_some]
        cases hsig : api.sign a.key.handle p tbs' with
        | none => simp [given]
        | some b =>
          have := h1 hk p tbs' b hsig
          simp only [given]
          rw [if_neg (by omega)]
          simp
  · rw [sign_ec api _ hk]
    unfold evpSign pkeySign at hn
    rw [if_neg (show ¬ a.key.evp = Psig.EVP_RSA by have := hk.1; unfold Psig.EVP_RSA; omega)] at hn
    cases hp : signParams (appOf a l) a.key with
    | none => simp [given]
    | some p =>
      rw [hp] at hn
      simp only [Option.bind_some] at hn ⊢
      cases hsig : api.sign a.key.handle p tbs' with
      | none => simp [given]
      | some b =>
        obtain ⟨hlen, hle⟩ := h2 hk p tbs' b hsig
        rw [hlen] at hn
        simp only [if_pos hk.2.1, Ret.len.injEq] at hn
        have := (encode_read b (by omega)).2
        simp only [Option.map_some, given]
        rw [if_neg (by omega)]
        simp

/-- **C92, EdDSA.**  The message itself is signed, and a buffer that is too small is refused. -/
theorem C92_eddsa (api : Api) (k : Key) (hk : IsEd k) (message : Bytes) (size : Nat) :
    pkeyDigestSign api k (some size) (some message) =
      match api.sign k.handle .eddsa message with
      | none => .fail
      | some b => if b.length > size then .fail else .wrote b := by
  unfold pkeyDigestSign
  simp only
  rw [if_neg (by have := hk.1; omega)]
  cases api.sign k.handle .eddsa message <;> rfl

/-- OpenSSL accepts what the API has signed, told the same digests, and a length of the salt that is that of the signature or one of those names for it;
ECDSA signatures as numbers. -/
structure Accepts (api : Api) (k : Key) (accepts : Verify → Bytes → Bytes → Prop) : Prop where
  pkcs1 : ∀ d m t s, Std m d → api.sign k.handle (.pkcs1 (some (d, true))) t = some s → accepts ⟨false, some m, none, 0⟩ s t
  pss : ∀ d m g n v salt t s, Std m d → Std n g → saltBytes k.bits d v = some salt →
    api.sign k.handle (.pss (some (d, g, UInt64.ofNat salt, true))) t = some s → accepts ⟨true, some m, some n, v⟩ s t
  ecdsa : ∀ d m t raw b, Std m d → api.sign k.handle (.ecdsa (some (d, true))) t = some raw →
    readSig b = some (value (raw.take (raw.length / 2)), value ((raw.drop (raw.length / 2)).take (raw.length / 2))) →
    accepts ⟨false, some m, none, 0⟩ b t

/-- **C92, verification.**  What was signed with a context is accepted when verified with it, whatever it was asked for. -/
theorem C92_verifies (r : Rsa) (api : Api) {ops : List Op} {i : Nat} {a : Asked} (h : asked (run r ops).2 i = some a)
    (hk : IsRsa a.key ∨ IsEc a.key) {accepts : Verify → Bytes → Bytes → Prop} (ha : Accepts api a.key accepts)
    (hs : -3 ≤ a.salt.getD (-2)) (hl : ∀ p t raw, api.sign a.key.handle p t = some raw → IsEc a.key → raw.length ≤ 132)
    {size : Nat} {tbs b : Bytes} (hb : signAt api (run r ops).1 i (some size) tbs = some (.wrote b)) :
    ∃ v, verifyAt (run r ops).1 i = some v ∧ accepts v b tbs := by
  obtain ⟨l, hc, _⟩ := found r h
  simp only [signAt, verifyAt, hc, Option.map_some, Option.some.injEq] at hb ⊢
  refine ⟨_, rfl, ?_⟩
  rcases hk with hk | hk
  · have hv1 : a.pad.getD 1 = 1 → verifyWith (appOf a l) a.key = ⟨false, a.md.getD (some 64), none, 0⟩ := by
      intro h1
      unfold verifyWith
      rw [app_rsa hk, if_neg]
      intro hh
      have h6 : a.pad.getD 1 = 6 := hh.2
      omega
    have hv6 : a.pad.getD 1 = 6 →
        verifyWith (appOf a l) a.key = ⟨true, a.md.getD (some 64), a.mgf1.or (some 64), a.salt.getD (-2)⟩ := by
      intro h6
      unfold verifyWith
      rw [app_rsa hk, if_pos ⟨hk.1, h6⟩]
    rw [sign_rsa api _ hk] at hb
    split at hb
    · cases hb
    · cases hp : signParams (appOf a l) a.key with
      | none => rw [hp] at hb; cases hb
      | some p =>
        rw [hp, Option.bind_some] at hb
        cases hsig : api.sign a.key.handle p tbs with
        | none => rw [hsig] at hb; cases hb
        | some s =>
          rw [hsig] at hb
          simp only [given] at hb
          split at hb
          · cases hb
          · cases hb
            rw [app_rsa hk] at hp
            by_cases h1 : a.pad.getD 1 = 1
            · rw [hv1 h1]
              rw [params1 hk.2.1 h1] at hp
              obtain ⟨d, hd, he⟩ := Option.map_eq_some_iff.mp hp
              subst he
              obtain ⟨m, hm, hstd⟩ := std_of hd
              simp only at hm
              rw [hm]
              exact ha.pkcs1 d m tbs _ hstd hsig
            · by_cases h6 : a.pad.getD 1 = 6
              · rw [hv6 h6]
                rw [params6 hk.2.1 h6] at hp
                obtain ⟨d, hd, hp⟩ := Option.bind_eq_some_iff.mp hp
                obtain ⟨g, hg, hp⟩ := Option.bind_eq_some_iff.mp hp
                obtain ⟨m, hm, hstd⟩ := std_of hd
                obtain ⟨n, hn, hstd'⟩ := std_of hg
                simp only at hm hn hp
                rw [salt_some hk.2.2 hs] at hp
                cases hsb : saltBytes a.key.bits d (a.salt.getD (-2)) with
                | none => rw [hsb] at hp; cases hp
                | some x =>
                  rw [hsb] at hp
                  simp only [Option.map_some, Psig.C82.ofInt_nat, Option.some.injEq] at hp
                  subst hp
                  rw [hm, hn]
                  exact ha.pss d m g n _ x tbs _ hstd hstd' hsb hsig
              · rw [params0 hk.2.1 h1 h6] at hp; cases hp
  · have hv : verifyWith (appOf a l) a.key = ⟨false, a.md.getD none, none, 0⟩ := by
      unfold verifyWith
      rw [app_ec hk, if_neg]
      intro hh
      have h6 : a.key.evp = 6 := hh.1
      have := hk.1
      omega
    rw [hv]
    rw [sign_ec api _ hk] at hb
    cases hp : signParams (appOf a l) a.key with
    | none => rw [hp] at hb; cases hb
    | some p =>
      rw [hp, Option.bind_some] at hb
      cases hsig : api.sign a.key.handle p tbs with
      | none => rw [hsig] at hb; cases hb
      | some raw =>
        have hraw := hl p tbs raw hsig hk
        rw [hsig] at hb
        simp only [given, Option.map_some] at hb
        split at hb
        · cases hb
        · cases hb
          rw [app_ec hk, paramsEc hk] at hp
          obtain ⟨d, hd, he⟩ := Option.map_eq_some_iff.mp hp
          subst he
          obtain ⟨m, hm, hstd⟩ := std_of hd
          simp only at hm
          rw [hm]
          exact ha.ecdsa d m tbs raw _ hstd hsig (encode_read raw (by omega)).1

/-! ## Cases and violations -/

open Sa.Psig.C82 (lib0 api0 rsa ec ed)

/-- RSA that does nothing but take and give messages. -/
def rsa0 : Rsa where
  encrypt _ _ m := if m.length ≤ 200 then some (m ++ List.replicate (256 - m.length) 0) else none
  init _ _ := .ok ()
  process _ _ m := .ok (m.take 4)

/-- A context is made for PSS, copied, changed, and freed; the copy is still for PSS. -/
def ops0 : List Op := [.ctrl 2 (.md (some 672)), .new ec true, .free 0, .ctrl 0 (.padding 1), .copy 0 true true, .ctrl 0 (.mgf1 (some 64)), .ctrl 0 (.salt (-1)),
  .ctrl 0 (.padding 6), .ctrl 0 (.md (some 672)), .ctrl 0 (.md (some 64)), .new rsa true]

def asked1 : Asked := { key := rsa, pad := some 6, salt := some (-1), md := some (some 672), mgf1 := some 64 }

example : asked (run rsa0 ops0).2 1 = some asked1 ∧ asked (run rsa0 ops0).2 0 = none ∧
    asked (run rsa0 ops0).2 2 = some { key := ec, md := some (some 672) } := by decide +kernel

example : IsRsa rsa ∧ IsEc ec ∧ IsEd ed := by unfold IsRsa IsEc IsEd; decide

example (tbs : Bytes) : signAt api0 (run rsa0 ops0).1 1 (some 256) tbs =
    some (given 256 (api0.sign 7 (.pss (some (1, 0, 32, true))) tbs)) :=
  (C92_rsa_partial rsa0 api0 (a := asked1) (m := 672) (d := 1) (g := 0) (by decide +kernel) (by unfold IsRsa; decide) rfl .sha256
    (fun _ => ⟨⟨64, rfl, .sha1⟩, by decide⟩) tbs).2 256

example (x y : Bytes) : finalAt lib0 api0 (run rsa0 ops0).1 1 672 [x, y] (some 256) =
    some (given 256 (api0.sign 7 (.pss (some (1, 0, 32, true))) (lib0.hash 672 (x ++ y)))) :=
  C92_message_partial rsa0 lib0 api0 (a := asked1) (m := 672) (d := 1) (g := 0) (by decide +kernel) (by unfold IsRsa; decide) rfl .sha256
    (fun _ => ⟨⟨64, rfl, .sha1⟩, by decide⟩) (x ++ y) [x, y] (by simp) 256 (by decide)

example : signAt api0 (run rsa0 ops0).1 2 none [1] = some (.len 73) ∧ signAt api0 (run rsa0 ops0).1 1 none [1] = some (.len 256) := by decide +kernel

example : (match signAt api0 (run rsa0 ops0).1 2 (some 73) [1, 2] with
    | some (.wrote b) => readSig b == some (200, value (129 :: 1 :: 2 :: List.replicate 29 0))
    | _ => false) = true := by decide +kernel

example : signAt api0 (run rsa0 (.ctrl 1 (.md (some 1097)) :: ops0)).1 1 (some 256) [1] = some .fail :=
  C92_refused rsa0 api0 (a := { asked1 with md := some (some 1097) }) (by decide +kernel) (.inl (by unfold IsRsa; decide))
    (.inl ⟨some 1097, rfl, fun m d h hs => by cases h; cases hs⟩) [1] 256

example : verifyAt (run rsa0 ops0).1 1 = some ⟨true, some 672, some 64, -1⟩ := by decide +kernel

/-- One that accepts just the signatures of the API. -/
def accepts0 (v : Verify) (s t : Bytes) : Prop :=
  if v.pss then ∃ d g n salt, v.digest = some n ∧ Std n d ∧ api0.sign 7 (.pss (some (d, g, salt, true))) t = some s
  else ∃ d n, v.digest = some n ∧ Std n d ∧ (api0.sign 7 (.pkcs1 (some (d, true))) t = some s ∨
    ∃ raw, api0.sign 7 (.ecdsa (some (d, true))) t = some raw ∧
      readSig s = some (value (raw.take (raw.length / 2)), value ((raw.drop (raw.length / 2)).take (raw.length / 2))))

theorem accepts0_right : Accepts api0 rsa accepts0 where
  pkcs1 := fun d m _ _ hs h => ⟨d, m, rfl, hs, .inl h⟩
  pss := fun d m g _ _ salt _ _ hs _ _ h => ⟨d, g, m, UInt64.ofNat salt, rfl, hs, h⟩
  ecdsa := fun d m _ raw _ hs h hb => ⟨d, m, rfl, hs, .inr ⟨raw, h, hb⟩⟩

example : ∃ v, verifyAt (run rsa0 ops0).1 1 = some v ∧ accepts0 v ((7 :: [1, 2] ++ List.replicate 256 (0 : UInt8)).take 256) [1, 2] :=
  C92_verifies rsa0 api0 (a := asked1) (by decide +kernel) (.inl (by unfold IsRsa; decide)) accepts0_right (by decide)
    (fun _ _ _ _ h => absurd h.1 (by decide)) (size := 300) (by decide +kernel)

/-- **C92 is violated: MGF1.**  Without a digest for MGF1, OpenSSL means that of the signature; the engine takes SHA-1. -/
theorem C92_violated_mgf1 : ∃ a, asked (run rsa0 [.ctrl 0 (.padding 6), .ctrl 0 (.md (some 672)), .new rsa true]).2 0 = some a ∧
    a.mgf1 = none ∧ a.md = some (some 672) ∧
    ∀ api tbs, signAt api (run rsa0 [.ctrl 0 (.padding 6), .ctrl 0 (.md (some 672)), .new rsa true]).1 0 (some 256) tbs =
      some (given 256 (api.sign 7 (.pss (some (1, 0, 222, true))) tbs)) := by
  refine ⟨{ key := rsa, pad := some 6, md := some (some 672) }, by decide +kernel, rfl, rfl, fun api tbs => ?_⟩
  have e : (run rsa0 [.ctrl 0 (.padding 6), .ctrl 0 (.md (some 672)), .new rsa true]).1.ctxs =
    [some ⟨rsa, { pad := 6, salt := -2, md := some 672, mgf1 := some 64, label := none }⟩] := by decide +kernel
  unfold signAt
  rw [e]
  show some (evpSign api _ rsa (some 256) tbs) = _
  rw [sign_rsa api _ (by unfold IsRsa; decide)]
  rfl

/-- **C92 is violated: no digest.**  Without a digest, OpenSSL signs the bytes given; the engine signs them as a SHA-1 hash. -/
theorem C92_violated_raw : asked (run rsa0 [.new rsa true]).2 0 = some { key := rsa } ∧
    ∀ api tbs, signAt api (run rsa0 [.new rsa true]).1 0 (some 256) tbs = some (given 256 (api.sign 7 (.pkcs1 (some (0, true))) tbs)) := by
  refine ⟨by decide +kernel, fun api tbs => ?_⟩
  have e : (run rsa0 [.new rsa true]).1.ctxs = [some ⟨rsa, { pad := 1, salt := -2, md := some 64, mgf1 := some 64, label := none }⟩] := by decide +kernel
  unfold signAt
  rw [e]
  show some (evpSign api _ rsa (some 256) tbs) = _
  rw [sign_rsa api _ (by unfold IsRsa; decide)]
  rfl

/-- **C92 is violated: sizes.**  An ECDSA signature is written behind the end of a buffer that is too small, though the size of the buffer is given. -/
theorem C92_violated_size : signAt api0 (run rsa0 [.ctrl 0 (.md (some 672)), .new ec true]).1 0 (some 16) [1] = some .overflow := by decide +kernel

/-- **C92 is violated: empty messages.**  An empty message, given as NULL and 0, cannot be signed with EdDSA. -/
theorem C92_violated_empty : pkeyDigestSign api0 ed (some 256) none = .fail ∧ api0.sign 9 .eddsa [] ≠ none := by decide +kernel

end Sa.Ek.C92

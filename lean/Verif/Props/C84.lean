import Verif.Model.ProviderRsa
import Verif.Props.C82

/-!
# C84: RSA encryption through the OpenSSL provider

What an application encrypts and decrypts with a provider key is encrypted and decrypted with padding, digests and label that it asked for last, what was
encrypted with a context can be decrypted with it or a copy, and the provider's answers about the settings are true.
-/

namespace Sa.Pr.C84

open Sa.Psig (Lib digestFromMd)
open Sa.Psig.C82 (Std lib0)

/-! ## Specification -/

/-- What has been asked for; the last word counts. -/
structure Asked where
  oaep : Bool := false
  digest : Option String := none
  mgf1 : Option String := none
  label : Bytes := []

/-- How padding is named (openssl/core_names.h, rsa.h): 1 or pkcs1, 4 or oaep. -/
def padding : Pad → Option Bool
  | .int n => if n = 1 then some false else if n = 4 then some true else none
  | .name s => if s = "pkcs1" then some false else if s = "oaep" then some true else none

def asked (a : Asked) (p : Prm) : Asked :=
  { oaep := match p.pad with | none => a.oaep | some q => (padding q).getD a.oaep
    digest := match p.digest with | none => a.digest | some d => some d
    mgf1 := match p.mgf1 with | none => a.mgf1 | some d => some d
    label := match p.label with | none => a.label | some l => l }

/-- The scheme that is meant (RFC 8017, 7.1 and 7.2; SHA-1 if no digest is named, and MGF1 with the same digest if it is not named). -/
def meant (lib : Lib) (a : Asked) : Scheme :=
  if a.oaep then
    let d := lib.fetch (a.digest.getD "SHA1")
    .oaep d (match a.mgf1 with | none => d | some n => lib.fetch n) a.label
  else .pkcs1

/-- The same scheme in the API's numbers. -/
inductive Same : Scheme → Scheme → Prop
  | pkcs1 : Same .pkcs1 .pkcs1
  | oaep {m d n g label} : Std m d → Std n g → Same (.oaep (some m) (some n) label) (.oaep (some d) (some g) label)

def run (lib : Lib) (c : ACtx) : List Prm → Option ACtx
  | [] => some c
  | p :: ps => match setParams lib c p with
    | (_, false) => none
    | (c, true) => run lib c ps

/-! ## Lemmas -/

/-- Context and wishes. -/
structure Rel (lib : Lib) (c : ACtx) (a : Asked) : Prop where
  pad : c.pad = if a.oaep then 4 else 1
  md : c.md = a.digest.bind lib.fetch
  known : ∀ n, a.digest = some n → (lib.fetch n).isSome
  mgf1 : c.mgf1 = a.mgf1.bind lib.fetch
  known' : ∀ n, a.mgf1 = some n → (lib.fetch n).isSome
  label : c.label.getD [] = a.label

theorem pad_eq {p : Pad} {b : Bool} (h : padding p = some b) : padOf p = if b then 4 else 1 := by
  cases p with
  | int n =>
    simp only [padding] at h
    split at h
    · cases h; rename_i h; simpa [padOf] using h
    · split at h
      · cases h; rename_i h; simpa [padOf] using h
      · cases h
  | name s =>
    simp only [padding] at h
    split at h
    · cases h; rename_i h; subst h; decide
    · split at h
      · cases h; rename_i h; subst h; decide
      · cases h

/-- The digest that has been named last. -/
def named (lib : Lib) (old : Option Nat) : Option String → Option Nat
  | none => old
  | some n => lib.fetch n

theorem step_rel {lib : Lib} {c c' : ACtx} {a : Asked} {p : Prm} (hr : Rel lib c a) (hp : ∀ q, p.pad = some q → (padding q).isSome)
    (hs : setParams lib c p = (c', true)) : Rel lib c' (asked a p) := by
  obtain ⟨digest, pad, mgf1, label⟩ := p
  have h1 : ∃ c1, setDigest lib c digest = (c1, true) ∧ c1 = { c with md := named lib c.md digest } ∧
      ∀ n, digest = some n → (lib.fetch n).isSome := by
    cases digest with
    | none => exact ⟨_, rfl, rfl, by simp⟩
    | some n =>
      cases hf : lib.fetch n with
      | none => simp [setParams, setDigest, hf] at hs
      | some m => exact ⟨_, by simp only [setDigest, hf, Option.isSome]; rfl, by simp [named, hf], by intro x hx; cases hx; simp [hf]⟩
  obtain ⟨c1, e1, r1, k1⟩ := h1
  simp only [setParams, e1] at hs
  have h2 : ∃ c2, setMgf1 lib (setPad c1 pad) mgf1 = (c2, true) ∧
      c2 = { setPad c1 pad with mgf1 := named lib (setPad c1 pad).mgf1 mgf1 } ∧ ∀ n, mgf1 = some n → (lib.fetch n).isSome := by
    cases mgf1 with
    | none => exact ⟨_, rfl, rfl, by simp⟩
    | some n =>
      cases hf : lib.fetch n with
      | none => simp [setMgf1, hf] at hs
      | some m => exact ⟨_, by simp only [setMgf1, hf, Option.isSome]; rfl, by simp [named, hf], by intro x hx; cases hx; simp [hf]⟩
  obtain ⟨c2, e2, r2, k2⟩ := h2
  simp only [e2, Prod.mk.injEq, and_true] at hs
  subst hs
  subst r2
  subst r1
  constructor
  · cases pad with
    | none => exact hr.pad
    | some q =>
      have := hp q rfl
      obtain ⟨b, hb⟩ := Option.isSome_iff_exists.mp this
      simp only [setPad, asked, hb, Option.getD_some]
      exact pad_eq hb
  · cases pad <;> cases digest <;> simp [setPad, asked, hr.md, named]
  · intro n hn
    cases digest with
    | none => exact hr.known n hn
    | some x => simp only [asked] at hn; cases hn; exact k1 _ rfl
  · cases pad <;> cases mgf1 <;> simp [setPad, asked, hr.mgf1, named]
  · intro n hn
    cases mgf1 with
    | none => exact hr.known' n hn
    | some x => simp only [asked] at hn; cases hn; exact k2 _ rfl
  · cases pad <;> cases label <;> simp [setPad, asked, hr.label]

theorem run_rel {lib : Lib} {c c' : ACtx} {a : Asked} {ps : List Prm} (hr : Rel lib c a) (hp : ∀ p ∈ ps, ∀ q, p.pad = some q → (padding q).isSome)
    (hs : run lib c ps = some c') : Rel lib c' (ps.foldl asked a) := by
  induction ps generalizing c a with
  | nil => cases hs; exact hr
  | cons p ps ih =>
    simp only [run] at hs
    split at hs
    · cases hs
    · rename_i c1 h
      exact ih (step_rel hr (hp p (by simp)) h) (fun p h => hp p (by simp [h])) hs

theorem new_rel (lib : Lib) : Rel lib newctx {} := ⟨rfl, rfl, by simp, rfl, by simp, rfl⟩

/-! ## Theorems -/

/-- **C84, settings.**  However an application sets parameters, in one or many calls, if none is refused and the paddings are PKCS#1 v1.5 or OAEP, then
encryption and decryption are with what it asked for last.  Missing: other paddings (`C84_violated_padding`), OAEP without naming a digest (`C84_violated_default`), and
MGF1 with another digest (`C84_violated_mgf1`). -/
theorem C84_settings_partial (lib : Lib) (ps : List Prm) (hp : ∀ p ∈ ps, ∀ q, p.pad = some q → (padding q).isSome) (c : ACtx)
    (hs : run lib newctx ps = some c)
    (hd : (ps.foldl asked {}).oaep = true → ∃ n, (ps.foldl asked {}).digest = some n ∧ ((ps.foldl asked {}).mgf1 = none ∨
      ∃ g, (ps.foldl asked {}).mgf1 = some g ∧ lib.fetch g = lib.fetch n)) :
    encryptWith lib c = meant lib (ps.foldl asked {}) ∧
      ((ps.foldl asked {}).oaep = true → (∀ n m, (ps.foldl asked {}).digest = some n → lib.fetch n = some m → ∃ d, Std m d) →
        Same (meant lib (ps.foldl asked {})) (decryptWith lib c)) ∧
      ((ps.foldl asked {}).oaep = false → Same (meant lib (ps.foldl asked {})) (decryptWith lib c)) := by
  have hr := run_rel (new_rel lib) hp hs
  generalize ps.foldl asked {} = a at hr hd
  cases ho : a.oaep with
  | false =>
    have h1 : c.pad = 1 := by rw [hr.pad, ho]; rfl
    have e1 : encryptWith lib c = .pkcs1 := by simp [encryptWith, h1, RSA_PKCS1_OAEP_PADDING, Psig.RSA_PKCS1_PADDING]
    have e2 : decryptWith lib c = .pkcs1 := by simp [decryptWith, h1, RSA_PKCS1_OAEP_PADDING]
    have e3 : meant lib a = .pkcs1 := by simp [meant, ho]
    rw [e1, e2, e3]
    exact ⟨rfl, by simp, fun _ => .pkcs1⟩
  | true =>
    have h1 : c.pad = 4 := by rw [hr.pad, ho]; rfl
    obtain ⟨n, hn, hm⟩ := hd ho
    obtain ⟨m, hf⟩ := Option.isSome_iff_exists.mp (hr.known n hn)
    have hmd : c.md = some m := by rw [hr.md, hn]; exact hf
    have e0 : oaepMd lib c = some m := by simp [oaepMd, hmd]
    have e1 : oaepMgf1 lib c = some m := by simp only [oaepMgf1, e0, hmd]; split <;> rfl
    have e2 : meant lib a = .oaep (some m) (some m) a.label := by
      simp only [meant, ho, hn, Option.getD_some, hf, if_true]
      rcases hm with h | ⟨g, h, hg⟩
      · rw [h]
      · rw [h, ← hf]; simp only [hg]
    have e3 : encryptWith lib c = .oaep (some m) (some m) a.label := by simp [encryptWith, h1, RSA_PKCS1_OAEP_PADDING, e0, e1, hr.label]
    have e4 : decryptWith lib c = .oaep (digestFromMd (some m)) (digestFromMd (some m)) a.label := by
      simp [decryptWith, h1, RSA_PKCS1_OAEP_PADDING, e0, e1, hr.label]
    rw [e2, e3, e4]
    refine ⟨rfl, fun _ h => ?_, by simp⟩
    obtain ⟨d, hd⟩ := h n m hn hf
    rw [Psig.C82.digest_of_std hd]
    exact .oaep hd hd

/-- **C84, round trip.**  If the API decrypts what OpenSSL encrypts by the same scheme, what was encrypted with a context can be decrypted with it, in any state
with PKCS#1 v1.5 padding, or OAEP and a digest of the API that has been named (whatever digest has been named for MGF1).  Missing: the other states. -/
theorem C84_roundtrip_partial (lib : Lib) (enc : Scheme → Bytes → Bytes) (dec : Scheme → Bytes → Option Bytes)
    (hinv : ∀ s t m, Same s t → dec t (enc s m) = some m) (c : ACtx)
    (hc : c.pad = 1 ∨ c.pad = 4 ∧ ∃ m d, c.md = some m ∧ Std m d) (m : Bytes) : dec (decryptWith lib c) (enc (encryptWith lib c) m) = some m := by
  apply hinv
  rcases hc with h | ⟨h, n, d, hn, hd⟩
  · simp only [encryptWith, decryptWith, h, RSA_PKCS1_OAEP_PADDING, Psig.RSA_PKCS1_PADDING]
    exact .pkcs1
  · have e0 : oaepMd lib c = some n := by simp [oaepMd, hn]
    have e1 : oaepMgf1 lib c = some n := by simp only [oaepMgf1, e0, hn]; split <;> rfl
    simp only [encryptWith, decryptWith, h, RSA_PKCS1_OAEP_PADDING, e0, e1, Psig.C82.digest_of_std hd, if_true]
    exact .oaep hd hd

/-- **C84, answers.**  The name of the padding that the provider tells is that of the padding used to encrypt. -/
theorem C84_pad_name_partial (lib : Lib) (c : ACtx) : (getPadName c = some "oaep" ↔ ∃ d g l, encryptWith lib c = .oaep d g l) ∧
    (getPadName c = some "pkcs1" ↔ encryptWith lib c = .pkcs1) := by
  simp only [getPadName, encryptWith, Psig.RSA_PKCS1_PADDING, RSA_NO_PADDING, RSA_PKCS1_OAEP_PADDING]
  by_cases h1 : c.pad = 1
  · simp [h1]
  · by_cases h2 : c.pad = 3
    · simp [h2]
    · by_cases h3 : c.pad = 4 <;> simp [h1, h2, h3]

/-! ### Violations -/

/-- **C84 is violated: MGF1.**  A digest named for MGF1 is not used, neither to encrypt nor to decrypt, though the provider says it is. -/
theorem C84_violated_mgf1 (lib : Lib) (m g : Nat) (l : Bytes) :
    let c : ACtx := { pad := 4, md := some m, mgf1 := some g, label := some l }
    encryptWith lib c = .oaep (some m) (some m) l ∧ decryptWith lib c = .oaep (digestFromMd (some m)) (digestFromMd (some m)) l ∧ toldMgf1 c = some g :=
  ⟨rfl, rfl, rfl⟩

/-- … and a context gets there: SHA-256 with SHA-1 for MGF1 was asked for. -/
theorem C84_violated_mgf1_reached : ∃ c, run lib0 newctx [{ digest := some "SHA256", pad := some (.name "oaep"), mgf1 := some "SHA1", label := some [7] }] = some c ∧
    meant lib0 ([{ digest := some "SHA256", pad := some (.name "oaep"), mgf1 := some "SHA1", label := some [7] }].foldl asked {}) =
      .oaep (some 672) (some 64) [7] ∧ encryptWith lib0 c = .oaep (some 672) (some 672) [7] := by
  refine ⟨{ pad := 4, md := some 672, mgf1 := some 64, label := some [7] }, by decide +kernel, by decide +kernel, by decide +kernel⟩

/-- **C84 is violated: defaults.**  With OAEP and no digest named, decryption is asked for without a digest for MGF1 that the API knows, and encryption without
any: whatever the label. -/
theorem C84_violated_default (lib : Lib) (l : Option Bytes) :
    let c : ACtx := { pad := 4, md := none, mgf1 := none, label := l }
    encryptWith lib c = .oaep (lib.fetch "SHA1") none (l.getD []) ∧ decryptWith lib c = .oaep (digestFromMd (lib.fetch "SHA1")) none (l.getD []) := ⟨rfl, rfl⟩

/-- **C84 is violated: padding.**  Any padding can be set, by any name; what is not OAEP is decrypted as PKCS#1 v1.5. -/
theorem C84_violated_padding (lib : Lib) (c : ACtx) (p : Pad) (h : padOf p ≠ 4) :
    ∃ c', setParams lib c { pad := some p } = (c', true) ∧ decryptWith lib c' = .pkcs1 := by
  refine ⟨{ c with pad := padOf p }, rfl, ?_⟩
  simp [decryptWith, RSA_PKCS1_OAEP_PADDING, h]

/-- **C84 is violated: copies.**  A copy of a context has a label that is whatever was in memory; without a label there is no copy; and without both digests
NULL is followed. -/
theorem C84_violated_copy (junk : Nat → Bytes) (pad : Int) (m g : Nat) (x : UInt8) (l : Bytes) (c : ACtx) :
    dup junk { pad, md := some m, mgf1 := some g, label := some (x :: l) } = .ctx { pad, md := some m, mgf1 := some g, label := some (junk (l.length + 1)) } ∧
    dup junk { pad, md := some m, mgf1 := some g, label := none } = .fail ∧ (c.md = none ∨ c.mgf1 = none → dup junk c = .null) := by
  refine ⟨by simp [dup], by simp [dup], fun h => ?_⟩
  simp only [dup]
  rw [if_pos (by simpa using h)]

/-- **C84 is violated: answers.**  Asked for the padding as a number, the provider fails if it can tell it and succeeds if it cannot. -/
theorem C84_violated_pad_int (c : ACtx) : getPadInt c true = (some c.pad, false) ∧ getPadInt c false = (none, true) := ⟨rfl, rfl⟩

/-! ## Examples -/

/-- SHA-256 in a first call, label and padding in a second, another label in a third. -/
example : ∃ c, run lib0 newctx [{ digest := some "SHA256" }, { pad := some (.int 4), label := some [1] }, { mgf1 := some "SHA256", label := some [2, 3] }] = some c ∧
    encryptWith lib0 c = .oaep (some 672) (some 672) [2, 3] ∧ decryptWith lib0 c = .oaep (some 1) (some 1) [2, 3] :=
  ⟨{ pad := 4, md := some 672, mgf1 := some 672, label := some [2, 3] }, by decide +kernel, by decide +kernel, by decide +kernel⟩

example : run lib0 newctx [{ digest := some "SHA257" }] = none := by decide +kernel

/-- A cipher that shifts by the length of the label, and its inverse. -/
example : ∃ (enc : Scheme → Bytes → Bytes) (dec : Scheme → Bytes → Option Bytes), ∀ s t m, Same s t → dec t (enc s m) = some m := by
  refine ⟨fun s m => match s with | .oaep _ _ l => l ++ m | _ => m, fun t b => match t with | .oaep _ _ l => some (b.drop l.length) | _ => some b, ?_⟩
  intro s t m h
  cases h <;> simp

example : padOf (.name "pkcs2") ≠ 4 ∧ padOf (.name "none") ≠ 4 := by decide

end Sa.Pr.C84

import Verif.Model.ProviderGen

/-!
# C83: keys made and compared through the OpenSSL provider

A key that an application has the provider generate is of the size, curve or group that it asked for, by number, by name or by giving another key as an
example; two keys are equal if they are the same key; and a public key is said to be one.
-/

namespace Sa.Pg.C83

/-! ## Specification -/

/-- The value of bytes, most significant first. -/
def value : Bytes → Nat
  | [] => 0
  | b :: bs => b.toNat * 256 ^ bs.length + value bs

/-- What can be wanted of a key pair. -/
inductive Want
  | rsa (bits : Nat)
  | ec (curve : Nat)
  | dh (p g : Nat)

/-- Names of curves: OpenSSL's and NIST's, and the API's numbers for them. -/
def names : List (String × Nat) :=
  [("prime256v1", 0), ("P-256", 0), ("secp384r1", 1), ("P-384", 1), ("secp521r1", 2), ("P-521", 2), ("ED25519", 3), ("X25519", 4), ("ED448", 5),
    ("X448", 6), ("prime192v1", 7), ("P-192", 7), ("secp224r1", 8), ("P-224", 8)]

/-- The 2048-bit group of RFC 3526: 2^2048 - 2^1984 - 1 + 2^64 * ([2^1918 pi] + 124476). -/
def group14 : Nat := 0xFFFFFFFFFFFFFFFFC90FDAA22168C234C4C6628B80DC1CD129024E088A67CC74020BBEA63B139B22514A08798E3404DDEF9519B3CD3A431B302B0A6DF25F14374FE1356D6D51C245E485B576625E7EC6F44C42E9A637ED6B0BFF5CB6F406B7EDEE386BFB5A899FA5AE9F24117C4B1FE649286651ECE45B3DC2007CB8A163BF0598DA48361C55D39A69163FA8FD24CF5F83655D23DCA3AD961C62F356208552BB9ED529077096966D670C354E4ABC9804F1746C08CA18217C32905E462E36CE3BE39E772C180E86039B2783A2EC07A28FB5C55DF06F4C52C9DE2BCBF6955817183995497CEA956AE515D2261898FA051015728E5A8AACAA68FFFFFFFFFFFFFFFF

/-- What is made if nothing is asked for. -/
def default : Kind → Want
  | .rsa => .rsa 2048
  | .ec => .ec 0
  | .dh => .dh group14 2
  | .ed25519 => .ec 3
  | .x25519 => .ec 4
  | .ed448 => .ec 5
  | .x448 => .ec 6

/-- The API makes what is wanted. -/
def Makes : Req → Want → Prop
  | .rsa n, .rsa bits => n * 8 = bits
  | .ec c, .ec c' => c = c'
  | .dh p g, .dh p' g' => value p = p' ∧ value g = g'
  | _, _ => False

/-- A header describes what is wanted. -/
def Describes (h : Header) : Want → Prop
  | .rsa bits => h.size * 8 = bits
  | .ec c => h.tp.curve = c
  | .dh p g => value (h.tp.p.take h.tp.pLen) = p ∧ value (h.tp.g.take h.tp.gLen) = g

/-- Bytes of the keys of the curves of the API: those of the field, or of the encoding of points (RFC 7748, RFC 8032). -/
def curveBytes : List (Nat × Nat) :=
  [(0, 256 / 8), (1, 384 / 8), (2, (521 + 7) / 8), (3, 32), (4, 32), (5, 57), (6, 56), (7, 192 / 8), (8, 224 / 8)]

/-- What an application does before the key is made. -/
inductive Op
  | set (bits : Option Nat) (group : Option String)
  | like (w : Want) (h : Header)

/-- A refused parameter ends the attempt. -/
def step (g : Gen) : Op → Option Gen
  | .set b n => match setParams g b n with
    | (g, true) => some g
    | (_, false) => none
  | .like _ h => some (setTemplate g h)

def run (g : Gen) : List Op → Option Gen
  | [] => some g
  | o :: os => match step g o with
    | none => none
    | some g => run g os

/-- What is wanted after an operation. -/
def want (w : Want) : Op → Want
  | .like w' _ => w'
  | .set b n => match w with
    | .rsa bits => .rsa (b.getD bits)
    | .ec c => match n with
      | none => .ec c
      | some n => .ec ((names.lookup n).getD c)
    | .dh p g => .dh p g

/-- A want for a kind of key. -/
def Want.fits : Kind → Want → Prop
  | .rsa, .rsa _ => True
  | .ec, .ec _ => True
  | .dh, .dh _ _ => True
  | .ed25519, .ec c => c = 3
  | .x25519, .ec c => c = 4
  | .ed448, .ec c => c = 5
  | .x448, .ec c => c = 6
  | _, _ => False

/-- Operations that are understood: whole bytes; names only where there is a choice or the name is the only one; examples that describe a key of the kind. -/
def Fits (k : Kind) : Op → Prop
  | .like w h => w.fits k ∧ Describes h w
  | .set b n => match k with
    | .rsa => ∀ x, b = some x → x % 8 = 0
    | .ec => True
    | .dh => n = none
    | .ed25519 => ∀ x, n = some x → x = "ED25519"
    | .x25519 => ∀ x, n = some x → x = "X25519"
    | .ed448 => ∀ x, n = some x → x = "ED448"
    | .x448 => ∀ x, n = some x → x = "X448"

/-! ## Lemmas -/

theorem curve_set (t : TypeParams) (c : Nat) (h : c < 4294967296) : (t.setCurve c).curve = c := by
  simp only [TypeParams.curve, TypeParams.setCurve, le4, List.cons_append, List.nil_append, List.take_succ_cons, List.take_zero, fromLe, UInt8.toNat_ofNat']
  omega

theorem name_eq (n : String) : curveFromName n = (names.lookup n).getD UINT32_MAX := by
  unfold curveFromName names
  repeat' split
  all_goals first
    | (rename_i h; rcases h with h | h <;> subst h <;> decide)
    | (rename_i h; subst h; decide)
    | (rw [List.lookup_eq_none_iff.mpr (by
        intro p hp
        simp only [not_or] at *
        simp only [List.mem_cons, List.not_mem_nil, or_false] at hp
        rcases hp with h | h | h | h | h | h | h | h | h | h | h | h | h | h <;> subst h <;> simp_all)]; rfl)

theorem name_lt (n : String) : curveFromName n < 4294967296 := by
  unfold curveFromName
  repeat' split
  all_goals decide

/-- The context asks for what is wanted. -/
def Rel (g : Gen) (w : Want) : Prop := w.fits g.kind ∧ match w with
  | .rsa bits => g.keySize * 8 = bits
  | .ec c => g.tp.curve = c
  | .dh p q => value (g.tp.p.take g.tp.pLen) = p ∧ value (g.tp.g.take g.tp.gLen) = q

theorem init_rel (k : Kind) : Rel (genInit k) (default k) := by
  cases k
  case dh =>
    refine ⟨trivial, ?_⟩
    show value ((genInit .dh).tp.p.take (genInit .dh).tp.pLen) = group14 ∧ value ((genInit .dh).tp.g.take (genInit .dh).tp.gLen) = 2
    decide +kernel
  case rsa => exact ⟨trivial, rfl⟩
  all_goals exact ⟨by first | trivial | rfl, curve_set _ _ (by decide)⟩

theorem fits_names {k : Kind} {w : Want} {b : Option Nat} {n : Option String} (h : Fits k (.set b n)) (hw : w.fits k) : (want w (.set b n)).fits k := by
  cases w with
  | rsa bits => cases k <;> simp_all [Want.fits, want]
  | dh p q => cases k <;> simp_all [Want.fits, want]
  | ec c =>
    cases n with
    | none => exact hw
    | some x => cases k <;> simp only [Fits, Want.fits, want] at h hw ⊢ <;> (have := h x rfl; subst this; rfl)

theorem step_rel {g g' : Gen} {w : Want} {o : Op} (hr : Rel g w) (hf : Fits g.kind o) (hs : step g o = some g') : Rel g' (want w o) ∧ g'.kind = g.kind := by
  cases o with
  | like w' h =>
    simp only [step, Option.some.injEq] at hs
    subst hs
    obtain ⟨h1, h2⟩ := hf
    refine ⟨⟨h1, ?_⟩, rfl⟩
    cases w' <;> exact h2
  | set b n =>
    have hfit := fits_names hf hr.1
    simp only [step] at hs
    have hk : (setParams g b n).1.kind = g.kind := by
      simp only [setParams]
      cases b <;> cases n <;> rfl
    cases hn : n with
    | none =>
      subst hn
      simp only [setParams, Option.some.injEq] at hs
      subst hs
      have hk' : (setBits g b).kind = g.kind := by cases b <;> rfl
      refine ⟨⟨by rw [hk']; exact hfit, ?_⟩, hk'⟩
      obtain ⟨h1, h2⟩ := hr
      cases w with
      | rsa bits =>
        cases b with
        | none => exact h2
        | some x =>
          cases hkk : g.kind <;> rw [hkk] at h1 hf <;> simp only [Want.fits] at h1
          have := hf x rfl
          simp only [want, setBits, Option.getD_some]
          omega
      | ec c => cases b <;> exact h2
      | dh p q => cases b <;> exact h2
    | some x =>
      subst hn
      have hne : curveFromName x ≠ UINT32_MAX := by
        intro h
        simp [setParams, h] at hs
      have hb : (curveFromName x != UINT32_MAX) = true := by simpa using hne
      simp only [setParams, hb, Option.some.injEq] at hs
      subst hs
      have hk' : (setBits g b).kind = g.kind := by cases b <;> rfl
      refine ⟨⟨by show Want.fits (setBits g b).kind _; rw [hk']; exact hfit, ?_⟩, hk'⟩
      obtain ⟨h1, h2⟩ := hr
      cases w with
      | rsa bits =>
        cases b with
        | none => exact h2
        | some y =>
          cases hkk : g.kind <;> rw [hkk] at h1 hf <;> simp only [Want.fits] at h1
          have := hf y rfl
          simp only [want, setBits, Option.getD_some]
          omega
      | ec c =>
        simp only [want]
        rw [curve_set _ _ (name_lt x), name_eq x]
        rw [name_eq] at hne
        cases hl : names.lookup x with
        | none => rw [hl] at hne; exact absurd rfl hne
        | some v => rfl
      | dh p q =>
        cases hkk : g.kind <;> rw [hkk] at h1 hf <;> simp only [Want.fits] at h1
        cases hf

theorem run_rel {g g' : Gen} {w : Want} {os : List Op} (hr : Rel g w) (hf : ∀ o ∈ os, Fits g.kind o) (hs : run g os = some g') :
    Rel g' (os.foldl want w) ∧ g'.kind = g.kind := by
  induction os generalizing g w with
  | nil => simp only [run, Option.some.injEq] at hs; subst hs; exact ⟨hr, rfl⟩
  | cons o os ih =>
    simp only [run] at hs
    cases h : step g o with
    | none => rw [h] at hs; cases hs
    | some g1 =>
      rw [h] at hs
      obtain ⟨h1, h2⟩ := step_rel hr (hf o (by simp)) h
      have := ih h1 (by intro o ho; rw [h2]; exact hf o (by simp [ho])) hs
      rw [h2] at this
      exact this

theorem rel_makes {g : Gen} {w : Want} (h : Rel g w) : Makes (request g) w := by
  obtain ⟨h1, h2⟩ := h
  cases w with
  | rsa bits => cases hk : g.kind <;> rw [hk] at h1 <;> simp only [Want.fits] at h1; simpa [request, hk, Makes] using h2
  | ec c => cases hk : g.kind <;> rw [hk] at h1 <;> simp only [Want.fits] at h1 <;> simpa [request, hk, Makes] using h2
  | dh p q => cases hk : g.kind <;> rw [hk] at h1 <;> simp only [Want.fits] at h1; simpa [request, hk, Makes] using h2

/-! ## Theorems -/

/-- **C83, generation.**  Whatever an application does before the key is made, if nothing was refused then the API makes what was asked for last, or the default
of the kind.  Missing: sizes that are not whole bytes (`C83_violated_bits`), names of other curves for keys whose kind has only one (`C83_violated_group`) and
for DH keys (`C83_violated_dh_group`). -/
theorem C83_generate_partial (k : Kind) (os : List Op) (hf : ∀ o ∈ os, Fits k o) (g : Gen) (hs : run (genInit k) os = some g) :
    Makes (request g) (os.foldl want (default k)) := by
  have hk : (genInit k).kind = k := by cases k <;> rfl
  exact rel_makes (run_rel (init_rel k) (by rw [hk]; exact hf) hs).1

/-- **C83, parameters.**  What is generated as parameters describes what was asked for, and so can be the example for keys. -/
theorem C83_params_partial (k : Kind) (os : List Op) (hf : ∀ o ∈ os, Fits k o) (g : Gen) (hs : run (genInit k) os = some g) :
    Fits k (.like (os.foldl want (default k)) (params g)) := by
  have hk : (genInit k).kind = k := by cases k <;> rfl
  obtain ⟨⟨h1, h2⟩, h3⟩ := run_rel (init_rel k) (by rw [hk]; exact hf) hs
  rw [h3, hk] at h1
  refine ⟨h1, ?_⟩
  cases h : os.foldl want (default k) <;> rw [h] at h2 <;> exact h2

/-- **C83, names.**  A name is understood exactly if it is one of the names of a curve of the API, and then means that curve. -/
theorem C83_names (n : String) (c : Nat) : (curveFromName n = c ∧ c ≠ 4294967295) ↔ (n, c) ∈ names := by
  constructor
  · rintro ⟨h, hc⟩
    rw [name_eq] at h
    cases hl : names.lookup n with
    | none => rw [hl] at h; exact absurd h.symm hc
    | some v =>
      rw [hl] at h
      cases h
      obtain ⟨l1, l2, h1, _⟩ := List.lookup_eq_some_iff.mp hl
      rw [h1]; simp
  · intro h
    simp only [names, List.mem_cons, Prod.mk.injEq, List.not_mem_nil, or_false] at h
    rcases h with ⟨h1, h2⟩ | ⟨h1, h2⟩ | ⟨h1, h2⟩ | ⟨h1, h2⟩ | ⟨h1, h2⟩ | ⟨h1, h2⟩ | ⟨h1, h2⟩ | ⟨h1, h2⟩ | ⟨h1, h2⟩ | ⟨h1, h2⟩ | ⟨h1, h2⟩ | ⟨h1, h2⟩ |
      ⟨h1, h2⟩ | ⟨h1, h2⟩ <;> subst h1 <;> subst h2 <;> decide

/-- **C83, import.**  Parameters that an application gives by name or number describe what it said, with the size of the keys.  Missing: parameters of DH (`C83_violated_dh_import`). -/
theorem C83_import_partial :
    (∀ n c, (n, c) ∈ names → ∃ h, importParams .ec (.group n) = some h ∧ Describes h (.ec c) ∧ (c, h.size) ∈ curveBytes) ∧
    (∀ n, n % 8 = 0 → ∃ h, importParams .rsa (.bits n) = some h ∧ Describes h (.rsa n)) ∧
    (∀ k d, k ≠ .rsa → k ≠ .ec → k ≠ .dh → ∃ h c, importParams k d = some h ∧ default k = .ec c ∧ Describes h (.ec c) ∧ (c, h.size) ∈ curveBytes) := by
  refine ⟨?_, ?_, ?_⟩
  · intro n c h
    obtain ⟨h1, h2⟩ := (C83_names n c).mpr h
    refine ⟨_, rfl, by simp only [Describes]; rw [curve_set _ _ (name_lt n), h1], ?_⟩
    simp only
    rw [h1]
    simp only [names, List.mem_cons, Prod.mk.injEq, List.not_mem_nil, or_false] at h
    rcases h with ⟨_, h2⟩ | ⟨_, h2⟩ | ⟨_, h2⟩ | ⟨_, h2⟩ | ⟨_, h2⟩ | ⟨_, h2⟩ | ⟨_, h2⟩ | ⟨_, h2⟩ | ⟨_, h2⟩ | ⟨_, h2⟩ | ⟨_, h2⟩ | ⟨_, h2⟩ | ⟨_, h2⟩ |
      ⟨_, h2⟩ <;> subst h2 <;> decide
  · intro n h
    exact ⟨_, rfl, by simp only [Describes]; omega⟩
  · intro k d h1 h2 h3
    cases k
    case rsa => exact absurd rfl h1
    case ec => exact absurd rfl h2
    case dh => exact absurd rfl h3
    all_goals exact ⟨_, _, rfl, rfl, curve_set _ _ (by decide), by decide⟩

/-- **C83, private keys.**  The provider says that key data has a private key exactly if it has one. -/
theorem C83_has_partial (k : KeyData) : keyHas k 1 = true ↔ ∃ h, k.priv = some h := by
  simp only [keyHas, Option.isSome_iff_exists]

/-! ### Violations -/

/-- **C83 is violated: sizes.**  A size that is not a number of whole bytes is accepted and another, smaller key is made. -/
theorem C83_violated_bits (n : Nat) (h : n % 8 ≠ 0) :
    ∃ g, run (genInit .rsa) [.set (some n) none] = some g ∧ ¬ Makes (request g) (.rsa n) ∧ Makes (request g) (.rsa (n - n % 8)) := by
  refine ⟨setBits (genInit .rsa) (some n), rfl, ?_, ?_⟩
  · show ¬ (n / 8 * 8 = n); omega
  · show n / 8 * 8 = n - n % 8; omega

/-- **C83 is violated: curves.**  A key generator for X25519 accepts the name of any other curve and makes a key of it. -/
theorem C83_violated_group (n : String) (c : Nat) (h : (n, c) ∈ names) :
    ∃ g, run (genInit .x25519) [.set none (some n)] = some g ∧ Makes (request g) (.ec c) := by
  obtain ⟨h1, h2⟩ := (C83_names n c).mpr h
  have hb : (curveFromName n != UINT32_MAX) = true := by rw [h1]; simpa [UINT32_MAX] using h2
  refine ⟨{ genInit .x25519 with tp := (genInit .x25519).tp.setCurve (curveFromName n) }, ?_, ?_⟩
  · simp only [run, step, setParams, setBits, hb]
  · show ((genInit .x25519).tp.setCurve (curveFromName n)).curve = c
    rw [curve_set _ _ (name_lt n), h1]

/-- **C83 is violated: groups.**  A key generator for DH accepts the name of a curve, whose number then lies over the first bytes of the prime: the key is made
modulo another number, 32 bits shorter. -/
theorem C83_violated_dh_group : ∃ g, run (genInit .dh) [.set none (some "P-256")] = some g ∧ ¬ Makes (request g) (.dh group14 2) ∧
    Makes (request g) (.dh (group14 % 2 ^ 2016) 2) := by
  refine ⟨{ genInit .dh with tp := (genInit .dh).tp.setCurve 0 }, by decide +kernel, ?_, ?_⟩
  · show ¬ (value (((genInit .dh).tp.setCurve 0).p.take 256) = group14 ∧ value (((genInit .dh).tp.setCurve 0).g.take 1) = 2)
    decide +kernel
  · show value (((genInit .dh).tp.setCurve 0).p.take 256) = group14 % 2 ^ 2016 ∧ value (((genInit .dh).tp.setCurve 0).g.take 1) = 2
    decide +kernel

/-- **C83 is violated: parameters of DH.**  Prime and generator given by an application are stored the wrong way round, and so keys are made with other
numbers; -/
theorem C83_violated_dh_import (p g : Nat) (h : Header) (hi : importParams .dh (.dh p g) = some h) :
    request (setTemplate (genInit .dh) h) = .dh (Psig.minBytes p).reverse (Psig.minBytes g).reverse := by
  simp only [importParams] at hi
  split at hi
  · cases hi
  · rename_i hl
    simp only [Option.some.injEq] at hi
    subst hi
    simp only [request, setTemplate, genInit, over]
    simp

/-- … for 65537 * 2 = 0x20002 the number is the same, for 0x20001 it is not. -/
theorem C83_violated_dh_import_witness : ∃ h, importParams .dh (.dh 0x20001 2) = some h ∧
    ¬ Makes (request (setTemplate (genInit .dh) h)) (.dh 0x20001 2) ∧ Makes (request (setTemplate (genInit .dh) h)) (.dh 0x10002 2) := by
  have h1 : Psig.minBytes 0x20001 = [2, 0, 1] := by simp [Psig.minBytes]
  have h2 : Psig.minBytes 2 = [2] := by simp [Psig.minBytes]
  cases hi : importParams .dh (.dh 0x20001 2) with
  | none => simp [importParams, h1, h2] at hi
  | some h =>
    refine ⟨h, rfl, ?_⟩
    rw [C83_violated_dh_import _ _ _ hi, h1, h2]
    simp [Makes, value]

/-- **C83 is violated: long primes.**  A prime of more than 512 bytes is written behind the end of the array. -/
theorem C83_violated_dh_long (p g : Nat) (h : 512 < (Psig.minBytes p).length) : importParams .dh (.dh p g) = none := by
  simp [importParams, h]

/-- **C83 is violated: comparison.**  Any two keys of the provider are equal. -/
theorem C83_violated_match (a b : KeyData) : keyMatch a b = true := by simp [keyMatch]

/-- **C83 is violated: public keys.**  Of key data with a public key only the provider says that it has none (selection 2 is the public key). -/
theorem C83_violated_has (k : KeyData) (h : k.priv = none) : keyHas k 2 = false := by simp [keyHas, h]

/-! ## Examples -/

example : ∃ g, run (genInit .rsa) [.set (some 3072) none] = some g ∧ Makes (request g) (.rsa 3072) := ⟨_, rfl, rfl⟩

example : Fits .rsa (.set (some 3072) none) := fun x h => by cases h; rfl

/-- An EC key like one on P-384, but then on P-521. -/
example : ∃ g, run (genInit .ec) [.like (.ec 1) { size := 48, tp := TypeParams.zero.setCurve 1 }, .set none (some "secp521r1")] = some g ∧
    Makes (request g) (.ec 2) := ⟨_, rfl, rfl⟩

example : Fits .ec (.like (.ec 1) { size := 48, tp := TypeParams.zero.setCurve 1 }) := ⟨trivial, curve_set _ _ (by decide)⟩

example : run (genInit .ec) [.set none (some "brainpoolP256r1")] = none := rfl

example : Makes (request (genInit .dh)) (.dh group14 2) := by
  show value ((genInit .dh).tp.p.take (genInit .dh).tp.pLen) = group14 ∧ value ((genInit .dh).tp.g.take (genInit .dh).tp.gLen) = 2
  decide +kernel

end Sa.Pg.C83

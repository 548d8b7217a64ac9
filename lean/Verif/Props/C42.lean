import Verif.Lemmas.SocSample

/-!
# C42: the key type of an SoC container

The names and their meaning are written out below, independently of the table in the model.  The intended property — a container is accepted only if its key type is one of
the names — is false: the code compares only as many bytes as the container gives, so any beginning of a name is accepted (`C42_violated`), and for strings longer
than 8 bytes, four of the documented names among them, it reads behind the string literals (`C42_overread`).  What holds is `C42_names` (every documented name gets its
type, size and curve, in every environment) and `C42_partial`.
-/

namespace Sa.Kc.C42

/-- Kind of key. -/
inductive Kind where
  | symmetric | rsa | ec (curve : Nat)
  deriving DecidableEq

/-- `sa_key_type`, sa_types.h. -/
def Kind.code : Kind → Nat
  | .symmetric => 0
  | .ec _ => 1
  | .rsa => 2

/-- The documented names: kind and size in bits; curves are numbered as in `sa_elliptic_curve` (sa_types.h). -/
def documented : List (String × Kind × Nat) :=
  [ ("AES-128", .symmetric, 128), ("AES-256", .symmetric, 256), ("CHACHA20-256", .symmetric, 256),
    ("HMAC-128", .symmetric, 128), ("HMAC-160", .symmetric, 160), ("HMAC-256", .symmetric, 256),
    ("RSA-1024", .rsa, 1024), ("RSA-2048", .rsa, 2048), ("RSA-3072", .rsa, 3072), ("RSA-4096", .rsa, 4096),
    ("ECC-P256", .ec 0, 256), ("ECC-P384", .ec 1, 384), ("ECC-P521", .ec 2, 521), ("ECC-P192", .ec 7, 192), ("ECC-P224", .ec 8, 224),
    ("ECC-ED25519", .ec 3, 255), ("ECC-X25519", .ec 4, 255), ("ECC-ED448", .ec 5, 456), ("ECC-X448", .ec 6, 448) ]

/-- Bytes for that many bits. -/
def bytesFor (bits : Nat) : Nat := (bits + 7) / 8

/-- The stored key is of the kind and has the size. -/
def Fits (sk : StoredKey) (kind : Kind) (bits : Nat) : Prop :=
  sk.header.type.toNat = kind.code ∧ sk.header.size.toNat = bytesFor bits ∧
    match kind with
    | .ec c => curveOf sk.header.typeParameters = c
    | .symmetric => sk.key.length = bytesFor bits
    | .rsa => True

def InfoFits (i : KeyInfo) (kind : Kind) (bits : Nat) : Prop :=
  i.keyType = kind.code ∧ i.size = bytesFor bits ∧ ∀ c, kind = .ec c → i.curve = some c

instance (i : KeyInfo) (kind : Kind) (bits : Nat) : Decidable (InfoFits i kind bits) :=
  match kind with
  | .symmetric => decidable_of_iff (i.keyType = 0 ∧ i.size = bytesFor bits) (by simp [InfoFits, Kind.code])
  | .rsa => decidable_of_iff (i.keyType = 2 ∧ i.size = bytesFor bits) (by simp [InfoFits, Kind.code])
  | .ec c => decidable_of_iff (i.keyType = 1 ∧ i.size = bytesFor bits ∧ i.curve = some c) (by simp [InfoFits, Kind.code])

/-- The literal of the comparison. -/
def matchesName (env : Env) (s : Bytes) (name : String) : Bool := ((ascii name ++ [0] ++ env.beyond (ascii name)).take s.length) == s

theorem from_cons (env : Env) (s : Bytes) (name : String) (i : KeyInfo) (l : List (String × KeyInfo)) :
    (socKeyTypeFrom env s ((name, i) :: l)).res = if matchesName env s name then .ok i else (socKeyTypeFrom env s l).res := by
  show (cmpLit env s name >>= fun b => if b = true then (pure i : P KeyInfo) else socKeyTypeFrom env s l).res = _
  rw [bind_ok (a := matchesName env s name) rfl]
  cases matchesName env s name <;> rfl

theorem from_evs (env : Env) (s : Bytes) (name : String) (i : KeyInfo) (l : List (String × KeyInfo)) :
    (socKeyTypeFrom env s ((name, i) :: l)).evs =
      .readLit ((ascii name).length + 1) s.length :: if matchesName env s name then [] else (socKeyTypeFrom env s l).evs := by
  show (cmpLit env s name >>= fun b => if b = true then (pure i : P KeyInfo) else socKeyTypeFrom env s l).evs = _
  rw [bind_ok (a := matchesName env s name) rfl]
  cases matchesName env s name <;> rfl

theorem from_ok (env : Env) (s : Bytes) : (l : List (String × KeyInfo)) → (i : KeyInfo) → (socKeyTypeFrom env s l).res = .ok i →
    ∃ name, (name, i) ∈ l ∧ matchesName env s name = true
  | [], _, h => nomatch h
  | (n, j) :: l, i, h => by
    rw [from_cons] at h
    split at h
    · rename_i hm; cases h; exact ⟨n, .head _, hm⟩
    · obtain ⟨m, hm, hb⟩ := from_ok env s l i h; exact ⟨m, .tail _ hm, hb⟩

/-- A string without zero bytes matches a name only if it is a beginning of it. -/
theorem matches_prefix (env : Env) (s : Bytes) (name : String) (h0 : (0 : UInt8) ∉ s) (h : matchesName env s name = true) : s <+: ascii name := by
  have h := eq_of_beq h
  rw [List.append_assoc] at h
  by_cases hl : s.length ≤ (ascii name).length
  · rw [List.take_append_of_le_length hl] at h
    rw [← h]; exact List.take_prefix _ _
  · exfalso
    apply h0
    rw [← h, List.take_append, List.mem_append]
    right
    obtain ⟨k, hk⟩ : ∃ k, s.length - (ascii name).length = k + 1 := ⟨s.length - (ascii name).length - 1, by omega⟩
    rw [hk]
    exact .head _

/-- Every entry of the table means what the name stands for. -/
theorem table_documented : ∀ e ∈ socKeyTypes, ∃ d ∈ documented, d.1 = e.1 ∧ InfoFits e.2 d.2.1 d.2.2 := by decide +kernel

/-- **C42, the documented names.**  Each of them is recognised, with its own meaning, whatever is in memory. -/
theorem C42_names (env : Env) (name : String) (kind : Kind) (bits : Nat) (h : (name, kind, bits) ∈ documented) :
    ∃ i, (socKeyTypeAndSize env (ascii name)).res = .ok i ∧ InfoFits i kind bits := by
  simp only [documented, List.mem_cons, Prod.mk.injEq, List.not_mem_nil, or_false] at h
  unfold socKeyTypeAndSize socKeyTypes
  rcases h with ⟨rfl, rfl, rfl⟩ | ⟨rfl, rfl, rfl⟩ | ⟨rfl, rfl, rfl⟩ | ⟨rfl, rfl, rfl⟩ | ⟨rfl, rfl, rfl⟩ | ⟨rfl, rfl, rfl⟩ | ⟨rfl, rfl, rfl⟩ | ⟨rfl, rfl, rfl⟩ |
    ⟨rfl, rfl, rfl⟩ | ⟨rfl, rfl, rfl⟩ | ⟨rfl, rfl, rfl⟩ | ⟨rfl, rfl, rfl⟩ | ⟨rfl, rfl, rfl⟩ | ⟨rfl, rfl, rfl⟩ | ⟨rfl, rfl, rfl⟩ | ⟨rfl, rfl, rfl⟩ | ⟨rfl, rfl, rfl⟩ |
    ⟨rfl, rfl, rfl⟩ | ⟨rfl, rfl, rfl⟩ <;> exact ⟨_, rfl, by decide⟩

theorem curve_tp (c : Nat) (h : c < 256) : curveOf (tpOfCurve c) = c := by
  have : ∀ c : Fin 256, curveOf (tpOfCurve c.val) = c.val := by decide +kernel
  exact this ⟨c, h⟩

theorem documented_sane : ∀ d ∈ documented, d.2.1.code < 256 ∧ bytesFor d.2.2 < 65536 ∧ ((match d.2.1 with | .ec c => c | _ => 0) < 256) := by decide

/-- **C42 for the import.**  If a container yields a key, its key type string `k` (without zero bytes) is a non-empty beginning of a documented name, and the key has the
type and the size of that name; if `k` is itself a documented name, the key has the type and the size of `k`.  Missing for the full property: `k` can be shorter
than the name (`C42_violated`). -/
theorem C42_partial (e : SocEnv) (s : Bytes) (params : Option SocParams) (sk : StoredKey) (h : (socUnwrap e s params).res = .ok (some sk)) :
    ∃ hd p m pl fields n k, splitDots s = some (hd, p, m) ∧ e.kc.bio (b64Data e.kc p true) = some pl ∧ parseJson e.kc pl = some (.obj fields) ∧
      Js.find (ascii "keyType") fields = some (n, .str k) ∧ k ≠ [] ∧
      ((0 : UInt8) ∉ k → ∃ name kind bits, (name, kind, bits) ∈ documented ∧ k <+: ascii name ∧ Fits sk kind bits) ∧
      (∀ name kind bits, (name, kind, bits) ∈ documented → k = ascii name → Fits sk kind bits) := by
  obtain ⟨r⟩ := socUnwrap_ok h
  obtain ⟨aad, info, ha, hi, hd⟩ := socDecryptVerify_ok r.dec
  obtain ⟨key, rights, h1, h2, h3⟩ := socDecrypt_ok hd
  obtain ⟨b1, b2, b3, b4, b5, b6⟩ := socStore_ok h3
  obtain ⟨n, hk⟩ := (socParsePayload_ok r.payload).keyType
  have hne : r.pay.keyType ≠ [] := by
    intro hnil
    unfold socBuildAad at ha
    obtain ⟨b, _, ha, _⟩ := bind_res ha
    split at ha
    · exact nomatch ha
    · obtain ⟨_, _, ha, _⟩ := bind_res ha
      split at ha
      · exact nomatch ha
      · obtain ⟨_, _, ha, _⟩ := bind_res ha
        obtain ⟨_, _, ha, _⟩ := bind_res ha
        rw [if_pos (by rw [hnil]; rfl)] at ha
        exact nomatch ha
  have hfit : ∀ d ∈ documented, InfoFits info d.2.1 d.2.2 → Fits sk d.2.1 d.2.2 := by
    rintro ⟨name, kind, bits⟩ hm ⟨f1, f2, f3⟩
    obtain ⟨g1, g2, g3⟩ := documented_sane _ hm
    refine ⟨?_, ?_, ?_⟩
    · rw [b1, f1, UInt8.toNat_ofNat']; exact Nat.mod_eq_of_lt g1
    · rw [b2, f2, UInt16.toNat_ofNat']; exact Nat.mod_eq_of_lt g2
    · cases kind with
      | ec c =>
        show curveOf sk.header.typeParameters = c
        rw [b5 f1, f3 c rfl]
        exact curve_tp c g3
      | symmetric =>
        show sk.key.length = bytesFor bits
        rw [b3, b6 (by rw [f1]; exact (by decide : (0 : Nat) ≠ 2)) (by rw [f1]; exact (by decide : (0 : Nat) ≠ 1)), f2]
      | rsa => trivial
  refine ⟨r.h, r.p, r.m, r.pl, r.pf, n, r.pay.keyType, r.split, r.bp, r.jp, hk, hne, fun h0 => ?_, fun name kind bits hm hs => ?_⟩
  · obtain ⟨name, hm, hb⟩ := from_ok _ _ _ _ hi
    obtain ⟨⟨name', kind, bits⟩, hd, hd1, hd2⟩ := table_documented _ hm
    simp only at hd1
    subst hd1
    exact ⟨name', kind, bits, hd, matches_prefix _ _ _ h0 hb, hfit _ hd hd2⟩
  · obtain ⟨i, hi', hf⟩ := C42_names e.kc name kind bits hm
    rw [← hs, hi] at hi'
    cases hi'
    exact hfit _ hm hf

/-- An accepted container whose key type is the documented name. -/
example : Sample.outcome (socUnwrap (Sample.socEnv (Sample.payload "AES-128" (Sample.str Sample.b16) (Sample.str Sample.b12) [.startArr, .endArr]) 0) Sample.text none) =
    some (0, 16) := by decide +kernel

/-- **The full property is violated**: a container with the key type `A` is accepted as an AES key of 16 bytes; one with `AES-2` is refused for the size of its key only
(it stands for 32 bytes). -/
theorem C42_violated :
    (∀ d ∈ documented, d.1 ≠ "A") ∧
    Sample.outcome (socUnwrap (Sample.socEnv (Sample.payload "A" (Sample.str Sample.b16) (Sample.str Sample.b12) [.startArr, .endArr]) 0) Sample.text none) = some (0, 16) ∧
    ∀ env : Env, (socKeyTypeAndSize env (ascii "AES-2")).res = .ok ⟨0, 32, 1, none⟩ := by
  exact ⟨by decide, by decide +kernel, fun env => rfl⟩

/-- **Strings of more than 8 bytes are read past the end of the first literal**, `"AES-128"`, which occupies 8 bytes; `CHACHA20-256` is such a string. -/
theorem C42_overread (env : Env) (s : Bytes) (h : s.length > 8) :
    ∃ size n, Ev.readLit size n ∈ (socKeyTypeAndSize env s).evs ∧ n > size := by
  refine ⟨8, s.length, ?_, h⟩
  unfold socKeyTypeAndSize socKeyTypes
  rw [from_evs]
  exact .head _

theorem from_inbounds (env : Env) (s : Bytes) : (l : List (String × KeyInfo)) → (∀ e ∈ l, s.length ≤ (ascii e.1).length + 1) →
    All (fun e => ∀ size n, e = .readLit size n → n ≤ size) (socKeyTypeFrom env s l).evs
  | [], _ => all_nil _
  | (n, j) :: l, h => by
    rw [from_evs, all_cons]
    refine ⟨fun size k hk => ?_, ?_⟩
    · cases hk; exact h _ (.head _)
    · split
      · exact all_nil _
      · exact from_inbounds env s l fun e he => h e (.tail _ he)

/-- Strings of at most 8 bytes are not. -/
theorem C42_reads (env : Env) (s : Bytes) (h : s.length ≤ 8) : ∀ size n, Ev.readLit size n ∈ (socKeyTypeAndSize env s).evs → n ≤ size := by
  have : ∀ e ∈ socKeyTypes, 8 ≤ (ascii e.1).length + 1 := by decide
  exact fun size n hm => from_inbounds env s _ (fun e he => Nat.le_trans h (this e he)) _ hm size n rfl

example : (ascii "CHACHA20-256").length > 8 ∧ ∃ d ∈ documented, d.1 = "CHACHA20-256" := by decide

end Sa.Kc.C42

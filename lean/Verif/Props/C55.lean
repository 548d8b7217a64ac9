import Verif.Model.Sign
import Verif.Props.C27

/-!
# C55: a signature that is reported exists
-/

namespace Sa.C55

/-- The documented size of a signature (sa.h, `sa_crypto_sign`): the size of the modulus for RSA, twice the size of the key for EC. -/
def docSize (params : SignParams) (size : Nat) : Nat :=
  match params with
  | .ecdsa _ => 2 * size
  | .eddsa => 2 * size
  | _ => size

/-- The number whose bytes, most significant first, are given. -/
def beVal (b : Bytes) : Nat := b.foldl (fun a x => a * 256 + x.toNat) 0

/-- `sig` is the signature of `msg`: for ECDSA the numbers `r` and `s`, each as many bytes as the key has. -/
def SignedBy (p : SignPrims) (params : SignParams) (sk : StoredKey) (msg sig : Bytes) : Prop :=
  match params with
  | .ecdsa (some (d, pre)) => ∃ r s, p.ecdsa sk.key d pre msg = some (r, s) ∧ sig.length = 2 * sk.header.size.toNat ∧
      beVal (sig.take sk.header.size.toNat) = r ∧ beVal (sig.drop sk.header.size.toNat) = s
  | .eddsa => p.eddsa sk.key msg = some sig
  | .pss (some (d, g, salt, pre)) => p.pss sk.key d g salt.toNat pre msg = some sig
  | .pkcs1 (some (d, pre)) => p.pkcs1 sk.key d pre msg = some sig
  | _ => False

/-- The header of the key describes its bytes, and OpenSSL gives signatures of the size of the key: what is assumed of keys and primitives. -/
structure KeyFits (p : SignPrims) (sk : StoredKey) : Prop where
  rsa : sk.header.type.toNat = KEY_TYPE_RSA → p.rsaSize sk.key = some sk.header.size.toNat
  pkcs1 : ∀ d pre m sig, p.pkcs1 sk.key d pre m = some sig → p.rsaSize sk.key = some sig.length
  pss : ∀ d g salt pre m sig, p.pss sk.key d g salt pre m = some sig → p.rsaSize sk.key = some sig.length
  eddsa : sk.header.type.toNat = KEY_TYPE_EC → ∀ m sig, p.eddsa sk.key m = some sig → sig.length = 2 * sk.header.size.toNat

/-- Signing with RSA-PSS does not fail in OpenSSL. -/
def PssWorks (p : SignPrims) (params : SignParams) (sk : StoredKey) (msg : Bytes) : Prop :=
  ∀ d g salt pre, params = .pss (some (d, g, salt, pre)) → ∃ sig, p.pss sk.key d g salt.toNat pre msg = some sig

theorem beBytes_length (len n : Nat) : (beBytes len n).length = len := by
  induction len generalizing n with
  | zero => rfl
  | succ k ih => simp [beBytes, ih]

theorem beVal_append (b : Bytes) (x : UInt8) : beVal (b ++ [x]) = beVal b * 256 + x.toNat := by simp [beVal]

theorem beVal_beBytes (len n : Nat) (h : n < 256 ^ len) : beVal (beBytes len n) = n := by
  induction len generalizing n with
  | zero => simp at h; subst h; rfl
  | succ k ih =>
    rw [Nat.pow_succ] at h
    unfold beBytes
    rw [beVal_append, ih (n / 256) (by omega), UInt8.toNat_ofNat']
    omega

/-- The conclusion for a response. -/
structure Ok (p : SignPrims) (params : SignParams) (sk : StoredKey) (msg : Bytes) (out : Bool) (n : Nat) (r : SignResp) : Prop where
  size : r.status = .OK → out = false → r.out = none ∧ r.outLength = docSize params sk.header.size.toNat
  sig : r.status = .OK → out = true → PssWorks p params sk msg → ∃ s, r.out = some s ∧ SignedBy p params sk msg s ∧
    s.length = docSize params sk.header.size.toNat ∧ r.outLength = s.length ∧ s.length ≤ n
  inside : ∀ s, r.out = some s → out = true ∧ s.length ≤ n
  small : out = true → n < docSize params sk.header.size.toNat → r.status ≠ .OK ∧ r.out = none

theorem Ok.fail {p : SignPrims} {params : SignParams} {sk : StoredKey} {msg : Bytes} {out : Bool} {n m : Nat} {s : Status} (hs : s ≠ .OK) :
    Ok p params sk msg out n ⟨s, m, none⟩ :=
  ⟨fun h => absurd h hs, fun h => absurd h hs, by simp, fun _ _ => ⟨hs, rfl⟩⟩

theorem signEcdsa_ok (p : SignPrims) (q : Option (Nat × Bool)) (sk : StoredKey) (msg : Bytes) (out : Bool) (n : Nat) :
    Ok p (.ecdsa q) sk msg out n (signEcdsa p q sk msg (if out then some n else none) n) := by
  unfold signEcdsa
  cases q with
  | none => exact Ok.fail (by simp)
  | some q =>
    obtain ⟨d, pre⟩ := q
    simp only
    split
    · exact Ok.fail (by simp)
    · split
      · exact Ok.fail (by simp)
      · rename_i hcurve
        split
        · exact Ok.fail (by simp)
        · cases out with
          | false => exact ⟨fun _ _ => ⟨rfl, Nat.mul_comm _ _⟩, by simp, by simp, by simp⟩
          | true =>
            simp only [if_true]
            split
            · exact Ok.fail (by simp)
            · rename_i hn
              unfold ecSignEcdsa
              simp only
              rw [if_neg hcurve, if_neg hn]
              have hsm : ∀ r : SignResp, true = true → n < docSize (.ecdsa (some (d, pre))) sk.header.size.toNat → r.status ≠ .OK ∧ r.out = none := by
                intro r _ h
                unfold docSize at h
                simp only at h
                omega
              cases he : p.ecdsa sk.key d pre msg with
              | none => exact Ok.fail (by simp)
              | some rs =>
                obtain ⟨r, s⟩ := rs
                simp only
                unfold bnExport
                by_cases hr : r ≥ 256 ^ sk.header.size.toNat
                · rw [if_pos hr]
                  exact ⟨by simp, by simp, by simp; omega, hsm _⟩
                · rw [if_neg hr]
                  simp only
                  by_cases hs : s ≥ 256 ^ sk.header.size.toNat
                  · rw [if_pos hs]
                    refine ⟨by simp, by simp, ?_, hsm _⟩
                    intro x hx
                    simp only [Option.some.injEq] at hx
                    subst hx
                    simp only [List.length_append, beBytes_length, List.length_replicate, true_and]
                    omega
                  · rw [if_neg hs]
                    have hlen : (beBytes sk.header.size.toNat r ++ beBytes sk.header.size.toNat s).length = 2 * sk.header.size.toNat := by
                      rw [List.length_append, beBytes_length, beBytes_length]; omega
                    refine ⟨by simp, ?_, ?_, hsm _⟩
                    · intro _ _ _
                      refine ⟨_, rfl, ⟨r, s, he, hlen, ?_, ?_⟩, hlen, by rw [hlen, Nat.mul_comm], by rw [hlen]; omega⟩
                      · rw [List.take_append_of_le_length (by rw [beBytes_length]; exact Nat.le_refl _), List.take_of_length_le (by rw [beBytes_length]; exact Nat.le_refl _)]
                        exact beVal_beBytes _ _ (by omega)
                      · rw [List.drop_append_of_le_length (by rw [beBytes_length]; exact Nat.le_refl _), List.drop_of_length_le (by rw [beBytes_length]; exact Nat.le_refl _)]
                        exact beVal_beBytes _ _ (by omega)
                    · intro x hx
                      simp only [Option.some.injEq] at hx
                      subst hx
                      rw [hlen]
                      exact ⟨rfl, by omega⟩

theorem supportsEc_type {t c s : Nat} (h : keyTypeSupportsEc t c s = true) : t = KEY_TYPE_EC ∧ s = ecKeySizeFromCurve c := by
  unfold keyTypeSupportsEc validEcSize at h
  simp only [Bool.and_eq_true, beq_iff_eq, Bool.or_eq_true] at h
  refine ⟨h.1, ?_⟩
  rcases h.2 with ((((((((h | h) | h) | h) | h) | h) | h) | h) | h) <;> rw [h.1, h.2]

theorem signEddsa_ok (p : SignPrims) (sk : StoredKey) (hk : KeyFits p sk) (msg : Bytes) (out : Bool) (n : Nat) :
    Ok p .eddsa sk msg out n (signEddsa p sk msg (if out then some n else none) n) := by
  unfold signEddsa
  simp only
  split
  · exact Ok.fail (by simp)
  · split
    · exact Ok.fail (by simp)
    · rename_i hty
      obtain ⟨t1, t2⟩ := supportsEc_type (by simpa using hty)
      split
      · exact Ok.fail (by simp)
      · cases out with
        | false => exact ⟨fun _ _ => ⟨rfl, by show _ * 2 = 2 * _; rw [t2, Nat.mul_comm]⟩, by simp, by simp, by simp⟩
        | true =>
          simp only [if_true]
          split
          · exact Ok.fail (by simp)
          · rename_i hn
            split
            · exact Ok.fail (by simp)
            · cases he : p.eddsa sk.key msg with
              | none => exact Ok.fail (by simp)
              | some sig =>
                have hl := hk.eddsa t1 msg sig he
                refine ⟨by simp, fun _ _ _ => ⟨sig, rfl, he, hl, rfl, by rw [hl]; omega⟩, ?_, ?_⟩
                · intro x hx
                  simp only [Option.some.injEq] at hx
                  subst hx
                  exact ⟨rfl, by rw [hl]; omega⟩
                · intro _ h
                  change n < 2 * sk.header.size.toNat at h
                  omega

theorem signPss_ok (p : SignPrims) (q : Option (Nat × Nat × UInt64 × Bool)) (sk : StoredKey) (hk : KeyFits p sk) (msg : Bytes) (out : Bool)
    (n : Nat) : Ok p (.pss q) sk msg out n (signPss p q sk msg (if out then some n else none) n) := by
  unfold signPss
  cases q with
  | none => exact Ok.fail (by simp)
  | some q =>
    obtain ⟨d, g, salt, pre⟩ := q
    simp only
    split
    · exact Ok.fail (by simp)
    · split
      · exact Ok.fail (by simp)
      · split
        · exact Ok.fail (by simp)
        · rename_i hty
          have t1 : sk.header.type.toNat = KEY_TYPE_RSA := by
            unfold keyTypeSupportsRsa at hty
            simp only [Bool.not_eq_eq_eq_not, Bool.not_true, Bool.not_eq_false, Bool.and_eq_true, beq_iff_eq] at hty
            exact hty.1
          have t2 := hk.rsa t1
          cases out with
          | false => exact ⟨fun _ _ => ⟨rfl, rfl⟩, by simp, by simp, by simp⟩
          | true =>
            simp only [if_true]
            split
            · exact Ok.fail (by simp)
            · rename_i hn
              split
              · exact Ok.fail (by simp)
              · split
                · exact Ok.fail (by simp)
                · unfold rsaSignPss
                  rw [t2]
                  simp only
                  rw [if_neg hn]
                  have hsm : ∀ r : SignResp, true = true → n < docSize (.pss (some (d, g, salt, pre))) sk.header.size.toNat → r.status ≠ .OK ∧ r.out = none := by
                    intro r _ h
                    exact absurd h hn
                  cases he : p.pss sk.key d g salt.toNat pre msg with
                  | none =>
                    refine ⟨by simp, fun _ _ hw => ?_, by simp, hsm _⟩
                    obtain ⟨s, hs⟩ := hw d g salt pre rfl
                    rw [he] at hs; simp at hs
                  | some sig =>
                    have hl : sk.header.size.toNat = sig.length := by
                      have := hk.pss _ _ _ _ _ _ he
                      rw [t2] at this
                      simpa using this
                    refine ⟨by simp, fun _ _ _ => ⟨sig, rfl, he, hl.symm, rfl, by omega⟩, ?_, hsm _⟩
                    intro x hx
                    simp only [Option.some.injEq] at hx
                    subst hx
                    exact ⟨rfl, by omega⟩

theorem signPkcs1_ok (p : SignPrims) (q : Option (Nat × Bool)) (sk : StoredKey) (hk : KeyFits p sk) (msg : Bytes) (out : Bool)
    (n : Nat) : Ok p (.pkcs1 q) sk msg out n (signPkcs1 p q sk msg (if out then some n else none) n) := by
  unfold signPkcs1
  cases q with
  | none => exact Ok.fail (by simp)
  | some q =>
    obtain ⟨d, pre⟩ := q
    simp only
    split
    · exact Ok.fail (by simp)
    · split
      · exact Ok.fail (by simp)
      · rename_i hty
        have t1 : sk.header.type.toNat = KEY_TYPE_RSA := by
          unfold keyTypeSupportsRsa at hty
          simp only [Bool.not_eq_eq_eq_not, Bool.not_true, Bool.not_eq_false, Bool.and_eq_true, beq_iff_eq] at hty
          exact hty.1
        have t2 := hk.rsa t1
        cases out with
        | false => exact ⟨fun _ _ => ⟨rfl, rfl⟩, by simp, by simp, by simp⟩
        | true =>
          simp only [if_true]
          split
          · exact Ok.fail (by simp)
          · rename_i hn
            unfold rsaSignPkcs1
            rw [t2]
            simp only
            rw [if_neg hn]
            cases he : p.pkcs1 sk.key d pre msg with
            | none => exact Ok.fail (by simp)
            | some sig =>
              have hl : sk.header.size.toNat = sig.length := by
                have := hk.pkcs1 _ _ _ _ he
                rw [t2] at this
                simpa using this
              refine ⟨by simp, fun _ _ _ => ⟨sig, rfl, he, hl.symm, rfl, by omega⟩, ?_, fun _ h => absurd h hn⟩
              intro x hx
              simp only [Option.some.injEq] at hx
              subst hx
              exact ⟨rfl, by omega⟩

/-- **C55** (partial: for RSA-PSS, only if OpenSSL succeeds; see `C55_violated`).  For every key, time, algorithm, message and output buffer of
`n` bytes (or NULL): see `Ok`. -/
theorem C55_signature_partial (p : SignPrims) (env : RightsEnv) (params : SignParams) (sk : StoredKey) (hk : KeyFits p sk) (msg : Buf)
    (out : Bool) (n : Nat) :
    Ok p params sk (msg.get.getD []) out n (cryptoSign p env params (.OK, some sk) msg out n) := by
  unfold cryptoSign
  simp only
  split
  · exact Ok.fail (by simp)
  · split
    · exact Ok.fail (by simp)
    · simp only [ne_eq, not_true_eq_false, if_false]
      split
      · exact Ok.fail (by simp)
      · cases params with
        | ecdsa q => exact signEcdsa_ok p q sk _ out n
        | eddsa => exact signEddsa_ok p sk hk _ out n
        | pss q => exact signPss_ok p q sk hk _ out n
        | pkcs1 q => exact signPkcs1_ok p q sk hk _ out n
        | unknown => exact Ok.fail (by simp)

/-! ## Examples -/

/-- Toy signatures: RSA-PSS needs a precomputed digest to have the length of the digest. -/
def toySign : SignPrims where
  ecdsa _ _ _ m := some (m.length + 300, 7)
  eddsa _ _ := some (List.replicate 64 5)
  pkcs1 _ _ _ _ := some (List.replicate 256 6)
  pss _ d _ _ pre m := if pre ∧ digestLength d ≠ some m.length then none else some (List.replicate 256 8)
  rsaSize _ := some 256

def keyOf (type : UInt8) (curve size : Nat) : StoredKey where
  header := ⟨Vector.replicate 4 0, Vector.replicate 4 0, rightsAllowAll, type, Vector.replicate 7 0, tpOfCurve curve, UInt16.ofNat size, Vector.replicate 6 0⟩
  key := [1, 2, 3]

theorem toyFits : KeyFits toySign (keyOf 2 0 256) where
  rsa := by intro _; rfl
  pkcs1 := by intro d pre m sig h; cases h; show some 256 = some _; rw [List.length_replicate]
  pss := by
    intro d g salt pre m sig h
    change (if pre ∧ digestLength d ≠ some m.length then none else some (List.replicate 256 8)) = some sig at h
    split at h
    · cases h
    · cases h; show some 256 = some _; rw [List.length_replicate]
  eddsa := by intro h; exact absurd h (by decide)

theorem toyFits_ec : KeyFits toySign (keyOf 1 0 32) where
  rsa := by intro h; exact absurd h (by decide)
  pkcs1 := by intro d pre m sig h; cases h; show some 256 = some _; rw [List.length_replicate]
  pss := by
    intro d g salt pre m sig h
    change (if pre ∧ digestLength d ≠ some m.length then none else some (List.replicate 256 8)) = some sig at h
    split at h
    · cases h
    · cases h; show some 256 = some _; rw [List.length_replicate]
  eddsa := by intro _ m sig h; cases h; rw [List.length_replicate]; rfl

/-- An ECDSA signature: r = 303 is 30 zero bytes, 1, 47. -/
example : cryptoSign toySign C27.renv (.ecdsa (some (1, false))) (.OK, some (keyOf 1 0 32)) (.bytes [1, 2, 3]) true 100 =
    ⟨.OK, 64, some (List.replicate 30 0 ++ [1, 47] ++ List.replicate 31 0 ++ [7])⟩ := by decide +kernel

example : (cryptoSign toySign C27.renv (.pss (some (1, 1, 32, true))) (.OK, some (keyOf 2 0 256)) (.bytes (List.replicate 32 1)) true 256).out =
    some (List.replicate 256 8) := by decide +kernel

/-- **C55 is violated (RSA-PSS)**: `rsa_sign_pss` starts with the status OK and leaves it when a call of OpenSSL fails.  A precomputed digest of
31 bytes instead of 32 is refused by OpenSSL; the call reports success, and that 256 bytes of signature are in the buffer, but nothing was
written. -/
theorem C55_violated : cryptoSign toySign C27.renv (.pss (some (1, 1, 32, true))) (.OK, some (keyOf 2 0 256)) (.bytes (List.replicate 31 1)) true 256 =
    ⟨.OK, 256, none⟩ := by decide +kernel

end Sa.C55

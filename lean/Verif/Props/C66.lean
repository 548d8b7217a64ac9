import Verif.Props.C49
import Verif.Props.C60

/-!
# C66: the rights of a key imported from an SoC container

`RightsOf` says which rights a container gives: what the key can be used for follows from the usage the container states and from the kind of key (C49), what the keys it unwraps
can be used for from the second usage if the first is "key only"; outputs and time are not restricted, the identifier is the object identifier of the caller.  `C66_partial`
holds for usages stated by a number less than 256.  The code keeps only the last byte of the number, so that 257 counts as 1 (`C66_violated`).
-/

namespace Sa.Kc.C66

open C49 (Use Grants)
open C42 (Kind documented Fits)

/-- The number that the field states. -/
def States (fields : List (Bytes × Js.Json)) (name : String) (n : Int) : Prop := ∃ k v, Js.find (ascii name) fields = some (k, v) ∧ (v = .int n ∨ (n = 0 ∧ ∀ m, v ≠ .int m))

/-- HMAC keys by their names. -/
def isHmac (name : String) : Bool := name == "HMAC-128" || name == "HMAC-160" || name == "HMAC-256"

def isAgreement : Kind → Bool
  | .ec _ => true
  | _ => false

/-- The word allows exactly the uses that the usage `code` grants to that kind of key; `rest` says which of the other flags are set. -/
def Allows (flags : UInt64) (code : Int) (name : String) (kind : Kind) (rest : Nat → Prop) : Prop :=
  (∀ u : Use, Flag flags u.bit ↔ Grants code (isAgreement kind) (isHmac name) u) ∧ ∀ i, 6 ≤ i → (Flag flags i ↔ rest i)

/-- Byte `i` of the identifier: the object identifier, big endian, then zeros. -/
def idByte (params : Option SocParams) (i : Nat) : Nat :=
  match params with
  | none => 0
  | some q => if i < 8 then q.objectId.toNat / 256 ^ (7 - i) % 256 else 0

/-- The rights of a container for the key type `name`, with the usages `code` and `child`. -/
structure RightsOf (r : Rights) (name : String) (kind : Kind) (code child : Int) (params : Option SocParams) : Prop where
  /-- flags 6 to 12 are the outputs, 13 is "cacheable" -/
  uses : Allows r.usageFlags code name kind (fun i => i ≤ 13)
  childUses : code = 2 → Allows r.childUsageFlags child name kind (fun _ => False)
  noChild : code ≠ 2 → r.childUsageFlags = 0
  time : r.notBefore.toNat = 0 ∧ r.notOnOrAfter.toNat = 2 ^ 64 - 1
  ident : ∀ i : Fin 64, (r.id[i]).toNat = idByte params i
  parameters : ∀ q, params = some q → q.length = 624 ∧ (q.version = 2 ∨ q.version = 3)

theorem flags_base (i : Nat) (hi : 6 ≤ i) : Flag (bitSet 0 FLAG_CACHEABLE ||| OUTPUT_PROTECTIONS_MASK) i ↔ i ≤ 13 := by
  unfold OUTPUT_PROTECTIONS_MASK
  rw [flag_or, C49.flag_set _ _ _ (by decide)]
  simp only [flag_or]
  rw [bitMask_flag _ _ (by decide), bitMask_flag _ _ (by decide), bitMask_flag _ _ (by decide), bitMask_flag _ _ (by decide), bitMask_flag _ _ (by decide),
    bitMask_flag _ _ (by decide), bitMask_flag _ _ (by decide)]
  have h0 : ¬ Flag 0 i := flag_zero i
  simp only [h0, false_or, FLAG_CACHEABLE, FLAG_ANALOG_UNPROTECTED, FLAG_ANALOG_CGMSA, FLAG_DIGITAL_UNPROTECTED, FLAG_DIGITAL_HDCP14, FLAG_DIGITAL_HDCP22, FLAG_DIGITAL_DTCP,
    FLAG_SVP_OPTIONAL]
  omega

/-- What an entry of the table says about the rights. -/
def InfoRights (i : KeyInfo) (name : String) (kind : Kind) : Prop :=
  ((i.keyType = 1 ∨ i.keyType = 3) ↔ isAgreement kind = true) ∧ (i.subtype = 2 ↔ isHmac name = true)

instance (i : KeyInfo) (name : String) (kind : Kind) : Decidable (InfoRights i name kind) := inferInstanceAs (Decidable (_ ∧ _))

theorem table_rights : ∀ e ∈ socKeyTypes, ∃ d ∈ documented, d.1 = e.1 ∧ C42.InfoFits e.2 d.2.1 d.2.2 ∧ InfoRights e.2 d.1 d.2.1 := by decide +kernel

theorem names_unique : ∀ d ∈ documented, ∀ d' ∈ documented, d.1 = d'.1 → d = d' := by decide +kernel

/-- A documented name is recognised as itself. -/
theorem name_rights (env : Env) (name : String) (kind : Kind) (bits : Nat) (h : (name, kind, bits) ∈ documented) :
    ∃ i, (socKeyTypeAndSize env (ascii name)).res = .ok i ∧ InfoRights i name kind := by
  simp only [documented, List.mem_cons, Prod.mk.injEq, List.not_mem_nil, or_false] at h
  unfold socKeyTypeAndSize socKeyTypes
  rcases h with ⟨rfl, rfl, rfl⟩ | ⟨rfl, rfl, rfl⟩ | ⟨rfl, rfl, rfl⟩ | ⟨rfl, rfl, rfl⟩ | ⟨rfl, rfl, rfl⟩ | ⟨rfl, rfl, rfl⟩ | ⟨rfl, rfl, rfl⟩ | ⟨rfl, rfl, rfl⟩ |
    ⟨rfl, rfl, rfl⟩ | ⟨rfl, rfl, rfl⟩ | ⟨rfl, rfl, rfl⟩ | ⟨rfl, rfl, rfl⟩ | ⟨rfl, rfl, rfl⟩ | ⟨rfl, rfl, rfl⟩ | ⟨rfl, rfl, rfl⟩ | ⟨rfl, rfl, rfl⟩ | ⟨rfl, rfl, rfl⟩ |
    ⟨rfl, rfl, rfl⟩ | ⟨rfl, rfl, rfl⟩ <;> exact ⟨_, rfl, by decide +kernel⟩

theorem id_byte (q : SocParams) (i : Fin 64) : ((idOfObjectId q.objectId)[i]).toNat = idByte (some q) i := by
  have hi := i.isLt
  simp only [idOfObjectId, idByte, Fin.getElem_fin, Vector.getElem_ofFn]
  split
  · rename_i h
    have h8 : 8 * (7 - i.val) < 64 := by omega
    rw [UInt64.toNat_toUInt8, UInt64.toNat_shiftRight, UInt64.toNat_ofNat', Nat.mod_eq_of_lt (show 8 * (7 - i.val) < 2 ^ 64 by omega), Nat.mod_eq_of_lt h8,
      Nat.shiftRight_eq_div_pow, Nat.pow_mul]
  · rfl

theorem rights_of {info : KeyInfo} {p : Payload} {params : Option SocParams} {rights : Rights} {name : String} {kind : Kind}
    (h : socFieldsToRights info.keyType info.subtype p params = .ok rights) (hi : InfoRights info name kind) :
    RightsOf rights name kind p.usage.toNat p.decUsage.toNat params := by
  unfold socFieldsToRights at h
  cases hid : socId params with
  | error e => rw [hid] at h; exact nomatch h
  | ok ident =>
  rw [hid] at h
  simp only at h
  cases hfl : socFlags info.keyType info.subtype p with
  | error e => rw [hfl] at h; exact nomatch h
  | ok fc =>
  obtain ⟨f, c⟩ := fc
  rw [hfl] at h
  simp only at h
  split at h
  · exact nomatch h
  have h := Except.ok.inj h
  have key : ∀ (base : UInt64) (code : Int) (rest : Nat → Prop), (∀ i, 6 ≤ i → (Flag base i ↔ rest i)) → (keyUsageToUsageFlags base code info.keyType info.subtype).2 = .OK →
      Allows (keyUsageToUsageFlags base code info.keyType info.subtype).1 code name kind rest := by
    intro base code rest hb hok
    obtain ⟨_, h2, h3⟩ := C49.C49_exact base code info.keyType info.subtype
    refine ⟨fun u => ?_, fun i hi' => (h3 i hi').trans (hb i hi')⟩
    rw [h2 hok u]
    have e1 : decide (info.keyType = 1 ∨ info.keyType = 3) = isAgreement kind := by rw [Bool.eq_iff_iff, decide_eq_true_iff]; exact hi.1
    have e2 : decide (info.subtype = 2) = isHmac name := by rw [Bool.eq_iff_iff, decide_eq_true_iff]; exact hi.2
    rw [e1, e2]
  unfold socFlags at hfl
  simp only at hfl
  split at hfl
  · exact nomatch hfl
  rename_i hok
  have hok := Classical.not_not.1 hok
  have hu := key _ _ _ flags_base hok
  have hid' : (∀ i : Fin 64, (rights.id[i]).toNat = idByte params i) ∧ ∀ q, params = some q → q.length = 624 ∧ (q.version = 2 ∨ q.version = 3) := by
    have e : rights.id = ident := by rw [← h]
    rw [e]
    unfold socId at hid
    cases params with
    | none =>
      have hid := Except.ok.inj hid
      refine ⟨fun i => ?_, fun q hq => nomatch hq⟩
      rw [← hid]
      simp [idByte]
    | some q =>
      simp only at hid
      split at hid
      · exact nomatch hid
      · rename_i hl
        split at hid
        · exact nomatch hid
        · rename_i hv
          have hid := Except.ok.inj hid
          refine ⟨fun i => by rw [← hid]; exact id_byte q i, fun q' hq => ?_⟩
          cases hq
          exact ⟨Classical.not_not.1 hl, by omega⟩
  have htime : rights.notBefore.toNat = 0 ∧ rights.notOnOrAfter.toNat = 2 ^ 64 - 1 := by rw [← h]; exact ⟨rfl, rfl⟩
  split at hfl
  · rename_i h2
    split at hfl
    · exact nomatch hfl
    rename_i hok2
    have hok2 := Classical.not_not.1 hok2
    have hfl := Except.ok.inj hfl
    simp only [Prod.mk.injEq] at hfl
    have h2' : (p.usage.toNat : Int) = 2 := by rw [h2]; rfl
    refine ⟨?_, fun _ => ?_, fun hn => absurd h2' hn, htime, hid'.1, hid'.2⟩
    · rw [← h]; simp only; rw [← hfl.1]; exact hu
    · rw [← h]; simp only; rw [← hfl.2]
      exact key 0 _ (fun _ => False) (fun i _ => by simp only [iff_false]; exact flag_zero i) hok2
  · rename_i h2
    have hfl := Except.ok.inj hfl
    simp only [Prod.mk.injEq] at hfl
    have h2' : ¬ (p.usage.toNat : Int) = 2 := by
      intro h'
      apply h2
      apply UInt8.toNat_inj.1
      exact Int.ofNat.inj h'
    refine ⟨?_, fun h' => absurd h' h2', fun _ => ?_, htime, hid'.1, hid'.2⟩
    · rw [← h]; simp only; rw [← hfl.1]; exact hu
    · rw [← h]; simp only; exact hfl.2.symm

theorem states_of {fields : List (Bytes × Js.Json)} {name : String} {k : Bytes} {v : Js.Json} (h : Js.find (ascii name) fields = some (k, v)) :
    States fields name (Js.asInteger v) := by
  refine ⟨k, v, h, ?_⟩
  cases v <;> simp [Js.asInteger]

/-- **C66 (partial).**  If a container yields a key, its fields state numbers `usage` and `child` (the latter if the usage is 2), and there is a documented name that begins with
the key type given — the key type itself if that is documented — such that the key has the rights of that name and the last bytes of these numbers, which are 1, 2 or 3.
Missing for the full property: that the numbers themselves are 1, 2 or 3 (`C66_violated`). -/
theorem C66_partial (e : SocEnv) (s : Bytes) (params : Option SocParams) (sk : StoredKey) (h : (socUnwrap e s params).res = .ok (some sk)) :
    ∃ hd p m pl fields n k usage child, splitDots s = some (hd, p, m) ∧ e.kc.bio (b64Data e.kc p true) = some pl ∧ parseJson e.kc pl = some (.obj fields) ∧
      Js.find (ascii "keyType") fields = some (n, .str k) ∧ States fields "keyUsage" usage ∧ (usage % 256 = 2 → States fields "decryptedKeyUsage" child) ∧
      (usage % 256 = 1 ∨ usage % 256 = 2 ∨ usage % 256 = 3) ∧ (usage % 256 = 2 → child % 256 = 1 ∨ child % 256 = 2 ∨ child % 256 = 3) ∧
      ∃ name kind bits, (name, kind, bits) ∈ documented ∧ ((0 : UInt8) ∉ k → k <+: ascii name) ∧ (∀ d ∈ documented, k = ascii d.1 → d.1 = name) ∧
        RightsOf sk.header.rights name kind (usage % 256) (child % 256) params := by
  obtain ⟨r⟩ := socUnwrap_ok h
  obtain ⟨aad, info, ha, hi, hd⟩ := socDecryptVerify_ok r.dec
  obtain ⟨key, rights, h1, h2, h3⟩ := socDecrypt_ok hd
  obtain ⟨b1, b2, b3, b4, b5, b6⟩ := socStore_ok h3
  have hp := socParsePayload_ok r.payload
  obtain ⟨n, hk⟩ := hp.keyType
  obtain ⟨ku, vu, hu, hue⟩ := hp.usage
  obtain ⟨_, _, _, _, hur, hdr, _⟩ := C60.socBuildAad_ok ha
  have hum : (r.pay.usage.toNat : Int) = Js.asInteger vu % 256 := by rw [hue]; exact C60.toU8_mod _
  have hu2 : Js.asInteger vu % 256 = 2 ↔ r.pay.usage = 2 := by
    rw [← hum]
    constructor
    · intro h'; apply UInt8.toNat_inj.1; exact Int.ofNat.inj h'
    · intro h'; rw [h']; rfl
  have range : ∀ x : UInt8, 1 ≤ x ∧ x ≤ 3 → (x.toNat : Int) = 1 ∨ (x.toNat : Int) = 2 ∨ (x.toNat : Int) = 3 := by
    rintro x ⟨l, u⟩
    have l : 1 ≤ x.toNat := UInt8.le_iff_toNat_le.1 l
    have u : x.toNat ≤ 3 := UInt8.le_iff_toNat_le.1 u
    omega
  have hchild : ∃ child : Int, (r.pay.usage = 2 → States r.pf "decryptedKeyUsage" child) ∧ (r.pay.decUsage.toNat : Int) = child % 256 := by
    by_cases h2 : r.pay.usage = 2
    · have hde := hp.decUsage
      rw [if_pos h2] at hde
      cases hf : Js.find (ascii "decryptedKeyUsage") r.pf with
      | none =>
        rw [hf] at hde
        have := (hdr h2).1
        rw [hde] at this
        exact absurd this (by decide)
      | some kv =>
        rw [hf] at hde
        exact ⟨Js.asInteger kv.2, fun _ => states_of hf, by rw [hde]; exact C60.toU8_mod _⟩
    · refine ⟨0, fun h' => absurd h' h2, ?_⟩
      rw [hp.decUsage, if_neg h2]; rfl
  obtain ⟨child, hc1, hc2⟩ := hchild
  refine ⟨r.h, r.p, r.m, r.pl, r.pf, n, r.pay.keyType, Js.asInteger vu, child, r.split, r.bp, r.jp, hk, states_of hu, fun h' => hc1 (hu2.1 h'), ?_, ?_, ?_⟩
  · rw [← hum]; exact range _ hur
  · intro h'; rw [← hc2]; exact range _ (hdr (hu2.1 h'))
  rw [← hum, ← hc2, b4]
  obtain ⟨name, hm, hb⟩ := C42.from_ok _ _ _ _ hi
  obtain ⟨⟨name', kind, bits⟩, hd, hd1, hd2, hd3⟩ := table_rights _ hm
  simp only at hd1 hd2 hd3
  subst hd1
  by_cases hdoc : ∃ d ∈ documented, r.pay.keyType = ascii d.1
  · obtain ⟨⟨dn, dk, db⟩, hdm, hde⟩ := hdoc
    obtain ⟨i, hi', hf⟩ := name_rights e.kc dn dk db hdm
    simp only at hde
    rw [← hde, hi] at hi'
    have hi' := Except.ok.inj hi'
    subst hi'
    refine ⟨dn, dk, db, hdm, fun _ => ⟨[], by rw [List.append_nil]; exact hde⟩, fun d hdm' hd' => ?_, rights_of h2 hf⟩
    have : ∀ d ∈ documented, ∀ d' ∈ documented, ascii d.1 = ascii d'.1 → d.1 = d'.1 := by decide +kernel
    exact this _ hdm' _ hdm (hd'.symm.trans hde)
  · exact ⟨name', kind, bits, hd, fun h0 => C42.matches_prefix _ _ _ h0 hb, fun d hdm hd' => absurd ⟨d, hdm, hd'⟩ hdoc, rights_of h2 hd3⟩

/-- A payload with the given key type and usages. -/
def usages (keyType : String) (usage child : Int) : List Js.Event :=
  Sample.payloadEvents [("containerVersion", [.int 4]), ("keyType", Sample.str keyType), ("encryptedKey", Sample.str Sample.b16), ("iv", Sample.str Sample.b12), ("keyUsage", [.int usage]),
    ("decryptedKeyUsage", [.int child]), ("entitledTaIds", [.startArr, .endArr]), ("c1", Sample.str Sample.b16), ("c2", Sample.str Sample.b16), ("c3", Sample.str Sample.b16)]

/-- Usage flags and those for children of the imported key. -/
def flagsOf (r : P (Option StoredKey)) : Option (UInt64 × UInt64) :=
  match r.res with
  | .ok (some sk) => some (sk.header.rights.usageFlags, sk.header.rights.childUsageFlags)
  | _ => none

/-- Data only: an AES key can be used to derive, encrypt, decrypt and sign, an HMAC key to derive and sign; key only: to unwrap, and the unwrapped keys for data. -/
example :
    flagsOf (socUnwrap (Sample.socEnv (usages "AES-128" 1 0) 0) Sample.text none) = some (0x3ffa, 0) ∧
    flagsOf (socUnwrap (Sample.socEnv (usages "HMAC-128" 1 0) 0) Sample.text none) = some (0x3fe2, 0) ∧
    flagsOf (socUnwrap (Sample.socEnv (usages "AES-128" 2 1) 0) Sample.text none) = some (0x3fc4, 0x3a) := by decide +kernel

/-- **The full property is violated**: the undocumented usages 257 and 259 are not refused but count as 1 and 3. -/
theorem C66_violated : flagsOf (socUnwrap (Sample.socEnv (usages "AES-128" 257 0) 0) Sample.text none) = some (0x3ffa, 0) ∧
    flagsOf (socUnwrap (Sample.socEnv (usages "AES-128" 259 0) 0) Sample.text none) = some (0x3ffe, 0) ∧
    flagsOf (socUnwrap (Sample.socEnv (usages "AES-128" 4 0) 0) Sample.text none) = none := by decide +kernel

end Sa.Kc.C66

import Verif.Props.C09
import Verif.Props.C10
import Verif.Lemmas.KeyHistory

/-!
# C08: key material is released only under its rights
-/

namespace Sa.C08

/-- The conditions of the English statement. -/
structure MayUse (r : Rights) (caller : Uuid) (time : UInt64) (video : Option VideoOutputState) : Prop where
  /-- the caller is on the list, or the list has the wildcard -/
  listed : (∃ i : Fin 32, r.allowedTas[i] = Vector.replicate 16 0xff) ∨
    (∃ i : Fin 32, r.allowedTas[i] = caller ∧ caller ≠ Vector.replicate 16 0)
  /-- the time is in [not_before, not_on_or_after) -/
  time : r.notBefore.toNat ≤ time.toNat ∧ time.toNat < r.notOnOrAfter.toNat
  /-- the output state is known; SVP is on or optional, and each active kind of output is permitted -/
  output : ∃ v, video = some v ∧ (v.svpEnabled = true ∨ Flag r.usageFlags 12) ∧
    ∀ p ∈ C10.outputs v, p.2 > 0 → Flag r.usageFlags p.1

theorem mayUse_iff (r : Rights) (caller : Uuid) (time : UInt64) (video : Option VideoOutputState) :
    MayUse r caller time video ↔ (rightsAllowedUuid r caller = true ∧ rightsAllowedTime r time = true ∧
      ∃ v, video = some v ∧ rightsAllowedVideoOutputState r v = true) := by
  rw [C09.C09_allowed_iff_member, allowedTime_iff]
  constructor
  · rintro ⟨a, b, v, c, d⟩; exact ⟨a, b, v, c, (C10.C10_output_iff r v).mpr d⟩
  · rintro ⟨a, b, v, c, d⟩; exact ⟨a, b, v, c, (C10.C10_output_iff r v).mp d⟩

/-- **C08.**  For every store reached by any history, every handle and caller: using the key never goes out of bounds and leaves
the store as it was; either it fails and no key material is returned, or the handle is live and the caller's own (reading its
header succeeds and gives the header of the returned key), and caller, time and output state meet the key's rights. -/
theorem C08_released_only_under_rights (env : Env) (hp : env.prims.Good) (st : KeyStore) (hr : KsReachable env.prims st)
    (key : Nat) (caller : Uuid) :
    ∃ s sk, keyStoreUnwrap env st key caller = some (st, s, sk) ∧
      ((s ≠ .OK ∧ sk = none) ∨
       (∃ k, s = .OK ∧ sk = some k ∧ keyStoreGetHeader st key caller = (st, .OK, some k.header) ∧
          MayUse k.header.rights caller env.rights.time env.rights.video)) := by
  have inv := ksReachable_inv _ hp st hr
  obtain ⟨s, sk, h, h2⟩ := ksUnwrap_cases env hp st inv key caller
  refine ⟨s, sk, h, ?_⟩
  rcases h2 with h2 | ⟨w, k, a, b, c, d, e, f⟩
  · exact Or.inl h2
  · exact Or.inr ⟨k, d, e, ksHeader_live _ st inv key caller w k a b c, (mayUse_iff _ _ _ _).mpr f⟩

/-- Conversely a live key of the caller's own whose rights are met is released, unless an external call fails; if they are not
met the call is refused with OPERATION_NOT_ALLOWED. -/
theorem C08_decision (env : Env) (hp : env.prims.Good) (st : KeyStore) (hr : KsReachable env.prims st) (key : Nat) (caller : Uuid)
    (h : Header) (hh : (keyStoreGetHeader st key caller).2 = (.OK, some h)) :
    (MayUse h.rights caller env.rights.time env.rights.video → (∀ s, env.ok s = true) →
      ∃ k, keyStoreUnwrap env st key caller = some (st, .OK, some k) ∧ k.header = h) ∧
    (¬ MayUse h.rights caller env.rights.time env.rights.video →
      keyStoreUnwrap env st key caller = some (st, .OPERATION_NOT_ALLOWED, none)) := by
  have inv := ksReachable_inv _ hp st hr
  obtain ⟨w, k, ho, hu, hk, _, rfl⟩ := ksHeader_ok _ st inv key caller _ h (Prod.ext rfl hh)
  rw [mayUse_iff, ksUnwrap_live env hp st inv key caller w k ho hu hk]
  unfold useResult
  have hv : ((env.rights.video.any fun v => rightsAllowedVideoOutputState k.header.rights v) = true) ↔
      ∃ v, env.rights.video = some v ∧ rightsAllowedVideoOutputState k.header.rights v = true := by
    cases env.rights.video <;> simp
  constructor
  · intro hm hok
    rw [if_pos ⟨hm.1, hm.2.1, hv.mpr hm.2.2⟩]
    exact ⟨k, by simp [hok], rfl⟩
  · intro hm
    rw [if_neg (fun x => hm ⟨x.1, x.2.1, hv.mp x.2.2⟩)]

/-- A handle that is not the caller's, or not live, gives an error and nothing else. -/
theorem C08_foreign_handle (env : Env) (hp : env.prims.Good) (st : KeyStore) (hr : KsReachable env.prims st) (key : Nat)
    (caller : Uuid) (hh : (keyStoreGetHeader st key caller).2.1 ≠ .OK) :
    ∃ s, s ≠ Status.OK ∧ keyStoreUnwrap env st key caller = some (st, s, none) := by
  obtain ⟨s, sk, h, h2⟩ := C08_released_only_under_rights env hp st hr key caller
  rcases h2 with ⟨a, b⟩ | ⟨k, _, _, c, _⟩
  · exact ⟨s, a, by rw [h, b]⟩
  · rw [c] at hh; simp at hh

/-! ## A concrete case -/

/-- Toy primitives: every block is complemented byte by byte, the tag is a checksum of key and message. -/
def toy : Prims where
  aesEnc k b := b.map (fun x => x + 1 + (k.headD 0))
  aesDec k b := b.map (fun x => x - (k.headD 0) - 1)
  hmac256 k m := (k ++ m).foldl (· + ·) 0 :: List.replicate 31 7
  rootKey := List.replicate 16 3
  commonRootKey := List.replicate 16 4

theorem toy_good : toy.Good where
  encLen k b h := by simp [toy, h]
  decLen k b h := by simp [toy, h]
  decEnc k b _ := by
    simp only [toy, List.map_map]
    conv => rhs; rw [← List.map_id b]
    congr 1
    funext x
    simp only [Function.comp, id]
    generalize k.headD 0 = y
    rw [show x + 1 + y - y = x + 1 from UInt8.add_sub_cancel _ _]
    exact UInt8.add_sub_cancel _ _
  macLen k m := by simp [toy]

def u7 : Uuid := Vector.replicate 16 7
def u8 : Uuid := Vector.replicate 16 8

/-- Environment at time 1000 with one HDCP 2.2 output. -/
def env0 : Env where
  prims := toy
  rights := { time := 1000, video := some C10.hdmi22 }
  ok _ := true
  randInputs := ⟨⟨u7, u8, u7⟩, ⟨u8, u8, u8⟩⟩
  randIv := Vector.replicate 16 9
  garbage _ := 0xcd

/-- A key for TA u7 only, until time 2000, cacheable, HDCP 2.2. -/
def r0 : Rights := { C09.onlyLast u7 with notOnOrAfter := 2000, usageFlags := 0x2410 }

def mk : KsOp := .create env0 r0 none 0 (Vector.replicate 1040 0) 16 (List.replicate 16 5) u7

def st1 : Option KeyStore := (objectStoreInit WrappedKey 32).bind fun st => ksAfter toy st [mk]

/-- The store is reachable. -/
theorem st1_reachable : ∀ st, st1 = some st → KsReachable toy st := by
  intro st h
  unfold st1 at h
  cases h0 : objectStoreInit WrappedKey 32 with
  | none => rw [h0] at h; simp at h
  | some s0 =>
    rw [h0] at h
    exact ⟨32, s0, [mk], by decide, h0, by simp [mk, KsOp.Fits], h⟩

/-- The owner gets the key at time 1000, not at time 2000, not with an analog output; another TA does not get it. -/
example : (st1.bind fun st => keyStoreUnwrap env0 st 31 u7).map (fun r => (r.2.1, r.2.2.map (·.key))) =
    some (.OK, some (List.replicate 16 5)) := by decide +kernel
example : (st1.bind fun st => keyStoreUnwrap { env0 with rights := ⟨2000, some C10.hdmi22⟩ } st 31 u7).map (fun r => (r.2.1, r.2.2.map (·.key))) =
    some (.OPERATION_NOT_ALLOWED, none) := by decide +kernel
example : (st1.bind fun st => keyStoreUnwrap { env0 with rights := ⟨1000, some C10.analog⟩ } st 31 u7).map (fun r => (r.2.1, r.2.2.map (·.key))) =
    some (.OPERATION_NOT_ALLOWED, none) := by decide +kernel
example : (st1.bind fun st => keyStoreUnwrap env0 st 31 u8).map (fun r => (r.2.1, r.2.2.map (·.key))) =
    some (.OPERATION_NOT_ALLOWED, none) := by decide +kernel

end Sa.C08

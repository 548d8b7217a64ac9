/-
C97: The device ID is the number in the name of the device's key, and stays so.

`hex` (Lemmas/RootKeys.lean) says what number hexadecimal digits write.
-/
import Verif.Props.C96

namespace Sa.Ks.C97

open Sa Sa.Ks Sa.Sb.C98 Sa.Ks.C96

/-- Every name is converted to the number that it writes in up to 16 hexadecimal digits of either case, and any other to 0. -/
theorem C97_number (s : Bytes) : convert s = if s.length ≤ 16 then (hex s).getD 0 else 0 := convert_eq s

theorem lower_digit (c : UInt8) {d : Nat} (h : digit c = some d) : lower c = lookup.getD d 0 := by
  have t : ∀ x : Fin 256, digit (UInt8.ofNat x.val) = none ∨ lower (UInt8.ofNat x.val) = lookup.getD ((digit (UInt8.ofNat x.val)).getD 0) 0 := by decide +kernel
  have := t ⟨c.toNat, c.toNat_lt⟩
  simp only [UInt8.ofNat_toNat, h] at this
  simpa using this

theorem digit_inj {a b : UInt8} {d : Nat} (ha : digit a = some d) (hb : digit b = some d) : lower a = lower b :=
  (lower_digit a ha).trans (lower_digit b hb).symm

theorem hexFrom_inj {s t : Bytes} {n m x : Nat} (hl : s.length = t.length) (hs : hexFrom n s = some x) (ht : hexFrom m t = some x) :
    n = m ∧ s.map lower = t.map lower := by
  induction s generalizing t n m with
  | nil =>
    cases t with
    | nil =>
      cases hs
      cases ht
      exact ⟨rfl, rfl⟩
    | cons b t => cases hl
  | cons a s ih =>
    cases t with
    | nil => cases hl
    | cons b t =>
      simp only [hexFrom, Option.bind_eq_some_iff] at hs ht
      obtain ⟨d, hd, hs⟩ := hs
      obtain ⟨d', hd', ht⟩ := ht
      obtain ⟨h1, h2⟩ := ih (by simpa using hl) hs ht
      have h3 := digit_lt hd
      have h4 := digit_lt hd'
      have h5 : d = d' := by omega
      subst h5
      exact ⟨by omega, by simp [digit_inj hd hd', h2]⟩

/-- Devices whose names have equally many digits, and not the same up to case, have different IDs. -/
theorem C97_distinct {s t : Bytes} (hl : s.length = t.length) (h16 : s.length ≤ 16) (hs : (hex s).isSome) (ht : (hex t).isSome) (h : convert s = convert t) :
    s.map lower = t.map lower := by
  rw [convert_eq, convert_eq, if_pos h16, if_pos (by omega)] at h
  cases es : hex s with
  | none => simp [es] at hs
  | some x =>
    cases et : hex t with
    | none => simp [et] at ht
    | some y =>
      rw [es, et] at h
      have : x = y := h
      subst this
      exact (hexFrom_inj hl es et).2

/-- An ID fits 64 bits. -/
theorem C97_fits (s : Bytes) : convert s < 2 ^ 64 := by
  rw [convert_eq]
  split
  · cases h : hex s with
    | none => decide
    | some x =>
      have := hexFrom_lt h
      have h2 : 16 ^ s.length ≤ 16 ^ 16 := Nat.pow_le_pow_right (by decide) (by omega)
      have h3 : (16 : Nat) ^ 16 = 2 ^ 64 := by decide
      show x < 2 ^ 64
      omega
  · decide

section
variable {σ : Type} (lib : Lib σ)

/-- Among whatever other requests, the ID is the number in the name of the device's key in the first file that was there when it, or the key, was needed.  Partial: with
files that are not there or `Proper`; and as long as there was none the ID is 0, with the status OK. -/
theorem C97_id_partial (p : Prims) (dev com : List Safe → Entry) (rs : List Req) (hf : ∀ r ∈ rs, ∀ f, r.file = some f → Proper lib f (dev f) (com f))
    {as : List Ans} {w : World} (hrun : run lib p rs World.init = some (as, w)) {i : Nat} {r : Req} (hr : rs[i]? = some r) (ho : r.op = .deviceId) :
    as[i]? = some (.id (match firstFile readsDevice (rs.take (i + 1)) with
      | none => 0
      | some f => (hex (dev f).name).getD 0)) := by
  obtain ⟨as', w', e, _, h⟩ := run_inv (lib := lib) p rs hf (by simp) (by simp) (inv_init dev com)
  rw [hrun] at e
  cases e
  rw [h i r hr, ho]
  cases firstFile readsDevice (rs.take (i + 1)) <;> simp [due]

/-- Once it is not 0, the ID is the same for ever, whatever becomes of the file; and it is that of the key from which is derived. -/
theorem C97_stays_partial (p : Prims) (dev com : List Safe → Entry) (rs : List Req) (hf : ∀ r ∈ rs, ∀ f, r.file = some f → Proper lib f (dev f) (com f))
    {as : List Ans} {w : World} (hrun : run lib p rs World.init = some (as, w)) {i j : Nat} (hij : i ≤ j) {r q : Req}
    (hr : rs[i]? = some r) (hro : r.op = .deviceId) (hq : rs[j]? = some q) {n : Nat} (ha : as[i]? = some (.id n)) (hn : n ≠ 0) :
    (q.op = .deviceId → as[j]? = some (.id n)) ∧
    (∀ k, q.op = .ladder .unique k → ∃ f, hex (dev f).name = some n ∧
      as[j]? = some (.derived (some (p.aesDec (p.aesDec (p.aesDec (dev f).key k.c1.toList) k.c2.toList) k.c3.toList)))) := by
  have h1 := C97_id_partial lib p dev com rs hf hrun hr hro
  rw [h1] at ha
  cases hx : firstFile readsDevice (rs.take (i + 1)) with
  | none =>
    rw [hx] at ha
    simp at ha
    exact absurd ha.symm hn
  | some f =>
    rw [hx] at ha
    have hl := firstFile_later readsDevice rs (show i + 1 ≤ j + 1 by omega) hx
    simp only [Option.some.injEq, Ans.id.injEq] at ha
    constructor
    · intro hqo
      rw [C97_id_partial lib p dev com rs hf hrun hq hqo, hl]
      exact congrArg (fun n => some (Ans.id n)) ha
    · intro k hqo
      refine ⟨f, ?_, ?_⟩
      · cases hh : hex (dev f).name with
        | none =>
          rw [hh] at ha
          exact absurd ha.symm hn
        | some x =>
          rw [hh] at ha
          exact congrArg some ha
      · obtain ⟨as', w', e, _, h⟩ := C96_derived_partial lib p dev com rs hf
        rw [hrun] at e
        cases e
        rw [h j q .unique k hq hqo, hl]
        rfl

end

/-! ### Examples -/

example : convert device0.name = 0xfffffffffffffffe := by rw [C97_number]; decide +kernel

/-- "0A" and "0a" are one, "0b" is another. -/
example : convert [48, 65] = convert [48, 97] ∧ convert [48, 65] ≠ convert [48, 98] :=
  ⟨by decide +kernel, fun h => absurd (C97_distinct (s := [48, 65]) (t := [48, 98]) rfl (by decide) (by decide +kernel) (by decide +kernel) h) (by decide +kernel)⟩

/-- The ID before there is a file, with it, and after it has gone, and then something derived. -/
def requests1 : List Req := [⟨none, [], .deviceId⟩, ⟨some file0, [], .deviceId⟩, ⟨none, [], .deviceId⟩, derive none .unique]

theorem requests1_proper : ∀ r ∈ requests1, ∀ f, r.file = some f → Proper plain f device0 common0 := by
  intro r hr f hf
  simp only [requests1, derive, List.mem_cons, List.not_mem_nil, or_false] at hr
  rcases hr with rfl | rfl | rfl | rfl <;> cases hf <;> exact file0_proper

example : answers requests1 = some [.id 0, .id 0xfffffffffffffffe, .id 0xfffffffffffffffe, .derived (some device0.key)] := by decide +kernel

example {as : List Ans} {w : World} (h : run plain shows requests1 World.init = some (as, w)) (ha : as[1]? = some (.id 0xfffffffffffffffe)) :
    as[2]? = some (.id 0xfffffffffffffffe) :=
  (C97_stays_partial plain shows (fun _ => device0) (fun _ => common0) requests1 requests1_proper h (i := 1) (j := 2) (by decide) rfl rfl rfl ha (by decide)).1 rfl

/-! ### Not so -/

/-- Violated: without a key store the ID is 0, and the status is OK. -/
theorem C97_violated_none {σ : Type} (lib : Lib σ) (junk : Bytes) : (deviceId lib none junk World.init).map Prod.fst = some 0 := rfl

/-- Violated: a name that is no number is refused, but the next request is answered with its key, and the ID is 0 with the status OK. -/
theorem C97_violated_name :
    answers [derive (some [.opened [bagOf ⟨[120, 121], device0.key⟩]]) .unique, derive none .unique, ⟨none, [], .deviceId⟩] =
      some [.derived none, .derived (some device0.key), .id 0] := by decide +kernel

end Sa.Ks.C97

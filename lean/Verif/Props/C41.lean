import Verif.Model.Json

/-!
# C41: JSON documents are represented faithfully

The specification is the sequence of events of a document, in document order.
-/

namespace Sa.C41
open Sa.Js

mutual
/-- The events of a document. -/
def events : Json → List Event
  | .null => [.null]
  | .bool b => [.bool b]
  | .int n => [.int n]
  | .double d => [.double d]
  | .str s => [.str s]
  | .arr l => .startArr :: (elems l ++ [.endArr])
  | .obj l => .startObj :: (members l ++ [.endObj])
def elems : List Json → List Event
  | [] => []
  | v :: rest => events v ++ elems rest
def members : List (Bytes × Json) → List Event
  | [] => []
  | (k, v) :: rest => .key k :: (events v ++ members rest)
end

mutual
/-- All names have at most 255 bytes. -/
def namesOk : Json → Bool
  | .arr l => namesOkElems l
  | .obj l => namesOkMembers l
  | _ => true
def namesOkElems : List Json → Bool
  | [] => true
  | v :: rest => namesOk v && namesOkElems rest
def namesOkMembers : List (Bytes × Json) → Bool
  | [] => true
  | (k, v) :: rest => decide (k.length ≤ 255) && (namesOk v && namesOkMembers rest)
end

theorem run_append (c : Ctx) (a b : List Event) : run c (a ++ b) = (run c a).bind fun c' => run c' b := by
  induction a generalizing c with
  | nil => rfl
  | cons e a ih =>
    show run c (e :: (a ++ b)) = _
    simp only [run]
    cases step c e with
    | none => rfl
    | some c' => exact ih c'

theorem setLast_append (v w : Json) (k : Bytes) (l : List (Bytes × Json)) : setLast v (l ++ [(k, w)]) = l ++ [(k, v)] := by
  induction l with
  | nil => rfl
  | cons e l ih =>
    cases l with
    | nil => rfl
    | cons f l => show e :: setLast v (f :: l ++ [(k, w)]) = _; rw [ih]; rfl

mutual
theorem run_events (j : Json) (c : Ctx) : run c (events j) = if namesOk j then some (setValue c j) else none := by
  match j with
  | .null => rfl
  | .bool b => rfl
  | .int n => rfl
  | .double d => rfl
  | .str s => rfl
  | .arr l =>
    have h := run_elems l [] c.stack c.root
    show run ⟨.arr [] :: c.stack, c.root⟩ (elems l ++ [.endArr]) = if namesOkElems l then _ else _
    rw [run_append, h]
    split <;> rfl
  | .obj l =>
    have h := run_members l [] c.stack c.root
    show run ⟨.obj [] :: c.stack, c.root⟩ (members l ++ [.endObj]) = if namesOkMembers l then _ else _
    rw [run_append, h]
    split <;> rfl
theorem run_elems (l done : List Json) (st : List Json) (root : Json) :
    run ⟨.arr done :: st, root⟩ (elems l) = if namesOkElems l then some ⟨.arr (done ++ l) :: st, root⟩ else none := by
  match l with
  | [] => simp [elems, run, namesOkElems]
  | v :: rest =>
    show run ⟨.arr done :: st, root⟩ (events v ++ elems rest) = if namesOk v && namesOkElems rest then _ else _
    rw [run_append, run_events v]
    by_cases hv : namesOk v = true
    · rw [if_pos hv, hv]
      simp only [Option.bind_some, Bool.true_and]
      show run ⟨.arr (done ++ [v]) :: st, root⟩ _ = _
      rw [run_elems rest (done ++ [v]) st root, List.append_assoc]
      rfl
    · rw [if_neg hv, if_neg (by simp [hv])]
      rfl
theorem run_members (l done : List (Bytes × Json)) (st : List Json) (root : Json) :
    run ⟨.obj done :: st, root⟩ (members l) = if namesOkMembers l then some ⟨.obj (done ++ l) :: st, root⟩ else none := by
  match l with
  | [] => simp [members, run, namesOkMembers]
  | (k, v) :: rest =>
    simp only [members, run, step, mapKey, namesOkMembers]
    by_cases hk : k.length ≤ 255
    · rw [if_neg (by unfold MAX_KEY_LENGTH; omega)]
      simp only [run_append, run_events v, hk, decide_true, Bool.true_and]
      cases hv : namesOk v with
      | false => rfl
      | true =>
        simp only [if_true, Option.bind_some, Bool.true_and]
        show run ⟨.obj (setLast v (done ++ [(k, .null)])) :: st, root⟩ _ = _
        rw [setLast_append, run_members rest (done ++ [(k, v)]) st root, List.append_assoc]
        rfl
    · rw [if_pos (by unfold MAX_KEY_LENGTH; omega)]
      simp [hk]
end

/-- **C41.**  Parsing the events of a document gives exactly that document, whatever its nesting, or nothing; it gives nothing only if the document is `null`
or contains a name of more than 255 bytes. -/
theorem C41_parse (j : Json) : (∀ j', parseBytes (events j) = some j' → j' = j) ∧
    (namesOk j = true → j ≠ .null → parseBytes (events j) = some j) := by
  unfold parseBytes
  rw [run_events]
  cases namesOk j with
  | false => exact ⟨fun _ h => by simp at h, fun h => by simp at h⟩
  | true =>
    simp only [if_true, setValue]
    cases j with
    | null => exact ⟨fun _ h => by simp at h, fun _ h => absurd rfl h⟩
    | bool b => exact ⟨fun _ h => by simpa using h.symm, fun _ _ => rfl⟩
    | int b => exact ⟨fun _ h => by simpa using h.symm, fun _ _ => rfl⟩
    | double b => exact ⟨fun _ h => by simpa using h.symm, fun _ _ => rfl⟩
    | str b => exact ⟨fun _ h => by simpa using h.symm, fun _ _ => rfl⟩
    | arr b => exact ⟨fun _ h => by simpa using h.symm, fun _ _ => rfl⟩
    | obj b => exact ⟨fun _ h => by simpa using h.symm, fun _ _ => rfl⟩

theorem strncmp_eq (a b : Bytes) (h : a.length = b.length) (hz : (0 : UInt8) ∉ b) : strncmpZero b.length a b = true ↔ a = b := by
  induction b generalizing a with
  | nil =>
    cases a with
    | nil => simp [strncmpZero]
    | cons x a => simp at h
  | cons y b ih =>
    cases a with
    | nil => simp at h
    | cons x a =>
      simp only [List.length_cons, Nat.add_right_cancel_iff] at h
      simp only [List.mem_cons, not_or] at hz
      show (if x ≠ y then false else if x = 0 then true else strncmpZero b.length a b) = true ↔ _
      rw [List.cons.injEq]
      by_cases hxy : x = y
      · subst hxy
        rw [if_neg (by simp), if_neg (Ne.symm hz.1), ih a h hz.2]
        simp
      · rw [if_pos hxy]
        simp [hxy]

/-- **C41, lookup.**  Looking up a name (at most 255 bytes, no zero byte) returns the first entry with exactly that name, and nothing if there is none. -/
theorem C41_find (key : Bytes) (hl : key.length ≤ 255) (hz : (0 : UInt8) ∉ key) (l : List (Bytes × Json)) :
    (∀ e, find key l = some e ↔ ∃ pre post, l = pre ++ e :: post ∧ e.1 = key ∧ ∀ x ∈ pre, x.1 ≠ key) ∧
    (find key l = none ↔ ∀ x ∈ l, x.1 ≠ key) := by
  have hp : ∀ e : Bytes × Json, (key.length == e.1.length && strncmpZero key.length e.1 key) = true ↔ e.1 = key := by
    intro e
    rw [Bool.and_eq_true, beq_iff_eq]
    constructor
    · rintro ⟨h1, h2⟩; exact (strncmp_eq _ _ h1.symm hz).mp h2
    · intro h; exact ⟨by rw [h], (strncmp_eq _ _ (by rw [h]) hz).mpr h⟩
  unfold find
  rw [if_neg (by unfold MAX_KEY_LENGTH; omega)]
  constructor
  · intro e
    rw [List.find?_eq_some_iff_append]
    constructor
    · rintro ⟨h1, pre, post, h2, h3⟩
      exact ⟨pre, post, h2, (hp e).mp h1, fun x hx hk => by simpa [(hp x).mpr hk] using h3 x hx⟩
    · rintro ⟨pre, post, h2, h1, h3⟩
      refine ⟨(hp e).mpr h1, pre, post, h2, fun x hx => ?_⟩
      rw [Bool.not_eq_true', Bool.eq_false_iff]
      exact fun h => h3 x hx ((hp x).mp h)
  · rw [List.find?_eq_none]
    exact ⟨fun h x hx hk => h x hx ((hp x).mpr hk), fun h x hx hk => h x hx ((hp x).mp hk)⟩

/-- Both together: a name looked up in a parsed object is the first entry of the document with that name. -/
theorem C41_document (m : List (Bytes × Json)) (hm : namesOkMembers m = true) (key : Bytes) (hl : key.length ≤ 255) (hz : (0 : UInt8) ∉ key) (e : Bytes × Json) :
    (∃ v l, parseBytes (events (.obj m)) = some v ∧ asMap v = some l ∧ find key l = some e) ↔
      ∃ pre post, m = pre ++ e :: post ∧ e.1 = key ∧ ∀ x ∈ pre, x.1 ≠ key := by
  have hp := (C41_parse (.obj m)).2 hm (by simp)
  rw [← (C41_find key hl hz m).1 e]
  constructor
  · rintro ⟨v, l, h1, h2, h3⟩
    rw [hp, Option.some.injEq] at h1
    subst h1
    simp only [asMap, Option.some.injEq] at h2
    subst h2
    exact h3
  · exact fun h => ⟨_, m, hp, rfl, h⟩

/-- `{"a":[null,{"b":1}],"a":"x"}`: nesting, nulls, repeated names. -/
def sample : Json := .obj [([97], .arr [.null, .obj [([98], .int 1)]]), ([97], .str [120])]

example : parseBytes (events sample) = some sample ∧ (events sample).length = 12 := ⟨rfl, rfl⟩
example : find [97] [([97, 0], .int 1), ([97], .int 2), ([97], .int 3)] = some ([97], .int 2) ∧ find [97] [([97, 98], .int 1)] = none := ⟨rfl, rfl⟩

end Sa.C41

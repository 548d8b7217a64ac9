import Verif.Model.Basic

/-!
# JSON documents (`taimpl/src/internal/json.c`)

The text is read by the library yajl, which calls the callbacks of json.c in the order of the document; the model starts from this sequence of events.

Simplifications: memory allocations succeed; a tree of `json_value_t` is the inductive type `Json`, where a NULL pointer is `null` (that is how null is
represented, json.c:733-739).  The lists of `json_map_t` and `json_array_t` begin with a dummy element that is never shown to users (json.c:119-125,
212-218); the dummy is not represented.  Doubles are bit patterns.
-/

namespace Sa.Js

inductive Json where
  | null
  | bool (b : Bool)
  | int (n : Int)
  | double (bits : UInt64)
  | str (s : Bytes)
  | arr (l : List Json)
  | obj (l : List (Bytes × Json))

/-- Calls of yajl. -/
inductive Event where
  | null
  | bool (b : Bool)
  | int (n : Int)
  | double (bits : UInt64)
  | str (s : Bytes)
  | startArr
  | endArr
  | startObj
  | key (k : Bytes)
  | endObj

/-- `MAX_KEY_LENGTH`, json.c:27. -/
def MAX_KEY_LENGTH : Nat := 255

/-- `json_parse_context_t`, json.c:332-336; the top of the stack is first. -/
structure Ctx where
  stack : List Json
  root : Json

/-- `json_map_set_value` on the last element of the list, json.c:127-137, 180-190; with no element it goes to the dummy. -/
def setLast (v : Json) : List (Bytes × Json) → List (Bytes × Json)
  | [] => []
  | [(k, _)] => [(k, v)]
  | e :: f :: rest => e :: setLast v (f :: rest)

/-- `json_parse_context_set_value`, json.c:418-464. -/
def setValue (c : Ctx) (v : Json) : Ctx :=
  match c.stack with
  | [] => { c with root := v }
  | .obj l :: rest => { c with stack := .obj (setLast v l) :: rest }
  | .arr l :: rest => { c with stack := .arr (l ++ [v]) :: rest }
  | _ :: _ => c

/-- `json_parse_context_pop`, json.c:466-483. -/
def pop (c : Ctx) : Ctx :=
  match c.stack with
  | [] => c
  | v :: rest => setValue { c with stack := rest } v

/-- `map_key_callback`, json.c:764-809; `none` is the return value 0, with which yajl stops. -/
def mapKey (c : Ctx) (k : Bytes) : Option Ctx :=
  match c.stack with
  | .obj l :: rest => if k.length > MAX_KEY_LENGTH then none else some { c with stack := .obj (l ++ [(k, .null)]) :: rest }
  | _ => none

/-- The callbacks, json.c:679-864. -/
def step (c : Ctx) : Event → Option Ctx
  | .null => some (setValue c .null)
  | .bool b => some (setValue c (.bool b))
  | .int n => some (setValue c (.int n))
  | .double d => some (setValue c (.double d))
  | .str s => some (setValue c (.str s))
  | .startArr => some { c with stack := .arr [] :: c.stack }
  | .startObj => some { c with stack := .obj [] :: c.stack }
  | .endArr => some (pop c)
  | .endObj => some (pop c)
  | .key k => mapKey c k

/-- `yajl_parse`: the callbacks in turn. -/
def run (c : Ctx) : List Event → Option Ctx
  | [] => some c
  | e :: rest =>
    match step c e with
    | none => none
    | some c' => run c' rest

/-- `json_parse_bytes`, json.c:866-906, for a text whose events are `es`.  `none` is NULL; a root that is NULL is not distinguished from failure. -/
def parseBytes (es : List Event) : Option Json :=
  match run ⟨[], .null⟩ es with
  | none => none
  | some c => match c.root with
    | .null => none
    | v => some v

/-- `json_value_as_bool`, json.c:936-953: false if it is not a boolean. -/
def asBool : Json → Bool
  | .bool b => b
  | _ => false

/-- `json_value_as_integer`, json.c:1046-1063: 0 if it is not an integer. -/
def asInteger : Json → Int
  | .int n => n
  | _ => 0

/-- `json_value_as_string`, json.c:1065-1089; `none` is NULL, and then the size is not written. -/
def asString : Json → Option Bytes
  | .str s => some s
  | _ => none

/-- `json_value_as_array`, json.c:974-1007; `none` is NULL, and then the count is not written. -/
def asArray : Json → Option (List Json)
  | .arr l => some l
  | _ => none

/-- `json_value_as_map`, json.c:1009-1044. -/
def asMap : Json → Option (List (Bytes × Json))
  | .obj l => some l
  | _ => none

/-- `strncmp(a, b, n) == 0` for strings with a terminating zero behind them. -/
def strncmpZero : Nat → Bytes → Bytes → Bool
  | 0, _, _ => true
  | n + 1, a, b =>
    let x := a.headD 0
    let y := b.headD 0
    if x ≠ y then false else if x = 0 then true else strncmpZero n a.tail b.tail

/-- `json_key_value_find`, json.c:1109-1137.  `key` is a string without zero bytes. -/
def find (key : Bytes) (l : List (Bytes × Json)) : Option (Bytes × Json) :=
  if key.length ≥ MAX_KEY_LENGTH + 1 then none
  else l.find? fun e => key.length == e.1.length && strncmpZero key.length e.1 key

end Sa.Js

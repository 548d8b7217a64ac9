import Verif.Lemmas.Soc

/-! A sample container and a sample environment, for the concrete cases of C42, C43, C59–C61. -/

namespace Sa.Kc.Sample

/-- Stand-ins for the cryptographic primitives: decryption is the identity, every tag is sixteen `m`. -/
def prims : UnwrapPrims where
  aesCtr _ _ m := m
  gcmDec _ _ m := m
  gcmTag _ _ _ _ := List.replicate 16 0x6d
  chacha20 _ _ m := m
  polyDec _ _ m := m
  polyTag _ _ _ _ := List.replicate 16 0
  rsaPkcs1 _ m := some m
  rsaOaep _ _ _ _ m := some m
  elgamal _ _ m := some m
  ecValid _ _ := false
  rsaSize _ := 0

/-- A stand-in for base64: the characters before the padding, at most three for each group of four. -/
def bio (d : Bytes) : Option Bytes := some ((d.filter (· ≠ 0x3d)).take (d.length / 4 * 3))

/-- yajl for two texts: `hhh` is the text of `hdr`, any other the text of `pl`. -/
def env (hdr pl : List Js.Event) (junkLength : Nat) : Env :=
  ⟨bio, fun n => List.replicate n 0x3d, junkLength, fun _ => [], fun t => some (if t = ascii "hhh" then hdr else pl)⟩

theorem env_good (hdr pl : List Js.Event) (j : Nat) : (env hdr pl j).Good := by
  refine ⟨fun d r h => ?_, fun n => by simp [env]⟩
  simp only [env, bio, Option.some.injEq] at h
  subst h
  rw [List.length_take]
  omega

def hdrEvents : List Js.Event := [.startObj, .key (ascii "alg"), .str (ascii "A128GCM"), .endObj]

/-- The events of a payload with the given fields. -/
def payloadEvents (l : List (String × List Js.Event)) : List Js.Event := .startObj :: (l.flatMap fun e => .key (ascii e.1) :: e.2) ++ [.endObj]

def str (s : String) : List Js.Event := [.str (ascii s)]

/-- Sixteen bytes in base64. -/
def b16 : String := "AAAAAAAAAAAAAAAA========"
/-- Twelve bytes in base64. -/
def b12 : String := "AAAAAAAAAAAAAAAA"

/-- A payload of version 4 with the given key type, encrypted key, initialisation vector and TA identifiers. -/
def payload (keyType : String) (encryptedKey iv taIds : List Js.Event) : List Js.Event :=
  payloadEvents [("containerVersion", [.int 4]), ("keyType", str keyType), ("encryptedKey", encryptedKey), ("iv", iv), ("keyUsage", [.int 1]),
    ("entitledTaIds", taIds), ("c1", str b16), ("c2", str b16), ("c3", str b16)]

def socEnv (pl : List Js.Event) (junkLength : Nat) : SocEnv :=
  ⟨env hdrEvents pl junkLength, fun _ _ _ _ => .ok (List.replicate 16 0), prims, true, true⟩

/-- `hhhh.pppp.mmmm` -/
def text : Bytes := ascii "hhhh.pppp.mmmm"

/-- Type and size of the key, if there is one. -/
def outcome (r : P (Option StoredKey)) : Option (UInt8 × UInt16) :=
  match r.res with
  | .ok (some sk) => some (sk.header.type, sk.header.size)
  | _ => none

end Sa.Kc.Sample

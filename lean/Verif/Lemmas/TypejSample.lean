import Verif.Lemmas.Typej
import Verif.Lemmas.SocSample
import Verif.Props.C27
import Verif.Props.C47
import Verif.Props.C53

/-! A sample Type-J container and a sample environment, for the concrete cases of C40, C61, C62. -/

namespace Sa.Kc.Tj

/-- A stand-in for base64 that refuses `xxxx` and stops after 4096 bytes. -/
def bio (d : Bytes) : Option Bytes := if d = ascii "xxxx" then none else some ((d.filter (· ≠ 0x3d)).take (min (d.length / 4 * 3) 4096))

/-- A stand-in for the hash functions: the HMAC is thirty-two `m`. -/
def kdf : KdfPrims := ⟨fun _ m => m, fun _ _ _ => List.replicate 32 0x6d, fun _ _ => List.replicate 16 0⟩

def env (pl : List Js.Event) (junkLength : Nat) : TjEnv where
  kc := { Sample.env Sample.hdrEvents pl junkLength with bio := bio }
  strptime := C47.strict
  kdf := kdf
  hmacOk := true
  ks := C08.env0
  u := C53.uenv

theorem env_good (pl : List Js.Event) (j : Nat) : (env pl j).Good := by
  refine ⟨⟨fun d r h => ?_, fun n => by simp [env, Sample.env]⟩, fun d r h => ?_, C08.toy_good, C53.toyU_good⟩
  · simp only [env, bio] at h
    split at h
    · exact nomatch h
    · cases h; rw [List.length_take]; omega
  · simp only [env, bio] at h
    split at h
    · exact nomatch h
    · cases h; rw [List.length_take]; omega

/-- The text of thirty-two `m`. -/
def mac : Bytes := List.replicate 32 0x6d ++ List.replicate 12 0x3d

/-- An authentic text. -/
def text : Bytes := ascii "hhhh.pppp." ++ mac

/-- The fields about the rights: SVP optional, HDCP 1.4, analog; key for encryption of data; 2020 to 2030; cacheable. -/
def rightsFields (taIds : List (String × List Js.Event)) : List (String × List Js.Event) :=
  [("contentKeyId", Sample.str "key"), ("contentKeyRights", [.str [3, 5, 4, 0x3d]]), ("contentKeyUsage", [.int 1]),
    ("contentKeyNotBefore", Sample.str "2020-01-01T00:00:00Z"), ("contentKeyNotOnOrAfter", Sample.str "2030-01-01T00:00:00Z"),
    ("contentKeyCacheable", [.bool true])] ++ taIds

def v1 (taIds : List (String × List Js.Event)) (contentKey : List Js.Event) : List Js.Event :=
  Sample.payloadEvents (rightsFields taIds ++ [("contentKey", contentKey)])

def v2 (alg : String) (contentKey iv : List Js.Event) (length : Int) : List Js.Event :=
  Sample.payloadEvents (rightsFields [] ++ [("contentKeyContainerVersion", [.int 2]), ("contentKeyTransportAlgorithm", Sample.str alg), ("contentKey", contentKey),
    ("contentKeyTransportIv", iv), ("contentKeyLength", [.int length])])

end Sa.Kc.Tj

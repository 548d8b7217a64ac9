import Verif.Model.Basic

/-!
# Supported key types and sizes (`taimpl/src/internal/key_type.c`, `ec.c: ec_key_size_from_curve`)
-/

namespace Sa

/-! `sa_key_type`, sa_types.h. -/
def KEY_TYPE_SYMMETRIC : Nat := 0
def KEY_TYPE_EC : Nat := 1
def KEY_TYPE_RSA : Nat := 2
def KEY_TYPE_DH : Nat := 3

/-! `sa_elliptic_curve`, sa_types.h. -/
def CURVE_P256 : Nat := 0
def CURVE_P384 : Nat := 1
def CURVE_P521 : Nat := 2
def CURVE_ED25519 : Nat := 3
def CURVE_X25519 : Nat := 4
def CURVE_ED448 : Nat := 5
def CURVE_X448 : Nat := 6
def CURVE_P192 : Nat := 7
def CURVE_P224 : Nat := 8

/-- `ec_key_size_from_curve`, ec.c:98-128; sizes from util/include/common.h:37-44. -/
def ecKeySizeFromCurve (curve : Nat) : Nat :=
  match curve with
  | 7 => 24
  | 8 => 28
  | 0 => 32
  | 1 => 48
  | 2 => 66
  | 3 => 32
  | 4 => 32
  | 5 => 57
  | 6 => 56
  | _ => 0

/-- `valid_aes_size`, key_type.c:23-25. -/
def validAesSize (size : Nat) : Bool := size == 16 || size == 32

/-- `valid_hmac_size`, key_type.c:27-29. -/
def validHmacSize (size : Nat) : Bool := decide (size ≥ 16) && decide (size ≤ 512)

/-- `valid_rsa_size`, key_type.c:31-34. -/
def validRsaSize (size : Nat) : Bool := size == 128 || size == 256 || size == 384 || size == 512

/-- `valid_ec_size`, key_type.c:36-46. -/
def validEcSize (curve size : Nat) : Bool :=
  (curve == CURVE_P192 && size == ecKeySizeFromCurve CURVE_P192) ||
  (curve == CURVE_P224 && size == ecKeySizeFromCurve CURVE_P224) ||
  (curve == CURVE_P256 && size == ecKeySizeFromCurve CURVE_P256) ||
  (curve == CURVE_P384 && size == ecKeySizeFromCurve CURVE_P384) ||
  (curve == CURVE_P521 && size == ecKeySizeFromCurve CURVE_P521) ||
  (curve == CURVE_ED25519 && size == ecKeySizeFromCurve CURVE_ED25519) ||
  (curve == CURVE_X25519 && size == ecKeySizeFromCurve CURVE_X25519) ||
  (curve == CURVE_ED448 && size == ecKeySizeFromCurve CURVE_ED448) ||
  (curve == CURVE_X448 && size == ecKeySizeFromCurve CURVE_X448)

/-- `valid_dh_size`, key_type.c:48-50. -/
def validDhSize (size : Nat) : Bool := decide (size ≤ 512) && decide (size > 0)

/-- `key_type_supports_aes`, key_type.c:52-54. -/
def keyTypeSupportsAes (keyType size : Nat) : Bool := keyType == KEY_TYPE_SYMMETRIC && validAesSize size
/-- `key_type_supports_hmac`, key_type.c:56-58. -/
def keyTypeSupportsHmac (keyType size : Nat) : Bool := keyType == KEY_TYPE_SYMMETRIC && validHmacSize size
/-- `key_type_supports_rsa`, key_type.c:60-62. -/
def keyTypeSupportsRsa (keyType size : Nat) : Bool := keyType == KEY_TYPE_RSA && validRsaSize size
/-- `key_type_supports_ec`, key_type.c:64-66. -/
def keyTypeSupportsEc (keyType curve size : Nat) : Bool := keyType == KEY_TYPE_EC && validEcSize curve size
/-- `key_type_supports_dh`, key_type.c:68-70. -/
def keyTypeSupportsDh (keyType size : Nat) : Bool := keyType == KEY_TYPE_DH && validDhSize size
/-- `key_type_supports_chacha20`, key_type.c:78-80. -/
def keyTypeSupportsChacha20 (keyType size : Nat) : Bool := keyType == KEY_TYPE_SYMMETRIC && size == 32

/-- `key_type_supports_any`, key_type.c:72-76.  The parameter `ec_curve` is a `uint8_t`: the 32-bit curve of the caller is
truncated. -/
def keyTypeSupportsAny (keyType curve size : Nat) : Bool :=
  keyTypeSupportsAes keyType size || keyTypeSupportsHmac keyType size || keyTypeSupportsRsa keyType size ||
    keyTypeSupportsEc keyType (curve % 256) size || keyTypeSupportsDh keyType size

end Sa

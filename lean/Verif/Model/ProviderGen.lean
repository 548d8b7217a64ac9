import Verif.Model.ProviderSign

/-!
# Generation, comparison and import of keys by the OpenSSL 3 provider (`client/src/sa_provider_keymgt.c`)

Who holds key data is modelled in `ProviderKey`; here it is what keys the API is asked for.  `type_parameters` is a union: the curve lies over the first
four bytes of the prime, least significant first (little endian machine).  NULL arguments, failing allocations and parameters of the wrong type are left
out.  `keymgmt_gen_init` is called by OpenSSL without parameters.
-/

namespace Sa.Pg

open Sa.Psig (minBytes)

/-- The seven dispatch tables, sa_provider_keymgt.c:1130-1136. -/
inductive Kind
  | rsa | ec | dh | x25519 | x448 | ed25519 | ed448
  deriving DecidableEq

/-- `sa_type_parameters`, sa_types.h:503-518: `p` and `g` have 512 bytes. -/
structure TypeParams where
  p : Bytes
  pLen : Nat
  g : Bytes
  gLen : Nat
  deriving DecidableEq

def TypeParams.zero : TypeParams := { p := List.replicate 512 0, pLen := 0, g := List.replicate 512 0, gLen := 0 }

/-- Four bytes, least significant first. -/
def le4 (n : Nat) : Bytes := [UInt8.ofNat n, UInt8.ofNat (n / 256), UInt8.ofNat (n / 65536), UInt8.ofNat (n / 16777216)]

def fromLe : Bytes → Nat
  | [] => 0
  | b :: bs => b.toNat + 256 * fromLe bs

/-- The member `curve` of the union. -/
def TypeParams.curve (t : TypeParams) : Nat := fromLe (t.p.take 4)

def TypeParams.setCurve (t : TypeParams) (c : Nat) : TypeParams := { t with p := le4 c ++ t.p.drop 4 }

/-- `memcpy` to the beginning of an array. -/
def over (a b : Bytes) : Bytes := b ++ a.drop b.length

def UINT32_MAX : Nat := 4294967295

/-- `ec_get_curve_from_name`, sa_provider_keymgt.c:176-205. -/
def curveFromName (n : String) : Nat :=
  if n = "prime192v1" ∨ n = "P-192" then CURVE_P192
  else if n = "secp224r1" ∨ n = "P-224" then CURVE_P224
  else if n = "prime256v1" ∨ n = "P-256" then CURVE_P256
  else if n = "secp384r1" ∨ n = "P-384" then CURVE_P384
  else if n = "secp521r1" ∨ n = "P-521" then CURVE_P521
  else if n = "ED25519" then CURVE_ED25519
  else if n = "X25519" then CURVE_X25519
  else if n = "ED448" then CURVE_ED448
  else if n = "X448" then CURVE_X448
  else UINT32_MAX

/-- `MODP_2048_P`, sa_provider_keymgt.c:50-72. -/
def modp2048 : Bytes :=
  [0xff, 0xff, 0xff, 0xff, 0xff, 0xff, 0xff, 0xff, 0xc9, 0x0f, 0xda, 0xa2, 0x21, 0x68, 0xc2, 0x34,
  0xc4, 0xc6, 0x62, 0x8b, 0x80, 0xdc, 0x1c, 0xd1, 0x29, 0x02, 0x4e, 0x08, 0x8a, 0x67, 0xcc, 0x74,
  0x02, 0x0b, 0xbe, 0xa6, 0x3b, 0x13, 0x9b, 0x22, 0x51, 0x4a, 0x08, 0x79, 0x8e, 0x34, 0x04, 0xdd,
  0xef, 0x95, 0x19, 0xb3, 0xcd, 0x3a, 0x43, 0x1b, 0x30, 0x2b, 0x0a, 0x6d, 0xf2, 0x5f, 0x14, 0x37,
  0x4f, 0xe1, 0x35, 0x6d, 0x6d, 0x51, 0xc2, 0x45, 0xe4, 0x85, 0xb5, 0x76, 0x62, 0x5e, 0x7e, 0xc6,
  0xf4, 0x4c, 0x42, 0xe9, 0xa6, 0x37, 0xed, 0x6b, 0x0b, 0xff, 0x5c, 0xb6, 0xf4, 0x06, 0xb7, 0xed,
  0xee, 0x38, 0x6b, 0xfb, 0x5a, 0x89, 0x9f, 0xa5, 0xae, 0x9f, 0x24, 0x11, 0x7c, 0x4b, 0x1f, 0xe6,
  0x49, 0x28, 0x66, 0x51, 0xec, 0xe4, 0x5b, 0x3d, 0xc2, 0x00, 0x7c, 0xb8, 0xa1, 0x63, 0xbf, 0x05,
  0x98, 0xda, 0x48, 0x36, 0x1c, 0x55, 0xd3, 0x9a, 0x69, 0x16, 0x3f, 0xa8, 0xfd, 0x24, 0xcf, 0x5f,
  0x83, 0x65, 0x5d, 0x23, 0xdc, 0xa3, 0xad, 0x96, 0x1c, 0x62, 0xf3, 0x56, 0x20, 0x85, 0x52, 0xbb,
  0x9e, 0xd5, 0x29, 0x07, 0x70, 0x96, 0x96, 0x6d, 0x67, 0x0c, 0x35, 0x4e, 0x4a, 0xbc, 0x98, 0x04,
  0xf1, 0x74, 0x6c, 0x08, 0xca, 0x18, 0x21, 0x7c, 0x32, 0x90, 0x5e, 0x46, 0x2e, 0x36, 0xce, 0x3b,
  0xe3, 0x9e, 0x77, 0x2c, 0x18, 0x0e, 0x86, 0x03, 0x9b, 0x27, 0x83, 0xa2, 0xec, 0x07, 0xa2, 0x8f,
  0xb5, 0xc5, 0x5d, 0xf0, 0x6f, 0x4c, 0x52, 0xc9, 0xde, 0x2b, 0xcb, 0xf6, 0x95, 0x58, 0x17, 0x18,
  0x39, 0x95, 0x49, 0x7c, 0xea, 0x95, 0x6a, 0xe5, 0x15, 0xd2, 0x26, 0x18, 0x98, 0xfa, 0x05, 0x10,
  0x15, 0x72, 0x8e, 0x5a, 0x8a, 0xac, 0xaa, 0x68, 0xff, 0xff, 0xff, 0xff, 0xff, 0xff, 0xff, 0xff]

/-- `sa_provider_key_gen_context`, sa_provider_keymgt.c:36-44. -/
structure Gen where
  kind : Kind
  keySize : Nat
  tp : TypeParams
  deriving DecidableEq

/-- `keymgmt_gen_init`, sa_provider_keymgt.c:764-835. -/
def genInit (k : Kind) : Gen :=
  match k with
  | .rsa => { kind := k, keySize := 256, tp := TypeParams.zero.setCurve UINT32_MAX }
  | .dh => { kind := k, keySize := 256, tp := { p := over TypeParams.zero.p modp2048, pLen := 256, g := over TypeParams.zero.g [2], gLen := 1 } }
  | .ec => { kind := k, keySize := 0, tp := TypeParams.zero.setCurve CURVE_P256 }
  | .x25519 => { kind := k, keySize := 0, tp := TypeParams.zero.setCurve CURVE_X25519 }
  | .x448 => { kind := k, keySize := 0, tp := TypeParams.zero.setCurve CURVE_X448 }
  | .ed25519 => { kind := k, keySize := 0, tp := TypeParams.zero.setCurve CURVE_ED25519 }
  | .ed448 => { kind := k, keySize := 0, tp := TypeParams.zero.setCurve CURVE_ED448 }

/-- The members of `sa_header` that matter here. -/
structure Header where
  size : Nat
  tp : TypeParams
  deriving DecidableEq

/-- sa_provider_keymgt.c:971-980. -/
def setBits (g : Gen) : Option Nat → Gen
  | none => g
  | some n => { g with keySize := n / 8 }

/-- `keymgmt_gen_set_params`, sa_provider_keymgt.c:958-999: `bits` and `group` are the parameters, which are looked at whatever the kind of key. -/
def setParams (g : Gen) (bits : Option Nat) (group : Option String) : Gen × Bool :=
  let g := setBits g bits
  match group with
  | none => (g, true)
  | some n => ({ g with tp := g.tp.setCurve (curveFromName n) }, (curveFromName n) != UINT32_MAX)

/-- `keymgmt_gen_set_template`, sa_provider_keymgt.c:837-856. -/
def setTemplate (g : Gen) (h : Header) : Gen := { g with keySize := h.size, tp := h.tp }

/-- What `sa_key_generate` is asked for. -/
inductive Req
  | rsa (bytes : Nat)
  | ec (curve : Nat)
  | dh (p g : Bytes)
  deriving DecidableEq

/-- `keymgmt_gen` for a key pair, sa_provider_keymgt.c:870-905. -/
def request (g : Gen) : Req :=
  match g.kind with
  | .rsa => .rsa g.keySize
  | .dh => .dh (g.tp.p.take g.tp.pLen) (g.tp.g.take g.tp.gLen)
  | _ => .ec g.tp.curve

/-- `keymgmt_gen` for parameters only, sa_provider_keymgt.c:934-946. -/
def params (g : Gen) : Header := { size := g.keySize, tp := g.tp }

/-- `ec_get_key_size`, sa_public_key.c:38-68. -/
def keySizeOf (curve : Nat) : Nat :=
  match curve with
  | 7 => 24
  | 8 => 28
  | 0 => 32
  | 1 => 48
  | 2 => 66
  | 3 => 32
  | 4 => 32
  | 5 => 57
  | 6 => 56
  | _ => 0

/-- What an application gives to `EVP_PKEY_fromdata` with a selection of parameters only: prime and generator, group name, or bits. -/
inductive Given
  | dh (p g : Nat)
  | group (name : String)
  | bits (n : Nat)
  | nothing

/-- `keymgmt_import` without private key, sa_provider_keymgt.c:424-495, from a header of zeros; `none`: bytes are written behind an array. -/
def importParams (k : Kind) (d : Given) : Option Header :=
  let zero : Header := { size := 0, tp := TypeParams.zero }
  match k, d with
  | .dh, .dh p g =>
    let pb := (minBytes p).reverse
    let gb := (minBytes g).reverse
    if pb.length > 512 ∨ gb.length > 512 then none
    else some { size := pb.length, tp := { p := over TypeParams.zero.p pb, pLen := pb.length, g := over TypeParams.zero.g gb, gLen := gb.length } }
  | .ec, .group n => some { size := keySizeOf (curveFromName n), tp := TypeParams.zero.setCurve (curveFromName n) }
  | .rsa, .bits n => some { size := n / 8, tp := TypeParams.zero }
  | .x25519, _ => some { size := 32, tp := TypeParams.zero.setCurve CURVE_X25519 }
  | .x448, _ => some { size := 56, tp := TypeParams.zero.setCurve CURVE_X448 }
  | .ed25519, _ => some { size := 32, tp := TypeParams.zero.setCurve CURVE_ED25519 }
  | .ed448, _ => some { size := 57, tp := TypeParams.zero.setCurve CURVE_ED448 }
  | _, _ => some zero

/-- What the functions that compare look at: the handle of the private key, `none` if there is none (`INVALID_HANDLE`). -/
structure KeyData where
  priv : Option Nat
  deriving DecidableEq

/-- `keymgmt_match`, sa_provider_keymgt.c:279-297: both pointers are set to the first key. -/
def keyMatch (a _b : KeyData) : Bool :=
  let key_data1 := a
  let key_data2 := a
  key_data1.priv == key_data2.priv

/-- `keymgmt_has`, sa_provider_keymgt.c:266-277: the selection is ignored. -/
def keyHas (a : KeyData) (_selection : Nat) : Bool := a.priv.isSome

end Sa.Pg

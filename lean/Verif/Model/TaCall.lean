import Verif.Model.ClientLib

/-!
# The arguments with which the command handler calls the functions of the TA, `taimpl/src/internal/ta.c`

`Model/Dispatch.lean` lists the memory accesses of the handler.  Here are the values: `received id p` is the call of the function `ta_sa_*` that the handler
makes for command `id` with parameters `p`, or the status with which it refuses the command.

Simplifications: as in `Model/Dispatch.lean`; allocations succeed.  Only parameters whose memory has the given size are meant (`TaParam.WF`, C37); reads of
structures that are shorter than expected are not modelled here.
-/

namespace Sa.Cl
open Sa.Ta

/-- `n` bytes of a structure, from offset `off`. -/
def slice (b : Bytes) (off n : Nat) : Bytes := (b.drop off).take n

/-- A parameter as pointer and length. -/
def inOf (q : TaParam) : In := ⟨q.mem, q.size⟩

/-- `if (x->api_version != API_VERSION) return SA_STATUS_INVALID_PARAMETER;` -/
def versioned (cmd : Bytes) (k : Except Status Call) : Except Status Call := if fld cmd 0 1 ≠ 1 then invalidP else k

/-- The checks of the commands that have no other parameter, see `Ta.invokeOnly`, `Ta.invokeOnlyIn`. -/
def only (io : Bool) (size : Nat) (cmd : Bytes) (p : Params) (c : Call) : Except Status Call :=
  if (if io then notInOut (p 0) else notIn (p 0)) || (p 0).size != size || notNull (p 1) || notNull (p 2) || notNull (p 3) then invalidP
  else versioned cmd (.ok c)

/-- The checks of the commands that have an output, see `Ta.invokeOut`. -/
def withOut (size : Nat) (cmd : Bytes) (p : Params) (c : Bool → Nat → Call) : Except Status Call :=
  if notInOut (p 0) || (p 0).size != size || (notOut (p 1) && notNull (p 1)) || notNull (p 2) || notNull (p 3) then invalidP
  else if notNull (p 1) && (p 1).size != fld cmd 8 8 then invalidP
  else versioned cmd (.ok (c (p 1).mem.isSome (fld cmd 8 8)))

/-- ta.c:150-210 -/
def taKeyGenerate (cmd : Bytes) (p : Params) : Except Status Call :=
  let call (prm : GenPrm) := .ok (.keyGenerate (fld cmd 8 8) (slice cmd 16 608) (fld cmd 624 4) prm)
  if notInOut (p 0) || (p 0).size != 640 || (notIn (p 1) && notNull (p 1)) || (notIn (p 2) && notNull (p 2)) || notNull (p 3) then invalidP
  else versioned cmd <|
    match fld cmd 624 4 with
    | 0 => call (.length (fld cmd 632 8))
    | 2 => call (.length (fld cmd 632 8))
    | 1 => call (.curve (fld cmd 632 8 % 2 ^ 32))                     -- the enumeration has 32 bits
    | 3 => if (p 1).mem.isNone || (p 2).mem.isNone then nullP else call (.dh (inOf (p 1)) (inOf (p 2)))
    | _ => call .none

/-- ta.c:212-245 -/
def taKeyExport (cmd : Bytes) (p : Params) : Except Status Call :=
  if notInOut (p 0) || (p 0).size != 24 || (notOut (p 1) && notNull (p 1)) || (notIn (p 2) && notNull (p 2)) || notNull (p 3) then invalidP
  else if notNull (p 1) && (p 1).size != fld cmd 8 8 then invalidP
  else versioned cmd (.ok (.keyExport (p 1).mem.isSome (fld cmd 8 8) (inOf (p 2)) (fld cmd 16 8)))

/-- The rights of a clear key, ta.c:285-332. -/
def taRights (p : Params) (k : Bytes → Except Status Call) : Except Status Call :=
  if notIn (p 2) then nullP
  else match (p 2).mem with
  | none => nullP
  | some b => if (p 2).size != 608 then invalidP else k b

/-- ta.c:247-373 -/
def taKeyImport (cmd : Bytes) (p : Params) : Except Status Call :=
  let call (prm : ImpPrm) := .ok (.keyImport (fld cmd 8 8) (fld cmd 16 4) (inOf (p 1)) prm)
  if notInOut (p 0) || (p 0).size != 24 || notIn (p 1) || (notIn (p 2) && notNull (p 2)) || notNull (p 3) then invalidP
  else if (p 1).mem.isNone || (p 1).size == 0 then nullP
  else versioned cmd <|
    match fld cmd 16 4 with
    | 0 => taRights p (fun b => call (.rights b))
    | 2 => taRights p (fun b => call (.rights b))
    | 1 => taRights p (fun b => call (.ec b (fld cmd 20 4)))
    | 3 => if notNull (p 2) then nullP else call .none
    | 5 =>
      if notIn (p 2) then nullP
      else match (p 2).mem with
      | none => nullP
      | some b => if (p 2).size != 16 then invalidP else call (.typej (fld b 0 8) (fld b 8 8))
    | 4 =>
      if isIn (p 2) then
        match (p 2).mem with
        | none => nullP
        | some b => if (p 2).size == 0 then nullP else call (.soc b)
      else call .none
    | _ => call .none

/-- The structure in parameter 2 of an unwrap command. -/
def taStruct (p : Params) (size : Nat) (k : Bytes → Except Status Call) : Except Status Call :=
  match (p 2).mem with
  | none => nullP
  | some b => if (p 2).size != size then invalidP else k b

/-- The parameters of the algorithm, ta.c:552-693. -/
def taUnwrapPrm (alg : Nat) (p : Params) (call : UnwPrm → Except Status Call) : Except Status Call :=
  match alg with
  | 2 => taStruct p 16 fun b => call (.iv ⟨some (slice b 0 16), 16⟩)
  | 3 => taStruct p 16 fun b => call (.iv ⟨some (slice b 0 16), 16⟩)
  | 4 => taStruct p 16 fun b => call (.iv ⟨some (slice b 0 16), 16⟩)
  | 5 => taStruct p 48 fun b => if (p 3).mem.isNone then nullP else
      call (.aead ⟨some (slice b 0 12), fld b 16 8⟩ (inOf (p 3)) ⟨some (slice b 24 (min 16 (fld b 40 8))), fld b 40 8⟩)
  | 10 => taStruct p 48 fun b => if (p 3).mem.isNone then nullP else
      call (.aead ⟨some (slice b 0 12), fld b 16 8⟩ (inOf (p 3)) ⟨some (slice b 24 (min 16 (fld b 40 8))), fld b 40 8⟩)
  | 9 => taStruct p 40 fun b => call (.chacha ⟨some (slice b 0 4), fld b 8 8⟩ ⟨some (slice b 16 12), fld b 32 8⟩)
  | 8 => taStruct p 16 fun b => call (.elgamal (fld b 0 8) (fld b 8 8))
  | 7 => taStruct p 8 fun b => call (.oaep (fld b 0 4) (fld b 4 4) (inOf (p 3)))
  | _ => call .none

/-- ta.c:511-701 -/
def taKeyUnwrap (cmd : Bytes) (p : Params) : Except Status Call :=
  if notInOut (p 0) || (p 0).size != 648 || (notIn (p 1) && notNull (p 1)) || (notIn (p 2) && notNull (p 2)) || (notIn (p 3) && notNull (p 3)) then invalidP
  else versioned cmd <| taUnwrapPrm (fld cmd 632 4) p fun prm =>
    .ok (.keyUnwrap (fld cmd 8 8) (slice cmd 16 608) (fld cmd 624 4) (if fld cmd 624 4 = 1 then some (fld cmd 628 4) else none) (fld cmd 632 4) prm
      (fld cmd 640 8) (inOf (p 1)))

/-- The structure in parameter 1 of a derive command. -/
def taStruct1 (p : Params) (k : Bytes → Except Status Call) : Except Status Call :=
  match (p 1).mem with
  | none => nullP
  | some b => k b

/-- The parameters of the algorithm, ta.c:761-866. -/
def taDerivePrm (alg : Nat) (p : Params) (call : KdfPrm → Except Status Call) : Except Status Call :=
  let ladder (b : Bytes) : KdfPrm := .ladder ⟨some (slice b 0 16), 16⟩ ⟨some (slice b 16 16), 16⟩ ⟨some (slice b 32 16), 16⟩ ⟨some (slice b 48 16), 16⟩
  match alg with
  | 0 => taStruct1 p fun b => call (ladder b)
  | 6 => taStruct1 p fun b => call (ladder b)
  | 1 => taStruct1 p fun b => call (.hkdf (fld b 0 8) (fld b 8 4) (fld b 16 8) (inOf (p 3)) (inOf (p 2)))
  | 2 => taStruct1 p fun b => call (.info (fld b 0 8) (fld b 8 4) (fld b 16 8) (inOf (p 2)))
  | 3 => taStruct1 p fun b => call (.info (fld b 0 8) (fld b 8 4) (fld b 16 8) (inOf (p 2)))
  | 4 => taStruct1 p fun b => call (.cmac (fld b 0 8) (fld b 8 8) (fld b 16 1) (inOf (p 2)))
  | 5 => taStruct1 p fun b => call (.netflix (fld b 0 8) (fld b 8 8))
  | _ => invalidP

/-- ta.c:737-871 -/
def taKeyDerive (cmd : Bytes) (p : Params) : Except Status Call :=
  if notInOut (p 0) || (p 0).size != 632 || (notIn (p 1) && notNull (p 1)) || (notIn (p 2) && notNull (p 2)) || (notIn (p 3) && notNull (p 3)) then invalidP
  else versioned cmd <| taDerivePrm (fld cmd 624 4) p fun prm => .ok (.keyDerive (fld cmd 8 8) (slice cmd 16 608) (fld cmd 624 4) prm)

/-- ta.c:873-929 -/
def taKeyExchange (cmd : Bytes) (p : Params) : Except Status Call :=
  let call (prm : ExPrm) := .ok (.keyExchange (fld cmd 8 8) (slice cmd 16 608) (fld cmd 624 4) (fld cmd 632 8) (inOf (p 1)) prm)
  if notInOut (p 0) || (p 0).size != 640 || notIn (p 1) || (notInOut (p 2) && notNull (p 2)) || notNull (p 3) then invalidP
  else if (p 1).mem.isNone || (p 1).size == 0 then nullP
  else versioned cmd <|
    if fld cmd 624 4 = 2 then
      match (p 2).mem with
      | none => nullP
      | some b => if (p 2).size != 1240 then invalidP
        else call (.netflix (fld b 0 8) (fld b 8 8) (slice b 16 608) (fld b 624 8) (slice b 632 608))
    else call .none

/-- ta.c:1061-1187 -/
def taCipherInit (cmd : Bytes) (p : Params) : Except Status Call :=
  let call (prm : CipPrm) := .ok (.cipherInit (fld cmd 8 8) (fld cmd 16 4) (fld cmd 20 4) (fld cmd 24 8) prm)
  let iv (k : Except Status Call) : Except Status Call := if (p 1).mem.isNone then nullP else k
  if notInOut (p 0) || (p 0).size != 32 || (notIn (p 1) && notNull (p 1)) || (notIn (p 2) && notNull (p 2)) || (notIn (p 3) && notNull (p 3)) then invalidP
  else versioned cmd <|
    match fld cmd 16 4 with
    | 2 => iv (call (.iv (inOf (p 1))))
    | 3 => iv (call (.iv (inOf (p 1))))
    | 4 => iv (call (.iv (inOf (p 1))))
    | 5 => iv (call (.aead (inOf (p 1)) (inOf (p 2))))
    | 10 => iv (call (.aead (inOf (p 1)) (inOf (p 2))))
    | 9 => if (p 1).mem.isNone || (p 2).mem.isNone then nullP else call (.chacha (inOf (p 2)) (inOf (p 1)))
    | 7 =>
      match (p 1).mem with
      | none => nullP
      | some b => if (p 1).size != 8 then invalidP else call (.oaep (fld b 0 4) (fld b 4 4) (inOf (p 2)))
    | _ => call .none

/-- A required input in parameter 1, ta.c:1189-1222, 1773-1805. -/
def withIn (size : Nat) (cmd : Bytes) (p : Params) (c : In → Call) : Except Status Call :=
  if notIn (p 0) || (p 0).size != size || notIn (p 1) || notNull (p 2) || notNull (p 3) then invalidP
  else if (p 1).mem.isNone || (p 1).size == 0 then nullP
  else versioned cmd (.ok (c (inOf (p 1))))

/-- A `sa_buffer` made from a parameter, e.g. ta.c:1264-1273.  Of an output buffer only the length counts. -/
def bufOf (q : TaParam) (type off : Nat) (out : Bool) : Buf :=
  if type = 0 then .clear ⟨if out then q.mem.map fun b => List.replicate b.length 0 else q.mem, q.size⟩ off else .svp (fld (q.mem.getD []) 0 8) off

/-- ta.c:1224-1308 -/
def taCipherProcess (last : Bool) (cmd : Bytes) (p : Params) : Except Status Call :=
  if notInOut (p 0) || (p 0).size != 56 || (isInOut (p 1) && notNull (p 1)) || notIn (p 2) || (notInOut (p 3) && notNull (p 3)) then invalidP
  else if (p 2).mem.isNone then nullP
  else versioned cmd <|
    let out := if (p 1).mem.isNone then none else some (bufOf (p 1) (fld cmd 24 4) (fld cmd 32 8) true)
    let src := bufOf (p 2) (fld cmd 40 4) (fld cmd 48 8) false
    if last then .ok (.cipherProcessLast out (fld cmd 8 8) src (fld cmd 16 8) (if (p 3).mem.isNone then none else some (inOf (p 3))))
    else .ok (.cipherProcess out (fld cmd 8 8) src (fld cmd 16 8))

/-- ta.c:1369-1392 -/
def taMacProcess (cmd : Bytes) (p : Params) : Except Status Call :=
  if notIn (p 0) || (p 0).size != 16 || (notIn (p 1) && notNull (p 1)) || notNull (p 2) || notNull (p 3) then invalidP
  else versioned cmd (.ok (.macProcess (fld cmd 8 8) (inOf (p 1))))

/-- ta.c:1477-1539 -/
def taSign (cmd : Bytes) (p : Params) : Except Status Call :=
  let call (prm : SigPrm) := .ok (.sign (p 1).mem.isSome (fld cmd 8 8) (fld cmd 16 4) (fld cmd 24 8) (inOf (p 2)) prm)
  let pre := fld cmd 44 1 != 0
  if notInOut (p 0) || (p 0).size != 48 || (notOut (p 1) && notNull (p 1)) || (notIn (p 2) && notNull (p 2)) || notNull (p 3) then invalidP
  else if notNull (p 1) && (p 1).size != fld cmd 8 8 then invalidP
  else versioned cmd <|
    match fld cmd 16 4 with
    | 1 => call (.pss (fld cmd 20 4) (fld cmd 40 4) pre (fld cmd 32 8))
    | 0 => call (.digest (fld cmd 20 4) pre)
    | 2 => call (.digest (fld cmd 20 4) pre)
    | _ => call .none

/-- The offsets, ta.c:1641-1658. -/
def offsetsOf (b : Bytes) (n : Nat) : List Offset := (List.range n).map fun i => ⟨fld b (24 * i) 8, fld b (24 * i + 8) 8, fld b (24 * i + 16) 8⟩

/-- ta.c:1616-1668 -/
def taSvpWrite (cmd : Bytes) (p : Params) : Except Status Call :=
  if notInOut (p 0) || (p 0).size != 16 || notIn (p 1) || notIn (p 2) || notNull (p 3) then invalidP
  else if (p 1).mem.isNone || (p 1).size == 0 || (p 2).mem.isNone || (p 2).size == 0 then nullP
  else versioned cmd (.ok (.svpWrite (fld cmd 8 8) (inOf (p 1)) (offsetsOf ((p 2).mem.getD []) ((p 2).size / 24))))

/-- ta.c:1670-1724 -/
def taSvpCopy (cmd : Bytes) (p : Params) : Except Status Call :=
  if notInOut (p 0) || (p 0).size != 24 || notIn (p 1) || notNull (p 2) || notNull (p 3) then invalidP
  else if (p 1).mem.isNone || (p 1).size == 0 then nullP
  else versioned cmd (.ok (.svpCopy (fld cmd 8 8) (fld cmd 16 8) (offsetsOf ((p 1).mem.getD []) ((p 1).size / 24))))

/-- ta.c:1726-1771 -/
def taSvpKeyCheck (cmd : Bytes) (p : Params) : Except Status Call :=
  if notInOut (p 0) || (p 0).size != 40 || notIn (p 1) || notIn (p 2) || notNull (p 3) then invalidP
  else if (p 1).mem.isNone || (p 1).size == 0 || (p 2).mem.isNone || (p 2).size == 0 then nullP
  else versioned cmd (.ok (.svpKeyCheck (fld cmd 8 8) (bufOf (p 1) (fld cmd 16 4) (fld cmd 24 8) false) (fld cmd 32 8) (inOf (p 2))))

/-- The subsample lengths, ta.c:1855-1859. -/
def subsOf (b : Bytes) (n : Nat) : List (Nat × Nat) := (List.range n).map fun i => (fld b (16 * i) 8, fld b (16 * i + 8) 8)

/-- ta.c:1807-1904 -/
def taCenc (cmd : Bytes) (p : Params) : Except Status Call :=
  if notInOut (p 0) || (p 0).size != 88 || notIn (p 1) || (notIn (p 2) && notOut (p 2)) || notIn (p 3) then invalidP
  else if (p 1).mem.isNone || (p 2).mem.isNone || (p 3).mem.isNone then nullP
  else if (p 1).size == 0 || (p 2).size == 0 || (p 3).size == 0 then invalidP
  else versioned cmd <|
    let count := fld cmd 40 8
    if (p 1).size != 16 * count % 2 ^ 64 then invalidP
    else .ok (.cenc ⟨⟨some (slice cmd 1 16), 16⟩, fld cmd 24 8, fld cmd 32 8, subsOf ((p 1).mem.getD []) count, fld cmd 48 8,
      bufOf (p 2) (fld cmd 56 4) (fld cmd 64 8) true, bufOf (p 3) (fld cmd 72 4) (fld cmd 80 8) false⟩)

/-- ta_invoke_command_handler, ta.c:1906-2140, up to the call of the function; see `Ta.invoke`. -/
def received (id : Nat) (p : Params) : Except Status Call :=
  if isNull (p 0) then nullP
  else
  let cmd := (p 0).mem.getD []
  match id with
  | 1 => only true 40 cmd p (.getVersion (slice cmd 8 32))
  | 2 => withOut 16 cmd p .getName
  | 3 => only true 16 cmd p (.getDeviceId (fld cmd 8 8))
  | 4 => only true 17 cmd p (.getTaUuid (slice cmd 1 16))
  | 5 => taKeyGenerate cmd p
  | 6 => taKeyExport cmd p
  | 7 => taKeyImport cmd p
  | 8 => taKeyUnwrap cmd p
  | 9 => withOut 24 cmd p (fun o n => .keyGetPublic o n (fld cmd 16 8))
  | 10 => taKeyDerive cmd p
  | 11 => taKeyExchange cmd p
  | 12 => only false 16 cmd p (.keyRelease (fld cmd 8 8))
  | 13 =>
    if notInOut (p 0) || (p 0).size != 16 || notOut (p 1) || (p 1).size != 1672 || notNull (p 2) || notNull (p 3) then invalidP
    else versioned cmd (.ok (.keyHeader (fld cmd 8 8)))
  | 14 => withOut 32 cmd p (fun o n => .keyDigest o n (fld cmd 16 8) (fld cmd 24 4))
  | 15 =>
    if notIn (p 0) || (p 0).size != 1 || notOut (p 1) || notNull (p 2) || notNull (p 3) then invalidP
    else if (p 1).mem.isNone || (p 1).size == 0 then nullP
    else versioned cmd (.ok (.random true (p 1).size))
  | 16 => taCipherInit cmd p
  | 17 => withIn 16 cmd p (.cipherUpdateIv (fld cmd 8 8))
  | 18 => taCipherProcess false cmd p
  | 19 => taCipherProcess true cmd p
  | 20 => only false 16 cmd p (.cipherRelease (fld cmd 8 8))
  | 21 => only true 40 cmd p (.macInit (fld cmd 8 8) (fld cmd 16 4) (fld cmd 24 8) (if fld cmd 16 4 = 1 then some (fld cmd 32 4) else none))
  | 22 => taMacProcess cmd p
  | 23 => only false 24 cmd p (.macProcessKey (fld cmd 8 8) (fld cmd 16 8))
  | 24 => withOut 24 cmd p (fun o n => .macCompute o n (fld cmd 16 8))
  | 25 => only false 16 cmd p (.macRelease (fld cmd 8 8))
  | 26 => taSign cmd p
  | 27 => only false 1 cmd p .svpSupported
  | 29 => only true 32 cmd p (.svpCreate (fld cmd 8 8) (fld cmd 16 8) (fld cmd 24 8))
  | 31 => only true 32 cmd p (.svpRelease (fld cmd 24 8))
  | 32 => taSvpWrite cmd p
  | 33 => taSvpCopy cmd p
  | 34 => taSvpKeyCheck cmd p
  | 35 => withIn 40 cmd p (.svpCheck (fld cmd 8 8) (fld cmd 16 8) (fld cmd 24 8) (fld cmd 32 4))
  | 36 => taCenc cmd p
  | _ => .error .OPERATION_NOT_SUPPORTED

end Sa.Cl

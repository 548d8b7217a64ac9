import Verif.Model.Svp
import Verif.Model.Rights
import Verif.Model.Crypto

/-!
# Common encryption (`taimpl/src/internal/cenc.c`, `taimpl/src/ta_sa_process_common_encryption.c`)

The symmetric cipher context is a parameter (`SymOps`), because any call of OpenSSL may fail; the AES-CTR and AES-CBC contexts OpenSSL
implements are written out below (`ctrOps`, `cbcOps`).  `size_t` is 64 bits.  Pointers are natural numbers; adding to a pointer does not
wrap.  The fields `failed` and `trace` of `Cenc` are ghosts: whether some call of the cipher failed, and which memory was accessed.
-/

namespace Sa

/-- The two halves of a 16 byte IV, read as big-endian numbers (`be64toh`/`htobe64`, cenc.c:52-53). -/
structure Iv where
  hi : UInt64
  lo : UInt64
  deriving DecidableEq, Repr

/-- A decrypting cipher context with state `σ`: `EVP_DecryptUpdate` (input to output of the same length) and `EVP_DecryptInit_ex` with a
new IV; `none` is failure. -/
structure SymOps (σ : Type) where
  decrypt : σ → Bytes → Option (σ × Bytes)
  setIv : σ → Iv → Option σ

/-- `n` bytes of memory from address `a` on. -/
def readAt (m : Mem) (a n : Nat) : Bytes := (List.range n).map fun i => m (a + i)

/-- Memory after the bytes have been written from address `a` on. -/
def writeAt (m : Mem) (a : Nat) (bs : Bytes) : Mem := fun x => if a ≤ x ∧ x < a + bs.length then bs.getD (x - a) 0 else m x

/-- The variables of `cenc_process_sample` that `decrypt` works on. -/
structure Cenc (σ : Type) where
  mem : Mem
  ctx : σ
  iv : Iv
  /-- `enc_byte_count` -/
  count : UInt64
  failed : Bool
  trace : List Memcpy

variable {σ : Type}

/-- `symmetric_context_decrypt`, symmetric.c:1347-1392, for a non-NULL context in decrypt mode.  The length is converted to `int`
(symmetric.c:1383): of a length of 2^31 or more only the low 32 bits count, and a negative value is an error for `EVP_DecryptUpdate`.
Result: state, status, `*out_length`. -/
def symDecrypt (ops : SymOps σ) (ctr : Bool) (s : Cenc σ) (outA inA : Nat) (len : UInt64) : Cenc σ × Status × UInt64 :=
  if !ctr && len % 16 ≠ 0 then ({ s with failed := true }, .INVALID_PARAMETER, len)
  else
    let n := len.toNat % 2 ^ 32
    if n ≥ 2 ^ 31 then ({ s with failed := true }, .INTERNAL_ERROR, len)
    else match ops.decrypt s.ctx (readAt s.mem inA n) with
      | none => ({ s with failed := true }, .INTERNAL_ERROR, len)
      | some (ctx, bs) =>
        ({ s with mem := writeAt s.mem outA bs, ctx := ctx, trace := s.trace ++ [⟨outA, inA, n⟩] }, .OK, UInt64.ofNat bs.length)

/-- `symmetric_context_set_iv`, symmetric.c:1453-1496. -/
def symSetIv (ops : SymOps σ) (s : Cenc σ) : Cenc σ × Status :=
  match ops.setIv s.ctx s.iv with
  | none => ({ s with failed := true }, .INTERNAL_ERROR)
  | some ctx => ({ s with ctx := ctx }, .OK)

/-- `decrypt`, cenc.c:100-118: the branch without rollover, which ends the loop (cenc.c:117). -/
def decryptRest (ops : SymOps σ) (ctr : Bool) (s : Cenc σ) (outA inA : Nat) (n done full leading : UInt64) : Cenc σ × Status :=
  let r := symDecrypt ops ctr s (outA + done.toNat) (inA + done.toNat) (n - done)
  if r.2.1 ≠ .OK then (r.1, r.2.1)
  else
    let s := r.1
    let newIv := s.iv.lo + (full + (if leading > 0 then 1 else 0))
    ({ s with iv := { s.iv with lo := newIv }, count := s.count + r.2.2 }, .OK)

/-- `decrypt`, cenc.c:61-82: the rest of the block already begun, and the IV moved to the next block.  Result: state, status,
`bytes_encrypted`. -/
def decryptPartial (ops : SymOps σ) (s : Cenc σ) (outA inA : Nat) (leading : UInt64) : Cenc σ × Status × UInt64 :=
  if leading > 0 then
    let r := symDecrypt ops true s outA inA leading
    if r.2.1 ≠ .OK then (r.1, r.2.1, 0)
    else
      let s := { r.1 with iv := { r.1.iv with lo := r.1.iv.lo + 1 } }
      let q := symSetIv ops s
      if q.2 ≠ .OK then (q.1, q.2, 0)
      else ({ q.1 with count := q.1.count + r.2.2 }, .OK, r.2.2)
  else (s, .OK, 0)

/-- `decrypt`, cenc.c:84-105: the full blocks up to the rollover, and the IV set for the block after it. -/
def decryptBlocks (ops : SymOps σ) (s : Cenc σ) (outA inA : Nat) (done blocks : UInt64) : Cenc σ × Status × UInt64 :=
  if blocks > 0 then
    let r := symDecrypt ops true s (outA + done.toNat) (inA + done.toNat) (blocks * 16)
    if r.2.1 ≠ .OK then (r.1, r.2.1, done)
    else
      let s := { r.1 with iv := { r.1.iv with lo := r.1.iv.lo + blocks } }
      let q := symSetIv ops s
      if q.2 ≠ .OK then (q.1, q.2, done)
      else ({ q.1 with count := q.1.count + r.2.2 }, .OK, done + r.2.2)
  else (s, .OK, done)

/-- `decrypt`, cenc.c:37-129.  The loop runs at most twice: its first branch clears `counter_rollover`, its second branch ends it. -/
def cencDecrypt (ops : SymOps σ) (ctr : Bool) (s : Cenc σ) (outA inA : Nat) (n : UInt64) : Cenc σ × Status :=
  let leading : UInt64 := if s.count % 16 = 0 then 0 else 16 - s.count % 16
  let full := (n - leading) / 16
  let before := 0xFFFFFFFFFFFFFFFF - s.iv.lo + 1
  let rollover := decide (before ≤ full + (if leading > 0 then 1 else 0))
  if n > 0 then
    if rollover && ctr then
      let p := decryptPartial ops s outA inA leading
      if p.2.1 ≠ .OK then (p.1, p.2.1)
      else
        let blocks := if before ≤ full then before else full
        let q := decryptBlocks ops p.1 outA inA p.2.2 blocks
        if q.2.1 ≠ .OK then (q.1, q.2.1)
        else if n > q.2.2 then decryptRest ops ctr q.1 outA inA n q.2.2 (full - blocks) 0
        else (q.1, .OK)
    else decryptRest ops ctr s outA inA n 0 full leading
  else (s, .OK)

/-- `sa_subsample_length`, sa_cenc.h:40-50. -/
structure Subsample where
  clear : UInt64
  prot : UInt64
  deriving DecidableEq, Repr

/-- `cenc_get_required_length`, cenc.c:131-152; `CENC_OVERFLOW` is 0 (cenc.h:31). -/
def cencRequiredLoop (required : UInt64) : List Subsample → UInt64
  | [] => required
  | sub :: subs =>
    let r := addOverflow sub.clear sub.prot
    if r.1 then 0
    else
      let q := addOverflow required r.2
      if q.1 then 0
      else cencRequiredLoop q.2 subs

def cencRequiredLength (subs : List Subsample) : UInt64 := cencRequiredLoop 0 subs

/-- `memcpy` of clear bytes from input to output. -/
def cencCopy (s : Cenc σ) (outA inA : Nat) (len : UInt64) : Cenc σ :=
  { s with mem := writeAt s.mem outA (readAt s.mem inA len.toNat), trace := s.trace ++ [⟨outA, inA, len.toNat⟩] }

/-- Parameters of a sample that are fixed while it is processed. -/
structure SampleParams where
  ctr : Bool
  crypt : UInt64
  skip : UInt64
  iv : Iv
  outA : Nat
  inA : Nat

/-- The `while` loop of cenc.c:249-279.  Products with 16 wrap.  Result: state, `offset`, `bytes_left`, status; `none` if the loop has
not ended after `fuel` iterations. -/
def cencStripes (ops : SymOps σ) (p : SampleParams) : (fuel : Nat) → Cenc σ → (offset left : UInt64) → Status →
    Option (Cenc σ × UInt64 × UInt64 × Status)
  | 0, _, _, _, _ => none
  | fuel + 1, s, offset, left, status =>
    if left < 16 then some (s, offset, left, status)
    else
      let block := if p.crypt * 16 ≤ left / 16 * 16 then p.crypt * 16 else left / 16 * 16
      let r := if block > 0 then cencDecrypt ops p.ctr s (p.outA + offset.toNat) (p.inA + offset.toNat) block else (s, status)
      if block > 0 ∧ r.2 ≠ .OK then some (r.1, offset, left, r.2)
      else
        let offset := offset + block
        let left := left - block
        let block := if p.skip * 16 ≤ left / 16 * 16 then p.skip * 16 else left / 16 * 16
        if p.skip > 0 ∧ block > 0 then
          cencStripes ops p fuel (cencCopy r.1 (p.outA + offset.toNat) (p.inA + offset.toNat) block) (offset + block) (left - block) r.2
        else cencStripes ops p fuel r.1 offset left r.2

/-- The protected part of one subsample, cenc.c:204-287.  Result: state, `offset`, status, whether the `for` loop is left. -/
def cencProtected (ops : SymOps σ) (p : SampleParams) (fuel : Nat) (s : Cenc σ) (offset prot : UInt64) (status : Status) :
    Option (Cenc σ × UInt64 × Status × Bool) :=
  if prot > 0 then
    if p.crypt = 0 then
      let remainder := if p.ctr then 0 else prot % 16
      let block := prot - remainder
      let r := cencDecrypt ops p.ctr s (p.outA + offset.toNat) (p.inA + offset.toNat) block
      if r.2 ≠ .OK then some (r.1, offset, r.2, true)
      else
        let offset := offset + block
        if remainder > 0 then
          some (cencCopy r.1 (p.outA + offset.toNat) (p.inA + offset.toNat) remainder, offset + remainder, r.2, false)
        else some (r.1, offset, r.2, false)
    else
      let r := if p.ctr then (s, status) else symSetIv ops { s with iv := p.iv }
      if !p.ctr && r.2 ≠ .OK then some (r.1, offset, r.2, true)
      else match cencStripes ops p fuel r.1 offset prot r.2 with
        | none => none
        | some (s, offset, left, status) =>
          if left > 0 then
            some (cencCopy s (p.outA + offset.toNat) (p.inA + offset.toNat) left, offset + left, status, false)
          else some (s, offset, status, false)
  else some (s, offset, status, false)

/-- The loop over the subsamples, cenc.c:204-289. -/
def cencSubsamples (ops : SymOps σ) (p : SampleParams) (fuel : Nat) : List Subsample → Cenc σ → (offset : UInt64) → Status →
    Option (Cenc σ × UInt64 × Status)
  | [], s, offset, status => some (s, offset, status)
  | sub :: subs, s, offset, status =>
    let s1 := if sub.clear > 0 then cencCopy s (p.outA + offset.toNat) (p.inA + offset.toNat) sub.clear else s
    let offset := offset + sub.clear
    match cencProtected ops p fuel s1 offset sub.prot status with
    | none => none
    | some (s, offset, status, true) => some (s, offset, status)
    | some (s, offset, status, false) => cencSubsamples ops p fuel subs s offset status

/-- The processing of a sample once its buffers are known, cenc.c:193-289: the IV is set and all subsamples are processed. -/
def cencRun (ops : SymOps σ) (p : SampleParams) (fuel : Nat) (subs : List Subsample) (mem : Mem) (ctx : σ) :
    Option (Cenc σ × UInt64 × Status) :=
  let r := symSetIv ops { mem := mem, ctx := ctx, iv := p.iv, count := 0, failed := false, trace := [] }
  if r.2 ≠ .OK then some (r.1, 0, r.2)
  else cencSubsamples ops p fuel subs r.1 0 r.2

/-- An AES-CTR context of OpenSSL: the 128-bit counter it was started with and the number of bytes processed since. -/
structure CtrState where
  iv : Nat
  used : Nat
  deriving DecidableEq, Repr

/-- AES-CTR as OpenSSL implements it: all 16 bytes are one counter.  `E v j` is byte `j` of the encryption of the block that is the
big-endian form of `v`. -/
def ctrOps (E : Nat → Nat → UInt8) : SymOps CtrState where
  decrypt s bs := some (⟨s.iv, s.used + bs.length⟩,
    bs.mapIdx fun i b => b ^^^ E ((s.iv + (s.used + i) / 16) % 2 ^ 128) ((s.used + i) % 16))
  setIv _ iv := some ⟨iv.hi.toNat * 2 ^ 64 + iv.lo.toNat, 0⟩

/-- The 16 bytes of an IV. -/
def Iv.bytes (iv : Iv) : Bytes :=
  ((List.range 8).map fun i => UInt8.ofNat (iv.hi.toNat / 256 ^ (7 - i))) ++
  ((List.range 8).map fun i => UInt8.ofNat (iv.lo.toNat / 256 ^ (7 - i)))

/-- AES-CBC without padding: the state is the previous ciphertext block. -/
def cbcOps (dec : Bytes → Bytes) : SymOps Bytes where
  decrypt prev bs :=
    if bs.length % 16 ≠ 0 then none
    else some (if bs = [] then prev else bs.drop (bs.length - 16), cbcDec dec (bs.length / 16) prev bs)
  setIv _ iv := some iv.bytes

/-! ## Samples, their verification and the entry point -/

/-- What `cipher_store_acquire_exclusive` yields for a cipher context of the caller: the fields of `cipher_t` used here. -/
structure CencCipher (σ : Type) where
  /-- `cipher_mode == SA_CIPHER_MODE_DECRYPT` -/
  decryptMode : Bool
  rights : Rights
  /-- `sa_cipher_algorithm` -/
  algorithm : Nat
  ctx : σ

def CIPHER_AES_CBC : Nat := 2
def CIPHER_AES_CTR : Nat := 4

/-- `sa_sample`, sa_cenc.h:52-112.  `none` is NULL; `iv` has `iv_length` bytes.  `out` and `in` are pointers to `sa_buffer`s and may be
shared between samples: they are indices into the buffers of `CencWorld`. -/
structure Sample where
  iv : Option Bytes
  crypt : UInt64
  skip : UInt64
  subs : Option (List Subsample)
  context : Nat
  out : Option Nat
  input : Option Nat

/-- What samples are processed in: the SVP table of the session, the `sa_buffer`s of the caller, the memory and the cipher contexts the
caller can acquire. -/
structure CencWorld (σ : Type) where
  svp : SvpStore
  bufs : Nat → SaBuffer
  mem : Mem
  ciphers : Nat → Option (CencCipher σ)

/-- Release of the SVP object handed out by `convert_buffer`, if any. -/
def giveBack (st : SvpStore) (svp : Option Svp) (b : SaBuffer) (caller : Uuid) : SvpStore :=
  match svp, b with
  | some s, .svp h _ => (svpStoreReleaseExclusive st h s caller).1
  | _, _ => st

/-- Address returned by a successful `convert_buffer`. -/
def Converted.addr (c : Converted) : Nat := (c.bytes.getD 0).toNat

/-- The overlap test of ta_sa_process_common_encryption.c:147-157. -/
def cencOverlap (outA inA len : Nat) : Bool :=
  (decide (outA ≥ inA) && decide (outA ≤ inA + len)) ||
  (decide (outA + len ≥ inA) && decide (outA + len ≤ inA + len)) ||
  (decide (inA ≥ outA) && decide (inA ≤ outA + len)) ||
  (decide (inA + len ≥ outA) && decide (inA + len ≤ outA + len))

def SaBuffer.isClear : SaBuffer → Bool
  | .clear .. => true
  | .svp .. => false

/-- `verify_sample` from the buffer checks on, ta_sa_process_common_encryption.c:120-173. -/
def verifyBuffers (st : SvpStore) (out input : SaBuffer) (subs : List Subsample) (caller : Uuid) : SvpStore × Status :=
  let required := cencRequiredLength subs
  if required = 0 then (st, .INVALID_PARAMETER)
  else
    let c1 := convertBuffer st out required caller
    if c1.status ≠ .OK then (giveBack c1.store c1.svp out caller, c1.status)
    else
      let c2 := convertBuffer c1.store input required caller
      let st := giveBack (giveBack c2.store c2.svp input caller) c1.svp out caller
      if c2.status ≠ .OK then (st, c2.status)
      else if cencOverlap c1.addr c2.addr required.toNat then (st, .INVALID_PARAMETER)
      else (st, .OK)

/-- `verify_sample`, ta_sa_process_common_encryption.c:25-176.  The cipher context is locked and released again, which is not shown.
Buffer types other than clear and SVP (ta_sa_process_common_encryption.c:95-105) do not occur in `SaBuffer`. -/
def verifySample (env : RightsEnv) (w : CencWorld σ) (s : Sample) (caller : Uuid) : SvpStore × Status :=
  match s.iv with
  | none => (w.svp, .NULL_PARAMETER)
  | some iv =>
    if iv.length ≠ 16 then (w.svp, .INVALID_PARAMETER)
    else match s.subs with
      | none => (w.svp, .NULL_PARAMETER)
      | some subs =>
        if subs.length < 1 then (w.svp, .INVALID_PARAMETER)
        else match s.out, s.input with
          | none, _ => (w.svp, .NULL_PARAMETER)
          | _, none => (w.svp, .NULL_PARAMETER)
          | some out, some input =>
            if s.crypt = 0 ∧ s.skip ≠ 0 then (w.svp, .INVALID_PARAMETER)
            else match w.ciphers s.context with
              | none => (w.svp, .INVALID_PARAMETER)
              | some c =>
                if !c.decryptMode then (w.svp, .INVALID_PARAMETER)
                else if !rightsAllowedDecrypt env c.rights true then (w.svp, .OPERATION_NOT_ALLOWED)
                else if c.algorithm ≠ CIPHER_AES_CTR ∧ c.algorithm ≠ CIPHER_AES_CBC then (w.svp, .INVALID_PARAMETER)
                else if (w.bufs out).isClear ∧ ¬ (w.bufs input).isClear then (w.svp, .INVALID_PARAMETER)
                else if (w.bufs out).isClear ∧ !rightsAllowedClear c.rights then (w.svp, .OPERATION_NOT_ALLOWED)
                else verifyBuffers w.svp (w.bufs out) (w.bufs input) subs caller

/-- The IV of a sample, `memcpy(iv, sample->iv, 16)`, cenc.c:196. -/
def ivOfBytes (b : Bytes) : Iv :=
  ⟨UInt64.ofNat ((b.take 8).foldl (fun a x => a * 256 + x.toNat) 0), UInt64.ofNat ((b.drop 8).foldl (fun a x => a * 256 + x.toNat) 0)⟩

/-- The offset of a buffer advanced by `n`, cenc.c:291-301. -/
def SaBuffer.advance (b : SaBuffer) (n : UInt64) : SaBuffer :=
  match b with
  | .clear a l o => .clear a l (o + n)
  | .svp h o => .svp h (o + n)

/-- Result of processing a sample: the world, the status, and (ghost) the accesses to memory. -/
structure SampleResult (σ : Type) where
  world : CencWorld σ
  status : Status
  /-- some cipher operation failed -/
  failed : Bool
  trace : List Memcpy
  /-- addresses the sample was processed at, if processing started -/
  place : Option (Nat × Nat)

/-- `cenc_process_sample`, cenc.c:154-327, for a sample that `verify_sample` has accepted (its pointers are not NULL).  The advance of the
input offset precedes that of the output offset, so that a buffer used for both advances twice. -/
def cencProcessSample (ops : SymOps σ) (fuel : Nat) (w : CencWorld σ) (ctx : Nat) (iv : Bytes) (crypt skip : UInt64)
    (subs : List Subsample) (out input : Nat) (caller : Uuid) : Option (SampleResult σ) :=
  match w.ciphers ctx with
  | none => some ⟨w, .INVALID_PARAMETER, false, [], none⟩
  | some c =>
    let required := cencRequiredLength subs
    if required = 0 then some ⟨w, .INVALID_PARAMETER, false, [], none⟩
    else
      let c1 := convertBuffer w.svp (w.bufs out) required caller
      if c1.status ≠ .OK then
        some ⟨{ w with svp := giveBack c1.store c1.svp (w.bufs out) caller }, c1.status, false, [], none⟩
      else
        let c2 := convertBuffer c1.store (w.bufs input) required caller
        let st := giveBack (giveBack c2.store c2.svp (w.bufs input) caller) c1.svp (w.bufs out) caller
        if c2.status ≠ .OK then some ⟨{ w with svp := st }, c2.status, false, [], none⟩
        else
          let p : SampleParams :=
            { ctr := c.algorithm == CIPHER_AES_CTR, crypt := crypt, skip := skip, iv := ivOfBytes iv, outA := c1.addr, inA := c2.addr }
          match cencRun ops p fuel subs w.mem c.ctx with
          | none => none
          | some (s, offset, status) =>
            let ciphers := fun i => if i = ctx then some { c with ctx := s.ctx } else w.ciphers i
            let bufs1 := fun i => if i = input then (w.bufs i).advance offset else w.bufs i
            let bufs2 := fun i => if i = out then (bufs1 i).advance offset else bufs1 i
            let bufs := if status = .OK then bufs2 else w.bufs
            some ⟨{ svp := st, bufs := bufs, mem := s.mem, ciphers := ciphers }, status, s.failed, s.trace, some (p.outA, p.inA)⟩

/-- First loop of `ta_sa_process_common_encryption`, ta_sa_process_common_encryption.c:207-212. -/
def verifyAll (env : RightsEnv) (w : CencWorld σ) (caller : Uuid) : List Sample → CencWorld σ × Status
  | [] => (w, .OK)
  | s :: ss =>
    let r := verifySample env w s caller
    if r.2 ≠ .OK then ({ w with svp := r.1 }, r.2)
    else verifyAll env { w with svp := r.1 } caller ss

/-- Second loop, ta_sa_process_common_encryption.c:214-219; also the list of results of the samples processed. -/
def processAll (ops : SymOps σ) (fuel : Nat) (caller : Uuid) : CencWorld σ → List Sample → Option (CencWorld σ × Status × List (SampleResult σ))
  | w, [] => some (w, .OK, [])
  | w, s :: ss =>
    match cencProcessSample ops fuel w s.context (s.iv.getD []) s.crypt s.skip (s.subs.getD []) (s.out.getD 0) (s.input.getD 0) caller with
    | none => none
    | some r =>
      if r.status ≠ .OK then some (r.world, r.status, [r])
      else match processAll ops fuel caller r.world ss with
        | none => none
        | some (w, status, rs) => some (w, status, r :: rs)

/-- `ta_sa_process_common_encryption`, ta_sa_process_common_encryption.c:178-225, for a caller whose session has been acquired. -/
def processCommonEncryption (env : RightsEnv) (ops : SymOps σ) (fuel : Nat) (w : CencWorld σ) (samples : List Sample) (caller : Uuid) :
    Option (CencWorld σ × Status × List (SampleResult σ)) :=
  let r := verifyAll env w caller samples
  if r.2 ≠ .OK then some (r.1, r.2, [])
  else processAll ops fuel caller r.1 samples

end Sa

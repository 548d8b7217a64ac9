import Verif.Model.TaCall

/-!
# The way back: from the functions of the TA to the application

A function `ta_sa_*` returns a status and leaves values in its output arguments (`Out`).  The command handler writes them into the command structure and the
parameters (`respond`, `taimpl/src/internal/ta.c`); the functions of the client library read them there and store them in the variables of the application
(`finish`, `clientimpl/src/sa_*.c` behind `ta_invoke_command`).

Output memory: without `USE_SHARED_MEMORY` the pointer of the application is handed to the TA (ta_client.h:109-113), so what the TA writes lands in the memory of
the application whatever the status is (`landed`), and `COPY_OUT_PARAM` does nothing; with it the TA writes to a separate block that is copied.

Simplifications: as in `Model/ClientLib.lean` and `Model/TaCall.lean`; a function of the TA writes its output memory from the beginning on without gaps (`Out.mem`);
the structure `sa_header` of the application is identified with `sa_header_s`.
-/

namespace Sa.Cl
open Sa.Ta

/-- The output arguments of a function, in the TA or in the application. -/
structure Out where
  value : Nat      -- the new handle, the identifier, `*out_length`, `*bytes_to_process`
  second : Nat     -- the offset of the output buffer, `*out_ke`, `*svp_memory`
  third : Nat      -- the offset of the input buffer, `*out_kh`, `*size`
  blob : Bytes     -- the version, the UUID, the header
  mem : Bytes      -- TA: the bytes written to the output memory; application: the output memory
  tag : Bytes      -- the tag
  deriving DecidableEq

/-- `w` is written into `b` at offset `off`. -/
def put (b : Bytes) (off : Nat) (w : Bytes) : Bytes := b.take off ++ (w ++ b.drop (off + w.length))

/-- Writing to the memory of a parameter. -/
def wr (q : TaParam) (off : Nat) (w : Bytes) : TaParam := { q with mem := q.mem.map fun b => put b off w }

/-- `memset`, then the fields of a header one by one, ta.c:977-992 and sa_key_header.c:65-79; `sa_header_s` is in sa_ta_types.h:324-338.  The parameters of
other types than EC (1) and DH (3) are not copied. -/
def headerCopy (h : Bytes) : Bytes :=
  let type := (h.getD 616 0).toNat
  (slice h 0 4 ++ [0, 0, 0, 0]) ++ (slice h 8 608 ++ (slice h 616 1 ++ ([0, 0, 0, 0, 0, 0, 0] ++
    ((if type = 1 then slice h 624 4 ++ List.replicate 1036 0 else if type = 3 then slice h 624 1040 else List.replicate 1040 0) ++
      (slice h 1664 2 ++ [0, 0, 0, 0, 0, 0])))))

/-- What the handler writes for command `id`, after the call of the function and whatever its status is. -/
def respond (id : Nat) (p : Params) (o : Out) : Params :=
  let val := wr (p 0) 8 (le 8 o.value)
  let out := params val (wr (p 1) 0 o.mem) (p 2) (p 3)
  let handle := params val (p 1) (p 2) (p 3)
  match id with
  | 1 => params (wr (p 0) 8 o.blob) (p 1) (p 2) (p 3)                     -- ta.c:67
  | 2 => out                                                              -- ta.c:96-101
  | 3 => handle                                                           -- ta.c:123
  | 4 => params (wr (p 0) 1 o.blob) (p 1) (p 2) (p 3)                     -- ta.c:146
  | 5 => handle                                                           -- ta.c:208
  | 6 => out                                                              -- ta.c:240-244
  | 7 => handle                                                           -- ta.c:371
  | 8 => handle                                                           -- ta.c:698
  | 9 => out                                                              -- ta.c:731-735
  | 10 => handle                                                          -- ta.c:869
  | 11 =>                                                                 -- ta.c:922-927
    if fld ((p 0).mem.getD []) 624 4 = 2 then params val (p 1) (wr (wr (p 2) 8 (le 8 o.second)) 624 (le 8 o.third)) (p 3) else handle
  | 13 => params (p 0) (wr (p 1) 0 (headerCopy o.blob)) (p 2) (p 3)       -- ta.c:975-992
  | 14 => out                                                             -- ta.c:1022-1026
  | 15 => params (p 0) (wr (p 1) 0 o.mem) (p 2) (p 3)                     -- ta.c:1058
  | 16 => handle                                                          -- ta.c:1185
  | 18 => process                                                         -- ta.c:1289-1307
  | 19 => process                                                         -- ta.c:1288-1307
  | 21 => handle                                                          -- ta.c:1364
  | 24 => out                                                             -- ta.c:1446-1450
  | 26 => out                                                             -- ta.c:1534-1538
  | 29 => handle                                                          -- ta.c:1585
  | 31 => params (wr (wr (p 0) 8 (le 8 o.second)) 16 (le 8 o.third)) (p 1) (p 2) (p 3)          -- ta.c:1610-1614
  | 34 => params (wr (p 0) 24 (le 8 o.third)) (p 1) (p 2) (p 3)                                 -- ta.c:1764-1768
  | 36 =>                                                                                       -- ta.c:1892-1897
    params (wr (wr (p 0) 64 (le 8 o.second)) 80 (le 8 o.third)) (p 1) (if fld ((p 0).mem.getD []) 56 4 = 0 then wr (p 2) 0 o.mem else p 2) (p 3)
  | _ => p
where
  /-- ta.c:1288-1307 -/
  process : Params :=
    params (wr (if (p 1).mem.isSome then wr (wr (p 0) 16 (le 8 o.value)) 32 (le 8 o.second) else wr (p 0) 16 (le 8 o.value)) 48 (le 8 o.third))
      (if fld ((p 0).mem.getD []) 24 4 = 0 then wr (p 1) 0 o.mem else p 1) (p 2) (wr (p 3) 0 o.tag)

/-- The memory of the application that is given to the TA: where it begins in the output memory, and whether there is any. -/
def window : Call → Option Nat
  | .getName true _ => some 0
  | .keyExport true _ _ _ => some 0
  | .keyGetPublic true _ _ => some 0
  | .keyDigest true _ _ _ => some 0
  | .random true _ => some 0
  | .macCompute true _ _ => some 0
  | .sign true _ _ _ _ _ => some 0
  | .cipherProcess (some (.clear _ off)) _ _ _ => some off
  | .cipherProcessLast (some (.clear _ off)) _ _ _ _ => some off
  | .cenc s => match s.out with | .clear _ off => some off | .svp _ _ => none
  | _ => none

/-- The memory of the application after the function of the TA has returned, ta_client.h:65-81, 109-113.  The tag is `TA_PARAM_INOUT`. -/
def landed (e : CEnv) (c : Call) (o : Out) (app : Out) : Out :=
  if e.shared then app
  else { app with
    mem := match window c with | some off => put app.mem off o.mem | none => app.mem
    tag := match c with | .cipherProcessLast _ _ _ _ (some _) => put app.tag 0 o.tag | _ => app.tag }

/-- `COPY_OUT_PARAM(output + off, param, size)`, ta_client.h:83-84, 115-117. -/
def CEnv.copyOut (e : CEnv) (b : Bytes) (off : Nat) (q : TaParam) (n : Nat) : Bytes :=
  if e.shared then put b off ((q.mem.getD []).take n) else b

/-- `offset += …` for clear memory, `offset = …` for SVP buffers, sa_crypto_cipher_process.c:133-145. -/
def advance (b : Buf) (n : Nat) : Nat :=
  match b with
  | .clear _ off => (off + n) % 2 ^ 64
  | .svp _ _ => n

/-- The part of a function of the library behind `ta_invoke_command`: `s` the status it returned, `p` the parameters, `app` the variables of the application. -/
def finish (e : CEnv) (c : Call) (s : Status) (p : Params) (app : Out) : Out :=
  let cmd := (p 0).mem.getD []
  let handle : Out := { app with value := fld cmd 8 8 }
  /- `*out_length = …; if (out != NULL) COPY_OUT_PARAM(out, param1, out_length)` -/
  let out (b : Bool) : Out := { app with value := fld cmd 8 8, mem := if b then e.copyOut app.mem 0 (p 1) (fld cmd 8 8) else app.mem }
  match c with
  | .getVersion _ => { app with blob := slice cmd 8 32 }                                          -- sa_get_version.c:52-57: no `break`
  | .getTaUuid _ => { app with blob := slice cmd 1 16 }                                           -- sa_get_ta_uuid.c:52-57: no `break`
  | _ =>
  if s ≠ .OK then app
  else match c with
  | .getName o _ => out o                                                                         -- sa_get_name.c:69-71
  | .getDeviceId _ => handle                                                                      -- sa_get_device_id.c:58
  | .keyGenerate .. => handle                                                                     -- sa_key_generate.c:116
  | .keyExport o _ _ _ => out o                                                                   -- sa_key_export.c:98-100
  | .keyImport .. => handle                                                                       -- sa_key_import.c:182
  | .keyUnwrap .. => handle                                                                       -- sa_key_unwrap.c:409
  | .keyGetPublic o _ _ => out o                                                                  -- sa_key_get_public.c:74-76
  | .keyDerive .. => handle                                                                       -- sa_key_derive.c:331
  | .keyExchange _ _ alg _ _ _ =>                                                                 -- sa_key_exchange.c:136-140
    if alg = 2 then { handle with second := fld ((p 2).mem.getD []) 8 8, third := fld ((p 2).mem.getD []) 624 8 } else handle
  | .keyHeader _ => { app with blob := headerCopy ((p 1).mem.getD []) }                           -- sa_key_header.c:65-79
  | .keyDigest o _ _ _ => out o                                                                   -- sa_key_digest.c:76-78
  | .random _ n => { app with mem := e.copyOut app.mem 0 (p 1) n }                                -- sa_crypto_random.c:64
  | .cipherInit .. => handle                                                                      -- sa_crypto_cipher_init.c:263
  | .cipherProcess o _ src _ => process cmd o src (fld cmd 32 8)                                  -- sa_crypto_cipher_process.c:132-147
  | .cipherProcessLast o _ src _ t =>                                                             -- sa_crypto_cipher_process_last.c:152-172
    let r := process cmd o src (fld cmd 16 8)
    match t with
    | some t => { r with tag := e.copyOut r.tag 0 (p 3) t.len }
    | none => r
  | .macInit .. => handle                                                                         -- sa_crypto_mac_init.c:77
  | .macCompute o _ _ => out o                                                                    -- sa_crypto_mac_compute.c:74-76
  | .sign o _ _ _ _ _ => out o                                                                    -- sa_crypto_sign.c:137-139
  | .svpCreate .. => handle                                                                       -- sa_svp_buffer_create.c:66
  | .svpRelease _ => { app with second := fld cmd 8 8, third := fld cmd 16 8 }                    -- sa_svp_buffer_release.c:66-67
  | .svpKeyCheck .. => { app with third := fld cmd 24 8 }                                         -- sa_svp_key_check.c:96-99: `=` for both types
  | .cenc s =>                                                                                    -- sa_process_common_encryption.c:175-186
    { app with
      second := advance s.out (fld cmd 64 8)
      third := advance s.src (fld cmd 80 8)
      mem := match s.out with | .clear _ off => e.copyOut app.mem off (p 2) (fld cmd 64 8) | .svp _ _ => app.mem }
  | _ => app
where
  /-- `size`: how much is copied; the offset in `sa_crypto_cipher_process`, the number of bytes in `sa_crypto_cipher_process_last`. -/
  process (cmd : Bytes) (o : Option Buf) (src : Buf) (size : Nat) : Out :=
    { app with
      value := fld cmd 16 8
      second := match o with | some b => advance b (fld cmd 32 8) | none => app.second
      third := advance src (fld cmd 48 8)
      mem := match o with | some (.clear _ off) => e.copyOut app.mem off (p 1) size | _ => app.mem }

/-- A call of the API with its effect on the variables of the application. -/
def exec (e : CEnv) (ta : Call → Status × Out) (c : Call) (app : Out) : Status × Out :=
  match request e c with
  | .error s => (s, app)
  | .ok (id, p) =>
    match received id p with
    | .error s => (s, finish e c s p app)
    | .ok c' =>
      let r := ta c'
      (r.1, finish e c r.1 (respond id p r.2) (landed e c r.2 app))

end Sa.Cl

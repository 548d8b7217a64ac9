import Verif.Lemmas.ClientRet

/-!
# C70: the application gets what the TA returned, and after a failure its variables are as before
-/

namespace Sa.C70
open Sa.Ta Sa.Cl

/-! ## What the application expects -/

/-- `w` replaces the bytes of `b` from `off` on. -/
def Over (b : Bytes) (off : Nat) (w r : Bytes) : Prop := r = b.take off ++ w ++ b.drop (off + w.length)

/-- The offset of a buffer after `n` (clear memory: the TA counts from the offset given by the application) or with the new offset `n` (SVP). -/
def Offs (b : Buf) (n r : Nat) : Prop :=
  match b with
  | .clear _ off => r = off + n
  | .svp _ _ => r = n

/-- Magic, rights, type, size and the parameters of the type, `sa_header` in sa_types.h. -/
def SameHeader (h r : Bytes) : Prop :=
  slice r 0 4 = slice h 0 4 ∧ slice r 8 608 = slice h 8 608 ∧ slice r 616 1 = slice h 616 1 ∧ slice r 1664 2 = slice h 1664 2 ∧
  (slice h 616 1 = [1] → slice r 624 4 = slice h 624 4) ∧ (slice h 616 1 = [3] → slice r 624 1040 = slice h 624 1040)

/-- Only the handle changes. -/
def Handle (o app r : Out) : Prop := r = { app with value := o.value }
/-- The length, and the output if there is room for one. -/
def Output (out : Bool) (o app r : Out) : Prop := r = { app with value := o.value, mem := r.mem } ∧ if out then Over app.mem 0 o.mem r.mem else r.mem = app.mem
/-- Both offsets and the output in clear memory. -/
def Data (out : Option Buf) (src : Buf) (o app r : Out) : Prop :=
  Offs src o.third r.third ∧
  match out with
  | some b => Offs b o.second r.second ∧ (match b with | .clear _ off => Over app.mem off o.mem r.mem | .svp _ _ => r.mem = app.mem)
  | none => r.second = app.second ∧ r.mem = app.mem

/-- `r`: the variables of the application after the successful call `c`, `app`: before; `o`: what the function of the TA returned. -/
def Shown (c : Call) (o app r : Out) : Prop :=
  match c with
  | .getVersion _ => r = { app with blob := o.blob }
  | .getTaUuid _ => r = { app with blob := o.blob }
  | .keyHeader _ => r = { app with blob := r.blob } ∧ SameHeader o.blob r.blob
  | .getName out _ => Output out o app r
  | .keyExport out _ _ _ => Output out o app r
  | .keyGetPublic out _ _ => Output out o app r
  | .keyDigest out _ _ _ => Output out o app r
  | .macCompute out _ _ => Output out o app r
  | .sign out _ _ _ _ _ => Output out o app r
  | .getDeviceId _ => Handle o app r
  | .keyGenerate .. => Handle o app r
  | .keyImport .. => Handle o app r
  | .keyUnwrap .. => Handle o app r
  | .keyDerive .. => Handle o app r
  | .keyExchange _ _ alg _ _ _ => if alg = 2 then r = { app with value := o.value, second := o.second, third := o.third } else Handle o app r
  | .cipherInit .. => Handle o app r
  | .macInit .. => Handle o app r
  | .svpCreate .. => Handle o app r
  | .random .. => r = { app with mem := r.mem } ∧ Over app.mem 0 o.mem r.mem
  | .cipherProcess out _ src _ => r.value = o.value ∧ Data out src o app r ∧ r.tag = app.tag ∧ r.blob = app.blob
  | .cipherProcessLast out _ src _ tag => r.value = o.value ∧ Data out src o app r ∧ r.blob = app.blob ∧ if tag.isSome then r.tag = o.tag else r.tag = app.tag
  | .cenc s => r.value = app.value ∧ Data (some s.out) s.src o app r ∧ r.tag = app.tag ∧ r.blob = app.blob
  | .svpRelease _ => r = { app with second := o.second, third := o.third }
  | .svpKeyCheck .. => r = { app with third := o.third }
  | _ => r = app

/-! ## What is assumed -/

/-- The room of clear memory behind the offset. -/
def room : Buf → Nat
  | .clear m off => m.len - off
  | .svp _ _ => 0

/-- The length of an output is the number of bytes written, and it fits. -/
def FitsOut (out : Bool) (n : Nat) (s : Status) (o : Out) : Prop := out = true → o.mem.length ≤ n ∧ (s = .OK → o.mem.length = o.value)
/-- The offsets in clear memory stay in it; the offset of the output says how much has been written. -/
def FitsData (out : Option Buf) (src : Buf) (s : Status) (o : Out) : Prop :=
  (∀ m off, src = .clear m off → s = .OK → o.third ≤ room src) ∧ ∀ b m off, out = some b → b = .clear m off → o.mem.length ≤ room b ∧ (s = .OK → o.mem.length = o.second)

/-- What a function of the TA returns: the sizes of the types, outputs that fit, and the input variables of failed calls as they were. -/
def Fits (c : Call) (s : Status) (o : Out) : Prop :=
  o.value < 2 ^ 64 ∧ o.second < 2 ^ 64 ∧ o.third < 2 ^ 64 ∧
  match c with
  | .getVersion v => o.blob.length = 32 ∧ (s ≠ .OK → o.blob = v)
  | .getTaUuid u => o.blob.length = 16 ∧ (s ≠ .OK → o.blob = u)
  | .keyHeader _ => o.blob.length = 1672
  | .getName out n => FitsOut out n s o
  | .keyExport out n _ _ => FitsOut out n s o
  | .keyGetPublic out n _ => FitsOut out n s o
  | .keyDigest out n _ _ => FitsOut out n s o
  | .macCompute out n _ => FitsOut out n s o
  | .sign out n _ _ _ _ => FitsOut out n s o
  | .random _ n => o.mem.length ≤ n ∧ (s = .OK → o.mem.length = n)
  | .cipherProcess out _ src _ => FitsData out src s o
  | .cipherProcessLast out _ src _ tag => FitsData out src s o ∧ (∀ t, tag = some t → o.tag.length = t.len) ∧
      ∀ m off, out = some (.clear m off) → s = .OK → o.value = o.second
  | .cenc q => FitsData (some q.out) q.src s o
  | _ => True

/-- The variables of the application: the memory has the length given in the call. -/
def Holds (c : Call) (app : Out) : Prop :=
  let clear (b : Buf) : Prop := match b with | .clear m _ => app.mem.length = m.len | .svp _ _ => True
  match c with
  | .getVersion v => app.blob = v
  | .getTaUuid u => app.blob = u
  | .getName true n => app.mem.length = n
  | .keyExport true n _ _ => app.mem.length = n
  | .keyGetPublic true n _ => app.mem.length = n
  | .keyDigest true n _ _ => app.mem.length = n
  | .macCompute true n _ => app.mem.length = n
  | .sign true n _ _ _ _ => app.mem.length = n
  | .random _ n => app.mem.length = n
  | .cipherProcess (some b) _ _ _ => clear b
  | .cipherProcessLast out _ _ _ tag => (∀ b, out = some b → clear b) ∧ ∀ t, tag = some t → app.tag.length = t.len
  | .cenc s => clear s.out
  | _ => True

/-- The output memory of the application, from which offset on. -/
def outputFrom : Call → Option Nat
  | .getName out _ => if out then some 0 else none
  | .keyExport out _ _ _ => if out then some 0 else none
  | .keyGetPublic out _ _ => if out then some 0 else none
  | .keyDigest out _ _ _ => if out then some 0 else none
  | .random out _ => if out then some 0 else none
  | .macCompute out _ _ => if out then some 0 else none
  | .sign out _ _ _ _ _ => if out then some 0 else none
  | .cipherProcess out _ _ _ => out.bind clearFrom
  | .cipherProcessLast out _ _ _ _ => out.bind clearFrom
  | .cenc s => clearFrom s.out
  | _ => none
where
  clearFrom : Buf → Option Nat
    | .clear _ off => some off
    | .svp _ _ => none

/-- After a failure the variables are as before; without shared memory the output memory that was given to the TA may have other contents. -/
def Kept (shared : Bool) (c : Call) (app r : Out) : Prop :=
  r.value = app.value ∧ r.second = app.second ∧ r.third = app.third ∧ r.blob = app.blob ∧ r.mem.length = app.mem.length ∧ r.tag.length = app.tag.length ∧
  (shared = true → r.mem = app.mem ∧ r.tag = app.tag) ∧ (outputFrom c = none → r.mem = app.mem) ∧ ∀ off, outputFrom c = some off → r.mem.take off = app.mem.take off

/-! ## Proof -/

variable {e : CEnv} {id : Nat} {p : Params} {s : Status} {o app : Out}

theorem over_put (b : Bytes) (off : Nat) (w : Bytes) : Over b off w (put b off w) := by simp [Over, put]

/-- Writing the output twice. -/
theorem copy_out (hs : e.shared = true) (b : Bytes) (off : Nat) (q : TaParam) (m w : Bytes) (n : Nat) (hq : q.mem = some m) (hn : w.length = n) :
    e.copyOut b off (wr q 0 w) n = put b off w := by
  unfold CEnv.copyOut
  rw [if_pos hs, wr_mem q 0 w m hq, Option.getD_some, ← hn, take_put]

theorem copy_direct (hs : e.shared = false) (b : Bytes) (off : Nat) (q : TaParam) (n : Nat) : e.copyOut b off q n = b := by
  unfold CEnv.copyOut
  rw [hs]
  rfl

/-- The first field of a command after the answer. -/
theorem value_back {b : Bytes} (hb : (p 0).mem = some b) (hl : 16 ≤ b.length) (hv : o.value < 2 ^ 64) :
    fld ((wr (p 0) 8 (le 8 o.value)).mem.getD []) 8 8 = o.value := by
  rw [wr_mem _ _ _ _ hb, Option.getD_some, fld_put b 8 _ (by omega) hv]

/-- Nothing lands in the memory of the application. -/
theorem landed_none {c : Call} (hw : window c = none) (ht : ∀ a b d f t, c ≠ .cipherProcessLast a b d f (some t)) : landed e c o app = app := by
  unfold landed
  rw [hw]
  split
  · rfl
  · cases c <;> first | rfl | (rename_i t; cases t <;> first | rfl | exact absurd rfl (ht _ _ _ _ _))

theorem landed_shared (hs : e.shared = true) (c : Call) : landed e c o app = app := by
  unfold landed
  rw [if_pos hs]

/-- The output memory of a call without tag, if the memory of the application is given to the TA. -/
theorem landed_direct (hs : e.shared = false) {c : Call} {off : Nat} (hw : window c = some off) (ht : ∀ a b d f t, c ≠ .cipherProcessLast a b d f t) :
    landed e c o app = { app with mem := put app.mem off o.mem } := by
  unfold landed
  rw [hs, hw]
  cases c <;> first | rfl | exact absurd rfl (ht _ _ _ _ _)

set_option hygiene false in
/-- Calls that return a handle. -/
macro "handles" : tactic => `(tactic| (
  obtain ⟨rfl, b, hb, hl⟩ := cmd_of hj hw h
  rw [landed_none rfl (by intros; simp)]
  have hv := value_back hb (by rw [hl]; simp only [cmdSize]; decide) hf.1
  simp only [finish, respond, num, params, Shown, Handle, hv, ne_eq, not_true_eq_false, if_false]))

/-- The parameter with the output memory. -/
theorem mem_out {q : Bool} {n : Nat} : (e.pOut q n).mem = if q then some (List.replicate n 0) else none := by
  cases q <;> rfl

set_option hygiene false in
/-- Calls that return a length and an output. -/
macro "outputs" "[" ls:Lean.Parser.Tactic.simpLemma,* "]" : tactic => `(tactic| (
  obtain ⟨rfl, b, hb, hl⟩ := cmd_of hj hw h
  have hv := value_back hb (by rw [hl]; simp only [cmdSize]; decide) hf.1
  cases q with
  | false =>
    rw [landed_none rfl (by intros; simp)]
    simp only [finish, respond, num, params, Shown, Output, hv, ne_eq, not_true_eq_false, if_false, Bool.false_eq_true, true_and]
  | true =>
    have hm : ∃ m, (p 1).mem = some m := by
      simp only [request, $ls,*] at h
      (repeat' (split at h)) <;> first | (cases h; done) | (simp only [Except.ok.injEq, Prod.mk.injEq] at h; rw [← h.2]; exact ⟨_, rfl⟩)
    obtain ⟨m, hm⟩ := hm
    cases hs : e.shared with
    | true =>
      rw [landed_shared hs]
      simp only [finish, respond, num, params, Shown, Output, hv, ne_eq, not_true_eq_false, if_false, if_true, true_and,
        copy_out hs app.mem 0 (p 1) m o.mem _ hm ((hf.2.2.2 rfl).2 rfl)]
      exact over_put _ _ _
    | false =>
      rw [landed_direct hs rfl (by intros; simp)]
      simp only [finish, respond, num, params, Shown, Output, hv, ne_eq, not_true_eq_false, if_false, if_true, true_and, copy_direct hs]
      exact over_put _ _ _))

set_option hygiene false in
/-- Calls without output. -/
macro "nothing" : tactic => `(tactic| (
  rw [landed_none rfl (by intros; simp)]
  simp only [finish, Shown, ne_eq, not_true_eq_false, if_false]))

/-- Two fields of a command. -/
theorem two_back {q : TaParam} {b : Bytes} {i j x y : Nat} (hq : q.mem = some b) (hij : i + 8 ≤ j) (hl : j + 8 ≤ b.length) (h1 : x < 2 ^ 64) (h2 : y < 2 ^ 64) :
    fld ((wr (wr q i (le 8 x)) j (le 8 y)).mem.getD []) i 8 = x ∧ fld ((wr (wr q i (le 8 x)) j (le 8 y)).mem.getD []) j 8 = y := by
  have hl' : (put b i (le 8 x)).length = b.length := put_length _ _ _ (by rw [le_length]; omega)
  rw [wr_mem _ _ _ _ (wr_mem _ _ _ _ hq), Option.getD_some]
  exact ⟨by rw [fld_put_before _ _ _ _ _ (by omega) (by omega), fld_put _ _ _ (by omega) h1], by rw [fld_put _ _ _ (by omega) h2]⟩

theorem slice_blob {q : TaParam} {b w : Bytes} {i n : Nat} (hq : q.mem = some b) (hl : i ≤ b.length) (hw : w.length = n) :
    slice ((wr q i w).mem.getD []) i n = w := by
  rw [wr_mem _ _ _ _ hq, Option.getD_some, ← hw, slice_put _ _ _ hl]

theorem header_same (h : Bytes) (hl : h.length = 1672) : SameHeader h (headerCopy h) ∧ (headerCopy h).length = 1672 := by
  have hs : ∀ i n, i + n ≤ 1672 → (slice h i n).length = n := fun i n hi => by simp [slice]; omega
  have hg : slice h 616 1 = [h.getD 616 0] := by
    unfold slice
    rw [List.getD_eq_getElem?_getD, List.getElem?_eq_getElem (by omega), List.drop_eq_getElem_cons (by omega : 616 < h.length)]
    rfl
  have z4 : ([0, 0, 0, 0] : Bytes).length = 4 := rfl
  have h0 := hs 0 4 (by decide)
  have h1 := hs 8 608 (by decide)
  have h2 := hs 616 1 (by decide)
  have h3 := hs 1664 2 (by decide)
  have h4 := hs 624 4 (by decide)
  have h5 := hs 624 1040 (by decide)
  unfold SameHeader headerCopy
  simp only [hg, List.cons.injEq, and_true]
  generalize h.getD 616 0 = t at *
  obtain ⟨T, hT⟩ : ∃ T : Bytes, T = if t.toNat = 1 then slice h 624 4 ++ List.replicate 1036 0 else if t.toNat = 3 then slice h 624 1040 else List.replicate 1040 0 := ⟨_, rfl⟩
  rw [← hT]
  have hTl : T.length = 1040 := by
    rw [hT]
    split
    · rw [List.length_append, h4, List.length_replicate]
    · split
      · exact h5
      · exact List.length_replicate
  refine ⟨⟨?_, ?_, ?_, ?_, ?_, ?_⟩, ?_⟩
  · rw [List.append_assoc, slice_app_hit _ _ _ h0]
  · rw [slice_app_skip _ _ _ _ (by simp [h0]), List.length_append, h0, z4, slice_app_hit _ _ _ h1]
  · rw [slice_app_skip _ _ _ _ (by simp [h0]), List.length_append, h0, z4, slice_app_skip _ _ _ _ (by omega), h1, slice_app_hit _ _ _ (by simp)]
  · rw [slice_app_skip _ _ _ _ (by simp [h0]), List.length_append, h0, z4, slice_app_skip _ _ _ _ (by omega), h1, slice_app_skip _ _ _ _ (by simp),
      slice_app_skip _ _ _ _ (by simp), slice_app_skip _ _ _ _ (by simp [hTl]), hTl]
    simp only [List.length_cons, List.length_nil]
    exact slice_app_hit _ _ 2 h3
  · intro ht
    subst ht
    rw [slice_app_skip _ _ _ _ (by simp [h0]), List.length_append, h0, z4, slice_app_skip _ _ _ _ (by omega), h1, slice_app_skip _ _ _ _ (by simp),
      slice_app_skip _ _ _ _ (by simp), hT, if_pos (by decide), List.append_assoc]
    exact slice_app_hit _ _ _ h4
  · intro ht
    subst ht
    rw [slice_app_skip _ _ _ _ (by simp [h0]), List.length_append, h0, z4, slice_app_skip _ _ _ _ (by omega), h1, slice_app_skip _ _ _ _ (by simp),
      slice_app_skip _ _ _ _ (by simp), hT, if_neg (by decide), if_pos (by decide)]
    exact slice_app_hit _ _ _ h5
  · simp only [List.length_append, h0, h1, hTl, h3, List.length_cons, List.length_nil]

/-- The request of `sa_crypto_cipher_process` and `sa_crypto_cipher_process_last`. -/
theorem proc_req {i c n : Nat} {out : Option Buf} {src : Buf} {tag : Except Status TaParam} (h : cipherProcess e i out c src n tag = .ok (id, p)) :
    ∃ p1 o1 p2 o2 p3, outPrm e out = .ok (p1, o1) ∧ bufPrm e false src = .ok (p2, o2) ∧ tag = .ok p3 ∧ id = i ∧
      p = params (e.pCmd (e.version ++ [le 8 c, le 8 n, le 4 ((out.map Buf.type).getD 0), e.junk 4, le 8 o1, le 4 src.type, e.junk 4, le 8 o2])) p1 p2 p3 := by
  unfold cipherProcess at h
  split at h
  · cases h
  rename_i p1 o1 h1
  split at h
  · cases h
  rename_i p2 o2 h2
  split at h
  · cases h
  rename_i p3
  simp only [Except.ok.injEq, Prod.mk.injEq] at h
  exact ⟨p1, o1, p2, o2, p3, h1, h2, rfl, h.1.symm, h.2.symm⟩

/-- The request of `sa_process_common_encryption`. -/
theorem cenc_req {q : Smp} (h : request e (.cenc q) = .ok (id, p)) :
    ∃ iv p1 p2 o2 p3 o3, bufPrm e true q.out = .ok (p2, o2) ∧ bufPrm e false q.src = .ok (p3, o3) ∧ (q.iv.mem = some iv ∧ q.iv.len = 16) ∧
      p = params (e.pCmd [le 1 1, iv, e.junk 7, le 8 q.crypt, le 8 q.skip, le 8 q.subs.length, le 8 q.context, le 4 q.out.type, e.junk 4, le 8 o2,
            le 4 q.src.type, e.junk 4, le 8 o3]) p1 p2 p3 := by
  simp only [request, cenc] at h
  split at h
  · cases h
  rename_i iv hiv
  split at h
  · cases h
  rename_i hl
  split at h
  · cases h
  rename_i p2 o2 h2
  split at h
  · cases h
  rename_i p3 o3 h3
  simp only [Except.ok.injEq, Prod.mk.injEq] at h
  exact ⟨iv, _, p2, o2, p3, o3, h2, h3, ⟨hiv, by omega⟩, h.2.symm⟩

/-- The offset of clear memory is inside of it. -/
theorem buf_req {w : Bool} {m : In} {off o1 : Nat} {q : TaParam} (h : bufPrm e w (.clear m off) = .ok (q, o1)) : off ≤ m.len ∧ q.mem.isSome = true := by
  simp only [bufPrm] at h
  split at h
  · cases h
  · split at h
    · cases h
    · split at h <;> simp only [Except.ok.injEq, Prod.mk.injEq] at h <;> rw [← h.1] <;> exact ⟨by omega, rfl⟩

/-- The three fields of a command for data. -/
theorem three_back {q : TaParam} {b : Bytes} {x y z : Nat} (hq : q.mem = some b) (hl : b.length = 56) (h1 : x < 2 ^ 64) (h2 : y < 2 ^ 64) (h3 : z < 2 ^ 64) :
    let c := (wr (wr (wr q 16 (le 8 x)) 32 (le 8 y)) 48 (le 8 z)).mem.getD []
    fld c 16 8 = x ∧ fld c 32 8 = y ∧ fld c 48 8 = z := by
  have l1 : (put b 16 (le 8 x)).length = 56 := by rw [put_length _ _ _ (by rw [le_length]; omega), hl]
  have l2 : (put (put b 16 (le 8 x)) 32 (le 8 y)).length = 56 := by rw [put_length _ _ _ (by rw [le_length]; omega), l1]
  simp only [wr_mem _ _ _ _ (wr_mem _ _ _ _ (wr_mem _ _ _ _ hq)), Option.getD_some]
  refine ⟨?_, ?_, ?_⟩
  · rw [fld_put_before _ _ _ _ _ (by omega) (by omega), fld_put_before _ _ _ _ _ (by omega) (by omega), fld_put _ _ _ (by omega) h1]
  · rw [fld_put_before _ _ _ _ _ (by omega) (by omega), fld_put _ _ _ (by omega) h2]
  · rw [fld_put _ _ _ (by omega) h3]

/-- Offsets. -/
theorem offs (b : Buf) (n : Nat) (h : ∀ m off, b = .clear m off → off + n < 2 ^ 64) : Offs b n (advance b n) := by
  cases b with
  | clear m off => exact Nat.mod_eq_of_lt (h m off rfl)
  | svp => rfl

/-- The data of `sa_crypto_cipher_process` and `sa_crypto_cipher_process_last`: `base` the variables when the TA has returned. -/
theorem proc_back (hj : ∀ n, (e.junk n).length = n) {i c n size : Nat} {out : Option Buf} {src : Buf} {tag : Except Status TaParam} {base : Out}
    (hwo : ∀ b, out = some b → b.WF) (hws : src.WF) (hi : i = 18 ∨ i = 19)
    (h : cipherProcess e i out c src n tag = .ok (id, p)) (hv : o.value < 2 ^ 64) (h2 : o.second < 2 ^ 64) (h3 : o.third < 2 ^ 64) (hf : FitsData out src .OK o)
    (hb0 : base.second = app.second)
    (hb : base.mem = match out with | some (.clear _ off) => if e.shared then app.mem else put app.mem off o.mem | _ => app.mem)
    (hsz : ∀ m off, out = some (.clear m off) → fld (((respond id p o) 0).mem.getD []) 16 8 = o.value → fld (((respond id p o) 0).mem.getD []) 32 8 = o.second → size = o.second) :
    let r := finish.process e (respond id p o) base (((respond id p o) 0).mem.getD []) out src size
    r.value = o.value ∧ Data out src o app r ∧ r.tag = base.tag ∧ r.blob = base.blob := by
  obtain ⟨p1, o1, p2, o2, p3, e1, e2, e3, rfl, hp⟩ := proc_req h
  obtain ⟨b, hb1, hb2⟩ : ∃ b, (p 0).mem = some b ∧ b.length = 56 := by
    rw [hp]
    refine ⟨_, rfl, ?_⟩
    simp [CEnv.version, le_length, hj]
  have hty : fld ((p 0).mem.getD []) 24 4 = (out.map Buf.type).getD 0 := by
    rw [hp]
    simp [params, CEnv.pCmd, CEnv.version, fld_app_skip, fld_app_hit, le_length, hj]
    apply leNat_le4
    cases out with
    | none => decide
    | some b => cases b <;> simp [Buf.type]
  have hp1 : p 1 = p1 := by rw [hp]; rfl
  have hr0 : (respond id p o) 0 = wr (if (p 1).mem.isSome then wr (wr (p 0) 16 (le 8 o.value)) 32 (le 8 o.second) else wr (p 0) 16 (le 8 o.value)) 48 (le 8 o.third) := by
    rcases hi with rfl | rfl <;> rfl
  have hr1 : (respond id p o) 1 = if fld ((p 0).mem.getD []) 24 4 = 0 then wr (p 1) 0 o.mem else p 1 := by
    rcases hi with rfl | rfl <;> rfl
  have hsrc : Offs src o.third (advance src o.third) := offs _ _ fun m off hx => by
    subst hx
    have := (buf_req e2).1
    have := hf.1 m off rfl rfl
    have := hws.1.1
    simp only [room] at *
    omega
  simp only [finish.process]
  cases out with
  | none =>
    simp only [outPrm, Except.ok.injEq, Prod.mk.injEq] at e1
    have hn : (p 1).mem = none := by rw [hp1, ← e1.1]; rfl
    rw [hn] at hr0
    simp only [Option.isSome, Bool.false_eq_true, if_false] at hr0
    obtain ⟨t1, t2⟩ := two_back (x := o.value) (y := o.third) hb1 (by decide : 16 + 8 ≤ 48) (by omega) hv h3
    rw [hr0]
    refine ⟨t1, ⟨?_, hb0, hb⟩, trivial, trivial⟩
    simp only [t2]
    exact hsrc
  | some ob =>
    simp only [outPrm] at e1
    have hsome : (p 1).mem.isSome = true := by
      cases ob with
      | clear m off => rw [hp1]; exact (buf_req e1).2
      | svp x off => simp only [bufPrm, Except.ok.injEq, Prod.mk.injEq] at e1; rw [hp1, ← e1.1]; rfl
    rw [hsome] at hr0
    simp only [if_true] at hr0
    obtain ⟨t1, t2, t3⟩ := three_back hb1 hb2 hv h2 h3
    rw [← hr0] at t1 t2 t3
    refine ⟨t1, ⟨by simp only [t3]; exact hsrc, ?_⟩, trivial, trivial⟩
    simp only [t2]
    cases ob with
    | svp x off => exact ⟨rfl, hb⟩
    | clear m off =>
      obtain ⟨f1, f2⟩ := hf.2 _ m off rfl rfl
      have := (buf_req e1).1
      have := (hwo _ rfl).1.1
      refine ⟨offs _ _ fun m' off' hx => ?_, ?_⟩
      · cases hx
        have := f2 rfl
        simp only [room] at f1
        omega
      · obtain ⟨m1, hm1⟩ := Option.isSome_iff_exists.mp hsome
        have hz := hsz m off rfl t1 t2
        simp only at hb ⊢
        cases hs : e.shared with
        | true =>
          rw [hb, hs, if_pos rfl, hr1, hty, if_pos (by rfl), copy_out hs _ _ _ _ _ _ hm1 (by rw [hz]; exact f2 rfl)]
          exact over_put _ _ _
        | false =>
          rw [copy_direct hs, hb, hs]
          exact over_put _ _ _

theorem ok_back (hj : ∀ n, (e.junk n).length = n) {c : Call} (hw : C63.WF c) (h : request e c = .ok (id, p)) (hf : Fits c .OK o) (ha : Holds c app) :
    Shown c o app (finish e c .OK (respond id p o) (landed e c o app)) := by
  cases c
  case getDeviceId => handles
  case keyGenerate => handles
  case keyImport => handles
  case keyUnwrap => handles
  case keyDerive => handles
  case cipherInit => handles
  case macInit => handles
  case svpCreate => handles
  case getName q _ => outputs []
  case keyExport q _ _ _ => outputs [keyExport]
  case keyGetPublic q _ _ => outputs []
  case keyDigest q _ _ _ => outputs []
  case macCompute q _ _ => outputs []
  case sign q _ _ _ _ _ => outputs [sign]
  case getVersion v =>
    obtain ⟨rfl, b, hb, hl⟩ := cmd_of hj hw h
    rw [landed_none rfl (by intros; simp)]
    have hv := slice_blob (w := o.blob) hb (by rw [hl]; simp only [cmdSize]; decide : 8 ≤ b.length) hf.2.2.2.1
    simp only [finish, respond, num, params, Shown, hv]
  case getTaUuid v =>
    obtain ⟨rfl, b, hb, hl⟩ := cmd_of hj hw h
    rw [landed_none rfl (by intros; simp)]
    have hv := slice_blob (w := o.blob) hb (by rw [hl]; simp only [cmdSize]; decide : 1 ≤ b.length) hf.2.2.2.1
    simp only [finish, respond, num, params, Shown, hv]
  case svpRelease v =>
    obtain ⟨rfl, b, hb, hl⟩ := cmd_of hj hw h
    rw [landed_none rfl (by intros; simp)]
    have hv := two_back hb (by decide : 8 + 8 ≤ 16) (by rw [hl]; simp only [cmdSize]; decide) hf.2.1 hf.2.2.1
    simp only [finish, respond, num, params, Shown, hv, ne_eq, not_true_eq_false, if_false]
  case svpKeyCheck v =>
    obtain ⟨rfl, b, hb, hl⟩ := cmd_of hj hw h
    rw [landed_none rfl (by intros; simp)]
    have hv : fld ((wr (p 0) 24 (le 8 o.third)).mem.getD []) 24 8 = o.third := by
      rw [wr_mem _ _ _ _ hb, Option.getD_some, fld_put b 24 _ (by rw [hl]; simp only [cmdSize]; decide) hf.2.2.1]
    simp only [finish, respond, num, params, Shown, hv, ne_eq, not_true_eq_false, if_false]
  case random q n =>
    obtain ⟨rfl, b, hb, hl⟩ := cmd_of hj hw h
    simp only [request] at h
    split at h
    · rename_i hq
      subst hq
      simp only [Except.ok.injEq, Prod.mk.injEq] at h
      have hm : (p 1).mem = some (List.replicate n 0) := by rw [← h.2]; rfl
      cases hs : e.shared with
      | true =>
        rw [landed_shared hs]
        simp only [finish, respond, num, params, Shown, ne_eq, not_true_eq_false, if_false, true_and,
          copy_out hs app.mem 0 (p 1) _ o.mem _ hm (hf.2.2.2.2 rfl)]
        exact over_put _ _ _
      | false =>
        rw [landed_direct hs rfl (by intros; simp)]
        simp only [finish, respond, num, params, Shown, ne_eq, not_true_eq_false, if_false, true_and, copy_direct hs]
        exact over_put _ _ _
    · cases h
  case keyHeader k =>
    obtain ⟨rfl, b, hb, hl⟩ := cmd_of hj hw h
    rw [landed_none rfl (by intros; simp)]
    simp only [request, Except.ok.injEq, Prod.mk.injEq] at h
    have hm : (p 1).mem = some (List.replicate 1672 0) := by rw [← h.2]; rfl
    obtain ⟨h1, hl1⟩ := header_same o.blob hf.2.2.2
    obtain ⟨h2, hl2⟩ := header_same (headerCopy o.blob) hl1
    have he : ((wr (p 1) 0 (headerCopy o.blob)).mem.getD []) = headerCopy o.blob := by
      rw [wr_mem _ _ _ _ hm, Option.getD_some]
      unfold put
      rw [List.take_zero, List.nil_append, List.drop_eq_nil_of_le (by rw [List.length_replicate, hl1]; decide), List.append_nil]
    simp only [finish, respond, num, params, Shown, ne_eq, not_true_eq_false, if_false, he, true_and]
    obtain ⟨a1, a2, a3, a4, a5, a6⟩ := h1
    obtain ⟨b1, b2, b3, b4, b5, b6⟩ := h2
    exact ⟨b1.trans a1, b2.trans a2, b3.trans a3, b4.trans a4, fun hx => (b5 (a3.trans hx)).trans (a5 hx), fun hx => (b6 (a3.trans hx)).trans (a6 hx)⟩
  case keyExchange k r a pk pub g =>
    obtain ⟨rfl, b, hb, hl⟩ := cmd_of hj hw h
    rw [landed_none rfl (by intros; simp)]
    have hv := value_back hb (by rw [hl]; simp only [cmdSize]; decide) hf.1
    have hr : r.length = 608 := hw.2.1
    have ht : fld ((p 0).mem.getD []) 624 4 = a := by
      have hx : ∃ q1 q2 q3, p = params (e.pCmd (e.version ++ [le 8 k, r, le 4 a, e.junk 4, le 8 pk])) q1 q2 q3 := by
        simp only [request, keyExchange] at h
        (repeat' (split at h)) <;> first | (cases h; done) | (simp only [Except.ok.injEq, Prod.mk.injEq] at h; exact ⟨_, _, _, h.2.symm⟩)
      obtain ⟨q1, q2, q3, rfl⟩ := hx
      simp [params, CEnv.pCmd, CEnv.version, fld_app_skip, fld_app_hit, le_length, hj, hr]
      exact leNat_le4 a hw.2.2.1
    by_cases ha2 : a = 2
    · have hm : ∃ m, (p 2).mem = some m ∧ m.length = 1240 := by
        simp only [request, keyExchange, if_pos ha2] at h
        split at h
        · cases h
        · split at h
          · cases h
          · simp only [Except.ok.injEq, Prod.mk.injEq] at h
            rw [← h.2]
            refine ⟨_, rfl, ?_⟩
            obtain ⟨-, -, -, -, -, -, -, g1, -, g2⟩ := hw
            simp [le_length, g1, g2]
      obtain ⟨m, hm, hml⟩ := hm
      have hn := two_back hm (by decide : 8 + 8 ≤ 624) (by omega) hf.2.1 hf.2.2.1
      simp only [finish, respond, num, params, Shown, hv, ht, if_pos ha2, ne_eq, not_true_eq_false, if_false, hn]
    · simp only [finish, respond, num, params, Shown, hv, ht, if_neg ha2, ne_eq, not_true_eq_false, if_false, Handle]
  case cipherProcess out cx src n =>
    have key := proc_back (size := fld (((respond id p o) 0).mem.getD []) 32 8) (base := landed e (.cipherProcess out cx src n) o app) hj hw.1 hw.2.2.1 (.inl rfl) (by simpa only [request] using h) hf.1
      hf.2.1 hf.2.2.1 hf.2.2.2 (app := app) (by unfold landed; split <;> rfl) (by
        unfold landed
        cases out with
        | none => split <;> rfl
        | some b => cases b <;> split <;> simp_all [window]) (fun _ _ _ _ hx => hx)
    obtain ⟨k1, k2, k3, k4⟩ := key
    exact ⟨k1, k2, k3.trans (by unfold landed; split <;> rfl), k4.trans (by unfold landed; split <;> rfl)⟩
  case cipherProcessLast out cx src n tag =>
    have h' : cipherProcess e 19 out cx src n (tagPrm e tag) = .ok (id, p) := by simpa only [request] using h
    have key := proc_back (size := fld (((respond id p o) 0).mem.getD []) 16 8) (base := landed e (.cipherProcessLast out cx src n tag) o app) hj hw.1 hw.2.2.1 (.inr rfl) h'
      hf.1 hf.2.1 hf.2.2.1 hf.2.2.2.1 (app := app) (by unfold landed; split <;> rfl) (by
        unfold landed
        cases out with
        | none => split <;> rfl
        | some b => cases b <;> split <;> simp_all [window]) (fun m off ho hx _ => hx.trans (hf.2.2.2.2.2 m off ho rfl))
    obtain ⟨k1, k2, k3, k4⟩ := key
    have k4 := k4.trans (by unfold landed; split <;> rfl : _ = app.blob)
    cases tag with
    | none => exact ⟨k1, k2, k4, k3.trans (by unfold landed; split <;> rfl)⟩
    | some t =>
      refine ⟨k1, k2, k4, ?_⟩
      obtain ⟨p1, o1, p2, o2, p3, e1, e2, e3, rfl, hp⟩ := proc_req h'
      have hl : ∀ b : Bytes, b.length = t.len → put b 0 o.tag = o.tag := by
        intro b hb
        have := hf.2.2.2.2.1 t rfl
        unfold put
        rw [List.take_zero, List.nil_append, List.drop_eq_nil_of_le (by omega), List.append_nil]
      show CEnv.copyOut e (finish.process e (respond 19 p o) (landed e (.cipherProcessLast out cx src n (some t)) o app) _ out src _).tag 0 (wr (p 3) 0 o.tag) t.len = o.tag
      rw [k3]
      cases hs : e.shared with
      | true =>
        have hm : ∃ m, (p 3).mem = some m := by
          rw [hp]
          simp only [tagPrm] at e3
          split at e3
          · cases e3
          · rename_i ht
            have e3 := Except.ok.inj e3
            subst e3
            cases hx : t.mem with
            | none => rw [hx] at ht; simp at ht
            | some m => exact ⟨m, rfl⟩
        obtain ⟨m, hm⟩ := hm
        rw [landed_shared hs, copy_out hs _ _ _ _ _ _ hm (hf.2.2.2.2.1 t rfl), hl _ (ha.2 t rfl)]
      | false =>
        rw [copy_direct hs]
        simp only [landed, hs, Bool.false_eq_true, if_false]
        exact hl _ (ha.2 t rfl)
  case cenc q =>
    obtain ⟨rfl, b, hb, hl⟩ := cmd_of hj hw h
    obtain ⟨hwi, -, -, -, -, -, hwo, hws⟩ := hw
    obtain ⟨hv, h2, h3, hf1, hf2⟩ := hf
    obtain ⟨iv, p1, p2, o2, p3, o3, e1, e2, hil, hp⟩ := cenc_req h
    have hil : iv.length = 16 := by have := hwi.2 iv hil.1; omega
    have hty : fld ((p 0).mem.getD []) 56 4 = q.out.type := by
      rw [hp]
      simp [params, CEnv.pCmd, fld_app_skip, fld_app_hit, le_length, hj, hil]
      apply leNat_le4
      cases q.out <;> simp [Buf.type]
    have hp2 : p 2 = p2 := by rw [hp]; rfl
    obtain ⟨t1, t2⟩ := two_back (x := o.second) (y := o.third) hb (by decide : 64 + 8 ≤ 80) (by rw [hl]; simp only [cmdSize]; decide) h2 h3
    have hsrc : Offs q.src o.third (advance q.src o.third) := offs _ _ fun m off hx => by
      rw [hx] at e2 hws
      have := (buf_req e2).1
      have := hws.1.1
      have := hf1 m off hx rfl
      rw [hx] at this
      simp only [room] at *
      omega
    have hsec : ∀ m off, q.out = .clear m off → off + o.second < 2 ^ 64 := by
      intro m off hx
      obtain ⟨f1, f2⟩ := hf2 _ m off rfl hx
      rw [hx] at e1 hwo f1
      have := (buf_req e1).1
      have := hwo.1.1
      have := f2 rfl
      simp only [room] at f1
      omega
    have hsec := offs _ _ hsec
    refine ⟨?_, ⟨?_, ?_, ?_⟩, ?_, ?_⟩
    · simp only [finish, ne_eq, not_true_eq_false, if_false, landed]
      split <;> rfl
    · simp only [finish, ne_eq, not_true_eq_false, if_false, respond, num, params, t2]
      exact hsrc
    · simp only [finish, ne_eq, not_true_eq_false, if_false, respond, num, params, t1]
      exact hsec
    · simp only [finish, ne_eq, not_true_eq_false, if_false, respond, num, params, t1]
      cases ho : q.out with
      | svp x off =>
        simp only [landed, window, ho]
        split <;> rfl
      | clear m off =>
        obtain ⟨f1, f2⟩ := hf2 _ m off rfl ho
        rw [ho] at e1 hty
        obtain ⟨m1, hm1⟩ := Option.isSome_iff_exists.mp (buf_req e1).2
        rw [← hp2] at hm1
        simp only [hty, Buf.type, if_true]
        cases hs : e.shared with
        | true =>
          rw [landed_shared hs, copy_out hs _ _ _ _ _ _ hm1 (f2 rfl)]
          exact over_put _ _ _
        | false =>
          rw [copy_direct hs, landed_direct (off := off) hs (by simp only [window, ho]) (by intros; simp)]
          exact over_put _ _ _
    · simp only [finish, ne_eq, not_true_eq_false, if_false, landed]
      split <;> rfl
    · simp only [finish, ne_eq, not_true_eq_false, if_false, landed]
      split <;> rfl
  all_goals nothing

theorem window_eq (c : Call) : window c = outputFrom c := by
  cases c
  case getName q _ => cases q <;> rfl
  case keyExport q _ _ _ => cases q <;> rfl
  case keyGetPublic q _ _ => cases q <;> rfl
  case keyDigest q _ _ _ => cases q <;> rfl
  case random q _ => cases q <;> rfl
  case macCompute q _ _ => cases q <;> rfl
  case sign q _ _ _ _ _ => cases q <;> rfl
  case cipherProcess q _ _ _ =>
    cases q with
    | none => rfl
    | some b => cases b <;> rfl
  case cipherProcessLast q _ _ _ _ =>
    cases q with
    | none => rfl
    | some b => cases b <;> rfl
  case cenc s =>
    unfold window outputFrom outputFrom.clearFrom
    cases s.out <;> rfl
  all_goals rfl

/-- What lands in the output memory fits. -/
theorem room_for {c : Call} (h : request e c = .ok (id, p)) (hf : Fits c s o) (ha : Holds c app) {off : Nat} (hw : window c = some off) :
    off + o.mem.length ≤ app.mem.length := by
  cases c
  case getName q _ => cases q with | false => cases hw | true => cases hw; have := (hf.2.2.2 rfl).1; simp only [Holds] at ha; omega
  case keyExport q _ _ _ => cases q with | false => cases hw | true => cases hw; have := (hf.2.2.2 rfl).1; simp only [Holds] at ha; omega
  case keyGetPublic q _ _ => cases q with | false => cases hw | true => cases hw; have := (hf.2.2.2 rfl).1; simp only [Holds] at ha; omega
  case keyDigest q _ _ _ => cases q with | false => cases hw | true => cases hw; have := (hf.2.2.2 rfl).1; simp only [Holds] at ha; omega
  case macCompute q _ _ => cases q with | false => cases hw | true => cases hw; have := (hf.2.2.2 rfl).1; simp only [Holds] at ha; omega
  case sign q _ _ _ _ _ => cases q with | false => cases hw | true => cases hw; have := (hf.2.2.2 rfl).1; simp only [Holds] at ha; omega
  case random q _ => cases q with | false => cases hw | true => cases hw; have := hf.2.2.2.1; simp only [Holds] at ha; omega
  case cipherProcess q _ _ _ =>
    cases q with
    | none => cases hw
    | some b =>
      cases b with
      | svp => cases hw
      | clear m off' =>
        cases hw
        have := (hf.2.2.2.2 _ m off rfl rfl).1
        obtain ⟨p1, o1, p2, o2, p3, e1, -⟩ := proc_req (by simpa only [request] using h)
        have := (buf_req e1).1
        simp only [Holds] at ha
        simp only [room] at *
        omega
  case cipherProcessLast q _ _ _ _ =>
    cases q with
    | none => cases hw
    | some b =>
      cases b with
      | svp => cases hw
      | clear m off' =>
        cases hw
        have := (hf.2.2.2.1.2 _ m off rfl rfl).1
        obtain ⟨p1, o1, p2, o2, p3, e1, -⟩ := proc_req (by simpa only [request] using h)
        have := (buf_req e1).1
        have ha := ha.1 _ rfl
        simp only [room] at *
        omega
  case cenc q =>
    obtain ⟨iv, p1, p2, o2, p3, o3, e1, -⟩ := cenc_req h
    simp only [window] at hw
    cases ho : q.out with
    | svp => rw [ho] at hw; cases hw
    | clear m off' =>
      rw [ho] at hw e1
      cases hw
      have := (hf.2.2.2.2 _ m off rfl ho).1
      have := (buf_req e1).1
      simp only [Holds, ho] at ha
      simp only [ho, room] at *
      omega
  all_goals cases hw

/-- A failure changes only what the TA has written to the memory of the application. -/
theorem fail_back {c : Call} (h : request e c = .ok (id, p)) (hf : Fits c s o) (ha : Holds c app) : Kept e.shared c app (landed e c o app) := by
  cases hs : e.shared with
  | true =>
    rw [landed_shared hs]
    exact ⟨rfl, rfl, rfl, rfl, rfl, rfl, fun _ => ⟨rfl, rfl⟩, fun _ => rfl, fun _ _ => rfl⟩
  | false =>
    have hm : (landed e c o app).mem = match window c with | some off => put app.mem off o.mem | none => app.mem := by
      unfold landed
      rw [hs]
      rfl
    have hfx : (landed e c o app).value = app.value ∧ (landed e c o app).second = app.second ∧ (landed e c o app).third = app.third ∧
        (landed e c o app).blob = app.blob := by
      unfold landed
      rw [hs]
      exact ⟨rfl, rfl, rfl, rfl⟩
    have ht : (landed e c o app).tag.length = app.tag.length := by
      unfold landed
      rw [hs]
      cases c <;> try rfl
      case cipherProcessLast q _ _ _ t =>
        cases t with
        | none => rfl
        | some t =>
          have h1 := hf.2.2.2.2.1 t rfl
          have h2 := ha.2 t rfl
          exact put_length _ _ _ (by omega)
    refine ⟨hfx.1, hfx.2.1, hfx.2.2.1, hfx.2.2.2, ?_, ht, by simp, ?_, ?_⟩
    · rw [hm]
      cases hw : window c with
      | none => rfl
      | some off => exact put_length _ _ _ (room_for h hf ha hw)
    · intro hn
      rw [hm, window_eq, hn]
    · intro off hn
      rw [← window_eq] at hn
      have := room_for h hf ha hn
      rw [hm, hn]
      simp only [put]
      rw [List.take_append_of_le_length (by rw [List.length_take]; omega), List.take_take, Nat.min_self]

/-- Behind a failed invocation nothing is stored, except for the version and the UUID. -/
theorem finish_fail {c : Call} (hs : s ≠ .OK) (h1 : ∀ v, c ≠ .getVersion v) (h2 : ∀ v, c ≠ .getTaUuid v) (q : Params) (a : Out) : finish e c s q a = a := by
  unfold finish
  cases c <;> first | exact absurd rfl (h1 _) | exact absurd rfl (h2 _) | (simp only [ne_eq, hs, not_false_eq_true, if_true])

theorem blob_fail (hj : ∀ n, (e.junk n).length = n) {c : Call} (hw : C63.WF c) (h : request e c = .ok (id, p)) (hf : Fits c s o) (ha : Holds c app) (hs : s ≠ .OK) :
    finish e c s (respond id p o) (landed e c o app) = landed e c o app := by
  by_cases h1 : ∃ v, c = .getVersion v
  · obtain ⟨v, rfl⟩ := h1
    obtain ⟨rfl, b, hb, hl⟩ := cmd_of hj hw h
    rw [landed_none rfl (by intros; simp)]
    have hv := slice_blob (w := o.blob) hb (by rw [hl]; simp only [cmdSize]; decide : 8 ≤ b.length) hf.2.2.2.1
    have ha : app.blob = v := ha
    simp only [finish, respond, num, params, hv]
    rw [hf.2.2.2.2 hs, ← ha]
  · by_cases h2 : ∃ v, c = .getTaUuid v
    · obtain ⟨v, rfl⟩ := h2
      obtain ⟨rfl, b, hb, hl⟩ := cmd_of hj hw h
      rw [landed_none rfl (by intros; simp)]
      have hv := slice_blob (w := o.blob) hb (by rw [hl]; simp only [cmdSize]; decide : 1 ≤ b.length) hf.2.2.2.1
      have ha : app.blob = v := ha
      simp only [finish, respond, num, params, hv]
      rw [hf.2.2.2.2 hs, ← ha]
    · exact finish_fail hs (fun v hx => h1 ⟨v, hx⟩) (fun v hx => h2 ⟨v, hx⟩) _ _

/-! ## Theorems -/

/-- The TA function is called with the call `q`: its status is that of the function of the API.  After a success the application sees its outputs, after a
failure the variables are as before. -/
theorem C70_returned (e : CEnv) (he : e.WF) (ta : Call → Status × Out) (c : Call) (hw : C63.WF c) (app : Out) (ha : Holds c app)
    (id : Nat) (p : Params) (h : request e c = .ok (id, p)) (q : Call) (hq : received id p = .ok q) (hf : Fits c (ta q).1 (ta q).2) :
    ∃ r, exec e ta c app = ((ta q).1, r) ∧ ((ta q).1 = .OK → Shown c (ta q).2 app r) ∧ ((ta q).1 ≠ .OK → Kept e.shared c app r) := by
  refine ⟨finish e c (ta q).1 (respond id p (ta q).2) (landed e c (ta q).2 app), by unfold exec; rw [h]; simp only [hq], ?_, ?_⟩
  · intro hok
    rw [hok] at hf ⊢
    exact ok_back he hw h hf ha
  · intro hno
    rw [blob_fail he hw h hf ha hno]
    exact fail_back h hf ha

/-- With C63: calls of the API are calls of the functions of the TA with the same arguments and the same results. -/
theorem C70_as_meant (e : CEnv) (he : e.WF) (ta : Call → Status × Out) (c : Call) (hw : C63.WF c) (hn : ¬ C63.Empty c) (hl : ¬ C63.Lost c) (app : Out) (ha : Holds c app)
    (id : Nat) (p : Params) (h : request e c = .ok (id, p)) (hf : Fits c (ta (C63.meant c)).1 (ta (C63.meant c)).2) :
    ∃ r, exec e ta c app = ((ta (C63.meant c)).1, r) ∧ ((ta (C63.meant c)).1 = .OK → Shown c (ta (C63.meant c)).2 app r) ∧
      ((ta (C63.meant c)).1 ≠ .OK → Kept e.shared c app r) :=
  C70_returned e he ta c hw app ha id p h _ (C63.arrives e he c hw hn hl id p h) hf

/-- A call that does not reach the function of the TA changes nothing. -/
theorem C70_refused (e : CEnv) (he : e.WF) (ta : Call → Status × Out) (c : Call) (hw : C63.WF c) (app : Out) (ha : Holds c app) (s : Status)
    (h : request e c = .error s ∨ ∃ id p, request e c = .ok (id, p) ∧ received id p = .error s) (hs : s ≠ .OK) : exec e ta c app = (s, app) := by
  unfold exec
  rcases h with h | ⟨id, p, h, h1⟩
  · rw [h]
  · rw [h]
    simp only [h1, Prod.mk.injEq, true_and]
    by_cases g1 : ∃ v, c = .getVersion v
    · obtain ⟨v, rfl⟩ := g1
      have ha : app.blob = v := ha
      have hv : v.length = 32 := hw
      simp only [request, Except.ok.injEq, Prod.mk.injEq] at h
      have : slice ((p 0).mem.getD []) 8 32 = v := by
        rw [← h.2]
        simp [params, CEnv.pCmd, CEnv.version, slice_app_skip, le_length, he _, slice_all, hv]
      simp only [finish, this, ← ha]
    · by_cases g2 : ∃ v, c = .getTaUuid v
      · obtain ⟨v, rfl⟩ := g2
        have ha : app.blob = v := ha
        have hv : v.length = 16 := hw
        simp only [request, Except.ok.injEq, Prod.mk.injEq] at h
        have : slice ((p 0).mem.getD []) 1 16 = v := by
          rw [← h.2]
          simp [params, CEnv.pCmd, slice_app_skip, le_length, slice_all, hv]
        simp only [finish, this, ← ha]
      · exact finish_fail hs (fun v hx => g1 ⟨v, hx⟩) (fun v hx => g2 ⟨v, hx⟩) _ _

/-! ## Examples -/

/-- A library with shared memory. -/
def sharedLib : CEnv := ⟨true, fun n => List.replicate n 1⟩

/-- The last part of an encryption with a tag: from byte 1 of the input to byte 2 of the output. -/
def lastCall : Call :=
  .cipherProcessLast (some (.clear ⟨some [9, 9, 9, 9, 9, 9], 6⟩ 2)) 7 (.clear ⟨some [1, 2, 3, 4], 4⟩ 1) 3 (some ⟨some [0, 0], 2⟩)
/-- The variables: number of bytes, offsets, memory, tag. -/
def lastVars : Out := ⟨3, 2, 1, [], [9, 9, 9, 9, 9, 9], [0, 0]⟩
/-- A TA that answers with the inverted bytes and a tag. -/
def invert (s : Status) : Call → Status × Out
  | .cipherProcessLast _ _ (.clear m _) n _ => (s, ⟨n, n, n, [], (m.mem.getD []).map (255 - ·), [5, 6]⟩)
  | _ => (.INTERNAL_ERROR, ⟨0, 0, 0, [], [], []⟩)

example : C63.WF lastCall ∧ ¬ C63.Empty lastCall ∧ ¬ C63.Lost lastCall ∧ Holds lastCall lastVars :=
  ⟨⟨fun b hb => by cases hb; exact ⟨⟨by decide, fun m hm => by cases hm; rfl⟩, by decide⟩, by unfold C63.small; decide, ⟨⟨by decide, fun m hm => by cases hm; rfl⟩, by decide⟩, by unfold C63.small; decide,
    fun b hb => by cases hb; exact ⟨by decide, fun m hm => by cases hm; rfl⟩⟩, fun h => h, fun h => h, fun b hb => by cases hb; rfl, fun t ht => by cases ht; rfl⟩
example (s : Status) : Fits lastCall (invert s (C63.meant lastCall)).1 (invert s (C63.meant lastCall)).2 :=
  ⟨(by decide : 3 < 2 ^ 64), (by decide : 3 < 2 ^ 64), (by decide : 3 < 2 ^ 64),
    ⟨fun m off h _ => by cases h; exact (by decide : 3 ≤ 3), fun b m off hb h => by cases hb; cases h; exact ⟨(by decide : 3 ≤ 4), fun _ => rfl⟩⟩,
    fun t ht => by cases ht; rfl, fun _ _ _ _ => rfl⟩
/- Both libraries store the three bytes behind offset 2, both offsets and the tag. -/
example : exec sharedLib (invert .OK) lastCall lastVars = (.OK, ⟨3, 5, 4, [], [9, 9, 253, 252, 251, 9], [5, 6]⟩) ∧
    exec C63.lib (invert .OK) lastCall lastVars = (.OK, ⟨3, 5, 4, [], [9, 9, 253, 252, 251, 9], [5, 6]⟩) := by decide +kernel
/- The same, but the TA reports a failure: without shared memory its output is in the memory of the application. -/
example : exec sharedLib (invert .VERIFICATION_FAILED) lastCall lastVars = (.VERIFICATION_FAILED, lastVars) ∧
    exec C63.lib (invert .VERIFICATION_FAILED) lastCall lastVars = (.VERIFICATION_FAILED, ⟨3, 2, 1, [], [9, 9, 253, 252, 251, 9], [5, 6]⟩) := by decide +kernel

/-- A key is generated: the handle. -/
def genCall : Call := .keyGenerate 0 (List.replicate 608 0) 0 (.length 16)
example : (exec sharedLib (fun _ => (.OK, ⟨31, 0, 0, [], [], []⟩)) genCall ⟨0, 8, 9, [], [], []⟩) = (.OK, ⟨31, 8, 9, [], [], []⟩) := by decide +kernel
/- A call that the library refuses. -/
example : request sharedLib (.random false 16) = .error .NULL_PARAMETER := rfl

end Sa.C70

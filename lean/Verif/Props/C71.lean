import Verif.Model.ClientCenc
import Verif.Props.C70

/-!
# C71: several samples are processed one after the other, up to the first failure
-/

namespace Sa.C71
open Sa.Ta Sa.Cl

variable {σ : Type}

/-! ## What the application expects -/

/-- The part of a buffer behind its offset. -/
def Rest (w : World) (out : Bool) (d : Nat) (b : Buf) : Prop :=
  match w.dsc d with
  | .clear none _ _ => False
  | .clear (some a) len off => b = .clear ⟨some (if out then List.replicate (len - off) 0 else bytesAt w.mem (a + off) (len - off)), len - off⟩ 0
  | .svp h off => b = .svp h off

/-- Sample `s` with buffers `out` and `src` asks the TA to process `q`. -/
def Asks (w : World) (s : SmpPtr) (out src : Nat) (q : Smp) : Prop :=
  s.out = some out ∧ s.src = some src ∧ (∃ a, s.iv = some a ∧ s.ivLen = 16 ∧ q.iv = ⟨some (bytesAt w.mem a 16), 16⟩) ∧ s.subs = some q.subs ∧
  q.crypt = s.crypt ∧ q.skip = s.skip ∧ q.context = s.context ∧ Rest w true out q.out ∧ Rest w false src q.src

/-- No byte is left behind the offset. -/
def NoRoom (w : World) (d : Nat) : Prop :=
  match w.dsc d with
  | .clear a len off => a = none ∨ len ≤ off
  | .svp _ _ => False

/-- Samples that cannot be processed. -/
def Bad (w : World) (s : SmpPtr) : Prop :=
  s.iv = none ∨ s.ivLen ≠ 16 ∨ s.subs = none ∨ s.subs = some [] ∨ s.out = none ∨ s.src = none ∨ (∃ d, s.out = some d ∧ NoRoom w d) ∨ ∃ d, s.src = some d ∧ NoRoom w d

/-- A buffer after `n` bytes of clear memory, or with the new offset `n`. -/
def moved (d : Dsc) (n : Nat) : Dsc :=
  match d with
  | .clear a len off => .clear a len (off + n)
  | .svp h _ => .svp h n

/-- The memory `[from, from + room)` of the output. -/
def Window (w : World) (d : Nat) (k : Nat) : Prop :=
  match w.dsc d with
  | .clear (some a) len off => a + off ≤ k ∧ k < a + len
  | _ => False

/-- The output is in the buffer, and both offsets have moved; everything else is as before. -/
def After (w w' : World) (out src : Nat) (o : Out) : Prop :=
  w'.dsc out = moved (w.dsc out) o.second ∧ w'.dsc src = moved (w.dsc src) o.third ∧ (∀ d, d ≠ out → d ≠ src → w'.dsc d = w.dsc d) ∧
  match w.dsc out with
  | .clear (some a) _ off => (∀ i (h : i < o.mem.length), w'.mem (a + off + i) = o.mem[i]) ∧
      ∀ k, k < a + off ∨ a + off + o.mem.length ≤ k → w'.mem k = w.mem k
  | _ => w'.mem = w.mem

/-- The samples `ss` are processed one after the other, each with what the former ones have left, up to the first failure. -/
inductive Done (l : Lib) (ta : σ → Call → σ × Status × Out) : World → σ → List SmpPtr → World → σ → Status → Prop
  | all (w t) : Done l ta w t [] w t .OK
  | next {w t s ss w1 t1 w2 t2 x out src q o} : Asks w s out src q → ta t (.cenc q) = (t1, .OK, o) → After w w1 out src o → Done l ta w1 t1 ss w2 t2 x →
      Done l ta w t (s :: ss) w2 t2 x
  /-- The TA refuses; the offsets are kept, and with shared memory everything. -/
  | fails {w t s ss w1 t1 x out src q o} : Asks w s out src q → ta t (.cenc q) = (t1, x, o) → x ≠ .OK → w1.dsc = w.dsc → (l.shared = true → w1 = w) →
      (∀ k, ¬ Window w out k → w1.mem k = w.mem k) → Done l ta w t (s :: ss) w1 t1 x
  /-- The library refuses, or has no memory. -/
  | refused {w t s ss x} : Bad w s ∨ (∃ n, l.alloc n = false) → x ≠ .OK → Done l ta w t (s :: ss) w t x

/-! ## What is assumed -/

/-- What the function of the TA returns for one sample: numbers of 64 bits, not more output than fits, and offsets that tell how much. -/
def Contract (ta : σ → Call → σ × Status × Out) : Prop :=
  ∀ t q, (ta t (.cenc q)).2.2.second < 2 ^ 64 ∧ (ta t (.cenc q)).2.2.third < 2 ^ 64 ∧
    C70.FitsData (some q.out) q.src (ta t (.cenc q)).2.1 (ta t (.cenc q)).2.2

/-- Numbers of 64 bits. -/
def DscWF : Dsc → Prop
  | .clear _ len off => len < 2 ^ 64 ∧ off < 2 ^ 64
  | .svp h off => h < 2 ^ 64 ∧ off < 2 ^ 64

def SmpWF (s : SmpPtr) : Prop :=
  s.crypt < 2 ^ 64 ∧ s.skip < 2 ^ 64 ∧ s.context < 2 ^ 64 ∧ (∀ x, s.subs = some x → x.length * 16 < 2 ^ 64 ∧ ∀ y ∈ x, y.1 < 2 ^ 64 ∧ y.2 < 2 ^ 64)

/-- Memory returned by the allocator has the size asked for. -/
def LibWF (l : Lib) : Prop := ∀ i n, (l.junk i n).length = n

/-! ## Proof -/

theorem bytesAt_length (m : Nat → UInt8) (a n : Nat) : (bytesAt m a n).length = n := by simp [bytesAt]

theorem bytesAt_drop (m : Nat → UInt8) (a n k : Nat) : (bytesAt m a n).drop k = bytesAt m (a + k) (n - k) := by
  apply List.ext_getElem
  · simp [bytesAt]
  · intro i h1 h2
    simp [bytesAt, Nat.add_assoc]

theorem buf_wf (w : World) (h : ∀ d, DscWF (w.dsc d)) (d : Nat) : (w.buf d).WF := by
  have := h d
  unfold World.buf
  cases hd : w.dsc d with
  | clear a len off =>
    rw [hd] at this
    refine ⟨⟨this.1, fun m hm => ?_⟩, this.2⟩
    cases a with
    | none => cases hm
    | some a => simp only [Option.map_some, Option.some.injEq] at hm; rw [← hm, bytesAt_length]
  | svp h off => rw [hd] at this; exact this

theorem buf_rest (w : World) (out : Bool) (d : Nat) (h : ¬ NoRoom w d) : Rest w out d (C63.restBuf out (w.buf d)) := by
  unfold Rest NoRoom World.buf at *
  cases hd : w.dsc d with
  | clear a len off =>
    rw [hd] at h
    cases a with
    | none => exact absurd (.inl rfl) h
    | some a => cases out <;> simp [C63.restBuf, bytesAt_drop]
  | svp h off => rfl

theorem buf_empty (w : World) (d : Nat) (h : C63.Buf.empty (w.buf d)) : NoRoom w d := by
  unfold NoRoom World.buf at *
  cases hd : w.dsc d with
  | clear a len off => rw [hd] at h; exact .inr (Nat.le_of_eq h)
  | svp _ _ => rw [hd] at h; exact h

theorem prm_error {e : CEnv} {w : World} {out : Bool} {d : Nat} {x : Status} (h : bufPrm e out (w.buf d) = .error x) : NoRoom w d ∧ x ≠ .OK := by
  unfold NoRoom World.buf at *
  cases hd : w.dsc d with
  | clear a len off =>
    rw [hd] at h
    cases a with
    | none => exact ⟨.inl rfl, by cases h; decide⟩
    | some a =>
      simp only [bufPrm, Option.map_some] at h
      split at h
      · exact ⟨.inr (by omega), by cases h; decide⟩
      · split at h <;> cases h
  | svp h' off => rw [hd] at h; cases h

theorem cenc_error {p : Params} {x : Status} (h : received 36 p = .error x) : x ≠ .OK := by
  have hn : ∀ y : Status, (nullP : Except Status Call) = .error y → y ≠ .OK := by intro y hy; cases hy; decide
  have hi : ∀ y : Status, (invalidP : Except Status Call) = .error y → y ≠ .OK := by intro y hy; cases hy; decide
  simp only [received, taCenc, versioned] at h
  repeat' (split at h)
  all_goals first | exact hn _ h | exact hi _ h | cases h

/-- `sa_sample` by values. -/
def smp (w : World) (s : SmpPtr) (iv : Nat) (subs : List (Nat × Nat)) (out src : Nat) : Smp :=
  ⟨⟨some (bytesAt w.mem iv 16), 16⟩, s.crypt, s.skip, subs, s.context, w.buf out, w.buf src⟩

theorem store_dsc (w : World) (d : Nat) (b : Bytes) : (w.store d b).dsc = w.dsc := by
  unfold World.store
  split <;> rfl

theorem buf_advance (w : World) (d n : Nat) (h : ∀ a len off, w.dsc d = .clear a len off → off + n < 2 ^ 64) :
    (w.dsc d).setOff (advance (w.buf d) n) = moved (w.dsc d) n := by
  unfold World.buf
  cases hd : w.dsc d with
  | clear a len off => simp only [advance, Dsc.setOff, moved, Nat.mod_eq_of_lt (h a len off hd)]
  | svp _ _ => rfl

theorem store_mem (w : World) (d : Nat) (b : Bytes) : match w.dsc d with
    | .clear (some a) _ off => (∀ i (h : i < b.length), (w.store d b).mem (a + off + i) = b[i]) ∧ ∀ k, k < a + off ∨ a + off + b.length ≤ k → (w.store d b).mem k = w.mem k
    | _ => (w.store d b).mem = w.mem := by
  unfold World.store
  cases hd : w.dsc d with
  | clear a len off =>
    cases a with
    | none => rfl
    | some a =>
      refine ⟨fun i h => ?_, fun k h => ?_⟩
      · have : a + off ≤ a + off + i ∧ a + off + i < a + off + b.length := by omega
        simp only [writeAt, if_pos this]
        rw [show a + off + i - (a + off) = i by omega, List.getD_eq_getElem?_getD, List.getElem?_eq_getElem h]
        rfl
      · have : ¬ (a + off ≤ k ∧ k < a + off + b.length) := by omega
        simp only [writeAt, if_neg this]
  | svp _ _ => rfl

variable {l : Lib} {ta : σ → Call → σ × Status × Out}

theorem wf_smp {w : World} (hw : ∀ d, DscWF (w.dsc d)) {s : SmpPtr} (hs : SmpWF s) (iv : Nat) {subs : List (Nat × Nat)} (out src : Nat) (h2 : s.subs = some subs) :
    C63.WF (.cenc (smp w s iv subs out src)) :=
  ⟨⟨(by decide : 16 < 2 ^ 64), fun m hm => by cases hm; exact bytesAt_length _ _ _⟩, hs.1, hs.2.1, (hs.2.2.2 _ h2).1, (hs.2.2.2 _ h2).2, hs.2.2.1, buf_wf w hw out, buf_wf w hw src⟩

/-- The call that the TA gets. -/
theorem given (hl : LibWF l) {i : Nat} {w : World} (hw : ∀ d, DscWF (w.dsc d)) {s : SmpPtr} (hs : SmpWF s) {iv : Nat} {subs : List (Nat × Nat)} {out src : Nat}
    (h2 : s.subs = some subs) (h3 : subs ≠ []) (h4 : ¬ NoRoom w out) (h5 : ¬ NoRoom w src) {id : Nat} {p : Params}
    (hr : request (l.env i) (.cenc (smp w s iv subs out src)) = .ok (id, p)) :
    received id p = .ok (.cenc { smp w s iv subs out src with out := C63.restBuf true (w.buf out), src := C63.restBuf false (w.buf src) }) :=
  C63.arrives (l.env i) (hl i) (.cenc (smp w s iv subs out src)) (wf_smp hw hs iv out src h2)
    (by rintro (h | h | h); exact h3 h; exact h4 (buf_empty _ _ h); exact h5 (buf_empty _ _ h)) (fun h => h) id p hr

/-- The numbers that come back. -/
theorem numbers (hl : LibWF l) {i : Nat} {w : World} (hw : ∀ d, DscWF (w.dsc d)) {s : SmpPtr} (hs : SmpWF s) {iv : Nat} {subs : List (Nat × Nat)} {out src : Nat}
    (h2 : s.subs = some subs) {id : Nat} {p : Params} (hr : request (l.env i) (.cenc (smp w s iv subs out src)) = .ok (id, p)) (o : Out) (g2 : o.second < 2 ^ 64)
    (g3 : o.third < 2 ^ 64) :
    id = 36 ∧ fld (((respond id p o) 0).mem.getD []) 64 8 = o.second ∧ fld (((respond id p o) 0).mem.getD []) 80 8 = o.third ∧
    (∀ a len off, w.dsc out = .clear a len off → o.mem.length = o.second → (((respond id p o) 2).mem.getD []).take o.second = o.mem) := by
  obtain ⟨rfl, b, hb, hlen⟩ := cmd_of (hl i) (wf_smp hw hs iv out src h2) hr
  obtain ⟨iv', p1, p2, o2, p3, o3, e1, e2, hil, hp⟩ := C70.cenc_req hr
  have hil : iv'.length = 16 := by obtain ⟨h, -⟩ := hil; simp only [smp, Option.some.injEq] at h; rw [← h, bytesAt_length]
  obtain ⟨t1, t2⟩ := C70.two_back (x := o.second) (y := o.third) hb (by decide : 64 + 8 ≤ 80) (by rw [hlen]; simp only [cmdSize]; decide) g2 g3
  refine ⟨rfl, t1, t2, fun a len off hd hm => ?_⟩
  have hty : fld ((p 0).mem.getD []) 56 4 = 0 := by
    have ht : (smp w s iv subs out src).out.type = 0 := by simp only [smp, World.buf, hd]; rfl
    rw [hp, ht]
    simp [params, CEnv.pCmd, fld_app_skip, fld_app_hit, le_length, hl i _, Lib.env, hil]
    exact leNat_le4 0 (by decide)
  have hm2 : ∃ m, (p 2).mem = some m := by
    have : (p 2) = p2 := by rw [hp]; rfl
    rw [this]
    simp only [smp, World.buf, hd] at e1
    exact Option.isSome_iff_exists.mp (C70.buf_req e1).2
  obtain ⟨m, hm2⟩ := hm2
  simp only [respond, num, params, hty, if_pos]
  rw [wr_mem _ _ _ _ hm2, Option.getD_some, ← hm, take_put]

theorem setOff_dsc (w : World) (d n x : Nat) : (w.setOff d n).dsc x = if x = d then (w.dsc d).setOff n else w.dsc x := rfl

theorem dsc_wf {w w' : World} {out src : Nat} {o : Out} (hw : ∀ d, DscWF (w.dsc d)) (g2 : o.second < 2 ^ 64) (g3 : o.third < 2 ^ 64)
    (b2 : ∀ a len off, w.dsc out = .clear a len off → off + o.second < 2 ^ 64) (b3 : ∀ a len off, w.dsc src = .clear a len off → off + o.third < 2 ^ 64)
    (h : After w w' out src o) : ∀ d, DscWF (w'.dsc d) := by
  intro d
  have key : ∀ c n, DscWF c → n < 2 ^ 64 → (∀ a len off, c = .clear a len off → off + n < 2 ^ 64) → DscWF (moved c n) := by
    intro c n h1 h2 h3
    cases c with
    | clear a len off => exact ⟨h1.1, h3 _ _ _ rfl⟩
    | svp _ _ => exact ⟨h1.1, h2⟩
  by_cases e1 : d = out
  · rw [e1, h.1]; exact key _ _ (hw out) g2 b2
  · by_cases e2 : d = src
    · rw [e2, h.2.1]; exact key _ _ (hw src) g3 b3
    · rw [h.2.2.1 d e1 e2]; exact hw d

/-- What happens after the invocation. -/
theorem settled (hl : LibWF l) (hc : Contract ta) (st : LoopSt σ) {i : Nat} (hw : ∀ d, DscWF (st.world.dsc d)) {s : SmpPtr} (hs : SmpWF s) {iv : Nat}
    {subs : List (Nat × Nat)} {out src : Nat} (h0 : s.iv = some iv) (h1 : s.ivLen = 16) (h2 : s.subs = some subs) (ho : s.out = some out) (hi : s.src = some src)
    (hne : out ≠ src) {id : Nat} {p : Params}
    (h4 : ∀ x, bufPrm (l.env i) true (st.world.buf out) ≠ .error x) (h5 : ∀ x, bufPrm (l.env i) false (st.world.buf src) ≠ .error x)
    (hr : request (l.env i) (.cenc (smp st.world s iv subs out src)) = .ok (id, p)) :
    let r := settle l ta out src id p st
    (r.1 = true → ∀ ss, Done l ta st.world st.ta (s :: ss) r.2.world r.2.ta r.2.status) ∧
    (r.1 = false → r.2.status = .OK ∧ (∀ d, DscWF (r.2.world.dsc d)) ∧
      ∀ ss w2 t2 x, Done l ta r.2.world r.2.ta ss w2 t2 x → Done l ta st.world st.ta (s :: ss) w2 t2 x) := by
  intro r
  obtain rfl : id = 36 := (cmd_of (hl i) (wf_smp hw hs iv out src h2) hr).1
  by_cases hb : C63.Empty (.cenc (smp st.world s iv subs out src))
  · obtain ⟨x, hx⟩ := C63.refused (l.env i) _ hb _ p hr
    have hrr : r = (true, { st with status := x }) := by simp only [r, settle, hx]
    rw [hrr]
    refine ⟨fun _ ss => .refused (.inl ?_) (cenc_error hx), by intro h; cases h⟩
    rcases hb with hb | hb | hb
    · exact .inr (.inr (.inr (.inl (by rw [h2]; exact congrArg some hb))))
    · exact .inr (.inr (.inr (.inr (.inr (.inr (.inl ⟨out, ho, buf_empty _ _ hb⟩))))))
    · exact .inr (.inr (.inr (.inr (.inr (.inr (.inr ⟨src, hi, buf_empty _ _ hb⟩))))))
  have room : ∀ {b : Bool} {d : Nat}, (∀ x, bufPrm (l.env i) b (st.world.buf d) ≠ .error x) → ¬ C63.Buf.empty (st.world.buf d) → ¬ NoRoom st.world d := by
    intro b d g1 g2 g3
    unfold NoRoom World.buf at *
    cases hd : st.world.dsc d with
    | clear a len off =>
      rw [hd] at g1 g2 g3
      rcases g3 with rfl | g3
      · exact g1 _ rfl
      · cases a with
        | none => exact g1 _ rfl
        | some a =>
          by_cases g4 : len < off
          · exact g1 _ (by simp only [bufPrm, Option.map_some, if_pos g4]; rfl)
          · exact g2 (by simp only [C63.Buf.empty]; omega)
    | svp _ _ => rw [hd] at g3; exact g3
  have r1 := room h4 fun h => hb (.inr (.inl h))
  have r2 := room h5 fun h => hb (.inr (.inr h))
  have hg := given hl hw hs h2 (fun h => hb (.inl h)) r1 r2 hr
  obtain ⟨q, hq⟩ : ∃ q : Smp, q = { smp st.world s iv subs out src with out := C63.restBuf true (st.world.buf out), src := C63.restBuf false (st.world.buf src) } := ⟨_, rfl⟩
  rw [← hq] at hg
  have ask : Asks st.world s out src q := by
    rw [hq]
    exact ⟨ho, hi, ⟨iv, h0, h1, rfl⟩, h2, rfl, rfl, rfl, buf_rest _ _ _ r1, buf_rest _ _ _ r2⟩
  obtain ⟨g2, g3, f1, f2⟩ := hc st.ta q
  obtain ⟨t1, x, o, ht⟩ : ∃ t1 x o, ta st.ta (.cenc q) = (t1, x, o) := ⟨_, _, _, rfl⟩
  rw [ht] at g2 g3 f1 f2
  simp only at g2 g3 f1 f2
  have fo : ∀ a len off, st.world.dsc out = .clear a len off → off ≤ len ∧ len < 2 ^ 64 ∧ o.mem.length ≤ len - off ∧ (x = .OK → o.mem.length = o.second) := by
    intro a len off hd
    have hd' := hw out
    rw [hd] at hd'
    have : ∃ m, q.out = .clear ⟨m, len - off⟩ 0 := by
      rw [hq]; simp only [World.buf, hd, C63.restBuf]; exact ⟨_, rfl⟩
    obtain ⟨m, hm⟩ := this
    have := f2 _ _ _ rfl hm
    rw [hm] at this
    have r1 := r1
    simp only [NoRoom, hd] at r1
    simp only [C70.room] at this
    have hd1 : len < 2 ^ 64 := hd'.1
    exact ⟨by omega, hd1, by omega, this.2⟩
  have fi : ∀ a len off, st.world.dsc src = .clear a len off → x = .OK → off ≤ len ∧ len < 2 ^ 64 ∧ o.third ≤ len - off := by
    intro a len off hd hx
    have hd' := hw src
    rw [hd] at hd'
    have : ∃ m, q.src = .clear ⟨m, len - off⟩ 0 := by
      rw [hq]; simp only [World.buf, hd, C63.restBuf]; exact ⟨_, rfl⟩
    obtain ⟨m, hm⟩ := this
    have := f1 _ _ hm hx
    rw [hm] at this
    have r2 := r2
    simp only [NoRoom, hd] at r2
    simp only [C70.room] at this
    have hd1 : len < 2 ^ 64 := hd'.1
    exact ⟨by omega, hd1, by omega⟩
  by_cases hx : x = .OK
  · subst hx
    obtain ⟨-, n1, n2, n3⟩ := numbers hl hw hs h2 hr o g2 g3
    obtain ⟨w1, hw1⟩ : ∃ w1, w1 = st.world.store out o.mem := ⟨_, rfl⟩
    have hst : (if l.shared then (if l.shared then st.world else st.world.store out o.mem).store out ((((respond 36 p o) 2).mem.getD []).take o.second)
        else (if l.shared then st.world else st.world.store out o.mem)) = w1 := by
      cases hsh : l.shared with
      | false => simp [hw1]
      | true =>
        simp only [if_true, hw1]
        cases hd : st.world.dsc out with
        | clear a len off => rw [n3 _ _ _ hd ((fo _ _ _ hd).2.2.2 rfl)]
        | svp _ _ => simp only [World.store, hd]
    let w2 := (w1.setOff out (advance (w1.buf out) o.second)).setOff src (advance ((w1.setOff out (advance (w1.buf out) o.second)).buf src) o.third)
    have hrr : r = (false, { st with world := w2, ta := t1, status := .OK }) := by
      simp only [r, settle, hg, ht, ne_eq, not_true_eq_false, if_false, n1, n2, hst, w2]
    have hd1 : w1.dsc = st.world.dsc := by rw [hw1, store_dsc]
    have b2 : ∀ a len off, st.world.dsc out = .clear a len off → off + o.second < 2 ^ 64 := by
      intro a len off hd
      obtain ⟨z1, z2, z3, z4⟩ := fo _ _ _ hd
      have := z4 rfl
      omega
    have b3 : ∀ a len off, st.world.dsc src = .clear a len off → off + o.third < 2 ^ 64 := by
      intro a len off hd
      obtain ⟨z1, z2, z3⟩ := fi _ _ _ hd rfl
      omega
    have af : After st.world r.2.world out src o := by
      rw [hrr]
      show After st.world w2 out src o
      refine ⟨?_, ?_, ?_, ?_⟩
      · simp only [w2, setOff_dsc, if_neg hne, if_true]
        rw [buf_advance _ _ _ (by rw [hd1]; exact b2), hd1]
      · simp only [w2, setOff_dsc, if_true]
        have : (w1.setOff out (advance (w1.buf out) o.second)).dsc src = st.world.dsc src := by rw [setOff_dsc, if_neg (Ne.symm hne), hd1]
        have h := buf_advance (w1.setOff out (advance (w1.buf out) o.second)) src o.third (by rw [this]; exact b3)
        rw [this] at h
        rw [if_neg (Ne.symm hne), hd1]
        exact h
      · intro d d1 d2
        simp only [w2, setOff_dsc, if_neg d1, if_neg d2, hd1]
      · have := store_mem st.world out o.mem
        rw [← hw1] at this
        exact this
    refine ⟨(by rw [hrr]; intro h; cases h), fun _ => ⟨by rw [hrr], dsc_wf hw g2 g3 b2 b3 af, fun ss w2 t2 x hd => ?_⟩⟩
    refine .next ask ht af ?_
    rw [hrr] at hd ⊢
    exact hd
  · have hrr : r = (true, { st with world := if l.shared then st.world else st.world.store out o.mem, ta := t1, status := x }) := by
      simp only [r, settle, hg, ht, ne_eq, hx, not_false_eq_true, if_true]
    rw [hrr]
    refine ⟨fun _ ss => .fails ask ht hx ?_ ?_ ?_, by intro h; cases h⟩
    · cases l.shared <;> simp [store_dsc]
    · intro hsh; simp [hsh]
    · intro k hk
      cases l.shared with
      | true => rfl
      | false =>
        have := store_mem st.world out o.mem
        simp only [Bool.false_eq_true, if_false]
        unfold Window at hk
        cases hd : st.world.dsc out with
        | clear a len off =>
          rw [hd] at this hk
          cases a with
          | none => exact congrFun this k
          | some a =>
            obtain ⟨z1, z2, z3, -⟩ := fo _ _ _ hd
            exact this.2 k (by simp only at hk; omega)
        | svp _ _ => rw [hd] at this; exact congrFun this k

/-- One round, if no allocation of shared memory fails. -/
theorem round_done (hl : LibWF l) (hc : Contract ta) (hp : ∀ n, l.param n = true) (st : LoopSt σ) (hw : ∀ d, DscWF (st.world.dsc d)) {s : SmpPtr} (hs : SmpWF s)
    (hne : ∀ d, s.out = some d → s.src ≠ some d) :
    let r := roundOf l ta s st
    (r.1 = true → ∀ ss, Done l ta st.world st.ta (s :: ss) r.2.world r.2.ta r.2.status) ∧
    (r.1 = false → r.2.status = .OK ∧ (∀ d, DscWF (r.2.world.dsc d)) ∧
      ∀ ss w2 t2 x, Done l ta r.2.world r.2.ta ss w2 t2 x → Done l ta st.world st.ta (s :: ss) w2 t2 x) := by
  intro r
  have stop : ∀ x n, r = (true, { st with status := x, allocs := n }) → x ≠ .OK → Bad st.world s ∨ (∃ n, l.alloc n = false) →
      (r.1 = true → ∀ ss, Done l ta st.world st.ta (s :: ss) r.2.world r.2.ta r.2.status) ∧
      (r.1 = false → r.2.status = .OK ∧ (∀ d, DscWF (r.2.world.dsc d)) ∧
        ∀ ss w2 t2 x, Done l ta r.2.world r.2.ta ss w2 t2 x → Done l ta st.world st.ta (s :: ss) w2 t2 x) := by
    intro x n hr hx hb
    rw [hr]
    exact ⟨fun _ ss => .refused hb hx, by intro h; cases h⟩
  cases h0 : s.iv with
  | none => exact stop .NULL_PARAMETER st.allocs (by simp only [r, roundOf, h0]) (by decide) (.inl (.inl h0))
  | some iv =>
  by_cases h1 : s.ivLen = 16
  case neg => exact stop .INVALID_PARAMETER st.allocs (by simp only [r, roundOf, h0, ne_eq, h1, not_false_eq_true, if_true]) (by decide) (.inl (.inr (.inl h1)))
  cases h2 : s.subs with
  | none =>
    exact stop .NULL_PARAMETER st.allocs (by simp only [r, roundOf, h0, ne_eq, h1, not_true_eq_false, if_false, h2]) (by decide) (.inl (.inr (.inr (.inl h2))))
  | some subs =>
  cases ho : s.out with
  | none =>
    exact stop .NULL_PARAMETER st.allocs (by simp only [r, roundOf, h0, ne_eq, h1, not_true_eq_false, if_false, h2, ho]) (by decide)
      (.inl (.inr (.inr (.inr (.inr (.inl ho))))))
  | some out =>
  cases hi : s.src with
  | none =>
    exact stop .NULL_PARAMETER st.allocs (by simp only [r, roundOf, h0, ne_eq, h1, not_true_eq_false, if_false, h2, ho, hi]) (by decide)
      (.inl (.inr (.inr (.inr (.inr (.inr (.inl hi)))))))
  | some src =>
  cases ha : l.alloc st.allocs with
  | false =>
    exact stop .NULL_PARAMETER (st.allocs + 1) (by simp only [r, roundOf, h0, ne_eq, h1, not_true_eq_false, if_false, h2, ho, hi, ha, if_true]) (by decide) (.inr ⟨_, ha⟩)
  | true =>
  have hne : out ≠ src := fun h => hne out ho (by rw [hi, h])
  cases h4 : bufPrm (l.env st.round) true (st.world.buf out) with
  | error x =>
    obtain ⟨b1, b2⟩ := prm_error h4
    exact stop x (l.next (st.allocs + 1)) (by simp only [r, roundOf, h0, ne_eq, h1, not_true_eq_false, if_false, h2, ho, hi, ha, hp, h4, Bool.true_eq_false]) b2
      (.inl (.inr (.inr (.inr (.inr (.inr (.inr (.inl ⟨out, ho, b1⟩))))))))
  | ok y =>
  cases h5 : bufPrm (l.env st.round) false (st.world.buf src) with
  | error x =>
    obtain ⟨b1, b2⟩ := prm_error h5
    exact stop x (l.next (l.next (st.allocs + 1))) (by simp only [r, roundOf, h0, ne_eq, h1, not_true_eq_false, if_false, h2, ho, hi, ha, hp, h4, h5, Bool.true_eq_false]) b2
      (.inl (.inr (.inr (.inr (.inr (.inr (.inr (.inr ⟨src, hi, b1⟩))))))))
  | ok z =>
  obtain ⟨p, hr⟩ : ∃ p, request (l.env st.round) (.cenc (smp st.world s iv subs out src)) = .ok (36, p) := by
    obtain ⟨y1, y2⟩ := y
    obtain ⟨z1, z2⟩ := z
    simp only [request, cenc, smp, h4, h5, ne_eq, not_true_eq_false, if_false]
    exact ⟨_, rfl⟩
  have h := settled hl hc { st with allocs := l.next (l.next (l.next (st.allocs + 1))), round := st.round + 1 } hw hs h0 h1 h2 ho hi hne
    (by rw [h4]; intro x hx; cases hx) (by rw [h5]; intro x hx; cases hx) hr
  have hrr : r = settle l ta out src 36 p { st with allocs := l.next (l.next (l.next (st.allocs + 1))), round := st.round + 1 } := by
    unfold smp at hr
    simp only [r, roundOf, h0, ne_eq, h1, not_true_eq_false, if_false, h2, ho, hi, ha, hp, h4, h5, Bool.true_eq_false, hr]
  rw [hrr]
  exact h

theorem loop_done (hl : LibWF l) (hc : Contract ta) (hp : ∀ n, l.param n = true) (ss : List SmpPtr) (hs : ∀ s ∈ ss, SmpWF s ∧ ∀ d, s.out = some d → s.src ≠ some d)
    (st : LoopSt σ) (hw : ∀ d, DscWF (st.world.dsc d)) (h : ss ≠ [] ∨ st.status = .OK) :
    Done l ta st.world st.ta ss (loopOf l ta ss st).world (loopOf l ta ss st).ta (loopOf l ta ss st).status := by
  induction ss generalizing st with
  | nil =>
    rcases h with h | h
    · exact absurd rfl h
    · simp only [loopOf, h]
      exact .all _ _
  | cons s ss ih =>
    have hr := round_done hl hc hp st hw (hs s List.mem_cons_self).1 (hs s List.mem_cons_self).2
    simp only [loopOf]
    cases hb : (roundOf l ta s st).1 with
    | true => exact hr.1 hb ss
    | false =>
      obtain ⟨h1, h2, h3⟩ := hr.2 hb
      exact h3 _ _ _ _ (ih (fun x hx => hs x (List.mem_cons_of_mem _ hx)) _ h2 (.inr h1))

/-! ## Theorems -/

/-- **C71**, if no allocation of shared memory fails and no sample has the same `sa_buffer` for input and output: the samples are processed in order, each with
the buffers as the former ones have left them, up to the first failure; the status is that of the last sample processed.  What remains in a world without
those hypotheses is shown false below. -/
theorem C71_in_order_partial (l : Lib) (hl : LibWF l) (ta : σ → Call → σ × Status × Out) (hc : Contract ta) (hp : l.shared = true → ∀ n, l.alloc n = true)
    (s : SmpPtr) (ss : List SmpPtr) (hs : ∀ x ∈ s :: ss, SmpWF x ∧ ∀ d, x.out = some d → x.src ≠ some d) (w : World) (hw : ∀ d, DscWF (w.dsc d)) (t : σ) (status0 : Status) :
    ∃ x w' t', processCenc l true status0 ta (some (s :: ss)) w t = (x, w', t') ∧ Done l ta w t (s :: ss) w' t' x := by
  have hp : ∀ n, l.param n = true := by
    intro n
    unfold Lib.param
    cases hsh : l.shared with
    | false => rfl
    | true => simp [hp hsh n]
  have hlen : ¬ (s :: ss).length < 1 := by simp
  cases ha : l.alloc 0 with
  | false =>
    refine ⟨.INTERNAL_ERROR, w, t, ?_, .refused (.inr ⟨0, ha⟩) (by decide)⟩
    simp only [processCenc, hlen, if_false, Bool.true_eq_false, ha, if_true]
  | true =>
    refine ⟨_, _, _, ?_, loop_done hl hc hp (s :: ss) hs ⟨w, t, 1, 0, status0⟩ hw (.inl (by simp))⟩
    simp only [processCenc, hlen, if_false, Bool.true_eq_false, ha]

/-- Without samples nothing happens. -/
theorem C71_none (l : Lib) (session : Bool) (status0 : Status) (ta : σ → Call → σ × Status × Out) (w : World) (t : σ) :
    processCenc l session status0 ta none w t = (.NULL_PARAMETER, w, t) ∧ processCenc l session status0 ta (some []) w t = (.INVALID_PARAMETER, w, t) ∧
    ∀ s ss, processCenc l false status0 ta (some (s :: ss)) w t = (.INTERNAL_ERROR, w, t) :=
  ⟨rfl, rfl, fun s ss => by simp only [processCenc, List.length_cons, Nat.not_lt.mpr (Nat.le_add_left 1 ss.length), if_false, if_true]⟩

/-- All samples of a successful call have been given to the TA, in order, and it has processed each: the calls it got. -/
inductive Calls (l : Lib) (ta : σ → Call → σ × Status × Out) : World → σ → List SmpPtr → List Smp → Prop
  | nil (w t) : Calls l ta w t [] []
  | cons {w t s ss w1 t1 out src q qs o} : Asks w s out src q → ta t (.cenc q) = (t1, .OK, o) → After w w1 out src o → Calls l ta w1 t1 ss qs → Calls l ta w t (s :: ss) (q :: qs)

theorem C71_all_partial (l : Lib) (hl : LibWF l) (ta : σ → Call → σ × Status × Out) (hc : Contract ta) (hp : l.shared = true → ∀ n, l.alloc n = true)
    (s : SmpPtr) (ss : List SmpPtr) (hs : ∀ x ∈ s :: ss, SmpWF x ∧ ∀ d, x.out = some d → x.src ≠ some d) (w : World) (hw : ∀ d, DscWF (w.dsc d)) (t : σ) (status0 : Status)
    (hok : (processCenc l true status0 ta (some (s :: ss)) w t).1 = .OK) : ∃ qs, Calls l ta w t (s :: ss) qs ∧ qs.length = ss.length + 1 := by
  obtain ⟨x, w', t', h1, h2⟩ := C71_in_order_partial l hl ta hc hp s ss hs w hw t status0
  rw [h1] at hok
  simp only at hok
  subst hok
  clear h1 hs hw
  have key : ∀ w t ss w' t' x, Done l ta w t ss w' t' x → x = .OK → ∃ qs, Calls l ta w t ss qs ∧ qs.length = ss.length := by
    intro w t ss w' t' x h
    induction h with
    | all w t => exact fun _ => ⟨[], .nil _ _, rfl⟩
    | next a b c _ ih =>
      intro hx
      obtain ⟨qs, g1, g2⟩ := ih hx
      exact ⟨_ :: qs, .cons a b c g1, by simp [g2]⟩
    | fails _ _ hn => exact fun hx => absurd hx hn
    | refused _ hn => exact fun hx => absurd hx hn
  exact key _ _ _ _ _ _ h2 rfl

/-! ## The hypotheses hold, and what happens without them -/

/-- The output of the TA below: the inverted input, at most 16 bytes. -/
def toyOut (q : Smp) : Bytes :=
  match q.out, q.src with
  | .clear m off, .clear n noff => ((((n.mem.getD []).take (m.len - off)).take (n.len - noff)).take 16).map fun x => 255 - x
  | _, _ => []

/-- A TA that processes at most 16 bytes and records its calls. -/
def toyTa (t : List Call) (c : Call) : List Call × Status × Out :=
  (t ++ [c], .OK, match c with
    | .cenc q => ⟨0, (toyOut q).length, (toyOut q).length, [], toyOut q, []⟩
    | _ => ⟨0, 0, 0, [], [], []⟩)

theorem toyTa_contract : Contract toyTa := by
  intro t q
  have h : (toyOut q).length ≤ 16 := by
    unfold toyOut
    split <;> simp
    omega
  refine ⟨?_, ?_, ?_, ?_⟩
  · show (toyOut q).length < 2 ^ 64; omega
  · show (toyOut q).length < 2 ^ 64; omega
  · intro n noff hq _
    show (toyOut q).length ≤ C70.room q.src
    rw [hq]
    unfold toyOut C70.room
    rw [hq]
    cases q.out with
    | clear m off => simp; omega
    | svp _ _ => simp
  · intro b m off hb hq
    refine ⟨?_, fun _ => rfl⟩
    show (toyOut q).length ≤ C70.room b
    obtain rfl : q.out = b := Option.some.inj hb
    unfold toyOut C70.room
    rw [hq]
    cases q.src with
    | clear n noff => simp; omega
    | svp _ _ => simp

/-- Buffer 0 has 32 bytes at 1000, the others have 32 bytes at 2000. -/
def world0 : World := ⟨fun k => UInt8.ofNat k, fun d => if d = 0 then .clear (some 1000) 32 0 else .clear (some 2000) 32 0⟩

theorem world0_wf : ∀ d, DscWF (world0.dsc d) := by
  intro d
  by_cases h : d = 0
  · simp [world0, h, DscWF]
  · simp [world0, h, DscWF]

/-- A sample with buffers `out` and `src`. -/
def smp0 (out src : Nat) : SmpPtr := ⟨some 3000, 16, 0, 0, some [(0, 16)], 7, some out, some src⟩

theorem smp0_wf (out src : Nat) : SmpWF (smp0 out src) := by
  refine ⟨(by decide : 0 < 2 ^ 64), (by decide : 0 < 2 ^ 64), (by decide : 7 < 2 ^ 64), fun x hx => ?_⟩
  cases hx
  exact ⟨by decide, by decide⟩

/-- A library whose allocations succeed except for number `k`. -/
def lib0 (shared : Bool) (k : Nat) : Lib := ⟨shared, fun _ n => List.replicate n 1, fun n => n != k⟩

theorem lib0_wf (b : Bool) (k : Nat) : LibWF (lib0 b k) := fun _ _ => List.length_replicate

def good0 (shared : Bool) : Lib := { lib0 shared 0 with alloc := fun _ => true }

/-- Two samples that use the same buffers: the second one goes on where the first one ended. -/
example (b : Bool) :
    (∀ x ∈ [smp0 0 1, smp0 0 1], SmpWF x ∧ ∀ d, x.out = some d → x.src ≠ some d) ∧ (good0 b).shared = b ∧ (∀ n, (good0 b).alloc n = true) ∧
    (processCenc (good0 b) true .INTERNAL_ERROR toyTa (some [smp0 0 1, smp0 0 1]) world0 []).1 = .OK ∧
    (processCenc (good0 b) true .INTERNAL_ERROR toyTa (some [smp0 0 1, smp0 0 1]) world0 []).2.1.dsc 0 = .clear (some 1000) 32 32 ∧
    (processCenc (good0 b) true .INTERNAL_ERROR toyTa (some [smp0 0 1, smp0 0 1]) world0 []).2.1.mem 1020 = 255 - UInt8.ofNat 2020 := by
  refine ⟨?_, rfl, fun _ => rfl, ?_⟩
  · intro x hx
    have : x = smp0 0 1 := by simpa using hx
    subst this
    exact ⟨smp0_wf 0 1, by intro d hd; cases hd; decide⟩
  · cases b <;> decide +kernel

/-- **C71 is violated** with shared memory: if the memory for a parameter cannot be allocated, `continue` in the macro `CREATE_PARAM` goes on with the next
sample.  The call succeeds, though the first of two samples was never given to the TA. -/
theorem C71_violated_skipped : LibWF (lib0 true 2) ∧ Contract toyTa ∧ SmpWF (smp0 0 1) ∧ (∀ d, DscWF (world0.dsc d)) ∧
    (processCenc (lib0 true 2) true .INTERNAL_ERROR toyTa (some [smp0 0 1, smp0 2 3]) world0 []).1 = .OK ∧
    (processCenc (lib0 true 2) true .INTERNAL_ERROR toyTa (some [smp0 0 1, smp0 2 3]) world0 []).2.2.length = 1 ∧
    (processCenc (lib0 true 2) true .INTERNAL_ERROR toyTa (some [smp0 0 1, smp0 2 3]) world0 []).2.1.dsc 0 = world0.dsc 0 :=
  ⟨lib0_wf _ _, toyTa_contract, smp0_wf 0 1, world0_wf, by decide +kernel⟩

/-- **C71 is violated** for samples with one `sa_buffer` for input and output, as for decryption in place: its offset moves twice as far as it should, and a
second sample with that buffer processes other bytes. -/
theorem C71_violated_in_place (b : Bool) : LibWF (good0 b) ∧ Contract toyTa ∧ SmpWF (smp0 0 0) ∧ (∀ d, DscWF (world0.dsc d)) ∧
    (processCenc (good0 b) true .INTERNAL_ERROR toyTa (some [smp0 0 0]) world0 []).1 = .OK ∧
    (processCenc (good0 b) true .INTERNAL_ERROR toyTa (some [smp0 0 0]) world0 []).2.1.dsc 0 = .clear (some 1000) 32 32 ∧
    (∃ q, ∃ t1 o, Asks world0 (smp0 0 0) 0 0 q ∧ toyTa [] (.cenc q) = (t1, .OK, o) ∧ o.second = 16 ∧ o.third = 16) := by
  refine ⟨fun _ _ => List.length_replicate, toyTa_contract, smp0_wf 0 0, world0_wf, ?_, ?_, ?_⟩
  · cases b <;> decide +kernel
  · cases b <;> decide +kernel
  · refine ⟨⟨⟨some (bytesAt world0.mem 3000 16), 16⟩, 0, 0, [(0, 16)], 7, .clear ⟨some (List.replicate 32 0), 32⟩ 0, .clear ⟨some (bytesAt world0.mem 1000 32), 32⟩ 0⟩, _, _,
      ⟨rfl, rfl, ⟨3000, rfl, rfl, rfl⟩, rfl, rfl, rfl, rfl, rfl, rfl⟩, rfl, ?_⟩
    decide +kernel

end Sa.C71

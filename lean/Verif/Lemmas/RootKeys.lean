/-
Lemmas about the key store, for C96 and C97.
-/
import Verif.Props.C98

namespace Sa.Ks

open Sa Sa.Sb.C98

/-- What a user of the key store has put into it. -/
structure Entry where
  name : Bytes
  key : Bytes
  deriving DecidableEq

/-- The bag holds the entry: it has its name, and the octets in it are decrypted to its key. -/
def Holds {σ : Type} (lib : Lib σ) (b : Bag) (e : Entry) : Prop :=
  b.name = .utf8 e.name ∧ b.secret = true ∧
    ∃ v element x, Elem 0x04 v element ∧ IsBag element b.der ∧ lib.unpack v = some x ∧ lib.decrypt x = some e.key

/-- A name that can be told from "commonroot": not its beginning, unless all of it. -/
def Clear (n : Bytes) : Prop := n ≠ [] ∧ (n <+: commonRoot → n = commonRoot)

/-- In the file, `e` is the first entry that is one of the common root (`common`) or one that is not, and can be read into a name buffer of `n` bytes: all is in the
first safe, no name up to that of `e` is longer than the one before it, all are to be told from "commonroot", no key before is longer than 16 bytes. -/
structure Found {σ : Type} (lib : Lib σ) (common : Bool) (n : Nat) (file : List Safe) (e : Entry) : Prop where
  first : ∃ (pre : List (Bag × Entry)) (b : Bag) (post : List Bag) (rest : List Safe),
    file = .opened (pre.map Prod.fst ++ b :: post) :: rest ∧ (∀ f ∈ rest, f = .shut ∨ f = .opened []) ∧
    (∀ x ∈ pre, Holds lib x.1 x.2 ∧ Clear x.2.name ∧ x.2.key.length ≤ 16 ∧ commonRoot.isPrefixOf x.2.name = !common) ∧
    Holds lib b e ∧ Clear e.name ∧ commonRoot.isPrefixOf e.name = common ∧
    (n :: (pre.map (·.2.name.length) ++ [e.name.length])).Pairwise (· ≥ ·)
  key : e.key.length = 16

theorem prefix_take (n : Bytes) : commonRoot.isPrefixOf n = true ↔ n.take 10 = commonRoot := by
  rw [List.isPrefixOf_iff_prefix, List.prefix_iff_eq_take]
  exact eq_comm

theorem isCommon_over {n : Bytes} (buffer : Bytes) (h : Clear n) : isCommon (over n buffer) = commonRoot.isPrefixOf n := by
  have key : (over n buffer).take 10 = commonRoot ↔ n.take 10 = commonRoot := by
    by_cases hl : 10 ≤ n.length
    · rw [over, List.take_append_of_le_length hl]
    · constructor
      · intro e
        have hp : n <+: commonRoot := by
          rw [← e, over]
          rw [List.take_append]
          rw [List.take_of_length_le (by omega)]
          exact List.prefix_append _ _
        have := congrArg List.length (h.2 hp)
        simp [commonRoot] at this
        omega
      · intro e
        have := congrArg List.length e
        simp [commonRoot] at this
        omega
  have := prefix_take n
  rw [Bool.eq_iff_iff, this, ← key]
  simp [isCommon]

theorem over_take (b buffer : Bytes) : (over b buffer).take b.length = b := by
  simp [over]

theorem parse_holds {σ : Type} {lib : Lib σ} {b : Bag} {e : Entry} (s : St) (h : Holds lib b e) (hn : Clear e.name) (hl : e.name.length ≤ s.nlen)
    (hk : e.key.length ≤ 16) :
    parse lib 16 b s = some (true, { s with name := over e.name s.name, nlen := e.name.length, key := over e.key s.key, klen := e.key.length }) := by
  obtain ⟨h1, h2, v, el, x, h3, h4, h5, h6⟩ := h
  have hpos : 0 < e.name.length := List.length_pos_iff.2 hn.1
  simp only [parse, h1, h2, C98_found h3 h4, h5, h6, putName]
  rw [if_neg (by simp), if_neg (by simp), if_neg (by omega), if_pos ⟨hpos, hl⟩]

theorem bagsLoop_found {σ : Type} {lib : Lib σ} {common : Bool} {e : Entry} {b : Bag} (post : List Bag) (hb : Holds lib b e) (hn : Clear e.name)
    (hc : commonRoot.isPrefixOf e.name = common) (hk : e.key.length ≤ 16) (pre : List (Bag × Entry)) (s : St)
    (hp : ∀ x ∈ pre, Holds lib x.1 x.2 ∧ Clear x.2.name ∧ x.2.key.length ≤ 16 ∧ commonRoot.isPrefixOf x.2.name = !common)
    (hl : (s.nlen :: (pre.map (·.2.name.length) ++ [e.name.length])).Pairwise (· ≥ ·)) :
    ∃ s', bagsLoop lib 16 common (pre.map Prod.fst ++ b :: post) s = some s' ∧ s'.status = true ∧ s'.failed = false ∧ s'.klen = e.key.length ∧
      s'.key.take e.key.length = e.key ∧ s'.nlen = e.name.length ∧ s'.name.take e.name.length = e.name := by
  induction pre generalizing s with
  | nil =>
    have hle : e.name.length ≤ s.nlen := by simpa using hl
    simp only [List.map_nil, List.nil_append, bagsLoop, parse_holds s hb hn hle hk]
    rw [if_pos (by rw [isCommon_over _ hn, hc])]
    exact ⟨_, rfl, rfl, rfl, rfl, over_take _ _, rfl, over_take _ _⟩
  | cons x pre ih =>
    obtain ⟨x1, x2, x3, x4⟩ := hp x List.mem_cons_self
    have hle : x.2.name.length ≤ s.nlen := by
      have := (List.pairwise_cons.1 hl).1 x.2.name.length (by simp)
      exact this
    have hl' := (List.pairwise_cons.1 hl).2
    simp only [List.map_cons, List.cons_append, bagsLoop, parse_holds s x1 x2 hle x3]
    rw [if_neg (by rw [isCommon_over _ x2, x4]; cases common <;> simp)]
    simp only [Bool.not_true, Bool.false_eq_true, if_false]
    exact ih _ (fun y hy => hp y (List.mem_cons_of_mem _ hy)) (by simpa using hl')

/-- The bag has a name, and a key that cannot be had from it: it is no secret bag, or what is in it is not to be decrypted. -/
def Unreadable {σ : Type} (lib : Lib σ) (b : Bag) (n : Bytes) : Prop :=
  b.name = .utf8 n ∧ (b.secret = false ∨ ∃ v element x, Elem 0x04 v element ∧ IsBag element b.der ∧ lib.unpack v = some x ∧ lib.decrypt x = none)

theorem parse_unreadable {σ : Type} {lib : Lib σ} {b : Bag} {n : Bytes} (s : St) (h : Unreadable lib b n) (hn : Clear n) (hl : n.length ≤ s.nlen) :
    parse lib 16 b s = some (false, { s with name := over n s.name, nlen := n.length }) := by
  have hpos : 0 < n.length := List.length_pos_iff.2 hn.1
  obtain ⟨h1, h⟩ := h
  have hput : putName (.utf8 n) s = { s with name := over n s.name, nlen := n.length } := by
    simp only [putName]
    rw [if_pos ⟨hpos, hl⟩]
  simp only [parse, h1, hput]
  rw [if_neg (by simp)]
  by_cases hs : b.secret = false
  · rw [if_pos hs]
  · obtain ⟨v, el, x, h3, h4, h5, h6⟩ := h.resolve_left hs
    rw [if_neg hs]
    simp only [C98_found h3 h4, h5, h6]

theorem bagsLoop_unreadable {σ : Type} {lib : Lib σ} {common : Bool} {n : Bytes} {b : Bag} (post : List Bag) (hb : Unreadable lib b n) (hn : Clear n)
    (hc : commonRoot.isPrefixOf n = !common) (pre : List (Bag × Entry)) (s : St)
    (hp : ∀ x ∈ pre, Holds lib x.1 x.2 ∧ Clear x.2.name ∧ x.2.key.length ≤ 16 ∧ commonRoot.isPrefixOf x.2.name = !common)
    (hl : (s.nlen :: (pre.map (·.2.name.length) ++ [n.length])).Pairwise (· ≥ ·)) :
    ∃ s', bagsLoop lib 16 common (pre.map Prod.fst ++ b :: post) s = some s' ∧ s'.status = s.status ∧ s'.failed = true := by
  induction pre generalizing s with
  | nil =>
    have hle : n.length ≤ s.nlen := by simpa using hl
    simp only [List.map_nil, List.nil_append, bagsLoop, parse_unreadable s hb hn hle]
    rw [if_neg (by rw [isCommon_over _ hn, hc]; cases common <;> simp)]
    exact ⟨_, rfl, rfl, rfl⟩
  | cons x pre ih =>
    obtain ⟨x1, x2, x3, x4⟩ := hp x List.mem_cons_self
    have hle : x.2.name.length ≤ s.nlen := by
      have := (List.pairwise_cons.1 hl).1 x.2.name.length (by simp)
      exact this
    have hl' := (List.pairwise_cons.1 hl).2
    simp only [List.map_cons, List.cons_append, bagsLoop, parse_holds s x1 x2 hle x3]
    rw [if_neg (by rw [isCommon_over _ x2, x4]; cases common <;> simp)]
    simp only [Bool.not_true, Bool.false_eq_true, if_false]
    exact ih _ (fun y hy => hp y (List.mem_cons_of_mem _ hy)) (by simpa using hl')

theorem safesLoop_rest {σ : Type} (lib : Lib σ) (room : Nat) (common : Bool) (rest : List Safe) (freed : Bool) (s : St)
    (h : ∀ f ∈ rest, f = .shut ∨ f = .opened []) : safesLoop lib room common rest freed s = some s := by
  induction rest generalizing freed with
  | nil => rfl
  | cons f fs ih =>
    have hf := fun freed => ih freed (fun g hg => h g (List.mem_cons_of_mem _ hg))
    simp only [safesLoop]
    split
    · rfl
    · rcases h f List.mem_cons_self with rfl | rfl
      · exact hf _
      · exact hf _

theorem load_found {σ : Type} {lib : Lib σ} {common : Bool} {file : List Safe} {e : Entry} {name : Bytes} {n : Nat} (key : Bytes) (klen : Nat)
    (hq : strncmpEq n name (commonRoot ++ [0]) = common) (h : Found lib common n file e) :
    ∃ s, load lib 16 (some file) key klen name n = some (true, s) ∧ s.klen = 16 ∧ s.key.take 16 = e.key ∧ s.name.take s.nlen = e.name := by
  obtain ⟨⟨pre, b, post, rest, rfl, hr, hp, hb, hn, hc, hl⟩, hk⟩ := h
  obtain ⟨s', e1, e2, e3, e4, e5, e6, e7⟩ := bagsLoop_found post hb hn hc (by omega) pre ⟨key, klen, name, n, false, false⟩ hp hl
  refine ⟨s', ?_, by omega, by rw [← hk]; exact e5, by rw [e6]; exact e7⟩
  simp only [load, hq, safesLoop, Bool.false_eq_true, if_false, e1, safesLoop_rest lib 16 common rest true s' hr, e2]

/-- What a hexadecimal digit stands for. -/
def digit (c : UInt8) : Option Nat :=
  if 48 ≤ c ∧ c ≤ 57 then some (c.toNat - 48)
  else if 97 ≤ c ∧ c ≤ 102 then some (c.toNat - 87)
  else if 65 ≤ c ∧ c ≤ 70 then some (c.toNat - 55)
  else none

/-- The number that hexadecimal digits write after the number `n`. -/
def hexFrom : Nat → Bytes → Option Nat
  | n, [] => some n
  | n, c :: cs => (digit c).bind fun d => hexFrom (16 * n + d) cs

/-- The number that hexadecimal digits write. -/
def hex (s : Bytes) : Option Nat := hexFrom 0 s

theorem lookup_digit (c : UInt8) : lookup.findIdx? (· == lower c) = digit c := by
  have : ∀ k : Fin 256, lookup.findIdx? (· == lower (UInt8.ofNat k.val)) = digit (UInt8.ofNat k.val) := by decide +kernel
  have h := this ⟨c.toNat, c.toNat_lt⟩
  simpa using h

theorem digit_lt {c : UInt8} {d : Nat} (h : digit c = some d) : d < 16 := by
  have : ∀ k : Fin 256, ∀ d, digit (UInt8.ofNat k.val) = some d → d < 16 := by
    have h : ∀ k : Fin 256, (digit (UInt8.ofNat k.val)).all (· < 16) = true := by decide +kernel
    intro k d e
    have := h k
    rw [e] at this
    simpa using this
  exact this ⟨c.toNat, c.toNat_lt⟩ d (by simpa using h)

theorem hexFrom_lt {s : Bytes} {n x : Nat} (h : hexFrom n s = some x) : x < (n + 1) * 16 ^ s.length := by
  induction s generalizing n with
  | nil =>
    cases h
    simp
  | cons c cs ih =>
    simp only [hexFrom, Option.bind_eq_some_iff] at h
    obtain ⟨d, hd, h⟩ := h
    have h1 := digit_lt hd
    have h2 := ih h
    calc x < (16 * n + d + 1) * 16 ^ cs.length := h2
      _ ≤ ((n + 1) * 16) * 16 ^ cs.length := Nat.mul_le_mul_right _ (by omega)
      _ = (n + 1) * 16 ^ (c :: cs).length := by rw [List.length_cons, Nat.pow_succ, Nat.mul_assoc, Nat.mul_comm 16]

theorem hexFrom_ge {s : Bytes} {n x : Nat} (h : hexFrom n s = some x) : n ≤ x := by
  induction s generalizing n with
  | nil =>
    cases h
    exact Nat.le_refl _
  | cons c cs ih =>
    simp only [hexFrom, Option.bind_eq_some_iff] at h
    obtain ⟨d, hd, h⟩ := h
    have := ih h
    omega

theorem convertLoop_some {s : Bytes} {n x : Nat} (h : hexFrom n s = some x) (hx : x < 2 ^ 64) : convertLoop s n = x := by
  induction s generalizing n with
  | nil =>
    cases h
    rfl
  | cons c cs ih =>
    simp only [hexFrom, Option.bind_eq_some_iff] at h
    obtain ⟨d, hd, h⟩ := h
    have := hexFrom_ge h
    simp only [convertLoop, lookup_digit, hd]
    rw [Nat.mod_eq_of_lt (by omega), Nat.mul_comm]
    exact ih h

theorem hexFrom_none {s : Bytes} {n m : Nat} (h : hexFrom n s = none) : hexFrom m s = none := by
  induction s generalizing n m with
  | nil => cases h
  | cons c cs ih =>
    simp only [hexFrom] at h ⊢
    cases hd : digit c with
    | none => rfl
    | some d =>
      rw [hd] at h
      exact ih h

theorem convertLoop_none {s : Bytes} {n m : Nat} (h : hexFrom n s = none) : convertLoop s m = 0 := by
  induction s generalizing n m with
  | nil => cases h
  | cons c cs ih =>
    simp only [hexFrom] at h
    simp only [convertLoop, lookup_digit]
    cases hd : digit c with
    | none => rfl
    | some d =>
      rw [hd] at h
      exact ih h

theorem convert_eq (s : Bytes) : convert s = if s.length ≤ 16 then (hex s).getD 0 else 0 := by
  unfold convert
  by_cases hl : 16 < s.length
  · rw [if_pos hl, if_neg (by omega)]
  · rw [if_neg hl, if_pos (by omega)]
    cases h : hex s with
    | none => exact convertLoop_none h
    | some x =>
      refine convertLoop_some h ?_
      have := hexFrom_lt h
      have h2 : 16 ^ s.length ≤ 16 ^ 16 := Nat.pow_le_pow_right (by decide) (by omega)
      have h3 : (16 : Nat) ^ 16 = 2 ^ 64 := by decide
      show x < 2 ^ 64
      omega

/-- The file has a device's key and the common root key, in the order in which the code can read them, and the name of the device's key is the number of the device
in hexadecimal digits, not zero. -/
structure Proper {σ : Type} (lib : Lib σ) (file : List Safe) (dev com : Entry) : Prop where
  device : Found lib false 16 file dev
  common : Found lib true 50 file com
  id : ∃ x, hex dev.name = some x ∧ x ≠ 0

/-- The statics hold what the files `D` and `C` gave. -/
structure Inv (dev com : List Safe → Entry) (w : World) (D C : Option (List Safe)) : Prop where
  d0 : D = none → w.dlen = 0 ∧ w.dev = 0
  d1 : ∀ f, D = some f → w.dlen = 16 ∧ w.dkey.take 16 = (dev f).key ∧ hex (dev f).name = some w.dev ∧ w.dev ≠ 0
  c0 : C = none → w.clen = 0
  c1 : ∀ f, C = some f → w.clen = 16 ∧ w.ckey.take 16 = (com f).key

theorem found_short {σ : Type} {lib : Lib σ} {common : Bool} {n : Nat} {file : List Safe} {e : Entry} (h : Found lib common n file e) : e.name.length ≤ n := by
  obtain ⟨⟨pre, b, post, rest, rfl, hr, hp, hb, hn, hc, hl⟩, hk⟩ := h
  exact (List.pairwise_cons.1 hl).1 e.name.length (by simp)

theorem requested_device (junk : Bytes) : strncmpEq 16 (0 :: junk.take 15) (commonRoot ++ [0]) = false := by
  simp [strncmpEq, commonRoot]

theorem requested_common (junk : Bytes) : strncmpEq 50 (commonRoot ++ 0 :: junk.take 39) (commonRoot ++ [0]) = true := by
  simp [strncmpEq, commonRoot]

section
variable {σ : Type} {lib : Lib σ} {dev com : List Safe → Entry}

theorem getRoot_inv {w : World} {D C : Option (List Safe)} (file : Option (List Safe)) (junk : Bytes) (hf : ∀ f, file = some f → Proper lib f (dev f) (com f))
    (h : Inv dev com w D C) :
    ∃ w', getRoot lib file junk 32 w = some ((D.or file).map fun f => (dev f).key, w') ∧ Inv dev com w' (D.or file) C := by
  cases D with
  | some f =>
    obtain ⟨h1, h2, h3, h4⟩ := h.d1 f rfl
    refine ⟨w, ?_, h⟩
    unfold getRoot
    rw [if_neg (by omega)]
    simp only []
    rw [if_neg (by omega), h1, h2]
    rfl
  | none =>
    obtain ⟨h1, h2⟩ := h.d0 rfl
    cases file with
    | none =>
      refine ⟨w, ?_, h⟩
      unfold getRoot
      rw [if_pos h1]
      simp [load]
    | some f =>
      have hp := hf f rfl
      obtain ⟨s, e1, e2, e3, e4⟩ := load_found w.dkey w.dlen (requested_device junk) hp.device
      obtain ⟨x, hx, hx0⟩ := hp.id
      have hs := found_short hp.device
      have hconv : convert (s.name.take s.nlen) = x := by
        rw [e4, convert_eq, if_pos hs, hx]
        rfl
      refine ⟨{ w with dkey := s.key, dlen := s.klen, dev := x }, ?_, ?_⟩
      · unfold getRoot
        rw [if_pos h1, e1]
        simp only [hconv, Bool.true_eq_false, if_false, if_neg hx0, e2]
        rw [if_neg (by omega), e3]
        rfl
      · constructor
        · intro h
          cases h
        · intro g hg
          cases hg
          exact ⟨e2, e3, hx, hx0⟩
        · exact h.c0
        · exact h.c1

theorem getCommon_inv {w : World} {D C : Option (List Safe)} (file : Option (List Safe)) (junk : Bytes) (hf : ∀ f, file = some f → Proper lib f (dev f) (com f))
    (h : Inv dev com w D C) :
    ∃ w', getCommon lib file junk 32 w = some ((C.or file).map fun f => (com f).key, w') ∧ Inv dev com w' D (C.or file) := by
  cases C with
  | some f =>
    obtain ⟨h1, h2⟩ := h.c1 f rfl
    refine ⟨w, ?_, h⟩
    unfold getCommon
    rw [if_neg (by omega)]
    simp only []
    rw [if_neg (by omega), h1, h2]
    rfl
  | none =>
    have h1 := h.c0 rfl
    cases file with
    | none =>
      refine ⟨w, ?_, h⟩
      unfold getCommon
      rw [if_pos h1]
      simp [load]
    | some f =>
      have hp := hf f rfl
      obtain ⟨s, e1, e2, e3, e4⟩ := load_found w.ckey w.clen (requested_common junk) hp.common
      refine ⟨{ w with ckey := s.key, clen := s.klen }, ?_, ?_⟩
      · unfold getCommon
        rw [if_pos h1, e1]
        simp only [Bool.true_eq_false, if_false, e2]
        rw [if_neg (by omega), e3]
        rfl
      · constructor
        · exact h.d0
        · exact h.d1
        · intro h
          cases h
        · intro g hg
          cases hg
          exact ⟨e2, e3⟩

/-- The requests that read the device's key: those that derive from it and those for the device ID. -/
def readsDevice : Op → Bool
  | .ladder kind _ => kind = .unique
  | .deviceId => true

/-- The requests that read the common root key. -/
def readsCommon : Op → Bool
  | .ladder kind _ => kind = .common
  | .deviceId => false

/-- What is to be answered, if the keys are those of the files `D` and `C`: three AES decryptions under the key, the number that the name writes. -/
def due (p : Prims) (dev com : List Safe → Entry) (op : Op) (D C : Option (List Safe)) : Ans :=
  match op with
  | .ladder .unique k => .derived (D.map fun f => p.aesDec (p.aesDec (p.aesDec (dev f).key k.c1.toList) k.c2.toList) k.c3.toList)
  | .ladder .common k => .derived (C.map fun f => p.aesDec (p.aesDec (p.aesDec (com f).key k.c1.toList) k.c2.toList) k.c3.toList)
  | .deviceId => .id ((D.bind fun f => hex (dev f).name).getD 0)

theorem key_length {f : List Safe} (hp : Proper lib f (dev f) (com f)) : (dev f).key.length = 16 ∧ (com f).key.length = 16 := ⟨hp.device.key, hp.common.key⟩

theorem step_inv (p : Prims) {w : World} {D C : Option (List Safe)} (r : Req) (hf : ∀ f, r.file = some f → Proper lib f (dev f) (com f))
    (hD : ∀ f, D = some f → Proper lib f (dev f) (com f)) (hC : ∀ f, C = some f → Proper lib f (dev f) (com f)) (h : Inv dev com w D C) :
    ∃ w', step lib p r w = some (due p dev com r.op (if readsDevice r.op then D.or r.file else D) (if readsCommon r.op then C.or r.file else C), w') ∧
      Inv dev com w' (if readsDevice r.op then D.or r.file else D) (if readsCommon r.op then C.or r.file else C) := by
  obtain ⟨file, junk, op⟩ := r
  simp only at hf ⊢
  have hor : ∀ (X : Option (List Safe)), (∀ f, X = some f → Proper lib f (dev f) (com f)) → ∀ f, X.or file = some f → Proper lib f (dev f) (com f) := by
    intro X hX f e
    cases X with
    | none => exact hf f e
    | some g => exact hX f e
  cases op with
  | deviceId =>
    simp only [readsDevice, readsCommon, if_true, Bool.false_eq_true, if_false, step, due, deviceId]
    by_cases hd : w.dev = 0
    · rw [if_pos hd]
      obtain ⟨w', e, hi⟩ := getRoot_inv file junk hf h
      refine ⟨w', ?_, hi⟩
      rw [e]
      cases hx : D.or file with
      | none =>
        rw [hx] at hi
        simp [(hi.d0 rfl).2]
      | some f =>
        rw [hx] at hi
        simp [(hi.d1 f rfl).2.2.1]
    · rw [if_neg hd]
      cases D with
      | none => exact absurd (h.d0 rfl).2 hd
      | some f => exact ⟨w, by simp [(h.d1 f rfl).2.2.1], h⟩
  | ladder kind k =>
    cases kind with
    | unique =>
      obtain ⟨w', e, hi⟩ := getRoot_inv file junk hf h
      refine ⟨w', ?_, by simpa [readsDevice, readsCommon] using hi⟩
      simp only [readsDevice, step, due, ladder, e, decide_true, if_true]
      cases hx : D.or file with
      | none => simp
      | some f =>
        have := (key_length (hor D hD f hx)).1
        simp [this, otpHwKeyLadder]
    | common =>
      obtain ⟨w', e, hi⟩ := getCommon_inv file junk hf h
      refine ⟨w', ?_, by simpa [readsDevice, readsCommon] using hi⟩
      simp only [readsCommon, step, due, ladder, e, decide_true, if_true]
      cases hx : C.or file with
      | none => simp
      | some f =>
        have := (key_length (hor C hC f hx)).2
        simp [this, otpHwKeyLadder]

/-- The first file that was there at a request that reads. -/
def firstFile (reads : Op → Bool) (rs : List Req) : Option (List Safe) := (rs.filter fun r => reads r.op).findSome? Req.file

theorem firstFile_cons (reads : Op → Bool) (r : Req) (rs : List Req) :
    firstFile reads (r :: rs) = (if reads r.op then r.file else none).or (firstFile reads rs) := by
  unfold firstFile
  rw [List.filter_cons]
  by_cases h : reads r.op = true
  · rw [if_pos h, if_pos h, List.findSome?_cons]
    cases r.file <;> rfl
  · rw [if_neg h, if_neg h]
    rfl

theorem run_inv (p : Prims) (rs : List Req) {w : World} {D C : Option (List Safe)}
    (hf : ∀ r ∈ rs, ∀ f, r.file = some f → Proper lib f (dev f) (com f)) (hD : ∀ f, D = some f → Proper lib f (dev f) (com f))
    (hC : ∀ f, C = some f → Proper lib f (dev f) (com f)) (h : Inv dev com w D C) :
    ∃ as w', run lib p rs w = some (as, w') ∧ as.length = rs.length ∧ ∀ (i : Nat) (r : Req), rs[i]? = some r →
      as[i]? = some (due p dev com r.op (D.or (firstFile readsDevice (rs.take (i + 1)))) (C.or (firstFile readsCommon (rs.take (i + 1))))) := by
  induction rs generalizing w D C with
  | nil => exact ⟨[], w, rfl, rfl, fun i r h => by simp at h⟩
  | cons r rs ih =>
    obtain ⟨w1, e1, h1⟩ := step_inv p r (hf r List.mem_cons_self) hD hC h
    have hor : ∀ (b : Bool) (X : Option (List Safe)), (∀ f, X = some f → Proper lib f (dev f) (com f)) →
        ∀ f, (if b then X.or r.file else X) = some f → Proper lib f (dev f) (com f) := by
      intro b X hX f e
      cases b with
      | false => exact hX f e
      | true =>
        cases X with
        | none => exact hf r List.mem_cons_self f e
        | some g => exact hX f e
    have hsame : ∀ (b : Bool) (X : Option (List Safe)), (if b then X.or r.file else X) = X.or (if b then r.file else none) := by
      intro b X
      cases b <;> simp
    obtain ⟨as, w', e2, hl, h2⟩ := ih (fun q hq => hf q (List.mem_cons_of_mem _ hq)) (hor _ D hD) (hor _ C hC) h1
    have e3 : run lib p (r :: rs) w = some (due p dev com r.op (if readsDevice r.op then D.or r.file else D) (if readsCommon r.op then C.or r.file else C) :: as, w') := by
      simp only [run, e1, e2]
    refine ⟨_, w', e3, by simp [hl], ?_⟩
    intro i q hq
    cases i with
    | zero =>
      simp only [List.getElem?_cons_zero, Option.some.injEq] at hq
      subst hq
      have hn : ∀ reads, firstFile reads [] = none := fun _ => rfl
      simp only [List.getElem?_cons_zero, Nat.zero_add, List.take_succ_cons, List.take_zero, firstFile_cons, hn, hsame, Option.or_none]
    | succ i =>
      simp only [List.getElem?_cons_succ] at hq
      rw [List.getElem?_cons_succ, h2 i q hq]
      simp only [List.take_succ_cons, firstFile_cons, hsame, Option.or_assoc]

end

theorem inv_init (dev com : List Safe → Entry) : Inv dev com World.init none none :=
  ⟨fun _ => ⟨rfl, rfl⟩, (fun _ h => nomatch h), fun _ => rfl, (fun _ h => nomatch h)⟩

end Sa.Ks

/-
C96: What is derived from the root keys is derived from the keys in the key store.

`Entry`, `Holds`, `Found` and `Proper` (Lemmas/RootKeys.lean) say what a key store is and what it holds, by the DER of C98; `due` is what a request is to be answered
with, given the files from which the keys are to be.
-/
import Verif.Lemmas.RootKeys

namespace Sa.Ks.C96

open Sa Sa.Ks Sa.Sb.C98

section
variable {σ : Type} (lib : Lib σ)

/-- Reading a file gives the key and the name of the first entry that is one of the common root, or one that is not, as was asked for by the name: whatever was in the
buffers.  Partial: of entries in the first safe in an order of names that do not get longer, as `Found` has it; the violations show what happens otherwise. -/
theorem C96_read_partial {file : List Safe} {e : Entry} (junk key : Bytes) (klen : Nat) :
    (Found lib false 16 file e → ∃ s, load lib 16 (some file) key klen (0 :: junk.take 15) 16 = some (true, s) ∧ s.key.take s.klen = e.key ∧ s.name.take s.nlen = e.name) ∧
    (Found lib true 50 file e → ∃ s, load lib 16 (some file) key klen (commonRoot ++ 0 :: junk.take 39) 50 = some (true, s) ∧ s.key.take s.klen = e.key ∧
      s.name.take s.nlen = e.name) := by
  constructor
  · intro h
    obtain ⟨s, e1, e2, e3, e4⟩ := load_found key klen (requested_device junk) h
    exact ⟨s, e1, by rw [e2]; exact e3, e4⟩
  · intro h
    obtain ⟨s, e1, e2, e3, e4⟩ := load_found key klen (requested_common junk) h
    exact ⟨s, e1, by rw [e2]; exact e3, e4⟩

/-- A file in which another entry, before the one that is asked for, cannot be read is refused as a whole: whatever comes after it, no other key is given in its place.
Partial as above: entries up to there are in the first safe, and their names do not get longer. -/
theorem C96_unreadable_partial {common : Bool} {n : Nat} {pre : List (Bag × Entry)} {b : Bag} {name : Bytes} (post : List Bag) (rest : List Safe) (key asked : Bytes)
    (klen : Nat) (ha : strncmpEq n asked (commonRoot ++ [0]) = common)
    (hp : ∀ x ∈ pre, Holds lib x.1 x.2 ∧ Clear x.2.name ∧ x.2.key.length ≤ 16 ∧ commonRoot.isPrefixOf x.2.name = !common)
    (hb : Unreadable lib b name) (hn : Clear name) (hc : commonRoot.isPrefixOf name = !common)
    (hl : (n :: (pre.map (·.2.name.length) ++ [name.length])).Pairwise (· ≥ ·)) :
    ∃ s, load lib 16 (some (.opened (pre.map Prod.fst ++ b :: post) :: rest)) key klen asked n = some (false, s) := by
  obtain ⟨s', e1, e2, e3⟩ := bagsLoop_unreadable post hb hn hc pre ⟨key, klen, asked, n, false, false⟩ hp hl
  refine ⟨s', ?_⟩
  simp only [load, ha, safesLoop, Bool.false_eq_true, if_false, e1]
  cases rest with
  | nil => simp only [safesLoop, e2]
  | cons f fs =>
    simp only [safesLoop, e3, if_true]
    simp only [e2]

/-- However often and in whatever order root keys are asked for, each request that derives from one is answered with three AES decryptions under the key of the first
file that was there when that key was needed, and refused as long as there was none.  Partial: with files that are not there or `Proper`. -/
theorem C96_derived_partial (p : Prims) (dev com : List Safe → Entry) (rs : List Req) (hf : ∀ r ∈ rs, ∀ f, r.file = some f → Proper lib f (dev f) (com f)) :
    ∃ as w, run lib p rs World.init = some (as, w) ∧ as.length = rs.length ∧ ∀ (i : Nat) (r : Req) (kind : Kind) (k : KeyLadderInputs), rs[i]? = some r → r.op = .ladder kind k →
      as[i]? = some (.derived ((match kind with
        | .unique => (firstFile readsDevice (rs.take (i + 1))).map fun f => (dev f).key
        | .common => (firstFile readsCommon (rs.take (i + 1))).map fun f => (com f).key).map fun root =>
          p.aesDec (p.aesDec (p.aesDec root k.c1.toList) k.c2.toList) k.c3.toList)) := by
  obtain ⟨as, w, e, hl, h⟩ := run_inv (lib := lib) p rs hf (by simp) (by simp) (inv_init dev com)
  refine ⟨as, w, e, hl, ?_⟩
  intro i r kind k hr ho
  rw [h i r hr, ho]
  cases kind <;> simp [due, Function.comp_def]

theorem firstFile_later (reads : Op → Bool) (rs : List Req) {i j : Nat} (hij : i ≤ j) {f : List Safe} (h : firstFile reads (rs.take i) = some f) :
    firstFile reads (rs.take j) = some f := by
  induction rs generalizing i j with
  | nil => simpa using h
  | cons r rs ih =>
    cases i with
    | zero => simp [firstFile] at h
    | succ i =>
      cases j with
      | zero => omega
      | succ j =>
        rw [List.take_succ_cons, firstFile_cons] at h ⊢
        cases hx : (if reads r.op then r.file else none) with
        | some g =>
          rw [hx] at h
          exact h
        | none =>
          rw [hx] at h
          exact ih (Nat.le_of_succ_le_succ hij) h

/-- The same is derived from the same for ever, whatever becomes of the file. -/
theorem C96_stays_partial (p : Prims) (dev com : List Safe → Entry) (rs : List Req) (hf : ∀ r ∈ rs, ∀ f, r.file = some f → Proper lib f (dev f) (com f))
    {as : List Ans} {w : World} (hrun : run lib p rs World.init = some (as, w)) {i j : Nat} (hij : i ≤ j) {r q : Req} {kind : Kind} {k : KeyLadderInputs}
    (hr : rs[i]? = some r) (hro : r.op = .ladder kind k) (hq : rs[j]? = some q) (hqo : q.op = .ladder kind k) {key : Bytes} (ha : as[i]? = some (.derived (some key))) :
    as[j]? = some (.derived (some key)) := by
  obtain ⟨as', w', e, _, h⟩ := C96_derived_partial lib p dev com rs hf
  rw [hrun] at e
  cases e
  rw [h i r kind k hr hro] at ha
  rw [h j q kind k hq hqo]
  cases kind with
  | unique =>
    simp only [] at ha ⊢
    cases hx : firstFile readsDevice (rs.take (i + 1)) with
    | none => simp [hx] at ha
    | some f =>
      rw [hx] at ha
      rw [firstFile_later readsDevice rs (by omega) hx]
      exact ha
  | common =>
    simp only [] at ha ⊢
    cases hx : firstFile readsCommon (rs.take (i + 1)) with
    | none => simp [hx] at ha
    | some f =>
      rw [hx] at ha
      rw [firstFile_later readsCommon rs (by omega) hx]
      exact ha

end

/-! ### An example -/

/-- An element with contents of less than 128 bytes. -/
def el (t : UInt8) (c : Bytes) : Bytes := t :: UInt8.ofNat c.length :: c

theorem el_elem (t : UInt8) {c : Bytes} (h : c.length < 128) : Elem t c (el t c) := ⟨[UInt8.ofNat c.length], Or.inl ⟨h, rfl⟩, rfl⟩

/-- The DER of a bag with the octets `v`. -/
def bagDer (v : Bytes) : Bytes := el 0x30 (el 0x06 [0x55] ++ el 0xa0 (el 0x30 (el 0x06 [0x56] ++ el 0xa0 (el 0x04 v))) ++ [0x31, 0x00])

theorem bagDer_is {v : Bytes} (h : v.length < 100) : IsBag (el 0x04 v) (bagDer v) := by
  refine ⟨[0x55], [0x56], [0x31, 0x00], el 0x06 [0x55], el 0x06 [0x56], el 0xa0 (el 0x04 v), el 0x30 (el 0x06 [0x56] ++ el 0xa0 (el 0x04 v)), _, el_elem _ (by decide),
    el_elem _ (by decide), el_elem _ ?_, el_elem _ ?_, el_elem _ ?_, el_elem _ ?_⟩
  all_goals simp only [el, List.length_cons, List.length_append, List.length_nil]
  all_goals omega

/-- Octets are the encrypted key, and decrypting does nothing. -/
def plain : Lib Bytes := ⟨some, some⟩

/-- A bag that holds an entry. -/
def bagOf (e : Entry) : Bag := ⟨.utf8 e.name, true, bagDer e.key⟩

theorem bagOf_holds {e : Entry} (h : e.key.length < 100) : Holds plain (bagOf e) e :=
  ⟨rfl, rfl, e.key, el 0x04 e.key, e.key, el_elem _ (by omega), bagDer_is h, rfl, rfl⟩

/-- "fffffffffffffffe" with a key of ones. -/
def device0 : Entry := ⟨List.replicate 15 102 ++ [101], List.replicate 16 1⟩

/-- "commonroot" with a key of twos. -/
def common0 : Entry := ⟨commonRoot, List.replicate 16 2⟩

/-- The two of them as keytool writes them. -/
def file0 : List Safe := [.opened [bagOf device0, bagOf common0]]

theorem file0_proper : Proper plain file0 device0 common0 where
  device := ⟨⟨[], bagOf device0, [bagOf common0], [], rfl, by simp, by simp, bagOf_holds (by decide), ⟨by decide, by decide⟩, by decide +kernel, by decide⟩, by decide⟩
  common := ⟨⟨[(bagOf device0, device0)], bagOf common0, [], [], rfl, by simp,
    (by
      intro x hx
      simp only [List.mem_singleton] at hx
      subst hx
      exact ⟨bagOf_holds (by decide), ⟨by decide, by decide⟩, by decide, by decide +kernel⟩),
    bagOf_holds (by decide), ⟨by decide, by decide⟩, by decide +kernel, by decide⟩, by decide⟩
  id := ⟨0xfffffffffffffffe, by decide +kernel, by decide⟩

/-- Decryption that gives back the key, so that what is derived shows the root key. -/
def shows : Prims := ⟨fun _ b => b, fun k _ => k, fun _ m => m, [], []⟩

/-- Some inputs. -/
def inputs0 : KeyLadderInputs := ⟨Vector.replicate 16 0, Vector.replicate 16 0, Vector.replicate 16 0⟩

/-- A request to derive from a root key. -/
def derive (file : Option (List Safe)) (kind : Kind) : Req := ⟨file, [], .ladder kind inputs0⟩

/-- Before there is a file, with the file, and after it has gone. -/
def requests0 : List Req := [derive none .unique, derive (some file0) .unique, derive (some file0) .common, derive none .unique]

theorem requests0_proper : ∀ r ∈ requests0, ∀ f, r.file = some f → Proper plain f device0 common0 := by
  intro r hr f hf
  simp only [requests0, derive, List.mem_cons, List.not_mem_nil, or_false] at hr
  rcases hr with rfl | rfl | rfl | rfl <;> cases hf <;> exact file0_proper

/-- The answers of a run. -/
def answers (rs : List Req) : Option (List Ans) := (run plain shows rs World.init).map Prod.fst

example : answers requests0 = some [.derived none, .derived (some (List.replicate 16 1)), .derived (some (List.replicate 16 2)), .derived (some (List.replicate 16 1))] := by
  decide +kernel

example := C96_derived_partial plain shows (fun _ => device0) (fun _ => common0) requests0 requests0_proper

/-! ### Not so -/

/-- The device's entry is there but is no secret, and the common root key is asked for: refused. -/
example : Unreadable plain { bagOf device0 with secret := false } device0.name ∧
    (load plain 16 (some [.opened [{ bagOf device0 with secret := false }, bagOf common0]]) (List.replicate 16 0) 0 (commonRoot ++ 0 :: List.replicate 39 0) 50).map Prod.fst =
      some false := ⟨⟨rfl, Or.inl rfl⟩, by decide +kernel⟩

/-- Violated: the common root key first and the device's key second: the device's key is not found, because the name that was read first set how long a name may be. -/
theorem C96_violated_order : answers [derive (some [.opened [bagOf common0, bagOf device0]]) .unique] = some [.derived none] := by decide +kernel

/-- Violated: refused once, the next request for the device's key is answered with the common root key. -/
theorem C96_violated_second :
    answers [derive (some [.opened [bagOf common0]]) .unique, derive (some [.opened [bagOf common0]]) .unique] =
      some [.derived none, .derived (some common0.key)] := by decide +kernel

/-- Violated: and one for the common root key with the device's. -/
theorem C96_violated_second_common :
    answers [derive (some [.opened [bagOf device0]]) .common, derive (some [.opened [bagOf device0]]) .common] =
      some [.derived none, .derived (some device0.key)] := by decide +kernel

/-- Violated: with the two keys in two safes the device's is refused, and then the common root key is used for it: leaving the loop over the bags does not leave that over
the safes. -/
theorem C96_violated_safes :
    answers [derive (some [.opened [bagOf device0], .opened [bagOf common0]]) .unique, derive (some [.opened [bagOf device0], .opened [bagOf common0]]) .unique] =
      some [.derived none, .derived (some common0.key)] := by decide +kernel

/-- Violated: a key whose name is the beginning of "commonroot" is taken for the common root key. -/
theorem C96_violated_beginning : answers [derive (some [.opened [bagOf ⟨[99, 111], List.replicate 16 3⟩, bagOf common0]]) .common] = some [.derived (some (List.replicate 16 3))] := by
  decide +kernel

/-- Violated: so is one whose name is longer than 50 bytes. -/
theorem C96_violated_long_name :
    answers [derive (some [.opened [bagOf ⟨List.replicate 51 120, List.replicate 16 3⟩, bagOf common0]]) .common] = some [.derived (some (List.replicate 16 3))] := by
  decide +kernel

/-- Violated: a key of 32 bytes is written over the end of the 16 that are there for it. -/
theorem C96_violated_long_key : answers [derive (some [.opened [bagOf ⟨device0.name, List.replicate 32 1⟩]]) .unique] = none := by decide +kernel

/-- Violated: a safe of an unknown kind after one that was read has the bags of that released twice. -/
theorem C96_violated_freed : answers [derive (some [.opened [bagOf device0], .unknown]) .unique] = none := by decide +kernel

/-- Violated: a key that cannot be decrypted is reported as loaded. -/
theorem C96_violated_undecryptable :
    (load (⟨some, fun _ => none⟩ : Lib Bytes) 16 (some file0) (List.replicate 16 0) 0 (0 :: List.replicate 15 0) 16).map (fun x => (x.1, x.2.klen)) = some (true, 0) := by
  decide +kernel

end Sa.Ks.C96

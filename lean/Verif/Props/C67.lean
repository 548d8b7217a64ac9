import Verif.Lemmas.Inquiry
import Verif.Lemmas.Rights
import Verif.Props.C20
import Verif.Props.C08
import Verif.Props.C29

/-!
# C67: a key check tells only whether the key decrypts the data, and only those who may know

Full statement: a key check succeeds exactly if the caller may use the key for decryption into the kind of memory given, the data lie in a buffer of the caller, and AES-ECB
decryption of the data with the key gives the expected value; everybody else learns nothing; nothing else is read and nothing is changed.

The code does not check the type of the buffer.  For the two types that exist the statement holds (`C67_partial`, `C67_reads`).  For any other type neither the right to decrypt
into clear memory is needed nor is the REE refused, and the eight bytes that the caller gives as an SVP handle are used as an address: everybody who can use the key for
decryption can ask for any memory of the TA whether it decrypts to a given value (`C67_violated`).  If memory cannot be allocated, the answer is that the value is wrong
(`C67_violated_failure`).
-/

namespace Sa.C67

open Sa.C20 (HasBuffer)

/-- AES-ECB decryption of `data` is `expected`: every block of 16 bytes decrypts to the block at the same place. -/
def Decrypts (p : Prims) (key data expected : Bytes) : Prop :=
  data.length = expected.length ∧ ∀ i, 16 * i < data.length → p.aesDec key ((data.drop (16 * i)).take 16) = (expected.drop (16 * i)).take 16

/-- The `n` bytes that the buffer names start at address `a`: a clear buffer (type 0) holds address, length, offset; an SVP buffer (type 1) holds a handle and an offset. -/
def Region (sv : SvpStore) (b : CheckBuffer) (n : Nat) (u : Uuid) (a : Nat) : Prop :=
  (b.type = 0 ∧ b.w0 ≠ 0 ∧ b.w2.toNat + n ≤ b.w1.toNat ∧ b.w0.toNat + b.w1.toNat < 2 ^ 64 ∧ a = b.w0.toNat + b.w2.toNat) ∨
  (b.type = 1 ∧ ∃ r, HasBuffer sv b.w0.toNat u r ∧ b.w1.toNat + n ≤ r.size.toNat ∧ a = r.svpMemory.toNat + b.w1.toNat)

/-- The caller may use the AES key `k` behind the handle for decrypting; flag 4 is "decrypt". -/
structure MayDecrypt (env : Env) (ks : KeyStore) (key : Nat) (caller : Uuid) (k : StoredKey) : Prop where
  held : KeyHeld env.prims ks key caller k
  usable : useResult env k caller = (.OK, some k)
  right : Flag k.header.rights.usageFlags 4
  aes : k.header.type.toNat = 0 ∧ (k.header.size.toNat = 16 ∨ k.header.size.toNat = 32)

/-- Data from clear memory only if the key does not require secure memory (flag 12), data from secure memory only for TAs. -/
def MayRead (e : CheckEnv) (b : CheckBuffer) (caller : Uuid) (k : StoredKey) : Prop :=
  (b.type = 0 → Flag k.header.rights.usageFlags 12) ∧ (b.type = 1 → caller ≠ e.ree)

/-- The rest of the environment works. -/
def Works (e : CheckEnv) (k : StoredKey) : Prop := e.allocOk = true ∧ e.ok = true ∧ (k.key.length = 16 ∨ k.key.length = 32)

theorem useResult_ok {env : Env} {k k' : StoredKey} {u : Uuid} (h : useResult env k u = (.OK, some k')) :
    rightsAllowedTime k.header.rights env.rights.time = true ∧ validateVideoOutputState env.rights k.header.rights = true := by
  unfold useResult at h
  split at h
  · rename_i hc
    refine ⟨hc.2.1, ?_⟩
    unfold validateVideoOutputState
    cases hv : env.rights.video with
    | none => rw [hv] at hc; simp at hc
    | some v => rw [hv] at hc; simpa using hc.2.2
  · simp at h

/-- The checks of the key, for any type of buffer. -/
theorem gate_iff (env : Env) (e : CheckEnv) (t : Nat) (u : Uuid) (k k' : StoredKey) (hu : useResult env k u = (.OK, some k')) :
    keyCheckGate env e t u k.header = .OK ↔ Flag k.header.rights.usageFlags 4 ∧ (t = 0 → Flag k.header.rights.usageFlags 12) ∧ (t = 1 → u ≠ e.ree) ∧
      k.header.type.toNat = 0 ∧ (k.header.size.toNat = 16 ∨ k.header.size.toNat = 32) := by
  obtain ⟨ht, hv⟩ := useResult_ok hu
  have hd : rightsAllowedDecrypt env.rights k.header.rights (k.header.type.toNat == KEY_TYPE_SYMMETRIC) = true ↔ Flag k.header.rights.usageFlags 4 := by
    rw [← bitTest_iff _ _ (by decide)]
    unfold rightsAllowedDecrypt
    rw [ht, hv]
    cases h : bitTest k.header.rights.usageFlags FLAG_DECRYPT <;> simp_all [FLAG_DECRYPT]
  have hc : rightsAllowedClear k.header.rights = true ↔ Flag k.header.rights.usageFlags 12 := by
    rw [← bitTest_iff _ _ (by decide)]
    unfold rightsAllowedClear
    cases h : bitTest k.header.rights.usageFlags FLAG_SVP_OPTIONAL <;> simp_all [FLAG_SVP_OPTIONAL]
  have hr : e.isRee u = true ↔ u = e.ree := uuidMatches_iff _ _
  have ha : keyTypeSupportsAes k.header.type.toNat k.header.size.toNat = true ↔ k.header.type.toNat = 0 ∧ (k.header.size.toNat = 16 ∨ k.header.size.toNat = 32) := by
    unfold keyTypeSupportsAes validAesSize KEY_TYPE_SYMMETRIC
    simp
  unfold keyCheckGate BUFFER_TYPE_CLEAR BUFFER_TYPE_SVP
  rw [← hd, ← hc, ← ha]
  generalize rightsAllowedDecrypt env.rights k.header.rights (k.header.type.toNat == KEY_TYPE_SYMMETRIC) = x1
  generalize rightsAllowedClear k.header.rights = x2
  generalize keyTypeSupportsAes k.header.type.toNat k.header.size.toNat = x4
  have hr' : u ≠ e.ree ↔ e.isRee u = false := by rw [ne_eq, ← hr]; simp
  rw [hr']
  generalize e.isRee u = x3
  cases x1 <;> cases x2 <;> cases x3 <;> cases x4 <;> by_cases h0 : t = 0 <;> by_cases h1 : t = 1 <;> simp [h0, h1] <;> omega

theorem gate_status (env : Env) (e : CheckEnv) (t : Nat) (u : Uuid) (h : Header) : keyCheckGate env e t u h ≠ .VERIFICATION_FAILED := by
  unfold keyCheckGate
  repeat' (first | split | simp)

/-- `svp_key_check` compares the decrypted bytes. -/
theorem svpKeyCheck_spec (p : Prims) (hp : p.Good) (e : CheckEnv) (a n : Nat) (x : Bytes) (k : StoredKey) (ha : a ≠ 0) (hn : n % 16 = 0) (hb : n < 2 ^ 31) (hx : x.length = n) :
    ∃ b, svpKeyCheck p e a n x k.key = some b ∧ (b = true ↔ Works e k ∧ Decrypts p k.key (memRead e.mem a n) x) := by
  unfold svpKeyCheck
  rw [if_neg ha]
  cases h1 : e.allocOk with
  | false => exact ⟨false, by simp, by simp [Works, h1]⟩
  | true =>
  simp only [Bool.not_true, Bool.false_eq_true, if_false]
  by_cases h2 : k.key.length ≠ 16 ∧ k.key.length ≠ 32
  · rw [if_pos h2]
    exact ⟨false, rfl, by simp [Works]; omega⟩
  rw [if_neg h2, if_neg (by omega)]
  cases h3 : e.ok with
  | false => exact ⟨false, by simp, by simp [Works, h3]⟩
  | true =>
  simp only [Bool.not_true, Bool.false_eq_true, if_false]
  rw [if_neg (by omega)]
  have hl := memRead_length e.mem a n
  have hdl := ecbDec_len (p.aesDec k.key) (hp.decLen k.key) (n / 16) (memRead e.mem a n) (by omega)
  obtain ⟨r, hr1, hr2⟩ := memcmp_eq (ecbDec (p.aesDec k.key) (n / 16) (memRead e.mem a n)) x n (by omega) hx
  rw [hr1]
  refine ⟨r == 0, rfl, ?_⟩
  rw [beq_iff_eq, hr2, ecbDec_eq _ (hp.decLen k.key) _ _ _ (by omega) (by omega)]
  unfold Works Decrypts
  have h16 : 16 * (n / 16) = n := by omega
  rw [h16, hl, hx]
  constructor
  · intro h; exact ⟨⟨h1, h3, by omega⟩, rfl, h⟩
  · rintro ⟨_, _, h⟩; exact h

/-- Where the data of a buffer of one of the two types are. -/
theorem convert_region (sv : SvpStore) (inv : SvpInv sv) (b : CheckBuffer) (n : UInt64) (u : Uuid) (ht : b.type = 0 ∨ b.type = 1) :
    ((convertBuffer sv b.view n u).status = .OK → ∃ a, (convertBuffer sv b.view n u).bytes = some a ∧ a ≠ 0 ∧ Region sv b n.toNat u a.toNat) ∧
    ((convertBuffer sv b.view n u).status ≠ .OK → ∀ a, ¬ Region sv b n.toNat u a) := by
  unfold CheckBuffer.view BUFFER_TYPE_SVP
  rcases ht with ht | ht
  · rw [if_neg (by omega)]
    obtain ⟨h1, h2, _, _⟩ := C20.C20_clear sv b.w0 b.w1 b.w2 n u
    constructor
    · intro h
      obtain ⟨a, ha, he, _, _⟩ := h2 h
      obtain ⟨g1, g2, g3⟩ := h1.1 h
      have g1' : b.w0.toNat ≠ 0 := fun h' => g1 (UInt64.toNat_inj.1 h')
      exact ⟨a, ha, fun h' => by rw [h'] at he; simp at he; omega, Or.inl ⟨ht, g1, g2, g3, he⟩⟩
    · intro h a hr
      rcases hr with ⟨_, g1, g2, g3, _⟩ | ⟨g, _⟩
      · exact h (h1.2 ⟨g1, g2, g3⟩)
      · omega
  · rw [if_pos ht]
    obtain ⟨h1, h2⟩ := C20.svp_inv sv inv b.w0.toNat b.w1 n u
    constructor
    · intro h
      obtain ⟨r, a, hb, ha, he, _, _⟩ := h2 h
      obtain ⟨r', hb', hle⟩ := h1.1 h
      have heq : r' = r := by
        have g1 := hb.2.1
        rw [hb'.2.1] at g1
        simpa using g1
      rw [heq] at hle
      obtain ⟨v1, _⟩ := inv.valid _ _ r hb.2.1 rfl
      have v1' : r.svpMemory.toNat ≠ 0 := fun h' => v1 (UInt64.toNat_inj.1 h')
      exact ⟨a, ha, fun h' => by rw [h'] at he; simp at he; omega, Or.inr ⟨ht, r, hb, hle, he⟩⟩
    · intro h a hr
      rcases hr with ⟨g, _⟩ | ⟨_, r, hb, hle, _⟩
      · omega
      · exact h (h1.2 ⟨r, hb, hle⟩)

theorem region_unique {sv : SvpStore} {b : CheckBuffer} {n : Nat} {u : Uuid} {a a' : Nat} (h : Region sv b n u a) (h' : Region sv b n u a') : a = a' := by
  rcases h with ⟨t, _, _, _, e⟩ | ⟨t, r, hb, _, e⟩ <;> rcases h' with ⟨t', _, _, _, e'⟩ | ⟨t', r', hb', _, e'⟩
  · omega
  · omega
  · omega
  · have := hb.2.1
    rw [hb'.2.1] at this
    have hrr : r' = r := by simpa using this
    rw [e, e', hrr]

/-- The conditions that do not concern the decrypted value. -/
structure Entitled (env : Env) (e : CheckEnv) (ks : KeyStore) (sv : SvpStore) (key : Nat) (b : CheckBuffer) (n : Nat) (x : Bytes) (caller : Uuid) (k : StoredKey) (a : Nat) : Prop where
  may : MayDecrypt env ks key caller k
  read : MayRead e b caller k
  region : Region sv b n caller a
  blocks : n % 16 = 0
  length : x.length = n

/-- Either the call fails whatever the memory holds, or the caller is entitled and the answer is the comparison. -/
theorem cases_of (env : Env) (hp : env.prims.Good) (e : CheckEnv) (ks : KeyStore) (hks : KsReachable env.prims ks) (sv : SvpStore) (hsv : SvpReachable sv) (key : Nat)
    (input : Option CheckBuffer) (ht : ∀ b, input = some b → b.type = 0 ∨ b.type = 1) (bytes : UInt64) (hb : bytes.toNat < 2 ^ 31) (expected : Option Bytes) (caller : Uuid) :
    (∃ s, s ≠ .OK ∧ s ≠ .VERIFICATION_FAILED ∧ (∀ m, taSvpKeyCheck env { e with mem := m } ks sv key input bytes expected caller = some (ks, sv, s)) ∧
      ∀ b x k a, input = some b → expected = some x → ¬ Entitled env e ks sv key b bytes.toNat x caller k a) ∨
    (∃ b x k a, input = some b ∧ expected = some x ∧ Entitled env e ks sv key b bytes.toNat x caller k a ∧
      ∀ m, ∃ r : Bool, taSvpKeyCheck env { e with mem := m } ks sv key input bytes expected caller = some (ks, sv, if r then .OK else .VERIFICATION_FAILED) ∧
        (r = true ↔ Works e k ∧ Decrypts env.prims k.key (memRead m a bytes.toNat) x)) := by
  have inv := ksReachable_inv _ hp ks hks
  have sinv := svpReachable_inv sv hsv
  unfold taSvpKeyCheck
  cases input with
  | none => exact Or.inl ⟨.NULL_PARAMETER, by simp, by simp, fun _ => rfl, fun b x k a h => by simp at h⟩
  | some b =>
  simp only
  by_cases hm : bytes.toNat % 16 ≠ 0
  · left
    refine ⟨.INVALID_PARAMETER, by simp, by simp, fun _ => by rw [if_pos hm], ?_⟩
    intro b' x k a hb' _ h
    exact hm h.blocks
  simp only [if_neg hm]
  cases expected with
  | none => exact Or.inl ⟨.NULL_PARAMETER, by simp, by simp, fun _ => rfl, fun b x k a _ h => by simp at h⟩
  | some x =>
  simp only
  by_cases hx : x.length ≠ bytes.toNat
  · left
    refine ⟨.INVALID_PARAMETER, by simp, by simp, fun _ => by rw [if_pos hx], ?_⟩
    intro b' x' k a _ hx' h
    simp only [Option.some.injEq] at hx'
    exact hx (by rw [hx']; exact h.length)
  simp only [if_neg hx]
  rcases unwrap_holds env hp ks inv key caller with ⟨s, hs, he⟩ | ⟨k, he, hh, _, _⟩
  · left
    have hv := unwrap_status env ks key caller _ _ _ he
    rw [he]
    refine ⟨s, hs, hv, fun _ => by cases s <;> first | exact absurd rfl hs | rfl, ?_⟩
    intro b' x' k a _ _ h
    have := h.may.held.2 env rfl
    rw [he, h.may.usable] at this
    simp at this
  rw [he]
  simp only
  have hu : useResult env k caller = (.OK, some k) := by
    have := hh.2 env rfl
    rw [he] at this
    simp only [Option.some.injEq, Prod.mk.injEq, true_and] at this
    exact this.symm
  have hk' : ∀ k', MayDecrypt env ks key caller k' → k' = k := by
    intro k' h
    have h1 := h.held.2 env rfl
    rw [he, h.usable] at h1
    simp at h1
    exact h1.symm
  have hgm : ∀ m, keyCheckGate env { e with mem := m } b.type caller k.header = keyCheckGate env e b.type caller k.header := fun _ => rfl
  simp only [hgm]
  have hg := gate_iff env e b.type caller k k hu
  by_cases hgo : keyCheckGate env e b.type caller k.header ≠ .OK
  · left
    refine ⟨_, hgo, gate_status _ _ _ _ _, fun _ => by rw [if_pos hgo], ?_⟩
    intro b' x' k' a hb' _ h
    simp only [Option.some.injEq] at hb'
    subst hb'
    have := hk' k' h.may
    subst this
    exact hgo (hg.2 ⟨h.may.right, h.read.1, h.read.2, h.may.aes⟩)
  simp only [if_neg hgo]
  obtain ⟨g1, g2, g3, g4⟩ := hg.1 (Classical.byContradiction hgo)
  unfold keyCheckBody
  simp only
  rw [convert_give sv sinv b bytes caller]
  obtain ⟨c1, c2⟩ := convert_region sv sinv b bytes caller (ht b rfl)
  by_cases hc : (convertBuffer sv b.view bytes caller).status ≠ .OK
  · left
    refine ⟨_, hc, convert_status _ _ _ _, fun _ => by rw [if_pos hc]; rfl, ?_⟩
    intro b' x' k' a hb' _ h
    simp only [Option.some.injEq] at hb'
    subst hb'
    exact c2 hc a h.region
  · simp only [if_neg hc]
    obtain ⟨a, ha, ha0, hreg⟩ := c1 (Classical.byContradiction hc)
    rw [ha]
    right
    refine ⟨b, x, k, a.toNat, rfl, rfl, ⟨⟨hh, hu, g1, g4⟩, ⟨g2, g3⟩, hreg, by omega, by omega⟩, fun m => ?_⟩
    obtain ⟨r, h1, h2⟩ := svpKeyCheck_spec env.prims hp { e with mem := m } a.toNat bytes.toNat x k (fun h => ha0 (UInt64.toNat_inj.1 h)) (by omega) hb (by omega)
    simp only [Option.getD_some]
    rw [h1]
    exact ⟨r, rfl, h2⟩

/-- **C67 (partial).**  For every state of the key table and of the SVP table and every call with a buffer of one of the two types: the tables stay as they are; the call succeeds
exactly if the caller may use the key for decryption and the data from that kind of memory, the data lie in the caller's buffer, there are as many expected bytes as data,
a multiple of 16, and every block of data decrypts to the expected block (and allocation and OpenSSL work); and the answer "wrong value" is given only to those entitled.
Missing for the full property: other types of buffers (`C67_violated`); calls with 2 GiB of data or more are not covered. -/
theorem C67_partial (env : Env) (hp : env.prims.Good) (e : CheckEnv) (ks : KeyStore) (hks : KsReachable env.prims ks) (sv : SvpStore) (hsv : SvpReachable sv) (key : Nat)
    (input : Option CheckBuffer) (ht : ∀ b, input = some b → b.type = 0 ∨ b.type = 1) (bytes : UInt64) (hb : bytes.toNat < 2 ^ 31) (expected : Option Bytes) (caller : Uuid) :
    ∃ s, taSvpKeyCheck env e ks sv key input bytes expected caller = some (ks, sv, s) ∧
      (s = .OK ↔ ∃ b x k a, input = some b ∧ expected = some x ∧ Entitled env e ks sv key b bytes.toNat x caller k a ∧ Works e k ∧
        Decrypts env.prims k.key (memRead e.mem a bytes.toNat) x) ∧
      (s = .VERIFICATION_FAILED → ∃ b x k a, input = some b ∧ expected = some x ∧ Entitled env e ks sv key b bytes.toNat x caller k a) := by
  rcases cases_of env hp e ks hks sv hsv key input ht bytes hb expected caller with ⟨s, h1, h2, h3, h4⟩ | ⟨b, x, k, a, h1, h2, h3, h4⟩
  · refine ⟨s, h3 e.mem, ⟨fun h => absurd h h1, ?_⟩, fun h => absurd h h2⟩
    rintro ⟨b, x, k, a, hb, hx, h, _⟩
    exact absurd h (h4 b x k a hb hx)
  · obtain ⟨r, h5, h6⟩ := h4 e.mem
    refine ⟨_, h5, ?_, fun _ => ⟨b, x, k, a, h1, h2, h3⟩⟩
    have hr : (if r = true then Status.OK else Status.VERIFICATION_FAILED) = .OK ↔ r = true := by cases r <;> simp
    rw [hr, h6]
    constructor
    · exact fun h => ⟨b, x, k, a, h1, h2, h3, h⟩
    · rintro ⟨b', x', k', a', hb', hx', h, h'⟩
      rw [h1] at hb'; rw [h2] at hx'
      simp only [Option.some.injEq] at hb' hx'
      subst hb' hx'
      have hka : k' = k := h3.may.held.unique _ _ _ _ _ _ env rfl (by rw [h.may.held.2 env rfl, h.may.usable])
      subst hka
      rw [region_unique h3.region h.region]
      exact h'

/-- **C67, what is read.**  The outcome depends on the memory only through the data, and only for those entitled: two memories that agree on the bytes that an entitled caller
names give the same outcome. -/
theorem C67_reads (env : Env) (hp : env.prims.Good) (e : CheckEnv) (m : Mem) (ks : KeyStore) (hks : KsReachable env.prims ks) (sv : SvpStore) (hsv : SvpReachable sv) (key : Nat)
    (input : Option CheckBuffer) (ht : ∀ b, input = some b → b.type = 0 ∨ b.type = 1) (bytes : UInt64) (hb : bytes.toNat < 2 ^ 31) (expected : Option Bytes) (caller : Uuid)
    (hm : ∀ b x k a, input = some b → expected = some x → Entitled env e ks sv key b bytes.toNat x caller k a → ∀ i, i < bytes.toNat → e.mem (a + i) = m (a + i)) :
    taSvpKeyCheck env e ks sv key input bytes expected caller = taSvpKeyCheck env { e with mem := m } ks sv key input bytes expected caller := by
  rcases cases_of env hp e ks hks sv hsv key input ht bytes hb expected caller with ⟨s, h1, h2, h3, h4⟩ | ⟨b, x, k, a, h1, h2, h3, h4⟩
  · rw [h3 m]; exact h3 e.mem
  · obtain ⟨r, h5, h6⟩ := h4 e.mem
    obtain ⟨r', h5', h6'⟩ := h4 m
    have heq : memRead e.mem a bytes.toNat = memRead m a bytes.toNat := by
      unfold memRead
      apply List.map_congr_left
      intro i hi
      exact hm b x k a h1 h2 h3 i (List.mem_range.1 hi)
    have hrr : r = r' := by
      rw [heq] at h6
      have := h6.trans h6'.symm
      cases r <;> cases r' <;> simp_all
    rw [h5', ← hrr]
    exact h5

/-- **C67 is violated.**  The handler makes the buffer from a command with a type that does not exist: the caller's eight bytes at `param` are the number `a`.  Whoever may use an AES
key for decryption — also the REE, also if the key does not allow data in clear memory — is told whether the bytes of the TA's memory at `a + stack` decrypt to the expected value;
no buffer of the caller is involved.  (`stack` is what the uninitialised third word holds; `inOffset` is chosen by the caller.) -/
theorem C67_violated (env : Env) (hp : env.prims.Good) (e : CheckEnv) (ks : KeyStore) (sv : SvpStore) (hsv : SvpReachable sv) (key : Nat)
    (caller : Uuid) (k : StoredKey) (hk : MayDecrypt env ks key caller k) (hw : Works e k) (t : Nat) (ht : 2 ≤ t) (param inOffset stack bytes : UInt64) (x : Bytes)
    (ha : load64 e.mem param.toNat ≠ 0) (hi : stack.toNat + bytes.toNat ≤ inOffset.toNat) (ho : (load64 e.mem param.toNat).toNat + inOffset.toNat < 2 ^ 64)
    (h16 : bytes.toNat % 16 = 0) (hb : bytes.toNat < 2 ^ 31) (hx : x.length = bytes.toNat) :
    ∃ r : Bool, taSvpKeyCheck env e ks sv key (some (keyCheckBuffer e.mem t param 8 inOffset stack)) bytes (some x) caller =
        some (ks, sv, if r then .OK else .VERIFICATION_FAILED) ∧
      (r = true ↔ Decrypts env.prims k.key (memRead e.mem ((load64 e.mem param.toNat).toNat + stack.toNat) bytes.toNat) x) := by
  have sinv := svpReachable_inv sv hsv
  have hbuf : keyCheckBuffer e.mem t param 8 inOffset stack = ⟨t, load64 e.mem param.toNat, inOffset, stack⟩ := by
    unfold keyCheckBuffer BUFFER_TYPE_CLEAR
    rw [if_neg (by omega)]
  rw [hbuf]
  unfold taSvpKeyCheck
  simp only
  rw [if_neg (by omega), if_neg (by omega), hk.held.2 env rfl, hk.usable]
  simp only
  have hg := (gate_iff env e t caller k k hk.usable).2 ⟨hk.right, by omega, by omega, hk.aes⟩
  rw [if_neg (by simp [hg])]
  unfold keyCheckBody
  simp only
  have hgive := convert_give sv sinv ⟨t, load64 e.mem param.toNat, inOffset, stack⟩ bytes caller
  simp only at hgive
  rw [hgive]
  have hv : CheckBuffer.view ⟨t, load64 e.mem param.toNat, inOffset, stack⟩ = .clear (load64 e.mem param.toNat) inOffset stack := by
    unfold CheckBuffer.view BUFFER_TYPE_SVP
    simp only
    rw [if_neg (by omega)]
  rw [hv]
  obtain ⟨h1, h2, _, _⟩ := C20.C20_clear sv (load64 e.mem param.toNat) inOffset stack bytes caller
  have hok := h1.2 ⟨ha, hi, ho⟩
  rw [if_neg (by simp [hok])]
  obtain ⟨a, ha', hae, _, _⟩ := h2 hok
  rw [ha']
  have ha0 : (load64 e.mem param.toNat).toNat ≠ 0 := fun h => ha (UInt64.toNat_inj.1 h)
  obtain ⟨r, g1, g2⟩ := svpKeyCheck_spec env.prims hp e a.toNat bytes.toNat x k (by omega) h16 hb hx
  simp only [Option.getD_some]
  rw [g1]
  refine ⟨r, rfl, ?_⟩
  rw [g2, hae]
  exact ⟨fun h => h.2, fun h => ⟨hw, h⟩⟩

/-- **C67 is violated, second case.**  If memory cannot be allocated, an entitled caller is told that the value is wrong, whatever it is. -/
theorem C67_violated_failure (env : Env) (hp : env.prims.Good) (e : CheckEnv) (ks : KeyStore) (hks : KsReachable env.prims ks) (sv : SvpStore) (hsv : SvpReachable sv) (key : Nat)
    (b : CheckBuffer) (ht : b.type = 0 ∨ b.type = 1) (bytes : UInt64) (hb : bytes.toNat < 2 ^ 31) (x : Bytes) (caller : Uuid) (k : StoredKey) (a : Nat)
    (h : Entitled env e ks sv key b bytes.toNat x caller k a) (hf : e.allocOk = false) :
    taSvpKeyCheck env e ks sv key (some b) bytes (some x) caller = some (ks, sv, .VERIFICATION_FAILED) := by
  rcases cases_of env hp e ks hks sv hsv key (some b) (by rintro _ ⟨⟩; exact ht) bytes hb (some x) caller with ⟨s, _, _, _, h4⟩ | ⟨b', x', k', a', _, _, _, h4⟩
  · exact absurd h (h4 b x k a rfl rfl)
  · obtain ⟨r, h5, h6⟩ := h4 e.mem
    have hr : r = false := by
      cases r with
      | false => rfl
      | true => have := (h6.1 rfl).1.1; rw [hf] at this; exact absurd this (by simp)
    rw [hr] at h5
    exact h5

/-! ## Concrete cases -/

/-- Only "decrypt" and protected outputs: not usable with clear memory. -/
def svpOnly : Rights := { rightsAllowAll with usageFlags := 0xfd0 }

/-- Two AES keys of the application `u7`: handle 31 with all rights, handle 30 with `svpOnly`. -/
def stD : Option KeyStore := (objectStoreInit WrappedKey 32).bind fun st => ksAfter C08.toy st
  [C29.mkParent 16, .create C08.env0 svpOnly none 0 (Vector.replicate 1040 0) 16 (List.replicate 16 9) C08.u7]

theorem stD_reachable : ∀ st, stD = some st → KsReachable C08.toy st := by
  intro st h
  unfold stD at h
  cases h0 : objectStoreInit WrappedKey 32 with
  | none => rw [h0] at h; simp at h
  | some s0 =>
    rw [h0] at h
    exact ⟨32, s0, _, by decide, h0, by simp [C29.mkParent, KsOp.Fits], h⟩

/-- Key `h` is a decryption key of 16 bytes `c`; with flag 12 or not. -/
theorem stD_key (h : Nat) (c : UInt8) (clear : Bool)
    (hc : (stD.bind fun st => keyStoreUnwrap C08.env0 st h C08.u7).any (fun r => r.2.1 == .OK && r.2.2.any fun k =>
        decide (Flag k.header.rights.usageFlags 4) && (decide (Flag k.header.rights.usageFlags 12) == clear) && k.header.type.toNat == 0 && k.key == List.replicate 16 c &&
          k.header.size.toNat == 16) = true) :
    ∃ st k, stD = some st ∧ MayDecrypt C08.env0 st h C08.u7 k ∧ k.key = List.replicate 16 c ∧ (Flag k.header.rights.usageFlags 12 ↔ clear = true) := by
  cases hs : stD with
  | none => rw [hs] at hc; simp at hc
  | some st =>
    rw [hs] at hc
    have hr : KsReachable C08.env0.prims st := stD_reachable st hs
    rcases unwrap_holds C08.env0 C08.toy_good st (ksReachable_inv _ C08.toy_good st hr) h C08.u7 with ⟨s, hs, he⟩ | ⟨k, he, hh, _⟩
    · simp [he] at hc
    · simp only [Option.bind_some, he, Option.any_some, Bool.and_eq_true, beq_iff_eq, decide_eq_true_eq] at hc
      obtain ⟨_, ⟨⟨⟨⟨a, b⟩, c⟩, d⟩, f⟩⟩ := hc
      have hu := hh.2 C08.env0 rfl
      rw [he] at hu
      simp only [Option.some.injEq, Prod.mk.injEq, true_and] at hu
      refine ⟨st, k, rfl, ⟨hh, hu.symm, a, c, Or.inl f⟩, d, ?_⟩
      rw [← b]; simp

/-- The memory: address 4096 is stored at 512, the bytes at 4096 are what an attacker wants to know. -/
def mem : Mem := fun a => if a = 513 then 16 else if 4096 ≤ a then 77 else 0

def cenv : CheckEnv := { mem := mem, allocOk := true, ok := true, hash := fun _ m => m, ree := C08.u7 }

/-- The data decrypt to this. -/
def clearText : Bytes := C08.toy.aesDec (List.replicate 16 5) (List.replicate 16 77)

def secretText : Bytes := C08.toy.aesDec (List.replicate 16 9) (List.replicate 16 77)

theorem decrypts_block (c : UInt8) (a : Nat) (ha : 4096 ≤ a) : Decrypts C08.toy (List.replicate 16 c) (memRead mem a 16) (C08.toy.aesDec (List.replicate 16 c) (List.replicate 16 77)) := by
  have hm : memRead mem a 16 = List.replicate 16 77 := by
    unfold memRead
    rw [List.eq_replicate_iff]
    refine ⟨by simp, fun b hb => ?_⟩
    simp only [List.mem_map, List.mem_range] at hb
    obtain ⟨i, _, rfl⟩ := hb
    unfold mem
    rw [if_neg (by omega), if_pos (by omega)]
  rw [hm]
  have hl : (C08.toy.aesDec (List.replicate 16 c) (List.replicate 16 77)).length = 16 := C08.toy_good.decLen _ _ (by simp)
  refine ⟨by rw [hl]; rfl, fun i hi => ?_⟩
  have : i = 0 := by simp at hi; omega
  subst this
  simp only [Nat.mul_zero, List.drop_zero]
  rw [List.take_of_length_le (by simp), List.take_of_length_le (by omega)]

/-- A check of clear data with key 31 is answered: the conditions of `C67_partial` can be met. -/
example (sv : SvpStore) (hsv : SvpReachable sv) : ∃ st, stD = some st ∧
    taSvpKeyCheck C08.env0 cenv st sv 31 (some ⟨0, 5000, 32, 8⟩) 16 (some clearText) C08.u7 = some (st, sv, .OK) := by
  obtain ⟨st, k, hs, hk, hkey, hc⟩ := stD_key 31 5 true (by decide +kernel)
  refine ⟨st, hs, ?_⟩
  obtain ⟨s, h1, h2, _⟩ := C67_partial C08.env0 C08.toy_good cenv st (stD_reachable st hs) sv hsv 31 (some ⟨0, 5000, 32, 8⟩) (by rintro _ ⟨⟩; exact Or.inl rfl) 16 (by decide)
    (some clearText) C08.u7
  have hd := decrypts_block 5 5008 (by omega)
  have : s = .OK := h2.2 ⟨⟨0, 5000, 32, 8⟩, clearText, k, 5008, rfl, rfl,
    ⟨hk, ⟨fun _ => hc.2 rfl, fun h => by simp at h⟩, Or.inl ⟨rfl, by decide, by decide, by decide, by decide⟩, by decide, by unfold clearText; rw [C08.toy_good.decLen _ _ (by simp)]; rfl⟩,
    ⟨rfl, rfl, Or.inl (by rw [hkey]; rfl)⟩, by rw [hkey]; exact hd⟩
  rw [h1, this]

/-- Key 30 may not be used with clear memory, and the REE may not use secure memory; with buffer type 2 the REE is told that the memory at 4096 + 64 decrypts to the value. -/
example (sv : SvpStore) (hsv : SvpReachable sv) : ∃ st, stD = some st ∧
    taSvpKeyCheck C08.env0 cenv st sv 30 (some (keyCheckBuffer mem 2 512 8 1000000 64)) 16 (some secretText) C08.u7 = some (st, sv, .OK) := by
  obtain ⟨st, k, hs, hk, hkey, hc⟩ := stD_key 30 9 false (by decide +kernel)
  refine ⟨st, hs, ?_⟩
  have hl : load64 mem (512 : UInt64).toNat = 4096 := by decide +kernel
  obtain ⟨r, h1, h2⟩ := C67_violated C08.env0 C08.toy_good cenv st sv hsv 30 C08.u7 k hk ⟨rfl, rfl, Or.inl (by rw [hkey]; rfl)⟩ 2 (by omega) 512 1000000 64 16 secretText
    (by show load64 mem _ ≠ 0; rw [hl]; decide) (by decide) (by show (load64 mem _).toNat + _ < _; rw [hl]; decide) (by decide) (by decide)
    (by unfold secretText; rw [C08.toy_good.decLen _ _ (by simp)]; rfl)
  have hr : r = true := h2.2 (by rw [hkey]; show Decrypts _ _ (memRead mem ((load64 mem _).toNat + _) _) _; rw [hl]; exact decrypts_block 9 4160 (by omega))
  rw [hr] at h1
  exact h1

end Sa.C67

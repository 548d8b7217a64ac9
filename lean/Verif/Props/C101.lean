import Verif.Model.Agree
import Verif.Lemmas.WithKey
import Verif.Props.C45
import Verif.Props.C52
import Verif.Props.C69

/-!
# C101: two sides that exchange their public keys get the same secret

Both sides generate a key pair, get its public key, exchange with the public key of the other side and use the new key.  Before, between and after these calls each side may do
anything else with its key table, except releasing the keys.
-/

namespace Sa.Agree.C101

open Sa Sa.Agree

/-- A number of at most 4096 bits. -/
def Modest (n : Nat) : Prop := n < 256 ^ 512

/-- What is assumed of OpenSSL: encoded keys are decoded again, and multiplications with private numbers commute. -/
structure Good {π : Type} (l : Lib π) : Prop where
  dhPriv : ∀ p g x, Modest p → Modest g → Modest x → l.dhPriv (l.encDhPriv p g x) = some (p, g, x)
  ecPriv : ∀ c x, c < 256 → Modest x → l.ecPriv (l.encEcPriv c x) = some (c, x)
  dhPub : ∀ p g y, Modest p → Modest g → Modest y → l.pub (l.encPub (.dh p g y)) = some (.dh p g y)
  ecPub : ∀ c q, c < 256 → l.pub (l.encPub (.ec c q)) = some (.ec c q)
  comm : ∀ c x y, l.mul c x (l.mul c y (l.base c)) = l.mul c y (l.mul c x (l.base c))
  dhLen : ∀ p g x, Modest p → Modest g → Modest x → (l.encDhPriv p g x).length ≤ 2 ^ 32
  ecLen : ∀ c x, c < 256 → Modest x → (l.encEcPriv c x).length ≤ 2 ^ 32
  dhSize : ∀ k p g x, l.dhPriv k = some (p, g, x) → Modest p
  ecSize : ∀ c q z, l.secret c q = some z → z.length ≤ 2 ^ 32

/-- The exchange that goes with a kind of key. -/
def exchange (env : Env) (a : AgreeEnv) (st : KeyStore) (rights : Rights) (key : Nat) (other : Bytes) (caller : Uuid) : GenParams → Option (KeyStore × Status × Nat)
  | .dh _ _ => exchangeDh env a st rights key other caller
  | .ec _ => exchangeEcdh env a st rights key other caller
  | _ => none

/-- Anything may be done with the table, except releasing the handle. -/
structure Meanwhile (p : Prims) (st st' : KeyStore) (handle : Nat) : Prop where
  done : ∃ ops : List KsOp, (∀ op ∈ ops, op.Fits) ∧ (∀ op ∈ ops, ∀ c, op ≠ .remove handle c) ∧ ksAfter p st ops = some st'

/-- One side: it generates a key with the private number `x` and gets its public key `mine`. -/
structure Half {π : Type} (l : Lib π) (params : GenParams) (x : Nat) (mine : Bytes) where
  prims : Prims
  good : prims.Good
  env : Nat → Env
  device : ∀ i, (env i).prims = prims
  caller : Uuid
  start : KeyStore
  reach : KsReachable prims start
  rights : Rights
  made : KeyStore
  handle : Nat
  generated : keyGenerate (env 0) (l.gen (some x)) start rights (some params) caller = some (made, .OK, handle)
  asked : KeyStore
  first : Meanwhile prims made asked handle
  buffer : Bytes
  told : KeyStore
  answer : Answer
  publicKey : taKeyGetPublic (env 1) l.der asked (some buffer) buffer.length handle caller = some (told, answer)
  fine : answer.status = .OK
  given : (answer.out.getD []).take answer.outLength = mine
  before : KeyStore
  second : Meanwhile prims told before handle

/-- Then it exchanges with `theirs` and uses the key made by it, which is `secret`. -/
structure Side {π : Type} (l : Lib π) (params : GenParams) (x : Nat) (mine theirs : Bytes) (secret : StoredKey) extends Half l params x mine where
  fail : Fail
  wanted : Rights
  after : KeyStore
  shared : Nat
  exchanged : exchange (env 2) (l.agree fail) before wanted handle theirs caller params = some (after, .OK, shared)
  later : KeyStore
  third : Meanwhile prims after later shared
  used : keyStoreUnwrap (env 3) later shared caller = some (later, .OK, some secret)

/-! ## Numbers -/

theorem foldl_number (b : Bytes) (n : Nat) : b.foldl (fun n c => n * 256 + c.toNat) n = n * 256 ^ b.length + number b := by
  induction b generalizing n with
  | nil => simp [number]
  | cons c b ih =>
    have e : number (c :: b) = (0 * 256 + c.toNat) * 256 ^ b.length + number b := by rw [← ih]; rfl
    rw [List.foldl_cons, ih, e, List.length_cons, Nat.pow_succ]
    rw [Nat.add_mul, Nat.mul_assoc, Nat.mul_comm 256, Nat.zero_mul, Nat.zero_add, Nat.add_assoc]

theorem number_cons (c : UInt8) (b : Bytes) : number (c :: b) = c.toNat * 256 ^ b.length + number b := by
  rw [number, List.foldl_cons, foldl_number]; simp

theorem number_append (a : Bytes) (c : UInt8) : number (a ++ [c]) = number a * 256 + c.toNat := by
  simp [number]

theorem number_lt (b : Bytes) : number b < 256 ^ b.length := by
  induction b with
  | nil => decide
  | cons c b ih =>
    rw [number_cons, List.length_cons, Nat.pow_succ]
    have := c.toNat_lt
    have h : c.toNat * 256 ^ b.length ≤ 255 * 256 ^ b.length := Nat.mul_le_mul_right _ (by omega)
    omega

theorem bytesOf_length (n v : Nat) : (bytesOf n v).length = n := by
  induction n generalizing v with
  | zero => rfl
  | succ n ih => rw [bytesOf, List.length_append, ih]; rfl

theorem number_bytesOf (n v : Nat) : number (bytesOf n v) = v % 256 ^ n := by
  induction n generalizing v with
  | zero => simp [bytesOf, number, Nat.mod_one]
  | succ n ih =>
    rw [bytesOf, number_append, ih, Nat.pow_succ, Nat.mul_comm (256 ^ n) 256, Nat.mod_mul]
    simp
    omega

theorem lt_numBytes (n : Nat) : n < 256 ^ numBytes n := by
  unfold numBytes
  by_cases h : n = 0
  · rw [if_pos h, h]; decide
  · rw [if_neg h]
    have h1 := Nat.lt_log2_self (n := n)
    have h2 : (256 : Nat) ^ (n.log2 / 8 + 1) = 2 ^ (8 * (n.log2 / 8 + 1)) := by rw [Nat.pow_mul]
    rw [h2]
    exact Nat.lt_of_lt_of_le h1 (Nat.pow_le_pow_right (by decide) (by omega))

theorem numBytes_le (n k : Nat) (h : n < 256 ^ k) : numBytes n ≤ k := by
  unfold numBytes
  by_cases h0 : n = 0
  · rw [if_pos h0]; omega
  · rw [if_neg h0]
    have h2 : (256 : Nat) ^ k = 2 ^ (8 * k) := by rw [Nat.pow_mul]
    rw [h2] at h
    have := (Nat.log2_lt h0).2 h
    omega

theorem modest_number (b : Bytes) (h : b.length ≤ 512) : Modest (number b) :=
  Nat.lt_of_lt_of_le (number_lt b) (Nat.pow_le_pow_right (by decide) h)

theorem modest_small (n : Nat) (h : n < 256) : Modest n := by
  unfold Modest
  have h1 : 256 ^ 1 ≤ 256 ^ 512 := Nat.pow_le_pow_right (by decide) (by decide)
  exact Nat.lt_of_lt_of_le h h1

theorem commutes (p g x y : Nat) : (g ^ x % p) ^ y % p = (g ^ y % p) ^ x % p := by
  rw [← Nat.pow_mod, ← Nat.pow_mod, ← Nat.pow_mul, ← Nat.pow_mul, Nat.mul_comm]

/-! ## The key table -/

theorem held_stays {p : Prims} (hp : p.Good) {st st' : KeyStore} (inv : KsInv p st) (inv' : KsInv p st') {h : Nat} {u : Uuid} {k : StoredKey} (hk : KeyHeld p st h u k)
    (ho : st'.obj h = st.obj h) : KeyHeld p st' h u k := by
  obtain ⟨w, k', h1, h2, h3, _, h5⟩ := ksHeader_ok p st inv h u st k.header hk.1
  have a := holds_of p hp st inv h u w k' h1 h2 h3
  have b := holds_of p hp st' inv' h u w k' (by rw [ho]; exact h1) (by rw [ho]; exact h2) h3
  refine ⟨by rw [h5]; exact b.1, fun env he => ?_⟩
  have e1 := a.2 env he
  rw [hk.2 env he] at e1
  rw [b.2 env he]
  simp only [Option.some.injEq, Prod.mk.injEq, true_and] at e1
  rw [← e1]

theorem reach_after {p : Prims} {st st' : KeyStore} (hr : KsReachable p st) {ops : List KsOp} (hf : ∀ op ∈ ops, op.Fits) (ha : ksAfter p st ops = some st') : KsReachable p st' := by
  obtain ⟨n, st0, ops0, h1, h2, h3, h4⟩ := hr
  refine ⟨n, st0, ops0 ++ ops, h1, h2, ?_, ?_⟩
  · intro op ho
    rcases List.mem_append.1 ho with h | h
    · exact h3 op h
    · exact hf op h
  · rw [ksAfter_append, h4]; exact ha

theorem meanwhile {p : Prims} (hp : p.Good) {st st' : KeyStore} (hr : KsReachable p st) {h : Nat} (hm : Meanwhile p st st' h) {u : Uuid} {k : StoredKey}
    (hk : KeyHeld p st h u k) : KsReachable p st' ∧ KeyHeld p st' h u k := by
  obtain ⟨ops, hf, hno, ha⟩ := hm.done
  have hr' := reach_after hr hf ha
  have inv := ksReachable_inv p hp st hr
  obtain ⟨w, _, h1, _⟩ := ksHeader_ok p st inv h u st k.header hk.1
  exact ⟨hr', held_stays hp inv (ksReachable_inv p hp st' hr') hk (ksAfter_stable p hp ops hf st inv h (by simp [h1]) hno st' ha)⟩

/-- What generation leaves. -/
theorem generated_key {env : Env} (hp : env.prims.Good) {g : GenEnv} {st : KeyStore} (hr : KsReachable env.prims st) {rights : Rights} {params : GenParams} {caller : Uuid}
    {st' : KeyStore} {h : Nat} (hg : ∀ d, generateKey (env.ok .storedKeyAlloc) g rights params = some (.OK, some d) → Created env d)
    (he : keyGenerate env g st rights (some params) caller = some (st', .OK, h)) :
    ∃ d, generateKey (env.ok .storedKeyAlloc) g rights params = some (.OK, some d) ∧ KsReachable env.prims st' ∧ NewKey env.prims st st' h caller d := by
  unfold keyGenerate at he
  simp only at he
  unfold importMade at he
  split at he
  · cases he
  · rename_i d hd
    obtain ⟨st1, s, h1, e1, e2, e3⟩ := import_created env hp st hr d caller (hg d hd)
    simp only [e1, Option.some.injEq, Prod.mk.injEq] at he
    obtain ⟨rfl, rfl, rfl⟩ := he
    rcases e3 with ⟨e3, _⟩ | ⟨_, e3⟩
    · exact absurd rfl e3
    · exact ⟨d, hd, e2, e3⟩
  · cases he
  · rename_i o h1 h2 _
    simp only [Option.some.injEq, Prod.mk.injEq] at he
    obtain ⟨_, rfl, _⟩ := he
    cases o with
    | none => exact (h2 rfl rfl).elim
    | some d => exact (h1 d rfl rfl).elim

/-- The bodies of the two exchanges make keys of a sane length. -/
theorem dh_body {π : Type} {l : Lib π} (hl : Good l) (f : Fail) (env : Env) (rights : Rights) (other : Bytes) (pk : StoredKey) :
    KeyFn env (fun sk =>
      if !rightsAllowedExchange env.rights sk.header.rights then some (.OPERATION_NOT_ALLOWED, none)
      else if !keyTypeSupportsDh sk.header.type.toNat sk.header.size.toNat then some (.INVALID_KEY_TYPE, none)
      else match dhComputeSharedSecret env (l.agree f) rights other sk with
        | (.OK, k) => some (.OK, k)
        | (_, _) => some (.INVALID_PARAMETER, none)) pk := by
  unfold KeyFn
  simp only
  split
  · exact ⟨_, _, rfl, fun _ _ h => by cases h⟩
  · split
    · exact ⟨_, _, rfl, fun _ _ h => by cases h⟩
    · split
      · rename_i k hk
        refine ⟨_, _, rfl, fun d _ hd => ?_⟩
        subst hd
        unfold dhComputeSharedSecret at hk
        split at hk
        · cases hk
        · cases hk
        · rename_i z hz
          refine ⟨_, _, _, _, _, _, ?_, hk⟩
          have : z.length ≤ 512 := by
            simp only [Lib.agree, dhAgree] at hz
            repeat' split at hz
            all_goals first | (cases hz; done) | skip
            injection hz with hz
            rw [← hz, bytesOf_length]
            exact numBytes_le _ _ (hl.dhSize _ _ _ _ (by assumption))
          omega
      · exact ⟨_, _, rfl, fun _ _ h => by cases h⟩

theorem dh_exchanged {π : Type} {l : Lib π} (hl : Good l) {f : Fail} {env : Env} (hp : env.prims.Good) {st : KeyStore} (hr : KsReachable env.prims st) {rights : Rights} {key : Nat}
    {other : Bytes} {caller : Uuid} {st' : KeyStore} {h : Nat} (he : exchangeDh env (l.agree f) st rights key other caller = some (st', .OK, h)) :
    ∃ k p g x y d, KeyHeld env.prims st key caller k ∧ useResult env k caller = (.OK, some k) ∧ l.dhPriv k.key = some (p, g, x) ∧ l.pub other = some (.dh p g y) ∧ 1 < y ∧ y < p - 1 ∧
      1 < y ^ x % p ∧ KsReachable env.prims st' ∧ NewKey env.prims st st' h caller d ∧ d.key = bytesOf (numBytes p) (y ^ x % p) ∧
      d.header.rights = restrictChildRights rights (some k.header.rights) := by
  obtain ⟨st1, s, h1, e, hr1, hc⟩ := withKey_cases env hp st hr key caller _ (dh_body hl f env rights other)
  replace e : some (st', Status.OK, h) = some (st1, s, h1) := he.symm.trans e
  simp only [Option.some.injEq, Prod.mk.injEq] at e
  obtain ⟨rfl, rfl, rfl⟩ := e
  rcases hc with ⟨hc, _⟩ | ⟨_, pk, d, h1, h2, h3, h4⟩
  · exact absurd rfl hc
  · split at h3
    · cases h3
    · split at h3
      · cases h3
      · split at h3
        · rename_i k hk
          simp only [Option.some.injEq, Prod.mk.injEq, true_and] at h3
          subst h3
          unfold dhComputeSharedSecret at hk
          split at hk
          · cases hk
          · cases hk
          · rename_i z hz
            obtain ⟨_, hri, _, _, _, hkey, _⟩ := storedKeyCreate_ok hk
            simp only [Lib.agree, dhAgree] at hz
            split at hz
            · cases hz
            · rename_i p g x hpr
              split at hz
              · cases hz
              · rename_i p' g' y hpub
                repeat' split at hz
                all_goals first | (cases hz; done) | skip
                injection hz with hz
                rename_i a b c
                have ea : p = p' ∧ g = g' := by
                  rename_i q _; exact Classical.byContradiction fun hn => q (by omega)
                obtain ⟨rfl, rfl⟩ := ea
                exact ⟨pk, p, g, x, y, d, h1, h2, hpr, hpub, by omega, by omega, by omega, hr1, h4, by rw [hkey, hz], hri⟩
              · cases hz
        · cases h3

theorem ec_body {π : Type} {l : Lib π} (hl : Good l) (f : Fail) (env : Env) (rights : Rights) (other : Bytes) (pk : StoredKey) :
    KeyFn env (fun sk =>
      if !rightsAllowedExchange env.rights sk.header.rights then some (.OPERATION_NOT_ALLOWED, none)
      else if !keyTypeSupportsEc sk.header.type.toNat (curveOf sk.header.typeParameters) sk.header.size.toNat then some (.INVALID_KEY_TYPE, none)
      else some (ecComputeSharedSecret env (l.agree f) rights other sk)) pk := by
  unfold KeyFn
  simp only
  split
  · exact ⟨_, _, rfl, fun _ _ h => by cases h⟩
  · split
    · exact ⟨_, _, rfl, fun _ _ h => by cases h⟩
    · refine ⟨_, _, rfl, fun d hs hd => ?_⟩
      have hk : ecComputeSharedSecret env (l.agree f) rights other pk = (.OK, some d) := Prod.ext hs hd
      unfold ecComputeSharedSecret at hk
      simp only at hk
      split at hk
      · cases hk
      · split at hk
        · cases hk
        · cases hk
        · rename_i z hz
          refine ⟨_, _, _, _, _, _, ?_, hk⟩
          have : z.length ≤ 2 ^ 32 := by
            simp only [Lib.agree, ecAgree] at hz
            repeat' split at hz
            all_goals first | (cases hz; done) | skip
            injection hz with hz
            rw [← hz]
            exact hl.ecSize _ _ _ (by assumption)
          omega

theorem ec_exchanged {π : Type} {l : Lib π} (hl : Good l) {f : Fail} {env : Env} (hp : env.prims.Good) {st : KeyStore} (hr : KsReachable env.prims st) {rights : Rights} {key : Nat}
    {other : Bytes} {caller : Uuid} {st' : KeyStore} {h : Nat} (he : exchangeEcdh env (l.agree f) st rights key other caller = some (st', .OK, h)) :
    ∃ k c x q d, KeyHeld env.prims st key caller k ∧ useResult env k caller = (.OK, some k) ∧ l.ecPriv k.key = some (c, x) ∧ l.pub other = some (.ec c q) ∧
      KsReachable env.prims st' ∧ NewKey env.prims st st' h caller d ∧ l.secret c (l.mul c x q) = some d.key ∧
      d.header.rights = restrictChildRights rights (some k.header.rights) := by
  obtain ⟨st1, s, h1, e, hr1, hc⟩ := withKey_cases env hp st hr key caller _ (ec_body hl f env rights other)
  replace e : some (st', Status.OK, h) = some (st1, s, h1) := he.symm.trans e
  simp only [Option.some.injEq, Prod.mk.injEq] at e
  obtain ⟨rfl, rfl, rfl⟩ := e
  rcases hc with ⟨hc, _⟩ | ⟨_, pk, d, h1, h2, h3, h4⟩
  · exact absurd rfl hc
  · split at h3
    · cases h3
    · split at h3
      · cases h3
      · simp only [Option.some.injEq] at h3
        unfold ecComputeSharedSecret at h3
        simp only at h3
        split at h3
        · cases h3
        · split at h3
          · cases h3
          · cases h3
          · rename_i z hz
            obtain ⟨_, hri, _, _, _, hkey, _⟩ := storedKeyCreate_ok h3
            simp only [Lib.agree, ecAgree] at hz
            split at hz
            · cases hz
            · rename_i c x hpr
              split at hz
              · cases hz
              · split at hz
                · cases hz
                · rename_i c' q hpub
                  repeat' split at hz
                  all_goals first | (cases hz; done) | skip
                  injection hz with hz
                  rename_i hsec
                  have ec : c = c' := Classical.byContradiction (by assumption)
                  subst ec
                  exact ⟨pk, c, x, q, d, h1, h2, hpr, hpub, hr1, h4, by rw [hkey, ← hz]; exact hsec, hri⟩
                · cases hz

/-- **C101, groups.**  An exchange that succeeds uses a private key of the caller and a public key of the same group: the same p and g, with a number between 2 and p - 2, or the same
curve. -/
theorem C101_group {π : Type} (l : Lib π) (hl : Good l) (f : Fail) (env : Env) (hp : env.prims.Good) (st : KeyStore) (hr : KsReachable env.prims st) (rights : Rights) (key : Nat)
    (other : Bytes) (caller : Uuid) (st' : KeyStore) (h : Nat) :
    (exchangeDh env (l.agree f) st rights key other caller = some (st', .OK, h) →
      ∃ k p g x y, KeyHeld env.prims st key caller k ∧ l.dhPriv k.key = some (p, g, x) ∧ l.pub other = some (.dh p g y) ∧ 1 < y ∧ y < p - 1) ∧
    (exchangeEcdh env (l.agree f) st rights key other caller = some (st', .OK, h) →
      ∃ k c x q, KeyHeld env.prims st key caller k ∧ l.ecPriv k.key = some (c, x) ∧ l.pub other = some (.ec c q)) := by
  constructor
  · intro he
    obtain ⟨k, p, g, x, y, d, h1, _, h2, h3, h4, h5, _⟩ := dh_exchanged hl hp hr he
    exact ⟨k, p, g, x, y, h1, h2, h3, h4, h5⟩
  · intro he
    obtain ⟨k, c, x, q, d, h1, _, h2, h3, _⟩ := ec_exchanged hl hp hr he
    exact ⟨k, c, x, q, h1, h2, h3⟩

/-- The public key that a side is given is that of the key it holds. -/
theorem told_public {π : Type} {l : Lib π} {env : Env} (hp : env.prims.Good) {st : KeyStore} (hr : KsReachable env.prims st) {buffer : Bytes} {key : Nat} {caller : Uuid} {st' : KeyStore}
    {a : Answer} (he : taKeyGetPublic env l.der st (some buffer) buffer.length key caller = some (st', a)) (hok : a.status = .OK) {k : StoredKey} (hk : KeyHeld env.prims st key caller k) :
    st' = st ∧ C69.publicOf l.der k = some ((a.out.getD []).take a.outLength) := by
  obtain ⟨a', e, _, h2, _⟩ := C69.C69_public_partial env hp l.der st hr (some buffer) buffer.length key caller (fun o h => by injection h with h; rw [h])
  rw [he] at e
  simp only [Option.some.injEq, Prod.mk.injEq] at e
  obtain ⟨rfl, rfl⟩ := e
  obtain ⟨k', d, hc, hd, _, hlen, _, o', ho, _, ht, _⟩ := h2 hok
  have hu := hc.1.2 env rfl
  rw [hc.2] at hu
  have := KeyHeld.unique env.prims st' key caller k k' env rfl hk hu
  subst this
  refine ⟨rfl, ?_⟩
  rw [hd, ho, hlen, Option.getD_some, ht]

theorem dh_generated {π : Type} {l : Lib π} (hl : Good l) {allocOk : Bool} {x : Nat} {rights : Rights} {p g : Bytes} {d : StoredKey} (hx : Modest x)
    (h : generateKey allocOk (l.gen (some x)) rights (.dh (some p) (some g)) = some (.OK, some d)) :
    Modest (number p) ∧ Modest (number g) ∧ number p % 2 = 1 ∧ d.key = l.encDhPriv (number p) (number g) x ∧ d.header.type.toNat = 3 ∧ 
    ∃ r pa kt tp size key, key.length + 16 < 2 ^ 64 ∧ storedKeyCreate allocOk r pa kt tp size key = (.OK, some d) := by
  unfold generateKey at h
  simp only at h
  split at h
  · cases h
  · rename_i hs
    split at h
    · cases h
    · rename_i hg
      simp only [Lib.gen] at h
      split at h
      · rename_i s hd
        split at hd
        · injection hd with hd; rw [← hd] at h; cases h
        · cases hd
      · rename_i r hd
        split at hd
        · cases hd
        · rename_i ho
          injection hd with hd
          subst hd
          simp only [Option.some.injEq] at h
          obtain ⟨_, _, ht, _, _, hk, _⟩ := storedKeyCreate_ok h
          have hp : p.length ≤ 512 := by
            simp [keyTypeSupportsDh, validDhSize] at hs; omega
          have h1 := modest_number p hp
          have h2 := modest_number g (by omega)
          have := hl.dhLen _ _ _ h1 h2 hx
          exact ⟨h1, h2, by omega, hk, ht, _, _, _, _, _, _, by omega, h⟩

theorem ec_generated {π : Type} {l : Lib π} (hl : Good l) {allocOk : Bool} {x : Nat} {rights : Rights} {c : Nat} {d : StoredKey} (hx : Modest x)
    (h : generateKey allocOk (l.gen (some x)) rights (.ec c) = some (.OK, some d)) :
    c < 9 ∧ d.key = l.encEcPriv c x ∧ d.header.type.toNat = 1 ∧ curveOf d.header.typeParameters = c ∧
    ∃ r pa kt tp size key, key.length + 16 < 2 ^ 64 ∧ storedKeyCreate allocOk r pa kt tp size key = (.OK, some d) := by
  unfold generateKey at h
  simp only [Lib.gen, Option.map_some] at h
  split at h
  · cases h
  · rename_i hs
    simp only [Option.some.injEq] at h
    obtain ⟨_, _, ht, htp, _, hk, _⟩ := storedKeyCreate_ok h
    have hc := (C52.supported_ec c hs).2
    have := hl.ecLen c x (by omega) hx
    exact ⟨hc, hk, ht, by rw [htp]; exact C52.curveOf_tpOfCurve c (by omega), _, _, _, _, _, _, by omega, h⟩

/-- What one side publishes, and what it has when it exchanges. -/
theorem dh_half {π : Type} {l : Lib π} (hl : Good l) {p g : Bytes} {x : Nat} (hx : Modest x) {mine : Bytes} (s : Half l (.dh (some p) (some g)) x mine) :
    mine = l.encPub (.dh (number p) (number g) (number g ^ x % number p)) ∧ Modest (number p) ∧ Modest (number g) ∧ 0 < number p ∧
      KsReachable s.prims s.before ∧ ∃ d, KeyHeld s.prims s.before s.handle s.caller d ∧ l.dhPriv d.key = some (number p, number g, x) := by
  have hp : ∀ i, (s.env i).prims.Good := fun i => by rw [s.device]; exact s.good
  obtain ⟨d, hd, hr1, hn1⟩ := generated_key (hp 0) (by rw [s.device]; exact s.reach) (fun d hd => (dh_generated hl hx hd).2.2.2.2.2) s.generated
  obtain ⟨m1, m2, m3, m4, m5, _⟩ := dh_generated hl hx hd
  have hk1 := hn1.holds
  rw [s.device] at hr1 hk1
  obtain ⟨hr2, hk2⟩ := meanwhile s.good hr1 s.first hk1
  obtain ⟨e1, e2⟩ := told_public (hp 1) (by rw [s.device]; exact hr2) s.publicKey s.fine (by rw [s.device]; exact hk2)
  have hdec := hl.dhPriv _ _ _ m1 m2 hx
  rw [s.given] at e2
  have hpub : C69.publicOf l.der d = some (l.encPub (.dh (number p) (number g) (number g ^ x % number p))) := by
    unfold C69.publicOf
    rw [m5]
    simp only [Lib.der, KEY_TYPE_DH, if_true]
    rw [m4, hdec]
  rw [hpub] at e2
  have hm := s.second
  rw [e1] at hm
  obtain ⟨hr3, hk3⟩ := meanwhile s.good hr2 hm hk2
  injection e2 with e2
  exact ⟨e2.symm, m1, m2, by omega, hr3, d, hk3, by rw [m4, hdec]⟩

/-- What it gets from a public number. -/
theorem dh_side {π : Type} {l : Lib π} (hl : Good l) {p g : Bytes} {x : Nat} (hx : Modest x) {mine theirs : Bytes} {secret : StoredKey}
    (s : Side l (.dh (some p) (some g)) x mine theirs secret) :
    mine = l.encPub (.dh (number p) (number g) (number g ^ x % number p)) ∧ Modest (number p) ∧ Modest (number g) ∧ 0 < number p ∧
      ∃ y, l.pub theirs = some (.dh (number p) (number g) y) ∧ 1 < y ^ x % number p ∧ secret.key = bytesOf (numBytes (number p)) (y ^ x % number p) := by
  have hp : ∀ i, (s.env i).prims.Good := fun i => by rw [s.device]; exact s.good
  obtain ⟨m0, m1, m2, m3, hr3, d, hk3, hdec⟩ := dh_half hl hx s.toHalf
  obtain ⟨k, p', g', x', y, z, h1, h2, h3, h4, h5, h6, h7, h8, h9, h10, _⟩ := dh_exchanged hl (hp 2) (by rw [s.device]; exact hr3) s.exchanged
  have hu := h1.2 (s.env 2) rfl
  rw [h2] at hu
  have := KeyHeld.unique s.prims s.before s.handle s.caller d k (s.env 2) (s.device 2) hk3 hu
  subst this
  rw [hdec] at h3
  simp only [Option.some.injEq, Prod.mk.injEq] at h3
  obtain ⟨rfl, rfl, rfl⟩ := h3
  rw [s.device] at h8
  have h9 := h9.holds
  rw [s.device] at h9
  obtain ⟨hr4, hk4⟩ := meanwhile s.good h8 s.third h9
  have := KeyHeld.unique s.prims s.later s.shared s.caller z secret (s.env 3) (s.device 3) hk4 s.used
  subst this
  exact ⟨m0, m1, m2, m3, y, h4, h7, h10⟩

theorem ec_side {π : Type} {l : Lib π} (hl : Good l) {c x : Nat} (hx : Modest x) {mine theirs : Bytes} {secret : StoredKey} (s : Side l (.ec c) x mine theirs secret) :
    mine = l.encPub (.ec c (l.mul c x (l.base c))) ∧ c < 9 ∧ ∃ q, l.pub theirs = some (.ec c q) ∧ l.secret c (l.mul c x q) = some secret.key := by
  have hp : ∀ i, (s.env i).prims.Good := fun i => by rw [s.device]; exact s.good
  obtain ⟨d, hd, hr1, hn1⟩ := generated_key (hp 0) (by rw [s.device]; exact s.reach) (fun d hd => (ec_generated hl hx hd).2.2.2.2) s.generated
  obtain ⟨m1, m2, m3, m4, _⟩ := ec_generated hl hx hd
  have hk1 := hn1.holds
  rw [s.device] at hr1 hk1
  obtain ⟨hr2, hk2⟩ := meanwhile s.good hr1 s.first hk1
  obtain ⟨e1, e2⟩ := told_public (hp 1) (by rw [s.device]; exact hr2) s.publicKey s.fine (by rw [s.device]; exact hk2)
  have hdec := hl.ecPriv c x (by omega) hx
  rw [s.given] at e2
  have hpub : C69.publicOf l.der d = some (l.encPub (.ec c (l.mul c x (l.base c)))) := by
    unfold C69.publicOf
    rw [m3]
    simp only [Lib.der, KEY_TYPE_DH, KEY_TYPE_EC]
    rw [m2, hdec, m4]
    simp
  rw [hpub] at e2
  have hm := s.second
  rw [e1] at hm
  obtain ⟨hr3, hk3⟩ := meanwhile s.good hr2 hm hk2
  obtain ⟨k, c', x', q, z, h1, h2, h3, h4, h8, h9, h10, _⟩ := ec_exchanged hl (hp 2) (by rw [s.device]; exact hr3) s.exchanged
  have hu := h1.2 (s.env 2) rfl
  rw [h2] at hu
  have := KeyHeld.unique s.prims s.before s.handle s.caller d k (s.env 2) (s.device 2) hk3 hu
  subst this
  rw [m2, hdec] at h3
  simp only [Option.some.injEq, Prod.mk.injEq] at h3
  obtain ⟨rfl, rfl⟩ := h3
  rw [s.device] at h8
  have h9 := h9.holds
  rw [s.device] at h9
  obtain ⟨hr4, hk4⟩ := meanwhile s.good h8 s.third h9
  have := KeyHeld.unique s.prims s.later s.shared s.caller z secret (s.env 3) (s.device 3) hk4 s.used
  subst this
  injection e2 with e2
  exact ⟨e2.symm, m1, q, h4, h10⟩

/-- **C101, Diffie-Hellman.**  For all p and g, all private numbers, all devices, key tables and rights, whatever is done in between: if both sides generate a key for p and g, get its
public key and exchange with what the other side got, then the new keys are the same.  It is the number g^(x·y) mod p in exactly as many bytes as p has. -/
theorem C101_dh {π : Type} (l : Lib π) (hl : Good l) (p g : Bytes) (x y : Nat) (hx : Modest x) (hy : Modest y) (a b : Bytes) (s t : StoredKey)
    (one : Side l (.dh (some p) (some g)) x a b s) (two : Side l (.dh (some p) (some g)) y b a t) :
    s.key = t.key ∧ s.key.length = numBytes (number p) ∧ number s.key = number g ^ (x * y) % number p := by
  obtain ⟨a1, m1, m2, m3, u, u1, _, u2⟩ := dh_side hl hx one
  obtain ⟨b1, _, _, _, v, v1, _, v2⟩ := dh_side hl hy two
  have small : ∀ n, Modest (n % number p) := fun n => Nat.lt_trans (Nat.mod_lt _ m3) m1
  rw [b1, hl.dhPub _ _ _ m1 m2 (small _)] at u1
  rw [a1, hl.dhPub _ _ _ m1 m2 (small _)] at v1
  simp only [Option.some.injEq, Pub.dh.injEq, true_and] at u1 v1
  subst u1 v1
  refine ⟨by rw [u2, v2, commutes], by rw [u2, bytesOf_length], ?_⟩
  rw [u2, number_bytesOf, Nat.mod_eq_of_lt (Nat.lt_trans (Nat.mod_lt _ m3) (lt_numBytes _)), ← Nat.pow_mod, ← Nat.pow_mul, Nat.mul_comm]

/-- **C101, elliptic curves.**  The same for a curve: the new keys are the same, and they are the secret of the point x·y·G. -/
theorem C101_ecdh {π : Type} (l : Lib π) (hl : Good l) (c x y : Nat) (hx : Modest x) (hy : Modest y) (a b : Bytes) (s t : StoredKey)
    (one : Side l (.ec c) x a b s) (two : Side l (.ec c) y b a t) :
    s.key = t.key ∧ l.secret c (l.mul c x (l.mul c y (l.base c))) = some s.key := by
  obtain ⟨a1, m, u, u1, u2⟩ := ec_side hl hx one
  obtain ⟨b1, _, v, v1, v2⟩ := ec_side hl hy two
  rw [b1, hl.ecPub _ _ (by omega)] at u1
  rw [a1, hl.ecPub _ _ (by omega)] at v1
  simp only [Option.some.injEq, Pub.ec.injEq, true_and] at u1 v1
  subst u1 v1
  refine ⟨?_, u2⟩
  rw [hl.comm, v2] at u2
  injection u2 with u2
  exact u2.symm

/-! ## The Netflix exchange -/

theorem agree_good {π : Type} {l : Lib π} (hl : Good l) (f : Fail) : (l.agree f).Good where
  dhFail k o s h := by
    simp only [Lib.agree, dhAgree] at h
    repeat' split at h
    all_goals first | (cases h; done) | (injection h with h; subst h; decide)
  ecdhFail k c o s h := by
    simp only [Lib.agree, ecAgree] at h
    repeat' split at h
    all_goals first | (cases h; done) | (injection h with h; subst h; decide)
  dhLen k o z h := by
    simp only [Lib.agree, dhAgree] at h
    repeat' split at h
    all_goals first | (cases h; done) | skip
    injection h with h
    rw [← h, bytesOf_length]
    have := numBytes_le _ _ (hl.dhSize _ _ _ _ (by assumption))
    omega
  ecdhLen k c o z h := by
    simp only [Lib.agree, ecAgree] at h
    repeat' split at h
    all_goals first | (cases h; done) | skip
    injection h with h
    rw [← h]
    exact hl.ecSize _ _ _ (by assumption)

/-- A side that makes the Netflix exchange instead, with Kw in `kwHandle`, and uses the three new keys. -/
structure NetSide {π : Type} (l : Lib π) (k : KdfPrims) (params : GenParams) (x : Nat) (mine theirs kw : Bytes) (enc hmac wrap : StoredKey) extends Half l params x mine where
  kwHandle : Nat
  kwKey : StoredKey
  kwHeld : KeyHeld prims before kwHandle caller kwKey
  kwBytes : kwKey.key = kw
  fail : Fail
  kdf : KdfEnv
  kdfPrims : kdf.prims = k
  envs : Nat → Env
  devices : ∀ i, (envs i).prims = prims
  wanted : Rights
  wantedKe : Rights
  wantedKh : Rights
  out : NetflixOut
  exchanged : exchangeNetflix envs kdf (l.agree fail) before wanted handle theirs ⟨kwHandle, wantedKe, wantedKh⟩ caller = some out
  succeeded : out.status = .OK
  usedKe : keyStoreUnwrap (env 3) out.store out.ke caller = some (out.store, .OK, some enc)
  usedKh : keyStoreUnwrap (env 4) out.store out.kh caller = some (out.store, .OK, some hmac)
  usedKey : keyStoreUnwrap (env 5) out.store out.key caller = some (out.store, .OK, some wrap)

theorem unwrap_held {env : Env} {p : Prims} (he : env.prims = p) {st : KeyStore} {h : Nat} {u : Uuid} {k : StoredKey} (hk : KeyHeld p st h u k) :
    keyStoreUnwrap env st h u = some (st, .OK, some k) ∨ ∃ s, s ≠ Status.OK ∧ keyStoreUnwrap env st h u = some (st, s, none) := by
  rw [hk.2 env he]
  unfold useResult
  split
  · split
    · exact Or.inl rfl
    · exact Or.inr ⟨_, by decide, rfl⟩
  · exact Or.inr ⟨_, by decide, rfl⟩

/-- A Netflix exchange that succeeds has used both keys. -/
theorem netflix_uses {p : Prims} {envs : Nat → Env} (he : ∀ i, (envs i).prims = p) {k : KdfEnv} {a : AgreeEnv} {st : KeyStore} {rights : Rights} {private_ : Nat} {other : Bytes}
    {params : NetflixParams} {caller : Uuid} {o : NetflixOut} (hx : exchangeNetflix envs k a st rights private_ other params caller = some o) (hok : o.status = .OK)
    {kw sk : StoredKey} (hw : KeyHeld p st params.kw caller kw) (hs : KeyHeld p st private_ caller sk) :
    keyStoreUnwrap (envs 0) st params.kw caller = some (st, .OK, some kw) ∧ keyStoreUnwrap (envs 1) st private_ caller = some (st, .OK, some sk) := by
  have bad : ∀ {st' : KeyStore} {s : Status}, s ≠ .OK → netflixBody envs k a st rights private_ other params caller = some ⟨st', s, SLOT_INVALID, SLOT_INVALID, SLOT_INVALID⟩ → False := by
    intro st' s hs hb
    unfold exchangeNetflix at hx
    rw [hb] at hx
    simp only [Option.bind_some, netflixCleanup, removeIfValid, ne_eq, hs, not_false_eq_true, if_true, not_true_eq_false, if_false, Option.map_some, Option.some.injEq] at hx
    rw [← hx] at hok
    exact hs hok
  rcases unwrap_held (he 0) hw with h0 | ⟨s, hn, h0⟩
  · refine ⟨h0, ?_⟩
    rcases unwrap_held (he 1) hs with h1 | ⟨s, hn, h1⟩
    · exact h1
    · exfalso
      by_cases hd : rightsAllowedDerive (envs 0).rights kw.header.rights = true
      · by_cases ht : kw.header.type.toNat = KEY_TYPE_SYMMETRIC
        · refine bad hn (st' := st) ?_
          unfold netflixBody
          simp only [h0, hd, ht, h1]
          cases s <;> first | exact absurd rfl hn | rfl
        · refine bad (s := .INVALID_KEY_TYPE) (by decide) (st' := st) ?_
          unfold netflixBody
          simp only [h0, hd]
          simp [ht]
      · refine bad (s := .OPERATION_NOT_ALLOWED) (by decide) (st' := st) ?_
        unfold netflixBody
        simp only [h0, hd]
        simp
  · exfalso
    refine bad hn (st' := st) ?_
    unfold netflixBody
    simp only [h0]
    cases s <;> first | exact absurd rfl hn | rfl

theorem net_side {π : Type} {l : Lib π} (hl : Good l) {k : KdfPrims} (hkg : k.Good) {p g : Bytes} {x : Nat} (hx : Modest x) {mine theirs kw : Bytes} {enc hmac wrap : StoredKey}
    (s : NetSide l k (.dh (some p) (some g)) x mine theirs kw enc hmac wrap) :
    mine = l.encPub (.dh (number p) (number g) (number g ^ x % number p)) ∧ Modest (number p) ∧ Modest (number g) ∧ 0 < number p ∧
      ∃ y, l.pub theirs = some (.dh (number p) (number g) y) ∧ ∃ t, t = k.hmac 2 (k.hash 2 kw) (C45.mslSecret (bytesOf (numBytes (number p)) (y ^ x % number p))) ∧
        enc.key = t.take 16 ∧ hmac.key = (t.drop 16).take 32 ∧ wrap.key = (k.hmac 1 (k.hmac 1 netflixSalt (enc.key ++ hmac.key)) netflixInfo).take 16 := by
  obtain ⟨m0, m1, m2, m3, hr3, d, hk3, hdec⟩ := dh_half hl hx s.toHalf
  obtain ⟨o, e, hc⟩ := C45.C45_all_or_nothing s.prims s.good s.envs s.devices s.kdf (by rw [s.kdfPrims]; exact hkg) (l.agree s.fail) (agree_good hl _) s.before hr3 s.wanted s.handle
    theirs ⟨s.kwHandle, s.wantedKe, s.wantedKh⟩ s.caller (0, 0, 0)
  rw [s.exchanged] at e
  injection e with e
  subst e
  rcases hc with ⟨hc, _⟩ | ⟨_, _, _, _, _, _, _, kw', sk, z, e1, e2, e3, c1, c2, c3, c4, c5, c6, c7, c8, c9, _⟩
  · exact absurd s.succeeded hc
  · obtain ⟨u1, u2⟩ := netflix_uses s.devices s.exchanged s.succeeded c1 c2
    have := KeyHeld.unique _ _ _ _ _ _ _ (s.devices 0) s.kwHeld u1
    subst this
    have := KeyHeld.unique _ _ _ _ _ _ _ (s.devices 1) hk3 u2
    subst this
    have := KeyHeld.unique _ _ _ _ _ _ _ (s.device 3) c4 s.usedKe
    subst this
    have := KeyHeld.unique _ _ _ _ _ _ _ (s.device 4) c5 s.usedKh
    subst this
    have := KeyHeld.unique _ _ _ _ _ _ _ (s.device 5) c6 s.usedKey
    subst this
    simp only [Lib.agree, dhAgree, hdec] at c3
    split at c3
    · cases c3
    · rename_i p' g' y hpub
      repeat' split at c3
      all_goals first | (cases c3; done) | skip
      injection c3 with c3
      have ea : number p = p' ∧ number g = g' := by
        rename_i q _ _ _; exact Classical.byContradiction fun hn => q (by omega)
      obtain ⟨rfl, rfl⟩ := ea
      rw [s.kdfPrims, s.kwBytes] at c7
      rw [s.kdfPrims, s.kwBytes] at c8
      rw [s.kdfPrims] at c9
      refine ⟨m0, m1, m2, m3, y, hpub, _, rfl, ?_⟩
      rw [c3]
      exact ⟨c7, c8, c9⟩
    · cases c3

/-- **C101, the Netflix exchange.**  Two sides that have the same Kw and exchange public keys this way get the same three keys, which are those of the Netflix specification for
g^(x·y) mod p. -/
theorem C101_netflix {π : Type} (l : Lib π) (hl : Good l) (k : KdfPrims) (hk : k.Good) (p g : Bytes) (x y : Nat) (hx : Modest x) (hy : Modest y) (a b kw : Bytes)
    (ke kh key ke' kh' key' : StoredKey) (one : NetSide l k (.dh (some p) (some g)) x a b kw ke kh key) (two : NetSide l k (.dh (some p) (some g)) y b a kw ke' kh' key') :
    ke.key = ke'.key ∧ kh.key = kh'.key ∧ key.key = key'.key ∧
      ∃ z, z.length = numBytes (number p) ∧ number z = number g ^ (x * y) % number p ∧ ke.key = (k.hmac 2 (k.hash 2 kw) (C45.mslSecret z)).take 16 := by
  obtain ⟨a1, m1, m2, m3, u, u1, t1, u2, u3, u4, u5⟩ := net_side hl hk hx one
  obtain ⟨b1, _, _, _, v, v1, t2, v2, v3, v4, v5⟩ := net_side hl hk hy two
  have small : ∀ n, Modest (n % number p) := fun n => Nat.lt_trans (Nat.mod_lt _ m3) m1
  rw [b1, hl.dhPub _ _ _ m1 m2 (small _)] at u1
  rw [a1, hl.dhPub _ _ _ m1 m2 (small _)] at v1
  simp only [Option.some.injEq, Pub.dh.injEq, true_and] at u1 v1
  subst u1 v1
  have ht : t1 = t2 := by rw [u2, v2, commutes]
  subst ht
  have e1 : ke.key = ke'.key := by rw [u3, v3]
  have e2 : kh.key = kh'.key := by rw [u4, v4]
  refine ⟨e1, e2, by rw [u5, v5, e1, e2], bytesOf (numBytes (number p)) ((number g ^ y % number p) ^ x % number p), bytesOf_length _ _, ?_, by rw [u3, u2]⟩
  rw [number_bytesOf, Nat.mod_eq_of_lt (Nat.lt_trans (Nat.mod_lt _ m3) (lt_numBytes _)), ← Nat.pow_mod, ← Nat.pow_mul, Nat.mul_comm]

/-! ## A concrete case -/

/-- Numbers with their length in front. -/
def put (n : Nat) : Bytes := bytesOf 2 (numBytes n) ++ bytesOf (numBytes n) n

def take (b : Bytes) : Nat × Bytes := let k := number (b.take 2); (number ((b.drop 2).take k), (b.drop 2).drop k)

theorem take_put (n : Nat) (h : Modest n) (r : Bytes) : take (put n ++ r) = (n, r) := by
  have hk : numBytes n ≤ 512 := numBytes_le _ _ h
  unfold take put
  have e1 : (bytesOf 2 (numBytes n) ++ bytesOf (numBytes n) n ++ r).take 2 = bytesOf 2 (numBytes n) := by
    rw [List.append_assoc, List.take_left' (bytesOf_length _ _)]
  have e2 : (bytesOf 2 (numBytes n) ++ bytesOf (numBytes n) n ++ r).drop 2 = bytesOf (numBytes n) n ++ r := by
    rw [List.append_assoc, List.drop_left' (bytesOf_length _ _)]
  have e3 : number (bytesOf 2 (numBytes n)) = numBytes n := by rw [number_bytesOf, Nat.mod_eq_of_lt (by omega)]
  simp only
  rw [e1, e2, e3, List.take_left' (bytesOf_length _ _), List.drop_left' (bytesOf_length _ _), number_bytesOf, Nat.mod_eq_of_lt (lt_numBytes n)]

theorem put_length (n : Nat) (h : Modest n) : (put n).length ≤ 514 := by
  have hk : numBytes n ≤ 512 := numBytes_le _ _ h
  unfold put
  rw [List.length_append, bytesOf_length, bytesOf_length]; omega

/-- A library whose curves are the numbers modulo 256. -/
def toy : Lib UInt8 where
  dhPriv b := let p := take b; let g := take p.2; let x := take g.2; if numBytes p.1 ≤ 512 then some (p.1, g.1, x.1) else none
  encDhPriv p g x := put p ++ (put g ++ put x)
  ecPriv b := match b with | [] => none | c :: r => some (c.toNat, (take r).1)
  encEcPriv c x := UInt8.ofNat c :: put x
  pub b := match b with
    | 0 :: r => let p := take r; let g := take p.2; let y := take g.2; some (.dh p.1 g.1 y.1)
    | [1, c, q] => some (.ec c.toNat q)
    | _ => none
  encPub := fun | .dh p g y => 0 :: (put p ++ (put g ++ put y)) | .ec c q => [1, UInt8.ofNat c, q] | .other => [2]
  base _ := 5
  mul _ x q := UInt8.ofNat x * q
  secret _ q := if q = 0 then none else some (List.replicate 16 q)

theorem take_put_last (n : Nat) (h : Modest n) : take (put n) = (n, []) := by
  have := take_put n h []
  rwa [List.append_nil] at this

theorem toy_good : Good toy where
  dhPriv p g x hp hg hx := by
    have := numBytes_le p 512 hp
    simp only [toy]
    rw [take_put p hp, take_put g hg, take_put_last x hx]
    simp [this]
  ecPriv c x hc hx := by
    simp only [toy]
    rw [take_put_last x hx]
    simp; omega
  dhPub p g y hp hg hy := by
    simp only [toy]
    rw [take_put p hp, take_put g hg, take_put_last y hy]
  ecPub c q hc := by simp [toy]; omega
  comm c x y := by simp only [toy]; rw [← UInt8.mul_assoc, ← UInt8.mul_assoc, UInt8.mul_comm (UInt8.ofNat x)]
  dhLen p g x hp hg hx := by
    have := put_length p hp
    have := put_length g hg
    have := put_length x hx
    simp only [toy, List.length_append]; omega
  ecLen c x _ hx := by
    have := put_length x hx
    simp only [toy, List.length_cons]; omega
  dhSize k p g x h := by
    simp only [toy] at h
    split at h
    · rename_i hn
      simp only [Option.some.injEq, Prod.mk.injEq] at h
      rw [← h.1]
      exact Nat.lt_of_lt_of_le (lt_numBytes _) (Nat.pow_le_pow_right (by decide) hn)
    · cases h
  ecSize c q z h := by
    simp only [toy] at h
    split at h
    · cases h
    · injection h with h; rw [← h, List.length_replicate]; decide

def noFail : Fail := ⟨false, false, false⟩

theorem usable {d : StoredKey} (h : d.header.rights = rightsAllowAll) : useResult C08.env0 d C08.u7 = (.OK, some d) := by
  unfold useResult
  rw [h, if_pos (by decide +kernel), if_pos (by decide +kernel)]

theorem nothing_done (p : Prims) (st : KeyStore) (h : Nat) : Meanwhile p st st h := ⟨[], by simp, by simp, rfl⟩

/-- Generation on the device of C08 with an empty table. -/
theorem generates (params : GenParams) (x : Nat)
    (h : ((objectStoreInit WrappedKey 32).bind fun st => (keyGenerate C08.env0 (toy.gen (some x)) st rightsAllowAll (some params) C08.u7).map fun r =>
      (r.2, decide (0 < r.1.slotCount), (r.1.obj 0).object.isNone)) = some ((.OK, 31), true, true)) :
    ∃ st made, KsReachable C08.toy st ∧ (∃ i, i < made.slotCount ∧ (made.obj i).object = none) ∧
      keyGenerate C08.env0 (toy.gen (some x)) st rightsAllowAll (some params) C08.u7 = some (made, .OK, 31) := by
  cases h0 : objectStoreInit WrappedKey 32 with
  | none => rw [h0] at h; cases h
  | some st =>
    rw [h0, Option.bind_some] at h
    cases hk : keyGenerate C08.env0 (toy.gen (some x)) st rightsAllowAll (some params) C08.u7 with
    | none => rw [hk] at h; cases h
    | some r =>
      rw [hk, Option.map_some] at h
      simp only [Option.some.injEq, Prod.mk.injEq, decide_eq_true_eq, Option.isNone_iff_eq_none] at h
      refine ⟨st, r.1, ⟨32, st, [], by decide, h0, by simp, rfl⟩, ⟨0, h.2.1, h.2.2⟩, ?_⟩
      rw [hk, show r = (r.1, r.2) from rfl, h.1]

/-- A side that does nothing else. -/
theorem side_exists {params : GenParams} {x : Nat} {st made : KeyStore} (hr : KsReachable C08.toy st)
    (hg : keyGenerate C08.env0 (toy.gen (some x)) st rightsAllowAll (some params) C08.u7 = some (made, .OK, 31)) {d : StoredKey} (hrm : KsReachable C08.toy made)
    (hk : KeyHeld C08.toy made 31 C08.u7 d) (hri : d.header.rights = rightsAllowAll) {mine theirs : Bytes} (hm : C69.publicOf toy.der d = some mine) (hn : mine ≠ [])
    {after : KeyStore} {shared : Nat} (hx : exchange C08.env0 (toy.agree noFail) made rightsAllowAll 31 theirs C08.u7 params = some (after, .OK, shared))
    {secret : StoredKey} (hs : KeyHeld C08.toy after shared C08.u7 secret) (hsr : secret.header.rights = rightsAllowAll) :
    Nonempty (Side toy params x mine theirs secret) := by
  obtain ⟨a, e, h1, h2, _⟩ := C69.C69_public_partial C08.env0 C08.toy_good toy.der made hrm (some mine) mine.length 31 C08.u7 (fun o h => by injection h with h; rw [h])
  have hok : a.status = .OK := h1.2 ⟨d, mine, ⟨hk, usable hri⟩, hm, hn, fun _ => Nat.le_refl _⟩
  obtain ⟨k', m', hc, hd, _, hlen, _, o', ho, _, ht, _⟩ := h2 hok
  have := C69.canUse_unique (env := C08.env0) ⟨hk, usable hri⟩ hc
  subst this
  rw [hm] at hd
  injection hd with hd
  subst hd
  have hu := hs.2 C08.env0 rfl
  rw [usable hsr] at hu
  exact ⟨{ prims := C08.toy, good := C08.toy_good, env := fun _ => C08.env0, device := fun _ => rfl, caller := C08.u7, start := st, reach := hr, rights := rightsAllowAll,
           made := made, handle := 31, generated := hg, asked := made, first := nothing_done _ _ _, buffer := mine, told := made, answer := a, publicKey := e, fine := hok,
           given := by rw [ho, hlen, Option.getD_some, ht]
           before := made, second := nothing_done _ _ _, fail := noFail, wanted := rightsAllowAll, after := after, shared := shared, exchanged := hx, later := after,
           third := nothing_done _ _ _, used := hu }⟩

theorem rights_all : restrictChildRights rightsAllowAll none = rightsAllowAll ∧ restrictChildRights rightsAllowAll (some rightsAllowAll) = rightsAllowAll := by decide +kernel

/-- A side on P-256 with the private number 7 or 15: the new key exists. -/
theorem ec_side_exists (x y : Nat) (mine theirs z : Bytes) (hx : Modest x)
    (hgen : ((objectStoreInit WrappedKey 32).bind fun st => (keyGenerate C08.env0 (toy.gen (some x)) st rightsAllowAll (some (.ec 0)) C08.u7).map fun r =>
      (r.2, decide (0 < r.1.slotCount), (r.1.obj 0).object.isNone)) = some ((.OK, 31), true, true))
    (hm : toy.encPub (.ec 0 (toy.mul 0 x (toy.base 0))) = mine) (hn : mine ≠ []) (ht : theirs = toy.encPub (.ec 0 (toy.mul 0 y (toy.base 0))))
    (hz : toy.secret 0 (toy.mul 0 x (toy.mul 0 y (toy.base 0))) = some z) (hl : z.length = 16) :
    ∃ s, Nonempty (Side toy (.ec 0) x mine theirs s) := by
  obtain ⟨st, made, hr, hfree, hg⟩ := generates _ _ hgen
  obtain ⟨d, hd, hrm, hnk⟩ := generated_key (env := C08.env0) C08.toy_good hr (fun d hd => (ec_generated toy_good hx hd).2.2.2.2) hg
  have hk := hnk.holds
  obtain ⟨_, dk, dt, dc, _⟩ := ec_generated toy_good hx hd
  have hcr : storedKeyCreate true rightsAllowAll none KEY_TYPE_EC (tpOfCurve 0) 32 (toy.encEcPriv 0 x) = (.OK, some d) := by
    simp only [generateKey, Lib.gen, Option.map_some] at hd
    rw [if_neg (by decide)] at hd
    injection hd
  obtain ⟨_, dr, _, _, ds, _⟩ := storedKeyCreate_ok hcr
  rw [rights_all.1] at dr
  have hdec := toy_good.ecPriv 0 x (by decide) hx
  have hpub : C69.publicOf toy.der d = some mine := by
    unfold C69.publicOf
    rw [dt]
    simp only [Lib.der, KEY_TYPE_DH, KEY_TYPE_EC]
    rw [dk, hdec, dc]
    simpa using hm
  have hu := hk.2 C08.env0 rfl
  rw [usable dr] at hu
  have hsec : ecAgree toy noFail d.key 0 theirs = .secret z := by
    unfold ecAgree
    rw [dk, hdec, ht, toy_good.ecPub 0 _ (by decide)]
    simp [noFail, hz]
  have hz' : ∃ k, storedKeyCreate true rightsAllowAll (some d.header.rights) KEY_TYPE_SYMMETRIC (Vector.replicate 1040 0) 16 z = (.OK, some k) := by
    rw [dr]
    unfold storedKeyCreate
    rw [if_neg (by decide +kernel), if_neg (by decide +kernel), if_neg (by decide)]
    exact ⟨_, rfl⟩
  obtain ⟨k, hz'⟩ := hz'
  obtain ⟨after, shared, he⟩ := withKey_succeeds C08.env0 C08.toy_good (fun _ => rfl) made hrm 31 C08.u7 (fun sk =>
      if !rightsAllowedExchange C08.env0.rights sk.header.rights then some (.OPERATION_NOT_ALLOWED, none)
      else if !keyTypeSupportsEc sk.header.type.toNat (curveOf sk.header.typeParameters) sk.header.size.toNat then some (.INVALID_KEY_TYPE, none)
      else some (ecComputeSharedSecret C08.env0 (toy.agree noFail) rightsAllowAll theirs sk)) d k hu
    (by
      rw [dr, dt, dc, ds, if_neg (by decide +kernel), if_neg (by decide +kernel)]
      unfold ecComputeSharedSecret
      simp only [Lib.agree]
      rw [dc, if_neg (by decide), hsec]
      simp only
      rw [hl, ← hz']
      rfl)
    ⟨_, _, _, _, _, _, by omega, hz'⟩ hfree
  have he' : exchangeEcdh C08.env0 (toy.agree noFail) made rightsAllowAll 31 theirs C08.u7 = some (after, .OK, shared) := he
  obtain ⟨k2, _, _, _, s, h1, h2, _, _, _, h3, _, h4⟩ := ec_exchanged toy_good (env := C08.env0) C08.toy_good hrm he'
  have hu2 := h1.2 C08.env0 rfl
  rw [h2] at hu2
  have := KeyHeld.unique _ made 31 C08.u7 d k2 C08.env0 rfl hk hu2
  subst this
  rw [dr, rights_all.2] at h4
  exact ⟨s, side_exists hr hg hrm hk dr hpub hn he' h3.holds h4⟩

example : ∃ s t, Nonempty (Side toy (.ec 0) 7 [1, 0, 35] [1, 0, 75] s) ∧ Nonempty (Side toy (.ec 0) 15 [1, 0, 75] [1, 0, 35] t) ∧ s.key = t.key := by
  obtain ⟨s, ⟨hs⟩⟩ := ec_side_exists 7 15 [1, 0, 35] [1, 0, 75] (List.replicate 16 13) (modest_small _ (by decide)) (by decide +kernel) (by decide) (by simp) (by decide) (by decide) (by decide)
  obtain ⟨t, ⟨ht⟩⟩ := ec_side_exists 15 7 [1, 0, 75] [1, 0, 35] (List.replicate 16 13) (modest_small _ (by decide)) (by decide +kernel) (by decide) (by simp) (by decide) (by decide) (by decide)
  exact ⟨s, t, ⟨hs⟩, ⟨ht⟩, (C101_ecdh toy toy_good 0 7 15 (modest_small _ (by decide)) (modest_small _ (by decide)) _ _ s t hs ht).1⟩

/-- A side of a Diffie-Hellman exchange. -/
theorem dh_side_exists (p : Bytes) (g : UInt8) (x y : Nat) (mine theirs z : Bytes) (hx : Modest x) (hpl : p.length = 16) (hodd : number p % 2 = 1) (hnb : numBytes (number p) = 16)
    (hgen : ((objectStoreInit WrappedKey 32).bind fun st => (keyGenerate C08.env0 (toy.gen (some x)) st rightsAllowAll (some (.dh (some p) (some [g]))) C08.u7).map fun r =>
      (r.2, decide (0 < r.1.slotCount), (r.1.obj 0).object.isNone)) = some ((.OK, 31), true, true))
    (hm : toy.encPub (.dh (number p) (number [g]) (number [g] ^ x % number p)) = mine) (hn : mine ≠ [])
    (ht : theirs = toy.encPub (.dh (number p) (number [g]) y)) (hy : 1 < y ∧ y < number p - 1) (hy1 : 1 < y ^ x % number p)
    (hz : bytesOf 16 (y ^ x % number p) = z) :
    ∃ s, Nonempty (Side toy (.dh (some p) (some [g])) x mine theirs s) := by
  obtain ⟨st, made, hr, hfree, hg⟩ := generates _ _ hgen
  obtain ⟨d, hd, hrm, hnk⟩ := generated_key (env := C08.env0) C08.toy_good hr (fun d hd => (dh_generated toy_good hx hd).2.2.2.2.2) hg
  have hk := hnk.holds
  obtain ⟨m1, m2, _, dk, dt, _⟩ := dh_generated toy_good hx hd
  have hcr : storedKeyCreate true rightsAllowAll none KEY_TYPE_DH (tpOfDh p [g]) 16 (toy.encDhPriv (number p) (number [g]) x) = (.OK, some d) := by
    simp only [generateKey, Lib.gen] at hd
    rw [if_neg (by rw [hpl]; decide), if_neg (by rw [hpl]; simp), if_neg (by omega)] at hd
    simp only [hpl] at hd
    exact Option.some.inj hd
  obtain ⟨_, dr, _, _, ds, _⟩ := storedKeyCreate_ok hcr
  rw [rights_all.1] at dr
  have hdec := toy_good.dhPriv _ _ x m1 m2 hx
  have hpub : C69.publicOf toy.der d = some mine := by
    unfold C69.publicOf
    rw [dt]
    simp only [Lib.der, KEY_TYPE_DH, KEY_TYPE_EC]
    rw [dk, hdec]
    simpa using hm
  have hu := hk.2 C08.env0 rfl
  rw [usable dr] at hu
  have hsec : dhAgree toy noFail d.key theirs = .secret z := by
    unfold dhAgree
    have hym : Modest y := by unfold Modest at m1 ⊢; exact Nat.lt_trans hy.2 (Nat.lt_of_le_of_lt (Nat.sub_le _ _) m1)
    rw [dk, hdec, ht, toy_good.dhPub _ _ _ m1 m2 hym]
    simp only
    rw [if_neg (by simp [noFail]), if_neg (by simp [noFail]), if_neg (by simp), if_neg (by simp [noFail]), if_neg (by omega), if_neg (by omega), hnb, hz]
  have hl : z.length = 16 := by rw [← hz, bytesOf_length]
  have hz' : ∃ k, storedKeyCreate true rightsAllowAll (some d.header.rights) KEY_TYPE_SYMMETRIC (Vector.replicate 1040 0) 16 z = (.OK, some k) := by
    rw [dr]
    unfold storedKeyCreate
    rw [if_neg (by decide +kernel), if_neg (by decide +kernel), if_neg (by decide)]
    exact ⟨_, rfl⟩
  obtain ⟨k, hz'⟩ := hz'
  have hcomp : dhComputeSharedSecret C08.env0 (toy.agree noFail) rightsAllowAll theirs d = (.OK, some k) := by
    unfold dhComputeSharedSecret
    simp only [Lib.agree]
    rw [hsec]
    simp only
    rw [hl, ← hz']
    rfl
  obtain ⟨after, shared, he⟩ := withKey_succeeds C08.env0 C08.toy_good (fun _ => rfl) made hrm 31 C08.u7 (fun sk =>
      if !rightsAllowedExchange C08.env0.rights sk.header.rights then some (.OPERATION_NOT_ALLOWED, none)
      else if !keyTypeSupportsDh sk.header.type.toNat sk.header.size.toNat then some (.INVALID_KEY_TYPE, none)
      else match dhComputeSharedSecret C08.env0 (toy.agree noFail) rightsAllowAll theirs sk with
        | (.OK, k) => some (.OK, k)
        | (_, _) => some (.INVALID_PARAMETER, none)) d k hu
    (by rw [dr, dt, ds, if_neg (by decide +kernel), if_neg (by decide +kernel), hcomp]) ⟨_, _, _, _, _, _, by omega, hz'⟩ hfree
  have he' : exchangeDh C08.env0 (toy.agree noFail) made rightsAllowAll 31 theirs C08.u7 = some (after, .OK, shared) := he
  obtain ⟨k2, _, _, _, _, s, h1, h2, _, _, _, _, _, _, h3, _, h4⟩ := dh_exchanged toy_good (env := C08.env0) C08.toy_good hrm he'
  have hu2 := h1.2 C08.env0 rfl
  rw [h2] at hu2
  have := KeyHeld.unique _ made 31 C08.u7 d k2 C08.env0 rfl hk hu2
  subst this
  rw [dr, rights_all.2] at h4
  exact ⟨s, side_exists hr hg hrm hk dr hpub hn he' h3.holds h4⟩

/-- p = 2^128 - 1, g = 5, private numbers 60 and 75. -/
def p0 : Bytes := List.replicate 16 255
def dh0 : GenParams := .dh (some p0) (some [5])
def pub0 (x : Nat) : Bytes := toy.encPub (.dh (number p0) (number [5]) (5 ^ x % number p0))

example : ∃ s t, Nonempty (Side toy dh0 60 (pub0 60) (pub0 75) s) ∧ Nonempty (Side toy dh0 75 (pub0 75) (pub0 60) t) ∧ s.key = t.key := by
  obtain ⟨s, ⟨hs⟩⟩ := dh_side_exists p0 5 60 (5 ^ 75 % number p0) (pub0 60) (pub0 75) _ (modest_small _ (by decide)) (by decide) (by decide +kernel) (by decide +kernel) (by decide +kernel)
    rfl (by decide) rfl (by decide +kernel) (by decide +kernel) rfl
  obtain ⟨t, ⟨ht⟩⟩ := dh_side_exists p0 5 75 (5 ^ 60 % number p0) (pub0 75) (pub0 60) _ (modest_small _ (by decide)) (by decide) (by decide +kernel) (by decide +kernel) (by decide +kernel)
    rfl (by decide) rfl (by decide +kernel) (by decide +kernel) rfl
  exact ⟨s, t, ⟨hs⟩, ⟨ht⟩, (C101_dh toy toy_good p0 [5] 60 75 (modest_small _ (by decide)) (modest_small _ (by decide)) _ _ s t hs ht).1⟩

/-- The same in the store of C29, which has the symmetric key 5, 5, … in handle 31. -/
theorem stP_generates (x : Nat)
    (h : (C29.stP.bind fun st => (keyGenerate C08.env0 (toy.gen (some x)) st rightsAllowAll (some dh0) C08.u7).map fun r =>
      (r.2, decide (30 < r.1.slotCount), (r.1.obj 0).object.isNone && (r.1.obj 1).object.isNone && (r.1.obj 2).object.isNone)) = some ((.OK, 30), true, true)) :
    ∃ st made, C29.stP = some st ∧ (∀ i ∈ [0, 1, 2], i < made.slotCount ∧ (made.obj i).object = none) ∧
      keyGenerate C08.env0 (toy.gen (some x)) st rightsAllowAll (some dh0) C08.u7 = some (made, .OK, 30) := by
  cases h0 : C29.stP with
  | none => rw [h0] at h; cases h
  | some st =>
    rw [h0, Option.bind_some] at h
    cases hk : keyGenerate C08.env0 (toy.gen (some x)) st rightsAllowAll (some dh0) C08.u7 with
    | none => rw [hk] at h; cases h
    | some r =>
      rw [hk, Option.map_some] at h
      simp only [Option.some.injEq, Prod.mk.injEq, decide_eq_true_eq, Bool.and_eq_true, Option.isNone_iff_eq_none] at h
      refine ⟨st, r.1, rfl, ?_, by rw [hk, show r = (r.1, r.2) from rfl, h.1]⟩
      intro i hi
      simp only [List.mem_cons, List.not_mem_nil, or_false] at hi
      rcases hi with rfl | rfl | rfl
      · exact ⟨by omega, h.2.2.1.1⟩
      · exact ⟨by omega, h.2.2.1.2⟩
      · exact ⟨by omega, h.2.2.2⟩

theorem stP_kw : ∃ st kw, C29.stP = some st ∧ keyStoreUnwrap C08.env0 st 31 C08.u7 = some (st, .OK, some kw) ∧ KeyHeld C08.toy st 31 C08.u7 kw ∧ kw.header.rights = rightsAllowAll ∧
    kw.header.type.toNat = KEY_TYPE_SYMMETRIC ∧ kw.key = List.replicate 16 5 := by
  obtain ⟨st, pk, h0, hu, _, ht, hk, _⟩ := C29.stP_usable
  have h2 : (C29.stP.bind fun st => keyStoreUnwrap C08.env0 st 31 C08.u7).any (fun r => r.2.2.any fun pk => decide (pk.header.rights = rightsAllowAll)) = true := by decide +kernel
  rw [h0, Option.bind_some, hu] at h2
  simp only [Option.any_some, decide_eq_true_eq] at h2
  have hr : KsReachable C08.env0.prims st := C29.stP_reachable st h0
  rcases unwrap_holds C08.env0 C08.toy_good st (ksReachable_inv _ C08.toy_good st hr) 31 C08.u7 with ⟨s, hs, he⟩ | ⟨k, he, hh, _⟩
  · rw [hu] at he; cases he
  · rw [hu] at he; cases he
    exact ⟨st, pk, h0, hu, hh, h2, ht, hk⟩

theorem net_side_exists (x y : Nat) (hx : Modest x) 
    (hgen : (C29.stP.bind fun st => (keyGenerate C08.env0 (toy.gen (some x)) st rightsAllowAll (some dh0) C08.u7).map fun r =>
      (r.2, decide (30 < r.1.slotCount), (r.1.obj 0).object.isNone && (r.1.obj 1).object.isNone && (r.1.obj 2).object.isNone)) = some ((.OK, 30), true, true))
    (hodd : number p0 % 2 = 1) (hnb : numBytes (number p0) = 16) (hy : 1 < 5 ^ y % number p0 ∧ 5 ^ y % number p0 < number p0 - 1) (hy1 : 1 < (5 ^ y % number p0) ^ x % number p0)
    (hn : pub0 x ≠ []) :
    ∃ ke kh key, Nonempty (NetSide toy C29.toyKdf dh0 x (pub0 x) (pub0 y) (List.replicate 16 5) ke kh key) := by
  obtain ⟨st, made, h0, hfree, hg⟩ := stP_generates x hgen
  obtain ⟨st', kw, h0', _, hkw, kwr, kwt, kwk⟩ := stP_kw
  rw [h0] at h0'; cases h0'
  have hr : KsReachable C08.env0.prims st := C29.stP_reachable st h0
  obtain ⟨d, hd, hrm, hnk⟩ := generated_key (env := C08.env0) C08.toy_good hr (fun d hd => (dh_generated toy_good hx hd).2.2.2.2.2) hg
  have hk := hnk.holds
  obtain ⟨m1, m2, _, dk, dt, _⟩ := dh_generated toy_good hx hd
  have hcr : storedKeyCreate true rightsAllowAll none KEY_TYPE_DH (tpOfDh p0 [5]) 16 (toy.encDhPriv (number p0) (number [5]) x) = (.OK, some d) := by
    have hpl : p0.length = 16 := by decide
    simp only [generateKey, Lib.gen] at hd
    rw [if_neg (by rw [hpl]; decide), if_neg (by rw [hpl]; simp), if_neg (by omega)] at hd
    simp only [hpl] at hd
    exact Option.some.inj hd
  obtain ⟨_, dr, _, _, ds, _⟩ := storedKeyCreate_ok hcr
  rw [rights_all.1] at dr
  have hdec := toy_good.dhPriv _ _ x m1 m2 hx
  have hpub : C69.publicOf toy.der d = some (pub0 x) := by
    unfold C69.publicOf
    rw [dt]
    simp only [Lib.der, KEY_TYPE_DH, KEY_TYPE_EC]
    rw [dk, hdec]
    rfl
  have hu := hk.2 C08.env0 rfl
  rw [usable dr] at hu
  have hkw2 : KeyHeld C08.toy made 31 C08.u7 kw :=
    held_stays C08.toy_good (ksReachable_inv _ C08.toy_good st hr) (ksReachable_inv _ C08.toy_good made hrm) hkw (hnk.others 31 (by decide))
  have hu0 := hkw2.2 C08.env0 rfl
  rw [usable kwr] at hu0
  have hsec : dhAgree toy noFail d.key (pub0 y) = .secret (bytesOf 16 ((5 ^ y % number p0) ^ x % number p0)) := by
    unfold dhAgree
    have hym : Modest (5 ^ y % number p0) := Nat.lt_trans hy.2 (Nat.lt_of_le_of_lt (Nat.sub_le _ _) m1)
    rw [dk, hdec, pub0, toy_good.dhPub _ _ _ m1 m2 hym]
    simp only
    rw [if_neg (by simp [noFail]), if_neg (by simp [noFail]), if_neg (by simp), if_neg (by simp [noFail]), if_neg (by omega), if_neg (by omega), hnb]
  obtain ⟨o, ho, _, _, _, hok⟩ := netflix_runs C08.toy C08.toy_good (fun _ => C08.env0) (fun _ => rfl) (fun _ _ => rfl) C29.kenv C29.toyKdf_good rfl rfl rfl (toy.agree noFail) made hrm
    rightsAllowAll 30 (pub0 y) ⟨31, rightsAllowAll, rightsAllowAll⟩ C08.u7 ⟨by decide +kernel, by decide +kernel, by decide +kernel⟩ kw d _ hu0 (by rw [kwr]; decide +kernel) kwt
    (by rw [kwk]; decide) (by rw [kwr]; decide +kernel) hu (by rw [dr]; decide +kernel) (by rw [dt, ds]; decide +kernel) hsec (by rw [bytesOf_length]; decide) [0, 1, 2] (by decide) (by decide) hfree
  have hok := hok ⟨rfl, rfl⟩
  have hex : exchangeNetflix (fun _ => C08.env0) C29.kenv (toy.agree noFail) made rightsAllowAll 30 (pub0 y) ⟨31, rightsAllowAll, rightsAllowAll⟩ C08.u7 = some o := by
    unfold exchangeNetflix
    rw [ho]
    simp [netflixCleanup, hok]
  obtain ⟨o2, e2, hc2⟩ := C45.C45_all_or_nothing C08.toy C08.toy_good (fun _ => C08.env0) (fun _ => rfl) C29.kenv C29.toyKdf_good (toy.agree noFail) (agree_good toy_good _) made hrm
    rightsAllowAll 30 (pub0 y) ⟨31, rightsAllowAll, rightsAllowAll⟩ C08.u7 (0, 0, 0)
  rw [hex] at e2
  cases e2
  rcases hc2 with ⟨hc, _⟩ | ⟨_, _, _, _, _, _, _, kw', sk, z, ke, kh, key, c1, c2, _, c4, c5, c6, _, _, _, r1, r2, r3⟩
  · exact absurd hok hc
  · have u1 := (netflix_uses (fun _ => rfl) hex hok c1 c2).1
    rw [hu0] at u1
    cases u1
    simp only [kwr, rights_all.2] at r1 r2 r3
    have v1 := c4.2 C08.env0 rfl
    have v2 := c5.2 C08.env0 rfl
    have v3 := c6.2 C08.env0 rfl
    rw [usable r1] at v1
    rw [usable r2] at v2
    rw [usable r3] at v3
    generalize pub0 x = mx at hpub hn ⊢
    obtain ⟨a, e, h1, h2, _⟩ := C69.C69_public_partial C08.env0 C08.toy_good toy.der made hrm (some mx) mx.length 30 C08.u7 (fun o h => congrArg List.length (Option.some.inj h).symm)
    have hao : a.status = .OK := h1.2 ⟨d, _, ⟨hk, usable dr⟩, hpub, hn, fun _ => Nat.le_refl _⟩
    obtain ⟨k', m', hc, hd', _, hlen, _, o', ho', _, ht, _⟩ := h2 hao
    have := C69.canUse_unique (env := C08.env0) ⟨hk, usable dr⟩ hc
    subst this
    rw [hpub] at hd'
    cases hd'
    refine ⟨ke, kh, key, ⟨?_⟩⟩
    exact { prims := C08.toy, good := C08.toy_good, env := fun _ => C08.env0, device := fun _ => rfl, caller := C08.u7, start := st, reach := hr, rights := rightsAllowAll,
            made := made, handle := 30, generated := hg, asked := made, first := nothing_done _ _ _, buffer := mx, told := made, answer := a, publicKey := e, fine := hao,
            given := by rw [ho', hlen, Option.getD_some, ht]
            before := made, second := nothing_done _ _ _, kwHandle := 31, kwKey := kw, kwHeld := hkw2, kwBytes := kwk, fail := noFail, kdf := C29.kenv, kdfPrims := rfl,
            envs := fun _ => C08.env0, devices := fun _ => rfl, wanted := rightsAllowAll, wantedKe := rightsAllowAll, wantedKh := rightsAllowAll, out := o, exchanged := hex,
            succeeded := hok, usedKe := v1, usedKh := v2, usedKey := v3 }

example : ∃ ke kh key ke' kh' key', Nonempty (NetSide toy C29.toyKdf dh0 60 (pub0 60) (pub0 75) (List.replicate 16 5) ke kh key) ∧
    Nonempty (NetSide toy C29.toyKdf dh0 75 (pub0 75) (pub0 60) (List.replicate 16 5) ke' kh' key') ∧ ke.key = ke'.key ∧ kh.key = kh'.key ∧ key.key = key'.key := by
  obtain ⟨ke, kh, key, ⟨h1⟩⟩ := net_side_exists 60 75 (modest_small _ (by decide)) (by decide +kernel) (by decide +kernel) (by decide +kernel) (by decide +kernel) (by decide +kernel)
    (by decide +kernel)
  obtain ⟨ke', kh', key', ⟨h2⟩⟩ := net_side_exists 75 60 (modest_small _ (by decide)) (by decide +kernel) (by decide +kernel) (by decide +kernel) (by decide +kernel) (by decide +kernel)
    (by decide +kernel)
  obtain ⟨e1, e2, e3, _⟩ := C101_netflix toy toy_good C29.toyKdf C29.toyKdf_good p0 [5] 60 75 (modest_small _ (by decide)) (modest_small _ (by decide)) _ _ _ _ _ _ _ _ _ h1 h2
  exact ⟨ke, kh, key, ke', kh', key', ⟨h1⟩, ⟨h2⟩, e1, e2, e3⟩

end Sa.Agree.C101

import Verif.Props.C76

/-!
# C86: Ciphers of the OpenSSL provider work as the cipher fetched, with the direction, key, IV and padding that were set last

Violated: an IV length set by the application is ignored and success is reported, so that another IV is used; setting a key releases the one
set before, even if it belongs to the application or is the same key.  Otherwise it is so (`C86_message_partial`, `C86_open_partial`).
-/

namespace Sa.Pv.C86

open Sa.Pv.C75 Sa.Pv.C76

variable {ω : Type}

/-- What an application does with a context before it gives data: `EVP_CipherInit_ex2` and `EVP_CIPHER_CTX_set_params`. -/
inductive Setting where
  | init (encrypt : Bool) (key iv : Option Bytes) (params : Option Params)
  | set (p : Params)

/-- `EVP_CipherInit_ex2` asks the provider for the length of the IV and passes so many bytes of the application's. -/
def apply (api : Api ω) (w : ω) (c : Ctx) : Setting → ω × Ctx × Bool
  | .init enc key iv params => init api w c (if enc then 1 else 0) key (iv.map (·.take (getCtx c).ivLength)) params
  | .set p => setParams api w c p

/-- All settings, all successful. -/
def applyAll (api : Api ω) : ω → Ctx → List Setting → Option (ω × Ctx)
  | w, c, [] => some (w, c)
  | w, c, s :: ss => match apply api w c s with
    | (_, _, false) => none
    | (w, c, true) => applyAll api w c ss

/-! ## What was asked for -/

/-- The settings that hold, and where the key is from: the application's or bytes. -/
structure Asked where
  encrypt : Bool
  padding : Bool
  iv : Option Bytes
  key : Option (Nat ⊕ Bytes)

/-- Nothing was set: padding is on in OpenSSL. -/
def nothing : Asked := ⟨false, true, none, none⟩

def Asked.params (a : Asked) (p : Params) : Asked :=
  { a with padding := p.padding.getD a.padding, key := (p.key.map .inl).or a.key }

/-- What is set last holds. -/
def Asked.after (a : Asked) : Setting → Asked
  | .init enc key iv params =>
    let b : Asked := ⟨enc, a.padding, iv.or a.iv, (key.map .inr).or a.key⟩
    match params with
    | none => b
    | some p => b.params p
  | .set p => a.params p

def asked (ss : List Setting) : Asked := ss.foldl .after nothing

/-- The algorithm of SecApi for a cipher of OpenSSL (sa_types.h:305-317). -/
def meant : Name → Bool → Nat
  | .ecb _, false => 0
  | .ecb _, true => 1
  | .cbc _, false => 2
  | .cbc _, true => 3
  | .ctr _, _ => 4
  | .gcm _, _ => 5
  | .chacha20, _ => 9
  | .poly, _ => 10

/-- Bytes of the IV as OpenSSL has them for these ciphers by default. -/
def ivBytes : Name → Nat
  | .ecb _ | .cbc _ | .ctr _ | .chacha20 => 16
  | .gcm _ | .poly => 12

def keyBytes : Name → Nat
  | .ecb b | .cbc b | .ctr b | .gcm b => b / 8
  | .chacha20 | .poly => 32

def block : Name → Nat
  | .ecb _ | .cbc _ => 16
  | _ => 1

def authenticated : Name → Bool
  | .gcm _ | .poly => true
  | _ => false

/-- The parameters of SecApi: OpenSSL's IV for ChaCha20 is the counter, then the nonce. -/
def meantParams : Name → Bytes → Bytes → SymParams
  | .ecb _, _, _ => ⟨[], [], []⟩
  | .cbc _, iv, _ => ⟨iv, [], []⟩
  | .ctr _, iv, _ => ⟨iv, [], []⟩
  | .gcm _, iv, aad => ⟨iv, [], aad⟩
  | .chacha20, iv, _ => ⟨iv.drop 4, iv.take 4, []⟩
  | .poly, iv, aad => ⟨iv, [], aad⟩

/-- The key is the one asked for: the application's, or one imported from the bytes. -/
def IsKey (api : Api ω) (k : Nat) : Nat ⊕ Bytes → Prop
  | .inl h => k = h
  | .inr b => ∃ w w', api.keyImport w b = (w', some k)

/-- IVs have the length that OpenSSL has for the cipher by default. -/
def Setting.ivFits (n : Name) : Setting → Prop
  | .init _ _ (some iv) _ => iv.length = ivBytes n
  | _ => True

/-! ## Proof -/

/-- The context is as asked for. -/
structure Meets (api : Api ω) (n : Name) (a : Asked) (c : Ctx) : Prop where
  alg : c.alg = meant n a.padding
  padded : block n = 16 → c.padded = a.padding
  mode : c.mode = if a.encrypt then 1 else 0
  cipher : c.cipher = none
  rem : c.rem = []
  blockSize : c.blockSize = block n
  aead : c.aead = authenticated n
  tagLength : c.tag.length = 16
  ivLength : c.ivLength = ivBytes n
  ivRoom : c.iv.length = 16
  keySize : c.keySize = keyBytes n
  iv : ∀ iv, a.iv = some iv → c.iv.take c.ivLength = iv ∧ iv.length = ivBytes n
  key : ∀ k, c.key = some k → (∃ w, api.keySize w k = some (keyBytes n)) ∧ ∃ o, a.key = some o ∧ IsKey api k o
  noKey : c.key = none → a.key = none

theorem meets_new (api : Api ω) (n : Name) : Meets api n nothing n.ctx := by
  cases n <;>
    refine ⟨rfl, fun _ => ?_, rfl, rfl, rfl, rfl, rfl, rfl, rfl, rfl, rfl, fun _ h => ?_, fun _ h => ?_, fun _ => rfl⟩ <;>
    first
    | rfl
    | (exact absurd h (by simp [nothing]))
    | (exact absurd h (by simp [Name.ctx, newctx]))
    | (rename_i h; exact absurd h (by simp [block]))

theorem withPadding_meant (n : Name) (a b : Bool) : withPadding (meant n a) b = meant n b := by
  cases n <;> cases a <;> cases b <;> rfl

theorem overwrite_length {a b : Bytes} (h : b.length ≤ a.length) : (overwrite a b).length = a.length := by
  unfold overwrite
  rw [List.length_append, List.length_drop]
  omega

theorem setPlain_meets {api : Api ω} {n : Name} {a : Asked} {c c1 : Ctx} {p : Params} (m : Meets api n a c) (h : setPlain c p = some c1) :
    Meets api n { a with padding := p.padding.getD a.padding } c1 := by
  obtain ⟨pad, tag, key, del, ivl⟩ := p
  unfold setPlain at h
  simp only at h
  cases pad with
  | none =>
    cases tag with
    | none =>
      simp only [Option.some.injEq] at h
      subst h
      exact m
    | some t =>
      simp only at h
      split at h
      · exact absurd h (by simp)
      · rename_i ht
        simp only [Option.some.injEq] at h
        subst h
        exact { m with tagLength := (overwrite_length (by rw [m.tagLength]; omega)).trans m.tagLength }
  | some b =>
    have ha : withPadding c.alg b = meant n b := by rw [m.alg]; exact withPadding_meant n _ b
    cases tag with
    | none =>
      simp only [Option.some.injEq] at h
      subst h
      exact { m with alg := ha, padded := fun _ => rfl }
    | some t =>
      simp only at h
      split at h
      · exact absurd h (by simp)
      · rename_i ht
        simp only [Option.some.injEq] at h
        subst h
        exact { m with
          alg := ha, padded := fun _ => rfl
          tagLength := (overwrite_length (by rw [m.tagLength]; omega)).trans m.tagLength }

theorem setKey_meets {api : Api ω} {n : Name} {a : Asked} {w w1 : ω} {c c1 : Ctx} {key : Option Nat} (m : Meets api n a c)
    (h : setKey api w c key = (w1, some c1)) : Meets api n { a with key := (key.map .inl).or a.key } c1 := by
  cases key with
  | none =>
    simp only [setKey, Prod.mk.injEq, Option.some.injEq] at h
    rw [← h.2]
    exact m
  | some k =>
    unfold setKey at h
    simp only at h
    split at h
    · exact absurd (congrArg Prod.snd h) (by simp)
    · rename_i hs
      have hs : api.keySize w k = some (keyBytes n) := by rw [← m.keySize]; exact Classical.byContradiction hs
      have e : c1 = { c with key := some k } := by
        split at h <;> · simp only [Prod.mk.injEq, Option.some.injEq] at h; exact h.2.symm
      subst e
      refine { m with key := fun k' hk => ?_, noKey := fun hk => absurd hk (by simp) }
      simp only [Option.some.injEq] at hk
      subst hk
      exact ⟨⟨w, hs⟩, .inl k, rfl, rfl⟩

theorem setParams_meets {api : Api ω} {n : Name} {a : Asked} {w w1 : ω} {c c1 : Ctx} {p : Params} (m : Meets api n a c)
    (h : setParams api w c p = (w1, c1, true)) : Meets api n (a.params p) c1 := by
  unfold setParams at h
  split at h
  · exact absurd (congrArg (·.2.2) h) (by simp)
  · rename_i c2 h2
    have m2 := setPlain_meets m h2
    split at h
    · exact absurd (congrArg (·.2.2) h) (by simp)
    · rename_i w3 c3 h3
      have m3 := setKey_meets m2 h3
      simp only [Prod.mk.injEq, and_true] at h
      obtain ⟨_, h⟩ := h
      subst h
      cases p.deleteKey with
      | none => exact m3
      | some b => exact { m3 with }

theorem initKey_meets {api : Api ω} {n : Name} {a : Asked} {w w1 : ω} {c c1 : Ctx} {key : Option Bytes} (m : Meets api n a c)
    (h : initKey api w c key = (w1, c1, true)) : Meets api n { a with key := (key.map .inr).or a.key } c1 := by
  cases key with
  | none =>
    simp only [initKey, Prod.mk.injEq, and_true] at h
    rw [← h.2]
    exact m
  | some b =>
    unfold initKey at h
    simp only at h
    split at h
    · exact absurd (congrArg (·.2.2) h) (by simp)
    · rename_i w2 k h2
      split at h
      · exact absurd (congrArg (·.2.2) h) (by simp)
      · rename_i hs
        have hs : api.keySize w2 k = some (keyBytes n) := by rw [← m.keySize]; exact Classical.byContradiction hs
        simp only [Prod.mk.injEq, and_true] at h
        obtain ⟨_, h⟩ := h
        subst h
        refine { m with key := fun k' hk => ?_, noKey := fun hk => absurd hk (by simp) }
        simp only [Option.some.injEq] at hk
        subst hk
        exact ⟨⟨w2, hs⟩, .inr b, rfl, _, _, h2⟩

theorem ivBytes_le (n : Name) : ivBytes n ≤ 16 := by cases n <;> simp [ivBytes]

theorem apply_meets {api : Api ω} {n : Name} {a : Asked} {w w1 : ω} {c c1 : Ctx} (s : Setting) (hf : s.ivFits n) (m : Meets api n a c)
    (h : apply api w c s = (w1, c1, true)) : Meets api n (a.after s) c1 := by
  cases s with
  | set p => exact setParams_meets m h
  | init enc key iv params =>
    have hiv : iv.map (·.take (getCtx c).ivLength) = iv := by
      cases iv with
      | none => rfl
      | some iv =>
        have hf : iv.length = ivBytes n := hf
        show some (iv.take c.ivLength) = some iv
        rw [m.ivLength, List.take_of_length_le (by omega)]
    unfold apply init at h
    simp only at h
    rw [hiv] at h
    split at h
    · exact absurd (congrArg (·.2.2) h) (by simp)
    · have m1 : Meets api n ⟨enc, a.padding, iv.or a.iv, a.key⟩
          { c with mode := if enc then 1 else 0, cipher := none, iv := overwrite c.iv (iv.getD []) } := by
        refine { m with mode := rfl, cipher := rfl, ivRoom := ?_, iv := fun i hi => ?_ }
        · refine (overwrite_length ?_).trans m.ivRoom
          rw [m.ivRoom]
          omega
        · cases iv with
          | none => exact m.iv i hi
          | some iv =>
            have hf : iv.length = ivBytes n := hf
            simp only [Option.some_or, Option.some.injEq] at hi
            subst hi
            refine ⟨?_, hf⟩
            show (iv ++ _).take c.ivLength = iv
            rw [m.ivLength, ← hf, List.take_left]
      split at h
      · exact absurd (congrArg (·.2.2) h) (by simp)
      · rename_i w2 c2 h2
        have m2 := initKey_meets m1 h2
        cases params with
        | none =>
          simp only [Prod.mk.injEq, and_true] at h
          rw [← h.2]
          exact m2
        | some p => exact setParams_meets m2 h

theorem applyAll_meets {api : Api ω} {n : Name} (ss : List Setting) : ∀ {a : Asked} {w w1 : ω} {c c1 : Ctx}, (∀ s ∈ ss, s.ivFits n) →
    Meets api n a c → applyAll api w c ss = some (w1, c1) → Meets api n (ss.foldl .after a) c1 := by
  induction ss with
  | nil =>
    intro a w w1 c c1 _ m h
    simp only [applyAll, Option.some.injEq, Prod.mk.injEq] at h
    rw [← h.2]
    exact m
  | cons s ss ih =>
    intro a w w1 c c1 hf m h
    unfold applyAll at h
    split at h
    · exact absurd h (by simp)
    · rename_i w2 c2 h2
      exact ih (fun s hs => hf s (List.mem_cons_of_mem _ hs)) (apply_meets s (hf s List.mem_cons_self) m h2) h

theorem Meets.params {api : Api ω} {n : Name} {a : Asked} {c : Ctx} (m : Meets api n a c) (iv aad : Bytes)
    (hiv : (∃ b, n = .ecb b) ∨ a.iv = some iv) : saParams c aad = some (meantParams n iv aad) := by
  have hi : (∃ b, n = .ecb b) ∨ c.iv.take c.ivLength = iv ∧ iv.length = ivBytes n := hiv.imp id (m.iv iv)
  have e := m.alg
  have l := m.ivLength
  unfold saParams
  rw [e]
  cases n with
  | ecb b => cases a.padding <;> rfl
  | cbc b => rcases hi with ⟨b, hb⟩ | ⟨hi, _⟩; cases hb; rw [hi]; cases a.padding <;> rfl
  | ctr b => rcases hi with ⟨b, hb⟩ | ⟨hi, _⟩; cases hb; rw [hi]; rfl
  | gcm b => rcases hi with ⟨b, hb⟩ | ⟨hi, _⟩; cases hb; rw [hi]; rfl
  | poly => rcases hi with ⟨b, hb⟩ | ⟨hi, _⟩; cases hb; rw [hi]; rfl
  | chacha20 =>
    rcases hi with ⟨b, hb⟩ | ⟨hi, hl⟩
    · cases hb
    · have hl : iv.length = 16 := hl
      rw [l, show ivBytes .chacha20 = 16 from rfl, List.take_of_length_le (by rw [m.ivRoom]; omega)] at hi
      rw [hi]
      show some _ = some _
      rw [List.take_of_length_le (by rw [List.length_drop]; omega)]
      rfl

/-! ## The claims -/

/-- What the API gives for the whole message, by the name of the cipher and what was asked for: the complete blocks, then the rest.  Without
padding a rest is refused. -/
def result (api : Api ω) (p : ω → Bytes → ω × Bytes) (n : Name) (a : Asked) (w : ω) (h : Nat) (tag m : Bytes) : Option Bytes :=
  let r := p w (blocks (block n) m)
  if block n = 16 ∧ a.padding = false then if rest (block n) m = [] then some r.2 else none
  else (api.processLast r.1 h (rest (block n) m) (evpRoom (block n) 0) (if authenticated n then some tag else none)).2.map (r.2 ++ ·.1)

/-- **C86** (missing: settings that fail; IVs of another length; as for C75 pieces that stay within a block that was begun before, contexts
that were used before, and calls of the API that fail).  Whatever an application sets on a new context, in whatever order and how often: its
message is processed by an SA context with the algorithm for the cipher's name and the padding set last, the direction set last, the key set
last, which has the cipher's size, and the IV set last. -/
theorem C86_message_partial {api : Api ω} {h k : Nat} {p : ω → Bytes → ω × Bytes} (n : Name) (ss : List Setting) (w w' w1 : ω) (c : Ctx)
    (iv : Bytes) (ms : List Bytes) (hss : applyAll api w n.ctx ss = some (w', c)) (hf : ∀ s ∈ ss, s.ivFits n)
    (hiv : (∃ b, n = .ecb b) ∨ (asked ss).iv = some iv) (hk : c.key = some k)
    (hi : api.cipherInit w' (meant n (asked ss).padding) (if (asked ss).encrypt then 1 else 0) k (meantParams n iv []) = (w1, some h))
    (hp : Streams api h (block n) p) (hs : NoShort (block n) 0 ms) :
    (∃ o, (asked ss).key = some o ∧ IsKey api k o) ∧ (∃ w, api.keySize w k = some (keyBytes n)) ∧
    (message api w' c ms).2.2 = result api p n (asked ss) w1 h c.tag ms.flatten := by
  have m : Meets api n (asked ss) c := applyAll_meets ss hf (meets_new api n) hss
  refine ⟨(m.key k hk).2, (m.key k hk).1, ?_⟩
  rw [C75_message_partial w' w1 c (meantParams n iv []) ms (by rw [m.blockSize]; exact hp) (by rw [m.blockSize]; cases n <;> simp [block]) hk
    m.cipher m.rem (m.params iv [] hiv) (by rw [m.alg, m.mode]; exact hi) (by rw [m.blockSize]; exact hs)]
  unfold whole result
  simp only [m.blockSize, m.aead, m.alg]
  by_cases hn : block n = 16 ∧ (asked ss).padding = false
  · rw [if_pos hn, if_pos]
    rw [hn.2]
    cases n with
    | ecb b => exact Or.inr rfl
    | cbc b => exact Or.inl rfl
    | ctr b => exact absurd hn.1 (by simp [block])
    | gcm b => exact absurd hn.1 (by simp [block])
    | chacha20 => exact absurd hn.1 (by simp [block])
    | poly => exact absurd hn.1 (by simp [block])
  · rw [if_neg hn, if_neg]
    intro ha
    apply hn
    cases hpd : (asked ss).padding with
    | false =>
      rw [hpd] at ha
      cases n with
      | ecb b => exact ⟨rfl, rfl⟩
      | cbc b => exact ⟨rfl, rfl⟩
      | ctr b => exact absurd ha (by simp [meant, CIPHER_AES_CBC, CIPHER_AES_ECB])
      | gcm b => exact absurd ha (by simp [meant, CIPHER_AES_CBC, CIPHER_AES_ECB])
      | chacha20 => exact absurd ha (by simp [meant, CIPHER_AES_CBC, CIPHER_AES_ECB])
      | poly => exact absurd ha (by simp [meant, CIPHER_AES_CBC, CIPHER_AES_ECB])
    | true =>
      rw [hpd] at ha
      cases n <;> exact absurd ha (by simp [meant, CIPHER_AES_CBC, CIPHER_AES_ECB])

/-- **C86** (missing: as above, and for C76).  With additional data and a tag (AES-GCM and ChaCha20-Poly1305). -/
theorem C86_open_partial {api : Api ω} {h k : Nat} {p : ω → Bytes → ω × Bytes} (n : Name) (ss : List Setting) (w w' w1 : ω) (c : Ctx)
    (iv aad tag : Bytes) (ms : List Bytes) (hn : authenticated n = true) (hss : applyAll api w n.ctx ss = some (w', c))
    (hf : ∀ s ∈ ss, s.ivFits n) (hiv : (asked ss).iv = some iv) (hk : c.key = some k)
    (hi : api.cipherInit w' (meant n true) (if (asked ss).encrypt then 1 else 0) k ⟨iv, [], aad⟩ = (w1, some h))
    (hp : Streams api h 1 p) (ht : tag.length = 16) :
    (∃ o, (asked ss).key = some o ∧ IsKey api k o) ∧ (∃ w, api.keySize w k = some (keyBytes n)) ∧
    aeadOpen api w' c aad ms tag = (api.processLast (p w1 ms.flatten).1 h [] 0 (some tag)).2.map fun r => (p w1 ms.flatten).2 ++ r.1 := by
  have m : Meets api n (asked ss) c := applyAll_meets ss hf (meets_new api n) hss
  have ha : meant n (asked ss).padding = meant n true ∧ (meant n true = 5 ∨ meant n true = 10) ∧ block n = 1 := by
    cases n with
    | ecb b => exact absurd hn (by simp [authenticated])
    | cbc b => exact absurd hn (by simp [authenticated])
    | ctr b => exact absurd hn (by simp [authenticated])
    | chacha20 => exact absurd hn (by simp [authenticated])
    | gcm b => exact ⟨rfl, Or.inl rfl, rfl⟩
    | poly => exact ⟨rfl, Or.inr rfl, rfl⟩
  refine ⟨(m.key k hk).2, (m.key k hk).1, ?_⟩
  exact C76_accept_partial w' w1 c aad tag ms hp (by rw [m.alg, ha.1]; exact ha.2.1) (by rw [m.aead]; exact hn) (by rw [m.blockSize]; exact ha.2.2)
    hk m.cipher m.rem ht m.tagLength (by rw [m.alg, ha.1, m.mode, (m.iv iv hiv).1]; exact hi)

/-- **C86**: what the cipher and the context report is true: sizes, the IV set last, the padding set last (for ciphers that pad), and the key
in use. -/
theorem C86_report_partial {api : Api ω} (n : Name) (ss : List Setting) (w w' : ω) (c : Ctx)
    (hss : applyAll api w n.ctx ss = some (w', c)) (hf : ∀ s ∈ ss, s.ivFits n) :
    n.get = ⟨keyBytes n, ivBytes n, block n, authenticated n⟩ ∧
    (getCtx c).keyLength = keyBytes n ∧ (getCtx c).ivLength = ivBytes n ∧ (getCtx c).tag.length = 16 ∧
    (∀ iv, (asked ss).iv = some iv → (getCtx c).iv = iv) ∧ (block n = 16 → (getCtx c).padding = (asked ss).padding) ∧
    (∀ k, (getCtx c).key = some k → ∃ o, (asked ss).key = some o ∧ IsKey api k o) ∧
    ((getCtx c).key = none → (asked ss).key = none) := by
  have m : Meets api n (asked ss) c := applyAll_meets ss hf (meets_new api n) hss
  exact ⟨by cases n <;> rfl, m.keySize, m.ivLength, m.tagLength, fun iv h => (m.iv iv h).1, m.padded, fun k h => (m.key k h).2, m.noKey⟩

/-! ## Cipher contexts of the API -/

/-- Everything that can be done with a context. -/
inductive Use where
  | setting (s : Setting)
  | data (out : Option Nat) (inp : Option Bytes)

def use (api : Api ω) (s : ω × Ctx) : Use → ω × Ctx
  | .setting x => let r := apply api s.1 s.2 x; (r.1, r.2.1)
  | .data out inp => let r := call api s.1 s.2 out inp; (r.1, r.2.1)

theorem setParams_held (api : Api ω) (w : ω × List Nat) (c : Ctx) (p : Params) :
    (setParams (track api) w c p).1.2 = w.2 ∧ (setParams (track api) w c p).2.1.cipher = c.cipher := by
  have hp : ∀ c1, setPlain c p = some c1 → c1.cipher = c.cipher := by
    intro c1 h
    obtain ⟨pad, tag, key, del, ivl⟩ := p
    unfold setPlain at h
    cases pad <;> cases tag <;> simp only at h <;> (try split at h) <;> cases h <;> rfl
  have hk : ∀ w c o, (setKey (track api) w c o).1.2 = w.2 ∧ ∀ c1, (setKey (track api) w c o).2 = some c1 → c1.cipher = c.cipher := by
    intro w c o
    unfold setKey
    cases o with
    | none => exact ⟨rfl, fun c1 h => by cases h; rfl⟩
    | some k =>
      simp only
      split
      · exact ⟨rfl, fun c1 h => by cases h⟩
      · split
        · exact ⟨rfl, fun c1 h => by cases h; rfl⟩
        · exact ⟨rfl, fun c1 h => by cases h; rfl⟩
  unfold setParams
  cases h1 : setPlain c p with
  | none => exact ⟨rfl, rfl⟩
  | some c1 =>
    have e1 := hp c1 h1
    have e2 := hk w c1 p.key
    cases h2 : setKey (track api) w c1 p.key with
    | mk w2 o =>
      rw [h2] at e2
      simp only [h2]
      cases o with
      | none => exact ⟨e2.1, e1⟩
      | some c2 =>
        refine ⟨e2.1, ?_⟩
        have := e2.2 c2 rfl
        simp only
        cases p.deleteKey <;> exact this.trans e1

theorem init_held (api : Api ω) (w : ω × List Nat) (c : Ctx) (m : Nat) (key iv : Option Bytes) (p : Option Params) (l : List Nat)
    (h0 : w.2 = c.cipher.toList ++ l) :
    (init (track api) w c m key iv p).1.2 = l ∧ (init (track api) w c m key iv p).2.1.cipher = none := by
  have h1 : (dropCipher (track api) w c).2 = l := by
    unfold dropCipher
    cases hc : c.cipher with
    | none => rw [h0, hc]; rfl
    | some h =>
      show w.2.erase h = l
      rw [h0, hc]
      exact List.erase_cons_head (a := h) (l := l)
  have hk : ∀ w c, (initKey (track api) w c key).1.2 = w.2 ∧ (initKey (track api) w c key).2.1.cipher = c.cipher := by
    intro w c
    unfold initKey
    cases key with
    | none => exact ⟨rfl, rfl⟩
    | some b =>
      simp only
      have imp : ∀ w0 : ω × List Nat, ((track api).keyImport w0 b).1.2 = w0.2 := fun _ => rfl
      cases c.key with
      | none =>
        simp only
        cases hi : (track api).keyImport w b with
        | mk w1 o =>
          have e : w1.2 = w.2 := by have := imp w; rw [hi] at this; exact this
          cases o with
          | none => exact ⟨e, rfl⟩
          | some k =>
            simp only
            by_cases hs : (track api).keySize w1 k ≠ some c.keySize
            · rw [if_pos hs]
              exact ⟨e, rfl⟩
            · rw [if_neg hs]
              exact ⟨e, rfl⟩
      | some old =>
        simp only
        cases hi : (track api).keyImport ((track api).keyRelease w old) b with
        | mk w1 o =>
          have e : w1.2 = w.2 := by have := imp ((track api).keyRelease w old); rw [hi] at this; exact this
          cases o with
          | none => exact ⟨e, rfl⟩
          | some k =>
            simp only
            by_cases hs : (track api).keySize w1 k ≠ some c.keySize
            · rw [if_pos hs]
              exact ⟨e, rfl⟩
            · rw [if_neg hs]
              exact ⟨e, rfl⟩
  unfold init
  simp only
  generalize dropCipher (track api) w c = w1 at h1 ⊢
  by_cases hl : (iv.getD []).length > 16
  · rw [if_pos hl]
    exact ⟨h1, rfl⟩
  · rw [if_neg hl]
    have e := hk w1 { c with mode := m, cipher := none, iv := overwrite c.iv (iv.getD []) }
    split
    · rename_i w2 c2 h2
      rw [h2] at e
      exact ⟨e.1.trans h1, e.2⟩
    · rename_i w2 c2 h2
      rw [h2] at e
      cases p with
      | none => exact ⟨e.1.trans h1, e.2⟩
      | some p =>
        have s := setParams_held api w2 c2 p
        exact ⟨s.1.trans (e.1.trans h1), s.2.trans e.2⟩

theorem loop_held (api : Api ω) (h room bs : Nat) (inp : Bytes) (n : Nat) : ∀ s : Loop (ω × List Nat),
    ((loop (track api) h room bs inp n s).world).2 = s.world.2 := by
  have feed : ∀ (s : Loop (ω × List Nat)) (b : Bytes), ((s.feed (track api) h room b).world).2 = s.world.2 := by
    intro s b
    unfold Loop.feed
    simp only [track]
    cases api.process s.world.1 h b (room - s.out.length) with
    | mk w r => cases r <;> rfl
  induction n with
  | zero => intro s; rfl
  | succ n ih =>
    intro s
    unfold loop
    split
    · rfl
    · split
      · simp only
        rw [ih, feed]
      · simp only
        rw [ih, feed]

theorem call_held (api : Api ω) (w : ω × List Nat) (c : Ctx) (out : Option Nat) (inp : Option Bytes) (l : List Nat)
    (h0 : w.2 = c.cipher.toList ++ l) :
    (call (track api) w c out inp).1.2 = (call (track api) w c out inp).2.1.cipher.toList ++ l := by
  have fin : ∀ (w1 : ω × List Nat) (c1 : Ctx) (h room : Nat), w1.2 = c1.cipher.toList ++ l →
      (final (track api) w1 c1 h room).1.2 = (final (track api) w1 c1 h room).2.1.cipher.toList ++ l := by
    intro w1 c1 h room h1
    unfold final
    split
    · simp only [track]
      cases api.processLast w1.1 h c1.rem room (if c1.aead then some c1.tag else none) with
      | mk w2 r => cases r <;> exact h1
    · split <;> exact h1
  unfold call
  cases hk : c.key with
  | none => exact h0
  | some k =>
    simp only
    have he : ∀ aad w1 x, ensure (track api) w c k aad = (w1, x) → w1.2 = ((x.map (·.1)).getD c).cipher.toList ++ l := by
      intro aad w1 x hx
      unfold ensure at hx
      cases hc : c.cipher with
      | some h =>
        rw [hc] at hx
        simp only [Prod.mk.injEq] at hx
        rw [← hx.1, ← hx.2]
        exact h0
      | none =>
        rw [hc] at hx
        simp only at hx
        have h0' : w.2 = l := by rw [h0, hc]; rfl
        cases hp : saParams c aad with
        | none =>
          rw [hp] at hx
          simp only [Prod.mk.injEq] at hx
          rw [← hx.1, ← hx.2]
          exact h0
        | some sp =>
          rw [hp] at hx
          simp only at hx
          have ht := track_init api w c.alg c.mode k sp
          cases hi : (track api).cipherInit w c.alg c.mode k sp with
          | mk w2 o =>
            rw [hi] at hx ht
            cases o with
            | none =>
              simp only [Prod.mk.injEq] at hx
              rw [← hx.1, ← hx.2]
              rw [ht, h0]
              rfl
            | some h' =>
              simp only [Prod.mk.injEq] at hx
              rw [← hx.1, ← hx.2, ht, h0']
              rfl
    split
    · rename_i w1 hx
      exact he _ _ _ hx
    · rename_i w1 c1 h1 hx
      have i := he _ _ _ hx
      simp only [Option.map_some, Option.getD_some] at i
      split
      · exact i
      · unfold update
        simp only
        rw [loop_held]
        exact i
      · exact fin _ _ _ _ i

/-- **C86, cipher contexts.**  Whatever is done with a context, with whatever success: when it is freed, no cipher context of the API is left
that it made, and none is released that it did not make. -/
theorem C86_released (api : Api ω) (n : Name) (w : ω) (l : List Nat) (us : List Use) :
    (freectx (track api) (us.foldl (use (track api)) ((w, l), n.ctx)).1 (us.foldl (use (track api)) ((w, l), n.ctx)).2).2 = l := by
  have run : ∀ (us : List Use) (s : (ω × List Nat) × Ctx), s.1.2 = s.2.cipher.toList ++ l →
      (us.foldl (use (track api)) s).1.2 = (us.foldl (use (track api)) s).2.cipher.toList ++ l := by
    intro us
    induction us with
    | nil => exact fun s h => h
    | cons u us ih =>
      intro s h
      refine ih _ ?_
      cases u with
      | data out inp => exact call_held api s.1 s.2 out inp l h
      | setting x => cases x with
        | set p =>
          have e := setParams_held api s.1 s.2 p
          show (setParams (track api) s.1 s.2 p).1.2 = (setParams (track api) s.1 s.2 p).2.1.cipher.toList ++ l
          rw [e.1, e.2]
          exact h
        | init enc key iv p =>
          have e := init_held api s.1 s.2 (if enc then 1 else 0) key (iv.map (·.take (getCtx s.2).ivLength)) p l h
          show (init (track api) s.1 s.2 (if enc then 1 else 0) key (iv.map (·.take (getCtx s.2).ivLength)) p).1.2 =
            (init (track api) s.1 s.2 (if enc then 1 else 0) key (iv.map (·.take (getCtx s.2).ivLength)) p).2.1.cipher.toList ++ l
          rw [e.1, e.2]
          rfl
  have e := run us ((w, l), n.ctx) (by cases n <;> rfl)
  generalize us.foldl (use (track api)) ((w, l), n.ctx) = s at e
  obtain ⟨w', c⟩ := s
  have hw : (match c.cipher with | some h => (track api).cipherRelease w' h | none => w').2 = l := by
    simp only at e
    cases hc : c.cipher with
    | none => rw [hc] at e; exact e
    | some h =>
      rw [hc] at e
      show w'.2.erase h = l
      rw [e]
      exact List.erase_cons_head (a := h) (l := l)
  unfold freectx
  simp only
  split
  · exact hw
  · exact hw

/-! ## Violations -/

/-- **C86 is violated**, whatever the API does: the application sets the length of the IV of AES-GCM and gives an IV of this length (SecApi and
OpenSSL take any): both calls succeed, and the SA context gets another IV, the first 12 bytes. -/
theorem C86_violated_ivlen (api : Api ω) (w : ω) (bits : Nat) (enc : Bool) (iv aad : Bytes) (hl : iv.length > 12) :
    ∃ c, applyAll api w (Name.gcm bits).ctx [.set { ivLength := some iv.length }, .init enc none (some iv) none] = some (w, c) ∧
      saParams c aad = some ⟨iv.take 12, [], aad⟩ ∧ iv.take 12 ≠ iv := by
  have e : applyAll api w (Name.gcm bits).ctx [.set { ivLength := some iv.length }, .init enc none (some iv) none] =
      some (w, { (Name.gcm bits).ctx with mode := if enc then 1 else 0, iv := overwrite (List.replicate 16 0) (iv.take 12) }) := by
    simp only [applyAll, apply, setParams, setPlain, setKey, init, Option.map_some, Option.getD_some]
    rw [show (getCtx (Name.gcm bits).ctx).ivLength = 12 from rfl,
      if_neg (show ¬(iv.take 12).length > 16 by rw [List.length_take]; omega)]
    rfl
  refine ⟨_, e, ?_, ?_⟩
  · show some _ = some _
    have : (overwrite (List.replicate 16 0) (iv.take 12)).take 12 = iv.take 12 := by
      have hl : (iv.take 12).length = 12 := by rw [List.length_take]; omega
      unfold overwrite
      rw [List.take_append, hl, List.take_take]
      simp
    exact congrArg (fun x => some (SymParams.mk x [] aad)) this
  · intro h
    have := congrArg List.length h
    rw [List.length_take] at this
    omega

/-- **C86 is violated**, whatever the API does: an application that sets its key once more, for example with the parameters of another
`EVP_CipherInit_ex2` for the next message, loses the key, and the context goes on using it. -/
theorem C86_violated_again (api : Api ω) (w : ω) (n : Name) (k : Nat) (hk : api.keySize w k = some (keyBytes n)) :
    ∃ c, applyAll api w n.ctx [.set { key := some k }, .set { key := some k }] = some (api.keyRelease w k, c) ∧ c.key = some k := by
  have hs : n.ctx.keySize = keyBytes n := by cases n <;> rfl
  have hn : n.ctx.key = none := by cases n <;> rfl
  have e1 : setKey api w n.ctx (some k) = (w, some { n.ctx with key := some k }) := by
    unfold setKey
    simp only
    rw [if_neg (by rw [hk, hs]; simp), hn]
  have e2 : setKey api w { n.ctx with key := some k } (some k) = (api.keyRelease w k, some { n.ctx with key := some k }) := by
    unfold setKey
    simp only
    rw [if_neg (by rw [hk, hs]; simp)]
  refine ⟨{ n.ctx with key := some k }, ?_, rfl⟩
  simp only [applyAll, apply, setParams, setPlain]
  rw [e1]
  simp only
  rw [e2]

/-- **C86 is violated**, whatever the API does: a key the application lent (without asking to delete it) is released when another is set. -/
theorem C86_violated_lent (api : Api ω) (w : ω) (n : Name) (k k' : Nat) (hk : api.keySize w k = some (keyBytes n))
    (hk' : api.keySize w k' = some (keyBytes n)) :
    ∃ c, applyAll api w n.ctx [.set { key := some k, deleteKey := some false }, .set { key := some k' }] = some (api.keyRelease w k, c) ∧
      c.key = some k' := by
  have hs : n.ctx.keySize = keyBytes n := by cases n <;> rfl
  have hn : n.ctx.key = none := by cases n <;> rfl
  have e1 : setKey api w n.ctx (some k) = (w, some { n.ctx with key := some k }) := by
    unfold setKey
    simp only
    rw [if_neg (by rw [hk, hs]; simp), hn]
  have e2 : setKey api w { n.ctx with key := some k, deleteKey := false } (some k') =
      (api.keyRelease w k, some { n.ctx with key := some k', deleteKey := false }) := by
    unfold setKey
    simp only
    rw [if_neg (by rw [hk', hs]; simp)]
  refine ⟨{ n.ctx with key := some k', deleteKey := false }, ?_, rfl⟩
  simp only [applyAll, apply, setParams, setPlain]
  rw [e1]
  simp only
  rw [e2]

/-! ## Examples -/

/-- AES-128-CBC with key bytes and an IV, then without padding and with another IV for deciphering. -/
def twice : List Setting :=
  [.init true (some (List.replicate 16 7)) (some (List.replicate 16 1)) none, .set { padding := some false },
    .init false none (some (List.replicate 16 2)) none]

example : ((asked twice).encrypt, (asked twice).padding, (asked twice).iv) = (false, false, some (List.replicate 16 2)) := rfl

/-- An API with keys of 16 bytes. -/
def sixteen : Api Unit :=
  { plain with keyImport := fun _ _ => ((), some 5), keySize := fun _ _ => some 16 }

example : ((applyAll sixteen () (Name.cbc 128).ctx twice).map fun r => (r.2.key, r.2.alg)) = some (some 5, 2) := by decide

example : (applyAll sixteen () (Name.cbc 128).ctx twice).bind (fun r => (message sixteen r.1 r.2 [List.replicate 20 3, List.replicate 12 4]).2.2) =
    some (List.replicate 20 3 ++ List.replicate 12 4) := by decide

example : ∀ s ∈ twice, s.ivFits (.cbc 128) := by
  intro s hs
  simp only [twice, List.mem_cons, List.not_mem_nil, or_false] at hs
  rcases hs with rfl | rfl | rfl
  · rfl
  · trivial
  · rfl

/-- A key of another size is refused. -/
example : (applyAll sixteen () (Name.cbc 256).ctx twice).isNone = true := by decide

example : (List.replicate 16 9 : Bytes).length > 12 := by decide

/-- A context is made, is used and is released. -/
example : (let us : List Use := twice.map .setting ++ [.data (some 32) (some (List.replicate 16 1))]
    let s := us.foldl (use (track sixteen)) (((), [3]), (Name.cbc 128).ctx)
    (s.1.2, (freectx (track sixteen) s.1 s.2).2)) = ([5, 3], [3]) := by decide +kernel

end Sa.Pv.C86

import Verif.Props.C75

/-!
# C76: Data deciphered with a tag through the OpenSSL provider is accepted only if the tag belongs to all data and all additional data

Violated: finishing without an output buffer reports success and checks nothing; additional data is only taken from the first call, further
additional data is ignored; tags shorter than 16 bytes are filled up with zeros.  With additional data given at once, an output buffer for the
last call and a tag of 16 bytes it is so (`C76_accept_partial`).
-/

namespace Sa.Pv.C76

open Sa.Pv.C75

variable {ω : Type}

/-- `EVP_DecryptUpdate` without output for the additional data. -/
def giveAad (api : Api ω) (w : ω) (c : Ctx) (aad : Bytes) : ω × Ctx × Bool :=
  match call api w c none (some aad) with
  | (w, c, r) => (w, c, r.ok)

/-- Additional data, the message piece by piece, the tag, `EVP_DecryptFinal_ex` with an output buffer: what the application gets, if all
calls succeed. -/
def aeadOpen (api : Api ω) (w : ω) (c : Ctx) (aad : Bytes) (ms : List Bytes) (tag : Bytes) : Option Bytes :=
  match giveAad api w c aad with
  | (_, _, false) => none
  | (w, c, true) => match updates api w c ms with
    | (_, _, none) => none
    | (w, c, some o) => match setParams api w c { tag := some tag } with
      | (_, _, false) => none
      | (w, c, true) => match call api w c (some 0) none with
        | (_, _, r) => if r.ok then some (o ++ r.out.take r.outl) else none

/-- **C76** (missing: additional data in several calls; the last call without an output buffer; shorter tags; calls of the API that fail).
What is accepted is what the API accepts: a context made with this additional data was given the whole message and this tag, and agreed. -/
theorem C76_accept_partial {api : Api ω} {h k : Nat} {p : ω → Bytes → ω × Bytes} (w w1 : ω) (c : Ctx) (aad tag : Bytes) (ms : List Bytes)
    (hp : Streams api h 1 p) (ha : c.alg = CIPHER_AES_GCM ∨ c.alg = CIPHER_CHACHA20_POLY1305) (haead : c.aead = true)
    (hbs : c.blockSize = 1) (hk : c.key = some k) (hc : c.cipher = none) (hrem : c.rem = []) (ht : tag.length = 16)
    (hct : c.tag.length = 16) (hi : api.cipherInit w c.alg c.mode k ⟨c.iv.take c.ivLength, [], aad⟩ = (w1, some h)) :
    aeadOpen api w c aad ms tag =
      (api.processLast (p w1 ms.flatten).1 h [] 0 (some tag)).2.map fun r => (p w1 ms.flatten).2 ++ r.1 := by
  obtain ⟨alg, mode, keySize, blockSize, ivLength, key, cipher, iv, padded, aead, ctag, deleteKey, rem⟩ := c
  simp only at ha haead hbs hk hc hrem hct hi
  subst haead hbs hk hc hrem
  have hsp : saParams ⟨alg, mode, keySize, 1, ivLength, some k, none, iv, padded, true, ctag, deleteKey, []⟩ aad =
      some ⟨iv.take ivLength, [], aad⟩ := by
    unfold saParams
    rcases ha with ha | ha <;> subst ha <;> rfl
  have hg : giveAad api w ⟨alg, mode, keySize, 1, ivLength, some k, none, iv, padded, true, ctag, deleteKey, []⟩ aad =
      (w1, ⟨alg, mode, keySize, 1, ivLength, some k, some h, iv, padded, true, ctag, deleteKey, []⟩, true) := by
    unfold giveAad call ensure
    simp only [Option.isNone_none, if_true, Option.getD_some, hsp, hi]
  have hns : ¬(alg = CIPHER_AES_CBC ∨ alg = CIPHER_AES_ECB) := by
    rcases ha with ha | ha <;> subst ha <;> decide
  have u := updates_eq ms w1 ⟨alg, mode, keySize, 1, ivLength, some k, some h, iv, padded, true, ctag, deleteKey, []⟩ k hp
    Nat.one_pos Nat.one_pos rfl rfl (C75_stream_partial _ _ rfl)
  have hb : blocks 1 ms.flatten = ms.flatten ∧ rest 1 ms.flatten = [] := by
    unfold blocks rest
    rw [Nat.div_one, Nat.mul_one]
    exact ⟨List.take_length, List.drop_length⟩
  simp only [List.nil_append, hb.1, hb.2] at u
  have hs : setParams api (p w1 ms.flatten).1 ⟨alg, mode, keySize, 1, ivLength, some k, some h, iv, padded, true, ctag, deleteKey, []⟩
        { tag := some tag } =
      ((p w1 ms.flatten).1, ⟨alg, mode, keySize, 1, ivLength, some k, some h, iv, padded, true, tag, deleteKey, []⟩, true) := by
    unfold setParams setPlain
    simp only
    rw [if_neg (by omega)]
    simp only [setKey]
    unfold overwrite
    rw [List.drop_of_length_le (by omega), List.append_nil]
  unfold aeadOpen
  rw [hg]
  simp only
  rw [u]
  simp only
  rw [hs]
  simp only
  rw [call_final (k := k) (h := h) rfl rfl, final_last _ _ _ _ _ hns]
  simp only [if_true]
  cases hl : api.processLast (p w1 ms.flatten).1 h [] 0 (some tag) with
  | mk w2 r => cases r with
    | none => simp
    | some x => simp

/-- **C76 is violated**, whatever the API would say about the tag: finishing without an output buffer asks nothing and succeeds. -/
theorem C76_violated_final (api : Api ω) (w : ω) (c : Ctx) (k h : Nat) (hk : c.key = some k) (hc : c.cipher = some h) :
    call api w c none none = (w, c, ⟨true, [], 0⟩) := by
  unfold call ensure
  rw [hk, hc]

/-- **C76 is violated**, whatever the API does: additional data given after the first call is ignored and success is reported. -/
theorem C76_violated_aad (api : Api ω) (w : ω) (c : Ctx) (k h : Nat) (hk : c.key = some k) (hc : c.cipher = some h) (aad : Bytes) :
    giveAad api w c aad = (w, c, true) := by
  unfold giveAad call ensure
  rw [hk, hc]

/-- **C76 is violated**: for a tag of fewer than 16 bytes the API is asked about another tag of 16 bytes, so that a message with a shorter
tag is refused (SecApi takes GCM tags of any length up to 16). -/
theorem C76_violated_short (api : Api ω) (w w' : ω) (c c' : Ctx) (k h : Nat) (tag : Bytes) (ht : tag.length < 16) (hct : c.tag.length = 16)
    (hk : c.key = some k) (hc : c.cipher = some h) (ha : c.alg = CIPHER_AES_GCM) (haead : c.aead = true)
    (hs : setParams api w c { tag := some tag } = (w', c', true)) :
    ∃ t, t ≠ tag ∧ t.length = 16 ∧
      ((call api w' c' (some 0) none).2.2.ok = true ↔ ∃ r, (api.processLast w h c.rem 0 (some t)).2 = some r) := by
  unfold setParams setPlain at hs
  simp only at hs
  rw [if_neg (by omega)] at hs
  simp only [setKey] at hs
  injection hs with h1 h2
  injection h2 with h2 _
  subst h1 h2
  have hlen : (overwrite c.tag tag).length = 16 := by
    unfold overwrite
    rw [List.length_append, List.length_drop]
    omega
  refine ⟨overwrite c.tag tag, ?_, hlen, ?_⟩
  · intro e
    rw [e] at hlen
    omega
  · rw [call_final (c := { c with tag := overwrite c.tag tag }) (k := k) (h := h) hk hc,
      final_last _ _ { c with tag := overwrite c.tag tag } _ _ (by show ¬(c.alg = _ ∨ c.alg = _); rw [ha]; decide)]
    simp only [haead, if_true]
    cases api.processLast w h c.rem 0 (some (overwrite c.tag tag)) with
    | mk w2 r => cases r with
      | none => simp
      | some x => simp

/-! ## Examples -/

/-- An API whose tag is the sum of all bytes, sixteen times. -/
def sum (b : Bytes) : UInt8 := b.foldl (· + ·) 0

def summing : Api UInt8 :=
  { keyImport := fun w _ => (w, some 1), keySize := fun _ _ => some 16, keyRelease := fun w _ => w
    cipherInit := fun _ _ _ _ sp => (sum sp.aad, some 5)
    process := fun w _ b room => if room < b.length then (w, none) else (w + sum b, some b)
    processLast := fun w _ b _ t =>
      match t with
      | some t => if t.all (· == w + sum b) then (w, some (b, none)) else (w, none)
      | none => (w, none)
    cipherRelease := fun w _ => w }

/-- AES-128-GCM as new, with a key. -/
def gcm : Ctx := { (Name.gcm 128).ctx with key := some 1 }

example : aeadOpen summing 0 gcm (bytes 3 1) [bytes 2 2, bytes 1 4] (bytes 16 11) = some (bytes 2 2 ++ bytes 1 4) := by decide
example : aeadOpen summing 0 gcm (bytes 3 1) [bytes 2 2, bytes 1 4] (bytes 16 12) = none := by decide
/-- Other additional data. -/
example : aeadOpen summing 0 gcm (bytes 4 1) [bytes 2 2, bytes 1 4] (bytes 16 11) = none := by decide

theorem sum_start (b : Bytes) : ∀ x : UInt8, List.foldl (· + ·) x b = x + sum b := by
  induction b with
  | nil => intro x; simp [sum]
  | cons a l ih =>
    intro x
    simp only [List.foldl_cons, sum]
    rw [ih, ih (0 + a)]
    rw [UInt8.zero_add, UInt8.add_assoc]

/-- The hypotheses of `C76_accept_partial` are met. -/
theorem summing_streams : Streams summing 5 1 (fun w b => (w + sum b, b)) where
  process := by
    intro w b room _ hr
    show (if room < b.length then (w, none) else (w + sum b, some b)) = _
    rw [if_neg (by omega)]
  append := by
    intro w a b _ _
    refine Prod.ext ?_ rfl
    show w + sum (a ++ b) = w + sum a + sum b
    have : sum (a ++ b) = sum a + sum b := by
      show List.foldl (· + ·) 0 (a ++ b) = _
      rw [List.foldl_append]
      exact sum_start b _
    rw [this, UInt8.add_assoc]
  nil := by intro w; refine Prod.ext ?_ rfl; show w + 0 = w; simp
  short := by intros; exact Nat.le_refl _

example (ms : List Bytes) (tag : Bytes) (ht : tag.length = 16) :
    aeadOpen summing 0 gcm [7] ms tag = (summing.processLast (7 + sum ms.flatten) 5 [] 0 (some tag)).2.map fun r => ms.flatten ++ r.1 :=
  C76_accept_partial (p := fun w b => (w + sum b, b)) 0 7 gcm [7] tag ms summing_streams (Or.inl rfl) rfl rfl rfl rfl rfl ht rfl rfl

/-- A wrong tag is accepted without an output buffer, and refused with one. -/
example :
    let c := { gcm with cipher := some 5, tag := bytes 16 9 }
    (call summing 11 c none none).2.2.ok = true ∧ (call summing 11 c (some 0) none).2.2.ok = false := by decide

/-- Additional data in two calls: the second part may be anything. -/
example :
    let r := giveAad summing 0 gcm (bytes 3 1)
    giveAad summing r.1 r.2.1 (bytes 5 9) = r := by decide

/-- A shorter tag that is right. -/
example :
    let r := setParams summing 11 { gcm with cipher := some 5 } { tag := some (bytes 12 11) }
    (call summing r.1 r.2.1 (some 0) none).2.2.ok = false := by decide

end Sa.Pv.C76

import Verif.Lemmas.ProviderCipher

/-!
# C75: A message enciphered through the OpenSSL provider does not depend on how it is cut into pieces, nor on earlier messages

Violated: of two short pieces in a row the first is lost, bytes left over from an earlier message get into the next one, and an update can
report success though a block was refused.  For other ways of cutting it is so (`C75_message_partial`).
-/

namespace Sa.Pv.C75

variable {ω : Type}

/-- The room OpenSSL gives for an update (`EVP_EncryptUpdate`, `EVP_DecryptUpdate`). -/
def evpRoom (bs n : Nat) : Nat := n + (if bs = 1 then 0 else bs)

/-- An application gives a message piece by piece: what it gets, if no call fails. -/
def updates (api : Api ω) : ω → Ctx → List Bytes → ω × Ctx × Option Bytes
  | w, c, [] => (w, c, some [])
  | w, c, m :: ms =>
    match call api w c (some (evpRoom c.blockSize m.length)) (some m) with
    | (w, c, r) =>
      if r.ok then
        match updates api w c ms with
        | (w, c, o) => (w, c, o.map (r.out.take r.outl ++ ·))
      else (w, c, none)

/-- The pieces and `EVP_EncryptFinal_ex` or `EVP_DecryptFinal_ex`. -/
def message (api : Api ω) (w : ω) (c : Ctx) (ms : List Bytes) : ω × Ctx × Option Bytes :=
  match updates api w c ms with
  | (w, c, none) => (w, c, none)
  | (w, c, some o) =>
    match call api w c (some (evpRoom c.blockSize 0)) none with
    | (w, c, r) => (w, c, if r.ok then some (o ++ r.out.take r.outl) else none)

/-- No piece other than an empty one stays within a block that was begun by an earlier piece (`r`: how many bytes of the block there are). -/
def NoShort (bs : Nat) : Nat → List Bytes → Prop
  | _, [] => True
  | r, m :: ms => (r = 0 ∨ m = [] ∨ bs ≤ r + m.length) ∧ NoShort bs ((r + m.length) % bs) ms

/-- What the API gives for the whole message: the complete blocks, then the rest as the last piece. -/
def whole (api : Api ω) (p : ω → Bytes → ω × Bytes) (w : ω) (h : Nat) (c : Ctx) (m : Bytes) : Option Bytes :=
  let r := p w (blocks c.blockSize m)
  if c.alg = CIPHER_AES_CBC ∨ c.alg = CIPHER_AES_ECB then if rest c.blockSize m = [] then some r.2 else none
  else (api.processLast r.1 h (rest c.blockSize m) (evpRoom c.blockSize 0) (if c.aead then some c.tag else none)).2.map (r.2 ++ ·.1)

theorem updates_eq {api : Api ω} {h : Nat} {p : ω → Bytes → ω × Bytes} (ms : List Bytes) : ∀ (w : ω) (c : Ctx) (k : Nat),
    Streams api h c.blockSize p → 0 < c.blockSize → c.rem.length < c.blockSize → c.key = some k → c.cipher = some h →
    NoShort c.blockSize c.rem.length ms →
    updates api w c ms = ((p w (blocks c.blockSize (c.rem ++ ms.flatten))).1, { c with rem := rest c.blockSize (c.rem ++ ms.flatten) },
      some (p w (blocks c.blockSize (c.rem ++ ms.flatten))).2) := by
  induction ms with
  | nil =>
    intro w c k hp hbs hrem hk hc hs
    have hb := blocks_short (bs := c.blockSize) (m := c.rem) hrem
    simp only [updates, List.flatten_nil, List.append_nil, hb, hp.nil]
  | cons m ms ih =>
    intro w c k hp hbs hrem hk hc hs
    obtain ⟨h1, h2⟩ := hs
    have hcut : c.rem = [] ∨ m = [] ∨ c.blockSize ≤ c.rem.length + m.length := by
      rcases h1 with h | h | h
      · exact Or.inl (List.length_eq_zero_iff.mp h)
      · exact Or.inr (Or.inl h)
      · exact Or.inr (Or.inr h)
    have hroom : c.rem.length + m.length ≤ evpRoom c.blockSize m.length := by
      unfold evpRoom
      split <;> omega
    have e := call_update (api := api) (w := w) hk hc (evpRoom c.blockSize m.length) m
    rw [update_eq w c m hp hbs hrem hcut hroom] at e
    have i := ih (p w (blocks c.blockSize (c.rem ++ m))).1 { c with rem := rest c.blockSize (c.rem ++ m) } k hp hbs
      (by show (rest _ _).length < _; rw [rest_length]; exact Nat.mod_lt _ hbs) hk hc
      (by show NoShort _ (rest _ _).length _; rw [rest_length, List.length_append]; exact h2)
    simp only [updates]
    rw [e]
    simp only [if_true]
    rw [i]
    simp only [Option.map_some, List.take_length]
    have hsplit : c.rem ++ (m :: ms).flatten = blocks c.blockSize (c.rem ++ m) ++ (rest c.blockSize (c.rem ++ m) ++ ms.flatten) := by
      rw [← List.append_assoc, blocks_rest, List.flatten_cons, List.append_assoc]
    have hm : (blocks c.blockSize (c.rem ++ m)).length % c.blockSize = 0 := by rw [blocks_length]; exact Nat.mul_mod_left _ _
    have hb := blocks_append hbs (blocks c.blockSize (c.rem ++ m)) (rest c.blockSize (c.rem ++ m) ++ ms.flatten) hm
    rw [hsplit, hb.1, hb.2, hp.append _ (blocks c.blockSize (c.rem ++ m)) _ hm (by rw [blocks_length]; exact Nat.mul_mod_left _ _)]

/-- **C75** (missing: pieces that stay within a block that was begun before; a context that was used before; calls of the API that fail).  A
message given to a new context piece by piece gives what the API gives for the whole message.  `hp` is what C34 shows for the TA. -/
theorem C75_message_partial {api : Api ω} {h k : Nat} {p : ω → Bytes → ω × Bytes} (w w1 : ω) (c : Ctx) (sp : SymParams) (ms : List Bytes)
    (hp : Streams api h c.blockSize p) (hbs : 0 < c.blockSize) (hk : c.key = some k) (hc : c.cipher = none) (hrem : c.rem = [])
    (hsp : saParams c [] = some sp) (hi : api.cipherInit w c.alg c.mode k sp = (w1, some h)) (hs : NoShort c.blockSize 0 ms) :
    (message api w c ms).2.2 = whole api p w1 h c ms.flatten := by
  have he : ensure api w c k [] = (w1, some ({ c with cipher := some h }, h)) := by
    unfold ensure
    rw [hc]
    simp only [hsp, hi]
  have hstart : message api w c ms = message api w1 { c with cipher := some h } ms := by
    cases ms with
    | nil =>
      simp only [message, updates]
      rw [call_ensure (c1 := { c with cipher := some h }) hk hk rfl he]
    | cons m ms =>
      simp only [message, updates]
      rw [call_ensure (c1 := { c with cipher := some h }) hk hk rfl he]
  rw [hstart]
  have u := updates_eq ms w1 { c with cipher := some h } k hp hbs (by rw [hrem]; exact hbs) hk rfl (by rw [hrem]; exact hs)
  simp only [message]
  rw [u]
  simp only [hrem, List.nil_append]
  rw [call_final (c := { c with cipher := some h, rem := rest c.blockSize ms.flatten }) (k := k) (h := h) hk rfl]
  unfold whole
  simp only
  by_cases ha : c.alg = CIPHER_AES_CBC ∨ c.alg = CIPHER_AES_ECB
  · rw [final_block _ _ { c with cipher := some h, rem := rest c.blockSize ms.flatten } _ _ ha, if_pos ha]
    by_cases hr : rest c.blockSize ms.flatten = []
    · simp [hr]
    · simp [hr]
  · rw [final_last _ _ { c with cipher := some h, rem := rest c.blockSize ms.flatten } _ _ ha, if_neg ha]
    cases hl : api.processLast (p w1 (blocks c.blockSize ms.flatten)).1 h (rest c.blockSize ms.flatten) (evpRoom c.blockSize 0)
        (if c.aead then some c.tag else none) with
    | mk w2 r => cases r with
      | none => simp
      | some x => simp

/-- For the ciphers without blocks (CTR, GCM, ChaCha20, ChaCha20-Poly1305) the pieces may be any. -/
theorem C75_stream_partial (ms : List Bytes) : ∀ r, r = 0 → NoShort 1 r ms := by
  induction ms with
  | nil => intros; trivial
  | cons m ms ih => intro r hr; exact ⟨Or.inl hr, ih _ (Nat.mod_one _)⟩

/-- So cutting does not matter for them. -/
theorem C75_cut_partial {api : Api ω} {h k : Nat} {p : ω → Bytes → ω × Bytes} (w w1 : ω) (c : Ctx) (sp : SymParams) (ms ms' : List Bytes)
    (hp : Streams api h 1 p) (hbs : c.blockSize = 1) (hk : c.key = some k) (hc : c.cipher = none) (hrem : c.rem = [])
    (hsp : saParams c [] = some sp) (hi : api.cipherInit w c.alg c.mode k sp = (w1, some h)) (hf : ms.flatten = ms'.flatten) :
    (message api w c ms).2.2 = (message api w c ms').2.2 := by
  rw [C75_message_partial w w1 c sp ms (by rw [hbs]; exact hp) (by omega) hk hc hrem hsp hi (by rw [hbs]; exact C75_stream_partial _ _ rfl),
    C75_message_partial w w1 c sp ms' (by rw [hbs]; exact hp) (by omega) hk hc hrem hsp hi (by rw [hbs]; exact C75_stream_partial _ _ rfl), hf]

/-- **C75 is violated**, whatever the API does: of two pieces that do not complete a block the first is lost.  All messages that differ in
the first piece only give the same result.  (AES-CBC and AES-ECB, with and without padding.) -/
theorem C75_violated_short (api : Api ω) (w : ω) (c : Ctx) (k h : Nat) (hk : c.key = some k) (hc : c.cipher = some h)
    (hbs : c.blockSize = 16) (hrem : c.rem = []) (a a' b : Bytes) (ms : List Bytes) (hb : b ≠ []) (hl : a.length + b.length < 16)
    (hl' : a'.length + b.length < 16) :
    message api w c (a :: b :: ms) = message api w c (a' :: b :: ms) := by
  have hbl : 0 < b.length := by cases b with | nil => exact absurd rfl hb | cons _ _ => simp
  have one : ∀ (c : Ctx), c.key = some k → c.cipher = some h → c.blockSize = 16 → ∀ x : Bytes, c.rem.length + x.length < 16 → ∀ room,
      call api w c (some room) (some x) = (w, { c with rem := if 0 < x.length then x else c.rem }, ⟨true, [], 0⟩) := by
    intro c hk hc hbs x hx room
    rw [call_update hk hc]
    rw [update_of_loop (loop_done api h room c.blockSize x 3 ⟨w, c.rem.length + x.length, 0, c.rem, true, [], 0⟩ (by rw [hbs]; exact hx)) rfl]
    simp
  have two : ∀ x : Bytes, x.length + b.length < 16 → message api w c (x :: b :: ms) = message api w { c with rem := b } ms := by
    intro x hx
    simp only [message, updates]
    rw [one c hk hc hbs x (by rw [hrem]; simp; omega)]
    simp only [if_true]
    rw [one _ (by exact hk) (by exact hc) (by exact hbs) b (by
      show (if 0 < x.length then x else c.rem).length + b.length < 16
      split
      · exact hx
      · rw [hrem, List.length_nil]; omega)]
    simp only [if_true, if_pos hbl, List.take_nil, List.nil_append]
    cases updates api w { c with rem := b } ms with
    | mk w2 r => cases r with
      | mk c2 o => cases o with
        | none => rfl
        | some o => rfl
  rw [two a hl, two a' hl']

/-- **C75 is violated**, whatever the API does: a context that is initialised again keeps the bytes left over from the earlier message. -/
theorem C75_violated_reuse (api : Api ω) (w : ω) (c : Ctx) (mode : Nat) (key iv : Option Bytes) (params : Option Params) :
    (init api w c mode key iv params).2.1.rem = c.rem := by
  have hk : ∀ w (c : Ctx), (initKey api w c key).2.1.rem = c.rem := by
    intro w c
    unfold initKey
    cases key with
    | none => rfl
    | some b =>
      cases c.key with
      | none => simp only; split <;> (try split) <;> rfl
      | some old => simp only; split <;> (try split) <;> rfl
  have hp : ∀ w (c : Ctx) p, (setParams api w c p).2.1.rem = c.rem := by
    intro w c p
    have hpl : ∀ c1, setPlain c p = some c1 → c1.rem = c.rem := by
      intro c1
      unfold setPlain
      cases p.padding <;> cases p.tag <;> simp only
      all_goals (try split)
      all_goals (intro h; cases h; try rfl)
    have hky : ∀ (c1 c2 : Ctx), (setKey api w c1 p.key).2 = some c2 → c2.rem = c1.rem := by
      intro c1 c2
      unfold setKey
      cases p.key with
      | none => intro h; cases h; rfl
      | some k2 =>
        simp only
        split
        · intro h; cases h
        · cases c1.key <;> (intro h; cases h; rfl)
    unfold setParams
    cases h1 : setPlain c p with
    | none => rfl
    | some c1 =>
      simp only
      cases h2 : setKey api w c1 p.key with
      | mk w2 o => cases o with
        | none => exact hpl c1 h1
        | some c2 =>
          have := hky c1 c2 (by rw [h2])
          simp only
          cases p.deleteKey
          · exact this.trans (hpl c1 h1)
          · exact this.trans (hpl c1 h1)
  unfold init
  simp only
  split
  · rfl
  · split
    · rename_i heq
      have e := congrArg (fun r => r.2.1.rem) heq
      rw [hk] at e
      exact e.symm
    · rename_i heq
      have e := congrArg (fun r => r.2.1.rem) heq
      rw [hk] at e
      cases params with
      | none => exact e.symm
      | some p => exact (hp _ _ p).trans e.symm

/-! ## Examples -/

/-- An API for tests: the world is the list of what was given to the context; everything is output unchanged, the last piece with an end
mark. -/
def echo (refuse : Bytes → Bool) : Api (List Bytes) :=
  { keyImport := fun w _ => (w, some 1), keySize := fun _ _ => some 16, keyRelease := fun w _ => w
    cipherInit := fun w _ _ _ _ => (w, some 5)
    process := fun w _ b room => if refuse b || decide (room < b.length) then (w, none) else (w ++ [b], some b)
    processLast := fun w _ b _ _ => (w ++ [b], some (b ++ [255], none))
    cipherRelease := fun w _ => w }

/-- AES-128-CBC as new, with a key. -/
def cbc : Ctx := { (Name.cbc 128).ctx with key := some 1 }

def bytes (n : Nat) (b : UInt8) : Bytes := List.replicate n b

/-- An API that does not keep a log: the hypotheses of `C75_message_partial` can be met. -/
def plain : Api Unit :=
  { keyImport := fun w _ => (w, some 1), keySize := fun _ _ => some 16, keyRelease := fun w _ => w
    cipherInit := fun w _ _ _ _ => (w, some 5)
    process := fun w _ b room => if room < b.length then (w, none) else (w, some b)
    processLast := fun w _ b _ _ => (w, some (b ++ [255], none))
    cipherRelease := fun w _ => w }

theorem plain_streams (h bs : Nat) : Streams plain h bs (fun w b => (w, b)) where
  process := by
    intro w b room _ hr
    show (if room < b.length then (w, none) else (w, some b)) = _
    rw [if_neg (by omega)]
  append := by intros; rfl
  nil := by intros; rfl
  short := by intros; exact Nat.le_refl _

/-- Pieces of 12, 28, and 10 bytes. -/
example : (message plain () cbc [bytes 12 1, bytes 28 2, bytes 10 3]).2.2 = some (bytes 12 1 ++ bytes 28 2 ++ bytes 10 3 ++ [255]) := by
  rw [C75_message_partial () () cbc ⟨List.replicate 16 0, [], []⟩ _ (plain_streams 5 16) (by decide) rfl rfl rfl (by rfl) rfl
    (by refine ⟨Or.inl rfl, Or.inr (Or.inr (by decide)), Or.inr (Or.inr (by decide)), trivial⟩)]
  decide

/-- Two pieces of 5 bytes: the first one is not in the ciphertext. -/
example : (message plain () cbc [bytes 5 1, bytes 5 2]).2.2 = some (bytes 5 2 ++ [255]) := by decide

example : message plain () { cbc with cipher := some 5 } [bytes 5 1, bytes 5 2] = message plain () { cbc with cipher := some 5 } [bytes 5 9, bytes 5 2] :=
  C75_violated_short plain () _ 1 5 rfl rfl rfl rfl _ _ _ _ (by decide) (by decide) (by decide)

/-- A second message on the same context begins with the end of the first one. -/
example :
    let r := message plain () cbc [bytes 5 1]
    (message plain r.1 (init plain r.1 r.2.1 MODE_ENCRYPT none (some (bytes 16 7)) none).2.1 [bytes 11 2]).2.2 =
      some (bytes 5 1 ++ bytes 11 2 ++ [255]) := by decide

/-- **C75 is violated**: a block is refused and the update reports success, with an output length that counts 16 bytes that were not
output. -/
theorem C75_violated_status :
    (call (echo fun b => b.head? == some 1) [] { cbc with cipher := some 5, rem := bytes 5 1 } (some 59) (some (bytes 27 2))).2.2 =
      ⟨true, bytes 16 2, 32⟩ := by decide

end Sa.Pv.C75

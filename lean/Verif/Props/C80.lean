import Verif.Model.EngineCipher
import Verif.Lemmas.ProviderCipher

/-!
# C80: ciphers through the OpenSSL 1.1 engine
-/

namespace Sa.Eng.C80

open Sa.Pv (Api Name Streams blocks rest blocks_rest blocks_length rest_length blocks_short blocks_append)

variable {ω : Type}

/-! ## The property -/

/-- What the API is to be asked for: the parameters of a cipher with an IV. -/
def asked (n : Name) (iv aad : Bytes) : SymParams :=
  match n with
  | .ecb _ => ⟨[], [], []⟩
  | .cbc _ | .ctr _ => ⟨iv.take 16, [], []⟩
  | .chacha20 => ⟨(iv.drop 4).take 12, iv.take 4, []⟩
  | .gcm _ | .poly => ⟨iv.take 12, [], aad⟩

/-- The algorithm of SecApi for a cipher (sa_types.h:305-317): the padding is OpenSSL's. -/
def meantAlg : Name → Nat
  | .ecb _ => 0
  | .cbc _ => 2
  | .ctr _ => 4
  | .gcm _ => 5
  | .chacha20 => 9
  | .poly => 10

/-- Bytes of the keys. -/
def meantKey : Name → Nat
  | .ecb bits | .cbc bits | .ctr bits | .gcm bits => bits / 8
  | .chacha20 | .poly => 256 / 8

theorem alg_meant (n : Name) : meantAlg n = algOf n := by cases n <;> rfl

theorem key_meant (n : Name) : meantKey n = keyLenOf n := by cases n <;> rfl

/-- The mode for a direction. -/
def modeOf (enc : Bool) : Nat := if enc then 1 else 0

/-- A message given piece by piece: what the application has got when no call failed. -/
def updates (api : Api ω) (mem : Mem) : ω → Evp → List Bytes → Option (ω × Evp × Option Bytes)
  | w, e, [] => some (w, e, some [])
  | w, e, m :: ms => match evpUpdate api w mem e m with
    | none => none
    | some (w, e, r) =>
      if r.ok then (updates api mem w e ms).map fun (w, e, o) => (w, e, o.map (r.out.take r.outl ++ ·))
      else some (w, e, none)

/-- The pieces and the final call. -/
def message (api : Api ω) (mem : Mem) (w : ω) (e : Evp) (ms : List Bytes) : Option (Option Bytes) :=
  match updates api mem w e ms with
  | none => none
  | some (_, _, none) => some none
  | some (w, e, some o) => (evpFinal api w mem e true).map fun (_, _, r) => if r.ok then some (o ++ r.out.take r.outl) else none

/-- PKCS #7 padding. -/
def pad (m : Bytes) : Bytes := m ++ List.replicate (16 - m.length % 16) (UInt8.ofNat (16 - m.length % 16))

/-- What the whole message is to give, for a cipher `p`. -/
def whole (n : Name) (padding : Bool) (p : Bytes → Bytes) (m : Bytes) : Option Bytes :=
  if blockOf n = 1 then some (p m)
  else if padding then some (p (pad m))
  else if m.length % 16 = 0 then some (p m) else none

/-! ## Lemmas -/

section
variable {api : Api ω} {mem : Mem} {n : Name} {h a : Nat} {p : ω → Bytes → ω × Bytes} {w0 w1 : ω} {d0 : Data}

/-- The context of the API is not made yet, or it has got what was fed. -/
def At (p : ω → Bytes → ω × Bytes) (w0 w1 : ω) (d0 : Data) (h : Nat) (w : ω) (d : Data) (fed : Bytes) : Prop :=
  (d = d0 ∧ w = w0 ∧ fed = []) ∨ (d = { d0 with cipher := some h } ∧ w = (p w1 fed).1)

/-- What is assumed of the API: it makes the context, which processes blocks as a stream (C34). -/
structure Works (api : Api ω) (mem : Mem) (n : Name) (h a : Nat) (p : ω → Bytes → ω × Bytes) (w0 w1 : ω) (d0 : Data) (aad : Bytes) : Prop where
  key : d0.key = some a
  none : d0.cipher = none
  make : ∃ sp, params mem n d0 aad = some sp ∧ api.cipherInit w0 d0.alg d0.mode (mem.key a) sp = (w1, some h)
  streams : Streams api h (blockOf n) p
  len : ∀ w b, b.length % blockOf n = 0 → (p w b).2.length = b.length

theorem do_eq (W : Works api mem n h a p w0 w1 d0 []) {w : ω} {d : Data} {fed b : Bytes} (hat : At p w0 w1 d0 h w d fed)
    (hf : fed.length % blockOf n = 0) (hb : b.length % blockOf n = 0) :
    ∃ w' d', doCipher api w mem n (some d) true (some b) = some (w', some d', (b.length : Int), (p (p w1 fed).1 b).2) ∧
      At p w0 w1 d0 h w' d' (fed ++ b) := by
  have run : ∀ w, w = (p w1 fed).1 → api.process w h b b.length = ((p w1 (fed ++ b)).1, some (p (p w1 fed).1 b).2) := by
    intro w e
    rw [W.streams.process w b _ hb (Nat.le_refl _), W.streams.append w1 fed b hf hb, e]
  rcases hat with ⟨h1, h2, h3⟩ | ⟨h1, h2⟩
  · subst h1 h2 h3
    obtain ⟨sp, m1, m2⟩ := W.make
    have r := run w1 (by rw [W.streams.nil])
    refine ⟨(p w1 ([] ++ b)).1, { d with cipher := some h }, ?_, Or.inr ⟨rfl, rfl⟩⟩
    simp only [doCipher, W.key, ensure, W.none, m1, m2, if_true, r, Bool.not_true, Bool.false_eq_true, if_false, W.len _ b hb]
  · subst h1
    have r := run w h2
    refine ⟨(p w1 (fed ++ b)).1, { d0 with cipher := some h }, ?_, Or.inr ⟨rfl, rfl⟩⟩
    simp only [doCipher, W.key, ensure, r, Bool.not_true, Bool.false_eq_true, if_false, W.len _ b hb]

theorem feed_ok (W : Works api mem n h a p w0 w1 d0 []) {w : ω} {d : Data} {fed b buf : Bytes} {padding : Bool} (hat : At p w0 w1 d0 h w d fed)
    (hf : fed.length % blockOf n = 0) (hb : b.length % blockOf n = 0) (hne : 0 < b.length) :
    ∃ w' d', feed api w mem ⟨n, some d, buf, padding⟩ b =
        some (w', ⟨n, some d', buf, padding⟩, ⟨true, (p (p w1 fed).1 b).2, b.length⟩) ∧ At p w0 w1 d0 h w' d' (fed ++ b) := by
  obtain ⟨w', d', e, hat'⟩ := do_eq W hat hf hb
  refine ⟨w', d', ?_, hat'⟩
  simp only [feed, e]
  have : ((b.length : Int) != 0) = true := by simp; intro hx; rw [hx] at hne; simp at hne
  rw [this]

theorem bs_pos (n : Name) : 0 < blockOf n := by cases n <;> simp [blockOf]

theorem update_ok (W : Works api mem n h a p w0 w1 d0 []) (hn : custom n = false) {w : ω} {d : Data} {fed buf : Bytes} {padding : Bool}
    (hat : At p w0 w1 d0 h w d fed) (hf : fed.length % blockOf n = 0) (hbuf : buf.length < blockOf n) (m : Bytes) :
    ∃ w' d', evpUpdate api w mem ⟨n, some d, buf, padding⟩ m =
        some (w', ⟨n, some d', rest (blockOf n) (buf ++ m), padding⟩,
          ⟨true, (p (p w1 fed).1 (blocks (blockOf n) (buf ++ m))).2, (blocks (blockOf n) (buf ++ m)).length⟩) ∧
      At p w0 w1 d0 h w' d' (fed ++ blocks (blockOf n) (buf ++ m)) := by
  have hbs := bs_pos n
  unfold evpUpdate
  simp only [hn, Bool.false_eq_true, if_false]
  by_cases h0 : m.length = 0
  · rw [if_pos h0]
    have : m = [] := List.length_eq_zero_iff.mp h0
    subst this
    have hb := blocks_short (bs := blockOf n) (m := buf ++ []) (by simpa using hbuf)
    rw [hb.1, hb.2, W.streams.nil]
    exact ⟨w, d, by simp, by simpa using hat⟩
  · rw [if_neg h0]
    by_cases h1 : buf.length = 0 ∧ m.length % blockOf n = 0
    · rw [if_pos h1]
      have hb0 : buf = [] := List.length_eq_zero_iff.mp h1.1
      subst hb0
      obtain ⟨w', d', e, hat'⟩ := feed_ok (buf := []) (padding := padding) W hat hf h1.2 (by omega)
      have hb := blocks_append hbs m [] h1.2
      rw [List.append_nil] at hb
      have hbn : blocks (blockOf n) ([] : Bytes) = [] ∧ rest (blockOf n) ([] : Bytes) = [] := blocks_short (by simpa using hbs)
      rw [hbn.1, hbn.2, List.append_nil] at hb
      rw [List.nil_append, hb.1, hb.2]
      exact ⟨w', d', by rw [e]; simp, hat'⟩
    · rw [if_neg h1]
      by_cases h2 : blockOf n - buf.length > m.length
      · rw [if_pos h2]
        have hb := blocks_short (bs := blockOf n) (m := buf ++ m) (by rw [List.length_append]; omega)
        rw [hb.1, hb.2, W.streams.nil]
        exact ⟨w, d, by simp, by simpa using hat⟩
      · rw [if_neg h2]
        by_cases h3 : buf.length = 0
        · have hb0 : buf = [] := List.length_eq_zero_iff.mp h3
          subst hb0
          simp only [List.length_nil, if_true, Bool.not_true, Bool.false_eq_true, if_false, List.drop_zero, List.nil_append]
          have hn0 : m.length / blockOf n * blockOf n > 0 := by
            apply Nat.mul_pos _ hbs
            apply Nat.div_pos _ hbs
            simp only [List.length_nil] at h2
            omega
          rw [if_pos hn0]
          have hl : (blocks (blockOf n) m).length % blockOf n = 0 := by rw [blocks_length]; exact Nat.mul_mod_left _ _
          obtain ⟨w', d', e, hat'⟩ := feed_ok (buf := []) (padding := padding) (b := blocks (blockOf n) m) W hat hf hl (by rw [blocks_length]; exact hn0)
          unfold blocks at e
          rw [e]
          exact ⟨w', d', by simp [blocks, rest, List.length_take, Nat.min_eq_left (Nat.div_mul_le_self _ _)], hat'⟩
        · rw [if_neg h3, if_neg h3]
          have hj : (buf ++ m.take (blockOf n - buf.length)).length = blockOf n := by
            rw [List.length_append, List.length_take]
            omega
          have hl : (buf ++ m.take (blockOf n - buf.length)).length % blockOf n = 0 := by rw [hj, Nat.mod_self]
          obtain ⟨w', d', e, hat'⟩ := feed_ok (buf := buf) (padding := padding) W hat hf hl (by omega)
          have hsplit : buf ++ m = (buf ++ m.take (blockOf n - buf.length)) ++ m.drop (blockOf n - buf.length) := by
            rw [List.append_assoc, List.take_append_drop]
          have hb := blocks_append hbs (buf ++ m.take (blockOf n - buf.length)) (m.drop (blockOf n - buf.length)) hl
          rw [e]
          simp only [Bool.not_true, Bool.false_eq_true, if_false]
          rw [hsplit, hb.1, hb.2]
          have hf' : (fed ++ (buf ++ m.take (blockOf n - buf.length))).length % blockOf n = 0 := by
            rw [List.length_append, Nat.add_mod, hf, hl]
            simp
          have hl2 : (blocks (blockOf n) (m.drop (blockOf n - buf.length))).length % blockOf n = 0 := by
            rw [blocks_length]; exact Nat.mul_mod_left _ _
          by_cases hn0 : (m.drop (blockOf n - buf.length)).length / blockOf n * blockOf n > 0
          · rw [if_pos hn0]
            obtain ⟨w2, d2, e2, hat2⟩ := feed_ok (buf := buf) (padding := padding) (b := blocks (blockOf n) (m.drop (blockOf n - buf.length))) W hat' hf'
              hl2 (by rw [blocks_length]; exact hn0)
            unfold blocks at e2
            rw [e2]
            refine ⟨w2, d2, ?_, ?_⟩
            · simp only [if_true]
              rw [W.streams.append _ _ _ hl hl2, W.streams.append w1 _ _ hf hl]
              simp only [List.length_append, blocks_length, hj]
              rfl
            · rw [← List.append_assoc]
              exact hat2
          · rw [if_neg hn0]
            have hshort : (m.drop (blockOf n - buf.length)).length < blockOf n := by
              apply Classical.byContradiction
              intro hx
              exact hn0 (Nat.mul_pos (Nat.div_pos (by omega) hbs) hbs)
            have hb2 := blocks_short hshort
            rw [hb2.1, hb2.2, List.append_nil]
            exact ⟨w', d', by simp, hat'⟩

theorem updates_ok (W : Works api mem n h a p w0 w1 d0 []) (hn : custom n = false) {padding : Bool} (ms : List Bytes) :
    ∀ {w : ω} {d : Data} {fed buf : Bytes}, At p w0 w1 d0 h w d fed → fed.length % blockOf n = 0 → buf.length < blockOf n →
    ∃ w' d', updates api mem w ⟨n, some d, buf, padding⟩ ms =
        some (w', ⟨n, some d', rest (blockOf n) (buf ++ ms.flatten), padding⟩,
          some (p (p w1 fed).1 (blocks (blockOf n) (buf ++ ms.flatten))).2) ∧
      At p w0 w1 d0 h w' d' (fed ++ blocks (blockOf n) (buf ++ ms.flatten)) := by
  have hbs := bs_pos n
  induction ms with
  | nil =>
    intro w d fed buf hat hf hbuf
    have hb := blocks_short (bs := blockOf n) (m := buf ++ []) (by simpa using hbuf)
    simp only [List.flatten_nil, hb.1, hb.2, W.streams.nil]
    exact ⟨w, d, by simp [updates], by simpa using hat⟩
  | cons m ms ih =>
    intro w d fed buf hat hf hbuf
    obtain ⟨w', d', e, hat'⟩ := update_ok (padding := padding) W hn hat hf hbuf m
    have hl : (blocks (blockOf n) (buf ++ m)).length % blockOf n = 0 := by rw [blocks_length]; exact Nat.mul_mod_left _ _
    have hf' : (fed ++ blocks (blockOf n) (buf ++ m)).length % blockOf n = 0 := by
      rw [List.length_append, Nat.add_mod, hf, hl]
      simp
    obtain ⟨w2, d2, e2, hat2⟩ := ih hat' hf' (buf := rest (blockOf n) (buf ++ m)) (by rw [rest_length]; exact Nat.mod_lt _ hbs)
    have hsplit : buf ++ (m :: ms).flatten = blocks (blockOf n) (buf ++ m) ++ (rest (blockOf n) (buf ++ m) ++ ms.flatten) := by
      rw [← List.append_assoc, blocks_rest, List.flatten_cons, List.append_assoc]
    have hb := blocks_append hbs (blocks (blockOf n) (buf ++ m)) (rest (blockOf n) (buf ++ m) ++ ms.flatten) hl
    have hl2 : (blocks (blockOf n) (rest (blockOf n) (buf ++ m) ++ ms.flatten)).length % blockOf n = 0 := by
      rw [blocks_length]; exact Nat.mul_mod_left _ _
    refine ⟨w2, d2, ?_, ?_⟩
    · simp only [updates, e, if_true, e2, Option.map_some]
      rw [hsplit, hb.1, hb.2, W.streams.append _ _ _ hl hl2, W.streams.append w1 _ _ hf hl, ← W.len _ _ hl, List.take_length]
    · rw [hsplit, hb.1, ← List.append_assoc]
      exact hat2

end

/-- What `cipher_init` leaves for a new context. -/
def fresh (n : Name) (key iv : Nat) (enc : Bool) : Data := ⟨some key, some iv, modeOf enc, meantAlg n, none, none⟩

theorem init_fresh (api : Api ω) (w : ω) (mem : Mem) (n : Name) (key iv : Nat) (enc padding : Bool)
    (hk : api.keySize w (mem.key key) = some (meantKey n)) :
    evpInit api w mem ⟨n, none, [], padding⟩ (some key) (some iv) enc = (⟨n, some (fresh n key iv enc), [], padding⟩, true) := by
  rw [key_meant] at hk
  simp only [evpInit, init, Option.getD_none, fresh, alg_meant]
  rw [if_pos hk]
  cases enc <;> rfl

theorem params_fresh (mem : Mem) (n : Name) (key iv : Nat) (enc : Bool) (aad : Bytes) :
    params mem n (fresh n key iv enc) aad = some (asked n (mem.iv iv) aad) := by
  cases n <;> simp [params, fresh, meantAlg, asked, ivLenOf, CIPHER_AES_ECB, CIPHER_AES_CBC, CIPHER_AES_CTR, CIPHER_CHACHA20]

/-- **C80** (missing: contexts that were used or initialised before; IVs and keys whose memory changes after the initialisation; calls that
the API refuses; deciphering with padding, which OpenSSL does outside of the engine).  A message given to a new context piece by piece, in
any way, gives what the API gives for the whole message, with the key, IV and direction of the initialisation.  `hs` and `hl` are what C34
shows for the TA. -/
theorem C80_message_partial (api : Api ω) (w w1 : ω) (mem : Mem) (n : Name) (hn : custom n = false) (key iv h : Nat) (enc padding : Bool)
    (hp : enc = false → padding = true → blockOf n = 1)
    (hk : api.keySize w (mem.key key) = some (meantKey n))
    (hc : api.cipherInit w (meantAlg n) (modeOf enc) (mem.key key) (asked n (mem.iv iv) []) = (w1, some h))
    (p : ω → Bytes → ω × Bytes) (hs : Streams api h (blockOf n) p) (hl : ∀ w b, b.length % blockOf n = 0 → (p w b).2.length = b.length)
    (ms : List Bytes) :
    ∃ e, evpInit api w mem ⟨n, none, [], padding⟩ (some key) (some iv) enc = (e, true) ∧
      message api mem w e ms = some (whole n padding (fun m => (p w1 m).2) ms.flatten) := by
  refine ⟨_, init_fresh api w mem n key iv enc padding hk, ?_⟩
  have W : Works api mem n h key p w w1 (fresh n key iv enc) [] := ⟨rfl, rfl, ⟨_, params_fresh mem n key iv enc [], hc⟩, hs, hl⟩
  have hbs := bs_pos n
  obtain ⟨w', d', e, hat⟩ := updates_ok (padding := padding) W hn ms (w := w) (d := fresh n key iv enc) (fed := []) (buf := [])
    (Or.inl ⟨rfl, rfl, rfl⟩) (by simp) hbs
  simp only [List.nil_append, hs.nil] at e hat
  unfold message
  rw [e]
  simp only
  have hlb : (blocks (blockOf n) ms.flatten).length % blockOf n = 0 := by rw [blocks_length]; exact Nat.mul_mod_left _ _
  unfold evpFinal whole
  simp only [hn, Bool.false_eq_true, if_false]
  by_cases h1 : blockOf n = 1
  · rw [if_pos h1, if_pos h1]
    have : blocks (blockOf n) ms.flatten = ms.flatten := by
      unfold blocks
      rw [h1, Nat.div_one, Nat.mul_one, List.take_length]
    rw [this]
    simp
  · rw [if_neg h1, if_neg h1]
    have h16 : blockOf n = 16 := by cases n <;> simp_all [blockOf]
    rw [h16] at hat hlb e ⊢
    cases padding with
    | false =>
      simp only [Bool.not_false, if_true, Option.map_some, Bool.false_eq_true, if_false]
      rw [rest_length]
      by_cases h0 : ms.flatten.length % 16 = 0
      · have : blocks 16 ms.flatten = ms.flatten := by
          unfold blocks
          rw [Nat.div_mul_cancel (Nat.dvd_of_mod_eq_zero h0), List.take_length]
        rw [h0, this]
        simp
      · have hx : (ms.flatten.length % 16 == 0) = false := by simpa using h0
        rw [if_neg h0, hx]
        rfl
    | true =>
      simp only [Bool.not_true, Bool.false_eq_true, if_false, if_true]
      have hlen : (rest 16 ms.flatten ++ List.replicate (16 - (rest 16 ms.flatten).length) (UInt8.ofNat (16 - (rest 16 ms.flatten).length))).length
          = 16 := by
        rw [List.length_append, List.length_replicate, rest_length]
        omega
      obtain ⟨w2, d2, e2, _⟩ := do_eq W hat (by rw [h16]; exact hlb) (b := rest 16 ms.flatten ++
        List.replicate (16 - (rest 16 ms.flatten).length) (UInt8.ofNat (16 - (rest 16 ms.flatten).length))) (by rw [hlen, h16])
      rw [e2]
      simp only [Option.map_some]
      have hpad : pad ms.flatten = blocks 16 ms.flatten ++ (rest 16 ms.flatten ++
          List.replicate (16 - (rest 16 ms.flatten).length) (UInt8.ofNat (16 - (rest 16 ms.flatten).length))) := by
        rw [← List.append_assoc, blocks_rest, rest_length]
        rfl
      have happ := hs.append w1 (blocks 16 ms.flatten) (rest 16 ms.flatten ++
          List.replicate (16 - (rest 16 ms.flatten).length) (UInt8.ofNat (16 - (rest 16 ms.flatten).length))) (by rw [h16]; exact hlb)
          (by rw [hlen, h16])
      rw [hpad, happ, hlen]
      have hlo := hl (p w1 (blocks 16 ms.flatten)).1 (rest 16 ms.flatten ++
          List.replicate (16 - (rest 16 ms.flatten).length) (UInt8.ofNat (16 - (rest 16 ms.flatten).length))) (by rw [hlen, h16])
      rw [hlen] at hlo
      rw [List.take_of_length_le (by omega)]
      simp

/-! ## With tags -/

/-- Additional data, if any. -/
def giveAad (api : Api ω) (mem : Mem) (w : ω) (e : Evp) : Option Bytes → Option (ω × Evp × Bool)
  | none => some (w, e, true)
  | some x => evpAad api w mem e x

/-- The tag, if any. -/
def giveTag (d : Option Data) : Option Bytes → Option Data × Bool
  | none => (d, true)
  | some t => setTag d t

/-- Additional data, if any, the message piece by piece, the tag, if any, and the final call: the output and the tag afterwards. -/
def aead (api : Api ω) (mem : Mem) (w : ω) (e : Evp) (aad : Option Bytes) (ms : List Bytes) (tag : Option Bytes) :
    Option (Option (Bytes × Option Bytes)) :=
  match giveAad api mem w e aad with
  | none => none
  | some (_, _, false) => some none
  | some (w, e, true) => match updates api mem w e ms with
    | none => none
    | some (_, _, none) => some none
    | some (w, e, some o) => match giveTag e.data tag with
      | (_, false) => some none
      | (d, true) => (evpFinal api w mem { e with data := d } true).map fun (_, e, r) =>
        if r.ok then some (o ++ r.out.take r.outl, (getTag e.data 16).join) else none

section
variable {api : Api ω} {mem : Mem} {n : Name} {h : Nat} {p : ω → Bytes → ω × Bytes}

theorem custom_bs (hn : custom n = true) : blockOf n = 1 := by cases n <;> simp_all [custom, blockOf]

theorem custom_updates (hn : custom n = true) (hs : Streams api h 1 p) {d : Data} {a : Nat} (hk : d.key = some a) (hc : d.cipher = some h)
    {padding : Bool} {buf : Bytes} (ms : List Bytes) : ∀ w, updates api mem w ⟨n, some d, buf, padding⟩ ms =
      some ((p w ms.flatten).1, ⟨n, some d, buf, padding⟩, some (p w ms.flatten).2) := by
  induction ms with
  | nil => intro w; simp [updates, hs.nil]
  | cons m ms ih =>
    intro w
    have e : evpUpdate api w mem ⟨n, some d, buf, padding⟩ m =
        some ((p w m).1, ⟨n, some d, buf, padding⟩, ⟨true, (p w m).2, (p w m).2.length⟩) := by
      have hneg : ¬((p w m).2.length : Int) < 0 := by omega
      simp only [evpUpdate, hn, if_true, doCipher, hk, ensure, hc, Bool.not_true, Bool.false_eq_true, if_false,
        hs.process w m m.length (Nat.mod_one _) (Nat.le_refl _), hneg, Int.toNat_natCast]
    simp only [updates, e, if_true, ih, Option.map_some, List.take_length, List.flatten_cons]
    rw [hs.append w m ms.flatten (Nat.mod_one _) (Nat.mod_one _)]

/-- The first call makes the context. -/
theorem do_make {w w1 : ω} {d : Data} {a : Nat} (hk : d.key = some a) (hc : d.cipher = none) (out : Bool) (inp : Option Bytes)
    (hm : ∃ sp, params mem n d (if out then [] else inp.getD []) = some sp ∧ api.cipherInit w d.alg d.mode (mem.key a) sp = (w1, some h)) :
    doCipher api w mem n (some d) out inp = doCipher api w1 mem n (some { d with cipher := some h }) out inp := by
  obtain ⟨sp, h1, h2⟩ := hm
  simp only [doCipher, hk, ensure, hc, h1, h2]

theorem final_eq (hn : custom n = true) {w : ω} {d : Data} {a : Nat} (hk : d.key = some a) (hc : d.cipher = some h) (ha : d.alg = meantAlg n)
    (ht : d.mode = MODE_DECRYPT → d.tag ≠ none) {padding : Bool} {buf : Bytes} :
    ∃ w', evpFinal api w mem ⟨n, some d, buf, padding⟩ true =
      some (match (api.processLast w h [] 1 (some (d.tag.getD (List.replicate 16 0)))).2 with
        | none => (w', ⟨n, some d, buf, padding⟩, ⟨false, [], 0⟩)
        | some r => (w', ⟨n, some { d with tag := r.2.or d.tag }, buf, padding⟩, ⟨true, r.1, r.1.length⟩)) := by
  have halg : d.alg ≠ CIPHER_AES_CBC ∧ d.alg ≠ CIPHER_AES_ECB ∧ d.alg ≠ CIPHER_CHACHA20 := by
    rw [ha]
    cases n <;> simp_all [custom, meantAlg, CIPHER_AES_CBC, CIPHER_AES_ECB, CIPHER_CHACHA20]
  have htag : ¬(d.tag = none ∧ d.mode = MODE_DECRYPT) := fun hx => ht hx.2 hx.1
  cases hl : api.processLast w h [] 1 (some (d.tag.getD (List.replicate 16 0))) with
  | mk w' r =>
    cases r with
    | none =>
      refine ⟨w', ?_⟩
      simp only [evpFinal, hn, if_true, doCipher, hk, ensure, hc, Bool.not_true, Bool.false_eq_true, if_false, last, htag, custom_bs hn, hl]
      rw [if_pos halg]
      rfl
    | some r =>
      refine ⟨w', ?_⟩
      obtain ⟨o, t⟩ := r
      have hneg : ¬((o.length : Nat) : Int) < 0 := by omega
      simp only [evpFinal, hn, if_true, doCipher, hk, ensure, hc, Bool.not_true, Bool.false_eq_true, if_false, last, htag, custom_bs hn, hl]
      rw [if_pos halg]
      simp only [hneg, if_false, Int.toNat_natCast]

end

theorem tag_ok (d : Data) (tag : Option Bytes) (hd : d.tag = none) (ht : ∀ t, tag = some t → t.length = 16) :
    giveTag (some d) tag = (some { d with tag := tag }, true) := by
  cases tag with
  | none =>
    obtain ⟨_, _, _, _, _, _⟩ := d
    simp only at hd
    subst hd
    rfl
  | some t =>
    have := ht t rfl
    simp [giveTag, setTag, this]

/-- **C80, with tags** (missing: as above; additional data in more than one call; the last call without an output buffer; tags that are not
of 16 bytes, or to decipher no tag).  What is accepted is what the API accepts: a context made with this key, IV, direction and additional
data was given the whole message and this tag, and agreed; the tag obtained is the one the API gave. -/
theorem C80_aead_partial (api : Api ω) (w w1 : ω) (mem : Mem) (n : Name) (hn : custom n = true) (key iv h : Nat) (enc padding : Bool)
    (hk : api.keySize w (mem.key key) = some (meantKey n)) (aad : Option Bytes)
    (hc : api.cipherInit w (meantAlg n) (modeOf enc) (mem.key key) (asked n (mem.iv iv) (aad.getD [])) = (w1, some h))
    (p : ω → Bytes → ω × Bytes) (hs : Streams api h 1 p) (tag : Option Bytes) (ht : ∀ t, tag = some t → t.length = 16)
    (hd : enc = false → tag.isSome) (ms : List Bytes) :
    ∃ e, evpInit api w mem ⟨n, none, [], padding⟩ (some key) (some iv) enc = (e, true) ∧
      aead api mem w e aad ms tag =
        some ((api.processLast (p w1 ms.flatten).1 h [] 1 (some (tag.getD (List.replicate 16 0)))).2.map fun r =>
          ((p w1 ms.flatten).2 ++ r.1, (r.2.or tag).map (·.take 16))) := by
  refine ⟨_, init_fresh api w mem n key iv enc padding hk, ?_⟩
  have fin : aead api mem w1 ⟨n, some { fresh n key iv enc with cipher := some h }, [], padding⟩ none ms tag =
        some ((api.processLast (p w1 ms.flatten).1 h [] 1 (some (tag.getD (List.replicate 16 0)))).2.map fun r =>
          ((p w1 ms.flatten).2 ++ r.1, (r.2.or tag).map (·.take 16))) := by
    unfold aead
    simp only [giveAad]
    rw [custom_updates hn hs (d := { fresh n key iv enc with cipher := some h }) (a := key) rfl rfl ms w1]
    simp only
    have hset := tag_ok { fresh n key iv enc with cipher := some h } tag rfl ht
    rw [hset]
    simp only
    obtain ⟨w', e⟩ := final_eq (api := api) (mem := mem) (h := h) (w := (p w1 ms.flatten).1) (padding := padding) (buf := []) hn
      (d := { fresh n key iv enc with cipher := some h, tag := tag }) (a := key) rfl rfl rfl (by
        intro hm hx
        have : enc = false := by
          cases enc with
          | false => rfl
          | true => simp [fresh, modeOf, MODE_DECRYPT] at hm
        have h2 := hd this
        simp only at hx
        rw [hx] at h2
        simp at h2)
    rw [e]
    simp only
    cases (api.processLast (p w1 ms.flatten).1 h [] 1 (some (tag.getD (List.replicate 16 0)))).2 with
    | none => simp
    | some r => simp [getTag]
  rw [← fin]
  cases aad with
  | some x =>
    have : evpAad api w mem ⟨n, some (fresh n key iv enc), [], padding⟩ x =
        some (w1, ⟨n, some { fresh n key iv enc with cipher := some h }, [], padding⟩, true) := by
      unfold evpAad
      rw [do_make (api := api) (w1 := w1) (h := h) (a := key) (d := fresh n key iv enc) rfl rfl false (some x)
        ⟨_, params_fresh mem n key iv enc _, hc⟩]
      simp [doCipher, fresh, ensure]
    unfold aead
    simp only [giveAad, this]
  | none =>
    have hm : ∀ t inp, doCipher api w mem n (some { fresh n key iv enc with tag := t }) true inp =
        doCipher api w1 mem n (some { fresh n key iv enc with cipher := some h, tag := t }) true inp := fun t inp =>
      do_make (api := api) (a := key) (d := { fresh n key iv enc with tag := t }) rfl rfl true inp ⟨_, params_fresh mem n key iv enc _, hc⟩
    cases ms with
    | nil =>
      unfold aead
      simp only [updates, giveAad]
      rw [tag_ok (fresh n key iv enc) tag rfl ht, tag_ok { fresh n key iv enc with cipher := some h } tag rfl ht]
      simp only [evpFinal, hn, if_true, hm tag none]
    | cons m ms =>
      unfold aead
      have := hm none (some m)
      have e0 : ({ fresh n key iv enc with tag := none } : Data) = fresh n key iv enc := rfl
      have e1 : ({ fresh n key iv enc with cipher := some h, tag := none } : Data) = { fresh n key iv enc with cipher := some h } := rfl
      rw [e0, e1] at this
      simp only [updates, evpUpdate, hn, if_true, this, giveAad]

/-- **C80, errors are told** (missing: ciphers other than AES-GCM and ChaCha20-Poly1305).  An update succeeds only if the API has processed
all of it. -/
theorem C80_told_partial (api : Api ω) (w w' : ω) (mem : Mem) (e e' : Evp) (hn : custom e.name = true) (m : Bytes) (r : Ret)
    (hu : evpUpdate api w mem e m = some (w', e', r)) (hr : r.ok = true) :
    ∃ w1 h, api.process w1 h m m.length = (w', some r.out) ∧ r.outl = r.out.length := by
  obtain ⟨n, d, buf, padding⟩ := e
  simp only at hn
  simp only [evpUpdate, hn, if_true, doCipher] at hu
  cases d with
  | none =>
    simp only [Option.some.injEq, Prod.mk.injEq] at hu
    rw [← hu.2.2] at hr
    simp at hr
  | some d =>
    cases hk : d.key with
    | none =>
      simp only [hk, Option.some.injEq, Prod.mk.injEq] at hu
      rw [← hu.2.2] at hr
      simp at hr
    | some a =>
      simp only [hk] at hu
      cases he : ensure api w mem n d a [] with
      | mk w1 q =>
        cases q with
        | none =>
          simp only [he, Option.some.injEq, Prod.mk.injEq] at hu
          rw [← hu.2.2] at hr
          simp at hr
        | some q =>
          obtain ⟨d1, h⟩ := q
          simp only [he, Bool.not_true, Bool.false_eq_true, if_false] at hu
          cases hp : api.process w1 h m m.length with
          | mk w2 o =>
            cases o with
            | none =>
              simp only [hp, Option.some.injEq, Prod.mk.injEq] at hu
              rw [← hu.2.2] at hr
              simp at hr
            | some o =>
              have hneg : ¬((o.length : Nat) : Int) < 0 := by omega
              simp only [hp, Option.some.injEq, Prod.mk.injEq, hneg, if_false, Int.toNat_natCast] at hu
              obtain ⟨rfl, rfl, rfl⟩ := hu
              exact ⟨w1, h, hp, rfl⟩

/-! ## Violations -/

/-- **C80 is violated**: for the other ciphers the application is told that its data was processed when the API refused it, and gets what was
in its buffer. -/
theorem C80_violated_told (api : Api ω) (w w1 : ω) (mem : Mem) (n : Name) (hn : custom n = false) (d : Data) (a h : Nat) (hk : d.key = some a)
    (hc : d.cipher = some h) (padding : Bool) (m : Bytes) (hm : m.length % blockOf n = 0) (hne : m ≠ [])
    (hr : api.process w h m m.length = (w1, none)) :
    evpUpdate api w mem ⟨n, some d, [], padding⟩ m = some (w1, ⟨n, some d, [], padding⟩, ⟨true, [], m.length⟩) := by
  have h0 : m.length ≠ 0 := fun e => hne (List.length_eq_zero_iff.mp e)
  simp only [evpUpdate, hn, Bool.false_eq_true, if_false, feed, doCipher, hk, ensure, hc, Bool.not_true, hr]
  rw [if_neg h0, if_pos ⟨rfl, hm⟩]
  rfl

/-- **C80 is violated**: also when the API refuses to make a context at all, for example as the key must not be used to encipher. -/
theorem C80_violated_refused (api : Api ω) (w w1 : ω) (mem : Mem) (n : Name) (hn : custom n = false) (key iv : Nat) (enc padding : Bool)
    (hr : api.cipherInit w (meantAlg n) (modeOf enc) (mem.key key) (asked n (mem.iv iv) []) = (w1, none)) (m : Bytes)
    (hm : m.length % blockOf n = 0) (hne : m ≠ []) :
    evpUpdate api w mem ⟨n, some (fresh n key iv enc), [], padding⟩ m =
      some (w1, ⟨n, some (fresh n key iv enc), [], padding⟩, ⟨true, [], m.length⟩) := by
  have h0 : m.length ≠ 0 := fun e => hne (List.length_eq_zero_iff.mp e)
  have hp := params_fresh mem n key iv enc []
  have he : ensure api w mem n (fresh n key iv enc) key [] = (w1, none) := by
    unfold ensure
    rw [hp]
    simp only [fresh] at hr ⊢
    rw [hr]
  have hd : doCipher api w mem n (some (fresh n key iv enc)) true (some m) = some (w1, some (fresh n key iv enc), -1, []) := by
    simp only [doCipher, fresh]
    simp only [fresh] at he
    simp only [if_true, he]
  simp only [evpUpdate, hn, Bool.false_eq_true, if_false, feed, hd]
  rw [if_neg h0, if_pos ⟨rfl, hm⟩]
  rfl

/-- **C80 is violated**, whatever the API does: once a context was used, another key, another IV and another direction have no effect; the
data goes to the cipher context of before. -/
theorem C80_violated_reinit (api : Api ω) (w : ω) (mem : Mem) (e e' : Evp) (d : Data) (h key iv : Nat) (enc : Bool) (hd : e.data = some d)
    (hc : d.cipher = some h) (hi : evpInit api w mem e (some key) (some iv) enc = (e', true)) (m : Bytes) :
    ∃ d', e'.data = some d' ∧ d'.mode = d.mode ∧
      doCipher api w mem e'.name e'.data true (some m) = some (match api.process w h m m.length with
        | (w1, none) => (w1, some d', -1, [])
        | (w1, some o) => (w1, some d', (o.length : Int), o)) := by
  obtain ⟨n, dd, buf, padding⟩ := e
  simp only at hd
  subst hd
  simp only [evpInit, init, Option.getD_some] at hi
  split at hi
  · simp only [Prod.mk.injEq, and_true] at hi
    subst hi
    refine ⟨_, rfl, rfl, ?_⟩
    simp only [doCipher, ensure, hc, Bool.not_true, Bool.false_eq_true, if_false]
    cases api.process w h m m.length with
    | mk w1 o => cases o <;> rfl
  · simp at hi

/-- **C80 is violated**, whatever the API does: the direction of the first initialisation is kept, also if it gave neither key nor IV and
nothing was processed yet.  Initialised to decipher afterwards, the context is the same as if initialised to encipher. -/
theorem C80_violated_direction (api : Api ω) (w : ω) (mem : Mem) (n : Name) (key iv : Nat) (enc dir : Bool) :
    evpInit api w mem (evpInit api w mem (evpNew n) none none enc).1 (some key) (some iv) dir =
      evpInit api w mem (evpInit api w mem (evpNew n) none none enc).1 (some key) (some iv) (!dir) := by
  simp only [evpInit, init, evpNew, Option.getD_some]

/-- **C80 is violated**, whatever the API does: a context initialised with one IV and one key is the same as if initialised with what the
application has put to their places later. -/
theorem C80_violated_memory (api : Api ω) (w : ω) (mem mem' : Mem) (n : Name) (key iv : Nat) (enc : Bool)
    (h1 : api.keySize w (mem.key key) = some (meantKey n)) (h2 : api.keySize w (mem'.key key) = some (meantKey n)) (m : Bytes) :
    evpUpdate api w mem' (evpInit api w mem (evpNew n) (some key) (some iv) enc).1 m =
      evpUpdate api w mem' (evpInit api w mem' (evpNew n) (some key) (some iv) enc).1 m := by
  rw [evpNew, init_fresh api w mem n key iv enc true h1, init_fresh api w mem' n key iv enc true h2]

/-- **C80 is violated**, whatever the API would say about the tag: finishing without an output buffer asks nothing and succeeds. -/
theorem C80_violated_final (api : Api ω) (w : ω) (mem : Mem) (e : Evp) (hn : custom e.name = true) (d : Data) (a h : Nat) (hd : e.data = some d)
    (hk : d.key = some a) (hc : d.cipher = some h) : evpFinal api w mem e false = some (w, e, ⟨true, [], 1⟩) := by
  obtain ⟨n, dd, buf, padding⟩ := e
  simp only at hd hn
  subst hd
  simp only [evpFinal, hn, if_true, doCipher, hk, ensure, hc, Bool.not_false]
  rfl

/-- **C80 is violated**, whatever the API does: additional data given later is ignored, and success is reported. -/
theorem C80_violated_aad (api : Api ω) (w : ω) (mem : Mem) (e : Evp) (d : Data) (a h : Nat) (hd : e.data = some d)
    (hk : d.key = some a) (hc : d.cipher = some h) (aad : Bytes) : evpAad api w mem e aad = some (w, e, true) := by
  obtain ⟨n, dd, buf, padding⟩ := e
  simp only at hd
  subst hd
  simp only [evpAad, doCipher, hk, ensure, hc, Bool.not_false, if_true]
  rfl

/-- **C80 is violated**: to decipher without giving a tag compares with memory that was never set. -/
theorem C80_violated_untagged (api : Api ω) (w w1 : ω) (mem : Mem) (n : Name) (hn : custom n = true) (key iv h : Nat) (padding : Bool)
    (aad : Bytes)
    (hc : api.cipherInit w (meantAlg n) MODE_DECRYPT (mem.key key) (asked n (mem.iv iv) aad) = (w1, some h))
    (p : ω → Bytes → ω × Bytes) (hs : Streams api h 1 p) (ms : List Bytes) :
    aead api mem w ⟨n, some (fresh n key iv false), [], padding⟩ (some aad) ms none = none := by
  have : evpAad api w mem ⟨n, some (fresh n key iv false), [], padding⟩ aad =
      some (w1, ⟨n, some { fresh n key iv false with cipher := some h }, [], padding⟩, true) := by
    unfold evpAad
    rw [do_make (api := api) (w1 := w1) (h := h) (a := key) (d := fresh n key iv false) rfl rfl false (some aad)
      ⟨_, params_fresh mem n key iv false _, hc⟩]
    simp [doCipher, fresh, ensure]
  unfold aead
  simp only [giveAad, this]
  rw [custom_updates hn hs (d := { fresh n key iv false with cipher := some h }) (a := key) rfl rfl ms w1]
  simp only [giveTag]
  have halg : meantAlg n ≠ CIPHER_AES_CBC ∧ meantAlg n ≠ CIPHER_AES_ECB ∧ meantAlg n ≠ CIPHER_CHACHA20 := by
    cases n <;> simp_all [custom, meantAlg, CIPHER_AES_CBC, CIPHER_AES_ECB, CIPHER_CHACHA20]
  simp only [evpFinal, hn, if_true, doCipher, fresh, ensure, Bool.not_true, Bool.false_eq_true, if_false, last]
  rw [if_pos halg]
  rfl

/-! ## Cipher contexts of the API -/

/-- What OpenSSL does with the engine for one context; the memory of the application may be another each time. -/
inductive Call where
  | init (mem : Mem) (key iv : Option Nat) (enc : Bool)
  | cipher (mem : Mem) (out : Bool) (inp : Option Bytes)
  | setTag (t : Bytes)

def call (api : Api ω) (n : Name) (s : ω × Option Data) : Call → Option (ω × Option Data)
  | .init mem key iv enc => some (s.1, some (init api s.1 mem n s.2 key iv enc).1)
  | .cipher mem out inp => (doCipher api s.1 mem n s.2 out inp).map fun r => (r.1, r.2.1)
  | .setTag t => some (s.1, (setTag s.2 t).1)

def calls (api : Api ω) (n : Name) : ω × Option Data → List Call → Option (ω × Option Data)
  | s, [] => some s
  | s, c :: cs => (call api n s c).bind fun s => calls api n s cs

/-- The cipher context of the data. -/
def held : Option Data → List Nat
  | none => []
  | some d => d.cipher.toList

theorem call_held (api : Api ω) (n : Name) (l : List Nat) {s s' : (ω × List Nat) × Option Data} (c : Call)
    (h0 : s.1.2 = held s.2 ++ l) (h : call (Pv.track api) n s c = some s') : s'.1.2 = held s'.2 ++ l := by
  obtain ⟨w, d⟩ := s
  cases c with
  | init mem key iv enc =>
    simp only [call, Option.some.injEq] at h
    subst h
    have : (init (Pv.track api) w mem n d key iv enc).1.cipher = (d.bind (·.cipher)) := by
      unfold init
      cases d <;> cases key <;> simp only [Option.getD_none, Option.getD_some, Option.bind_none, Option.bind_some] <;> (try split) <;> rfl
    simp only [held, this]
    rw [h0]
    cases d <;> rfl
  | setTag t =>
    simp only [call, Option.some.injEq] at h
    subst h
    have : held (setTag d t).1 = held d := by
      unfold setTag
      split
      · rfl
      · cases d <;> rfl
    simp only [this]
    exact h0
  | cipher mem out inp =>
    simp only [call, Option.map_eq_some_iff] at h
    obtain ⟨r, h, e⟩ := h
    subst e
    cases d with
    | none =>
      simp only [doCipher, Option.some.injEq] at h
      rw [← h]
      exact h0
    | some d =>
      simp only [doCipher] at h
      cases hk : d.key with
      | none =>
        rw [hk] at h
        simp only [Option.some.injEq] at h
        rw [← h]
        exact h0
      | some a =>
        rw [hk] at h
        simp only at h
        have he : ∀ aad w1 x, ensure (Pv.track api) w mem n d a aad = (w1, x) →
            w1.2 = held (some ((x.map (·.1)).getD d)) ++ l ∧ ∀ y, x = some y → y.1.cipher = some y.2 := by
          intro aad w1 x hx
          unfold ensure at hx
          cases hc : d.cipher with
          | some h' =>
            rw [hc] at hx
            simp only [Prod.mk.injEq] at hx
            rw [← hx.1, ← hx.2]
            exact ⟨h0, fun y hy => by cases hy; exact hc⟩
          | none =>
            rw [hc] at hx
            simp only at hx
            have h0' : w.2 = l := by rw [h0]; simp [held, hc]
            cases hp : params mem n d aad with
            | none =>
              rw [hp] at hx
              simp only [Prod.mk.injEq] at hx
              rw [← hx.1, ← hx.2]
              exact ⟨h0, fun y hy => by cases hy⟩
            | some sp =>
              rw [hp] at hx
              simp only at hx
              have ht := Pv.track_init api w d.alg d.mode (mem.key a) sp
              cases hi : (Pv.track api).cipherInit w d.alg d.mode (mem.key a) sp with
              | mk w2 o =>
                rw [hi] at hx ht
                cases o with
                | none =>
                  simp only [Prod.mk.injEq] at hx
                  rw [← hx.1, ← hx.2]
                  refine ⟨?_, fun y hy => by cases hy⟩
                  rw [ht, h0]
                  simp [held, hc]
                | some h' =>
                  simp only [Prod.mk.injEq] at hx
                  rw [← hx.1, ← hx.2]
                  refine ⟨?_, fun y hy => by cases hy; rfl⟩
                  rw [ht, h0']
                  rfl
        split at h
        · rename_i w1 hx
          simp only [Option.some.injEq] at h
          rw [← h]
          exact (he _ _ _ hx).1
        · rename_i w1 d1 h1 hx
          have i := (he _ _ _ hx).1
          simp only [Option.map_some, Option.getD_some] at i
          cases out with
          | false =>
            simp only [Bool.not_false, if_true, Option.some.injEq] at h
            rw [← h]
            exact i
          | true =>
            simp only [Bool.not_true, Bool.false_eq_true, if_false] at h
            cases inp with
            | some m =>
              simp only at h
              split at h
              · rename_i w2 hq
                simp only [Option.some.injEq] at h
                rw [← h]
                simp only [Pv.track, Prod.mk.injEq] at hq
                rw [← hq.1]
                exact i
              · rename_i w2 o hq
                simp only [Option.some.injEq] at h
                rw [← h]
                simp only [Pv.track, Prod.mk.injEq] at hq
                rw [← hq.1]
                exact i
            | none =>
              simp only at h
              split at h
              · exact absurd h (by simp)
              · rename_i w2 d2 r2 o2 hl
                simp only [Option.some.injEq] at h
                rw [← h]
                unfold last at hl
                split at hl
                · split at hl
                  · exact absurd hl (by simp)
                  · split at hl
                    · rename_i w3 hq
                      simp only [Option.some.injEq, Prod.mk.injEq] at hl
                      simp only [Pv.track, Prod.mk.injEq] at hq
                      rw [← hl.1, ← hl.2.1, ← hq.1]
                      exact i
                    · rename_i w3 o3 t3 hq
                      simp only [Option.some.injEq, Prod.mk.injEq] at hl
                      simp only [Pv.track, Prod.mk.injEq] at hq
                      rw [← hl.1, ← hl.2.1, ← hq.1]
                      exact i
                · simp only [Option.some.injEq, Prod.mk.injEq] at hl
                  rw [← hl.1, ← hl.2.1]
                  exact i

/-- **C80, cipher contexts.**  Whatever is done with a context, with whatever success: when it is freed, no cipher context of the API is left
that it made, and none is released that it did not make.  (Calls that read a tag that was never set are left out, `C80_violated_untagged`.) -/
theorem C80_released (api : Api ω) (n : Name) (w : ω) (l : List Nat) (cs : List Call) (w' : ω × List Nat) (d : Option Data)
    (h : calls (Pv.track api) n ((w, l), none) cs = some (w', d)) : (cleanup (Pv.track api) w' d).2 = l := by
  have run : ∀ (cs : List Call) (s s' : (ω × List Nat) × Option Data), s.1.2 = held s.2 ++ l → calls (Pv.track api) n s cs = some s' →
      s'.1.2 = held s'.2 ++ l := by
    intro cs
    induction cs with
    | nil =>
      intro s s' h0 h
      simp only [calls, Option.some.injEq] at h
      rw [← h]
      exact h0
    | cons c cs ih =>
      intro s s' h0 h
      simp only [calls, Option.bind_eq_some_iff] at h
      obtain ⟨s1, h1, h2⟩ := h
      exact ih s1 s' (call_held api n l c h0 h1) h2
  have e := run cs _ _ rfl h
  unfold cleanup
  cases d with
  | none => exact e
  | some d =>
    obtain ⟨a1, a2, a3, a4, cipher, a6⟩ := d
    cases cipher with
    | none => exact e
    | some x =>
      simp only [held, Option.toList_some, List.singleton_append] at e
      show w'.2.erase x = l
      rw [e, List.erase_cons_head]

/-! ## Concrete cases -/

/-- A cipher that adds the key, the IV and the direction to every byte; its tag is the sum of the additional data.  Key 9 may not be used. -/
def adding : Api UInt8 :=
  { keyImport := fun w _ => (w, none), keySize := fun _ _ => some 16, keyRelease := fun w _ => w
    cipherInit := fun w _ mode k sp =>
      if k = 9 then (w, none) else (UInt8.ofNat (k + 100 * mode) + sp.iv.foldl (· + ·) 0 + sp.aad.foldl (· + ·) 0, some 5)
    process := fun w _ b room => if room < b.length then (w, none) else (w, some (b.map (· + w)))
    processLast := fun w _ _ _ t => if t = some (List.replicate 16 w) then (w, some ([], t)) else (w, none)
    cipherRelease := fun w _ => w }

def add (w : UInt8) (b : Bytes) : UInt8 × Bytes := (w, b.map (· + w))

theorem adding_streams (bs : Nat) : Streams adding 5 bs add :=
  ⟨fun w b room _ hr => by simp [adding, add, Nat.not_lt.mpr hr], fun w a b _ _ => by simp [add], fun w => rfl, fun w b => by simp [add]⟩

def memory : Mem := ⟨fun a => a, fun a => UInt8.ofNat a :: List.replicate 15 0⟩

/-- Enciphered in pieces of 1, 0 and 19 bytes, padded. -/
example : ∃ e, evpInit adding 0 memory (evpNew (.cbc 128)) (some 1) (some 2) true = (e, true) ∧
    message adding memory 0 e [[7], [], List.replicate 19 8] = some (some ((pad (7 :: List.replicate 19 8)).map (· + 103))) := by
  obtain ⟨e, h1, h2⟩ := C80_message_partial adding 0 103 memory (.cbc 128) rfl 1 2 5 true true (by simp) rfl (by rfl) add (adding_streams _)
    (fun w b _ => by simp [add]) [[7], [], List.replicate 19 8]
  exact ⟨e, h1, h2⟩

/-- With a tag. -/
example : ∃ e, evpInit adding 0 memory (evpNew (.gcm 128)) (some 1) (some 2) false = (e, true) ∧
    aead adding memory 0 e (some [4]) [[7], [8]] (some (List.replicate 16 7)) = some (some ([14, 15], some (List.replicate 16 7))) := by
  refine ⟨_, rfl, by decide +kernel⟩

/-- A key that may not be used: success, nothing written. -/
example : (evpUpdate adding 0 memory (evpInit adding 0 memory (evpNew (.cbc 128)) (some 9) (some 2) true).1 (List.replicate 16 1)).map (·.2.2) =
    some ⟨true, [], 16⟩ := by decide +kernel

/-- A second message with another key: it is enciphered with the first. -/
example : ((evpUpdate adding 0 memory (evpInit adding 0 memory (evpNew (.ctr 128)) (some 1) (some 2) true).1 [1]).bind fun (w, e, r) =>
      (evpUpdate adding w memory (evpInit adding w memory e (some 50) (some 60) false).1 [1]).map fun x => (r.out, x.2.2.out)) =
    some ([104], [104]) := by decide +kernel

/-- The context is set up to encipher, the application wants to decipher: the mode of the API is 1. -/
example : (evpUpdate adding 0 memory (evpInit adding 0 memory (evpInit adding 0 memory (evpNew (.ctr 128)) none none true).1 (some 1) (some 2) false).1
      [1]).map (·.2.2.out) = some [104] := by decide +kernel

/-- A context is made, is used and is released. -/
example : ((calls (Pv.track adding) (.cbc 128) ((0, [3]), none)
      [.init memory (some 1) (some 2) true, .cipher memory true (some (List.replicate 16 1))]).map fun s =>
      (s.1.2, (cleanup (Pv.track adding) s.1 s.2).2)) = some ([5, 3], [3]) := by decide +kernel

end Sa.Eng.C80

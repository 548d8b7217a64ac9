import Verif.Model.ProviderCipher

/-!
# Lemmas about the ciphers of the provider
-/

namespace Sa.Pv

variable {ω : Type}

/-- The context `h` is a cipher that works on complete blocks: whatever there is room for is processed, it does not matter how the blocks are
cut, and not more is output than was input. -/
structure Streams (api : Api ω) (h bs : Nat) (p : ω → Bytes → ω × Bytes) : Prop where
  process : ∀ w b room, b.length % bs = 0 → b.length ≤ room → api.process w h b room = ((p w b).1, some (p w b).2)
  append : ∀ w a b, a.length % bs = 0 → b.length % bs = 0 → p w (a ++ b) = ((p (p w a).1 b).1, (p w a).2 ++ (p (p w a).1 b).2)
  nil : ∀ w, p w [] = (w, [])
  short : ∀ w b, (p w b).2.length ≤ b.length

/-- Complete blocks. -/
def blocks (bs : Nat) (m : Bytes) : Bytes := m.take (m.length / bs * bs)

/-- The rest. -/
def rest (bs : Nat) (m : Bytes) : Bytes := m.drop (m.length / bs * bs)

theorem blocks_rest (bs : Nat) (m : Bytes) : blocks bs m ++ rest bs m = m := List.take_append_drop _ _

theorem blocks_length (bs : Nat) (m : Bytes) : (blocks bs m).length = m.length / bs * bs := by
  unfold blocks
  rw [List.length_take]
  exact Nat.min_eq_left (Nat.div_mul_le_self _ _)

theorem rest_length (bs : Nat) (m : Bytes) : (rest bs m).length = m.length % bs := by
  unfold rest
  rw [List.length_drop]
  have := Nat.div_add_mod m.length bs
  rw [Nat.mul_comm] at this
  omega

theorem blocks_short {bs : Nat} {m : Bytes} (h : m.length < bs) : blocks bs m = [] ∧ rest bs m = m := by
  unfold blocks rest
  rw [Nat.div_eq_of_lt h]
  simp

/-- Complete blocks in front. -/
theorem blocks_append {bs : Nat} (hbs : 0 < bs) (a m : Bytes) (ha : a.length % bs = 0) :
    blocks bs (a ++ m) = a ++ blocks bs m ∧ rest bs (a ++ m) = rest bs m := by
  have e : (a ++ m).length / bs * bs = a.length + m.length / bs * bs := by
    rw [List.length_append]
    obtain ⟨k, hk⟩ := Nat.dvd_of_mod_eq_zero ha
    rw [hk, Nat.mul_comm bs k, Nat.add_comm (k * bs), Nat.add_mul_div_right _ _ hbs, Nat.add_mul, Nat.add_comm]
  unfold blocks rest
  rw [e]
  refine ⟨?_, ?_⟩
  · rw [List.take_append, List.take_of_length_le (by omega)]
    congr 2
    omega
  · rw [List.drop_append, List.drop_of_length_le (by omega), List.nil_append]
    congr 1
    omega

/-- The loop has ended. -/
theorem loop_done (api : Api ω) (h room bs : Nat) (inp : Bytes) (n : Nat) (s : Loop ω) (hs : s.total < bs) :
    loop api h room bs inp n s = s := by
  cases n with
  | zero => rfl
  | succ n => simp only [loop]; rw [if_pos hs]

theorem feed_eq {api : Api ω} {h bs room : Nat} {p : ω → Bytes → ω × Bytes} (hp : Streams api h bs p) (s : Loop ω) (b : Bytes)
    (hb : b.length % bs = 0) (hr : s.out.length + b.length ≤ room) :
    s.feed api h room b = { s with world := (p s.world b).1, total := s.total - b.length, ok := true, out := s.out ++ (p s.world b).2,
                                   processed := s.processed + (p s.world b).2.length } := by
  unfold Loop.feed
  rw [hp.process s.world b _ hb (by omega)]

/-- The part of the loop that processes the input itself. -/
theorem loop_direct {api : Api ω} {h bs room : Nat} {p : ω → Bytes → ω × Bytes} (hp : Streams api h bs p) (hbs : 0 < bs) (inp : Bytes)
    (n : Nat) (w : ω) (pos : Nat) (out : Bytes) (processed : Nat) (hpos : pos ≤ inp.length)
    (hr : out.length + (inp.length - pos) ≤ room) :
    loop api h room bs inp (n + 1) ⟨w, inp.length - pos, pos, [], true, out, processed⟩ =
      ⟨(p w (blocks bs (inp.drop pos))).1, (inp.length - pos) % bs, pos + (inp.length - pos) / bs * bs, [], true,
        out ++ (p w (blocks bs (inp.drop pos))).2, processed + (p w (blocks bs (inp.drop pos))).2.length⟩ := by
  have hmod := Nat.div_add_mod (inp.length - pos) bs
  rw [Nat.mul_comm] at hmod
  by_cases hlt : inp.length - pos < bs
  · rw [loop_done _ _ _ _ _ _ _ hlt]
    have hb : blocks bs (inp.drop pos) = [] := (blocks_short (by rw [List.length_drop]; exact hlt)).1
    rw [hb, hp.nil, Nat.mod_eq_of_lt hlt, Nat.div_eq_of_lt hlt]
    simp
  · simp only [loop]
    rw [if_neg hlt, if_neg (by simp)]
    have hb : (inp.drop pos).take ((inp.length - pos) / bs * bs) = blocks bs (inp.drop pos) := by
      unfold blocks
      rw [List.length_drop]
    have hl : (blocks bs (inp.drop pos)).length = (inp.length - pos) / bs * bs := by
      rw [blocks_length, List.length_drop]
    rw [hb, feed_eq hp _ _ (by rw [hl]; exact Nat.mul_mod_left _ _) (by rw [hl]; show out.length + _ ≤ room; omega)]
    rw [loop_done]
    · simp only [hl]
      congr 1
      omega
    · show inp.length - pos - (blocks bs (inp.drop pos)).length < bs
      rw [hl]
      have := Nat.mod_lt (inp.length - pos) hbs
      omega

theorem update_of_loop {api : Api ω} {h room : Nat} {w : ω} {c : Ctx} {m : Bytes} {s : Loop ω} {r : Bytes}
    (e : loop api h room c.blockSize m 3 ⟨w, c.rem.length + m.length, 0, c.rem, true, [], 0⟩ = s)
    (hr : (if s.position < m.length then m.drop s.position else s.rem) = r) :
    update api w c h room m = (s.world, { c with rem := r }, ⟨s.ok, s.out, if s.ok then s.processed else 0⟩) := by
  subst e hr
  rfl

/-- An update processes the complete blocks and keeps the rest, unless it does not complete the block that was begun. -/
theorem update_eq {api : Api ω} {h room : Nat} {p : ω → Bytes → ω × Bytes} (w : ω) (c : Ctx) (m : Bytes)
    (hp : Streams api h c.blockSize p) (hbs : 0 < c.blockSize) (hrem : c.rem.length < c.blockSize)
    (hcut : c.rem = [] ∨ m = [] ∨ c.blockSize ≤ c.rem.length + m.length) (hroom : c.rem.length + m.length ≤ room) :
    update api w c h room m =
      ((p w (blocks c.blockSize (c.rem ++ m))).1, { c with rem := rest c.blockSize (c.rem ++ m) },
        ⟨true, (p w (blocks c.blockSize (c.rem ++ m))).2, (p w (blocks c.blockSize (c.rem ++ m))).2.length⟩) := by
  by_cases hr : c.rem = []
  · rw [hr, List.nil_append]
    have e := loop_direct hp hbs m 2 w 0 [] 0 (Nat.zero_le _) (room := room) (by rw [hr] at hroom; simpa using hroom)
    simp only [Nat.sub_zero, List.drop_zero, List.nil_append, Nat.zero_add] at e
    have hc : (if m.length / c.blockSize * c.blockSize < m.length then m.drop (m.length / c.blockSize * c.blockSize) else []) =
        rest c.blockSize m := by
      unfold rest
      split
      · rfl
      · rw [List.drop_of_length_le (by omega)]
    exact update_of_loop (Eq.trans (by rw [hr, List.length_nil, Nat.zero_add]) e) hc
  · have hpos : 0 < c.rem.length := by
      cases hc : c.rem with
      | nil => exact absurd hc hr
      | cons a l => simp
    by_cases hlt : c.rem.length + m.length < c.blockSize
    · have hm : m = [] := by
        rcases hcut with h | h | h
        · exact absurd h hr
        · exact h
        · omega
      subst hm
      have hb := blocks_short (bs := c.blockSize) (m := c.rem) hrem
      rw [update_of_loop (loop_done _ _ _ _ _ _ _ hlt) rfl]
      simp only [List.append_nil, hb, hp.nil, List.length_nil, Nat.not_lt_zero, if_false, if_true]
    · have hl : (c.rem ++ m.take (c.blockSize - c.rem.length)).length = c.blockSize := by
        rw [List.length_append, List.length_take]
        omega
      have hlen : (p w (c.rem ++ m.take (c.blockSize - c.rem.length))).2.length ≤ c.blockSize := by
        have := hp.short w (c.rem ++ m.take (c.blockSize - c.rem.length))
        omega
      have e := loop_direct hp hbs m 1 (p w (c.rem ++ m.take (c.blockSize - c.rem.length))).1 (c.blockSize - c.rem.length)
        (p w (c.rem ++ m.take (c.blockSize - c.rem.length))).2 (p w (c.rem ++ m.take (c.blockSize - c.rem.length))).2.length
        (room := room) (by omega) (by omega)
      have ht : c.rem.length + m.length - c.blockSize = m.length - (c.blockSize - c.rem.length) := by omega
      have e3 : loop api h room c.blockSize m 3 ⟨w, c.rem.length + m.length, 0, c.rem, true, [], 0⟩ =
          loop api h room c.blockSize m 2 ⟨(p w (c.rem ++ m.take (c.blockSize - c.rem.length))).1,
            m.length - (c.blockSize - c.rem.length), c.blockSize - c.rem.length, [], true,
            (p w (c.rem ++ m.take (c.blockSize - c.rem.length))).2,
            (p w (c.rem ++ m.take (c.blockSize - c.rem.length))).2.length⟩ := by
        rw [loop]
        rw [if_neg hlt, if_pos hpos]
        simp only [Nat.zero_add, List.drop_zero]
        rw [feed_eq hp _ _ (by rw [hl]; exact Nat.mod_self _) (by rw [hl]; show 0 + _ ≤ room; omega)]
        simp only [hl, List.nil_append, Nat.zero_add, ht]
      have hsplit : c.rem ++ m = (c.rem ++ m.take (c.blockSize - c.rem.length)) ++ m.drop (c.blockSize - c.rem.length) := by
        rw [List.append_assoc, List.take_append_drop]
      have hb := blocks_append hbs (c.rem ++ m.take (c.blockSize - c.rem.length)) (m.drop (c.blockSize - c.rem.length))
        (by rw [hl]; exact Nat.mod_self _)
      have hc : (if c.blockSize - c.rem.length + (m.length - (c.blockSize - c.rem.length)) / c.blockSize * c.blockSize < m.length then
            m.drop (c.blockSize - c.rem.length + (m.length - (c.blockSize - c.rem.length)) / c.blockSize * c.blockSize) else []) =
          rest c.blockSize (m.drop (c.blockSize - c.rem.length)) := by
        unfold rest
        rw [List.drop_drop, List.length_drop]
        split
        · rfl
        · rw [List.drop_of_length_le (by omega)]
      rw [update_of_loop (e3.trans e) hc]
      rw [hsplit, hb.1, hb.2, hp.append _ (c.rem ++ m.take (c.blockSize - c.rem.length)) _ (by rw [hl]; exact Nat.mod_self _)
        (by rw [blocks_length]; exact Nat.mul_mod_left _ _)]
      simp only [if_true, List.length_append]

/-- A context once made is used further on. -/
theorem call_ensure {api : Api ω} {w w1 : ω} {c c1 : Ctx} {k h : Nat} (hk : c.key = some k) (hk1 : c1.key = some k)
    (hc : c1.cipher = some h) (he : ensure api w c k [] = (w1, some (c1, h))) (room : Nat) (inp : Option Bytes) :
    call api w c (some room) inp = call api w1 c1 (some room) inp := by
  unfold call
  rw [hk, hk1]
  simp only [Option.isNone_some, Bool.false_eq_true, if_false]
  rw [he]
  have : ensure api w1 c1 k [] = (w1, some (c1, h)) := by unfold ensure; rw [hc]
  rw [this]

theorem call_update {api : Api ω} {w : ω} {c : Ctx} {k h : Nat} (hk : c.key = some k) (hc : c.cipher = some h) (room : Nat) (m : Bytes) :
    call api w c (some room) (some m) = update api w c h room m := by
  unfold call ensure
  rw [hk, hc]

theorem call_final {api : Api ω} {w : ω} {c : Ctx} {k h : Nat} (hk : c.key = some k) (hc : c.cipher = some h) (room : Nat) :
    call api w c (some room) none = final api w c h room := by
  unfold call ensure
  rw [hk, hc]

theorem final_block (api : Api ω) (w : ω) (c : Ctx) (h room : Nat) (ha : c.alg = CIPHER_AES_CBC ∨ c.alg = CIPHER_AES_ECB) :
    final api w c h room = (w, c, ⟨decide (c.rem = []), [], 0⟩) := by
  unfold final
  rw [if_neg (by intro h; rcases ha with e | e; exact h.1 e; exact h.2 e)]
  cases hr : c.rem with
  | nil => rfl
  | cons a l => simp

theorem final_last (api : Api ω) (w : ω) (c : Ctx) (h room : Nat) (ha : ¬(c.alg = CIPHER_AES_CBC ∨ c.alg = CIPHER_AES_ECB)) :
    final api w c h room = match api.processLast w h c.rem room (if c.aead then some c.tag else none) with
      | (w, none) => (w, c, ⟨false, [], 0⟩)
      | (w, some (o, t)) => (w, { c with tag := if c.aead then t.getD c.tag else c.tag }, ⟨true, o, o.length⟩) := by
  unfold final
  rw [if_pos ⟨fun e => ha (Or.inl e), fun e => ha (Or.inr e)⟩]
  rfl

/-- The API with a list of the cipher contexts that were made and not released. -/
def track (api : Api ω) : Api (ω × List Nat) :=
  { keyImport := fun w b => let r := api.keyImport w.1 b; ((r.1, w.2), r.2)
    keySize := fun w => api.keySize w.1
    keyRelease := fun w k => (api.keyRelease w.1 k, w.2)
    cipherInit := fun w a m k p => match api.cipherInit w.1 a m k p with
      | (w1, some h) => ((w1, h :: w.2), some h)
      | (w1, none) => ((w1, w.2), none)
    process := fun w h b n => let r := api.process w.1 h b n; ((r.1, w.2), r.2)
    processLast := fun w h b n t => let r := api.processLast w.1 h b n t; ((r.1, w.2), r.2)
    cipherRelease := fun w h => (api.cipherRelease w.1 h, w.2.erase h) }

theorem track_init (api : Api ω) (w : ω × List Nat) (a m k : Nat) (p : SymParams) :
    ((track api).cipherInit w a m k p).1.2 = ((track api).cipherInit w a m k p).2.toList ++ w.2 := by
  simp only [track]
  cases api.cipherInit w.1 a m k p with
  | mk w1 r => cases r <;> rfl

end Sa.Pv

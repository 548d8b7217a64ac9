import Verif.Lemmas.Evp
import Verif.Lemmas.CipherPair
import Verif.Model.EvpSpec

/-!
# Contexts made by `symmetric_create_*_context` compute what they should
-/

namespace Sa.Evp

variable {σ : Type}

/-! ## Chunk by chunk -/

/-- The chunks one after the other. -/
inductive Fed (p : CipherPrim σ) (stream : Bool) : σ → List Bytes → List Bytes → σ → Prop
  | nil (s : σ) : Fed p stream s [] [] s
  | cons {s s1 s2 : σ} {m o : Bytes} {ms os : List Bytes} : stream = true ∨ m.length % 16 = 0 → p.update s m = (s1, some o) →
      Fed p stream s1 ms os s2 → Fed p stream s (m :: ms) (o :: os) s2

theorem calls_feed {p : CipherPrim σ} {view : σ → CipherView} (hp : p.Good view) {h : Nat} {caller : Uuid} {ptr : Nat} {o : CipherObj} {sk : StoredKey}
    (u : UnwrapPrims) (env : RightsEnv) (b : ClientBufs) (hb : b.Ok) (ms : List Bytes) :
    ∀ {w : CipherWorld σ} {c : SymCtx σ}, CipherInv w → HasCtx w h caller ptr o sk (some c) → GoodCtx view o sk (some c) →
    (∀ m ∈ ms, m.length < 2 ^ 31) → ∀ w' os, clearCalls p u env h caller b w ms = some (w', some os) →
    ∃ c', CipherInv w' ∧ HasCtx w' h caller ptr o sk (some c') ∧ GoodCtx view o sk (some c') ∧ Fed p (isStreamAlg o.alg) c.evp ms os c'.evp := by
  induction ms with
  | nil =>
    intro w c inv hc hg _ w' os h
    simp only [clearCalls, Option.some.injEq, Prod.mk.injEq] at h
    obtain ⟨h1, h2⟩ := h
    subst h1; subst h2
    exact ⟨c, inv, hc, hg, .nil _⟩
  | cons m ms ih =>
    intro w c inv hc hg hlen w' os hcalls
    simp only [clearCalls] at hcalls
    cases hcall : clearCall .more p u env w h caller b m with
    | none => rw [hcall] at hcalls; simp at hcalls
    | some r =>
      obtain ⟨w1, res⟩ := r
      rw [hcall] at hcalls
      simp only [Option.bind_some] at hcalls
      cases res with
      | none => simp at hcalls
      | some ct =>
        obtain ⟨x, t⟩ := ct
        simp only at hcalls
        cases hrest : clearCalls p u env h caller b w1 ms with
        | none => rw [hrest] at hcalls; simp at hcalls
        | some r2 =>
          obtain ⟨w2, os2⟩ := r2
          rw [hrest] at hcalls
          simp only [Option.map_some, Option.some.injEq, Prod.mk.injEq] at hcalls
          obtain ⟨h1, h2⟩ := hcalls
          subst h1
          cases os2 with
          | none => simp at h2
          | some os2 =>
            simp only [Option.map_some, Option.some.injEq] at h2
            subst h2
            obtain ⟨_, _, r3, _, e, r5, r6⟩ := (more_call inv hc hg hp u env b hb m (hlen m (by simp)) w1 x t).mp hcall
            obtain ⟨x1, x2, x3, x4⟩ := hg.sym c rfl
            obtain ⟨_, _, _, ug⟩ := update_good hp c x3 m x (by rw [x1]; exact r3) (by rw [r5])
            rw [r5] at ug
            subst r6
            obtain ⟨c', d1, d2, d3, d4⟩ := ih (c := { c with evp := e }) (inv.setSym h ptr o _ hc.slot hc.obj) (hc.setSym _) (hg.with rfl rfl ug) (fun y hy => hlen y (by simp [hy])) w2 os2 hrest
            exact ⟨c', d1, d2, d3, .cons r3 r5 d4⟩

/-! ## What was computed -/

/-- A new context. -/
structure Fresh (s : Ctx) : Prop where
  held : s.held = []
  done : s.done = []

/-- Number of blocks that a block cipher has processed when it was given `n` bytes. -/
def blocksOf (s : Ctx) (n : Nat) : Nat := if s.enc || !s.padding then n / 16 else (n - 1) / 16

def runBlocks (A : Algos) (m : BlockMode) (enc : Bool) (key : Bytes) (n : Nat) (chain b : Bytes) : Bytes × Bytes :=
  if enc then encBlocks A m key n chain b else decBlocks A m key n chain b

/-- `s` is `s0` after input `p` and output `c`. -/
def After (A : Algos) (s0 s : Ctx) (p c : Bytes) : Prop :=
  match s0.cipher with
  | none => False
  | some (.block m _) =>
    s = { s0 with held := p.drop (blocksOf s0 p.length * 16), chain := (runBlocks A m s0.enc s0.key (blocksOf s0 p.length) s0.chain p).2 } ∧
    c = (runBlocks A m s0.enc s0.key (blocksOf s0 p.length) s0.chain p).1
  | some ci => s = { s0 with done := if s0.enc then c else p } ∧ c = xorStream (A.stream ci s0.key s0.iv) 0 p

theorem after_block {A : Algos} {s0 s : Ctx} {p c : Bytes} (m : BlockMode) (bits : Nat) (h : s0.cipher = some (.block m bits)) : After A s0 s p c ↔
    s = { s0 with held := p.drop (blocksOf s0 p.length * 16), chain := (runBlocks A m s0.enc s0.key (blocksOf s0 p.length) s0.chain p).2 } ∧
    c = (runBlocks A m s0.enc s0.key (blocksOf s0 p.length) s0.chain p).1 := by
  cases s0 with
  | mk => simp only at h; subst h; exact Iff.rfl

theorem after_stream {A : Algos} {s0 s : Ctx} {p c : Bytes} (ci : Cipher) (h : s0.cipher = some ci) (hb : ∀ m bits, ci ≠ .block m bits) : After A s0 s p c ↔
    s = { s0 with done := if s0.enc then c else p } ∧ c = xorStream (A.stream ci s0.key s0.iv) 0 p := by
  cases s0 with
  | mk =>
    simp only at h; subst h
    cases ci with
    | block m bits => exact absurd rfl (hb m bits)
    | _ => exact Iff.rfl

theorem runBlocks_zero (A : Algos) (m : BlockMode) (enc : Bool) (key chain b : Bytes) : runBlocks A m enc key 0 chain b = ([], chain) := by
  unfold runBlocks
  split <;> rfl

theorem runBlocks_add (A : Algos) (m : BlockMode) (enc : Bool) (key : Bytes) (n k : Nat) (chain b c : Bytes) (hn : n * 16 ≤ b.length) :
    runBlocks A m enc key (n + k) chain (b ++ c) =
      ((runBlocks A m enc key n chain b).1 ++ (runBlocks A m enc key k (runBlocks A m enc key n chain b).2 (b.drop (n * 16) ++ c)).1,
       (runBlocks A m enc key k (runBlocks A m enc key n chain b).2 (b.drop (n * 16) ++ c)).2) := by
  unfold runBlocks
  split
  · rw [encBlocks_add, encBlocks_take A m key n _ _ _ hn, List.drop_append_of_le_length hn]
  · rw [decBlocks_add, decBlocks_take A m key n _ _ _ hn, List.drop_append_of_le_length hn]

theorem runBlocks_length {A : Algos} (hA : A.Good) (m : BlockMode) (enc : Bool) (key : Bytes) (n : Nat) (chain b : Bytes) (h : n * 16 ≤ b.length) :
    (runBlocks A m enc key n chain b).1.length = n * 16 := by
  unfold runBlocks
  split
  · exact encBlocks_length hA m key n chain b h
  · exact decBlocks_length hA m key n chain b h

theorem blocksOf_le (s : Ctx) (n : Nat) : blocksOf s n * 16 ≤ n := by unfold blocksOf; split <;> omega

theorem blockUpdate_run (A : Algos) (m : BlockMode) (s : Ctx) (b : Bytes) (n : Nat) : blockUpdate A m s b n =
    ({ s with held := (s.held ++ b).drop (n * 16), chain := (runBlocks A m s.enc s.key n s.chain (s.held ++ b)).2 },
      some (runBlocks A m s.enc s.key n s.chain (s.held ++ b)).1) := rfl

theorem after_nil (A : Algos) (s0 : Ctx) (hf : Fresh s0) (hc : s0.cipher ≠ none) : After A s0 s0 [] [] := by
  rcases ctx_cases s0 with h | ⟨m, bits, h⟩ | ⟨ci, h, hb⟩
  · exact absurd h hc
  · rw [after_block m bits h]
    have : blocksOf s0 ([] : Bytes).length = 0 := by unfold blocksOf; split <;> rfl
    rw [this, runBlocks_zero]
    refine ⟨?_, rfl⟩
    have := hf.held
    cases s0
    simp only at this
    subst this
    rfl
  · rw [after_stream ci h hb]
    refine ⟨?_, rfl⟩
    have := hf.done
    cases s0
    simp only at this
    subst this
    simp

theorem after_step {A : Algos} {s0 s s' : Ctx} {p c m o : Bytes} (h : After A s0 s p c) (hu : update A s m = (s', some o)) :
    After A s0 s' (p ++ m) (c ++ o) := by
  rcases ctx_cases s0 with hc | ⟨bm, bits, hc⟩ | ⟨ci, hc, hb⟩
  · unfold After at h; rw [hc] at h; exact h.elim
  · rw [after_block bm bits hc] at h ⊢
    obtain ⟨h1, h2⟩ := h
    have hsc : s.cipher = some (.block bm bits) := by rw [h1]; exact hc
    have hse : s.enc = s0.enc := by rw [h1]
    have hsp : s.padding = s0.padding := by rw [h1]
    have hsk : s.key = s0.key := by rw [h1]
    have hsh : s.held = p.drop (blocksOf s0 p.length * 16) := by rw [h1]
    have hsch : s.chain = (runBlocks A bm s0.enc s0.key (blocksOf s0 p.length) s0.chain p).2 := by rw [h1]
    have hle := blocksOf_le s0 p.length
    have hupd : (m = [] ∧ blocksOf s0 (p ++ m).length = blocksOf s0 p.length ∧ s' = s ∧ o = []) ∨
        ∃ k, blocksOf s0 (p ++ m).length = blocksOf s0 p.length + k ∧ blockUpdate A bm s m k = (s', some o) := by
      have hl : (s.held ++ m).length = p.length - blocksOf s0 p.length * 16 + m.length := by rw [hsh, List.length_append, List.length_drop]
      rw [update_block A s m bm bits hsc, hse, hsp] at hu
      unfold blocksOf at *
      split at hu
      · rename_i hx
        simp only [hx, if_true] at *
        right
        refine ⟨_, ?_, hu⟩
        rw [hl, List.length_append]
        omega
      · rename_i hx
        simp only [hx] at *
        split at hu
        · rename_i hm0
          simp only [Prod.mk.injEq, Option.some.injEq] at hu
          exact Or.inl ⟨hm0, by rw [hm0, List.append_nil], hu.1.symm, hu.2.symm⟩
        · rename_i hm0
          right
          refine ⟨_, ?_, hu⟩
          have : 0 < m.length := List.length_pos_iff.mpr hm0
          rw [hl, List.length_append]
          simp only [Bool.false_eq_true, if_false] at *
          omega
    rcases hupd with ⟨hm0, _, hs', ho⟩ | ⟨k, hk, hbu⟩
    · subst hm0; subst hs'; subst ho
      rw [List.append_nil, List.append_nil]
      exact ⟨h1, h2⟩
    · rw [blockUpdate_run] at hbu
      simp only [Prod.mk.injEq, Option.some.injEq] at hbu
      obtain ⟨g1, g2⟩ := hbu
      rw [hk, runBlocks_add A bm s0.enc s0.key _ k s0.chain p m hle]
      rw [hse, hsk, hsch, hsh] at g2
      constructor
      · rw [← g1, hse, hsk, hsch, hsh, h1]
        simp only [Ctx.mk.injEq, true_and, and_true]
        rw [Nat.add_mul, ← List.drop_drop, List.drop_append_of_le_length hle]
      · rw [h2, ← g2]
  · rw [after_stream ci hc hb] at h ⊢
    obtain ⟨h1, h2⟩ := h
    have hsc : s.cipher = some ci := by rw [h1]; exact hc
    rw [update_stream A s m ci hsc hb] at hu
    simp only [Prod.mk.injEq, Option.some.injEq] at hu
    obtain ⟨g1, g2⟩ := hu
    have hdl : s.done.length = p.length := by
      rw [h1]
      simp only
      split
      · rw [h2, xorStream_length]
      · rfl
    have hsk : s.key = s0.key := by rw [h1]
    have hsi : s.iv = s0.iv := by rw [h1]
    have hse : s.enc = s0.enc := by rw [h1]
    have hsd : s.done = if s0.enc then c else p := by rw [h1]
    rw [hdl, hsk, hsi] at g2 
    constructor
    · rw [← g1, hdl, hsk, hsi, hse, hsd, g2, h1]
      cases s0.enc <;> simp
    · rw [h2, ← g2]
      unfold xorStream
      rw [List.mapIdx_append]
      congr 1
      simp [Nat.add_comm]

theorem fed_after {A : Algos} {ok : Nat → Bool} {st : Bool} {s0 : Ctx} {s s' : Ctx} {ms os : List Bytes} (h : Fed (prim A ok) st s ms os s') :
    ∀ p c, After A s0 s p c → After A s0 s' (p ++ ms.flatten) (c ++ os.flatten) := by
  induction h with
  | nil s => intro p c ha; simpa using ha
  | cons _ hu _ ih =>
    intro p c ha
    have := ih _ _ (after_step ha hu)
    simpa [List.append_assoc] using this

theorem fed_aligned {p : CipherPrim σ} {s s' : σ} {ms os : List Bytes} (h : Fed p false s ms os s') : ms.flatten.length % 16 = 0 := by
  generalize hst : false = st at h
  induction h with
  | nil => rfl
  | cons hm _ _ ih =>
    rw [← hst] at hm
    simp only [Bool.false_eq_true, false_or] at hm
    rw [List.flatten_cons, List.length_append]
    omega

/-! ## The modes -/

theorem blk_append_zero (x r : Bytes) (hx : x.length = 16) : blk (x ++ r) 0 = x := by
  unfold blk
  rw [Nat.mul_zero, List.drop_zero, List.take_append_of_le_length (by omega), List.take_of_length_le (by omega)]

theorem blk_append_succ (x r : Bytes) (hx : x.length = 16) (i : Nat) : blk (x ++ r) (i + 1) = blk r i := by
  unfold blk
  rw [show 16 * (i + 1) = 16 + 16 * i by omega, ← List.drop_drop, ← hx, List.drop_left]

theorem blk_zero (p : Bytes) : blk p 0 = p.take 16 := by unfold blk; rw [Nat.mul_zero, List.drop_zero]

theorem blk_succ (p : Bytes) (i : Nat) : blk p (i + 1) = blk (p.drop 16) i := by
  unfold blk
  rw [show 16 * (i + 1) = 16 + 16 * i by omega, ← List.drop_drop]

theorem blk_length (p : Bytes) (i : Nat) (h : i < p.length / 16) : (blk p i).length = 16 := by
  unfold blk
  rw [List.length_take, List.length_drop]; omega

theorem xorWith_eq (c b : Bytes) (h : b.length ≤ c.length) : xorWith c b = xor b c := by
  apply List.ext_getElem?
  intro i
  unfold xorWith xor
  rw [List.getElem?_mapIdx, List.getElem?_zipWith]
  by_cases hi : i < b.length
  · rw [List.getElem?_eq_getElem hi, List.getElem?_eq_getElem (by omega : i < c.length)]
    simp only [Option.map_some]
    rw [List.getD_eq_getElem?_getD, List.getElem?_eq_getElem (by omega : i < c.length)]
    rfl
  · rw [List.getElem?_eq_none (by omega)]; rfl

theorem enc_ecb {A : Algos} (hA : A.Good) (key : Bytes) : ∀ (n : Nat) (chain p : Bytes), p.length = n * 16 →
    IsEcb (A.enc key) p (encBlocks A .ecb key n chain p).1
  | 0, chain, p, h => by
    have : p = [] := List.length_eq_zero_iff.mp (by omega)
    subst this
    exact ⟨rfl, rfl, fun i hi => by simp at hi⟩
  | n + 1, chain, p, h => by
    refine ⟨by rw [encBlocks_length hA _ _ _ _ _ (by omega), h], by omega, ?_⟩
    have hl : (p.take 16).length = 16 := by rw [List.length_take]; omega
    have hx : (A.enc key (p.take 16)).length = 16 := hA.encLen key _ hl
    have hd : (p.drop 16).length = n * 16 := by rw [List.length_drop]; omega
    intro i hi
    rw [encBlocks_succ]
    simp only
    cases i with
    | zero => rw [blk_append_zero _ _ hx, blk_zero]
    | succ i => rw [blk_append_succ _ _ hx, blk_succ]; exact (enc_ecb hA key n _ _ hd).2.2 i (by omega)

theorem dec_ecb {A : Algos} (hA : A.Good) (key : Bytes) : ∀ (n : Nat) (chain p : Bytes), p.length = n * 16 →
    IsEcb (A.dec key) p (decBlocks A .ecb key n chain p).1
  | 0, chain, p, h => by
    have : p = [] := List.length_eq_zero_iff.mp (by omega)
    subst this
    exact ⟨rfl, rfl, fun i hi => by simp at hi⟩
  | n + 1, chain, p, h => by
    refine ⟨by rw [decBlocks_length hA _ _ _ _ _ (by omega), h], by omega, ?_⟩
    have hl : (p.take 16).length = 16 := by rw [List.length_take]; omega
    have hx : (A.dec key (p.take 16)).length = 16 := hA.decLen key _ hl
    have hd : (p.drop 16).length = n * 16 := by rw [List.length_drop]; omega
    intro i hi
    rw [decBlocks_succ]
    simp only
    cases i with
    | zero => rw [blk_append_zero _ _ hx, blk_zero]
    | succ i => rw [blk_append_succ _ _ hx, blk_succ]; exact (dec_ecb hA key n _ _ hd).2.2 i (by omega)

theorem enc_cbc {A : Algos} (hA : A.Good) (key : Bytes) : ∀ (n : Nat) (chain p : Bytes), chain.length = 16 → p.length = n * 16 →
    IsCbc (A.enc key) chain p (encBlocks A .cbc key n chain p).1
  | 0, chain, p, _, h => by
    have : p = [] := List.length_eq_zero_iff.mp (by omega)
    subst this
    exact ⟨rfl, rfl, fun i hi => by simp at hi⟩
  | n + 1, chain, p, hc, h => by
    refine ⟨by rw [encBlocks_length hA _ _ _ _ _ (by omega), h], by omega, ?_⟩
    have hl : (p.take 16).length = 16 := by rw [List.length_take]; omega
    have hx : (A.enc key (xorWith chain (p.take 16))).length = 16 := hA.encLen key _ (by rw [xorWith_length, hl])
    have hd : (p.drop 16).length = n * 16 := by rw [List.length_drop]; omega
    intro i hi
    rw [encBlocks_succ]
    simp only
    cases i with
    | zero => rw [blk_append_zero _ _ hx, blk_zero, if_pos rfl, xorWith_eq _ _ (by omega)]
    | succ i =>
      rw [blk_append_succ _ _ hx, blk_succ, if_neg (by omega), Nat.add_sub_cancel]
      rw [(enc_cbc hA key n _ _ hx hd).2.2 i (by omega)]
      cases i with
      | zero => rw [if_pos rfl, blk_append_zero _ _ hx]
      | succ i => rw [if_neg (by omega), Nat.add_sub_cancel, blk_append_succ _ _ hx]

theorem dec_cbc {A : Algos} (hA : A.Good) (key : Bytes) : ∀ (n : Nat) (chain p : Bytes), chain.length = 16 → p.length = n * 16 →
    IsCbcDec (A.dec key) chain p (decBlocks A .cbc key n chain p).1
  | 0, chain, p, _, h => by
    have : p = [] := List.length_eq_zero_iff.mp (by omega)
    subst this
    exact ⟨rfl, rfl, fun i hi => by simp at hi⟩
  | n + 1, chain, p, hc, h => by
    refine ⟨by rw [decBlocks_length hA _ _ _ _ _ (by omega), h], by omega, ?_⟩
    have hl : (p.take 16).length = 16 := by rw [List.length_take]; omega
    have hy : (A.dec key (p.take 16)).length = 16 := hA.decLen key _ hl
    have hx : (xorWith chain (A.dec key (p.take 16))).length = 16 := by rw [xorWith_length, hy]
    have hd : (p.drop 16).length = n * 16 := by rw [List.length_drop]; omega
    intro i hi
    rw [decBlocks_succ]
    simp only
    cases i with
    | zero => rw [blk_append_zero _ _ hx, blk_zero, if_pos rfl, xorWith_eq _ _ (by omega)]
    | succ i =>
      rw [blk_append_succ _ _ hx, blk_succ, if_neg (by omega), Nat.add_sub_cancel]
      rw [(dec_cbc hA key n _ _ hl hd).2.2 i (by omega)]
      cases i with
      | zero => rw [if_pos rfl, blk_zero p]
      | succ i => rw [if_neg (by omega), Nat.add_sub_cancel, blk_succ p]

theorem xorStream_is (ks : Nat → UInt8) (p : Bytes) : IsXored ks p (xorStream ks 0 p) := by
  refine ⟨xorStream_length _ _ _, ?_⟩
  intro i x h
  unfold xorStream
  rw [List.getElem?_mapIdx, h]
  simp

theorem padded_length (p : Bytes) : (padded p).length = (p.length / 16 + 1) * 16 := by
  unfold padded
  rw [List.length_append, List.length_replicate]; omega

theorem unpad_some (x y : Bytes) (hx : x.length = 16) (h : unpad x = some y) :
    y.length < 16 ∧ x = y ++ List.replicate (16 - y.length) (UInt8.ofNat (16 - y.length)) := by
  unfold unpad at h
  simp only at h
  split at h
  · rename_i hn
    simp only [Option.some.injEq] at h
    have hl : y.length = 16 - (x.getD 15 0).toNat := by rw [← h, List.length_take]; omega
    refine ⟨by omega, ?_⟩
    rw [hl, show 16 - (16 - (x.getD 15 0).toNat) = (x.getD 15 0).toNat by omega, ← hn.2.2, ← h, List.take_append_drop]
  · simp at h

/-! ## Contexts -/

/-- Finishing an encryption by a block cipher. -/
theorem finish_enc {A : Algos} {s0 s s2 : Ctx} {p c y : Bytes} (m : BlockMode) (bits : Nat) (hc : s0.cipher = some (.block m bits)) (he : s0.enc = true)
    (h : After A s0 s p c) (hf : final A s = (s2, some y)) : ∃ n, (withPadding s0.padding p).length = n * 16 ∧
      c ++ y = (encBlocks A m s0.key n s0.chain (withPadding s0.padding p)).1 := by
  rw [after_block m bits hc] at h
  obtain ⟨h1, h2⟩ := h
  have hsc : s.cipher = some (.block m bits) := by rw [h1]; exact hc
  have hse : s.enc = true := by rw [h1]; exact he
  have hsp : s.padding = s0.padding := by rw [h1]
  have hsk : s.key = s0.key := by rw [h1]
  have hn : blocksOf s0 p.length = p.length / 16 := by unfold blocksOf; rw [he]; rfl
  have hsh : s.held = p.drop (p.length / 16 * 16) := by rw [h1, ← hn]
  have hsch : s.chain = (encBlocks A m s0.key (p.length / 16) s0.chain p).2 := by
    rw [h1]; simp only; rw [hn, he]; rfl
  have hc2 : c = (encBlocks A m s0.key (p.length / 16) s0.chain p).1 := by
    rw [h2, hn, he]; rfl
  rw [final_block A s m bits hsc, hsp, hse] at hf
  cases hp : s0.padding with
  | false =>
    rw [hp] at hf
    simp only [Bool.not_false, if_true, Prod.mk.injEq] at hf
    have hh : s.held = [] := by
      apply Classical.byContradiction
      intro hne
      rw [if_neg hne] at hf
      simp at hf
    rw [if_pos hh] at hf
    simp only [Option.some.injEq] at hf
    have hl := congrArg List.length hh
    rw [hsh, List.length_drop, List.length_nil] at hl
    refine ⟨p.length / 16, ?_, ?_⟩
    · show p.length = _; omega
    · rw [← hf.2, List.append_nil]; exact hc2
  | true =>
    rw [hp] at hf
    simp only [Bool.not_true, Bool.false_eq_true, if_false, if_true, Prod.mk.injEq, Option.some.injEq] at hf
    refine ⟨p.length / 16 + 1, padded_length p, ?_⟩
    show _ = (encBlocks A m s0.key (p.length / 16 + 1) s0.chain (padded p)).1
    unfold padded
    rw [encBlocks_add, encBlocks_take A m _ _ _ _ _ (by omega), List.drop_append_of_le_length (by omega), hc2, ← hf.2, hsh, hsch, hsk]
    simp only
    rw [List.length_drop, show p.length - p.length / 16 * 16 = p.length % 16 by omega]

/-- Finishing a decryption by a block cipher. -/
theorem finish_dec {A : Algos} (hA : A.Good) {s0 s s2 : Ctx} {p c y : Bytes} (m : BlockMode) (bits : Nat) (hc : s0.cipher = some (.block m bits))
    (he : s0.enc = false) (h : After A s0 s p c) (hf : final A s = (s2, some y)) : ∃ n, p.length = n * 16 ∧
      withPadding s0.padding (c ++ y) = (decBlocks A m s0.key n s0.chain p).1 := by
  rw [after_block m bits hc] at h
  obtain ⟨h1, h2⟩ := h
  have hsc : s.cipher = some (.block m bits) := by rw [h1]; exact hc
  have hse : s.enc = false := by rw [h1]; exact he
  have hsp : s.padding = s0.padding := by rw [h1]
  have hsk : s.key = s0.key := by rw [h1]
  have hsh : s.held = p.drop (blocksOf s0 p.length * 16) := by rw [h1]
  have hsch : s.chain = (decBlocks A m s0.key (blocksOf s0 p.length) s0.chain p).2 := by
    rw [h1]; simp only; rw [he]; rfl
  have hc2 : c = (decBlocks A m s0.key (blocksOf s0 p.length) s0.chain p).1 := by
    rw [h2, he]; rfl
  have hle := blocksOf_le s0 p.length
  rw [final_block A s m bits hsc, hsp, hse] at hf
  cases hp : s0.padding with
  | false =>
    rw [hp] at hf
    simp only [Bool.not_false, if_true, Prod.mk.injEq] at hf
    have hh : s.held = [] := by
      apply Classical.byContradiction
      intro hne
      rw [if_neg hne] at hf
      simp at hf
    rw [if_pos hh] at hf
    simp only [Option.some.injEq] at hf
    have hl := congrArg List.length hh
    rw [hsh, List.length_drop, List.length_nil] at hl
    refine ⟨blocksOf s0 p.length, by omega, ?_⟩
    show c ++ y = _
    rw [← hf.2, List.append_nil]; exact hc2
  | true =>
    rw [hp] at hf
    simp only [Bool.not_true, Bool.false_eq_true, if_false] at hf
    split at hf
    · rename_i h16
      have hl := h16
      rw [hsh, List.length_drop] at hl
      split at hf
      · simp at hf
      · rename_i x hx
        simp only [Prod.mk.injEq, Option.some.injEq] at hf
        obtain ⟨_, hf⟩ := hf
        subst hf
        obtain ⟨u1, u2⟩ := unpad_some _ _ (by rw [decBlocks_length hA _ _ _ _ _ (by omega)]) hx
        refine ⟨blocksOf s0 p.length + 1, by omega, ?_⟩
        show padded (c ++ x) = _
        rw [decBlocks_add]
        simp only
        rw [← hc2, ← hsch, ← hsh, ← hsk, u2]
        have hcl : c.length = blocksOf s0 p.length * 16 := by rw [hc2]; exact decBlocks_length hA _ _ _ _ _ hle
        unfold padded
        rw [List.append_assoc, List.length_append, show (c.length + x.length) % 16 = x.length by omega]
    · simp at hf

/-- The additional data is complete if it is not longer than 2 GB. -/
theorem aadOf_eq (alg : Nat) (p : SymParams) (h : p.aad.length < 2 ^ 31) (ha : isAead alg = true) : aadOf alg p = p.aad := by
  unfold aadOf
  rw [if_pos ha, Nat.mod_eq_of_lt (by omega), List.take_length]

/-- What the ciphers give is what the parameters ask for. -/
theorem meets_enc {A : Algos} (hA : A.Good) (params : InitParams) (alg : Nat) (halg : params.alg = some alg) (key : Bytes)
    (hfit : Fits alg key params.sym) {p c : Bytes}
    (hblock : ∀ m bits, cipherOf alg key = .block m bits → ∃ n, (withPadding (isPkcs7Alg alg) p).length = n * 16 ∧
      c = (encBlocks A m key n (ivOf alg params.sym) (withPadding (isPkcs7Alg alg) p)).1)
    (hstream : ∀ ci, cipherOf alg key = ci → (∀ m bits, ci ≠ .block m bits) → c = xorStream (A.stream ci key (ivOf alg params.sym)) 0 p) :
    Encrypts A key params p c := by
  have stream : ∀ ci, cipherOf alg key = ci → (∀ m bits, ci ≠ .block m bits) → IsXored (A.stream ci key (ivOf alg params.sym)) p c := by
    intro ci hci hb
    rw [hstream ci hci hb]
    exact xorStream_is _ _
  cases params with
  | ecb pk =>
    simp only [InitParams.alg, Option.some.injEq] at halg
    subst halg
    cases pk with
    | false =>
      obtain ⟨n, n1, n2⟩ := hblock .ecb _ rfl
      show IsEcb _ _ _
      rw [n2]
      exact enc_ecb hA key n _ _ n1
    | true =>
      obtain ⟨n, n1, n2⟩ := hblock .ecb _ rfl
      show IsEcb _ _ _
      rw [n2]
      exact enc_ecb hA key n _ _ n1
  | cbc pk iv =>
    simp only [InitParams.alg, Option.some.injEq] at halg
    subst halg
    rcases iv with _ | _ | iv
    · cases pk <;> simp [Fits, InitParams.sym, CIPHER_AES_ECB, CIPHER_AES_ECB_PKCS7, CIPHER_AES_CBC, CIPHER_AES_CBC_PKCS7] at hfit
    · cases pk <;> simp [Fits, InitParams.sym, CIPHER_AES_ECB, CIPHER_AES_ECB_PKCS7, CIPHER_AES_CBC, CIPHER_AES_CBC_PKCS7] at hfit
    · have hl : iv.length = 16 := by
        cases pk <;> simp [Fits, InitParams.sym, CIPHER_AES_ECB, CIPHER_AES_ECB_PKCS7, CIPHER_AES_CBC, CIPHER_AES_CBC_PKCS7] at hfit <;> exact hfit.2
      cases pk with
      | false =>
        obtain ⟨n, n1, n2⟩ := hblock .cbc _ rfl
        show IsCbc _ _ _ _
        rw [n2]
        exact enc_cbc hA key n _ _ hl n1
      | true =>
        obtain ⟨n, n1, n2⟩ := hblock .cbc _ rfl
        show IsCbc _ _ _ _
        rw [n2]
        exact enc_cbc hA key n _ _ hl n1
  | ctr iv =>
    simp only [InitParams.alg, Option.some.injEq] at halg
    subst halg
    rcases iv with _ | _ | iv
    · simp [Fits, InitParams.sym, CIPHER_AES_ECB, CIPHER_AES_ECB_PKCS7, CIPHER_AES_CBC, CIPHER_AES_CBC_PKCS7, CIPHER_AES_CTR] at hfit
    · simp [Fits, InitParams.sym, CIPHER_AES_ECB, CIPHER_AES_ECB_PKCS7, CIPHER_AES_CBC, CIPHER_AES_CBC_PKCS7, CIPHER_AES_CTR] at hfit
    · exact stream _ rfl (by simp)
  | gcm q =>
    simp only [InitParams.alg, Option.some.injEq] at halg
    subst halg
    rcases q with _ | ⟨_ | iv, aad⟩
    · simp [Fits, InitParams.sym, CIPHER_AES_ECB, CIPHER_AES_ECB_PKCS7, CIPHER_AES_CBC, CIPHER_AES_CBC_PKCS7, CIPHER_AES_CTR, CIPHER_AES_GCM] at hfit
    · simp [Fits, InitParams.sym, CIPHER_AES_ECB, CIPHER_AES_ECB_PKCS7, CIPHER_AES_CBC, CIPHER_AES_CBC_PKCS7, CIPHER_AES_CTR, CIPHER_AES_GCM] at hfit
    · exact stream _ rfl (by simp)
  | chacha20 q =>
    simp only [InitParams.alg, Option.some.injEq] at halg
    subst halg
    rcases q with _ | ⟨_ | counter, _ | nonce⟩
    · simp [Fits, InitParams.sym, CIPHER_AES_ECB, CIPHER_AES_ECB_PKCS7, CIPHER_AES_CBC, CIPHER_AES_CBC_PKCS7, CIPHER_AES_CTR, CIPHER_AES_GCM, CIPHER_CHACHA20] at hfit
    · simp [Fits, InitParams.sym, CIPHER_AES_ECB, CIPHER_AES_ECB_PKCS7, CIPHER_AES_CBC, CIPHER_AES_CBC_PKCS7, CIPHER_AES_CTR, CIPHER_AES_GCM, CIPHER_CHACHA20] at hfit
    · simp [Fits, InitParams.sym, CIPHER_AES_ECB, CIPHER_AES_ECB_PKCS7, CIPHER_AES_CBC, CIPHER_AES_CBC_PKCS7, CIPHER_AES_CTR, CIPHER_AES_GCM, CIPHER_CHACHA20] at hfit
    · simp [Fits, InitParams.sym, CIPHER_AES_ECB, CIPHER_AES_ECB_PKCS7, CIPHER_AES_CBC, CIPHER_AES_CBC_PKCS7, CIPHER_AES_CTR, CIPHER_AES_GCM, CIPHER_CHACHA20] at hfit
    · exact stream _ rfl (by simp)
  | poly q =>
    simp only [InitParams.alg, Option.some.injEq] at halg
    subst halg
    rcases q with _ | ⟨_ | iv, aad⟩
    · simp [Fits, InitParams.sym, CIPHER_AES_ECB, CIPHER_AES_ECB_PKCS7, CIPHER_AES_CBC, CIPHER_AES_CBC_PKCS7, CIPHER_AES_CTR, CIPHER_AES_GCM, CIPHER_CHACHA20,
        CIPHER_CHACHA20_POLY1305] at hfit
    · simp [Fits, InitParams.sym, CIPHER_AES_ECB, CIPHER_AES_ECB_PKCS7, CIPHER_AES_CBC, CIPHER_AES_CBC_PKCS7, CIPHER_AES_CTR, CIPHER_AES_GCM, CIPHER_CHACHA20,
        CIPHER_CHACHA20_POLY1305] at hfit
    · exact stream _ rfl (by simp)
  | pkcs1v15 => simp only [InitParams.alg, Option.some.injEq] at halg; subst halg; simp [Fits, CIPHER_AES_ECB, CIPHER_AES_ECB_PKCS7, CIPHER_AES_CBC, CIPHER_AES_CBC_PKCS7, CIPHER_AES_CTR, CIPHER_AES_GCM, CIPHER_CHACHA20, CIPHER_CHACHA20_POLY1305, CIPHER_RSA_PKCS1V15] at hfit
  | oaep => simp only [InitParams.alg, Option.some.injEq] at halg; subst halg; simp [Fits, CIPHER_AES_ECB, CIPHER_AES_ECB_PKCS7, CIPHER_AES_CBC, CIPHER_AES_CBC_PKCS7, CIPHER_AES_CTR, CIPHER_AES_GCM, CIPHER_CHACHA20, CIPHER_CHACHA20_POLY1305, CIPHER_RSA_OAEP] at hfit
  | elgamal => simp only [InitParams.alg, Option.some.injEq] at halg; subst halg; simp [Fits, CIPHER_AES_ECB, CIPHER_AES_ECB_PKCS7, CIPHER_AES_CBC, CIPHER_AES_CBC_PKCS7, CIPHER_AES_CTR, CIPHER_AES_GCM, CIPHER_CHACHA20, CIPHER_CHACHA20_POLY1305, CIPHER_EC_ELGAMAL] at hfit
  | unknown => simp [InitParams.alg] at halg

/-- The same for decryption. -/
theorem meets_dec {A : Algos} (hA : A.Good) (params : InitParams) (alg : Nat) (halg : params.alg = some alg) (key : Bytes)
    (hfit : Fits alg key params.sym) {p c : Bytes}
    (hblock : ∀ m bits, cipherOf alg key = .block m bits → ∃ n, p.length = n * 16 ∧
      withPadding (isPkcs7Alg alg) c = (decBlocks A m key n (ivOf alg params.sym) p).1)
    (hstream : ∀ ci, cipherOf alg key = ci → (∀ m bits, ci ≠ .block m bits) → c = xorStream (A.stream ci key (ivOf alg params.sym)) 0 p) :
    Decrypts A key params p c := by
  have stream : ∀ ci, cipherOf alg key = ci → (∀ m bits, ci ≠ .block m bits) → IsXored (A.stream ci key (ivOf alg params.sym)) p c := by
    intro ci hci hb
    rw [hstream ci hci hb]
    exact xorStream_is _ _
  cases params with
  | ecb pk =>
    simp only [InitParams.alg, Option.some.injEq] at halg
    subst halg
    cases pk with
    | false =>
      obtain ⟨n, n1, n2⟩ := hblock .ecb _ rfl
      show IsEcb _ _ (withPadding _ c)
      rw [show withPadding false c = _ from n2]
      exact dec_ecb hA key n _ _ n1
    | true =>
      obtain ⟨n, n1, n2⟩ := hblock .ecb _ rfl
      show IsEcb _ _ (withPadding _ c)
      rw [show withPadding true c = _ from n2]
      exact dec_ecb hA key n _ _ n1
  | cbc pk iv =>
    simp only [InitParams.alg, Option.some.injEq] at halg
    subst halg
    rcases iv with _ | _ | iv
    · cases pk <;> simp [Fits, InitParams.sym, CIPHER_AES_ECB, CIPHER_AES_ECB_PKCS7, CIPHER_AES_CBC, CIPHER_AES_CBC_PKCS7] at hfit
    · cases pk <;> simp [Fits, InitParams.sym, CIPHER_AES_ECB, CIPHER_AES_ECB_PKCS7, CIPHER_AES_CBC, CIPHER_AES_CBC_PKCS7] at hfit
    · have hl : iv.length = 16 := by
        cases pk <;> simp [Fits, InitParams.sym, CIPHER_AES_ECB, CIPHER_AES_ECB_PKCS7, CIPHER_AES_CBC, CIPHER_AES_CBC_PKCS7] at hfit <;> exact hfit.2
      cases pk with
      | false =>
        obtain ⟨n, n1, n2⟩ := hblock .cbc _ rfl
        show IsCbcDec _ _ _ (withPadding _ c)
        rw [show withPadding false c = _ from n2]
        exact dec_cbc hA key n _ _ hl n1
      | true =>
        obtain ⟨n, n1, n2⟩ := hblock .cbc _ rfl
        show IsCbcDec _ _ _ (withPadding _ c)
        rw [show withPadding true c = _ from n2]
        exact dec_cbc hA key n _ _ hl n1
  | ctr iv =>
    simp only [InitParams.alg, Option.some.injEq] at halg
    subst halg
    rcases iv with _ | _ | iv
    · simp [Fits, InitParams.sym, CIPHER_AES_ECB, CIPHER_AES_ECB_PKCS7, CIPHER_AES_CBC, CIPHER_AES_CBC_PKCS7, CIPHER_AES_CTR] at hfit
    · simp [Fits, InitParams.sym, CIPHER_AES_ECB, CIPHER_AES_ECB_PKCS7, CIPHER_AES_CBC, CIPHER_AES_CBC_PKCS7, CIPHER_AES_CTR] at hfit
    · exact stream _ rfl (by simp)
  | gcm q =>
    simp only [InitParams.alg, Option.some.injEq] at halg
    subst halg
    rcases q with _ | ⟨_ | iv, aad⟩
    · simp [Fits, InitParams.sym, CIPHER_AES_ECB, CIPHER_AES_ECB_PKCS7, CIPHER_AES_CBC, CIPHER_AES_CBC_PKCS7, CIPHER_AES_CTR, CIPHER_AES_GCM] at hfit
    · simp [Fits, InitParams.sym, CIPHER_AES_ECB, CIPHER_AES_ECB_PKCS7, CIPHER_AES_CBC, CIPHER_AES_CBC_PKCS7, CIPHER_AES_CTR, CIPHER_AES_GCM] at hfit
    · exact stream _ rfl (by simp)
  | chacha20 q =>
    simp only [InitParams.alg, Option.some.injEq] at halg
    subst halg
    rcases q with _ | ⟨_ | counter, _ | nonce⟩
    · simp [Fits, InitParams.sym, CIPHER_AES_ECB, CIPHER_AES_ECB_PKCS7, CIPHER_AES_CBC, CIPHER_AES_CBC_PKCS7, CIPHER_AES_CTR, CIPHER_AES_GCM, CIPHER_CHACHA20] at hfit
    · simp [Fits, InitParams.sym, CIPHER_AES_ECB, CIPHER_AES_ECB_PKCS7, CIPHER_AES_CBC, CIPHER_AES_CBC_PKCS7, CIPHER_AES_CTR, CIPHER_AES_GCM, CIPHER_CHACHA20] at hfit
    · simp [Fits, InitParams.sym, CIPHER_AES_ECB, CIPHER_AES_ECB_PKCS7, CIPHER_AES_CBC, CIPHER_AES_CBC_PKCS7, CIPHER_AES_CTR, CIPHER_AES_GCM, CIPHER_CHACHA20] at hfit
    · simp [Fits, InitParams.sym, CIPHER_AES_ECB, CIPHER_AES_ECB_PKCS7, CIPHER_AES_CBC, CIPHER_AES_CBC_PKCS7, CIPHER_AES_CTR, CIPHER_AES_GCM, CIPHER_CHACHA20] at hfit
    · exact stream _ rfl (by simp)
  | poly q =>
    simp only [InitParams.alg, Option.some.injEq] at halg
    subst halg
    rcases q with _ | ⟨_ | iv, aad⟩
    · simp [Fits, InitParams.sym, CIPHER_AES_ECB, CIPHER_AES_ECB_PKCS7, CIPHER_AES_CBC, CIPHER_AES_CBC_PKCS7, CIPHER_AES_CTR, CIPHER_AES_GCM, CIPHER_CHACHA20,
        CIPHER_CHACHA20_POLY1305] at hfit
    · simp [Fits, InitParams.sym, CIPHER_AES_ECB, CIPHER_AES_ECB_PKCS7, CIPHER_AES_CBC, CIPHER_AES_CBC_PKCS7, CIPHER_AES_CTR, CIPHER_AES_GCM, CIPHER_CHACHA20,
        CIPHER_CHACHA20_POLY1305] at hfit
    · exact stream _ rfl (by simp)
  | pkcs1v15 => simp only [InitParams.alg, Option.some.injEq] at halg; subst halg; simp [Fits, CIPHER_AES_ECB, CIPHER_AES_ECB_PKCS7, CIPHER_AES_CBC, CIPHER_AES_CBC_PKCS7, CIPHER_AES_CTR, CIPHER_AES_GCM, CIPHER_CHACHA20, CIPHER_CHACHA20_POLY1305, CIPHER_RSA_PKCS1V15] at hfit
  | oaep => simp only [InitParams.alg, Option.some.injEq] at halg; subst halg; simp [Fits, CIPHER_AES_ECB, CIPHER_AES_ECB_PKCS7, CIPHER_AES_CBC, CIPHER_AES_CBC_PKCS7, CIPHER_AES_CTR, CIPHER_AES_GCM, CIPHER_CHACHA20, CIPHER_CHACHA20_POLY1305, CIPHER_RSA_OAEP] at hfit
  | elgamal => simp only [InitParams.alg, Option.some.injEq] at halg; subst halg; simp [Fits, CIPHER_AES_ECB, CIPHER_AES_ECB_PKCS7, CIPHER_AES_CBC, CIPHER_AES_CBC_PKCS7, CIPHER_AES_CTR, CIPHER_AES_GCM, CIPHER_CHACHA20, CIPHER_CHACHA20_POLY1305, CIPHER_EC_ELGAMAL] at hfit
  | unknown => simp [InitParams.alg] at halg

/-- What a finished encryption has output. -/
theorem finished_enc {A : Algos} (hA : A.Good) (params : InitParams) (alg : Nat) (halg : params.alg = some alg) (key : Bytes)
    (hfit : Fits alg key params.sym) {s s2 : Ctx} {p c y : Bytes} (h : After A (opened alg MODE_ENCRYPT key params.sym) s p c)
    (hf : final A s = (s2, some y)) : Encrypts A key params p (c ++ y) := by
  apply meets_enc hA params alg halg key hfit
  · intro m bits hci
    exact finish_enc (A := A) m bits (s0 := opened alg MODE_ENCRYPT key params.sym) (congrArg some hci) rfl h hf
  · intro ci hci hb
    rw [after_stream ci (congrArg some hci) hb] at h
    obtain ⟨h1, h2⟩ := h
    have hsc : s.cipher = some ci := by rw [h1]; exact congrArg some hci
    have hse : s.enc = true := by rw [h1]; rfl
    rw [final_stream A s ci hsc hb, hse] at hf
    have hy : y = [] := by
      split at hf
      · simp only [Prod.mk.injEq, Option.some.injEq] at hf; exact hf.2.symm
      · simp only [if_true, Prod.mk.injEq, Option.some.injEq] at hf; exact hf.2.symm
    rw [hy, List.append_nil, h2]
    rfl

/-- What a finished decryption has output, and that the tag was right. -/
theorem finished_dec {A : Algos} (hA : A.Good) (params : InitParams) (alg : Nat) (halg : params.alg = some alg) (key : Bytes)
    (hfit : Fits alg key params.sym) {s s2 : Ctx} {p c y : Bytes} (tag : Option Bytes)
    (h : After A { opened alg MODE_DECRYPT key params.sym with tag := tag } s p c) (hf : final A s = (s2, some y)) :
    Decrypts A key params p (c ++ y) ∧ (isAead alg = true → ∃ t, tag = some t ∧
      t = (A.tag (cipherOf alg key) key (ivOf alg params.sym) (aadOf alg params.sym) p).take t.length) := by
  have hs : ∀ ci, cipherOf alg key = ci → (∀ m bits, ci ≠ .block m bits) → y = [] ∧ c = xorStream (A.stream ci key (ivOf alg params.sym)) 0 p ∧
      (ci.isAead = true → ∃ t, tag = some t ∧ t = (A.tag ci key (ivOf alg params.sym) (aadOf alg params.sym) p).take t.length) := by
    intro ci hci hb
    rw [after_stream ci (congrArg some hci) hb] at h
    obtain ⟨h1, h2⟩ := h
    have hsc : s.cipher = some ci := by rw [h1]; exact congrArg some hci
    have hse : s.enc = false := by rw [h1]; rfl
    have hst : s.tag = tag := by rw [h1]
    have hsd : s.done = p := by rw [h1]; rfl
    have hsk : s.key = key := by rw [h1]; rfl
    have hsi : s.iv = ivOf alg params.sym := by rw [h1]; rfl
    have hsa : s.aad = aadOf alg params.sym := by rw [h1]; rfl
    rw [final_stream A s ci hsc hb, hse, hst, hsd, hsk, hsi, hsa] at hf
    split at hf
    · rename_i ha
      simp only [Prod.mk.injEq, Option.some.injEq] at hf
      refine ⟨hf.2.symm, h2, fun h => ?_⟩
      rw [h] at ha; simp at ha
    · simp only [Bool.false_eq_true, if_false] at hf
      cases tag with
      | none => simp at hf
      | some t =>
        simp only at hf
        split at hf
        · rename_i ht
          simp only [Prod.mk.injEq, Option.some.injEq] at hf
          exact ⟨hf.2.symm, h2, fun _ => ⟨t, rfl, ht⟩⟩
        · simp at hf
  constructor
  · apply meets_dec hA params alg halg key hfit
    · intro m bits hci
      exact finish_dec hA (A := A) m bits (s0 := { opened alg MODE_DECRYPT key params.sym with tag := tag }) (congrArg some hci) rfl h hf
    · intro ci hci hb
      obtain ⟨h1, h2, _⟩ := hs ci hci hb
      rw [h1, List.append_nil, h2]
  · intro ha
    have : (∀ m bits, cipherOf alg key ≠ .block m bits) ∧ (cipherOf alg key).isAead = true := by
      unfold isAead at ha
      simp only [Bool.or_eq_true, beq_iff_eq] at ha
      rcases ha with ha | ha <;> subst ha
      · exact ⟨by simp [cipherOf, CIPHER_AES_GCM, CIPHER_AES_ECB, CIPHER_AES_ECB_PKCS7, CIPHER_AES_CBC, CIPHER_AES_CBC_PKCS7, CIPHER_AES_CTR], rfl⟩
      · exact ⟨by simp [cipherOf, CIPHER_AES_GCM, CIPHER_AES_ECB, CIPHER_AES_ECB_PKCS7, CIPHER_AES_CBC, CIPHER_AES_CBC_PKCS7, CIPHER_AES_CTR,
          CIPHER_CHACHA20_POLY1305, CIPHER_CHACHA20], rfl⟩
    exact (hs _ rfl this.1).2.2 this.2

/-- What chunks of data have given, without padding. -/
theorem chunks_done {A : Algos} (hA : A.Good) (params : InitParams) (alg mode : Nat) (halg : params.alg = some alg) (key : Bytes)
    (hfit : Fits alg key params.sym) {s : Ctx} {p c : Bytes} (h : After A (opened alg mode key params.sym) s p c) (hpad : isPkcs7Alg alg = false)
    (hal : isStreamAlg alg = true ∨ p.length % 16 = 0) :
    (mode = MODE_ENCRYPT → Encrypts A key params p c) ∧ (mode = MODE_DECRYPT → Decrypts A key params p c) := by
  have hblk : ∀ m bits, cipherOf alg key = .block m bits → isStreamAlg alg = false := by
    intro m bits hci
    have := (algOf_plain (opened alg mode key params.sym) m bits (congrArg some hci)).2
    cases hs : isStreamAlg alg with
    | false => rfl
    | true =>
      exfalso
      unfold isStreamAlg at hs
      simp only [Bool.or_eq_true, beq_iff_eq] at hs
      rcases hs with ((hs | hs) | hs) | hs <;> subst hs <;>
        simp [cipherOf, CIPHER_AES_GCM, CIPHER_AES_ECB, CIPHER_AES_ECB_PKCS7, CIPHER_AES_CBC, CIPHER_AES_CBC_PKCS7, CIPHER_AES_CTR,
          CIPHER_CHACHA20_POLY1305, CIPHER_CHACHA20] at hci
  have hs : ∀ ci, cipherOf alg key = ci → (∀ m bits, ci ≠ .block m bits) → c = xorStream (A.stream ci key (ivOf alg params.sym)) 0 p := by
    intro ci hci hb
    rw [after_stream ci (congrArg some hci) hb] at h
    exact h.2
  have hb : ∀ m bits, cipherOf alg key = .block m bits → ∃ n, p.length = n * 16 ∧
      c = (runBlocks A m (mode == MODE_ENCRYPT) key n (ivOf alg params.sym) p).1 := by
    intro m bits hci
    rw [hblk m bits hci] at hal
    simp only [Bool.false_eq_true, false_or] at hal
    rw [after_block m bits (congrArg some hci)] at h
    have hn : blocksOf (opened alg mode key params.sym) p.length = p.length / 16 := by
      unfold blocksOf
      show (if (_ || !isPkcs7Alg alg) = true then _ else _) = _
      rw [hpad, if_pos (by simp)]
    rw [hn] at h
    exact ⟨p.length / 16, by omega, h.2⟩
  constructor
  · intro hm
    subst hm
    apply meets_enc hA params alg halg key hfit _ hs
    intro m bits hci
    rw [hpad]
    exact hb m bits hci
  · intro hm
    subst hm
    apply meets_dec hA params alg halg key hfit _ hs
    intro m bits hci
    rw [hpad]
    exact hb m bits hci

/-! ## Calls -/

theorem opened_after (A : Algos) (alg mode : Nat) (key : Bytes) (p : SymParams) : After A (opened alg mode key p) (opened alg mode key p) [] [] :=
  after_nil A _ ⟨rfl, rfl⟩ (by simp [opened])

/-- A context that was opened, perhaps got other IVs, and then `P`, which gave `C`. -/
structure At (A : Algos) (w : CipherWorld Ctx) (h : Nat) (caller : Uuid) (sk : StoredKey) (mode : Nat) (params : InitParams) (ptr : Nat) (o : CipherObj)
    (c : SymCtx Ctx) (P C : Bytes) : Prop where
  inv : CipherInv w
  has : HasCtx w h caller ptr o sk (some c)
  good : GoodCtx view o sk (some c)
  alg : params.alg = some o.alg
  kind : o.mode = mode
  modeOk : mode = MODE_ENCRYPT ∨ mode = MODE_DECRYPT
  fits : Fits o.alg sk.key params.sym
  after : After A (opened o.alg mode sk.key params.sym) c.evp P C

theorem init_at {A : Algos} (hA : A.Good) (ok : Nat → Bool) {w w' : CipherWorld Ctx} (inv : CipherInv w) (params : InitParams) (mode : Nat) (sk : StoredKey)
    (env : InitEnv) (u : Uuid) (h : Nat)
    (hsym : params.alg ≠ some CIPHER_RSA_PKCS1V15 ∧ params.alg ≠ some CIPHER_RSA_OAEP ∧ params.alg ≠ some CIPHER_EC_ELGAMAL)
    (hr : cipherInit (prim A ok) w params mode (.OK, some sk) env u = some (w', .OK, h)) : ∃ ptr o c, At A w' h u sk mode params ptr o c [] [] := by
  obtain ⟨i, ptr, o, evp, g1, g2, g3, g4, g5⟩ := init_hasCtx (prim A ok) (prim_good hA ok) inv params mode sk env u w' h hsym hr
  change (create ok o.alg o.mode sk.key params.sym).ctx.map (·.evp) = some evp at g5
  cases hc : (create ok o.alg o.mode sk.key params.sym).ctx with
  | none => rw [hc] at g5; simp at g5
  | some c =>
    rw [hc] at g5
    simp only [Option.map_some, Option.some.injEq] at g5
    obtain ⟨h1, h2, h3⟩ := create_some hc
    have he : evp = opened o.alg mode sk.key params.sym := by rw [← g5, h3, g4]
    refine ⟨ptr, o, _, i, g1, g2, g3, g4, by rw [← g4]; exact h1, h2, ?_⟩
    show After A _ evp [] []
    rw [he]
    exact opened_after A _ _ _ _

theorem At.calls {A : Algos} (hA : A.Good) {ok : Nat → Bool} {w w' : CipherWorld Ctx} {h : Nat} {caller : Uuid} {sk : StoredKey} {mode : Nat}
    {params : InitParams} {ptr : Nat} {o : CipherObj} {c : SymCtx Ctx} {P C : Bytes} (ha : At A w h caller sk mode params ptr o c P C) (u : UnwrapPrims)
    (env : RightsEnv) (b : ClientBufs) (hb : b.Ok) (ms : List Bytes) (hms : ∀ m ∈ ms, m.length < 2 ^ 31) (os : List Bytes)
    (hcalls : clearCalls (prim A ok) u env h caller b w ms = some (w', some os)) :
    (isStreamAlg o.alg = true ∨ ms.flatten.length % 16 = 0) ∧ ∃ c', At A w' h caller sk mode params ptr o c' (P ++ ms.flatten) (C ++ os.flatten) := by
  obtain ⟨c', d1, d2, d3, d4⟩ := calls_feed (prim_good hA ok) u env b hb ms ha.inv ha.has ha.good hms w' os hcalls
  refine ⟨?_, c', d1, d2, d3, ha.alg, ha.kind, ha.modeOk, ha.fits, fed_after d4 _ _ ha.after⟩
  cases hs : isStreamAlg o.alg with
  | true => exact Or.inl rfl
  | false => rw [hs] at d4; exact Or.inr (fed_aligned d4)

theorem newIv_opened (params : InitParams) (alg mode : Nat) (key iv : Bytes) (halg : params.alg = some alg)
    (hiv : alg = CIPHER_AES_CBC ∨ alg = CIPHER_AES_CBC_PKCS7 ∨ alg = CIPHER_AES_CTR) (hl : iv.length = 16) (hfit : Fits alg key params.sym) :
    (newIv params iv).alg = some alg ∧ Fits alg key (newIv params iv).sym ∧
    opened alg mode key (newIv params iv).sym = { opened alg mode key params.sym with iv := iv, ivLen := 16, chain := iv } := by
  have hp : ∀ q : InitParams, q.alg = some alg → q.sym.iv = iv → q.sym.aad = [] → params.sym.aad = [] →
      Fits alg key q.sym ∧ opened alg mode key q.sym = { opened alg mode key params.sym with iv := iv, ivLen := 16, chain := iv } := by
    intro q hq h1 h2 h3
    constructor
    · unfold Fits at hfit ⊢
      rcases hiv with h | h | h <;> subst h <;>
        simp [CIPHER_AES_ECB, CIPHER_AES_ECB_PKCS7, CIPHER_AES_CBC, CIPHER_AES_CBC_PKCS7, CIPHER_AES_CTR, h1, hl] at hfit ⊢ <;> exact hfit.1
    · have hi : ivOf alg q.sym = iv := by
        rcases hiv with h | h | h <;> subst h <;>
          simp [ivOf, CIPHER_AES_ECB, CIPHER_AES_ECB_PKCS7, CIPHER_AES_CBC, CIPHER_AES_CBC_PKCS7, CIPHER_AES_CTR, CIPHER_CHACHA20, h1]
      have hd : aadOf alg q.sym = aadOf alg params.sym := by unfold aadOf; rw [h2, h3]
      unfold opened
      rw [hi, hd, hl]
  cases params with
  | cbc pk old => exact ⟨halg, hp (.cbc pk (some (some iv))) halg rfl rfl (by rcases old with _ | _ | x <;> rfl)⟩
  | ctr old => exact ⟨halg, hp (.ctr (some (some iv))) halg rfl rfl (by rcases old with _ | _ | x <;> rfl)⟩
  | _ => exfalso; simp only [InitParams.alg, Option.some.injEq] at halg; (try split at halg) <;> (try subst halg) <;> simp_all (config := { decide := true })

theorem At.newIv {A : Algos} (hA : A.Good) {ok : Nat → Bool} {w w' : CipherWorld Ctx} {h : Nat} {caller : Uuid} {sk : StoredKey} {mode : Nat}
    {params : InitParams} {ptr : Nat} {o : CipherObj} {c : SymCtx Ctx} {P C : Bytes} (ha : At A w h caller sk mode params ptr o c P C) (iv : Bytes)
    (hcall : cipherUpdateIv (prim A ok) w h (some iv) caller = some (w', .OK)) : ∃ c', At A w' h caller sk mode (newIv params iv) ptr o c' [] [] := by
  unfold cipherUpdateIv at hcall
  simp only at hcall
  rcases acquire_fail w.store h caller with ⟨st1, ptr', e⟩ | ⟨s, hs, e⟩
  · obtain ⟨h1, h2, h3, h4, h5⟩ := (acquire_ok_iff w.store h caller st1 ptr').mp e
    have hptr : ptr' = ptr := by
      have := ha.has.slot
      rw [h3] at this
      simpa using this
    subst hptr
    have hrel := acquire_release w.store ha.inv.live.len h caller st1 ptr' e
    rw [e] at hcall
    simp only [ha.has.obj, ha.has.sym, hrel] at hcall
    split at hcall
    · rename_i hiv
      split at hcall
      · simp at hcall
      · rename_i hl
        have hl : iv.length = 16 := by omega
        split at hcall
        · simp at hcall
        · rename_i e2 he2
          simp only [Option.some.injEq, Prod.mk.injEq, and_true] at hcall
          obtain ⟨n1, n2, n3⟩ := newIv_opened params o.alg mode sk.key iv ha.alg hiv hl ha.fits
          have hgood : GoodCtx view o sk (some { c with evp := e2 }) := (goodCtx_stable (prim_good hA ok)).setIv o sk c e2 iv ha.good he2
          have hopen : e2 = opened o.alg mode sk.key (Sa.Evp.newIv params iv).sym := by
            rw [n3]
            have haf := ha.after
            change init c.evp.enc none none (some iv) c.evp = some e2 at he2
            have hivl : (ivOf o.alg params.sym).length = 16 := by
              have := ha.fits
              rcases hiv with h | h | h <;> rw [h] at this ⊢ <;>
                simp [Fits, ivOf, CIPHER_AES_ECB, CIPHER_AES_ECB_PKCS7, CIPHER_AES_CBC, CIPHER_AES_CBC_PKCS7, CIPHER_AES_CTR, CIPHER_CHACHA20] at this ⊢ <;>
                exact this.2
            have haad : aadOf o.alg params.sym = [] := by
              rcases hiv with h | h | h <;> rw [h] <;> rfl
            have hsame : ∀ s : Ctx, s.cipher = some (cipherOf o.alg sk.key) → s.enc = (mode == MODE_ENCRYPT) → s.key = sk.key → s.ivLen = 16 →
                s.padding = isPkcs7Alg o.alg → s.oob = false →
                init s.enc none none (some iv) s = some { opened o.alg mode sk.key params.sym with iv := iv, ivLen := 16, chain := iv } := by
              intro s q1 q2 q3 q4 q5 q6
              unfold init
              rw [q1]
              simp only [Option.or_some, Option.getD_none, if_true, withKey, withIv, q2, q3, q4, q5, q6]
              unfold opened
              rw [haad, List.take_of_length_le (by omega)]
              simp [hl]
            rcases ctx_cases (opened o.alg mode sk.key params.sym) with hn | ⟨m, bits, hci⟩ | ⟨ci, hci, hb⟩
            · simp [opened] at hn
            · rw [after_block m bits hci] at haf
              have := hsame c.evp (by rw [haf.1]; rfl) (by rw [haf.1]; rfl) (by rw [haf.1]; rfl) (by rw [haf.1]; exact hivl) (by rw [haf.1]; rfl) (by rw [haf.1]; rfl)
              rw [he2] at this
              simpa using this
            · rw [after_stream ci hci hb] at haf
              have := hsame c.evp (by rw [haf.1]; rfl) (by rw [haf.1]; rfl) (by rw [haf.1]; rfl) (by rw [haf.1]; exact hivl) (by rw [haf.1]; rfl) (by rw [haf.1]; rfl)
              rw [he2] at this
              simpa using this
          refine ⟨{ c with evp := e2 }, ?_, ?_, hgood, n1, ha.kind, ha.modeOk, n2, ?_⟩
          · rw [← hcall]; exact ha.inv.setSym h ptr' o _ ha.has.slot ha.has.obj
          · rw [← hcall]; exact ha.has.setSym _
          · show After A _ e2 [] []
            rw [hopen]
            exact opened_after A _ _ _ _
    · simp at hcall
  · rw [e] at hcall
    cases s <;> simp at hcall hs

theorem At.used {A : Algos} (hA : A.Good) {ok : Nat → Bool} {h : Nat} {caller : Uuid} {sk : StoredKey} {mode : Nat} {ptr : Nat} {o : CipherObj}
    (u : UnwrapPrims) (env : RightsEnv) (b : ClientBufs) (hb : b.Ok) : ∀ (before : List (List Bytes × Bytes)) {w w' : CipherWorld Ctx} {params : InitParams}
    {c : SymCtx Ctx}, At A w h caller sk mode params ptr o c [] [] → (∀ x ∈ before, ∀ m ∈ x.1, m.length < 2 ^ 31) →
    used (prim A ok) u env h caller b w before = some w' → ∃ c', At A w' h caller sk mode (lastIv params before) ptr o c' [] []
  | [], w, w', params, c, ha, _, hu => by
    simp only [Sa.Evp.used, Option.some.injEq] at hu
    subst hu
    exact ⟨c, ha⟩
  | (ms, iv) :: rest, w, w', params, c, ha, hlen, hu => by
    unfold Sa.Evp.used at hu
    split at hu
    · rename_i w1 os hcalls
      split at hu
      · rename_i w2 hiv
        obtain ⟨_, c1, h1⟩ := ha.calls hA u env b hb ms (hlen (ms, iv) (by simp)) os hcalls
        obtain ⟨c2, h2⟩ := h1.newIv hA iv hiv
        exact At.used hA u env b hb rest h2 (fun x hx => hlen x (by simp [hx])) hu
      · simp at hu
    · simp at hu

/-- With a tag set. -/
theorem after_tag {A : Algos} {s0 s : Ctx} {p c : Bytes} (t : Option Bytes) (h : After A s0 s p c) :
    After A { s0 with tag := t } { s with tag := t } p c := by
  rcases ctx_cases s0 with hn | ⟨m, bits, hci⟩ | ⟨ci, hci, hb⟩
  · unfold After at h; rw [hn] at h; exact h.elim
  · rw [after_block m bits hci] at h
    rw [after_block (s0 := { s0 with tag := t }) m bits hci]
    refine ⟨?_, h.2⟩
    rw [h.1]
    rfl
  · rw [after_stream ci hci hb] at h
    rw [after_stream (s0 := { s0 with tag := t }) ci hci hb]
    refine ⟨?_, h.2⟩
    rw [h.1]

theorem At.last_enc {A : Algos} (hA : A.Good) {ok : Nat → Bool} {w w' : CipherWorld Ctx} {h : Nat} {caller : Uuid} {sk : StoredKey}
    {params : InitParams} {ptr : Nat} {o : CipherObj} {c : SymCtx Ctx} {P C : Bytes} (ha : At A w h caller sk MODE_ENCRYPT params ptr o c P C)
    (u : UnwrapPrims) (env : RightsEnv) (b : ClientBufs) (hb : b.Ok) (m : Bytes) (hm : m.length < 2 ^ 31) (tagBuf : Option (Option Bytes)) (out : Bytes)
    (t : Option Bytes) (hcall : clearCall (.last tagBuf) (prim A ok) u env w h caller b m = some (w', some (out, t))) :
    Encrypts A sk.key params (P ++ m) (C ++ out) ∧
    (if isAead o.alg = true then ∃ tg, tagBuf = some (some tg) ∧ TagLen o.alg tg ∧
      t = some ((A.tag (cipherOf o.alg sk.key) sk.key (ivOf o.alg params.sym) (aadOf o.alg params.sym) (C ++ out)).take tg.length) else t = none) := by
  obtain ⟨x1, x2, x3, x4⟩ := ha.good.sym c rfl
  obtain ⟨k1, k2⟩ := clearCall_eq ha.inv ha.has x4 (.last tagBuf) (prim A ok) u env b hb m hm
  cases hclear : rightsAllowedClear sk.header.rights with
  | false => obtain ⟨w', e⟩ := k1 hclear; rw [hcall] at e; simp at e
  | true =>
    have hk := k2 hclear
    rw [hcall] at hk
    change some (w', some (out, t)) = some (w.setSym o (lastAlgorithm (prim A ok) env o sk (some c) _ _ _ _ _ tagBuf).ctx, if (lastAlgorithm (prim A ok) env o sk (some c) _ _ _ _ _ tagBuf).status = Status.OK then _ else _) at hk
    simp only [Option.some.injEq, Prod.mk.injEq] at hk
    obtain ⟨_, hk⟩ := hk
    split at hk
    · rename_i hok
      obtain ⟨acc, out', e2, give, hread⟩ := Sa.last_enc (prim_good hA ok) env o sk c ha.good ha.kind (writeAt b.mem b.inA.toNat m) b.outA.toNat b.inA.toNat
        ((ProcKind.last tagBuf).required o sk (UInt64.ofNat m.length) false) m hm (readAt_writeAt _ _ _) tagBuf hok
      simp only [Option.some.injEq, Prod.mk.injEq] at hk
      obtain ⟨hk1, hk2⟩ := hk
      have hout : out = out' := by rw [hk1]; exact hread
      subst hout
      replace hk2 : t = (lastAlgorithm (prim A ok) env o sk (some c) (writeAt b.mem b.inA.toNat m) b.outA.toNat b.inA.toNat
        ((ProcKind.last tagBuf).required o sk (UInt64.ofNat m.length) false) (UInt64.ofNat m.length) tagBuf).tag := hk2
      rw [← hk2] at give
      obtain ⟨e0, e1, x, y, v1, v2, v3, v4, v5⟩ := give
      rw [if_neg (by simp [ha.kind])] at v1
      subst v1
      have haf := after_step ha.after v2
      subst v4
      rw [← List.append_assoc]
      refine ⟨finished_enc hA params o.alg ha.alg sk.key ha.fits haf v3, ?_⟩
      cases haead : isAead o.alg with
      | false =>
        rw [if_neg (by simp [haead])] at v5
        simpa using v5
      | true =>
        rw [if_pos ⟨haead, ha.kind⟩] at v5
        obtain ⟨tg, T, r1, r2, r3, r4⟩ := v5
        rw [if_pos rfl]
        refine ⟨tg, r1, r2, ?_⟩
        rw [r4]
        have hci : (∀ m bits, cipherOf o.alg sk.key ≠ .block m bits) ∧ (cipherOf o.alg sk.key).isAead = true := by
          unfold isAead at haead
          simp only [Bool.or_eq_true, beq_iff_eq] at haead
          rcases haead with h | h <;> rw [h]
          · exact ⟨by simp [cipherOf, CIPHER_AES_GCM, CIPHER_AES_ECB, CIPHER_AES_ECB_PKCS7, CIPHER_AES_CBC, CIPHER_AES_CBC_PKCS7, CIPHER_AES_CTR], rfl⟩
          · exact ⟨by simp [cipherOf, CIPHER_AES_GCM, CIPHER_AES_ECB, CIPHER_AES_ECB_PKCS7, CIPHER_AES_CBC, CIPHER_AES_CBC_PKCS7, CIPHER_AES_CTR,
              CIPHER_CHACHA20_POLY1305, CIPHER_CHACHA20], rfl⟩
        rw [after_stream (cipherOf o.alg sk.key) rfl hci.1] at haf
        obtain ⟨hs, _⟩ := haf
        have hsc : e1.cipher = some (cipherOf o.alg sk.key) := by rw [hs]; rfl
        have hse : e1.enc = true := by rw [hs]; rfl
        change final A e1 = (e2, some y) at v3
        rw [final_stream A e1 _ hsc hci.1, hci.2, hse] at v3
        simp only [Bool.not_true, Bool.false_eq_true, if_false, if_true, Prod.mk.injEq, Option.some.injEq] at v3
        change getTag A e2 = some T at r3
        rw [← v3.1] at r3
        unfold getTag at r3
        simp only [hsc, hci.2, Bool.and_self, if_true, Option.some.injEq] at r3
        rw [← r3, hs, ← v3.2, List.append_nil]
        rfl
    · simp at hk

theorem At.last_dec {A : Algos} (hA : A.Good) {ok : Nat → Bool} {w w' : CipherWorld Ctx} {h : Nat} {caller : Uuid} {sk : StoredKey}
    {params : InitParams} {ptr : Nat} {o : CipherObj} {c : SymCtx Ctx} {P C : Bytes} (ha : At A w h caller sk MODE_DECRYPT params ptr o c P C)
    (u : UnwrapPrims) (hu : u.Good) (env : RightsEnv) (b : ClientBufs) (hb : b.Ok) (m : Bytes) (hm : m.length < 2 ^ 31)
    (tag : Option (Option Bytes)) (out : Bytes) (t : Option Bytes)
    (hcall : clearCall (.last tag) (prim A ok) u env w h caller b m = some (w', some (out, t))) :
    Decrypts A sk.key params (P ++ m) (C ++ out) ∧
    (isAead o.alg = true → ∃ tg, tag = some (some tg) ∧ 1 ≤ tg.length ∧ tg.length ≤ 16 ∧
      tg = (A.tag (cipherOf o.alg sk.key) sk.key (ivOf o.alg params.sym) (aadOf o.alg params.sym) (P ++ m)).take tg.length) := by
  obtain ⟨x1, x2, x3, x4⟩ := ha.good.sym c rfl
  obtain ⟨k1, k2⟩ := clearCall_eq ha.inv ha.has x4 (.last tag) (prim A ok) u env b hb m hm
  have hn := ofNat_toNat_lt m.length (by omega)
  cases hclear : rightsAllowedClear sk.header.rights with
  | false => obtain ⟨w', e⟩ := k1 hclear; rw [hcall] at e; simp at e
  | true =>
    have hk := k2 hclear
    rw [hcall] at hk
    simp only [Option.some.injEq, Prod.mk.injEq] at hk
    obtain ⟨_, hk⟩ := hk
    split at hk
    · rename_i hok
      have hr := run_ok (prim_good hA ok) u hu (.last tag) env o sk (some c) ha.good (writeAt b.mem b.inA.toNat m) b.outA.toNat b.inA.toNat
        ((ProcKind.last tag).required o sk (UInt64.ofNat m.length) false) (UInt64.ofNat m.length)
      obtain ⟨outB, o1, o2, o3⟩ := hr.out
      obtain ⟨o4, _, o5⟩ := o3 hok
      have o5 := o5 (by rw [hn]; exact hm)
      simp only [Option.some.injEq, Prod.mk.injEq] at hk
      rw [o1, o4] at hk
      have hlen : outB.length < 2 ^ 64 := by
        have := (ProcKind.required (.last tag) o sk (UInt64.ofNat m.length) false).toNat_lt
        omega
      rw [ofNat_toNat_lt outB.length hlen, readAt_writeAt] at hk
      obtain ⟨hk1, _⟩ := hk
      subst hk1
      rw [hn, readAt_writeAt] at o5
      obtain ⟨e, x, y, v1, v2, v3, v4⟩ := o5
      have hne : o.mode ≠ MODE_ENCRYPT := by rw [ha.kind]; decide
      have key : ∀ tg : Option Bytes, After A { opened o.alg MODE_DECRYPT sk.key params.sym with tag := tg } e P C →
          Decrypts A sk.key params (P ++ m) (C ++ out) ∧ (isAead o.alg = true → ∃ t, tg = some t ∧
            t = (A.tag (cipherOf o.alg sk.key) sk.key (ivOf o.alg params.sym) (aadOf o.alg params.sym) (P ++ m)).take t.length) := by
        intro tg haf
        have haf := after_step (s' := ((prim A ok).update e m).1) (o := x) haf (by rw [← v2]; rfl)
        have := finished_dec hA params o.alg ha.alg sk.key ha.fits tg haf (s2 := ((prim A ok).final ((prim A ok).update e m).1).1) (y := y) (by rw [← v3]; rfl)
        rw [v4, ← List.append_assoc]
        exact this
      cases haead : isAead o.alg with
      | false =>
        rw [if_neg (by simp [haead])] at v1
        subst v1
        exact ⟨(key none ha.after).1, by simp⟩
      | true =>
        rw [if_pos ⟨haead, hne⟩] at v1
        obtain ⟨tg, r1, r2⟩ := v1
        change setTag c.evp tg = some e at r2
        unfold setTag at r2
        split at r2
        · rename_i hl
          simp only [Option.some.injEq] at r2
          have haf := after_tag (some tg) ha.after
          rw [r2] at haf
          obtain ⟨q1, q2⟩ := key (some tg) haf
          refine ⟨q1, fun _ => ?_⟩
          obtain ⟨t', z1, z2⟩ := q2 haead
          simp only [Option.some.injEq] at z1
          subst z1
          exact ⟨tg, r1, hl.2.1, hl.2.2, z2⟩
        · simp at r2
    · simp at hk

/-- The tag is that of the parameters. -/
theorem tag_for {A : Algos} (params : InitParams) (alg : Nat) (halg : params.alg = some alg) (key c : Bytes) (ha : isAead alg = true)
    (hfit : Fits alg key params.sym) (hl : aadLen params < 2 ^ 31) :
    tagFor A key params c = some (A.tag (cipherOf alg key) key (ivOf alg params.sym) (aadOf alg params.sym) c) := by
  cases params with
  | gcm q =>
    simp only [InitParams.alg, Option.some.injEq] at halg
    subst halg
    rcases q with _ | ⟨_ | iv, aad⟩
    · simp [Fits, InitParams.sym, CIPHER_AES_ECB, CIPHER_AES_ECB_PKCS7, CIPHER_AES_CBC, CIPHER_AES_CBC_PKCS7, CIPHER_AES_CTR, CIPHER_AES_GCM] at hfit
    · simp [Fits, InitParams.sym, CIPHER_AES_ECB, CIPHER_AES_ECB_PKCS7, CIPHER_AES_CBC, CIPHER_AES_CBC_PKCS7, CIPHER_AES_CTR, CIPHER_AES_GCM] at hfit
    · rw [aadOf_eq _ (InitParams.gcm (some (some iv, aad))).sym hl rfl]
      rfl
  | poly q =>
    simp only [InitParams.alg, Option.some.injEq] at halg
    subst halg
    rcases q with _ | ⟨_ | iv, aad⟩
    · simp [Fits, InitParams.sym, CIPHER_AES_ECB, CIPHER_AES_ECB_PKCS7, CIPHER_AES_CBC, CIPHER_AES_CBC_PKCS7, CIPHER_AES_CTR, CIPHER_AES_GCM, CIPHER_CHACHA20,
        CIPHER_CHACHA20_POLY1305] at hfit
    · simp [Fits, InitParams.sym, CIPHER_AES_ECB, CIPHER_AES_ECB_PKCS7, CIPHER_AES_CBC, CIPHER_AES_CBC_PKCS7, CIPHER_AES_CTR, CIPHER_AES_GCM, CIPHER_CHACHA20,
        CIPHER_CHACHA20_POLY1305] at hfit
    · rw [aadOf_eq _ (InitParams.poly (some (some iv, aad))).sym hl rfl]
      rfl
  | unknown => simp [InitParams.alg] at halg
  | ecb pk => cases pk <;> (simp only [InitParams.alg, Option.some.injEq] at halg; subst halg; exact absurd ha (by decide))
  | cbc pk iv => cases pk <;> (simp only [InitParams.alg, Option.some.injEq] at halg; subst halg; exact absurd ha (by decide))
  | _ => simp only [InitParams.alg, Option.some.injEq] at halg; subst halg; exact absurd ha (by decide)

theorem symmetric_alg (params : InitParams) (h : symmetric params = true) :
    params.alg ≠ some CIPHER_RSA_PKCS1V15 ∧ params.alg ≠ some CIPHER_RSA_OAEP ∧ params.alg ≠ some CIPHER_EC_ELGAMAL := by
  cases params with
  | ecb pk => cases pk <;> decide
  | cbc pk iv => cases pk <;> exact ⟨by simp [InitParams.alg]; decide, by simp [InitParams.alg]; decide, by simp [InitParams.alg]; decide⟩
  | pkcs1v15 => simp [symmetric] at h
  | oaep => simp [symmetric] at h
  | elgamal => simp [symmetric] at h
  | unknown => simp [InitParams.alg]
  | _ => exact ⟨by simp [InitParams.alg]; decide, by simp [InitParams.alg]; decide, by simp [InitParams.alg]; decide⟩

theorem pads_alg (params : InitParams) (alg : Nat) (h : params.alg = some alg) : isPkcs7Alg alg = pads params := by
  cases params with
  | ecb pk => cases pk <;> (simp only [InitParams.alg, Option.some.injEq] at h; subst h; rfl)
  | cbc pk iv => cases pk <;> (simp only [InitParams.alg, Option.some.injEq] at h; subst h; rfl)
  | unknown => simp [InitParams.alg] at h
  | _ => simp only [InitParams.alg, Option.some.injEq] at h; subst h; rfl

theorem aead_alg (params : InitParams) (alg : Nat) (h : params.alg = some alg) : isAead alg = aead params := by
  cases params with
  | ecb pk => cases pk <;> (simp only [InitParams.alg, Option.some.injEq] at h; subst h; rfl)
  | cbc pk iv => cases pk <;> (simp only [InitParams.alg, Option.some.injEq] at h; subst h; rfl)
  | unknown => simp [InitParams.alg] at h
  | _ => simp only [InitParams.alg, Option.some.injEq] at h; subst h; rfl

theorem lastIv_pads (before : List (List Bytes × Bytes)) : ∀ params : InitParams, pads (lastIv params before) = pads params ∧
    aead (lastIv params before) = aead params ∧ aadLen (lastIv params before) = aadLen params := by
  induction before with
  | nil => intro params; exact ⟨rfl, rfl, rfl⟩
  | cons x rest ih =>
    intro params
    obtain ⟨h1, h2, h3⟩ := ih (newIv params x.2)
    have h : pads (newIv params x.2) = pads params ∧ aead (newIv params x.2) = aead params ∧ aadLen (newIv params x.2) = aadLen params := by
      cases params <;> exact ⟨rfl, rfl, rfl⟩
    exact ⟨h1.trans h.1, h2.trans h.2.1, h3.trans h.2.2⟩

end Sa.Evp

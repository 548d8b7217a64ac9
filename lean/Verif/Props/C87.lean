import Verif.Model.ProviderDigest

/-!
# C87: digests of the OpenSSL provider

An application makes, copies, feeds and frees digest contexts of the provider in any order.
-/

namespace Sa.Pd.C87

/-! ## Specification -/

/-- A digest function: four of them, by number. -/
abbrev Hash := Nat → List UInt8 → List UInt8

/-- The digests have the lengths of FIPS 180-4. -/
def Lengths (H : Hash) : Prop :=
  ∀ m, (H 0 m).length = 20 ∧ (H 1 m).length = 32 ∧ (H 2 m).length = 48 ∧ (H 3 m).length = 64

/-- Contexts of OpenSSL's own digests stand for a digest and the bytes given so far, or for nothing. -/
structure Says (L : Lib σ) (H : Hash) (abs : σ → Option (Nat × List UInt8)) : Prop where
  fresh : abs L.fresh = none
  init : ∀ s a t, L.init s a = some t → abs t = some (a, [])
  upd : ∀ s b t, L.upd s b = some t → ∃ a m, abs s = some (a, m) ∧ abs t = some (a, m ++ b)
  fin : ∀ s t d, L.fin s = some (t, d) → ∃ a m, abs s = some (a, m) ∧ d = H a m ∧ abs t = none

/-- OpenSSL's own digests do not fail. -/
structure Works (L : Lib σ) (abs : σ → Option (Nat × List UInt8)) : Prop where
  init : ∀ s a, L.init s a ≠ none
  upd : ∀ s b, abs s ≠ none → L.upd s b ≠ none
  fin : ∀ s, abs s ≠ none → L.fin s ≠ none

/-- Operations with their answers, the last first. -/
abbrev Trace := List (Op × Ans)

/-- What the application told context `i`: the digest asked for and, when it is in use, the bytes given since it was initialised. -/
def told : Trace → Nat → Option (Name × Option (List UInt8))
  | [], _ => none
  | (.new n .., .made j) :: earlier, i => if i = j then some (n, none) else told earlier i
  | (.dup k .., .made j) :: earlier, i => if i = j then told earlier k else told earlier i
  | (.init k, .ok) :: earlier, i => if i = k then (told earlier i).map fun x => (x.1, some []) else told earlier i
  | (.update k b, .ok) :: earlier, i => if i = k then (told earlier i).map fun x => (x.1, x.2.map (· ++ b)) else told earlier i
  | (.final k _, .digest _) :: earlier, i => if i = k then (told earlier i).map fun x => (x.1, none) else told earlier i
  | (.final k _, .overflow) :: earlier, i => if i = k then (told earlier i).map fun x => (x.1, none) else told earlier i
  | (.free k, .ok) :: earlier, i => if i = k then none else told earlier i
  | _ :: earlier, i => told earlier i

/-- Context `i` was made as a copy. -/
def copied (tr : Trace) (i : Nat) : Prop := ∃ k a b c d, (Op.dup k a b c d, Ans.made i) ∈ tr

/-- How many contexts were made, and how many were freed. -/
def made : Trace → Int
  | [] => 0
  | (_, .made _) :: earlier => made earlier + 1
  | _ :: earlier => made earlier

def freed : Trace → Int
  | [] => 0
  | (.free _, .ok) :: earlier => freed earlier + 1
  | _ :: earlier => freed earlier

/-! ## Invariant -/

theorem length_of {H : Hash} (hl : Lengths H) (n : Name) (m : List UInt8) : (H n.md m).length = n.length := by
  have h := hl m
  cases n <;> simp only [Name.md, Name.length]
  · exact h.1
  · exact h.2.1
  · exact h.2.2.1
  · exact h.2.2.2

/-- What a context holds is what it was told. -/
structure Right (abs : σ → Option (Nat × List UInt8)) (tr : Trace) (i : Nat) (c : Ctx σ) (x : Name × Option (List UInt8)) : Prop where
  md : c.md = some x.1.md
  ctx : ∃ s, c.mdCtx = some s ∧ abs s = x.2.map fun m => (x.1.md, m)
  size : c.size = x.1.length ∨ c.size = 0 ∧ copied tr i

/-- The contexts are those told about. -/
def Inv (abs : σ → Option (Nat × List UInt8)) (w : World σ) (tr : Trace) : Prop :=
  ∀ i, match w.ctxs[i]? with
    | some (some c) => ∃ x, told tr i = some x ∧ Right abs tr i c x
    | _ => told tr i = none

theorem Right.mono {abs : σ → Option (Nat × List UInt8)} (h : Right abs tr i c x) : Right abs (e :: tr) i c x := by
  refine ⟨h.md, h.ctx, ?_⟩
  rcases h.size with h | ⟨h0, k, a, b, c, d, h⟩
  · exact .inl h
  · exact .inr ⟨h0, k, a, b, c, d, List.mem_cons_of_mem _ h⟩

/-- An operation that leaves the contexts and what they were told. -/
theorem Inv.same {abs : σ → Option (Nat × List UInt8)} {w w' : World σ} (h : Inv abs w tr) (hc : w'.ctxs = w.ctxs)
    (ht : ∀ i, told (e :: tr) i = told tr i) : Inv abs w' (e :: tr) := by
  intro i
  have hi := h i
  rw [hc, ht]
  revert hi
  match w.ctxs[i]? with
  | some (some c) => exact fun ⟨x, h1, h2⟩ => ⟨x, h1, h2.mono⟩
  | some none => exact id
  | none => exact id

/-- A context that changes. -/
theorem Inv.upd {abs : σ → Option (Nat × List UInt8)} {w w' : World σ} (h : Inv abs w tr) (hk : k < w.ctxs.length)
    (hc : w'.ctxs = w.ctxs.set k v)
    (ht : ∀ i, i ≠ k → told (e :: tr) i = told tr i)
    (hv : match v with
      | some c => ∃ x, told (e :: tr) k = some x ∧ Right abs (e :: tr) k c x
      | none => told (e :: tr) k = none) : Inv abs w' (e :: tr) := by
  intro i
  rw [hc]
  by_cases hi : i = k
  · subst hi
    rw [List.getElem?_set_self hk]
    cases v with
    | none => exact hv
    | some c => exact hv
  · rw [List.getElem?_set_ne (fun x => hi x.symm), ht i hi]
    have hi := h i
    revert hi
    match w.ctxs[i]? with
    | some (some c) => exact fun ⟨x, h1, h2⟩ => ⟨x, h1, h2.mono⟩
    | some none => exact id
    | none => exact id

/-- A context that is new. -/
theorem Inv.add {abs : σ → Option (Nat × List UInt8)} {w w' : World σ} (h : Inv abs w tr) (hc : w'.ctxs = w.ctxs ++ [v])
    (ht : ∀ i, i ≠ w.ctxs.length → told (e :: tr) i = told tr i)
    (hv : match v with
      | some c => ∃ x, told (e :: tr) w.ctxs.length = some x ∧ Right abs (e :: tr) w.ctxs.length c x
      | none => told (e :: tr) w.ctxs.length = none) : Inv abs w' (e :: tr) := by
  intro i
  rw [hc]
  by_cases hi : i = w.ctxs.length
  · subst hi
    rw [List.getElem?_append_right (Nat.le_refl _), Nat.sub_self]
    cases v with
    | none => exact hv
    | some c => exact hv
  · rw [ht i hi]
    have hw := h i
    by_cases hlt : i < w.ctxs.length
    · rw [List.getElem?_append_left hlt]
      revert hw
      match w.ctxs[i]? with
      | some (some c) => exact fun ⟨x, h1, h2⟩ => ⟨x, h1, h2.mono⟩
      | some none => exact id
      | none => exact id
    · rw [List.getElem?_eq_none (by rw [List.length_append]; simp only [List.length_cons, List.length_nil]; omega)]
      rw [List.getElem?_eq_none (by omega)] at hw
      exact hw

theorem Inv.some {abs : σ → Option (Nat × List UInt8)} {w : World σ} (h : Inv abs w tr) (hc : w.ctxs[i]? = some (some c)) :
    ∃ x, told tr i = some x ∧ Right abs tr i c x := by
  have := h i
  rw [hc] at this
  exact this

theorem Inv.length {abs : σ → Option (Nat × List UInt8)} {w : World σ} (h : Inv abs w tr) : told tr w.ctxs.length = none := by
  have := h w.ctxs.length
  rw [List.getElem?_eq_none (Nat.le_refl _)] at this
  exact this

theorem lt_of {l : List (Option α)} (h : l[i]? = some v) : i < l.length :=
  (List.getElem?_eq_some_iff.mp h).1

theorem newctx_spec (L : Lib σ) (w : World σ) (n : Name) (a b c : Bool) :
    (newctx L w n a b c).1.ctxs = w.ctxs ∧
    (∀ x, (newctx L w n a b c).2 = some x → x = ⟨some n.md, some L.fresh, n.length⟩) := by
  unfold newctx
  split
  · exact ⟨rfl, fun _ h => nomatch h⟩
  split
  · exact ⟨rfl, fun _ h => nomatch h⟩
  split
  · exact ⟨rfl, fun _ h => nomatch h⟩
  · exact ⟨rfl, fun _ h => (Option.some.inj h).symm⟩

theorem dupctx_spec (L : Lib σ) (w : World σ) (c : Ctx σ) (a b e d : Bool) :
    (dupctx L w c a b e d).1.ctxs = w.ctxs ∧
    (∀ x, (dupctx L w c a b e d).2 = some x → x = ⟨c.md, c.mdCtx, 0⟩) := by
  unfold dupctx
  split
  · exact ⟨rfl, fun _ h => nomatch h⟩
  split
  · exact ⟨rfl, fun _ h => nomatch h⟩
  split
  · exact ⟨rfl, fun _ h => nomatch h⟩
  split
  · exact ⟨rfl, fun _ h => nomatch h⟩
  · exact ⟨rfl, fun _ h => (Option.some.inj h).symm⟩

theorem inv_init (hs : Says L H abs) (h : Inv abs w tr) (hc : w.ctxs[k]? = some (some c)) :
    Inv abs (step L w (.init k)).1 ((.init k, (step L w (.init k)).2) :: tr) := by
  obtain ⟨x, h1, h2⟩ := h.some hc
  obtain ⟨s, h3, h4⟩ := h2.ctx
  have e1 : step L w (.init k) = ({ w with ctxs := w.ctxs.set k (some (init L c).1) }, (init L c).2) := by
    simp only [step, with_, hc]
  rw [e1]
  unfold init
  rw [h2.md, h3]
  simp only
  cases hi : L.init s x.1.md with
  | none =>
    refine h.upd (lt_of hc) rfl (fun _ _ => rfl) ⟨x, h1, h2.mono⟩
  | some t =>
    refine h.upd (lt_of hc) rfl (fun i hne => if_neg hne) ⟨(x.1, some []), ?_, ⟨rfl, ⟨t, rfl, ?_⟩, h2.mono.size⟩⟩
    · show (if k = k then _ else _) = _
      rw [if_pos rfl, h1]; rfl
    · rw [hs.init _ _ _ hi]; rfl

theorem inv_update (hs : Says L H abs) (h : Inv abs w tr) (hc : w.ctxs[k]? = some (some c)) :
    Inv abs (step L w (.update k b)).1 ((.update k b, (step L w (.update k b)).2) :: tr) := by
  obtain ⟨x, h1, h2⟩ := h.some hc
  obtain ⟨s, h3, h4⟩ := h2.ctx
  have e1 : step L w (.update k b) = ({ w with ctxs := w.ctxs.set k (some (update L c b).1) }, (update L c b).2) := by
    simp only [step, with_, hc]
  rw [e1]
  unfold update
  rw [h3]
  simp only
  cases hi : L.upd s b with
  | none =>
    refine h.upd (lt_of hc) rfl (fun _ _ => rfl) ⟨x, h1, h2.mono⟩
  | some t =>
    obtain ⟨a, m, ha, hm⟩ := hs.upd _ _ _ hi
    obtain ⟨n, y⟩ := x
    cases y with
    | none => rw [ha] at h4; exact nomatch h4
    | some m' =>
      rw [ha] at h4
      have h5 : a = n.md ∧ m = m' := by
        have := Option.some.inj h4
        exact ⟨congrArg Prod.fst this, congrArg Prod.snd this⟩
      refine h.upd (lt_of hc) rfl (fun i hne => if_neg hne) ⟨(n, some (m' ++ b)), ?_, ⟨h2.md, ⟨t, rfl, ?_⟩, h2.mono.size⟩⟩
      · show (if k = k then _ else _) = _
        rw [if_pos rfl, h1]; rfl
      · rw [hm, h5.1, h5.2]; rfl

theorem inv_final (hs : Says L H abs) (h : Inv abs w tr) (hc : w.ctxs[k]? = some (some c)) :
    Inv abs (step L w (.final k z)).1 ((.final k z, (step L w (.final k z)).2) :: tr) := by
  obtain ⟨x, h1, h2⟩ := h.some hc
  obtain ⟨s, h3, h4⟩ := h2.ctx
  have e1 : step L w (.final k z) = ({ w with ctxs := w.ctxs.set k (some (final L c z).1) }, (final L c z).2) := by
    simp only [step, with_, hc]
  rw [e1]
  unfold final
  by_cases hz : z < c.size
  · rw [if_pos hz]
    exact h.upd (lt_of hc) rfl (fun _ _ => rfl) ⟨x, h1, h2.mono⟩
  rw [if_neg hz, h3]
  simp only
  cases hi : L.fin s with
  | none =>
    exact h.upd (lt_of hc) rfl (fun _ _ => rfl) ⟨x, h1, h2.mono⟩
  | some r =>
    obtain ⟨t, d⟩ := r
    obtain ⟨a, m, ha, hm, hn⟩ := hs.fin _ _ _ hi
    have hr : ∀ e : Op × Ans, Right abs (e :: tr) k { c with mdCtx := some t } (x.1, none) := fun e =>
      ⟨h2.md, ⟨t, rfl, hn⟩, h2.mono.size⟩
    by_cases hd : d.length ≤ z
    · simp only [if_pos hd]
      refine h.upd (lt_of hc) rfl (fun i hne => if_neg hne) ⟨(x.1, none), ?_, hr _⟩
      show (if k = k then _ else _) = _
      rw [if_pos rfl, h1]; rfl
    · simp only [if_neg hd]
      refine h.upd (lt_of hc) rfl (fun i hne => if_neg hne) ⟨(x.1, none), ?_, hr _⟩
      show (if k = k then _ else _) = _
      rw [if_pos rfl, h1]; rfl

theorem with_invalid (w : World σ) (hc : ∀ c, w.ctxs[i]? ≠ some (some c)) (f : Ctx σ → Ctx σ × Ans) : with_ w i f = (w, .invalid) := by
  unfold with_
  split
  · next c h => exact absurd h (hc c)
  · rfl

theorem inv_step (hs : Says L H abs) (h : Inv abs w tr) (op : Op) : Inv abs (step L w op).1 ((op, (step L w op).2) :: tr) := by
  cases op with
  | new n a b c =>
    have hn := newctx_spec L w n a b c
    simp only [step, put]
    cases hr : (newctx L w n a b c).2 with
    | none => exact h.add (by rw [hn.1]) (fun _ _ => rfl) h.length
    | some x =>
      rw [hn.1]
      refine h.add rfl (fun i hi => if_neg hi) ⟨(n, none), if_pos rfl, ?_⟩
      rw [hn.2 x hr]
      exact ⟨rfl, ⟨_, rfl, hs.fresh⟩, .inl rfl⟩
  | dup k a b e d =>
    simp only [step]
    split
    · next c hc =>
      obtain ⟨x, h1, h2⟩ := h.some hc
      have hn := dupctx_spec L w c a b e d
      simp only [put]
      cases hr : (dupctx L w c a b e d).2 with
      | none => exact h.add (by rw [hn.1]) (fun _ _ => rfl) h.length
      | some y =>
        rw [hn.1]
        refine h.add rfl (fun i hi => if_neg hi) ⟨x, ?_, ?_⟩
        · show (if w.ctxs.length = w.ctxs.length then _ else _) = _
          rw [if_pos rfl, h1]
        · rw [hn.2 y hr]
          exact ⟨h2.md, h2.ctx, .inr ⟨rfl, k, a, b, e, d, List.mem_cons_self ..⟩⟩
    · exact h.same rfl fun _ => rfl
  | init k =>
    cases hc : w.ctxs[k]? with
    | none =>
      rw [show step L w (.init k) = (w, .invalid) from with_invalid w (by simp [hc]) _]
      exact h.same rfl fun _ => rfl
    | some v => cases v with
      | none =>
        rw [show step L w (.init k) = (w, .invalid) from with_invalid w (by simp [hc]) _]
        exact h.same rfl fun _ => rfl
      | some c => exact inv_init hs h hc
  | update k b =>
    cases hc : w.ctxs[k]? with
    | none =>
      rw [show step L w (.update k b) = (w, .invalid) from with_invalid w (by simp [hc]) _]
      exact h.same rfl fun _ => rfl
    | some v => cases v with
      | none =>
        rw [show step L w (.update k b) = (w, .invalid) from with_invalid w (by simp [hc]) _]
        exact h.same rfl fun _ => rfl
      | some c => exact inv_update hs h hc
  | final k z =>
    cases hc : w.ctxs[k]? with
    | none =>
      rw [show step L w (.final k z) = (w, .invalid) from with_invalid w (by simp [hc]) _]
      exact h.same rfl fun _ => rfl
    | some v => cases v with
      | none =>
        rw [show step L w (.final k z) = (w, .invalid) from with_invalid w (by simp [hc]) _]
        exact h.same rfl fun _ => rfl
      | some c => exact inv_final hs h hc
  | free k =>
    simp only [step]
    split
    · next c hc => exact h.upd (lt_of hc) rfl (fun i hi => if_neg hi) (if_pos rfl)
    · exact h.same rfl fun _ => rfl

theorem inv_run (hs : Says L H abs) (ops : List Op) : Inv abs (run L ops).1 (run L ops).2 := by
  induction ops with
  | nil => intro i; rfl
  | cons op ops ih => exact inv_step hs ih op

/-- What `final` answers for a context that there is. -/
theorem final_ans {L : Lib σ} {w : World σ} {abs : σ → Option (Nat × List UInt8)} (h : Inv abs w tr) (ht : told tr i = some x) :
    ∃ (c : Ctx σ) (s : σ), (c.size = x.1.length ∨ c.size = 0 ∧ copied tr i) ∧ abs s = (x.2.map fun m => (x.1.md, m)) ∧ c.mdCtx = some s ∧
      (step L w (.final i z)).2 = (final L c z).2 := by
  have hi := h i
  revert hi
  match hc : w.ctxs[i]? with
  | some (some c) =>
    intro ⟨y, h1, h2⟩
    rw [ht] at h1
    cases h1
    obtain ⟨s, h3, h4⟩ := h2.ctx
    refine ⟨c, s, h2.size, h4, h3, ?_⟩
    simp only [step, with_, hc]
  | some none => intro hn; rw [ht] at hn; cases hn
  | none => intro hn; rw [ht] at hn; cases hn

theorem final_none {L : Lib σ} {w : World σ} {abs : σ → Option (Nat × List UInt8)} (h : Inv abs w tr) (ht : told tr i = none) : (step L w (.final i z)).2 = .invalid := by
  have hi := h i
  revert hi
  match hc : w.ctxs[i]? with
  | some (some c) =>
    intro ⟨y, h1, h2⟩
    rw [ht] at h1
    cases h1
  | some none => intro _; exact congrArg Prod.snd (with_invalid w (by simp [hc]) _)
  | none => intro _; exact congrArg Prod.snd (with_invalid w (by simp [hc]) _)

/-! ## The property -/

/-- A digest that an application gets is that of exactly the bytes it gave to the context since it initialised it, those given before it was
copied included, with the digest it asked for: whatever happens to other contexts, copies of it too, whatever fails in between, and however the
bytes are split.  (Partial: C87_violated_copy, C87_violated_names.) -/
theorem C87_digest_partial {L : Lib σ} (hs : Says L H abs) (ops : List Op)
    (hd : (run L (.final i room :: ops)).2 = (.final i room, .digest d) :: earlier) :
    ∃ n m, told earlier i = some (n, some m) ∧ d = H n.md m ∧ d.length ≤ room := by
  have he : earlier = (run L ops).2 := by
    have := List.cons.inj hd
    exact this.2.symm
  subst he
  have hans : (step L (run L ops).1 (.final i room)).2 = .digest d := by
    have := List.cons.inj hd
    exact congrArg Prod.snd this.1
  have hinv := inv_run hs ops
  cases ht : told (run L ops).2 i with
  | none => rw [final_none hinv ht] at hans; cases hans
  | some x =>
    obtain ⟨c, s, hsz, ha, hc, hf⟩ := final_ans (L := L) (z := room) hinv ht
    rw [hf] at hans
    unfold final at hans
    split at hans
    · cases hans
    rw [hc] at hans
    simp only at hans
    split at hans
    · next t d' hfin =>
      obtain ⟨a, m, h1, h2, h3⟩ := hs.fin _ _ _ hfin
      rw [ha] at h1
      by_cases hle : d'.length ≤ room
      · simp only [if_pos hle] at hans
        cases hans
        obtain ⟨n, y⟩ := x
        cases y with
        | none => cases h1
        | some m' =>
          simp only [Option.map_some, Option.some.injEq, Prod.mk.injEq] at h1
          exact ⟨n, m', rfl, by rw [h2, h1.1, h1.2], hle⟩
      · simp only [if_neg hle] at hans
        cases hans
    · cases hans

/-- When OpenSSL does not fail, an application that initialised a context gets its digest. -/
theorem C87_answers (hs : Says L H abs) (hw : Works L abs) (hl : Lengths H) (ops : List Op) (ht : told (run L ops).2 i = some (n, some m))
    (hroom : n.length ≤ room) : (run L (.final i room :: ops)).2 = (.final i room, .digest (H n.md m)) :: (run L ops).2 := by
  have hinv := inv_run hs ops
  obtain ⟨c, s, hsz, ha, hc, hf⟩ := final_ans (L := L) (z := room) hinv ht
  have : (step L (run L ops).1 (.final i room)).2 = .digest (H n.md m) := by
    rw [hf]
    have hz : ¬ room < c.size := by
      rcases hsz with h | h
      · rw [h]; exact Nat.not_lt.mpr hroom
      · rw [h.1]; exact Nat.not_lt_zero _
    unfold final
    rw [if_neg hz, hc]
    simp only
    cases hfin : L.fin s with
    | none => exact absurd hfin (hw.fin s (by rw [ha]; simp))
    | some r =>
      obtain ⟨t, d⟩ := r
      obtain ⟨a, m', h1, h2, h3⟩ := hs.fin _ _ _ hfin
      rw [ha] at h1
      simp only [Option.map_some, Option.some.injEq, Prod.mk.injEq] at h1
      have hd : d = H n.md m := by rw [h2, h1.1, h1.2]
      rw [hd]
      simp only
      rw [if_pos (by rw [length_of hl]; exact hroom)]
  show (_, (step L (run L ops).1 (.final i room)).2) :: _ = _
  rw [this]

/-- More is written than there is room for only by a context that was made as a copy.  (Partial: C87_violated_copy.) -/
theorem C87_room_partial (hs : Says L H abs) (hl : Lengths H) (ops : List Op)
    (hd : (run L (.final i room :: ops)).2 = (.final i room, .overflow) :: earlier) :
    copied earlier i ∧ ∃ n m, told earlier i = some (n, some m) ∧ room < n.length := by
  have he : earlier = (run L ops).2 := (List.cons.inj hd).2.symm
  subst he
  have hans : (step L (run L ops).1 (.final i room)).2 = .overflow := congrArg Prod.snd (List.cons.inj hd).1
  have hinv := inv_run hs ops
  cases ht : told (run L ops).2 i with
  | none => rw [final_none hinv ht] at hans; cases hans
  | some x =>
    obtain ⟨c, s, hsz, ha, hc, hf⟩ := final_ans (L := L) (z := room) hinv ht
    rw [hf] at hans
    unfold final at hans
    split at hans
    · cases hans
    next hz =>
    rw [hc] at hans
    simp only at hans
    split at hans
    · next t d' hfin =>
      obtain ⟨a, m, h1, h2, h3⟩ := hs.fin _ _ _ hfin
      rw [ha] at h1
      by_cases hle : d'.length ≤ room
      · simp only [if_pos hle] at hans
        cases hans
      · obtain ⟨n, y⟩ := x
        cases y with
        | none => cases h1
        | some m' =>
          simp only [Option.map_some, Option.some.injEq, Prod.mk.injEq] at h1
          have hlen : d'.length = n.length := by rw [h2, ← h1.1, length_of hl]
          have hlt : room < n.length := by omega
          refine ⟨?_, n, m', rfl, hlt⟩
          rcases hsz with h | h
          · simp only at h; omega
          · exact h.2
    · cases hans

theorem init_quiet {L : Lib σ} (c : Ctx σ) (j : Nat) : (init L c).2 ≠ .made j := by
  unfold init; split
  · split <;> simp
  · simp

theorem update_quiet {L : Lib σ} (b : List UInt8) (c : Ctx σ) (j : Nat) : (update L c b).2 ≠ .made j := by
  unfold update; split
  · split <;> simp
  · simp

theorem final_quiet {L : Lib σ} (z : Nat) (c : Ctx σ) (j : Nat) : (final L c z).2 ≠ .made j := by
  unfold final; split
  · simp
  split
  · split
    · simp only; split <;> simp
    · simp
  · simp

theorem with_counts (w : World σ) (k : Nat) (f : Ctx σ → Ctx σ × Ans) (hf : ∀ c j, (f c).2 ≠ .made j) :
    (with_ w k f).1.mem = w.mem ∧ (with_ w k f).1.refs = w.refs ∧ (with_ w k f).1.mds = w.mds ∧ ∀ j, (with_ w k f).2 ≠ .made j := by
  unfold with_
  split
  · exact ⟨rfl, rfl, rfl, hf _⟩
  · exact ⟨rfl, rfl, rfl, fun _ h => nomatch h⟩

theorem made_quiet {op : Op} (h : ∀ j, a ≠ .made j) : made ((op, a) :: tr) = made tr := by
  cases a with
  | made j => exact absurd rfl (h j)
  | _ => simp only [made]

theorem freed_init : freed ((.init k, a) :: tr) = freed tr := by cases a <;> rfl
theorem freed_update : freed ((.update k b, a) :: tr) = freed tr := by cases a <;> rfl
theorem freed_final : freed ((.final k z, a) :: tr) = freed tr := by cases a <;> rfl

/-- Every context made that has not been freed holds one context of OpenSSL's and one reference to a digest of OpenSSL's, and nothing else is held:
nothing is lost when something fails, and nothing is freed twice. -/
theorem C87_held (L : Lib σ) (abs : σ → Option (Nat × List UInt8)) (H : Hash) (hs : Says L H abs) (ops : List Op) :
    (run L ops).1.mem = made (run L ops).2 - freed (run L ops).2 ∧ (run L ops).1.refs = (run L ops).1.mem ∧
    (run L ops).1.mds = (run L ops).1.mem := by
  induction ops with
  | nil => exact ⟨rfl, rfl, rfl⟩
  | cons op ops ih =>
    obtain ⟨h1, h2, h3⟩ := ih
    have hinv := inv_run hs ops
    show (step L (run L ops).1 op).1.mem = made ((op, (step L (run L ops).1 op).2) :: (run L ops).2) -
      freed ((op, (step L (run L ops).1 op).2) :: (run L ops).2) ∧ (step L (run L ops).1 op).1.refs = (step L (run L ops).1 op).1.mem ∧
      (step L (run L ops).1 op).1.mds = (step L (run L ops).1 op).1.mem
    generalize (run L ops).1 = w at *
    generalize (run L ops).2 = tr at *
    cases op with
    | new n a b c =>
      cases a <;> cases b <;> cases c <;> simp [step, put, newctx, made, freed] <;> omega
    | dup k a b e d =>
      simp only [step]
      split
      · next c hc =>
        obtain ⟨x, _, h5⟩ := hinv.some hc
        obtain ⟨s, h6, _⟩ := h5.ctx
        cases a <;> cases b <;> cases e <;> cases d <;> simp [put, dupctx, freectx, made, freed, h6] <;> omega
      · simp only [made, freed]; omega
    | init k =>
      obtain ⟨q1, q2, q3, q4⟩ := with_counts w k (init L) init_quiet
      simp only [step, q1, q2, q3, made_quiet q4, freed_init]
      omega
    | update k b =>
      obtain ⟨q1, q2, q3, q4⟩ := with_counts w k (fun c => update L c b) (update_quiet b)
      simp only [step, q1, q2, q3, made_quiet q4, freed_update]
      omega
    | final k z =>
      obtain ⟨q1, q2, q3, q4⟩ := with_counts w k (fun c => final L c z) (final_quiet z)
      simp only [step, q1, q2, q3, made_quiet q4, freed_final]
      omega
    | free k =>
      simp only [step]
      split
      · next c hc =>
        obtain ⟨x, _, h5⟩ := hinv.some hc
        obtain ⟨s, h6, _⟩ := h5.ctx
        simp [freectx, h5.md, h6, made, freed]
        omega
      · simp only [made, freed]; omega

/-! ## Examples -/

/-- Digests of the right lengths that depend on all bytes. -/
def sums : Hash := fun a m => List.replicate (match a with | 0 => 20 | 1 => 32 | 2 => 48 | _ => 64) (m.foldl (fun x y => 3 * x + y) (UInt8.ofNat a))

theorem sums_lengths : Lengths sums := fun _ => ⟨List.length_replicate, List.length_replicate, List.length_replicate, List.length_replicate⟩

/-- A library that remembers the bytes. -/
def recorder : Lib (Option (Nat × List UInt8)) where
  fresh := none
  init _ a := some (some (a, []))
  upd s b := s.map fun x => some (x.1, x.2 ++ b)
  fin s := s.map fun x => (none, sums x.1 x.2)
  gettable _ := []
  settable _ := ["ssl3-ms"]

theorem recorder_says : Says recorder sums id where
  fresh := rfl
  init _ _ _ h := (Option.some.inj h).symm
  upd s b t h := by
    cases s with
    | none => cases h
    | some x => exact ⟨x.1, x.2, rfl, (Option.some.inj h).symm⟩
  fin s t d h := by
    cases s with
    | none => cases h
    | some x =>
      have := Option.some.inj h
      exact ⟨x.1, x.2, rfl, (congrArg Prod.snd this).symm, (congrArg Prod.fst this).symm⟩

theorem recorder_works : Works recorder id where
  init _ _ := by simp [recorder]
  upd s b h := by cases s with
    | none => exact absurd rfl h
    | some _ => simp [recorder]
  fin s h := by cases s with
    | none => exact absurd rfl h
    | some _ => simp [recorder]

/-- A SHA-256 context gets bytes, is copied, and both get more, interleaved (the last operation first). -/
def forked : List Op :=
  [.update 1 [5], .update 0 [4], .update 0 [3], .dup 0 true true true true, .update 0 [2], .update 0 [1], .init 0, .new .sha256 true true true]

example : told (run recorder forked).2 0 = some (.sha256, some [1, 2, 3, 4]) := by decide
example : told (run recorder forked).2 1 = some (.sha256, some [1, 2, 5]) := by decide
example : (run recorder (.final 1 32 :: forked)).2 = (.final 1 32, .digest (sums 1 [1, 2, 5])) :: (run recorder forked).2 :=
  C87_answers (n := .sha256) (m := [1, 2, 5]) recorder_says recorder_works sums_lengths forked (by decide) (by decide)
example : made (run recorder (.free 0 :: .dup 1 true true true false :: .dup 0 true true false true :: forked)).2 = 2 := by decide
example : (run recorder (.free 0 :: .dup 1 true true true false :: .dup 0 true true false true :: forked)).1.refs = 1 := by decide

/-- Violation: a copy of a context does not know how long its digest is, and `digest_final` writes it wherever there is room for less.  (OpenSSL
itself always says that there is room for a whole digest.) -/
theorem C87_violated_copy : ∃ (ops : List Op) (i : Nat), (∃ m, told (run recorder ops).2 i = some (.sha512, some m)) ∧
    (run recorder (.final i 0 :: ops)).2 = (.final i 0, .overflow) :: (run recorder ops).2 :=
  ⟨[.dup 0 true true true true, .update 0 [1, 2], .init 0, .new .sha512 true true true], 1, ⟨[1, 2], by decide⟩, by decide⟩

/-- Violation: what the provider says can be set of a context is what OpenSSL says can be asked for, and the other way round. -/
theorem C87_violated_names (L : Lib σ) (c : Ctx σ) (s : σ) (hc : c.mdCtx = some s) (hne : L.settable s ≠ L.gettable s) :
    settable L c ≠ L.settable s ∧ gettable L c ≠ L.gettable s := by
  unfold settable gettable
  rw [hc]
  exact ⟨fun h => hne h.symm, hne⟩

example : settable recorder ⟨some 0, some none, 20⟩ = [] ∧ gettable recorder ⟨some 0, some none, 20⟩ = ["ssl3-ms"] := by decide

end Sa.Pd.C87

import Verif.Lemmas.Soc

/-! The allocations and frees of a block in a run. -/

namespace Sa.Kc

/-- What happens to block `b`: `true` is an allocation, `false` a free. -/
def life (b : Blk) (es : List Ev) : List Bool :=
  es.filterMap fun e => match e with
    | .alloc b' _ => if b' = b then some true else none
    | .free b' => if b' = b then some false else none
    | _ => none

theorem life_nil (b : Blk) : life b [] = [] := rfl
theorem life_append (b : Blk) (x y : List Ev) : life b (x ++ y) = life b x ++ life b y := List.filterMap_append

/-- Neither an allocation nor a free. -/
def Plain (e : Ev) : Prop := (∀ b n, e ≠ .alloc b n) ∧ ∀ b, e ≠ .free b

theorem plain_fill (b n) : Plain (.fill b n) := ⟨(fun _ _ h => nomatch h), fun _ h => nomatch h⟩
theorem plain_write (f o n) : Plain (.write f o n) := ⟨(fun _ _ h => nomatch h), fun _ h => nomatch h⟩
theorem plain_uninit : Plain .uninit := ⟨(fun _ _ h => nomatch h), fun _ h => nomatch h⟩
theorem plain_null : Plain .null := ⟨(fun _ _ h => nomatch h), fun _ h => nomatch h⟩
theorem plain_readLit (a b) : Plain (.readLit a b) := ⟨(fun _ _ h => nomatch h), fun _ h => nomatch h⟩

theorem life_plain (b : Blk) (es : List Ev) (h : All Plain es) : life b es = [] := by
  unfold life
  rw [List.filterMap_eq_nil_iff]
  intro e he
  have := h e he
  cases e with
  | alloc b' n => exact absurd rfl (this.1 b' n)
  | free b' => exact absurd rfl (this.2 b')
  | _ => rfl

theorem mem_allocated (b : Blk) (es : List Ev) : b ∈ allocated es ↔ true ∈ life b es := by
  unfold allocated life
  simp only [List.mem_filterMap]
  constructor
  · rintro ⟨e, he, h⟩
    cases e with
    | alloc b' n => simp only [Option.some.injEq] at h; exact ⟨_, he, by simp [h]⟩
    | _ => exact nomatch h
  · rintro ⟨e, he, h⟩
    cases e with
    | alloc b' n =>
      by_cases hb : b' = b
      · exact ⟨_, he, by simp [hb]⟩
      · simp [hb] at h
    | free b' => by_cases hb : b' = b <;> simp [hb] at h
    | _ => exact nomatch h

/-- Events of a composition, where the first part leaves block `b` alone. -/
theorem life_bind_left {G : List Bool → Prop} {b : Blk} {m : P α} {f : α → P β} (h0 : G []) (h1 : life b m.evs = [])
    (h2 : ∀ a, m.res = .ok a → G (life b (f a).evs)) : G (life b (m >>= f).evs) := by
  cases hm : m.res with
  | error s => rw [bind_error hm, h1]; exact h0
  | ok a => rw [bind_ok hm, life_append, h1]; exact h2 a hm

/-- Where the second part leaves it alone. -/
theorem life_bind_right {G : List Bool → Prop} {b : Blk} {m : P α} {f : α → P β} (h1 : G (life b m.evs))
    (h2 : ∀ a, m.res = .ok a → life b (f a).evs = []) : G (life b (m >>= f).evs) := by
  cases hm : m.res with
  | error s => rw [bind_error hm]; exact h1
  | ok a => rw [bind_ok hm, life_append, h2 a hm, List.append_nil]; exact h1

theorem life_bind_nil {b : Blk} {m : P α} {f : α → P β} (h1 : life b m.evs = []) (h2 : ∀ a, m.res = .ok a → life b (f a).evs = []) :
    life b (m >>= f).evs = [] := life_bind_left (G := (· = [])) rfl h1 h2

theorem plain_one {e : Ev} (h : Plain e) : All Plain [e] := by rw [all_cons]; exact ⟨h, all_nil _⟩

theorem b64_plain (env : Env) (dst : Nat → Ev) (s : Option Bytes) (url : Bool) (h : ∀ n, Plain (dst n)) : All Plain (b64Decode env dst s url).1 := by
  unfold b64Decode
  split
  · exact all_nil _
  · rename_i t
    simp only
    have hu : All Plain (if url = false ∧ t.length % 4 ≠ 0 then [Ev.uninit] else []) := by
      split
      · exact plain_one plain_uninit
      · exact all_nil _
    split
    · exact hu
    · rw [all_append]; exact ⟨hu, plain_one (h _)⟩

theorem cmp_plain (env : Env) (s : Bytes) (l : String) : All Plain (cmpLit env s l).evs := plain_one (plain_readLit _ _)

theorem stringLength_plain (env : Env) (s : Option Bytes) : All Plain (stringLength env s).evs := by
  cases s
  · exact plain_one plain_uninit
  · exact all_nil _

theorem stringOf_nil (v : Js.Json) : (stringOf v).evs = [] := by unfold stringOf; split <;> rfl

theorem need_nil (n : String) (l : List (Bytes × Js.Json)) : (need n l).evs = [] := by unfold need; split <;> rfl

theorem fixed_plain (env : Env) (f : Fld) (size : Nat) (url : Bool) (v : Js.Json) : All Plain (socFixed env f size url v).evs := by
  unfold socFixed
  refine all_bind (stringLength_plain _ _) fun len _ => all_bind (b64_plain _ _ _ _ fun _ => plain_write _ _ _) fun _ _ => ?_
  split
  · split
    · exact all_fail _ _
    · exact all_pure _ _
  · exact all_pure _ _

theorem root_plain (env : Env) (v : UInt8) (fields : List (Bytes × Js.Json)) : All Plain (socRoot env v fields).evs := by
  unfold socRoot
  split
  · unfold socRootKeyType
    split
    · exact all_nil _
    · split
      · refine all_bind (m := P.emit _) (plain_one plain_uninit) fun _ _ => ?_
        split
        · exact all_pure _ _
        · exact all_bind (m := P.emit _) (plain_one plain_null) fun _ _ => all_fail _ _
      · refine all_bind (cmp_plain _ _ _) fun b _ => ?_
        split
        · exact all_pure _ _
        · refine all_bind (cmp_plain _ _ _) fun b _ => ?_
          split
          · exact all_pure _ _
          · exact all_fail _ _
  · exact all_nil _

theorem put_plain (aad src : Bytes) : All Plain (aadPut aad src).evs := plain_one (plain_write _ _ _)

theorem aadTaIds_plain : (l : List Bytes) → (aad : Bytes) → All Plain (aadTaIds aad l).evs
  | [], _ => all_nil _
  | _ :: l, _ => all_bind (put_plain _ _) fun _ _ => aadTaIds_plain l _

theorem ladder_plain (env : Env) (c : Bytes) : All Plain (ladderInput env c).evs := by
  unfold ladderInput
  simp only
  split
  · exact plain_one plain_uninit
  · exact all_nil _

theorem aad_plain (env : Env) (alg : Bytes) (p : Payload) : All Plain (socBuildAad env alg p).evs := by
  unfold socBuildAad
  refine all_bind ?_ fun b hb => ?_
  · unfold isA128Gcm; split
    · exact all_nil _
    · exact cmp_plain _ _ _
  split
  · exact all_fail _ _
  refine all_bind (put_plain _ _) fun _ _ => ?_
  split
  · exact all_fail _ _
  refine all_bind (put_plain _ _) fun _ _ => all_bind ?_ fun _ _ => ?_
  · unfold aadRoot
    split
    · split
      · exact put_plain _ _
      · exact put_plain _ _
      · exact all_nil _
    · exact all_nil _
  split
  · exact all_fail _ _
  refine all_bind (put_plain _ _) fun _ _ => ?_
  split
  · exact all_fail _ _
  refine all_bind ?_ fun _ _ => ?_
  · unfold isKeyOnlyHmac isHmacName
    split
    · refine all_bind (cmp_plain _ _ _) fun b _ => ?_
      split
      · exact all_pure _ _
      · refine all_bind (cmp_plain _ _ _) fun b _ => ?_
        split
        · exact all_pure _ _
        · exact cmp_plain _ _ _
    · exact all_nil _
  split
  · exact all_fail _ _
  refine all_bind (put_plain _ _) fun _ _ => all_bind ?_ fun _ _ => ?_
  · unfold aadDecUsage
    split
    · split
      · exact all_fail _ _
      · exact put_plain _ _
    · exact all_nil _
  refine all_bind (put_plain _ _) fun _ _ => all_bind (ladder_plain _ _) fun _ _ => all_bind (put_plain _ _) fun _ _ => all_bind (ladder_plain _ _) fun _ _ => ?_
  refine all_bind (put_plain _ _) fun _ _ => all_bind (ladder_plain _ _) fun _ _ => all_bind (put_plain _ _) fun _ _ => ?_
  split
  · exact all_fail _ _
  · exact aadTaIds_plain _ _

theorem keyType_plain (env : Env) (s : Bytes) : (l : List (String × KeyInfo)) → All Plain (socKeyTypeFrom env s l).evs
  | [] => all_nil _
  | (n, i) :: l => by
    unfold socKeyTypeFrom
    refine all_bind (cmp_plain _ _ _) fun b _ => ?_
    split
    · exact all_pure _ _
    · exact keyType_plain env s l

/-- Frees of a list of different blocks. -/
theorem life_frees (b : Blk) : (bs : List Blk) → bs.Nodup → life b (bs.map .free) = if b ∈ bs then [false] else []
  | [], _ => rfl
  | c :: bs, h => by
    rw [List.nodup_cons] at h
    have ih := life_frees b bs h.2
    have : life b ((c :: bs).map Ev.free) = (if c = b then [false] else []) ++ life b (bs.map .free) := by
      simp only [life, List.map_cons, List.filterMap_cons]
      by_cases hc : c = b <;> simp [hc]
    rw [this, ih]
    by_cases hc : c = b
    · subst hc; simp [h.1]
    · simp [hc, Ne.symm hc]

/-- Freeing the members that are not NULL: those that were allocated. -/
theorem life_filter_free (b : Blk) (all : List Blk) (h : all.Nodup) (es : List Ev) :
    life b ((all.filter (· ∈ allocated es)).map .free) = if b ∈ all ∧ true ∈ life b es then [false] else [] := by
  rw [life_frees b _ (h.filter _)]
  simp only [List.mem_filter, decide_eq_true_eq, mem_allocated]

end Sa.Kc

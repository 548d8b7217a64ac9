import Verif.Model.EngineMac

/-!
# C91: MACs through the OpenSSL engine
-/

namespace Sa.Em.C91

/-! ## Specification -/

abbrev Trace := List (Op × Ans)

/-- What an application has told a context since it was initialised: digest, key, bytes; `spent`: a MAC was asked for with a buffer. -/
structure Told where
  md : Option Md
  key : Nat
  data : List UInt8
  spent : Bool
  deriving DecidableEq

/-- Read off the operations that succeeded, the last first; a copy has been told what the original had been. -/
def told : Trace → Nat → Option Told
  | [], _ => none
  | (.init k key md _, .ok) :: tr, i => if k = i then some ⟨md, key, [], false⟩ else told tr i
  | (.reinit k md, .ok) :: tr, i => if k = i then (told tr i).map fun t => ⟨md, t.key, [], false⟩ else told tr i
  | (.update k b, .ok) :: tr, i => if k = i then (told tr i).map fun t => { t with data := t.data ++ b } else told tr i
  | (.final k (some _) true, _) :: tr, i => if k = i then (told tr i).map fun t => { t with spent := true } else told tr i
  | (.copy k _, .made j) :: tr, i => if j = i then told tr k else told tr i
  | (.free k, .ok) :: tr, i => if k = i then none else told tr i
  | _ :: tr, i => told tr i

/-- The MAC that is meant: CMAC without a digest, HMAC with one of those that SecApi has, none with another. -/
def meant : Option Md → Option (Option Nat)
  | none => some none
  | some (.sa 0) => some (some 0)
  | some (.sa 1) => some (some 1)
  | some (.sa 2) => some (some 2)
  | some (.sa 3) => some (some 3)
  | some _ => none

/-- What the theorems assume of SecApi: a new MAC gets a handle that is free. -/
def Picks (api : Api) : Prop := ∀ f h, api.pick f = some h → f h = none

/-- The ways of use for which the engine works: no copies, no second initialisation, digests that SecApi has, and no context initialised while there
is one that was asked for its MAC and not freed. -/
def Careful (api : Api) : List Op → Prop
  | [] => True
  | op :: earlier => Careful api earlier ∧ match op with
    | .copy _ _ => False
    | .reinit _ _ => False
    | .init _ _ md _ => meant md ≠ none ∧ ∀ j t, told (run api earlier).2 j = some t → t.spent = false
    | _ => True

/-! ## Lemmas -/

theorem meant_digest {md : Option Md} {alg : Option Nat} (h : meant md = some alg) : digestOf md = alg := by
  unfold meant at h
  split at h <;> simp_all [digestOf]

/-- What is right of one context. -/
def Right (macs : Nat → Option Mac) (x : Option (Option App)) (t : Option Told) : Prop :=
  match x, t with
  | some (some a), some t => ∃ h, a.handle = some h ∧
      (if t.spent then macs h = none else ∃ alg, meant t.md = some alg ∧ macs h = some ⟨alg, t.key, t.data⟩)
  | some (some a), none => a.handle = none
  | _, none => True
  | _, some _ => False

/-- A context, `none` if there is not (any more). -/
def cell (w : World) (i : Nat) : Option (Option App) := w.ctxs[i]?.join

def handleOf (w : World) (i : Nat) : Option Nat := (cell w i).join.bind (·.handle)

theorem lt_of {l : List α} (h : l[i]? = some v) : i < l.length := (List.getElem?_eq_some_iff.mp h).1

theorem cell_of {w : World} (h : w.ctxs[i]? = some x) : cell w i = x := by unfold cell; rw [h]; rfl

theorem cell_set (w : World) (m : Nat → Option Mac) (hk : k < w.ctxs.length) (v : Option (Option App)) (i : Nat) :
    cell { macs := m, ctxs := w.ctxs.set k v } i = if i = k then v else cell w i := by
  unfold cell
  simp only [List.getElem?_set]
  by_cases h : i = k
  · subst h; rw [if_pos rfl, if_pos rfl, if_pos hk]; rfl
  · rw [if_neg (Ne.symm h), if_neg h]

theorem cell_new (w : World) (v : Option (Option App)) (i : Nat) :
    cell { w with ctxs := w.ctxs ++ [v] } i = if i = w.ctxs.length then v else cell w i := by
  unfold cell
  simp only
  by_cases h : i = w.ctxs.length
  · subst h; simp
  · rw [if_neg h]
    rcases Nat.lt_or_gt_of_ne h with h | h
    · rw [List.getElem?_append_left h]
    · rw [List.getElem?_eq_none (by simp; omega), List.getElem?_eq_none (by omega)]

structure Inv (w : World) (tr : Trace) : Prop where
  right : ∀ i, Right w.macs (cell w i) (told tr i)
  apart : ∀ i j h, handleOf w i = some h → handleOf w j = some h → i = j
  held : ∀ h m, w.macs h = some m → ∃ i, handleOf w i = some h

/-- An operation that changes neither. -/
theorem Inv.same (h : Inv w tr) (ht : ∀ i, told tr' i = told tr i) : Inv w tr' :=
  ⟨fun i => by rw [ht i]; exact h.right i, h.apart, h.held⟩

theorem Inv.app (h : Inv w tr) (hc : cell w i = some (some a)) (ht : told tr i = some t) : ∃ h, a.handle = some h ∧
    (if t.spent then w.macs h = none else ∃ alg, meant t.md = some alg ∧ w.macs h = some ⟨alg, t.key, t.data⟩) := by
  have := h.right i
  rw [hc, ht] at this
  exact this

theorem Inv.app_none (h : Inv w tr) (hc : cell w i = some (some a)) (ht : told tr i = none) : a.handle = none := by
  have := h.right i
  rw [hc, ht] at this
  exact this

theorem Inv.told (h : Inv w tr) (hc : ∀ a, cell w i ≠ some (some a)) : told tr i = none := by
  have := h.right i
  unfold Right at this
  split at this <;> simp_all

theorem Inv.live (h : Inv w tr) (ht : C91.told tr i = some t) : ∃ a, cell w i = some (some a) := by
  have := h.right i
  unfold Right at this
  split at this <;> simp_all

theorem inv_new (h : Inv w tr) : Inv { w with ctxs := w.ctxs ++ [some none] } ((.new, .made w.ctxs.length) :: tr) := by
  have hn : cell w w.ctxs.length = none := by unfold cell; rw [List.getElem?_eq_none (Nat.le_refl _)]; rfl
  have ht : C91.told tr w.ctxs.length = none := h.told (by rw [hn]; simp)
  have hh : ∀ i, handleOf { w with ctxs := w.ctxs ++ [some none] } i = handleOf w i := by
    intro i
    unfold handleOf
    rw [cell_new]
    by_cases hi : i = w.ctxs.length
    · subst hi; rw [if_pos rfl, hn]; rfl
    · rw [if_neg hi]
  refine ⟨fun i => ?_, fun i j x => ?_, fun x m => ?_⟩
  · rw [cell_new]
    simp only [told]
    by_cases hi : i = w.ctxs.length
    · subst hi; rw [if_pos rfl, ht]; trivial
    · rw [if_neg hi]; exact h.right i
  · rw [hh, hh]; exact h.apart i j x
  · intro hm; obtain ⟨i, hi⟩ := h.held x m hm; exact ⟨i, by rw [hh]; exact hi⟩

theorem inv_init {api : Api} (hp : Picks api) (h : Inv w tr) (hc : w.ctxs[k]? = some (some none)) (hm : meant md ≠ none)
    (hs : ∀ j t, told tr j = some t → t.spent = false) (mem : Bool) :
    Inv (step api w (.init k key md mem)).1 ((.init k key md mem, (step api w (.init k key md mem)).2) :: tr) := by
  have hk := lt_of hc
  have hck := cell_of hc
  have ht : told tr k = none := h.told (by rw [hck]; simp)
  have hhk : handleOf w k = none := by unfold handleOf; rw [hck]; rfl
  simp only [step, hc]
  cases mem with
  | false => simp only [Bool.not_false, if_true]; exact h.same fun i => rfl
  | true =>
    simp only [Bool.not_true, Bool.false_eq_true, if_false, digestSignInit, macInit, pkeyInit]
    have hfail : Inv { macs := w.macs, ctxs := w.ctxs.set k (some (some ⟨md, none, key⟩)) } ((.init k key md true, .fail) :: tr) := by
      have hh : ∀ i, handleOf { macs := w.macs, ctxs := w.ctxs.set k (some (some ⟨md, none, key⟩)) } i = handleOf w i := by
        intro i
        unfold handleOf
        rw [cell_set w _ hk]
        by_cases hi : i = k
        · subst hi; rw [if_pos rfl, hck]; rfl
        · rw [if_neg hi]
      refine ⟨fun i => ?_, fun i j x => ?_, fun x m => ?_⟩
      · rw [cell_set w _ hk]
        simp only [told]
        by_cases hi : i = k
        · subst hi; rw [if_pos rfl, ht]; rfl
        · rw [if_neg hi]; exact h.right i
      · rw [hh, hh]; exact h.apart i j x
      · intro hm; obtain ⟨i, hi⟩ := h.held x m hm; exact ⟨i, by rw [hh]; exact hi⟩
    by_cases ha : api.allowed (digestOf md) key = true
    · simp only [ha, Bool.not_true, Bool.false_eq_true, if_false]
      cases hpk : api.pick w.macs with
      | none => exact hfail
      | some x =>
        have hx := hp _ _ hpk
        obtain ⟨alg, halg⟩ := Option.ne_none_iff_exists'.mp hm
        have hh : ∀ i, handleOf { macs := set w.macs x (some ⟨digestOf md, key, []⟩), ctxs := w.ctxs.set k (some (some ⟨md, some x, key⟩)) } i =
            if i = k then some x else handleOf w i := by
          intro i
          unfold handleOf
          rw [cell_set w _ hk]
          by_cases hi : i = k
          · subst hi; rw [if_pos rfl, if_pos rfl]; rfl
          · rw [if_neg hi, if_neg hi]
        have hnot : ∀ i, handleOf w i ≠ some x := by
          intro i hi
          unfold handleOf at hi
          cases hci : cell w i with
          | none => rw [hci] at hi; cases hi
          | some o => cases o with
            | none => rw [hci] at hi; cases hi
            | some a =>
              rw [hci] at hi
              cases hti : told tr i with
              | none => have := h.app_none hci hti; simp [this] at hi
              | some t =>
                obtain ⟨y, hy, hr⟩ := h.app hci hti
                have hxy : y = x := by simpa [hy] using hi
                subst hxy
                rw [hs i t hti] at hr
                simp [hx] at hr
        refine ⟨fun i => ?_, fun i j y => ?_, fun y m => ?_⟩
        · rw [cell_set w _ hk]
          simp only [told]
          by_cases hi : i = k
          · subst hi
            rw [if_pos rfl, if_pos rfl]
            refine ⟨x, rfl, ?_⟩
            simp only [Bool.false_eq_true, if_false, set, if_true]
            exact ⟨alg, halg, by rw [meant_digest halg]⟩
          · rw [if_neg hi, if_neg (Ne.symm hi)]
            have := h.right i
            unfold Right at this ⊢
            split <;> rename_i h1 h2 <;> simp only [h1, h2] at this <;> try exact this
            obtain ⟨y, hy, hr⟩ := this
            refine ⟨y, hy, ?_⟩
            have hne : y ≠ x := by
              intro hxy
              subst hxy
              exact hnot i (by unfold handleOf; rw [h1]; exact hy)
            simp only [set, if_neg hne]
            exact hr
        · rw [hh, hh]
          by_cases hi : i = k <;> by_cases hj : j = k
          · intros; rw [hi, hj]
          · rw [if_pos hi, if_neg hj]; intro h1 h2; cases h1; exact absurd h2 (hnot j)
          · rw [if_neg hi, if_pos hj]; intro h1 h2; cases h2; exact absurd h1 (hnot i)
          · rw [if_neg hi, if_neg hj]; exact h.apart i j y
        · intro hm
          by_cases hy : y = x
          · subst hy; exact ⟨k, by rw [hh, if_pos rfl]⟩
          · simp only [set, if_neg hy] at hm
            obtain ⟨i, hi⟩ := h.held y m hm
            refine ⟨i, ?_⟩
            rw [hh, if_neg ?_]
            · exact hi
            · intro hik; subst hik; rw [hhk] at hi; cases hi
    · simp only [Bool.not_eq_true] at ha
      simp only [ha, Bool.not_false, if_true]
      exact hfail

/-- What happens to the MAC of another context changes nothing. -/
theorem Inv.other (h : Inv w tr) (hk : handleOf w k = some x) (hi : i ≠ k) (v : Option Mac) :
    Right (set w.macs x v) (cell w i) (C91.told tr i) := by
  have := h.right i
  unfold Right at this ⊢
  split <;> rename_i h1 h2 <;> simp only [h1, h2] at this <;> try exact this
  obtain ⟨y, hy, hr⟩ := this
  refine ⟨y, hy, ?_⟩
  have hne : y ≠ x := by
    intro hxy
    subst hxy
    exact hi (h.apart i k y (by unfold handleOf; rw [h1]; exact hy) hk)
  simp only [set, if_neg hne]
  exact hr

theorem handle_of (hc : cell w k = some (some a)) (hy : a.handle = some x) : handleOf w k = some x := by
  unfold handleOf; rw [hc]; exact hy

theorem inv_update (api : Api) (h : Inv w tr) (k : Nat) (b : List UInt8) :
    Inv (step api w (.update k b)).1 ((.update k b, (step api w (.update k b)).2) :: tr) := by
  unfold step
  simp only
  split
  · rename_i a hc
    have hck := cell_of hc
    unfold macUpdate
    cases hb : a.handle.bind fun h => (w.macs h).map fun m => (h, m) with
    | none => exact h.same fun i => rfl
    | some p =>
      obtain ⟨x, m⟩ := p
      obtain ⟨x', hx, hm⟩ := Option.bind_eq_some_iff.mp hb
      obtain ⟨m', hm', he⟩ := Option.map_eq_some_iff.mp hm
      cases he
      have hh := handle_of hck hx
      simp only
      refine ⟨fun i => ?_, h.apart, fun y m' => ?_⟩
      · show Right _ (cell w i) _
        simp only [told]
        by_cases hi : i = k
        · subst hi
          rw [if_pos rfl, hck]
          cases ht : told tr i with
          | none => have := h.app_none hck ht; rw [this] at hx; cases hx
          | some t =>
            obtain ⟨y, hy, hr⟩ := h.app hck ht
            rw [hx] at hy
            cases hy
            by_cases hs : t.spent = true
            · rw [if_pos hs, hm'] at hr; cases hr
            · rw [if_neg hs] at hr
              obtain ⟨alg, ha, hmm⟩ := hr
              rw [hm'] at hmm
              cases hmm
              refine ⟨x, hx, ?_⟩
              simp only [hs, Bool.false_eq_true, if_false, set, if_true]
              exact ⟨alg, ha, rfl⟩
        · rw [if_neg (Ne.symm hi)]; exact h.other hh hi _
      · intro hm2
        by_cases hy : y = x
        · subst hy; exact ⟨k, hh⟩
        · simp only [set, if_neg hy] at hm2; exact h.held y m' hm2
  · exact h.same fun i => rfl

theorem inv_final (api : Api) (h : Inv w tr) (k : Nat) (room : Option Nat) (mem : Bool) :
    Inv (step api w (.final k room mem)).1 ((.final k room mem, (step api w (.final k room mem)).2) :: tr) := by
  unfold step
  simp only
  split
  · rename_i a hc
    have hck := cell_of hc
    unfold digestSignFinal
    cases room with
    | none => exact h.same fun i => by cases mem <;> rfl
    | some n =>
      cases mem with
      | false => exact h.same fun i => rfl
      | true =>
        simp only [Bool.not_true, Bool.false_eq_true, if_false, pkeyCopy, pkeyCleanup]
        cases hx : a.handle with
        | none =>
          simp only
          have ht : told tr k = none := by
            cases ht : told tr k with
            | none => rfl
            | some t => obtain ⟨y, hy, _⟩ := h.app hck ht; rw [hx] at hy; cases hy
          refine h.same fun i => ?_
          simp only [told]
          by_cases hi : k = i
          · subst hi; rw [if_pos rfl, ht]; rfl
          · rw [if_neg hi]
        | some x =>
          have hh := handle_of hck hx
          simp only [macRelease]
          refine ⟨fun i => ?_, h.apart, fun y m' => ?_⟩
          · show Right _ (cell w i) _
            simp only [told]
            by_cases hi : i = k
            · subst hi
              rw [if_pos rfl, hck]
              cases ht : told tr i with
              | none => have := h.app_none hck ht; rw [this] at hx; cases hx
              | some t => refine ⟨x, hx, ?_⟩; simp [set]
            · rw [if_neg (Ne.symm hi)]; exact h.other hh hi _
          · intro hm
            by_cases hy : y = x
            · subst hy; simp [set] at hm
            · simp only [set, if_neg hy] at hm; exact h.held y m' hm
  · rename_i hn
    refine h.same fun i => ?_
    have ht : told tr k = none := h.told fun a hc => by
      unfold cell at hc
      cases hg : w.ctxs[k]? with
      | none => rw [hg] at hc; cases hc
      | some o => rw [hg] at hc; exact hn a (by rw [hg]; simpa using hc)
    cases room <;> cases mem <;> simp only [told]
    by_cases hi : k = i
    · subst hi; rw [if_pos rfl, ht]; rfl
    · rw [if_neg hi]

theorem inv_free (api : Api) (h : Inv w tr) (k : Nat) :
    Inv (step api w (.free k)).1 ((.free k, (step api w (.free k)).2) :: tr) := by
  have key : ∀ o m, w.ctxs[k]? = some (some o) → (∀ x, handleOf w k = some x → m x = none) →
      (∀ i, i ≠ k → Right m (cell w i) (told tr i)) → (∀ y v, m y = some v → w.macs y = some v) →
      Inv { macs := m, ctxs := w.ctxs.set k none } ((.free k, .ok) :: tr) := by
    intro o m hc h0 hr hsub
    have hk := lt_of hc
    have hh : ∀ i, handleOf { macs := m, ctxs := w.ctxs.set k none } i = if i = k then none else handleOf w i := by
      intro i
      unfold handleOf
      rw [cell_set w _ hk]
      by_cases hi : i = k
      · rw [if_pos hi, if_pos hi]; rfl
      · rw [if_neg hi, if_neg hi]
    refine ⟨fun i => ?_, fun i j y => ?_, fun y v => ?_⟩
    · rw [cell_set w _ hk]
      simp only [told]
      by_cases hi : i = k
      · subst hi; rw [if_pos rfl, if_pos rfl]; trivial
      · rw [if_neg hi, if_neg (Ne.symm hi)]; exact hr i hi
    · rw [hh, hh]
      by_cases hi : i = k <;> by_cases hj : j = k <;> simp only [hi, hj, if_true, if_false] <;> intro h1 h2 <;>
        first | cases h1 | cases h2 | exact h.apart i j y h1 h2
    · intro hm
      obtain ⟨i, hi⟩ := h.held y v (hsub y v hm)
      refine ⟨i, ?_⟩
      rw [hh, if_neg ?_]
      · exact hi
      · intro hik; subst hik; have := h0 y hi; simp only at hm; rw [this] at hm; cases hm
  unfold step
  simp only
  split
  · rename_i hc
    refine key none w.macs hc (fun x hx => ?_) (fun i _ => h.right i) (fun y v hv => hv)
    unfold handleOf at hx; rw [cell_of hc] at hx; cases hx
  · rename_i a hc
    unfold pkeyCleanup
    cases hx : a.handle with
    | none =>
      refine key (some a) w.macs hc (fun x hx' => ?_) (fun i _ => h.right i) (fun y v hv => hv)
      unfold handleOf at hx'; rw [cell_of hc] at hx'; simp [hx] at hx'
    | some x =>
      have hh := handle_of (cell_of hc) hx
      refine key (some a) (set w.macs x none) hc (fun y hy => ?_) (fun i hi => h.other hh hi _) (fun y v hv => ?_)
      · rw [hh] at hy; cases hy; simp [set]
      · by_cases hy : y = x
        · subst hy; simp [set] at hv
        · simpa only [set, if_neg hy] using hv
  · exact h.same fun i => rfl

theorem inv_run {api : Api} (hp : Picks api) : ∀ {ops}, Careful api ops → Inv (run api ops).1 (run api ops).2
  | [], _ => ⟨fun i => trivial, fun i j h hi => by simp [run, empty, handleOf, cell] at hi, fun h m hm => by cases hm⟩
  | op :: ops, hc => by
    have ih := inv_run hp hc.1
    have hc2 := hc.2
    simp only [run]
    cases op with
    | new => exact inv_new ih
    | init k key md mem =>
      obtain ⟨hm, hs⟩ := hc2
      by_cases hk : (run api ops).1.ctxs[k]? = some (some none)
      · exact inv_init hp ih hk hm hs mem
      · have he : step api (run api ops).1 (.init k key md mem) = ((run api ops).1, .invalid) := by
          unfold step
          simp only
        rw [he]
        exact ih.same fun i => rfl
    | reinit k md => exact hc2.elim
    | update k b => exact inv_update api ih k b
    | final k room mem => exact inv_final api ih k room mem
    | copy k mem => exact hc2.elim
    | free k => exact inv_free api ih k

/-! ## Properties -/

theorem final_of (api : Api) {w : World} (hc : cell w i = some (some a)) (room : Option Nat) :
    (step api w (.final i room true)).2 = signctx api w a room := by
  have hg : w.ctxs[i]? = some (some (some a)) := by
    unfold cell at hc
    cases hg : w.ctxs[i]? with
    | none => rw [hg] at hc; cases hc
    | some o => rw [hg] at hc; exact congrArg some (by simpa using hc)
  unfold step
  simp only [hg, digestSignFinal]
  cases room <;> rfl

/-- **C91**: a context that was initialised and not yet asked for its MAC answers, given enough room, the MAC that is meant by its digest, of all
bytes given to it since, in their order, whatever other contexts did meanwhile; asked without a buffer, the length of that MAC.
Partial: only for careful use; see the violations. -/
theorem C91_mac_partial {api : Api} (hp : Picks api) (hc : Careful api ops) (ht : told (run api ops).2 i = some t) (hs : t.spent = false) :
    ∃ alg, meant t.md = some alg ∧
      (step api (run api ops).1 (.final i none true)).2 = .length (api.mac alg t.key t.data).length ∧
      ∀ room, (api.mac alg t.key t.data).length ≤ room →
        (step api (run api ops).1 (.final i (some room) true)).2 = .mac (api.mac alg t.key t.data) := by
  have inv := inv_run hp hc
  obtain ⟨a, ha⟩ := inv.live ht
  obtain ⟨x, hx, hr⟩ := inv.app ha ht
  rw [hs] at hr
  simp only [Bool.false_eq_true, if_false] at hr
  obtain ⟨alg, hm, hmac⟩ := hr
  have hb : a.handle.bind (run api ops).1.macs = some ⟨alg, t.key, t.data⟩ := by rw [hx]; exact hmac
  refine ⟨alg, hm, ?_, fun room hroom => ?_⟩
  · rw [final_of api ha, signctx, hb]
  · rw [final_of api ha, signctx, hb]
    simp only
    rw [if_neg (by omega)]

/-- **C91**: bytes are always taken until then. -/
theorem C91_updates_partial {api : Api} (hp : Picks api) (hc : Careful api ops) (ht : told (run api ops).2 i = some t) (hs : t.spent = false)
    (b : List UInt8) : (step api (run api ops).1 (.update i b)).2 = .ok := by
  have inv := inv_run hp hc
  obtain ⟨a, ha⟩ := inv.live ht
  obtain ⟨x, hx, hr⟩ := inv.app ha ht
  rw [hs] at hr
  simp only [Bool.false_eq_true, if_false] at hr
  obtain ⟨alg, hm, hmac⟩ := hr
  have hg : (run api ops).1.ctxs[i]? = some (some (some a)) := by
    unfold cell at ha
    cases hg : (run api ops).1.ctxs[i]? with
    | none => rw [hg] at ha; cases ha
    | some o => rw [hg] at ha; exact congrArg some (by simpa using ha)
  unfold step
  simp only [hg, macUpdate, hx, Option.bind_some, hmac, Option.map_some]

/-- **C91**: every MAC answered is of what was told, none is made up. -/
theorem C91_answers_partial {api : Api} (hp : Picks api) (hc : Careful api ops)
    (ha : (step api (run api ops).1 (.final i (some room) mem)).2 = .mac m) :
    ∃ t alg, told (run api ops).2 i = some t ∧ meant t.md = some alg ∧ m = api.mac alg t.key t.data := by
  have inv := inv_run hp hc
  unfold step at ha
  simp only at ha
  split at ha
  · rename_i a hg
    have hca := cell_of hg
    unfold digestSignFinal at ha
    cases mem with
    | false => simp at ha
    | true =>
      simp only [Bool.not_true, Bool.false_eq_true, if_false, signctx, pkeyCopy] at ha
      cases hx : a.handle with
      | none => rw [hx] at ha; simp at ha
      | some x =>
        rw [hx] at ha
        simp only [Option.bind_some] at ha
        cases ht : told (run api ops).2 i with
        | none => have := inv.app_none hca ht; rw [hx] at this; cases this
        | some t =>
          obtain ⟨y, hy, hr⟩ := inv.app hca ht
          rw [hx] at hy
          cases hy
          by_cases hs : t.spent = true
          · rw [if_pos hs] at hr; rw [hr] at ha; simp at ha
          · rw [if_neg hs] at hr
            obtain ⟨alg, hm, hmac⟩ := hr
            rw [hmac] at ha
            simp only at ha
            split at ha
            · cases ha
            · cases ha; exact ⟨t, alg, rfl, hm, rfl⟩
  · cases ha

/-- The handle of a context that was not asked for its MAC. -/
def heldBy (w : World) (tr : Trace) (i : Nat) : Option Nat := if (told tr i).any (!·.spent) then handleOf w i else none

/-- **C91**: there is a MAC of SecApi for every context that was initialised and neither asked for its MAC nor freed, a different one for each, and
there are no others. -/
theorem C91_held_partial {api : Api} (hp : Picks api) (hc : Careful api ops) :
    ∃ of : Nat → Option Nat,
      (∀ i, (of i).isSome ↔ ∃ t, told (run api ops).2 i = some t ∧ t.spent = false) ∧
      (∀ i j h, of i = some h → of j = some h → i = j) ∧
      ∀ h, ((run api ops).1.macs h).isSome ↔ ∃ i, of i = some h := by
  have inv := inv_run hp hc
  have hof : ∀ {i h}, heldBy (run api ops).1 (run api ops).2 i = some h → handleOf (run api ops).1 i = some h := by
    intro i h hh
    unfold heldBy at hh
    split at hh
    · exact hh
    · cases hh
  refine ⟨heldBy (run api ops).1 (run api ops).2, fun i => ?_, fun i j h h1 h2 => inv.apart i j h (hof h1) (hof h2), fun h => ?_⟩
  · unfold heldBy
    cases ht : told (run api ops).2 i with
    | none => simp
    | some t =>
      obtain ⟨a, ha⟩ := inv.live ht
      obtain ⟨x, hx, _⟩ := inv.app ha ht
      rw [handle_of ha hx]
      cases hs : t.spent <;> simp [hs]
  · constructor
    · intro hm
      obtain ⟨m, hm⟩ := Option.isSome_iff_exists.mp hm
      obtain ⟨i, hi⟩ := inv.held h m hm
      refine ⟨i, ?_⟩
      have hi' := hi
      unfold handleOf at hi'
      cases hci : cell (run api ops).1 i with
      | none => rw [hci] at hi'; cases hi'
      | some o => cases o with
        | none => rw [hci] at hi'; cases hi'
        | some a =>
          rw [hci] at hi'
          have hx : a.handle = some h := hi'
          cases ht : told (run api ops).2 i with
          | none => have := inv.app_none hci ht; rw [hx] at this; cases this
          | some t =>
            obtain ⟨y, hy, hr⟩ := inv.app hci ht
            rw [hx] at hy
            cases hy
            by_cases hs : t.spent = true
            · rw [if_pos hs, hm] at hr; cases hr
            · unfold heldBy
              rw [ht]
              simp only [Option.any_some, hs, Bool.not_false, if_true]
              exact hi
    · rintro ⟨i, hi⟩
      have hh := hof hi
      unfold heldBy at hi
      cases ht : told (run api ops).2 i with
      | none => rw [ht] at hi; simp at hi
      | some t =>
        rw [ht] at hi
        obtain ⟨a, ha⟩ := inv.live ht
        obtain ⟨x, hx, hr⟩ := inv.app ha ht
        rw [handle_of ha hx] at hh
        cases hh
        by_cases hs : t.spent = true
        · simp [hs] at hi
        · rw [if_neg hs] at hr
          obtain ⟨alg, _, hmac⟩ := hr
          rw [hmac]; rfl

/-! ## Examples -/

/-- A MAC that shows what it is of; two MACs at a time. -/
def two : Api where
  mac alg key data := UInt8.ofNat (alg.getD 9) :: UInt8.ofNat key :: data
  pick f := if f 0 = none then some 0 else if f 1 = none then some 1 else none
  allowed _ _ := true

theorem two_picks : Picks two := by
  intro f h hp
  simp only [two] at hp
  split at hp
  · cases hp; assumption
  · split at hp
    · cases hp; assumption
    · cases hp

/-- Two contexts at once, HMAC-SHA256 with key 5 and CMAC with key 6. -/
def ops2 : List Op := [.update 0 [3], .update 1 [2], .update 0 [1], .init 1 6 none true, .init 0 5 (some (.sa 1)) true, .new, .new]

theorem ops2_careful : Careful two ops2 := by
  refine ⟨⟨⟨⟨⟨⟨⟨trivial, trivial⟩, trivial⟩, by simp [meant], ?_⟩, by simp [meant], ?_⟩, trivial⟩, trivial⟩, trivial⟩
  · intro j t ht; revert ht; simp [run, step, told]
  · intro j t ht
    have : told (run two [.init 0 5 (some (.sa 1)) true, .new, .new]).2 j = if 0 = j then some ⟨some (.sa 1), 5, [], false⟩ else none := rfl
    rw [this] at ht
    split at ht
    · cases ht; rfl
    · cases ht

example : ∃ t, told (run two ops2).2 0 = some t ∧ t.spent = false ∧
    (step two (run two ops2).1 (.final 0 (some 4) true)).2 = .mac [1, 5, 1, 3] := ⟨_, rfl, rfl, by decide +kernel⟩
example : (step two (run two ops2).1 (.final 1 (some 4) true)).2 = .mac [9, 6, 2] := by decide +kernel

/-! ## Violations -/

/-- **C91, violated**: a context asked for its MAC keeps the number of the MAC that was released with that.  Another context gets the number, and the
first one, asked once more, answers the other's MAC: with another key, of other bytes. -/
theorem C91_violated_wrong : ∃ ops,
    told (run two ops).2 0 = some ⟨some (.sa 1), 5, [1], true⟩ ∧ told (run two ops).2 1 = some ⟨some (.sa 1), 6, [2], false⟩ ∧
    (step two (run two ops).1 (.final 0 (some 9) true)).2 = .mac (two.mac (some 1) 6 [2]) ∧
    two.mac (some 1) 6 [2] ≠ two.mac (some 1) 5 [1] :=
  ⟨[.update 1 [2], .init 1 6 (some (.sa 1)) true, .final 0 (some 9) true, .update 0 [1], .init 0 5 (some (.sa 1)) true, .new, .new],
    by decide +kernel, by decide +kernel, by decide +kernel, by decide +kernel⟩

/-- **C91, violated**: freeing a context that was asked for its MAC takes the MAC of another away, which takes no more bytes. -/
theorem C91_violated_free : ∃ ops,
    told (run two ops).2 1 = some ⟨none, 6, [2], false⟩ ∧
    (step two (run two ops).1 (.update 1 [3])).2 = .fail ∧ (step two (run two ops).1 (.final 1 (some 9) true)).2 = .fail :=
  ⟨[.free 0, .update 1 [2], .init 1 6 none true, .final 0 (some 9) true, .update 0 [1], .init 0 5 none true, .new, .new],
    by decide +kernel, by decide +kernel, by decide +kernel⟩

/-- **C91, violated**: a copy of a context has the same MAC: bytes given to the original change what the copy answers, and with the copy the
original is finished. -/
theorem C91_violated_copy : ∃ ops,
    told (run two ops).2 0 = some ⟨none, 5, [1, 2], false⟩ ∧ told (run two ops).2 1 = some ⟨none, 5, [1], false⟩ ∧
    (step two (run two ops).1 (.final 1 (some 9) true)).2 = .mac (two.mac none 5 [1, 2]) ∧
    (step two (step two (run two ops).1 (.free 1)).1 (.final 0 (some 9) true)).2 = .fail :=
  ⟨[.update 0 [2], .copy 0 true, .update 0 [1], .init 0 5 none true, .new],
    by decide +kernel, by decide +kernel, by decide +kernel, by decide +kernel⟩

/-- **C91, violated**: with a digest that SecApi does not have, a CMAC is answered in place of an error. -/
theorem C91_violated_digest : ∃ ops,
    told (run two ops).2 0 = some ⟨some .other, 5, [1], false⟩ ∧ meant (some .other) = none ∧
    (step two (run two ops).1 (.final 0 (some 9) true)).2 = .mac (two.mac none 5 [1]) :=
  ⟨[.update 0 [1], .init 0 5 (some .other) true, .new], by decide +kernel, rfl, by decide +kernel⟩

/-- **C91, violated**: initialising a context again loses the MAC it had, which nothing releases: it stays when all contexts are freed. -/
theorem C91_violated_reinit : ∃ ops, (run two ops).2.all (fun p => p.2 ≠ .fail) ∧ (run two ops).1.ctxs = [none] ∧
    ((run two ops).1.macs 0).isSome :=
  ⟨[.free 0, .reinit 0 none, .init 0 5 none true, .new], by decide +kernel, by decide +kernel, by decide +kernel⟩

/-- **C91, violated**: asked with too small a buffer, a context fails, which OpenSSL has to be asked again for with a larger one: but the MAC is lost.
So it is after an answer, though OpenSSL lets an application go on with a context that was asked. -/
theorem C91_violated_again : ∃ ops,
    told (run two ops).2 0 = some ⟨none, 5, [1], true⟩ ∧ (run two ops).2.head? = some (.final 0 (some 2) true, .fail) ∧
    (step two (run two ops).1 (.final 0 (some 9) true)).2 = .fail ∧ (step two (run two ops).1 (.update 0 [2])).2 = .fail :=
  ⟨[.final 0 (some 2) true, .update 0 [1], .init 0 5 none true, .new],
    by decide +kernel, by decide +kernel, by decide +kernel, by decide +kernel⟩

end Sa.Em.C91

import Verif.Model.Soc

/-! Runs of the container parsers: events and results of compositions. -/

namespace Sa.Kc

/-- All events of a run satisfy `Q`. -/
def All (Q : Ev → Prop) (es : List Ev) : Prop := ∀ e ∈ es, Q e

theorem all_nil (Q : Ev → Prop) : All Q [] := fun _ h => nomatch h
theorem all_cons (Q : Ev → Prop) (e : Ev) (es : List Ev) : All Q (e :: es) ↔ Q e ∧ All Q es := by simp [All]
theorem all_append (Q : Ev → Prop) (a b : List Ev) : All Q (a ++ b) ↔ All Q a ∧ All Q b := by
  simp only [All, List.mem_append]
  exact ⟨fun h => ⟨fun e he => h e (.inl he), fun e he => h e (.inr he)⟩, fun h e he => he.elim (h.1 e) (h.2 e)⟩

theorem bind_def (m : P α) (f : α → P β) : (m >>= f) = P.bind m f := rfl
theorem pure_def (a : α) : (pure a : P α) = P.pure a := rfl

theorem bind_ok {m : P α} {a : α} (h : m.res = .ok a) (f : α → P β) : (m >>= f) = ⟨m.evs ++ (f a).evs, (f a).res⟩ := by
  rw [bind_def, P.bind, h]

theorem bind_error {m : P α} {s : Status} (h : m.res = .error s) (f : α → P β) : (m >>= f) = ⟨m.evs, .error s⟩ := by
  rw [bind_def, P.bind, h]

theorem bind_res {m : P α} {f : α → P β} {b : β} (h : (m >>= f).res = .ok b) :
    ∃ a, m.res = .ok a ∧ (f a).res = .ok b ∧ (m >>= f).evs = m.evs ++ (f a).evs := by
  cases hm : m.res with
  | error s => rw [bind_error hm] at h; exact nomatch h
  | ok a => rw [bind_ok hm] at h ⊢; exact ⟨a, rfl, h, rfl⟩

theorem all_bind {Q : Ev → Prop} {m : P α} {f : α → P β} (h1 : All Q m.evs) (h2 : ∀ a, m.res = .ok a → All Q (f a).evs) : All Q (m >>= f).evs := by
  cases hm : m.res with
  | error s => rw [bind_error hm]; exact h1
  | ok a => rw [bind_ok hm, all_append]; exact ⟨h1, h2 a hm⟩

theorem all_pure (Q : Ev → Prop) (a : α) : All Q (pure a : P α).evs := all_nil Q
theorem all_fail (Q : Ev → Prop) (s : Status) : All Q (P.fail s : P α).evs := all_nil Q
theorem all_need (Q : Ev → Prop) (n : String) (l : List (Bytes × Js.Json)) : All Q (need n l).evs := by
  unfold need; split <;> exact all_nil Q

theorem need_ok {n : String} {l : List (Bytes × Js.Json)} {v : Js.Json} (h : (need n l).res = .ok v) : ∃ k, Js.find (ascii n) l = some (k, v) := by
  unfold need at h
  split at h
  · exact nomatch h
  · rename_i e he
    cases h
    exact ⟨e.1, he⟩

theorem pure_res {a b : α} (h : (pure a : P α).res = .ok b) : a = b := by cases h; rfl
theorem fail_res {s : Status} {b : α} (h : (P.fail s : P α).res = .ok b) : False := nomatch h

theorem b64Data_length (env : Env) (he : env.Good) (s : Bytes) (url : Bool) :
    (b64Data env s url).length = (s.length / 4 + if s.length % 4 > 0 then 1 else 0) * 4 := by
  have : (s.length / 4 + if s.length % 4 > 0 then 1 else 0) * 4 ≥ s.length := by split <;> omega
  unfold b64Data
  generalize (s.length / 4 + if s.length % 4 > 0 then 1 else 0) * 4 = n at this ⊢
  cases url
  · simp only [Bool.false_eq_true, if_false, List.length_append, he.junk]; omega
  · simp only [if_true, List.length_append, List.length_map, List.length_replicate]; omega

/-- Decoding never gives more than the buffer allocated for it holds. -/
theorem b64Decode_length (env : Env) (he : env.Good) (dst : Nat → Ev) (s : Bytes) (url : Bool) (r : Bytes)
    (h : (b64Decode env dst (some s) url).2 = some r) : r.length ≤ b64DecodedLength s.length := by
  unfold b64Decode at h
  simp only at h
  split at h
  · exact nomatch h
  · rename_i r' hr
    simp only [Option.some.injEq] at h
    subst h
    have := he.bio _ _ hr
    rw [b64Data_length env he, Nat.mul_div_cancel _ (by omega)] at this
    exact this

end Sa.Kc

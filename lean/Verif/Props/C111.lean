import Verif.Model.Info
import Verif.Props.C70

/-!
# C111: applications are told the name, the version and their UUID, and nothing else is written
-/

namespace Sa.Info.C111
open Sa.Ta Sa.Cl

/-! ## What the application expects -/

/-- The name with its terminating zero is at the beginning of the buffer, its length is told, and nothing else is written. -/
def Named (name : Bytes) (app r : Out) : Prop :=
  r = { app with value := name.length + 1, mem := r.mem } ∧ r.mem = name ++ [0] ++ app.mem.drop (name.length + 1)

/-- The full statement: any buffer in which the name fits will do. -/
def AnyBuffer (e : CEnv) (k : Known) : Prop :=
  ∀ n app, n < 2 ^ 64 → app.mem.length = n → k.name.length + 1 ≤ n → ∃ r, exec e (ta k) (.getName true n) app = (.OK, r) ∧ Named k.name app r

/-! ## Proof -/

/-- The call arrives, and how the answer is stored. -/
theorem told {e : CEnv} (he : e.WF) (k : Known) (out : Bool) (n : Nat) (hn : n < 2 ^ 64) (app : Out) (hv : (taGetName k out n).2.value < 2 ^ 64) :
    exec e (ta k) (.getName out n) app = ((taGetName k out n).1,
      if (taGetName k out n).1 ≠ .OK then landed e (.getName out n) (taGetName k out n).2 app
      else { landed e (.getName out n) (taGetName k out n).2 app with
        value := (taGetName k out n).2.value
        mem := if out then
            (if e.shared then put app.mem 0 ((put (List.replicate n 0) 0 (taGetName k out n).2.mem).take (taGetName k out n).2.value)
             else (landed e (.getName out n) (taGetName k out n).2 app).mem)
          else (landed e (.getName out n) (taGetName k out n).2 app).mem }) := by
  have hr : ∃ p, request e (.getName out n) = .ok (2, p) ∧ (p 1) = e.pOut out n := ⟨_, rfl, rfl⟩
  obtain ⟨p, hr, h1⟩ := hr
  have hw : C63.WF (.getName out n) := hn
  have ha := C63.arrives e he _ hw (fun h => h) (fun h => h) 2 p hr
  obtain ⟨_, b, hb, hl⟩ := cmd_of he hw hr
  have hvb := C70.value_back (o := (taGetName k out n).2) hb (by rw [hl]; simp only [cmdSize]; decide) hv
  unfold exec
  rw [hr]
  simp only [ha, C63.meant, ta]
  cases out with
  | false => simp only [finish, respond, params, hvb, Bool.false_eq_true, if_false]
  | true =>
    have hm : (p 1).mem = some (List.replicate n 0) := by rw [h1]; rfl
    simp only [finish, respond, params, hvb, if_true]
    cases hs : e.shared with
    | true => simp only [CEnv.copyOut, hs, if_true, wr_mem _ _ _ _ hm, Option.getD_some, C70.landed_shared hs]
    | false => simp only [CEnv.copyOut, hs, Bool.false_eq_true, if_false]

/-! ## Theorems -/

/-- **C111, the length.**  Without a buffer an application is told how many bytes the name takes with its terminating zero; nothing else changes. -/
theorem C111_length (e : CEnv) (he : e.WF) (k : Known) (hk : k.name.length + 1 < 2 ^ 64) (n : Nat) (hn : n < 2 ^ 64) (app : Out) :
    exec e (ta k) (.getName false n) app = (.OK, { app with value := k.name.length + 1 }) := by
  rw [told he k false n hn app (by simpa [taGetName] using hk)]
  rw [C70.landed_none rfl (by intros; simp)]
  simp [taGetName]

/-- **C111, short buffers.**  A buffer that is too short is refused and nothing is written. -/
theorem C111_short (e : CEnv) (he : e.WF) (k : Known) (n : Nat) (hn : n < 2 ^ 64) (app : Out) (hl : n < k.name.length + 1) :
    exec e (ta k) (.getName true n) app = (.INVALID_PARAMETER, app) := by
  have h : taGetName k true n = (.INVALID_PARAMETER, { none_ with value := n }) := by simp [taGetName, hl]
  rw [told he k true n hn app (by rw [h]; exact hn), h]
  simp only [ne_eq, reduceCtorEq, not_false_eq_true, if_true]
  cases hs : e.shared with
  | true => rw [C70.landed_shared hs]
  | false => rw [C70.landed_direct hs rfl (by intros; simp)]; simp [put, none_]

/-- What is in the buffer after a success. -/
theorem name_ok (e : CEnv) (he : e.WF) (k : Known) (n : Nat) (hn : n < 2 ^ 64) (app : Out) (ha : app.mem.length = n) (hl : k.name.length + 1 ≤ n) :
    exec e (ta k) (.getName true n) app = (.OK, { app with value := n, mem := k.name ++ [0] ++
      (if e.shared then List.replicate (n - (k.name.length + 1)) 0 else app.mem.drop (k.name.length + 1)) }) := by
  have h : taGetName k true n = (.OK, { none_ with value := n, mem := k.name ++ [0] }) := by simp [taGetName]; omega
  rw [told he k true n hn app (by rw [h]; exact hn), h]
  simp only [ne_eq, not_true_eq_false, if_false, if_true]
  cases hs : e.shared with
  | true =>
    rw [C70.landed_shared hs]
    simp only [if_true, Prod.mk.injEq, true_and, Out.mk.injEq, and_true]
    have : (put (List.replicate n 0) 0 (k.name ++ [0])).length = n := by simp [put]; omega
    rw [List.take_of_length_le (by omega)]
    simp only [put, List.take_zero, List.nil_append, List.length_append, List.length_cons, List.length_nil, Nat.zero_add, List.drop_replicate, List.length_replicate]
    rw [List.drop_of_length_le (by rw [ha]; omega), List.append_nil]
  | false =>
    rw [C70.landed_direct hs rfl (by intros; simp)]
    simp [put]

/-- **C111, the name.**  In a buffer of any length in which it fits the application finds the name and its terminating zero.  If the buffer has the length told, then that length is told again;
in the build without shared memory nothing else is written.  Missing for the full property (`AnyBuffer`): the length of the name, and the rest of the buffer, if it is longer
(`C111_violated`, `C111_violated_rest`). -/
theorem C111_name_partial (e : CEnv) (he : e.WF) (k : Known) (n : Nat) (hn : n < 2 ^ 64) (app : Out) (ha : app.mem.length = n) (hl : k.name.length + 1 ≤ n) :
    ∃ r, exec e (ta k) (.getName true n) app = (.OK, r) ∧ r = { app with value := r.value, mem := r.mem } ∧ r.mem.length = n ∧ k.name ++ [0] <+: r.mem ∧
      (n = k.name.length + 1 → Named k.name app r) ∧ (e.shared = false → r.mem = k.name ++ [0] ++ app.mem.drop (k.name.length + 1)) := by
  refine ⟨_, name_ok e he k n hn app ha hl, rfl, ?_, ⟨_, rfl⟩, ?_, ?_⟩
  · cases e.shared <;> simp <;> omega
  · intro h
    refine ⟨by rw [h], ?_⟩
    rw [List.drop_of_length_le (by omega)]
    cases e.shared
    · simp only [Bool.false_eq_true, if_false]
    · simp [h]
  · intro h
    simp [h]

/-- **C111, asking twice.**  An application that asks for the length, and then for the name with a buffer of the length told, gets the name, and the length told is right. -/
theorem C111_twice (e : CEnv) (he : e.WF) (k : Known) (hk : k.name.length + 1 < 2 ^ 64) (n : Nat) (hn : n < 2 ^ 64) (app : Out) (buf : Nat → Bytes) (hb : ∀ m, (buf m).length = m) :
    ∃ r1 r2, exec e (ta k) (.getName false n) app = (.OK, r1) ∧ exec e (ta k) (.getName true r1.value) { r1 with mem := buf r1.value } = (.OK, r2) ∧
      r2.mem = k.name ++ [0] ∧ r2.value = r2.mem.length := by
  refine ⟨_, _, C111_length e he k hk n hn app, name_ok e he k _ hk _ (hb _) (Nat.le_refl _), ?_, ?_⟩
  · simp only
    rw [List.drop_of_length_le (by rw [hb]; exact Nat.le_refl _)]
    cases e.shared <;> simp
  · simp only
    rw [List.drop_of_length_le (by rw [hb]; exact Nat.le_refl _)]
    cases e.shared <;> simp

/-- **C111, the version and the UUID.**  The application is told the version of the implementation, and the UUID under which the TA's framework knows it. -/
theorem C111_version (e : CEnv) (he : e.WF) (k : Known) (app : Out) :
    (k.version.length = 32 → app.blob.length = 32 → exec e (ta k) (.getVersion app.blob) app = (.OK, { app with blob := k.version })) ∧
    (k.caller.length = 16 → app.blob.length = 16 → exec e (ta k) (.getTaUuid app.blob) app = (.OK, { app with blob := k.caller })) := by
  constructor
  · intro hv hb
    obtain ⟨r, h1, h2, _⟩ := C70.C70_as_meant e he (ta k) (.getVersion app.blob) hb (fun h => h) (fun h => h) app rfl 1 _ rfl
      ⟨(by decide : 0 < 2 ^ 64), (by decide : 0 < 2 ^ 64), (by decide : 0 < 2 ^ 64), hv, fun h => absurd rfl h⟩
    rw [h1, h2 rfl]
    rfl
  · intro hv hb
    obtain ⟨r, h1, h2, _⟩ := C70.C70_as_meant e he (ta k) (.getTaUuid app.blob) hb (fun h => h) (fun h => h) app rfl 4 _ rfl
      ⟨(by decide : 0 < 2 ^ 64), (by decide : 0 < 2 ^ 64), (by decide : 0 < 2 ^ 64), hv, fun h => absurd rfl h⟩
    rw [h1, h2 rfl]
    rfl

/-! ## Violations -/

/-- The TA of the reference implementation. -/
def ref : Known := ⟨refName, refVersion, List.replicate 16 7⟩

theorem ref_fits : ref.name.length + 1 = 10 ∧ ref.version.length = 32 ∧ ref.caller.length = 16 := by decide

/-- **C111, the violation.**  In every build: if the buffer is longer than needed, the length of the name is not told, though sa.h:96-97 says so. -/
theorem C111_violated (e : CEnv) (he : e.WF) : ¬AnyBuffer e ref := by
  intro h
  obtain ⟨r, h1, h2, _⟩ := h 11 ⟨0, 0, 0, [], List.replicate 11 9, []⟩ (by decide) rfl (by decide)
  rw [name_ok e he ref 11 (by decide) _ rfl (by decide)] at h1
  cases h1
  have : (11 : Nat) = 10 := congrArg Out.value h2
  revert this
  decide

/-- **C111, the other violation.**  In the build with shared memory the rest of the buffer is overwritten: the library copies as many bytes as the buffer has. -/
theorem C111_violated_rest (e : CEnv) (he : e.WF) (hs : e.shared = true) : ∃ n app r, app.mem.length = n ∧ exec e (ta ref) (.getName true n) app = (.OK, r) ∧
    app.mem.getD 10 0 = 9 ∧ r.mem.getD 10 0 ≠ 9 := by
  refine ⟨11, ⟨0, 0, 0, [], List.replicate 11 9, []⟩, _, rfl, name_ok e he ref 11 (by decide) _ rfl (by decide), rfl, ?_⟩
  rw [hs]
  decide

/-- Hence `ta_sa_get_name` does not meet the contract of C70. -/
theorem C111_violated_contract : ¬C70.Fits (.getName true 11) (ta ref (.getName true 11)).1 (ta ref (.getName true 11)).2 := by
  intro h
  have := (h.2.2.2 rfl).2 (by decide)
  revert this
  decide

/-! ## Examples -/

example : C70.sharedLib.WF ∧ C63.lib.WF := ⟨fun n => by simp [C70.sharedLib], fun n => by simp [C63.lib]⟩
/- The name "Reference" in a buffer of ten bytes. -/
example : exec C70.sharedLib (ta ref) (.getName true 10) ⟨10, 0, 0, [], List.replicate 10 9, []⟩ = (.OK, ⟨10, 0, 0, [], refName ++ [0], []⟩) := by decide +kernel
example : exec C63.lib (ta ref) (.getName true 9) ⟨9, 0, 0, [], List.replicate 9 9, []⟩ = (.INVALID_PARAMETER, ⟨9, 0, 0, [], List.replicate 9 9, []⟩) := by decide +kernel
example : (exec C63.lib (ta ref) (.getVersion (List.replicate 32 0)) ⟨0, 0, 0, List.replicate 32 0, [], []⟩).2.blob = [3, 0, 0, 0, 0, 0, 0, 0, 4, 0, 0, 0, 0, 0, 0, 0] ++ List.replicate 16 0 := by
  decide +kernel

end Sa.Info.C111

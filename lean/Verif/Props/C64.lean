import Verif.Props.C58
import Verif.Props.C63
import Verif.Lemmas.TaCall

/-!
# C64: applications that use the client library cannot make the command handler misbehave
-/

namespace Sa.C64
open Sa.Ta Sa.Cl

/-- The one kind of call that does: the import of an SoC container with a parameter structure longer than the one of this version of the API. -/
def Long : Call → Prop
  | .keyImport _ f _ (.soc b) => f = 4 ∧ 624 < b.length
  | _ => False

/-! ## The parameters are well formed -/

theorem wf_pNone : pNone.WF := ⟨by decide, by simp [pNone]⟩
theorem wf_pIn {e : CEnv} {b : In} (h : b.WF) : (e.pIn b).WF := h
theorem wf_pOpt {e : CEnv} {b : In} (h : b.WF) : (e.pOpt b).WF := by
  unfold CEnv.pOpt
  split
  · exact h
  · exact wf_pNone
theorem wf_pOut {e : CEnv} {o : Bool} {n : Nat} (h : n < 2 ^ 64) : (e.pOut o n).WF := by
  unfold CEnv.pOut
  split
  · refine ⟨h, ?_⟩
    intro b hb
    obtain rfl := Option.some.inj hb
    exact List.length_replicate
  · exact wf_pNone
theorem wf_bytes {ty : Nat} {b : Bytes} (h : b.length < 2 ^ 64) : TaParam.WF ⟨ty, some b, b.length⟩ := by
  refine ⟨h, ?_⟩
  intro b' hb
  obtain rfl := Option.some.inj hb
  rfl
theorem wf_in {b : Bytes} {n : Nat} (h : b.length = n) (hn : n < 2 ^ 64) : In.WF ⟨some b, n⟩ := by
  refine ⟨hn, ?_⟩
  intro b' hb
  obtain rfl := Option.some.inj hb
  exact h
theorem wf_params {a b c d : TaParam} (ha : a.WF) (hb : b.WF) (hc : c.WF) (hd : d.WF) : ∀ i, (Cl.params a b c d i).WF := by
  intro i
  match i with
  | 0 => exact ha
  | 1 => exact hb
  | 2 => exact hc
  | 3 => exact hd

variable {e : CEnv} {id : Nat} {p : Params}

/-- All that is needed of the parameters. -/
def Fine (id : Nat) (p : Params) : Prop := (∀ i, (p i).WF) ∧ ¬ C37.Hole id p ∧ ¬ C58.Hole id p

/-- Commands without holes. -/
theorem fine_of {a b c d : TaParam} (ha : a.WF) (hb : b.WF) (hc : c.WF) (hd : d.WF) (hid : id ∉ [7, 10, 13, 18, 19, 34, 36, 37]) :
    Fine id (Cl.params a b c d) := by
  refine ⟨wf_params ha hb hc hd, ?_, ?_⟩
  · simp only [List.mem_cons, List.not_mem_nil, or_false, not_or] at hid
    unfold C37.Hole
    split <;> first | omega | exact not_false
  · simp only [List.mem_cons, List.not_mem_nil, or_false, not_or] at hid
    unfold C58.Hole
    split <;> first | omega | exact not_false

attribute [local simp] le_length CEnv.version

set_option hygiene false in
/-- A command structure has less than 2^64 bytes. -/
macro "cmdlen" : tactic => `(tactic| (refine wf_bytes ?_; simp [hj, *]; done))

set_option hygiene false in
macro "sent" : tactic => `(tactic| (simp only [request, Except.ok.injEq, Prod.mk.injEq] at h; obtain ⟨rfl, rfl⟩ := h))

theorem fine_generate (hj : ∀ n, (e.junk n).length = n) {k : Nat} {r : Bytes} {t : Nat} {g : GenPrm} (hw : C63.WF (.keyGenerate k r t g))
    (h : request e (.keyGenerate k r t g) = .ok (id, p)) : Fine id p := by
  have hr : r.length = 608 := hw.2.1
  simp only [request, keyGenerate] at h
  split at h
  · cases h
  · split at h
    · sent; exact fine_of (by cmdlen) wf_pNone wf_pNone wf_pNone (by decide)
    · sent; exact fine_of (by cmdlen) wf_pNone wf_pNone wf_pNone (by decide)
    · sent; exact fine_of (by cmdlen) wf_pNone wf_pNone wf_pNone (by decide)
    · split at h
      · cases h
      · sent; exact fine_of (by cmdlen) (wf_pIn hw.2.2.2.1) (wf_pIn hw.2.2.2.2) wf_pNone (by decide)
    · cases h

theorem fine_export (hj : ∀ n, (e.junk n).length = n) {o : Bool} {n : Nat} {m : In} {k : Nat} (hw : C63.WF (.keyExport o n m k))
    (h : request e (.keyExport o n m k) = .ok (id, p)) : Fine id p := by
  simp only [request, keyExport] at h
  split at h
  · cases h
  · split at h
    · cases h
    · sent
      refine fine_of (by cmdlen) (wf_pOut hw.1) ?_ wf_pNone (by decide)
      split
      · exact wf_pIn hw.2.1
      · exact ⟨hw.2.1.1, by simp⟩

/-- The format in the command of an import. -/
theorem import_fld (hj : ∀ n, (e.junk n).length = n) {k f c : Nat} {p1 p2 p3 : TaParam} (hf : f < 2 ^ 32) :
    fld (C37.cmdOf (Cl.params (e.pCmd (e.version ++ [le 8 k, le 4 f, le 4 c])) p1 p2 p3)) 16 4 = f := by
  simp [C37.cmdOf, Cl.params, CEnv.pCmd, hj, fld_app_skip, fld_app_hit]
  exact leNat_le4 f hf

theorem fine_import (hj : ∀ n, (e.junk n).length = n) {k f : Nat} {s : In} {g : ImpPrm} (hw : C63.WF (.keyImport k f s g)) (hl : ¬ Long (.keyImport k f s g))
    (h : request e (.keyImport k f s g) = .ok (id, p)) : Fine id p := by
  have hs : s.WF := hw.2.2.1
  have key : ∀ c q, TaParam.WF q → (f = 4 → isIn q = true → q.size ≤ 624) →
      Fine 7 (Cl.params (e.pCmd (e.version ++ [le 8 k, le 4 f, le 4 c])) (e.pOpt s) q pNone) := by
    intro c q hq hsz
    refine ⟨wf_params (by cmdlen) (wf_pOpt hs) hq wf_pNone, ?_, fun hx => hx⟩
    rintro ⟨h1, h2, h3⟩
    rw [import_fld hj hw.2.1] at h1
    exact absurd (hsz h1 h2) (Nat.not_le.mpr h3)
  simp only [request, keyImport] at h
  split at h
  · cases h
  · split at h
    all_goals first | (cases h; done) | skip
    · sent; exact key _ _ (wf_pIn (wf_in hw.2.2.2 (by decide))) (by simp)
    · sent; exact key _ _ (wf_pIn (wf_in hw.2.2.2 (by decide))) (by simp)
    · sent; exact key _ _ (wf_pIn (wf_in hw.2.2.2.1 (by decide))) (by simp)
    · sent; exact key _ _ wf_pNone (by simp)
    · sent; exact key _ _ (wf_pIn (wf_in (by simp) (by decide))) (by simp)
    · rename_i b
      obtain ⟨-, -, -, h2, h3⟩ := hw
      sent
      have hlen : b.length ≤ 624 := Nat.not_lt.mp fun hx => hl ⟨rfl, hx⟩
      rw [← h3, List.take_length]
      exact key _ _ (wf_pIn (wf_in rfl (by omega))) fun _ _ => hlen
    · sent; exact key _ _ wf_pNone (by simp [isIn, pNone])

theorem wf_struct {b : Bytes} (h : b.length < 2 ^ 64) : (e.pStruct b).WF := wf_bytes h

theorem fine_unwrap (hj : ∀ n, (e.junk n).length = n) {k : Nat} {r : Bytes} {t : Nat} {c : Option Nat} {a : Nat} {g : UnwPrm} {w : Nat} {s : In}
    (hw : C63.WF (.keyUnwrap k r t c a g w s)) (h : request e (.keyUnwrap k r t c a g w s) = .ok (id, p)) : Fine id p := by
  simp only [request, keyUnwrap] at h
  split at h
  · cases h
  split at h
  · cases h
  split at h
  · cases h
  rename_i p2 p3 hp
  obtain ⟨hk, hr, ht, -, ha, hww, hs, hg⟩ := hw
  sent
  have hq : p2.WF ∧ p3.WF := by
    have iv : ∀ b : In, b.WF → unwrapPrm.ivStruct e b = .ok (p2, p3) → p2.WF ∧ p3.WF := by
      rintro ⟨m, l⟩ hbw hp
      cases m with
      | none => cases hp
      | some m =>
        simp only [unwrapPrm.ivStruct] at hp
        split at hp
        · cases hp
        · have hm := (C63.wf_some hbw)
          simp only [Except.ok.injEq, Prod.mk.injEq] at hp
          obtain ⟨rfl, rfl⟩ := hp
          exact ⟨wf_struct (by omega), wf_pNone⟩
    unfold unwrapPrm at hp
    split at hp
    · exact iv _ hg hp
    · exact iv _ hg hp
    · exact iv _ hg hp
    · rename_i i aad tg
      obtain ⟨im, il⟩ := i
      obtain ⟨tm, tl⟩ := tg
      cases im with
      | none => cases hp
      | some im =>
      cases tm with
      | none => simp only at hp; split at hp <;> cases hp
      | some tm =>
      have h1 := C63.wf_some hg.1
      have h2 := C63.wf_some hg.2.2
      simp only at hp
      split at hp
      · cases hp
      split at hp
      · cases hp
      split at hp
      · cases hp
      simp only [Except.ok.injEq, Prod.mk.injEq] at hp
      obtain ⟨rfl, rfl⟩ := hp
      refine ⟨wf_struct ?_, wf_pOpt hg.2.1⟩
      simp [hj]
      omega
    · rename_i i n
      obtain ⟨im, il⟩ := i
      obtain ⟨tm, tl⟩ := n
      cases im with
      | none => cases hp
      | some im =>
      cases tm with
      | none => simp only at hp; split at hp <;> cases hp
      | some tm =>
      have h1 := C63.wf_some hg.1
      have h2 := C63.wf_some hg.2
      simp only at hp
      split at hp
      · cases hp
      split at hp
      · cases hp
      simp only [Except.ok.injEq, Prod.mk.injEq] at hp
      obtain ⟨rfl, rfl⟩ := hp
      refine ⟨wf_struct ?_, wf_pNone⟩
      simp [hj]
      omega
    · rename_i i aad tg
      obtain ⟨im, il⟩ := i
      obtain ⟨tm, tl⟩ := tg
      cases im with
      | none => cases hp
      | some im =>
      cases tm with
      | none => simp only at hp; split at hp <;> cases hp
      | some tm =>
      have h1 := C63.wf_some hg.1
      have h2 := C63.wf_some hg.2.2
      simp only at hp
      split at hp
      · cases hp
      split at hp
      · cases hp
      split at hp
      · cases hp
      simp only [Except.ok.injEq, Prod.mk.injEq] at hp
      obtain ⟨rfl, rfl⟩ := hp
      refine ⟨wf_struct ?_, wf_pOpt hg.2.1⟩
      simp [hj]
      omega
    · simp only [Except.ok.injEq, Prod.mk.injEq] at hp
      obtain ⟨rfl, rfl⟩ := hp
      exact ⟨wf_struct (by simp), wf_pNone⟩
    · simp only [Except.ok.injEq, Prod.mk.injEq] at hp
      obtain ⟨rfl, rfl⟩ := hp
      exact ⟨wf_pNone, wf_pNone⟩
    · simp only [Except.ok.injEq, Prod.mk.injEq] at hp
      obtain ⟨rfl, rfl⟩ := hp
      exact ⟨wf_pNone, wf_pNone⟩
    · simp only [Except.ok.injEq, Prod.mk.injEq] at hp
      obtain ⟨rfl, rfl⟩ := hp
      exact ⟨wf_pNone, wf_pNone⟩
    · split at hp
      · cases hp
      · simp only [Except.ok.injEq, Prod.mk.injEq] at hp
        obtain ⟨rfl, rfl⟩ := hp
        exact ⟨wf_struct (by simp), wf_pOpt hg.2.2⟩
    all_goals cases hp
  exact fine_of (by cmdlen) (wf_pOpt hs) hq.1 hq.2 (by decide)

theorem ladder_len : ∀ (l : List In) (b : Bytes), (∀ c ∈ l, c.WF) → ladder l = .ok b → b.length = 16 * l.length := by
  intro l
  induction l with
  | nil => intro b _ h; obtain rfl := Except.ok.inj h; rfl
  | cons c l ih =>
    intro b hw h
    obtain ⟨m, n⟩ := c
    cases m with
    | none => cases h
    | some m =>
      have hm := C63.wf_some (hw _ List.mem_cons_self)
      simp only [ladder] at h
      split at h
      · cases h
      rename_i hn
      cases hl : ladder l with
      | error s => rw [hl] at h; cases h
      | ok r =>
        rw [hl] at h
        obtain rfl := Except.ok.inj h
        have := ih r (fun x hx => hw x (List.mem_cons_of_mem _ hx)) hl
        simp
        omega

theorem fine_derive (hj : ∀ n, (e.junk n).length = n) {k : Nat} {r : Bytes} {a : Nat} {g : KdfPrm} (hw : C63.WF (.keyDerive k r a g))
    (h : request e (.keyDerive k r a g) = .ok (id, p)) : Fine id p := by
  simp only [request, keyDerive] at h
  split at h
  · cases h
  rename_i p1 p2 p3 hp
  obtain ⟨hk, hr, ha, hg⟩ := hw
  sent
  have hq : p1.WF ∧ p2.WF ∧ p3.WF ∧ p1.size = deriveSize a := by
    unfold derivePrm at hp
    split at hp
    · split at hp
      · cases hp
      · rename_i b hb
        simp only [Except.ok.injEq, Prod.mk.injEq] at hp
        obtain ⟨rfl, rfl, rfl⟩ := hp
        have := ladder_len _ _ (by simpa using hg) hb
        simp at this
        exact ⟨wf_struct (by omega), wf_pNone, wf_pNone, this⟩
    · split at hp
      · cases hp
      · rename_i b hb
        simp only [Except.ok.injEq, Prod.mk.injEq] at hp
        obtain ⟨rfl, rfl, rfl⟩ := hp
        have := ladder_len _ _ (by simpa using hg) hb
        simp at this
        exact ⟨wf_struct (by omega), wf_pNone, wf_pNone, this⟩
    · split at hp
      · cases hp
      split at hp
      · cases hp
      simp only [Except.ok.injEq, Prod.mk.injEq] at hp
      obtain ⟨rfl, rfl, rfl⟩ := hp
      exact ⟨wf_struct (by simp [hj]), wf_pOpt hg.2.2.2.2, wf_pOpt hg.2.2.2.1, by simp [CEnv.pStruct, hj, deriveSize]⟩
    · split at hp
      · cases hp
      simp only [Except.ok.injEq, Prod.mk.injEq] at hp
      obtain ⟨rfl, rfl, rfl⟩ := hp
      exact ⟨wf_struct (by simp [hj]), wf_pOpt hg.2.2.2, wf_pNone, by simp [CEnv.pStruct, hj, deriveSize]⟩
    · split at hp
      · cases hp
      simp only [Except.ok.injEq, Prod.mk.injEq] at hp
      obtain ⟨rfl, rfl, rfl⟩ := hp
      exact ⟨wf_struct (by simp [hj]), wf_pOpt hg.2.2.2, wf_pNone, by simp [CEnv.pStruct, hj, deriveSize]⟩
    · split at hp
      · cases hp
      simp only [Except.ok.injEq, Prod.mk.injEq] at hp
      obtain ⟨rfl, rfl, rfl⟩ := hp
      exact ⟨wf_struct (by simp [hj]), wf_pOpt hg.2.2.2, wf_pNone, by simp [CEnv.pStruct, hj, deriveSize]⟩
    · simp only [Except.ok.injEq, Prod.mk.injEq] at hp
      obtain ⟨rfl, rfl, rfl⟩ := hp
      exact ⟨wf_struct (by simp), wf_pNone, wf_pNone, by simp [CEnv.pStruct, deriveSize]⟩
    all_goals cases hp
  refine ⟨wf_params (by cmdlen) hq.1 hq.2.1 hq.2.2.1, ?_, fun hx => hx⟩
  rintro ⟨-, h2⟩
  have : fld (C37.cmdOf (Cl.params (e.pCmd (e.version ++ [le 8 k, r, le 4 a, e.junk 4])) p1 p2 p3)) 624 4 = a := by
    simp [C37.cmdOf, Cl.params, CEnv.pCmd, hj, hr, fld_app_skip, fld_app_hit]
    exact leNat_le4 a ha
  rw [this] at h2
  have e1 : Cl.params (e.pCmd (e.version ++ [le 8 k, r, le 4 a, e.junk 4])) p1 p2 p3 1 = p1 := rfl
  rw [e1, hq.2.2.2] at h2
  exact absurd h2 (Nat.lt_irrefl _)

theorem fine_exchange (hj : ∀ n, (e.junk n).length = n) {k : Nat} {r : Bytes} {a pk : Nat} {pub : In} {g : ExPrm} (hw : C63.WF (.keyExchange k r a pk pub g))
    (h : request e (.keyExchange k r a pk pub g) = .ok (id, p)) : Fine id p := by
  obtain ⟨hk, hr, ha, hpk, hpub, hg⟩ := hw
  simp only [request, keyExchange] at h
  split at h
  · cases h
  split at h
  · cases g with
    | none => cases h
    | netflix kw ke rke kh rkh =>
      have h1 : rke.length = 608 := hg.2.2.1
      have h2 : rkh.length = 608 := hg.2.2.2.2
      sent
      exact fine_of (by cmdlen) (wf_pIn hpub) (wf_bytes (by simp [h1, h2])) wf_pNone (by decide)
  · sent
    exact fine_of (by cmdlen) (wf_pIn hpub) wf_pNone wf_pNone (by decide)

theorem fine_cipherInit (hj : ∀ n, (e.junk n).length = n) {c a m k : Nat} {g : CipPrm} (hw : C63.WF (.cipherInit c a m k g))
    (h : request e (.cipherInit c a m k g) = .ok (id, p)) : Fine id p := by
  obtain ⟨-, -, -, -, hg⟩ := hw
  simp only [request, cipherInit] at h
  split at h
  · cases h
  rename_i p1 p2 hp
  sent
  have hq : p1.WF ∧ p2.WF := by
    unfold cipherPrm at hp
    split at hp
    all_goals first | (cases hp; done) | skip
    all_goals repeat' (split at hp)
    all_goals first | (cases hp; done) | skip
    all_goals
      simp only [Except.ok.injEq, Prod.mk.injEq] at hp
      obtain ⟨rfl, rfl⟩ := hp
    · exact ⟨wf_pNone, wf_pNone⟩
    · exact ⟨wf_pNone, wf_pNone⟩
    · exact ⟨wf_pNone, wf_pNone⟩
    · exact ⟨wf_pNone, wf_pNone⟩
    · exact ⟨wf_pIn hg, wf_pNone⟩
    · exact ⟨wf_pIn hg, wf_pNone⟩
    · exact ⟨wf_pIn hg, wf_pNone⟩
    · exact ⟨wf_pIn hg.1, wf_pOpt hg.2⟩
    · exact ⟨wf_pIn hg.1, wf_pOpt hg.2⟩
    · exact ⟨wf_pIn hg.2, wf_pIn hg.1⟩
    · exact ⟨wf_struct (by simp), wf_pOpt hg.2.2⟩
  exact fine_of (by cmdlen) hq.1 hq.2 wf_pNone (by decide)

/-- The parameter of a buffer: well formed, a handle for an SVP buffer, never an input for a clear output. -/
theorem fine_buf {o : Bool} {b : Buf} {q : TaParam} {off : Nat} (hb : b.WF) (h : bufPrm e o b = .ok (q, off)) :
    q.WF ∧ off < 2 ^ 64 ∧ (b.type ≠ 0 → ∃ x, q.mem = some x ∧ 8 ≤ x.length) ∧ (b.type = 0 → o = true → isIn q = false) := by
  cases b with
  | svp hd of =>
    simp only [bufPrm, Except.ok.injEq, Prod.mk.injEq] at h
    obtain ⟨rfl, rfl⟩ := h
    exact ⟨wf_pIn (wf_in (by simp) (by decide)), hb.2, fun _ => ⟨_, rfl, by simp⟩, by simp [Buf.type]⟩
  | clear m of =>
    obtain ⟨m, l⟩ := m
    cases m with
    | none => cases h
    | some m =>
      have hm := C63.wf_some hb.1
      simp only [bufPrm] at h
      split at h
      · cases h
      split at h
      · simp only [Except.ok.injEq, Prod.mk.injEq] at h
        obtain ⟨rfl, rfl⟩ := h
        refine ⟨wf_pOut (by omega), by decide, by simp [Buf.type], fun _ _ => ?_⟩
        cases hs : e.shared <;> simp [CEnv.pOut, isIn, CEnv.tyOut, hs]
      · rename_i ho
        simp only [Except.ok.injEq, Prod.mk.injEq] at h
        obtain ⟨rfl, rfl⟩ := h
        refine ⟨wf_pIn (wf_in (by simp; omega) (by omega)), by decide, by simp [Buf.type], fun _ hx => absurd hx ho⟩

theorem fine_process (hj : ∀ n, (e.junk n).length = n) {i : Nat} (hi : i = 18 ∨ i = 19) {o : Option Buf} {c : Nat} {s : Buf} {n : Nat} {t : Except Status TaParam}
    (ho : ∀ b, o = some b → b.WF) (hs : s.WF) (ht : ∀ q, t = .ok q → q.WF) (h : cipherProcess e i o c s n t = .ok (id, p)) : Fine id p := by
  unfold cipherProcess at h
  cases h1 : outPrm e o with
  | error x => rw [h1] at h; cases h
  | ok q1 =>
  obtain ⟨p1, o1⟩ := q1
  rw [h1] at h
  simp only at h
  cases h2 : bufPrm e false s with
  | error x => rw [h2] at h; cases h
  | ok q2 =>
  obtain ⟨p2, o2⟩ := q2
  rw [h2] at h
  simp only at h
  cases t with
  | error x => cases h
  | ok p3 =>
  sent
  have f2 := fine_buf hs h2
  have f1 : p1.WF ∧ ((o.map Buf.type).getD 0 ≠ 0 → ∃ x, p1.mem = some x ∧ 8 ≤ x.length) ∧ ((o.map Buf.type).getD 0 = 0 → isIn p1 = false) := by
    cases o with
    | none =>
      simp only [outPrm, Except.ok.injEq, Prod.mk.injEq] at h1
      obtain ⟨rfl, rfl⟩ := h1
      exact ⟨wf_pNone, by simp, by simp [isIn, pNone]⟩
    | some b =>
      have := fine_buf (ho b rfl) h1
      exact ⟨this.1, this.2.2.1, fun hx => this.2.2.2 hx rfl⟩
  have ty : ∀ b : Buf, b.type < 2 ^ 32 := fun b => by cases b <;> simp [Buf.type]
  have hty : (o.map Buf.type).getD 0 < 2 ^ 32 := by
    cases o with
    | none => decide
    | some b => exact ty b
  have e1 : ∀ cm, fld (C37.cmdOf (Cl.params (e.pCmd (e.version ++ [le 8 c, le 8 n, le 4 ((o.map Buf.type).getD 0), e.junk 4, le 8 o1, le 4 s.type, e.junk 4, le 8 o2]))
      p1 p2 cm)) 24 4 = (o.map Buf.type).getD 0 := by
    intro cm
    simp [C37.cmdOf, Cl.params, CEnv.pCmd, hj, fld_app_skip, fld_app_hit, leNat_le4 _ hty]
  have e2 : ∀ cm, fld (C37.cmdOf (Cl.params (e.pCmd (e.version ++ [le 8 c, le 8 n, le 4 ((o.map Buf.type).getD 0), e.junk 4, le 8 o1, le 4 s.type, e.junk 4, le 8 o2]))
      p1 p2 cm)) 40 4 = s.type := by
    intro cm
    simp [C37.cmdOf, Cl.params, CEnv.pCmd, hj, fld_app_skip, fld_app_hit, leNat_le4 _ (ty s)]
  refine ⟨wf_params (by cmdlen) f1.1 f2.1 (ht _ rfl), ?_, ?_⟩
  · rcases hi with rfl | rfl
    all_goals
      simp only [C37.Hole]
      rw [e1, e2]
      rintro (⟨hx, hy⟩ | ⟨hx, hy⟩)
      · exact hy (f1.2.1 hx)
      · exact hy (f2.2.2.1 hx)
  · rcases hi with rfl | rfl
    all_goals
      simp only [C58.Hole]
      rw [e1]
      rintro ⟨hx, hy⟩
      have := f1.2.2 hx
      rw [show Cl.params _ p1 p2 p3 1 = p1 from rfl, this] at hy
      cases hy

theorem fine_tag {t : Option In} (ht : ∀ b, t = some b → b.WF) (q : TaParam) (h : tagPrm e t = .ok q) : q.WF := by
  cases t with
  | none => obtain rfl := Except.ok.inj h; exact wf_pNone
  | some b =>
    simp only [tagPrm] at h
    split at h
    · cases h
    · obtain rfl := Except.ok.inj h
      exact ht b rfl

theorem fine_sign (hj : ∀ n, (e.junk n).length = n) {o : Bool} {n a k : Nat} {s : In} {g : SigPrm} (hw : C63.WF (.sign o n a k s g))
    (h : request e (.sign o n a k s g) = .ok (id, p)) : Fine id p := by
  obtain ⟨hn, -, -, hs, -⟩ := hw
  simp only [request, sign] at h
  split at h
  · cases h
  split at h
  all_goals first | (cases h; done) | skip
  all_goals
    sent
    exact fine_of (by cmdlen) (wf_pOut hn) (wf_pOpt hs) wf_pNone (by decide)

theorem offsets_len (l : List Offset) : ((l.map offsetBytes).flatten).length = l.length * 24 := by
  induction l with
  | nil => rfl
  | cons o l ih => simp only [List.map_cons, List.flatten_cons, List.length_append, ih]; simp [offsetBytes]; omega

theorem copies_len (x : Offset) (l : List Offset) : ((l.map fun _ => offsetBytes x).flatten).length = l.length * 24 := by
  induction l with
  | nil => rfl
  | cons o l ih => simp only [List.map_cons, List.flatten_cons, List.length_append, ih]; simp [offsetBytes]; omega

theorem subs_len (l : List (Nat × Nat)) : ((l.map subBytes).flatten).length = l.length * 16 := by
  induction l with
  | nil => rfl
  | cons o l ih => simp only [List.map_cons, List.flatten_cons, List.length_append, ih]; simp [subBytes]; omega

theorem fine_keyCheck (hj : ∀ n, (e.junk n).length = n) {k : Nat} {s : Buf} {n : Nat} {x : In} (hw : C63.WF (.svpKeyCheck k s n x))
    (h : request e (.svpKeyCheck k s n x) = .ok (id, p)) : Fine id p := by
  obtain ⟨-, hs, -, hx⟩ := hw
  simp only [request, svpKeyCheck] at h
  split at h
  · cases h
  have hf : ∀ t off q, t < 2 ^ 32 → fld (C37.cmdOf (Cl.params (e.pCmd (e.version ++ [le 8 k, le 4 t, e.junk 4, le 8 off, le 8 n])) q (e.pIn x) pNone)) 16 4 = t := by
    intro t off q ht
    simp [C37.cmdOf, Cl.params, CEnv.pCmd, hj, fld_app_skip, fld_app_hit, leNat_le4 _ ht]
  cases s with
  | clear m o =>
    simp only at h
    split at h
    · cases h
    sent
    refine ⟨wf_params (by cmdlen) (wf_pIn hs.1) (wf_pIn hx) wf_pNone, ?_, fun hx => hx⟩
    simp only [C37.Hole]
    rw [hf _ _ _ (by decide)]
    simp
  | svp hd o =>
    sent
    refine ⟨wf_params (by cmdlen) (wf_pIn (wf_in (by simp) (by decide))) (wf_pIn hx) wf_pNone, ?_, fun hx => hx⟩
    simp only [C37.Hole]
    rintro ⟨-, hy⟩
    exact hy ⟨_, rfl, by simp⟩

theorem fine_cenc (hj : ∀ n, (e.junk n).length = n) {s : Smp} (hw : C63.WF (.cenc s)) (h : request e (.cenc s) = .ok (id, p)) : Fine id p := by
  obtain ⟨hiv, -, -, hsub, -, -, ho, hs⟩ := hw
  simp only [request, cenc] at h
  split at h
  · cases h
  rename_i iv hivm
  split at h
  · cases h
  rename_i h16
  have hl : iv.length = 16 := by have := hiv.2 iv hivm; omega
  cases h1 : bufPrm e true s.out with
  | error x => rw [h1] at h; cases h
  | ok q1 =>
  obtain ⟨p2, o2⟩ := q1
  rw [h1] at h
  simp only at h
  cases h2 : bufPrm e false s.src with
  | error x => rw [h2] at h; cases h
  | ok q2 =>
  obtain ⟨p3, o3⟩ := q2
  rw [h2] at h
  sent
  have f1 := fine_buf ho h1
  have f2 := fine_buf hs h2
  have ty : ∀ b : Buf, b.type < 2 ^ 32 := fun b => by cases b <;> simp [Buf.type]
  have e0 : ∀ q, fld (C37.cmdOf (Cl.params (e.pCmd [le 1 1, iv, e.junk 7, le 8 s.crypt, le 8 s.skip, le 8 s.subs.length, le 8 s.context, le 4 s.out.type, e.junk 4,
      le 8 o2, le 4 s.src.type, e.junk 4, le 8 o3]) q p2 p3)) 40 8 = s.subs.length := by
    intro q
    simp [C37.cmdOf, Cl.params, CEnv.pCmd, hj, hl, fld_app_skip, fld_app_hit, leNat_le8 s.subs.length (by omega)]
  have e1 : ∀ q, fld (C37.cmdOf (Cl.params (e.pCmd [le 1 1, iv, e.junk 7, le 8 s.crypt, le 8 s.skip, le 8 s.subs.length, le 8 s.context, le 4 s.out.type, e.junk 4,
      le 8 o2, le 4 s.src.type, e.junk 4, le 8 o3]) q p2 p3)) 56 4 = s.out.type := by
    intro q
    simp [C37.cmdOf, Cl.params, CEnv.pCmd, hj, hl, fld_app_skip, fld_app_hit, leNat_le4 _ (ty _)]
  have e2 : ∀ q, fld (C37.cmdOf (Cl.params (e.pCmd [le 1 1, iv, e.junk 7, le 8 s.crypt, le 8 s.skip, le 8 s.subs.length, le 8 s.context, le 4 s.out.type, e.junk 4,
      le 8 o2, le 4 s.src.type, e.junk 4, le 8 o3]) q p2 p3)) 72 4 = s.src.type := by
    intro q
    simp [C37.cmdOf, Cl.params, CEnv.pCmd, hj, hl, fld_app_skip, fld_app_hit, leNat_le4 _ (ty _)]
  refine ⟨wf_params (by cmdlen) (wf_pIn (wf_in (subs_len _) hsub)) f1.1 f2.1, ?_, ?_⟩
  · simp only [C37.Hole]
    rw [e0, e1, e2]
    rintro (hx | ⟨hx, hy⟩ | ⟨hx, hy⟩)
    · omega
    · exact hy (f1.2.2.1 hx)
    · exact hy (f2.2.2.1 hx)
  · simp only [C58.Hole]
    rw [e1]
    rintro ⟨hx, hy⟩
    have := f1.2.2.2 hx rfl
    rw [show Cl.params _ _ p2 p3 2 = p2 from rfl, this] at hy
    cases hy

/-- All requests of the library are fine, except for one kind. -/
theorem fine (he : e.WF) (c : Call) (hw : C63.WF c) (hl : ¬ Long c) (h : request e c = .ok (id, p)) : Fine id p := by
  have hj : ∀ n, (e.junk n).length = n := he
  cases c with
  | getVersion v => have hv : v.length = 32 := hw; sent; exact fine_of (by cmdlen) wf_pNone wf_pNone wf_pNone (by decide)
  | getName o n => sent; exact fine_of (by cmdlen) (wf_pOut hw) wf_pNone wf_pNone (by decide)
  | getDeviceId i => sent; exact fine_of (by cmdlen) wf_pNone wf_pNone wf_pNone (by decide)
  | getTaUuid u => have hv : u.length = 16 := hw; sent; exact fine_of (by cmdlen) wf_pNone wf_pNone wf_pNone (by decide)
  | keyGenerate k r t g => exact fine_generate hj hw h
  | keyExport o n m k => exact fine_export hj hw h
  | keyImport k f s g => exact fine_import hj hw hl h
  | keyUnwrap k r t c a g w s => exact fine_unwrap hj hw h
  | keyGetPublic o n k => sent; exact fine_of (by cmdlen) (wf_pOut hw.1) wf_pNone wf_pNone (by decide)
  | keyDerive k r a g => exact fine_derive hj hw h
  | keyExchange k r a pk pub g => exact fine_exchange hj hw h
  | keyRelease k => sent; exact fine_of (by cmdlen) wf_pNone wf_pNone wf_pNone (by decide)
  | keyHeader k =>
    sent
    exact ⟨wf_params (by cmdlen) (wf_pOut (by decide)) wf_pNone wf_pNone, (fun hx => nomatch hx), fun hx => hx⟩
  | keyDigest o n k d => sent; exact fine_of (by cmdlen) (wf_pOut hw.1) wf_pNone wf_pNone (by decide)
  | random o n =>
    simp only [request] at h
    split at h
    · sent; exact fine_of (by cmdlen) (wf_pOut hw) wf_pNone wf_pNone (by decide)
    · cases h
  | cipherInit c a m k g => exact fine_cipherInit hj hw h
  | cipherUpdateIv c iv =>
    simp only [request] at h
    split at h
    · cases h
    · sent; exact fine_of (by cmdlen) (wf_pIn hw.2) wf_pNone wf_pNone (by decide)
  | cipherProcess o c s n => exact fine_process hj (.inl rfl) hw.1 hw.2.2.1 (fun q hq => Except.ok.inj hq ▸ wf_pNone) h
  | cipherProcessLast o c s n t => exact fine_process hj (.inr rfl) hw.1 hw.2.2.1 (fine_tag hw.2.2.2.2) h
  | cipherRelease c => sent; exact fine_of (by cmdlen) wf_pNone wf_pNone wf_pNone (by decide)
  | macInit c a k d =>
    simp only [request] at h
    split at h
    · cases h
    · sent; exact fine_of (by cmdlen) wf_pNone wf_pNone wf_pNone (by decide)
  | macProcess c s =>
    simp only [request] at h
    split at h
    · cases h
    · sent; exact fine_of (by cmdlen) (wf_pOpt hw.2) wf_pNone wf_pNone (by decide)
  | macProcessKey c k => sent; exact fine_of (by cmdlen) wf_pNone wf_pNone wf_pNone (by decide)
  | macCompute o n c => sent; exact fine_of (by cmdlen) (wf_pOut hw.1) wf_pNone wf_pNone (by decide)
  | macRelease c => sent; exact fine_of (by cmdlen) wf_pNone wf_pNone wf_pNone (by decide)
  | sign o n a k s g => exact fine_sign hj hw h
  | svpSupported => sent; exact fine_of (by cmdlen) wf_pNone wf_pNone wf_pNone (by decide)
  | svpCreate b m n => sent; exact fine_of (by cmdlen) wf_pNone wf_pNone wf_pNone (by decide)
  | svpRelease b => sent; exact fine_of (by cmdlen) wf_pNone wf_pNone wf_pNone (by decide)
  | svpWrite o s offs =>
    simp only [request, svpWrite] at h
    split at h
    · cases h
    · sent; exact fine_of (by cmdlen) (wf_pIn hw.2.1) (wf_pIn (wf_in (copies_len _ _) hw.2.2.1)) wf_pNone (by decide)
  | svpCopy o s offs =>
    simp only [request, svpCopy] at h
    sent
    exact fine_of (by cmdlen) (wf_pIn (wf_in (offsets_len _) hw.2.2.1)) wf_pNone wf_pNone (by decide)
  | svpKeyCheck k s n x => exact fine_keyCheck hj hw h
  | svpCheck b o n d x =>
    simp only [request] at h
    split at h
    · cases h
    · sent; exact fine_of (by cmdlen) (wf_pIn hw.2.2.2.2) wf_pNone wf_pNone (by decide)
  | cenc s => exact fine_cenc hj hw h

/-! ## The property -/

/-- **C64 (partial)**: for every call of a library function, every access of the command handler is in bounds and no memory given as input is written.

Missing: the import of SoC containers with a longer structure, see `C64_violated`. -/
theorem C64_partial (e : CEnv) (he : e.WF) (c : Call) (hw : C63.WF c) (hl : ¬ Long c) (id : Nat) (p : Params) (h : request e c = .ok (id, p))
    (alloc0 alloc1 : Bool) : ∀ ev ∈ handler id alloc0 alloc1 p, ev.Safe p ∧ C58.writesInput p ev = false := by
  obtain ⟨h1, h2, h3⟩ := fine he c hw hl h
  exact fun ev hev => ⟨C37.C37_partial id alloc0 alloc1 p h1 h2 ev hev, C58.C58_partial id alloc0 alloc1 p h3 ev hev⟩

theorem fname_meant (c : Call) : fname (C63.meant c) = fname c := by cases c <;> rfl

/-- The same model of the command handler calls the function that the application called. -/
theorem C64_called_partial (e : CEnv) (he : e.WF) (c : Call) (hw : C63.WF c) (hn : ¬ C63.Empty c) (hl : ¬ C63.Lost c) (id : Nat) (p : Params)
    (h : request e c = .ok (id, p)) : outcome (handler id true true p) = some (.ok (fname c)) := by
  have h37 : id ≠ 37 := by
    rintro rfl
    have := C63.C63_arrives_partial e he c hw hn hl _ p h
    unfold received at this
    split at this <;> cases this
  rw [agree h37, C63.C63_arrives_partial e he c hw hn hl id p h, outcomeOf_ok, fname_meant]

/-- **C64 is violated** by the import of an SoC container: the library passes on a parameter structure of any length that the structure itself states, and the
command handler copies it into a local variable of 624 bytes.  Whatever the application passes besides. -/
theorem C64_violated (e : CEnv) (he : e.WF) (k : Nat) (s b : Bytes) (hs : s ≠ []) (hw : C63.WF (.keyImport k 4 ⟨some s, s.length⟩ (.soc b)))
    (hb : 624 < b.length) : ∃ p, request e (.keyImport k 4 ⟨some s, s.length⟩ (.soc b)) = .ok (7, p) ∧
      .copyIn 2 b.length 624 ∈ handler 7 true true p ∧ ¬ (Ev.copyIn 2 b.length 624).Safe p := by
  have hj : ∀ n, (e.junk n).length = n := he
  obtain ⟨-, -, -, -, h3⟩ := hw
  refine ⟨Cl.params (e.pCmd (e.version ++ [le 8 k, le 4 4, le 4 0])) (e.pOpt ⟨some s, s.length⟩) (e.pIn ⟨some b, b.length⟩) pNone, ?_, ?_, fun h => absurd h.1 (by omega)⟩
  · simp only [request, keyImport, ← h3, List.take_length]
    rfl
  · have hf := import_fld (k := k) (c := 0) (p1 := e.pOpt ⟨some s, s.length⟩) (p2 := e.pIn ⟨some b, b.length⟩) (p3 := pNone) hj (f := 4) (by decide)
    have hs0 : s.length ≠ 0 := fun hx => hs (List.length_eq_zero_iff.mp hx)
    have hb0 : b.length ≠ 0 := by omega
    have hv : fld (C37.cmdOf (Cl.params (e.pCmd (e.version ++ [le 8 k, le 4 4, le 4 0])) (e.pOpt ⟨some s, s.length⟩) (e.pIn ⟨some b, b.length⟩) pNone)) 0 1 = 1 := by
      simp [C37.cmdOf, Cl.params, CEnv.pCmd, fld_app_hit, leNat_le1 1 (by decide)]
    obtain ⟨P, hP⟩ : ∃ P, P = Cl.params (e.pCmd (e.version ++ [le 8 k, le 4 4, le 4 0])) (e.pOpt ⟨some s, s.length⟩) (e.pIn ⟨some b, b.length⟩) pNone := ⟨_, rfl⟩
    rw [← hP] at hf hv ⊢
    have h0 : isNull (P 0) = false ∧ notInOut (P 0) = false ∧ (P 0).size = 24 := by
      rw [hP]
      cases hh : e.shared <;> simp [isNull, notInOut, Cl.params, CEnv.pCmd, CEnv.tyInOut, hh, hj]
    have h1 : notIn (P 1) = false ∧ (P 1).mem = some s ∧ (P 1).size = s.length := by
      rw [hP]
      cases hh : e.shared <;> simp [notIn, Cl.params, CEnv.pOpt, CEnv.pIn, CEnv.tyIn, hh]
    have h2 : notIn (P 2) = false ∧ isIn (P 2) = true ∧ (P 2).mem = some b ∧ (P 2).size = b.length := by
      rw [hP]
      cases hh : e.shared <;> simp [notIn, isIn, Cl.params, CEnv.pIn, CEnv.tyIn, hh]
    have h3 : notNull (P 3) = false := by rw [hP]; rfl
    unfold handler
    rw [if_neg (by rw [h0.1]; decide), if_neg (by decide)]
    refine List.mem_append_left _ (List.mem_cons_of_mem _ ?_)
    show _ ∈ invokeKeyImport (C37.cmdOf P) P
    unfold invokeKeyImport version
    simp only [h0, h1, h2, h3, hf, hv]
    simp [hs0, hb0]

/-- Such a call: a structure of 1000 bytes. -/
example : C63.WF (.keyImport 0 4 ⟨some [1], 1⟩ (.soc (3 :: 232 :: List.replicate 998 0))) ∧ Long (.keyImport 0 4 ⟨some [1], 1⟩ (.soc (3 :: 232 :: List.replicate 998 0))) := by
  refine ⟨⟨by simp [C63.small], by simp [C63.enum], ⟨by decide, by simp⟩, ?_⟩, ?_⟩
  · simp only
    rw [List.length_cons, List.length_cons, List.length_replicate]
    decide
  · simp only [Long]
    rw [List.length_cons, List.length_cons, List.length_replicate]
    decide

/-- A call that is not long is sent, so `C64_partial` speaks about it: the structure of this version of the API. -/
example : ∃ p, request C63.lib (.keyImport 0 4 ⟨some [1], 1⟩ (.soc (2 :: 112 :: List.replicate 622 0))) = .ok (7, p) ∧
    ¬ Long (.keyImport 0 4 ⟨some [1], 1⟩ (.soc (2 :: 112 :: List.replicate 622 0))) := by
  refine ⟨_, rfl, ?_⟩
  simp only [Long]
  rw [List.length_cons, List.length_cons, List.length_replicate]
  decide

end Sa.C64

import Verif.Lemmas.ClientLib

/-!
# C63: the TA is called with the arguments of the application
-/

namespace Sa.C63
open Sa.Ta Sa.Cl

/-! ## Calls that make sense -/

def small (n : Nat) : Prop := n < 2 ^ 64
def enum (n : Nat) : Prop := n < 2 ^ 32

/-- The sizes of the C types, and memory of the given length. -/
def WF : Call → Prop
  | .getVersion v => v.length = 32
  | .getName _ n => small n
  | .getDeviceId i => small i
  | .getTaUuid u => u.length = 16
  | .keyGenerate k r t p => small k ∧ r.length = 608 ∧ enum t ∧ match p with
    | .length n => small n
    | .curve n => enum n
    | .dh p g => p.WF ∧ g.WF
    | .none => True
  | .keyExport _ n m k => small n ∧ m.WF ∧ small k
  | .keyImport k f s p => small k ∧ enum f ∧ s.WF ∧ match p with
    | .rights r => r.length = 608
    | .ec r c => r.length = 608 ∧ enum c
    | .typej a b => small a ∧ small b
    | .soc b => 2 ≤ b.length ∧ b.length = (b.getD 0 0).toNat * 256 + (b.getD 1 0).toNat
    | .none => True
  | .keyUnwrap k r t c a p w s => small k ∧ r.length = 608 ∧ enum t ∧ (∀ x, c = some x → enum x) ∧ enum a ∧ small w ∧ s.WF ∧ match p with
    | .iv b => b.WF
    | .aead i aad t => i.WF ∧ aad.WF ∧ t.WF
    | .chacha c n => c.WF ∧ n.WF
    | .elgamal o n => small o ∧ small n
    | .oaep d m l => enum d ∧ enum m ∧ l.WF
    | .none => True
  | .keyGetPublic _ n k => small n ∧ small k
  | .keyDerive k r a p => small k ∧ r.length = 608 ∧ enum a ∧ match p with
    | .ladder a b c d => a.WF ∧ b.WF ∧ c.WF ∧ d.WF
    | .hkdf n d k s i => small n ∧ enum d ∧ small k ∧ s.WF ∧ i.WF
    | .info n d k i => small n ∧ enum d ∧ small k ∧ i.WF
    | .cmac n k c o => small n ∧ small k ∧ c < 256 ∧ o.WF
    | .netflix a b => small a ∧ small b
    | .none => True
  | .keyExchange k r a pk pub p => small k ∧ r.length = 608 ∧ enum a ∧ small pk ∧ pub.WF ∧ match p with
    | .netflix kw ke rke kh rkh => small kw ∧ small ke ∧ rke.length = 608 ∧ small kh ∧ rkh.length = 608
    | .none => True
  | .keyRelease k => small k
  | .keyHeader k => small k
  | .keyDigest _ n k d => small n ∧ small k ∧ enum d
  | .random _ n => small n
  | .cipherInit c a m k p => small c ∧ enum a ∧ enum m ∧ small k ∧ match p with
    | .iv b => b.WF
    | .aead i aad => i.WF ∧ aad.WF
    | .chacha c n => c.WF ∧ n.WF
    | .oaep d m l => enum d ∧ enum m ∧ l.WF
    | .none => True
  | .cipherUpdateIv c iv => small c ∧ iv.WF
  | .cipherProcess o c s n => (∀ b, o = some b → b.WF) ∧ small c ∧ s.WF ∧ small n
  | .cipherProcessLast o c s n t => (∀ b, o = some b → b.WF) ∧ small c ∧ s.WF ∧ small n ∧ ∀ b, t = some b → b.WF
  | .cipherRelease c => small c
  | .macInit c a k d => small c ∧ enum a ∧ small k ∧ ∀ x, d = some x → enum x
  | .macProcess c s => small c ∧ s.WF
  | .macProcessKey c k => small c ∧ small k
  | .macCompute _ n c => small n ∧ small c
  | .macRelease c => small c
  | .sign _ n a k s p => small n ∧ enum a ∧ small k ∧ s.WF ∧ match p with
    | .pss d m _ salt => enum d ∧ enum m ∧ small salt
    | .digest d _ => enum d
    | .none => True
  | .svpSupported => True
  | .svpCreate b m n => small b ∧ small m ∧ small n
  | .svpRelease b => small b
  | .svpWrite o s offs => small o ∧ s.WF ∧ offs.length * 24 < 2 ^ 64 ∧ ∀ x ∈ offs, x.WF
  | .svpCopy o s offs => small o ∧ small s ∧ offs.length * 24 < 2 ^ 64 ∧ ∀ x ∈ offs, x.WF
  | .svpKeyCheck k s n x => small k ∧ s.WF ∧ small n ∧ x.WF
  | .svpCheck b o n d h => small b ∧ small o ∧ small n ∧ enum d ∧ h.WF
  | .cenc s => s.iv.WF ∧ small s.crypt ∧ small s.skip ∧ s.subs.length * 16 < 2 ^ 64 ∧ (∀ x ∈ s.subs, x.1 < 2 ^ 64 ∧ x.2 < 2 ^ 64) ∧ small s.context ∧
      s.out.WF ∧ s.src.WF

/-! ## What the application means

Parameters that the algorithm does not have are ignored (sa.h); of clear memory the part behind the offset is meant. -/

def restBuf (out : Bool) : Buf → Buf
  | .clear m o => .clear ⟨if out then some (List.replicate (m.len - o) 0) else m.mem.map (·.drop o), m.len - o⟩ 0
  | .svp h o => .svp h o

def meant : Call → Call
  | .keyImport k f s p => .keyImport k f s (if f = 3 then .none else p)
  | .keyUnwrap k r t c a p w s => .keyUnwrap k r t (if t = 1 then c else none) a (if a = 0 ∨ a = 1 ∨ a = 6 then .none else p) w s
  | .keyExchange k r a pk pub p => .keyExchange k r a pk pub (if a = 2 then p else .none)
  | .cipherInit c a m k p => .cipherInit c a m k (if a = 0 ∨ a = 1 ∨ a = 6 ∨ a = 8 then .none else p)
  | .cipherProcess o c s n => .cipherProcess (o.map (restBuf true)) c (restBuf false s) n
  | .cipherProcessLast o c s n t => .cipherProcessLast (o.map (restBuf true)) c (restBuf false s) n t
  | .macInit c a k d => .macInit c a k (if a = 1 then d else none)
  | .sign o n a k s p => .sign o n a k s (if a = 0 ∨ a = 1 ∨ a = 2 then p else .none)
  | .cenc s => .cenc { s with out := restBuf true s.out, src := restBuf false s.src }
  | c => c

/-! ## Calls that do not arrive -/

/-- Inputs of length zero that the TA does not take. -/
def Buf.empty : Buf → Prop
  | .clear m o => m.len = o
  | .svp _ _ => False

def Empty : Call → Prop
  | .keyImport _ _ s _ => s.len = 0
  | .keyExchange _ _ _ _ pub _ => pub.len = 0
  | .random _ n => n = 0
  | .cipherUpdateIv _ iv => iv.len = 0
  | .svpWrite _ s offs => s.len = 0 ∨ offs = []
  | .svpCopy _ _ offs => offs = []
  | .svpKeyCheck _ s _ x => x.len = 0 ∨ match s with | .clear m _ => m.len = 0 | .svp _ _ => False
  | .svpCheck _ _ _ _ h => h.len = 0
  | .cenc s => s.subs = [] ∨ Buf.empty s.out ∨ Buf.empty s.src
  | _ => False

/-- The defects: unwrapping with AES-GCM or ChaCha20-Poly1305 without additional data; writing to an SVP buffer with different offsets. -/
def Lost : Call → Prop
  | .keyUnwrap _ _ _ _ a p _ _ => (a = 5 ∨ a = 10) ∧ match p with | .aead _ aad _ => aad.mem = none | _ => False
  | .svpWrite _ _ offs => ∃ x ∈ offs, some x ≠ offs.head?
  | _ => False

/-! ## Proof -/

attribute [local simp] CEnv.version CEnv.pCmd CEnv.pCmdIn CEnv.pIn CEnv.pOpt CEnv.pOut CEnv.pStruct pNone CEnv.tyIn CEnv.tyOut CEnv.tyInOut params
  isNull notNull notIn isIn notOut notInOut isInOut inOf versioned only withOut withIn fld_app_hit fld_app_skip fld_all slice_app_hit slice_app_skip slice_all
  le_length leNat_le8 leNat_le4 leNat_le1 meant

set_option linter.unusedSimpArgs false

set_option hygiene false in
/-- A call is known, its request is an equation, and everything computes. -/
macro "wire" "[" ls:Lean.Parser.Tactic.simpLemma,* "]" : tactic => `(tactic| (
    simp only [request, Except.ok.injEq, Prod.mk.injEq] at h
    obtain ⟨rfl, rfl⟩ := h
    simp [WF, small, enum] at hw
    cases hb : e.shared <;> simp [received, hb, hj, hw, $ls,*]))

variable {e : CEnv} {id : Nat} {p : Params}

theorem wf_some {m : Bytes} {n : Nat} (h : In.WF ⟨some m, n⟩) : n < 2 ^ 64 ∧ m.length = n := ⟨h.1, h.2 m rfl⟩

theorem arr_generate (hj : ∀ n, (e.junk n).length = n) {k : Nat} {r : Bytes} {t : Nat} {g : GenPrm} (hw : WF (.keyGenerate k r t g))
    (h : request e (.keyGenerate k r t g) = .ok (id, p)) : received id p = .ok (meant (.keyGenerate k r t g)) := by
  simp only [request, keyGenerate] at h
  split at h
  · cases h
  · split at h
    · wire [taKeyGenerate]
    · wire [taKeyGenerate]
    · rename_i n _
      have hn : leNat (le 8 n) = n := leNat_le8 n (Nat.lt_trans hw.2.2.2 (by decide))
      wire [taKeyGenerate, hn]
      all_goals omega
    · rename_i a b _
      obtain ⟨am, al⟩ := a
      obtain ⟨bm, bl⟩ := b
      cases am <;> cases bm <;> try (simp [nullP] at h; done)
      simp only [Option.isNone, Bool.or_false, Bool.false_eq_true, if_false] at h
      wire [taKeyGenerate]
    · cases h

theorem arr_export (hj : ∀ n, (e.junk n).length = n) {o : Bool} {n : Nat} {m : In} {k : Nat} (hw : WF (.keyExport o n m k))
    (h : request e (.keyExport o n m k) = .ok (id, p)) : received id p = .ok (meant (.keyExport o n m k)) := by
  obtain ⟨mm, ml⟩ := m
  simp only [request, keyExport] at h
  split at h
  · cases h
  · split at h
    · cases h
    · rename_i h1 h2
      cases mm with
      | none =>
        simp at h2
        subst h2
        cases o <;> wire [taKeyExport]
      | some b => cases o <;> wire [taKeyExport]

theorem arr_import (hj : ∀ n, (e.junk n).length = n) {k f : Nat} {s : In} {g : ImpPrm} (hw : WF (.keyImport k f s g)) (hn : ¬ Empty (.keyImport k f s g))
    (h : request e (.keyImport k f s g) = .ok (id, p)) : received id p = .ok (meant (.keyImport k f s g)) := by
  obtain ⟨sm, sl⟩ := s
  simp only [Empty] at hn
  simp only [request, keyImport] at h
  split at h
  · cases h
  · rename_i hs
    cases sm with
    | none => simp at hs; omega
    | some b =>
      split at h
      · wire [taKeyImport, taRights, hn]
      · wire [taKeyImport, taRights, hn]
      · wire [taKeyImport, taRights, hn]
      · wire [taKeyImport, taRights, hn]
      · wire [taKeyImport, taRights, hn]
      · rename_i c
        obtain ⟨hk, -, -, hc1, hc2⟩ := hw
        rw [← hc2, List.take_length] at h
        have h0 : c.length ≠ 0 := by omega
        have hk : leNat (le 8 k) = k := leNat_le8 k hk
        simp only [Except.ok.injEq, Prod.mk.injEq] at h
        obtain ⟨rfl, rfl⟩ := h
        cases hb : e.shared <;> simp [received, hb, hj, taKeyImport, hn, h0, hk]
      · wire [taKeyImport, taRights, hn]
      all_goals cases h

/-- The last step: everything is known. -/
macro "fin" "[" ls:Lean.Parser.Tactic.simpLemma,* "]" : tactic => `(tactic| (simp [received, $ls,*]))

/-- An optional input arrives. -/
theorem opt_in {s : In} (hs : ¬ (s.mem.isNone = true ∧ 0 < s.len)) : inOf (e.pOpt s) = s ∧ (notIn (e.pOpt s) && notNull (e.pOpt s)) = false := by
  obtain ⟨m, l⟩ := s
  cases m with
  | none =>
    have : l = 0 := by simp at hs; omega
    subst this
    simp
  | some m => cases hb : e.shared <;> simp [hb]

/-- What `taKeyUnwrap` does with a command built by the library. -/
theorem recv_unwrap (hj : ∀ n, (e.junk n).length = n) {k : Nat} {r : Bytes} {t cc a w : Nat} {q p2 p3 : TaParam} (hk : k < 2 ^ 64) (hr : r.length = 608)
    (ht : t < 2 ^ 32) (ha : a < 2 ^ 32) (hw : w < 2 ^ 64) (hq : (notIn q && notNull q) = false) (h2 : (notIn p2 && notNull p2) = false)
    (h3 : (notIn p3 && notNull p3) = false) {P : Params} (hP : P = params (e.pCmd (e.version ++ [le 8 k, r, le 4 t, le 4 cc, le 4 a, e.junk 4, le 8 w])) q p2 p3) :
    received 8 P = taUnwrapPrm a P fun prm => .ok (.keyUnwrap k r t (if t = 1 then some (leNat (le 4 cc)) else none) a prm w (inOf q)) := by
  have e1 : P 1 = q := by rw [hP]; rfl
  have e2 : P 2 = p2 := by rw [hP]; rfl
  have e3 : P 3 = p3 := by rw [hP]; rfl
  have hn : isNull (P 0) = false ∧ notInOut (P 0) = false ∧ (P 0).size = 648 := by
    rw [hP]
    cases hb : e.shared <;> simp [hb, hj, hr]
  have f : ∀ off n, fld ((P 0).mem.getD []) off n = fld (le 1 1 ++ (e.junk 7 ++ (le 8 k ++ (r ++ (le 4 t ++ (le 4 cc ++ (le 4 a ++ (e.junk 4 ++ le 8 w)))))))) off n := by
    intro off n
    rw [hP]
    simp
  have f0 : fld ((P 0).mem.getD []) 0 1 = 1 := by rw [f]; simp
  have f1 : fld ((P 0).mem.getD []) 8 8 = k := by rw [f]; simp [hj]; exact leNat_le8 k hk
  have f2 : slice ((P 0).mem.getD []) 16 608 = r := by rw [hP]; simp [hj, hr]
  have f3 : fld ((P 0).mem.getD []) 624 4 = t := by rw [f]; simp [hj, hr]; exact leNat_le4 t ht
  have f4 : fld ((P 0).mem.getD []) 628 4 = leNat (le 4 cc) := by rw [f]; simp [hj, hr]
  have f5 : fld ((P 0).mem.getD []) 632 4 = a := by rw [f]; simp [hj, hr]; exact leNat_le4 a ha
  have f6 : fld ((P 0).mem.getD []) 640 8 = w := by rw [f]; simp [hj, hr]; exact leNat_le8 w hw
  unfold received
  rw [if_neg (by rw [hn.1]; simp)]
  simp only [taKeyUnwrap, versioned, hn.2, e1, e2, e3, hq, h2, h3, f0, f1, f2, f3, f4, f5, f6]
  simp

set_option maxHeartbeats 800000 in
theorem arr_unwrap (hj : ∀ n, (e.junk n).length = n) {k : Nat} {r : Bytes} {t : Nat} {c : Option Nat} {a : Nat} {g : UnwPrm} {w : Nat} {s : In}
    (hw : WF (.keyUnwrap k r t c a g w s)) (hl : ¬ Lost (.keyUnwrap k r t c a g w s))
    (h : request e (.keyUnwrap k r t c a g w s) = .ok (id, p)) : received id p = .ok (meant (.keyUnwrap k r t c a g w s)) := by
  simp only [request, keyUnwrap] at h
  split at h
  · cases h
  rename_i hs
  split at h
  · cases h
  rename_i hc
  split at h
  · cases h
  rename_i p2 p3 hp
  obtain ⟨hs1, hs2⟩ := opt_in (e := e) hs
  have hcc : (if t = 1 then some (leNat (le 4 (if t = 1 then c.getD 0 else 0))) else none) = if t = 1 then c else none := by
    split
    · cases c with
      | none => simp_all
      | some c => simp [leNat_le4 c (hw.2.2.2.1 c rfl)]
    · rfl
  obtain ⟨hk, hr, ht, -, ha, hww, -, hg⟩ := hw
  simp only [Except.ok.injEq, Prod.mk.injEq] at h
  obtain ⟨rfl, h⟩ := h
  have key := fun h2 h3 => recv_unwrap hj hk hr ht ha hww hs2 h2 h3 h.symm
  rw [hs1, hcc] at key
  have e2 : p 2 = p2 := by rw [← h]; rfl
  have e3 : p 3 = p3 := by rw [← h]; rfl
  have hst : ∀ b, (notIn (e.pStruct b) && notNull (e.pStruct b)) = false := fun b => by cases hb : e.shared <;> simp [hb]
  have iv : ∀ b : In, b.WF → (a = 2 ∨ a = 3 ∨ a = 4) → unwrapPrm.ivStruct e b = .ok (p2, p3) →
      received 8 p = .ok (.keyUnwrap k r t (if t = 1 then c else none) a (.iv b) w s) := by
    intro b hbw haa hp
    obtain ⟨m, l⟩ := b
    cases m with
    | none => cases hp
    | some m =>
      simp only [unwrapPrm.ivStruct] at hp
      split at hp
      · cases hp
      · rename_i hl16
        have hl16 : l = 16 := by omega
        subst hl16
        have hm := (wf_some hbw).2
        simp only [Except.ok.injEq, Prod.mk.injEq] at hp
        obtain ⟨rfl, rfl⟩ := hp
        rw [key (hst _) rfl]
        rcases haa with rfl | rfl | rfl <;> simp [taUnwrapPrm, taStruct, e2, hm]
  unfold unwrapPrm at hp
  split at hp
  · exact iv _ hg (.inl rfl) hp
  · exact iv _ hg (.inr (.inl rfl)) hp
  · exact iv _ hg (.inr (.inr rfl)) hp
  · rename_i i aad tg
    obtain ⟨im, il⟩ := i
    obtain ⟨tm, tl⟩ := tg
    obtain ⟨am, al⟩ := aad
    have hnn : am ≠ none := fun hx => hl ⟨.inl rfl, hx⟩
    cases am with
    | none => exact absurd rfl hnn
    | some am =>
    cases im with
    | none => cases hp
    | some im =>
    simp only at hp
    split at hp
    · cases hp
    rename_i h12
    have h12 : il = 12 := by omega
    subst h12
    cases tm with
    | none => cases hp
    | some tm =>
    simp only at hp
    split at hp
    · cases hp
    rename_i htl
    split at hp
    · cases hp
    rename_i haad
    simp only [Except.ok.injEq, Prod.mk.injEq] at hp
    obtain ⟨rfl, rfl⟩ := hp
    obtain ⟨ha1, ha2⟩ := opt_in (e := e) (s := ⟨some am, al⟩) haad
    have hi := (wf_some hg.1).2
    have htm := (wf_some hg.2.2).2
    rw [key (hst _) ha2]
    have h40 : leNat (le 8 tl) = tl := leNat_le8 tl (wf_some hg.2.2).1
    have hmin : min 16 tl = tl := by omega
    have htl' : tl ≤ 16 := by omega
    have hadd : 12 + (4 + (8 + (tl + (16 - tl + 8)))) = 48 := by omega
    simp [taUnwrapPrm, taStruct, e2, e3, hi, hj, htm, htl', h40, hmin, hadd]
  · rename_i cn nn
    obtain ⟨cm, cl⟩ := cn
    obtain ⟨nm, nl⟩ := nn
    cases cm with
    | none => cases hp
    | some cm =>
    simp only at hp
    split at hp
    · cases hp
    rename_i h4
    have h4 : cl = 4 := by omega
    subst h4
    cases nm with
    | none => cases hp
    | some nm =>
    simp only at hp
    split at hp
    · cases hp
    rename_i h12
    have h12 : nl = 12 := by omega
    subst h12
    simp only [Except.ok.injEq, Prod.mk.injEq] at hp
    obtain ⟨rfl, rfl⟩ := hp
    have h1 := (wf_some hg.1).2
    have h2 := (wf_some hg.2).2
    rw [key (hst _) rfl]
    simp [taUnwrapPrm, taStruct, e2, e3, h1, h2, hj]
  · rename_i i aad tg
    obtain ⟨im, il⟩ := i
    obtain ⟨tm, tl⟩ := tg
    obtain ⟨am, al⟩ := aad
    have hnn : am ≠ none := fun hx => hl ⟨.inr rfl, hx⟩
    cases am with
    | none => exact absurd rfl hnn
    | some am =>
    cases im with
    | none => cases hp
    | some im =>
    simp only at hp
    split at hp
    · cases hp
    rename_i h12
    have h12 : il = 12 := by omega
    subst h12
    cases tm with
    | none => cases hp
    | some tm =>
    simp only at hp
    split at hp
    · cases hp
    rename_i htl
    split at hp
    · cases hp
    rename_i haad
    simp only [Except.ok.injEq, Prod.mk.injEq] at hp
    obtain ⟨rfl, rfl⟩ := hp
    obtain ⟨ha1, ha2⟩ := opt_in (e := e) (s := ⟨some am, al⟩) haad
    have hi := (wf_some hg.1).2
    have htm := (wf_some hg.2.2).2
    rw [key (hst _) ha2]
    have htl' : tl = 16 := by omega
    subst htl'
    simp [taUnwrapPrm, taStruct, e2, e3, hi, hj, htm]
  · rename_i o n
    simp only [Except.ok.injEq, Prod.mk.injEq] at hp
    obtain ⟨rfl, rfl⟩ := hp
    rw [key (hst _) rfl]
    simp [taUnwrapPrm, taStruct, e2, e3, leNat_le8 o hg.1, leNat_le8 n hg.2]
  · simp only [Except.ok.injEq, Prod.mk.injEq] at hp
    obtain ⟨rfl, rfl⟩ := hp
    rw [key rfl rfl]
    simp [taUnwrapPrm]
  · simp only [Except.ok.injEq, Prod.mk.injEq] at hp
    obtain ⟨rfl, rfl⟩ := hp
    rw [key rfl rfl]
    simp [taUnwrapPrm]
  · simp only [Except.ok.injEq, Prod.mk.injEq] at hp
    obtain ⟨rfl, rfl⟩ := hp
    rw [key rfl rfl]
    simp [taUnwrapPrm]
  · rename_i d m label
    split at hp
    · cases hp
    rename_i hlab
    simp only [Except.ok.injEq, Prod.mk.injEq] at hp
    obtain ⟨rfl, rfl⟩ := hp
    have hlab' : ¬ (label.mem.isNone = true ∧ 0 < label.len) := fun hx => hlab ⟨hx.1, by omega⟩
    obtain ⟨ha1, ha2⟩ := opt_in (e := e) hlab'
    rw [key (hst _) ha2]
    simp only [taUnwrapPrm, taStruct, e2, e3, ha1]
    simp [leNat_le4 d hg.1, leNat_le4 m hg.2.1]
  all_goals cases hp

/-- What `taKeyDerive` does with a command built by the library. -/
theorem recv_derive (hj : ∀ n, (e.junk n).length = n) {k : Nat} {r : Bytes} {a : Nat} {p1 p2 p3 : TaParam} (hk : k < 2 ^ 64) (hr : r.length = 608)
    (ha : a < 2 ^ 32) (h1 : (notIn p1 && notNull p1) = false) (h2 : (notIn p2 && notNull p2) = false)
    (h3 : (notIn p3 && notNull p3) = false) {P : Params} (hP : P = params (e.pCmd (e.version ++ [le 8 k, r, le 4 a, e.junk 4])) p1 p2 p3) :
    received 10 P = taDerivePrm a P fun prm => .ok (.keyDerive k r a prm) := by
  have e1 : P 1 = p1 := by rw [hP]; rfl
  have e2 : P 2 = p2 := by rw [hP]; rfl
  have e3 : P 3 = p3 := by rw [hP]; rfl
  have hn : isNull (P 0) = false ∧ notInOut (P 0) = false ∧ (P 0).size = 632 := by
    rw [hP]
    cases hb : e.shared <;> simp [hb, hj, hr]
  have f : ∀ off n, fld ((P 0).mem.getD []) off n = fld (le 1 1 ++ (e.junk 7 ++ (le 8 k ++ (r ++ (le 4 a ++ e.junk 4))))) off n := by
    intro off n
    rw [hP]
    simp
  have f0 : fld ((P 0).mem.getD []) 0 1 = 1 := by rw [f]; simp
  have f1 : fld ((P 0).mem.getD []) 8 8 = k := by rw [f]; simp [hj]; exact leNat_le8 k hk
  have f2 : slice ((P 0).mem.getD []) 16 608 = r := by rw [hP]; simp [hj, hr]
  have f5 : fld ((P 0).mem.getD []) 624 4 = a := by rw [f]; simp [hj, hr]; exact leNat_le4 a ha
  unfold received
  rw [if_neg (by rw [hn.1]; simp)]
  simp only [taKeyDerive, versioned, hn.2, e1, e2, e3, h1, h2, h3, f0, f1, f2, f5]
  simp

theorem ladder_ok {a b c d : In} {B : Bytes} (ha : a.WF) (hb : b.WF) (hc : c.WF) (hd : d.WF) (h : ladder [a, b, c, d] = .ok B) :
    ∃ x y z w, a = ⟨some x, 16⟩ ∧ b = ⟨some y, 16⟩ ∧ c = ⟨some z, 16⟩ ∧ d = ⟨some w, 16⟩ ∧ x.length = 16 ∧ y.length = 16 ∧ z.length = 16 ∧ w.length = 16 ∧
      B = x ++ (y ++ (z ++ w)) := by
  have one : ∀ (q : In) (l : List In) (B : Bytes), q.WF → ladder (q :: l) = .ok B → ∃ x R, q = ⟨some x, 16⟩ ∧ x.length = 16 ∧ ladder l = .ok R ∧ B = x ++ R := by
    intro q l B hq h
    obtain ⟨m, n⟩ := q
    cases m with
    | none => cases h
    | some m =>
      simp only [ladder] at h
      split at h
      · cases h
      rename_i h16
      have h16 : n = 16 := by omega
      subst h16
      split at h
      · cases h
      · rename_i R hR
        exact ⟨m, R, rfl, (wf_some hq).2, hR, (Except.ok.inj h).symm⟩
  obtain ⟨x, R1, rfl, hx, h1, rfl⟩ := one _ _ _ ha h
  obtain ⟨y, R2, rfl, hy, h2, rfl⟩ := one _ _ _ hb h1
  obtain ⟨z, R3, rfl, hz, h3, rfl⟩ := one _ _ _ hc h2
  obtain ⟨w, R4, rfl, hw, h4, rfl⟩ := one _ _ _ hd h3
  cases h4
  exact ⟨x, y, z, w, rfl, rfl, rfl, rfl, hx, hy, hz, hw, by simp⟩

theorem arr_derive (hj : ∀ n, (e.junk n).length = n) {k : Nat} {r : Bytes} {a : Nat} {g : KdfPrm}
    (hw : WF (.keyDerive k r a g)) (h : request e (.keyDerive k r a g) = .ok (id, p)) : received id p = .ok (meant (.keyDerive k r a g)) := by
  simp only [request, keyDerive] at h
  split at h
  · cases h
  rename_i p1 p2 p3 hp
  obtain ⟨hk, hr, ha, hg⟩ := hw
  simp only [Except.ok.injEq, Prod.mk.injEq] at h
  obtain ⟨rfl, h⟩ := h
  have key := fun h1 h2 h3 => recv_derive hj hk hr ha h1 h2 h3 h.symm
  have e1 : p 1 = p1 := by rw [← h]; rfl
  have e2 : p 2 = p2 := by rw [← h]; rfl
  have e3 : p 3 = p3 := by rw [← h]; rfl
  have hst : ∀ b, (notIn (e.pStruct b) && notNull (e.pStruct b)) = false := fun b => by cases hb : e.shared <;> simp [hb]
  unfold derivePrm at hp
  split at hp
  · split at hp
    · cases hp
    rename_i hb
    obtain ⟨x, y, z, w, rfl, rfl, rfl, rfl, hx, hy, hz, hw, rfl⟩ := ladder_ok hg.1 hg.2.1 hg.2.2.1 hg.2.2.2 hb
    simp only [Except.ok.injEq, Prod.mk.injEq] at hp
    obtain ⟨rfl, rfl, rfl⟩ := hp
    rw [key (hst _) rfl rfl]
    simp [taDerivePrm, taStruct1, e1, hx, hy, hz, hw]
  · split at hp
    · cases hp
    rename_i hb
    obtain ⟨x, y, z, w, rfl, rfl, rfl, rfl, hx, hy, hz, hw, rfl⟩ := ladder_ok hg.1 hg.2.1 hg.2.2.1 hg.2.2.2 hb
    simp only [Except.ok.injEq, Prod.mk.injEq] at hp
    obtain ⟨rfl, rfl, rfl⟩ := hp
    rw [key (hst _) rfl rfl]
    simp [taDerivePrm, taStruct1, e1, hx, hy, hz, hw]
  · split at hp
    · cases hp
    rename_i hi
    split at hp
    · cases hp
    rename_i hs
    simp only [Except.ok.injEq, Prod.mk.injEq] at hp
    obtain ⟨rfl, rfl, rfl⟩ := hp
    obtain ⟨hi1, hi2⟩ := opt_in (e := e) hi
    obtain ⟨hs1, hs2⟩ := opt_in (e := e) hs
    rw [key (hst _) hi2 hs2]
    simp only [taDerivePrm, taStruct1, e1, e2, e3, hi1, hs1]
    simp [leNat_le8 _ hg.1, leNat_le4 _ hg.2.1, leNat_le8 _ hg.2.2.1, hj]
  · split at hp
    · cases hp
    rename_i hi
    simp only [Except.ok.injEq, Prod.mk.injEq] at hp
    obtain ⟨rfl, rfl, rfl⟩ := hp
    obtain ⟨hi1, hi2⟩ := opt_in (e := e) hi
    rw [key (hst _) hi2 rfl]
    simp only [taDerivePrm, taStruct1, e1, e2, e3, hi1]
    simp [leNat_le8 _ hg.1, leNat_le4 _ hg.2.1, leNat_le8 _ hg.2.2.1, hj]
  · split at hp
    · cases hp
    rename_i hi
    simp only [Except.ok.injEq, Prod.mk.injEq] at hp
    obtain ⟨rfl, rfl, rfl⟩ := hp
    obtain ⟨hi1, hi2⟩ := opt_in (e := e) hi
    rw [key (hst _) hi2 rfl]
    simp only [taDerivePrm, taStruct1, e1, e2, e3, hi1]
    simp [leNat_le8 _ hg.1, leNat_le4 _ hg.2.1, leNat_le8 _ hg.2.2.1, hj]
  · split at hp
    · cases hp
    rename_i hi
    simp only [Except.ok.injEq, Prod.mk.injEq] at hp
    obtain ⟨rfl, rfl, rfl⟩ := hp
    obtain ⟨hi1, hi2⟩ := opt_in (e := e) hi
    rw [key (hst _) hi2 rfl]
    simp only [taDerivePrm, taStruct1, e1, e2, e3, hi1]
    simp [leNat_le8 _ hg.1, leNat_le8 _ hg.2.1, leNat_le1 _ hg.2.2.1, hj]
  · simp only [Except.ok.injEq, Prod.mk.injEq] at hp
    obtain ⟨rfl, rfl, rfl⟩ := hp
    rw [key (hst _) rfl rfl]
    simp [taDerivePrm, taStruct1, e1, leNat_le8 _ hg.1, leNat_le8 _ hg.2]
  all_goals cases hp

theorem arr_exchange (hj : ∀ n, (e.junk n).length = n) {k : Nat} {r : Bytes} {a pk : Nat} {pub : In} {g : ExPrm}
    (hw : WF (.keyExchange k r a pk pub g)) (hn : ¬ Empty (.keyExchange k r a pk pub g)) (h : request e (.keyExchange k r a pk pub g) = .ok (id, p)) :
    received id p = .ok (meant (.keyExchange k r a pk pub g)) := by
  obtain ⟨m, l⟩ := pub
  have hn' : l ≠ 0 := hn
  cases m with
  | none => cases h
  | some m =>
  simp only [request, keyExchange, Option.isNone, Bool.false_eq_true, if_false] at h
  split at h
  · rename_i ha
    subst ha
    cases g with
    | none => cases h
    | netflix kw ke rke kh rkh => wire [taKeyExchange, hn']
  · rename_i ha
    wire [taKeyExchange, hn', ha]

theorem arr_init (hj : ∀ n, (e.junk n).length = n) {c a m k : Nat} {g : CipPrm}
    (hw : WF (.cipherInit c a m k g)) (h : request e (.cipherInit c a m k g) = .ok (id, p)) : received id p = .ok (meant (.cipherInit c a m k g)) := by
  simp only [request, cipherInit] at h
  split at h
  · cases h
  rename_i p1 p2 hp
  unfold cipherPrm at hp
  split at hp
  · obtain ⟨rfl, rfl⟩ := Prod.mk.inj (Except.ok.inj hp); wire [taCipherInit]
  · obtain ⟨rfl, rfl⟩ := Prod.mk.inj (Except.ok.inj hp); wire [taCipherInit]
  · obtain ⟨rfl, rfl⟩ := Prod.mk.inj (Except.ok.inj hp); wire [taCipherInit]
  · obtain ⟨rfl, rfl⟩ := Prod.mk.inj (Except.ok.inj hp); wire [taCipherInit]
  · rename_i b
    obtain ⟨bm, bl⟩ := b
    cases bm with
    | none => cases hp
    | some bm => obtain ⟨rfl, rfl⟩ := Prod.mk.inj (Except.ok.inj hp); wire [taCipherInit]
  · rename_i b
    obtain ⟨bm, bl⟩ := b
    cases bm with
    | none => cases hp
    | some bm => obtain ⟨rfl, rfl⟩ := Prod.mk.inj (Except.ok.inj hp); wire [taCipherInit]
  · rename_i b
    obtain ⟨bm, bl⟩ := b
    cases bm with
    | none => cases hp
    | some bm => obtain ⟨rfl, rfl⟩ := Prod.mk.inj (Except.ok.inj hp); wire [taCipherInit]
  · rename_i b aad
    obtain ⟨bm, bl⟩ := b
    obtain ⟨am, al⟩ := aad
    cases bm with
    | none => cases hp
    | some bm =>
      cases am with
      | none =>
        simp only [Option.isNone, true_and, Bool.false_eq_true, if_false] at hp
        split at hp
        · cases hp
        have : al = 0 := by omega
        subst this
        obtain ⟨rfl, rfl⟩ := Prod.mk.inj (Except.ok.inj hp); wire [taCipherInit]
      | some am => obtain ⟨rfl, rfl⟩ := Prod.mk.inj (Except.ok.inj hp); wire [taCipherInit]
  · rename_i b aad
    obtain ⟨bm, bl⟩ := b
    obtain ⟨am, al⟩ := aad
    cases bm with
    | none => cases hp
    | some bm =>
      cases am with
      | none =>
        simp only [Option.isNone, true_and, Bool.false_eq_true, if_false] at hp
        split at hp
        · cases hp
        have : al = 0 := by omega
        subst this
        obtain ⟨rfl, rfl⟩ := Prod.mk.inj (Except.ok.inj hp); wire [taCipherInit]
      | some am => obtain ⟨rfl, rfl⟩ := Prod.mk.inj (Except.ok.inj hp); wire [taCipherInit]
  · rename_i b n
    obtain ⟨bm, bl⟩ := b
    obtain ⟨am, al⟩ := n
    cases bm with
    | none => cases hp
    | some bm =>
      cases am with
      | none => cases hp
      | some am => obtain ⟨rfl, rfl⟩ := Prod.mk.inj (Except.ok.inj hp); wire [taCipherInit]
  · rename_i d mg label
    obtain ⟨am, al⟩ := label
    cases am with
    | none =>
      simp only [Option.isNone, true_and] at hp
      split at hp
      · cases hp
      have : al = 0 := by omega
      subst this
      obtain ⟨rfl, rfl⟩ := Prod.mk.inj (Except.ok.inj hp); wire [taCipherInit]
    | some am => obtain ⟨rfl, rfl⟩ := Prod.mk.inj (Except.ok.inj hp); wire [taCipherInit]
  all_goals cases hp

/-- A buffer arrives as its rest. -/
theorem buf_in {b : Buf} {q : TaParam} {o : Nat} (hw : b.WF) (h : bufPrm e false b = .ok (q, o)) :
    notIn q = false ∧ q.mem.isNone = false ∧ o < 2 ^ 64 ∧ b.type < 2 ^ 32 ∧ bufOf q b.type o false = restBuf false b ∧ (¬ Buf.empty b → q.size ≠ 0) := by
  cases b with
  | clear m o' =>
    obtain ⟨mm, ml⟩ := m
    cases mm with
    | none => cases h
    | some mm =>
      simp only [bufPrm, Bool.false_eq_true, if_false] at h
      split at h
      · cases h
      · obtain ⟨rfl, rfl⟩ := Prod.mk.inj (Except.ok.inj h)
        have := hw.1.1
        refine ⟨by cases hb : e.shared <;> simp [hb], rfl, by decide, by simp [Buf.type], rfl, ?_⟩
        intro hne hz
        apply hne
        simp only [CEnv.pIn] at hz
        simp only [Buf.empty]
        omega
  | svp hd o' =>
    obtain ⟨rfl, rfl⟩ := Prod.mk.inj (Except.ok.inj h)
    refine ⟨by cases hb : e.shared <;> simp [hb], rfl, hw.2, by simp [Buf.type], ?_, ?_⟩
    · simp [bufOf, Buf.type, restBuf, leNat_le8 _ hw.1]
    · intro _; simp

theorem buf_out {b : Buf} {q : TaParam} {o : Nat} (hw : b.WF) (h : bufPrm e true b = .ok (q, o)) :
    (isInOut q && notNull q) = false ∧ (notIn q && notOut q) = false ∧ q.mem.isNone = false ∧ o < 2 ^ 64 ∧ b.type < 2 ^ 32 ∧
      bufOf q b.type o true = restBuf true b ∧ (¬ Buf.empty b → q.size ≠ 0) := by
  cases b with
  | clear m o' =>
    obtain ⟨mm, ml⟩ := m
    cases mm with
    | none => cases h
    | some mm =>
      simp only [bufPrm, if_true] at h
      split at h
      · cases h
      · obtain ⟨rfl, rfl⟩ := Prod.mk.inj (Except.ok.inj h)
        refine ⟨by cases hb : e.shared <;> simp [hb], by cases hb : e.shared <;> simp [hb], by simp, by decide, by simp [Buf.type], ?_, ?_⟩
        · simp [bufOf, Buf.type, restBuf]
        · intro hne hz
          apply hne
          simp only [CEnv.pOut, if_true] at hz
          simp only [Buf.empty]
          omega
  | svp hd o' =>
    obtain ⟨rfl, rfl⟩ := Prod.mk.inj (Except.ok.inj h)
    refine ⟨by cases hb : e.shared <;> simp [hb], by cases hb : e.shared <;> simp [hb], rfl, hw.2, by simp [Buf.type], ?_, ?_⟩
    · simp [bufOf, Buf.type, restBuf, leNat_le8 _ hw.1]
    · intro _; simp

/-- The output buffer of a cipher arrives. -/
theorem out_ok {o : Option Buf} {q : TaParam} {n : Nat} (hw : ∀ b, o = some b → b.WF) (h : outPrm e o = .ok (q, n)) :
    (isInOut q && notNull q) = false ∧ n < 2 ^ 64 ∧ (o.map Buf.type).getD 0 < 2 ^ 32 ∧
      (if q.mem.isNone then none else some (bufOf q ((o.map Buf.type).getD 0) n true)) = o.map (restBuf true) := by
  cases o with
  | none =>
    obtain ⟨rfl, rfl⟩ := Prod.mk.inj (Except.ok.inj h)
    exact ⟨rfl, by decide, by decide, rfl⟩
  | some b =>
    obtain ⟨h1, -, h2, h3, h4, h5, -⟩ := buf_out (hw b rfl) h
    exact ⟨h1, h3, h4, by rw [h2]; simp [h5]⟩

theorem recv_process (hj : ∀ n, (e.junk n).length = n) (last : Bool) {o : Option Buf} {c : Nat} {s : Buf} {n : Nat} {t : Except Status TaParam}
    (ho : ∀ b, o = some b → b.WF) (hc : c < 2 ^ 64) (hs : s.WF) (hn : n < 2 ^ 64) (ht : ∀ q, t = .ok q → (notInOut q && notNull q) = false)
    (h : cipherProcess e (if last then 19 else 18) o c s n t = .ok (id, p)) :
    ∃ q, t = .ok q ∧ received id p = .ok (if last then
      .cipherProcessLast (o.map (restBuf true)) c (restBuf false s) n (if q.mem.isNone then none else some (inOf q))
      else .cipherProcess (o.map (restBuf true)) c (restBuf false s) n) := by
  unfold cipherProcess at h
  split at h
  · cases h
  rename_i p1 o1 h1
  split at h
  · cases h
  rename_i p2 o2 h2
  cases t with
  | error x => cases h
  | ok q =>
  refine ⟨q, rfl, ?_⟩
  obtain ⟨rfl, rfl⟩ := Prod.mk.inj (Except.ok.inj h)
  obtain ⟨a1, a2, a3, a4⟩ := out_ok ho h1
  obtain ⟨b1, b2, b3, b4, b5, -⟩ := buf_in hs h2
  have b6 := ht q rfl
  obtain ⟨P, hP⟩ : ∃ P, P = params (e.pCmd (e.version ++ [le 8 c, le 8 n, le 4 ((o.map Buf.type).getD 0), e.junk 4, le 8 o1, le 4 s.type, e.junk 4, le 8 o2]))
    p1 p2 q := ⟨_, rfl⟩
  rw [← hP]
  have e1 : P 1 = p1 := by rw [hP]; rfl
  have e2 : P 2 = p2 := by rw [hP]; rfl
  have e3 : P 3 = q := by rw [hP]; rfl
  have hz : isNull (P 0) = false ∧ notInOut (P 0) = false ∧ (P 0).size = 56 := by
    rw [hP]
    cases hb : e.shared <;> simp [hb, hj]
  obtain ⟨ty, hty⟩ : ∃ ty, ty = (o.map Buf.type).getD 0 := ⟨_, rfl⟩
  obtain ⟨tz, htz⟩ : ∃ ty, ty = s.type := ⟨_, rfl⟩
  rw [← hty] at a3 a4 hP
  rw [← htz] at b4 b5 hP
  have f : ∀ off k, fld ((P 0).mem.getD []) off k = fld (le 1 1 ++ (e.junk 7 ++ (le 8 c ++ (le 8 n ++ (le 4 ty ++ (e.junk 4 ++
      (le 8 o1 ++ (le 4 tz ++ (e.junk 4 ++ le 8 o2))))))))) off k := by
    intro off k
    rw [hP]
    simp
  have f0 : fld ((P 0).mem.getD []) 0 1 = 1 := by rw [f]; simp
  have f1 : fld ((P 0).mem.getD []) 8 8 = c := by rw [f]; simp [hj]; exact leNat_le8 c hc
  have f2 : fld ((P 0).mem.getD []) 16 8 = n := by rw [f]; simp [hj]; exact leNat_le8 n hn
  have f3 : fld ((P 0).mem.getD []) 24 4 = ty := by rw [f]; simp [hj]; exact leNat_le4 ty a3
  have f4 : fld ((P 0).mem.getD []) 32 8 = o1 := by rw [f]; simp [hj]; exact leNat_le8 o1 a2
  have f5 : fld ((P 0).mem.getD []) 40 4 = tz := by rw [f]; simp [hj]; exact leNat_le4 tz b4
  have f6 : fld ((P 0).mem.getD []) 48 8 = o2 := by rw [f]; simp [hj]; exact leNat_le8 o2 b3
  have fin : ∀ l, taCipherProcess l ((P 0).mem.getD []) P = if l then .ok (.cipherProcessLast (o.map (restBuf true)) c (restBuf false s) n
      (if q.mem.isNone then none else some (inOf q))) else .ok (.cipherProcess (o.map (restBuf true)) c (restBuf false s) n) := by
    intro l
    simp only [taCipherProcess, versioned, hz.2, e1, e2, e3, a1, b1, b2, b6, f0, f1, f2, f3, f4, f5, f6, a4, b5]
    simp
  unfold received
  rw [if_neg (by rw [hz.1]; simp)]
  cases last with
  | false => simpa using fin false
  | true => simpa using fin true

theorem arr_process (hj : ∀ n, (e.junk n).length = n) {o : Option Buf} {c : Nat} {s : Buf} {n : Nat} (hw : WF (.cipherProcess o c s n))
    (h : request e (.cipherProcess o c s n) = .ok (id, p)) : received id p = .ok (meant (.cipherProcess o c s n)) := by
  obtain ⟨q, _, hr⟩ := recv_process hj false hw.1 hw.2.1 hw.2.2.1 hw.2.2.2 (t := .ok pNone) (by intro q hq; cases hq; rfl) h
  exact hr

theorem arr_processLast (hj : ∀ n, (e.junk n).length = n) {o : Option Buf} {c : Nat} {s : Buf} {n : Nat} {t : Option In} (hw : WF (.cipherProcessLast o c s n t))
    (h : request e (.cipherProcessLast o c s n t) = .ok (id, p)) : received id p = .ok (meant (.cipherProcessLast o c s n t)) := by
  have ht : ∀ q, tagPrm e t = .ok q → (notInOut q && notNull q) = false ∧ (if q.mem.isNone then none else some (inOf q)) = t := by
    intro q hq
    cases t with
    | none => cases hq; exact ⟨rfl, rfl⟩
    | some t =>
      obtain ⟨m, l⟩ := t
      cases m with
      | none => cases hq
      | some m => 
        cases hq
        exact ⟨by cases hb : e.shared <;> simp [hb], rfl⟩
  obtain ⟨q, hq, hr⟩ := recv_process hj true hw.1 hw.2.1 hw.2.2.1 hw.2.2.2.1 (t := tagPrm e t) (fun q hq => (ht q hq).1) h
  rw [(ht q hq).2] at hr
  exact hr

theorem arr_sign (hj : ∀ n, (e.junk n).length = n) {o : Bool} {n a k : Nat} {s : In} {g : SigPrm} (hw : WF (.sign o n a k s g))
    (h : request e (.sign o n a k s g) = .ok (id, p)) : received id p = .ok (meant (.sign o n a k s g)) := by
  obtain ⟨m, l⟩ := s
  simp only [request, sign] at h
  split at h
  · cases h
  rename_i hs
  have hs' : m = none → l = 0 := by rintro rfl; simp at hs; omega
  split at h
  · rename_i pre _
    cases m with
    | none => obtain rfl := hs' rfl; cases o <;> cases pre <;> wire [taSign]
    | some m => cases o <;> cases pre <;> wire [taSign]
  · rename_i pre
    cases m with
    | none => obtain rfl := hs' rfl; cases o <;> cases pre <;> wire [taSign]
    | some m => cases o <;> cases pre <;> wire [taSign]
  · rename_i pre
    cases m with
    | none => obtain rfl := hs' rfl; cases o <;> cases pre <;> wire [taSign]
    | some m => cases o <;> cases pre <;> wire [taSign]
  · cases h
  · cases h
  · cases h
  · rename_i h0 h1 h2 _ _ _
    have h0 : a ≠ 0 := h0
    have h1 : a ≠ 1 := h1
    have h2 : a ≠ 2 := h2
    obtain ⟨b, rfl⟩ : ∃ b, a = b + 3 := ⟨a - 3, by omega⟩
    cases m with
    | none => obtain rfl := hs' rfl; cases o <;> wire [taSign]
    | some m => cases o <;> wire [taSign]

theorem arr_svpWrite (hj : ∀ n, (e.junk n).length = n) {o : Nat} {s : In} {offs : List Offset} (hw : WF (.svpWrite o s offs))
    (hn : ¬ Empty (.svpWrite o s offs)) (hl : ¬ Lost (.svpWrite o s offs))
    (h : request e (.svpWrite o s offs) = .ok (id, p)) : received id p = .ok (meant (.svpWrite o s offs)) := by
  obtain ⟨m, l⟩ := s
  simp only [request, svpWrite] at h
  cases m with
  | none => simp [nullP] at h
  | some m =>
  split at h
  · cases h
  rename_i hm
  have hl0 : l ≠ 0 := fun hx => hm (.inr hx)
  have ho : offs ≠ [] := fun hx => hn (.inr hx)
  have hlen : offs.length * 24 ≠ 0 := by
    have : offs.length ≠ 0 := by simpa using ho
    omega
  have heq : offs.map (fun _ => offsetBytes (offs.headD ⟨0, 0, 0⟩)) = offs.map offsetBytes := by
    refine List.map_congr_left fun x hx => ?_
    have : some x = offs.head? := Classical.byContradiction fun hne => hl ⟨x, hx, hne⟩
    rw [List.headD_eq_head?_getD, ← this]
    rfl
  rw [heq] at h
  obtain ⟨ho1, hs1, hb, hx⟩ := hw
  have htab := offsetsOf_table offs hx
  obtain ⟨rfl, rfl⟩ := Prod.mk.inj (Except.ok.inj h)
  simp only [small] at ho1
  have ho2 := leNat_le8 _ ho1
  generalize (offs.map offsetBytes).flatten = T at htab
  cases hb : e.shared <;> simp [received, taSvpWrite, hb, hj, ho2, hl0, hlen, htab]

theorem arr_svpCopy (hj : ∀ n, (e.junk n).length = n) {o s : Nat} {offs : List Offset} (hw : WF (.svpCopy o s offs))
    (hn : ¬ Empty (.svpCopy o s offs)) (h : request e (.svpCopy o s offs) = .ok (id, p)) : received id p = .ok (meant (.svpCopy o s offs)) := by
  simp only [request, svpCopy] at h
  have ho : offs ≠ [] := fun hx => hn hx
  have hlen : offs.length * 24 ≠ 0 := by
    have : offs.length ≠ 0 := by simpa using ho
    omega
  obtain ⟨ho1, hs1, hb, hx⟩ := hw
  have htab := offsetsOf_table offs hx
  obtain ⟨rfl, rfl⟩ := Prod.mk.inj (Except.ok.inj h)
  simp only [small] at ho1 hs1
  have ho2 := leNat_le8 _ ho1
  have hs2 := leNat_le8 _ hs1
  generalize (offs.map offsetBytes).flatten = T at htab
  cases hb : e.shared <;> simp [received, taSvpCopy, hb, hj, ho2, hs2, hlen, htab]

theorem arr_keyCheck (hj : ∀ n, (e.junk n).length = n) {k : Nat} {s : Buf} {n : Nat} {x : In} (hw : WF (.svpKeyCheck k s n x))
    (hn : ¬ Empty (.svpKeyCheck k s n x)) (h : request e (.svpKeyCheck k s n x) = .ok (id, p)) : received id p = .ok (meant (.svpKeyCheck k s n x)) := by
  obtain ⟨m, l⟩ := x
  cases m with
  | none => cases h
  | some m =>
  have hl0 : l ≠ 0 := fun hx => hn (.inl hx)
  simp only [request, svpKeyCheck, Option.isNone, Bool.false_eq_true, if_false] at h
  obtain ⟨h1, h2, h3, -⟩ := hw
  have h1 := leNat_le8 _ h1
  have h3 := leNat_le8 _ h3
  cases s with
  | clear c off =>
    obtain ⟨cm, cl⟩ := c
    cases cm with
    | none => cases h
    | some cm =>
      have hc0 : cl ≠ 0 := fun hx => hn (.inr hx)
      have h4 := leNat_le8 _ h2.2
      obtain ⟨rfl, rfl⟩ := Prod.mk.inj (Except.ok.inj h)
      cases hb : e.shared <;> simp [received, taSvpKeyCheck, bufOf, hb, hj, h1, h3, h4, hl0, hc0]
  | svp hd off =>
    have h4 := leNat_le8 _ h2.2
    have h5 := leNat_le8 _ h2.1
    obtain ⟨rfl, rfl⟩ := Prod.mk.inj (Except.ok.inj h)
    cases hb : e.shared <;> simp [received, taSvpKeyCheck, bufOf, hb, hj, h1, h3, h4, h5, hl0]

theorem arr_cenc (hj : ∀ n, (e.junk n).length = n) {s : Smp} (hw : WF (.cenc s)) (hn : ¬ Empty (.cenc s))
    (h : request e (.cenc s) = .ok (id, p)) : received id p = .ok (meant (.cenc s)) := by
  obtain ⟨iv, crypt, skip, subs, context, out, src⟩ := s
  obtain ⟨im, il⟩ := iv
  obtain ⟨w1, w2, w3, w4, w5, w6, w7, w8⟩ := hw
  cases im with
  | none => cases h
  | some im =>
  simp only [request, cenc] at h
  split at h
  · cases h
  rename_i h16
  have h16 : il = 16 := by omega
  subst h16
  split at h
  · cases h
  rename_i p2 o2 h2
  split at h
  · cases h
  rename_i p3 o3 h3
  have him := (wf_some w1).2
  have hs0 : subs.length * 16 ≠ 0 := by
    have : subs.length ≠ 0 := by simpa using fun hx => hn (.inl hx)
    omega
  obtain ⟨-, b1, b2, b3, b4, b5, b6⟩ := buf_out w7 h2
  obtain ⟨c1, c2, c3, c4, c5, c6⟩ := buf_in w8 h3
  have b6 := b6 fun hx => hn (.inr (.inl hx))
  have c6 := c6 fun hx => hn (.inr (.inr hx))
  have htab := subsOf_table subs w5
  obtain ⟨n, hlen⟩ : ∃ n, n = subs.length := ⟨_, rfl⟩
  rw [← hlen] at htab h w4 hs0
  generalize hT : (subs.map subBytes).flatten = T at htab h
  generalize out.type = ty at b4 b5 h
  generalize src.type = tz at c4 c5 h
  simp only [small] at w2 w3 w6
  simp only [Except.ok.injEq, Prod.mk.injEq] at h
  obtain ⟨rfl, h⟩ := h
  have e1 : p 1 = e.pIn ⟨some T, n * 16⟩ := by rw [← h]; rfl
  have e2 : p 2 = p2 := by rw [← h]; rfl
  have e3 : p 3 = p3 := by rw [← h]; rfl
  have hz : isNull (p 0) = false ∧ notInOut (p 0) = false ∧ (p 0).size = 88 := by
    rw [← h]
    cases hb : e.shared <;> simp [hb, hj, him]
  have hi1 : notIn (e.pIn ⟨some T, n * 16⟩) = false := by cases hb : e.shared <;> simp [hb]
  have f : ∀ off k, fld ((p 0).mem.getD []) off k = fld (le 1 1 ++ (im ++ (e.junk 7 ++ (le 8 crypt ++ (le 8 skip ++ (le 8 n ++ (le 8 context ++ (le 4 ty ++
      (e.junk 4 ++ (le 8 o2 ++ (le 4 tz ++ (e.junk 4 ++ le 8 o3)))))))))))) off k := by
    intro off k
    rw [← h]
    simp
  have f0 : fld ((p 0).mem.getD []) 0 1 = 1 := by rw [f]; simp
  have f1 : slice ((p 0).mem.getD []) 1 16 = im := by rw [← h]; simp [him]
  have f2 : fld ((p 0).mem.getD []) 24 8 = crypt := by rw [f]; simp [hj, him]; exact leNat_le8 _ w2
  have f3 : fld ((p 0).mem.getD []) 32 8 = skip := by rw [f]; simp [hj, him]; exact leNat_le8 _ w3
  have f4 : fld ((p 0).mem.getD []) 40 8 = n := by rw [f]; simp [hj, him]; exact leNat_le8 _ (by omega)
  have f5 : fld ((p 0).mem.getD []) 48 8 = context := by rw [f]; simp [hj, him]; exact leNat_le8 _ w6
  have f6 : fld ((p 0).mem.getD []) 56 4 = ty := by rw [f]; simp [hj, him]; exact leNat_le4 _ b4
  have f7 : fld ((p 0).mem.getD []) 64 8 = o2 := by rw [f]; simp [hj, him]; exact leNat_le8 _ b3
  have f8 : fld ((p 0).mem.getD []) 72 4 = tz := by rw [f]; simp [hj, him]; exact leNat_le4 _ c4
  have f9 : fld ((p 0).mem.getD []) 80 8 = o3 := by rw [f]; simp [hj, him]; exact leNat_le8 _ c3
  have hm : 16 * n % 2 ^ 64 = n * 16 := by rw [Nat.mod_eq_of_lt (by omega), Nat.mul_comm]
  unfold received
  rw [if_neg (by rw [hz.1]; simp)]
  simp only [taCenc, versioned, hz.2, e1, e2, e3, hi1, b1, b2, c1, c2, f0, f1, f2, f3, f4, f5, f6, f7, f8, f9, hm, b5, c5]
  simp only [CEnv.pIn, Option.getD, htab, meant]
  simp [hs0, b6, c6]

theorem arrives (e : CEnv) (he : e.WF) (c : Call) (hw : WF c) (hn : ¬ Empty c) (hl : ¬ Lost c)
    (id : Nat) (p : Params) (h : request e c = .ok (id, p)) : received id p = .ok (meant c) := by
  have hj : ∀ n, (e.junk n).length = n := he
  cases c
  case getVersion v => wire []
  case getName o n => cases o <;> wire []
  case getDeviceId => wire []
  case getTaUuid => wire []
  case keyGenerate => exact arr_generate hj hw h
  case keyExport => exact arr_export hj hw h
  case keyImport => exact arr_import hj hw hn h
  case keyDigest o n k d => cases o <;> wire []
  case keyGetPublic o n k => cases o <;> wire []
  case keyRelease => wire []
  case keyHeader =>
    have ho : e.pOut true 1672 = ⟨e.tyOut, some (List.replicate 1672 0), 1672⟩ := rfl
    generalize List.replicate 1672 (0 : UInt8) = m at ho
    simp only [request, ho] at h
    wire []
  case random o n =>
    cases o with
    | false => cases h
    | true => 
      have hn' : n ≠ 0 := hn
      simp only [request, if_true] at h
      wire [hn']
  case cipherRelease => wire []
  case cipherUpdateIv c iv =>
    obtain ⟨m, l⟩ := iv
    have hn' : l ≠ 0 := hn
    cases m with
    | none => cases h
    | some m =>
      simp only [request, Option.isNone, Bool.false_eq_true, if_false] at h
      wire [hn']
  case macInit c a k d =>
    cases d with
    | none =>
      simp only [request, and_true] at h
      split at h
      · cases h
      · rename_i ha
        wire [ha]
    | some d =>
      have hd : d < 2 ^ 32 := hw.2.2.2 d rfl
      by_cases ha : a = 1
      · subst ha
        simp only [request, reduceCtorEq, and_false, if_false, if_true, Option.getD] at h
        wire [leNat_le4 d hd]
      · simp only [request, reduceCtorEq, and_false, if_false, if_neg ha] at h
        wire [ha]
  case macProcess c s =>
    obtain ⟨m, l⟩ := s
    cases m with
    | none =>
      simp only [request, Option.isNone, true_and] at h
      split at h
      · cases h
      · have : l = 0 := by omega
        subst this
        wire [taMacProcess]
    | some m =>
      simp only [request, Option.isNone, Bool.false_eq_true, false_and, if_false] at h
      wire [taMacProcess]
  case macProcessKey => wire []
  case macCompute o _ _ => cases o <;> wire []
  case macRelease => wire []
  case svpSupported => wire []
  case svpCreate => wire []
  case svpRelease => wire []
  case svpCheck b o n d hh =>
    obtain ⟨m, l⟩ := hh
    have hn' : l ≠ 0 := hn
    cases m with
    | none => cases h
    | some m =>
      simp only [request, Option.isNone, Bool.false_eq_true, if_false] at h
      wire [hn']
  case keyUnwrap => exact arr_unwrap hj hw hl h
  case keyDerive => exact arr_derive hj hw h
  case keyExchange => exact arr_exchange hj hw hn h
  case cipherInit => exact arr_init hj hw h
  case cipherProcess => exact arr_process hj hw h
  case cipherProcessLast => exact arr_processLast hj hw h
  case sign => exact arr_sign hj hw h
  case svpWrite => exact arr_svpWrite hj hw hn hl h
  case svpCopy => exact arr_svpCopy hj hw hn h
  case svpKeyCheck => exact arr_keyCheck hj hw hn h
  case cenc => exact arr_cenc hj hw hn h

/-! Inputs that are missing are refused. -/

theorem ite_err {c d : Prop} [Decidable c] [Decidable d] {x y : Status} {k : Except Status Call} (h : d) :
    ∃ st, (if c then .error x else if d then .error y else k) = .error st := by
  by_cases hc : c
  · exact ⟨x, by simp [hc]⟩
  · exact ⟨y, by simp [hc, h]⟩

theorem recv_err {k : Params → Except Status Call} (h : ∃ st, k p = .error st) (hr : isNull (p 0) = false → received id p = k p) : ∃ st, received id p = .error st := by
  cases hn : isNull (p 0) with
  | true => exact ⟨.NULL_PARAMETER, by unfold received; rw [if_pos hn]; rfl⟩
  | false => rw [hr hn]; exact h

theorem refused (e : CEnv) (c : Call) (hn : Empty c) (id : Nat) (p : Params) (h : request e c = .ok (id, p)) : ∃ st, received id p = .error st := by
  cases c <;> first | exact hn.elim | skip
  case keyImport k f s g =>
    have hp : id = 7 ∧ ((p 1).mem.isNone || (p 1).size == 0) = true := by
      simp only [request, keyImport] at h
      split at h
      · cases h
      have hs : ((e.pOpt s).mem.isNone || (e.pOpt s).size == 0) = true := by
        obtain ⟨m, l⟩ := s
        obtain rfl : l = 0 := hn
        cases m <;> simp
      split at h <;> first | (obtain ⟨rfl, rfl⟩ := Prod.mk.inj (Except.ok.inj h); exact ⟨rfl, hs⟩) | cases h
    obtain ⟨rfl, hp⟩ := hp
    exact recv_err (k := fun p => taKeyImport ((p 0).mem.getD []) p) (ite_err hp) fun hn => by unfold received; exact if_neg (by rw [hn]; decide)
  case keyExchange k r a pk pub g =>
    have hp : id = 11 ∧ ((p 1).mem.isNone || (p 1).size == 0) = true := by
      simp only [request, keyExchange] at h
      split at h
      · cases h
      have hs : ((e.pIn pub).mem.isNone || (e.pIn pub).size == 0) = true := by
        obtain ⟨m, l⟩ := pub
        obtain rfl : l = 0 := hn
        cases m <;> simp
      split at h
      · split at h
        · cases h
        · obtain ⟨rfl, rfl⟩ := Prod.mk.inj (Except.ok.inj h); exact ⟨rfl, hs⟩
      · obtain ⟨rfl, rfl⟩ := Prod.mk.inj (Except.ok.inj h); exact ⟨rfl, hs⟩
    obtain ⟨rfl, hp⟩ := hp
    exact recv_err (k := fun p => taKeyExchange ((p 0).mem.getD []) p) (ite_err hp) fun hn => by unfold received; exact if_neg (by rw [hn]; decide)
  case random o n =>
    obtain rfl : n = 0 := hn
    cases o with
    | false => cases h
    | true =>
      obtain ⟨rfl, rfl⟩ := Prod.mk.inj (Except.ok.inj h)
      cases hb : e.shared <;> simp [received, hb, nullP]
  case cipherUpdateIv c iv =>
    obtain ⟨m, l⟩ := iv
    obtain rfl : l = 0 := hn
    cases m with
    | none => cases h
    | some m =>
      obtain ⟨rfl, rfl⟩ := Prod.mk.inj (Except.ok.inj h)
      exact recv_err (k := fun p => withIn 16 ((p 0).mem.getD []) p _) (ite_err (by simp)) fun hn => by unfold received; exact if_neg (by rw [hn]; decide)
  case svpWrite o s offs =>
    obtain ⟨m, l⟩ := s
    simp only [request, svpWrite] at h
    split at h
    · cases h
    rename_i hs
    obtain ⟨rfl, rfl⟩ := Prod.mk.inj (Except.ok.inj h)
    refine recv_err (k := fun p => taSvpWrite ((p 0).mem.getD []) p) (ite_err ?_) fun hn => by unfold received; exact if_neg (by rw [hn]; decide)
    rcases hn with hn | hn
    · exact absurd (.inr hn) hs
    · subst hn
      simp
  case svpCopy o s offs =>
    obtain rfl : offs = [] := hn
    obtain ⟨rfl, rfl⟩ := Prod.mk.inj (Except.ok.inj h)
    exact recv_err (k := fun p => taSvpCopy ((p 0).mem.getD []) p) (ite_err (by simp)) fun hn => by unfold received; exact if_neg (by rw [hn]; decide)
  case svpKeyCheck k s n x =>
    obtain ⟨m, l⟩ := x
    simp only [request, svpKeyCheck] at h
    split at h
    · cases h
    have fin : ∀ p1 : TaParam, (l = 0 ∨ p1.size = 0) → p 1 = p1 → p 2 = e.pIn ⟨m, l⟩ → id = 34 → ∃ st, received id p = .error st := by
      rintro p1 hp h1 h2 rfl
      refine recv_err (k := fun p => taSvpKeyCheck ((p 0).mem.getD []) p) (ite_err ?_) fun hn => by unfold received; exact if_neg (by rw [hn]; decide)
      rw [h1, h2]
      rcases hp with hp | hp <;> simp [hp]
    cases s with
    | clear c o =>
      simp only at h
      split at h
      · cases h
      · obtain ⟨rfl, rfl⟩ := Prod.mk.inj (Except.ok.inj h)
        exact fin (e.pIn c) hn rfl rfl rfl
    | svp hd o =>
      obtain ⟨rfl, rfl⟩ := Prod.mk.inj (Except.ok.inj h)
      exact fin _ (.inl (hn.elim id False.elim)) rfl rfl rfl
  case svpCheck b o n d hh =>
    obtain ⟨m, l⟩ := hh
    obtain rfl : l = 0 := hn
    cases m with
    | none => cases h
    | some m =>
      obtain ⟨rfl, rfl⟩ := Prod.mk.inj (Except.ok.inj h)
      exact recv_err (k := fun p => withIn 40 ((p 0).mem.getD []) p _) (ite_err (by simp)) fun hn => by unfold received; exact if_neg (by rw [hn]; decide)
  case cenc s =>
    simp only [request, cenc] at h
    split at h
    · cases h
    split at h
    · cases h
    split at h
    · cases h
    rename_i p2 o2 h2
    split at h
    · cases h
    rename_i p3 o3 h3
    obtain ⟨rfl, rfl⟩ := Prod.mk.inj (Except.ok.inj h)
    refine recv_err (k := fun p => taCenc ((p 0).mem.getD []) p) ?_ fun hn => by unfold received; exact if_neg (by rw [hn]; decide)
    have hsz : p2.size = 0 ∨ p3.size = 0 ∨ s.subs = [] := by
      rcases hn with hn | hn | hn
      · exact .inr (.inr hn)
      · left
        generalize s.out = b at h2 hn
        cases b with
        | svp _ _ => exact hn.elim
        | clear m o =>
          obtain ⟨mm, ml⟩ := m
          cases mm with
          | none => cases h2
          | some mm =>
            simp only [bufPrm] at h2
            split at h2
            · cases h2
            · obtain ⟨rfl, rfl⟩ := Prod.mk.inj (Except.ok.inj h2)
              have : ml = o := hn
              simp [this]
      · right; left
        generalize s.src = b at h3 hn
        cases b with
        | svp _ _ => exact hn.elim
        | clear m o =>
          obtain ⟨mm, ml⟩ := m
          cases mm with
          | none => cases h3
          | some mm =>
            simp only [bufPrm] at h3
            split at h3
            · cases h3
            · obtain ⟨rfl, rfl⟩ := Prod.mk.inj (Except.ok.inj h3)
              have : ml = o := hn
              simp [this]
    unfold taCenc
    split
    · exact ⟨_, rfl⟩
    split
    · exact ⟨_, rfl⟩
    rw [if_pos]
    · exact ⟨_, rfl⟩
    · rcases hsz with hz | hz | hz <;> simp [hz]

/-- Without additional data nothing arrives. -/
theorem lost_unwrap {e : CEnv} (he : e.WF) {k : Nat} {r : Bytes} {t : Nat} {c : Option Nat} {a : Nat} {iv aad tag : In} {w : Nat} {s : In}
    (hw : WF (.keyUnwrap k r t c a (.aead iv aad tag) w s)) (ha : a = 5 ∨ a = 10) (hn : aad.mem = none)
    (h : request e (.keyUnwrap k r t c a (.aead iv aad tag) w s) = .ok (id, p)) : received id p = .error .NULL_PARAMETER := by
  simp only [request, keyUnwrap] at h
  split at h
  · cases h
  rename_i hs
  split at h
  · cases h
  split at h
  · cases h
  rename_i p2 p3 hp
  have hp23 : (notIn p2 && notNull p2) = false ∧ p3 = pNone ∧ ∃ b, p2.mem = some b ∧ p2.size = 48 := by
    obtain ⟨im, il⟩ := iv
    obtain ⟨tm, tl⟩ := tag
    obtain ⟨am, al⟩ := aad
    obtain rfl : am = none := hn
    have hj : ∀ n, (e.junk n).length = n := he
    have hg := hw.2.2.2.2.2.2.2
    rcases ha with rfl | rfl <;>
    · cases im with
      | none => cases hp
      | some im =>
      simp only [unwrapPrm] at hp
      split at hp
      · cases hp
      cases tm with
      | none => cases hp
      | some tm =>
      simp only at hp
      split at hp
      · cases hp
      split at hp
      · cases hp
      obtain ⟨rfl, rfl⟩ := Prod.mk.inj (Except.ok.inj hp)
      have h1 := (wf_some hg.1).2
      have h2 := (wf_some hg.2.2).2
      refine ⟨by cases hb : e.shared <;> simp [hb], by simp, _, rfl, ?_⟩
      simp [hj, h1, h2]
      omega
  obtain ⟨h2, rfl, b, hb, hsz⟩ := hp23
  obtain ⟨hk, hr, ht, -, ha', hww, -, -⟩ := hw
  simp only [Except.ok.injEq, Prod.mk.injEq] at h
  obtain ⟨rfl, h⟩ := h
  rw [recv_unwrap he hk hr ht ha' hww (opt_in (e := e) hs).2 h2 rfl h.symm]
  have e2 : p 2 = p2 := by rw [← h]; rfl
  have e3 : p 3 = pNone := by rw [← h]; rfl
  rcases ha with rfl | rfl <;> simp [taUnwrapPrm, taStruct, e2, e3, hb, hsz, nullP]

/-! ## C63 -/

/-- **C63**, for all calls except the two defects (`Lost`) and inputs of length zero (`Empty`): whatever the library sends arrives as it was meant, in both
builds of the library and whatever the memory returned by `malloc` contains. -/
theorem C63_arrives_partial (e : CEnv) (he : e.WF) (c : Call) (hw : WF c) (hn : ¬ Empty c) (hl : ¬ Lost c) (id : Nat) (p : Params)
    (h : request e c = .ok (id, p)) : received id p = .ok (meant c) := arrives e he c hw hn hl id p h

/-- **C63**, safety: except for different offsets of `sa_svp_buffer_write`, no function of the TA is ever called with other arguments than those meant. -/
theorem C63_unaltered_partial (e : CEnv) (he : e.WF) (c : Call) (hw : WF c) (hl : ∀ o s offs, c = .svpWrite o s offs → ∀ x ∈ offs, some x = offs.head?)
    (id : Nat) (p : Params) (h : request e c = .ok (id, p)) (c' : Call) (hr : received id p = .ok c') : c' = meant c := by
  by_cases hn : Empty c
  · obtain ⟨st, hs⟩ := refused e c hn id p h
    rw [hs] at hr
    cases hr
  by_cases hll : Lost c
  · cases c <;> first | exact hll.elim | skip
    case keyUnwrap k r t cc a g w s =>
      cases g <;> first | exact hll.2.elim | skip
      case aead iv aad tag =>
        rw [lost_unwrap he hw hll.1 hll.2 h] at hr
        cases hr
    case svpWrite o s offs =>
      obtain ⟨x, hx, hne⟩ := hll
      exact absurd (hl o s offs rfl x hx) hne
  · rw [arrives e he c hw hn hll id p h] at hr
    exact (Except.ok.inj hr).symm

/-- **C63 is violated** by `sa_key_unwrap` with AES-GCM or ChaCha20-Poly1305: whenever there is no additional data - `aad` is NULL and its length 0, which
the library takes - the TA refuses the command, whatever the other arguments. -/
theorem C63_violated_unwrap (e : CEnv) (he : e.WF) (k : Nat) (r : Bytes) (t : Nat) (c : Option Nat) (a : Nat) (iv tag : In) (w : Nat) (s : In)
    (hw : WF (.keyUnwrap k r t c a (.aead iv ⟨none, 0⟩ tag) w s)) (ha : a = 5 ∨ a = 10) (id : Nat) (p : Params)
    (h : request e (.keyUnwrap k r t c a (.aead iv ⟨none, 0⟩ tag) w s) = .ok (id, p)) : received id p = .error .NULL_PARAMETER :=
  lost_unwrap he hw ha rfl h

/-- A library without shared memory and with memory full of ones. -/
def lib : CEnv := ⟨false, fun n => List.replicate n 1⟩
theorem lib_wf : lib.WF := fun _ => List.length_replicate

/-- The library does send such a command. -/
def gcmCall : Call :=
  .keyUnwrap 0 (List.replicate 608 0) 0 none 5 (.aead ⟨some (List.replicate 12 3), 12⟩ ⟨none, 0⟩ ⟨some (List.replicate 16 4), 16⟩) 7 ⟨some [1, 2, 3], 3⟩

theorem gcmCall_wf : WF gcmCall := by
  refine ⟨by simp [small], List.length_replicate, by simp [enum], by simp, by simp [enum], by simp [small], ⟨by simp, by simp⟩, ⟨by simp, by simp⟩, ⟨by simp, by simp⟩, by simp, by simp⟩

theorem C63_violated_unwrap_sent : WF gcmCall ∧ ∃ p, request lib gcmCall = .ok (8, p) ∧ received 8 p = .error .NULL_PARAMETER :=
  ⟨gcmCall_wf, _, rfl, C63_violated_unwrap lib lib_wf _ _ _ _ _ _ _ _ _ gcmCall_wf (.inl rfl) _ _ rfl⟩

/-- **C63 is violated** by `sa_svp_buffer_write` with several offsets: the TA is called with as many copies of the first one. -/
theorem C63_violated_write (e : CEnv) (he : e.WF) (o : Nat) (s : In) (x : Offset) (offs : List Offset) (hw : WF (.svpWrite o s (x :: offs)))
    (id : Nat) (p : Params) (h : request e (.svpWrite o s (x :: offs)) = .ok (id, p)) :
    received id p = .ok (.svpWrite o s (List.replicate (offs.length + 1) x)) := by
  have hs : ¬ Empty (.svpWrite o s (List.replicate (offs.length + 1) x)) := by
    rintro (hx | hx)
    · simp only [request, svpWrite] at h
      rw [if_pos (.inr hx)] at h
      cases h
    · simp [List.replicate_succ] at hx
  refine arrives e he _ ?_ hs ?_ id p ?_
  · refine ⟨hw.1, hw.2.1, ?_, ?_⟩
    · have := hw.2.2.1
      simpa using this
    · intro y hy
      rw [List.eq_of_mem_replicate hy]
      exact hw.2.2.2 x List.mem_cons_self
  · rintro ⟨y, hy, hne⟩
    rw [List.eq_of_mem_replicate hy] at hne
    simp [List.replicate_succ] at hne
  · rw [← h]
    simp [request, svpWrite, List.replicate_succ, List.map_const']

instance : DecidableEq (Except Status Call)
  | .ok a, .ok b => if h : a = b then .isTrue (by rw [h]) else .isFalse fun hx => h (Except.ok.inj hx)
  | .error a, .error b => if h : a = b then .isTrue (by rw [h]) else .isFalse fun hx => h (Except.error.inj hx)
  | .ok _, .error _ => .isFalse nofun
  | .error _, .ok _ => .isFalse nofun

/-- The application writes bytes 0-3 to 0 and bytes 4-7 to 100; the TA is told to write bytes 0-3 to 0 twice. -/
example : ∃ p, request lib (.svpWrite 5 ⟨some (List.replicate 8 9), 8⟩ [⟨0, 0, 4⟩, ⟨100, 4, 4⟩]) = .ok (32, p) ∧
    received 32 p = .ok (.svpWrite 5 ⟨some (List.replicate 8 9), 8⟩ [⟨0, 0, 4⟩, ⟨0, 0, 4⟩]) := ⟨_, rfl, by decide +kernel⟩

/-- A key is derived with HKDF, without a salt. -/
example : ∃ p, request lib (.keyDerive 0 (List.replicate 608 0) 1 (.hkdf 32 1 77 ⟨none, 0⟩ ⟨some [1, 2], 2⟩)) = .ok (10, p) ∧
    received 10 p = .ok (.keyDerive 0 (List.replicate 608 0) 1 (.hkdf 32 1 77 ⟨none, 0⟩ ⟨some [1, 2], 2⟩)) := ⟨_, rfl, by decide +kernel⟩

/-- Data in clear memory is processed from its offset on. -/
example : ∃ p, request lib (.cipherProcess (some (.svp 300 64)) 12 (.clear ⟨some [1, 2, 3, 4, 5, 6], 6⟩ 2) 4) = .ok (18, p) ∧
    received 18 p = .ok (.cipherProcess (some (.svp 300 64)) 12 (.clear ⟨some [3, 4, 5, 6], 4⟩ 0) 4) := ⟨_, rfl, by decide +kernel⟩

/-- A sample of two subsamples arrives. -/
example : ∃ p, request lib (.cenc ⟨⟨some (List.replicate 16 2), 16⟩, 1, 9, [(5, 16), (3, 32)], 4, .svp 6 0, .clear ⟨some (List.replicate 56 7), 56⟩ 0⟩) = .ok (36, p) ∧
    received 36 p = .ok (.cenc ⟨⟨some (List.replicate 16 2), 16⟩, 1, 9, [(5, 16), (3, 32)], 4, .svp 6 0, .clear ⟨some (List.replicate 56 7), 56⟩ 0⟩) :=
  ⟨_, rfl, by decide +kernel⟩

end Sa.C63

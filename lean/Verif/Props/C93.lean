import Verif.Props.C84
import Verif.Props.C92

/-!
# C93: RSA encryption through the OpenSSL engine

What an application encrypts and decrypts with a key of the engine is encrypted and decrypted with the padding, digests and label that it asked for last
on the context; what was encrypted with one context can be decrypted with any that was asked for the same; and what the engine keeps for contexts is
released with them.
-/

namespace Sa.Ek.C93

open Sa.Psig (Key Ret)
open Sa.Psig.C82 (Std digest_of_std)
open Sa.Pr (Scheme)
open Sa.Pr.C84 (Same)
open Sa.Ek.C92 (Trace Asked asked IsRsa found app_rsa appOf cell right_run cell_set cell_new lt_of)

/-! ## Specification -/

/-- The scheme that is meant (RFC 8017, 7.1 and 7.2; EVP_PKEY_CTX_ctrl(3)): PKCS #1 v1.5 if no padding was asked for, SHA-1 if no digest was, and MGF1 with the
same digest if no other was. -/
def meant (a : Asked) : Scheme :=
  match a.pad.getD 1 with
  | 1 => .pkcs1
  | 4 => .oaep (a.md.getD (some 64)) (a.mgf1.or (a.md.getD (some 64))) a.label
  | n => .other n

/-- A digest was named for MGF1, or it would be SHA-1 anyway. -/
def Named (a : Asked) : Prop := a.pad.getD 1 = 4 → a.mgf1 ≠ none ∨ a.md.getD (some 64) = some 64

/-- What RSA gives, for a buffer of a size and signatures of `n` bytes. -/
def result (n size : Nat) (x : Option Bytes) : Ret :=
  if size < n then .fail
  else match x with
    | none => .fail
    | some b => .wrote b

/-- An application that sets one label, not empty, for a context; and there is memory for the labels of copies. -/
def careful : Trace → Prop
  | [] => True
  | (.ctrl i (.label l), .ok) :: tr => careful tr ∧ (∀ a, asked tr i = some a → a.label = []) ∧ ∃ x b, l = some (x :: b)
  | (.copy _ _ false, _) :: _ => False
  | _ :: tr => careful tr

/-! ## Lemmas -/

theorem enc1 {a : App} (h : a.pad = 1) : encryptWith a = .pkcs1 ∧ decryptWith a = .pkcs1 := by
  unfold encryptWith decryptWith
  rw [if_neg (show ¬ a.pad = Pr.RSA_PKCS1_OAEP_PADDING by rw [h]; decide), if_pos (show a.pad = Psig.RSA_PKCS1_PADDING from h),
    if_neg (show ¬ a.pad = Pr.RSA_PKCS1_OAEP_PADDING by rw [h]; decide)]
  exact ⟨rfl, rfl⟩

theorem enc4 {a : App} (h : a.pad = 4) : encryptWith a = .oaep a.md a.mgf1 (a.label.getD []) ∧
    decryptWith a = .oaep (Psig.digestFromMd a.md) (Psig.digestFromMd a.mgf1) (a.label.getD []) := by
  unfold encryptWith decryptWith
  rw [if_pos (show a.pad = Pr.RSA_PKCS1_OAEP_PADDING from h), if_pos (show a.pad = Pr.RSA_PKCS1_OAEP_PADDING from h)]
  exact ⟨rfl, rfl⟩

theorem encO {a : App} (h1 : a.pad ≠ 1) (h4 : a.pad ≠ 4) : encryptWith a = .other a.pad := by
  unfold encryptWith
  rw [if_neg (show ¬ a.pad = Pr.RSA_PKCS1_OAEP_PADDING from h4), if_neg (show ¬ a.pad = Psig.RSA_PKCS1_PADDING from h1)]

theorem mgf1_eq {a : Asked} (hn : Named a) (h4 : a.pad.getD 1 = 4) : a.mgf1.or (a.md.getD (some 64)) = a.mgf1.or (some 64) := by
  rcases hn h4 with h | h
  · cases hg : a.mgf1 with
    | none => exact absurd hg h
    | some g => rfl
  · rw [h]

theorem meant_eq {a : Asked} {l : Option Bytes} (hk : IsRsa a.key) (hl : l.getD [] = a.label) (hn : Named a) : encryptWith (appOf a l) = meant a := by
  rw [app_rsa hk]
  unfold meant
  split
  · rename_i h; exact (enc1 h).1
  · rename_i h
    rw [(enc4 h).1]
    simp only [hl, mgf1_eq hn h]
  · rename_i h1 h4; exact encO h1 h4

/-- A scheme the API can be asked for. -/
def Known (a : Asked) : Prop :=
  a.pad.getD 1 = 1 ∨ a.pad.getD 1 = 4 ∧ (∃ m d, a.md.getD (some 64) = some m ∧ Std m d) ∧ ∃ n g, a.mgf1.or (some 64) = some n ∧ Std n g

theorem same_eq {a : Asked} {l l' : Option Bytes} (hk : IsRsa a.key) (hl : l.getD [] = l'.getD []) (hn : Known a) :
    Same (encryptWith (appOf a l)) (decryptWith (appOf a l')) := by
  rw [app_rsa hk, app_rsa hk]
  rcases hn with h | ⟨h, ⟨m, d, hm, hd⟩, n, g, hg, hs⟩
  · rw [(enc1 h).1, (enc1 h).2]; exact .pkcs1
  · rw [(enc4 h).1, (enc4 h).2]
    simp only [hm, hg, digest_of_std hd, digest_of_std hs, hl]
    exact .oaep hd hs

/-- Sums over contexts. -/
def sum (f : Ctx → Int) : List (Option Ctx) → Int
  | [] => 0
  | none :: l => sum f l
  | some c :: l => f c + sum f l

theorem sum_append (f : Ctx → Int) : ∀ l m, sum f (l ++ m) = sum f l + sum f m
  | [], m => by simp [sum]
  | none :: l, m => by simp only [List.cons_append, sum]; exact sum_append f l m
  | some c :: l, m => by simp only [List.cons_append, sum]; rw [sum_append f l m]; omega

def one (f : Ctx → Int) : Option Ctx → Int
  | none => 0
  | some c => f c

theorem sum_set (f : Ctx → Int) (v : Option Ctx) : ∀ (l : List (Option Ctx)) (i : Nat) (u : Option Ctx), l[i]? = some u →
    sum f (l.set i v) = sum f l - one f u + one f v
  | [], i, u, h => by simp at h
  | c :: l, 0, u, h => by
    simp only [List.getElem?_cons_zero, Option.some.injEq] at h
    subst h
    cases c <;> cases v <;> simp only [List.set_cons_zero, sum, one] <;> omega
  | c :: l, i + 1, u, h => by
    simp only [List.getElem?_cons_succ] at h
    have := sum_set f v l i u h
    cases c <;> simp only [List.set_cons_succ, sum, this]
    omega

theorem sum_none (f : Ctx → Int) : ∀ l : List (Option Ctx), (∀ i : Nat, l[i]?.join = none) → sum f l = 0
  | [], _ => rfl
  | none :: l, h => sum_none f l fun i => by have := h (i + 1); simpa using this
  | some c :: l, h => by have := h 0; simp at this

/-- What is kept is what the contexts have. -/
structure Kept (w : World) : Prop where
  apps : w.apps = sum (fun _ => 1) w.ctxs
  labels : w.labels = sum (fun c => hasLabel c.app) w.ctxs
  ciphers : w.ciphers = 0
  full : ∀ i c, cell w i = some c → c.app.label ≠ some []

theorem copy_full (a : App) (h : a.label ≠ some []) : pkeyCopy a = a := by
  obtain ⟨pad, salt, md, mgf1, label⟩ := a
  cases label with
  | none => rfl
  | some l =>
    cases l with
    | nil => exact absurd rfl h
    | cons x l => rfl

theorem none_full {w : World} (hf : ∀ i c, cell w i = some c → c.app.label ≠ some []) {v : Option Ctx} (hv : ∀ c, v = some c → c.app.label ≠ some [])
    (i : Nat) (c : Ctx) (h : (w.ctxs ++ [v])[i]?.join = some c) : c.app.label ≠ some [] := by
  rw [cell_new] at h
  split at h
  · exact hv c h
  · exact hf i c h

theorem set_full {w : World} (hf : ∀ i c, cell w i = some c → c.app.label ≠ some []) {v : Option Ctx} (hv : ∀ c, v = some c → c.app.label ≠ some [])
    {j : Nat} (hj : j < w.ctxs.length) (i : Nat) (c : Ctx) (h : (w.ctxs.set j v)[i]?.join = some c) : c.app.label ≠ some [] := by
  rw [cell_set hj] at h
  split at h
  · exact hv c h
  · exact hf i c h

theorem init_label (k : Key) : (pkeyInit k).label = none := by unfold pkeyInit; split <;> rfl

theorem ctrl_label {a b : App} {x : Ctrl} (h : pkeyCtrl a x = some b) (hx : ∀ l, x ≠ .label l) : b.label = a.label ∧ taken x = 0 := by
  cases x with
  | md m => cases h; exact ⟨rfl, rfl⟩
  | padding n => cases h; exact ⟨rfl, rfl⟩
  | salt n =>
    simp only [pkeyCtrl] at h
    split at h
    · cases h; exact ⟨rfl, rfl⟩
    · cases h
  | oaepMd m =>
    simp only [pkeyCtrl] at h
    split at h
    · cases h
    · cases h; exact ⟨rfl, rfl⟩
  | mgf1 m =>
    simp only [pkeyCtrl] at h
    split at h
    · cases h
    · cases h; exact ⟨rfl, rfl⟩
  | label l => exact absurd rfl (hx l)

theorem kept_run (r : Rsa) (hr : ∀ h s m, r.process h s m ≠ .unsupported) : ∀ ops, careful (run r ops).2 → Kept (run r ops).1
  | [], _ => ⟨rfl, rfl, rfl, by simp [run, empty, cell]⟩
  | op :: ops, hc => by
    have ih := kept_run r hr ops
    have rr := right_run r ops
    simp only [run] at hc ⊢
    generalize (run r ops).1 = w at *
    generalize (run r ops).2 = tr at *
    cases op with
    | new k mem =>
      cases mem with
      | false =>
        have ih := ih (by simpa [step, careful] using hc)
        refine ⟨?_, ?_, ih.ciphers, none_full ih.full (v := none) (by simp)⟩
        · show w.apps = sum _ (w.ctxs ++ [none]); rw [sum_append, ih.apps]; simp [sum]
        · show w.labels = sum _ (w.ctxs ++ [none]); rw [sum_append, ih.labels]; simp [sum]
      | true =>
        have ih := ih (by simpa [step, careful] using hc)
        refine ⟨?_, ?_, ih.ciphers, none_full ih.full (v := some ⟨k, pkeyInit k⟩) (by intro c h; cases h; simp [init_label])⟩
        · show w.apps + 1 = sum _ (w.ctxs ++ [some ⟨k, pkeyInit k⟩]); rw [sum_append, ih.apps]; simp [sum]
        · show w.labels = sum _ (w.ctxs ++ [some ⟨k, pkeyInit k⟩]); rw [sum_append, ih.labels]; simp [sum, hasLabel, init_label]
    | ctrl j x =>
      simp only [step] at hc ⊢
      cases hj : w.ctxs[j]? with
      | none =>
        simp only [hj] at hc ⊢
        exact ih (by cases x <;> exact hc)
      | some u =>
        cases u with
        | none =>
          simp only [hj] at hc ⊢
          exact ih (by cases x <;> exact hc)
        | some c =>
          simp only [hj] at hc ⊢
          cases hp : pkeyCtrl c.app x with
          | none =>
            simp only [hp] at hc ⊢
            exact ih (by cases x <;> exact hc)
          | some b =>
            simp only [hp] at hc ⊢
            have hcell : cell w j = some c := by unfold cell; rw [hj]; rfl
            by_cases hx : ∀ l, x ≠ .label l
            · have ih := ih (by cases x with | label l => exact absurd rfl (hx l) | _ => exact hc)
              obtain ⟨e1, e2⟩ := ctrl_label hp hx
              refine ⟨?_, ?_, ih.ciphers, set_full ih.full (v := some { c with app := b }) ?_ (lt_of hj)⟩
              · show w.apps = sum _ (w.ctxs.set j (some { c with app := b })); rw [sum_set _ _ _ _ _ hj, ih.apps]; simp [one]
              · show w.labels + taken x = sum _ (w.ctxs.set j (some { c with app := b })); rw [sum_set _ _ _ _ _ hj, ih.labels, e2]
                simp [one, hasLabel, e1]
              · intro c' h; cases h; rw [e1]; exact ih.full j c hcell
            · have hx' : ∃ l, x = .label l := by
                cases x with
                | label l => exact ⟨l, rfl⟩
                | _ => exact absurd (by intro l; simp) hx
              obtain ⟨l, rfl⟩ := hx'
              obtain ⟨h1, h2, y, z, rfl⟩ := hc
              have ih := ih h1
              have hR := rr j
              rw [hcell] at hR
              have hlab : c.app.label = none := by
                cases ha : asked tr j with
                | none => rw [ha] at hR; exact hR.elim
                | some a =>
                  rw [ha] at hR
                  obtain ⟨_, l, e, he⟩ := hR
                  have e' : c.app.label = l := by rw [e]; unfold appOf; split <;> rfl
                  rw [h2 a ha] at he
                  have := ih.full j c hcell
                  rw [e'] at this ⊢
                  cases l with
                  | none => rfl
                  | some l => simp only [Option.getD_some] at he; subst he; exact absurd rfl this
              cases hp
              refine ⟨?_, ?_, ih.ciphers, set_full ih.full (v := some { c with app := { c.app with label := some (y :: z) } }) ?_ (lt_of hj)⟩
              · show w.apps = sum _ (w.ctxs.set j (some { c with app := { c.app with label := some (y :: z) } })); rw [sum_set _ _ _ _ _ hj, ih.apps]; simp [one]
              · show w.labels + taken (.label (some (y :: z))) = sum _ (w.ctxs.set j (some { c with app := { c.app with label := some (y :: z) } }))
                rw [sum_set _ _ _ _ _ hj, ih.labels]
                simp [one, hasLabel, hlab, taken]
              · intro c' h; cases h; simp
    | copy j mem ml =>
      cases ml with
      | false => simp [careful] at hc
      | true =>
        simp only [step] at hc ⊢
        have ih := ih (by simpa [careful] using hc)
        cases hj : w.ctxs[j]? with
        | none => exact ih
        | some u =>
          cases u with
          | none => exact ih
          | some c =>
            have hcell : cell w j = some c := by unfold cell; rw [hj]; rfl
            cases mem with
            | false =>
              refine ⟨?_, ?_, ih.ciphers, none_full ih.full (v := none) (by simp)⟩
              · show w.apps = sum _ (w.ctxs ++ [none]); rw [sum_append, ih.apps]; simp [sum]
              · show w.labels = sum _ (w.ctxs ++ [none]); rw [sum_append, ih.labels]; simp [sum]
            | true =>
              have e : copy w c true true =
                  (⟨w.ctxs ++ [some { c with app := pkeyCopy c.app }], w.apps + 1, w.labels + hasLabel (pkeyCopy c.app), w.ciphers⟩, .made w.ctxs.length) := by simp [copy]
              simp only [e, copy_full c.app (ih.full j c hcell)]
              refine ⟨?_, ?_, ih.ciphers, none_full ih.full (v := some c) (by intro c' h; cases h; exact ih.full j c hcell)⟩
              · show w.apps + 1 = sum _ (w.ctxs ++ [some c]); rw [sum_append, ih.apps]; simp [sum]
              · show w.labels + hasLabel c.app = sum _ (w.ctxs ++ [some c]); rw [sum_append, ih.labels]; simp [sum]
    | decrypt j out m =>
      simp only [step] at hc ⊢
      have ih := ih (by simpa [careful] using hc)
      cases hj : w.ctxs[j]? with
      | none => exact ih
      | some u =>
        cases u with
        | none => exact ih
        | some c =>
          have e : (decrypt r c.app c.key out m).1 = 0 := by
            unfold decrypt
            cases out with
            | none => rfl
            | some size =>
              simp only
              split
              · rfl
              · cases r.init c.key.handle (decryptWith c.app) with
                | unsupported => rfl
                | error => rfl
                | ok _ =>
                  simp only
                  cases hq : r.process c.key.handle (decryptWith c.app) m with
                  | unsupported => exact absurd hq (hr _ _ _)
                  | error => rfl
                  | ok b => rfl
          refine ⟨ih.apps, ih.labels, ?_, ih.full⟩
          show w.ciphers + _ = 0
          rw [ih.ciphers, e]
    | free j =>
      simp only [step] at hc ⊢
      have ih := ih (by simpa [careful] using hc)
      cases hj : w.ctxs[j]? with
      | none => exact ih
      | some u =>
        cases u with
        | none => exact ih
        | some c =>
          refine ⟨?_, ?_, ih.ciphers, set_full ih.full (v := none) (by simp) (lt_of hj)⟩
          · show w.apps - 1 = sum _ (w.ctxs.set j none); rw [sum_set _ _ _ _ _ hj, ih.apps]; simp [one]
          · show w.labels - hasLabel c.app = sum _ (w.ctxs.set j none); rw [sum_set _ _ _ _ _ hj, ih.labels]; simp [one]

/-! ## Theorems -/

/-- **C93, encryption.**  OpenSSL is told to encrypt by the scheme that is meant by what was asked for last, whatever happened before; without a buffer the length is given.
Missing: OAEP without a digest for MGF1 (`C93_violated_mgf1`). -/
theorem C93_encrypt_partial (r : Rsa) {ops : List Op} {i : Nat} {a : Asked} (h : asked (run r ops).2 i = some a) (hk : IsRsa a.key) (hn : Named a)
    (m : Bytes) (size : Nat) :
    encryptAt r (run r ops).1 i (some size) m = some (result ((a.key.bits + 7) / 8) size (r.encrypt a.key.handle (meant a) m)) ∧
    encryptAt r (run r ops).1 i none m = some (.len ((a.key.bits + 7) / 8)) := by
  obtain ⟨l, hc, hl⟩ := found r h
  simp only [encryptAt, hc, Option.map_some, encrypt, meant_eq hk hl hn, result, rsaSize, and_true]
  split
  · rfl
  · cases r.encrypt a.key.handle (meant a) m <;> rfl

/-- **C93, decryption.**  The API is asked to decrypt by that scheme, in its numbers, and what it gives is given.
Missing: OAEP without a digest for MGF1, and other paddings (`C93_violated_padding`). -/
theorem C93_decrypt_partial (r : Rsa) {ops : List Op} {i : Nat} {a : Asked} (h : asked (run r ops).2 i = some a) (hk : IsRsa a.key) (hn : Named a)
    (hp : Known a) (m : Bytes) (size : Nat) (hs : (a.key.bits + 7) / 8 ≤ size) :
    ∃ s, Same (meant a) s ∧ (step r (run r ops).1 (.decrypt i (some size) m)).2 = .ret (
      if r.init a.key.handle s = .ok () then match r.process a.key.handle s m with
        | .ok b => if b.length > size then .fail else .wrote b
        | _ => .fail
      else .fail) := by
  obtain ⟨l, hc, hl⟩ := found r h
  refine ⟨decryptWith (appOf a l), ?_, ?_⟩
  · rw [← meant_eq hk hl hn]; exact same_eq hk rfl hp
  · have hc' : (run r ops).1.ctxs[i]? = some (some ⟨a.key, appOf a l⟩) := by
      cases hx : (run r ops).1.ctxs[i]? with
      | none => rw [hx] at hc; cases hc
      | some u => rw [hx] at hc; simp only [Option.join_some] at hc; rw [hc]
    simp only [step, hc', decrypt]
    rw [if_neg (by unfold rsaSize; omega)]
    cases r.init a.key.handle (decryptWith (appOf a l)) with
    | unsupported => simp
    | error => simp
    | ok _ => cases r.process a.key.handle (decryptWith (appOf a l)) m <;> simp

/-- **C93, round trip.**  If the API decrypts what OpenSSL encrypts by the same scheme, what was encrypted with a context can be decrypted with any context that
was asked for the same: itself, a copy, or one of another process; with PKCS #1 v1.5, and OAEP with any digests of the API, named or not. -/
theorem C93_roundtrip (r : Rsa) {ops ops' : List Op} {i j : Nat} {a : Asked} (h : asked (run r ops).2 i = some a) (h' : asked (run r ops').2 j = some a)
    (hk : IsRsa a.key) (hp : Known a)
    (hlaw : ∀ s t m x, Same s t → r.encrypt a.key.handle s m = some x → r.init a.key.handle t = .ok () ∧ r.process a.key.handle t x = .ok m)
    {m x : Bytes} {size size' : Nat} (he : encryptAt r (run r ops).1 i (some size) m = some (.wrote x))
    (hs : (a.key.bits + 7) / 8 ≤ size') (hm : m.length ≤ size') :
    (step r (run r ops').1 (.decrypt j (some size') x)).2 = .ret (.wrote m) := by
  obtain ⟨l, hc, hl⟩ := found r h
  obtain ⟨l', hc', hl'⟩ := found r h'
  simp only [encryptAt, hc, Option.map_some, Option.some.injEq, encrypt] at he
  split at he
  · cases he
  · cases hx : r.encrypt a.key.handle (encryptWith (appOf a l)) m with
    | none => rw [hx] at he; cases he
    | some y =>
      rw [hx] at he
      cases he
      obtain ⟨h1, h2⟩ := hlaw _ _ _ _ (same_eq (l := l) (l' := l') hk (by rw [hl, hl']) hp) hx
      have hc'' : (run r ops').1.ctxs[j]? = some (some ⟨a.key, appOf a l'⟩) := by
        cases hx : (run r ops').1.ctxs[j]? with
        | none => rw [hx] at hc'; cases hc'
        | some u => rw [hx] at hc'; simp only [Option.join_some] at hc'; rw [hc']
      simp only [step, hc'', decrypt]
      rw [if_neg (by unfold rsaSize; omega), h1, h2]
      simp only
      rw [if_neg (by omega)]

/-- **C93, releases.**  When all contexts have been freed, nothing is kept for them, neither by the engine nor by the API, in whatever order they were made, copied, used and
freed.  Missing: second labels (`C93_violated_label`), no memory for the label of a copy (`C93_violated_copy`), and an API that does not support RSA
decryption (`C93_violated_cipher`). -/
theorem C93_released_partial (r : Rsa) (hr : ∀ h s m, r.process h s m ≠ .unsupported) (ops : List Op) (hc : careful (run r ops).2)
    (hf : ∀ i, asked (run r ops).2 i = none) : (run r ops).1.apps = 0 ∧ (run r ops).1.labels = 0 ∧ (run r ops).1.ciphers = 0 := by
  have hk := kept_run r hr ops hc
  have hn : ∀ i : Nat, (run r ops).1.ctxs[i]?.join = none := by
    intro i
    have := right_run r ops i
    rw [hf i] at this
    unfold cell at this
    cases hx : (run r ops).1.ctxs[i]?.join with
    | none => rfl
    | some c => rw [hx] at this; exact this.elim
  exact ⟨by rw [hk.apps, sum_none _ _ hn], by rw [hk.labels, sum_none _ _ hn], hk.ciphers⟩

/-! ## Cases and violations -/

open Sa.Psig.C82 (rsa)
open Sa.Ek.C92 (rsa0)

/-- RSA that puts the label's length in front of a message and takes it away again. -/
def shift : Rsa where
  encrypt _ s m := some (match s with
    | .oaep _ _ l => UInt8.ofNat l.length :: m
    | _ => 0 :: m)
  init _ _ := .ok ()
  process _ s x := match s with
    | .oaep _ _ l => if x.head? = some (UInt8.ofNat l.length) then .ok x.tail else .error
    | _ => if x.head? = some 0 then .ok x.tail else .error

theorem shift_law (h : Nat) : ∀ s t m x, Same s t → shift.encrypt h s m = some x → shift.init h t = .ok () ∧ shift.process h t x = .ok m := by
  intro s t m x hs he
  cases hs with
  | pkcs1 => cases he; exact ⟨rfl, by simp [shift]⟩
  | oaep _ _ => cases he; exact ⟨rfl, by simp [shift]⟩

/-- OAEP with SHA-256, SHA-1 for MGF1 and a label; the copy is used after the first is freed. -/
def ops1 : List Op := [.free 0, .copy 0 true true, .ctrl 0 (.label (some [5, 6])), .ctrl 0 (.mgf1 (some 64)), .ctrl 0 (.oaepMd (some 672)), .ctrl 0 (.padding 4),
  .ctrl 0 (.padding 1), .new rsa true]

def asked2 : Asked := { key := rsa, pad := some 4, md := some (some 672), mgf1 := some 64, label := [5, 6] }

theorem asked2_known : Known asked2 := .inr ⟨rfl, ⟨672, 1, rfl, .sha256⟩, 64, 0, rfl, .sha1⟩

example : encryptAt shift (run shift ops1).1 1 (some 256) [9] = some (.wrote [2, 9]) ∧ encryptAt shift (run shift ops1).1 1 (some 255) [9] = some .fail := by
  have := fun size => (C93_encrypt_partial shift (ops := ops1) (i := 1) (a := asked2) (by decide +kernel) (by unfold IsRsa; decide)
    (fun _ => .inl (by decide)) [9] size).1
  exact ⟨this 256, this 255⟩

example : (step shift (run shift ops1).1 (.decrypt 1 (some 256) [2, 9])).2 = .ret (.wrote [9]) :=
  C93_roundtrip shift (ops := ops1.drop 2) (i := 0) (ops' := ops1) (a := asked2) (by decide +kernel) (by decide +kernel) (by unfold IsRsa; decide) asked2_known
    (shift_law 7) (m := [9]) (x := [2, 9]) (size := 256) (by decide +kernel) (by decide) (by decide)

example : ∃ s, Same (.oaep (some 672) (some 64) [5, 6]) s ∧ (step shift (run shift ops1).1 (.decrypt 1 (some 256) [3, 9])).2 = .ret
    (if shift.init 7 s = .ok () then match shift.process 7 s [3, 9] with
      | .ok b => if b.length > 256 then .fail else .wrote b
      | _ => .fail
    else .fail) :=
  C93_decrypt_partial shift (ops := ops1) (i := 1) (a := asked2) (by decide +kernel) (by unfold IsRsa; decide) (fun _ => .inl (by decide)) asked2_known [3, 9] 256 (by decide)

example : (run rsa0 (.free 1 :: .decrypt 1 (some 256) [1] :: ops1)).1.apps = 0 ∧ (run rsa0 (.free 1 :: .decrypt 1 (some 256) [1] :: ops1)).1.labels = 0 ∧
    (run rsa0 (.free 1 :: .decrypt 1 (some 256) [1] :: ops1)).1.ciphers = 0 := by
  refine C93_released_partial rsa0 (by intro h s m; simp [rsa0]) _ ?_ ?_
  · have e : (run rsa0 (.free 1 :: .decrypt 1 (some 256) [1] :: ops1)).2 =
      [(.free 1, .ok), (.decrypt 1 (some 256) [1], .ret (.wrote [1])), (.free 0, .ok), (.copy 0 true true, .made 1), (.ctrl 0 (.label (some [5, 6])), .ok),
       (.ctrl 0 (.mgf1 (some 64)), .ok), (.ctrl 0 (.oaepMd (some 672)), .ok), (.ctrl 0 (.padding 4), .ok), (.ctrl 0 (.padding 1), .ok), (.new rsa true, .made 0)] := by
      decide +kernel
    rw [e]
    refine ⟨trivial, fun a ha => ?_, 5, [6], rfl⟩
    cases ha
    rfl
  · intro i
    have e : (run rsa0 (.free 1 :: .decrypt 1 (some 256) [1] :: ops1)).2 =
      [(.free 1, .ok), (.decrypt 1 (some 256) [1], .ret (.wrote [1])), (.free 0, .ok), (.copy 0 true true, .made 1), (.ctrl 0 (.label (some [5, 6])), .ok),
       (.ctrl 0 (.mgf1 (some 64)), .ok), (.ctrl 0 (.oaepMd (some 672)), .ok), (.ctrl 0 (.padding 4), .ok), (.ctrl 0 (.padding 1), .ok), (.new rsa true, .made 0)] := by
      decide +kernel
    rw [e]
    simp only [asked]
    by_cases h1 : 1 = i
    · rw [if_pos h1]
    · by_cases h0 : 0 = i
      · subst h0; rfl
      · simp [h0, h1]

/-- **C93 is violated: padding.**  Another padding is encrypted as asked, but decrypted as PKCS #1 v1.5. -/
theorem C93_violated_padding : ∃ c, (run rsa0 [.ctrl 0 (.padding 3), .new rsa true]).1.ctxs = [some c] ∧
    encryptWith c.app = .other 3 ∧ decryptWith c.app = .pkcs1 :=
  ⟨⟨rsa, { pad := 3, salt := -2, md := some 64, mgf1 := some 64, label := none }⟩, by decide +kernel, by decide +kernel, by decide +kernel⟩

/-- **C93 is violated: MGF1.**  OAEP with SHA-256 and no digest named for MGF1: SHA-256 is meant, but SHA-1 is taken, to encrypt and to decrypt. -/
theorem C93_violated_mgf1 : ∃ a c, asked (run rsa0 [.ctrl 0 (.oaepMd (some 672)), .ctrl 0 (.padding 4), .new rsa true]).2 0 = some a ∧
    meant a = .oaep (some 672) (some 672) [] ∧
    (run rsa0 [.ctrl 0 (.oaepMd (some 672)), .ctrl 0 (.padding 4), .new rsa true]).1.ctxs = [some c] ∧
    encryptWith c.app = .oaep (some 672) (some 64) [] ∧ decryptWith c.app = .oaep (some 1) (some 0) [] :=
  ⟨{ key := rsa, pad := some 4, md := some (some 672) }, ⟨rsa, { pad := 4, salt := -2, md := some 672, mgf1 := some 64, label := none }⟩, by decide +kernel,
    by decide +kernel, by decide +kernel, by decide +kernel, by decide +kernel⟩

/-- **C93 is violated: labels.**  A label that is replaced is never released. -/
theorem C93_violated_label : let w := (run rsa0 [.free 0, .ctrl 0 (.label (some [2])), .ctrl 0 (.label (some [1])), .new rsa true]).1
    w.ctxs = [none] ∧ w.apps = 0 ∧ w.labels = 1 := by decide +kernel

/-- **C93 is violated: copies.**  A copy that fails without memory for the label leaves its data allocated. -/
theorem C93_violated_copy : let w := (run rsa0 [.free 0, .copy 0 true false, .ctrl 0 (.label (some [1])), .new rsa true]).1
    w.ctxs = [none, none] ∧ w.apps = 1 := by decide +kernel

/-- **C93 is violated: ciphers.**  When the API does not support a decryption, its context is never released. -/
theorem C93_violated_cipher : let w := (run { rsa0 with process := fun _ _ _ => .unsupported } [.free 0, .decrypt 0 (some 256) [1], .new rsa true]).1
    w.ctxs = [none] ∧ w.ciphers = 1 := by decide +kernel

end Sa.Ek.C93

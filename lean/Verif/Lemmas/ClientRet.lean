import Verif.Lemmas.ClientLib
import Verif.Model.ClientRet
import Verif.Props.C63

/-!
Reading what has been written into a command.
-/

namespace Sa.Cl
open Sa.Ta

theorem fld_slice (b : Bytes) (off n : Nat) : fld b off n = leNat (slice b off n) := rfl

theorem put_length (b : Bytes) (off : Nat) (w : Bytes) (h : off + w.length ≤ b.length) : (put b off w).length = b.length := by
  simp [put]
  omega

theorem slice_put (b : Bytes) (off : Nat) (w : Bytes) (h : off ≤ b.length) : slice (put b off w) off w.length = w := by
  unfold slice put
  rw [List.drop_append, List.drop_eq_nil_of_le (by rw [List.length_take]; omega), List.nil_append, List.length_take, Nat.min_eq_left h, Nat.sub_self, List.drop_zero,
    List.take_append_of_le_length (by omega), List.take_length]

theorem slice_put_before (b : Bytes) (off : Nat) (w : Bytes) (i n : Nat) (h : off + w.length ≤ b.length) (hi : i + n ≤ off) : slice (put b off w) i n = slice b i n := by
  unfold slice put
  rw [List.drop_append_of_le_length (by rw [List.length_take]; omega), List.take_append_of_le_length (by rw [List.length_drop, List.length_take]; omega),
    List.drop_take, List.take_take, Nat.min_eq_left (by omega)]

theorem slice_put_behind (b : Bytes) (off : Nat) (w : Bytes) (i n : Nat) (h : off + w.length ≤ b.length) (hi : off + w.length ≤ i) :
    slice (put b off w) i n = slice b i n := by
  unfold slice put
  rw [List.drop_append, List.drop_eq_nil_of_le (by rw [List.length_take]; omega), List.nil_append, List.length_take, Nat.min_eq_left (by omega), List.drop_append,
    List.drop_eq_nil_of_le (by omega), List.nil_append, List.drop_drop]
  congr 2
  omega

theorem fld_put (b : Bytes) (off v : Nat) (h : off ≤ b.length) (hv : v < 2 ^ 64) : fld (put b off (le 8 v)) off 8 = v := by
  have := slice_put b off (le 8 v) h
  rw [le_length] at this
  rw [fld_slice, this, leNat_le8 v hv]

theorem fld_put_before (b : Bytes) (off v i n : Nat) (h : off + 8 ≤ b.length) (hi : i + n ≤ off) : fld (put b off (le 8 v)) i n = fld b i n := by
  rw [fld_slice, fld_slice, slice_put_before _ _ _ _ _ (by rw [le_length]; exact h) hi]

theorem fld_put_behind (b : Bytes) (off v i n : Nat) (h : off + 8 ≤ b.length) (hi : off + 8 ≤ i) : fld (put b off (le 8 v)) i n = fld b i n := by
  rw [fld_slice, fld_slice, slice_put_behind _ _ _ _ _ (by rw [le_length]; exact h) (by rw [le_length]; exact hi)]

theorem take_put (b w : Bytes) : (put b 0 w).take w.length = w := by
  simp [put]

theorem wr_mem (q : TaParam) (off : Nat) (w b : Bytes) (h : q.mem = some b) : (wr q off w).mem = some (put b off w) := by simp [wr, h]
theorem wr_none (q : TaParam) (off : Nat) (w : Bytes) (h : q.mem = none) : (wr q off w).mem = none := by simp [wr, h]

/-- The number of the command. -/
def num : Call → Nat
  | .getVersion _ => 1 | .getName .. => 2 | .getDeviceId _ => 3 | .getTaUuid _ => 4 | .keyGenerate .. => 5 | .keyExport .. => 6 | .keyImport .. => 7
  | .keyUnwrap .. => 8 | .keyGetPublic .. => 9 | .keyDerive .. => 10 | .keyExchange .. => 11 | .keyRelease _ => 12 | .keyHeader _ => 13 | .keyDigest .. => 14
  | .random .. => 15 | .cipherInit .. => 16 | .cipherUpdateIv .. => 17 | .cipherProcess .. => 18 | .cipherProcessLast .. => 19 | .cipherRelease _ => 20
  | .macInit .. => 21 | .macProcess .. => 22 | .macProcessKey .. => 23 | .macCompute .. => 24 | .macRelease _ => 25 | .sign .. => 26 | .svpSupported => 27
  | .svpCreate .. => 29 | .svpRelease _ => 31 | .svpWrite .. => 32 | .svpCopy .. => 33 | .svpKeyCheck .. => 34 | .svpCheck .. => 35 | .cenc _ => 36

/-- The size of the command. -/
def cmdSize : Call → Nat
  | .getVersion _ => 40 | .getName .. => 16 | .getDeviceId _ => 16 | .getTaUuid _ => 17 | .keyGenerate .. => 640 | .keyExport .. => 24 | .keyImport .. => 24
  | .keyUnwrap .. => 648 | .keyGetPublic .. => 24 | .keyDerive .. => 632 | .keyExchange .. => 640 | .keyRelease _ => 16 | .keyHeader _ => 16 | .keyDigest .. => 32
  | .random .. => 1 | .cipherInit .. => 32 | .cipherUpdateIv .. => 16 | .cipherProcess .. => 56 | .cipherProcessLast .. => 56 | .cipherRelease _ => 16
  | .macInit .. => 40 | .macProcess .. => 16 | .macProcessKey .. => 24 | .macCompute .. => 24 | .macRelease _ => 16 | .sign .. => 48 | .svpSupported => 1
  | .svpCreate .. => 32 | .svpRelease _ => 32 | .svpWrite .. => 16 | .svpCopy .. => 24 | .svpKeyCheck .. => 40 | .svpCheck .. => 40 | .cenc _ => 88

/-- The command that is built for a call. -/
def Cmd (c : Call) (id : Nat) (p : Params) : Prop := id = num c ∧ ∃ b, (p 0).mem = some b ∧ b.length = cmdSize c

set_option hygiene false in
macro "build" : tactic => `(tactic| (
  simp only [Except.ok.injEq, Prod.mk.injEq] at h
  obtain ⟨rfl, rfl⟩ := h
  refine ⟨rfl, _, rfl, ?_⟩
  simp [CEnv.version, le_length, hj, cmdSize, hw]))

set_option hygiene false in
macro "builds" : tactic => `(tactic| (repeat' (split at h)) <;> first | (cases h; done) | build)

theorem cmd_of {e : CEnv} (hj : ∀ n, (e.junk n).length = n) {c : Call} (hw : C63.WF c) {id : Nat} {p : Params} (h : request e c = .ok (id, p)) : Cmd c id p := by
  cases c <;> simp only [C63.WF] at hw <;> simp only [request] at h
  case keyGenerate => simp only [keyGenerate] at h; builds
  case keyExport => simp only [keyExport] at h; builds
  case keyImport => simp only [keyImport] at h; builds
  case keyUnwrap => simp only [keyUnwrap] at h; builds
  case keyDerive => simp only [keyDerive] at h; builds
  case keyExchange => simp only [keyExchange] at h; builds
  case cipherInit => simp only [cipherInit] at h; builds
  case cipherProcess => simp only [cipherProcess] at h; builds
  case cipherProcessLast => simp only [cipherProcess] at h; builds
  case sign => simp only [sign] at h; builds
  case svpWrite => simp only [svpWrite] at h; builds
  case svpCopy => simp only [svpCopy] at h; builds
  case svpKeyCheck => simp only [svpKeyCheck] at h; builds
  case cenc =>
    simp only [cenc] at h
    split at h
    · cases h
    split at h
    · cases h
    rename_i iv hiv hl
    have hl : iv.length = 16 := by have := hw.1.2 iv hiv; omega
    builds
    simp [hl]
  all_goals builds

end Sa.Cl

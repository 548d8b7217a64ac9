import Verif.Model.TaCall

/-!
Fields of structures that are built from lists of fields.
-/

namespace Sa.Cl
open Sa.Ta

/-- The number of a little endian field. -/
def leNat (b : Bytes) : Nat := b.foldr (fun b acc => b.toNat + 256 * acc) 0

theorem le_length (n v : Nat) : (le n v).length = n := by
  induction n generalizing v with
  | zero => rfl
  | succ k ih => simp [le, ih]

theorem leNat_le (n v : Nat) (h : v < 256 ^ n) : leNat (le n v) = v := by
  induction n generalizing v with
  | zero => simp at h; subst h; rfl
  | succ k ih =>
    rw [Nat.pow_succ] at h
    have := ih (v / 256) (by omega)
    unfold leNat at this ⊢
    rw [le, List.foldr_cons, this, UInt8.toNat_ofNat']
    omega

theorem leNat_le8 (v : Nat) (h : v < 2 ^ 64) : leNat (le 8 v) = v := leNat_le 8 v h
theorem leNat_le4 (v : Nat) (h : v < 2 ^ 32) : leNat (le 4 v) = v := leNat_le 4 v h
theorem leNat_le1 (v : Nat) (h : v < 2 ^ 8) : leNat (le 1 v) = v := leNat_le 1 v h

theorem fld_skip (a : Bytes) (l : List Bytes) (off n : Nat) (h : a.length ≤ off) : fld ((a :: l).flatten) off n = fld l.flatten (off - a.length) n := by
  unfold fld
  rw [List.flatten_cons, List.drop_append, List.drop_eq_nil_of_le h, List.nil_append]

theorem fld_hit (a : Bytes) (l : List Bytes) (n : Nat) (h : a.length = n) : fld ((a :: l).flatten) 0 n = leNat a := by
  unfold fld leNat
  rw [List.flatten_cons, List.drop_zero, List.take_append_of_le_length (by omega), List.take_of_length_le (by omega)]

theorem slice_skip (a : Bytes) (l : List Bytes) (off n : Nat) (h : a.length ≤ off) : slice ((a :: l).flatten) off n = slice l.flatten (off - a.length) n := by
  unfold slice
  rw [List.flatten_cons, List.drop_append, List.drop_eq_nil_of_le h, List.nil_append]

theorem slice_hit (a : Bytes) (l : List Bytes) (n : Nat) (h : a.length = n) : slice ((a :: l).flatten) 0 n = a := by
  unfold slice
  rw [List.flatten_cons, List.drop_zero, List.take_append_of_le_length (by omega), List.take_of_length_le (by omega)]

theorem fld_app_skip (a b : Bytes) (off n : Nat) (h : a.length ≤ off) : fld (a ++ b) off n = fld b (off - a.length) n := by
  unfold fld
  rw [List.drop_append, List.drop_eq_nil_of_le h, List.nil_append]

theorem fld_app_hit (a b : Bytes) (n : Nat) (h : a.length = n) : fld (a ++ b) 0 n = leNat a := by
  unfold fld leNat
  rw [List.drop_zero, List.take_append_of_le_length (by omega), List.take_of_length_le (by omega)]

theorem fld_all (a : Bytes) (n : Nat) (h : a.length = n) : fld a 0 n = leNat a := by
  unfold fld leNat
  rw [List.drop_zero, List.take_of_length_le (by omega)]

theorem slice_app_skip (a b : Bytes) (off n : Nat) (h : a.length ≤ off) : slice (a ++ b) off n = slice b (off - a.length) n := by
  unfold slice
  rw [List.drop_append, List.drop_eq_nil_of_le h, List.nil_append]

theorem slice_app_hit (a b : Bytes) (n : Nat) (h : a.length = n) : slice (a ++ b) 0 n = a := by
  unfold slice
  rw [List.drop_zero, List.take_append_of_le_length (by omega), List.take_of_length_le (by omega)]

theorem slice_all (a : Bytes) (n : Nat) (h : a.length = n) : slice a 0 n = a := by
  unfold slice
  rw [List.drop_zero, List.take_of_length_le (by omega)]

/-- The table of offsets comes back. -/
theorem offsetsOf_table (l : List Offset) (hw : ∀ o ∈ l, o.WF) : offsetsOf ((l.map offsetBytes).flatten) l.length = l := by
  induction l with
  | nil => rfl
  | cons o l ih =>
    have h := ih fun x hx => hw x (List.mem_cons_of_mem _ hx)
    obtain ⟨h1, h2, h3⟩ := hw o List.mem_cons_self
    have hl : (offsetBytes o).length = 24 := by simp [offsetBytes, le_length]
    unfold offsetsOf at h ⊢
    rw [List.length_cons, List.range_succ_eq_map, List.map_cons, List.map_map, List.map_cons]
    congr 1    -- the rest is `h`, by computation
    · simp only [offsetBytes, List.flatten_cons, List.append_assoc, Nat.mul_zero, Nat.zero_add]
      rw [fld_app_hit _ _ _ (le_length _ _), fld_app_skip _ _ _ _ (by rw [le_length]; omega), le_length, Nat.sub_self, fld_app_hit _ _ _ (le_length _ _),
        fld_app_skip _ _ _ _ (by rw [le_length]; omega), le_length, fld_app_skip _ _ _ _ (by rw [le_length]; omega), le_length,
        fld_app_hit _ _ _ (le_length _ _), leNat_le8 _ h1, leNat_le8 _ h2, leNat_le8 _ h3]

/-- The table of subsamples comes back. -/
theorem subsOf_table (l : List (Nat × Nat)) (hw : ∀ o ∈ l, o.1 < 2 ^ 64 ∧ o.2 < 2 ^ 64) : subsOf ((l.map subBytes).flatten) l.length = l := by
  induction l with
  | nil => rfl
  | cons o l ih =>
    have h := ih fun x hx => hw x (List.mem_cons_of_mem _ hx)
    obtain ⟨h1, h2⟩ := hw o List.mem_cons_self
    have hl : (subBytes o).length = 16 := by simp [subBytes, le_length]
    unfold subsOf at h ⊢
    rw [List.length_cons, List.range_succ_eq_map, List.map_cons, List.map_map, List.map_cons]
    congr 1    -- the rest is `h`, by computation
    · simp only [subBytes, List.flatten_cons, List.append_assoc, Nat.mul_zero, Nat.zero_add]
      rw [fld_app_hit _ _ _ (le_length _ _), fld_app_skip _ _ _ _ (by rw [le_length]; omega), le_length, Nat.sub_self, fld_app_hit _ _ _ (le_length _ _),
        leNat_le8 _ h1, leNat_le8 _ h2]

theorem table_length {α : Type} (f : α → Bytes) (n : Nat) (hf : ∀ a, (f a).length = n) (l : List α) : ((l.map f).flatten).length = l.length * n := by
  induction l with
  | nil => simp
  | cons a l ih => rw [List.map_cons, List.flatten_cons, List.length_append, ih, hf, List.length_cons, Nat.succ_mul]; omega

end Sa.Cl

import Verif.Model.Layout

namespace Sa

theorem encodeU64_length (x : UInt64) : (encodeU64 x).length = 8 := rfl
theorem encodeU16_length (x : UInt16) : (encodeU16 x).length = 2 := rfl

theorem takeVec_append {n : Nat} (v : Vector UInt8 n) (rest : Bytes) : takeVec n (v.toList ++ rest) = (v, rest) := by
  unfold takeVec
  congr 1
  · apply Vector.ext
    intro i hi
    simp [List.getD, List.getElem?_append_left, hi]
  · rw [List.drop_append]; simp

theorem takeVec_append' {n : Nat} (l : Bytes) (h : l.length = n) (rest : Bytes) :
    takeVec n (l ++ rest) = (⟨l.toArray, by simpa using h⟩, rest) := by
  have := takeVec_append (⟨l.toArray, by simpa using h⟩ : Vector UInt8 n) rest
  simpa using this

theorem takeVec_toList {n : Nat} (bs : Bytes) (h : n ≤ bs.length) :
    (takeVec n bs).1.toList = bs.take n := by
  apply List.ext_getElem
  · simp; omega
  · intro i h1 h2
    simp [takeVec]
    rw [List.getElem?_eq_getElem (by simp at h1; omega)]
    simp

theorem takeVec_snd (n : Nat) (bs : Bytes) : (takeVec n bs).2 = bs.drop n := rfl

theorem takeVec_join {n : Nat} (bs : Bytes) (h : n ≤ bs.length) :
    (takeVec n bs).1.toList ++ (takeVec n bs).2 = bs := by
  rw [takeVec_toList bs h, takeVec_snd, List.take_append_drop]

theorem decodeU64_encode (x : UInt64) : decodeU64 ⟨(encodeU64 x).toArray, rfl⟩ = x := by
  apply UInt64.toNat_inj.mp
  have := x.toNat_lt
  simp [decodeU64, encodeU64]
  omega

theorem decodeU16_encode (x : UInt16) : decodeU16 ⟨(encodeU16 x).toArray, rfl⟩ = x := by
  apply UInt16.toNat_inj.mp
  have := x.toNat_lt
  simp [decodeU16, encodeU16]
  omega

theorem encodeU64_decode (v : Vector UInt8 8) : encodeU64 (decodeU64 v) = v.toList := by
  have hv : v.toList = [v[0], v[1], v[2], v[3], v[4], v[5], v[6], v[7]] := by
    apply List.ext_getElem
    · simp
    · intro i h1 h2
      have : i < 8 := by simpa using h1
      match i, this with
      | 0, _ | 1, _ | 2, _ | 3, _ | 4, _ | 5, _ | 6, _ | 7, _ => simp
  rw [hv]
  have h0 := (v[0]).toNat_lt; have h1 := (v[1]).toNat_lt; have h2 := (v[2]).toNat_lt; have h3 := (v[3]).toNat_lt
  have h4 := (v[4]).toNat_lt; have h5 := (v[5]).toNat_lt; have h6 := (v[6]).toNat_lt; have h7 := (v[7]).toNat_lt
  simp only [encodeU64, decodeU64]
  rw [UInt64.toNat_ofNat']
  simp only [List.cons.injEq, and_true]
  refine ⟨?_, ?_, ?_, ?_, ?_, ?_, ?_, ?_⟩ <;>
    (apply UInt8.toNat_inj.mp; rw [UInt8.toNat_ofNat']; omega)

theorem encodeU16_decode (v : Vector UInt8 2) : encodeU16 (decodeU16 v) = v.toList := by
  have hv : v.toList = [v[0], v[1]] := by
    apply List.ext_getElem
    · simp
    · intro i h1 h2
      have : i < 2 := by simpa using h1
      match i, this with
      | 0, _ | 1, _ => simp
  rw [hv]
  have h0 := (v[0]).toNat_lt; have h1 := (v[1]).toNat_lt
  simp only [encodeU16, decodeU16]
  rw [UInt16.toNat_ofNat']
  simp only [List.cons.injEq, and_true]
  refine ⟨?_, ?_⟩ <;>
    (apply UInt8.toNat_inj.mp; rw [UInt8.toNat_ofNat']; omega)

theorem flatten_drop (l : List Uuid) (i : Nat) (rest : Bytes) (hi : i ≤ l.length) :
    ((l.map Vector.toList).flatten ++ rest).drop (16 * i) = ((l.drop i).map Vector.toList).flatten ++ rest := by
  induction l generalizing i with
  | nil => simp at hi; subst hi; simp
  | cons a l ih =>
    cases i with
    | zero => simp
    | succ i =>
      simp only [List.map_cons, List.flatten_cons, List.append_assoc, List.drop_succ_cons]
      rw [show 16 * (i + 1) = a.toList.length + 16 * i by simp; omega, ← List.drop_drop, List.drop_left]
      exact ih i (by simpa using hi)

theorem uuidAt_flatten (l : List Uuid) (i : Nat) (hi : i < l.length) (rest : Bytes) :
    uuidAt ((l.map Vector.toList).flatten ++ rest) i = l[i] := by
  unfold uuidAt
  rw [flatten_drop l i rest (by omega), List.drop_eq_getElem_cons hi]
  simp only [List.map_cons, List.flatten_cons, List.append_assoc]
  rw [takeVec_append]

theorem flatten_length (l : List Uuid) : ((l.map Vector.toList).flatten).length = 16 * l.length := by
  induction l with
  | nil => simp
  | cons a l ih => simp only [List.map_cons, List.flatten_cons, List.length_append, ih]; simp; omega

theorem flatten_uuidAt (n : Nat) (bs : Bytes) (h : 16 * n ≤ bs.length) :
    (((List.ofFn fun i : Fin n => uuidAt bs i).map Vector.toList).flatten) = bs.take (16 * n) := by
  induction n generalizing bs with
  | zero => simp
  | succ n ih =>
    rw [List.ofFn_succ]
    simp only [List.map_cons, List.flatten_cons]
    have h0 : (uuidAt bs ((0 : Fin (n + 1)) : Nat)).toList = bs.take 16 := by
      simp only [uuidAt, Fin.val_zero, Nat.mul_zero, List.drop_zero]
      exact takeVec_toList bs (by omega)
    have h1 : (fun i : Fin n => uuidAt bs (i.succ : Fin (n + 1))) = fun i : Fin n => uuidAt (bs.drop 16) i := by
      funext i
      simp only [uuidAt, Fin.val_succ, List.drop_drop]
      congr 2
      congr 1
      omega
    rw [h0, h1, ih (bs.drop 16) (by simp; omega), show 16 * (n + 1) = 16 + 16 * n by omega, List.take_add]

theorem decodeRights_encode (r : Rights) (rest : Bytes) : decodeRights (encodeRights r ++ rest) = (r, rest) := by
  unfold decodeRights encodeRights
  simp only [List.append_assoc]
  rw [takeVec_append]
  simp only
  rw [takeVec_append' _ (encodeU64_length _)]
  simp only
  rw [takeVec_append' _ (encodeU64_length _)]
  simp only
  rw [takeVec_append' _ (encodeU64_length _)]
  simp only
  rw [takeVec_append' _ (encodeU64_length _)]
  simp only [decodeU64_encode]
  have hl := flatten_length r.allowedTas.toList
  simp only [Vector.length_toList] at hl
  refine Prod.ext ?_ ?_
  · cases r with
    | mk id a b c d tas =>
      simp only [Rights.mk.injEq, true_and]
      apply Vector.ext
      intro i hi
      simp only [Vector.getElem_ofFn]
      rw [uuidAt_flatten _ _ (by simpa using hi)]
      simp
  · rw [List.drop_append]; simp [hl]

theorem encodeRights_length (r : Rights) : (encodeRights r).length = 608 := by
  unfold encodeRights
  simp only [List.length_append, encodeU64_length, flatten_length, Vector.length_toList]

theorem encodeRights_decode (bs : Bytes) (h : 608 ≤ bs.length) :
    encodeRights (decodeRights bs).1 = bs.take 608 ∧ (decodeRights bs).2 = bs.drop 608 := by
  unfold decodeRights encodeRights
  simp only [encodeU64_decode, takeVec_snd]
  constructor
  · rw [takeVec_toList _ (by omega), takeVec_toList _ (by simp; omega), takeVec_toList _ (by simp; omega),
      takeVec_toList _ (by simp; omega), takeVec_toList _ (by simp; omega)]
    rw [Vector.toList_ofFn, flatten_uuidAt 32 _ (by simp; omega)]
    simp only [List.drop_drop]
    rw [← List.take_add, ← List.take_add, ← List.take_add, ← List.take_add, ← List.take_add]
  · simp only [List.drop_drop]

theorem encodeHeader_length (h : Header) : (encodeHeader h).length = 1672 := by
  unfold encodeHeader
  simp only [List.length_append, encodeU16_length, encodeRights_length, Vector.length_toList, List.length_singleton]

/-- Reading back a header written to memory. -/
theorem decodeHeader_encode (h : Header) (rest : Bytes) : decodeHeader (encodeHeader h ++ rest) = h := by
  unfold decodeHeader encodeHeader
  simp only [List.append_assoc]
  rw [takeVec_append]
  simp only
  rw [takeVec_append]
  simp only
  rw [decodeRights_encode]
  simp only
  rw [takeVec_append' (n := 1) [h.type] rfl]
  simp only
  rw [takeVec_append]
  simp only
  rw [takeVec_append]
  simp only
  rw [takeVec_append' _ (encodeU16_length _)]
  simp only
  rw [takeVec_append]
  simp only [decodeU16_encode]
  cases h; simp [Vector.get]

/-- Every 1672 bytes are the memory image of exactly one header: the padding is part of the model. -/
theorem encodeHeader_decode (bs : Bytes) (hb : 1672 ≤ bs.length) : encodeHeader (decodeHeader bs) = bs.take 1672 := by
  unfold decodeHeader encodeHeader
  simp only [encodeU16_decode, takeVec_snd, List.drop_drop]
  have hr := encodeRights_decode (bs.drop (4 + 4)) (by simp; omega)
  simp only [hr.1, hr.2, List.drop_drop]
  rw [takeVec_toList _ (by omega), takeVec_toList _ (by simp; omega), takeVec_toList _ (by simp; omega),
      takeVec_toList _ (by simp; omega), takeVec_toList _ (by simp; omega), takeVec_toList _ (by simp; omega)]
  have h1 : [(takeVec 1 (List.drop (4 + 4 + 608) bs)).1.get ⟨0, by decide⟩] = (bs.drop (4 + 4 + 608)).take 1 := by
    rw [← takeVec_toList (n := 1) _ (by simp; omega)]
    apply List.ext_getElem
    · simp
    · intro i h1 h2
      have : i = 0 := by simp at h1; omega
      subst this; simp [Vector.get]
  rw [h1]
  simp only [← List.take_add]

end Sa

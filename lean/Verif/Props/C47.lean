import Verif.Model.Iso8601

/-!
# C47: Validity dates in containers keep their meaning

The specification counts seconds with a clock: `tick` is the next second of the Gregorian calendar (without leap seconds).
-/

namespace Sa.C47

/-! ## Specification -/

def leap (y : Nat) : Bool := y % 4 == 0 && (y % 100 != 0 || y % 400 == 0)

/-- Number of days of a month. -/
def daysIn (y m : Nat) : Nat := if m = 2 then (if leap y then 29 else 28) else if m = 4 ∨ m = 6 ∨ m = 9 ∨ m = 11 then 30 else 31

/-- A real date and time. -/
def Real (t : Tm) : Prop := 1 ≤ t.mon ∧ t.mon ≤ 12 ∧ 1 ≤ t.mday ∧ t.mday ≤ daysIn t.year t.mon ∧ t.hour ≤ 23 ∧ t.min ≤ 59 ∧ t.sec ≤ 59

instance (t : Tm) : Decidable (Real t) := inferInstanceAs (Decidable (_ ∧ _))

/-- One second later. -/
def tick (t : Tm) : Tm :=
  if t.sec < 59 then { t with sec := t.sec + 1 }
  else if t.min < 59 then { t with sec := 0, min := t.min + 1 }
  else if t.hour < 23 then { t with sec := 0, min := 0, hour := t.hour + 1 }
  else if t.mday < daysIn t.year t.mon then { t with sec := 0, min := 0, hour := 0, mday := t.mday + 1 }
  else if t.mon < 12 then { t with sec := 0, min := 0, hour := 0, mday := 1, mon := t.mon + 1 }
  else { sec := 0, min := 0, hour := 0, mday := 1, mon := 1, year := t.year + 1 }

/-- The date `n` seconds after the beginning of 1970. -/
def clock : Nat → Tm
  | 0 => ⟨1970, 1, 1, 0, 0, 0⟩
  | n + 1 => tick (clock n)

/-- `a` is before `b`. -/
def Before (a b : Tm) : Prop :=
  a.year < b.year ∨ a.year = b.year ∧ (a.mon < b.mon ∨ a.mon = b.mon ∧ (a.mday < b.mday ∨ a.mday = b.mday ∧ (a.hour < b.hour ∨ a.hour = b.hour ∧
    (a.min < b.min ∨ a.min = b.min ∧ a.sec < b.sec))))

def digit (n : Nat) : UInt8 := UInt8.ofNat (48 + n % 10)
def two (n : Nat) : Bytes := [digit (n / 10), digit n]
/-- `YYYY-MM-DDTHH:MM:SS` -/
def text (t : Tm) : Bytes :=
  two (t.year / 100) ++ two t.year ++ [0x2d] ++ two t.mon ++ [0x2d] ++ two t.mday ++ [0x54] ++ two t.hour ++ [0x3a] ++ two t.min ++ [0x3a] ++ two t.sec

/-- What is assumed about `strptime`: it reads the canonical form of a real date and stops behind it.  Nothing is assumed for other strings. -/
def Good (strptime : Bytes → Option (Tm × Nat)) : Prop := ∀ t rest, Real t → t.year ≤ 9999 → strptime (text t ++ rest) = some (t, 19)

/-! ## Lemmas -/

theorem leap_iff (y : Nat) : leap y = true ↔ (y % 4 = 0 ∧ y % 100 ≠ 0 ∨ y % 400 = 0) := by
  simp only [leap, Bool.and_eq_true, beq_iff_eq, Bool.or_eq_true, bne_iff_ne, ne_eq]; omega

/-- Days of the year before a date. -/
def yd (t : Tm) : Nat := monthStart t.mon + (if leap t.year ∧ 2 < t.mon then 1 else 0) + (t.mday - 1)

theorem yday_eq (t : Tm) : tmYday t = yd t := by
  unfold tmYday yd
  by_cases h : leap t.year = true
  · simp only [h, (leap_iff _).mp h, true_and]
  · rw [if_neg (fun h' => h ((leap_iff t.year).mpr h'.1)), if_neg (fun h' => h h'.1)]

/-- First day of a year, counted from 1970. -/
def ys (y : Nat) : Int := ((y : Int) - 1970) * 365 + ((y : Int) - 1969) / 4 - ((y : Int) - 1901) / 100 + ((y : Int) - 1601) / 400

theorem timegm_eq (t : Tm) : timegm t = t.sec + t.min * 60 + t.hour * 3600 + ((yd t : Int) + ys t.year) * 86400 := by
  unfold timegm ys
  rw [yday_eq]
  omega

theorem ys_succ (y : Nat) : ys (y + 1) = ys y + 365 + if leap y then 1 else 0 := by
  have e4 : (((y + 1 : Nat) : Int) - 1969) / 4 = ((y : Int) - 1969) / 4 + if y % 4 = 0 then 1 else 0 := by split <;> omega
  have e100 : (((y + 1 : Nat) : Int) - 1901) / 100 = ((y : Int) - 1901) / 100 + if y % 100 = 0 then 1 else 0 := by split <;> omega
  have e400 : (((y + 1 : Nat) : Int) - 1601) / 400 = ((y : Int) - 1601) / 400 + if y % 400 = 0 then 1 else 0 := by split <;> omega
  have hl : ((if leap y then 1 else 0 : Int)) = (if y % 4 = 0 then 1 else 0) - (if y % 100 = 0 then 1 else 0) + (if y % 400 = 0 then 1 else 0) := by
    have h1 : y % 100 = 0 → y % 4 = 0 := by omega
    have h2 : y % 400 = 0 → y % 100 = 0 := by omega
    have h3 := leap_iff y
    by_cases a : y % 4 = 0 <;> by_cases b : y % 100 = 0 <;> by_cases c : y % 400 = 0 <;> simp_all
  unfold ys
  rw [e4, e100, e400, hl]
  omega

/-- Length of a year. -/
def yl (y : Nat) : Nat := if leap y then 366 else 365

theorem monthEnd (y m : Nat) (h1 : 1 ≤ m) (h2 : m < 12) :
    monthStart (m + 1) + (if leap y ∧ 2 < m + 1 then 1 else 0) = monthStart m + (if leap y ∧ 2 < m then 1 else 0) + daysIn y m := by
  have : m = 1 ∨ m = 2 ∨ m = 3 ∨ m = 4 ∨ m = 5 ∨ m = 6 ∨ m = 7 ∨ m = 8 ∨ m = 9 ∨ m = 10 ∨ m = 11 := by omega
  rcases this with rfl | rfl | rfl | rfl | rfl | rfl | rfl | rfl | rfl | rfl | rfl <;> (unfold daysIn; cases leap y <;> decide)

theorem yearEnd (y : Nat) : monthStart 12 + (if leap y ∧ 2 < 12 then 1 else 0) + daysIn y 12 = yl y := by
  unfold daysIn yl; cases leap y <;> decide

/-- Days of the year before month `m`. -/
def ms (y m : Nat) : Nat := monthStart m + (if leap y ∧ 2 < m then 1 else 0)

theorem ms_mono (y : Nat) : ∀ (k m : Nat), 1 ≤ m → m + 1 + k ≤ 12 → ms y m + daysIn y m ≤ ms y (m + 1 + k)
  | 0, m, h1, h2 => by have := monthEnd y m h1 (by omega); rw [Nat.add_zero]; unfold ms; omega
  | k + 1, m, h1, h2 => by
    have i := ms_mono y k m h1 (by omega)
    have e : ms y (m + 1 + (k + 1)) = ms y (m + 1 + k) + daysIn y (m + 1 + k) := monthEnd y (m + 1 + k) (by omega) (by omega)
    omega

theorem ms_last (y m : Nat) (h1 : 1 ≤ m) (h2 : m ≤ 12) : ms y m + daysIn y m ≤ yl y := by
  by_cases h : m = 12
  · subst h; exact Nat.le_of_eq (yearEnd y)
  · have := ms_mono y (11 - m) m h1 (by omega)
    rw [show m + 1 + (11 - m) = 12 by omega] at this
    have e : ms y 12 + daysIn y 12 = yl y := yearEnd y
    have : 1 ≤ daysIn y 12 := by unfold daysIn; simp
    omega

theorem yd_eq (t : Tm) : yd t = ms t.year t.mon + (t.mday - 1) := rfl

theorem yd_lt {t : Tm} (h : Real t) : yd t < yl t.year := by
  have := ms_last t.year t.mon h.1 h.2.1
  rw [yd_eq]
  have h3 := h.2.2.1
  have h4 := h.2.2.2.1
  omega

theorem ys_mono (y : Nat) : ∀ k, ys y + yl y ≤ ys (y + 1 + k)
  | 0 => by rw [Nat.add_zero, ys_succ]; unfold yl; split <;> simp <;> omega
  | k + 1 => by
    have := ys_mono y k
    rw [show y + 1 + (k + 1) = (y + 1 + k) + 1 by omega, ys_succ]
    split <;> omega

/-- Days since 1970. -/
def day (t : Tm) : Int := yd t + ys t.year

theorem day_mono {a b : Tm} (ha : Real a) (hb : Real b)
    (h : a.year < b.year ∨ a.year = b.year ∧ (a.mon < b.mon ∨ a.mon = b.mon ∧ a.mday < b.mday)) : day a < day b := by
  unfold day
  rcases h with h | ⟨h, h'⟩
  · have := yd_lt ha
    have := ys_mono a.year (b.year - a.year - 1)
    rw [show a.year + 1 + (b.year - a.year - 1) = b.year by omega] at this
    omega
  · rw [yd_eq, yd_eq, h]
    obtain ⟨a1, a2, a3, a4, _⟩ := ha
    obtain ⟨b1, b2, b3, b4, _⟩ := hb
    rcases h' with h' | ⟨h', h''⟩
    · have := ms_mono b.year (b.mon - a.mon - 1) a.mon (by omega) (by omega)
      rw [show a.mon + 1 + (b.mon - a.mon - 1) = b.mon by omega] at this
      rw [h] at a4
      omega
    · rw [h']; omega

theorem timegm_day (t : Tm) : timegm t = t.sec + t.min * 60 + t.hour * 3600 + day t * 86400 := timegm_eq t

theorem timegm_mono {a b : Tm} (ha : Real a) (hb : Real b) (h : Before a b) : timegm a < timegm b := by
  rw [timegm_day, timegm_day]
  obtain ⟨a1, a2, a3, a4, a5, a6, a7⟩ := id ha
  obtain ⟨b1, b2, b3, b4, b5, b6, b7⟩ := id hb
  by_cases hd : a.year < b.year ∨ a.year = b.year ∧ (a.mon < b.mon ∨ a.mon = b.mon ∧ a.mday < b.mday)
  · have := day_mono ha hb hd
    omega
  · unfold Before at h
    have e1 : a.year = b.year := by omega
    have e2 : a.mon = b.mon := by omega
    have e3 : a.mday = b.mday := by omega
    have : day a = day b := by unfold day yd; rw [e1, e2, e3]
    rw [this]
    clear a4 b4
    omega

theorem before_total (a b : Tm) : Before a b ∨ a = b ∨ Before b a := by
  rcases a with ⟨a1, a2, a3, a4, a5, a6⟩
  rcases b with ⟨b1, b2, b3, b4, b5, b6⟩
  simp only [Before, Tm.mk.injEq]
  omega

theorem timegm_inj {a b : Tm} (ha : Real a) (hb : Real b) (h : timegm a = timegm b) : a = b := by
  rcases before_total a b with h' | h' | h'
  · have := timegm_mono ha hb h'; omega
  · exact h'
  · have := timegm_mono hb ha h'; omega

theorem daysIn_pos (y m : Nat) : 1 ≤ daysIn y m := by unfold daysIn; split <;> split <;> omega

theorem tick_spec {t : Tm} (h : Real t) : Real (tick t) ∧ timegm (tick t) = timegm t + 1 := by
  obtain ⟨h1, h2, h3, h4, h5, h6, h7⟩ := h
  unfold tick
  simp only [timegm_day]
  split
  · exact ⟨⟨h1, h2, h3, h4, h5, h6, by simp only; omega⟩, by simp only [day, yd]; omega⟩
  split
  · exact ⟨⟨h1, h2, h3, h4, h5, by simp only; omega, by simp only; omega⟩, by simp only [day, yd]; omega⟩
  split
  · exact ⟨⟨h1, h2, h3, h4, by simp only; omega, by simp only; omega, by simp only; omega⟩, by simp only [day, yd]; omega⟩
  split
  · exact ⟨⟨h1, h2, by simp only; omega, by simp only; omega, by simp only; omega, by simp only; omega, by simp only; omega⟩, by simp only [day, yd]; omega⟩
  split
  · refine ⟨⟨by simp only; omega, by simp only; omega, Nat.le_refl _, daysIn_pos _ _, by simp only; omega, by simp only; omega, by simp only; omega⟩, ?_⟩
    have := monthEnd t.year t.mon h1 (by omega)
    simp only [day, yd]
    omega
  · refine ⟨⟨Nat.le_refl _, by simp only; omega, Nat.le_refl _, daysIn_pos _ _, by simp only; omega, by simp only; omega, by simp only; omega⟩, ?_⟩
    have hm : t.mon = 12 := by omega
    have e := yearEnd t.year
    have e2 := ys_succ t.year
    simp only [day, yd, hm] at *
    have : ((if leap t.year = true ∧ 2 < 12 then 1 else 0) : Nat) = if leap t.year = true then 1 else 0 := by simp
    have s1 : monthStart 1 = 0 := rfl
    have s2 : ¬ (2 < 1) := by omega
    simp only [s1, s2, and_false, if_false]
    unfold yl at e
    split at e2 <;> simp_all <;> omega

theorem clock_spec (n : Nat) : Real (clock n) ∧ timegm (clock n) = n := by
  induction n with
  | zero => exact ⟨by decide, by decide⟩
  | succ n ih =>
    obtain ⟨h1, h2⟩ := tick_spec ih.1
    exact ⟨h1, by show timegm (tick (clock n)) = _; rw [h2, ih.2]; omega⟩

theorem timegm_sign {t : Tm} (h : Real t) : 0 ≤ timegm t ↔ 1970 ≤ t.year := by
  have he : Real ⟨1970, 1, 1, 0, 0, 0⟩ := by decide
  have e0 : timegm ⟨1970, 1, 1, 0, 0, 0⟩ = 0 := by decide
  constructor
  · intro h0
    apply Classical.byContradiction
    intro hy
    have := timegm_mono h he (by unfold Before; simp only; omega)
    omega
  · intro hy
    rcases before_total t ⟨1970, 1, 1, 0, 0, 0⟩ with hb | rfl | hb
    · obtain ⟨h1, h2, h3, _⟩ := h
      unfold Before at hb
      simp only at hb
      omega
    · rw [e0]; omega
    · have := timegm_mono he h hb
      omega

/-- One second before 1970. -/
def lastSecond : Tm := ⟨1969, 12, 31, 23, 59, 59⟩

theorem timegm_minus_one {t : Tm} (h : Real t) : timegm t = -1 ↔ t = lastSecond :=
  ⟨fun he => timegm_inj h (by decide) (by rw [he]; decide), fun he => by rw [he]; decide⟩

theorem timegm_max {t : Tm} (h : Real t) (hy : t.year ≤ 9999) : timegm t < 2 ^ 63 := by
  have hb : Real ⟨10000, 1, 1, 0, 0, 0⟩ := by decide
  have := timegm_mono h hb (by unfold Before; simp only; omega)
  have e : timegm ⟨10000, 1, 1, 0, 0, 0⟩ = 253402300800 := by decide
  omega

theorem text_length (t : Tm) : (text t).length = 19 := rfl

theorem iso_eq {strptime : Bytes → Option (Tm × Nat)} (hg : Good strptime) {t : Tm} (h : Real t) (hy : t.year ≤ 9999) :
    iso8601ToEpochTime strptime (text t ++ [0x5a]) = if timegm t < 0 ∧ timegm t ≠ -1 then none else some (UInt64.ofInt (timegm t)) := by
  unfold iso8601ToEpochTime
  rw [if_neg (by simp [text_length]), hg t [0x5a] h hy]
  simp only
  rw [if_neg (by rw [List.getElem?_append_right (by rw [text_length]; omega), text_length]; decide)]

/-! ## The property -/

/-- **C47 (partial).**  For every real date with a year up to 9999, written in the canonical form, except the last second of 1969: the conversion
succeeds exactly if the date is not before 1970, and gives the number `n` such that the date is `n` seconds after the beginning of 1970.

Missing: the last second of 1969, for which the claim is false (`C47_violated`), and strings that are not in the canonical form (which depend on
`strptime`). -/
theorem C47_partial {strptime : Bytes → Option (Tm × Nat)} (hg : Good strptime) (t : Tm) (h : Real t) (hy : t.year ≤ 9999) (hl : t ≠ lastSecond) :
    (t.year < 1970 → iso8601ToEpochTime strptime (text t ++ [0x5a]) = none) ∧
    (1970 ≤ t.year → ∃ n, iso8601ToEpochTime strptime (text t ++ [0x5a]) = some n ∧ clock n.toNat = t) := by
  rw [iso_eq hg h hy]
  have hs := timegm_sign h
  have hm := timegm_minus_one h
  constructor
  · intro hlt
    rw [if_pos ⟨by omega, fun he => hl (hm.mp he)⟩]
  · intro hge
    rw [if_neg (by omega)]
    refine ⟨_, rfl, ?_⟩
    have hp : 0 ≤ timegm t := hs.mpr hge
    have hlt := timegm_max h hy
    have hn : ((UInt64.ofInt (timegm t)).toNat : Int) = timegm t := by
      obtain ⟨n, hn⟩ := Int.eq_ofNat_of_zero_le hp
      rw [hn] at hlt ⊢
      rw [UInt64.ofInt]
      have hmod : ((n : Int) % 2 ^ 64).toNat = n := by omega
      rw [hmod, UInt64.toNat_ofNat']
      omega
    obtain ⟨h1, h2⟩ := clock_spec (UInt64.ofInt (timegm t)).toNat
    exact timegm_inj h1 h (by rw [h2, hn])

/-- A later date gives a larger number, for dates from 1970 on. -/
theorem C47_monotone {strptime : Bytes → Option (Tm × Nat)} (hg : Good strptime) (a b : Tm) (ha : Real a) (hb : Real b) (hya : 1970 ≤ a.year)
    (hyb : b.year ≤ 9999) (hlt : Before a b) {m n : UInt64} (hm : iso8601ToEpochTime strptime (text a ++ [0x5a]) = some m)
    (hn : iso8601ToEpochTime strptime (text b ++ [0x5a]) = some n) : m < n := by
  have hab : a.year ≤ b.year := by unfold Before at hlt; omega
  have hne : ∀ t : Tm, 1970 ≤ t.year → t ≠ lastSecond := fun t ht he => by rw [he] at ht; simp [lastSecond] at ht
  obtain ⟨m', em, cm⟩ := (C47_partial hg a ha (by omega) (hne a hya)).2 hya
  obtain ⟨n', en, cn⟩ := (C47_partial hg b hb hyb (hne b (by omega))).2 (by omega)
  rw [hm, Option.some.injEq] at em
  rw [hn, Option.some.injEq] at en
  subst em en
  have := timegm_mono ha hb hlt
  rw [← cm, ← cn, (clock_spec _).2, (clock_spec _).2] at this
  rw [UInt64.lt_iff_toNat_lt]
  omega

/-- **C47 is violated** for one second before 1970: it is accepted and becomes the largest number, so that a key with this end of validity never expires. -/
theorem C47_violated {strptime : Bytes → Option (Tm × Nat)} (hg : Good strptime) :
    iso8601ToEpochTime strptime (text lastSecond ++ [0x5a]) = some 0xFFFFFFFFFFFFFFFF := by
  rw [iso_eq hg (by decide) (by decide)]
  decide

/-! ## A `strptime` with these properties, and examples -/

/-- Value of a digit. -/
def val (c : UInt8) : Nat := c.toNat - 48

/-- A strict reader of the canonical form. -/
def strict (s : Bytes) : Option (Tm × Nat) :=
  let v (i : Nat) := val ((s[i]?).getD 0)
  let t : Tm := ⟨v 0 * 1000 + v 1 * 100 + v 2 * 10 + v 3, v 5 * 10 + v 6, v 8 * 10 + v 9, v 11 * 10 + v 12, v 14 * 10 + v 15, v 17 * 10 + v 18⟩
  if Real t ∧ text t = s.take 19 then some (t, 19) else none

theorem val_digit (n : Nat) : val (digit n) = n % 10 := by
  unfold val digit
  rw [UInt8.toNat_ofNat']
  omega

theorem strict_good : Good strict := by
  intro t rest h hy
  have hd : daysIn t.year t.mon ≤ 31 := by unfold daysIn; split <;> split <;> omega
  obtain ⟨h1, h2, h3, h4, h5, h6, h7⟩ := id h
  have e : (⟨val (((text t ++ rest)[0]?).getD 0) * 1000 + val (((text t ++ rest)[1]?).getD 0) * 100 + val (((text t ++ rest)[2]?).getD 0) * 10 +
        val (((text t ++ rest)[3]?).getD 0),
      val (((text t ++ rest)[5]?).getD 0) * 10 + val (((text t ++ rest)[6]?).getD 0), val (((text t ++ rest)[8]?).getD 0) * 10 + val (((text t ++ rest)[9]?).getD 0),
      val (((text t ++ rest)[11]?).getD 0) * 10 + val (((text t ++ rest)[12]?).getD 0), val (((text t ++ rest)[14]?).getD 0) * 10 + val (((text t ++ rest)[15]?).getD 0),
      val (((text t ++ rest)[17]?).getD 0) * 10 + val (((text t ++ rest)[18]?).getD 0)⟩ : Tm) = t := by
    simp only [text, two, List.cons_append, List.nil_append, List.getElem?_cons_zero, List.getElem?_cons_succ, Option.getD_some, val_digit]
    rcases t with ⟨a, b, c, d, e, f⟩
    simp only at *
    simp only [Tm.mk.injEq]
    refine ⟨by omega, by omega, by omega, by omega, by omega, by omega⟩
  show (if Real _ ∧ text _ = _ then some (_, 19) else none) = _
  rw [e, if_pos ⟨h, rfl⟩]

/-- 29 February 2020, and a date that does not exist is normalised by `timegm`. -/
example : iso8601ToEpochTime strict (text ⟨2020, 2, 29, 12, 34, 56⟩ ++ [0x5a]) = some 1582979696 ∧ Real ⟨2020, 2, 29, 12, 34, 56⟩ ∧
    timegm ⟨2021, 2, 30, 0, 0, 0⟩ = timegm ⟨2021, 3, 2, 0, 0, 0⟩ := by decide
example : (iso8601ToEpochTime strict (text ⟨1969, 1, 1, 0, 0, 0⟩ ++ [0x5a])) = none := by decide

end Sa.C47

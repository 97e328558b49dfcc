import Verif.Model.ClockTime
import Verif.Spec.ClockTime

/-
C45, C46: clock-time and programme item numbers.
-/

namespace Redsea

theorem decPadded_two (v : Nat) (h : v < 100) : decPadded 2 v = twoDigits v := by
  have : ∀ v : Fin 100, decPadded 2 v.val = twoDigits v.val := by decide +kernel
  exact this ⟨v, h⟩

theorem decPadded_four (v : Nat) (h1 : 1800 ≤ v) (h2 : v < 2300) : decPadded 4 v = fourDigits v := by
  have : ∀ v : Fin 500, decPadded 4 (1800 + v.val) = fourDigits (1800 + v.val) := by decide +kernel
  have := this ⟨v - 1800, by omega⟩
  simp only [show 1800 + (v - 1800) = v by omega] at this
  exact this

theorem isLeap_iff (y : Int) : isLeap y = true ↔ LeapYear y := by
  unfold isLeap LeapYear
  simp only [Bool.and_eq_true, Bool.or_eq_true, beq_iff_eq, bne_iff_ne, ne_eq,
    Int.dvd_iff_emod_eq_zero]

theorem monthLength_eq (y : Int) (m : Nat) (h1 : 1 ≤ m) (h2 : m ≤ 12) :
    monthLength y m = daysInMonth y m := by
  have hl := isLeap_iff y
  by_cases hy : LeapYear y
  · have hb : isLeap y = true := hl.2 hy
    have : m = 1 ∨ m = 2 ∨ m = 3 ∨ m = 4 ∨ m = 5 ∨ m = 6 ∨ m = 7 ∨ m = 8 ∨ m = 9 ∨ m = 10 ∨ m = 11 ∨
      m = 12 := by omega
    rcases this with h | h | h | h | h | h | h | h | h | h | h | h <;> subst h <;>
      simp [monthLength, daysInMonth, commonMonths, hy, hb]
  · have hb : isLeap y = false := by
      rw [← Bool.not_eq_true]; exact fun h => hy (hl.1 h)
    have : m = 1 ∨ m = 2 ∨ m = 3 ∨ m = 4 ∨ m = 5 ∨ m = 6 ∨ m = 7 ∨ m = 8 ∨ m = 9 ∨ m = 10 ∨ m = 11 ∨
      m = 12 := by omega
    rcases this with h | h | h | h | h | h | h | h | h | h | h | h <;> subst h <;>
      simp [monthLength, daysInMonth, commonMonths, hy, hb]

/-- The next month begins where this one ends. -/
theorem daysBeforeMonth_succ (y : Int) (m : Nat) (h1 : 1 ≤ m) (h2 : m < 12) :
    daysBeforeMonth y (m + 1) = daysBeforeMonth y m + daysInMonth y m := by
  have : m = 1 ∨ m = 2 ∨ m = 3 ∨ m = 4 ∨ m = 5 ∨ m = 6 ∨ m = 7 ∨ m = 8 ∨ m = 9 ∨ m = 10 ∨ m = 11 := by
    omega
  by_cases hy : LeapYear y
  · rcases this with h | h | h | h | h | h | h | h | h | h | h <;> subst h <;>
      simp [daysBeforeMonth, daysInMonth, commonMonths, hy]
  · rcases this with h | h | h | h | h | h | h | h | h | h | h <;> subst h <;>
      simp [daysBeforeMonth, daysInMonth, commonMonths, hy]

/-- The first of January follows the 31st of December. -/
theorem newYear (y : Int) (d : Int) :
    modifiedJulianDay (y + 1) 1 d = modifiedJulianDay y 12 (d + 31) := by
  unfold modifiedJulianDay daysBeforeMonth commonMonths LeapYear
  simp only [Int.dvd_iff_emod_eq_zero]
  by_cases h : y % 4 = 0 ∧ (¬ y % 100 = 0 ∨ y % 400 = 0)
  · simp [h]
    omega
  · simp [h]
    omega

/-! ### Normalisation -/

theorem previousMonth_spec (t : Tm) (h1 : 1 ≤ t.month) (h2 : t.month ≤ 12)
    (hd : t.day < 1) (hd' : 0 ≤ t.day + 27) :
    ValidDate t.previousMonth.year t.previousMonth.month t.previousMonth.day ∧
    modifiedJulianDay t.previousMonth.year t.previousMonth.month t.previousMonth.day =
      modifiedJulianDay t.year t.month t.day ∧
    t.previousMonth.hour = t.hour ∧ t.previousMonth.minute = t.minute := by
  unfold Tm.previousMonth
  by_cases hm : t.month ≤ 1
  · rw [if_pos hm]
    have hm1 : t.month = 1 := by omega
    refine ⟨⟨by simp, by simp, ?_, ?_⟩, ?_, rfl, rfl⟩
    · show 1 ≤ t.day + 31; omega
    · show t.day + 31 ≤ (daysInMonth (t.year - 1) 12 : Int)
      simp [daysInMonth, commonMonths]; omega
    · show modifiedJulianDay (t.year - 1) 12 (t.day + 31) = _
      rw [← newYear, hm1]
      congr 1
      omega
  · rw [if_neg hm]
    obtain ⟨m, hm'⟩ : ∃ m, t.month = m + 1 := ⟨t.month - 1, by omega⟩
    have hm1 : t.month - 1 = m := by omega
    have hlen : 28 ≤ daysInMonth t.year m := by
      have : m = 1 ∨ m = 2 ∨ m = 3 ∨ m = 4 ∨ m = 5 ∨ m = 6 ∨ m = 7 ∨ m = 8 ∨ m = 9 ∨ m = 10 ∨ m = 11 := by
        omega
      rcases this with h | h | h | h | h | h | h | h | h | h | h <;> subst h <;>
        simp [daysInMonth, commonMonths]
    have hml : monthLength t.year m = daysInMonth t.year m := monthLength_eq _ _ (by omega) (by omega)
    refine ⟨⟨?_, ?_, ?_, ?_⟩, ?_, rfl, rfl⟩
    · show 1 ≤ t.month - 1; omega
    · show t.month - 1 ≤ 12; omega
    · show 1 ≤ t.day + (monthLength t.year (t.month - 1) : Int)
      rw [hm1, hml]; omega
    · show t.day + (monthLength t.year (t.month - 1) : Int) ≤ (daysInMonth t.year (t.month - 1) : Int)
      rw [hm1, hml]; omega
    · show modifiedJulianDay t.year (t.month - 1) (t.day + (monthLength t.year (t.month - 1) : Int)) = _
      rw [hm1, hml, hm']
      unfold modifiedJulianDay
      rw [daysBeforeMonth_succ _ _ (by omega) (by omega)]
      omega

theorem nextMonth_spec (t : Tm) (h1 : 1 ≤ t.month) (h2 : t.month ≤ 12)
    (hd : (monthLength t.year t.month : Int) < t.day)
    (hd' : t.day ≤ (monthLength t.year t.month : Int) + 28) :
    ValidDate t.nextMonth.year t.nextMonth.month t.nextMonth.day ∧
    modifiedJulianDay t.nextMonth.year t.nextMonth.month t.nextMonth.day =
      modifiedJulianDay t.year t.month t.day ∧
    t.nextMonth.hour = t.hour ∧ t.nextMonth.minute = t.minute := by
  have hml := monthLength_eq t.year t.month h1 h2
  unfold Tm.nextMonth
  simp only []
  by_cases hm : t.month ≥ 12
  · rw [if_pos hm]
    have hm1 : t.month = 12 := by omega
    have h31 : monthLength t.year t.month = 31 := by rw [hm1]; rfl
    refine ⟨⟨by simp, by simp, ?_, ?_⟩, ?_, rfl, rfl⟩
    · show 1 ≤ t.day - (monthLength t.year t.month : Int); omega
    · show t.day - (monthLength t.year t.month : Int) ≤ (daysInMonth (t.year + 1) 1 : Int)
      simp [daysInMonth, commonMonths]; omega
    · show modifiedJulianDay (t.year + 1) 1 (t.day - (monthLength t.year t.month : Int)) = _
      rw [newYear, h31, hm1]
      congr 1
      omega
  · rw [if_neg hm]
    have hlen : 28 ≤ daysInMonth t.year (t.month + 1) := by
      have : t.month = 1 ∨ t.month = 2 ∨ t.month = 3 ∨ t.month = 4 ∨ t.month = 5 ∨ t.month = 6 ∨
        t.month = 7 ∨ t.month = 8 ∨ t.month = 9 ∨ t.month = 10 ∨ t.month = 11 := by omega
      rcases this with h | h | h | h | h | h | h | h | h | h | h <;> rw [h] <;>
        simp [daysInMonth, commonMonths]
    refine ⟨⟨?_, ?_, ?_, ?_⟩, ?_, rfl, rfl⟩
    · show 1 ≤ t.month + 1; omega
    · show t.month + 1 ≤ 12; omega
    · show 1 ≤ t.day - (monthLength t.year t.month : Int); omega
    · show t.day - (monthLength t.year t.month : Int) ≤ (daysInMonth t.year (t.month + 1) : Int)
      omega
    · show modifiedJulianDay t.year (t.month + 1) (t.day - (monthLength t.year t.month : Int)) = _
      unfold modifiedJulianDay
      rw [daysBeforeMonth_succ _ _ (by omega) (by omega), ← hml]
      omega

/-- Normalisation keeps the point in time and yields a calendar date, for day numbers that are at
most one day off the calendar and offsets of less than a day. -/
theorem normalise_spec (t : Tm) (s : Int) (h1 : 1 ≤ t.month) (h2 : t.month ≤ 12)
    (hlo : 1 ≤ t.day) (hhi : t.day ≤ (daysInMonth t.year t.month : Int) + 1)
    (hm1 : -1440 ≤ t.hour * 60 + t.minute + s / 60) (hm2 : t.hour * 60 + t.minute + s / 60 < 2880) :
    let n := t.normalise s
    ValidDate n.year n.month n.day ∧ 0 ≤ n.hour ∧ n.hour < 24 ∧ 0 ≤ n.minute ∧ n.minute < 60 ∧
    (modifiedJulianDay n.year n.month n.day * 24 + n.hour) * 60 + n.minute =
      (modifiedJulianDay t.year t.month t.day * 24 + t.hour) * 60 + t.minute + s / 60 := by
  intro n
  have hml := monthLength_eq t.year t.month h1 h2
  generalize hmin : t.hour * 60 + t.minute + s / 60 = minutes at hm1 hm2
  have hq : -1 ≤ minutes / 1440 ∧ minutes / 1440 ≤ 1 := by omega
  have hmjd : modifiedJulianDay t.year t.month (t.day + minutes / 1440) =
      modifiedJulianDay t.year t.month t.day + minutes / 1440 := by
    unfold modifiedJulianDay; omega
  have hn : n =
      (if t.day + minutes / 1440 < 1 then
        Tm.previousMonth { t with day := t.day + minutes / 1440, hour := minutes % 1440 / 60
                                  minute := minutes % 1440 % 60 }
      else if t.day + minutes / 1440 > (monthLength t.year t.month : Int) then
        Tm.nextMonth { t with day := t.day + minutes / 1440, hour := minutes % 1440 / 60
                              minute := minutes % 1440 % 60 }
      else { t with day := t.day + minutes / 1440, hour := minutes % 1440 / 60
                    minute := minutes % 1440 % 60 }) := by
    show Tm.normalise t s = _
    unfold Tm.normalise
    simp only [hmin]
  split at hn
  · rename_i hlt
    obtain ⟨hv, hj, hh, hmm⟩ := previousMonth_spec
      { t with day := t.day + minutes / 1440, hour := minutes % 1440 / 60
               minute := minutes % 1440 % 60 } h1 h2 hlt
      (by show 0 ≤ t.day + minutes / 1440 + 27; omega)
    rw [← hn] at hv hj hh hmm
    change modifiedJulianDay n.year n.month n.day =
      modifiedJulianDay t.year t.month (t.day + minutes / 1440) at hj
    change n.hour = minutes % 1440 / 60 at hh
    change n.minute = minutes % 1440 % 60 at hmm
    refine ⟨hv, ?_, ?_, ?_, ?_, ?_⟩
    · omega
    · omega
    · omega
    · omega
    · rw [hj, hmjd, hh, hmm]; omega
  · split at hn
    · rename_i hlt hgt
      obtain ⟨hv, hj, hh, hmm⟩ := nextMonth_spec
        { t with day := t.day + minutes / 1440, hour := minutes % 1440 / 60
                 minute := minutes % 1440 % 60 } h1 h2 hgt
        (by show t.day + minutes / 1440 ≤ (monthLength t.year t.month : Int) + 28; omega)
      rw [← hn] at hv hj hh hmm
      change modifiedJulianDay n.year n.month n.day =
        modifiedJulianDay t.year t.month (t.day + minutes / 1440) at hj
      change n.hour = minutes % 1440 / 60 at hh
      change n.minute = minutes % 1440 % 60 at hmm
      refine ⟨hv, ?_, ?_, ?_, ?_, ?_⟩
      · omega
      · omega
      · omega
      · omega
      · rw [hj, hmjd, hh, hmm]; omega
    · rename_i hge hle
      have e1 : n.year = t.year := by rw [hn]
      have e2 : n.month = t.month := by rw [hn]
      have e3 : n.day = t.day + minutes / 1440 := by rw [hn]
      have e4 : n.hour = minutes % 1440 / 60 := by rw [hn]
      have e5 : n.minute = minutes % 1440 % 60 := by rw [hn]
      rw [e1, e2, e3, e4, e5]
      refine ⟨⟨h1, h2, by omega, by omega⟩, by omega, by omega, by omega, by omega, ?_⟩
      rw [hmjd]; omega

/-! ### The date formula -/

/-- Month and day of the day of a year that begins on 1 March, as the formula computes them. -/
def marchMonth (doy : Nat) : Nat := (100000 * doy + 12290000) / 3060010
def marchDay (doy : Nat) : Nat := doy + 123 - marchMonth doy * 306001 / 10000

theorem march_table (doy : Nat) (h : doy < 366) :
    marchMonth doy * 306001 / 10000 ≤ doy + 122 ∧
    ((4 ≤ marchMonth doy ∧ marchMonth doy ≤ 13 ∧
      (commonMonths.take (marchMonth doy - 2)).sum + marchDay doy = doy + 60 ∧
      marchDay doy ≤ commonMonths.getD (marchMonth doy - 2) 0) ∨
     (marchMonth doy = 14 ∧ marchDay doy + 305 = doy ∧ marchDay doy ≤ 31) ∨
     (marchMonth doy = 15 ∧ marchDay doy + 336 = doy ∧ marchDay doy ≤ 29)) := by
  have : ∀ doy : Fin 366,
      marchMonth doy.val * 306001 / 10000 ≤ doy.val + 122 ∧
      ((4 ≤ marchMonth doy.val ∧ marchMonth doy.val ≤ 13 ∧
        (commonMonths.take (marchMonth doy.val - 2)).sum + marchDay doy.val = doy.val + 60 ∧
        marchDay doy.val ≤ commonMonths.getD (marchMonth doy.val - 2) 0) ∨
       (marchMonth doy.val = 14 ∧ marchDay doy.val + 305 = doy.val ∧ marchDay doy.val ≤ 31) ∨
       (marchMonth doy.val = 15 ∧ marchDay doy.val + 336 = doy.val ∧ marchDay doy.val ≤ 29)) := by
    decide +kernel
  exact this ⟨doy, h⟩

theorem dateFromMjd_march (mjd : Nat) (h : 15079 ≤ mjd) :
    ∃ y doy : Nat, mjd = 15079 + y * 1461 / 4 + doy ∧ doy < 366 ∧ (doy = 365 → y % 4 = 3) ∧
      dateFromMjd mjd = if marchMonth doy = 14 ∨ marchMonth doy = 15
        then ((y : Int) + 1901, marchMonth doy - 13, (marchDay doy : Int))
        else ((y : Int) + 1900, marchMonth doy - 1, (marchDay doy : Int)) := by
  obtain ⟨t, rfl⟩ : ∃ t, mjd = 15079 + t := ⟨mjd - 15079, by omega⟩
  let y := (4 * t + 3) / 1461
  have hy : y = (4 * t + 3) / 1461 := rfl
  clear_value y
  refine ⟨y, t - y * 1461 / 4, by omega, by omega, by omega, ?_⟩
  generalize hd : t - y * 1461 / 4 = doy
  have hdoy : doy < 366 := by omega
  have h1 : (20 * (15079 + t) - 301564) / 7305 = y := by omega
  have h2 : (100000 * (15079 + t) - 1495610000 - 100000 * (y * 1461 / 4)) / 3060010 = marchMonth doy := by
    have e : 100000 * (15079 + t) - 1495610000 - 100000 * (y * 1461 / 4) = 100000 * doy + 12290000 := by
      omega
    rw [e]
    rfl
  have h3 := (march_table doy hdoy).1
  unfold dateFromMjd
  simp only [h1, h2]
  have h4 : ((15079 + t : Nat) : Int) - 14956 - ((y * 1461 / 4 : Nat) : Int) -
      ((marchMonth doy * 306001 / 10000 : Nat) : Int) = (marchDay doy : Int) := by
    have e : marchDay doy = doy + 123 - marchMonth doy * 306001 / 10000 := rfl
    rw [e]
    obtain ⟨z, hz⟩ : ∃ z, z = marchMonth doy * 306001 / 10000 := ⟨_, rfl⟩
    rw [← hz] at h3 ⊢
    omega
  rw [h4]
  have e1 : (y : Int) + 1 + 1900 = (y : Int) + 1901 := by omega
  rw [e1]
  rfl

/-- Leap days between 1900 and the middle of a year, and the end of a year, up to 2099. -/
theorem leapDays_table (y : Nat) (h : y < 200) :
    ((y : Int) + 1900 - 1) / 4 - ((y : Int) + 1900 - 1) / 100 + ((y : Int) + 1900 - 1) / 400 +
      (if LeapYear ((y : Int) + 1900) then 1 else 0) = 460 + (y / 4 : Nat) ∧
    ((y : Int) + 1901 - 1) / 4 - ((y : Int) + 1901 - 1) / 100 + ((y : Int) + 1901 - 1) / 400 =
      460 + (y / 4 : Nat) := by
  have : ∀ y : Fin 200,
    ((y.val : Int) + 1900 - 1) / 4 - ((y.val : Int) + 1900 - 1) / 100 + ((y.val : Int) + 1900 - 1) / 400 +
      (if LeapYear ((y.val : Int) + 1900) then 1 else 0) = 460 + (y.val / 4 : Nat) ∧
    ((y.val : Int) + 1901 - 1) / 4 - ((y.val : Int) + 1901 - 1) / 100 + ((y.val : Int) + 1901 - 1) / 400 =
      460 + (y.val / 4 : Nat) := by decide +kernel
  exact this ⟨y, h⟩

theorem dateFromMjd_spec (mjd : Nat) (h : 15079 ≤ mjd) (h' : mjd ≤ 88128) :
    let (y, m, d) := dateFromMjd mjd
    1900 ≤ y ∧ y ≤ 2100 ∧ 1 ≤ m ∧ m ≤ 12 ∧ 1 ≤ d ∧ d ≤ (daysInMonth y m : Int) + 1 ∧
    (mjd ≠ 88128 → d ≤ (daysInMonth y m : Int)) ∧
    modifiedJulianDay y m d = mjd := by
  obtain ⟨y, doy, hm, hdoy, hlast, he⟩ := dateFromMjd_march mjd h
  rw [he]
  have htab := march_table doy hdoy
  have hpos : 1 ≤ marchDay doy := by
    unfold marchDay
    generalize marchMonth doy * 306001 / 10000 = z at htab
    omega
  have hy : y < 200 := by omega
  rcases htab.2 with ⟨h1, h2, h3, h4⟩ | ⟨h1, h3, h4⟩ | ⟨h1, h3, h4⟩
  · rw [if_neg (by omega)]
    simp only []
    generalize marchMonth doy = m at *
    generalize marchDay doy = d at *
    have hle : (d : Int) ≤ (daysInMonth ((y : Int) + 1900) (m - 1) : Int) := by
      unfold daysInMonth
      rw [show m - 1 - 1 = m - 2 by omega]
      omega
    refine ⟨by omega, by omega, by omega, by omega, by omega, by omega, fun _ => hle, ?_⟩
    unfold modifiedJulianDay daysBeforeMonth
    rw [show m - 1 - 1 = m - 2 by omega]
    generalize (commonMonths.take (m - 2)).sum = z at h3
    have hlt := (leapDays_table y hy).1
    generalize ((y : Int) + 1900 - 1) / 4 = a at *
    generalize ((y : Int) + 1900 - 1) / 100 = b at *
    generalize ((y : Int) + 1900 - 1) / 400 = c at *
    by_cases hl : LeapYear ((y : Int) + 1900)
    · rw [if_pos hl] at hlt
      rw [if_pos ⟨by omega, hl⟩]
      omega
    · rw [if_neg hl] at hlt
      rw [if_neg (fun h => hl h.2)]
      omega
  · rw [if_pos (by omega), h1]
    simp only []
    generalize marchDay doy = d at *
    have e31 : daysInMonth ((y : Int) + 1901) (14 - 13) = 31 := rfl
    rw [e31]
    refine ⟨by omega, by omega, by omega, by omega, by omega, by omega, fun _ => by omega, ?_⟩
    have e0 : daysBeforeMonth ((y : Int) + 1901) (14 - 13) = 0 := rfl
    unfold modifiedJulianDay
    rw [e0]
    have hlt := (leapDays_table y hy).2
    generalize ((y : Int) + 1901 - 1) / 4 = a at *
    generalize ((y : Int) + 1901 - 1) / 100 = b at *
    generalize ((y : Int) + 1901 - 1) / 400 = c at *
    omega
  · rw [if_pos (by omega), h1]
    simp only []
    generalize marchDay doy = d at *
    have e28 : daysInMonth ((y : Int) + 1901) (15 - 13) =
        28 + if LeapYear ((y : Int) + 1901) then 1 else 0 := by
      simp [daysInMonth, commonMonths]
    rw [e28]
    have e0 : daysBeforeMonth ((y : Int) + 1901) (15 - 13) = 31 := rfl
    refine ⟨by omega, by omega, by omega, by omega, by omega, by omega, ?_, ?_⟩
    · intro hne
      by_cases hd29 : d = 29
      · have hy3 : y % 4 = 3 := hlast (by omega)
        have : LeapYear ((y : Int) + 1901) := by
          unfold LeapYear
          simp only [Int.dvd_iff_emod_eq_zero]
          omega
        rw [if_pos this]
        omega
      · omega
    · unfold modifiedJulianDay
      rw [e0]
      have hlt := (leapDays_table y hy).2
      generalize ((y : Int) + 1901 - 1) / 4 = a at *
      generalize ((y : Int) + 1901 - 1) / 100 = b at *
      generalize ((y : Int) + 1901 - 1) / 400 = c at *
      omega

/-! ### The fields of the group -/

theorem clockMjd_eq (g : Group) : getBits2 17 (g.get .b2) (g.get .b3) 1 = clockMjd g := by
  unfold getBits2 clockMjd clockBits
  have h3 := (g.get .b3).isLt
  have h4 := (g.get .b4).isLt
  rw [Nat.shiftRight_eq_div_pow]
  generalize (g.get .b2).toNat = a at *
  generalize (g.get .b3).toNat = b at *
  generalize (g.get .b4).toNat = c at *
  omega

theorem clockHour_eq (g : Group) : getBits2 5 (g.get .b3) (g.get .b4) 12 = clockHour g := by
  unfold getBits2 clockHour clockBits
  have h4 := (g.get .b4).isLt
  rw [Nat.shiftRight_eq_div_pow]
  generalize (g.get .b2).toNat = a at *
  generalize (g.get .b3).toNat = b at *
  generalize (g.get .b4).toNat = c at *
  omega

theorem clockMinute_eq (g : Group) : getBits 6 (g.get .b4) 6 = clockMinute g := by
  unfold getBits clockMinute clockBits
  rw [Nat.shiftRight_eq_div_pow]
  generalize (g.get .b2).toNat = a at *
  generalize (g.get .b3).toNat = b at *
  generalize (g.get .b4).toNat = c at *
  omega

theorem clockOffset_eq (g : Group) :
    (if getBool (g.get .b4) 5 then (-1 : Int) else 1) * (getBits 5 (g.get .b4) 0 : Int) = clockOffset g := by
  unfold getBool getBits clockOffset clockBits
  rw [Nat.shiftRight_eq_div_pow, Nat.shiftRight_eq_div_pow]
  generalize (g.get .b2).toNat = a
  generalize (g.get .b3).toNat = b
  generalize (g.get .b4).toNat = c
  have h1 : (a % 4 * 2 ^ 32 + b * 2 ^ 16 + c) / 2 ^ 5 % 2 = c / 2 ^ 5 % 2 := by omega
  have h2 : (a % 4 * 2 ^ 32 + b * 2 ^ 16 + c) % 32 = c % 32 := by omega
  rw [h1, h2]
  have h3 : c / 2 ^ 0 % 2 ^ 5 = c % 32 := by omega
  rw [h3]
  generalize c % 32 = z
  by_cases h : c / 2 ^ 5 % 2 = 1
  · rw [if_pos h]
    have hb : (c / 2 ^ 5 % 2 ^ 1 != 0) = true := by
      rw [bne_iff_ne]; omega
    rw [hb]
    simp
  · rw [if_neg h]
    have hb : (c / 2 ^ 5 % 2 ^ 1 != 0) = false := by
      rw [bne_eq_false_iff_eq]; omega
    rw [hb]
    simp

theorem clockOffset_bound (g : Group) : (clockOffset g).natAbs < 32 := by
  unfold clockOffset
  split <;> omega

/-- The whole function in terms of the transmitted fields. -/
theorem decodeType4A_eq (g : Group) (h3 : g.has .b3) (h4 : g.has .b4) :
    decodeType4A g =
      if clockMjd g < 15079 then .invalid
      else if clockHour g ≤ 23 ∧ clockMinute g ≤ 59 ∧ (clockOffset g).natAbs / 2 ≤ 14 then
        .time (clockString (Tm.normalise
          { year := (dateFromMjd (clockMjd g)).1, month := (dateFromMjd (clockMjd g)).2.1
            day := (dateFromMjd (clockMjd g)).2.2, hour := (clockHour g : Int)
            minute := (clockMinute g : Int) } (clockOffset g * 1800)) (clockOffset g))
      else .invalid := by
  unfold decodeType4A
  rw [h3, h4, clockMjd_eq, clockHour_eq, clockMinute_eq, clockOffset_eq]
  simp only [Bool.and_self, Bool.not_true, Bool.false_eq_true, if_false]

theorem clockString_eq (t : Tm) (offset : Int) (ho : offset.natAbs < 32) (y m d h min : Nat)
    (hy : t.year = y) (hy1 : 1800 ≤ y) (hy2 : y < 2300) (hm : t.month = m) (hm' : m < 100)
    (hd : t.day = d) (hd' : d < 100) (hh : t.hour = h) (hh' : h < 100) (hi : t.minute = min)
    (hi' : min < 100) : clockString t offset = isoTime y m d h min offset := by
  unfold clockString isoTime
  have e : ∀ n : Nat, ((n : Int)).toNat = n := fun n => rfl
  simp only [hy, hm, hd, hh, hi, e]
  rw [decPadded_four _ hy1 hy2, decPadded_two _ hm', decPadded_two _ hd', decPadded_two _ hh',
    decPadded_two _ hi', decPadded_two (offset.natAbs / 2) (by omega)]
  by_cases h0 : offset = 0
  · subst h0
    simp
  · rw [if_neg (by omega), if_neg h0]
    have hr : decPadded 2 (offset.natAbs % 2 * 30) =
        if offset.natAbs % 2 = 1 then ascii "30" else ascii "00" := by
      have : offset.natAbs % 2 = 0 ∨ offset.natAbs % 2 = 1 := by omega
      rcases this with h | h <;> rw [h] <;> decide +kernel
    rw [hr]
    simp only [List.append_assoc]

/-! ### C45 -/

/-- C45 (missing blocks): without block 3 or block 4, no clock-time is printed. -/
theorem C45_missing_block (g : Group) (h : ¬ (g.has .b3 ∧ g.has .b4)) :
    decodeType4A g = .nothing := by
  unfold decodeType4A
  rw [if_pos]
  rcases Bool.eq_false_or_eq_true (g.has .b3) with h1 | h1 <;>
    rcases Bool.eq_false_or_eq_true (g.has .b4) with h2 | h2 <;> simp_all

/-- C45 (validity): the group is reported as invalid if and only if its day number lies before
1 March 1900, or hour, minute or offset is out of range. This holds for all day numbers. -/
theorem C45_invalid_iff (g : Group) (h3 : g.has .b3) (h4 : g.has .b4) :
    decodeType4A g = .invalid ↔
      clockMjd g < 15079 ∨ 23 < clockHour g ∨ 59 < clockMinute g ∨ 29 < (clockOffset g).natAbs := by
  rw [decodeType4A_eq g h3 h4]
  split
  · rename_i h
    simp [h]
  · rename_i h
    split
    · rename_i h'
      constructor
      · intro h; cases h
      · omega
    · rename_i h'
      constructor
      · intro _; omega
      · intro _; rfl

/-- C45: a 4A group with valid fields and a day number from 1 March 1900 (15079) up to 1 March 2100
(88128) is printed as the local calendar date and time that correspond to day number, UTC time and
offset; the text is that of ISO 8601. Missing: later day numbers, for which the claim does not
hold (`C45_clock_time_violated`). -/
theorem C45_clock_time_partial (g : Group) (h3 : g.has .b3) (h4 : g.has .b4)
    (hlo : 15079 ≤ clockMjd g) (hhi : clockMjd g ≤ 88128)
    (hh : clockHour g ≤ 23) (hm : clockMinute g ≤ 59) (ho : (clockOffset g).natAbs ≤ 29) :
    ∃ text, decodeType4A g = .time text ∧
      ShowsLocalTime text (clockMjd g) (clockHour g) (clockMinute g) (clockOffset g) := by
  rw [decodeType4A_eq g h3 h4, if_neg (by omega), if_pos ⟨hh, hm, by omega⟩]
  refine ⟨_, rfl, ?_⟩
  have hob := clockOffset_bound g
  have hspec := dateFromMjd_spec (clockMjd g) hlo hhi
  generalize clockMjd g = mjd at *
  generalize clockHour g = hour at *
  generalize clockMinute g = minute at *
  generalize clockOffset g = offset at *
  obtain ⟨⟨y, m, d⟩, hdate⟩ : ∃ x, dateFromMjd mjd = x := ⟨_, rfl⟩
  rw [hdate] at hspec ⊢
  simp only [] at hspec ⊢
  obtain ⟨hy1, hy2, hm1, hm2, hd1, hd2, -, hj⟩ := hspec
  have hn := normalise_spec { year := y, month := m, day := d, hour := (hour : Int)
                              minute := (minute : Int) } (offset * 1800) hm1 hm2 hd1 hd2
    (by show -1440 ≤ (hour : Int) * 60 + (minute : Int) + offset * 1800 / 60; omega)
    (by show (hour : Int) * 60 + (minute : Int) + offset * 1800 / 60 < 2880; omega)
  obtain ⟨t, ht⟩ : ∃ t, t = Tm.normalise
    { year := y, month := m, day := d, hour := (hour : Int), minute := (minute : Int) }
    (offset * 1800) := ⟨_, rfl⟩
  rw [← ht] at hn ⊢
  simp only [] at hn
  obtain ⟨hv, hh0, hh1, hi0, hi1, heq⟩ := hn
  obtain ⟨hv1, hv2, hv3, hv4⟩ := hv
  rw [hj] at heq
  have hdays : (daysInMonth t.year t.month : Int) ≤ 31 := by
    have : ∀ k, k ≤ 12 → daysInMonth t.year k ≤ 31 := by
      intro k hk
      have : k = 0 ∨ k = 1 ∨ k = 2 ∨ k = 3 ∨ k = 4 ∨ k = 5 ∨ k = 6 ∨ k = 7 ∨ k = 8 ∨ k = 9 ∨ k = 10 ∨
        k = 11 ∨ k = 12 := by omega
      rcases this with h | h | h | h | h | h | h | h | h | h | h | h | h <;> subst h <;>
        simp [daysInMonth, commonMonths]
      split <;> omega
    have := this _ hv2
    omega
  -- the year, from the day number
  have hyear : 1800 ≤ t.year ∧ t.year < 2300 := by
    have hb : (daysBeforeMonth t.year t.month : Int) ≤ 400 := by
      have : ∀ k, k ≤ 12 → daysBeforeMonth t.year k ≤ 400 := by
        intro k hk
        unfold daysBeforeMonth
        have h1 : (commonMonths.take (k - 1)).sum ≤ 365 := by
          have : ∀ k : Fin 13, (commonMonths.take (k.val - 1)).sum ≤ 365 := by decide +kernel
          exact this ⟨k, by omega⟩
        split <;> omega
      have := this _ hv2
      omega
    have hb0 : 0 ≤ (daysBeforeMonth t.year t.month : Int) := by omega
    unfold modifiedJulianDay at heq
    generalize (daysBeforeMonth t.year t.month : Int) = z at *
    constructor <;> omega
  refine ⟨t.year.toNat, t.month, t.day.toNat, t.hour.toNat, t.minute.toNat, ?_, by omega, ?_, ?_, ?_, ?_⟩
  · apply clockString_eq t offset (by omega) <;> omega
  · have e1 : ((t.year.toNat : Nat) : Int) = t.year := by omega
    have e2 : ((t.day.toNat : Nat) : Int) = t.day := by omega
    rw [e1, e2]
    exact ⟨hv1, hv2, hv3, hv4⟩
  · omega
  · omega
  · have e1 : ((t.year.toNat : Nat) : Int) = t.year := by omega
    have e2 : ((t.day.toNat : Nat) : Int) = t.day := by omega
    have e3 : ((t.hour.toNat : Nat) : Int) = t.hour := by omega
    have e4 : ((t.minute.toNat : Nat) : Int) = t.minute := by omega
    rw [e1, e2, e3, e4, heq]
    omega

/-- A group of type 4A with all four blocks. -/
def clockGroup (b2 b3 b4 : Word) : Group where
  type := { number := 4, version := .A }
  hasType := true
  block1 := { data := 0x6201, isReceived := true, offset := .A }
  block2 := { data := b2, isReceived := true, offset := .B }
  block3 := { data := b3, isReceived := true, offset := .C }
  block4 := { data := b4, isReceived := true, offset := .D }

-- 31 December 2016, 23:59 UTC in a zone two hours ahead
example :
    let g := clockGroup 0x4001 0xC333 0x7EC4
    clockMjd g = 57753 ∧ clockHour g = 23 ∧ clockMinute g = 59 ∧ clockOffset g = 4 ∧
    g.has .b3 ∧ g.has .b4 ∧ decodeType4A g = .time (ascii "2017-01-01T01:59:00+02:00") := by
  decide +kernel

-- the day that the formula takes for 29 February 2100, half an hour behind
example :
    let g := clockGroup 0x4002 0xB080 0x21
    clockMjd g = 88128 ∧ clockHour g = 0 ∧ clockMinute g = 0 ∧ clockOffset g = -1 ∧
    decodeType4A g = .time (ascii "2100-02-28T23:30:00-00:30") := by
  decide +kernel

-- the first day of the formula
example :
    let g := clockGroup 0x4000 0x75CE 0x1023
    clockMjd g = 15079 ∧ clockHour g = 1 ∧ clockOffset g = -3 ∧
    decodeType4A g = .time (ascii "1900-02-28T23:30:00-01:30") := by
  decide +kernel

theorem twoDigits_inj (v w : Nat) (hv : v < 100) (hw : w < 100) (h : twoDigits v = twoDigits w) :
    v = w := by
  unfold twoDigits at h
  simp only [List.cons.injEq, and_true] at h
  have h1 := congrArg BitVec.toNat h.1
  have h2 := congrArg BitVec.toNat h.2
  simp only [BitVec.toNat_ofNat] at h1 h2
  omega

/-- The text of a local time determines date and time. -/
theorem isoTime_inj (y m d h min y' m' d' h' min' : Nat) (o : Int)
    (hy : y < 10000) (hm : m < 100) (hd : d < 100)
    (hy' : y' < 10000) (hm' : m' < 100) (hd' : d' < 100)
    (he : isoTime y m d h min o = isoTime y' m' d' h' min' o) : y = y' ∧ m = m' ∧ d = d' := by
  unfold isoTime fourDigits at he
  simp only [List.append_assoc] at he
  have lenT : ∀ v, (twoDigits v).length = 2 := fun _ => rfl
  have h1 := List.append_inj he (by rw [lenT, lenT])
  have h2 := List.append_inj h1.2 (by rw [lenT, lenT])
  have h3 := List.append_inj h2.2 rfl
  have h4 := List.append_inj h3.2 (by rw [lenT, lenT])
  have h5 := List.append_inj h4.2 rfl
  have h6 := List.append_inj h5.2 (by rw [lenT, lenT])
  have e1 := twoDigits_inj _ _ (by omega) (by omega) h1.1
  have e2 := twoDigits_inj _ _ (by omega) (by omega) h2.1
  have e3 := twoDigits_inj _ _ hm hm' h4.1
  have e4 := twoDigits_inj _ _ hd hd' h6.1
  omega

/-- C45 does not hold for the later part of the 17-bit day numbers: the formula takes 2100 for a
leap year. The day after 1 March 2100 (88129) is printed as 1 March. -/
theorem C45_clock_time_violated :
    ∃ g : Group, g.has .b3 ∧ g.has .b4 ∧ 15079 ≤ clockMjd g ∧ clockHour g ≤ 23 ∧
      clockMinute g ≤ 59 ∧ (clockOffset g).natAbs ≤ 29 ∧
      ∃ text, decodeType4A g = .time text ∧
        ¬ ShowsLocalTime text (clockMjd g) (clockHour g) (clockMinute g) (clockOffset g) := by
  refine ⟨clockGroup 0x4002 0xB082 0, by decide, by decide, by decide +kernel, by decide +kernel,
    by decide +kernel, by decide +kernel, isoTime 2100 3 1 0 0 0, by decide +kernel, ?_⟩
  have e1 : clockMjd (clockGroup 0x4002 0xB082 0) = 88129 := by decide +kernel
  have e2 : clockHour (clockGroup 0x4002 0xB082 0) = 0 := by decide +kernel
  have e3 : clockMinute (clockGroup 0x4002 0xB082 0) = 0 := by decide +kernel
  have e4 : clockOffset (clockGroup 0x4002 0xB082 0) = 0 := by decide +kernel
  rw [e1, e2, e3, e4]
  rintro ⟨y, m, d, h, min, he, hy, ⟨hm1, hm2, hd1, hd2⟩, hh, hmin, heq⟩
  have hd : d < 100 := by
    have hk : ∀ k, k ≤ 12 → daysInMonth y k ≤ 40 := by
      intro k hk
      unfold daysInMonth
      have h1 : commonMonths.getD (k - 1) 0 ≤ 31 := by
        have : ∀ k : Fin 13, commonMonths.getD (k.val - 1) 0 ≤ 31 := by decide +kernel
        exact this ⟨k, by omega⟩
      split <;> omega
    have := hk m hm2
    omega
  obtain ⟨ey, em, ed⟩ := isoTime_inj _ _ _ _ _ _ _ _ _ _ _ (by omega) (by omega) (by omega) hy (by omega) hd he
  subst ey em ed
  have hj : modifiedJulianDay (2100 : Nat) 3 (1 : Nat) = 88128 := by decide +kernel
  rw [hj] at heq
  omega

/-- A fraction with denominator `D` whose remainder keeps the distance `δ` from 0 and `D` has the
same floor as all rationals nearer than `δ/D`. -/
theorem floor_stable (N Y r D δ p q : Int) (hN : N = D * Y + r) (hD : 0 < D) (hr : δ ≤ r)
    (hr' : r + δ ≤ D) (hq : 0 < q) (h1 : -(δ * q) < D * p - N * q) (h2 : D * p - N * q < δ * q) :
    p / q = Y := by
  have a1 : δ * q ≤ r * q := Int.mul_le_mul_of_nonneg_right hr (Int.le_of_lt hq)
  have a2 : (r + δ) * q ≤ D * q := Int.mul_le_mul_of_nonneg_right hr' (Int.le_of_lt hq)
  have a3 : N * q = D * (Y * q) + r * q := by rw [hN, Int.add_mul, Int.mul_assoc]
  rw [Int.add_mul] at a2
  have b1 : D * (Y * q) < D * p := by omega
  have b2 : D * p < D * ((Y + 1) * q) := by
    have : D * ((Y + 1) * q) = D * (Y * q) + D * q := by rw [Int.add_mul, Int.one_mul, Int.mul_add]
    omega
  have c1 : Y * q < p := Int.lt_of_mul_lt_mul_left b1 (Int.le_of_lt hD)
  have c2 : p < (Y + 1) * q := Int.lt_of_mul_lt_mul_left b2 (Int.le_of_lt hD)
  have d1 : Y ≤ p / q := (Int.le_ediv_iff_mul_le hq).2 (Int.le_of_lt c1)
  have d2 : p / q < Y + 1 := (Int.ediv_lt_iff_lt_mul hq).2 c2
  omega

theorem month_margin (doy : Nat) (h : doy < 366) :
    9000 ≤ (100000 * doy + 12290000) % 3060010 ∧
    (100000 * doy + 12290000) % 3060010 + 9000 ≤ 3060010 ∧
    4 ≤ (marchMonth doy * 306001) % 10000 ∧ (marchMonth doy * 306001) % 10000 + 4 ≤ 10000 := by
  have : ∀ doy : Fin 366, 9000 ≤ (100000 * doy.val + 12290000) % 3060010 ∧
    (100000 * doy.val + 12290000) % 3060010 + 9000 ≤ 3060010 ∧
    4 ≤ (marchMonth doy.val * 306001) % 10000 ∧ (marchMonth doy.val * 306001) % 10000 + 4 ≤ 10000 := by
    decide +kernel
  exact this ⟨doy, h⟩

/-- C45 (floating point): the code evaluates the three truncated quotients with doubles. Each of
them is so far from the next integer (by 1/7305, 9000/3060010 and 4/10000) that any rational
approximation within that distance is truncated to the value that the model uses. Doubles of this
size are accurate to about 10^-10. -/
theorem C45_float_margin (mjd year days month : Nat) (hlo : 15079 ≤ mjd)
    (hyear : year = (20 * mjd - 301564) / 7305) (hdays : days = year * 1461 / 4)
    (hmonth : month = (100000 * mjd - 1495610000 - 100000 * days) / 3060010)
    (p q : Int) (hq : 0 < q) :
    (-q < 7305 * p - (20 * mjd - 301564) * q ∧ 7305 * p - (20 * mjd - 301564) * q < q →
      p / q = year) ∧
    (-(9000 * q) < 3060010 * p - (100000 * mjd - 1495610000 - 100000 * days) * q ∧
      3060010 * p - (100000 * mjd - 1495610000 - 100000 * days) * q < 9000 * q → p / q = month) ∧
    (-(4 * q) < 10000 * p - 306001 * month * q ∧ 10000 * p - 306001 * month * q < 4 * q →
      p / q = (month * 306001 / 10000 : Nat)) := by
  obtain ⟨doy, hdoy⟩ : ∃ doy, mjd = 15079 + days + doy := ⟨mjd - 15079 - days, by omega⟩
  have hdoy' : doy < 366 := by omega
  have hm : month = marchMonth doy := by
    have e : 100000 * mjd - 1495610000 - 100000 * days = 100000 * doy + 12290000 := by omega
    rw [hmonth, e]
    rfl
  have hmargin := month_margin doy hdoy'
  refine ⟨?_, ?_, ?_⟩
  · rintro ⟨h1, h2⟩
    refine floor_stable (20 * mjd - 301564) year ((20 * mjd - 301564) - 7305 * year) 7305 1 p q
      (by omega) (by omega) (by omega) (by omega) hq (by rw [Int.one_mul]; exact h1)
      (by rw [Int.one_mul]; exact h2)
  · rintro ⟨h1, h2⟩
    have e : 100000 * mjd - 1495610000 - 100000 * days = 100000 * doy + 12290000 := by omega
    rw [e] at hmonth
    refine floor_stable (100000 * mjd - 1495610000 - 100000 * days) month
      ((100000 * mjd - 1495610000 - 100000 * days) - 3060010 * month) 3060010 9000 p q
      (by omega) (by omega) (by omega) (by omega) hq h1 h2
  · rintro ⟨h1, h2⟩
    rw [← hm] at hmargin
    refine floor_stable (306001 * month) (month * 306001 / 10000 : Nat)
      (306001 * month - 10000 * (month * 306001 / 10000 : Nat)) 10000 4 p q
      (by omega) (by omega) (by omega) (by omega) hq h1 h2

-- an approximation of the year quotient for 31 December 2016, good to 10^-6
example : -(1000000 : Int) < 7305 * 116837235 - (20 * (57753 : Nat) - 301564) * 1000000 ∧
    7305 * 116837235 - (20 * ((57753 : Nat) : Int) - 301564) * 1000000 < 1000000 ∧
    (116837235 : Int) / 1000000 = ((20 * 57753 - 301564) / 7305 : Nat) := by decide +kernel

/-! ### C46 -/

/-- C46: for all 65536 programme item numbers. A PIN with a day, an hour up to 23 and a minute up to
59 is reported, with its number, day and time of day. A reported PIN has a day, an hour of at most
24 and a minute of at most 59, and the report shows its fields. Missing: the hour 24 is accepted
(`C46_pin_violated`). -/
theorem C46_pin_partial (pin : Word) :
    (1 ≤ pinDay pin ∧ pinHour pin ≤ 23 ∧ pinMinute pin ≤ 59 → (decodePIN pin).isSome) ∧
    (∀ out, decodePIN pin = some out → 1 ≤ pinDay pin ∧ pinDay pin ≤ 31 ∧ pinHour pin ≤ 24 ∧
      pinMinute pin ≤ 59 ∧ out.number = pin ∧ out.day = pinDay pin ∧
      out.time = twoDigits (pinHour pin) ++ ascii ":" ++ twoDigits (pinMinute pin)) := by
  have hd : getBits 5 pin 11 = pinDay pin := by
    unfold getBits pinDay
    have := pin.isLt
    rw [Nat.shiftRight_eq_div_pow]
    omega
  have hh : getBits 5 pin 6 = pinHour pin := by
    unfold getBits pinHour
    rw [Nat.shiftRight_eq_div_pow]
  have hm : getBits 6 pin 0 = pinMinute pin := by
    unfold getBits pinMinute
    rw [Nat.shiftRight_eq_div_pow]
    omega
  have hd31 : pinDay pin ≤ 31 := by
    unfold pinDay
    have := pin.isLt
    omega
  unfold decodePIN
  simp only [hd, hh, hm]
  constructor
  · rintro ⟨h1, h2, h3⟩
    rw [if_pos ⟨h1, by omega, h3⟩]
    rfl
  · intro out ho
    split at ho
    · rename_i hc
      cases ho
      refine ⟨hc.1, hd31, hc.2.1, hc.2.2, rfl, rfl, ?_⟩
      show getHoursMinutesString _ _ = _
      unfold getHoursMinutesString
      rw [decPadded_two _ (by omega), decPadded_two _ (by omega)]
    · cases ho

-- the 20th, 19:30
example : decodePIN 0xA4DE = some { number := 0xA4DE, day := 20, time := ascii "19:30" } := by
  decide +kernel

-- no day; minute 60
example : decodePIN 0x04DE = none ∧ decodePIN 0xA4FC = none := by decide +kernel

/-- C46 does not hold for the hour 24, which is not an hour of the day: it is reported as 24:00. -/
theorem C46_pin_violated :
    ∃ pin out, decodePIN pin = some out ∧ ¬ pinHour pin ≤ 23 ∧ out.time = ascii "24:59" := by
  exact ⟨0x0E3B, { number := 0x0E3B, day := 1, time := ascii "24:59" }, by decide +kernel,
    by decide +kernel, rfl⟩

end Redsea

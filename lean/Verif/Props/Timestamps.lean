import Verif.Model.Timestamp
import Verif.Lemmas.Tactics
/-
C36: timestamps.
-/
namespace Sadl.Props
open Sadl

namespace Spec
/-- the fields denote an existing date and time of day -/
def ValidCivil (t : Civil) : Prop :=
  1 ≤ t.month ∧ t.month ≤ 12 ∧ 1 ≤ t.day ∧ t.day ≤ daysIn t.month t.year ∧
  t.hour < 24 ∧ t.minute < 60 ∧ t.second < 60 ∧ t.nano < 1000000000

/-- days before the first of the month, counted from March -/
def dayNumber (y : Int) (m d : Nat) : Int :=
  let y' := if m ≤ 2 then y - 1 else y
  let mp : Int := (m + 9) % 12
  365 * y' + y' / 4 - y' / 100 + y' / 400 + (153 * mp + 2) / 5 + d

/-- the instant a civil time denotes, in nanoseconds from a fixed origin -/
def instant (t : Civil) : Int :=
  (dayNumber t.year t.month t.day * 86400 + t.hour * 3600 + t.minute * 60 + t.second - t.offset) * 1000000000
    + t.nano

/-- `time.Time.IsZero` -/
def isZero (t : Civil) : Bool :=
  decide (instant t = instant { year := 1, month := 1, day := 1, hour := 0, minute := 0, second := 0, nano := 0 })
end Spec

theorem isDigit_digitChar {d : Nat} (h : d < 10) : isDigitC (digitChar d) = true := by
  interval_cases d <;> decide

theorem digitVal_digitChar {d : Nat} (h : d < 10) : digitVal (digitChar d) = d := by
  interval_cases d <;> decide

theorem showNat_lt10 {n : Nat} (h : n < 10) : showNat n = [digitChar n] := by
  simp [showNat, decAux, h]

theorem decAux_two {n k : Nat} (h : 10 ≤ n) (h2 : n < 100) :
    decAux (k + 2) n = [digitChar (n / 10), digitChar (n % 10)] := by
  have h1 : ¬ n < 10 := by omega
  have h3 : n / 10 < 10 := by omega
  simp [decAux, h1, h3]

theorem showNat_lt100 {n : Nat} (h : 10 ≤ n) (h2 : n < 100) :
    showNat n = [digitChar (n / 10), digitChar (n % 10)] := by
  obtain ⟨k, rfl⟩ : ∃ k, n = k + 1 := ⟨n - 1, by omega⟩
  exact decAux_two h h2

theorem decAux_three {n k : Nat} (h : 100 ≤ n) (h2 : n < 1000) :
    decAux (k + 3) n = [digitChar (n / 100), digitChar (n / 10 % 10), digitChar (n % 10)] := by
  have h1 : ¬ n < 10 := by omega
  rw [decAux, if_neg h1, decAux_two (by omega) (by omega)]
  have : n / 10 / 10 = n / 100 := by omega
  simp [this]

theorem showNat_lt1000 {n : Nat} (h : 100 ≤ n) (h2 : n < 1000) :
    showNat n = [digitChar (n / 100), digitChar (n / 10 % 10), digitChar (n % 10)] := by
  obtain ⟨k, rfl⟩ : ∃ k, n = k + 2 := ⟨n - 2, by omega⟩
  exact decAux_three h h2

theorem showNat_4 {n : Nat} (h : 1000 ≤ n) (h2 : n < 10000) :
    showNat n = [digitChar (n / 1000), digitChar (n / 100 % 10), digitChar (n / 10 % 10), digitChar (n % 10)] := by
  obtain ⟨k, rfl⟩ : ∃ k, n = k + 3 := ⟨n - 3, by omega⟩
  rw [showNat, decAux, if_neg (by omega), decAux_three (by omega) (by omega)]
  have e1 : (k + 3) / 10 / 100 = (k + 3) / 1000 := by omega
  have e2 : (k + 3) / 10 / 10 % 10 = (k + 3) / 100 % 10 := by omega
  simp [e1, e2]

theorem showPad2 {n : Nat} (h : n < 100) : showPad 2 n = [digitChar (n / 10), digitChar (n % 10)] := by
  by_cases h1 : n < 10
  · have e : n / 10 = 0 := by omega
    have e2 : n % 10 = n := by omega
    rw [showPad, showNat_lt10 h1, e, e2]
    rfl
  · rw [showPad, showNat_lt100 (by omega) h]; rfl

theorem showPad3 {n : Nat} (h : n < 1000) :
    showPad 3 n = [digitChar (n / 100), digitChar (n / 10 % 10), digitChar (n % 10)] := by
  by_cases h1 : n < 10
  · have e : n / 10 = 0 := by omega
    have e2 : n % 10 = n := by omega
    have e3 : n / 100 = 0 := by omega
    rw [showPad, showNat_lt10 h1, e, e2, e3]
    rfl
  · by_cases h2 : n < 100
    · have e3 : n / 100 = 0 := by omega
      have e4 : n / 10 % 10 = n / 10 := by omega
      rw [showPad, showNat_lt100 (by omega) h2, e3, e4]; rfl
    · rw [showPad, showNat_lt1000 (by omega) h]; rfl

theorem getnum_show (fixed : Bool) {n : Nat} (h : n < 100) (r : List Char) :
    getnum fixed (digitChar (n / 10) :: digitChar (n % 10) :: r) = some (n, r) := by
  have h1 : n / 10 < 10 := by omega
  have h2 : n % 10 < 10 := by omega
  simp only [getnum, isDigit_digitChar h1, isDigit_digitChar h2, digitVal_digitChar h1, digitVal_digitChar h2,
    if_true, Option.some.injEq, Prod.mk.injEq, and_true]
  omega

theorem getYear_show {n : Nat} (h : n < 10000) (r : List Char) :
    getYear (digitChar (n / 1000) :: digitChar (n / 100 % 10) :: digitChar (n / 10 % 10) :: digitChar (n % 10) :: r)
      = some (n, r) := by
  have h1 : n / 1000 < 10 := by omega
  have h2 : n / 100 % 10 < 10 := by omega
  have h3 : n / 10 % 10 < 10 := by omega
  have h4 : n % 10 < 10 := by omega
  simp only [getYear, isDigit_digitChar h1, isDigit_digitChar h2, isDigit_digitChar h3, isDigit_digitChar h4,
    digitVal_digitChar h1, digitVal_digitChar h2, digitVal_digitChar h3, digitVal_digitChar h4,
    Bool.and_self, if_true, Option.some.injEq, Prod.mk.injEq, and_true]
  omega

theorem getFrac_show {n : Nat} (h : n < 1000) (c : Char) (r : List Char) (hz : isDigitC c = false) :
    getFrac ('.' :: digitChar (n / 100) :: digitChar (n / 10 % 10) :: digitChar (n % 10) :: c :: r)
      = (n * 1000000, c :: r) := by
  have h1 : n / 100 < 10 := by omega
  have h3 : n / 10 % 10 < 10 := by omega
  have h4 : n % 10 < 10 := by omega
  simp only [getFrac, isDigit_digitChar h1, isDigit_digitChar h3, isDigit_digitChar h4, true_or, and_self, if_true,
    List.takeWhile, List.dropWhile, hz, fracVal, digitVal_digitChar h1, digitVal_digitChar h3, digitVal_digitChar h4,
    Prod.mk.injEq, and_true]
  omega

theorem parseLayout_show (t : Civil) (hv : Spec.ValidCivil t) (hy1 : 1000 ≤ t.year) (hy2 : t.year ≤ 9999) :
    parseLayout (showInt t.year ++ '-' :: showPad 2 t.month ++ '-' :: showPad 2 t.day ++ 'T' :: showPad 2 t.hour
      ++ ':' :: showPad 2 t.minute ++ ':' :: showPad 2 t.second ++ '.' :: showPad 3 (t.nano / 1000000) ++ ['Z'])
      = some { t with nano := t.nano / 1000000 * 1000000, offset := 0 } := by
  obtain ⟨m1, m2, d1, d2, h, mi, s, n⟩ := hv
  have dd : daysIn t.month t.year ≤ 31 := by
    unfold daysIn
    split
    · split <;> omega
    all_goals omega
  obtain ⟨y, hy⟩ : ∃ y : Nat, t.year = y := ⟨t.year.toNat, by omega⟩
  have hyn : showInt t.year = showNat y := by
    unfold showInt
    rw [if_neg (by omega), hy]; rfl
  have ym : (y : Int) = t.year := hy.symm
  rw [hyn, showNat_4 (by omega) (by omega), showPad2 (by omega), showPad2 (by omega), showPad2 (by omega),
    showPad2 (by omega), showPad2 (by omega), showPad3 (by omega)]
  simp only [List.cons_append, List.nil_append, List.append_assoc]
  have c1 : ¬ (t.month < 1 ∨ 12 < t.month) := by omega
  have c2 : ¬ 24 ≤ t.hour := by omega
  have c3 : ¬ 60 ≤ t.minute := by omega
  have c4 : ¬ 60 ≤ t.second := by omega
  have c5 : ¬ (t.day < 1 ∨ daysIn t.month t.year < t.day) := by omega
  simp only [parseLayout, Option.bind_eq_bind, getYear_show (show y < 10000 by omega), Option.bind_some, literal, if_true,
    getnum_show true (show t.month < 100 by omega), getnum_show true (show t.day < 100 by omega),
    getnum_show false (show t.hour < 100 by omega), getnum_show true (show t.minute < 100 by omega),
    getnum_show true (show t.second < 100 by omega), getFrac_show (show t.nano / 1000000 < 1000 by omega) 'Z' [] (by decide),
    if_neg c1, if_neg c2, if_neg c3, if_neg c4, ym, if_neg c5, ne_eq, not_true_eq_false, if_false]

theorem parseLayout_show_bad (t : Civil) (hv : Spec.ValidCivil t) (hy1 : 1000 ≤ t.year) (hy2 : t.year ≤ 9999)
    (c : Char) (r : List Char) (hc : isDigitC c = false) (hcz : c ≠ 'Z') :
    parseLayout (showInt t.year ++ '-' :: showPad 2 t.month ++ '-' :: showPad 2 t.day ++ 'T' :: showPad 2 t.hour
      ++ ':' :: showPad 2 t.minute ++ ':' :: showPad 2 t.second ++ '.' :: showPad 3 (t.nano / 1000000) ++ c :: r)
      = none := by
  obtain ⟨m1, m2, d1, d2, h, mi, s, n⟩ := hv
  have dd : daysIn t.month t.year ≤ 31 := by
    unfold daysIn
    split
    · split <;> omega
    all_goals omega
  obtain ⟨y, hy⟩ : ∃ y : Nat, t.year = y := ⟨t.year.toNat, by omega⟩
  have hyn : showInt t.year = showNat y := by
    unfold showInt
    rw [if_neg (by omega), hy]; rfl
  have ym : (y : Int) = t.year := hy.symm
  rw [hyn, showNat_4 (by omega) (by omega), showPad2 (by omega), showPad2 (by omega), showPad2 (by omega),
    showPad2 (by omega), showPad2 (by omega), showPad3 (by omega)]
  simp only [List.cons_append, List.nil_append, List.append_assoc]
  have c1 : ¬ (t.month < 1 ∨ 12 < t.month) := by omega
  have c2 : ¬ 24 ≤ t.hour := by omega
  have c3 : ¬ 60 ≤ t.minute := by omega
  have c4 : ¬ 60 ≤ t.second := by omega
  simp only [parseLayout, Option.bind_eq_bind, getYear_show (show y < 10000 by omega), Option.bind_some, literal, if_true,
    getnum_show true (show t.month < 100 by omega), getnum_show true (show t.day < 100 by omega),
    getnum_show false (show t.hour < 100 by omega), getnum_show true (show t.minute < 100 by omega),
    getnum_show true (show t.second < 100 by omega), getFrac_show (show t.nano / 1000000 < 1000 by omega) c r hc,
    if_neg c1, if_neg c2, if_neg c3, if_neg c4, if_neg hcz, Option.bind_none]

/-- C36 for UTC times of the years 1000 to 9999: formatting and parsing gives back the same
instant, cut to the millisecond.  Missing: years outside that range, where parsing fails
(`C36_short_year_unparsable`), and times whose location is not UTC, which denote another
instant after the round trip (`C36_offset_lost`). -/
theorem C36_round_trip_partial (t : Civil) (hv : Spec.ValidCivil t) (hutc : t.offset = 0)
    (hy1 : 1000 ≤ t.year) (hy2 : t.year ≤ 9999) (hz : Spec.isZero t = false) :
    ∃ t', parseTimestamp (showTimestamp Spec.isZero t) = some t' ∧
      Spec.instant t' = Spec.instant t - Spec.instant t % 1000000 ∧ t'.offset = 0 := by
  refine ⟨{ t with nano := t.nano / 1000000 * 1000000, offset := 0 }, ?_, ?_, rfl⟩
  · unfold showTimestamp
    rw [hz]
    simp only [Bool.false_eq_true, if_false]
    rw [parseTimestamp, parseLayout_show t hv hy1 hy2]
  · simp only [Spec.instant, hutc]
    push_cast
    omega

/-- C36: a time that is not in UTC is printed with its local fields and a `Z`, so the text
denotes an instant that is off by the zone offset. -/
theorem C36_offset_lost (t : Civil) (hv : Spec.ValidCivil t)
    (hy1 : 1000 ≤ t.year) (hy2 : t.year ≤ 9999) (hz : Spec.isZero t = false) :
    ∃ t', parseTimestamp (showTimestamp Spec.isZero t) = some t' ∧
      Spec.instant t' = (Spec.instant t - Spec.instant t % 1000000) + t.offset * 1000000000 := by
  refine ⟨{ t with nano := t.nano / 1000000 * 1000000, offset := 0 }, ?_, ?_⟩
  · unfold showTimestamp
    rw [hz]
    simp only [Bool.false_eq_true, if_false]
    rw [parseTimestamp, parseLayout_show t hv hy1 hy2]
  · simp only [Spec.instant]
    push_cast
    omega

/-- C36 refuted for other zones: noon at UTC+1. -/
theorem C36_refuted : ∃ t t' : Civil, Spec.ValidCivil t ∧
    parseTimestamp (showTimestamp Spec.isZero t) = some t' ∧ t.nano = 0 ∧ Spec.instant t' ≠ Spec.instant t :=
  ⟨{ year := 2020, month := 2, day := 29, hour := 12, minute := 0, second := 0, nano := 0, offset := 3600 },
   { year := 2020, month := 2, day := 29, hour := 12, minute := 0, second := 0, nano := 0 },
   by refine ⟨by decide, by decide, by decide, by decide, by decide, by decide, by decide, by decide⟩,
   by decide, rfl, by decide⟩

/-- C36 refuted for the years before 1000: the text of such a time is never accepted
(here the first instant of the year 999), and neither is the text of the zero time. -/
theorem C36_short_year_unparsable :
    parseTimestamp (showTimestamp Spec.isZero
      { year := 999, month := 1, day := 1, hour := 0, minute := 0, second := 0, nano := 0 }) = none ∧
    parseTimestamp (showTimestamp Spec.isZero
      { year := 1, month := 1, day := 1, hour := 0, minute := 0, second := 0, nano := 0 }) = none := by
  constructor <;> decide

/-- C36: the accepted spellings of a zero offset all denote the same time as `Z`. -/
theorem C36_zero_offset_spellings (t : Civil) (hv : Spec.ValidCivil t) (hutc : t.offset = 0)
    (hy1 : 1000 ≤ t.year) (hy2 : t.year ≤ 9999) (hz : Spec.isZero t = false)
    (body suffix : List Char) (hb : showTimestamp Spec.isZero t = body ++ ['Z'])
    (hs : suffix ∈ ["+00:00".toList, "-00:00".toList, "+0000".toList, "-0000".toList]) :
    parseTimestamp (body ++ suffix) = parseTimestamp (body ++ ['Z']) := by
  have hz' : parseTimestamp (body ++ ['Z']) = parseLayout (body ++ ['Z']) := by
    have h := parseLayout_show t hv hy1 hy2
    unfold showTimestamp at hb
    rw [hz] at hb
    simp only [Bool.false_eq_true, if_false] at hb
    rw [hb] at h
    simp [parseTimestamp, h]
  have cut : ∀ suf : List Char, cutSuffix suf (body ++ suf) = some body := by
    intro suf
    unfold cutSuffix
    rw [if_pos (by simp [List.isSuffixOf_iff_suffix])]
    simp
  have nocut : ∀ suf suf' : List Char, suf.length = suf'.length → suf ≠ suf' → cutSuffix suf (body ++ suf') = none := by
    intro suf suf' hl hne
    unfold cutSuffix
    rw [if_neg]
    rw [List.isSuffixOf_iff_suffix]
    rintro ⟨pre, hpre⟩
    exact hne (List.append_inj_right' hpre hl)
  have hbody : body = showInt t.year ++ '-' :: showPad 2 t.month ++ '-' :: showPad 2 t.day ++ 'T' :: showPad 2 t.hour
      ++ ':' :: showPad 2 t.minute ++ ':' :: showPad 2 t.second ++ '.' :: showPad 3 (t.nano / 1000000) := by
    unfold showTimestamp at hb
    rw [hz] at hb
    simp only [Bool.false_eq_true, if_false] at hb
    exact (List.append_inj_left' hb rfl).symm
  have hrej : parseLayout (body ++ suffix) = none := by
    rw [hbody]
    simp only [List.mem_cons, List.not_mem_nil, or_false] at hs
    rcases hs with rfl | rfl | rfl | rfl
    all_goals exact parseLayout_show_bad t hv hy1 hy2 _ _ (by decide) (by decide)
  simp only [List.mem_cons, List.not_mem_nil, or_false] at hs
  rw [hz', parseTimestamp, hrej]
  rcases hs with rfl | rfl | rfl | rfl
  · simp only [cut, Option.some_or]
  · simp only [nocut "+00:00".toList "-00:00".toList (by decide) (by decide), cut, Option.none_or]
  · have a1 : cutSuffix "+00:00".toList (body ++ "+0000".toList) = none := by
      unfold cutSuffix
      rw [if_neg]
      rw [List.isSuffixOf_iff_suffix]
      rintro ⟨p, hp⟩
      have hp' : (p ++ ['+', '0', '0']) ++ [':', '0', '0'] = (body ++ ['+', '0']) ++ ['0', '0', '0'] := by
        simpa using hp
      have := List.append_inj_right' hp' rfl
      simp at this
    have a2 : cutSuffix "-00:00".toList (body ++ "+0000".toList) = none := by
      unfold cutSuffix
      rw [if_neg]
      rw [List.isSuffixOf_iff_suffix]
      rintro ⟨p, hp⟩
      have hp' : (p ++ ['-', '0', '0']) ++ [':', '0', '0'] = (body ++ ['+', '0']) ++ ['0', '0', '0'] := by
        simpa using hp
      have := List.append_inj_right' hp' rfl
      simp at this
    simp only [a1, a2, cut, Option.or_none, Option.some_or]
  · have a1 : cutSuffix "+00:00".toList (body ++ "-0000".toList) = none := by
      unfold cutSuffix
      rw [if_neg]
      rw [List.isSuffixOf_iff_suffix]
      rintro ⟨p, hp⟩
      have hp' : (p ++ ['+', '0', '0']) ++ [':', '0', '0'] = (body ++ ['-', '0']) ++ ['0', '0', '0'] := by
        simpa using hp
      have := List.append_inj_right' hp' rfl
      simp at this
    have a2 : cutSuffix "-00:00".toList (body ++ "-0000".toList) = none := by
      unfold cutSuffix
      rw [if_neg]
      rw [List.isSuffixOf_iff_suffix]
      rintro ⟨p, hp⟩
      have hp' : (p ++ ['-', '0', '0']) ++ [':', '0', '0'] = (body ++ ['-', '0']) ++ ['0', '0', '0'] := by
        simpa using hp
      have := List.append_inj_right' hp' rfl
      simp at this
    simp only [a1, a2, nocut "+0000".toList "-0000".toList (by decide) (by decide), cut, Option.or_none, Option.none_or]

example : Spec.ValidCivil { year := 2019, month := 12, day := 31, hour := 23, minute := 59, second := 59, nano := 123456789 } :=
  ⟨by decide, by decide, by decide, by decide, by decide, by decide, by decide, by decide⟩
example : parseTimestamp "2019-12-31T23:59:59.123Z".toList =
    some { year := 2019, month := 12, day := 31, hour := 23, minute := 59, second := 59, nano := 123000000 } := by decide
example : parseLayout "2019-12-31T23:59:59.123-0000".toList = none := by decide

end Sadl.Props

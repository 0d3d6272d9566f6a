import Verif.Props.Time
import Verif.Spec.Order

/-! C100: match dates come in the order of their texts. -/

namespace Mvd
open Spec

/-- The days before a month. -/
private def daysBefore (y m : Nat) : Nat := ((List.range (m - 1)).map fun k => daysInMonth y (k + 1)).sum

private theorem sum_range_succ (f : Nat → Nat) (n : Nat) : ((List.range (n + 1)).map f).sum = ((List.range n).map f).sum + f n := by
  rw [List.range_succ, List.map_append, List.sum_append]
  simp

private theorem sum_range_le (f : Nat → Nat) {a b : Nat} (h : a < b) : ((List.range a).map f).sum + f a ≤ ((List.range b).map f).sum := by
  induction b with
  | zero => omega
  | succ b ih =>
    rw [sum_range_succ]
    rcases Nat.lt_or_ge a b with hlt | hge
    · have := ih hlt
      omega
    · obtain rfl : a = b := by omega
      omega

private theorem daysBefore_le (y : Nat) {m m' : Nat} (h1 : 1 ≤ m) (h : m < m') : daysBefore y m + daysInMonth y m ≤ daysBefore y m' := by
  have := sum_range_le (fun k => daysInMonth y (k + 1)) (a := m - 1) (b := m' - 1) (by omega)
  rwa [show m - 1 + 1 = m from by omega] at this

private theorem year_days (y : Nat) : daysBefore y 13 = if isLeap y then 366 else 365 := by
  unfold daysBefore
  simp only [show (13 : Nat) - 1 = 12 from rfl, show List.range 12 = [0, 1, 2, 3, 4, 5, 6, 7, 8, 9, 10, 11] from rfl, List.map_cons,
    List.map_nil, List.sum_cons, List.sum_nil, daysInMonth]
  cases isLeap y <;> rfl

private theorem dayNumber_eq (y m d : Nat) :
    dayNumber y m d = ((List.range y).map fun y => if isLeap y then 366 else 365).sum + daysBefore y m + (d - 1) := rfl

/-- A date earlier in the calendar has the smaller day number. -/
theorem dayNumber_lt {y m d y' m' d' : Nat} (hm1 : 1 ≤ m) (hm : m ≤ 12) (hd1 : 1 ≤ d) (hd : d ≤ daysInMonth y m)
    (h : y < y' ∨ y = y' ∧ (m < m' ∨ m = m' ∧ d < d')) : dayNumber y m d < dayNumber y' m' d' := by
  rw [dayNumber_eq, dayNumber_eq]
  rcases h with h | ⟨rfl, h | ⟨rfl, h⟩⟩
  · have h1 := sum_range_le (fun y => if isLeap y then 366 else 365) h
    have h2 := daysBefore_le y hm1 (show m < 13 from by omega)
    rw [year_days] at h2
    omega
  · have h2 := daysBefore_le y hm1 h
    omega
  · omega

/-- Earlier in the calendar. -/
private def Earlier (t t' : DateTime) : Prop :=
  t.year < t'.year ∨ t.year = t'.year ∧ (t.month < t'.month ∨ t.month = t'.month ∧ (t.day < t'.day ∨ t.day = t'.day ∧
    (t.hour < t'.hour ∨ t.hour = t'.hour ∧ (t.minute < t'.minute ∨ t.minute = t'.minute ∧ t.second < t'.second))))

private theorem instant_lt {t t' : DateTime} (ht : t.Valid) (ht' : t'.Valid) (z : Int) (h : Earlier t t') :
    t.instant z < t'.instant z := by
  obtain ⟨_, hm1, hm, hd1, hd, hh, hn, hs⟩ := ht
  have key : dayNumber t.year t.month t.day < dayNumber t'.year t'.month t'.day → t.instant z < t'.instant z := by
    intro h
    unfold DateTime.instant
    have h1 : (dayNumber t.year t.month t.day : Int) + 1 ≤ dayNumber t'.year t'.month t'.day := by exact_mod_cast h
    generalize (dayNumber t.year t.month t.day : Int) = a at *
    generalize (dayNumber t'.year t'.month t'.day : Int) = b at *
    generalize (dayNumber 1970 1 1 : Int) = c at *
    omega
  rcases h with h | ⟨e1, h | ⟨e2, h | ⟨e3, h⟩⟩⟩
  · exact key (dayNumber_lt hm1 hm hd1 hd (.inl h))
  · exact key (dayNumber_lt hm1 hm hd1 hd (.inr ⟨e1, .inl h⟩))
  · exact key (dayNumber_lt hm1 hm hd1 hd (.inr ⟨e1, .inr ⟨e2, h⟩⟩))
  · unfold DateTime.instant
    rw [e1, e2, e3]
    generalize (dayNumber t'.year t'.month t'.day : Int) = a at *
    generalize (dayNumber 1970 1 1 : Int) = c at *
    obtain ⟨_, _, _, _, _, _, _, _⟩ := ht'
    omega

private theorem earlier_total {t t' : DateTime} (h : t ≠ t') : Earlier t t' ∨ Earlier t' t := by
  unfold Earlier
  rcases t with ⟨a, b, c, d, e, f⟩
  rcases t' with ⟨a', b', c', d', e', f'⟩
  simp only [ne_eq, DateTime.mk.injEq] at h ⊢
  omega

/-! ### Texts -/

private theorem before_cons_iff (a b : Char) (s t : Str) : Before (a :: s) (b :: t) ↔ a.toNat < b.toNat ∨ a = b ∧ Before s t := by
  constructor
  · rintro (⟨c, u, e⟩ | ⟨p, x, y, s', t', e1, e2, h⟩)
    · simp only [List.cons_append, List.cons.injEq] at e
      exact .inr ⟨e.1.symm, .inl ⟨c, u, e.2⟩⟩
    · cases p with
      | nil =>
        simp only [List.nil_append, List.cons.injEq] at e1 e2
        exact .inl (e1.1 ▸ e2.1 ▸ h)
      | cons q p =>
        simp only [List.cons_append, List.cons.injEq] at e1 e2
        exact .inr ⟨e1.1.trans e2.1.symm, .inr ⟨p, x, y, s', t', e1.2, e2.2, h⟩⟩
  · rintro (h | ⟨rfl, ⟨c, u, e⟩ | ⟨p, x, y, s', t', e1, e2, h⟩⟩)
    · exact .inr ⟨[], a, b, s, t, rfl, rfl, h⟩
    · exact .inl ⟨c, u, by rw [e]; rfl⟩
    · exact .inr ⟨a :: p, x, y, s', t', by rw [e1]; rfl, by rw [e2]; rfl, h⟩

private theorem before_nil : ¬ Before [] [] := by
  rintro (⟨c, u, e⟩ | ⟨p, x, y, s', t', e1, e2, h⟩)
  · simp at e
  · simp at e1

private theorem digitChar_toNat (n : Nat) : (digitChar n).toNat = 48 + n % 10 := by
  unfold digitChar
  have h0 : '0'.toNat = 48 := rfl
  rw [toNat_ofNat (.inl (by omega)), h0]

private theorem digitChar_eq (a b : Nat) : digitChar a = digitChar b ↔ a % 10 = b % 10 := by
  constructor
  · intro h
    have := congrArg Char.toNat h
    rw [digitChar_toNat, digitChar_toNat] at this
    omega
  · intro h
    unfold digitChar
    rw [h]

private theorem before_two (a b : Nat) (s t : Str) (ha : a < 100) (hb : b < 100) :
    Before (two a ++ s) (two b ++ t) ↔ a < b ∨ a = b ∧ Before s t := by
  simp only [two, List.cons_append, List.nil_append, before_cons_iff, digitChar_toNat, digitChar_eq]
  by_cases hB : Before s t
  · simp only [hB, and_true]
    omega
  · simp only [hB, and_false, or_false]
    omega

/-- The order of the texts is the order in the calendar. -/
private theorem before_text (t t' : DateTime) (ht : t.Valid) (ht' : t'.Valid) : Before t.text t'.text ↔ Earlier t t' := by
  have days (t : DateTime) (h : t.Valid) : t.day < 100 := by
    obtain ⟨_, _, _, _, hd, _, _, _⟩ := h
    unfold daysInMonth at hd
    split at hd
    · split at hd <;> omega
    · split at hd <;> omega
  have d1 := days t ht
  have d2 := days t' ht'
  obtain ⟨_, _, _, _, _, _, _, _⟩ := ht
  obtain ⟨_, _, _, _, _, _, _, _⟩ := ht'
  have two_mod (n : Nat) : two n = two (n % 100) := by
    unfold two
    rw [(digitChar_eq (n / 10) (n % 100 / 10)).mpr (by omega), (digitChar_eq n (n % 100)).mpr (by omega)]
  unfold DateTime.text Earlier
  simp only [List.append_assoc]
  rw [two_mod t.year, two_mod t'.year, before_two _ _ _ _ (by omega) (by omega), before_two _ _ _ _ (by omega) (by omega)]
  simp only [List.cons_append, List.nil_append, before_cons_iff, Nat.lt_irrefl, false_or, true_and]
  rw [before_two _ _ _ _ (by omega) (by omega)]
  simp only [before_cons_iff, Nat.lt_irrefl, false_or, true_and]
  rw [before_two _ _ _ _ (by omega) (by omega)]
  simp only [before_cons_iff, Nat.lt_irrefl, false_or, true_and]
  rw [before_two _ _ _ _ (by omega) (by omega)]
  simp only [before_cons_iff, Nat.lt_irrefl, false_or, true_and]
  rw [before_two _ _ _ _ (by omega) (by omega)]
  simp only [before_cons_iff, Nat.lt_irrefl, false_or, true_and]
  have hlast := before_two t.second t'.second [] [] (by omega) (by omega)
  simp only [List.append_nil, before_nil, and_false, or_false] at hlast
  rw [hlast]
  omega

/-- C100: of two demos whose match dates are printed in the same time zone, the one with the text that comes first in
the dictionary has the earlier match date, and only the same text gives the same match date. -/
theorem C100_order (g : Env) (hg : ReadsDates g.parseDate) (data data' : Bytes) (t t' : DateTime) (ht : t.Valid) (ht' : t'.Valid)
    (abbr : String) (minutes : Int) (hz : (abbr, minutes) ∈ zones)
    (h : matchdateString data = .ok (t.text ++ ' ' :: abbr.toList)) (h' : matchdateString data' = .ok (t'.text ++ ' ' :: abbr.toList)) :
    ∃ i i', matchdate g data = .ok i ∧ matchdate g data' = .ok i' ∧ (i < i' ↔ Before t.text t'.text) ∧ (i = i' ↔ t.text = t'.text) := by
  obtain ⟨offset, h1, h2⟩ := C53_abbreviation abbr minutes hz
  refine ⟨_, _, C56_instant g hg data t ht _ offset minutes h h1 h2, C56_instant g hg data' t' ht' _ offset minutes h' h1 h2, ?_⟩
  have irr : ¬ Before t.text t.text := by
    rw [before_text t t ht ht]
    unfold Earlier
    omega
  by_cases e : t = t'
  · subst e
    simp [irr]
  have hne : t.text ≠ t'.text := by
    intro he
    rcases earlier_total e with hl | hl
    · exact irr (by have := (before_text t t' ht ht').mpr hl; rwa [← he] at this)
    · exact irr (by have := (before_text t' t ht' ht).mpr hl; rwa [← he] at this)
  rw [before_text t t' ht ht']
  rcases earlier_total e with hl | hl
  · have := instant_lt ht ht' minutes hl
    exact ⟨⟨fun _ => hl, fun _ => this⟩, ⟨fun x => by omega, fun x => absurd x hne⟩⟩
  · have := instant_lt ht' ht minutes hl
    refine ⟨⟨fun _ => by omega, fun x => ?_⟩, ⟨fun x => by omega, fun x => absurd x hne⟩⟩
    have := instant_lt ht ht' minutes x
    omega

/-- C100: the same date and time printed in two time zones are as far apart as the time zones. -/
theorem C100_zones (g : Env) (hg : ReadsDates g.parseDate) (data data' : Bytes) (t : DateTime) (ht : t.Valid)
    (abbr abbr' : String) (minutes minutes' : Int) (hz : (abbr, minutes) ∈ zones) (hz' : (abbr', minutes') ∈ zones)
    (h : matchdateString data = .ok (t.text ++ ' ' :: abbr.toList)) (h' : matchdateString data' = .ok (t.text ++ ' ' :: abbr'.toList)) :
    ∃ i i', matchdate g data = .ok i ∧ matchdate g data' = .ok i' ∧ i - i' = (minutes' - minutes) * 60 := by
  obtain ⟨offset, h1, h2⟩ := C53_abbreviation abbr minutes hz
  obtain ⟨offset', h1', h2'⟩ := C53_abbreviation abbr' minutes' hz'
  refine ⟨_, _, C56_instant g hg data t ht _ offset minutes h h1 h2, C56_instant g hg data' t ht _ offset' minutes' h' h1' h2', ?_⟩
  unfold DateTime.instant
  omega

/-- The hypotheses are met: the last second of a leap day and the first of the next day; summer time. -/
example : ReadsDates (Example.dates true).parseDate ∧ ("CET", 60) ∈ zones ∧ ("CEST", 120) ∈ zones ∧
    matchdateString (Example.dated bytes!"2024-02-29 23:59:59 CET") = .ok ((DateTime.mk 2024 2 29 23 59 59).text ++ ' ' :: "CET".toList) ∧
    matchdateString (Example.dated bytes!"2024-03-01 00:00:00 CET") = .ok ((DateTime.mk 2024 3 1 0 0 0).text ++ ' ' :: "CET".toList) ∧
    matchdate (Example.dates true) (Example.dated bytes!"2024-02-29 23:59:59 CET") = .ok 1709247599 ∧
    matchdate (Example.dates true) (Example.dated bytes!"2024-03-01 00:00:00 CET") = .ok 1709247600 ∧
    matchdate (Example.dates true) (Example.dated bytes!"2024-03-01 00:00:00 CEST") = .ok 1709244000 :=
  ⟨Example.readsDates, by decide, by decide, by decide +kernel, by decide +kernel, by decide +kernel, by decide +kernel, by decide +kernel⟩

end Mvd

import Verif.Rust.Lit
import Verif.Spec.Utf8

/-! Specification of time zones and match dates. Independent of the model. -/

namespace Spec

/-! ### Time zones -/

/-- The time zones with their minutes east of Greenwich. Where an abbreviation stands for several time zones, this is the
one in use (AST: Arabia, not the Atlantic; LHST: Lord Howe standard time, not summer time; …). -/
def zones : List (String × Int) := [
  ("ACDT", 630), ("ACST", 570), ("ACT", 570), ("ACWST", 525), ("ADT", -180), ("AEDT", 660), ("AEST", 600),
  ("AFT", 270), ("AKDT", -480), ("AKST", -540), ("ALMT", 360), ("AMST", -180), ("AMT", 240), ("ANAT", 720),
  ("AQTT", 300), ("ART", -180), ("AST", 180), ("AWST", 480), ("AZOST", 0), ("AZOT", -60), ("AZT", 240),
  ("BIOT", 360), ("BIT", -720), ("BNT", 480), ("BOT", -240), ("BRST", -120), ("BRT", -180), ("BST", 60),
  ("BTT", 360), ("CAT", 120), ("CCT", 390), ("CDT", -300), ("CEST", 120), ("CET", 60), ("CHADT", 825),
  ("CHAST", 765), ("CHOST", 540), ("CHOT", 480), ("CHST", 600), ("CHUT", 600), ("CIST", -480), ("CKT", -600),
  ("CLST", -180), ("CLT", -240), ("COST", -240), ("COT", -300), ("CST", -360), ("CVT", -60), ("CWST", 525),
  ("CXT", 420), ("DAVT", 420), ("DDUT", 600), ("DFT", 60), ("EASST", -300), ("EAST", -360), ("EAT", 180),
  ("ECT", -300), ("EDT", -240), ("EEST", 180), ("EET", 120), ("EGST", 0), ("EGT", -60), ("EST", -300),
  ("FET", 180), ("FJT", 720), ("FKST", -180), ("FKT", -240), ("FNT", -120), ("GALT", -360), ("GAMT", -540),
  ("GET", 240), ("GFT", -180), ("GILT", 720), ("GIT", -540), ("GMT", 0), ("GST", -120), ("GYT", -240),
  ("HAEC", 120), ("HDT", -540), ("HKT", 480), ("HMT", 300), ("HOVST", 480), ("HOVT", 420), ("HST", -600),
  ("ICT", 420), ("IDLW", -720), ("IDT", 180), ("IOT", 360), ("IRDT", 270), ("IRKT", 480), ("IRST", 210),
  ("IST", 60), ("JST", 540), ("KALT", 120), ("KGT", 360), ("KOST", 660), ("KRAT", 420), ("KST", 540),
  ("LHST", 630), ("LINT", 840), ("MAGT", 720), ("MART", -570), ("MAWT", 300), ("MDT", -360), ("MEST", 120),
  ("MET", 60), ("MHT", 720), ("MIST", 660), ("MIT", -570), ("MMT", 390), ("MSK", 180), ("MST", -420),
  ("MUT", 240), ("MVT", 300), ("MYT", 480), ("NCT", 660), ("NDT", -150), ("NFT", 660), ("NOVT", 420),
  ("NPT", 345), ("NST", -210), ("NT", -210), ("NUT", -660), ("NZDT", 780), ("NZST", 720), ("OMST", 360),
  ("ORAT", 300), ("PDT", -420), ("PET", -300), ("PETT", 720), ("PGT", 600), ("PHOT", 780), ("PHST", 480),
  ("PHT", 480), ("PKT", 300), ("PMDT", -120), ("PMST", -180), ("PONT", 660), ("PST", -480), ("PWT", 540),
  ("PYST", -180), ("PYT", -240), ("RET", 240), ("ROTT", -180), ("SAKT", 660), ("SAMT", 240), ("SAST", 120),
  ("SBT", 660), ("SCT", 240), ("SDT", -600), ("SGT", 480), ("SLST", 330), ("SRET", 660), ("SRT", -180),
  ("SST", 480), ("SYOT", 180), ("TAHT", -600), ("TFT", 300), ("THA", 420), ("TJT", 300), ("TKT", 780),
  ("TLT", 540), ("TMT", 300), ("TOT", 780), ("TRT", 180), ("TST", 480), ("TVT", 720), ("ULAST", 540),
  ("ULAT", 480), ("UTC", 0), ("UYST", -120), ("UYT", -180), ("UZT", 300), ("VET", -240), ("VLAT", 600),
  ("VOLT", 180), ("VOST", 360), ("VUT", 660), ("WAKT", 720), ("WAST", 120), ("WAT", 60), ("WEST", 60), ("WET", 0),
  ("WGST", -120), ("WGT", -180), ("WIB", 420), ("WIT", 540), ("WITA", 480), ("WST", 480), ("YAKT", 540),
  ("YEKT", 300)]

/-- A decimal digit. -/
def IsDigit (c : Char) : Prop := '0'.toNat ≤ c.toNat ∧ c.toNat ≤ '9'.toNat

/-- The value of a decimal digit. -/
def digit (c : Char) : Nat := c.toNat - '0'.toNat

/-- The text is a sign, two digits of hours (at most 14), a colon and two digits of minutes (below 60), and stands for
that many minutes east of Greenwich. Next to `-`, the typographic minus is in use. -/
def OffsetText (text : List Char) (minutes : Int) : Prop :=
  ∃ sign a b c d, text = [sign, a, b, ':', c, d] ∧ IsDigit a ∧ IsDigit b ∧ IsDigit c ∧ IsDigit d ∧
    10 * digit a + digit b ≤ 14 ∧ 10 * digit c + digit d < 60 ∧
    ((sign = '+' ∧ minutes = 60 * (10 * digit a + digit b) + (10 * digit c + digit d)) ∨
     ((sign = '-' ∨ sign = '−') ∧ minutes = -(60 * (10 * digit a + digit b) + (10 * digit c + digit d))))

/-- Four characters accepted as a number from 0000 to 1200: four digits, but also a second plus and three digits, or a
second minus and three zeros. -/
def Accepted (a b c d : Char) : Prop :=
  (IsDigit a ∧ IsDigit b ∧ IsDigit c ∧ IsDigit d ∧ 1000 * digit a + 100 * digit b + 10 * digit c + digit d ≤ 1200) ∨
  (a = '+' ∧ IsDigit b ∧ IsDigit c ∧ IsDigit d) ∨ (a = '-' ∧ b = '0' ∧ c = '0' ∧ d = '0')

/-! ### Match dates -/

/-- A date and a time of day. -/
structure DateTime where
  year : Nat
  month : Nat
  day : Nat
  hour : Nat
  minute : Nat
  second : Nat
deriving DecidableEq

/-- A leap year of the Gregorian calendar. -/
def isLeap (y : Nat) : Bool := y % 4 == 0 && (y % 100 != 0 || y % 400 == 0)

/-- The number of days of a month. -/
def daysInMonth (y m : Nat) : Nat :=
  if m = 2 then (if isLeap y then 29 else 28) else if m = 4 ∨ m = 6 ∨ m = 9 ∨ m = 11 then 30 else 31

/-- The number of days from the first day of year 0. -/
def dayNumber (y m d : Nat) : Nat :=
  ((List.range y).map fun y => if isLeap y then 366 else 365).sum +
  ((List.range (m - 1)).map fun k => daysInMonth y (k + 1)).sum + (d - 1)

/-- The seconds since the beginning of 1970 in Greenwich. -/
def DateTime.instant (t : DateTime) (minutesEast : Int) : Int :=
  ((dayNumber t.year t.month t.day : Int) - dayNumber 1970 1 1) * 86400 +
    (t.hour * 3600 + t.minute * 60 + t.second) - minutesEast * 60

/-- An existing date with a four-digit year and an existing time. -/
def DateTime.Valid (t : DateTime) : Prop :=
  t.year ≤ 9999 ∧ 1 ≤ t.month ∧ t.month ≤ 12 ∧ 1 ≤ t.day ∧ t.day ≤ daysInMonth t.year t.month ∧
  t.hour ≤ 23 ∧ t.minute ≤ 59 ∧ t.second ≤ 59

/-- A digit's character. -/
def digitChar (n : Nat) : Char := Char.ofNat ('0'.toNat + n % 10)

/-- Two digits. -/
def two (n : Nat) : List Char := [digitChar (n / 10), digitChar n]

/-- yyyy-mm-dd hh:mm:ss -/
def DateTime.text (t : DateTime) : List Char :=
  two (t.year / 100) ++ two t.year ++ ['-'] ++ two t.month ++ ['-'] ++ two t.day ++ [' '] ++
  two t.hour ++ [':'] ++ two t.minute ++ [':'] ++ two t.second

end Spec

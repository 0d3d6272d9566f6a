import Verif.Model.Env
import Verif.Rust.Search

/-! src/timezone.rs -/

namespace Mvd

/-- timezone.rs:1-207 `UTC_OFFSET_BY_ABBR` (without the entries that are commented out there). -/
def UTC_OFFSET_BY_ABBR : List (Str × Str) := [
  (chars!"ACDT", chars!"+10:30"),
  (chars!"ACST", chars!"+09:30"),
  (chars!"ACT", chars!"+09:30"),
  (chars!"ACWST", chars!"+08:45"),
  (chars!"ADT", chars!"-03:00"),
  (chars!"AEDT", chars!"+11:00"),
  (chars!"AEST", chars!"+10:00"),
  (chars!"AFT", chars!"+04:30"),
  (chars!"AKDT", chars!"-08:00"),
  (chars!"AKST", chars!"-09:00"),
  (chars!"ALMT", chars!"+06:00"),
  (chars!"AMST", chars!"-03:00"),
  (chars!"AMT", chars!"+04:00"),
  (chars!"ANAT", chars!"+12:00"),
  (chars!"AQTT", chars!"+05:00"),
  (chars!"ART", chars!"-03:00"),
  (chars!"AST", chars!"+03:00"),
  (chars!"AST", chars!"-04:00"),
  (chars!"AWST", chars!"+08:00"),
  (chars!"AZOST", chars!"+00:00"),
  (chars!"AZOT", chars!"-01:00"),
  (chars!"AZT", chars!"+04:00"),
  (chars!"BIOT", chars!"+06:00"),
  (chars!"BIT", chars!"-12:00"),
  (chars!"BNT", chars!"+08:00"),
  (chars!"BOT", chars!"-04:00"),
  (chars!"BRST", chars!"-02:00"),
  (chars!"BRT", chars!"-03:00"),
  (chars!"BST", chars!"+01:00"),
  (chars!"BTT", chars!"+06:00"),
  (chars!"CAT", chars!"+02:00"),
  (chars!"CCT", chars!"+06:30"),
  (chars!"CDT", chars!"-05:00"),
  (chars!"CEST", chars!"+02:00"),
  (chars!"CET", chars!"+01:00"),
  (chars!"CHADT", chars!"+13:45"),
  (chars!"CHAST", chars!"+12:45"),
  (chars!"CHOST", chars!"+09:00"),
  (chars!"CHOT", chars!"+08:00"),
  (chars!"CHST", chars!"+10:00"),
  (chars!"CHUT", chars!"+10:00"),
  (chars!"CIST", chars!"-08:00"),
  (chars!"CKT", chars!"-10:00"),
  (chars!"CLST", chars!"-03:00"),
  (chars!"CLT", chars!"-04:00"),
  (chars!"COST", chars!"-04:00"),
  (chars!"COT", chars!"-05:00"),
  (chars!"CST", chars!"-06:00"),
  (chars!"CVT", chars!"-01:00"),
  (chars!"CWST", chars!"+08:45"),
  (chars!"CXT", chars!"+07:00"),
  (chars!"DAVT", chars!"+07:00"),
  (chars!"DDUT", chars!"+10:00"),
  (chars!"DFT", chars!"+01:00"),
  (chars!"EASST", chars!"-05:00"),
  (chars!"EAST", chars!"-06:00"),
  (chars!"EAT", chars!"+03:00"),
  (chars!"ECT", chars!"-05:00"),
  (chars!"EDT", chars!"-04:00"),
  (chars!"EEST", chars!"+03:00"),
  (chars!"EET", chars!"+02:00"),
  (chars!"EGST", chars!"+00:00"),
  (chars!"EGT", chars!"-01:00"),
  (chars!"EST", chars!"-05:00"),
  (chars!"FET", chars!"+03:00"),
  (chars!"FJT", chars!"+12:00"),
  (chars!"FKST", chars!"-03:00"),
  (chars!"FKT", chars!"-04:00"),
  (chars!"FNT", chars!"-02:00"),
  (chars!"GALT", chars!"-06:00"),
  (chars!"GAMT", chars!"-09:00"),
  (chars!"GET", chars!"+04:00"),
  (chars!"GFT", chars!"-03:00"),
  (chars!"GILT", chars!"+12:00"),
  (chars!"GIT", chars!"-09:00"),
  (chars!"GMT", chars!"+00:00"),
  (chars!"GST", chars!"-02:00"),
  (chars!"GYT", chars!"-04:00"),
  (chars!"HAEC", chars!"+02:00"),
  (chars!"HDT", chars!"-09:00"),
  (chars!"HKT", chars!"+08:00"),
  (chars!"HMT", chars!"+05:00"),
  (chars!"HOVST", chars!"+08:00"),
  (chars!"HOVT", chars!"+07:00"),
  (chars!"HST", chars!"-10:00"),
  (chars!"ICT", chars!"+07:00"),
  (chars!"IDLW", chars!"-12:00"),
  (chars!"IDT", chars!"+03:00"),
  (chars!"IOT", chars!"+06:00"),
  (chars!"IRDT", chars!"+04:30"),
  (chars!"IRKT", chars!"+08:00"),
  (chars!"IRST", chars!"+03:30"),
  (chars!"IST", chars!"+01:00"),
  (chars!"JST", chars!"+09:00"),
  (chars!"KALT", chars!"+02:00"),
  (chars!"KGT", chars!"+06:00"),
  (chars!"KOST", chars!"+11:00"),
  (chars!"KRAT", chars!"+07:00"),
  (chars!"KST", chars!"+09:00"),
  (chars!"LHST", chars!"+10:30"),
  (chars!"LHST", chars!"+11:00"),
  (chars!"LINT", chars!"+14:00"),
  (chars!"MAGT", chars!"+12:00"),
  (chars!"MART", chars!"−09:30"),
  (chars!"MAWT", chars!"+05:00"),
  (chars!"MDT", chars!"-06:00"),
  (chars!"MEST", chars!"+02:00"),
  (chars!"MET", chars!"+01:00"),
  (chars!"MHT", chars!"+12:00"),
  (chars!"MIST", chars!"+11:00"),
  (chars!"MIT", chars!"−09:30"),
  (chars!"MMT", chars!"+06:30"),
  (chars!"MSK", chars!"+03:00"),
  (chars!"MST", chars!"-07:00"),
  (chars!"MUT", chars!"+04:00"),
  (chars!"MVT", chars!"+05:00"),
  (chars!"MYT", chars!"+08:00"),
  (chars!"NCT", chars!"+11:00"),
  (chars!"NDT", chars!"−02:30"),
  (chars!"NFT", chars!"+11:00"),
  (chars!"NOVT", chars!"+07:00"),
  (chars!"NPT", chars!"+05:45"),
  (chars!"NST", chars!"−03:30"),
  (chars!"NT", chars!"−03:30"),
  (chars!"NUT", chars!"-11:00"),
  (chars!"NZDT", chars!"+13:00"),
  (chars!"NZST", chars!"+12:00"),
  (chars!"OMST", chars!"+06:00"),
  (chars!"ORAT", chars!"+05:00"),
  (chars!"PDT", chars!"-07:00"),
  (chars!"PET", chars!"-05:00"),
  (chars!"PETT", chars!"+12:00"),
  (chars!"PGT", chars!"+10:00"),
  (chars!"PHOT", chars!"+13:00"),
  (chars!"PHST", chars!"+08:00"),
  (chars!"PHT", chars!"+08:00"),
  (chars!"PKT", chars!"+05:00"),
  (chars!"PMDT", chars!"-02:00"),
  (chars!"PMST", chars!"-03:00"),
  (chars!"PONT", chars!"+11:00"),
  (chars!"PST", chars!"-08:00"),
  (chars!"PWT", chars!"+09:00"),
  (chars!"PYST", chars!"-03:00"),
  (chars!"PYT", chars!"-04:00"),
  (chars!"RET", chars!"+04:00"),
  (chars!"ROTT", chars!"-03:00"),
  (chars!"SAKT", chars!"+11:00"),
  (chars!"SAMT", chars!"+04:00"),
  (chars!"SAST", chars!"+02:00"),
  (chars!"SBT", chars!"+11:00"),
  (chars!"SCT", chars!"+04:00"),
  (chars!"SDT", chars!"-10:00"),
  (chars!"SGT", chars!"+08:00"),
  (chars!"SLST", chars!"+05:30"),
  (chars!"SRET", chars!"+11:00"),
  (chars!"SRT", chars!"-03:00"),
  (chars!"SST", chars!"+08:00"),
  (chars!"SYOT", chars!"+03:00"),
  (chars!"TAHT", chars!"-10:00"),
  (chars!"TFT", chars!"+05:00"),
  (chars!"THA", chars!"+07:00"),
  (chars!"TJT", chars!"+05:00"),
  (chars!"TKT", chars!"+13:00"),
  (chars!"TLT", chars!"+09:00"),
  (chars!"TMT", chars!"+05:00"),
  (chars!"TOT", chars!"+13:00"),
  (chars!"TRT", chars!"+03:00"),
  (chars!"TST", chars!"+08:00"),
  (chars!"TVT", chars!"+12:00"),
  (chars!"ULAST", chars!"+09:00"),
  (chars!"ULAT", chars!"+08:00"),
  (chars!"UTC", chars!"+00:00"),
  (chars!"UYST", chars!"-02:00"),
  (chars!"UYT", chars!"-03:00"),
  (chars!"UZT", chars!"+05:00"),
  (chars!"VET", chars!"-04:00"),
  (chars!"VLAT", chars!"+10:00"),
  (chars!"VOLT", chars!"+03:00"),
  (chars!"VOST", chars!"+06:00"),
  (chars!"VUT", chars!"+11:00"),
  (chars!"WAKT", chars!"+12:00"),
  (chars!"WAST", chars!"+02:00"),
  (chars!"WAT", chars!"+01:00"),
  (chars!"WEST", chars!"+01:00"),
  (chars!"WET", chars!"+00:00"),
  (chars!"WGST", chars!"-02:00"),
  (chars!"WGT", chars!"-03:00"),
  (chars!"WIB", chars!"+07:00"),
  (chars!"WIT", chars!"+09:00"),
  (chars!"WITA", chars!"+08:00"),
  (chars!"WST", chars!"+08:00"),
  (chars!"YAKT", chars!"+09:00"),
  (chars!"YEKT", chars!"+05:00")]

/-- timezone.rs:219-227 `utc_offset_by_abbr` -/
def utcOffsetByAbbr (abbr : Str) : Option Str :=
  UTC_OFFSET_BY_ABBR.findSome? fun (a, offset) => if a = abbr then some offset else none

/-- `format!("{:0<4}", s)`: padded on the right with zeros to at least four characters. -/
def padRight4 (s : Str) : Str := s ++ List.replicate (4 - s.length) '0'

/-- timezone.rs:229-251 `utc_offset_by_offset`. The slice `offset[1..]` is after an ASCII character. -/
def utcOffsetByOffset (offset : Str) : R (Option Str) :=
  match offset with
  | [] => .ok none
  | operator :: tail =>
    if operator = '+' ∨ operator = '-' then
      let offset := padRight4 (tail.filter (· ≠ ':'))
      if (asBytes offset).length ≠ 4 then .ok none
      else
        match parseI32 offset with
        | some number =>
          if 0 ≤ number ∧ number ≤ 1200 then
            (strSlice offset 0 2).bind fun hh =>
            (strSlice offset 2 4).bind fun mm => .ok (some ([operator] ++ hh ++ [':'] ++ mm))
          else .ok none
        | none => .ok none
    else .ok none

/-- timezone.rs:209-217 `utc_offset` -/
def utcOffset (value : Str) : R (Option Str) :=
  match utcOffsetByAbbr value with
  | some offset => .ok (some offset)
  | none => utcOffsetByOffset value

end Mvd

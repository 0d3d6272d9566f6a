import Verif.Spec.Timeline
import Verif.Props.StatsRecording
import Verif.Props.Metadata
import Verif.Props.Time

/-! C86: date and times of a recorded match. -/

namespace Mvd
open Spec

/-- A word does not contain the byte in front of or behind which it occurs. -/
theorem occursAt_sep {m : Bytes} {z : UInt8} (hz : z ∉ m) {a b : Bytes} {j : Nat} (h : OccursAt m (a ++ z :: b) j) :
    j + m.length ≤ a.length ∨ a.length < j := by
  by_contra hc
  have hc : a.length < j + m.length ∧ j ≤ a.length := by omega
  obtain ⟨pre, post, e, rfl⟩ := h
  have h1 : (a ++ z :: b)[a.length]? = some z := by simp
  rw [e, List.append_assoc, List.getElem?_append_right hc.2, List.getElem?_append_left (by omega)] at h1
  exact hz (List.mem_of_getElem? h1)

/-- A word at the beginning of a message is found first there, if all but its last byte does not occur before. -/
theorem firstAt_message {m : Bytes} {x : UInt8} (h6 : (6 : UInt8) ∉ m ++ [x]) (h0 : (0 : UInt8) ∉ m ++ [x]) (h3 : 2 ≤ m.length)
    {a : Bytes} (ha : ¬ Occurs m a) (ms s t : UInt8) (post : Bytes) :
    FirstAt (m ++ [x]) (a ++ [ms, 6, s, t, 0, 0] ++ (m ++ [x]) ++ post) (a.length + 6) := by
  refine ⟨⟨_, _, rfl, by simp⟩, fun j h => ?_⟩
  have e : ∀ p : Bytes, ∀ z q, a ++ [ms, 6, s, t, 0, 0] ++ (m ++ [x]) ++ post = a ++ p ++ z :: q → z ∉ m ++ [x] →
      j + (m.length + 1) ≤ a.length + p.length ∨ a.length + p.length < j := by
    intro p z q e hz
    have := occursAt_sep hz (e ▸ h)
    simpa using this
  have e1 := e [ms] 6 ([s, t, 0, 0] ++ (m ++ [x]) ++ post) (by simp) h6
  have e2 := e [ms, 6, s, t] 0 ([0] ++ (m ++ [x]) ++ post) (by simp) h0
  have e3 := e [ms, 6, s, t, 0] 0 ((m ++ [x]) ++ post) (by simp) h0
  simp only [List.length_cons, List.length_nil] at e1 e2 e3
  rcases e1 with e1 | e1
  · refine absurd ?_ ha
    obtain ⟨pre, q, k, rfl⟩ := h
    refine ⟨pre, (a.drop (pre.length + m.length)), ?_⟩
    have k2 := congrArg (List.take (pre.length + m.length)) k
    rw [show a ++ [ms, 6, s, t, 0, 0] ++ (m ++ [x]) ++ post = a ++ ([ms, 6, s, t, 0, 0] ++ (m ++ [x]) ++ post) by simp,
      List.take_append_of_le_length (by omega), show pre ++ (m ++ [x]) ++ q = (pre ++ m) ++ (x :: q) by simp,
      List.take_left' (by simp)] at k2
    rw [← k2, List.take_append_drop]
  · omega

/-- A word is found last where it is if it does not occur behind. -/
theorem lastAt_of_tail {m : Bytes} {a post : Bytes} (h : ¬ Occurs m ((m ++ post).drop 1)) : LastAt m (a ++ m ++ post) a.length := by
  refine ⟨⟨_, _, rfl, rfl⟩, ?_⟩
  rintro j ⟨x, y, e, rfl⟩
  by_contra hlt
  apply h
  refine ⟨x.drop (a.length + 1), y, ?_⟩
  have := congrArg (List.drop (a.length + 1)) e
  rw [List.append_assoc, ← List.drop_drop, List.drop_left, List.append_assoc,
    List.drop_append_of_le_length (l₁ := x) (by omega), ← List.append_assoc] at this
  exact this

/-- The frames up to the one in which an offset lies. -/
theorem msBefore_mid (a b : List Frame) (f : Frame) (o : Nat) (h1 : (Spec.encode a).length < o)
    (h2 : o ≤ (Spec.encode (a ++ [f])).length) :
    msBefore o (a ++ f :: b) = (a.map fun f => f.duration.toNat).sum + f.duration.toNat := by
  have e : a ++ f :: b = (a ++ [f]) ++ b := by simp
  rw [e, msBefore_append _ _ _ h2]
  have key : ∀ (a : List Frame) (i : Nat), i + (Spec.encode a).length < o →
      msFrom i o (a ++ [f]) = (a.map fun f => f.duration.toNat).sum + f.duration.toNat := by
    intro a
    induction a with
    | nil =>
      intro i h
      simp only [Spec.encode, List.flatMap_nil, List.length_nil, Nat.add_zero] at h
      rw [List.nil_append, msFrom_cons h]
      simp [msFrom, starts]
    | cons x a ih =>
      intro i h
      simp only [Spec.encode, List.flatMap_cons, List.length_append] at h
      rw [List.cons_append, msFrom_cons (by omega), ih _ (by simp only [Spec.encode]; omega)]
      simp only [List.map_cons, List.sum_cons]
      omega
  rw [← msFrom_zero, key a 0 (by omega)]

/-! ### The layout of a course -/

/-- What is sent before the date. -/
def opening (r : Recording) (c : Course) : Play :=
  ⟨0, .all, .other r.serverinfo⟩ :: ⟨0, .all, .other r.spawn⟩ :: c.countdown

/-- The announcement of the date. -/
def dateMoment (c : Course) : Moment := ⟨c.start, .all, .announcement (chars!"matchdate: " ++ c.date ++ ['\n'])⟩

/-- The announcement of the end. -/
def overMoment (c : Course) : Moment := ⟨c.finish, .all, .announcement chars!"The match is over\n"⟩

/-- What is sent after the end. -/
def closing (c : Course) : Play := c.after ++ [⟨0, .all, .other Recording.disconnect⟩]

theorem course_whole {r : Recording} {c : Course} (hr : r.play = c.play) :
    r.whole = opening r c ++ dateMoment c :: (c.game ++ overMoment c :: closing c) := by
  simp [Recording.whole, hr, Course.play, opening, dateMoment, overMoment, closing]

theorem record_append (a b : Play) : record (a ++ b) = record a ++ record b := by
  simp [record, Play.frames, Spec.encode]

theorem record_cons (m : Moment) (b : Play) : record (m :: b) = m.frame.encode ++ record b := by
  simp [record, Play.frames, Spec.encode]

theorem utf8_ascii {s : Str} (h : ∀ x ∈ s, x.toNat < 128) : utf8 s = bytesOf s := by
  induction s with
  | nil => rfl
  | cons x s ih =>
    rw [utf8_cons, ih fun y hy => h y (.tail _ hy), utf8Char_ascii (h x (by simp))]
    rfl

theorem dateFrame (c : Course) (h : c.date.length ≤ 25) : (dateMoment c).frame.encode =
    [c.start, 6, UInt8.ofNat ((c.date.length + 15) % 256), UInt8.ofNat ((c.date.length + 15) / 256), 0, 0] ++
      ([8, 2] ++ bytes!"matchdate:" ++ [32]) ++ (bytesOf c.date ++ [10, 0]) := by
  have hl : (Happening.announcement (chars!"matchdate: " ++ c.date ++ ['\n'])).message.length = c.date.length + 15 := by
    simp [Happening.message, Happening.print, PrintMsg.encode, bytesOf]
  have e : (dateMoment c).frame.encode = [c.start, 6] ++
      le32 (Happening.announcement (chars!"matchdate: " ++ c.date ++ ['\n'])).message.length ++
      (Happening.announcement (chars!"matchdate: " ++ c.date ++ ['\n'])).message := rfl
  rw [e, hl, le32_small (by omega)]
  simp [Happening.message, Happening.print, PrintMsg.encode, bytesOf]

theorem overFrame (c : Course) : (overMoment c).frame.encode = [c.finish, 6, 21, 0, 0, 0, 8, 2] ++ matchOver ++ [10, 0] := by
  have : (Happening.announcement chars!"The match is over\n").message = [8, 2] ++ matchOver ++ [10, 0] := by decide
  have e : (overMoment c).frame.encode = [c.finish, 6] ++ le32 (Happening.announcement chars!"The match is over\n").message.length ++
      (Happening.announcement chars!"The match is over\n").message := rfl
  rw [e, this]
  rfl

theorem closing_record (c : Course) : record (closing c) = record c.after ++ 0 :: ([6, 11, 0, 0] ++ Spec.endOfDemo) := by
  rw [closing, record_append]
  congr 1

/-- The date is announced first where it is. -/
theorem course_first {r : Recording} {c : Course} (hr : r.play = c.play) (hc : c.Clear r) :
    ∃ post, r.demo = (record (opening r c) ++ [c.start, 6, UInt8.ofNat ((c.date.length + 15) % 256),
      UInt8.ofNat ((c.date.length + 15) / 256), 0, 0]) ++ matchdatePrint ++ (bytesOf c.date ++ 10 :: post) ∧
      FirstAt matchdatePrint r.demo ((record (opening r c)).length + 6) := by
  refine ⟨0 :: record (c.game ++ overMoment c :: closing c), ?_⟩
  have e : r.demo = (record (opening r c) ++ [c.start, 6, UInt8.ofNat ((c.date.length + 15) % 256),
      UInt8.ofNat ((c.date.length + 15) / 256), 0, 0]) ++ matchdatePrint ++
      (bytesOf c.date ++ 10 :: 0 :: record (c.game ++ overMoment c :: closing c)) := by
    rw [Recording.demo, course_whole hr, record_append, record_cons, dateFrame c hc.size.2]
    simp [matchdatePrint]
  refine ⟨e, ?_⟩
  rw [e]
  exact firstAt_message (m := [8, 2] ++ bytes!"matchdate:") (x := 32) (by decide) (by decide) (by decide) hc.first _ _ _ _

/-- The end is announced last where it is. -/
theorem course_last {r : Recording} {c : Course} (hr : r.play = c.play) (hc : c.Clear r) :
    LastAt matchOver r.demo ((record (opening r c ++ dateMoment c :: c.game)).length + 8) := by
  have e : r.demo = (record (opening r c ++ dateMoment c :: c.game) ++ [c.finish, 6, 21, 0, 0, 0, 8, 2]) ++ matchOver ++
      (10 :: 0 :: record (closing c)) := by
    rw [Recording.demo, course_whole hr, show opening r c ++ dateMoment c :: (c.game ++ overMoment c :: closing c) =
      (opening r c ++ dateMoment c :: c.game) ++ overMoment c :: closing c by simp, record_append, record_cons, overFrame]
    simp
  rw [e]
  have := lastAt_of_tail (m := matchOver) (a := record (opening r c ++ dateMoment c :: c.game) ++ [c.finish, 6, 21, 0, 0, 0, 8, 2])
    (post := 10 :: 0 :: record (closing c)) ?_
  · simpa using this
  · rw [closing_record]
    intro h
    rcases occurs_sep (z := 0) (a := matchOver.drop 1 ++ [10]) (by decide) h with h | h
    · exact absurd h (by decide)
    · rcases occurs_sep (by decide) h with h | h
      · exact hc.last h
      · exact absurd h (by decide +kernel)

/-! ### Dates and times -/

/-- C86: the date is read back. -/
theorem C86_date (r : Recording) (c : Course) (hr : r.play = c.play) (hc : c.Clear r) : matchdateString r.demo = .ok c.date := by
  obtain ⟨post, e, hf⟩ := course_first hr hc
  have ha := utf8_ascii (s := c.date) fun x hx => (hc.line x hx).2.1
  rw [e] at hf ⊢
  rw [← ha] at hf ⊢
  refine C55_text _ _ c.date (by simpa using hf) ?_ ?_
  · rw [ha]
    refine not_mem_bytesOf (fun x hx => ⟨(hc.line x hx).1, by have := (hc.line x hx).2.1; omega⟩) ?_
    exact fun k => (hc.line _ k).2.2 rfl
  · rw [ha, length_bytesOf]
    exact hc.size

/-- C86: an existing date with a known time zone is the instant it stands for. -/
theorem C86_instant (g : Env) (hg : ReadsDates g.parseDate) (r : Recording) (c : Course) (hr : r.play = c.play) (hc : c.Clear r)
    (t : DateTime) (ht : t.Valid) (zone : String) (minutes : Int) (hz : (zone, minutes) ∈ zones)
    (hd : c.date = t.text ++ ' ' :: zone.toList) : matchdate g r.demo = .ok (t.instant minutes) := by
  obtain ⟨offset, h1, h2⟩ := C53_abbreviation zone minutes hz
  exact C56_instant g hg _ t ht _ offset minutes (by rw [← hd]; exact C86_date r c hr hc) h1 h2

theorem frame_ms : ((fun f : Frame => f.duration.toNat) ∘ Moment.frame) = fun m => m.ms.toNat :=
  funext fun m => congrArg UInt8.toNat (frame_duration m)

theorem course_countdown {r : Recording} {c : Course} (hr : r.play = c.play) (hc : c.Clear r) :
    msBefore ((record (opening r c)).length + 6) r.whole.frames = c.countdownMs := by
  rw [course_whole hr]
  have e : Play.frames (opening r c ++ dateMoment c :: (c.game ++ overMoment c :: closing c)) =
      (opening r c).frames ++ (dateMoment c).frame :: Play.frames (c.game ++ overMoment c :: closing c) := by
    simp [Play.frames]
  have hl := dateFrame c hc.size.2
  rw [e, msBefore_mid _ _ _ _ (by simp [record]) (by
    rw [Spec.encode, List.flatMap_append, List.length_append, ← Spec.encode, ← record]
    simp only [List.flatMap_cons, List.flatMap_nil, List.append_nil, hl, List.length_append, List.length_cons]
    omega)]
  simp only [opening, Play.frames, List.map_cons, List.map_map, List.sum_cons, Course.countdownMs]
  rw [frame_duration, frame_duration, frame_duration, frame_ms]
  simp [dateMoment]

theorem course_total {r : Recording} {c : Course} (hr : r.play = c.play) :
    msBefore ((record (opening r c ++ dateMoment c :: c.game)).length + 8) r.whole.frames = c.countdownMs + c.gameMs := by
  rw [course_whole hr]
  have e : Play.frames (opening r c ++ dateMoment c :: (c.game ++ overMoment c :: closing c)) =
      (opening r c ++ dateMoment c :: c.game).frames ++ (overMoment c).frame :: (closing c).frames := by
    simp [Play.frames]
  have hl := overFrame c
  rw [e, msBefore_mid _ _ _ _ (by simp [record]) (by
    rw [Spec.encode, List.flatMap_append, List.length_append, ← Spec.encode, ← record]
    simp only [List.flatMap_cons, List.flatMap_nil, List.append_nil, hl, List.length_append, List.length_cons]
    omega)]
  simp only [opening, Play.frames, List.map_cons, List.map_append, List.map_map, List.sum_cons, List.sum_append, List.cons_append,
    Course.countdownMs, Course.gameMs]
  rw [frame_duration, frame_duration, frame_duration, frame_duration, frame_ms]
  simp [dateMoment, overMoment]
  omega

theorem mode_of {g : Env} {r : Recording} (h : r.Proper) (hm : (g.settings (g.toUtf8 (bytesOf r.info))).mode ≠ some chars!"hoonymode") :
    ¬ Hoonymode g r.demo := by
  intro hh
  have h1 := isHoonymode_true g (demo_length h) hh
  simp [isHoonymode, (C83_serverinfo g r h).2, R.isOkAnd, hm] at h1

/-- C86: the countdown is the time until the date is announced. -/
theorem C86_countdown (g : Env) (r : Recording) (h : r.Proper) (hl : r.demo.length < 2 ^ 31) (c : Course) (hr : r.play = c.play)
    (hc : c.Clear r) (hm : (g.settings (g.toUtf8 (bytesOf r.info))).mode ≠ some chars!"hoonymode") (hms : c.countdownMs < 2 ^ 32) :
    ∃ ns, countdownDuration g r.demo = .ok ns ∧ Converted c.countdownMs ns := by
  obtain ⟨hsp, hst⟩ := record_splits hl
  obtain ⟨_, _, hf⟩ := course_first hr hc
  have e := course_countdown hr hc
  refine ⟨_, ?_, (C36_conversion _ _).mpr rfl⟩
  rw [← e] at hms ⊢
  exact countdown_ms g _ _ _ _ (demo_length h) (mode_of h hm) hsp hf (.inl hst) hms

/-- C86: the demo lasts until the end of the match is announced. -/
theorem C86_demo (g : Env) (r : Recording) (hl : r.demo.length < 2 ^ 31) (c : Course) (hr : r.play = c.play)
    (hc : c.Clear r) (hms : c.countdownMs + c.gameMs < 2 ^ 32) :
    ∃ ns, demoDuration g r.demo = .ok ns ∧ Converted (c.countdownMs + c.gameMs) ns := by
  obtain ⟨hsp, hst⟩ := record_splits hl
  have e := course_total hr
  refine ⟨_, ?_, (C36_conversion _ _).mpr rfl⟩
  rw [← e] at hms ⊢
  exact demo_ms g _ _ _ _ hsp (.inl (course_last hr hc)) (.inl hst) hms

/-- C86: without match stats the match lasts from the announcement of the date to that of the end, up to rounding. -/
theorem C86_match (g : Env) (r : Recording) (h : r.Proper) (hl : r.demo.length < 2 ^ 31) (c : Course) (hr : r.play = c.play)
    (hc : c.Clear r) (hm : (g.settings (g.toUtf8 (bytesOf r.info))).mode ≠ some chars!"hoonymode")
    (hms : c.countdownMs + c.gameMs < 2 ^ 32) (hk : ¬ Occurs statsMarker r.demo) :
    ∃ ns, matchDuration g r.demo = .ok ns ∧
      |(ns : ℚ) - c.gameMs * 10 ^ 6| ≤ (2 * c.countdownMs + c.gameMs : ℚ) * 10 ^ 6 / 2 ^ 23 + 1 := by
  obtain ⟨cd, h1, h2⟩ := C86_countdown g r h hl c hr hc hm (by omega)
  obtain ⟨d, h3, h4⟩ := C86_demo g r hl c hr hc hms
  rw [C36_conversion] at h2 h4
  have hle : cd ≤ d := by
    rw [h2, h4]
    exact C36_monotone _ _ (by omega)
  refine ⟨d - cd, ?_, ?_⟩
  · rw [C39_fallback g _ (demo_length h) (mode_of h hm) (.inl ⟨_, (C41_not_found g _).mpr hk⟩)]
    unfold matchDurationFromSeeking
    rw [h3, h1]
    simp [R.bind, R.unwrapOr, durationSub, hle]
  · have a1 := C36_accuracy c.countdownMs
    have a2 := C36_accuracy (c.countdownMs + c.gameMs)
    rw [← h2] at a1
    rw [← h4] at a2
    rw [Nat.cast_sub hle]
    push_cast at a2
    rw [abs_le] at a1 a2 ⊢
    constructor <;> linarith [a1.1, a1.2, a2.1, a2.2]

/-- C86: in hoonymode there is no countdown, and the match lasts as long as the demo. -/
theorem C86_hoonymode (g : Env) (r : Recording) (h : r.Proper) (hl : r.demo.length < 2 ^ 31) (c : Course) (hr : r.play = c.play)
    (hc : c.Clear r) (hm : (g.settings (g.toUtf8 (bytesOf r.info))).mode = some chars!"hoonymode")
    (hms : c.countdownMs + c.gameMs < 2 ^ 32) :
    countdownDuration g r.demo = .ok 0 ∧ ∃ ns, matchDuration g r.demo = .ok ns ∧ Converted (c.countdownMs + c.gameMs) ns := by
  have hh : Hoonymode g r.demo := by
    by_contra hh
    have h1 := isHoonymode_false g (demo_length h) hh
    simp [isHoonymode, (C83_serverinfo g r h).2, R.isOkAnd, hm] at h1
  obtain ⟨h1, h2⟩ := C38_hoonymode g _ (demo_length h) hh
  rw [h2]
  exact ⟨h1, C86_demo g r hl c hr hc hms⟩

/-- C86: with match stats (C85) the match lasts as long as these say. -/
theorem C86_recorded (g : Env) (r : Recording) (text : Str) (pieces : List Bytes) (hc : CutInto text pieces)
    (h : (r.withStats pieces).Proper) (hl : (r.withStats pieces).demo.length < 2 ^ 31)
    (hm : (g.settings (g.toUtf8 (bytesOf r.info))).mode ≠ some chars!"hoonymode") (t : Str) (x : ℚ)
    (ht : RecordedDuration text t) (hx : g.parseF64 t = some (.finite x)) (h0 : 0 ≤ x) (h64 : x < 2 ^ 64) :
    ∃ ns, matchDuration g (r.withStats pieces).demo = .ok ns ∧
      NearestEven (fun x => ∃ n : ℤ, x = n) (fun x => ∃ n : ℤ, x = 2 * n) (x * 10 ^ 9) ns :=
  C39_recorded g _ text t x (demo_length h) (mode_of h hm) (C85_text g r text pieces hc hl) ht hx h0 h64

/-- C86: the timestamp is the epoch of the serverinfo, without one the match date. -/
theorem C86_timestamp (g : Env) (r : Recording) (h : r.Proper) :
    (∀ epoch, (g.settings (g.toUtf8 (bytesOf r.info))).epoch = some epoch → timestamp g r.demo = .ok epoch) ∧
    ((g.settings (g.toUtf8 (bytesOf r.info))).epoch = none → timestamp g r.demo = matchdate g r.demo) := by
  unfold timestamp timestampFromEpoch
  rw [(C83_serverinfo g r h).2]
  refine ⟨fun epoch he => ?_, fun he => ?_⟩ <;> simp [R.bind, R.orElse, he]

/-- A match of a second, with a countdown of half a second and a second date that is not the first. -/
def Example.course : Course where
  countdown := [⟨250, .all, .pings [(0, 25), (1, 38)]⟩, ⟨240, .one 3, .other (7 :: List.replicate 1300 10)⟩]
  start := 10
  date := chars!"2024-04-02 21:02:17 CEST"
  game := [⟨250, .all, .obituary (.frag chars!"a" chars!"b") chars!"b was nailed by a"⟩, ⟨250, .all, .chat chars!"matchdate: ?\n"⟩,
    ⟨250, .all, .announcement chars!"matchdate: 2024-04-02 21:02:18 CEST\n"⟩, ⟨200, .all, .announcement chars!"The match is over\n"⟩]
  finish := 50
  after := [⟨70, .all, .other [7, 1]⟩]

def Example.courseRecording : Recording where
  info := chars!"\\mode\\1on1"
  clients := [chars!"\\name\\a\\team\\red", chars!"\\name\\b\\team\\blue"]
  play := Example.course.play

/-- The hypotheses of C86 are met by that recording. -/
example : Example.courseRecording.Proper ∧ Example.courseRecording.demo.length < 2 ^ 31 ∧
    Example.courseRecording.play = Example.course.play ∧ Example.course.Clear Example.courseRecording ∧
    (Example.debug.settings (Example.debug.toUtf8 (bytesOf Example.courseRecording.info))).mode ≠ some chars!"hoonymode" ∧
    Example.course.countdownMs = 500 ∧ Example.course.gameMs = 1000 ∧ ¬ Occurs statsMarker Example.courseRecording.demo ∧
    DateTime.Valid ⟨2024, 4, 2, 21, 2, 17⟩ ∧ ("CEST", 120) ∈ zones ∧
    Example.course.date = DateTime.text ⟨2024, 4, 2, 21, 2, 17⟩ ++ ' ' :: "CEST".toList ∧
    matchDuration Example.debug Example.courseRecording.demo = .ok 1000000000 ∧
    matchdateString Example.courseRecording.demo = .ok chars!"2024-04-02 21:02:17 CEST" := by
  refine ⟨⟨⟨by decide, by decide, Example.oneByte_of (by decide), by decide, by decide⟩, by decide, by decide, ?_, ?_,
    by decide +kernel, by decide +kernel⟩, by decide +kernel, rfl, ⟨by decide +kernel, by decide, by decide +kernel, by decide +kernel⟩,
    by decide +kernel, by decide, by decide, by decide +kernel, by unfold DateTime.Valid; decide, by decide +kernel, by decide +kernel,
    by decide +kernel, by decide +kernel⟩
  · intro s hs
    simp only [Example.courseRecording, List.mem_cons, List.not_mem_nil, or_false] at hs
    rcases hs with rfl | rfl <;>
      exact ⟨Example.oneByte_of (by decide), by decide, by decide, find_isSome_iff.mp (by decide)⟩
  · intro m hm
    simp only [Example.courseRecording, Course.play, Example.course, List.cons_append, List.nil_append, List.mem_cons,
      List.not_mem_nil, or_false] at hm
    rcases hm with rfl | rfl | rfl | rfl | rfl | rfl | rfl | rfl | rfl
    · simp [Happening.Proper]
    · exact ⟨(by decide : (some 7 : Option UInt8) ≠ some 8), (by decide : (some 7 : Option UInt8) ≠ some 36)⟩
    · exact ⟨by decide, Example.oneByte_of (by decide)⟩
    · exact ⟨.victimFirst (x := chars!"b") (y := chars!"a") (p := ⟨chars!" was nailed by ", []⟩) (by decide +kernel)
        (by decide +kernel) (by decide +kernel), Example.oneByte_of (by decide), by decide⟩
    · exact ⟨by decide, Example.oneByte_of (by decide)⟩
    · exact ⟨by decide, Example.oneByte_of (by decide)⟩
    · exact ⟨by decide, Example.oneByte_of (by decide)⟩
    · exact ⟨by decide, Example.oneByte_of (by decide)⟩
    · exact ⟨by decide, by decide⟩

end Mvd

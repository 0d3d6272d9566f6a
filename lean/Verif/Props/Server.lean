import Verif.Spec.Server
import Verif.Props.Ambush
import Verif.Props.Duration
import Verif.Props.Time
import Verif.Props.Metadata

/-! C97: demos as servers write them. -/

namespace Mvd
open Spec

theorem stops_nil (n : Nat) : Stops n [] := by
  simp [Stops, announced]

namespace Server

variable {g : Env} {m : ServerMatch} {data : Bytes} {fs : List Frame}

theorem strings_of (h : Served g m data fs) : clientinfoStrings g data = .ok (m.userinfos.map g.toUnicode) := by
  obtain ⟨before, entries, tail, e, hf, hs, hl, hm⟩ := h.slots
  rw [e] at hf ⊢
  rw [C18_finds_every_client g before entries tail hf hs hl, ← hm, List.map_map]
  rfl

theorem enlisted_unique {info : Clientinfo} {slot : Nat} {c : Client} (h : Enlisted info slot c) (hs : slot < 256) :
    { Client.ofClientinfo info with number := asU8 slot } = c := by
  obtain ⟨number, name, team, ⟨top, bottom⟩, spectator, bot, user, cc⟩ := c
  obtain ⟨rfl, rfl, rfl, ⟨h4, h5⟩, h6, h7, rfl, rfl⟩ := h
  dsimp only at h4 h5 h6 h7
  unfold Client.ofClientinfo asU8
  rw [← h4, ← h5]
  have e : ∀ {o : Option Int} {b : Bool}, (b = true ↔ ∃ n, o = some n ∧ n ≠ 0) → (o.any fun n => decide (n ≠ 0)) = b := by
    intro o b hb
    rw [Bool.eq_iff_iff, hb]
    cases o <;> simp
  have e1 := e h6
  have e2 := e h7
  simp only [Client.mk.injEq, true_and, and_true, Int.toNat_natCast]
  dsimp only at hs
  refine ⟨by clear h6 h7; omega, ?_, ?_⟩
  · exact e1
  · exact e2

theorem roster_of (h : Served g m data fs) : clients g data = .ok m.roster := by
  unfold clients clientinfo
  rw [strings_of h]
  simp only [R.bind, R.ok.injEq]
  have hx := h.enlisted
  have hf := h.few
  have key : ∀ (l : List Bytes) (k : Nat) (cs : List Client), k + l.length ≤ 256 →
      List.Forall₂ (fun s c => Enlisted (g.clientinfo (g.toUnicode s.1)) s.2 c) (l.zipIdx k) cs →
      (((l.map g.toUnicode).map g.clientinfo).zipIdx k).map
        (fun (info, number) => { Client.ofClientinfo info with number := asU8 number }) = cs := by
    intro l
    induction l with
    | nil => intro k cs _ h; cases h; rfl
    | cons s t ih =>
      intro k cs hk h
      rw [List.zipIdx_cons] at h
      cases h with
      | cons h1 h2 =>
        simp only [List.map_cons, List.zipIdx_cons]
        rw [ih (k + 1) _ (by simp at hk; omega) h2]
        congr 1
        exact enlisted_unique h1 (by simp at hk; omega)
  exact key m.userinfos 0 m.roster (by simpa using hf) hx

theorem roster_few (h : Served g m data fs) : m.roster.length ≤ 256 := by
  have := h.enlisted.length_eq
  rw [List.length_zipIdx] at this
  exact this ▸ h.few

end Server
open Server

/-- C97: the serverinfo, and the filename in it. -/
theorem C97_header (g : Env) (m : ServerMatch) (data : Bytes) (fs : List Frame) (h : Served g m data fs) :
    serverinfo g data = .ok (g.settings (g.toUtf8 m.info)) ∧
    (∀ name, (g.settings (g.toUtf8 m.info)).serverdemo = some name → filename g data = .ok name) ∧
    (∀ epoch, (g.settings (g.toUtf8 m.info)).epoch = some epoch → timestamp g data = .ok epoch) ∧
    ((g.settings (g.toUtf8 m.info)).epoch = none → timestamp g data = matchdate g data) := by
  have e := (C14_serverinfo_string g data h.size.1 _).mpr ⟨m.info, h.header, rfl⟩
  have e' : serverinfo g data = .ok (g.settings (g.toUtf8 m.info)) := by
    unfold serverinfo
    rw [e]
    rfl
  refine ⟨e', fun name hn => (C16_filename g data h.size.1 name).mpr ⟨m.info, h.header, hn⟩, fun epoch he => ?_, fun he => ?_⟩ <;>
    unfold timestamp timestampFromEpoch <;> rw [e'] <;> simp [R.bind, R.orElse, he]

/-- C97: the clients. -/
theorem C97_clients (g : Env) (m : ServerMatch) (data : Bytes) (fs : List Frame) (h : Served g m data fs) :
    clients g data = .ok m.roster := roster_of h

/-- C97: with the marker at the end the demo is valid. -/
theorem C97_valid (g : Env) (m : ServerMatch) (data : Bytes) (fs : List Frame) (h : Served g m data fs)
    (hu : m.userinfos ≠ []) : (isValid g data = .ok true ↔ EndsWithMarker data) ∧ (EndsWithMarker data → isPaused data = false) := by
  have key : isValid g data = .ok true ↔ EndsWithMarker data := by
    rw [C12_exact]
    exact ⟨fun k => k.2.1, fun k => ⟨h.size.1, k, ⟨_, h.header⟩, _, strings_of h, by simpa using hu⟩⟩
  exact ⟨key, fun k => C11_valid_not_paused g data (key.mpr k)⟩

/-- C97: the scores. -/
theorem C97_scores (g : Env) (m : ServerMatch) (data : Bytes) (fs : List Frame) (h : Served g m data fs) :
    ∃ frags, fragsPerPlayerName g data = .ok frags ∧ ∀ name,
      (Scores m.events name → frags.get name = some (score m.events name)) ∧ (¬ Scores m.events name → frags.get name = none) :=
  C88_scores g data fs [] m.roster m.events h.whole (stops_nil _) h.size.2 (roster_of h) (roster_few h) h.names h.told

/-- C97: without match stats, the players: the clients that are no spectators, with score and mean ping, ranked. -/
theorem C97_players (g : Env) (m : ServerMatch) (data : Bytes) (fs : List Frame) (h : Served g m data fs)
    (hk : ¬ Occurs statsMarker data) :
    ∃ ps l, List.Forall₂ (ReportedAs m.events (sampledPings m.pings)) (inGame m.roster) ps ∧
      players g data = .ok l ∧ l.Perm ps ∧ l.Pairwise fun a b => ¬ Outranks b a :=
  C88_players g data fs [] _ m.roster m.events m.pings h.whole (stops_nil _) h.size.2
    ((C42_stats g data).2.2.1 _ ((C41_not_found g data).mpr hk)) (roster_of h) (roster_few h) h.names h.told h.pinged h.some h.low

/-- C97: and the teams. -/
theorem C97_teams (g : Env) (m : ServerMatch) (data : Bytes) (fs : List Frame) (h : Served g m data fs)
    (hk : ¬ Occurs statsMarker data) :
    ((inGame m.roster).length ≤ 255 → ∃ ts, teams g data = .ok ts) ∧ ∀ ts, teams g data = .ok ts →
      (∀ name, name ∈ ts.map (·.name) ↔ ∃ c ∈ inGame m.roster, c.team = name) ∧
      ∀ t ∈ ts, t.frags = (((inGame m.roster).filter fun c => c.team = t.name).map fun c => score m.events c.name).sum :=
  ⟨C88_found g data fs [] _ m.roster m.events m.pings h.whole (stops_nil _) h.size.2
    ((C42_stats g data).2.2.1 _ ((C41_not_found g data).mpr hk)) (roster_of h) (roster_few h) h.names h.told h.pinged h.some h.low,
  fun ts ht => C88_teams g data fs [] _ m.roster m.events m.pings ts h.whole (stops_nil _) h.size.2
    ((C42_stats g data).2.2.1 _ ((C41_not_found g data).mpr hk)) (roster_of h) (roster_few h) h.names h.told h.pinged h.some h.low ht⟩

/-- C97: with match stats, the text of these, and server and players from them. -/
theorem C97_stats (g : Env) (m : ServerMatch) (data : Bytes) (fs : List Frame) (h : Served g m data fs) (text : Str)
    (hc : CarriesStats data text) :
    ktxstatsString g data = .ok text ∧ ∀ stats, g.ktxstats text = some stats →
      (∃ v, server g data = .ok v ∧ v.hostname = stats.hostname ∧ v.ip = stats.ip ∧ v.port = stats.port) ∧
      ∃ ps l, List.Forall₂ FromStats stats.players ps ∧ players g data = .ok l ∧ StablySorted Outranks ps l := by
  have e : ktxstatsString g data = .ok text := by
    obtain ⟨before, blocks, last, after, e, h1, h2, h3, h4, h5⟩ := hc
    have hl := h.size.2
    rw [e] at h4 hl ⊢
    exact C40_round_trip g before after blocks last text h1 h2 h3 (by omega) h4 h5
  refine ⟨e, fun stats hp => ?_⟩
  have hs := ((C42_stats g _).1 stats).mpr ⟨text, e, hp⟩
  obtain ⟨v, h1, h2, h3, h4, _⟩ := C42_server g _ stats hs
  obtain ⟨ps, l, k1, k2, k3⟩ := C44_from_stats stats
  exact ⟨⟨v, h1, h2, h3, h4⟩, ps, l, k1, (C43_from_stats g _ stats hs).trans k2, k3⟩

/-- C97: the date. -/
theorem C97_date (g : Env) (m : ServerMatch) (data : Bytes) (fs : List Frame) (h : Served g m data fs) :
    matchdateString data = .ok m.date ∧
    ∀ (t : DateTime) (zone : String) (minutes : Int), ReadsDates g.parseDate → t.Valid → (zone, minutes) ∈ zones →
      m.date = t.text ++ ' ' :: zone.toList → matchdate g data = .ok (t.instant minutes) := by
  have e : matchdateString data = .ok m.date := by
    obtain ⟨before, after, e, hf, hn, hl⟩ := h.dated
    rw [e] at hf ⊢
    exact C55_text before after m.date hf hn hl
  refine ⟨e, fun t zone minutes hg ht hz hd => ?_⟩
  obtain ⟨offset, h1, h2⟩ := C53_abbreviation zone minutes hz
  exact C56_instant g hg _ t ht _ offset minutes (by rw [← hd]; exact e) h1 h2

/-- C97: the time to the end. -/
theorem C97_recorded (g : Env) (m : ServerMatch) (data : Bytes) (fs : List Frame) (h : Served g m data fs) :
    ∃ ns, demoDuration g data = .ok ns ∧ Converted (m.countdown + m.game) ns := by
  obtain ⟨start, finish, h1, h2, h3, h4, h5⟩ := h.timed
  have hs := h.short
  have hd := demo_ms g data fs [] finish h.whole h2 (.inl (stops_nil _)) (by omega)
  rw [h5] at hd
  exact ⟨_, hd, (C36_conversion _ _).mpr rfl⟩

/-- C97: the times. Without match stats the match lasts from the date to the end, up to rounding; with match stats as long as
these say. -/
theorem C97_times (g : Env) (m : ServerMatch) (data : Bytes) (fs : List Frame) (h : Served g m data fs)
    (hm : (g.settings (g.toUtf8 m.info)).mode ≠ some chars!"hoonymode") :
    (∃ ns, countdownDuration g data = .ok ns ∧ Converted m.countdown ns) ∧
    (∃ ns, demoDuration g data = .ok ns ∧ Converted (m.countdown + m.game) ns) ∧
    (¬ Occurs statsMarker data → ∃ ns, matchDuration g data = .ok ns ∧
      |(ns : ℚ) - m.game * 10 ^ 6| ≤ (2 * m.countdown + m.game : ℚ) * 10 ^ 6 / 2 ^ 23 + 1) ∧
    ∀ text t x, CarriesStats data text → RecordedDuration text t → g.parseF64 t = some (.finite x) → 0 ≤ x → x < 2 ^ 64 →
      ∃ ns, matchDuration g data = .ok ns ∧
        NearestEven (fun x => ∃ n : ℤ, x = n) (fun x => ∃ n : ℤ, x = 2 * n) (x * 10 ^ 9) ns := by
  obtain ⟨start, finish, h1, h2, h3, h4, h5⟩ := h.timed
  have hh : ¬ Hoonymode g data := not_hoonymode g h.size.1 (by
    unfold isHoonymode
    rw [(C97_header g m data fs h).1]
    simpa [R.isOkAnd] using hm)
  have hs := h.short
  have hc := countdown_ms g data fs [] start h.size.1 hh h.whole h1 (.inl (stops_nil _)) (by omega)
  have hd := demo_ms g data fs [] finish h.whole h2 (.inl (stops_nil _)) (by omega)
  rw [h4] at hc
  rw [h5] at hd
  refine ⟨⟨_, hc, (C36_conversion _ _).mpr rfl⟩, ⟨_, hd, (C36_conversion _ _).mpr rfl⟩, fun hk => ?_, ?_⟩
  · have hle := C36_monotone m.countdown (m.countdown + m.game) (by omega)
    refine ⟨msToDuration (m.countdown + m.game) - msToDuration m.countdown, ?_, ?_⟩
    · rw [C39_fallback g _ h.size.1 hh (.inl ⟨_, (C41_not_found g _).mpr hk⟩)]
      unfold matchDurationFromSeeking
      rw [hd, hc]
      simp only [R.bind, R.unwrapOr, durationSub, hle, if_true]
    · have a1 := C36_accuracy m.countdown
      have a2 := C36_accuracy (m.countdown + m.game)
      rw [Nat.cast_sub hle]
      push_cast at a2
      rw [abs_le] at a1 a2 ⊢
      constructor <;> linarith [a1.1, a1.2, a2.1, a2.2]
  · intro text t x hcs ht hx h0 h64
    exact C39_recorded g data text t x h.size.1 hh (C97_stats g m data fs h text hcs).1 ht hx h0 h64

/-- C97: in hoonymode there is no countdown, and the match lasts as long as the demo. -/
theorem C97_hoonymode (g : Env) (m : ServerMatch) (data : Bytes) (fs : List Frame) (h : Served g m data fs)
    (hm : (g.settings (g.toUtf8 m.info)).mode = some chars!"hoonymode") :
    countdownDuration g data = .ok 0 ∧ ∃ ns, matchDuration g data = .ok ns ∧ Converted (m.countdown + m.game) ns := by
  obtain ⟨start, finish, h1, h2, h3, h4, h5⟩ := h.timed
  have hs := h.short
  obtain ⟨k1, k2⟩ := C38_hoonymode g data h.size.1 ⟨m.info, h.header, hm⟩
  have hd := demo_ms g data fs [] finish h.whole h2 (.inl (stops_nil _)) (by omega)
  rw [h5] at hd
  exact ⟨k1, _, k2.trans hd, (C36_conversion _ _).mpr rfl⟩

/-! ### A demo of this form -/

namespace Example

/-- The header: serverinfo, the command to spawn after another message, userinfo updates in the next two frames. -/
def openingFrames : List Frame :=
  [all (9 :: bytes!"fullserverinfo \"\\mode\\2on2\\serverdemo\\a.mvd\"\n" ++ [0]),
   ⟨0, 6, [], 7 :: spawnCommand ++ [10, 0]⟩,
   ⟨13, 6, [], [7, 40, 0, 1, 0, 0, 0] ++ bytes!"\\name\\a\\team\\red\\topcolor\\4" ++ [0, 40, 1, 2, 0, 0, 0] ++
     bytes!"\\*client\\x\\name\\b\\team\\red" ++ [0, 9, 10, 0]⟩,
   ⟨12, 3, [1, 0, 0, 0], [40, 2, 3, 0, 0, 0] ++ bytes!"\\name\\c\\team\\blue" ++ [0, 40, 3, 4, 0, 0, 0] ++
     bytes!"\\name\\s\\*spectator\\1" ++ [0]⟩,
   ⟨14, 6, [], 7 :: List.replicate 1100 10⟩]

/-- The match: pings followed by another message, a date after another print, obituaries followed by other messages, one of
them anonymous, the end inside a frame. -/
def matchFrames : List Frame :=
  [⟨200, 6, [], ping 0 25 0 ++ ping 2 44 1 ++ [7, 7]⟩,
   ⟨100, 6, [], [8, 2] ++ bytes!"Go!\n" ++ [0, 8, 2] ++ bytes!"matchdate: 2024-04-02 21:02:17 CEST\n" ++ [0, 7]⟩,
   ⟨250, 6, [], medium bytes!"c was gibbed by a's rocket\n" ++ [14, 0, 1, 0, 9, 10, 0]⟩,
   ⟨10, 4, [], [8, 3] ++ bytes!"a: x\n" ++ [0]⟩,
   ⟨10, 6, [], medium bytes!"a was telefragged by his teammate\n" ++ [14, 0, 1, 0]⟩,
   ⟨13, 6, [], [14, 2, 1, 0]⟩,
   ⟨13, 6, [], [14, 1, 255, 255, 7]⟩,
   ⟨250, 6, [], [7, 8, 2] ++ bytes!"The match is over\n" ++ [0, 7]⟩]

/-- Match stats in two blocks. -/
def statsFrames : List Frame :=
  [⟨0, 3, [0, 0, 0, 0], le32 27 ++ le16 3 ++ le16 1 ++ bytes!"{\"version\": 3, \"duration\""⟩,
   ⟨0, 3, [0, 0, 0, 0], le32 9 ++ le16 3 ++ le16 0 ++ bytes!": 600,}"⟩]

/-- With anything between the match and the end. -/
def servedFrames (extra : List Frame) : List Frame :=
  openingFrames ++ matchFrames ++ (extra ++ [⟨5, 6, [], 2 :: bytes!"EndOfDemo" ++ [0]⟩])

def served (extra : List Frame) : Bytes := Spec.encode (servedFrames extra)

def servedEntries : List ClientEntry :=
  [⟨[10, 0, 13, 6, 71, 0, 0, 0, 7, 40, 0, 1, 0, 0, 0], bytes!"\\name\\a\\team\\red\\topcolor\\4"⟩,
   ⟨[40, 1, 2, 0, 0, 0], bytes!"\\*client\\x\\name\\b\\team\\red"⟩,
   ⟨[9, 10, 0, 12, 3, 1, 0, 0, 0, 51, 0, 0, 0, 40, 2, 3, 0, 0, 0], bytes!"\\name\\c\\team\\blue"⟩,
   ⟨[40, 3, 4, 0, 0, 0], bytes!"\\name\\s\\*spectator\\1"⟩]

def servedMatch (extra : List Frame) : ServerMatch where
  info := bytes!"\\mode\\2on2\\serverdemo\\a.mvd"
  userinfos := servedEntries.map (·.info)
  roster := [⟨0, chars!"a", chars!"red", (4, 0), false, false, none, none⟩, ⟨1, chars!"b", chars!"red", (0, 0), false, false, none, none⟩,
    ⟨2, chars!"c", chars!"blue", (0, 0), false, false, none, none⟩, ⟨3, chars!"s", [], (0, 0), true, false, none, none⟩]
  events := [none, none, none, none, none, none, none, some (.frag chars!"a" chars!"c"), none, some (.teamkill chars!"b"),
    none, none, none] ++ (extra.map (fun _ => none) ++ [none])
  pings := [[], [], [], [], [], [(0, 25), (2, 300)], [], [], [], [], [], [], []] ++ (extra.map (fun _ => []) ++ [[]])
  date := chars!"2024-04-02 21:02:17 CEST"
  countdown := 340
  game := 546

theorem served_section (tail : Bytes) (h1 : 511 ≤ tail.length) (h2 : ¬ Occurs nameKey (0 :: tail.take 511)) :
    ClientSection tail spawnCommand servedEntries := by
  refine ⟨⟨spawnCommand ++ [10, 0, 13, 6, 71, 0, 0, 0, 7, 40, 0, 1, 0, 0], rfl⟩, by decide +kernel, by decide, by decide, by decide,
    ⟨0, by decide +kernel, by decide⟩, ⟨[0, 40, 1, 2, 0, 0], rfl⟩, by decide +kernel, by decide, by decide, by decide,
    ⟨10, by decide +kernel, by decide⟩, ⟨[0, 9, 10, 0, 12, 3, 1, 0, 0, 0, 51, 0, 0, 0, 40, 2, 3, 0, 0], rfl⟩, by decide +kernel,
    by decide, by decide, by decide, ⟨0, by decide +kernel, by decide⟩, ⟨[0, 40, 3, 4, 0, 0], rfl⟩, by decide +kernel,
    by decide, by decide, by decide, ⟨0, by decide +kernel, by decide⟩, by simp; omega, by simpa using h2⟩

theorem served_told (extra : List Frame) (hx : ∀ f ∈ extra, f.body.head? ≠ some 8 ∨ f.body[1]? ≠ some 1) :
    Told debug.toUnicode (servedMatch extra).roster (servedMatch extra).events (servedFrames extra) := by
  have silent : ∀ (f : Frame), f.body.head? ≠ some 8 ∨ f.body[1]? ≠ some 1 → Reports debug.toUnicode none f := by
    rintro f hf t m o ⟨p, _, h1, _, e, _⟩
    rw [e] at hf
    rcases hf with hf | hf
    · exact (hf rfl).elim
    · exact (hf (by rw [PrintMsg.encode, h1]; rfl)).elim
  have quiet : ∀ (l : List Frame) (fs : List Frame) (es : List (Option Obituary)),
      (∀ f ∈ l, f.body.head? ≠ some 8 ∨ f.body[1]? ≠ some 1) → Told debug.toUnicode (servedMatch extra).roster es fs →
      Told debug.toUnicode (servedMatch extra).roster (l.map (fun _ => none) ++ es) (l ++ fs) := by
    intro l fs es hl h
    induction l with
    | nil => exact h
    | cons f t ih => exact .named (silent f (hl f (by simp))) (ih fun f hf => hl f (by simp [hf]))
  have last : Told debug.toUnicode (servedMatch extra).roster (extra.map (fun _ => none) ++ [none])
      (extra ++ [⟨5, 6, [], 2 :: bytes!"EndOfDemo" ++ [0]⟩]) := quiet extra _ _ hx (.named (silent _ (by decide)) .nil)
  refine quiet (openingFrames ++ matchFrames.take 2) _ (some (.frag chars!"a" chars!"c") :: none :: some (.teamkill chars!"b") :: ([none, none, none] ++ _))
    (by decide +kernel) ?_
  refine .named ⟨_, [14, 0, 1, 0, 9, 10, 0], .victimFirst (x := chars!"c") (y := chars!"a")
      (p := ⟨chars!" was gibbed by ", chars!"'s rocket"⟩) (by decide +kernel) (by decide +kernel) (by decide +kernel),
      ⟨1, bytes!"c was gibbed by a's rocket\n"⟩, by decide, rfl, by decide, by decide +kernel, chars!"\n", by decide +kernel,
      by decide, by decide⟩ ?_
  refine .named (silent _ (by decide)) ?_
  refine .anonymous (victim := chars!"a") (more := [14, 0, 1, 0])
    (.mk (x := chars!"a") (p := chars!" was telefragged by his teammate") (.inl (by decide +kernel)) (by decide +kernel))
    ⟨⟨1, bytes!"a was telefragged by his teammate\n"⟩, by decide, rfl, by decide, by decide +kernel, chars!"\n", by decide +kernel,
      by decide, by decide⟩ ?_ ?_
  · change Betrayed _ ([0, 2] ++ 1 :: []) _ _
    exact ⟨_, .tail _ (.head _), _, .head _, rfl, rfl, by decide, rfl, _, _, _, rfl, rfl,
      (by decide : ∀ m ∈ ([0, 2] : List UInt8), ∀ c ∈ (servedMatch []).roster, c.number = m.toNat → c.team ≠ chars!"red" ∨ c.name = chars!"a")⟩
  · exact quiet (matchFrames.drop 5) _ _ (by decide +kernel) last

theorem served_pings (extra : List Frame) (hx : ∀ f ∈ extra, f.body.head? ≠ some 36) :
    List.Forall₂ (fun f us => LeadingPings f.body us) (servedFrames extra) (servedMatch extra).pings := by
  have h0 : ∀ {body : Bytes}, body.head? ≠ some 36 → LeadingPings body [] := by
    rintro body hb
    refine .stop fun n lo hi x t h => ?_
    rw [h] at hb
    exact hb rfl
  have key : ∀ (l : List Frame), (∀ f ∈ l, f.body.head? ≠ some 36) →
      List.Forall₂ (fun f us => LeadingPings f.body us) l (l.map fun _ => []) := by
    intro l hl
    induction l with
    | nil => exact .nil
    | cons f t ih => exact .cons (h0 (hl f (by simp))) (ih fun f hf => hl f (by simp [hf]))
  have h1 := key openingFrames (by decide +kernel)
  have h2 := key (matchFrames.drop 1) (by decide +kernel)
  have h3 : LeadingPings (ping 0 25 0 ++ ping 2 44 1 ++ [7, 7]) [(0, 25), (2, 300)] :=
    .step (.step (h0 (by decide)))
  have h4 := key (extra ++ [⟨5, 6, [], 2 :: bytes!"EndOfDemo" ++ [0]⟩]) (by
    intro f hf
    rcases List.mem_append.mp hf with hf | hf
    · exact hx f hf
    · cases hf with
      | head => decide
      | tail _ h => cases h)
  rw [List.map_append] at h4
  exact List.rel_append (List.rel_append h1 (.cons h3 h2)) h4

theorem served_low : ∀ p, (samplesOf [(0, 25), (2, 300)] p).sum < 65536 := by
  intro p
  unfold samplesOf
  by_cases h1 : (0 : UInt8) = p <;> by_cases h2 : (2 : UInt8) = p <;> simp [h1, h2]

theorem served_enlisted : List.Forall₂ (fun s c => Enlisted (debug.clientinfo (debug.toUnicode s.1)) s.2 c)
    (servedMatch []).userinfos.zipIdx (servedMatch []).roster := by
  refine .cons ?_ (.cons ?_ (.cons ?_ (.cons ?_ .nil))) <;>
    exact ⟨by decide +kernel, by decide +kernel, by decide +kernel, by decide +kernel, by decide +kernel, by decide +kernel,
      by decide +kernel, by decide +kernel⟩

/-- A demo of this form, with other messages between and behind those that are read. -/
theorem served_example : Served debug (servedMatch []) (served []) (servedFrames []) where
  whole := (splits_whole (by decide +kernel)).1
  size := by decide +kernel
  header := ⟨(served []).take 7, ((served []).take 1280).drop 51, by decide +kernel, by decide +kernel, by decide, by decide +kernel⟩
  slots := ⟨(served []).take 60, servedEntries, (served []).drop 210, by decide +kernel, by decide +kernel,
    served_section _ (by decide +kernel) (by decide +kernel), by decide +kernel, rfl⟩
  few := by decide
  enlisted := served_enlisted
  names := by decide +kernel
  told := served_told _ (by decide +kernel)
  pinged := served_pings _ (by decide +kernel)
  some := by decide
  low := served_low
  dated := ⟨(served []).take 1352, ((served []).drop 1352).drop 38, by decide +kernel, by decide +kernel, by decide +kernel,
    by decide +kernel⟩
  timed := ⟨1352, 1526, by decide +kernel, by decide +kernel, by decide, by decide +kernel, by decide +kernel⟩
  short := by decide

/-- And with match stats. -/
theorem served_stats : Served debug (servedMatch statsFrames) (served statsFrames) (servedFrames statsFrames) where
  whole := (splits_whole (by decide +kernel)).1
  size := by decide +kernel
  header := ⟨(served statsFrames).take 7, ((served statsFrames).take 1280).drop 51, by decide +kernel, by decide +kernel, by decide, by decide +kernel⟩
  slots := ⟨(served statsFrames).take 60, servedEntries, (served statsFrames).drop 210, by decide +kernel, by decide +kernel,
    served_section _ (by decide +kernel) (by decide +kernel), by decide +kernel, rfl⟩
  few := by decide
  enlisted := served_enlisted
  names := by decide +kernel
  told := served_told _ (by decide +kernel)
  pinged := served_pings _ (by decide +kernel)
  some := by decide
  low := served_low
  dated := ⟨(served statsFrames).take 1352, ((served statsFrames).drop 1352).drop 38, by decide +kernel, by decide +kernel, by decide +kernel,
    by decide +kernel⟩
  timed := ⟨1352, 1526, by decide +kernel, by decide +kernel, by decide, by decide +kernel, by decide +kernel⟩
  short := by decide

end Example

/-- The other hypotheses of C97 are met by these two demos. -/
example : (Example.servedMatch []).userinfos ≠ [] ∧ EndsWithMarker (Example.served []) ∧ ¬ Occurs statsMarker (Example.served []) ∧
    (Example.debug.settings (Example.debug.toUtf8 (Example.servedMatch []).info)).mode = some chars!"2on2" ∧
    fragsPerPlayerName Example.debug (Example.served []) = .ok [(chars!"a", 1), (chars!"b", -1)] ∧
    matchDuration Example.debug (Example.served []) = .ok 545999974 := by
  refine ⟨by decide, ⟨(Example.served []).take 1551, by decide +kernel, by decide +kernel⟩, by decide +kernel, by decide +kernel,
    by decide +kernel, by decide +kernel⟩

example : CarriesStats (Example.served Example.statsFrames) chars!"{\"version\": 3, \"duration\": 600,}" ∧
    RecordedDuration chars!"{\"version\": 3, \"duration\": 600,}" chars!"600" ∧
    matchDuration Example.debug (Example.served Example.statsFrames) = .ok 600000000000 := by
  refine ⟨⟨(Example.served Example.statsFrames).take 1546,
    [⟨[0, 3, 0, 0, 0, 0, 33, 0, 0, 0], 1, bytes!"{\"version\": 3, \"duration\""⟩], ⟨[0, 3, 0, 0, 0, 0, 15, 0, 0, 0], 0, bytes!": 600,}"⟩,
    (Example.served Example.statsFrames).drop (1546 + 43 + 25), ?_⟩, ?_⟩
  · decide +kernel
  · refine ⟨⟨chars!"{\"version\": 3, ", ['}'], by decide, ?_, by decide, by decide⟩, by decide +kernel⟩
    exact find_eq_some_iff.mp (by decide +kernel)

end Mvd

import Verif.Props.Recorded
import Verif.Props.StatsRecording
import Verif.Props.Concord

/-! C108: every match can be recorded with any match stats. -/

namespace Mvd
open Spec

/-- Bytes in pieces of sizes that look like the number of neither a print nor a ping update. -/
theorem pieces_exist : ∀ (n : Nat) (b : Bytes), b.length = n → ∃ pieces : List Bytes, pieces.flatten = b ∧
    pieces.length ≤ n / 60000 + 2 ∧ ∀ p ∈ pieces, p.length < 65528 ∧ (p.length + 2) % 256 ≠ 8 ∧ (p.length + 2) % 256 ≠ 36 := by
  intro n
  induction n using Nat.strong_induction_on with
  | _ n ih =>
    intro b hb
    by_cases hlt : n < 60000
    · by_cases hgood : (n + 2) % 256 ≠ 8 ∧ (n + 2) % 256 ≠ 36
      · refine ⟨[b], by simp, by simp, ?_⟩
        intro p hp
        rw [List.mem_singleton.mp hp, hb]
        exact ⟨by omega, hgood⟩
      · refine ⟨[b.take 1, b.drop 1], by simp only [List.flatten_cons, List.flatten_nil, List.append_nil, List.take_append_drop], by simp, ?_⟩
        intro p hp
        simp only [List.mem_cons, List.not_mem_nil, or_false] at hp
        rcases hp with rfl | rfl
        · rw [List.length_take, hb]
          omega
        · rw [List.length_drop, hb]
          omega
    · obtain ⟨pieces, h1, h2, h3⟩ := ih (n - 60000) (by omega) (b.drop 60000) (by rw [List.length_drop, hb])
      refine ⟨b.take 60000 :: pieces, by simp [h1], by simp only [List.length_cons]; omega, ?_⟩
      intro p hp
      rcases List.mem_cons.mp hp with rfl | hp
      · rw [List.length_take, hb]
        omega
      · exact h3 p hp

/-- C108: match stats can always be cut into pieces. -/
theorem C108_cut (text : Str) (h : StatsText text) : ∃ pieces, CutInto text pieces ∧
    ∀ p ∈ pieces, (p.length + 2) % 256 ≠ 8 ∧ (p.length + 2) % 256 ≠ 36 := by
  obtain ⟨rest, e⟩ := h.begins
  have hs := h.size
  rw [← e, List.length_append] at hs
  obtain ⟨pieces, h1, h2, h3⟩ := pieces_exist _ rest rfl
  have hm : statsMarker.length = 12 := by decide
  refine ⟨statsMarker :: pieces, ⟨by simp [h1, e], ?_, ?_, ⟨_, _, rfl, List.prefix_rfl⟩, h.once⟩, ?_⟩
  · simp only [List.length_cons]
    omega
  · intro p hp
    rcases List.mem_cons.mp hp with rfl | hp
    · omega
    · exact (h3 p hp).1
  · intro p hp
    rcases List.mem_cons.mp hp with rfl | hp
    · omega
    · exact (h3 p hp).2

theorem statsPlay_length : ∀ (pieces : List Bytes) (n : Nat), n + pieces.length ≤ 257 → (∀ p ∈ pieces, p.length < 65528) →
    (record (statsPlay n pieces)).length = pieces.flatten.length + 18 * pieces.length
  | [], _, _, _ => rfl
  | [p], n, _, hs => by
    have e : record (statsPlay n [p]) = statsHeader 0 p ++ p := by
      rw [← statsFrame_encode (by decide) (hs p (by simp))]
      simp [record, statsPlay, Play.frames, Spec.encode]
    rw [e]
    simp [statsHeader]
  | p :: q :: rest, n, hn, hs => by
    simp only [List.length_cons] at hn
    have ih := statsPlay_length (q :: rest) (n + 1) (by simp; omega) (fun x hx => hs x (.tail _ hx))
    have e : record (statsPlay n (p :: q :: rest)) = statsHeader n p ++ p ++ record (statsPlay (n + 1) (q :: rest)) := by
      rw [← statsFrame_encode (by omega) (hs p (by simp))]
      simp [record, statsPlay, Play.frames, Spec.encode]
    rw [e]
    simp only [List.length_append, ih, List.flatten_cons, List.length_cons, statsHeader, List.length_nil]
    omega

theorem stats_number : ∀ (pieces : List Bytes) (n : Nat) (m : Moment), m ∈ statsPlay n pieces →
    ∃ k, (k = 0 ∨ k + 1 < n + pieces.length) ∧ ∃ p ∈ pieces, m = ⟨0, .several 0, .other (statsMessage k p)⟩
  | [], _, _, h => nomatch h
  | [p], _, m, h => by
    simp only [statsPlay, List.mem_singleton] at h
    exact ⟨0, .inl rfl, p, by simp, h⟩
  | p :: q :: t, n, m, h => by
    simp only [statsPlay, List.mem_cons] at h
    rcases h with h | h
    · exact ⟨n, .inr (by simp), p, by simp, h⟩
    · obtain ⟨k, hk, x, hx, e⟩ := stats_number (q :: t) (n + 1) m (by simpa using h)
      exact ⟨k, by simp only [List.length_cons] at hk ⊢; omega, x, .tail _ hx, e⟩

/-- The course of the match with stats after its end. -/
def Plan.courseWith (p : Plan) (pieces : List Bytes) : Course := { p.course with after := statsPlay 1 pieces }

theorem courseWith_play (p : Plan) (pieces : List Bytes) : (p.recording.withStats pieces).play = (Plan.courseWith p pieces).play := by
  rw [Recording.withStats, show p.recording.play = p.course.play from rfl]
  simp only [Plan.courseWith, Course.play, show p.course.after = [] from rfl, List.append_assoc, List.cons_append, List.nil_append]

theorem statsMessage_without {w : Bytes} (h0 : (0 : UInt8) ∉ w) (h3 : 3 ≤ w.length) {k : Nat} {p : Bytes} (hk : k < 256)
    (hp : p.length < 65528) (h : ¬ Occurs w p) : ¬ Occurs w (statsMessage k p) := by
  intro o
  have e : statsMessage k p = UInt8.ofNat ((p.length + 2) % 256) :: UInt8.ofNat ((p.length + 2) / 256) :: 0 ::
      (0 :: 3 :: 0 :: UInt8.ofNat (k % 256) :: 0 :: p) := by
    rw [statsMessage, le32_small (by omega)]
    simp only [le16, List.cons_append, List.nil_append]
    rw [show k / 256 % 256 = 0 by omega]
    rfl
  rw [e] at o
  have short : ∀ {a b : Bytes}, a.length < 3 → Occurs w (a ++ 0 :: b) → Occurs w b := by
    intro a b ha k
    rcases occurs_sep h0 k with k | k
    · exact absurd k (not_occurs_short (by omega))
    · exact k
  exact h (short (a := [_]) (by simp) (short (a := [3]) (by simp) (short (a := []) (by simp) (short (a := [_, _]) (by simp) o))))

/-- The demo that is made of a plan and match stats. -/
theorem stats_served (g : Env) (hu : ∀ s, OneByte s → g.toUnicode (bytesOf s) = s) (hr : ReadsUserinfo g.clientinfo) (p : Plan)
    (h : p.Possible) (text : Str) (ht : StatsText text) (pieces : List Bytes) (hc : CutInto text pieces)
    (hsz : ∀ p ∈ pieces, (p.length + 2) % 256 ≠ 8 ∧ (p.length + 2) % 256 ≠ 36) :
    (p.recording.withStats pieces).Proper ∧ (p.recording.withStats pieces).demo.length < 2 ^ 31 ∧
    ∃ m, Served g m (p.recording.withStats pieces).demo (p.recording.withStats pieces).whole.frames ∧
      EndsWithMarker (p.recording.withStats pieces).demo ∧ m.info = bytesOf p.info ∧ List.Forall₂ IntroducedBy m.userinfos p.people ∧
      (∀ q ∈ p.people, q.watching = false → score m.events q.name = p.goal q.name) ∧
      sampledPings m.pings = p.updates ∧
      m.date = p.date ∧ m.countdown = p.countdown ∧ m.game = p.game := by
  have hproper := C85_proper p.recording (plan_recording h) text pieces hc hsz ht.nameless
  have few := hc.few
  have hlen : (p.recording.withStats pieces).demo.length < 2 ^ 31 := by
    have h1 := plan_length h
    have h2 := statsPlay_length pieces 1 (by omega) hc.small
    have h3 := ht.size
    rw [hc.all] at h2
    have e : (p.recording.withStats pieces).demo.length = p.recording.demo.length + (record (statsPlay 1 pieces)).length := by
      rw [withStats_demo, demo_end]
      simp only [record_cons, List.length_append, List.length_cons]
      omega
    omega
  have hclear := plan_clear h
  have hclear' : (Plan.courseWith p pieces).Clear (p.recording.withStats pieces) := by
    refine ⟨hclear.line, hclear.size, hclear.first, ?_⟩
    rintro ⟨a, b, e⟩
    rcases stats_occurs (m := matchOver) (by decide) (by decide) pieces 1 [] [] (by omega) hc.small
      ⟨a, b ++ [0], by rw [show record (statsPlay 1 pieces) = _ from e]; simp⟩ with k | ⟨x, hx, k⟩ | k
    · exact absurd k (by decide)
    · exact ht.running (hc.all ▸ occurs_mem_flatten hx k)
    · exact absurd k (by decide)
  have hd := stats_died pieces 1
  have hpings : sampledPings ((p.recording.withStats pieces).play.map fun m => m.what.pinged) = p.updates := by
    rw [← plan_pings h, show (p.recording.withStats pieces).play = p.recording.play ++ statsPlay 1 pieces from rfl]
    have none : ((statsPlay 1 pieces).map fun m => m.what.pinged).filter (fun us => us ≠ []) = [] := by
      rw [List.filter_eq_nil_iff]
      intro us hus
      obtain ⟨m, hm, rfl⟩ := List.mem_map.mp hus
      simp [(hd m hm).2.2.2.1]
    simp only [sampledPings, List.map_append, List.filter_append, none, List.append_nil]
  have hstr := h.strings.length_eq
  have hfew := h.few
  obtain ⟨roster, h1, h2⟩ := roster_exists g hr 0 h.strings (by omega)
  have htimes := plan_times (p := p)
  have hs := C107_served g hu _ hproper hlen (Plan.courseWith p pieces) (courseWith_play p pieces) hclear' roster h1
    (by rw [h2]; exact h.names) (by rw [hpings]; exact (plan_updates h).1.1) (by rw [hpings]; exact (plan_updates h).2.2.2)
    (by
      rw [show (Plan.courseWith p pieces).countdownMs = _ from htimes.1, show (Plan.courseWith p pieces).gameMs = _ from htimes.2]
      exact h.times)
  refine ⟨hproper, hlen, _, hs, ⟨_, by simp, demo_end _⟩, rfl, plan_introduced h, fun q hq hw => ?_, ?_, rfl, htimes.1, htimes.2⟩
  · have := plan_score h hq hw
    rw [whole_score] at this
    simp only [Recording.asMatch]
    rw [whole_score, show (p.recording.withStats pieces).play = p.recording.play ++ statsPlay 1 pieces from rfl, List.map_append,
      score_nones (fun x hx => by
        obtain ⟨m, hm, rfl⟩ := List.mem_map.mp hx
        exact (hd m hm).1)]
    exact this
  · simp only [Recording.asMatch]
    rw [whole_pings, hpings]

/-- C108: for every match and all match stats there is a demo from which both are read back. Server, players and duration are those
of the stats; scores, pings, date, times and flag events are those of the match. -/
theorem C108_read_back (g : Env) (hu : ∀ s, OneByte s → g.toUnicode (bytesOf s) = s) (hr : ReadsUserinfo g.clientinfo) (p : Plan)
    (h : p.Possible) (text : Str) (ht : StatsText text) :
    ∃ data, isValid g data = .ok true ∧ ktxstatsString g data = .ok text ∧
      (∀ stats, g.ktxstats text = some stats →
        (∃ v, server g data = .ok v ∧ v.hostname = stats.hostname ∧ v.ip = stats.ip ∧ v.port = stats.port) ∧
        ∃ ps l, List.Forall₂ FromStats stats.players ps ∧ players g data = .ok l ∧ StablySorted Outranks ps l) ∧
      serverinfo g data = .ok (g.settings (g.toUtf8 (bytesOf p.info))) ∧
      playerNames g data = .ok (g.unicodeSort ((p.people.filter fun q => !q.watching).map (·.name))) ∧
      spectatorNames g data = .ok (g.unicodeSort ((p.people.filter fun q => q.watching).map (·.name))) ∧
      (∃ f, fragsPerPlayerName g data = .ok f ∧
        ∀ q ∈ p.people, q.watching = false → f.get q.name = some (p.goal q.name) ∨ f.get q.name = none ∧ p.goal q.name = 0) ∧
      (∃ pings, pingPerPlayerNumber g data = .ok pings ∧
        ∀ q i, (q, i) ∈ p.people.zipIdx → pings.get (UInt8.ofNat i) = some (p.ping q.name)) ∧
      matchdateString data = .ok p.date ∧
      (∃ ns, demoDuration g data = .ok ns ∧ Converted (p.countdown + p.game) ns) ∧
      ((g.settings (g.toUtf8 (bytesOf p.info))).mode ≠ some chars!"hoonymode" →
        (∃ ns, countdownDuration g data = .ok ns ∧ Converted p.countdown ns) ∧
        ∀ t x, RecordedDuration text t → g.parseF64 t = some (.finite x) → 0 ≤ x → x < 2 ^ 64 → ∃ ns, matchDuration g data = .ok ns ∧
          NearestEven (fun x => ∃ n : ℤ, x = n) (fun x => ∃ n : ℤ, x = 2 * n) (x * 10 ^ 9) ns) ∧
      ((g.settings (g.toUtf8 (bytesOf p.info))).mode = some chars!"hoonymode" → countdownDuration g data = .ok 0 ∧
        ∃ ns, matchDuration g data = .ok ns ∧ Converted (p.countdown + p.game) ns) ∧
      (p.Unflagged → ¬ Occurs bytes!"flag" (utf8 text) → ∃ f, flagEventsPerPlayerName g data = .ok f ∧ ∀ name,
        ((∃ kind, (kind, name) ∈ p.deeds) → ∃ c, f.get name = some c ∧
          c.captures = p.deeds.count (.captured, name) ∧ c.pickups = p.deeds.count (.got, name) ∧
          c.returns = p.deeds.count (.returned, name) ∧ c.carrierFrags = p.deeds.count (.assist, name) ∧
          c.defends = p.deeds.count (.defendsFlag, name) ∧ c.carrierDefends = p.deeds.count (.defendsCarrier, name) ∧
          c.carrierDefendsVsAggressive = p.deeds.count (.defendsCarrierVsAggressive, name)) ∧
        ((¬ ∃ kind, (kind, name) ∈ p.deeds) → f.get name = none)) := by
  obtain ⟨pieces, hc, hsz⟩ := C108_cut text ht
  obtain ⟨hproper, hlen, m, hs, he, hinfo, hn, hsc, hpg, hd, hcd, hg⟩ := stats_served g hu hr p h text ht pieces hc hsz
  have hcs := C85_carries p.recording text pieces hc
  have hdied := stats_died pieces 1
  have hplay : ((p.recording.withStats pieces).play.flatMap fun m => m.what.flagged) = p.deeds := by
    rw [show (p.recording.withStats pieces).play = p.recording.play ++ statsPlay 1 pieces from rfl, List.flatMap_append, plan_flags,
      List.flatMap_eq_nil_iff.mpr fun m hm => (hdied m hm).2.2.1, List.append_nil]
  have hflags : p.Unflagged → ¬ Occurs bytes!"flag" (utf8 text) → _ := fun hf hw =>
    C83_flags g hu (p.recording.withStats pieces) hproper (by
      have hplan := plan_unflagged h hf
      intro m hm
      simp only [Recording.whole, List.cons_append, List.mem_cons, List.mem_append, List.not_mem_nil, or_false] at hm hplan
      rcases hm with rfl | rfl | hm | rfl
      · exact hplan _ (.inl rfl)
      · exact hplan _ (.inr (.inl rfl))
      · rcases List.mem_append.mp hm with hm | hm
        · exact hplan _ (.inr (.inr (.inl hm)))
        · obtain ⟨k, hk, x, hx, rfl⟩ := stats_number pieces 1 m hm
          have few := hc.few
          exact statsMessage_without (by decide) (by decide) (by omega) (hc.small x hx) fun o => hw (hc.all ▸ occurs_mem_flatten hx o)
      · exact hplan _ (.inr (.inr (.inr rfl)))) hlen
    (by rw [hplay]; exact fun player kind => h.often (kind, player))
  rw [hplay] at hflags
  generalize (p.recording.withStats pieces).demo = data at hs he hflags hcs
  generalize (p.recording.withStats pieces).whole.frames = fs at hs
  have hne : m.userinfos ≠ [] := by
    intro e
    rw [e] at hn
    exact h.some (List.forall₂_nil_left_iff.mp hn)
  have hnames := C103_names g data p.people m.roster (C97_clients g m data fs hs) (C103_match g hu hr m data fs hs p.people hn)
  have hst := C97_stats g m data fs hs text hcs
  refine ⟨data, ((C97_valid g m data fs hs hne).1).mpr he, hst.1, hst.2,
    by rw [← hinfo]; exact (C97_header g m data fs hs).1, hnames.1, hnames.2.1, ?_, ?_,
    by rw [← hd]; exact (C97_date g m data fs hs).1, by rw [← hcd, ← hg]; exact C97_recorded g m data fs hs, fun hm => ?_,
    fun hm => ?_, hflags⟩
  rotate_left
  · obtain ⟨pings, h1, h2⟩ := C32_pings g data fs [] m.pings hs.whole (stops_nil _) hs.pinged hs.some hs.low
    refine ⟨pings, h1, fun q i hq => ?_⟩
    have hm : UInt8.ofNat i ∈ (sampledPings m.pings).map Prod.fst := by
      rw [hpg, Plan.updates, List.map_map]
      exact List.mem_map.mpr ⟨_, hq, rfl⟩
    rw [h2, if_pos hm, hpg, (plan_updates h).2.2.1 q i hq]
    simp
  · have ht := C97_times g m data fs hs (by rw [hinfo]; exact hm)
    rw [← hcd]
    exact ⟨ht.1, fun t x => ht.2.2.2 text t x hcs⟩
  · rw [← hcd, ← hg]
    exact C97_hoonymode g m data fs hs (by rw [hinfo]; exact hm)
  obtain ⟨f, h1, h2⟩ := C97_scores g m data fs hs
  refine ⟨f, h1, fun q hq hw => ?_⟩
  rw [← hsc q hq hw]
  by_cases k : Scores m.events q.name
  · exact .inl ((h2 _).1 k)
  · exact .inr ⟨(h2 _).2 k, score_of_not _ _ k⟩

/-- Reads userinfo strings, numbers, and the match stats of `Example.concord`. -/
def Example.scribe : Env := { Example.reader with parseF64 := parseF64, ktxstats := Example.concord.ktxstats }

/-- The hypotheses of C108 are met by the plan of C107 and the stats of C106. They disagree on the players. -/
example : (∀ s, OneByte s → Example.scribe.toUnicode (bytesOf s) = s) ∧ ReadsUserinfo Example.scribe.clientinfo ∧ Example.plan.Possible ∧
    (Example.scribe.settings (Example.scribe.toUtf8 (bytesOf Example.plan.info))).mode ≠ some chars!"hoonymode" ∧
    StatsText Example.concordText ∧ Example.plan.Unflagged ∧ ¬ Occurs bytes!"flag" (utf8 Example.concordText) ∧
    Example.scribe.ktxstats Example.concordText = some Example.concordStats ∧ RecordedDuration Example.concordText chars!"0.546" ∧
    ((players Example.scribe (Example.plan.recording.withStats [utf8 Example.concordText]).demo).bind fun l =>
      .ok (l.map fun x => (x.name, x.frags))) = .ok [(chars!"a", 1), (chars!"c", 0), (chars!"b", -1)] ∧
    ((fragsPerPlayerName Example.scribe (Example.plan.recording.withStats [utf8 Example.concordText]).demo).bind fun f =>
      .ok (f.get chars!"a z", f.get chars!"{c}", f.get chars!"a")) = .ok (some (-3), some 7, none) ∧
    matchDuration Example.scribe (Example.plan.recording.withStats [utf8 Example.concordText]).demo = .ok 546000000 ∧
    demoDuration Example.scribe (Example.plan.recording.withStats [utf8 Example.concordText]).demo = .ok 1500000000 :=
  ⟨fun s hs => Example.latin1_bytesOf s hs, Example.reads_userinfo, Example.plan_possible, by decide +kernel,
    ⟨by decide +kernel, by decide +kernel, by decide +kernel, by decide +kernel, by decide +kernel⟩,
    by unfold Plan.Unflagged; decide +kernel, by decide +kernel, by decide +kernel,
    ⟨chars!"{\"version\": 3, ", ['}'], by decide, find_eq_some_iff.mp (by decide +kernel), by decide, by decide⟩,
    by decide +kernel, by decide +kernel, by decide +kernel, by decide +kernel⟩

end Mvd

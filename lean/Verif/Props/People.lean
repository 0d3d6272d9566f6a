import Verif.Props.ServerTeams
import Verif.Spec.Userinfo

/-! C103: what people are called, and what they wear, is read off their info strings. -/

namespace Mvd
open Spec

private theorem number_written {value : Option Str} {result : Option Int} {n : Nat} (hr : NumberOf value result)
    (hw : WritesNumber value n) (hn : n < 256) : asU8 (result.getD 0) = n := by
  have key : ∀ m : Nat, m < 256 → asU8 (m : Int) = m := by
    intro m hm
    unfold asU8
    omega
  rcases hw with ⟨v, hv, hd⟩ | ⟨hv, rfl⟩
  · rw [hr.2 v n hv hd (by omega)]
    exact key n hn
  · rw [hr.1 hv]
    exact key 0 (by omega)

private theorem yes_written {value : Option Str} {result : Option Int} {yes : Bool} (hr : NumberOf value result)
    (hw : WritesYes value yes) : result.any (· ≠ 0) = yes := by
  unfold WritesYes at hw
  cases yes with
  | false => rw [hr.1 (by simpa using hw)]; rfl
  | true =>
    rw [hr.2 ['1'] 1 (by simpa using hw) ⟨by decide, by decide, by decide, by decide⟩ (by decide)]
    rfl

/-- The client of a person. -/
private theorem seated {read : Str → Clientinfo} (hr : ReadsUserinfo read) {entries : List (Str × Str)} {p : Person}
    (h : Introduces entries p) (slot : Nat) (hs : slot < 256) :
    Seated p slot { Client.ofClientinfo (read (infoText entries)) with number := asU8 slot } := by
  obtain ⟨h1, h2, h3, h4, h5, h6⟩ := hr entries h.wellformed
  refine ⟨?_, ?_, ?_, ?_, ?_, ?_⟩
  · change asU8 (slot : Int) = slot
    unfold asU8
    omega
  · simp [Client.ofClientinfo, h1, h.name]
  · simp only [Client.ofClientinfo, h2, h.team]
    split
    · rename_i e; rw [e]; rfl
    · rfl
  · simp only [Client.ofClientinfo]
    rw [number_written h3 h.shirt.1 h.shirt.2, number_written h4 h.pants.1 h.pants.2]
  · exact yes_written h5 h.watching
  · exact yes_written h6 h.bot

private theorem seated_all {g : Env} (hu : ∀ s, OneByte s → g.toUnicode (bytesOf s) = s) (hr : ReadsUserinfo g.clientinfo) :
    ∀ {infos : List Bytes} {people : List Person} (k : Nat), List.Forall₂ IntroducedBy infos people → k + infos.length ≤ 256 →
    List.Forall₂ (fun (p : Person × Nat) c => Seated p.1 p.2 c) (people.zipIdx k)
      ((((infos.map g.toUnicode).map g.clientinfo).zipIdx k).map fun x => { Client.ofClientinfo x.1 with number := asU8 x.2 })
  | [], [], _, .nil, _ => .nil
  | _ :: _, _ :: _, k, .cons ⟨entries, h1, h2, h3⟩ h, hk => by
    simp only [List.map_cons, List.zipIdx_cons]
    refine .cons ?_ (seated_all hu hr (k + 1) h (by simp at hk; omega))
    rw [h3, hu _ h2]
    exact seated hr h1 k (by simp at hk; omega)

/-- C103: the clients of a demo are the people whose info strings stand in its header, in that order. -/
theorem C103_clients (g : Env) (hu : ∀ s, OneByte s → g.toUnicode (bytesOf s) = s) (hr : ReadsUserinfo g.clientinfo)
    (pre : Bytes) (es : List ClientEntry) (tail : Bytes)
    (hspawn : FirstAt spawnCommand (pre ++ spawnCommand ++ clientBytes es ++ tail) pre.length)
    (hsec : ClientSection tail spawnCommand es) (hlen : (spawnCommand ++ clientBytes es).length ≤ 24 * 512)
    (people : List Person) (hp : List.Forall₂ IntroducedBy (es.map (·.info)) people) (hfew : es.length ≤ 256) :
    ∃ cs, clients g (pre ++ spawnCommand ++ clientBytes es ++ tail) = .ok cs ∧
      List.Forall₂ (fun (p : Person × Nat) c => Seated p.1 p.2 c) people.zipIdx cs := by
  have := seated_all hu hr 0 hp (by simpa using hfew)
  refine ⟨_, ?_, this⟩
  unfold clients clientinfo
  rw [C18_finds_every_client g pre es tail hspawn hsec hlen]
  simp only [R.bind, List.map_map]
  rfl

/-- C103: the name lists are those of the people who play and of those who watch. -/
theorem C103_names (g : Env) (data : Bytes) (people : List Person) (cs : List Client) (hc : clients g data = .ok cs)
    (hp : List.Forall₂ (fun (p : Person × Nat) c => Seated p.1 p.2 c) people.zipIdx cs) :
    playerNames g data = .ok (g.unicodeSort ((people.filter fun p => !p.watching).map (·.name))) ∧
    spectatorNames g data = .ok (g.unicodeSort ((people.filter fun p => p.watching).map (·.name))) ∧
    (hasHumanPlayers g data = .ok true ↔ ∃ p ∈ people, p.watching = false ∧ p.bot = false) := by
  have key : ∀ (people : List Person) (k : Nat) (cs : List Client),
      List.Forall₂ (fun (p : Person × Nat) c => Seated p.1 p.2 c) (people.zipIdx k) cs →
      (cs.filter fun c => !c.isSpectator).map (·.name) = (people.filter fun p => !p.watching).map (·.name) ∧
      (cs.filter fun c => c.isSpectator).map (·.name) = (people.filter fun p => p.watching).map (·.name) ∧
      ((cs.filter fun c => !c.isSpectator).any fun c => !c.isBot) = ((people.filter fun p => !p.watching).any fun p => !p.bot) := by
    intro people
    induction people with
    | nil => intro k cs h; cases h; exact ⟨rfl, rfl, rfl⟩
    | cons p people ih =>
      intro k cs h
      rw [List.zipIdx_cons] at h
      cases h with
      | cons h1 h2 =>
        obtain ⟨i1, i2, i3⟩ := ih _ _ h2
        simp only [List.filter_cons, h1.spectator]
        cases p.watching <;> simp [h1.name, h1.bot, i1, i2, i3]
  obtain ⟨k1, k2, k3⟩ := key people 0 cs hp
  refine ⟨?_, ?_, ?_⟩
  · simp [playerNames, playerClients, hc, R.bind, k1]
  · simp [spectatorNames, spectatorClients, hc, R.bind, k2]
  · simp only [hasHumanPlayers, playerClients, hc, R.bind, k3, R.ok.injEq, List.any_eq_true, List.mem_filter]
    constructor
    · rintro ⟨p, ⟨h1, h2⟩, h3⟩
      exact ⟨p, h1, by simpa using h2, by simpa using h3⟩
    · rintro ⟨p, h1, h2, h3⟩
      exact ⟨p, ⟨h1, by simp [h2]⟩, by simp [h3]⟩

/-- C103: the clients of a demo of a match (C97) are the people who took part. -/
theorem C103_match (g : Env) (hu : ∀ s, OneByte s → g.toUnicode (bytesOf s) = s) (hr : ReadsUserinfo g.clientinfo)
    (m : ServerMatch) (data : Bytes) (fs : List Frame) (h : Served g m data fs) (people : List Person)
    (hp : List.Forall₂ IntroducedBy m.userinfos people) :
    List.Forall₂ (fun (p : Person × Nat) c => Seated p.1 p.2 c) people.zipIdx m.roster := by
  obtain ⟨before, entries, tail, e, h1, h2, h3, h4⟩ := h.slots
  have hf := h.few
  rw [e] at h1
  obtain ⟨cs, k1, k2⟩ := C103_clients g hu hr before entries tail h1 h2 h3 people (by rw [h4]; exact hp)
    (by rw [← h4] at hf; simpa using hf)
  rw [← e, C97_clients g m data fs h] at k1
  rw [R.ok.inj k1]
  exact k2

private theorem inGame_people {events : List (Option Obituary)} : ∀ {people : List Person} {k : Nat} {cs : List Client},
    List.Forall₂ (fun (p : Person × Nat) c => Seated p.1 p.2 c) (people.zipIdx k) cs →
    ((inGame cs).map fun c => (c.name, c.team, c.color, score events c.name, c.isBot)) =
      (people.filter fun p => !p.watching).map fun p => (p.name, p.team, (p.shirt, p.pants), score events p.name, p.bot)
  | [], _, _, h => by cases h; rfl
  | p :: people, k, cs, h => by
    rw [List.zipIdx_cons] at h
    cases h with
    | cons h1 h2 =>
      have ih := inGame_people (events := events) h2
      have hw := h1.spectator
      unfold inGame at ih ⊢
      simp only at hw
      simp only [List.filter_cons, hw]
      cases p.watching <;> simp [h1.name, h1.team, h1.color, h1.bot] at ih ⊢ <;> exact ih

private theorem reported_map {events : List (Option Obituary)} {samples : List (UInt8 × Nat)} : ∀ {cs : List Client}
    {ps : List Player}, List.Forall₂ (ReportedAs events samples) cs ps →
    (ps.map fun p => (p.name, p.team, p.color, p.frags, p.isBot)) =
      cs.map fun c => (c.name, c.team, c.color, score events c.name, c.isBot)
  | [], _, .nil => rfl
  | _ :: _, _, .cons h1 h2 => by
    simp only [List.map_cons, reported_map h2, h1.name, h1.team, h1.color, h1.frags, h1.isBot]

/-- C103: without match stats, every player is reported under their own name, with team, colors and score, and nobody else is. -/
theorem C103_players (g : Env) (hu : ∀ s, OneByte s → g.toUnicode (bytesOf s) = s) (hr : ReadsUserinfo g.clientinfo)
    (m : ServerMatch) (data : Bytes) (fs : List Frame) (h : Served g m data fs) (people : List Person)
    (hp : List.Forall₂ IntroducedBy m.userinfos people) (hk : ¬ Occurs statsMarker data) :
    ∃ l, players g data = .ok l ∧
      (l.map fun p => (p.name, p.team, p.color, p.frags, p.isBot)).Perm
        ((people.filter fun p => !p.watching).map fun p => (p.name, p.team, (p.shirt, p.pants), score m.events p.name, p.bot)) := by
  obtain ⟨ps, l, h1, h2, h3, _⟩ := C97_players g m data fs h hk
  refine ⟨l, h2, (h3.map _).trans ?_⟩
  rw [reported_map h1, inGame_people (C103_match g hu hr m data fs h people hp)]

/-- C103: together with the mean of the pings sampled for their slots, rounded down (0 without samples). -/
theorem C103_pings (g : Env) (hu : ∀ s, OneByte s → g.toUnicode (bytesOf s) = s) (hr : ReadsUserinfo g.clientinfo)
    (m : ServerMatch) (data : Bytes) (fs : List Frame) (h : Served g m data fs) (people : List Person)
    (hp : List.Forall₂ IntroducedBy m.userinfos people) (hk : ¬ Occurs statsMarker data) :
    ∃ l, players g data = .ok l ∧
      (l.map fun p => (p.name, p.team, p.color, p.frags, p.ping, p.isBot)).Perm
        ((people.zipIdx.filter fun p => !p.1.watching).map fun p => (p.1.name, p.1.team, (p.1.shirt, p.1.pants), score m.events p.1.name,
          (samplesOf (sampledPings m.pings) (UInt8.ofNat p.2)).sum / (samplesOf (sampledPings m.pings) (UInt8.ofNat p.2)).length,
          p.1.bot)) := by
  obtain ⟨ps, l, h1, h2, h3, _⟩ := C97_players g m data fs h hk
  refine ⟨l, h2, (h3.map _).trans ?_⟩
  have e : (ps.map fun p => (p.name, p.team, p.color, p.frags, p.ping, p.isBot)) = (inGame m.roster).map fun c =>
      (c.name, c.team, c.color, score m.events c.name, (samplesOf (sampledPings m.pings) (UInt8.ofNat c.number)).sum /
        (samplesOf (sampledPings m.pings) (UInt8.ofNat c.number)).length, c.isBot) := by
    generalize inGame m.roster = cs at h1
    clear h3
    induction h1 with
    | nil => rfl
    | cons k _ ih => simp only [List.map_cons, ih, k.name, k.team, k.color, k.frags, k.ping, k.isBot]
  rw [e]
  have hm := C103_match g hu hr m data fs h people hp
  generalize m.roster = cs at hm
  generalize people.zipIdx = seats at hm
  refine List.Perm.of_eq ?_
  unfold inGame
  induction hm with
  | nil => rfl
  | @cons p c _ _ k _ ih =>
    simp only [List.filter_cons, k.spectator]
    cases p.1.watching <;> simp [k.name, k.team, k.color, k.bot, k.number] at ih ⊢ <;> exact ih

/-- C103: and the totals of a team are those of its members. -/
theorem C103_teams (g : Env) (hu : ∀ s, OneByte s → g.toUnicode (bytesOf s) = s) (hr : ReadsUserinfo g.clientinfo)
    (m : ServerMatch) (data : Bytes) (fs : List Frame) (h : Served g m data fs) (people : List Person)
    (hp : List.Forall₂ IntroducedBy m.userinfos people) (hk : ¬ Occurs statsMarker data) (ts : List Team)
    (ht : teams g data = .ok ts) :
    (∀ name, name ∈ ts.map (·.name) ↔ ∃ p ∈ people, p.watching = false ∧ p.team = name) ∧
    ∀ t ∈ ts, t.frags = ((people.filter fun p => p.watching = false ∧ p.team = t.name).map fun p => score m.events p.name).sum := by
  obtain ⟨h1, h2⟩ := (C97_teams g m data fs h hk).2 ts ht
  have key := inGame_people (events := m.events) (C103_match g hu hr m data fs h people hp)
  refine ⟨fun name => ?_, fun t htm => ?_⟩
  · rw [h1]
    have := congrArg (fun l => name ∈ l.map fun x => x.2.1) key
    simp only [List.map_map, List.mem_map, Function.comp_apply, List.mem_filter, eq_iff_iff] at this
    rw [this]
    constructor
    · rintro ⟨p, ⟨k1, k2⟩, k3⟩
      exact ⟨p, k1, by simpa using k2, k3⟩
    · rintro ⟨p, k1, k2, k3⟩
      exact ⟨p, ⟨k1, by simp [k2]⟩, k3⟩
  · rw [h2 t htm]
    have := congrArg (fun l => ((l.filter fun x => decide (x.2.1 = t.name)).map fun x => x.2.2.2.1).sum) key
    simp only [List.filter_map, List.map_map, Function.comp_def, List.filter_filter] at this
    simpa [Bool.and_comm] using this

/-- C103: the name of the demo and the time in the serverinfo, and hoonymode if it says so. -/
theorem C103_settings (g : Env) (hr : ReadsServerinfo g.settings) (data : Bytes) (hl : 1280 ≤ data.length)
    (entries : List (Str × Str)) (hw : InfoEntries entries) (info : Bytes) (hi : ServerinfoText data info)
    (hu : g.toUtf8 info = infoText entries) :
    (∀ name, entries.lookup chars!"serverdemo" = some name → filename g data = .ok name) ∧
    (entries.lookup chars!"serverdemo" = none → filename g data = .err .filenameNotFound) ∧
    (∀ v n, entries.lookup chars!"epoch" = some v → Decimal n v → n < 2 ^ 31 → timestamp g data = .ok n) ∧
    (entries.lookup chars!"epoch" = none → timestamp g data = matchdate g data) ∧
    (entries.lookup chars!"mode" = some chars!"hoonymode" → countdownDuration g data = .ok 0) := by
  obtain ⟨h1, h2, h3⟩ := hr entries hw
  refine ⟨fun name h => ?_, fun h => ?_, fun v n h hd hn => ?_, fun h => ?_, fun h => ?_⟩
  · exact (C16_filename g data hl name).mpr ⟨_, hi, by rw [hu, h2, h]⟩
  · exact (C16_filename_errors g data hl).2.mpr ⟨_, hi, by rw [hu, h2, h]⟩
  · exact C57_epoch g data _ hl hi n (by rw [hu]; exact h3.2 v n h hd hn)
  · refine C57_matchdate g data hl fun text ht => ?_
    rw [(C14_serverinfo_error g data hl).2 _ _ ht hi, hu]
    exact h3.1 h
  · exact (C38_hoonymode g data hl ⟨_, hi, by rw [hu, h1, h]⟩).1

/-! ### Such parsers exist -/

namespace Example

/-- What stands before the next backslash, and what stands behind it. -/
def upTo : Str → Str × Option Str
  | [] => ([], none)
  | c :: s => if c = '\\' then ([], some s) else (c :: (upTo s).1, (upTo s).2)

/-- The entries of a text after its first backslash. -/
def pairs : Nat → Str → List (Str × Str)
  | 0, _ => []
  | n + 1, s =>
    match upTo s with
    | (_, none) => []
    | (key, some s) =>
      match upTo s with
      | (value, none) => [(key, value)]
      | (value, some s) => (key, value) :: pairs n s

theorem upTo_end (s : Str) (h : '\\' ∉ s) : upTo s = (s, none) := by
  induction s with
  | nil => rfl
  | cons c s ih =>
    simp only [List.mem_cons, not_or] at h
    rw [upTo, if_neg (Ne.symm h.1), ih h.2]

theorem upTo_backslash (s t : Str) (h : '\\' ∉ s) : upTo (s ++ '\\' :: t) = (s, some t) := by
  induction s with
  | nil => rfl
  | cons c s ih =>
    simp only [List.mem_cons, not_or] at h
    rw [List.cons_append, upTo, if_neg (Ne.symm h.1), ih h.2]

theorem pairs_infoText : ∀ (entries : List (Str × Str)), (∀ e ∈ entries, '\\' ∉ e.1 ∧ '\\' ∉ e.2) → ∀ n, entries.length ≤ n →
    pairs n ((infoText entries).drop 1) = entries
  | [], _, n, _ => by
    cases n
    · rfl
    · rfl
  | (k, v) :: rest, h, 0, hn => by simp at hn
  | (k, v) :: rest, h, n + 1, hn => by
    obtain ⟨hk, hv⟩ := h (k, v) (by simp)
    have ih := pairs_infoText rest (fun e he => h e (by simp [he])) n (by simpa using hn)
    have e : (infoText ((k, v) :: rest)).drop 1 = k ++ '\\' :: (v ++ infoText rest) := by simp [infoText]
    rw [e, pairs, upTo_backslash _ _ hk]
    cases rest with
    | nil => simp [infoText, upTo_end _ hv]
    | cons e' rest =>
      have e2 : infoText (e' :: rest) = '\\' :: (infoText (e' :: rest)).drop 1 := by simp [infoText]
      simp only
      rw [e2, upTo_backslash _ _ hv]
      simp only [ih]

/-- The entries of an info string. -/
def entriesOf (s : Str) : List (Str × Str) := pairs s.length (s.drop 1)

theorem entriesOf_infoText (entries : List (Str × Str)) (h : InfoEntries entries) : entriesOf (infoText entries) = entries := by
  refine pairs_infoText entries (fun e he => ⟨(h.keys e he).2, (h.values e he).2⟩) _ ?_
  clear h
  induction entries with
  | nil => simp
  | cons e t ih => simp [infoText] at ih ⊢; omega

/-- Parsers that read all entries. -/
def reader : Env := { debug with
  clientinfo := fun s =>
    let number key := ((entriesOf s).lookup key).bind parseI32
    { name := (entriesOf s).lookup chars!"name", team := (entriesOf s).lookup chars!"team"
      topcolor := number chars!"topcolor", bottomcolor := number chars!"bottomcolor", spectator := number chars!"*spectator"
      auth := none, flag := none, client := none, bot := number chars!"*bot", chat := none }
  settings := fun s =>
    { mode := (entriesOf s).lookup chars!"mode", epoch := ((entriesOf s).lookup chars!"epoch").bind parseI32
      serverdemo := (entriesOf s).lookup chars!"serverdemo", other := entriesOf s } }

theorem digits_value : ∀ (s : Str) (acc : Nat), (∀ c ∈ s, '0'.toNat ≤ c.toNat ∧ c.toNat ≤ '9'.toNat) →
    digits? acc s = some (s.foldl (fun n c => n * 10 + (c.toNat - '0'.toNat)) acc)
  | [], _, _ => rfl
  | c :: s, acc, h => by
    rw [digits?, if_pos (h c (by simp)), digits_value s _ fun c hc => h c (by simp [hc])]
    rfl

theorem number_read (value : Option Str) : NumberOf value (value.bind parseI32) := by
  refine ⟨fun h => by rw [h]; rfl, fun v n h hd hn => ?_⟩
  obtain ⟨h1, h2, h3, _⟩ := hd
  rw [h]
  cases v with
  | nil => exact absurd rfl h1
  | cons c s =>
    have hc := h2 c (by simp)
    have hp : c ≠ '+' := by rintro rfl; exact absurd hc (by decide)
    have hm : c ≠ '-' := by rintro rfl; exact absurd hc (by decide)
    have := digits_value (c :: s) 0 h2
    unfold digitsValue at h3
    rw [h3] at this
    simp [parseI32, hp, hm, this]
    omega

theorem reads_userinfo : ReadsUserinfo reader.clientinfo := by
  intro entries h
  simp only [reader, entriesOf_infoText entries h]
  exact ⟨trivial, trivial, number_read _, number_read _, number_read _, number_read _⟩

theorem reads_serverinfo : ReadsServerinfo reader.settings := by
  intro entries h
  simp only [reader, entriesOf_infoText entries h]
  exact ⟨trivial, trivial, number_read _⟩

end Example

/-- The hypotheses are met by the demo of `Example.served_example`: four people, of whom one watches. -/
example : (∀ s, OneByte s → Example.reader.toUnicode (bytesOf s) = s) ∧ ReadsUserinfo Example.reader.clientinfo ∧
    Served Example.reader (Example.servedMatch []) (Example.served []) (Example.servedFrames []) ∧
    List.Forall₂ IntroducedBy (Example.servedMatch []).userinfos
      [⟨chars!"a", chars!"red", 4, 0, false, false⟩, ⟨chars!"b", chars!"red", 0, 0, false, false⟩,
       ⟨chars!"c", chars!"blue", 0, 0, false, false⟩, ⟨chars!"s", [], 0, 0, true, false⟩] ∧
    ¬ Occurs statsMarker (Example.served []) ∧ ∃ ts, teams Example.reader (Example.served []) = .ok ts := by
  have h := Example.served_example
  have hs : Served Example.reader (Example.servedMatch []) (Example.served []) (Example.servedFrames []) := by
    refine ⟨h.whole, h.size, h.header, h.slots, h.few, ?_, h.names, h.told, h.pinged, h.some, h.low, h.dated, h.timed, h.short⟩
    refine .cons ?_ (.cons ?_ (.cons ?_ (.cons ?_ .nil))) <;>
      exact ⟨by decide +kernel, by decide +kernel, by decide +kernel, by decide +kernel, by decide +kernel, by decide +kernel,
        by decide +kernel, by decide +kernel⟩
  refine ⟨fun s hs => Example.latin1_bytesOf s hs, Example.reads_userinfo, hs, ?_, by decide +kernel,
    (C97_teams _ _ _ _ hs (by decide +kernel)).1 (by decide)⟩
  refine .cons ⟨[(chars!"name", chars!"a"), (chars!"team", chars!"red"), (chars!"topcolor", chars!"4")], ?_, ?_, ?_⟩ <|
    .cons ⟨[(chars!"*client", chars!"x"), (chars!"name", chars!"b"), (chars!"team", chars!"red")], ?_, ?_, ?_⟩ <|
    .cons ⟨[(chars!"name", chars!"c"), (chars!"team", chars!"blue")], ?_, ?_, ?_⟩ <|
    .cons ⟨[(chars!"name", chars!"s"), (chars!"*spectator", chars!"1")], ?_, ?_, ?_⟩ .nil
  case refine_1 =>
    exact ⟨⟨by decide, by decide, by decide⟩, by decide, by decide, ⟨.inl ⟨['4'], by decide, by decide, by decide, by decide, by decide⟩, by decide⟩,
      ⟨.inr ⟨by decide, rfl⟩, by decide⟩, rfl, rfl⟩
  all_goals first
    | exact ⟨⟨by decide, by decide, by decide⟩, by decide, by decide, ⟨.inr ⟨by decide, rfl⟩, by decide⟩,
        ⟨.inr ⟨by decide, rfl⟩, by decide⟩, rfl, rfl⟩
    | decide
    | (unfold OneByte; decide)

/-- And those about the settings. -/
example : ReadsServerinfo Example.reader.settings ∧
    InfoEntries [(chars!"mode", chars!"2on2"), (chars!"serverdemo", chars!"a.mvd")] ∧
    ServerinfoText (Example.served []) bytes!"\\mode\\2on2\\serverdemo\\a.mvd" ∧
    Example.reader.toUtf8 bytes!"\\mode\\2on2\\serverdemo\\a.mvd" =
      infoText [(chars!"mode", chars!"2on2"), (chars!"serverdemo", chars!"a.mvd")] ∧
    filename Example.reader (Example.served []) = .ok chars!"a.mvd" :=
  ⟨Example.reads_serverinfo, ⟨by decide, by decide, by decide⟩, Example.served_example.header, by decide, by decide +kernel⟩

end Mvd

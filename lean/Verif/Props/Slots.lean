import Verif.Props.Renaming

/-! C105: the slots in which people play do not matter, nor does who watches. -/

namespace Spec

/-- The mean of the sampled pings of a slot, rounded down (0 without samples). -/
def meanPing (m : ServerMatch) (slot : Nat) : Nat :=
  (samplesOf (sampledPings m.pings) (UInt8.ofNat slot)).sum / (samplesOf (sampledPings m.pings) (UInt8.ofNat slot)).length

/-- The same people play, with the same connections, in any slots. Anybody may watch. -/
def SamePlayers (m m' : ServerMatch) : Prop :=
  ((m'.roster.filter fun c => !c.isSpectator).map fun c => ({ c with number := 0 }, meanPing m' c.number)).Perm
    ((m.roster.filter fun c => !c.isSpectator).map fun c => ({ c with number := 0 }, meanPing m c.number))

end Spec

namespace Mvd
open Spec

/-- What is reported of somebody, whatever the slot. -/
private def line (es : List (Option Obituary)) (p : Client × Nat) : Player where
  name := p.1.name
  team := p.1.team
  color := p.1.color
  frags := score es p.1.name
  ping := p.2
  isBot := p.1.isBot
  authUsername := p.1.authUsername
  authCc := p.1.authCc

private theorem reported_eq {es : List (Option Obituary)} {m : ServerMatch} {cs : List Client} {ps : List Player}
    (h : List.Forall₂ (ReportedAs es (sampledPings m.pings)) cs ps) :
    ps = cs.map fun c => line es ({ c with number := 0 }, meanPing m c.number) := by
  induction h with
  | nil => rfl
  | @cons c p cs ps h _ ih =>
    rw [ih, List.map_cons]
    congr 1
    cases p
    obtain ⟨h1, h2, h3, h4, h5, h6, h7, h8⟩ := h
    simp only at h1 h2 h3 h4 h5 h6 h7 h8
    subst h1 h2 h3 h4 h5 h6 h7 h8
    rfl

private theorem score_same {es es' : List (Option Obituary)} (he : SameEvents id es es') (name : Str) : score es' name = score es name := by
  have := score_renamed (ρ := id) (fun _ _ h => h) he name
  exact this

/-- C105: if the same people play the same match in other slots, with others watching, the players are reported alike, to the last
detail and in the same order. -/
theorem C105_players (g g' : Env) (m m' : ServerMatch) (data data' : Bytes) (fs fs' : List Frame) (h : Served g m data fs)
    (h' : Served g' m' data' fs') (hp : SamePlayers m m') (he : SameEvents id m.events m'.events)
    (hk : ¬ Occurs statsMarker data) (hk' : ¬ Occurs statsMarker data') :
    ∃ ps, players g data = .ok ps ∧ players g' data' = .ok ps := by
  obtain ⟨ps, l, h1, h2, h3, h4⟩ := C97_players g m data fs h hk
  obtain ⟨ps', l', h1', h2', h3', h4'⟩ := C97_players g' m' data' fs' h' hk'
  have key : ps'.Perm ps := by
    rw [reported_eq h1, reported_eq h1', show line m'.events = line m.events from funext fun p => by
      unfold line; rw [score_same he]]
    have := hp.map (line m.events)
    simpa [inGame, List.map_map, Function.comp_def] using this
  have hn : (ps.map (·.name)).Nodup := by
    rw [reported_eq h1, List.map_map]
    exact (h.names.sublist ((List.filter_sublist (l := m.roster)).map _))
  refine ⟨l, h2, ?_⟩
  rw [h2']
  congr 1
  refine List.Perm.eq_of_pairwise (le := fun a b => ¬ Outranks b a) (fun a b ha hb hab hba => ?_) h4' h4
    (h3'.trans (key.trans h3.symm))
  have e : a.name = b.name := by
    by_contra hne
    rcases Int.lt_trichotomy a.frags b.frags with hf | hf | hf
    · exact hab (.inl hf)
    · rcases before_total a.name b.name with hb' | hb' | hb'
      · exact hne hb'
      · exact hba (.inr ⟨hf, hb'⟩)
      · exact hab (.inr ⟨hf.symm, hb'⟩)
    · exact hba (.inl hf)
  exact List.inj_on_of_nodup_map hn ((key.mem_iff).mp (h3'.mem_iff.mp ha)) (h3.mem_iff.mp hb) e

/-- C105: and so are the teams. -/
theorem C105_teams (g : Env) (m m' : ServerMatch) (data data' : Bytes) (fs fs' : List Frame) (h : Served g m data fs)
    (h' : Served g m' data' fs') (hp : SamePlayers m m') (he : SameEvents id m.events m'.events)
    (hk : ¬ Occurs statsMarker data) (hk' : ¬ Occurs statsMarker data') : teams g data = teams g data' := by
  obtain ⟨ps, h1, h2⟩ := C105_players g g m m' data data' fs fs' h h' hp he hk hk'
  unfold teams
  rw [h1, h2]

/-! ### The match of `Example.served_example`, played in other slots -/

namespace Example

/-- Another spectator has slot 0, the players have the slots 1 to 3 in reverse order; the teamkill comes first and names the killer. -/
def movedFrames : List Frame :=
  [all (9 :: bytes!"fullserverinfo \"\\mode\\2on2\\serverdemo\\a.mvd\"\n" ++ [0]),
   ⟨0, 6, [], 7 :: spawnCommand ++ [10, 0]⟩,
   ⟨13, 6, [], [7, 40, 0, 1, 0, 0, 0] ++ bytes!"\\name\\t\\*spectator\\1" ++ [0, 40, 1, 2, 0, 0, 0] ++
     bytes!"\\name\\c\\team\\blue" ++ [0, 9, 10, 0]⟩,
   ⟨12, 3, [1, 0, 0, 0], [40, 2, 3, 0, 0, 0] ++ bytes!"\\name\\b\\team\\red" ++ [0, 40, 3, 4, 0, 0, 0] ++
     bytes!"\\name\\a\\team\\red\\topcolor\\4" ++ [0]⟩,
   ⟨14, 6, [], 7 :: List.replicate 1100 10⟩,
   ⟨200, 6, [], ping 1 43 1 ++ ping 3 25 0 ++ [7, 7]⟩,
   ⟨30, 6, [], ping 1 45 1⟩,
   ⟨100, 6, [], [8, 2] ++ bytes!"matchdate: 2024-04-03 21:02:17 CEST\n" ++ [0, 7]⟩,
   ⟨10, 6, [], medium bytes!"b checks his glasses\n"⟩,
   ⟨250, 6, [], medium bytes!"a rips c a new one\n"⟩,
   ⟨250, 6, [], [7, 8, 2] ++ bytes!"The match is over\n" ++ [0, 7]⟩,
   ⟨5, 6, [], 2 :: bytes!"EndOfDemo" ++ [0]⟩]

def moved : Bytes := Spec.encode movedFrames

def movedEntries : List ClientEntry :=
  [⟨[10, 0, 13, 6, 55, 0, 0, 0, 7, 40, 0, 1, 0, 0, 0], bytes!"\\name\\t\\*spectator\\1"⟩,
   ⟨[40, 1, 2, 0, 0, 0], bytes!"\\name\\c\\team\\blue"⟩,
   ⟨[9, 10, 0, 12, 3, 1, 0, 0, 0, 57, 0, 0, 0, 40, 2, 3, 0, 0, 0], bytes!"\\name\\b\\team\\red"⟩,
   ⟨[40, 3, 4, 0, 0, 0], bytes!"\\name\\a\\team\\red\\topcolor\\4"⟩]

def movedMatch : ServerMatch where
  info := bytes!"\\mode\\2on2\\serverdemo\\a.mvd"
  userinfos := movedEntries.map (·.info)
  roster := [⟨0, chars!"t", [], (0, 0), true, false, none, none⟩, ⟨1, chars!"c", chars!"blue", (0, 0), false, false, none, none⟩,
    ⟨2, chars!"b", chars!"red", (0, 0), false, false, none, none⟩, ⟨3, chars!"a", chars!"red", (4, 0), false, false, none, none⟩]
  events := [none, none, none, none, none, none, none, none, some (.teamkill chars!"b"), some (.frag chars!"a" chars!"c"), none, none]
  pings := [[], [], [], [], [], [(1, 299), (3, 25)], [(1, 301)], [], [], [], [], []]
  date := chars!"2024-04-03 21:02:17 CEST"
  countdown := 370
  game := 510

theorem moved_told : Told debug.toUnicode movedMatch.roster movedMatch.events movedFrames := by
  have silent : ∀ (f : Frame), f.body.head? ≠ some 8 ∨ f.body[1]? ≠ some 1 → Reports debug.toUnicode none f := by
    rintro f hf t m o ⟨p, _, h1, _, e, _⟩
    rw [e] at hf
    rcases hf with hf | hf
    · exact (hf rfl).elim
    · exact (hf (by rw [PrintMsg.encode, h1]; rfl)).elim
  refine .named (silent _ (by decide +kernel)) <| .named (silent _ (by decide +kernel)) <| .named (silent _ (by decide +kernel)) <|
    .named (silent _ (by decide +kernel)) <| .named (silent _ (by decide +kernel)) <| .named (silent _ (by decide +kernel)) <|
    .named (silent _ (by decide +kernel)) <| .named (silent _ (by decide +kernel)) <| .named ?_ <| .named ?_ <|
    .named (silent _ (by decide +kernel)) <| .named (silent _ (by decide +kernel)) .nil
  · exact ⟨_, [], .teamkill (x := chars!"b") (p := chars!" checks his glasses") (by decide +kernel) (by decide +kernel),
      ⟨1, bytes!"b checks his glasses\n"⟩, by decide, rfl, by decide, by decide +kernel, chars!"\n", by decide +kernel,
      by decide, by decide⟩
  · exact ⟨_, [], .killerFirst (x := chars!"a") (y := chars!"c") (p := ⟨chars!" rips ", chars!" a new one"⟩) (by decide +kernel)
      (by decide +kernel) (by decide +kernel),
      ⟨1, bytes!"a rips c a new one\n"⟩, by decide, rfl, by decide, by decide +kernel, chars!"\n", by decide +kernel,
      by decide, by decide⟩

theorem moved_pings : List.Forall₂ (fun f us => LeadingPings f.body us) movedFrames movedMatch.pings := by
  have h0 : ∀ {body : Bytes}, body.head? ≠ some 36 → LeadingPings body [] := by
    rintro body hb
    refine .stop fun n lo hi x t h => ?_
    rw [h] at hb
    exact hb rfl
  have h3 : LeadingPings (ping 1 43 1 ++ ping 3 25 0 ++ [7, 7]) [(1, 299), (3, 25)] := .step (.step (h0 (by decide)))
  have h4 : LeadingPings (ping 1 45 1) [(1, 301)] := .step (h0 (by decide))
  exact .cons (h0 (by decide)) <| .cons (h0 (by decide)) <| .cons (h0 (by decide)) <| .cons (h0 (by decide)) <|
    .cons (h0 (by decide)) <| .cons h3 <| .cons h4 <| .cons (h0 (by decide)) <| .cons (h0 (by decide)) <| .cons (h0 (by decide)) <|
    .cons (h0 (by decide)) <| .cons (h0 (by decide)) .nil

theorem moved_low : ∀ p, (samplesOf [(1, 299), (3, 25), (1, 301)] p).sum < 65536 := by
  intro p
  unfold samplesOf
  by_cases h1 : (1 : UInt8) = p <;> by_cases h2 : (3 : UInt8) = p <;> simp [h1, h2]

theorem moved_section (tail : Bytes) (h1 : 511 ≤ tail.length) (h2 : ¬ Occurs nameKey (0 :: tail.take 511)) :
    ClientSection tail spawnCommand movedEntries := by
  refine ⟨⟨spawnCommand ++ [10, 0, 13, 6, 55, 0, 0, 0, 7, 40, 0, 1, 0, 0], rfl⟩, by decide +kernel, by decide, by decide, by decide,
    ⟨0, by decide +kernel, by decide⟩, ⟨[0, 40, 1, 2, 0, 0], rfl⟩, by decide +kernel, by decide, by decide, by decide,
    ⟨0, by decide +kernel, by decide⟩, ⟨[0, 9, 10, 0, 12, 3, 1, 0, 0, 0, 57, 0, 0, 0, 40, 2, 3, 0, 0], rfl⟩, by decide +kernel,
    by decide, by decide, by decide, ⟨0, by decide +kernel, by decide⟩, ⟨[0, 40, 3, 4, 0, 0], rfl⟩, by decide +kernel,
    by decide, by decide, by decide, ⟨0, by decide +kernel, by decide⟩, by simp; omega, by simpa using h2⟩

theorem moved_example : Served debug movedMatch moved movedFrames where
  whole := (splits_whole (by decide +kernel)).1
  size := by decide +kernel
  header := ⟨moved.take 7, (moved.take 1280).drop 51, by decide +kernel, by decide +kernel, by decide, by decide +kernel⟩
  slots := ⟨moved.take 60, movedEntries, moved.drop 200, by decide +kernel, by decide +kernel,
    moved_section _ (by decide +kernel) (by decide +kernel), by decide +kernel, rfl⟩
  few := by decide
  enlisted := by
    refine .cons ?_ (.cons ?_ (.cons ?_ (.cons ?_ .nil))) <;>
      exact ⟨by decide +kernel, by decide +kernel, by decide +kernel, by decide +kernel, by decide +kernel, by decide +kernel,
        by decide +kernel, by decide +kernel⟩
  names := by decide +kernel
  told := moved_told
  pinged := moved_pings
  some := by decide
  low := moved_low
  dated := ⟨moved.take 1348, (moved.drop 1348).drop 38, by decide +kernel, by decide +kernel, by decide +kernel, by decide +kernel⟩
  timed := ⟨1348, 1455, by decide +kernel, by decide +kernel, by decide, by decide +kernel, by decide +kernel⟩
  short := by decide

end Example

/-- The hypotheses are met: the same players in other slots, with the same mean pings, and the same events in another order. -/
example : SamePlayers (Example.servedMatch []) Example.movedMatch ∧
    SameEvents id (Example.servedMatch []).events Example.movedMatch.events ∧
    ¬ Occurs statsMarker (Example.served []) ∧ ¬ Occurs statsMarker Example.moved := by
  refine ⟨?_, .swap _ _ _, by decide +kernel, by decide +kernel⟩
  unfold SamePlayers
  decide +kernel

/-- C105, witness: the players of both demos. -/
theorem C105_witness :
    players Example.debug Example.moved = .ok [⟨chars!"a", chars!"red", (4, 0), 1, 25, false, none, none⟩,
      ⟨chars!"c", chars!"blue", (0, 0), 0, 300, false, none, none⟩, ⟨chars!"b", chars!"red", (0, 0), -1, 0, false, none, none⟩] ∧
    players Example.debug (Example.served []) = players Example.debug Example.moved ∧
    teams Example.debug (Example.served []) = teams Example.debug Example.moved := by decide +kernel

end Mvd

import Verif.Props.ServerTeams

/-! C101: what players are called, how their deaths are worded and in which order they happen does not matter. -/

namespace Spec

/-- The same event between players with other names. -/
def Obituary.rename (ρ : List Char → List Char) : Obituary → Obituary
  | .death x => .death (ρ x)
  | .suicide x => .suicide (ρ x)
  | .suicideByWeapon x => .suicideByWeapon (ρ x)
  | .frag x y => .frag (ρ x) (ρ y)
  | .teamkill x => .teamkill (ρ x)
  | .teamkillByUnknown x => .teamkillByUnknown (ρ x)

/-- The same things happened in two matches, in any order, players with names `ρ name` in the second doing what those with names
`name` did in the first. -/
def SameEvents (ρ : List Char → List Char) (events events' : List (Option Obituary)) : Prop :=
  (events'.filterMap id).Perm ((events.filterMap id).map (Obituary.rename ρ))

/-- The same clients with other names, in any order of slots. -/
def SameRoster (ρ : List Char → List Char) (cs cs' : List Mvd.Client) : Prop :=
  (cs'.map fun c => (c.name, c.team, c.isSpectator)).Perm (cs.map fun c => (ρ c.name, c.team, c.isSpectator))

end Spec

namespace Mvd
open Spec

private def worth (name : Str) (o : Obituary) : Int :=
  match award o with
  | some (who, w) => if who = name then w else 0
  | none => 0

private theorem score_eq (es : List (Option Obituary)) (name : Str) : score es name = ((es.filterMap id).map (worth name)).sum := by
  induction es with
  | nil => rfl
  | cons e es ih =>
    rw [score_cons, ih]
    cases e with
    | none => simp [score]
    | some o => simp [score, worth, Option.bind]; rfl

private theorem award_rename (ρ : Str → Str) (o : Obituary) : award (o.rename ρ) = (award o).map fun p => (ρ p.1, p.2) := by
  cases o <;> rfl

private theorem worth_rename {ρ : Str → Str} (hρ : Function.Injective ρ) (name : Str) (o : Obituary) :
    worth (ρ name) (o.rename ρ) = worth name o := by
  unfold worth
  rw [award_rename]
  cases award o with
  | none => rfl
  | some p => simp [hρ.eq_iff]

theorem score_renamed {ρ : Str → Str} (hρ : Function.Injective ρ) {es es' : List (Option Obituary)} (h : SameEvents ρ es es')
    (name : Str) : score es' (ρ name) = score es name := by
  rw [score_eq, score_eq, (h.map _).sum_eq, List.map_map]
  congr 1
  exact List.map_congr_left fun o _ => worth_rename hρ name o

private theorem scores_iff (es : List (Option Obituary)) (name : Str) :
    Scores es name ↔ ∃ o ∈ es.filterMap id, ∃ w, award o = some (name, w) := by
  unfold Scores
  simp only [List.mem_filterMap, id_eq, exists_eq_right]
  constructor
  · rintro ⟨_, he, o, w, rfl, ha⟩
    exact ⟨o, he, w, ha⟩
  · rintro ⟨o, he, w, ha⟩
    exact ⟨_, he, o, w, rfl, ha⟩

theorem scores_renamed {ρ : Str → Str} (hρ : Function.Injective ρ) {es es' : List (Option Obituary)} (h : SameEvents ρ es es')
    (name : Str) : Scores es' (ρ name) ↔ Scores es name := by
  rw [scores_iff, scores_iff]
  constructor
  · rintro ⟨o, ho, w, ha⟩
    obtain ⟨o', ho', rfl⟩ := List.mem_map.mp (h.mem_iff.mp ho)
    rw [award_rename] at ha
    obtain ⟨⟨n, w'⟩, h1, h2⟩ := Option.map_eq_some_iff.mp ha
    simp only [Prod.mk.injEq] at h2
    obtain ⟨h2, rfl⟩ := h2
    exact ⟨o', ho', w', hρ h2 ▸ h1⟩
  · rintro ⟨o, ho, w, ha⟩
    exact ⟨o.rename ρ, h.mem_iff.mpr (List.mem_map_of_mem ho), w, by rw [award_rename, ha]; rfl⟩

/-- C101: in two demos of the same match with other names, other wordings and another order of events, the players have the same
scores, and nobody else has one. -/
theorem C101_scores (g g' : Env) (m m' : ServerMatch) (data data' : Bytes) (fs fs' : List Frame) (h : Served g m data fs)
    (h' : Served g' m' data' fs') (ρ : Str → Str) (hρ : Function.Injective ρ) (he : SameEvents ρ m.events m'.events) :
    ∃ frags frags', fragsPerPlayerName g data = .ok frags ∧ fragsPerPlayerName g' data' = .ok frags' ∧
      (∀ name, frags'.get (ρ name) = frags.get name) ∧ ∀ name', (∀ name, name' ≠ ρ name) → frags'.get name' = none := by
  obtain ⟨f, h1, h2⟩ := C97_scores g m data fs h
  obtain ⟨f', h1', h2'⟩ := C97_scores g' m' data' fs' h'
  refine ⟨f, f', h1, h1', fun name => ?_, fun name' hn => (h2' name').2 fun hs => ?_⟩
  rotate_left
  · rw [scores_iff] at hs
    obtain ⟨o, ho, w, ha⟩ := hs
    obtain ⟨o', _, rfl⟩ := List.mem_map.mp (he.mem_iff.mp ho)
    rw [award_rename] at ha
    obtain ⟨p, _, h4⟩ := Option.map_eq_some_iff.mp ha
    exact hn p.1 (Prod.mk.inj h4).1.symm
  by_cases hs : Scores m.events name
  · rw [(h2 name).1 hs, (h2' (ρ name)).1 ((scores_renamed hρ he name).mpr hs), score_renamed hρ he]
  · rw [(h2 name).2 hs, (h2' (ρ name)).2 fun x => hs ((scores_renamed hρ he name).mp x)]

/-- C101: and the teams the same totals, if the players are in the same teams. -/
theorem C101_teams (g g' : Env) (m m' : ServerMatch) (data data' : Bytes) (fs fs' : List Frame) (h : Served g m data fs)
    (h' : Served g' m' data' fs') (ρ : Str → Str) (hρ : Function.Injective ρ) (he : SameEvents ρ m.events m'.events)
    (hr : SameRoster ρ m.roster m'.roster) (hk : ¬ Occurs statsMarker data) (hk' : ¬ Occurs statsMarker data')
    (ts ts' : List Team) (ht : teams g data = .ok ts) (ht' : teams g' data' = .ok ts') :
    (∀ name, name ∈ ts'.map (·.name) ↔ name ∈ ts.map (·.name)) ∧
    ∀ t ∈ ts, ∀ t' ∈ ts', t'.name = t.name → t'.frags = t.frags := by
  obtain ⟨h1, h2⟩ := (C97_teams g m data fs h hk).2 ts ht
  obtain ⟨h1', h2'⟩ := (C97_teams g' m' data' fs' h' hk').2 ts' ht'
  have key : ∀ (team : Str), (((inGame m'.roster).filter fun c => c.team = team).map fun c => c.name).Perm
      (((inGame m.roster).filter fun c => c.team = team).map fun c => ρ c.name) := by
    intro team
    have := ((hr.filter fun p => p.2.2 = false).filter fun p => p.2.1 = team).map fun p => p.1
    simpa [inGame, List.filter_map, Function.comp_def, List.map_map] using this
  refine ⟨fun name => ?_, fun t htm t' htm' hn => ?_⟩
  · rw [h1, h1']
    have hlen := (key name).length_eq
    simp only [List.length_map] at hlen
    have some_iff : ∀ cs : List Client, (∃ c ∈ cs, c.team = name) ↔ 0 < (cs.filter fun c => c.team = name).length := by
      intro cs
      rw [List.length_pos_iff_exists_mem]
      simp [List.mem_filter]
    rw [some_iff, some_iff, hlen]
  · rw [h2 t htm, h2' t' htm', hn]
    have := ((key t.name).map fun n => score m'.events n).sum_eq
    simp only [List.map_map, Function.comp_def, score_renamed hρ he] at this
    exact this

/-! ### The demo of a match like that of `Example.served_example` -/

namespace Example

/-- Every name has an `x` in front, the first two players have changed places, the teamkill comes first and names the killer, the
frag is made with another weapon. -/
def taggedFrames : List Frame :=
  [all (9 :: bytes!"fullserverinfo \"\\mode\\2on2\\serverdemo\\a.mvd\"\n" ++ [0]),
   ⟨0, 6, [], 7 :: spawnCommand ++ [10, 0]⟩,
   ⟨13, 6, [], [7, 40, 0, 1, 0, 0, 0] ++ bytes!"\\name\\xb\\team\\red" ++ [0, 40, 1, 2, 0, 0, 0] ++
     bytes!"\\name\\xa\\team\\red" ++ [0, 9, 10, 0]⟩,
   ⟨12, 3, [1, 0, 0, 0], [40, 2, 3, 0, 0, 0] ++ bytes!"\\name\\xc\\team\\blue" ++ [0, 40, 3, 4, 0, 0, 0] ++
     bytes!"\\name\\xs\\*spectator\\1" ++ [0]⟩,
   ⟨14, 6, [], 7 :: List.replicate 1100 10⟩,
   ⟨200, 6, [], ping 0 25 0 ++ ping 2 44 1 ++ [7, 7]⟩,
   ⟨100, 6, [], [8, 2] ++ bytes!"matchdate: 2024-04-02 21:02:17 CEST\n" ++ [0, 7]⟩,
   ⟨10, 6, [], medium bytes!"xb checks his glasses\n"⟩,
   ⟨250, 6, [], medium bytes!"xa rips xc a new one\n"⟩,
   ⟨250, 6, [], [7, 8, 2] ++ bytes!"The match is over\n" ++ [0, 7]⟩,
   ⟨5, 6, [], 2 :: bytes!"EndOfDemo" ++ [0]⟩]

def tagged : Bytes := Spec.encode taggedFrames

def taggedEntries : List ClientEntry :=
  [⟨[10, 0, 13, 6, 52, 0, 0, 0, 7, 40, 0, 1, 0, 0, 0], bytes!"\\name\\xb\\team\\red"⟩,
   ⟨[40, 1, 2, 0, 0, 0], bytes!"\\name\\xa\\team\\red"⟩,
   ⟨[9, 10, 0, 12, 3, 1, 0, 0, 0, 53, 0, 0, 0, 40, 2, 3, 0, 0, 0], bytes!"\\name\\xc\\team\\blue"⟩,
   ⟨[40, 3, 4, 0, 0, 0], bytes!"\\name\\xs\\*spectator\\1"⟩]

def taggedMatch : ServerMatch where
  info := bytes!"\\mode\\2on2\\serverdemo\\a.mvd"
  userinfos := taggedEntries.map (·.info)
  roster := [⟨0, chars!"xb", chars!"red", (0, 0), false, false, none, none⟩, ⟨1, chars!"xa", chars!"red", (0, 0), false, false, none, none⟩,
    ⟨2, chars!"xc", chars!"blue", (0, 0), false, false, none, none⟩, ⟨3, chars!"xs", [], (0, 0), true, false, none, none⟩]
  events := [none, none, none, none, none, none, none, some (.teamkill chars!"xb"), some (.frag chars!"xa" chars!"xc"), none, none]
  pings := [[], [], [], [], [], [(0, 25), (2, 300)], [], [], [], [], []]
  date := chars!"2024-04-02 21:02:17 CEST"
  countdown := 340
  game := 510

theorem tagged_told : Told debug.toUnicode taggedMatch.roster taggedMatch.events taggedFrames := by
  have silent : ∀ (f : Frame), f.body.head? ≠ some 8 ∨ f.body[1]? ≠ some 1 → Reports debug.toUnicode none f := by
    rintro f hf t m o ⟨p, _, h1, _, e, _⟩
    rw [e] at hf
    rcases hf with hf | hf
    · exact (hf rfl).elim
    · exact (hf (by rw [PrintMsg.encode, h1]; rfl)).elim
  refine .named (silent _ (by decide +kernel)) <| .named (silent _ (by decide +kernel)) <| .named (silent _ (by decide +kernel)) <|
    .named (silent _ (by decide +kernel)) <| .named (silent _ (by decide +kernel)) <| .named (silent _ (by decide +kernel)) <|
    .named (silent _ (by decide +kernel)) <| .named ?_ <| .named ?_ <| .named (silent _ (by decide +kernel)) <|
    .named (silent _ (by decide +kernel)) .nil
  · exact ⟨_, [], .teamkill (x := chars!"xb") (p := chars!" checks his glasses") (by decide +kernel) (by decide +kernel),
      ⟨1, bytes!"xb checks his glasses\n"⟩, by decide, rfl, by decide, by decide +kernel, chars!"\n", by decide +kernel,
      by decide, by decide⟩
  · exact ⟨_, [], .killerFirst (x := chars!"xa") (y := chars!"xc") (p := ⟨chars!" rips ", chars!" a new one"⟩) (by decide +kernel)
      (by decide +kernel) (by decide +kernel),
      ⟨1, bytes!"xa rips xc a new one\n"⟩, by decide, rfl, by decide, by decide +kernel, chars!"\n", by decide +kernel,
      by decide, by decide⟩

theorem tagged_pings : List.Forall₂ (fun f us => LeadingPings f.body us) taggedFrames taggedMatch.pings := by
  have h0 : ∀ {body : Bytes}, body.head? ≠ some 36 → LeadingPings body [] := by
    rintro body hb
    refine .stop fun n lo hi x t h => ?_
    rw [h] at hb
    exact hb rfl
  have h3 : LeadingPings (ping 0 25 0 ++ ping 2 44 1 ++ [7, 7]) [(0, 25), (2, 300)] := .step (.step (h0 (by decide)))
  exact .cons (h0 (by decide)) <| .cons (h0 (by decide)) <| .cons (h0 (by decide)) <| .cons (h0 (by decide)) <|
    .cons (h0 (by decide)) <| .cons h3 <| .cons (h0 (by decide)) <| .cons (h0 (by decide)) <| .cons (h0 (by decide)) <|
    .cons (h0 (by decide)) <| .cons (h0 (by decide)) .nil

theorem tagged_section (tail : Bytes) (h1 : 511 ≤ tail.length) (h2 : ¬ Occurs nameKey (0 :: tail.take 511)) :
    ClientSection tail spawnCommand taggedEntries := by
  refine ⟨⟨spawnCommand ++ [10, 0, 13, 6, 52, 0, 0, 0, 7, 40, 0, 1, 0, 0], rfl⟩, by decide +kernel, by decide, by decide, by decide,
    ⟨0, by decide +kernel, by decide⟩, ⟨[0, 40, 1, 2, 0, 0], rfl⟩, by decide +kernel, by decide, by decide, by decide,
    ⟨0, by decide +kernel, by decide⟩, ⟨[0, 9, 10, 0, 12, 3, 1, 0, 0, 0, 53, 0, 0, 0, 40, 2, 3, 0, 0], rfl⟩, by decide +kernel,
    by decide, by decide, by decide, ⟨0, by decide +kernel, by decide⟩, ⟨[0, 40, 3, 4, 0, 0], rfl⟩, by decide +kernel,
    by decide, by decide, by decide, ⟨0, by decide +kernel, by decide⟩, by simp; omega, by simpa using h2⟩

theorem tagged_example : Served debug taggedMatch tagged taggedFrames where
  whole := (splits_whole (by decide +kernel)).1
  size := by decide +kernel
  header := ⟨tagged.take 7, (tagged.take 1280).drop 51, by decide +kernel, by decide +kernel, by decide, by decide +kernel⟩
  slots := ⟨tagged.take 60, taggedEntries, tagged.drop 193, by decide +kernel, by decide +kernel,
    tagged_section _ (by decide +kernel) (by decide +kernel), by decide +kernel, rfl⟩
  few := by decide
  enlisted := by
    refine .cons ?_ (.cons ?_ (.cons ?_ (.cons ?_ .nil))) <;>
      exact ⟨by decide +kernel, by decide +kernel, by decide +kernel, by decide +kernel, by decide +kernel, by decide +kernel,
        by decide +kernel, by decide +kernel⟩
  names := by decide +kernel
  told := tagged_told
  pinged := tagged_pings
  some := by decide
  low := served_low
  dated := ⟨tagged.take 1328, (tagged.drop 1328).drop 38, by decide +kernel, by decide +kernel, by decide +kernel, by decide +kernel⟩
  timed := ⟨1328, 1438, by decide +kernel, by decide +kernel, by decide, by decide +kernel, by decide +kernel⟩
  short := by decide

end Example

/-- The hypotheses are met: an injective change of names, the same events in another order, the same players in other slots. -/
example : Function.Injective ('x' :: · : Str → Str) ∧ SameEvents ('x' :: ·) (Example.servedMatch []).events Example.taggedMatch.events ∧
    SameRoster ('x' :: ·) (Example.servedMatch []).roster Example.taggedMatch.roster ∧
    ¬ Occurs statsMarker (Example.served []) ∧ ¬ Occurs statsMarker Example.tagged ∧
    fragsPerPlayerName Example.debug (Example.served []) = .ok [(chars!"a", 1), (chars!"b", -1)] ∧
    fragsPerPlayerName Example.debug Example.tagged = .ok [(chars!"xb", -1), (chars!"xa", 1)] := by
  refine ⟨fun a b h => (List.cons.inj h).2, ?_, ?_, by decide +kernel, by decide +kernel, by decide +kernel, by decide +kernel⟩
  · exact .swap _ _ _
  · exact .swap _ _ _

/-- The teams of both demos. -/
example : ((teams Example.debug Example.tagged).bind fun ts => .ok (ts.map fun t => (t.name, t.frags, t.players.map (·.name)))) =
    .ok [(chars!"blue", 0, [chars!"xc"]), (chars!"red", 0, [chars!"xa", chars!"xb"])] := by decide +kernel

end Mvd

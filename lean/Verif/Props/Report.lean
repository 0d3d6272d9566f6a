import Verif.Props.Match
import Verif.Props.Ping
import Verif.Props.Consistency

/-! C77, C78: the players and teams of a match written down. -/

namespace Mvd
open Spec

/-- The players of a match: the clients that are no spectators. -/
def inGame (cs : List Client) : List Client := cs.filter fun c => c.isSpectator = false

/-- What is reported about a client that took part: its own data, its score and the mean of its sampled pings, rounded down
(0 without samples). -/
structure ReportedAs (es : List (Option Obituary)) (samples : List (UInt8 × Nat)) (c : Client) (p : Player) : Prop where
  name : p.name = c.name
  team : p.team = c.team
  color : p.color = c.color
  isBot : p.isBot = c.isBot
  authUsername : p.authUsername = c.authUsername
  authCc : p.authCc = c.authCc
  frags : p.frags = score es c.name
  ping : p.ping = (samplesOf samples (UInt8.ofNat c.number)).sum / (samplesOf samples (UInt8.ofNat c.number)).length

theorem score_cons (e : Option Obituary) (es : List (Option Obituary)) (name : Str) :
    score (e :: es) name = score [e] name + score es name := by
  simp [score]

theorem score_of_not (es : List (Option Obituary)) (name : Str) (h : ¬ Scores es name) : score es name = 0 := by
  induction es with
  | nil => rfl
  | cons e es ih =>
    rw [score_cons, ih fun ⟨e', he, k⟩ => h ⟨e', .tail _ he, k⟩]
    simp only [score, List.map_cons, List.map_nil, List.sum_cons, List.sum_nil, Int.add_zero]
    cases hb : e.bind award with
    | none => rfl
    | some c =>
      obtain ⟨who, worth⟩ := c
      obtain ⟨o, ho, ha⟩ := Option.bind_eq_some_iff.mp hb
      refine if_neg fun hw => h ⟨e, .head _, o, worth, ho, ?_⟩
      rw [ha, hw]

/-- The players of a match whose scores are known. -/
theorem scored_players (g : Env) (data : Bytes) (fs : List Frame) (rest : Bytes) (e : Err) (cs : List Client)
    (es : List (Option Obituary)) (uss : List (List (UInt8 × Nat)))
    (h : Splits data fs rest) (hs : Stops data.length rest)
    (hk : ktxstatsV3 g data = .err e) (hc : clients g data = .ok cs) (h256 : cs.length ≤ 256)
    (hr : ∃ m, fragsPerPlayerName g data = .ok m ∧ ∀ name,
      (Scores es name → m.get name = some (score es name)) ∧ (¬ Scores es name → m.get name = none))
    (hu : List.Forall₂ (fun f us => LeadingPings f.body us) fs uss) (hne : sampledPings uss ≠ [])
    (hsum : ∀ p, (samplesOf (sampledPings uss) p).sum < 65536) :
    ∃ ps l, List.Forall₂ (ReportedAs es (sampledPings uss)) (inGame cs) ps ∧
      players g data = .ok l ∧ l.Perm ps ∧ l.Pairwise fun a b => ¬ Outranks b a := by
  obtain ⟨frags, ef, hf⟩ := hr
  obtain ⟨pings, ep, hp⟩ := C32_pings g data fs rest uss h hs hu hne hsum
  obtain ⟨ps, l, hfr, hpl, hperm, hsort⟩ := C45_from_messages g data cs pings frags hc ep ef
  rw [C45_all g data cs hc h256] at hfr
  refine ⟨ps, l, hfr.imp fun c p ⟨h1, h2, h3, h4, h5, h6, h7, h8⟩ => ⟨h1, h2, h3, h4, h5, h6, ?_, ?_⟩, ?_, hperm, hsort⟩
  · rw [C43_from_messages g data e hk, hpl]
  · rw [h7]
    by_cases hsc : Scores es c.name
    · rw [(hf c.name).1 hsc, Option.getD_some]
    · rw [(hf c.name).2 hsc, Option.getD_none, score_of_not es _ hsc]
  · rw [h8, hp]
    by_cases hm : UInt8.ofNat c.number ∈ (sampledPings uss).map Prod.fst
    · rw [if_pos hm, Option.getD_some]
    · rw [if_neg hm, Option.getD_none]
      have : samplesOf (sampledPings uss) (UInt8.ofNat c.number) = [] := by
        unfold samplesOf
        rw [List.map_eq_nil_iff, List.filter_eq_nil_iff]
        intro u hu' hn
        exact hm (List.mem_map.mpr ⟨u, hu', by simpa using hn⟩)
      rw [this]
      rfl

/-- C77: the players of a match whose events and pings are written down in the frames of a demo without match stats: every
client that is no spectator, with the score of its name and its mean ping, ranked. -/
theorem C77_players (g : Env) (data : Bytes) (fs : List Frame) (rest : Bytes) (e : Err) (cs : List Client)
    (es : List (Option Obituary)) (uss : List (List (UInt8 × Nat)))
    (h : Splits data fs rest) (hs : Stops data.length rest) (hl : data.length < 2 ^ 31)
    (hk : ktxstatsV3 g data = .err e) (hc : clients g data = .ok cs) (h256 : cs.length ≤ 256)
    (hr : List.Forall₂ (Reports g.toUnicode) es fs)
    (hu : List.Forall₂ (fun f us => LeadingPings f.body us) fs uss) (hne : sampledPings uss ≠ [])
    (hsum : ∀ p, (samplesOf (sampledPings uss) p).sum < 65536) :
    ∃ ps l, List.Forall₂ (ReportedAs es (sampledPings uss)) (inGame cs) ps ∧
      players g data = .ok l ∧ l.Perm ps ∧ l.Pairwise fun a b => ¬ Outranks b a :=
  scored_players g data fs rest e cs es uss h hs hk hc h256 (C73_scores g data fs rest es h hs hr hl) hu hne hsum

/-! ### Teams -/

theorem sum_single (names : List Str) (hn : names.Nodup) (who : Str) (w : Int) :
    (names.map fun n => if who = n then w else 0).sum = if who ∈ names then w else 0 := by
  induction names with
  | nil => simp
  | cons n t ih =>
    rw [List.nodup_cons] at hn
    rw [List.map_cons, List.sum_cons, ih hn.2]
    by_cases h : who = n
    · subst h
      rw [if_pos rfl, if_neg hn.1, if_pos (by simp)]
      omega
    · rw [if_neg h]
      simp [h]

theorem sum_add (names : List Str) (a b : Str → Int) :
    (names.map fun n => a n + b n).sum = (names.map a).sum + (names.map b).sum := by
  induction names with
  | nil => rfl
  | cons n t ih => simp only [List.map_cons, List.sum_cons, ih]; omega

theorem award_bounds {o : Obituary} {who : Str} {w : Int} (h : award o = some (who, w)) : -2 ≤ w ∧ w ≤ 1 := by
  cases o <;> simp only [award, Option.some.injEq, Prod.mk.injEq, reduceCtorEq] at h <;> omega

/-- Players with different names together score at most one point per event, and lose at most two. -/
theorem score_sum_bounds (names : List Str) (hn : names.Nodup) (es : List (Option Obituary)) :
    -2 * (es.length : Int) ≤ (names.map (score es)).sum ∧ (names.map (score es)).sum ≤ es.length := by
  induction es with
  | nil =>
    have : (names.map (score [])).sum = 0 := by
      induction names with
      | nil => rfl
      | cons n t ih =>
        rw [List.map_cons, List.sum_cons, ih (List.nodup_cons.mp hn).2]
        rfl
    simp [this]
  | cons e es ih =>
    have h1 : names.map (score (e :: es)) = names.map fun n => score [e] n + score es n :=
      List.map_congr_left fun n _ => score_cons e es n
    rw [h1, sum_add]
    have h2 : -2 ≤ (names.map (score [e])).sum ∧ (names.map (score [e])).sum ≤ 1 := by
      cases hb : e.bind award with
      | none =>
        have : names.map (score [e]) = names.map fun n => if ([] : Str) = n then (0 : Int) else 0 :=
          List.map_congr_left fun n _ => by simp [score, hb]
        rw [this, sum_single names hn]
        split <;> omega
      | some c =>
        obtain ⟨who, w⟩ := c
        obtain ⟨o, _, ha⟩ := Option.bind_eq_some_iff.mp hb
        have : names.map (score [e]) = names.map fun n => if who = n then w else 0 :=
          List.map_congr_left fun n _ => by simp [score, hb]
        rw [this, sum_single names hn]
        have := award_bounds ha
        split <;> omega
    simp only [List.length_cons, Nat.cast_add, Nat.cast_one]
    have := ih
    constructor <;> push_cast <;> omega

/-- The teams of a match whose scores are known. -/
theorem scored_teams (g : Env) (data : Bytes) (cs : List Client) (es : List (Option Obituary)) (samples : List (UInt8 × Nat))
    (ts : List Team) (ps l : List Player) (hf : List.Forall₂ (ReportedAs es samples) (inGame cs) ps) (hpl : players g data = .ok l)
    (hperm : l.Perm ps) (hlen : es.length < 2 ^ 30) (hnames : ((inGame cs).map (·.name)).Nodup) (ht : teams g data = .ok ts) :
    (∀ name, name ∈ ts.map (·.name) ↔ ∃ c ∈ inGame cs, c.team = name) ∧
    ∀ t ∈ ts, t.frags = (((inGame cs).filter fun c => c.team = t.name).map fun c => score es c.name).sum := by
  unfold teams at ht
  rw [hpl] at ht
  change teamsFromPlayers g l = .ok ts at ht
  obtain ⟨h1, h2, h3⟩ := C48_partition g l ts ht
  have hmap : ∀ {α : Type} (a : Client → α) (b : Player → α), (∀ c p, ReportedAs es samples c p → b p = a c) →
      (inGame cs).map a = ps.map b := by
    intro α a b hab
    generalize inGame cs = l at hf
    clear hnames hperm
    induction hf with
    | nil => rfl
    | cons h _ ih => rw [List.map_cons, List.map_cons, ih, hab _ _ h]
  have hteam := hmap (·.team) (·.team) fun _ _ h => h.team
  refine ⟨fun name => ?_, fun t htm => ?_⟩
  · have a1 : (∃ c ∈ inGame cs, c.team = name) ↔ ∃ p ∈ l, p.team = name := by
      have x1 : (∃ p ∈ inGame cs, p.team = name) ↔ name ∈ (inGame cs).map (·.team) := by simp
      have x2 : (∃ p ∈ ps, p.team = name) ↔ name ∈ ps.map (·.team) := by simp
      rw [x1, hteam, ← x2]
      simp [hperm.mem_iff]
    rw [a1]
    constructor
    · intro hm
      obtain ⟨t, ht1, rfl⟩ := List.mem_map.mp hm
      obtain ⟨hp1, hp2⟩ := h1 t ht1
      obtain ⟨p, hp⟩ := List.exists_mem_of_ne_nil _ hp2
      rw [hp1, members, List.mem_filter] at hp
      exact ⟨p, hp.1, by simpa using hp.2⟩
    · rintro ⟨p, hp, rfl⟩
      obtain ⟨t, ht1, ht2, _⟩ := h3 p hp
      rw [(h1 t ht1).1, members, List.mem_filter] at ht2
      exact List.mem_map.mpr ⟨t, ht1, by simpa [eq_comm] using ht2.2⟩
  · have hfr : totalFrags t.players = (((inGame cs).filter fun c => c.team = t.name).map fun c => score es c.name).sum := by
      rw [(h1 t htm).1, totalFrags, members]
      rw [((hperm.filter _).map _).sum_eq]
      congr 1
      generalize inGame cs = l at hf
      clear hnames hmap hteam hperm
      induction hf with
      | nil => rfl
      | @cons c p _ _ h _ ih =>
        simp only [List.filter_cons, h.team]
        split
        · rw [List.map_cons, List.map_cons, ih, h.frags]
        · exact ih
    have hb := score_sum_bounds (((inGame cs).filter fun c => c.team = t.name).map (·.name))
      (hnames.sublist (List.filter_sublist.map _)) es
    rw [List.map_map] at hb
    rw [← hfr]
    have hb' : -2 * (es.length : Int) ≤ totalFrags t.players ∧ totalFrags t.players ≤ es.length := by
      rw [hfr]
      exact hb
    exact (C49_totals g l ts ht t htm).1 (by omega) (by omega)

/-- And the teams are found: nothing overflows. -/
theorem scored_rows_found (g : Env) (es : List (Option Obituary)) (l : List Player) (hlen : es.length < 2 ^ 30)
    (hll : l.length ≤ 255) (hnod : (l.map (·.name)).Nodup) (hq : ∀ q ∈ l, q.frags = score es q.name ∧ q.ping ≤ 65535) :
    ∃ ts, teamsFromPlayers g l = .ok ts := by
  rcases (C49_outcome g l).1 with h | h
  · exact h
  obtain ⟨_, p, _, ho⟩ := (C49_outcome g l).2.mp h
  have hsub : (members p.team l).Sublist l := List.filter_sublist
  generalize members p.team l = ms at ho hsub
  have hml := hsub.length_le
  exfalso
  rcases ho with ⟨k, _, h⟩ | h | ⟨c, h⟩
  · have hk : (ms.take k).Sublist l := (List.take_sublist k ms).trans hsub
    have hb := score_sum_bounds ((ms.take k).map (·.name)) (hnod.sublist (hk.map _)) es
    have he : ((ms.take k).map (·.name)).map (score es) = (ms.take k).map (·.frags) := by
      rw [List.map_map]
      exact List.map_congr_left fun q hq' => ((hq q (hk.subset hq')).1).symm
    rw [he] at hb
    change -2 * (es.length : Int) ≤ totalFrags (ms.take k) ∧ totalFrags (ms.take k) ≤ es.length at hb
    omega
  · have hb : ∀ (l : List Player), (∀ q ∈ l, q.ping ≤ 65535) → totalPing l ≤ 65535 * l.length := by
      intro l
      induction l with
      | nil => intro; simp [totalPing]
      | cons q l ih =>
        intro h
        have h1 := ih fun r hr => h r (by simp [hr])
        have h2 := h q (by simp)
        have e : totalPing (q :: l) = q.ping + totalPing l := by simp [totalPing]
        rw [e, List.length_cons]
        omega
    have := hb ms fun q h' => (hq q (hsub.subset h')).2
    omega
  · have : wearing c ms ≤ ms.length := List.length_filter_le _ _
    omega

theorem scored_teams_found (g : Env) (data : Bytes) (cs : List Client) (es : List (Option Obituary)) (samples : List (UInt8 × Nat))
    (ps l : List Player) (hf : List.Forall₂ (ReportedAs es samples) (inGame cs) ps) (hpl : players g data = .ok l)
    (hperm : l.Perm ps) (hlen : es.length < 2 ^ 30) (hnames : ((inGame cs).map (·.name)).Nodup)
    (hsum : ∀ p, (samplesOf samples p).sum < 65536) (hfew : (inGame cs).length ≤ 255) : ∃ ts, teams g data = .ok ts := by
  unfold teams
  rw [hpl]
  simp only [R.bind]
  have hlist : (inGame cs).map (·.name) = ps.map (·.name) ∧ ∀ q ∈ ps, q.frags = score es q.name ∧ q.ping ≤ 65535 := by
    generalize inGame cs = l at hf
    clear hnames hperm hfew
    induction hf with
    | nil => simp
    | @cons c q _ _ h _ ih =>
      refine ⟨by rw [List.map_cons, List.map_cons, ih.1, h.name], ?_⟩
      intro r hr
      rcases List.mem_cons.mp hr with rfl | hr
      · refine ⟨by rw [h.name]; exact h.frags, ?_⟩
        rw [h.ping]
        have h1 := hsum (UInt8.ofNat c.number)
        have h2 := Nat.div_le_self (samplesOf samples (UInt8.ofNat c.number)).sum (samplesOf samples (UInt8.ofNat c.number)).length
        omega
      · exact ih.2 r hr
  have hll : l.length ≤ 255 := by rw [hperm.length_eq, ← hf.length_eq]; exact hfew
  have hnod : (l.map (·.name)).Nodup := by
    rw [(hperm.map _).nodup_iff, ← hlist.1]
    exact hnames
  have hq : ∀ q ∈ l, q.frags = score es q.name ∧ q.ping ≤ 65535 := fun q hq => hlist.2 q (hperm.mem_iff.mp hq)
  exact scored_rows_found g es l hlen hll hnod hq

theorem length_lt {data : Bytes} {fs : List Frame} {rest : Bytes} (h : Splits data fs rest) (hl : data.length < 2 ^ 31) :
    fs.length < 2 ^ 30 := by
  have hle := length_le_encode fs
  have hdl : (Spec.encode fs).length ≤ data.length := by
    rw [h.1, List.length_append]
    omega
  omega

/-- C78: the teams of such a match, when its players have different names: a team for every team name of a player, and its
frags are the sum of the scores of its players. -/
theorem C78_teams (g : Env) (data : Bytes) (fs : List Frame) (rest : Bytes) (e : Err) (cs : List Client)
    (es : List (Option Obituary)) (uss : List (List (UInt8 × Nat))) (ts : List Team)
    (h : Splits data fs rest) (hs : Stops data.length rest) (hl : data.length < 2 ^ 31)
    (hk : ktxstatsV3 g data = .err e) (hc : clients g data = .ok cs) (h256 : cs.length ≤ 256)
    (hr : List.Forall₂ (Reports g.toUnicode) es fs)
    (hu : List.Forall₂ (fun f us => LeadingPings f.body us) fs uss) (hne : sampledPings uss ≠ [])
    (hsum : ∀ p, (samplesOf (sampledPings uss) p).sum < 65536)
    (hnames : ((inGame cs).map (·.name)).Nodup) (ht : teams g data = .ok ts) :
    (∀ name, name ∈ ts.map (·.name) ↔ ∃ c ∈ inGame cs, c.team = name) ∧
    ∀ t ∈ ts, t.frags = (((inGame cs).filter fun c => c.team = t.name).map fun c => score es c.name).sum := by
  obtain ⟨ps, l, hf, hpl, hperm, _⟩ := C77_players g data fs rest e cs es uss h hs hl hk hc h256 hr hu hne hsum
  exact scored_teams g data cs es _ ts ps l hf hpl hperm (by rw [hr.length_eq]; exact length_lt h hl) hnames ht

/-- C78: with at most 255 players the teams are found. -/
theorem C78_found (g : Env) (data : Bytes) (fs : List Frame) (rest : Bytes) (e : Err) (cs : List Client)
    (es : List (Option Obituary)) (uss : List (List (UInt8 × Nat)))
    (h : Splits data fs rest) (hs : Stops data.length rest) (hl : data.length < 2 ^ 31)
    (hk : ktxstatsV3 g data = .err e) (hc : clients g data = .ok cs) (h256 : cs.length ≤ 256)
    (hr : List.Forall₂ (Reports g.toUnicode) es fs)
    (hu : List.Forall₂ (fun f us => LeadingPings f.body us) fs uss) (hne : sampledPings uss ≠ [])
    (hsum : ∀ p, (samplesOf (sampledPings uss) p).sum < 65536)
    (hnames : ((inGame cs).map (·.name)).Nodup) (hfew : (inGame cs).length ≤ 255) : ∃ ts, teams g data = .ok ts := by
  obtain ⟨ps, l, hf, hpl, hperm, _⟩ := C77_players g data fs rest e cs es uss h hs hl hk hc h256 hr hu hne hsum
  exact scored_teams_found g data cs es _ ps l hf hpl hperm (by rw [hr.length_eq]; exact length_lt h hl) hnames hsum hfew

/-- The hypotheses of C77 and C78 are met by a match of three players in two teams. -/
example : ∃ (es : List (Option Obituary)) (uss : List (List (UInt8 × Nat))) (ts : List Team),
    Splits (Spec.encode Example.scoreFrames) Example.scoreFrames [] ∧ Stops (Spec.encode Example.scoreFrames).length [] ∧
    (Spec.encode Example.scoreFrames).length < 2 ^ 31 ∧
    ktxstatsV3 Example.debug (Spec.encode Example.scoreFrames) = .err .ktxstatsNotFound ∧
    clients Example.debug (Spec.encode Example.scoreFrames) = .ok Example.team ∧ Example.team.length ≤ 256 ∧
    List.Forall₂ (Reports Example.debug.toUnicode) es Example.scoreFrames ∧
    List.Forall₂ (fun f us => LeadingPings f.body us) Example.scoreFrames uss ∧ sampledPings uss ≠ [] ∧
    (∀ p, (samplesOf (sampledPings uss) p).sum < 65536) ∧ ((inGame Example.team).map (·.name)).Nodup ∧
    teams Example.debug (Spec.encode Example.scoreFrames) = .ok ts ∧ ts.map (·.frags) = [1, -1] := by
  have hteams : ∃ ts, teams Example.debug (Spec.encode Example.scoreFrames) = .ok ts ∧ ts.map (·.frags) = [1, -1] := by
    have : (match teams Example.debug (Spec.encode Example.scoreFrames) with | .ok l => l.map (·.frags) | _ => []) = [1, -1] := by
      decide +kernel
    cases h : teams Example.debug (Spec.encode Example.scoreFrames) with
    | ok l => rw [h] at this; exact ⟨l, rfl, this⟩
    | _ => rw [h] at this; cases this
  obtain ⟨ts, ht, hf⟩ := hteams
  have silent : ∀ (f : Frame), f.body.head? ≠ some 8 → Reports Example.debug.toUnicode none f := by
    rintro f hf t m o ⟨p, _, _, _, e, _⟩
    rw [e] at hf
    exact (hf rfl).elim
  refine ⟨[none, none, some (.frag chars!"a" chars!"c"), some (.frag chars!"c" chars!"a"), some (.suicide chars!"b")],
    [[], [(0, 25), (2, 300)], [], [], []], ts, (splits_whole (by decide +kernel)).1, (splits_whole (by decide +kernel)).2,
    by decide +kernel, by decide +kernel, by decide +kernel, by decide +kernel, ?_, ?_, by decide +kernel, ?_,
    by decide +kernel, ht, hf⟩
  · refine .cons (silent _ (by decide +kernel)) (.cons (silent _ (by decide +kernel)) (.cons
      ⟨_, [], .victimFirst (x := chars!"c") (y := chars!"a") (p := ⟨chars!" was gibbed by ", chars!"'s rocket"⟩) (by decide +kernel)
      (by decide +kernel) (by decide +kernel), ⟨1, bytes!"c was gibbed by a's rocket\n"⟩, by decide, rfl, by decide,
      by decide +kernel, chars!"\n", by decide +kernel, by decide, by decide⟩ (.cons
      ⟨_, [], .victimFirst (x := chars!"a") (y := chars!"c") (p := ⟨chars!" was gibbed by ", chars!"'s rocket"⟩) (by decide +kernel)
      (by decide +kernel) (by decide +kernel), ⟨1, bytes!"a was gibbed by c's rocket\n"⟩, by decide, rfl, by decide,
      by decide +kernel, chars!"\n", by decide +kernel, by decide, by decide⟩ (.cons ⟨_, [], .suicide (x := chars!"b")
      (by decide +kernel), ⟨1, bytes!"b suicides\n"⟩, by decide, rfl, by decide, by decide +kernel, chars!"\n", by decide +kernel,
      by decide, by decide⟩ .nil))))
  · have hnil : NoPing [] := by intro n lo hi x t h; cases h
    have h0 : ∀ b t, b ≠ 36 → NoPing (b :: t) := by
      intro b t hb n lo hi x t' h
      cases h
      exact hb rfl
    exact .cons (.stop (h0 9 _ (by decide))) (.cons (.step (.step (.stop hnil))) (.cons (.stop (h0 8 _ (by decide)))
      (.cons (.stop (h0 8 _ (by decide))) (.cons (.stop (h0 8 _ (by decide))) .nil))))
  · intro p
    have : ∀ (l : List (UInt8 × Nat)), (samplesOf l p).sum ≤ (l.map Prod.snd).sum := by
      intro l
      induction l with
      | nil => simp [samplesOf]
      | cons a t ih =>
        unfold samplesOf at ih ⊢
        rw [List.filter_cons]
        split
        · rw [List.map_cons, List.map_cons, List.sum_cons, List.sum_cons]
          omega
        · rw [List.map_cons, List.sum_cons]
          omega
    exact Nat.lt_of_le_of_lt (this _) (by decide)

end Mvd

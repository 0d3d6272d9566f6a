import Verif.Props.Teams

/-! C113. -/

namespace Mvd
open Spec

/-- A team report has a team for every player, named by the player's team. -/
theorem team_of_player (g : Env) {ps : List Player} {ts : List Team} (h : teamsFromPlayers g ps = .ok ts) {n : Str}
    (hn : members n ps ≠ []) : ∃ t ∈ ts, t.name = n := by
  obtain ⟨p, hp⟩ := List.exists_mem_of_ne_nil _ hn
  obtain ⟨hp, hpn⟩ := List.mem_filter.mp hp
  obtain ⟨h1, _, h3⟩ := C48_partition g ps ts h
  obtain ⟨t, ht, hpt, _⟩ := h3 p hp
  rw [(h1 t ht).1] at hpt
  have e1 : p.team = t.name := by simpa using (List.mem_filter.mp hpt).2
  exact ⟨t, ht, by rw [← e1]; simpa using hpn⟩

/-- C113: a team's row depends only on the players of that team and their order. Everything but the color is the same
whatever the other players and the hash order; the color too, if it is not up to chance. -/
theorem C113_row (g o : Env) (ps ps' : List Player) (ts ts' : List Team) (h : teamsFromPlayers g ps = .ok ts)
    (h' : teamsFromPlayers (g.reorder o) ps' = .ok ts') (t t' : Team) (ht : t ∈ ts) (ht' : t' ∈ ts') (hn : t'.name = t.name)
    (hm : members t.name ps' = members t.name ps) :
    t'.players = t.players ∧ t'.frags = t.frags ∧ t'.ping = t.ping ∧ (Settled t.players → t' = t) := by
  have hm : membersOf ps' t.name = membersOf ps t.name := hm
  obtain ⟨seed, ho, hne, hp⟩ := mem_teams g h ht
  obtain ⟨seed', ho', _, hp'⟩ := mem_teams _ h' ht'
  rw [hn, hm] at ho' hp'
  obtain ⟨first, hf, _⟩ := head_members hne
  obtain ⟨r, c, hr, _, _, _, h1, h2, _⟩ := ofPlayers_ok g _ hf ho
  obtain ⟨r', c', hr', _, _, _, h1', h2', _⟩ := ofPlayers_ok _ _ hf ho'
  rw [show totalsStep (g.reorder o) = totalsStep g from rfl, hr] at hr'
  cases hr'
  refine ⟨hp'.trans hp.symm, h1'.trans h1.symm, h2'.trans h2.symm, fun hs => ?_⟩
  rw [hp] at hs
  rw [ofPlayers_settled g o seed seed' _ hs, ho] at ho'
  cases ho'
  rfl

/-- C113: if the players of some teams leave, or come in another order that keeps the order within each team, then the
teams that remain are reported as before and in the same order. -/
theorem C113_rows (g o : Env) (ps ps' : List Player) (ts : List Team) (h : teamsFromPlayers g ps = .ok ts)
    (hnames : (ts.map fun t => g.lowercase t.name).Nodup) (hcolors : ∀ t ∈ ts, Settled t.players)
    (hm : ∀ n, members n ps' = members n ps ∨ members n ps' = []) :
    teamsFromPlayers (g.reorder o) ps' = .ok (ts.filter fun t => members t.name ps' ≠ []) := by
  have hok : ¬ teamsFromPlayers (g.reorder o) ps' = .panic := by
    intro hp
    obtain ⟨hc, p, hpm, hov⟩ := (C49_outcome _ ps').2.mp hp
    have hmem : p ∈ members p.team ps' := List.mem_filter.mpr ⟨hpm, by simp⟩
    rcases hm p.team with e | e
    · rw [e] at hov hmem
      have := (C49_outcome g ps).2.mpr ⟨hc, p, (List.mem_filter.mp hmem).1, hov⟩
      rw [h] at this
      cases this
    · rw [e] at hmem
      simp at hmem
  obtain ⟨ts', h'⟩ := (C49_outcome (g.reorder o) ps').1.resolve_right hok
  rw [h']
  congr 1
  have hsub : ∀ t', t' ∈ ts' ↔ t' ∈ ts ∧ members t'.name ps' ≠ [] := by
    intro t'
    have same : ∀ t ∈ ts, ∀ t' ∈ ts', t'.name = t.name → members t.name ps' ≠ [] → t' = t := fun t ht t' ht' hn hne =>
      (C113_row g o ps ps' ts ts' h h' t t' ht ht' hn ((hm t.name).resolve_right hne)).2.2.2 (hcolors t ht)
    constructor
    · intro ht'
      obtain ⟨_, _, hne, _⟩ := mem_teams _ h' ht'
      have hne : members t'.name ps' ≠ [] := hne
      obtain ⟨t, ht, hn⟩ := team_of_player g h (n := t'.name) (by rw [← (hm _).resolve_right hne]; exact hne)
      have := same t ht t' ht' hn.symm (by rw [hn]; exact hne)
      subst this
      exact ⟨ht, hne⟩
    · rintro ⟨ht, hne⟩
      obtain ⟨u, hu, hn⟩ := team_of_player _ h' hne
      rw [← same t' ht u hu hn hne]
      exact hu
  have strict : ∀ {g : Env} {ps : List Player} {us : List Team}, teamsFromPlayers g ps = .ok us →
      us.Pairwise fun a b => Before (g.lowercase a.name) (g.lowercase b.name) ∨ g.lowercase a.name = g.lowercase b.name :=
    fun hu => List.pairwise_iff_getElem.mpr fun i j hi hj hij => C50_order _ _ _ hu i j hij hj
  have hinj : ∀ a ∈ ts, ∀ b ∈ ts, g.lowercase a.name = g.lowercase b.name → a = b := by
    intro a ha b hb e
    exact (List.inj_on_of_nodup_map hnames) ha hb e
  refine List.Perm.eq_of_pairwise (le := fun a b : Team => Before (g.lowercase a.name) (g.lowercase b.name) ∨
    g.lowercase a.name = g.lowercase b.name) ?_ (strict (g := g.reorder o) h') ((strict (g := g) h).filter _) ?_
  · intro a b ha hb h1 h2
    have ha := ((hsub a).mp ha).1
    have hb := (List.mem_filter.mp hb).1
    rcases h1 with h1 | h1
    · rcases h2 with h2 | h2
      · exact absurd h2 (before_asymm h1)
      · exact (hinj b hb a ha h2).symm
    · exact hinj a ha b hb h1
  · refine (List.perm_ext_iff_of_nodup ?_ ?_).mpr fun t => ?_
    · exact List.Nodup.of_map _ (C48_partition _ _ _ h').2.1
    · exact (List.Nodup.of_map _ hnames).filter _
    · rw [hsub t, List.mem_filter]
      simp

/-- C113: when the players of one team leave, its row disappears and nothing else changes. -/
theorem C113_leave (g : Env) (ps : List Player) (ts : List Team) (n : Str) (h : teamsFromPlayers g ps = .ok ts)
    (hnames : (ts.map fun t => g.lowercase t.name).Nodup) (hcolors : ∀ t ∈ ts, Settled t.players) :
    teamsFromPlayers g (ps.filter fun p => p.team ≠ n) = .ok (ts.filter fun t => t.name ≠ n) := by
  have key : ∀ m, members m (ps.filter fun p => p.team ≠ n) = if m = n then [] else members m ps := by
    intro m
    unfold members
    rw [List.filter_filter]
    split
    · next e => exact List.filter_eq_nil_iff.mpr fun p _ => by simp [e]
    · next e =>
      refine List.filter_congr fun p _ => ?_
      by_cases hp : p.team = m
      · simp [hp, e]
      · simp [hp]
  have := C113_rows g g ps (ps.filter fun p => p.team ≠ n) ts h hnames hcolors fun m => by
    rw [key]
    split <;> simp
  rw [show g.reorder g = g from rfl] at this
  rw [this]
  congr 1
  refine List.filter_congr fun t ht => ?_
  rw [key]
  by_cases e : t.name = n
  · simp [e]
  · obtain ⟨_, _, hne, _⟩ := mem_teams g h ht
    have hne : members t.name ps ≠ [] := hne
    simp [e, hne]

/-- C113: grouping the players that are listed under the teams again gives the same teams. -/
theorem C113_regroup (g o : Env) (ps : List Player) (ts : List Team) (h : teamsFromPlayers g ps = .ok ts)
    (hnames : (ts.map fun t => g.lowercase t.name).Nodup) (hcolors : ∀ t ∈ ts, Settled t.players) :
    teamsFromPlayers (g.reorder o) (ts.flatMap (·.players)) = .ok ts := by
  obtain ⟨h1, h2, _⟩ := C48_partition g ps ts h
  have key : ∀ (us : List Team), (∀ t ∈ us, ∀ p ∈ t.players, p.team = t.name) → (us.map (·.name)).Nodup → ∀ n,
      (∀ t ∈ us, t.name = n → members n (us.flatMap (·.players)) = t.players) ∧
      ((∀ t ∈ us, t.name ≠ n) → members n (us.flatMap (·.players)) = []) := by
    intro us
    induction us with
    | nil => exact fun _ _ n => ⟨fun _ ht => absurd ht (by simp), fun _ => rfl⟩
    | cons u us ih =>
      intro hu hnd n
      rw [List.map_cons, List.nodup_cons] at hnd
      obtain ⟨ih1, ih2⟩ := ih (fun t ht => hu t (by simp [ht])) hnd.2 n
      have e : members n ((u :: us).flatMap (·.players)) = members n u.players ++ members n (us.flatMap (·.players)) := by
        rw [List.flatMap_cons]; exact List.filter_append ..
      have own : u.name = n → members n u.players = u.players := fun en =>
        List.filter_eq_self.mpr fun p hp => by simp [hu u (by simp) p hp, en]
      have other : u.name ≠ n → members n u.players = [] := fun en =>
        List.filter_eq_nil_iff.mpr fun p hp => by simp [hu u (by simp) p hp, en]
      rw [e]
      refine ⟨fun t ht en => ?_, fun hall => ?_⟩
      · rcases List.mem_cons.mp ht with rfl | ht
        · rw [own en, ih2 fun v hv hvn => hnd.1 (List.mem_map.mpr ⟨v, hv, hvn.trans en.symm⟩), List.append_nil]
        · rw [other fun hun => hnd.1 (List.mem_map.mpr ⟨t, ht, en.trans hun.symm⟩), ih1 t ht en, List.nil_append]
      · rw [other (hall u (by simp)), ih2 fun t ht => hall t (by simp [ht])]
        rfl
  have key := key ts (fun t ht p hp => by
    rw [(h1 t ht).1] at hp
    simpa using (List.mem_filter.mp hp).2) h2
  have all : ∀ n, members n (ts.flatMap (·.players)) = members n ps := by
    intro n
    by_cases hn : ∃ t ∈ ts, t.name = n
    · obtain ⟨t, ht, rfl⟩ := hn
      rw [(key _).1 t ht rfl, (h1 t ht).1]
    · rw [(key n).2 fun t ht e => hn ⟨t, ht, e⟩]
      by_contra hne
      exact hn (team_of_player g h (Ne.symm hne))
  rw [C113_rows g o ps _ ts h hnames hcolors fun n => .inl (all n)]
  congr 1
  refine List.filter_eq_self.mpr fun t ht => ?_
  have : members t.name ps ≠ [] := by rw [← (h1 t ht).1]; exact (h1 t ht).2
  simp [all, this]

/-- C113: leaving players out of the match stats leaves them out of the ranking; the others keep their order. -/
theorem C113_ranking (stats : KtxStats) (keep : Str → Str → Bool) (l : List Player) (h : playersFromKtxstats stats = .ok l) :
    playersFromKtxstats { stats with players := stats.players.filter fun k => keep k.name k.team } =
      .ok (l.filter fun p => keep p.name p.team) := by
  obtain ⟨ps, l', hps, hl, h1, h2, h3⟩ := C44_from_stats stats
  rw [h] at hl
  cases hl
  refine C44_unique _ (ps.filter fun p => keep p.name p.team) _ ?_ ⟨h1.filter _, h2.filter _, fun group hg => ?_⟩
  · clear h h1 h2 h3
    show List.Forall₂ FromStats (stats.players.filter fun k => keep k.name k.team) _
    generalize stats.players = ks at hps
    induction hps with
    | nil => exact .nil
    | @cons k p ks ps hkp _ ih =>
      have e : keep k.name k.team = keep p.name p.team := by rw [hkp.1, hkp.2.1]
      rw [List.filter_cons, List.filter_cons, e]
      split
      · exact .cons hkp ih
      · exact ih
  · rw [List.filter_filter, List.filter_filter]
    have := h3 (fun p => group p && keep p.name p.team) fun a b ha hb => hg a b (by simp_all) (by simp_all)
    exact this

/-- C113: without the players of a team in the match stats the other teams are reported as with them. -/
theorem C113_stats (g : Env) (stats : KtxStats) (ts : List Team) (n : Str) (h : teamsFromKtxstats g stats = .ok ts)
    (hnames : (ts.map fun t => g.lowercase t.name).Nodup) (hcolors : ∀ t ∈ ts, Settled t.players) :
    teamsFromKtxstats g { stats with players := stats.players.filter fun k => k.team ≠ n } = .ok (ts.filter fun t => t.name ≠ n) := by
  obtain ⟨l, hl, ht, _⟩ := C48_stats g stats ts h
  unfold teamsFromKtxstats
  rw [C113_ranking stats (fun _ t => t ≠ n) l hl]
  exact C113_leave g l ts n ht hnames hcolors

/-- The hypotheses are met, see C52; here is what the theorems say of the example. -/
example : teamsFromPlayers Example.debug (Example.rosterTeams.flatMap (·.players)) = .ok Example.rosterTeams ∧
    Example.rosterTeams.flatMap (·.players) ≠ Example.roster ∧
    teamsFromPlayers Example.debug (Example.roster.filter fun p => p.team ≠ chars!"red") = .ok (Example.rosterTeams.take 1) := by
  decide +kernel

/-- `C113_row` for two rosters that have only the red team in common. -/
example : ∃ ts', teamsFromPlayers Example.release (Example.player chars!"z" chars!"green" (1, 1) 3 3 ::
      Example.roster.filter fun p => p.team = chars!"red") = .ok ts' ∧
    members chars!"red" (Example.player chars!"z" chars!"green" (1, 1) 3 3 :: Example.roster.filter fun p => p.team = chars!"red") =
      members chars!"red" Example.roster ∧
    ts'.map (·.name) = [chars!"green", chars!"red"] ∧ ts'.drop 1 = Example.rosterTeams.drop 1 :=
  ⟨_, rfl, by decide +kernel⟩

/-- `C113_ranking` and `C113_stats` for the match stats of C44. -/
example : playersFromKtxstats ⟨[], [], 0, Example.ktxPlayers.filter fun k => k.team ≠ chars!"red"⟩ =
      (playersFromKtxstats ⟨[], [], 0, Example.ktxPlayers⟩).bind (fun l => .ok (l.filter fun p => p.team ≠ chars!"red")) ∧
    (teamsFromKtxstats Example.release ⟨[], [], 0, Example.ktxPlayers.filter fun k => k.team ≠ chars!"red"⟩).bind
      (fun ts => .ok (ts.map (·.name))) = .ok [chars!"blue"] := by
  decide +kernel

/-- Order within a team can matter: the first of two players gives the color. -/
theorem C113_order_witness : ∃ a b : Player, ∃ ts ts', teamsFromPlayers Example.debug [a, b] = .ok ts ∧
    teamsFromPlayers Example.debug [b, a] = .ok ts' ∧ ts.map (·.color) ≠ ts'.map (·.color) :=
  ⟨Example.player chars!"a" chars!"red" (4, 4) 0 0, Example.player chars!"b" chars!"red" (3, 3) 0 0, _, _, rfl, rfl, by decide +kernel⟩

end Mvd

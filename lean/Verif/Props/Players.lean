import Verif.Lemmas.Players
import Verif.Props.Ktxstats
import Verif.Props.Frags
import Verif.Props.Ping

/-! C43–C47. -/

namespace Spec
open Mvd

/-- Higher on the score board: more frags, or as many and an earlier name. -/
def Outranks (p q : Player) : Prop := q.frags < p.frags ∨ (p.frags = q.frags ∧ Before p.name q.name)

/-- What becomes of a player of the match stats. -/
def FromStats (k : KtxPlayer) (p : Player) : Prop :=
  p.name = k.name ∧ p.team = k.team ∧ p.frags = k.frags ∧
  (p.color.1 : Int) = k.topColor % 256 ∧ (p.color.2 : Int) = k.bottomColor % 256 ∧
  (p.ping : Int) = k.ping % 2 ^ 32 ∧ (p.isBot = true ↔ k.bot = true ∨ k.ping = 10) ∧
  p.authUsername = (if k.login = [] then none else some k.login) ∧ p.authCc = none

/-- What becomes of a client, given frags by name and pings by number. -/
def FromClient (frags : Str → Option Int) (pings : UInt8 → Option Nat) (c : Client) (p : Player) : Prop :=
  p.name = c.name ∧ p.team = c.team ∧ p.color = c.color ∧ p.isBot = c.isBot ∧
  p.authUsername = c.authUsername ∧ p.authCc = c.authCc ∧
  p.frags = (frags c.name).getD 0 ∧ p.ping = (pings (UInt8.ofNat c.number)).getD 0

end Spec

namespace Mvd
open Spec

/-! ### C43 -/

/-- C43: players come from the match stats when these can be read and parsed. -/
theorem C43_from_stats (g : Env) (data : Bytes) (stats : KtxStats) (h : ktxstatsV3 g data = .ok stats) :
    players g data = playersFromKtxstats stats := by
  unfold players
  rw [h]

/-- C43: and otherwise from the demo's messages. -/
theorem C43_from_messages (g : Env) (data : Bytes) (e : Err) (h : ktxstatsV3 g data = .err e) :
    players g data = playersFromParsing g data := by
  unfold players
  rw [h]

/-- C43: a panic while reading the match stats is a panic. -/
theorem C43_panic (g : Env) (data : Bytes) (h : ktxstatsV3 g data = .panic) : players g data = .panic := by
  unfold players
  rw [h]

/-! ### C47 -/

/-- C47: the conversion of a player of the match stats. -/
theorem C47_conversion (k : KtxPlayer) : FromStats k (Player.ofKtx k) := by
  refine ⟨rfl, rfl, rfl, ?_, ?_, ?_, ?_, ?_, rfl⟩
  · show ((k.topColor % 256).toNat : Int) = _
    omega
  · show ((k.bottomColor % 256).toNat : Int) = _
    omega
  · show ((k.ping % 2 ^ 32).toNat : Int) = _
    omega
  · simp [Player.ofKtx, BOT_PING]
  · show (if !k.login.isEmpty then some k.login else none) = _
    cases k.login <;> rfl

/-- C47: and nothing else is said about a player. -/
theorem C47_unique (k : KtxPlayer) (p q : Player) (hp : FromStats k p) (hq : FromStats k q) : p = q := by
  obtain ⟨n, t, ⟨c1, c2⟩, f, pi, b, a, cc⟩ := p
  obtain ⟨n', t', ⟨c1', c2'⟩, f', pi', b', a', cc'⟩ := q
  simp only [FromStats] at hp hq
  obtain ⟨h1, h2, h3, h4, h5, h6, h7, h8, h9⟩ := hp
  obtain ⟨k1, k2, k3, k4, k5, k6, k7, k8, k9⟩ := hq
  have e4 : c1 = c1' := by omega
  have e5 : c2 = c2' := by omega
  have e6 : pi = pi' := by omega
  have e7 : b = b' := by rw [← k7] at h7; exact Bool.eq_iff_iff.mpr h7
  subst h1 h2 h3 k1 k2 k3 e4 e5 e6 e7 h8 k8 h9 k9
  rfl

namespace Example

/-- A bot entry, a bot by ping, and a human with negative values. -/
def ktxPlayers : List KtxPlayer := [
  { name := chars!"bot", team := chars!"red", topColor := 4, bottomColor := 4, frags := 7, ping := 10, bot := false, login := [] },
  { name := chars!"alice", team := chars!"blue", topColor := 300, bottomColor := -1, frags := -2, ping := -1, bot := false,
    login := chars!"al" },
  { name := chars!"bob", team := chars!"blue", topColor := 3, bottomColor := 13, frags := 7, ping := 26, bot := true, login := [] }]

end Example

example : (Example.ktxPlayers.map Player.ofKtx) = [
    { name := chars!"bot", team := chars!"red", color := (4, 4), frags := 7, ping := 10, isBot := true, authUsername := none, authCc := none },
    { name := chars!"alice", team := chars!"blue", color := (44, 255), frags := -2, ping := 4294967295, isBot := false,
      authUsername := some chars!"al", authCc := none },
    { name := chars!"bob", team := chars!"blue", color := (3, 13), frags := 7, ping := 26, isBot := true, authUsername := none, authCc := none }]
    := by decide

/-! ### C44 -/

theorem outranks_weak : WeakOrder Outranks where
  irrefl a h := by
    rcases h with h | ⟨_, h⟩
    · omega
    · exact before_irrefl _ h
  asymm a b h h' := by
    rcases h with h | ⟨_, h⟩ <;> rcases h' with h' | ⟨_, h'⟩
    · omega
    · omega
    · omega
    · exact before_asymm h h'
  trans a b c h h' := by
    rintro (hc | ⟨e, hc⟩)
    · apply h
      have : ¬ b.frags < c.frags := fun hl => h' (.inl hl)
      exact .inl (by omega)
    · have h1 : ¬ b.frags < c.frags := fun hl => h' (.inl hl)
      have h2 : ¬ a.frags < b.frags := fun hl => h (.inl hl)
      have e1 : b.frags = a.frags := by omega
      have e2 : c.frags = b.frags := by omega
      have n1 : ¬ Before b.name a.name := fun hb => h (.inr ⟨e1, hb⟩)
      have n2 : ¬ Before c.name b.name := fun hb => h' (.inr ⟨e2, hb⟩)
      rcases before_total a.name b.name with ha | ha | ha
      · rw [ha] at hc; exact n2 hc
      · exact n2 (before_trans hc ha)
      · exact n1 ha

theorem playerCmp_gt (a b : Player) : playerCmp a b = .gt ↔ Outranks b a := by
  unfold playerCmp Outranks
  rcases Int.lt_trichotomy b.frags a.frags with h | h | h
  · have : compare b.frags a.frags = .lt := compare_lt_iff_lt.mpr h
    rw [this]
    simp only [Ordering.then, reduceCtorEq, false_iff]
    rintro (h' | ⟨h', _⟩) <;> omega
  · have : compare b.frags a.frags = .eq := compare_eq_iff_eq.mpr h
    rw [this]
    simp only [Ordering.then]
    rw [strCmp_gt_iff]
    constructor
    · exact fun hb => .inr ⟨h, hb⟩
    · rintro (h' | ⟨_, hb⟩)
      · omega
      · exact hb
  · have : compare b.frags a.frags = .gt := compare_gt_iff_gt.mpr h
    rw [this]
    simp only [Ordering.then, true_iff]
    exact .inl h

/-- C44: from match stats, every player of the stats is listed once, ranked, and ties on both frags and name keep the
order of the stats. -/
theorem C44_from_stats (stats : KtxStats) :
    ∃ ps l, List.Forall₂ FromStats stats.players ps ∧ playersFromKtxstats stats = .ok l ∧ StablySorted Outranks ps l := by
  refine ⟨stats.players.map Player.ofKtx, _, ?_, rfl, sortBy_stable outranks_weak playerCmp_gt _⟩
  induction stats.players with
  | nil => exact .nil
  | cons k ks ih => exact .cons (C47_conversion k) ih

/-- C44: the ranking is the only one that keeps ties in order, so any stable sort gives the same list. -/
theorem C44_unique (stats : KtxStats) (ps l : List Player) (hps : List.Forall₂ FromStats stats.players ps)
    (h : StablySorted Outranks ps l) : playersFromKtxstats stats = .ok l := by
  obtain ⟨ps', l', hps', hl, hs⟩ := C44_from_stats stats
  have : ps' = ps := by
    clear hl hs h
    generalize stats.players = ks at hps hps'
    induction hps generalizing ps' with
    | nil => cases hps'; rfl
    | cons h1 _ ih =>
      cases hps' with
      | cons h2 ht =>
        rw [ih _ ht, C47_unique _ _ _ h1 h2]
  subst this
  rw [hl, stablySorted_unique outranks_weak hs h]

/-- C44: the players are ranked, wherever they come from. -/
theorem C44_ranked (g : Env) (data : Bytes) (l : List Player) (h : players g data = .ok l) (i j : Nat)
    (hij : i < j) (hj : j < l.length) :
    l[j].frags < l[i].frags ∨
      (l[i].frags = l[j].frags ∧ (Before l[i].name l[j].name ∨ l[i].name = l[j].name)) := by
  have key : l.Pairwise (fun a b => ¬ Outranks b a) := by
    unfold players at h
    split at h
    · cases h
      exact sortBy_sorted outranks_weak playerCmp_gt _
    · unfold playersFromParsing at h
      cases hc : clients g data with
      | ok cs =>
        rw [hc] at h
        simp only [R.bind] at h
        split at h
        · split at h
          · cases h
            exact sortBy_sorted outranks_weak playerCmp_gt _
          all_goals cases h
        all_goals cases h
      | err e => rw [hc] at h; cases h
      | panic => rw [hc] at h; cases h
      | hang => rw [hc] at h; cases h
    · cases h
    · cases h
  have := List.pairwise_iff_getElem.mp key i j (by omega) hj hij
  have h1 : ¬ l[i].frags < l[j].frags := fun hl => this (.inl hl)
  by_cases h2 : l[j].frags < l[i].frags
  · exact .inl h2
  · have e : l[i].frags = l[j].frags := by omega
    refine .inr ⟨e, ?_⟩
    rcases before_total l[i].name l[j].name with h | h | h
    · exact .inr h
    · exact .inl h
    · exact absurd (.inr ⟨e.symm, h⟩) this

example : playersFromKtxstats ⟨[], [], 0, Example.ktxPlayers⟩ = .ok
    ([chars!"bob", chars!"bot", chars!"alice"].filterMap fun n => (Example.ktxPlayers.map Player.ofKtx).find? (·.name = n)) ∧
    strCmp chars!"bob" chars!"bot" = .lt := by decide

/-! ### C45 -/

/-- C45: from the demo's messages: the clients that are no spectators, the last one of each number, ranked. -/
theorem C45_from_messages (g : Env) (data : Bytes) (cs : List Client) (pings : Map UInt8 Nat) (frags : Map Str Int)
    (hc : clients g data = .ok cs) (hp : pingPerPlayerNumber g data = .ok pings) (hf : fragsPerPlayerName g data = .ok frags) :
    ∃ ps l, List.Forall₂ (FromClient frags.get pings.get) (latest (·.number) (cs.filter fun c => c.isSpectator = false)) ps ∧
      playersFromParsing g data = .ok l ∧ l.Perm ps ∧ l.Pairwise fun a b => ¬ Outranks b a := by
  have hfl : (cs.filter fun c => !c.isSpectator) = cs.filter fun c => c.isSpectator = false := by
    congr 1
    funext c
    cases c.isSpectator <;> rfl
  have e : playersFromParsing g data = .ok (sortBy playerCmp ((g.order 1 ((cs.filter fun c => !c.isSpectator).foldl
      (fun pmap c => Map.set pmap c.number (playerOfClient frags pings c)) [])).map (·.2))) := by
    unfold playersFromParsing
    rw [hc, hp, hf]
    rfl
  refine ⟨(latest (·.number) (cs.filter fun c => c.isSpectator = false)).map (playerOfClient frags pings), _, ?_, e,
    ?_, sortBy_sorted outranks_weak playerCmp_gt _⟩
  · generalize latest (·.number) (cs.filter fun c => c.isSpectator = false) = l
    induction l with
    | nil => exact .nil
    | cons c l ih => exact .cons ⟨rfl, rfl, rfl, rfl, rfl, rfl, rfl, rfl⟩ ih
  · refine (sortBy_perm _ _).trans ?_
    refine (List.Perm.map _ (g.order_perm 1 _)).trans ?_
    have := (foldl_set_perm (fun c : Client => c.number) (playerOfClient frags pings) (cs.filter fun c => !c.isSpectator)).map
      (fun e : Nat × Player => e.2)
    rw [hfl] at this
    simp only [List.map_map] at this
    rw [hfl]
    exact this

/-- C45: with at most 256 clients these are all the clients that are no spectators. -/
theorem C45_all (g : Env) (data : Bytes) (cs : List Client) (hc : clients g data = .ok cs) (hl : cs.length ≤ 256) :
    latest (·.number) (cs.filter fun c => c.isSpectator = false) = cs.filter fun c => c.isSpectator = false := by
  obtain ⟨_, _, _, _, hnd, _⟩ := C20_client_numbers g data cs hc
  refine latest_of_nodup _ _ ?_
  have := hnd hl
  exact List.Sublist.nodup ((List.filter_sublist).map _) this

/-- C45: it fails exactly when one of the parts fails, with the first failure. -/
theorem C45_failure (g : Env) (data : Bytes) :
    (∀ e, clients g data = .err e → playersFromParsing g data = .err e) ∧
    (∀ cs e, clients g data = .ok cs → pingPerPlayerNumber g data = .err e → playersFromParsing g data = .err e) ∧
    (∀ l, playersFromParsing g data = .ok l → ∃ cs pings frags, clients g data = .ok cs ∧
      pingPerPlayerNumber g data = .ok pings ∧ fragsPerPlayerName g data = .ok frags) := by
  unfold playersFromParsing
  refine ⟨?_, ?_, ?_⟩
  · intro e h; rw [h]; rfl
  · intro cs e h h'; rw [h, h']; rfl
  · intro l h
    cases hc : clients g data with
    | ok cs =>
      rw [hc] at h
      simp only [R.bind] at h
      cases hp : pingPerPlayerNumber g data with
      | ok pings =>
        rw [hp] at h
        simp only at h
        cases hf : fragsPerPlayerName g data with
        | ok frags => exact ⟨cs, pings, frags, rfl, rfl, rfl⟩
        | err e => rw [hf] at h; cases h
        | panic => rw [hf] at h; cases h
        | hang => rw [hf] at h; cases h
      | err e => rw [hp] at h; cases h
      | panic => rw [hp] at h; cases h
      | hang => rw [hp] at h; cases h
    | err e => rw [hc] at h; cases h
    | panic => rw [hc] at h; cases h
    | hang => rw [hc] at h; cases h

namespace Example

/-- Three clients, their pings, two frags and a suicide. -/
def scoreFrames : List Frame := [teamFrame, all (ping 0 25 0 ++ ping 2 44 1), all (medium bytes!"c was gibbed by a's rocket\n"),
  all (medium bytes!"a was gibbed by c's rocket\n"), all (medium bytes!"b suicides\n")]

end Example

/-- The hypotheses of `C45_from_messages` are met. -/
example : players Example.debug (Spec.encode Example.scoreFrames) = .ok [
    { name := chars!"a", team := chars!"red", color := (0, 0), frags := 1, ping := 25, isBot := false, authUsername := none, authCc := none },
    { name := chars!"c", team := chars!"blue", color := (0, 0), frags := 1, ping := 300, isBot := false, authUsername := none, authCc := none },
    { name := chars!"b", team := chars!"red", color := (0, 0), frags := -2, ping := 0, isBot := false, authUsername := none, authCc := none }] ∧
    clients Example.debug (Spec.encode Example.scoreFrames) = .ok Example.team ∧
    pingPerPlayerNumber Example.debug (Spec.encode Example.scoreFrames) = .ok [(0, 25), (2, 300)] ∧
    fragsPerPlayerName Example.debug (Spec.encode Example.scoreFrames) =
      .ok [(chars!"a", 1), (chars!"c", 1), (chars!"b", -2)] ∧
    Example.team.length ≤ 256 ∧
    ktxstatsV3 Example.debug (Spec.encode Example.scoreFrames) = .err .ktxstatsNotFound := by decide +kernel

/-! ### C46 -/

/-- C46: the players do not depend on the iteration order of hash maps unless two share both name and frags. -/
theorem C46_deterministic (g o : Env) (data : Bytes) (l : List Player) (h : players g data = .ok l)
    (hties : l.Pairwise fun p q => ¬ (p.name = q.name ∧ p.frags = q.frags)) : players (g.reorder o) data = .ok l := by
  have hl : l.Pairwise fun p q => Outranks p q ∨ Outranks q p := by
    refine hties.imp ?_
    intro p q hn
    rcases Int.lt_trichotomy p.frags q.frags with h | h | h
    · exact .inr (.inl h)
    · rcases before_total p.name q.name with hb | hb | hb
      · exact absurd ⟨hb, h⟩ hn
      · exact .inl (.inr ⟨h, hb⟩)
      · exact .inr (.inr ⟨h.symm, hb⟩)
    · exact .inl (.inl h)
  unfold players at h ⊢
  rw [ktxstatsV3_reorder]
  cases hk : ktxstatsV3 g data with
  | ok stats => rw [hk] at h; exact h
  | panic => rw [hk] at h; cases h
  | hang => rw [hk] at h; cases h
  | err e =>
    rw [hk] at h
    simp only at h ⊢
    obtain ⟨cs, pings, frags, hc, hp, hf⟩ := (C45_failure g data).2.2 l h
    rcases ping_reorder g o data with ⟨m, m', hm, hm', hg⟩ | ⟨hn, _⟩
    · rw [hm] at hp
      cases hp
      unfold playersFromParsing at h ⊢
      rw [clients_reorder, frags_reorder, hm', hc, hf]
      rw [hc, hf, hm] at h
      simp only [R.bind, R.ok.injEq] at h ⊢
      have hpl : playerOfClient frags m' = playerOfClient frags pings := by
        funext c
        unfold playerOfClient
        rw [hg]
      rw [hpl]
      rw [← h] at hl ⊢
      refine (sortBy_order outranks_weak playerCmp_gt ?_ ?_).symm
      · exact (List.Perm.map _ (g.order_perm 1 _)).trans (List.Perm.map _ (o.order_perm 1 _)).symm
      · exact hl.perm (sortBy_perm _ _) fun h => h.symm
    · exact absurd hp (hn _)

/-- C46: a failure does not depend on the iteration order either. -/
theorem C46_failure (g o : Env) (data : Bytes) (hn : ∀ l, players g data ≠ .ok l) :
    players (g.reorder o) data = players g data := by
  unfold players at hn ⊢
  rw [ktxstatsV3_reorder]
  cases hk : ktxstatsV3 g data with
  | ok stats => rfl
  | panic => rfl
  | hang => rfl
  | err e =>
    rw [hk] at hn
    simp only at hn ⊢
    unfold playersFromParsing at hn ⊢
    rw [clients_reorder, frags_reorder]
    cases hc : clients g data with
    | ok cs =>
      rw [hc] at hn
      simp only [R.bind] at hn ⊢
      rcases ping_reorder g o data with ⟨m, m', hm, hm', hg⟩ | ⟨hno, he⟩
      · rw [hm, hm']
        rw [hm] at hn
        simp only at hn ⊢
        cases hf : fragsPerPlayerName g data with
        | ok frags => rw [hf] at hn; exact absurd rfl (hn _)
        | err e => rfl
        | panic => rfl
        | hang => rfl
      · rw [← he]
        cases hp : pingPerPlayerNumber g data with
        | ok m => exact absurd hp (hno m)
        | err e => rfl
        | panic => rfl
        | hang => rfl
    | err e => rfl
    | panic => rfl
    | hang => rfl

/-- The hypothesis of `C46_deterministic` is met. -/
example : players Example.other (Spec.encode Example.scoreFrames) = players Example.debug (Spec.encode Example.scoreFrames) := by
  decide +kernel

namespace Example

/-- Two clients of the same name in different teams. -/
def tieFrames : List Frame := [all (spawnCommand ++ [0] ++ bytes!"\\name\\a\\team\\red" ++ [0, 0] ++
  bytes!"\\name\\a\\team\\blue" ++ [0] ++ List.replicate 600 10), all (ping 0 25 0)]

end Example

/-- C46: two runs may differ when name and frags are shared. -/
theorem C46_witness : ∃ g o data, players g data ≠ players (Env.reorder g o) data ∧
    ∃ l l', players g data = .ok l ∧ players (Env.reorder g o) data = .ok l' ∧ l.Perm l' := by
  refine ⟨Example.release, Example.other, Spec.encode Example.tieFrames, by decide +kernel, ?_⟩
  refine ⟨[⟨chars!"a", chars!"red", (0, 0), 0, 25, false, none, none⟩, ⟨chars!"a", chars!"blue", (0, 0), 0, 0, false, none, none⟩],
    [⟨chars!"a", chars!"blue", (0, 0), 0, 0, false, none, none⟩, ⟨chars!"a", chars!"red", (0, 0), 0, 25, false, none, none⟩],
    by decide +kernel, by decide +kernel, List.Perm.swap _ _ _⟩

end Mvd

import Verif.Lemmas.Teams
import Verif.Lemmas.Rounding
import Verif.Props.Players

/-! C48–C52. -/

namespace Spec
open Mvd

/-- The players whose team is `t`, in the given order. -/
def members (t : Str) (ps : List Player) : List Player := ps.filter fun p => p.team = t

/-- The sum of the players' frags. -/
def totalFrags (ps : List Player) : Int := (ps.map (·.frags)).sum

/-- The sum of the players' pings. -/
def totalPing (ps : List Player) : Nat := (ps.map (·.ping)).sum

/-- How many of the players wear a color. -/
def wearing (c : Nat × Nat) (ps : List Player) : Nat := (ps.filter fun p => p.color = c).length

/-- Adding up the players exceeds a 32-bit number or an 8-bit color counter. -/
def Overflows (ps : List Player) : Prop :=
  (∃ k, k ≤ ps.length ∧ (totalFrags (ps.take k) < -2147483648 ∨ 2147483647 < totalFrags (ps.take k))) ∨
  4294967295 < totalPing ps ∨ ∃ c, 255 < wearing c ps

/-- The color of the team is not up to chance: at most two players, or a color worn by more players than any other
(and no color so often that its 8-bit counter wraps). -/
def Settled (ps : List Player) : Prop :=
  ps.length ≤ 2 ∨ ((∀ c, wearing c ps ≤ 255) ∧ ∃ c, ∀ d, d ≠ c → wearing d ps < wearing c ps)

end Spec

namespace Mvd
open Spec

theorem wearing_eq (c : Nat × Nat) (ps : List Player) : wearing c ps = (ps.map (·.color)).count c := by
  unfold wearing
  induction ps with
  | nil => rfl
  | cons p ps ih =>
    rw [List.map_cons, List.count_cons, ← ih, List.filter_cons]
    by_cases h : p.color = c <;> simp [h]

theorem mem_zipIdx_of_mem {α : Type} {l : List α} {a : α} (h : a ∈ l) : ∃ i, (a, i) ∈ l.zipIdx := by
  obtain ⟨i, hi, e⟩ := List.mem_iff_getElem.mp h
  exact ⟨i, List.mem_zipIdx_iff_getElem?.mpr (by rw [List.getElem?_eq_getElem hi, e])⟩

/-! ### C48 -/

/-- C48: every team has the players that name it, in the order given, and is not empty; team names are pairwise
different; every player has a team. -/
theorem C48_partition (g : Env) (ps : List Player) (ts : List Team) (h : teamsFromPlayers g ps = .ok ts) :
    (∀ t ∈ ts, t.players = members t.name ps ∧ t.players ≠ []) ∧ (ts.map (·.name)).Nodup ∧
    ∀ p ∈ ps, ∃ t ∈ ts, p ∈ t.players ∧ ∀ t' ∈ ts, p ∈ t'.players → t' = t := by
  have hn : (ts.map (·.name)).Nodup := (teams_names g h).nodup_iff.mpr (teamMap_nodup ps)
  have ht : ∀ t ∈ ts, t.players = members t.name ps ∧ t.players ≠ [] := by
    intro t ht
    obtain ⟨_, _, hne, hp⟩ := mem_teams g h ht
    rw [hp]
    exact ⟨rfl, hne⟩
  refine ⟨ht, hn, ?_⟩
  intro p hp
  have hm : p ∈ members p.team ps := List.mem_filter.mpr ⟨hp, by simp⟩
  have hk : p.team ∈ (teamMap ps).keys :=
    List.mem_map.mpr ⟨(p.team, membersOf ps p.team), mem_teamMap.mpr ⟨List.ne_nil_of_mem hm, rfl⟩, rfl⟩
  obtain ⟨t, htm, e⟩ := List.mem_map.mp ((teams_names g h).mem_iff.mpr hk)
  refine ⟨t, htm, ?_, ?_⟩
  · rw [(ht t htm).1, e]; exact hm
  · intro t' ht' hp'
    rw [(ht t' ht').1] at hp'
    have hte : t'.name = t.name := by
      have : p.team = t'.name := by simpa using (List.mem_filter.mp hp').2
      rw [← this, e]
    exact List.inj_on_of_nodup_map hn ht' htm hte

/-- C48: put together, the teams have exactly the players. -/
theorem C48_all (g : Env) (ps : List Player) (ts : List Team) (h : teamsFromPlayers g ps = .ok ts) :
    (ts.flatMap (·.players)).Perm ps := by
  obtain ⟨h1, h2, h3⟩ := C48_partition g ps ts h
  have hname : ∀ p ∈ ps, p.team ∈ ts.map (·.name) := by
    intro p hp
    obtain ⟨t, ht, hpt, _⟩ := h3 p hp
    rw [(h1 t ht).1] at hpt
    refine List.mem_map.mpr ⟨t, ht, ?_⟩
    exact (by simpa using (List.mem_filter.mp hpt).2 : p.team = t.name).symm
  have e : ts.flatMap (·.players) = (ts.map (·.name)).flatMap fun t => members t ps := by
    rw [List.flatMap_map]
    exact List.flatMap_congr fun t ht => (h1 t ht).1
  rw [e]
  generalize ts.map (·.name) = names at h2 hname
  clear e h h1 h3
  induction names generalizing ps with
  | nil =>
    cases ps with
    | nil => exact List.Perm.refl _
    | cons p ps => have := hname p (by simp); simp at this
  | cons t names ih =>
    rw [List.nodup_cons] at h2
    rw [List.flatMap_cons]
    have hrest := ih (ps.filter fun p => !decide (p.team = t)) h2.2 (by
      intro p hp
      obtain ⟨hp1, hp2⟩ := List.mem_filter.mp hp
      rcases List.mem_cons.mp (hname p hp1) with h | h
      · simp [h] at hp2
      · exact h)
    have e : (names.flatMap fun t' => members t' (ps.filter fun p => !decide (p.team = t))) =
        names.flatMap fun t' => members t' ps := by
      refine List.flatMap_congr fun t' ht' => ?_
      have hne : t' ≠ t := fun e => h2.1 (e ▸ ht')
      unfold members
      rw [List.filter_filter]
      refine List.filter_congr fun p _ => ?_
      by_cases hpt : p.team = t'
      · simp [hpt, hne]
      · simp [hpt]
    rw [e] at hrest
    exact (hrest.append_left _).trans (List.filter_append_perm (fun p : Player => decide (p.team = t)) ps)

/-- C48: the teams of a demo are made of its players and the teams of match stats of the players of the stats, all of them and
nobody else. -/
theorem C48_demo (g : Env) (data : Bytes) (ts : List Team) (h : teams g data = .ok ts) :
    ∃ ps, players g data = .ok ps ∧ teamsFromPlayers g ps = .ok ts ∧ (ts.flatMap (·.players)).Perm ps := by
  unfold teams at h
  cases hp : players g data with
  | ok ps =>
    rw [hp] at h
    exact ⟨ps, rfl, h, C48_all g ps ts h⟩
  | _ => rw [hp] at h; simp [R.bind] at h

/-- C48: likewise. -/
theorem C48_stats (g : Env) (stats : KtxStats) (ts : List Team) (h : teamsFromKtxstats g stats = .ok ts) :
    ∃ ps, playersFromKtxstats stats = .ok ps ∧ teamsFromPlayers g ps = .ok ts ∧ (ts.flatMap (·.players)).Perm ps := by
  unfold teamsFromKtxstats at h
  cases hp : playersFromKtxstats stats with
  | ok ps =>
    rw [hp] at h
    exact ⟨ps, rfl, h, C48_all g ps ts h⟩
  | _ => rw [hp] at h; simp [R.bind] at h

namespace Example

/-- A player. -/
def player (name team : Str) (color : Nat × Nat) (frags : Int) (ping : Nat) : Player :=
  { name := name, team := team, color := color, frags := frags, ping := ping, isBot := false, authUsername := none, authCc := none }

/-- Five players in two teams. -/
def roster : List Player := [
  player chars!"a" chars!"red" (4, 4) 30 25, player chars!"b" chars!"Blue" (13, 13) 20 13, player chars!"c" chars!"red" (3, 4) 10 52,
  player chars!"d" chars!"red" (4, 4) 5 12, player chars!"e" chars!"Blue" (12, 13) (-2) 14]

/-- Their teams. -/
def rosterTeams : List Team := [
  { name := chars!"Blue", color := (13, 13), frags := 18, ping := 14,
    players := [player chars!"b" chars!"Blue" (13, 13) 20 13, player chars!"e" chars!"Blue" (12, 13) (-2) 14] },
  { name := chars!"red", color := (4, 4), frags := 45, ping := 30,
    players := [player chars!"a" chars!"red" (4, 4) 30 25, player chars!"c" chars!"red" (3, 4) 10 52,
      player chars!"d" chars!"red" (4, 4) 5 12] }]

end Example

/-- The hypothesis of the theorems of this file is met. -/
theorem roster_teams : teamsFromPlayers Example.debug Example.roster = .ok Example.rosterTeams := by decide +kernel

/-- Match stats with three players in two teams; one ping is negative and wraps. -/
example : ∃ ts, teamsFromKtxstats Example.release ⟨[], [], 0, Example.ktxPlayers⟩ = .ok ts ∧
    ts.map (fun t => (t.name, t.players.map (·.name))) = [(chars!"blue", [chars!"bob", chars!"alice"]), (chars!"red", [chars!"bot"])] :=
  ⟨_, rfl, by decide +kernel⟩

/-! ### C49 -/

/-- C49: team frags and ping. `mean - 1/2 < …`: the ping is the mean rounded to the nearest number, halves up. The
restriction on the pings (their sum is below 2^23 ms) keeps the 32-bit float quotient on the right side of .5. -/
theorem C49_totals (g : Env) (ps : List Player) (ts : List Team) (h : teamsFromPlayers g ps = .ok ts) (t : Team) (ht : t ∈ ts) :
    (-2147483648 ≤ totalFrags t.players → totalFrags t.players ≤ 2147483647 → t.frags = totalFrags t.players) ∧
    (totalPing t.players < 2 ^ 23 →
      (t.ping : ℚ) ≤ (totalPing t.players : ℚ) / t.players.length + 1 / 2 ∧
      (totalPing t.players : ℚ) / t.players.length + 1 / 2 < t.ping + 1) := by
  obtain ⟨seed, ho, hne, hp⟩ := mem_teams g h ht
  obtain ⟨first, hf, hft⟩ := head_members hne
  obtain ⟨r, c, hr, _, _, _, hfr, hpi, _⟩ := ofPlayers_ok g _ hf ho
  obtain ⟨hv1, hv2⟩ := totals_value g hr
  rw [hp]
  constructor
  · intro h1 h2
    rw [hfr]
    refine hv1 ⟨?_, ?_⟩
    · unfold totalFrags at h1; norm_num; exact h1
    · unfold totalFrags at h2; norm_num; omega
  · intro h1
    have hr2 : r.2 = totalPing (membersOf ps t.name) := hv2 (by unfold totalPing at h1; omega)
    have hn : 0 < (membersOf ps t.name).length := List.length_pos_iff.mpr hne
    rw [hr2, f32_mean h1 hn] at hpi
    generalize totalPing (membersOf ps t.name) = s at *
    generalize (membersOf ps t.name).length = n at *
    have hlow : t.ping * (2 * n) ≤ 2 * s + n := hpi ▸ Nat.div_mul_le_self _ _
    have hup : 2 * s + n < t.ping * (2 * n) + 2 * n := hpi ▸ Nat.lt_div_mul_add (by omega)
    have hl : (t.ping : ℚ) * (2 * n) ≤ 2 * s + n := by exact_mod_cast hlow
    have hu : (2 : ℚ) * s + n < t.ping * (2 * n) + 2 * n := by exact_mod_cast hup
    have hnq : (0 : ℚ) < n := by exact_mod_cast hn
    have e : (s : ℚ) / n + 1 / 2 = (2 * s + n) / (2 * n) := by field_simp
    rw [e, le_div_iff₀ (by positivity), div_lt_iff₀ (by positivity)]
    constructor <;> linarith

/-- C49: the ping of a team for any pings: the sum and the number of players are converted to single precision, divided in
single precision (each time rounding to nearest, ties to even) and rounded to a whole number, halves up. The result is cut
at the largest 32-bit number. -/
theorem C49_ping (g : Env) (ps : List Player) (ts : List Team) (h : teamsFromPlayers g ps = .ok ts) (t : Team) (ht : t ∈ ts)
    (hlt : totalPing t.players < 2 ^ 32) :
    ∃ a b q : ℚ, NearestEven Single EvenSingle (totalPing t.players) a ∧ NearestEven Single EvenSingle t.players.length b ∧
      NearestEven Single EvenSingle (a / b) q ∧
      (q + 1 / 2 < 2 ^ 32 → (t.ping : ℚ) ≤ q + 1 / 2 ∧ q + 1 / 2 < t.ping + 1) ∧
      (2 ^ 32 ≤ q + 1 / 2 → t.ping = 2 ^ 32 - 1) := by
  obtain ⟨seed, ho, hne, hp⟩ := mem_teams g h ht
  obtain ⟨first, hf, hft⟩ := head_members hne
  obtain ⟨r, c, hr, _, _, _, _, hpi, _⟩ := ofPlayers_ok g _ hf ho
  rw [hp] at hlt ⊢
  have hr2 : r.2 = totalPing (membersOf ps t.name) := (totals_value g hr).2 (by unfold totalPing at hlt; exact hlt)
  rw [hr2] at hpi
  generalize totalPing (membersOf ps t.name) = s at *
  generalize (membersOf ps t.name).length = n at *
  have hs : (0 : ℚ) ≤ s := by positivity
  have hn : (0 : ℚ) ≤ n := by positivity
  have hd : 0 ≤ natAsF32 s / natAsF32 n := div_nonneg (f32Round_nonneg hs) (f32Round_nonneg hn)
  have hq : 0 ≤ f32Div (natAsF32 s) (natAsF32 n) := f32Round_nonneg hd
  refine ⟨natAsF32 s, natAsF32 n, f32Div (natAsF32 s) (natAsF32 n), f32Round_nearestEven hs, f32Round_nearestEven hn,
    f32Round_nearestEven hd, ?_⟩
  generalize f32Div (natAsF32 s) (natAsF32 n) = q at *
  have hfl : (0 : ℤ) ≤ ⌊q + 1 / 2⌋ := Int.floor_nonneg.mpr (by linarith)
  have e : f32AsU32 (f32RoundHalfUp q) = min ⌊q + 1 / 2⌋.toNat (2 ^ 32 - 1) := by
    unfold f32AsU32 f32RoundHalfUp
    rw [Int.floor_intCast]
  rw [e] at hpi
  have h1 := Int.floor_le (q + 1 / 2)
  have h2 := Int.lt_floor_add_one (q + 1 / 2)
  generalize ⌊q + 1 / 2⌋ = z at *
  obtain ⟨k, rfl⟩ := Int.eq_ofNat_of_zero_le hfl
  rw [Int.toNat_natCast] at hpi
  push_cast at h1 h2
  constructor
  · intro hlt'
    have : k < 2 ^ 32 := by
      have : (k : ℚ) < 2 ^ 32 := lt_of_le_of_lt h1 hlt'
      exact_mod_cast this
    have : t.ping = k := by omega
    rw [this]
    exact ⟨h1, h2⟩
  · intro hge
    have : 2 ^ 32 ≤ k := by
      have : (2 ^ 32 : ℚ) < k + 1 := lt_of_le_of_lt hge h2
      have : 2 ^ 32 < k + 1 := by exact_mod_cast this
      omega
    omega

/-- C49: without overflow checks the totals are reduced to 32 bits, without any assumption on the players. -/
theorem C49_wraps (g : Env) (hc : g.checks = false) (ps : List Player) (ts : List Team) (h : teamsFromPlayers g ps = .ok ts)
    (t : Team) (ht : t ∈ ts) :
    -2147483648 ≤ t.frags ∧ t.frags ≤ 2147483647 ∧ ∃ k : Int, t.frags = totalFrags t.players + k * 4294967296 := by
  obtain ⟨seed, ho, hne, hp⟩ := mem_teams g h ht
  obtain ⟨first, hf, hft⟩ := head_members hne
  obtain ⟨r, c, hr, _, _, _, hfr, _, _⟩ := ofPlayers_ok g _ hf ho
  rw [totals_wrap g hc _ _ ⟨by decide, by decide⟩ (by decide)] at hr
  cases hr
  simp only [Int.zero_add] at hfr
  rw [hfr, hp]
  have e : ((membersOf ps t.name).map (·.frags)).sum = totalFrags (membersOf ps t.name) := rfl
  rw [e]
  generalize totalFrags (membersOf ps t.name) = s
  have h1 := Int.le_bmod (x := s) (m := 2 ^ 32) (by decide)
  have h2 := Int.bmod_lt (x := s) (m := 2 ^ 32) (by decide)
  refine ⟨by omega, by omega, ?_⟩
  obtain ⟨k, hk⟩ : (4294967296 : Int) ∣ Int.bmod s (2 ^ 32) - s := by
    have := Int.bmod_emod (x := s) (m := 2 ^ 32)
    omega
  exact ⟨k, by omega⟩

/-- C49: when no total leaves the 32-bit range, the teams have as many frags as the players. -/
theorem C49_conserved (g : Env) (ps : List Player) (ts : List Team) (h : teamsFromPlayers g ps = .ok ts)
    (hr : ∀ t ∈ ts, -2147483648 ≤ totalFrags t.players ∧ totalFrags t.players ≤ 2147483647) :
    (ts.map (·.frags)).sum = totalFrags ps := by
  have e : ts.map (·.frags) = ts.map fun t => totalFrags t.players :=
    List.map_congr_left fun t ht => (C49_totals g ps ts h t ht).1 (hr t ht).1 (hr t ht).2
  have hp := C48_all g ps ts h
  have hsum : ∀ ts : List Team, (ts.map fun t => totalFrags t.players).sum = totalFrags (ts.flatMap (·.players)) := by
    intro ts
    induction ts with
    | nil => rfl
    | cons t ts ih =>
      rw [List.map_cons, List.sum_cons, ih, List.flatMap_cons]
      unfold totalFrags
      rw [List.map_append, List.sum_append]
  rw [e, hsum]
  unfold totalFrags
  exact (hp.map _).sum_eq

theorem overflows_iff (ps : List Player) :
    Overflows ps ↔ ¬ TotalsFit (0, 0) ps ∨ ∃ c, 256 ≤ (ps.map (·.color)).count c := by
  unfold Overflows
  have hc : (∃ c, 255 < wearing c ps) ↔ ∃ c, 256 ≤ (ps.map (·.color)).count c := by
    refine exists_congr fun c => ?_
    rw [wearing_eq]
    omega
  rw [← or_assoc, hc]
  refine or_congr_left ?_
  unfold TotalsFit InI32
  constructor
  · rintro (⟨k, hk, h⟩ | h) ⟨h1, h2⟩
    · rcases Nat.eq_zero_or_pos k with rfl | hpos
      · simp [totalFrags] at h
      · have := h1 k hk hpos
        unfold totalFrags at h
        simp only [Int.zero_add] at this
        rw [show (2 : Int) ^ 31 = 2147483648 by norm_num] at this
        omega
    · rcases h2 with rfl | h2
      · simp [totalPing] at h
      · unfold totalPing at h
        simp only [Nat.zero_add] at h2
        omega
  · intro h
    by_contra hno
    simp only [not_or, not_exists, not_and, not_lt] at hno
    refine h ⟨?_, .inr ?_⟩
    · intro k hk _
      have := hno.1 k hk
      unfold totalFrags at this
      simp only [Int.zero_add]
      rw [show (2 : Int) ^ 31 = 2147483648 by norm_num]
      omega
    · have := hno.2
      unfold totalPing at this
      simp only [Nat.zero_add]
      omega

/-- C49: teams are made or there is a panic, the latter exactly when adding up a team's players overflows and overflow
checks are on. -/
theorem C49_outcome (g : Env) (ps : List Player) :
    ((∃ ts, teamsFromPlayers g ps = .ok ts) ∨ teamsFromPlayers g ps = .panic) ∧
    (teamsFromPlayers g ps = .panic ↔ g.checks = true ∧ ∃ p ∈ ps, Overflows (members p.team ps)) := by
  have hmemb : ∀ e ∈ g.order 2 (teamMap ps), ∃ p ∈ ps, p.team = e.1 ∧ e.2 = members p.team ps := by
    intro e he
    obtain ⟨hne, hm⟩ := mem_order he
    obtain ⟨first, hf, hft⟩ := head_members hne
    have : first ∈ membersOf ps e.1 := List.mem_of_head? hf
    exact ⟨first, (List.mem_filter.mp this).1, hft, by rw [hft]; exact hm⟩
  by_cases hall : ∀ e ∈ (g.order 2 (teamMap ps)).zipIdx, ∃ t, Team.ofPlayers g (3 + e.2) e.1.2 = .ok t
  · have : ∃ ts, List.Forall₂ (fun (e : (Str × List Player) × Nat) t => Team.ofPlayers g (3 + e.2) e.1.2 = .ok t)
        (g.order 2 (teamMap ps)).zipIdx ts := by
      generalize (g.order 2 (teamMap ps)).zipIdx = l at hall
      induction l with
      | nil => exact ⟨[], .nil⟩
      | cons e l ih =>
        obtain ⟨t, ht⟩ := hall e (by simp)
        obtain ⟨ts, hts⟩ := ih fun e he => hall e (by simp [he])
        exact ⟨t :: ts, .cons ht hts⟩
    obtain ⟨ts, hts⟩ := this
    have e : teamsFromPlayers g ps = .ok (sortBy (fun a b => strCmp (g.lowercase a.name) (g.lowercase b.name)) ts) := by
      unfold teamsFromPlayers
      rw [forR_collect_ok (fun e : (Str × List Player) × Nat => Team.ofPlayers g (3 + e.2) e.1.2) hts []]
      rfl
    refine ⟨.inl ⟨_, e⟩, ?_⟩
    rw [e]
    simp only [reduceCtorEq, false_iff]
    rintro ⟨hc, p, hp, ho⟩
    have hm : p ∈ members p.team ps := List.mem_filter.mpr ⟨hp, by simp⟩
    have hk : (p.team, membersOf ps p.team) ∈ g.order 2 (teamMap ps) :=
      (g.order_perm 2 _).mem_iff.mpr (mem_teamMap.mpr ⟨List.ne_nil_of_mem hm, rfl⟩)
    obtain ⟨i, hi⟩ := mem_zipIdx_of_mem hk
    obtain ⟨t, ht⟩ := hall _ hi
    have := ofPlayers_panic g hc (3 + i) (membersOf ps p.team) ((overflows_iff _).mp ho)
    rw [show Team.ofPlayers g (3 + i) (membersOf ps p.team) = .ok t from ht] at this
    cases this
  · simp only [not_forall, not_exists] at hall
    obtain ⟨⟨e, i⟩, he, hno⟩ := hall
    rcases ofPlayers_cases g (3 + i) e.2 with ⟨t, ht⟩ | ⟨hp, hc, ho⟩
    · exact absurd ht (hno t)
    · have hpanic : teamsFromPlayers g ps = .panic := by
        unfold teamsFromPlayers
        rw [forR_panic _ _ (e, i) he (fun s => by simp only [hp]; rfl)]
        · rfl
        · rintro s ⟨e', i'⟩ _
          rcases ofPlayers_cases g (3 + i') e'.2 with ⟨t, ht⟩ | ⟨hp, _⟩
          · exact .inl ⟨_, by simp only [ht]; rfl⟩
          · exact .inr (by simp only [hp]; rfl)
      refine ⟨.inr hpanic, fun _ => ?_, fun _ => hpanic⟩
      obtain ⟨p, hpm, _, hm⟩ := hmemb e (List.fst_mem_of_mem_zipIdx he)
      refine ⟨hc, p, hpm, ?_⟩
      rw [← hm, overflows_iff]
      rcases ho with ho | ⟨_, ho⟩
      · exact .inl ho
      · exact .inr ho

/-- The hypotheses of `C49_totals` and `C49_conserved` are met. -/
example : ∀ t ∈ Example.rosterTeams, (-2147483648 ≤ totalFrags t.players ∧ totalFrags t.players ≤ 2147483647) ∧
    totalPing t.players < 2 ^ 23 := by decide

/-- C49: an overflow panics or wraps, depending on the build. -/
theorem C49_overflow_witness : ∃ ps, teamsFromPlayers Example.debug ps = .panic ∧
    ∃ ts, teamsFromPlayers Example.release ps = .ok ts ∧ ts.map (·.frags) = [-2147483648] := by
  refine ⟨[Example.player chars!"a" chars!"red" (0, 0) 2147483647 0, Example.player chars!"b" chars!"red" (0, 0) 1 0],
    by decide +kernel, _, rfl, by decide +kernel⟩

/-- C49: for large pings the 32-bit float loses the mean: two players with a ping of 16777217 ms. -/
theorem C49_ping_witness : ∃ ts, teamsFromPlayers Example.debug
    [Example.player chars!"a" chars!"red" (0, 0) 0 16777217, Example.player chars!"b" chars!"red" (0, 0) 0 16777217] = .ok ts ∧
    ts.map (·.ping) = [16777216] := ⟨_, rfl, by decide +kernel⟩

/-! ### C50 -/

theorem lowercase_weak (g : Env) : WeakOrder fun a b : Team => Before (g.lowercase a.name) (g.lowercase b.name) where
  irrefl _ := before_irrefl _
  asymm _ _ := before_asymm
  trans a b c h h' hc := by
    rcases before_total (g.lowercase a.name) (g.lowercase b.name) with e | e | e
    · rw [e] at hc; exact h' hc
    · exact h' (before_trans hc e)
    · exact h e

/-- C50: teams are listed by lower-cased name. -/
theorem C50_order (g : Env) (ps : List Player) (ts : List Team) (h : teamsFromPlayers g ps = .ok ts) (i j : Nat)
    (hij : i < j) (hj : j < ts.length) :
    Before (g.lowercase ts[i].name) (g.lowercase ts[j].name) ∨ g.lowercase ts[i].name = g.lowercase ts[j].name := by
  obtain ⟨us, _, rfl⟩ := teamsFromPlayers_ok g h
  have key := sortBy_sorted (lowercase_weak g)
    (cmp := fun a b => strCmp (g.lowercase a.name) (g.lowercase b.name)) (fun a b => strCmp_gt_iff) us
  have := List.pairwise_iff_getElem.mp key i j (by omega) hj hij
  rcases before_total (g.lowercase (sortBy (fun a b => strCmp (g.lowercase a.name) (g.lowercase b.name)) us)[i].name)
    (g.lowercase (sortBy (fun a b => strCmp (g.lowercase a.name) (g.lowercase b.name)) us)[j].name) with e | e | e
  · exact .inr e
  · exact .inl e
  · exact absurd e this

/-- By plain name the teams of the example would be in the same order, but not here. -/
example : ∃ ts, teamsFromPlayers Example.debug [Example.player chars!"a" chars!"Zoo" (0, 0) 0 0,
    Example.player chars!"b" chars!"apes" (0, 0) 0 0] = .ok ts ∧ ts.map (·.name) = [chars!"apes", chars!"Zoo"] ∧
    strCmp chars!"Zoo" chars!"apes" = .lt := ⟨_, rfl, by decide +kernel, by decide⟩

/-! ### C51 -/

/-- C51: a team wears the color of one of its players; that of the first when there are at most two; otherwise (as long
as the 8-bit counters suffice) one that no other color outnumbers. -/
theorem C51_color (g : Env) (ps : List Player) (ts : List Team) (h : teamsFromPlayers g ps = .ok ts) (t : Team) (ht : t ∈ ts) :
    (∃ p ∈ t.players, p.color = t.color) ∧
    (t.players.length ≤ 2 → t.players.head?.map (·.color) = some t.color) ∧
    (3 ≤ t.players.length → (∀ c, wearing c t.players ≤ 255) → ∀ d, wearing d t.players ≤ wearing t.color t.players) := by
  obtain ⟨seed, ho, hne, hp⟩ := mem_teams g h ht
  obtain ⟨first, hf, hft⟩ := head_members hne
  obtain ⟨r, c, _, hcol, _, _, _, _, hc⟩ := ofPlayers_ok g _ hf ho
  rw [hp]
  refine ⟨?_, ?_, ?_⟩
  · cases c with
    | none => exact ⟨first, List.mem_of_head? hf, hc.symm⟩
    | some c =>
      have := majorityColor_mem g _ _ c hcol
      obtain ⟨p, hpm, e⟩ := List.mem_map.mp this
      exact ⟨p, hpm, by rw [e, hc]; rfl⟩
  · intro hl
    rw [majorityColor_small g _ _ (by rw [List.length_map]; omega), List.head?_map, hf] at hcol
    cases hcol
    rw [hf, hc]
    rfl
  · intro hl hcn d
    obtain ⟨c', e, hm, hmax⟩ := majorityColor_max g seed ((membersOf ps t.name).map (·.color))
      (by rw [List.length_map]; exact hl) (fun c => by have := hcn c; rw [wearing_eq] at this; omega)
    rw [e] at hcol
    cases hcol
    rw [wearing_eq, wearing_eq, hc]
    exact hmax d

/-- Both cases occur: two players, and three. -/
example : Example.rosterTeams.map (fun t => (t.players.length, t.color)) = [(2, (13, 13)), (3, (4, 4))] := by decide

/-- C51: with 256 players in one color the counter overflows: a panic with overflow checks. -/
theorem C51_overflow_witness (g : Env) (hc : g.checks = true) (p : Player) :
    teamsFromPlayers g (List.replicate 256 p) = .panic := by
  refine ((C49_outcome g _).2).mpr ⟨hc, p, List.mem_replicate.mpr ⟨by decide, rfl⟩, .inr (.inr ⟨p.color, ?_⟩)⟩
  have h1 : members p.team (List.replicate 256 p) = List.replicate 256 p :=
    List.filter_eq_self.mpr fun q hq => by rw [(List.mem_replicate.mp hq).2]; simp
  have h2 : ((List.replicate 256 p).filter fun q => q.color = p.color) = List.replicate 256 p :=
    List.filter_eq_self.mpr fun q hq => by rw [(List.mem_replicate.mp hq).2]; simp
  rw [h1, wearing, h2, List.length_replicate]
  decide

/-! ### C52 -/

theorem ofPlayers_settled (g o : Env) (seed seed' : Nat) (ps : List Player) (h : Settled ps) :
    Team.ofPlayers (g.reorder o) seed' ps = Team.ofPlayers g seed ps := by
  match ps, h with
  | [], _ => rfl
  | p :: ps, h =>
    rw [ofPlayers_eq, ofPlayers_eq]
    have e1 : totalsStep (g.reorder o) = totalsStep g := rfl
    have e2 : majorityColor (g.reorder o) seed' ((p :: ps).map (·.color)) = majorityColor g seed ((p :: ps).map (·.color)) := by
      by_cases hl : (p :: ps).length ≤ 2
      · rw [majorityColor_small _ _ _ (by rw [List.length_map]; omega), majorityColor_small _ _ _ (by rw [List.length_map]; omega)]
      · rcases h with h | ⟨hcn, c, hmax⟩
        · exact absurd h hl
        · have hcn' : ∀ c, ((p :: ps).map (·.color)).count c < 256 := fun c => by
            have := hcn c; rw [wearing_eq] at this; omega
          obtain ⟨c1, h1, _, m1⟩ := majorityColor_max g seed ((p :: ps).map (·.color)) (by rw [List.length_map]; omega) hcn'
          obtain ⟨c2, h2, _, m2⟩ := majorityColor_max (g.reorder o) seed' ((p :: ps).map (·.color))
            (by rw [List.length_map]; omega) hcn'
          have uniq : ∀ x, (∀ d, ((p :: ps).map (·.color)).count d ≤ ((p :: ps).map (·.color)).count x) → x = c := by
            intro x hx
            by_contra hne
            have := hmax x hne
            rw [wearing_eq, wearing_eq] at this
            have := hx c
            omega
          rw [h1, h2, uniq c1 m1, uniq c2 m2]
    rw [e1, e2]

/-- C52: the teams do not depend on the iteration order of hash maps when the lower-cased names differ and the colors
are settled. -/
theorem C52_deterministic (g o : Env) (ps : List Player) (ts : List Team) (h : teamsFromPlayers g ps = .ok ts)
    (hnames : (ts.map fun t => g.lowercase t.name).Nodup) (hcolors : ∀ t ∈ ts, Settled t.players) :
    teamsFromPlayers (g.reorder o) ps = .ok ts := by
  have hset : ∀ e ∈ teamMap ps, Settled e.2 := by
    rintro ⟨n, l⟩ he
    have hk : n ∈ (teamMap ps).keys := List.mem_map.mpr ⟨_, he, rfl⟩
    obtain ⟨t, ht, e⟩ := List.mem_map.mp ((teams_names g h).mem_iff.mpr hk)
    have := hcolors t ht
    obtain ⟨_, _, _, hp⟩ := mem_teams g h ht
    rw [hp, e] at this
    rw [(mem_teamMap.mp he).2]
    exact this
  obtain ⟨us, h1, hts⟩ := teamsFromPlayers_ok g h
  -- the team of each entry, whatever its number
  let F : Str × List Player → Team := fun e => match Team.ofPlayers g 0 e.2 with
    | .ok t => t
    | _ => { name := [], color := (0, 0), frags := 0, ping := 0, players := [] }
  have hus : us = (g.order 2 (teamMap ps)).map F := by
    have : (g.order 2 (teamMap ps)).zipIdx.map (fun e => F e.1) = us.map id := by
      refine map_forall2 h1 ?_
      rintro ⟨e, i⟩ he t hp
      have hs := hset e ((g.order_perm 2 _).mem_iff.mp (List.fst_mem_of_mem_zipIdx he))
      have := ofPlayers_settled g g 0 (3 + i) e.2 hs
      simp only at hp
      rw [show g.reorder g = g from rfl, hp] at this
      show (match Team.ofPlayers g 0 e.2 with | .ok t => t | _ => _) = t
      rw [← this]
    rw [List.map_id] at this
    rw [← this]
    have hz := congrArg (List.map F) (List.zipIdx_map_fst 0 (g.order 2 (teamMap ps)))
    rw [List.map_map] at hz
    exact hz
  have hok : ∀ e ∈ teamMap ps, ∀ i, Team.ofPlayers (g.reorder o) i e.2 = .ok (F e) := by
    intro e he i
    obtain ⟨j, hj⟩ := mem_zipIdx_of_mem ((g.order_perm 2 _).mem_iff.mpr he)
    obtain ⟨t, _, hp⟩ := forall2_mem_left h1 hj
    simp only at hp
    have a := ofPlayers_settled g o 0 i e.2 (hset e he)
    have b := ofPlayers_settled g g 0 (3 + j) e.2 (hset e he)
    rw [show g.reorder g = g from rfl, hp] at b
    rw [a, ← b]
    show R.ok t = R.ok (match Team.ofPlayers g 0 e.2 with | .ok t => t | _ => _)
    rw [← b]
  have hf : List.Forall₂ (fun (e : (Str × List Player) × Nat) t => Team.ofPlayers (g.reorder o) (3 + e.2) e.1.2 = .ok t)
      (o.order 2 (teamMap ps)).zipIdx ((o.order 2 (teamMap ps)).map F) := by
    have hsub : ∀ e ∈ o.order 2 (teamMap ps), e ∈ teamMap ps := fun e he => (o.order_perm 2 _).mem_iff.mp he
    generalize o.order 2 (teamMap ps) = l at hsub
    generalize 0 = k
    induction l generalizing k with
    | nil => exact .nil
    | cons e l ih =>
      rw [List.zipIdx_cons, List.map_cons]
      exact .cons (hok e (hsub e (by simp)) _) (ih (fun e he => hsub e (by simp [he])) (k + 1))
  have e : teamsFromPlayers (g.reorder o) ps = .ok (sortBy (fun a b => strCmp (g.lowercase a.name) (g.lowercase b.name))
      ((o.order 2 (teamMap ps)).map F)) := by
    unfold teamsFromPlayers
    rw [show (g.reorder o).order 2 (teamMap ps) = o.order 2 (teamMap ps) from rfl,
      forR_collect_ok (fun e : (Str × List Player) × Nat => Team.ofPlayers (g.reorder o) (3 + e.2) e.1.2) hf []]
    rfl
  rw [e, hts, hus]
  congr 1
  refine (sortBy_order (lowercase_weak g) (fun a b => strCmp_gt_iff) ?_ ?_).symm
  · exact ((g.order_perm 2 _).trans (o.order_perm 2 _).symm).map F
  · have hp : ts.Perm ((g.order 2 (teamMap ps)).map F) := by rw [hts, hus]; exact sortBy_perm _ _
    have := (hp.map fun t => g.lowercase t.name).nodup_iff.mp hnames
    have := List.pairwise_map.mp this
    refine this.imp ?_
    intro a b hne
    rcases before_total (g.lowercase a.name) (g.lowercase b.name) with e | e | e
    · exact absurd e hne
    · exact .inl e
    · exact .inr e

/-- C52: whether there is a panic does not depend on the iteration order. -/
theorem C52_panic (g o : Env) (ps : List Player) : teamsFromPlayers (g.reorder o) ps = .panic ↔ teamsFromPlayers g ps = .panic := by
  rw [(C49_outcome g ps).2, (C49_outcome (g.reorder o) ps).2]
  rfl

/-- C52: the same for the teams of a demo, when moreover no two players share name and frags. -/
theorem C52_teams (g o : Env) (data : Bytes) (ps : List Player) (ts : List Team) (hp : players g data = .ok ps)
    (hties : ps.Pairwise fun p q => ¬ (p.name = q.name ∧ p.frags = q.frags)) (h : teams g data = .ok ts)
    (hnames : (ts.map fun t => g.lowercase t.name).Nodup) (hcolors : ∀ t ∈ ts, Settled t.players) :
    teams (g.reorder o) data = .ok ts := by
  unfold teams at h ⊢
  rw [C46_deterministic g o data ps hp hties]
  rw [hp] at h
  exact C52_deterministic g o ps ts h hnames hcolors

/-- C52: the same for the teams of match stats. -/
theorem C52_from_stats (g o : Env) (stats : KtxStats) (ts : List Team) (h : teamsFromKtxstats g stats = .ok ts)
    (hnames : (ts.map fun t => g.lowercase t.name).Nodup) (hcolors : ∀ t ∈ ts, Settled t.players) :
    teamsFromKtxstats (g.reorder o) stats = .ok ts :=
  C52_deterministic g o _ ts h hnames hcolors

/-- The hypotheses of `C52_deterministic` are met. -/
example : (Example.rosterTeams.map fun t => Example.debug.lowercase t.name).Nodup ∧ ∀ t ∈ Example.rosterTeams, Settled t.players := by
  refine ⟨by decide +kernel, ?_⟩
  intro t ht
  simp only [Example.rosterTeams, List.mem_cons, List.not_mem_nil, or_false] at ht
  rcases ht with rfl | rfl
  · exact .inl (by decide)
  · refine .inr ⟨?_, (4, 4), ?_⟩
    · intro c
      exact Nat.le_trans (List.length_filter_le _ _) (by decide)
    · intro d hd
      have h1 : ¬ (4, 4) = d := fun e => hd e.symm
      have h2 : wearing (4, 4) [Example.player chars!"a" chars!"red" (4, 4) 30 25, Example.player chars!"c" chars!"red" (3, 4) 10 52,
        Example.player chars!"d" chars!"red" (4, 4) 5 12] = 2 := by decide
      rw [h2]
      simp only [wearing, Example.player, List.filter_cons, h1, decide_false, Bool.false_eq_true, if_false, List.filter_nil]
      split <;> simp

/-- C52: teams of a demo. -/
example : ∃ ps ts, players Example.debug (Spec.encode Example.scoreFrames) = .ok ps ∧
    (ps.Pairwise fun p q => ¬ (p.name = q.name ∧ p.frags = q.frags)) ∧
    teams Example.debug (Spec.encode Example.scoreFrames) = .ok ts ∧ (ts.map fun t => Example.debug.lowercase t.name).Nodup ∧
    ∀ t ∈ ts, Settled t.players := by
  refine ⟨[Example.player chars!"a" chars!"red" (0, 0) 1 25, Example.player chars!"c" chars!"blue" (0, 0) 1 300,
      Example.player chars!"b" chars!"red" (0, 0) (-2) 0],
    [⟨chars!"blue", (0, 0), 1, 300, [Example.player chars!"c" chars!"blue" (0, 0) 1 300]⟩,
      ⟨chars!"red", (0, 0), -1, 13, [Example.player chars!"a" chars!"red" (0, 0) 1 25, Example.player chars!"b" chars!"red" (0, 0) (-2) 0]⟩],
    by decide +kernel, by decide +kernel, by decide +kernel, by decide +kernel, ?_⟩
  intro t ht
  simp only [List.mem_cons, List.not_mem_nil, or_false] at ht
  rcases ht with rfl | rfl <;> exact .inl (by decide)

/-- C52: two runs may differ in the color of a team. -/
theorem C52_color_witness : ∃ g o ps, ∃ ts ts', teamsFromPlayers g ps = .ok ts ∧ teamsFromPlayers (Env.reorder g o) ps = .ok ts' ∧
    ts.map (·.color) ≠ ts'.map (·.color) := by
  refine ⟨Example.release, Example.other, [Example.player chars!"a" chars!"red" (4, 4) 0 0,
    Example.player chars!"b" chars!"red" (3, 3) 0 0, Example.player chars!"c" chars!"red" (2, 2) 0 0], _, _, rfl, rfl, by decide +kernel⟩

/-- C52: and in the order of teams. -/
theorem C52_order_witness : ∃ g o ps, ∃ ts ts', teamsFromPlayers g ps = .ok ts ∧ teamsFromPlayers (Env.reorder g o) ps = .ok ts' ∧
    ts.map (·.name) ≠ ts'.map (·.name) := by
  refine ⟨Example.release, Example.other, [Example.player chars!"a" chars!"red" (4, 4) 0 0,
    Example.player chars!"b" chars!"RED" (3, 3) 0 0], _, _, rfl, rfl, by decide +kernel⟩

end Mvd

import Verif.Props.Teams

/-! C49 and C51 without limits on the number of players and their pings. -/

namespace Mvd
open Spec

theorem team_ping {s n k : Nat} (hk : k = f32AsU32 (f32RoundHalfUp (f32Div (natAsF32 s) (natAsF32 n)))) :
    ∃ a b q : ℚ, NearestEven Single EvenSingle s a ∧ NearestEven Single EvenSingle n b ∧
      NearestEven Single EvenSingle (a / b) q ∧
      (q + 1 / 2 < 2 ^ 32 → (k : ℚ) ≤ q + 1 / 2 ∧ q + 1 / 2 < k + 1) ∧ (2 ^ 32 ≤ q + 1 / 2 → k = 2 ^ 32 - 1) := by
  have hs : (0 : ℚ) ≤ s := by positivity
  have hn : (0 : ℚ) ≤ n := by positivity
  have hd : 0 ≤ natAsF32 s / natAsF32 n := div_nonneg (f32Round_nonneg hs) (f32Round_nonneg hn)
  have hq : 0 ≤ f32Div (natAsF32 s) (natAsF32 n) := f32Round_nonneg hd
  refine ⟨natAsF32 s, natAsF32 n, f32Div (natAsF32 s) (natAsF32 n), f32Round_nearestEven hs, f32Round_nearestEven hn,
    f32Round_nearestEven hd, ?_⟩
  generalize f32Div (natAsF32 s) (natAsF32 n) = q at *
  have hfl : (0 : ℤ) ≤ ⌊q + 1 / 2⌋ := Int.floor_nonneg.mpr (by linarith)
  have e : f32AsU32 (f32RoundHalfUp q) = min ⌊q + 1 / 2⌋.toNat (2 ^ 32 - 1) := by
    unfold f32AsU32 f32RoundHalfUp
    rw [Int.floor_intCast]
  rw [e] at hk
  have h1 := Int.floor_le (q + 1 / 2)
  have h2 := Int.lt_floor_add_one (q + 1 / 2)
  generalize ⌊q + 1 / 2⌋ = z at *
  obtain ⟨j, rfl⟩ := Int.eq_ofNat_of_zero_le hfl
  rw [Int.toNat_natCast] at hk
  push_cast at h1 h2
  constructor
  · intro hlt'
    have : j < 2 ^ 32 := by
      have : (j : ℚ) < 2 ^ 32 := lt_of_le_of_lt h1 hlt'
      exact_mod_cast this
    have : k = j := by omega
    rw [this]
    exact ⟨h1, h2⟩
  · intro hge
    have : 2 ^ 32 ≤ j := by
      have : (2 ^ 32 : ℚ) < j + 1 := lt_of_le_of_lt hge h2
      have : 2 ^ 32 < j + 1 := by exact_mod_cast this
      omega
    omega

/-- C49: the ping of a team without any assumption: computed as in `C49_ping` from the sum modulo 2^32. -/
theorem C49_any_ping (g : Env) (ps : List Player) (ts : List Team) (h : teamsFromPlayers g ps = .ok ts) (t : Team)
    (ht : t ∈ ts) :
    ∃ a b q : ℚ, NearestEven Single EvenSingle (totalPing t.players % 2 ^ 32 : Nat) a ∧
      NearestEven Single EvenSingle t.players.length b ∧ NearestEven Single EvenSingle (a / b) q ∧
      (q + 1 / 2 < 2 ^ 32 → (t.ping : ℚ) ≤ q + 1 / 2 ∧ q + 1 / 2 < t.ping + 1) ∧
      (2 ^ 32 ≤ q + 1 / 2 → t.ping = 2 ^ 32 - 1) := by
  obtain ⟨seed, ho, hne, hp⟩ := mem_teams g h ht
  obtain ⟨first, hf, hft⟩ := head_members hne
  obtain ⟨r, c, hr, _, _, _, _, hpi, _⟩ := ofPlayers_ok g _ hf ho
  have hr2 : r.2 = totalPing t.players % 2 ^ 32 := by
    rw [hp]
    cases hc : g.checks with
    | true =>
      have hno : ¬ (teamsFromPlayers g ps = .panic) := by rw [h]; simp
      rw [(C49_outcome g ps).2] at hno
      have hmem := List.mem_of_head? hf
      have hfit : ¬ Overflows (members first.team ps) := fun ho =>
        hno ⟨hc, first, (List.mem_filter.mp hmem).1, ho⟩
      rw [hft] at hfit
      have hlt : totalPing (membersOf ps t.name) < 2 ^ 32 := by
        by_contra hge
        exact hfit (.inr (.inl (by
          have : members t.name ps = membersOf ps t.name := rfl
          rw [this]
          omega)))
      rw [(totals_value g hr).2 (by unfold totalPing at hlt; exact hlt), Nat.mod_eq_of_lt hlt]
      rfl
    | false =>
      rw [totals_wrap g hc _ _ ⟨by decide, by decide⟩ (by decide)] at hr
      cases hr
      simp [totalPing]
  rw [hr2] at hpi
  rw [← hp] at hpi
  exact team_ping hpi

theorem countStep_wrap (g : Env) (hc : g.checks = false) {m : Map (Nat × Nat) Nat} {c : Nat × Nat} (h : (m.get c).getD 0 < 256) :
    countStep g m c = .ok (m.set c (((m.get c).getD 0 + 1) % 256)) := by
  have : addU g.checks 8 ((m.get c).getD 0) 1 = .ok (((m.get c).getD 0 + 1) % 256) := by
    by_cases hlt : (m.get c).getD 0 + 1 < 256
    · rw [Nat.mod_eq_of_lt hlt]
      exact if_pos hlt
    · unfold addU
      rw [if_neg (by norm_num; omega), hc]
      rfl
  unfold countStep Map.update
  simp only
  rw [this]
  rfl

theorem counts_wrap (g : Env) (hc : g.checks = false) : ∀ (l : List (Nat × Nat)) (m : Map (Nat × Nat) Nat), m.keys.Nodup →
    (∀ c, (m.get c).getD 0 < 256) → ∃ m', forR (countStep g) m l = .ok m' ∧ m'.keys.Nodup ∧
      ∀ c, m'.get c = if c ∈ l then some (((m.get c).getD 0 + l.count c) % 256) else m.get c
  | [], m, hn, _ => ⟨m, rfl, hn, fun c => by simp⟩
  | a :: l, m, hn, h => by
    have hstep := countStep_wrap g hc (h a)
    obtain ⟨m', e, hn', hg⟩ := counts_wrap g hc l (m.set a (((m.get a).getD 0 + 1) % 256)) (Map.nodup_set hn _ _) (by
      intro c
      rw [Map.get_set]
      by_cases hc : a = c
      · rw [if_pos hc, Option.getD_some]
        omega
      · rw [if_neg hc]
        exact h c)
    refine ⟨m', by simp only [forR, hstep, R.bind]; exact e, hn', ?_⟩
    intro c
    rw [hg, Map.get_set]
    by_cases hc : a = c
    · subst hc
      by_cases hm : a ∈ l
      · simp [hm]; omega
      · simp [hm, List.count_eq_zero_of_not_mem hm]
    · have hc' : c ≠ a := fun e => hc e.symm
      rw [if_neg hc, List.count_cons_of_ne hc]
      simp [hc']

theorem majorityColor_wrap (g : Env) (hc : g.checks = false) (seed : Nat) (colors : List (Nat × Nat)) (h : 3 ≤ colors.length) :
    ∃ c, majorityColor g seed colors = .ok c ∧
      ((c = none ∧ ∀ d, colors.count d % 256 = 0) ∨ ∃ k, c = some k ∧ ∀ d, colors.count d % 256 ≤ colors.count k % 256) := by
  obtain ⟨m, e, hn, hg⟩ := counts_wrap g hc colors [] (by simp [Map.keys]) (by simp [Map.get])
  have hmem : ∀ c n, (c, n) ∈ m ↔ c ∈ colors ∧ n = colors.count c % 256 := by
    intro c n
    rw [Map.mem_iff_get hn, hg]
    by_cases h : c ∈ colors
    · simp [h, Map.get]
      exact eq_comm
    · simp [h, Map.get]
  have hp := g.order_perm seed m
  rw [majorityColor_many g seed colors h, e]
  refine ⟨_, rfl, ?_⟩
  obtain ⟨_, h2, h3⟩ := maxColor_spec (g.order seed m) none 0
  have hle : ∀ d, colors.count d % 256 ≤ (maxColor (none, 0) (g.order seed m)).2 := by
    intro d
    by_cases hd : d ∈ colors
    · exact h2 (d, colors.count d % 256) (hp.mem_iff.mpr ((hmem _ _).mpr ⟨hd, rfl⟩))
    · rw [List.count_eq_zero_of_not_mem hd]; exact Nat.zero_le _
  rcases h3 with h3 | ⟨x, hx, _, h3⟩
  · refine .inl ⟨by rw [h3], fun d => ?_⟩
    have := hle d
    rw [h3] at this
    simp only at this
    omega
  · obtain ⟨hxc, hxn⟩ := (hmem x.1 x.2).mp (hp.mem_iff.mp hx)
    refine .inr ⟨x.1, by rw [h3], fun d => ?_⟩
    have := hle d
    rw [h3] at this
    rw [← hxn]
    exact this

/-- C51: the color of a team of three or more without any assumption: its number of players is the largest, modulo 256. -/
theorem C51_any_color (g : Env) (ps : List Player) (ts : List Team) (h : teamsFromPlayers g ps = .ok ts) (t : Team) (ht : t ∈ ts)
    (h3 : 3 ≤ t.players.length) (d : Nat × Nat) : wearing d t.players % 256 ≤ wearing t.color t.players % 256 := by
  cases hc : g.checks with
  | true =>
    obtain ⟨seed, ho, hne, hp⟩ := mem_teams g h ht
    obtain ⟨first, hf, hft⟩ := head_members hne
    have hno : ¬ (teamsFromPlayers g ps = .panic) := by rw [h]; simp
    rw [(C49_outcome g ps).2] at hno
    have hfit : ¬ Overflows (members first.team ps) := fun ho =>
      hno ⟨hc, first, (List.mem_filter.mp (List.mem_of_head? hf)).1, ho⟩
    rw [hft] at hfit
    have hle : ∀ c, wearing c t.players ≤ 255 := by
      intro c
      by_contra hgt
      refine hfit (.inr (.inr ⟨c, ?_⟩))
      have : members t.name ps = membersOf ps t.name := rfl
      rw [this, ← hp]
      omega
    have := (C51_color g ps ts h t ht).2.2 h3 hle d
    have := hle d
    have := hle t.color
    omega
  | false =>
    obtain ⟨seed, ho, hne, hp⟩ := mem_teams g h ht
    obtain ⟨first, hf, hft⟩ := head_members hne
    obtain ⟨r, c, _, hcol, _, _, _, _, htc⟩ := ofPlayers_ok g _ hf ho
    rw [hp] at h3 ⊢
    obtain ⟨c', e, hc'⟩ := majorityColor_wrap g hc seed ((membersOf ps t.name).map (·.color)) (by rw [List.length_map]; exact h3)
    rw [e] at hcol
    cases hcol
    rw [wearing_eq, wearing_eq]
    rcases hc' with ⟨_, hz⟩ | ⟨k, rfl, hmax⟩
    · have := hz d
      omega
    · rw [htc]
      exact hmax d

/-- C51, witness: 256 players in one color count as none, so a release build gives the team the color of its last player. -/
theorem C51_wraps_witness (p q : Player) (hq : q.color ≠ p.color) (hteam : q.team = p.team) :
    ∃ ts, teamsFromPlayers Example.release (List.replicate 256 p ++ [q]) = .ok ts ∧ ∀ t ∈ ts, t.color = q.color := by
  have hout := C49_outcome Example.release (List.replicate 256 p ++ [q])
  obtain ⟨ts, h⟩ := hout.1.resolve_right fun h => by have := (hout.2.mp h).1; cases this
  refine ⟨ts, h, fun t ht => ?_⟩
  obtain ⟨seed, ho, hne, hp⟩ := mem_teams _ h ht
  obtain ⟨first, hf, hft⟩ := head_members hne
  have hname : t.name = p.team := by
    have := (List.mem_filter.mp (List.mem_of_head? hf)).1
    rw [← hft]
    rcases List.mem_append.mp this with h | h
    · rw [(List.mem_replicate.mp h).2]
    · rw [List.mem_singleton.mp h, hteam]
  have hall : t.players = List.replicate 256 p ++ [q] := by
    rw [hp]
    refine List.filter_eq_self.mpr fun x hx => ?_
    rcases List.mem_append.mp hx with hx | hx
    · rw [(List.mem_replicate.mp hx).2, hname]; simp
    · rw [List.mem_singleton.mp hx, hname, hteam]; simp
  have h3 : 3 ≤ t.players.length := by rw [hall, List.length_append, List.length_replicate]; omega
  have hmax := C51_any_color _ _ _ h t ht h3 q.color
  obtain ⟨⟨x, hx, hxc⟩, _⟩ := C51_color _ _ _ h t ht
  have hw : wearing q.color t.players = 1 := by
    rw [wearing_eq, hall, List.map_append, List.count_append, List.map_replicate, List.count_replicate]
    simp [Ne.symm hq]
  have hw' : wearing p.color t.players = 256 := by
    rw [wearing_eq, hall, List.map_append, List.count_append, List.map_replicate, List.count_replicate]
    simp [hq]
  rw [hall] at hx
  rcases List.mem_append.mp hx with hx | hx
  · rw [(List.mem_replicate.mp hx).2] at hxc
    rw [← hxc, hw, hw'] at hmax
    omega
  · rw [← hxc, List.mem_singleton.mp hx]

end Mvd

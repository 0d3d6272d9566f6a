import Verif.Props.Ledger
import Verif.Props.Growth
import Verif.Props.Content
import Verif.Props.Ping
import Verif.Props.Teams

/-! C80: what one bad frame can do. C81: means lie between the extremes. -/

namespace Mvd
open Spec

/-- The scores of a single frame: at most one player, who gains one point or loses one or two. -/
theorem frags_single (g : Env) (f : Frame) (hf : f.WF) (hn : NotAnonymous g.toUnicode f)
    (hl : (Spec.encode [f]).length < 2 ^ 31) :
    ∃ m who, fragsPerPlayerName g (Spec.encode [f]) = .ok m ∧ (∀ name, name ≠ who → m.get name = none) ∧
      ∀ name, -2 ≤ (m.get name).getD 0 ∧ (m.get name).getD 0 ≤ 1 := by
  have hw : ∀ x ∈ [f], x.WF := by simpa using hf
  obtain ⟨c, hc⟩ := charge_exists g.toUnicode [] f []
  have hch : Charges g.toUnicode [] [f] (c.toList ++ []) := .cons hc .nil
  obtain ⟨s1, s2⟩ := splits_whole hw
  obtain ⟨m, em, gm⟩ := C26_frags g _ [f] [] [] _ s1 s2 (.inr (.inr (by
    intro before x later e
    rintro ⟨t, m, v, ha, hcl, _⟩
    have : x ∈ [f] := by rw [e]; simp
    rw [List.mem_singleton] at this
    subst this
    exact hn t m v ha hcl))) hch (C26_bound g _ [f] [] [] _ s1 hch hl)
  cases c with
  | none =>
    refine ⟨m, [], em, fun name _ => ?_, fun name => ?_⟩ <;> rw [gm] <;> simp
  | some e =>
    obtain ⟨who, w⟩ := e
    have hsz := charge_size hc
    refine ⟨m, who, em, fun name hne => ?_, fun name => ?_⟩
    · rw [gm]
      simp [Ne.symm hne, hne]
    · rw [gm]
      by_cases h : who = name
      · subst h
        simp [points]
        omega
      · simp [Ne.symm h]

/-- The scores of a demo in terms of one of its frames. -/
theorem frags_around (g : Env) (a b : List Frame) (f : Frame) (ha : ∀ x ∈ a, x.WF) (hb : ∀ x ∈ b, x.WF) (hf : f.WF)
    (hn : ∀ x ∈ a ++ f :: b, NotAnonymous g.toUnicode x) (hl : (Spec.encode (a ++ f :: b)).length < 2 ^ 31) :
    ∃ ma mf mb m who, fragsPerPlayerName g (Spec.encode a) = .ok ma ∧ fragsPerPlayerName g (Spec.encode b) = .ok mb ∧
      fragsPerPlayerName g (Spec.encode (a ++ f :: b)) = .ok m ∧ (∀ name, name ≠ who → Map.get mf name = none) ∧
      (∀ name, -2 ≤ (mf.get name).getD 0 ∧ (mf.get name).getD 0 ≤ 1) ∧
      ∀ name, ((m.get name).isSome ↔ (ma.get name).isSome ∨ (mf.get name).isSome ∨ (mb.get name).isSome) ∧
        (m.get name).getD 0 = (ma.get name).getD 0 + (mf.get name).getD 0 + (mb.get name).getD 0 := by
  have e : a ++ f :: b = a ++ ([f] ++ b) := by simp
  have len : (Spec.encode (a ++ ([f] ++ b))).length =
      (Spec.encode a).length + ((Spec.encode [f]).length + (Spec.encode b).length) := by simp [Spec.encode]
  rw [e] at hn hl ⊢
  have hfb : ∀ x ∈ [f] ++ b, x.WF := by
    intro x hx
    rcases List.mem_append.mp hx with hx | hx
    · rw [List.mem_singleton] at hx
      rw [hx]
      exact hf
    · exact hb x hx
  obtain ⟨mf, who, ef, hwho, hsz⟩ := frags_single g f hf (hn f (by simp)) (by omega)
  obtain ⟨mf', mb, mfb, ef', eb, efb, hfb2⟩ := C61_frags g [f] b (by simpa using hf) hb
    (fun x hx => hn x (List.mem_append_right _ hx)) (by simp only [Spec.encode, List.flatMap_append, List.length_append] at len hl ⊢; omega)
  rw [ef] at ef'
  cases ef'
  obtain ⟨ma, mfb', m, ea, efb', em, hm⟩ := C61_frags g a ([f] ++ b) ha hfb hn hl
  rw [efb] at efb'
  cases efb'
  refine ⟨ma, mf, mb, m, who, ea, eb, em, hwho, hsz, fun name => ⟨?_, ?_⟩⟩
  · rw [(hm name).1, (hfb2 name).1]
  · rw [(hm name).2, (hfb2 name).2]
    omega

theorem get_eq_of {m m' : Map Str Int} {name : Str} (h1 : (m.get name).isSome ↔ (m'.get name).isSome)
    (h2 : (m.get name).getD 0 = (m'.get name).getD 0) : m.get name = m'.get name := by
  cases h : m.get name <;> cases h' : m'.get name <;> simp_all

/-- C80: replacing one frame of a demo changes the scores of at most two players, and each by at most three points. -/
theorem C80_frags (g : Env) (a b : List Frame) (f f' : Frame) (ha : ∀ x ∈ a, x.WF) (hb : ∀ x ∈ b, x.WF) (hf : f.WF) (hf' : f'.WF)
    (hn : ∀ x ∈ a ++ f :: f' :: b, NotAnonymous g.toUnicode x)
    (hl : (Spec.encode (a ++ f :: b)).length < 2 ^ 31) (hl' : (Spec.encode (a ++ f' :: b)).length < 2 ^ 31) :
    ∃ m m' who who', fragsPerPlayerName g (Spec.encode (a ++ f :: b)) = .ok m ∧
      fragsPerPlayerName g (Spec.encode (a ++ f' :: b)) = .ok m' ∧
      (∀ name, name ≠ who → name ≠ who' → m.get name = m'.get name) ∧
      ∀ name, |(m.get name).getD 0 - (m'.get name).getD 0| ≤ 3 := by
  have sub : ∀ x, x = f ∨ x = f' → ∀ y ∈ a ++ x :: b, NotAnonymous g.toUnicode y := by
    intro x hx y hy
    refine hn y ?_
    simp only [List.mem_append, List.mem_cons] at hy ⊢
    rcases hy with hy | rfl | hy
    · exact .inl hy
    · rcases hx with rfl | rfl <;> simp
    · exact .inr (.inr (.inr hy))
  obtain ⟨ma, mf, mb, m, who, ea, eb, em, h1, h2, h3⟩ := frags_around g a b f ha hb hf (sub f (.inl rfl)) hl
  obtain ⟨ma', mf', mb', m', who', ea', eb', em', h1', h2', h3'⟩ := frags_around g a b f' ha hb hf' (sub f' (.inr rfl)) hl'
  rw [ea] at ea'
  cases ea'
  rw [eb] at eb'
  cases eb'
  refine ⟨m, m', who, who', em, em', fun name hw hw' => get_eq_of ?_ ?_, fun name => ?_⟩
  · rw [(h3 name).1, (h3' name).1, h1 name hw, h1' name hw']
  · rw [(h3 name).2, (h3' name).2, h1 name hw, h1' name hw']
  · rw [(h3 name).2, (h3' name).2, abs_le]
    have := h2 name
    have := h2' name
    constructor <;> omega

/-! ### Means -/

theorem mean_between (l : List Nat) (hne : l ≠ []) : ∃ lo ∈ l, ∃ hi ∈ l, lo * l.length ≤ l.sum ∧ l.sum ≤ hi * l.length := by
  induction l with
  | nil => exact absurd rfl hne
  | cons a t ih =>
    by_cases ht : t = []
    · subst ht
      exact ⟨a, by simp, a, by simp, by simp, by simp⟩
    · obtain ⟨lo, hlo, hi, hhi, h1, h2⟩ := ih ht
      refine ⟨if a ≤ lo then a else lo, ?_, if hi ≤ a then a else hi, ?_, ?_, ?_⟩
      · split <;> simp [hlo]
      · split <;> simp [hhi]
      · simp only [List.length_cons, List.sum_cons]
        split
        · have : a * t.length ≤ lo * t.length := Nat.mul_le_mul_right _ ‹_›
          rw [Nat.mul_add, Nat.mul_one]
          omega
        · rw [Nat.mul_add, Nat.mul_one]
          omega
      · simp only [List.length_cons, List.sum_cons]
        split
        · have : hi * t.length ≤ a * t.length := Nat.mul_le_mul_right _ ‹_›
          rw [Nat.mul_add, Nat.mul_one]
          omega
        · rw [Nat.mul_add, Nat.mul_one]
          omega

/-- C81: the ping of a player lies between the smallest and the largest of the sampled pings. -/
theorem C81_player (g : Env) (data : Bytes) (fs : List Frame) (rest : Bytes) (uss : List (List (UInt8 × Nat)))
    (h : Splits data fs rest) (hs : Stops data.length rest)
    (hu : List.Forall₂ (fun f us => LeadingPings f.body us) fs uss)
    (hsum : ∀ p, (samplesOf (sampledPings uss) p).sum < 65536) (m : Map UInt8 Nat) (hm : pingPerPlayerNumber g data = .ok m)
    (p : UInt8) (ping : Nat) (hp : m.get p = some ping) :
    ∃ lo hi, (p, lo) ∈ sampledPings uss ∧ (p, hi) ∈ sampledPings uss ∧ lo ≤ ping ∧ ping ≤ hi := by
  obtain ⟨x, hx⟩ := (C34_players g data fs rest uss h hs hu m hm p).mp ⟨ping, hp⟩
  obtain ⟨m', hm', gm⟩ := C32_pings g data fs rest uss h hs hu (List.ne_nil_of_mem hx) hsum
  rw [hm] at hm'
  cases hm'
  rw [gm, if_pos (List.mem_map.mpr ⟨_, hx, rfl⟩)] at hp
  cases hp
  have mem : ∀ v, v ∈ samplesOf (sampledPings uss) p ↔ (p, v) ∈ sampledPings uss := by
    intro v
    simp only [samplesOf, List.mem_map, List.mem_filter, decide_eq_true_eq]
    constructor
    · rintro ⟨⟨q, w⟩, ⟨h1, rfl⟩, rfl⟩
      exact h1
    · exact fun h => ⟨_, ⟨h, rfl⟩, rfl⟩
  have hne : samplesOf (sampledPings uss) p ≠ [] := List.ne_nil_of_mem ((mem x).mpr hx)
  obtain ⟨lo, hlo, hi, hhi, h1, h2⟩ := mean_between _ hne
  have hpos : 0 < (samplesOf (sampledPings uss) p).length := List.length_pos_iff.mpr hne
  refine ⟨lo, hi, (mem lo).mp hlo, (mem hi).mp hhi, (Nat.le_div_iff_mul_le hpos).mpr h1, ?_⟩
  rw [← Nat.mul_div_cancel hi hpos]
  exact Nat.div_le_div_right h2

/-- C81: the ping of a team lies between those of two of its players. -/
theorem C81_team (g : Env) (ps : List Player) (ts : List Team) (h : teamsFromPlayers g ps = .ok ts) (t : Team) (ht : t ∈ ts)
    (hlt : totalPing t.players < 2 ^ 23) : ∃ a ∈ t.players, ∃ b ∈ t.players, a.ping ≤ t.ping ∧ t.ping ≤ b.ping := by
  have hne := ((C48_partition g ps ts h).1 t ht).2
  obtain ⟨h1, h2⟩ := (C49_totals g ps ts h t ht).2 hlt
  obtain ⟨lo, hlo, hi, hhi, h3, h4⟩ := mean_between (t.players.map (·.ping)) (by simpa using hne)
  obtain ⟨a, ha, rfl⟩ := List.mem_map.mp hlo
  obtain ⟨b, hb, rfl⟩ := List.mem_map.mp hhi
  rw [List.length_map] at h3 h4
  change _ ≤ totalPing t.players at h3
  change totalPing t.players ≤ _ at h4
  have hpos : (0 : ℚ) < t.players.length := by exact_mod_cast List.length_pos_iff.mpr hne
  have e1 : (a.ping : ℚ) ≤ (totalPing t.players : ℚ) / t.players.length := by
    rw [le_div_iff₀ hpos]
    exact_mod_cast h3
  have e2 : (totalPing t.players : ℚ) / t.players.length ≤ b.ping := by
    rw [div_le_iff₀ hpos]
    exact_mod_cast h4
  refine ⟨a, ha, b, hb, ?_, ?_⟩
  · have : (a.ping : ℚ) < t.ping + 1 := by linarith
    have : a.ping < t.ping + 1 := by exact_mod_cast this
    omega
  · have : (t.ping : ℚ) < b.ping + 1 := by linarith
    have : t.ping < b.ping + 1 := by exact_mod_cast this
    omega

/-- The hypotheses of C80 are met, and both bounds are reached: a frag replaced by a suicide. -/
example : ∃ (a b : List Frame) (f f' : Frame), (∀ x ∈ a, x.WF) ∧ (∀ x ∈ b, x.WF) ∧ f.WF ∧ f'.WF ∧
    (∀ x ∈ a ++ f :: f' :: b, NotAnonymous Example.debug.toUnicode x) ∧
    (Spec.encode (a ++ f :: b)).length < 2 ^ 31 ∧ (Spec.encode (a ++ f' :: b)).length < 2 ^ 31 ∧
    fragsPerPlayerName Example.debug (Spec.encode (a ++ f :: b)) = .ok [(chars!"a", 2)] ∧
    fragsPerPlayerName Example.debug (Spec.encode (a ++ f' :: b)) = .ok [(chars!"a", -1)] := by
  refine ⟨[Example.all (Example.medium bytes!"b was nailed by a\n")], [], Example.all (Example.medium bytes!"c was nailed by a\n"),
    Example.all (Example.medium bytes!"a suicides\n"), by decide +kernel, by decide, by decide +kernel, by decide +kernel, ?_,
    by decide +kernel, by decide +kernel, by decide +kernel, by decide +kernel⟩
  intro x hx
  simp only [List.cons_append, List.nil_append, List.mem_cons, List.not_mem_nil, or_false] at hx
  rcases hx with rfl | rfl | rfl
  · exact notAnonymous_of_event (p := ⟨1, bytes!"b was nailed by a\n"⟩) (more := []) (o := .frag chars!"a" chars!"b") (by decide)
      rfl (by decide) (by decide) (by decide +kernel) (by intro v h; cases h)
  · exact notAnonymous_of_event (p := ⟨1, bytes!"c was nailed by a\n"⟩) (more := []) (o := .frag chars!"a" chars!"c") (by decide)
      rfl (by decide) (by decide) (by decide +kernel) (by intro v h; cases h)
  · exact notAnonymous_of_event (p := ⟨1, bytes!"a suicides\n"⟩) (more := []) (o := .suicide chars!"a") (by decide)
      rfl (by decide) (by decide) (by decide +kernel) (by intro v h; cases h)

/-- The hypotheses of C81 are met by a demo with three samples of player 0 and one of player 3. -/
example : Splits (Spec.encode Example.pingFrames) Example.pingFrames [] ∧
    Stops (Spec.encode Example.pingFrames).length [] ∧
    (∃ uss, List.Forall₂ (fun f us => LeadingPings f.body us) Example.pingFrames uss ∧
      ∀ p, (samplesOf (sampledPings uss) p).sum < 65536) ∧
    ∃ m, pingPerPlayerNumber Example.debug (Spec.encode Example.pingFrames) = .ok m ∧ m.get 0 = some 25 :=
  ⟨⟨by simp, by decide +kernel, noFrame_iff.mpr (by simp [Spec.announced])⟩, by decide,
    ⟨_, Example.pingFrames_updates, fun p => Nat.lt_of_le_of_lt (samplesOf_sum_le _ p) (by decide)⟩,
    ⟨[(0, 25), (3, 256)], by decide +kernel, rfl⟩⟩

/-- The hypotheses of C81 for teams are met by a team of two players. -/
example : ∃ ts, teamsFromPlayers Example.debug [Example.player chars!"a" chars!"red" (0, 0) 0 25,
      Example.player chars!"b" chars!"red" (0, 0) 0 28] = .ok ts ∧
    ts.map (fun t => (t.ping, totalPing t.players)) = [(27, 53)] :=
  ⟨_, rfl, by decide +kernel⟩

end Mvd

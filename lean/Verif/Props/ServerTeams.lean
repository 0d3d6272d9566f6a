import Verif.Props.Server
import Verif.Props.Timeline

/-! C97: the line-ups of the teams. -/

namespace Mvd
open Spec

private theorem totalPing_le : ∀ (l : List Player) (n : Nat), (∀ p ∈ l, p.ping ≤ n) → totalPing l ≤ l.length * n
  | [], _, _ => by simp [totalPing]
  | p :: l, n, h => by
    have h1 := h p (by simp)
    have h2 := totalPing_le l n fun q hq => h q (by simp [hq])
    simp only [totalPing, List.map_cons, List.sum_cons, List.length_cons, Nat.succ_mul] at h2 ⊢
    omega

private theorem forall₂_right {α β : Type} {R : α → β → Prop} : ∀ {as : List α} {bs : List β}, List.Forall₂ R as bs → ∀ {b}, b ∈ bs →
    ∃ a ∈ as, R a b
  | _, _, .cons h t, b, hb => by
    rcases List.mem_cons.mp hb with rfl | hb
    · exact ⟨_, by simp, h⟩
    · obtain ⟨a, ha, hr⟩ := forall₂_right t hb
      exact ⟨a, by simp [ha], hr⟩

/-- C97: the line-ups. Without match stats and with at most 128 players, a team has its players in order of rank, their mean
ping rounded half up, and a color that no other color of the team outnumbers, that of the first of at most two players. The teams
come in the order of their lower-cased names. -/
theorem C97_lineup (g : Env) (m : ServerMatch) (data : Bytes) (fs : List Frame) (h : Served g m data fs)
    (hk : ¬ Occurs statsMarker data) (hn : (inGame m.roster).length ≤ 128) :
    ∃ l ts, players g data = .ok l ∧ teams g data = .ok ts ∧
      (∀ t ∈ ts, t.players = l.filter (fun p => p.team = t.name) ∧ t.players ≠ [] ∧
        (t.ping : ℚ) ≤ ((t.players.map (·.ping)).sum : ℕ) / (t.players.length : ℚ) + 1 / 2 ∧
        ((t.players.map (·.ping)).sum : ℕ) / (t.players.length : ℚ) + 1 / 2 < t.ping + 1 ∧
        (t.players.length ≤ 2 → t.players.head?.map (·.color) = some t.color) ∧
        (3 ≤ t.players.length → ∀ d, (t.players.filter fun p => p.color = d).length ≤ (t.players.filter fun p => p.color = t.color).length)) ∧
      ts.Pairwise fun a b => Before (g.lowercase a.name) (g.lowercase b.name) ∨ g.lowercase a.name = g.lowercase b.name := by
  obtain ⟨ps, l, hps, hl, hperm, _⟩ := C97_players g m data fs h hk
  obtain ⟨ts, ht⟩ := (C97_teams g m data fs h hk).1 (by omega)
  have hts : teamsFromPlayers g l = .ok ts := by
    unfold teams at ht
    rwa [hl] at ht
  have hlen : l.length ≤ 128 := by rw [hperm.length_eq, ← hps.length_eq]; exact hn
  have hping : ∀ p ∈ l, p.ping ≤ 65535 := by
    intro p hp
    obtain ⟨c, _, hc⟩ := forall₂_right hps (hperm.mem_iff.mp hp)
    rw [hc.ping]
    have := h.low (UInt8.ofNat c.number)
    exact Nat.le_trans (Nat.div_le_self _ _) (by omega)
  refine ⟨l, ts, hl, ht, fun t htm => ?_, ?_⟩
  · obtain ⟨hm, hne⟩ := (C48_partition g l ts hts).1 t htm
    have hle : t.players.length ≤ 128 := by
      rw [hm]
      exact Nat.le_trans (List.length_filter_le _ _) hlen
    have hsum : totalPing t.players < 2 ^ 23 := by
      have := totalPing_le t.players 65535 fun p hp => hping p (List.mem_of_mem_filter (hm ▸ hp))
      have := Nat.mul_le_mul_right 65535 hle
      omega
    obtain ⟨_, h1, h2⟩ := C49_totals g l ts hts t htm |>.imp id fun x => x hsum
    obtain ⟨_, h3, h4⟩ := C51_color g l ts hts t htm
    exact ⟨hm, hne, h1, h2, h3, fun h5 d => h4 h5 (fun c => Nat.le_trans (List.length_filter_le _ _) (by omega)) d⟩
  · rw [List.pairwise_iff_getElem]
    intro i j hi hj hij
    exact C50_order g l ts hts i j hij hj

/-- The hypotheses are met (`Example.served_example`): two teams, of which one has a player who lost a point. -/
example : ¬ Occurs statsMarker (Example.served []) ∧ (inGame (Example.servedMatch []).roster).length = 3 ∧
    ((teams Example.debug (Example.served [])).bind fun ts => .ok (ts.map fun t => (t.name, t.frags, t.ping, t.players.map (·.name)))) =
      .ok [(chars!"blue", 0, 300, [chars!"c"]), (chars!"red", 0, 13, [chars!"a", chars!"b"])] := by
  exact ⟨by decide +kernel, by decide +kernel, by decide +kernel⟩

/-- Settings that say hoonymode. -/
def Example.hoony : Env := { Example.debug with settings := fun _ => ⟨some chars!"hoonymode", none, none, []⟩ }

/-- The hypotheses of `C97_hoonymode` and `C86_hoonymode` are met. -/
example : Served Example.hoony (Example.servedMatch []) (Example.served []) (Example.servedFrames []) ∧
    (Example.hoony.settings (Example.hoony.toUtf8 (Example.servedMatch []).info)).mode = some chars!"hoonymode" ∧
    countdownDuration Example.hoony (Example.served []) = .ok 0 ∧
    matchDuration Example.hoony (Example.served []) = demoDuration Example.debug (Example.served []) ∧
    countdownDuration Example.hoony Example.courseRecording.demo = .ok 0 ∧
    matchDuration Example.hoony Example.courseRecording.demo = .ok 1500000000 := by
  have h := Example.served_example
  exact ⟨⟨h.whole, h.size, h.header, h.slots, h.few, h.enlisted, h.names, h.told, h.pinged, h.some, h.low, h.dated, h.timed, h.short⟩,
    rfl, by decide +kernel, by decide +kernel, by decide +kernel, by decide +kernel⟩

end Mvd

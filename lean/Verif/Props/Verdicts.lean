import Verif.Props.Footprint
import Verif.Props.Players
import Verif.Props.Info

/-! C110: exactly which verdicts on a demo and which rankings are possible. -/

namespace Spec
open Mvd

/-- The numbers of a player in the match stats are 32-bit numbers. -/
def NumbersFit (k : KtxPlayer) : Prop := ∀ n ∈ [k.topColor, k.bottomColor, k.frags, k.ping], -2147483648 ≤ n ∧ n ≤ 2147483647

/-- The row of a player in a report made from match stats. -/
structure StatsRow (p : Player) : Prop where
  shirt : p.color.1 < 256
  pants : p.color.2 < 256
  low : -2147483648 ≤ p.frags
  high : p.frags ≤ 2147483647
  ping : p.ping < 2 ^ 32
  bot : p.ping = 10 → p.isBot = true
  login : p.authUsername ≠ some []
  country : p.authCc = none

end Spec

namespace Mvd
open Spec

/-- C110: a demo can be valid, paused and aborted or not in every combination, except valid and paused. -/
theorem C110_verdicts (g : Env) (valid paused aborted : Bool) :
    (∃ data, isValid g data = .ok valid ∧ isPaused data = paused ∧ isAborted data = aborted) ↔ ¬ (valid = true ∧ paused = true) := by
  constructor
  · rintro ⟨data, h1, h2, _⟩ ⟨rfl, rfl⟩
    rw [C11_valid_not_paused g data h1] at h2
    cases h2
  · intro h
    have key : ∃ data, isValid Example.debug data = .ok valid ∧ isPaused data = paused ∧ isAborted data = aborted := by
      match valid, paused, aborted, h with
      | true, true, _, h => exact absurd ⟨rfl, rfl⟩ h
      | true, false, false, _ => exact ⟨Example.validData, by decide +kernel⟩
      | true, false, true, _ =>
        exact ⟨Example.validData.take (Example.validData.length - Spec.endOfDemo.length) ++ MATCH_STOPPED_PRINT ++ Spec.endOfDemo,
          by decide +kernel⟩
      | false, false, false, _ => exact ⟨[], by decide +kernel⟩
      | false, false, true, _ => exact ⟨MATCH_STOPPED_PRINT, by decide +kernel⟩
      | false, true, false, _ => exact ⟨bytes!"a paused the game", by decide +kernel⟩
      | false, true, true, _ => exact ⟨bytes!"a paused the game" ++ MATCH_STOPPED_PRINT, by decide +kernel⟩
    obtain ⟨data, h1, h2⟩ := key
    exact ⟨data, by rw [C98_valid g Example.debug]; exact h1, h2⟩

/-- The entry of the match stats that leads to a row. -/
theorem statsRow_entry (p : Player) (h : StatsRow p) : ∃ k, NumbersFit k ∧ FromStats k p := by
  refine ⟨⟨p.name, p.team, p.color.1, p.color.2, p.frags, if p.ping < 2 ^ 31 then p.ping else (p.ping : Int) - 2 ^ 32, p.isBot,
    p.authUsername.getD []⟩, ?_, rfl, rfl, rfl, ?_, ?_, ?_, ?_, ?_, h.country⟩
  · intro n hn
    have h1 := h.shirt; have h2 := h.pants; have h3 := h.low; have h4 := h.high; have h5 := h.ping
    simp only [List.mem_cons, List.not_mem_nil, or_false] at hn
    rcases hn with rfl | rfl | rfl | rfl
    · omega
    · omega
    · omega
    · split <;> omega
  · have := h.shirt
    show (p.color.1 : Int) = (p.color.1 : Int) % 256
    omega
  · have := h.pants
    show (p.color.2 : Int) = (p.color.2 : Int) % 256
    omega
  · have := h.ping
    show (p.ping : Int) = (if p.ping < 2 ^ 31 then (p.ping : Int) else (p.ping : Int) - 2 ^ 32) % 2 ^ 32
    split <;> omega
  · show p.isBot = true ↔ p.isBot = true ∨ (if p.ping < 2 ^ 31 then (p.ping : Int) else (p.ping : Int) - 2 ^ 32) = 10
    refine ⟨.inl, ?_⟩
    rintro (hb | hb)
    · exact hb
    · have := h.ping
      refine h.bot ?_
      split at hb <;> omega
  · show p.authUsername = if p.authUsername.getD [] = [] then none else some (p.authUsername.getD [])
    have := h.login
    cases ha : p.authUsername with
    | none => rfl
    | some s =>
      rw [ha] at this
      have hs : s ≠ [] := fun e => this (by rw [e])
      simp [hs]

theorem fromStats_row {k : KtxPlayer} {p : Player} (hk : NumbersFit k) (h : FromStats k p) : StatsRow p := by
  obtain ⟨_, _, hf, h1, h2, h3, h4, h5, h6⟩ := h
  have hfr := hk k.frags (by simp)
  refine ⟨by omega, by omega, by omega, by omega, by omega, ?_, ?_, h6⟩
  · intro he
    have hp := hk k.ping (by simp)
    exact h4.mpr (.inr (by omega))
  · rw [h5]
    split
    · simp
    · next hne => simpa using hne

/-- C110: a list is what `players_from_ktxstats` reports of some match stats exactly if it is ranked and its rows are
possible. -/
theorem C110_ranking (l : List Player) :
    (∃ stats : KtxStats, (∀ k ∈ stats.players, NumbersFit k) ∧ playersFromKtxstats stats = .ok l) ↔
    (l.Pairwise fun p q => ¬ Outranks q p) ∧ ∀ p ∈ l, StatsRow p := by
  constructor
  · rintro ⟨stats, hk, h⟩
    obtain ⟨ps, l', hps, hl, h1, h2, h3⟩ := C44_from_stats stats
    rw [h] at hl
    cases hl
    refine ⟨h2, fun p hp => ?_⟩
    have hp := h1.mem_iff.mp hp
    clear h h1 h2 h3
    generalize stats.players = ks at hps hk
    induction hps with
    | nil => simp at hp
    | @cons k q ks qs hkq _ ih =>
      rcases List.mem_cons.mp hp with rfl | hp
      · exact fromStats_row (hk k (by simp)) hkq
      · exact ih hp fun k hk' => hk k (by simp [hk'])
  · rintro ⟨hs, hr⟩
    have : ∃ ks : List KtxPlayer, (∀ k ∈ ks, NumbersFit k) ∧ List.Forall₂ FromStats ks l := by
      clear hs
      induction l with
      | nil => exact ⟨[], by simp, .nil⟩
      | cons p l ih =>
        obtain ⟨ks, h1, h2⟩ := ih fun q hq => hr q (by simp [hq])
        obtain ⟨k, h3, h4⟩ := statsRow_entry p (hr p (by simp))
        refine ⟨k :: ks, fun j hj => ?_, .cons h4 h2⟩
        rcases List.mem_cons.mp hj with rfl | hj
        · exact h3
        · exact h1 j hj
    obtain ⟨ks, h1, h2⟩ := this
    exact ⟨⟨[], [], 0, ks⟩, h1, C44_unique _ l l h2 ⟨.refl _, hs, fun _ _ => rfl⟩⟩

/-- A possible ranking of two, and an impossible one. -/
example : (∃ stats : KtxStats, (∀ k ∈ stats.players, NumbersFit k) ∧ playersFromKtxstats stats =
      .ok [Player.ofKtx ⟨chars!"a", [], 0, 4, 7, -1, false, chars!"x"⟩, Player.ofKtx ⟨chars!"b", [], 0, 4, -7, 10, false, []⟩]) ∧
    ¬ ∃ stats : KtxStats, (∀ k ∈ stats.players, NumbersFit k) ∧ playersFromKtxstats stats =
      .ok [Player.ofKtx ⟨chars!"b", [], 0, 4, -7, 10, false, []⟩, Player.ofKtx ⟨chars!"a", [], 0, 4, 7, -1, false, chars!"x"⟩] := by
  constructor
  · refine ⟨⟨[], [], 0, [⟨chars!"b", [], 0, 4, -7, 10, false, []⟩, ⟨chars!"a", [], 0, 4, 7, -1, false, chars!"x"⟩]⟩, ?_, by decide +kernel⟩
    intro k hk n hn
    simp only [List.mem_cons, List.not_mem_nil, or_false] at hk
    rcases hk with rfl | rfl <;> simp only [List.mem_cons, List.not_mem_nil, or_false] at hn <;> omega
  · intro h
    have := List.rel_of_pairwise_cons ((C110_ranking _).mp h).1 (List.mem_singleton.mpr rfl)
    exact this (.inl (by decide))

end Mvd

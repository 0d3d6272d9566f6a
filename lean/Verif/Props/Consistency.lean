import Verif.Props.Teams

/-! C62: what different functions say about the same demo. -/

namespace Mvd
open Spec

theorem fromClient_map {α : Type} {frags : Str → Option Int} {pings : UInt8 → Option Nat} {cs : List Client} {ps : List Player}
    (h : List.Forall₂ (FromClient frags pings) cs ps) (a : Client → α) (b : Player → α)
    (hab : ∀ c p, FromClient frags pings c p → b p = a c) : cs.map a = ps.map b := by
  induction h with
  | nil => rfl
  | cons h _ ih => rw [List.map_cons, List.map_cons, ih, hab _ _ h]

/-- C62: without match stats, and with at most 256 clients, `players` are the `player_names`, `team_names` are the names of
`teams`, and `has_human_players` tells whether one of them is no bot. -/
theorem C62_without_stats (g : Env) (hsort : ∀ l, (g.unicodeSort l).Perm l) (data : Bytes) (e : Err) (cs : List Client)
    (l : List Player) (hk : ktxstatsV3 g data = .err e) (hc : clients g data = .ok cs) (hlen : cs.length ≤ 256)
    (hl : players g data = .ok l) :
    (∃ names, playerNames g data = .ok names ∧ names.Perm (l.map (·.name))) ∧
    (∀ ts, teams g data = .ok ts → ∃ names, teamNames g data = .ok names ∧ ∀ t, t ∈ names ↔ t ∈ ts.map (·.name)) ∧
    (∃ b, hasHumanPlayers g data = .ok b ∧ (b = true ↔ ∃ p ∈ l, p.isBot = false)) := by
  have hpl := hl
  rw [C43_from_messages g data e hk] at hl
  obtain ⟨cs', pings, frags, hc', hp, hf⟩ := (C45_failure g data).2.2 l hl
  rw [hc] at hc'
  cases hc'
  obtain ⟨ps, l', hfr, hl', hperm, _⟩ := C45_from_messages g data cs pings frags hc hp hf
  rw [hl] at hl'
  cases hl'
  rw [C45_all g data cs hc hlen] at hfr
  have hpc : playerClients g data = .ok (cs.filter fun c => c.isSpectator = false) := by
    unfold playerClients
    rw [hc]
    simp only [R.bind, R.ok.injEq]
    refine List.filter_congr fun c _ => ?_
    cases c.isSpectator <;> rfl
  obtain ⟨ss, hss⟩ : ∃ ss, spectatorClients g data = .ok ss := by
    unfold spectatorClients
    rw [hc]
    exact ⟨_, rfl⟩
  generalize cs.filter (fun c => c.isSpectator = false) = pcs at hpc hfr
  obtain ⟨⟨names, hn, hnp⟩, _, tnames, ht, htm, _⟩ := C22_names g hsort data pcs ss hpc hss
  have hname := fromClient_map hfr (·.name) (·.name) fun _ _ h => h.1
  have hteam := fromClient_map hfr (·.team) (·.team) fun _ _ h => h.2.1
  have hbot := fromClient_map hfr (·.isBot) (·.isBot) fun _ _ h => h.2.2.2.1
  refine ⟨⟨names, hn, ?_⟩, ?_, ?_⟩
  · rw [hname] at hnp
    exact hnp.trans (hperm.symm.map _)
  · intro ts hts
    refine ⟨tnames, ht, fun t => ?_⟩
    unfold teams at hts
    rw [hpl] at hts
    obtain ⟨h1, _, h3⟩ := C48_partition g l ts hts
    rw [htm]
    have : (∃ p ∈ pcs, p.team = t) ↔ ∃ p ∈ l, p.team = t := by
      have h1 : (∃ p ∈ pcs, p.team = t) ↔ t ∈ pcs.map (·.team) := by simp
      have h2 : (∃ p ∈ ps, p.team = t) ↔ t ∈ ps.map (·.team) := by simp
      rw [h1, hteam, ← h2]
      simp [hperm.mem_iff]
    rw [this]
    constructor
    · rintro ⟨p, hp, rfl⟩
      obtain ⟨t, ht, hpt, _⟩ := h3 p hp
      rw [(h1 t ht).1] at hpt
      have := (List.mem_filter.mp hpt).2
      exact List.mem_map.mpr ⟨t, ht, by simpa using (of_decide_eq_true this).symm⟩
    · intro hm
      obtain ⟨t, ht, rfl⟩ := List.mem_map.mp hm
      obtain ⟨e, hne⟩ := h1 t ht
      obtain ⟨p, hp⟩ := List.exists_mem_of_ne_nil _ hne
      rw [e] at hp
      have := List.mem_filter.mp hp
      exact ⟨p, this.1, by simpa using this.2⟩
  · obtain ⟨⟨b, hb, hb'⟩, _, _⟩ := C23_bots_humans g data pcs hpc
    refine ⟨b, hb, hb'.trans ?_⟩
    have h1 : (∃ p ∈ pcs, p.isBot = false) ↔ false ∈ pcs.map (·.isBot) := by simp
    have h2 : (∃ p ∈ ps, p.isBot = false) ↔ false ∈ ps.map (·.isBot) := by simp
    rw [h1, hbot, ← h2]
    simp [hperm.mem_iff]

/-- The hypotheses are met by a demo with three players in two teams. -/
example : ktxstatsV3 Example.debug (Spec.encode Example.scoreFrames) = .err .ktxstatsNotFound ∧
    clients Example.debug (Spec.encode Example.scoreFrames) = .ok Example.team ∧ Example.team.length ≤ 256 ∧
    (∃ l, players Example.debug (Spec.encode Example.scoreFrames) = .ok l ∧ l.length = 3) ∧
    (∃ ts, teams Example.debug (Spec.encode Example.scoreFrames) = .ok ts ∧ ts.length = 2) := by
  refine ⟨by decide +kernel, by decide +kernel, by decide +kernel, ?_, ?_⟩
  · have : (match players Example.debug (Spec.encode Example.scoreFrames) with | .ok l => l.length | _ => 0) = 3 := by
      decide +kernel
    cases h : players Example.debug (Spec.encode Example.scoreFrames) with
    | ok l => rw [h] at this; exact ⟨l, rfl, this⟩
    | _ => rw [h] at this; cases this
  · have : (match teams Example.debug (Spec.encode Example.scoreFrames) with | .ok l => l.length | _ => 0) = 2 := by
      decide +kernel
    cases h : teams Example.debug (Spec.encode Example.scoreFrames) with
    | ok l => rw [h] at this; exact ⟨l, rfl, this⟩
    | _ => rw [h] at this; cases this

end Mvd

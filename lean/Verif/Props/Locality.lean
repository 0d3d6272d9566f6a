import Verif.Props.Clients

/-! C63: client information is found near the spawn command; what follows does not matter. -/

namespace Mvd
open Spec

/-- A first occurrence stays the first one when data is appended. -/
theorem firstAt_append {α : Type} {needle a b : List α} {i : Nat} (h : FirstAt needle a i) : FirstAt needle (a ++ b) i := by
  refine ⟨occursAt_append h.1, fun j hj => ?_⟩
  refine Nat.le_of_not_lt fun hlt => ?_
  have hb := h.1.bound
  exact absurd (h.2 j (occursAt_of_append_left hj (by omega))) (by omega)

theorem window_append {a b : Bytes} {o n : Nat} (h : o + n ≤ a.length) : ((a ++ b).drop o).take n = (a.drop o).take n := by
  rw [List.drop_append_of_le_length (by omega), List.take_append_of_le_length (by simp; omega)]

theorem nextClient_append {a b : Bytes} {o f t : Nat} (h : o + 768 ≤ a.length) :
    NextClient (a ++ b) o f t ↔ NextClient a o f t := by
  unfold NextClient
  rw [window_append (show o + 512 ≤ a.length by omega)]
  have key : ∀ k, FirstAt nameKey ((a.drop o).take 512) k → f ≤ o + k →
      (NulDelimited (a ++ b) f t ↔ NulDelimited a f t) := by
    intro k hk hf
    have hb := hk.1.bound
    simp only [List.length_take, List.length_drop, nameKey, List.length_cons, List.length_nil] at hb
    have get : ∀ j, j < a.length → (a ++ b)[j]? = a[j]? := fun j hj => List.getElem?_append_left hj
    constructor
    · intro ⟨h1, h2, h3, h4, h5⟩
      refine ⟨⟨h1.1, ?_⟩, ?_, fun k h6 h7 => ?_, h4, h5⟩
      · rw [← get _ (by omega)]; exact h1.2
      · rw [← get _ (by omega)]; exact h2
      · rw [← get _ (by omega)]; exact h3 k h6 h7
    · intro ⟨h1, h2, h3, h4, h5⟩
      refine ⟨⟨h1.1, ?_⟩, ?_, fun k h6 h7 => ?_, h4, h5⟩
      · rw [get _ (by omega)]; exact h1.2
      · rw [get _ (by omega)]; exact h2
      · rw [get _ (by omega)]; exact h3 k h6 h7
  constructor
  · rintro ⟨k, h1, h2, h3, h4⟩
    exact ⟨k, h1, h2, h3, (key k h1 h2).mp h4⟩
  · rintro ⟨k, h1, h2, h3, h4⟩
    exact ⟨k, h1, h2, h3, (key k h1 h2).mpr h4⟩

theorem scanStep_append {a b : Bytes} {o : Nat} (h : o + 768 ≤ a.length) : scanStep (a ++ b) o = scanStep a o := by
  cases hs : scanStep a o with
  | none =>
    rw [scanStep_none] at hs ⊢
    exact fun f t hn => hs f t ((nextClient_append h).mp hn)
  | some p => exact scanStep_of ((nextClient_append h).mpr (scanStep_some (f := p.1) (t := p.2) hs))

theorem clientScan_append (g : Env) {a b : Bytes} {limit : Nat} (hlim : limit + 768 ≤ a.length) :
    ∀ (fuel fuel' offset : Nat) (result : List Str), (a ++ b).length < offset + fuel → a.length < offset + fuel' →
      offset ≤ limit → clientScan g (a ++ b) limit fuel offset result = clientScan g a limit fuel' offset result
  | 0, _, offset, _, hf, _, ho => by simp at hf; omega
  | _ + 1, 0, offset, _, _, hf, ho => by omega
  | fuel + 1, fuel' + 1, offset, result, hf, hf', ho => by
    rw [clientScan_step, clientScan_step, if_pos (by simp; omega), if_pos (by omega), scanStep_append (by omega)]
    cases hs : scanStep a offset with
    | none => rfl
    | some p =>
      obtain ⟨f, t⟩ := p
      have hn := scanStep_some hs
      have hp := nextClient_progress hn
      obtain ⟨k, hk, hfk, _, hd⟩ := hn
      have hb := hk.1.bound
      simp only [List.length_take, List.length_drop, nameKey, List.length_cons, List.length_nil] at hb
      have hl := hd.long
      have hsh := hd.short
      simp only [window_append (show f + (t - f) ≤ a.length by omega)]
      split
      · rfl
      · exact clientScan_append g hlim fuel fuel' t _ (by omega) (by omega) (by omega)

/-- C63: with 24 * 512 + 768 bytes present from the spawn command on, appending data changes no client string, -/
theorem C63_client_strings (g : Env) (data more : Bytes) (o : Nat) (hs : FirstAt spawnCommand data o)
    (hl : o + 13056 ≤ data.length) : clientinfoStrings g (data ++ more) = clientinfoStrings g data := by
  unfold clientinfoStrings
  rw [spawn_eq, find_eq_some_iff.mpr hs, find_eq_some_iff.mpr (firstAt_append hs)]
  exact clientScan_append g (by simp [MAX_PLAYERS, MAX_LOOKAHEAD]; omega) _ _ _ _ (by omega) (by omega) (by omega)

/-- C63: nor any client, name or team. -/
theorem C63_clients (g : Env) (data more : Bytes) (o : Nat) (hs : FirstAt spawnCommand data o)
    (hl : o + 13056 ≤ data.length) :
    clientinfo g (data ++ more) = clientinfo g data ∧ clients g (data ++ more) = clients g data ∧
    playerNames g (data ++ more) = playerNames g data ∧ spectatorNames g (data ++ more) = spectatorNames g data ∧
    teamNames g (data ++ more) = teamNames g data ∧ hasHumanPlayers g (data ++ more) = hasHumanPlayers g data := by
  have h := C63_client_strings g data more o hs hl
  have h1 : clientinfo g (data ++ more) = clientinfo g data := by unfold clientinfo; rw [h]
  have h2 : clients g (data ++ more) = clients g data := by unfold clients; rw [h1]
  have h3 : playerClients g (data ++ more) = playerClients g data := by unfold playerClients; rw [h2]
  have h4 : spectatorClients g (data ++ more) = spectatorClients g data := by unfold spectatorClients; rw [h2]
  refine ⟨h1, h2, ?_, ?_, ?_, ?_⟩
  · unfold playerNames; rw [h3]
  · unfold spectatorNames; rw [h4]
  · unfold teamNames; rw [h3]
  · unfold hasHumanPlayers; rw [h3]

/-- The hypotheses are met by a spawn command, a userinfo string and the rest of a demo, and the string is found. -/
example : FirstAt spawnCommand (spawnCommand ++ [0] ++ bytes!"\\name\\nig\\team\\x" ++ List.replicate 13100 0) 0 ∧
    0 + 13056 ≤ (spawnCommand ++ [0] ++ bytes!"\\name\\nig\\team\\x" ++ List.replicate 13100 0).length ∧
    clientinfoStrings Example.debug (spawnCommand ++ [0] ++ bytes!"\\name\\nig\\team\\x" ++ List.replicate 13100 0) =
      .ok [chars!"\\name\\nig\\team\\x"] := by
  refine ⟨⟨⟨[], _, rfl, rfl⟩, fun j _ => Nat.zero_le j⟩, by decide +kernel, by decide +kernel⟩

end Mvd

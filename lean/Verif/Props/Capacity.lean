import Verif.Props.Size
import Verif.Props.Teams
import Verif.Lemmas.Scan

/-! C75: how many clients there can be, and how long the match stats. -/

namespace Mvd
open Spec

theorem nextClient_length {data : Bytes} {o f t : Nat} (h : NextClient data o f t) : 1 ≤ f ∧ f + 7 ≤ t := by
  obtain ⟨k, _, _, _, hd⟩ := h
  exact ⟨hd.before.1, hd.short⟩

/-- From a terminator on, every client string takes at least eight bytes. -/
theorem clientScan_size (g : Env) (data : Bytes) (limit : Nat) : ∀ (fuel offset : Nat) (result l : List Str),
    data[offset]? = some 0 → offset < limit → clientScan g data limit fuel offset result = .ok l →
    8 * l.length + offset ≤ 8 * result.length + limit + 8 ∧ 8 * l.length + offset ≤ 8 * result.length + data.length
  | 0, _, _, _, _, _, h => by simp [clientScan] at h
  | fuel + 1, offset, result, l, h0, hl, h => by
    rw [clientScan_step] at h
    split at h
    · rename_i hle
      split at h
      · cases h
        omega
      · rename_i f t hst
        have hn := scanStep_some hst
        have h1 := nextClient_after hn h0
        have h2 := nextClient_length hn
        split at h
        · cases h
          simp only [List.length_append, List.length_singleton]
          omega
        · have ht : data[t]? = some 0 := by
            obtain ⟨k, _, _, _, hd⟩ := hn
            exact hd.after
          have := clientScan_size g data limit fuel t _ l ht (by omega) h
          simp only [List.length_append, List.length_singleton] at this
          omega
    · cases h

/-- C75: there are at most 1537 client strings, and they take at least eight bytes each. -/
theorem C75_clients (g : Env) (data : Bytes) (l : List Str) (h : clientinfoStrings g data = .ok l) :
    l.length ≤ 1537 ∧ 8 * l.length ≤ data.length := by
  unfold clientinfoStrings at h
  cases hf : find CMD_SPAWN data with
  | none => rw [hf] at h; cases h
  | some o =>
    rw [hf] at h
    simp only [MAX_PLAYERS, MAX_LOOKAHEAD, clientScan_step] at h
    split at h
    · rename_i hle
      split at h
      · cases h
        simp
      · rename_i f t hst
        have hn := scanStep_some hst
        have h1 := nextClient_progress hn
        have h2 := nextClient_length hn
        have h3 := nextClient_bound hn
        split at h
        · cases h
          simp only [List.nil_append, List.length_singleton]
          omega
        · have ht : data[t]? = some 0 := by
            obtain ⟨k, _, _, _, hd⟩ := hn
            exact hd.after
          have := clientScan_size g data _ _ t _ l ht (by omega) h
          simp only [List.nil_append, List.length_singleton] at this
          omega
    · cases h

/-- C75: the same of the clients. -/
theorem C75_people (g : Env) (data : Bytes) (cs : List Client) (h : clients g data = .ok cs) :
    cs.length ≤ 1537 ∧ 8 * cs.length ≤ data.length := by
  unfold clients clientinfo at h
  cases hc : clientinfoStrings g data with
  | ok l =>
    rw [hc] at h
    simp only [R.bind] at h
    cases h
    simpa using C75_clients g data l hc
  | _ => rw [hc] at h; cases h

theorem foldl_set_length {α β κ : Type} [DecidableEq κ] (k : α → κ) (v : α → β) : ∀ (l : List α) (m : Map κ β),
    (l.foldl (fun m a => Map.set m (k a) (v a)) m).length ≤ m.length + l.length
  | [], m => by simp
  | a :: l, m => by
    have h1 := foldl_set_length k v l (Map.set m (k a) (v a))
    have h2 : (Map.set m (k a) (v a)).length ≤ m.length + 1 := by
      clear h1
      induction m with
      | nil => simp [Map.set]
      | cons e m ih =>
        simp only [Map.set]
        split
        · simp
        · simp only [List.length_cons]
          omega
    simp only [List.foldl_cons, List.length_cons]
    omega

theorem foldl_set_keys {α β : Type} (k : α → Nat) (v : α → β) : ∀ (l : List α) (m : Map Nat β), (∀ a ∈ l, k a < 256) →
    (∀ n ∈ Map.keys m, n < 256) → ∀ n ∈ Map.keys (l.foldl (fun m a => Map.set m (k a) (v a)) m), n < 256
  | [], m, _, h2 => h2
  | a :: l, m, hk, h2 => by
    refine foldl_set_keys k v l _ (fun b hb => hk b (List.mem_cons_of_mem _ hb)) ?_
    intro n hn
    rw [Map.keys_set] at hn
    split at hn
    · exact h2 n hn
    · rw [List.mem_append, List.mem_singleton] at hn
      rcases hn with hn | rfl
      · exact h2 n hn
      · exact hk a List.mem_cons_self

theorem forR_append_length {α β : Type} (f : α → R β) : ∀ (l : List α) (acc out : List β),
    forR (fun (acc : List β) a => (f a).bind fun t => .ok (acc ++ [t])) acc l = .ok out → out.length = acc.length + l.length
  | [], acc, out, h => by
    cases h
    simp
  | a :: l, acc, out, h => by
    simp only [forR] at h
    cases hf : f a with
    | ok t =>
      rw [hf] at h
      simp only [R.bind] at h
      have := forR_append_length f l (acc ++ [t]) out h
      simp only [List.length_append, List.length_cons, List.length_nil] at this ⊢
      omega
    | _ => rw [hf] at h; cases h

theorem teamMap_length : ∀ (ps : List Player) (m : Map Str (List Player)),
    (ps.foldl (fun tmap p => Map.set tmap p.team ((Map.get tmap p.team).getD [] ++ [p])) m).length ≤ m.length + ps.length
  | [], m => by simp
  | p :: ps, m => by
    have h1 := teamMap_length ps (Map.set m p.team ((Map.get m p.team).getD [] ++ [p]))
    have h2 := set_length m p.team ((Map.get m p.team).getD [] ++ [p])
    simp only [List.foldl_cons, List.length_cons]
    omega

/-- C75: players found by parsing are at most 256, and at most one for eight bytes. -/
theorem C75_players (g : Env) (data : Bytes) (ps : List Player) (h : playersFromParsing g data = .ok ps) :
    ps.length ≤ 256 ∧ 8 * ps.length ≤ data.length := by
  unfold playersFromParsing at h
  cases hc : clients g data with
  | ok cs =>
    rw [hc] at h
    simp only [R.bind] at h
    cases hp : pingPerPlayerNumber g data with
    | ok pings =>
      rw [hp] at h
      simp only at h
      cases hf : fragsPerPlayerName g data with
      | ok frags =>
        rw [hf] at h
        simp only at h
        cases h
        have hn : ∀ c ∈ cs, c.number < 256 := by
          intro c hcm
          unfold clients at hc
          cases hi : clientinfo g data with
          | ok infos =>
            rw [hi] at hc
            simp only [R.bind] at hc
            cases hc
            obtain ⟨x, _, rfl⟩ := List.mem_map.mp hcm
            simp only [asU8]
            omega
          | _ => rw [hi] at hc; cases hc
        have hl := (C75_people g data cs hc).2
        rw [(sortBy_perm _ _).length_eq, List.length_map, (g.order_perm 1 _).length_eq]
        have h1 := foldl_set_length (fun c : Client => c.number) (playerOfClient frags pings)
          (cs.filter fun c => !c.isSpectator) []
        have h2 := foldl_set_keys (fun c : Client => c.number) (playerOfClient frags pings)
          (cs.filter fun c => !c.isSpectator) [] (fun c hc => hn c (List.mem_filter.mp hc).1) (by simp [Map.keys])
        have h3 := foldl_set_nodup (fun c : Client => c.number) (playerOfClient frags pings)
          (cs.filter fun c => !c.isSpectator) [] (by simp [Map.keys])
        have h4 := List.length_filter_le (fun c : Client => !c.isSpectator) cs
        have h5 := (List.subperm_of_subset h3 (l₂ := List.range 256) (fun n hn => List.mem_range.mpr (h2 n hn))).length_le
        simp only [Map.keys, List.length_map, List.length_range, List.length_nil] at h1 h5
        exact ⟨h5, by omega⟩
      | _ => rw [hf] at h; cases h
    | _ => rw [hp] at h; cases h
  | _ => rw [hc] at h; cases h

/-- C75: there are no more teams than players. -/
theorem C75_teams (g : Env) (data : Bytes) (ps : List Player) (ts : List Team) (hp : players g data = .ok ps)
    (h : teams g data = .ok ts) : ts.length ≤ ps.length := by
  unfold teams at h
  rw [hp] at h
  simp only [R.bind, teamsFromPlayers] at h
  split at h <;> cases h
  rename_i ts' hf
  have h1 := forR_append_length (fun e : (Str × List Player) × Nat => Team.ofPlayers g (3 + e.2) e.1.2) _ [] ts' hf
  rw [(sortBy_perm _ _).length_eq, h1, List.length_zipIdx, (g.order_perm 2 _).length_eq]
  have := teamMap_length ps []
  simpa [teamMap] using this

theorem addU_mod {c : Bool} {a b x : Nat} (h : addU c 64 a b = .ok x) : x = (a + b) % 2 ^ 64 := by
  unfold addU at h
  split at h
  · cases h
    rw [Nat.mod_eq_of_lt (by assumption)]
  · split at h
    · cases h
    · cases h
      rfl

theorem blockLoop_size (g : Env) (data : Bytes) (hd : data.length < 2 ^ 63) : ∀ (fuel offset : Nat) (content out : Bytes),
    blockLoop g data fuel offset content = .ok out →
    out.length ≤ content.length + (data.length - (offset + 18) % 2 ^ 64)
  | 0, _, _, _, h => by simp [blockLoop] at h
  | fuel + 1, offset, content, out, h => by
    simp only [blockLoop] at h
    cases ha : addU g.checks 64 offset MULTI_HEADER_SIZE with
    | ok start =>
      rw [ha] at h
      simp only [R.bind] at h
      cases hs : sliceFrom data start with
      | ok tail =>
        rw [hs] at h
        simp only at h
        cases hb : BlockInfo.tryFrom g tail with
        | ok info =>
          rw [hb] at h
          simp only at h
          split at h
          · cases h
            omega
          · cases hp : addU g.checks 64 offset TOTAL_HEADER_SIZE with
            | ok pos =>
              rw [hp] at h
              simp only at h
              have hpos : pos = (offset + 18) % 2 ^ 64 := addU_mod hp
              rw [← hpos]
              cases hst : addU g.checks 64 pos info.bodySize with
              | ok stop =>
                rw [hst] at h
                simp only at h
                by_cases hr : pos ≤ stop ∧ stop ≤ data.length
                · rw [slice_ok hr.1 hr.2] at h
                  simp only at h
                  split at h
                  · cases h
                    simp only [List.length_append, List.length_take, List.length_drop]
                    omega
                  · have := blockLoop_size g data hd fuel stop _ out h
                    rw [Nat.mod_eq_of_lt (by omega : stop + 18 < 2 ^ 64)] at this
                    simp only [List.length_append, List.length_take, List.length_drop] at this
                    omega
                · unfold slice at h
                  rw [if_neg hr] at h
                  cases h
              | _ => rw [hst] at h; cases h
            | _ => rw [hp] at h; cases h
        | err e =>
          rw [hb] at h
          cases h
          omega
        | _ => rw [hb] at h; cases h
      | _ => rw [hs] at h; cases h
    | _ => rw [ha] at h; cases h

/-- C75: the text of the match stats is no longer than the data. -/
theorem C75_stats (g : Env) (data : Bytes) (hd : data.length < 2 ^ 63) (s : Str) (h : ktxstatsString g data = .ok s) :
    (utf8 s).length ≤ data.length := by
  unfold ktxstatsString at h
  split at h
  · cases h
  · rename_i o _
    cases hs : subU g.checks 64 o TOTAL_HEADER_SIZE with
    | ok offset =>
      rw [hs] at h
      simp only [R.bind] at h
      cases hb : blockLoop g data (data.length + 1) offset [] with
      | ok content =>
        rw [hb] at h
        simp only at h
        cases hf : fromUtf8 content with
        | some s' =>
          rw [hf] at h
          cases h
          rw [fromUtf8_eq_some_iff.mp hf]
          have := blockLoop_size g data hd _ _ _ _ hb
          simp only [List.length_nil, Nat.zero_add] at this
          omega
        | none => rw [hf] at h; cases h
      | _ => rw [hb] at h; cases h
    | _ => rw [hs] at h; cases h

/-- The hypotheses are met by a demo with three clients, all of them players, in two teams. -/
example : ((clientinfoStrings Example.debug (Spec.encode Example.scoreFrames)).bind fun l => .ok l.length) = .ok 3 ∧
    clients Example.debug (Spec.encode Example.scoreFrames) = .ok Example.team ∧
    ((playersFromParsing Example.debug (Spec.encode Example.scoreFrames)).bind fun l => .ok l.length) = .ok 3 ∧
    ((players Example.debug (Spec.encode Example.scoreFrames)).bind fun l => .ok l.length) = .ok 3 ∧
    ((teams Example.debug (Spec.encode Example.scoreFrames)).bind fun l => .ok l.length) = .ok 2 := by decide +kernel

/-- The hypotheses are met by match stats in two blocks. -/
example : Example.statsData.length < 2 ^ 63 ∧ ktxstatsString Example.debug Example.statsData = .ok Example.statsString := by
  decide +kernel

end Mvd

import Verif.Lemmas.Reorder
import Verif.Lemmas.Sort

/-! Players: hash maps and iteration order. -/

namespace Mvd
open Spec

section
variable {K V α : Type} [DecidableEq K]

/-- Maps with the same lookups have the same entries. -/
theorem map_perm {m m' : Map K V} (h : m.keys.Nodup) (h' : m'.keys.Nodup) (hg : ∀ k, m.get k = m'.get k) : m.Perm m' := by
  have nd : ∀ {m : Map K V}, m.keys.Nodup → List.Nodup m := by
    intro m h
    exact List.Pairwise.of_map Prod.fst (fun a b hab e => hab (by rw [e])) h
  refine (List.perm_ext_iff_of_nodup (nd h) (nd h')).mpr ?_
  rintro ⟨k, v⟩
  rw [Map.mem_iff_get h, Map.mem_iff_get h', hg]

theorem mem_latest_key (key : α → K) : ∀ (l : List α) (k : K), (∃ a ∈ latest key l, key a = k) ↔ ∃ a ∈ l, key a = k
  | [], k => by simp [latest]
  | a :: t, k => by
    rw [latest]
    split
    · rename_i h
      rw [mem_latest_key key t k]
      constructor
      · rintro ⟨b, hb, e⟩; exact ⟨b, List.mem_cons_of_mem _ hb, e⟩
      · rintro ⟨b, hb, e⟩
        rcases List.mem_cons.mp hb with rfl | hb
        · obtain ⟨c, hc, e'⟩ := h
          exact ⟨c, hc, e'.trans e⟩
        · exact ⟨b, hb, e⟩
    · simp only [List.mem_cons, exists_eq_or_imp, mem_latest_key key t k]

theorem latest_nodup (key : α → K) : ∀ l : List α, ((latest key l).map key).Nodup
  | [] => by simp [latest]
  | a :: t => by
    rw [latest]
    split
    · exact latest_nodup key t
    · rename_i h
      rw [List.map_cons, List.nodup_cons]
      refine ⟨fun hm => h ?_, latest_nodup key t⟩
      obtain ⟨b, hb, e⟩ := List.mem_map.mp hm
      exact (mem_latest_key key t (key a)).mp ⟨b, hb, e⟩

theorem latest_of_nodup (key : α → K) : ∀ l : List α, (l.map key).Nodup → latest key l = l
  | [], _ => rfl
  | a :: t, h => by
    rw [List.map_cons, List.nodup_cons] at h
    rw [latest, if_neg, latest_of_nodup key t h.2]
    rintro ⟨b, hb, e⟩
    exact h.1 (List.mem_map.mpr ⟨b, hb, e⟩)

theorem latest_sublist (key : α → K) : ∀ l : List α, (latest key l).Sublist l
  | [] => List.Sublist.slnil
  | a :: t => by
    rw [latest]
    split
    · exact (latest_sublist key t).cons a
    · exact (latest_sublist key t).cons_cons a

theorem foldl_latest (key : α → K) (val : α → V) : ∀ (l : List α) (m : Map K V) (k : K),
    (l.foldl (fun m a => Map.set m (key a) (val a)) m).get k =
      match Map.get ((latest key l).map fun a => (key a, val a)) k with
      | some v => some v
      | none => m.get k
  | [], m, k => rfl
  | a :: t, m, k => by
    rw [List.foldl_cons, foldl_latest key val t, latest]
    have hnone : ∀ {k}, Map.get ((latest key t).map fun a => (key a, val a)) k = none ↔ ¬ ∃ b ∈ t, key b = k := by
      intro k
      rw [Map.get_none_iff, ← mem_latest_key key t k]
      simp [Map.keys]
    by_cases h : ∃ b ∈ t, key b = key a
    · rw [if_pos h]
      by_cases hk : key a = k
      · have : Map.get ((latest key t).map fun a => (key a, val a)) k ≠ none := by
          rw [Ne, hnone, ← hk]
          exact fun hn => hn h
        cases hg : Map.get ((latest key t).map fun a => (key a, val a)) k with
        | none => exact absurd hg this
        | some v => rfl
      · cases Map.get ((latest key t).map fun a => (key a, val a)) k with
        | none => simp [Map.get_set, hk]
        | some v => rfl
    · rw [if_neg h]
      simp only [List.map_cons, Map.get]
      by_cases hk : key a = k
      · rw [if_pos hk, ← hk, hnone.mpr h]
        simp [Map.get_set]
      · rw [if_neg hk]
        cases Map.get ((latest key t).map fun a => (key a, val a)) k with
        | none => simp [Map.get_set, hk]
        | some v => rfl

theorem foldl_set_nodup (key : α → K) (val : α → V) : ∀ (l : List α) (m : Map K V), m.keys.Nodup →
    (Map.keys (l.foldl (fun m a => Map.set m (key a) (val a)) m)).Nodup
  | [], _, h => h
  | a :: t, m, h => foldl_set_nodup key val t _ (Map.nodup_set h _ _)

theorem foldl_set_perm (key : α → K) (val : α → V) (l : List α) :
    (l.foldl (fun m a => Map.set m (key a) (val a)) []).Perm ((latest key l).map fun a => (key a, val a)) := by
  refine map_perm (foldl_set_nodup key val l [] (by simp [Map.keys])) ?_ fun k => ?_
  · simp only [Map.keys, List.map_map]
    exact latest_nodup key l
  · rw [foldl_latest]
    cases Map.get ((latest key l).map fun a => (key a, val a)) k <;> rfl

end

/-- The pings as lookups, whatever the iteration order. -/
theorem ping_reorder (g o : Env) (data : Bytes) :
    (∃ m m', pingPerPlayerNumber g data = .ok m ∧ pingPerPlayerNumber (g.reorder o) data = .ok m' ∧ ∀ k, m.get k = m'.get k) ∨
    ((∀ m, pingPerPlayerNumber g data ≠ .ok m) ∧ pingPerPlayerNumber g data = pingPerPlayerNumber (g.reorder o) data) := by
  obtain ⟨fs, rest, hs⟩ := splits_exists _ data (Nat.le_refl _)
  obtain ⟨uss, hu⟩ := pings_exists fs
  by_cases hen : EnoughPings data.length rest uss
  · obtain ⟨n, ht⟩ := totalPings_eq g hs hen hu
    have ht' : totalPings (g.reorder o) data = _ := (totalPings_reorder g o data).trans ht
    by_cases hne : sampledPings uss = []
    · refine .inr ⟨?_, ?_⟩
      · intro m h
        unfold pingPerPlayerNumber at h
        rw [ht, hne] at h
        cases h
      · unfold pingPerPlayerNumber
        rw [ht, ht', hne]
        rfl
    · by_cases hp : ∃ p ∈ (sampledPings uss).map Prod.fst, averagePing g (samplesOf (sampledPings uss) p) = .panic
      · obtain ⟨p, hp, ha⟩ := hp
        have e := ping_panic g ht p hp ha
        have e' := ping_panic (g.reorder o) ht' p hp ((averagePing_reorder g o _).trans ha)
        exact .inr ⟨fun m h => (by rw [e] at h; cases h), e.trans e'.symm⟩
      · have ha : ∀ p ∈ (sampledPings uss).map Prod.fst, averagePing g (samplesOf (sampledPings uss) p) =
            .ok ((fun l => match averagePing g l with | .ok n => n | _ => 0) (samplesOf (sampledPings uss) p)) := by
          intro p hpm
          rcases averagePing_safe g (samplesOf (sampledPings uss) p) with ⟨n, hn⟩ | hn
          · simp only [hn]
          · exact absurd ⟨p, hpm, hn⟩ hp
        obtain ⟨m, hm, hg⟩ := ping_of_averages g (avg := fun l => match averagePing g l with | .ok n => n | _ => 0) ht hne ha
        obtain ⟨m', hm', hg'⟩ := ping_of_averages (g.reorder o)
          (avg := fun l => match averagePing g l with | .ok n => n | _ => 0) ht' hne
          (fun p hp => (averagePing_reorder g o _).trans (ha p hp))
        exact .inl ⟨m, m', hm, hm', fun k => (hg k).trans (hg' k).symm⟩
  · rcases stops_or_overruns (n := data.length) hs.2.2 with ⟨h1, _⟩ | ⟨h1, _⟩
    · exact absurd (.inl h1) hen
    · have h8 : (uss.filter fun us => us ≠ []).length < 8 := by
        refine Classical.byContradiction fun h => hen (.inr ⟨h1, by omega⟩)
      have e := totalPings_panic g hs h1 hu h8
      refine .inr ⟨?_, ?_⟩
      · intro m h
        unfold pingPerPlayerNumber at h
        rw [e] at h
        cases h
      · unfold pingPerPlayerNumber
        rw [totalPings_reorder, e]
        rfl

end Mvd

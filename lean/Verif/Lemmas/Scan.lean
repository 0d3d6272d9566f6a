import Verif.Lemmas.Search
import Verif.Spec.Info
import Verif.Model.Info

/-! The client scan. -/

namespace Mvd
open Spec

theorem getElem?_of_append {α : Type} {l pre post : List α} {b : α} (h : l = pre ++ b :: post) :
    l[pre.length]? = some b := by
  subst h; simp

theorem append_of_getElem? {α : Type} {l : List α} {i : Nat} {b : α} (h : l[i]? = some b) :
    ∃ pre post, l = pre ++ b :: post ∧ pre.length = i := by
  obtain ⟨hi, he⟩ := List.getElem?_eq_some_iff.mp h
  refine ⟨l.take i, l.drop (i + 1), ?_, by simp; omega⟩
  rw [← he, List.cons_getElem_drop_succ]
  simp

theorem mem_take_iff {α : Type} {l : List α} {n : Nat} {b : α} : b ∈ l.take n ↔ ∃ k, k < n ∧ l[k]? = some b := by
  rw [List.mem_iff_getElem?]
  constructor
  · rintro ⟨k, hk⟩
    rw [List.getElem?_take] at hk
    split at hk
    · exact ⟨k, by assumption, hk⟩
    · simp at hk
  · rintro ⟨k, hk, e⟩
    exact ⟨k, by rw [List.getElem?_take, if_pos hk, e]⟩

theorem rfindByte_index {b : UInt8} {hay : Bytes} {z : Nat} (h : rfindByte b hay = some z) :
    hay[z]? = some b ∧ ∀ k, z < k → hay[k]? ≠ some b := by
  obtain ⟨pre, post, rfl, rfl, hn⟩ := rfindByte_eq_some_iff.mp h
  refine ⟨by simp, fun k hk e => hn ?_⟩
  rw [List.getElem?_append_right (by omega)] at e
  obtain ⟨m, hm⟩ : ∃ m, k - pre.length = m + 1 := ⟨k - pre.length - 1, by omega⟩
  rw [hm, List.getElem?_cons_succ] at e
  exact List.mem_of_getElem? e

theorem findByte_index {b : UInt8} {hay : Bytes} {z : Nat} (h : findByte b hay = some z) :
    hay[z]? = some b ∧ ∀ k, k < z → hay[k]? ≠ some b := by
  obtain ⟨pre, post, rfl, rfl, hn⟩ := findByte_eq_some_iff.mp h
  refine ⟨by simp, fun k hk e => hn ?_⟩
  rw [List.getElem?_append_left hk] at e
  exact List.mem_of_getElem? e

/-- `\name\` at its place in the data. -/
theorem nameKey_at {data : Bytes} {offset k : Nat} (h : OccursAt nameKey ((data.drop offset).take 512) k) :
    OccursAt nameKey data (offset + k) := by
  obtain ⟨pre, post, e, hl⟩ := h
  have hb : k + 6 ≤ ((data.drop offset).take 512).length := by
    rw [e]; simp [nameKey]; omega
  have hlen : offset ≤ data.length := by
    simp at hb; omega
  refine ⟨data.take offset ++ pre, post ++ (data.drop offset).drop 512, ?_, by simp; omega⟩
  have : data = data.take offset ++ ((data.drop offset).take 512 ++ (data.drop offset).drop 512) := by
    rw [List.take_append_drop, List.take_append_drop]
  rw [e] at this
  simpa using this

theorem occursAt_getElem? {α : Type} {needle hay : List α} {i : Nat} (h : OccursAt needle hay i) (j : Nat)
    (hj : j < needle.length) : hay[i + j]? = needle[j]? := by
  obtain ⟨pre, post, rfl, rfl⟩ := h
  rw [List.append_assoc, List.getElem?_append_right (by omega), List.getElem?_append_left (by simpa using hj)]
  simp

theorem nameKey_no_zero (j : Nat) : nameKey[j]? ≠ some 0 := by
  intro h
  have : (0 : UInt8) ∈ nameKey := List.mem_of_getElem? h
  revert this
  decide

/-- The key ends before the terminator. -/
theorem NextClient_key_inside {data : Bytes} {offset t k : Nat} (hk : OccursAt nameKey ((data.drop offset).take 512) k)
    (ht : data[t]? = some 0) (hlt : offset + k < t) : offset + k + 6 ≤ t := by
  refine Nat.le_of_not_lt fun h => ?_
  have := occursAt_getElem? (nameKey_at hk) (t - (offset + k)) (by simp [nameKey]; omega)
  rw [show offset + k + (t - (offset + k)) = t by omega, ht] at this
  exact nameKey_no_zero _ this.symm

/-- What one round of the scan finds. -/
def scanStep (data : Bytes) (offset : Nat) : Option (Nat × Nat) :=
  match find nameKey ((data.drop offset).take 512) with
  | none => none
  | some o =>
    match rfindByte 0 (data.take (offset + o)) with
    | none => none
    | some z =>
      match findByte 0 (data.drop (z + 1)) with
      | none => none
      | some l => if 7 ≤ l ∧ l ≤ 256 then some (z + 1, z + 1 + l) else none

theorem scanStep_some {data : Bytes} {offset f t : Nat} (h : scanStep data offset = some (f, t)) :
    NextClient data offset f t := by
  unfold scanStep at h
  split at h
  · simp at h
  rename_i k hk
  split at h
  · simp at h
  rename_i z hz
  split at h
  · simp at h
  rename_i l hl
  split at h
  · rename_i hlen
    simp only [Option.some.injEq, Prod.mk.injEq] at h
    obtain ⟨rfl, rfl⟩ := h
    rw [find_eq_some_iff] at hk
    obtain ⟨hz1, hz2⟩ := rfindByte_index hz
    obtain ⟨hl1, hl2⟩ := findByte_index hl
    rw [List.getElem?_take] at hz1
    split at hz1
    · rename_i hzk
      rw [List.getElem?_drop] at hl1
      have hin : ∀ j, z + 1 ≤ j → j < z + 1 + l → data[j]? ≠ some 0 := by
        intro j h1 h2
        have := hl2 (j - (z + 1)) (by omega)
        rwa [List.getElem?_drop, show z + 1 + (j - (z + 1)) = j by omega] at this
      refine ⟨k, hk, by omega, ?_, ⟨⟨by omega, by simpa using hz1⟩, hl1, hin, by omega, by omega⟩⟩
      refine Nat.lt_of_not_le fun hle => ?_
      -- the terminator would lie before the key, but there is no NUL between
      by_cases he : z + 1 + l < offset + k
      · have := hz2 (z + 1 + l) (by omega)
        rw [List.getElem?_take, if_pos he] at this
        exact this hl1
      · have e : z + 1 + l = offset + k := by omega
        have := occursAt_getElem? (nameKey_at hk.1) 0 (by simp [nameKey])
        rw [Nat.add_zero, ← e, hl1] at this
        exact nameKey_no_zero _ this.symm
    · simp at hz1
  · simp at h

theorem scanStep_of {data : Bytes} {offset f t : Nat} (h : NextClient data offset f t) :
    scanStep data offset = some (f, t) := by
  obtain ⟨k, hk, hf, ht, ⟨⟨hb1, hb2⟩, ha, hin, hs, hl⟩⟩ := h
  have hle := NextClient_key_inside hk.1 ha ht
  obtain ⟨z, rfl⟩ : ∃ z, f = z + 1 := ⟨f - 1, by omega⟩
  simp only [Nat.add_sub_cancel] at hb2
  have h1 : find nameKey ((data.drop offset).take 512) = some k := find_eq_some_iff.mpr hk
  have hbound := (nameKey_at hk.1).bound
  have hlen : (data.take (offset + k)).length = offset + k := by simp; omega
  have h2 : rfindByte 0 (data.take (offset + k)) = some z := by
    cases hr : rfindByte 0 (data.take (offset + k)) with
    | none =>
      rw [rfindByte_eq_none_iff, mem_take_iff] at hr
      exact absurd ⟨z, by omega, hb2⟩ hr
    | some z' =>
      obtain ⟨r1, r2⟩ := rfindByte_index hr
      have : z' < offset + k := by
        rw [List.getElem?_take] at r1
        split at r1
        · assumption
        · simp at r1
      rw [List.getElem?_take, if_pos this] at r1
      congr 1
      rcases Nat.lt_trichotomy z z' with hlt | heq | hgt
      · exact absurd r1 (hin z' (by omega) (by omega))
      · exact heq.symm
      · have := r2 z hgt
        rw [List.getElem?_take, if_pos (by omega)] at this
        exact absurd hb2 this
  have h3 : findByte 0 (data.drop (z + 1)) = some (t - (z + 1)) := by
    cases hr : findByte 0 (data.drop (z + 1)) with
    | none =>
      rw [findByte_eq_none_iff] at hr
      refine absurd ?_ hr
      have : (data.drop (z + 1))[t - (z + 1)]? = some 0 := by
        rw [List.getElem?_drop, show z + 1 + (t - (z + 1)) = t by omega, ha]
      exact List.mem_of_getElem? this
    | some l =>
      obtain ⟨r1, r2⟩ := findByte_index hr
      rw [List.getElem?_drop] at r1
      congr 1
      rcases Nat.lt_trichotomy l (t - (z + 1)) with hlt | heq | hgt
      · exact absurd r1 (hin _ (by omega) (by omega))
      · exact heq
      · have := r2 _ hgt
        rw [List.getElem?_drop, show z + 1 + (t - (z + 1)) = t by omega] at this
        exact absurd ha this
  unfold scanStep
  simp only [h1, h2, h3]
  rw [if_pos (by omega)]
  simp; omega

theorem scanStep_none {data : Bytes} {offset : Nat} : scanStep data offset = none ↔ ∀ f t, ¬ NextClient data offset f t := by
  constructor
  · intro h f t hn
    rw [scanStep_of hn] at h
    simp at h
  · intro h
    cases hs : scanStep data offset with
    | none => rfl
    | some p => exact absurd (scanStep_some hs) (h p.1 p.2)

theorem NextClient.unique {data : Bytes} {o f t f' t' : Nat} (h : NextClient data o f t) (h' : NextClient data o f' t') :
    f = f' ∧ t = t' := by
  have := (scanStep_of h).symm.trans (scanStep_of h')
  simpa using this

theorem nextClient_progress {data : Bytes} {o f t : Nat} (h : NextClient data o f t) : o + 6 ≤ t := by
  obtain ⟨k, hk, _, ht, hd⟩ := h
  have := NextClient_key_inside hk.1 hd.after ht
  omega

theorem nextClient_bound {data : Bytes} {o f t : Nat} (h : NextClient data o f t) : t < data.length := by
  obtain ⟨k, hk, _, ht, hd⟩ := h
  exact (List.getElem?_eq_some_iff.mp hd.after).1

/-- After a terminator the next string begins behind it. -/
theorem nextClient_after {data : Bytes} {o f t : Nat} (h : NextClient data o f t) (ho : data[o]? = some 0) : o < f := by
  obtain ⟨k, hk, hf, ht, hd⟩ := h
  refine Nat.lt_of_not_le fun hle => ?_
  exact hd.inside o hle (by omega) ho

theorem slice_ok {α : Type} {l : List α} {a b : Nat} (h : a ≤ b) (h' : b ≤ l.length) :
    slice l a b = .ok ((l.drop a).take (b - a)) := by unfold slice; exact if_pos ⟨h, h'⟩

theorem slice_panic {α : Type} {l : List α} {a b : Nat} (h : l.length < b) : slice l a b = .panic := by
  unfold slice; exact if_neg (by omega)

/-- One round of the scan loop. -/
theorem clientScan_step (g : Env) (data : Bytes) (limit fuel offset : Nat) (result : List Str) :
    clientScan g data limit (fuel + 1) offset result =
      if offset + 512 ≤ data.length then
        match scanStep data offset with
        | none => .ok result
        | some (f, t) =>
          if limit ≤ t then .ok (result ++ [g.toUnicode ((data.drop f).take (t - f))])
          else clientScan g data limit fuel t (result ++ [g.toUnicode ((data.drop f).take (t - f))])
      else .panic := by
  simp only [clientScan]
  by_cases hle : offset + 512 ≤ data.length
  · rw [slice_ok (show offset ≤ offset + MAX_LOOKAHEAD by omega) (by simpa [MAX_LOOKAHEAD] using hle), if_pos hle]
    have e512 : offset + MAX_LOOKAHEAD - offset = 512 := by simp [MAX_LOOKAHEAD]
    rw [e512]
    simp only [R.bind]
    cases hst : scanStep data offset with
    | none =>
      unfold scanStep at hst
      simp only [nameKey] at hst
      cases h1 : find bytes!"\\name\\" ((data.drop offset).take 512) with
      | none => rfl
      | some k =>
        simp only [h1] at hst
        cases h2 : rfindByte 0 (data.take (offset + k)) with
        | none => simp only [h2]
        | some z =>
          simp only [h2] at hst
          cases h3 : findByte 0 (data.drop (z + 1)) with
          | none => simp only [h2, h3]
          | some l =>
            simp only [h3] at hst
            simp only [h2, h3]
            have hn : ¬ (7 ≤ l ∧ l ≤ 256) := by
              intro hc; simp [hc] at hst
            have e : z + 1 + l - (z + 1) = l := by omega
            rw [if_neg]
            simp only [CLIENT_MIN_LEN, CLIENT_MAX_LEN, e, List.length_cons, List.length_nil]
            exact hn
    | some p =>
      obtain ⟨f, t⟩ := p
      have hb := nextClient_bound (scanStep_some hst)
      unfold scanStep at hst
      simp only [nameKey] at hst
      cases h1 : find bytes!"\\name\\" ((data.drop offset).take 512) with
      | none => simp [h1] at hst
      | some k =>
        simp only [h1] at hst
        cases h2 : rfindByte 0 (data.take (offset + k)) with
        | none => simp [h2] at hst
        | some z =>
          simp only [h2] at hst
          cases h3 : findByte 0 (data.drop (z + 1)) with
          | none => simp [h3] at hst
          | some l =>
            simp only [h3] at hst
            simp only [h2, h3]
            split at hst
            · rename_i hc
              simp at hst
              obtain ⟨rfl, rfl⟩ := hst
              have e : z + 1 + l - (z + 1) = l := by omega
              rw [if_pos (by simp only [CLIENT_MIN_LEN, CLIENT_MAX_LEN, e, List.length_cons, List.length_nil]; exact hc)]
              rw [slice_ok (by omega) (by omega)]
            · simp at hst
  · rw [slice_panic (by simp [MAX_LOOKAHEAD]; omega), if_neg hle]
    rfl

/-- The texts of some spans. -/
def spanTexts (g : Env) (data : Bytes) (spans : List (Nat × Nat)) : List Str :=
  spans.map fun p => g.toUnicode ((data.drop p.1).take (p.2 - p.1))

/-- The scan follows the chain of clients. -/
theorem clientScan_chain (g : Env) (data : Bytes) (limit : Nat) : ∀ (fuel offset : Nat) (result : List Str),
    data.length < offset + fuel → ∃ spans e, ClientChain data limit offset spans e ∧
      ((clientScan g data limit fuel offset result = .ok (result ++ spanTexts g data spans) ∧
          ((spans ≠ [] ∧ limit ≤ e) ∨ (e + 512 ≤ data.length ∧ ∀ f t, ¬ NextClient data e f t))) ∨
        (clientScan g data limit fuel offset result = .panic ∧ (spans = [] ∨ e < limit) ∧ data.length < e + 512)) ∨
      (fuel = 0 ∧ clientScan g data limit fuel offset result = .hang)
  | 0, offset, result, _ => ⟨[], offset, .inr ⟨rfl, rfl⟩⟩
  | fuel + 1, offset, result, hf => by
    rw [clientScan_step]
    by_cases hle : offset + 512 ≤ data.length
    · rw [if_pos hle]
      cases hst : scanStep data offset with
      | none =>
        exact ⟨[], offset, .inl ⟨.nil, .inl ⟨by simp [spanTexts], .inr ⟨hle, scanStep_none.mp hst⟩⟩⟩⟩
      | some p =>
        obtain ⟨f, t⟩ := p
        have hn := scanStep_some hst
        have hp := nextClient_progress hn
        have hb := nextClient_bound hn
        simp only
        by_cases hlim : limit ≤ t
        · rw [if_pos hlim]
          exact ⟨[(f, t)], t, .inl ⟨.last hn, .inl ⟨by simp [spanTexts], .inl ⟨by simp, hlim⟩⟩⟩⟩
        · rw [if_neg hlim]
          obtain ⟨spans, e, h⟩ := clientScan_chain g data limit fuel t
            (result ++ [g.toUnicode ((data.drop f).take (t - f))]) (by omega)
          rcases h with ⟨hc, h⟩ | ⟨rfl, h⟩
          · refine ⟨(f, t) :: spans, e, .inl ⟨.cons hn (by omega) hc, ?_⟩⟩
            rcases h with ⟨h1, h2⟩ | ⟨h1, h2, h3⟩
            · refine .inl ⟨by simp [h1, spanTexts], ?_⟩
              rcases h2 with ⟨_, h2⟩ | h2
              · exact .inl ⟨by simp, h2⟩
              · exact .inr h2
            · refine .inr ⟨h1, .inr ?_, h3⟩
              rcases h2 with h2 | h2
              · subst h2
                cases hc
                omega
              · exact h2
          · omega
    · rw [if_neg hle]
      exact ⟨[], offset, .inl ⟨.nil, .inr ⟨rfl, .inl rfl, by omega⟩⟩⟩

theorem spawn_eq : CMD_SPAWN = spawnCommand := by decide

/-- The client scan, as a relation. -/
theorem clientinfoStrings_cases (g : Env) (data : Bytes) :
    (clientinfoStrings g data = .err .clientinfoNotFound ∧ ¬ Occurs spawnCommand data) ∨
    ∃ o, FirstAt spawnCommand data o ∧ ∃ spans e, ClientChain data (o + 12288) o spans e ∧
      ((clientinfoStrings g data = .ok (spanTexts g data spans) ∧
          ((spans ≠ [] ∧ o + 12288 ≤ e) ∨ (e + 512 ≤ data.length ∧ ∀ f t, ¬ NextClient data e f t))) ∨
        (clientinfoStrings g data = .panic ∧ (spans = [] ∨ e < o + 12288) ∧ data.length < e + 512)) := by
  unfold clientinfoStrings
  rw [spawn_eq]
  cases h : find spawnCommand data with
  | none => exact .inl ⟨rfl, find_eq_none_iff.mp h⟩
  | some o =>
    refine .inr ⟨o, find_eq_some_iff.mp h, ?_⟩
    obtain ⟨spans, e, h⟩ := clientScan_chain g data (o + MAX_PLAYERS * MAX_LOOKAHEAD) (data.length + 1) o [] (by omega)
    rcases h with ⟨hc, h⟩ | ⟨h, _⟩
    · exact ⟨spans, e, hc, by simpa [MAX_PLAYERS, MAX_LOOKAHEAD] using h⟩
    · omega

end Mvd

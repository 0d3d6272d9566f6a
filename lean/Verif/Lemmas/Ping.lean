import Verif.Lemmas.Prints
import Verif.Lemmas.Map
import Verif.Lemmas.Float
import Verif.Model.Ping
import Verif.Spec.Ping

/-! `ping_per_player_number` over a sequence of frames. -/

namespace Mvd
open Spec

/-! ### The frame loop -/

/-- The loop body. -/
def pingLoopBody (g : Env) (data : Bytes) (s : Map UInt8 (List Nat) × Nat) (info : FrameInfo) :
    R (Step (Map UInt8 (List Nat) × Nat)) :=
  match s with
  | (total, samples) =>
    (if info.bodySize > 0 then
      (info.body data).bind fun body =>
      (pingBody g (body.length + 1) (Cursor.new body) total false).bind fun (total, did) =>
      .ok (total, if did then samples + 1 else samples)
    else .ok (total, samples)).bind fun (total, samples) =>
    if samples ≥ 8 then .ok (.brk (total, samples)) else .ok (.next (total, samples))

theorem totalPings_def (g : Env) (data : Bytes) :
    totalPings g data = frameLoopFrom g data 0 ([], 0) (pingLoopBody g data) := rfl

/-- The loop body on a frame. -/
def pingFrame (g : Env) (s : Map UInt8 (List Nat) × Nat) (_ : Nat) (f : Frame) : R (Step (Map UInt8 (List Nat) × Nat)) :=
  (if f.body.length > 0 then
    (pingBody g (f.body.length + 1) (Cursor.new f.body) s.1 false).bind fun (total, did) =>
    .ok (total, if did then s.2 + 1 else s.2)
  else .ok (s.1, s.2)).bind fun (total, samples) =>
  if samples ≥ 8 then .ok (.brk (total, samples)) else .ok (.next (total, samples))

theorem ping_describes (g : Env) (data : Bytes) : Describes data (pingLoopBody g data) (pingFrame g) := by
  rintro ⟨m, n⟩ pre f post h
  have hb := body_encode h
  unfold pingLoopBody pingFrame
  have : (infoOf pre.length f).bodySize = f.body.length := rfl
  simp only [this, hb]
  rfl

theorem pingFrame_eq (g : Env) (m : Map UInt8 (List Nat)) (n i : Nat) (f : Frame) (us : List (UInt8 × Nat))
    (h : LeadingPings f.body us) :
    pingFrame g (m, n) i f =
      if (if us = [] then n else n + 1) ≥ 8 then .ok (.brk (us.foldl addPing m, if us = [] then n else n + 1))
      else .ok (.next (us.foldl addPing m, if us = [] then n else n + 1)) := by
  unfold pingFrame
  simp only
  split
  · rw [Cursor.new, pingBody_eq g h _ 0 m false (by omega)]
    simp only [R.bind]
    by_cases hu : us = []
    · simp [hu]
    · simp [hu]
  · rename_i h0
    have h0 : f.body = [] := List.length_eq_zero_iff.mp (by omega)
    rw [h0] at h
    cases h
    simp [R.bind]

theorem runFrames_ping (g : Env) {fs : List Frame} {uss : List (List (UInt8 × Nat))}
    (h : List.Forall₂ (fun f us => LeadingPings f.body us) fs uss) : ∀ (i n : Nat) (m : Map UInt8 (List Nat)), n < 8 →
    runFrames (pingFrame g) i (m, n) fs =
      if 8 - n ≤ (uss.filter fun us => us ≠ []).length then
        .ok (.brk (((uss.filter fun us => us ≠ []).take (8 - n)).flatten.foldl addPing m, 8))
      else .ok (.next (((uss.filter fun us => us ≠ []).take (8 - n)).flatten.foldl addPing m,
        n + (uss.filter fun us => us ≠ []).length)) := by
  induction h with
  | nil =>
    intro i n m hn
    rw [if_neg (by simp; omega)]
    simp [runFrames]
  | @cons f us fs uss hf _ ih =>
    intro i n m hn
    simp only [runFrames, pingFrame_eq g m n i f us hf]
    by_cases hu : us = []
    · subst hu
      simp only [if_true, if_neg (show ¬ n ≥ 8 by omega), R.bind, List.foldl_nil]
      rw [ih _ n m hn]
      simp
    · simp only [if_neg hu]
      rw [List.filter_cons_of_pos (by simpa using hu)]
      by_cases h8 : n + 1 ≥ 8
      · have : n = 7 := by omega
        subst this
        simp [R.bind]
      · simp only [if_neg h8, R.bind]
        rw [ih _ (n + 1) _ (by omega)]
        have e : 8 - n = (8 - (n + 1)) + 1 := by omega
        rw [e]
        simp only [List.take_succ_cons, List.flatten_cons, List.foldl_append, List.length_cons]
        by_cases hc : 8 - (n + 1) ≤ (uss.filter fun us => us ≠ []).length
        · rw [if_pos hc, if_pos (by omega)]
        · rw [if_neg hc, if_neg (by omega)]
          congr 3
          omega

theorem pings_exists (fs : List Frame) : ∃ uss, List.Forall₂ (fun (f : Frame) us => LeadingPings f.body us) fs uss :=
  forall2_exists (fun f => leadingPings_exists _ f.body (Nat.le_refl _)) fs

/-- The loop reads only complete frames. -/
def EnoughPings (n : Nat) (rest : Bytes) (uss : List (List (UInt8 × Nat))) : Prop :=
  Stops n rest ∨ Overruns n rest ∧ 8 ≤ (uss.filter fun us => us ≠ []).length

theorem totalPings_eq (g : Env) {data : Bytes} {fs : List Frame} {rest : Bytes} {uss : List (List (UInt8 × Nat))}
    (h : Splits data fs rest) (hs : EnoughPings data.length rest uss)
    (hu : List.Forall₂ (fun f us => LeadingPings f.body us) fs uss) :
    ∃ n, totalPings g data = .ok ((sampledPings uss).foldl addPing [], n) := by
  rw [totalPings_def]
  rcases hs with hs | ⟨hs, h8⟩
  · have := walk_stops g (ping_describes g data) h.2.1 (pre := []) (by simpa using h.1) hs ([], 0)
    simp only [List.length_nil] at this
    rw [this, runFrames_ping g hu _ _ _ (by omega)]
    by_cases hc : 8 - 0 ≤ (uss.filter fun us => us ≠ []).length
    · rw [if_pos hc]; exact ⟨8, rfl⟩
    · rw [if_neg hc]; exact ⟨_, rfl⟩
  · obtain ⟨d, fl, hh, b, _, _, _, _, e⟩ :=
      walk_overruns g (ping_describes g data) h.2.1 (pre := []) (by simpa using h.1) hs ([], 0)
    simp only [List.length_nil] at e
    rw [e, runFrames_ping g hu _ _ _ (by omega), if_pos h8]
    exact ⟨8, rfl⟩

theorem totalPings_panic (g : Env) {data : Bytes} {fs : List Frame} {rest : Bytes} {uss : List (List (UInt8 × Nat))}
    (h : Splits data fs rest) (hs : Overruns data.length rest)
    (hu : List.Forall₂ (fun f us => LeadingPings f.body us) fs uss) (h8 : (uss.filter fun us => us ≠ []).length < 8) :
    totalPings g data = .panic := by
  rw [totalPings_def]
  obtain ⟨d, fl, hh, b, _, hlt, hb, _, e⟩ :=
    walk_overruns g (ping_describes g data) h.2.1 (pre := []) (by simpa using h.1) hs ([], 0)
  simp only [List.length_nil] at e
  rw [e, runFrames_ping g hu _ _ _ (by omega), if_neg (by omega)]
  simp only [R.bind]
  have : ∀ s, pingLoopBody g data s (infoAt (0 + (Spec.encode fs).length) d fl hh b) = .panic := by
    rintro ⟨m, n⟩
    unfold pingLoopBody
    simp only
    rw [if_pos (by simpa [infoAt] using hb), body_overrun (by simpa using hlt)]
    rfl
  rw [this]

/-! ### The samples -/

theorem addPings_nodup : ∀ (l : List (UInt8 × Nat)) (m : Map UInt8 (List Nat)), m.keys.Nodup →
    (Map.keys (l.foldl addPing m)).Nodup
  | [], m, h => h
  | u :: l, m, h => by
    rw [List.foldl_cons]
    exact addPings_nodup l _ (Map.nodup_set h _ _)

theorem addPings_get : ∀ (l : List (UInt8 × Nat)) (m : Map UInt8 (List Nat)) (p : UInt8),
    (l.foldl addPing m).get p =
      if p ∈ l.map Prod.fst then some ((m.get p).getD [] ++ samplesOf l p) else m.get p
  | [], m, p => by simp
  | (q, x) :: l, m, p => by
    rw [List.foldl_cons, addPings_get l]
    have hg : (addPing m (q, x)).get p = if q = p then some ((m.get q).getD [] ++ [x]) else m.get p := by
      rw [addPing, Map.get_set]
    rw [hg]
    by_cases hq : q = p
    · subst hq
      have hs : samplesOf ((q, x) :: l) q = x :: samplesOf l q := by simp [samplesOf]
      rw [hs]
      by_cases hm : q ∈ l.map Prod.fst
      · rw [if_pos hm]; simp
      · rw [if_neg hm]
        have : samplesOf l q = [] := by
          unfold samplesOf
          rw [List.filter_eq_nil_iff.mpr]
          · rfl
          · intro e he h
            exact hm (List.mem_map.mpr ⟨e, he, by simpa using h⟩)
        simp [this]
    · have hs : samplesOf ((q, x) :: l) p = samplesOf l p := by simp [samplesOf, hq]
      have hq' : ¬ p = q := fun e => hq e.symm
      rw [hs]
      simp only [if_neg hq, List.map_cons, List.mem_cons, hq', false_or]

theorem samplesOf_ne_nil {l : List (UInt8 × Nat)} {p : UInt8} (h : p ∈ l.map Prod.fst) : samplesOf l p ≠ [] := by
  obtain ⟨e, he, rfl⟩ := List.mem_map.mp h
  unfold samplesOf
  simp only [ne_eq, List.map_eq_nil_iff, List.filter_eq_nil_iff, not_forall]
  exact ⟨e, he, by simp⟩

/-! ### The average -/

theorem sumU16_ok (g : Env) : ∀ (l : List Nat) (s : Nat), s + l.sum < 2 ^ 16 →
    forR (fun sum p => addU g.checks 16 sum p) s l = .ok (s + l.sum)
  | [], s, _ => rfl
  | a :: l, s, h => by
    simp only [List.sum_cons] at h
    have : addU g.checks 16 s a = .ok (s + a) := if_pos (by omega)
    simp only [forR, this, R.bind]
    rw [sumU16_ok g l (s + a) (by omega)]
    simp only [List.sum_cons]
    congr 1
    omega

theorem sumU16_wrap (g : Env) (hc : g.checks = false) : ∀ (l : List Nat) (s : Nat), s < 2 ^ 16 →
    forR (fun sum p => addU g.checks 16 sum p) s l = .ok ((s + l.sum) % 2 ^ 16)
  | [], s, h => by simp only [forR, List.sum_nil, Nat.add_zero, Nat.mod_eq_of_lt h]
  | a :: l, s, h => by
    have : addU g.checks 16 s a = .ok ((s + a) % 2 ^ 16) := by
      unfold addU
      split
      · rename_i h; rw [Nat.mod_eq_of_lt h]
      · simp [hc]
    simp only [forR, this, R.bind]
    rw [sumU16_wrap g hc l _ (Nat.mod_lt _ (by decide))]
    simp only [List.sum_cons]
    congr 1
    omega

theorem sumU16_panic (g : Env) (hc : g.checks = true) : ∀ (l : List Nat) (s : Nat), s < 2 ^ 16 → 2 ^ 16 ≤ s + l.sum →
    forR (fun sum p => addU g.checks 16 sum p) s l = .panic
  | [], s, h, h' => by simp at h'; omega
  | a :: l, s, h, h' => by
    simp only [List.sum_cons] at h'
    by_cases h2 : s + a < 2 ^ 16
    · have : addU g.checks 16 s a = .ok (s + a) := if_pos h2
      simp only [forR, this, R.bind]
      exact sumU16_panic g hc l _ h2 (by omega)
    · have : addU g.checks 16 s a = .panic := by rw [addU, if_neg h2, hc]; rfl
      simp only [forR, this, R.bind]

theorem averagePing_ok (g : Env) (l : List Nat) (h : l.sum < 2 ^ 16) (hn : l ≠ []) :
    averagePing g l = .ok (l.sum / l.length) := by
  unfold averagePing
  rw [sumU16_ok g l 0 (by omega)]
  simp only [R.bind, Nat.zero_add]
  rw [f32_div_floor h (List.length_pos_iff.mpr hn)]

theorem averagePing_wrap (g : Env) (hc : g.checks = false) (l : List Nat) (hn : l ≠ []) :
    averagePing g l = .ok (l.sum % 65536 / l.length) := by
  unfold averagePing
  rw [sumU16_wrap g hc l 0 (by omega)]
  simp only [R.bind, Nat.zero_add]
  rw [f32_div_floor (Nat.mod_lt _ (by decide)) (List.length_pos_iff.mpr hn)]
  rfl

theorem averagePing_panic (g : Env) (hc : g.checks = true) (l : List Nat) (h : 2 ^ 16 ≤ l.sum) :
    averagePing g l = .panic := by
  unfold averagePing
  rw [sumU16_panic g hc l 0 (by omega) (by omega)]
  rfl

theorem averagePing_safe (g : Env) (l : List Nat) : (∃ n, averagePing g l = .ok n) ∨ averagePing g l = .panic := by
  unfold averagePing
  by_cases h : l.sum < 2 ^ 16
  · rw [sumU16_ok g l 0 (by omega)]; exact .inl ⟨_, rfl⟩
  · cases hc : g.checks with
    | false => rw [← hc, sumU16_wrap g hc l 0 (by omega)]; exact .inl ⟨_, rfl⟩
    | true => rw [← hc, sumU16_panic g hc l 0 (by omega) (by omega)]; exact .inr rfl

/-! ### The whole function -/

theorem ping_isEmpty (l : List (UInt8 × Nat)) : (l.foldl addPing []).isEmpty = l.isEmpty := by
  cases l with
  | nil => rfl
  | cons u l =>
    have h := addPings_get (u :: l) [] u.1
    rw [if_pos (by simp)] at h
    cases hm : (u :: l).foldl addPing [] with
    | nil => rw [hm] at h; simp [Map.get] at h
    | cons => rfl

/-- The average of every player, when none of them panics. -/
theorem ping_of_averages (g : Env) {data : Bytes} {l : List (UInt8 × Nat)} {n : Nat} {avg : List Nat → Nat}
    (ht : totalPings g data = .ok (l.foldl addPing [], n)) (hne : l ≠ [])
    (ha : ∀ p ∈ l.map Prod.fst, averagePing g (samplesOf l p) = .ok (avg (samplesOf l p))) :
    ∃ m, pingPerPlayerNumber g data = .ok m ∧
      ∀ p, m.get p = if p ∈ l.map Prod.fst then some (avg (samplesOf l p)) else none := by
  unfold pingPerPlayerNumber
  rw [ht]
  simp only [R.bind]
  rw [ping_isEmpty, if_neg (by simpa using hne)]
  have hnd : (Map.keys (l.foldl addPing [])).Nodup := addPings_nodup l [] (by simp [Map.keys])
  have hperm := g.order_perm 0 (l.foldl addPing [])
  have hentry : ∀ e ∈ g.order 0 (l.foldl addPing []), e.1 ∈ l.map Prod.fst ∧ e.2 = samplesOf l e.1 := by
    rintro ⟨p, v⟩ he
    have := (Map.mem_iff_get hnd).mp (hperm.mem_iff.mp he)
    rw [addPings_get] at this
    split at this
    · rename_i hm
      simp [Map.get] at this
      exact ⟨hm, this.symm⟩
    · simp [Map.get] at this
  refine ⟨_, forR_ok (f' := fun (m : Map UInt8 Nat) (e : UInt8 × List Nat) => m.set e.1 (avg e.2)) _ [] ?_, ?_⟩
  · intro s e he
    obtain ⟨h1, h2⟩ := hentry e he
    rw [h2, ha e.1 h1]
  · intro p
    rw [foldl_set_get avg _ [] ((List.Perm.map Prod.fst hperm).nodup_iff.mpr hnd) (by simp [Map.keys])]
    rw [Map.get_perm hnd hperm, addPings_get]
    by_cases hp : p ∈ l.map Prod.fst
    · simp [hp, Map.get]
    · simp [hp, Map.get]

theorem ping_panic (g : Env) {data : Bytes} {l : List (UInt8 × Nat)} {n : Nat}
    (ht : totalPings g data = .ok (l.foldl addPing [], n)) (p : UInt8) (hp : p ∈ l.map Prod.fst)
    (ha : averagePing g (samplesOf l p) = .panic) : pingPerPlayerNumber g data = .panic := by
  unfold pingPerPlayerNumber
  rw [ht]
  simp only [R.bind]
  have hne : l ≠ [] := by rintro rfl; simp at hp
  rw [ping_isEmpty, if_neg (by simpa using hne)]
  have hnd : (Map.keys (l.foldl addPing [])).Nodup := addPings_nodup l [] (by simp [Map.keys])
  have hperm := g.order_perm 0 (l.foldl addPing [])
  have hmem : (p, samplesOf l p) ∈ g.order 0 (l.foldl addPing []) := by
    rw [hperm.mem_iff, Map.mem_iff_get hnd, addPings_get, if_pos hp]
    simp [Map.get]
  refine forR_panic _ _ _ hmem ?_ ?_
  · intro s
    simp only [ha]
  · intro s e _
    rcases averagePing_safe g e.2 with ⟨n, h⟩ | h
    · rw [h]; exact .inl ⟨_, rfl⟩
    · rw [h]; exact .inr rfl

end Mvd

import Verif.Lemmas.Frags
import Verif.Props.Events
import Verif.Model.Flags
import Verif.Spec.Flags

/-! `flag_events_per_player_name` over a sequence of frames. -/

namespace Mvd
open Spec

/-! ### The first loop -/

theorem isMessageSuffix_iff (g : Env) (b : Bytes) :
    isMessageSuffix g b = true ↔ ∃ e ∈ flagMessageEnds, e <:+ g.toUnicode b := by
  have : X_RETURNED_FLAG ++ X_GOT_FLAG ++ X_CAPTURED_FLAG = flagMessageEnds := by decide
  unfold isMessageSuffix
  rw [this, List.any_eq_true]
  simp [endsWith_iff]

/-- What is left at the end of a frame is one more text. -/
def flush (s : List Bytes × Bytes) : List Bytes := if s.2 = [] then s.1 else s.1 ++ [s.2]

theorem flagStep_inPairs (g : Env) : ∀ (ps : List PrintMsg) (s : List Bytes × Bytes),
    flush (ps.foldl (flagStep g) s) = s.1 ++ inPairs g.toUnicode ((if s.2 = [] then [] else [s.2]) ++
      (ps.filter fun p => p.level = 2 ∧ p.text ≠ []).map PrintMsg.text)
  | [], (acc, cur) => by
    by_cases h : cur = [] <;> simp [flush, h, inPairs]
  | p :: ps, (acc, cur) => by
    rw [List.foldl_cons, flagStep_inPairs g ps]
    by_cases hp : p.level = 2 ∧ p.text ≠ []
    · rw [List.filter_cons_of_pos (by simpa using hp)]
      by_cases hc : cur = []
      · simp [flagStep, hp, hc]
      · simp only [flagStep, if_pos hp, if_neg hc]
        simp only [isMessageSuffix_iff, if_true, List.nil_append, List.map_cons, List.cons_append, inPairs,
          List.append_assoc]
    · rw [List.filter_cons_of_neg (by simpa using hp)]
      simp only [flagStep, if_neg hp]

/-- The loop body of the first loop. -/
def flagPrintsBody (g : Env) (data : Bytes) (prints : List Bytes) (info : FrameInfo) : R (Step (List Bytes)) :=
  if info.bodySize = 0 then .ok (.next prints)
  else
    (info.body data).bind fun body =>
    if (find bytes!"flag" body).isNone then .ok (.next prints)
    else
      (flagBody g (body.length + 1) (Cursor.new body) prints []).bind fun (prints, current) =>
      .ok (.next (if !current.isEmpty then prints ++ [current] else prints))

/-- The same on a frame. -/
def flagPrintsFrame (g : Env) (prints : List Bytes) (_ : Nat) (f : Frame) : R (Step (List Bytes)) :=
  if f.body.length = 0 then .ok (.next prints)
  else
    if (find bytes!"flag" f.body).isNone then .ok (.next prints)
    else
      (flagBody g (f.body.length + 1) (Cursor.new f.body) prints []).bind fun (prints, current) =>
      .ok (.next (if !current.isEmpty then prints ++ [current] else prints))

theorem flagPrints_def (g : Env) (data : Bytes) :
    flagPrints g data = frameLoopFrom g data 0 [] (flagPrintsBody g data) := rfl

theorem flagPrints_describes (g : Env) (data : Bytes) :
    Describes data (flagPrintsBody g data) (flagPrintsFrame g) := by
  intro s pre f post h
  have hb := body_encode h
  unfold flagPrintsBody flagPrintsFrame
  have : (infoOf pre.length f).bodySize = f.body.length := rfl
  rw [this, hb]
  rfl

theorem flagPrintsFrame_eq (g : Env) (acc : List Bytes) (i : Nat) (f : Frame) (texts : List Bytes)
    (h : FlagTexts g.toUnicode f texts) : flagPrintsFrame g acc i f = .ok (.next (acc ++ texts)) := by
  unfold flagPrintsFrame
  rcases h with ⟨ho, ps, hps, rfl⟩ | ⟨ho, rfl⟩
  · have h0 : ¬ f.body.length = 0 := by
      intro h0
      have h0 : f.body = [] := List.length_eq_zero_iff.mp h0
      rw [h0, ← find_isSome_iff] at ho
      revert ho
      decide
    have hsome : ¬ (find bytes!"flag" f.body).isNone = true := by
      have := find_isSome_iff.mpr ho
      cases hf : find bytes!"flag" f.body with
      | none => rw [hf] at this; simp at this
      | some _ => simp
    rw [if_neg h0, if_neg hsome, Cursor.new]
    have := flagBody_eq g hps (f.body.length + 1) 0 (acc, []) (by omega)
    simp only at this
    rw [this]
    simp only [R.bind]
    have hfl := flagStep_inPairs g ps (acc, [])
    simp only [if_true, List.nil_append] at hfl
    rw [← hfl, flush]
    by_cases hc : (ps.foldl (flagStep g) (acc, [])).2 = []
    · simp [hc]
    · simp [hc]
  · by_cases h0 : f.body.length = 0
    · simp [h0]
    · rw [if_neg h0]
      have : (find bytes!"flag" f.body).isNone = true := by
        cases hf : find bytes!"flag" f.body with
        | none => rfl
        | some _ => exact absurd (find_isSome_iff.mp (by rw [hf]; rfl)) ho
      simp [this]

theorem runFrames_flags (g : Env) {fs : List Frame} {tss : List (List Bytes)}
    (h : List.Forall₂ (FlagTexts g.toUnicode) fs tss) : ∀ (i : Nat) (acc : List Bytes),
    runFrames (flagPrintsFrame g) i acc fs = .ok (.next (acc ++ tss.flatten)) := by
  induction h with
  | nil => intro i acc; simp [runFrames]
  | cons hf _ ih =>
    intro i acc
    simp only [runFrames, flagPrintsFrame_eq g acc i _ _ hf, R.bind]
    rw [ih]
    simp

theorem flagTexts_exists (u : Bytes → Str) (f : Frame) : ∃ texts, FlagTexts u f texts := by
  by_cases h : Occurs bytes!"flag" f.body
  · obtain ⟨ps, hps⟩ := allPrints_exists _ f.body (Nat.le_refl _)
    exact ⟨_, .inl ⟨h, ps, hps, rfl⟩⟩
  · exact ⟨_, .inr ⟨h, rfl⟩⟩

theorem flagTexts_unique {u : Bytes → Str} {f : Frame} {a b : List Bytes} (h : FlagTexts u f a) (h' : FlagTexts u f b) :
    a = b := by
  rcases h with ⟨ho, ps, hps, rfl⟩ | ⟨ho, rfl⟩ <;> rcases h' with ⟨ho', qs, hqs, rfl⟩ | ⟨ho', rfl⟩
  · rw [allPrints_unique hps hqs]
  · exact absurd ho ho'
  · exact absurd ho' ho
  · rfl

theorem flagPrints_stops (g : Env) {data : Bytes} {fs : List Frame} {rest : Bytes} {tss : List (List Bytes)}
    (h : Splits data fs rest) (hs : Stops data.length rest) (hp : List.Forall₂ (FlagTexts g.toUnicode) fs tss) :
    flagPrints g data = .ok tss.flatten := by
  have := walk_stops g (flagPrints_describes g data) h.2.1 (pre := []) (by simpa using h.1) hs []
  simp only [List.length_nil] at this
  rw [flagPrints_def, this, runFrames_flags g hp]
  simp [finish]

theorem flagPrints_overruns (g : Env) {data : Bytes} {fs : List Frame} {rest : Bytes}
    (h : Splits data fs rest) (hs : Overruns data.length rest) : flagPrints g data = .panic := by
  obtain ⟨pss, hp⟩ := forall2_exists (flagTexts_exists g.toUnicode) fs
  obtain ⟨d, fl, hh, b, _, hlt, hb, _, e⟩ :=
    walk_overruns g (flagPrints_describes g data) h.2.1 (pre := []) (by simpa using h.1) hs []
  simp only [List.length_nil] at e
  rw [flagPrints_def, e, runFrames_flags g hp]
  simp only [R.bind]
  have : flagPrintsBody g data ([] ++ pss.flatten) (infoAt (0 + (Spec.encode fs).length) d fl hh b) = .panic := by
    unfold flagPrintsBody
    rw [if_neg (by simp [infoAt]; omega), body_overrun (by simpa using hlt)]
    rfl
  rw [this]

/-! ### Counting -/

/-- One counter. -/
def counter (e : PlayerFlagEvents) : FlagKind → Nat
  | .captured => e.captures
  | .got => e.pickups
  | .returned => e.returns
  | .assist => e.carrierFrags
  | .defendsFlag => e.defends
  | .defendsCarrier => e.carrierDefends
  | .defendsCarrierVsAggressive => e.carrierDefendsVsAggressive

/-- All counters. -/
def withCounters (c : FlagKind → Nat) : PlayerFlagEvents where
  captures := c .captured
  pickups := c .got
  returns := c .returned
  carrierFrags := c .assist
  defends := c .defendsFlag
  carrierDefends := c .defendsCarrier
  carrierDefendsVsAggressive := c .defendsCarrierVsAggressive

theorem withCounters_counter (e : PlayerFlagEvents) : withCounters (counter e) = e := rfl
theorem counter_withCounters (c : FlagKind → Nat) : counter (withCounters c) = c := by
  funext k; cases k <;> rfl

/-- One event counted. -/
def bump (g : Env) (k : FlagKind) (e : PlayerFlagEvents) : R PlayerFlagEvents :=
  (addU g.checks 8 (counter e k) 1).bind fun n => .ok (withCounters fun k' => if k' = k then n else counter e k')

/-- The events of the texts. -/
def flagEvents (g : Env) (texts : List Bytes) : List (FlagKind × Str) :=
  texts.filterMap fun t =>
    match FlagEvent.tryFrom (g.toUnicode t) with
    | .ok e => some (e.kind, e.player)
    | _ => none

/-- One event counted in the map. -/
def countEvent (g : Env) (m : Map Str PlayerFlagEvents) (e : FlagKind × Str) : R (Map Str PlayerFlagEvents) :=
  m.update e.2 {} (bump g e.1)

theorem countFlagPrints_eq (g : Env) : ∀ (texts : List Bytes) (m : Map Str PlayerFlagEvents),
    forR (countFlagPrint g) m texts = forR (countEvent g) m (flagEvents g texts)
  | [], m => rfl
  | t :: texts, m => by
    simp only [forR, flagEvents, List.filterMap_cons]
    have ih := countFlagPrints_eq g texts
    unfold countFlagPrint
    rcases C29_total (g.toUnicode t) with ⟨e, he⟩ | ⟨he, _⟩
    · rw [he]
      simp only [forR]
      cases e <;> simp only [FlagEvent.kind, FlagEvent.player] <;>
        (congr 1; funext m; exact ih m)
    · rw [he]
      simp only [R.bind]
      exact ih m

theorem countEvent_ok (g : Env) (m : Map Str PlayerFlagEvents) (k : FlagKind) (p : Str)
    (h : counter ((m.get p).getD {}) k + 1 < 256 ∨ g.checks = false)
    (h256 : ∀ k, counter ((m.get p).getD {}) k < 256) :
    countEvent g m (k, p) = .ok (m.set p (withCounters fun k' =>
      (counter ((m.get p).getD {}) k' + if k' = k then 1 else 0) % 256)) := by
  have hadd : addU g.checks 8 (counter ((m.get p).getD {}) k) 1 = .ok ((counter ((m.get p).getD {}) k + 1) % 256) := by
    unfold addU
    rcases h with h | h
    · rw [if_pos (by simpa using h), Nat.mod_eq_of_lt h]
    · split
      · rename_i h; rw [Nat.mod_eq_of_lt (by simpa using h)]
      · simp [h]
  simp only [countEvent, Map.update, bump, hadd, R.bind]
  congr 2
  congr 1
  funext k'
  by_cases hk : k' = k
  · subst hk; simp
  · simp [hk, Nat.mod_eq_of_lt (h256 k')]

theorem countEvent_panic (g : Env) (m : Map Str PlayerFlagEvents) (k : FlagKind) (p : Str)
    (h : counter ((m.get p).getD {}) k = 255) (hc : g.checks = true) : countEvent g m (k, p) = .panic := by
  simp [countEvent, Map.update, bump, addU, h, hc, R.bind]

theorem count_cons_pair (k k' : FlagKind) (p p' : Str) (l : List (FlagKind × Str)) :
    ((k, p) :: l).count (k', p') = l.count (k', p') + if k' = k ∧ p' = p then 1 else 0 := by
  rw [List.count_cons]
  by_cases h : k' = k ∧ p' = p
  · obtain ⟨rfl, rfl⟩ := h; simp
  · have : ((k, p) == (k', p')) = false := by
      simp only [beq_eq_false_iff_ne, ne_eq, Prod.mk.injEq]
      rintro ⟨rfl, rfl⟩
      exact h ⟨rfl, rfl⟩
    rw [this, if_neg h]
    rfl

/-- Counters modulo 256, as long as nothing panics. -/
theorem countEvents_ok (g : Env) : ∀ (l : List (FlagKind × Str)) (m : Map Str PlayerFlagEvents),
    (∀ p k, counter ((m.get p).getD {}) k < 256) →
    ((∀ p k, counter ((m.get p).getD {}) k + l.count (k, p) < 256) ∨ g.checks = false) →
    ∃ m', forR (countEvent g) m l = .ok m' ∧ ∀ p, m'.get p =
      if p ∈ l.map Prod.snd then some (withCounters fun k => (counter ((m.get p).getD {}) k + l.count (k, p)) % 256)
      else m.get p
  | [], m, _, _ => ⟨m, rfl, by simp⟩
  | (k, p) :: l, m, h256, h => by
    have h1 : counter ((m.get p).getD {}) k + 1 < 256 ∨ g.checks = false := by
      rcases h with h | h
      · have := h p k
        rw [count_cons_pair] at this
        simp at this
        left; omega
      · exact .inr h
    have hstep := countEvent_ok g m k p h1 (h256 p)
    generalize hm1 : m.set p (withCounters fun k' =>
      (counter ((m.get p).getD {}) k' + if k' = k then 1 else 0) % 256) = m1 at hstep
    have hget : ∀ q k', counter ((m1.get q).getD {}) k' =
        (counter ((m.get q).getD {}) k' + if k' = k ∧ q = p then 1 else 0) % 256 := by
      intro q k'
      rw [← hm1, Map.get_set]
      by_cases hq : p = q
      · subst hq
        simp [counter_withCounters]
      · have : ¬ q = p := fun e => hq e.symm
        simp [hq, this, Nat.mod_eq_of_lt (h256 q k')]
    obtain ⟨m', e, hm'⟩ := countEvents_ok g l m1 (fun q k' => by rw [hget]; omega) (by
      rcases h with h | h
      · refine .inl fun q k' => ?_
        have := h q k'
        rw [count_cons_pair] at this
        rw [hget]
        omega
      · exact .inr h)
    refine ⟨m', by simp only [forR, hstep, R.bind]; exact e, ?_⟩
    intro q
    rw [hm' q]
    by_cases hql : q ∈ l.map Prod.snd
    · rw [if_pos hql, if_pos (by simp at hql ⊢; tauto)]
      congr 2
      funext k'
      rw [hget, count_cons_pair]
      omega
    · rw [if_neg hql]
      have h0 : ∀ k', l.count (k', q) = 0 := by
        intro k'
        rw [List.count_eq_zero]
        intro hm
        exact hql (List.mem_map.mpr ⟨_, hm, rfl⟩)
      by_cases hq : p = q
      · subst hq
        rw [if_pos (by simp), ← hm1, Map.get_set, if_pos rfl]
        congr 2
        funext k'
        rw [count_cons_pair, h0]
        simp
      · have hq' : ¬ q = p := fun e => hq e.symm
        rw [if_neg (by simp only [List.map_cons, List.mem_cons, not_or]; exact ⟨hq', hql⟩), ← hm1, Map.get_set, if_neg hq]

theorem countEvents_panic (g : Env) (hc : g.checks = true) : ∀ (l : List (FlagKind × Str)) (m : Map Str PlayerFlagEvents),
    (∀ p k, counter ((m.get p).getD {}) k < 256) →
    (∃ p k, 256 ≤ counter ((m.get p).getD {}) k + l.count (k, p)) → forR (countEvent g) m l = .panic
  | [], m, h, ⟨p, k, hk⟩ => by have := h p k; simp at hk; omega
  | (k, p) :: l, m, h256, ⟨q, k', hk'⟩ => by
    simp only [forR]
    by_cases h : counter ((m.get p).getD {}) k = 255
    · rw [countEvent_panic g m k p h hc]
      rfl
    · have := h256 p k
      rw [countEvent_ok g m k p (.inl (by omega)) (h256 p)]
      simp only [R.bind]
      have hget : ∀ q k', counter (((m.set p (withCounters fun k' =>
          (counter ((m.get p).getD {}) k' + if k' = k then 1 else 0) % 256)).get q).getD {}) k' =
          (counter ((m.get q).getD {}) k' + if k' = k ∧ q = p then 1 else 0) := by
        intro q k'
        rw [Map.get_set]
        by_cases hq : p = q
        · subst hq
          have := h256 p k'
          simp only [if_true, Option.getD_some, counter_withCounters, and_true]
          apply Nat.mod_eq_of_lt
          split
          · rename_i e; subst e; omega
          · omega
        · have : ¬ q = p := fun e => hq e.symm
          simp [hq, this]
      refine countEvents_panic g hc l _ ?_ ⟨q, k', ?_⟩
      · intro q k'
        rw [hget]
        have := h256 q k'
        split
        · rename_i e; obtain ⟨rfl, rfl⟩ := e; omega
        · omega
      · rw [hget]
        rw [count_cons_pair] at hk'
        omega

theorem flagEvents_count (g : Env) (texts : List Bytes) (p : Str) (k : FlagKind) :
    (flagEvents g texts).count (k, p) = flagCount g.toUnicode texts p k := by
  unfold flagCount
  induction texts with
  | nil => rfl
  | cons t texts ih =>
    have key : ClassifiesFlag (g.toUnicode t) k p ↔ FlagEvent.tryFrom (g.toUnicode t) = .ok (ofKind k p) := by
      rw [C29_classification, (ofKind_iff.mp (rfl : ofKind k p = ofKind k p)).1,
        (ofKind_iff.mp (rfl : ofKind k p = ofKind k p)).2]
    unfold flagEvents at ih ⊢
    simp only [List.filterMap_cons]
    rcases C29_total (g.toUnicode t) with ⟨e, he⟩ | ⟨he, _⟩
    · rw [he]
      simp only
      rw [count_cons_pair, ih]
      by_cases hk : k = e.kind ∧ p = e.player
      · rw [if_pos hk, List.filter_cons_of_pos]
        · rfl
        · simp only [decide_eq_true_eq]
          rw [key, he, ofKind_iff.mpr ⟨hk.1.symm, hk.2.symm⟩]
      · rw [if_neg hk, List.filter_cons_of_neg]
        · rfl
        · simp only [decide_eq_true_eq]
          rw [key, he]
          intro h
          simp only [R.ok.injEq] at h
          have := ofKind_iff.mp h.symm
          exact hk ⟨this.1.symm, this.2.symm⟩
    · rw [he]
      simp only
      rw [ih, List.filter_cons_of_neg]
      simp only [decide_eq_true_eq]
      rw [key, he]
      simp

theorem flagEvents_mem (g : Env) (texts : List Bytes) (p : Str) :
    p ∈ (flagEvents g texts).map Prod.snd ↔ ∃ t ∈ texts, ∃ k, ClassifiesFlag (g.toUnicode t) k p := by
  simp only [List.mem_map, flagEvents, List.mem_filterMap]
  constructor
  · rintro ⟨⟨k, q⟩, ⟨t, ht, h⟩, rfl⟩
    refine ⟨t, ht, k, ?_⟩
    rcases C29_total (g.toUnicode t) with ⟨e, he⟩ | ⟨he, _⟩
    · rw [he] at h
      simp only [Option.some.injEq, Prod.mk.injEq] at h
      obtain ⟨rfl, rfl⟩ := h
      exact (C29_classification _ _).mp he
    · rw [he] at h
      simp at h
  · rintro ⟨t, ht, k, h⟩
    have : FlagEvent.tryFrom (g.toUnicode t) = .ok (ofKind k p) := by
      rw [C29_classification, (ofKind_iff.mp (rfl : ofKind k p = ofKind k p)).1,
        (ofKind_iff.mp (rfl : ofKind k p = ofKind k p)).2]
      exact h
    refine ⟨(k, p), ⟨t, ht, ?_⟩, rfl⟩
    rw [this]
    simp [(ofKind_iff.mp (rfl : ofKind k p = ofKind k p)).1, (ofKind_iff.mp (rfl : ofKind k p = ofKind k p)).2]

end Mvd

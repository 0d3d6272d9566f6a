import Verif.Props.Silent
import Verif.Props.Metadata

/-! C96: a demo that was cut off, like an interrupted download. -/

namespace Mvd
open Spec

theorem announced_header {f : Frame} (hf : f.WF) (t : Bytes) :
    announced (f.header ++ t) = some (f.header.length, f.body.length) := by
  obtain ⟨d, fl, mask, body⟩ := f
  obtain ⟨hm, hb⟩ := hf
  simp only [Frame.kind] at hm hb
  simp only [Frame.header, Frame.kind]
  rcases kind_cases fl with hk | hk | hk | hk | hk | hk | hk | hk <;> simp only [hk] at hm hb ⊢ <;>
    simp [Frame.sized] at hm hb ⊢
  case inr.inr.inr.inl =>
    obtain ⟨a, b, c, e, t', rfl⟩ := exists_four (show 4 ≤ mask.length by omega)
    simp at hm
    subst hm
    simp only [announced, hk, le32, List.cons_append, List.nil_append, List.length_cons, List.length_nil]
    rw [le32_value _ hb]
  case inl | inr.inr.inr.inr.inr.inr.inr | inr.inr.inl =>
    simp [announced, hk, hm, hb]
  all_goals
    subst hm
    simp only [announced, hk, le32, List.cons_append, List.nil_append, List.length_cons, List.length_nil]
    rw [le32_value _ hb]

theorem announced_append {l : Bytes} {x : Nat × Nat} (h : announced l = some x) (t : Bytes) : announced (l ++ t) = some x := by
  match l, h with
  | d :: fl :: u, h =>
    simp only [announced, List.cons_append] at h ⊢
    split at h <;> simp_all

theorem announced_length {l : Bytes} {h b : Nat} (ha : announced l = some (h, b)) : h ≤ l.length := by
  obtain ⟨d, fl, t, rfl, hc⟩ := announced_cases ha
  rcases hc with ⟨_, rfl, _⟩ | ⟨_, rfl, _⟩ | ⟨_, m, t', n, rfl, hm, _, rfl, _⟩ | ⟨_, _, t', n, rfl, _, rfl, _⟩ <;>
    simp [le32] <;> omega

/-- What a part of a frame announces. -/
theorem announced_part {f : Frame} (hf : f.WF) {rest t : Bytes} (h : f.encode = rest ++ t) :
    announced rest = if f.header.length ≤ rest.length then some (f.header.length, f.body.length) else none := by
  split
  · rename_i hle
    obtain ⟨u, rfl⟩ : f.header <+: rest :=
      List.prefix_of_prefix_length_le ⟨f.body, rfl⟩ ⟨t, h.symm⟩ hle
    exact announced_header hf u
  · rename_i hlt
    cases ha : announced rest with
    | none => rfl
    | some x =>
      obtain ⟨hh, b⟩ := x
      have h1 := announced_append ha t
      have h2 := announced_encode hf []
      rw [List.append_nil, h, h1] at h2
      cases h2
      exact absurd (announced_length ha) hlt

/-- Where a demo is cut. -/
theorem cut_at : ∀ {fs : List Frame} {n : Nat}, (∀ f ∈ fs, f.WF) → n < (Spec.encode fs).length →
    ∃ a f b rest t, fs = a ++ f :: b ∧ (Spec.encode fs).take n = Spec.encode a ++ rest ∧ f.encode = rest ++ t ∧ t ≠ []
  | [], n, _, hn => by simp [Spec.encode] at hn
  | f :: fs, n, hw, hn => by
    have e : Spec.encode (f :: fs) = f.encode ++ Spec.encode fs := rfl
    by_cases hlt : n < f.encode.length
    · refine ⟨[], f, fs, f.encode.take n, f.encode.drop n, rfl, ?_, by simp, ?_⟩
      · rw [e, List.take_append_of_le_length (by omega)]
        rfl
      · intro h
        have := List.length_drop (i := n) (l := f.encode)
        rw [h] at this
        simp at this
        omega
    · have hle : f.encode.length ≤ n := by omega
      have hn' : n - f.encode.length < (Spec.encode fs).length := by
        rw [e, List.length_append] at hn
        omega
      obtain ⟨a, x, b, rest, t, rfl, h1, h2, h3⟩ := cut_at (fun x hx => hw x (by simp [hx])) hn'
      refine ⟨f :: a, x, b, rest, t, rfl, ?_, h2, h3⟩
      rw [e, List.take_append, h1, List.take_of_length_le hle, ← List.append_assoc]
      rfl

open Classical in
/-- C96: a cut demo consists of whole frames and a part of the next one. If the part has a whole header and the announced size
does not exceed the size of the cut demo, then prints, flag events and scores panic, and so do the pings unless eight frames
with pings come before. Otherwise what is reported is what the whole frames say. -/
theorem C96_cut (g : Env) (fs : List Frame) (hw : ∀ f ∈ fs, f.WF) (n : Nat) (hn : n < (Spec.encode fs).length) :
    ∃ (a : List Frame) (f : Frame) (b : List Frame) (rest : Bytes), fs = a ++ f :: b ∧
      (Spec.encode fs).take n = Spec.encode a ++ rest ∧ rest <+: f.encode ∧ rest.length < f.encode.length ∧
      (f.header.length ≤ rest.length ∧ f.encode.length ≤ n →
        prints g ((Spec.encode fs).take n) = .panic ∧ flagEventsPerPlayerName g ((Spec.encode fs).take n) = .panic ∧
        fragsPerPlayerName g ((Spec.encode fs).take n) = .panic ∧
        if 8 ≤ (a.filter fun x => decide (¬ NoPing x.body)).length then
          pingPerPlayerNumber g ((Spec.encode fs).take n) = pingPerPlayerNumber g (Spec.encode a)
        else pingPerPlayerNumber g ((Spec.encode fs).take n) = .panic) ∧
      (¬ (f.header.length ≤ rest.length ∧ f.encode.length ≤ n) →
        prints g ((Spec.encode fs).take n) = prints g (Spec.encode a) ∧
        flagEventsPerPlayerName g ((Spec.encode fs).take n) = flagEventsPerPlayerName g (Spec.encode a) ∧
        pingPerPlayerNumber g ((Spec.encode fs).take n) = pingPerPlayerNumber g (Spec.encode a) ∧
        (clients g ((Spec.encode fs).take n) = clients g (Spec.encode a) →
          fragsPerPlayerName g ((Spec.encode fs).take n) = fragsPerPlayerName g (Spec.encode a))) := by
  obtain ⟨a, f, b, rest, t, rfl, h1, h2, h3⟩ := cut_at hw hn
  have hf : f.WF := hw f (by simp)
  have ha : ∀ x ∈ a, x.WF := fun x hx => hw x (by simp [hx])
  have hlt : rest.length < f.encode.length := by
    rw [h2, List.length_append]
    have := List.length_pos_iff.mpr h3
    omega
  have hlen := Frame_encode_length f
  have hann := announced_part hf h2
  have hl : ((Spec.encode (a ++ f :: b)).take n).length = n := by rw [List.length_take]; omega
  have hno : NoFrame rest := by
    rw [noFrame_iff]
    intro h' b' e
    rw [hann] at e
    split at e <;> cases e
    omega
  have hsp : Splits ((Spec.encode (a ++ f :: b)).take n) a rest := ⟨h1, ha, hno⟩
  have hwhole := splits_whole ha
  refine ⟨a, f, b, rest, rfl, h1, ⟨t, h2.symm⟩, hlt, ?_, ?_⟩
  · rintro ⟨hh, hsz⟩
    have hov : Overruns ((Spec.encode (a ++ f :: b)).take n).length rest := by
      unfold Overruns
      rw [hann, if_pos hh, hl]
      dsimp only
      omega
    refine ⟨prints_overruns g hsp hov, C06_flags g _ a rest hsp hov, C06_frags g _ a rest hsp hov, ?_⟩
    obtain ⟨uss, hu⟩ := pings_exists a
    have hcount := (pings_filter hu).length_eq
    split
    · rename_i h8
      exact C06_ping_enough g _ a rest uss hsp hov hu (by omega)
    · rename_i h8
      exact C06_ping g _ a rest uss hsp hov hu (by omega)
  · intro hnot
    have hst : Stops ((Spec.encode (a ++ f :: b)).take n).length rest := by
      unfold Stops
      rw [hann, hl]
      split
      · rename_i e
        trivial
      · rename_i e
        split at e <;> cases e
        omega
    refine ⟨C95_prints g _ _ a a rest [] hsp hst hwhole.1 hwhole.2 rfl, C95_flags g _ _ a a rest [] hsp hst hwhole.1 hwhole.2 rfl,
      C95_pings g _ _ a a rest [] hsp hst hwhole.1 hwhole.2 rfl,
      fun hc => C95_frags g _ _ a a rest [] hsp hst hwhole.1 hwhole.2 rfl hc⟩

theorem dedup_prefix {α : Type} [DecidableEq α] (y : List α) : ∀ x : List α, dedup x <+: dedup (x ++ y)
  | [] => by simp [dedup]
  | [a] => by
    obtain ⟨t, e⟩ := dedup_head a y
    exact ⟨t, by simpa [dedup] using e.symm⟩
  | a :: b :: t => by
    have ih := dedup_prefix y (b :: t)
    rw [List.cons_append, List.cons_append, dedup_cons_cons, dedup_cons_cons]
    split
    · exact ih
    · exact (List.prefix_cons_inj a).mpr ih

/-- C96: whatever prints a cut demo shows are the first prints of the demo. -/
theorem C96_prefix (g : Env) (fs : List Frame) (hw : ∀ f ∈ fs, f.WF) (n : Nat) (out : List Print)
    (h : prints g ((Spec.encode fs).take n) = .ok out) : ∃ all, prints g (Spec.encode fs) = .ok all ∧ out <+: all := by
  by_cases hn : n < (Spec.encode fs).length
  · obtain ⟨a, f, b, rest, rfl, _, _, _, h1, h2⟩ := C96_cut g fs hw n hn
    by_cases hc : f.header.length ≤ rest.length ∧ f.encode.length ≤ n
    · rw [(h1 hc).1] at h
      cases h
    · rw [(h2 hc).1] at h
      obtain ⟨pss, hp⟩ := leading_exists a
      obtain ⟨qss, hq⟩ := leading_exists (f :: b)
      have s1 := splits_whole (fs := a) fun x hx => hw x (by simp only [List.mem_append]; exact .inl hx)
      have s2 := splits_whole hw
      rw [prints_stops g s1.1 s1.2 hp] at h
      cases h
      refine ⟨_, prints_stops g s2.1 s2.2 (List.rel_append hp hq), ?_⟩
      rw [List.flatten_append]
      unfold reportedPrints
      rw [List.filter_append, List.map_append]
      exact dedup_prefix _ _
  · rw [List.take_of_length_le (by omega)] at h
    exact ⟨out, h, [], by simp⟩

/-- C96: a demo in which the end-of-demo print occurs only at the end is reported invalid, without panic, wherever it is cut. -/
theorem C96_invalid (g : Env) (data : Bytes) (h : ∀ pre post, data = pre ++ Spec.endOfDemo ++ post → post = []) (n : Nat)
    (hn : n < data.length) : isValid g (data.take n) = .ok false := by
  have no : ¬ Spec.EndsWithMarker (data.take n) := by
    rintro ⟨pre, _, e⟩
    have := h pre (data.drop n) (by rw [← e, List.take_append_drop])
    have hl := List.length_drop (i := n) (l := data)
    rw [this] at hl
    simp at hl
    omega
  obtain ⟨h1, h2⟩ := C13_valid_panics g (data.take n)
  rcases h2 with h2 | ⟨b, h2⟩
  · exact absurd (h1.mp h2).1 no
  · cases b with
    | false => exact h2
    | true => exact absurd ((C12_exact g _).mp h2).2.1 no

/-- How a cut demo splits. -/
theorem cut_splits {fs : List Frame} (hw : ∀ f ∈ fs, f.WF) {n : Nat} (hn : n < (Spec.encode fs).length) :
    ∃ a f b rest, fs = a ++ f :: b ∧ Splits ((Spec.encode fs).take n) a rest ∧ n < (Spec.encode (a ++ [f])).length := by
  obtain ⟨a, f, b, rest, t, rfl, h1, h2, h3⟩ := cut_at hw hn
  have hn' : n < (Spec.encode (a ++ [f])).length := by
    have e : Spec.encode (a ++ [f]) = Spec.encode a ++ f.encode := by simp [Spec.encode]
    have hl := congrArg List.length h1
    rw [List.length_take, List.length_append] at hl
    have := List.length_pos_iff.mpr h3
    rw [e, List.length_append, h2, List.length_append]
    omega
  refine ⟨a, f, b, rest, rfl, ⟨h1, fun x hx => hw x (by simp [hx]), ?_⟩, hn'⟩
  rw [noFrame_iff]
  intro h' b' e
  rw [announced_part (hw f (by simp)) h2] at e
  split at e <;> cases e
  have hlen := Frame_encode_length f
  have := List.length_pos_iff.mpr h3
  rw [h2, List.length_append] at hlen
  omega

/-- A duration is reported only if the frames up to the end of the measurement are complete. -/
theorem duration_complete (g : Env) {data : Bytes} {fs : List Frame} {rest : Bytes} {t d : Nat} (h : Splits data fs rest)
    (ht : MeasuredTo data t) (hd : demoDuration g data = .ok d) : CompleteUpTo data fs rest t := by
  rcases stops_or_overruns (n := data.length) h.2.2 with hs | hs
  · exact .inl hs.1
  · refine .inr ⟨hs.1, Nat.le_of_not_lt fun hlt => ?_⟩
    rw [C06_demo_duration g data fs rest t h hs.1 ht hlt] at hd
    cases hd

theorem measuredTo_le {data : Bytes} {t : Nat} (h : MeasuredTo data t) : t ≤ data.length := by
  have key : ∀ {x : Bytes}, LastAt x data t → t ≤ data.length := by
    rintro x ⟨⟨pre, post, e, rfl⟩, _⟩
    rw [e]
    simp
  rcases h with h | ⟨_, h⟩ | ⟨_, _, h⟩
  · exact key h
  · exact key h
  · omega

/-- C96: cut before the end of the measurement, a demo is not reported longer than it is. -/
theorem C96_shorter (g : Env) (fs : List Frame) (hw : ∀ f ∈ fs, f.WF) (n t d : Nat) (ht : MeasuredTo (Spec.encode fs) t)
    (hn : n ≤ t) (hms : msBefore t fs < 2 ^ 32) (hd : demoDuration g ((Spec.encode fs).take n) = .ok d) :
    ∃ d', demoDuration g (Spec.encode fs) = .ok d' ∧ d ≤ d' := by
  have h2 := splits_whole hw
  refine ⟨_, demo_ms g _ fs [] t h2.1 ht (.inl h2.2) hms, ?_⟩
  by_cases hlt : n < (Spec.encode fs).length
  · obtain ⟨a, f, b, rest, rfl, h1, _⟩ := cut_splits hw hlt
    obtain ⟨t', ht', _⟩ := C35_measured ((Spec.encode (a ++ f :: b)).take n)
    have hle : t' ≤ t := by
      have := measuredTo_le ht'
      rw [List.length_take] at this
      omega
    have hle' := msBefore_mono a (f :: b) t' t hle
    rw [demo_ms g _ a rest t' h1 ht' (duration_complete g h1 ht' hd) (by omega)] at hd
    cases hd
    exact C36_monotone _ _ hle'
  · rw [List.take_of_length_le (by omega), demo_ms g _ fs [] t h2.1 ht (.inl h2.2) hms] at hd
    cases hd
    exact Nat.le_refl _

/-- C96: cut after the frame with the last end-of-match print, the duration is that of the whole demo. -/
theorem C96_settled (g : Env) (fs before after : List Frame) (hw : ∀ f ∈ fs, f.WF) (n t : Nat)
    (ht : LastAt matchOver (Spec.encode fs) t) (he : fs = before ++ after) (hb : t + matchOver.length ≤ (Spec.encode before).length)
    (hn : (Spec.encode before).length ≤ n) (hms : msBefore t fs < 2 ^ 32) :
    demoDuration g ((Spec.encode fs).take n) = demoDuration g (Spec.encode fs) := by
  by_cases hlt : n < (Spec.encode fs).length
  · have h2 := splits_whole hw
    obtain ⟨a, f, b, rest, rfl, h1, hcut⟩ := cut_splits hw hlt
    have hle : t ≤ (Spec.encode a).length := by
      rcases List.append_eq_append_iff.mp he with ⟨c, rfl, e⟩ | ⟨c, rfl, e⟩
      · cases c with
        | nil => rw [List.append_nil] at hb; omega
        | cons x c =>
          rw [List.cons_append, List.cons.injEq] at e
          obtain ⟨rfl, _⟩ := e
          have : (Spec.encode (a ++ [f])).length ≤ (Spec.encode (a ++ f :: c)).length := by simp [Spec.encode]
          omega
      · have : (Spec.encode before).length ≤ (Spec.encode (before ++ c)).length := by simp [Spec.encode]
        omega
    have ht' : LastAt matchOver ((Spec.encode (a ++ f :: b)).take n) t := by
      obtain ⟨⟨pre, post, e, rfl⟩, hlast⟩ := ht
      refine ⟨⟨pre, post.take (n - (pre ++ matchOver).length), ?_, rfl⟩, ?_⟩
      · rw [e, List.take_append, List.take_of_length_le (by rw [List.length_append]; omega)]
      · rintro j ⟨p, q, e', rfl⟩
        refine hlast _ ⟨p, q ++ (Spec.encode (a ++ f :: b)).drop n, ?_, rfl⟩
        rw [← List.append_assoc, ← e', List.take_append_drop]
    have hms' := msBefore_append a (f :: b) t hle
    have hc : CompleteUpTo ((Spec.encode (a ++ f :: b)).take n) a rest t := by
      rcases stops_or_overruns (n := ((Spec.encode (a ++ f :: b)).take n).length) h1.2.2 with hs | hs
      · exact .inl hs.1
      · exact .inr ⟨hs.1, hle⟩
    rw [demo_ms g _ a rest t h1 (.inl ht') hc (by omega),
      demo_ms g _ _ [] t h2.1 (.inl ht) (.inl h2.2) hms, hms']
  · rw [List.take_of_length_le (by omega)]

namespace Example

/-- Three frames with a print each. -/
def printed : List Frame :=
  [all (medium bytes!"a suicides\n"), all (medium bytes!"b suicides\n"), all (medium bytes!"c suicides, and that was all\n")]

end Example

/-- The hypotheses of C96 are met: cut in a header, and in a long frame, the first prints are reported; cut in a frame that
is not longer than what is left of the demo, the reports panic. -/
example : (∀ f ∈ Example.printed, f.WF) ∧ 50 < (Spec.encode Example.printed).length ∧
    fragsPerPlayerName Example.debug ((Spec.encode Example.printed).take 5) = .ok [] ∧
    fragsPerPlayerName Example.debug ((Spec.encode Example.printed).take 10) = .ok [] ∧
    fragsPerPlayerName Example.debug ((Spec.encode Example.printed).take 22) = .ok [(chars!"a", -2)] ∧
    fragsPerPlayerName Example.debug ((Spec.encode Example.printed).take 30) = .panic ∧
    fragsPerPlayerName Example.debug ((Spec.encode Example.printed).take 50) = .panic ∧
    pingPerPlayerNumber Example.debug ((Spec.encode Example.printed).take 50) = .panic := by
  refine ⟨by decide, by decide, ?_⟩
  decide +kernel

/-- An announced size larger than the cut demo. -/
example : ∃ f g : Frame, f.WF ∧ g.WF ∧
    fragsPerPlayerName Example.debug ((Spec.encode [f, g]).take 30) = .ok [(chars!"a", -2)] ∧
    fragsPerPlayerName Example.debug (Spec.encode [f, g]) = .ok [(chars!"a", -2), (chars!"b", -2)] :=
  ⟨Example.all (Example.medium bytes!"a suicides\n"), Example.all (Example.medium bytes!"b suicides\n" ++ List.replicate 50 1),
    by decide, by decide, by decide +kernel, by decide +kernel⟩

/-- The hypotheses of C96_shorter and C96_settled are met by a match of 5 ms, cut in the end-of-match print or after it. -/
example : ∃ (fs before after : List Frame) (t : Nat), (∀ f ∈ fs, f.WF) ∧ LastAt matchOver (Spec.encode fs) t ∧ fs = before ++ after ∧
    t + matchOver.length ≤ (Spec.encode before).length ∧ (Spec.encode before).length ≤ 33 ∧ 33 < (Spec.encode fs).length ∧
    msBefore t fs < 2 ^ 32 ∧ 8 ≤ t ∧
    demoDuration Example.debug ((Spec.encode fs).take 8) = .ok 2000000 ∧
    demoDuration Example.debug ((Spec.encode fs).take 25) = .panic ∧
    demoDuration Example.debug ((Spec.encode fs).take 33) = .ok 5000000 ∧
    demoDuration Example.debug (Spec.encode fs) = .ok 5000000 :=
  ⟨[⟨2, 6, [], [7]⟩, ⟨3, 6, [], matchOver⟩, ⟨9, 6, [], [7]⟩], [⟨2, 6, [], [7]⟩, ⟨3, 6, [], matchOver⟩], [⟨9, 6, [], [7]⟩], 13,
    by decide +kernel, rfind_eq_some_iff.mp (by decide +kernel), rfl, by decide, by decide, by decide, by decide +kernel, by decide,
    by decide +kernel, by decide +kernel, by decide +kernel, by decide +kernel⟩

/-- The hypothesis of C96_invalid is met by a print and the end-of-demo print, within the frames of a demo. -/
example : ∀ pre post, Spec.encode [Example.all (Example.medium bytes!"a suicides\n")] ++ [0, 6, 13, 0, 0, 0, 8] ++ Spec.endOfDemo =
    pre ++ Spec.endOfDemo ++ post → post = [] := by
  intro pre post e
  have hl := congrArg List.length e
  have hlen : (Spec.encode [Example.all (Example.medium bytes!"a suicides\n")] ++ [0, 6, 13, 0, 0, 0, 8] ++ Spec.endOfDemo).length = 39 := by
    decide
  have h12 : Spec.endOfDemo.length = 12 := by decide
  rw [hlen, List.length_append, List.length_append, h12] at hl
  have key : ∀ i ≤ 26, ((Spec.encode [Example.all (Example.medium bytes!"a suicides\n")] ++ [0, 6, 13, 0, 0, 0, 8] ++
      Spec.endOfDemo).drop i).take 12 ≠ Spec.endOfDemo := by decide
  by_contra hp
  have := List.length_pos_iff.mpr hp
  apply key pre.length (by omega)
  rw [e, List.append_assoc, List.drop_left, ← h12, List.take_left]

end Mvd

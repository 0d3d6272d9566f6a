import Verif.Props.Chats
import Verif.Props.Healthy

/-! C89: chat messages that are recorded with a time of their own. -/

namespace Mvd
open Spec

theorem _root_.Spec.ChatSent.msTime {a b : List Frame} {f : Frame} (_ : ChatSent a f b) (t : Nat) :
    msBefore (pastGap (Spec.encode a).length f.encode.length t) (a ++ f :: b) =
      msBefore t (a ++ b) + if (Spec.encode a).length ≤ t then f.duration.toNat else 0 := by
  unfold pastGap
  split
  · rw [if_neg (by omega), msBefore_append _ _ _ (by omega), msBefore_append _ _ _ (by omega), Nat.add_zero]
  · have hp := encode_pos f
    rw [if_pos (by omega), ← msFrom_zero, ← msFrom_zero, msFrom_append _ _ _ _ (by omega), msFrom_append _ _ _ _ (by omega),
      msFrom_cons (by omega), msFrom_shift]
    omega

theorem _root_.Spec.ChatSent.measured {a b : List Frame} {f : Frame} (h : ChatSent a f b) {t : Nat}
    (ht : MeasuredTo (Spec.encode (a ++ b)) t) :
    MeasuredTo (Spec.encode (a ++ f :: b)) (pastGap (Spec.encode a).length f.encode.length t) := by
  rcases ht with ht | ⟨h1, ht⟩ | ⟨h1, h2, rfl⟩
  · exact .inl (h.last (by decide) ht)
  · exact .inr (.inl ⟨fun hc => h1 ((C89_words a b f h _ (by decide)).mp hc), h.last (by decide) ht⟩)
  · refine .inr (.inr ⟨fun hc => h1 ((C89_words a b f h _ (by decide)).mp hc),
      fun hc => h2 ((C89_words a b f h _ (by decide)).mp hc), ?_⟩)
    rw [encode_sent, encode_unsent, pastGap, if_neg (by simp)]
    simp
    omega

/-- C89: the duration of the demo, if time passes before the chat: that time is added if the chat comes before the end of the
measurement, and otherwise nothing. -/
theorem C89_time (g : Env) (a b : List Frame) (f : Frame) (h : ChatSent a f b) (t : Nat)
    (ht : MeasuredTo (Spec.encode (a ++ b)) t) (hms : msBefore t (a ++ b) + f.duration.toNat < 2 ^ 32) :
    ∃ ns ns', demoDuration g (Spec.encode (a ++ b)) = .ok ns ∧ Converted (msBefore t (a ++ b)) ns ∧
      demoDuration g (Spec.encode (a ++ f :: b)) = .ok ns' ∧
      Converted (msBefore t (a ++ b) + if (Spec.encode a).length ≤ t then f.duration.toNat else 0) ns' := by
  have h1 := splits_whole h.frames
  have h2 := splits_whole h.frames'
  refine ⟨_, _, demo_ms g _ _ _ _ h1.1 ht (.inl h1.2) (by omega), (C36_conversion _ _).mpr rfl,
    demo_ms g _ _ _ _ h2.1 (h.measured ht) (.inl h2.2) ?_, ?_⟩
  · rw [h.msTime]; split <;> omega
  · rw [h.msTime]; exact (C36_conversion _ _).mpr rfl

/-- C89: likewise the time until the match starts, and the difference of the two. -/
theorem C89_match_time (g : Env) (a b : List Frame) (f : Frame) (h : ChatSent a f b) (o t : Nat)
    (hl : 1280 ≤ (Spec.encode a).length) (hh : ¬ Hoonymode g (Spec.encode (a ++ b)))
    (ho : FirstAt matchdatePrint (Spec.encode (a ++ b)) o) (ht : MeasuredTo (Spec.encode (a ++ b)) t) (hle : o ≤ t)
    (hms : msBefore t (a ++ b) + f.duration.toNat < 2 ^ 32) :
    ∃ c d, countdownDuration g (Spec.encode (a ++ f :: b)) = .ok c ∧
      Converted (msBefore o (a ++ b) + if (Spec.encode a).length ≤ o then f.duration.toNat else 0) c ∧
      Converted (msBefore t (a ++ b) + if (Spec.encode a).length ≤ t then f.duration.toNat else 0) d ∧ c ≤ d ∧
      (¬ Occurs statsMarker (Spec.encode (a ++ b)) → matchDuration g (Spec.encode (a ++ f :: b)) = .ok (d - c)) := by
  have h2 := splits_whole h.frames'
  have hl' : 1280 ≤ (Spec.encode (a ++ f :: b)).length := by
    rw [encode_sent, List.length_append]; omega
  have hh' : ¬ Hoonymode g (Spec.encode (a ++ f :: b)) := by
    intro hc
    apply hh
    by_contra hn
    have e1 := isHoonymode_false g (by rw [encode_unsent, List.length_append]; omega) hn
    have e2 := isHoonymode_true g hl' hc
    rw [encode_sent, isHoonymode_append g _ _ hl] at e2
    rw [encode_unsent, isHoonymode_append g _ _ hl, e2] at e1
    cases e1
  have ho' := h.first (by decide) ho
  have hmono : msBefore o (a ++ b) ≤ msBefore t (a ++ b) := by
    rw [← msFrom_zero, ← msFrom_zero]
    exact msFrom_mono hle _
  have lt1 : msBefore (pastGap (Spec.encode a).length f.encode.length o) (a ++ f :: b) < 2 ^ 32 := by
    rw [h.msTime]; split <;> omega
  have lt2 : msBefore (pastGap (Spec.encode a).length f.encode.length t) (a ++ f :: b) < 2 ^ 32 := by
    rw [h.msTime]; split <;> omega
  have hc := countdown_ms g _ _ _ _ hl' hh' h2.1 ho' (.inl h2.2) lt1
  have hd := demo_ms g _ _ _ _ h2.1 (h.measured ht) (.inl h2.2) lt2
  obtain ⟨c, ec, hcd, es⟩ := C37_countdown_le_demo g _ _ _ _ _ _ hl' h2.1 ho' (h.measured ht) (pastGap_mono hle) lt2 hd
  rw [hc] at ec
  cases ec
  refine ⟨_, _, hc, (C36_conversion _ _).mpr (by rw [h.msTime]), (C36_conversion _ _).mpr (by rw [h.msTime]), hcd, fun hn => ?_⟩
  rw [C39_fallback g _ hl' hh' (.inl ⟨_, (C41_not_found g _).mpr fun hc => hn ((C89_words a b f h _ (by decide)).mp hc)⟩), es]

theorem _root_.Spec.ChatAdded.measured {here : List Frame → Prop} {first last old new : List Frame}
    (h : ChatAdded here first last old new) {t : Nat} (ht : MeasuredTo (Spec.encode old) t) :
    ∃ t', MeasuredTo (Spec.encode new) t' ∧ msBefore t old ≤ msBefore t' new ∧
      msBefore t' new + (old.map fun x => x.duration.toNat).sum ≤ msBefore t old + (new.map fun x => x.duration.toNat).sum := by
  induction h with
  | none => exact ⟨t, ht, Nat.le_refl _, Nat.le_refl _⟩
  | @more a b f h sent _ ih =>
    obtain ⟨t', h1, h2, h3⟩ := ih
    refine ⟨_, sent.measured h1, ?_, ?_⟩
    · rw [sent.msTime]; omega
    · rw [sent.msTime]
      simp only [List.map_append, List.map_cons, List.sum_append, List.sum_cons] at h3 ⊢
      split <;> omega

/-- C89, any number of chat messages anywhere: the demo is not reported shorter, and longer by no more than the time recorded with
the chat. -/
theorem C89_many_time (g : Env) (here : List Frame → Prop) (old new : List Frame) (h : ChatAdded here [] [] old new)
    (hw : ∀ x ∈ old, x.WF) (hms : (new.map fun x => x.duration.toNat).sum < 2 ^ 32) :
    ∃ ms ms' ns ns', demoDuration g (Spec.encode old) = .ok ns ∧ Converted ms ns ∧
      demoDuration g (Spec.encode new) = .ok ns' ∧ Converted ms' ns' ∧ ms ≤ ms' ∧ ns ≤ ns' ∧
      ms' + (old.map fun x => x.duration.toNat).sum ≤ ms + (new.map fun x => x.duration.toNat).sum := by
  have hw' : ∀ x ∈ new, x.WF := by
    clear hms
    cases h with
    | none => exact hw
    | more _ sent _ => exact sent.frames'
  obtain ⟨t, ht⟩ : ∃ t, MeasuredTo (Spec.encode old) t := ⟨_, measuredTo_iff.mpr rfl⟩
  obtain ⟨t', ht', h1, h2⟩ := h.measured ht
  have s1 := splits_whole hw
  have s2 := splits_whole hw'
  have hle := h.ms_le
  have hb : msBefore t' new ≤ (new.map fun x => x.duration.toNat).sum := msBefore_le _ _
  exact ⟨_, _, _, _, demo_ms g _ _ _ _ s1.1 ht (.inl s1.2) (by omega), (C36_conversion _ _).mpr rfl,
    demo_ms g _ _ _ _ s2.1 ht' (.inl s2.2) (by omega), (C36_conversion _ _).mpr rfl, h1, C36_monotone _ _ h1, h2⟩

/-- The hypotheses are met: chat 13 ms after the beginning of a demo, before the match starts, and its effect. -/
example : ChatSent [Example.joined 13100] (Example.told bytes!"nig: hi") Example.ending ∧
    (Example.told bytes!"nig: hi").duration = 13 :=
  ⟨chatSent_example _ (by decide) _ _ (.inr rfl) (by decide) (by decide) (by decide +kernel), rfl⟩

/-- The effect: 13 ms more. -/
example : demoDuration Example.debug (Spec.encode ([Example.joined 1300] ++ Example.ending)) = .ok 21000000 ∧
    demoDuration Example.debug (Spec.encode ([Example.joined 1300] ++ Example.told bytes!"nig: hi" :: Example.ending)) =
      .ok 34000002 := by decide +kernel

end Mvd

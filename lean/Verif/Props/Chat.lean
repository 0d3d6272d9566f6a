import Verif.Spec.Chat
import Verif.Props.Frags
import Verif.Props.Open
import Verif.Props.Flags
import Verif.Props.Content
import Verif.Props.Timeline
import Verif.Props.StatsRecording
import Verif.Props.Info
import Verif.Props.Ktxstats
import Verif.Model.Teams

/-! C89: chat messages change nothing that is reported. -/

namespace Mvd
open Spec

/-- A word without the byte `q`, whose last byte but one is not NUL, does not cross from a string into a frame with the flags `q`. -/
theorem occursAt_border {w x y : Bytes} {c q : UInt8} {i : Nat} (h6 : q ∉ w) (h0 : ∀ k, w[k]? = some 0 → k + 2 ≠ w.length)
    (h : OccursAt w (x ++ [0] ++ c :: q :: y) i) :
    OccursAt w (x ++ [0]) i ∨ ∃ j, i = (x ++ [0]).length + j ∧ OccursAt w (c :: q :: y) j := by
  by_cases h1 : i + w.length ≤ (x ++ [0]).length
  · exact .inl (occursAt_of_append_left h h1)
  · by_cases h2 : (x ++ [0]).length ≤ i
    · obtain ⟨j, rfl⟩ := Nat.exists_eq_add_of_le h2
      exact .inr ⟨j, rfl, occursAt_append_right h⟩
    · exfalso
      simp only [List.length_append, List.length_cons, List.length_nil] at h1 h2
      obtain ⟨pre, post, e, rfl⟩ := h
      have get : ∀ k, k < w.length → (x ++ [0] ++ c :: q :: y)[pre.length + k]? = w[k]? := by
        intro k hk
        rw [e, List.append_assoc, List.getElem?_append_right (by omega), Nat.add_sub_cancel_left, List.getElem?_append_left hk]
      have e0 : w[x.length - pre.length]? = some 0 := by
        rw [← get _ (by omega), show pre.length + (x.length - pre.length) = x.length by omega]
        simp
      by_cases h3 : x.length - pre.length + 2 < w.length
      · have e6 : w[x.length - pre.length + 2]? = some q := by
          rw [← get _ h3, show pre.length + (x.length - pre.length + 2) = x.length + 2 by omega]
          simp
        exact h6 (List.mem_of_getElem? e6)
      · exact h0 _ e0 (by omega)

/-- Offsets after a gap. -/
def pastGap (p n i : Nat) : Nat := if i < p then i else i + n

/-- The word is found only before and after the border. -/
def Apart (w A B : Bytes) : Prop := ∀ i, OccursAt w (A ++ B) i → OccursAt w A i ∨ ∃ j, i = A.length + j ∧ OccursAt w B j

theorem occursAt_prepend {w a b : Bytes} {j : Nat} (h : OccursAt w b j) : OccursAt w (a ++ b) (a.length + j) := by
  obtain ⟨pre, post, rfl, rfl⟩ := h
  exact ⟨a ++ pre, post, by simp, by simp⟩

section
variable {w A F B : Bytes} (hw : w ≠ []) (h1 : Apart w A B) (h2 : Apart w A (F ++ B)) (h3 : Apart w F B) (hf : ¬ Occurs w F)

include hw h2 h3 hf in
theorem occursAt_gap {i : Nat} (h : OccursAt w (A ++ (F ++ B)) i) :
    ∃ k, i = pastGap A.length F.length k ∧ OccursAt w (A ++ B) k := by
  rcases h2 i h with ha | ⟨j, rfl, hj⟩
  · have := ha.bound
    have hl := List.length_pos_iff.mpr hw
    exact ⟨i, by rw [pastGap, if_pos (by omega)], occursAt_append ha⟩
  · rcases h3 j hj with ha | ⟨k, rfl, hk⟩
    · obtain ⟨pre, post, e, _⟩ := ha
      exact absurd ⟨pre, post, e⟩ hf
    · refine ⟨A.length + k, by rw [pastGap, if_neg (by omega)]; omega, occursAt_prepend hk⟩

include hw h1 in
theorem occursAt_pastGap {k : Nat} (h : OccursAt w (A ++ B) k) : OccursAt w (A ++ (F ++ B)) (pastGap A.length F.length k) := by
  rcases h1 k h with ha | ⟨j, rfl, hj⟩
  · have := ha.bound
    have hl := List.length_pos_iff.mpr hw
    rw [pastGap, if_pos (by omega)]
    exact occursAt_append ha
  · rw [pastGap, if_neg (by omega), show A.length + j + F.length = A.length + (F.length + j) by omega]
    exact occursAt_prepend (occursAt_prepend hj)

theorem pastGap_mono {p n i j : Nat} (h : i ≤ j) : pastGap p n i ≤ pastGap p n j := by
  unfold pastGap
  split <;> split <;> omega

include hw h1 h2 h3 hf in
theorem firstAt_gap {k : Nat} (h : FirstAt w (A ++ B) k) : FirstAt w (A ++ (F ++ B)) (pastGap A.length F.length k) := by
  refine ⟨occursAt_pastGap hw h1 h.1, fun j hj => ?_⟩
  obtain ⟨k', rfl, hk'⟩ := occursAt_gap hw h2 h3 hf hj
  exact pastGap_mono (h.2 _ hk')

include hw h1 h2 h3 hf in
theorem lastAt_gap {k : Nat} (h : LastAt w (A ++ B) k) : LastAt w (A ++ (F ++ B)) (pastGap A.length F.length k) := by
  refine ⟨occursAt_pastGap hw h1 h.1, fun j hj => ?_⟩
  obtain ⟨k', rfl, hk'⟩ := occursAt_gap hw h2 h3 hf hj
  exact pastGap_mono (h.2 _ hk')

include hw h1 h2 h3 hf in
theorem occurs_gap : Occurs w (A ++ (F ++ B)) ↔ Occurs w (A ++ B) := by
  constructor
  · rintro ⟨pre, post, e⟩
    obtain ⟨k, _, pre', post', e', _⟩ := occursAt_gap hw h2 h3 hf ⟨pre, post, e, rfl⟩
    exact ⟨pre', post', e'⟩
  · rintro ⟨pre, post, e⟩
    obtain ⟨pre', post', e', _⟩ := occursAt_pastGap (F := F) hw h1 ⟨pre, post, e, rfl⟩
    exact ⟨pre', post', e'⟩

end

theorem encode_flags (f : Frame) : ∃ t, f.encode = f.duration :: f.flags :: t :=
  ⟨_, by rw [Frame.encode, Frame.header]; rfl⟩

theorem apart_of {w A B : Bytes} (h : ¬ Crosses w A B) : Apart w A B := by
  rintro i ⟨pre, post, e, rfl⟩
  by_cases h1 : pre.length + w.length ≤ A.length
  · exact .inl (occursAt_of_append_left ⟨pre, post, e, rfl⟩ h1)
  · by_cases h2 : A.length ≤ pre.length
    · obtain ⟨j, hj⟩ := Nat.exists_eq_add_of_le h2
      have ho : OccursAt w (A ++ B) (A.length + j) := ⟨pre, post, e, hj⟩
      exact .inr ⟨j, hj, occursAt_append_right ho⟩
    · exfalso
      rw [List.append_assoc] at e
      rcases List.append_eq_append_iff.mp e with ⟨x, hx, _⟩ | ⟨u, hu, hw⟩
      · rw [hx, List.length_append] at h2
        omega
      · rcases List.append_eq_append_iff.mp hw with ⟨y, hy, _⟩ | ⟨v, hv, hB⟩
        · rw [hu, hy] at h1
          simp only [List.length_append] at h1
          omega
        · refine h ⟨u, v, ?_, ?_, hv, ⟨pre, hu⟩, post, hB⟩
          · rintro rfl
            simp [hu] at h2
          · rintro rfl
            rw [hu, hv] at h1
            simp at h1

theorem not_crosses {w A B : Bytes} (h : Apart w A B) : ¬ Crosses w A B := by
  rintro ⟨u, v, hu, hv, rfl, ⟨x, rfl⟩, y, rfl⟩
  have h1 := List.length_pos_iff.mpr hu
  have h2 := List.length_pos_iff.mpr hv
  rcases h x.length ⟨x, y, by simp, rfl⟩ with ho | ⟨j, hj, _⟩
  · have := ho.bound
    simp only [List.length_append] at this
    omega
  · simp only [List.length_append] at hj
    omega

theorem _root_.Spec.ChatFrame.ends {f : Frame} (h : ChatFrame f) : ∃ x, f.encode = x ++ [0] := by
  obtain ⟨ps, hne, _, hb⟩ := h.chat
  obtain ⟨init, p, rfl⟩ : ∃ init p, ps = init ++ [p] := ⟨_, _, (List.dropLast_append_getLast hne).symm⟩
  exact ⟨f.header ++ (init.flatMap PrintMsg.encode ++ ([8, p.level] ++ p.text)), by
    rw [Frame.encode, hb]; simp [PrintMsg.encode]⟩

section
variable {a b : List Frame} {f : Frame} (h : ChatSent a f b)
include h

theorem _root_.Spec.ChatSent.frames : ∀ x ∈ a ++ b, x.WF := by
  intro x hx
  rcases List.mem_append.mp hx with hx | hx
  · exact h.before.1 x hx
  · exact h.after.1 x hx

theorem _root_.Spec.ChatSent.frames' : ∀ x ∈ a ++ f :: b, x.WF := by
  intro x hx
  rcases List.mem_append.mp hx with hx | hx
  · exact h.before.1 x hx
  · rcases List.mem_cons.mp hx with rfl | hx
    · exact h.chat.wf
    · exact h.after.1 x hx

omit h in
theorem encode_sent (a b : List Frame) (f : Frame) :
    Spec.encode (a ++ f :: b) = Spec.encode a ++ (f.encode ++ Spec.encode b) := by
  simp [Spec.encode]

omit h in
theorem encode_unsent (a b : List Frame) : Spec.encode (a ++ b) = Spec.encode a ++ Spec.encode b := by
  simp [Spec.encode]

theorem _root_.Spec.ChatSent.apart {w : Bytes} (hw : w ∈ endOfDemo :: searchedWords) :
    Apart w (Spec.encode a) (Spec.encode b) ∧ Apart w (Spec.encode a) (f.encode ++ Spec.encode b) ∧
    Apart w f.encode (Spec.encode b) := by
  obtain ⟨h1, h2, h3⟩ := h.borders w hw
  exact ⟨apart_of h3, apart_of h1, apart_of h2⟩

end

theorem searchedWords_ne : ∀ w ∈ searchedWords, w ≠ [] := by decide +kernel

/-- C89: the chat adds no searched word and hides none. -/
theorem C89_words (a b : List Frame) (f : Frame) (h : ChatSent a f b) :
    ∀ w ∈ searchedWords, Occurs w (Spec.encode (a ++ f :: b)) ↔ Occurs w (Spec.encode (a ++ b)) := by
  intro w hw
  have hne := searchedWords_ne w hw
  obtain ⟨h1, h2, h3⟩ := h.apart (List.mem_cons_of_mem _ hw)
  rw [encode_sent, encode_unsent]
  exact occurs_gap hne h1 h2 h3 (h.words w hw)

theorem _root_.Spec.ChatSent.first {a b : List Frame} {f : Frame} (h : ChatSent a f b) {w : Bytes} (hw : w ∈ searchedWords) {k : Nat}
    (hk : FirstAt w (Spec.encode (a ++ b)) k) :
    FirstAt w (Spec.encode (a ++ f :: b)) (pastGap (Spec.encode a).length f.encode.length k) := by
  have hne := searchedWords_ne w hw
  obtain ⟨h1, h2, h3⟩ := h.apart (List.mem_cons_of_mem _ hw)
  rw [encode_unsent] at hk
  rw [encode_sent]
  exact firstAt_gap hne h1 h2 h3 (h.words w hw) hk

theorem _root_.Spec.ChatSent.last {a b : List Frame} {f : Frame} (h : ChatSent a f b) {w : Bytes} (hw : w ∈ searchedWords) {k : Nat}
    (hk : LastAt w (Spec.encode (a ++ b)) k) :
    LastAt w (Spec.encode (a ++ f :: b)) (pastGap (Spec.encode a).length f.encode.length k) := by
  have hne := searchedWords_ne w hw
  obtain ⟨h1, h2, h3⟩ := h.apart (List.mem_cons_of_mem _ hw)
  rw [encode_unsent] at hk
  rw [encode_sent]
  exact lastAt_gap hne h1 h2 h3 (h.words w hw) hk

/-- What follows the chat. -/
theorem _root_.Spec.ChatSent.drop {a b : List Frame} {f : Frame} (_ : ChatSent a f b) {k : Nat}
    (hk : (Spec.encode a).length + f.encode.length ≤ k) :
    (Spec.encode (a ++ f :: b)).drop k = (Spec.encode (a ++ b)).drop (k - f.encode.length) := by
  rw [encode_sent, encode_unsent, List.drop_append, List.drop_append, List.drop_append,
    List.drop_eq_nil_of_le (as := Spec.encode a) (i := k) (by omega),
    List.drop_eq_nil_of_le (as := f.encode) (by omega),
    List.drop_eq_nil_of_le (as := Spec.encode a) (i := k - f.encode.length) (by omega)]
  simp only [List.nil_append]
  congr 1
  omega

/-- The end of the demo is the same. -/
theorem _root_.Spec.ChatSent.marker {a b : List Frame} {f : Frame} (h : ChatSent a f b) :
    EndsWithMarker (Spec.encode (a ++ f :: b)) ↔ EndsWithMarker (Spec.encode (a ++ b)) := by
  obtain ⟨h1, h2, h3⟩ := h.apart (w := endOfDemo) (by simp)
  have key : ∀ A B : Bytes, B ≠ [] → Apart endOfDemo A B → A ≠ [] →
      (EndsWithMarker (A ++ B) ↔ ∃ pre, B = pre ++ endOfDemo) := by
    intro A B hB hap hA
    constructor
    · rintro ⟨pre, _, e⟩
      have hl := List.length_pos_iff.mpr hB
      have hlen := congrArg List.length e
      simp only [List.length_append] at hlen
      rcases hap pre.length ⟨pre, [], by simpa using e, rfl⟩ with ho | ⟨j, hj, pre', post, e', rfl⟩
      · have := ho.bound
        omega
      · have hp : post = [] := by
          have hl' := congrArg List.length e'
          simp only [List.length_append] at hl'
          exact List.length_eq_zero_iff.mp (by omega)
        exact ⟨pre', by rw [e', hp, List.append_nil]⟩
    · rintro ⟨pre, rfl⟩
      exact ⟨A ++ pre, by simp [hA], by simp⟩
  have ne : ∀ {l : List Frame}, l ≠ [] → Spec.encode l ≠ [] := by
    intro l hl he
    obtain ⟨x, t, rfl⟩ := List.exists_cons_of_ne_nil hl
    obtain ⟨y, hy⟩ := encode_flags x
    simp [Spec.encode, hy] at he
  have hB := ne h.after.2
  have hA := ne h.before.2
  obtain ⟨z, hz⟩ := h.chat.ends
  have hF : f.encode ≠ [] := by rw [hz]; simp
  rw [encode_sent, encode_unsent, key _ _ hB h1 hA, key _ _ (by simp [hF]) h2 hA]
  constructor
  · rintro ⟨pre, e⟩
    by_cases hp : pre = []
    · subst hp
      obtain ⟨ps, hne, hps, hb⟩ := h.chat.chat
      obtain ⟨p, ps, rfl⟩ := List.exists_cons_of_ne_nil hne
      have h3 : (3 : UInt8) ∈ f.encode ++ Spec.encode b := by
        simp [Frame.encode, hb, PrintMsg.encode, (hps p (by simp)).2]
      rw [e] at h3
      exact absurd h3 (by decide)
    · exact (key _ _ hB h3 hF).mp ⟨pre, hp, e⟩
  · rintro ⟨pre, e⟩
    exact ⟨f.encode ++ pre, by rw [e, List.append_assoc]⟩

/-- C89: whether the demo is reported aborted or paused, and whether it ends properly. -/
theorem C89_verdicts (a b : List Frame) (f : Frame) (h : ChatSent a f b) :
    isAborted (Spec.encode (a ++ f :: b)) = isAborted (Spec.encode (a ++ b)) ∧
    isPaused (Spec.encode (a ++ f :: b)) = isPaused (Spec.encode (a ++ b)) ∧
    hasEndOfDemoPrint (Spec.encode (a ++ f :: b)) = hasEndOfDemoPrint (Spec.encode (a ++ b)) := by
  refine ⟨?_, ?_, ?_⟩
  · rw [Bool.eq_iff_iff, C08_is_aborted, C08_is_aborted, C89_words a b f h _ (by decide)]
  · rw [Bool.eq_iff_iff, C10_is_paused, C10_is_paused, C89_words a b f h _ (by decide), C89_words a b f h _ (by decide), h.marker]
  · rw [Bool.eq_iff_iff, C09_end_of_demo, C09_end_of_demo, h.marker]

theorem chat_allPrints : ∀ {ps : List PrintMsg}, (∀ p ∈ ps, p.WF ∧ p.level = 3) → AllPrints (ps.flatMap PrintMsg.encode) ps
  | [], _ => by simpa using AllPrints.nil
  | p :: ps, h => by
    rw [List.flatMap_cons]
    exact .print (h p (by simp)).1 (chat_allPrints fun q hq => h q (by simp [hq]))

theorem _root_.Spec.ChatFrame.flagTexts {f : Frame} (h : ChatFrame f) (u : Bytes → Str) : FlagTexts u f [] := by
  by_cases ho : Occurs bytes!"flag" f.body
  · obtain ⟨ps, _, hps, hb⟩ := h.chat
    refine .inl ⟨ho, ps, hb ▸ chat_allPrints hps, ?_⟩
    rw [List.filter_eq_nil_iff.mpr]
    · rfl
    · intro p hp
      simp [(hps p hp).2]
  · exact .inr ⟨ho, rfl⟩

theorem _root_.Spec.ChatFrame.body {f : Frame} (h : ChatFrame f) : ∃ t, f.body = 8 :: 3 :: t := by
  obtain ⟨ps, hne, hps, hb⟩ := h.chat
  cases ps with
  | nil => exact absurd rfl hne
  | cons p ps => exact ⟨p.text ++ [0] ++ ps.flatMap PrintMsg.encode, by rw [hb]; simp [PrintMsg.encode, (hps p (by simp)).2]⟩

/-- C89: the scores (when no killer is unknown). -/
theorem C89_frags (g : Env) (a b : List Frame) (f : Frame) (h : ChatSent a f b)
    (hn : ∀ x ∈ a ++ b, NotAnonymous g.toUnicode x) :
    fragsPerPlayerName g (Spec.encode (a ++ f :: b)) = fragsPerPlayerName g (Spec.encode (a ++ b)) := by
  have h1 := splits_whole h.frames
  have h2 := splits_whole h.frames'
  refine (C27_insert g _ _ a b f [] [] h1.1 h1.2 h2.1 h2.2 hn ?_).symm
  rintro ⟨p, more, _, hl, _, e⟩
  obtain ⟨t, ht⟩ := h.chat.body
  rw [ht] at e
  simp [PrintMsg.encode, hl] at e

/-- C89: the counted flag events, even if the chat is about flags. -/
theorem C89_flags (g : Env) (a b : List Frame) (f : Frame) (h : ChatSent a f b) :
    flagEventsPerPlayerName g (Spec.encode (a ++ f :: b)) = flagEventsPerPlayerName g (Spec.encode (a ++ b)) := by
  have h1 := splits_whole h.frames
  have h2 := splits_whole h.frames'
  obtain ⟨t, ht⟩ := forall2_exists (flagTexts_exists g.toUnicode) a
  obtain ⟨t', ht'⟩ := forall2_exists (flagTexts_exists g.toUnicode) b
  unfold flagEventsPerPlayerName
  rw [flagPrints_stops g h1.1 h1.2 (List.rel_append ht ht'),
    flagPrints_stops g h2.1 h2.2 (List.rel_append ht (.cons (h.chat.flagTexts g.toUnicode) ht'))]
  simp

/-- C89: the pings. -/
theorem C89_pings (g : Env) (a b : List Frame) (f : Frame) (h : ChatSent a f b) :
    pingPerPlayerNumber g (Spec.encode (a ++ f :: b)) = pingPerPlayerNumber g (Spec.encode (a ++ b)) := by
  have h1 := splits_whole h.frames
  have h2 := splits_whole h.frames'
  refine C67_window g _ _ _ _ [] [] h2.1 h2.2 h1.1 h1.2 ?_
  have hf : NoPing f.body := by
    obtain ⟨t, ht⟩ := h.chat.body
    intro n lo hi x t' e
    rw [ht] at e
    simp at e
  rw [List.filter_append, List.filter_append, List.filter_cons_of_neg (by simpa using hf)]

theorem msFrom_shift (n : Nat) : ∀ (fs : List Frame) (i t : Nat), msFrom (i + n) (t + n) fs = msFrom i t fs
  | [], i, t => rfl
  | f :: fs, i, t => by
    by_cases hi : i < t
    · rw [msFrom_cons hi, msFrom_cons (by omega), show i + n + f.encode.length = i + f.encode.length + n by omega,
        msFrom_shift n fs]
    · rw [msFrom_after (by omega), msFrom_after (by omega)]

theorem msFrom_append : ∀ (a b : List Frame) (i t : Nat), i + (Spec.encode a).length ≤ t →
    msFrom i t (a ++ b) = (a.map fun x => x.duration.toNat).sum + msFrom (i + (Spec.encode a).length) t b
  | [], b, i, t, _ => by simp [Spec.encode]
  | x :: a, b, i, t, h => by
    have hx := encode_pos x
    have e : (Spec.encode (x :: a)).length = x.encode.length + (Spec.encode a).length := by simp [Spec.encode]
    rw [e] at h ⊢
    rw [List.cons_append, msFrom_cons (by omega), msFrom_append a b _ t (by omega)]
    simp only [List.map_cons, List.sum_cons]
    rw [show i + x.encode.length + (Spec.encode a).length = i + (x.encode.length + (Spec.encode a).length) by omega]
    omega

theorem _root_.Spec.ChatSent.ms {a b : List Frame} {f : Frame} (_ : ChatSent a f b) (now : f.duration = 0)
    (t : Nat) : msBefore (pastGap (Spec.encode a).length f.encode.length t) (a ++ f :: b) = msBefore t (a ++ b) := by
  unfold pastGap
  split
  · rw [msBefore_append _ _ _ (by omega), msBefore_append _ _ _ (by omega)]
  · have hp := encode_pos f
    rw [← msFrom_zero, ← msFrom_zero, msFrom_append _ _ _ _ (by omega), msFrom_append _ _ _ _ (by omega),
      msFrom_cons (by omega), now, Nat.zero_add, msFrom_shift]
    simp

theorem _root_.Spec.ChatSent.until {a b : List Frame} {f : Frame} (h : ChatSent a f b) (now : f.duration = 0) (g : Env)
    (t : Nat) : totalMs g (Spec.encode (a ++ f :: b)) (pastGap (Spec.encode a).length f.encode.length t) =
      totalMs g (Spec.encode (a ++ b)) t := by
  have h1 := splits_whole h.frames
  have h2 := splits_whole h.frames'
  rw [totalMs_eq g h2.1 (.inl h2.2), totalMs_eq g h1.1 (.inl h1.2), h.ms now]

/-- C89: the duration of the demo, if no time passes before the chat. -/
theorem C89_duration (g : Env) (a b : List Frame) (f : Frame) (h : ChatSent a f b) (now : f.duration = 0) :
    demoDuration g (Spec.encode (a ++ f :: b)) = demoDuration g (Spec.encode (a ++ b)) := by
  obtain ⟨t, ht⟩ : ∃ t, MeasuredTo (Spec.encode (a ++ b)) t := ⟨_, measuredTo_iff.mpr rfl⟩
  have ht' : MeasuredTo (Spec.encode (a ++ f :: b)) (pastGap (Spec.encode a).length f.encode.length t) := by
    rcases ht with ht | ⟨h1, ht⟩ | ⟨h1, h2, rfl⟩
    · exact .inl (h.last (by decide) ht)
    · exact .inr (.inl ⟨fun hc => h1 ((C89_words a b f h _ (by decide)).mp hc), h.last (by decide) ht⟩)
    · refine .inr (.inr ⟨fun hc => h1 ((C89_words a b f h _ (by decide)).mp hc),
        fun hc => h2 ((C89_words a b f h _ (by decide)).mp hc), ?_⟩)
      rw [encode_sent, encode_unsent, pastGap, if_neg (by simp)]
      simp
      omega
  rw [demoDuration_eq g ht, demoDuration_eq g ht', h.until now]

/-- C89: what is known from the beginning of the demo, if that lies before the chat: serverinfo and clients. -/
theorem C89_header (g : Env) (a b : List Frame) (f : Frame) (h : ChatSent a f b) (o : Nat)
    (hs : FirstAt spawnCommand (Spec.encode a) o) (hl : o + 13056 ≤ (Spec.encode a).length) :
    serverinfo g (Spec.encode (a ++ f :: b)) = serverinfo g (Spec.encode (a ++ b)) ∧
    filename g (Spec.encode (a ++ f :: b)) = filename g (Spec.encode (a ++ b)) ∧
    timestampFromEpoch g (Spec.encode (a ++ f :: b)) = timestampFromEpoch g (Spec.encode (a ++ b)) ∧
    clientinfo g (Spec.encode (a ++ f :: b)) = clientinfo g (Spec.encode (a ++ b)) ∧
    clients g (Spec.encode (a ++ f :: b)) = clients g (Spec.encode (a ++ b)) ∧
    playerNames g (Spec.encode (a ++ f :: b)) = playerNames g (Spec.encode (a ++ b)) ∧
    spectatorNames g (Spec.encode (a ++ f :: b)) = spectatorNames g (Spec.encode (a ++ b)) ∧
    teamNames g (Spec.encode (a ++ f :: b)) = teamNames g (Spec.encode (a ++ b)) ∧
    hasHumanPlayers g (Spec.encode (a ++ f :: b)) = hasHumanPlayers g (Spec.encode (a ++ b)) ∧
    hasBotPlayers g (Spec.encode (a ++ f :: b)) = hasBotPlayers g (Spec.encode (a ++ b)) ∧
    isValid g (Spec.encode (a ++ f :: b)) = isValid g (Spec.encode (a ++ b)) := by
  have hb := C89_words a b f h bytes!"\"bot\": {" (by decide)
  obtain ⟨_, _, he⟩ := C89_verdicts a b f h
  have hlen : 1024 ≤ (Spec.encode (a ++ b)).length ∧ 1024 ≤ (Spec.encode (a ++ f :: b)).length := by
    rw [encode_sent, encode_unsent]
    simp only [List.length_append]
    omega
  rw [encode_sent, encode_unsent] at *
  obtain ⟨_, s1, s2, s3⟩ := C70_header g _ (Spec.encode b) (show 1280 ≤ (Spec.encode a).length by omega)
  obtain ⟨_, t1, t2, t3⟩ := C70_header g _ (f.encode ++ Spec.encode b) (show 1280 ≤ (Spec.encode a).length by omega)
  obtain ⟨c1, c2, c3, c4, c5, c6⟩ := C63_clients g _ (Spec.encode b) o hs hl
  obtain ⟨d1, d2, d3, d4, d5, d6⟩ := C63_clients g _ (f.encode ++ Spec.encode b) o hs hl
  refine ⟨by rw [s1, t1], by rw [s2, t2], by rw [s3, t3], by rw [c1, d1], by rw [c2, d2], by rw [c3, d3], by rw [c4, d4],
    by rw [c5, d5], by rw [c6, d6], ?_, ?_⟩
  · have e : ∀ x y : Bytes, (Occurs bytes!"\"bot\": {" x ↔ Occurs bytes!"\"bot\": {" y) →
        (rfind bytes!"\"bot\": {" x).isSome = (rfind bytes!"\"bot\": {" y).isSome := by
      intro x y hxy
      rw [Bool.eq_iff_iff, rfind_isSome_iff, rfind_isSome_iff]
      exact hxy
    unfold hasBotPlayers playerClients
    rw [c2, d2, e _ _ hb]
  · unfold isValid hasClients
    rw [if_pos hlen.1, if_pos hlen.2, he, s1, t1, c1, d1]

/-- C89: the time until the match starts, if no time passes before the chat. -/
theorem C89_countdown (g : Env) (a b : List Frame) (f : Frame) (h : ChatSent a f b) (now : f.duration = 0)
    (hl : 1280 ≤ (Spec.encode a).length) :
    countdownDuration g (Spec.encode (a ++ f :: b)) = countdownDuration g (Spec.encode (a ++ b)) := by
  have eh : isHoonymode g (Spec.encode (a ++ f :: b)) = isHoonymode g (Spec.encode (a ++ b)) := by
    rw [encode_sent, encode_unsent, isHoonymode_append g _ _ hl, isHoonymode_append g _ _ hl]
  unfold countdownDuration durationUntilOffset
  rw [eh, matchdatePrint_eq]
  by_cases ho : Occurs matchdatePrint (Spec.encode (a ++ b))
  · obtain ⟨k, hk⟩ := Option.isSome_iff_exists.mp (find_isSome_iff.mpr ho)
    rw [hk, find_eq_some_iff.mpr (h.first (by decide) (find_eq_some_iff.mp hk))]
    simp only [h.until now]
  · have ho' : ¬ Occurs matchdatePrint (Spec.encode (a ++ f :: b)) := fun hc => ho ((C89_words a b f h _ (by decide)).mp hc)
    rw [find_eq_none_iff.mpr ho, find_eq_none_iff.mpr ho']

/-- C89: the date of the match; the chat does not come within the line with the date. -/
theorem C89_matchdate (g : Env) (a b : List Frame) (f : Frame) (h : ChatSent a f b) (hl : 1280 ≤ (Spec.encode a).length)
    (hd : ∀ o, FirstAt matchdatePrint (Spec.encode a) o → 10 ∈ (Spec.encode a).drop (o + matchdatePrint.length)) :
    matchdateString (Spec.encode (a ++ f :: b)) = matchdateString (Spec.encode (a ++ b)) ∧
    matchdate g (Spec.encode (a ++ f :: b)) = matchdate g (Spec.encode (a ++ b)) ∧
    timestamp g (Spec.encode (a ++ f :: b)) = timestamp g (Spec.encode (a ++ b)) := by
  have key : matchdateString (Spec.encode (a ++ f :: b)) = matchdateString (Spec.encode (a ++ b)) := by
    by_cases ha : Occurs matchdatePrint (Spec.encode a)
    · obtain ⟨k, hk⟩ := Option.isSome_iff_exists.mp (find_isSome_iff.mpr ha)
      rw [find_eq_some_iff] at hk
      rw [encode_sent, encode_unsent, (C70_matchdate g _ _ k hk (hd k hk)).1, (C70_matchdate g _ _ k hk (hd k hk)).1]
    · by_cases ho : Occurs matchdatePrint (Spec.encode (a ++ b))
      · obtain ⟨k, hk⟩ := Option.isSome_iff_exists.mp (find_isSome_iff.mpr ho)
        have hk' := h.first (by decide) (find_eq_some_iff.mp hk)
        have hge : (Spec.encode a).length ≤ k := by
          have hk0 := (find_eq_some_iff.mp hk).1
          rw [encode_unsent] at hk0
          rcases (h.apart (w := matchdatePrint) (by decide)).1 k hk0 with ⟨pre, post, e, _⟩ | ⟨j, rfl, _⟩
          · exact absurd ⟨pre, post, e⟩ ha
          · omega
        have ed : (Spec.encode (a ++ f :: b)).drop (k + f.encode.length + MATCHDATE_NEEDLE.length) =
            (Spec.encode (a ++ b)).drop (k + MATCHDATE_NEEDLE.length) := by
          rw [h.drop (by omega)]
          congr 1
          omega
        have hlen : (Spec.encode (a ++ f :: b)).length = (Spec.encode (a ++ b)).length + f.encode.length := by
          rw [encode_sent, encode_unsent]
          simp only [List.length_append]
          omega
        rw [pastGap, if_neg (by omega)] at hk'
        unfold matchdateString
        rw [matchdatePrint_eq] at ed ⊢
        rw [hk, find_eq_some_iff.mpr hk']
        simp only [ed]
        cases findByte 10 ((Spec.encode (a ++ b)).drop (k + matchdatePrint.length)) with
        | none => rfl
        | some n =>
          have es : slice (Spec.encode (a ++ f :: b)) (k + f.encode.length + matchdatePrint.length)
              (n + (k + f.encode.length + matchdatePrint.length)) =
              slice (Spec.encode (a ++ b)) (k + matchdatePrint.length) (n + (k + matchdatePrint.length)) := by
            unfold slice
            rw [ed, hlen, Nat.add_sub_cancel, Nat.add_sub_cancel]
            congr 1
            simp only [eq_iff_iff]
            omega
          simp only [es, Nat.add_sub_cancel]
      · have ho' : ¬ Occurs matchdatePrint (Spec.encode (a ++ f :: b)) := fun hc => ho ((C89_words a b f h _ (by decide)).mp hc)
        unfold matchdateString
        rw [matchdatePrint_eq, find_eq_none_iff.mpr ho, find_eq_none_iff.mpr ho']
  have key' : matchdate g (Spec.encode (a ++ f :: b)) = matchdate g (Spec.encode (a ++ b)) := by
    unfold matchdate
    rw [key]
  refine ⟨key, key', ?_⟩
  unfold timestamp
  rw [key', encode_sent, encode_unsent, (C70_header g _ _ hl).2.2.2, (C70_header g _ _ hl).2.2.2]

/-- C89: the match stats, if there are none or they are recorded after the chat. -/
theorem C89_stats (g : Env) (a b : List Frame) (f : Frame) (h : ChatSent a f b)
    (hlen : (Spec.encode (a ++ f :: b)).length < 2 ^ 63)
    (hm : ∀ m, LastAt statsMarker (Spec.encode (a ++ b)) m → (Spec.encode a).length + 18 ≤ m) :
    ktxstatsString g (Spec.encode (a ++ f :: b)) = ktxstatsString g (Spec.encode (a ++ b)) ∧
    ktxstatsV3 g (Spec.encode (a ++ f :: b)) = ktxstatsV3 g (Spec.encode (a ++ b)) ∧
    server g (Spec.encode (a ++ f :: b)) = server g (Spec.encode (a ++ b)) := by
  have hlen' : (Spec.encode (a ++ b)).length < 2 ^ 63 := by
    rw [encode_sent] at hlen
    rw [encode_unsent]
    simp only [List.length_append] at hlen ⊢
    omega
  have key : ktxstatsString g (Spec.encode (a ++ f :: b)) = ktxstatsString g (Spec.encode (a ++ b)) := by
    by_cases ho : Occurs statsMarker (Spec.encode (a ++ b))
    · obtain ⟨m, hk⟩ := Option.isSome_iff_exists.mp (rfind_isSome_iff.mpr ho)
      rw [rfind_eq_some_iff] at hk
      have hge := hm m hk
      have hk' := h.last (by decide) hk
      rw [pastGap, if_neg (by omega)] at hk'
      have hlim : markerLimit g.checks ≤ 18 := by unfold markerLimit; split <;> omega
      obtain ⟨r, hr⟩ := C41_reads g.checks ((Spec.encode (a ++ b)).drop (m - 8))
      have hr' : ReadsBlocks g.checks ((Spec.encode (a ++ f :: b)).drop (m + f.encode.length - 8)) r := by
        rw [h.drop (by omega), show m + f.encode.length - 8 - f.encode.length = m - 8 by omega]
        exact hr
      obtain ⟨p1, p2, p3⟩ := C41_outcome g _ hlen' m hk (by omega) r hr
      obtain ⟨q1, q2, q3⟩ := C41_outcome g _ hlen _ hk' (by omega) r hr'
      cases r with
      | none => rw [p1 rfl, q1 rfl]
      | some content =>
        by_cases hu : ∃ s, utf8 s = content
        · obtain ⟨s, rfl⟩ := hu
          rw [p2 s rfl, q2 s rfl]
        · rw [p3 content rfl hu, q3 content rfl hu]
    · have ho' : ¬ Occurs statsMarker (Spec.encode (a ++ f :: b)) := fun hc => ho ((C89_words a b f h _ (by decide)).mp hc)
      rw [(C41_not_found g _).mpr ho, (C41_not_found g _).mpr ho']
  have key' : ktxstatsV3 g (Spec.encode (a ++ f :: b)) = ktxstatsV3 g (Spec.encode (a ++ b)) := by
    unfold ktxstatsV3
    rw [key]
  exact ⟨key, key', by unfold server; rw [key']⟩

/-- C89: the scores, anonymous teamkills included, if the chat does not come among the frames that are searched for the killer. -/
theorem C89_frags_unknown (g : Env) (a b : List Frame) (f : Frame) (h : ChatSent a f b) (o : Nat)
    (hs : FirstAt spawnCommand (Spec.encode a) o) (hl : o + 13056 ≤ (Spec.encode a).length)
    (ho : NoOpenTeamkill g.toUnicode a) :
    fragsPerPlayerName g (Spec.encode (a ++ f :: b)) = fragsPerPlayerName g (Spec.encode (a ++ b)) := by
  have h1 := splits_whole h.frames
  have h2 := splits_whole h.frames'
  obtain ⟨_, _, _, _, hc, _⟩ := C89_header g a b f h o hs hl
  refine (C27_far g _ _ a b f [] [] h1.1 h1.2 h2.1 h2.2 ho ?_ hc.symm).symm
  rintro ⟨p, more, _, hl, _, e⟩
  obtain ⟨t, ht⟩ := h.chat.body
  rw [ht] at e
  simp [PrintMsg.encode, hl] at e

/-- C89: the players, the teams and, if no time passes before the chat, the duration of the match. -/
theorem C89_match (g : Env) (a b : List Frame) (f : Frame) (h : ChatSent a f b) (o : Nat)
    (hs : FirstAt spawnCommand (Spec.encode a) o) (hl : o + 13056 ≤ (Spec.encode a).length)
    (hlen : (Spec.encode (a ++ f :: b)).length < 2 ^ 63)
    (hm : ∀ m, LastAt statsMarker (Spec.encode (a ++ b)) m → (Spec.encode a).length + 18 ≤ m)
    (ho : NoOpenTeamkill g.toUnicode a) :
    players g (Spec.encode (a ++ f :: b)) = players g (Spec.encode (a ++ b)) ∧
    teams g (Spec.encode (a ++ f :: b)) = teams g (Spec.encode (a ++ b)) ∧
    (f.duration = 0 → matchDuration g (Spec.encode (a ++ f :: b)) = matchDuration g (Spec.encode (a ++ b))) := by
  obtain ⟨e1, e2, _⟩ := C89_stats g a b f h hlen hm
  obtain ⟨hsi, _, _, _, hc, _⟩ := C89_header g a b f h o hs hl
  have hp : players g (Spec.encode (a ++ f :: b)) = players g (Spec.encode (a ++ b)) := by
    unfold players playersFromParsing
    rw [e2, hc, C89_pings g a b f h, C89_frags_unknown g a b f h o hs hl ho]
  refine ⟨hp, by unfold teams; rw [hp], fun now => ?_⟩
  unfold matchDuration matchDurationFromKtxstats matchDurationFromSeeking isHoonymode
  rw [hsi, e1, C89_duration g a b f h now, C89_countdown g a b f h now (by omega)]

namespace Example

/-- The beginning of a demo: the spawn command, a player and padding. -/
def joined (padding : Nat) : Frame :=
  ⟨5, 6, [], spawnCommand ++ [0] ++ bytes!"\\name\\nig" ++ List.replicate (padding + 1) 0⟩

/-- Chat. -/
def said (text : Bytes) : Frame := ⟨0, 6, [], (PrintMsg.mk 3 text).encode⟩

/-- Chat as servers record it: 13 ms after the frame before, to the player with number 1 only. -/
def told (text : Bytes) : Frame := ⟨13, 12, [], (PrintMsg.mk 3 text).encode⟩

/-- The rest of a demo. -/
def ending : List Frame :=
  [⟨7, 6, [], (PrintMsg.mk 2 bytes!"matchdate: 2024-05-16 10:00:00 UTC\n").encode⟩,
    ⟨9, 6, [], (PrintMsg.mk 2 (bytes!"nig " ++ brown bytes!"got" ++ bytes!" the " ++ brown bytes!"BLUE" ++
      bytes!" flag!\n")).encode⟩]

end Example

theorem joined_encode (n : Nat) : Spec.encode [Example.joined n] =
    ([5, 6] ++ le32 (Example.joined n).body.length ++ (spawnCommand ++ [0] ++ bytes!"\\name\\nig")) ++
      List.replicate (n + 1) 0 := by
  simp only [Spec.encode, List.flatMap_cons, List.flatMap_nil, List.append_nil, Frame.encode, Frame.header]
  simp [Example.joined, Frame.kind, Frame.sized]

theorem occurs_padding {w x y : Bytes} (h0 : (0 : UInt8) ∉ w) (hw : w ≠ []) : ∀ n,
    Occurs w (x ++ List.replicate (n + 1) 0 ++ y) → Occurs w x ∨ Occurs w y := by
  have key : ∀ n, Occurs w (List.replicate n 0 ++ y) → Occurs w y := by
    intro n
    induction n with
    | zero => simp
    | succ n ih =>
      intro h
      rw [List.replicate_succ, List.cons_append, ← List.nil_append (0 :: _)] at h
      rcases occurs_sep h0 h with ⟨pre, post, e⟩ | h
      · simp [hw] at e
      · exact ih h
  intro n h
  rw [List.replicate_succ, List.append_assoc, List.cons_append] at h
  exact (occurs_sep h0 h).imp id (key n)

/-- The bytes of the searched words. -/
theorem searchedWords_bytes : ∀ w ∈ endOfDemo :: searchedWords, (6 : UInt8) ∉ w ∧ (12 : UInt8) ∉ w ∧
    ∀ k, w[k]? = some 0 → k + 2 ≠ w.length := by
  have key : ∀ w ∈ endOfDemo :: searchedWords, (6 : UInt8) ∉ w ∧ (12 : UInt8) ∉ w ∧ w[w.length - 2]? ≠ some 0 := by
    decide +kernel
  intro w hw
  obtain ⟨h1, h2, h3⟩ := key w hw
  refine ⟨h1, h2, fun k hk e => h3 ?_⟩
  rw [← e]
  exact hk

/-- C89: no word lies across the borders if what comes before ends with a string and the chat and the frame after it are sent
to all players or to the player with number 1. -/
theorem borders_of {a b : List Frame} {f x : Frame} {t : List Frame} (ha : ∃ y, Spec.encode a = y ++ [0]) (hf : ChatFrame f)
    (h1 : f.flags = 6 ∨ f.flags = 12) (hb : b = x :: t) (h2 : x.flags = 6 ∨ x.flags = 12) :
    ∀ w ∈ endOfDemo :: searchedWords, ¬ Crosses w (Spec.encode a) (f.encode ++ Spec.encode b) ∧
      ¬ Crosses w f.encode (Spec.encode b) ∧ ¬ Crosses w (Spec.encode a) (Spec.encode b) := by
  intro w hw
  obtain ⟨h6, h12, h0⟩ := searchedWords_bytes w hw
  obtain ⟨y, hy⟩ := ha
  obtain ⟨z, hz⟩ := hf.ends
  obtain ⟨r, hr⟩ := encode_flags f
  obtain ⟨s, hs⟩ := encode_flags x
  have hB : Spec.encode b = x.duration :: x.flags :: (s ++ Spec.encode t) := by simp [hb, Spec.encode, hs]
  have n1 : f.flags ∉ w := by rcases h1 with e | e <;> rw [e] <;> assumption
  have n2 : x.flags ∉ w := by rcases h2 with e | e <;> rw [e] <;> assumption
  refine ⟨not_crosses fun i hi => ?_, not_crosses fun i hi => ?_, not_crosses fun i hi => ?_⟩
  · rw [hy, hr] at hi ⊢
    exact occursAt_border n1 h0 hi
  · rw [hz, hB] at hi ⊢
    exact occursAt_border n2 h0 hi
  · rw [hy, hB] at hi ⊢
    exact occursAt_border n2 h0 hi

theorem joined_wf (n : Nat) (hn : n < 2 ^ 31) : (Example.joined n).WF := by
  refine ⟨rfl, ?_⟩
  change List.length _ < _
  simp only [Example.joined, List.length_append, List.length_replicate]
  have : (spawnCommand ++ [0] ++ bytes!"\\name\\nig").length = 20 := by decide
  simp only [List.length_append] at this
  omega

theorem joined_ends (n : Nat) : ∃ y, Spec.encode [Example.joined n] = y ++ [0] := by
  rw [joined_encode, List.replicate_succ', ← List.append_assoc]
  exact ⟨_, rfl⟩

theorem chatFrame_example (f : Frame) (text : Bytes) (hf : f = Example.said text ∨ f = Example.told text)
    (h0 : (0 : UInt8) ∉ text) (hl : text.length < 2 ^ 31) : ChatFrame f := by
  have hb : f.body = (PrintMsg.mk 3 text).encode := by rcases hf with rfl | rfl <;> rfl
  refine ⟨?_, [⟨3, text⟩], by simp, by simpa [PrintMsg.WF] using h0, by simp [hb]⟩
  have hs : f.body.length < 2 ^ 32 := by
    rw [hb]
    simp only [PrintMsg.encode, List.length_append, List.length_cons, List.length_nil]
    omega
  have hk : f.kind = 6 ∨ f.kind = 4 := by rcases hf with rfl | rfl <;> simp [Frame.kind, Example.said, Example.told]
  have hm : f.mask = [] := by rcases hf with rfl | rfl <;> rfl
  rcases hk with hk | hk <;> exact ⟨by simp [hk, hm], by rw [hk]; simpa [Frame.sized] using hs⟩

theorem chatSent_example (n : Nat) (hn : n < 2 ^ 31) (text : Bytes) (f : Frame)
    (hf : f = Example.said text ∨ f = Example.told text) (h0 : (0 : UInt8) ∉ text) (hl : text.length < 2 ^ 31)
    (hw : ∀ w ∈ searchedWords, ¬ Occurs w f.encode) :
    ChatSent [Example.joined n] f Example.ending where
  before := ⟨by intro x hx; rw [List.mem_singleton.mp hx]; exact joined_wf n hn, by simp⟩
  chat := chatFrame_example f text hf h0 hl
  after := ⟨by decide +kernel, by simp [Example.ending]⟩
  words := hw
  borders := borders_of (joined_ends n) (chatFrame_example f text hf h0 hl)
    (by rcases hf with rfl | rfl <;> simp [Example.said, Example.told]) rfl (.inl rfl)

/-- The hypotheses are met by chat about a flag, to all players or, some time later, to one of them. -/
example : ChatSent [Example.joined 13100] (Example.said bytes!"nig: who got the BLUE flag!") Example.ending ∧
    ChatSent [Example.joined 13100] (Example.told bytes!"nig: who got the BLUE flag!") Example.ending ∧
    FirstAt spawnCommand (Spec.encode [Example.joined 13100]) 6 ∧
    6 + 13056 ≤ (Spec.encode [Example.joined 13100]).length ∧
    (Spec.encode ([Example.joined 13100] ++ Example.said bytes!"nig: who got the BLUE flag!" :: Example.ending)).length < 2 ^ 63 ∧
    (∀ o, FirstAt matchdatePrint (Spec.encode [Example.joined 13100]) o →
      10 ∈ (Spec.encode [Example.joined 13100]).drop (o + matchdatePrint.length)) ∧
    (∀ m, LastAt statsMarker (Spec.encode ([Example.joined 13100] ++ Example.ending)) m →
      (Spec.encode [Example.joined 13100]).length + 18 ≤ m) := by
  refine ⟨chatSent_example _ (by decide) _ _ (.inl rfl) (by decide) (by decide) (by decide +kernel),
    chatSent_example _ (by decide) _ _ (.inr rfl) (by decide) (by decide) (by decide +kernel), ?_, ?_, ?_, ?_, ?_⟩
  · rw [joined_encode]
    exact firstAt_append (find_eq_some_iff.mp (by decide +kernel))
  · decide +kernel
  · decide +kernel
  · rintro o ⟨⟨pre, post, e, _⟩, _⟩
    rw [joined_encode, ← List.append_nil (_ ++ _)] at e
    rcases occurs_padding (by decide) (by decide) _ ⟨pre, post, e⟩ with h | h <;> exact absurd h (by decide +kernel)
  · rintro m ⟨⟨pre, post, e, _⟩, _⟩
    rw [encode_unsent, joined_encode] at e
    rcases occurs_padding (by decide) (by decide) _ ⟨pre, post, e⟩ with h | h <;> exact absurd h (by decide +kernel)

/-- Chat about a flag or about the match does not change the result. -/
example : ChatSent [Example.joined 1300] (Example.said bytes!"nig: who got the BLUE flag!") Example.ending ∧
    (let demo := Spec.encode ([Example.joined 1300] ++ Example.said bytes!"nig: who got the BLUE flag!" :: Example.ending)
     ((flagEventsPerPlayerName Example.debug demo).bind fun m => .ok (m.map fun e => (e.1, e.2.pickups))) = .ok [(chars!"nig", 1)] ∧
     countdownDuration Example.debug demo = .ok 12000000 ∧ demoDuration Example.debug demo = .ok 21000000) :=
  ⟨chatSent_example _ (by decide) _ _ (.inl rfl) (by decide) (by decide) (by decide +kernel), by decide +kernel⟩

/-- C89: with one of the words a chat message does change what is reported: a player can make an unfinished demo appear
paused, make it appear shorter, or claim that bots took part. -/
theorem C89_words_witness :
    (let demo := fun text => Spec.encode ([Example.joined 1300] ++ Example.said text :: Example.ending)
     isPaused (demo bytes!"nig: who paused it?") = false ∧ isPaused (demo bytes!"nig: who paused the game?") = true ∧
     demoDuration Example.debug (demo bytes!"nig: over") = .ok 21000000 ∧
     demoDuration Example.debug (demo bytes!"nig: The match is over") = .ok 5000000 ∧
     hasBotPlayers Example.debug (demo bytes!"nig: bot") = .ok false ∧
     hasBotPlayers Example.debug (demo bytes!"nig: \"bot\": {") = .ok true) := by
  decide +kernel

end Mvd

import Verif.Spec.Recorder
import Verif.Props.Match
import Verif.Props.Ctf
import Verif.Props.Prints
import Verif.Props.Ping
import Verif.Props.Duration

/-! C82: what a recorder writes down is read back. -/

namespace Mvd
open Spec

theorem frame_body (m : Moment) : m.frame.body = m.what.message := by
  obtain ⟨ms, whom, what⟩ := m
  cases whom <;> rfl

theorem frame_duration (m : Moment) : m.frame.duration = m.ms := by
  obtain ⟨ms, whom, what⟩ := m
  cases whom <;> rfl

theorem record_wf {play : Play} (hl : (record play).length < 2 ^ 31) : ∀ f ∈ play.frames, f.WF := by
  intro f hf
  have h1 : f.encode.length ≤ (record play).length := by
    obtain ⟨a, b, e⟩ := List.append_of_mem hf
    simp only [record, e, Spec.encode, List.flatMap_append, List.flatMap_cons, List.length_append]
    omega
  obtain ⟨m, _, rfl⟩ := List.mem_map.mp hf
  have h2 : m.what.message.length ≤ m.frame.encode.length := by
    rw [Frame.encode, frame_body]
    simp
  have hb : m.frame.body.length < 2 ^ 32 := by rw [frame_body]; omega
  obtain ⟨ms, whom, what⟩ := m
  cases whom with
  | all => exact ⟨rfl, hb⟩
  | several mask => exact ⟨rfl, hb⟩
  | one player =>
    have hk : (Moment.frame ⟨ms, .one player, what⟩).kind = 4 := by
      have := player.isLt
      simp only [Moment.frame, Frame.kind, UInt8.toNat_ofNat']
      omega
    unfold Frame.WF
    rw [hk]
    exact ⟨rfl, hb⟩

theorem record_splits {play : Play} (hl : (record play).length < 2 ^ 31) :
    Splits (record play) play.frames [] ∧ Stops (record play).length [] := splits_whole (record_wf hl)

theorem bytesOf_nul {text : Str} (h : OneByte text) : (0 : UInt8) ∉ bytesOf text := by
  intro k
  obtain ⟨c, hc, e⟩ := List.mem_map.mp k
  have := congrArg UInt8.toNat e
  obtain ⟨h1, h2⟩ := h c hc
  simp only [UInt8.toNat_ofNat', UInt8.toNat_zero] at this
  omega

theorem oneByte_nl {text : Str} (h : OneByte text) : OneByte (text ++ ['\n']) := by
  intro c hc
  rcases List.mem_append.mp hc with hc | hc
  · exact h c hc
  · rw [List.mem_singleton] at hc
    subst hc
    decide

/-- The print of a happening is well formed and not empty. -/
theorem print_wf {h : Happening} (hp : h.Proper) {p : PrintMsg} (e : h.print = some p) : p.WF ∧ p.text ≠ [] := by
  cases h with
  | obituary o t =>
    cases e
    exact ⟨bytesOf_nul (oneByte_nl hp.2.1), by simp [bytesOf]⟩
  | flag o t =>
    cases e
    refine ⟨bytesOf_nul hp.2, ?_⟩
    obtain ⟨_, phrases, p, h1, h2, e⟩ := hp.1
    have : p ≠ [] := by
      rintro rfl
      revert h1 h2
      simp only [flagPhrases, List.mem_cons, Prod.mk.injEq, List.not_mem_nil, or_false]
      rintro (⟨_, rfl⟩ | ⟨_, rfl⟩ | ⟨_, rfl⟩ | ⟨_, rfl⟩ | ⟨_, rfl⟩ | ⟨_, rfl⟩ | ⟨_, rfl⟩) <;> decide
    simp [bytesOf, e, this]
  | pings l => cases e
  | chat t =>
    cases e
    exact ⟨bytesOf_nul hp.2, by simpa [bytesOf] using hp.1⟩
  | announcement t =>
    cases e
    exact ⟨bytesOf_nul hp.2, by simpa [bytesOf] using hp.1⟩
  | other m => cases e

theorem message_of_print {h : Happening} {p : PrintMsg} (e : h.print = some p) : h.message = p.encode := by
  cases h <;> cases e <;> rfl

/-- Without a print, the message does not begin like one. -/
theorem message_no_print {h : Happening} (hp : h.Proper) (e : h.print = none) : h.message.head? ≠ some 8 := by
  cases h with
  | pings l => cases l <;> simp [Happening.message]
  | other m => exact hp.1
  | _ => cases e

theorem noPrint_of_head {b : Bytes} (h : b.head? ≠ some 8) : NoPrint b := by
  rintro p t _ rfl
  exact h rfl

theorem noPing_of_head {b : Bytes} (h : b.head? ≠ some 36) : NoPing b := by
  rintro n lo hi x t rfl
  exact h rfl

theorem play_prints {h : Happening} (hp : h.Proper) : LeadingPrints h.message h.print.toList := by
  cases e : h.print with
  | none => exact ⟨h.message, by simp, by simp, noPrint_of_head (message_no_print hp e)⟩
  | some p =>
    refine ⟨[], by simp [message_of_print e], by simpa using (print_wf hp e).1, noPrint_of_head (by simp)⟩

/-- C82: the prints of a recording are the announcements, without repetitions. -/
theorem C82_prints (g : Env) (play : Play) (hp : ∀ m ∈ play, m.what.Proper) (hl : (record play).length < 2 ^ 31) :
    ∃ out, prints g (record play) = .ok out ∧
      Collapses (play.filterMap fun m => m.what.print.map PrintMsg.reported) out := by
  obtain ⟨h, hs⟩ := record_splits hl
  obtain ⟨out, e, hc⟩ := C04_prints g _ _ _ (play.map fun m => m.what.print.toList) h hs (by
    unfold Play.frames
    rw [List.forall₂_map_left_iff, List.forall₂_map_right_iff, List.forall₂_same]
    exact fun m hm => frame_body m ▸ play_prints (hp m hm))
  refine ⟨out, e, ?_⟩
  convert hc using 1
  clear hl h hs e hc
  induction play with
  | nil => rfl
  | cons m play ih =>
    have ih := ih fun x hx => hp x (List.mem_cons_of_mem _ hx)
    rw [List.map_cons, List.flatten_cons, List.filter_append, List.map_append, ← ih, List.filterMap_cons]
    cases e : m.what.print with
    | none => simp
    | some p => simp [(print_wf (hp m (by simp)) e).2]

theorem play_reports {u : Bytes → Str} (hu : ∀ s, OneByte s → u (bytesOf s) = s) {h : Happening} (hp : h.Proper) {f : Frame}
    (hb : f.body = h.message) : Reports u h.died f := by
  obtain ⟨ms, flags, mask, body⟩ := f
  change body = h.message at hb
  subst hb
  cases h with
  | obituary o t =>
    refine ⟨t, [], hp.1, ⟨1, bytesOf (t ++ ['\n'])⟩, bytesOf_nul (oneByte_nl hp.2.1), rfl, by simp [bytesOf],
      by simp [Happening.message, Happening.print], ['\n'], hu _ (oneByte_nl hp.2.1), by decide, hp.2.2⟩
  | flag o t =>
    rintro text more o ⟨p, _, h1, _, e, _⟩
    have := congrArg (fun l : Bytes => l[1]?) e
    simp [Happening.message, Happening.print, PrintMsg.encode, h1] at this
  | chat t =>
    rintro text more o ⟨p, _, h1, _, e, _⟩
    have := congrArg (fun l : Bytes => l[1]?) e
    simp [Happening.message, Happening.print, PrintMsg.encode, h1] at this
  | announcement t =>
    rintro text more o ⟨p, _, h1, _, e, _⟩
    have := congrArg (fun l : Bytes => l[1]?) e
    simp [Happening.message, Happening.print, PrintMsg.encode, h1] at this
  | pings l =>
    rintro text more o ⟨p, hw, h1, _, e, _⟩
    exact (noPrint_of_head (message_no_print hp rfl) p more hw e).elim
  | other l =>
    rintro text more o ⟨p, hw, h1, _, e, _⟩
    exact (noPrint_of_head (message_no_print hp rfl) p more hw e).elim

/-- C82: the scores of a recording are those of the match. -/
theorem C82_frags (g : Env) (hu : ∀ s, OneByte s → g.toUnicode (bytesOf s) = s) (play : Play) (hp : ∀ m ∈ play, m.what.Proper)
    (hl : (record play).length < 2 ^ 31) :
    ∃ m, fragsPerPlayerName g (record play) = .ok m ∧ ∀ name,
      (Scores (play.map fun m => m.what.died) name → m.get name = some (score (play.map fun m => m.what.died) name)) ∧
      (¬ Scores (play.map fun m => m.what.died) name → m.get name = none) := by
  obtain ⟨h, hs⟩ := record_splits hl
  refine C73_scores g _ _ _ _ h hs ?_ hl
  unfold Play.frames
  rw [List.forall₂_map_left_iff, List.forall₂_map_right_iff, List.forall₂_same]
  exact fun m hm => play_reports hu (hp m hm) (frame_body m)

theorem occurs_cons {p : Bytes} {b : UInt8} {t : Bytes} (h : Occurs p (b :: t)) : p <+: b :: t ∨ Occurs p t := by
  obtain ⟨pre, post, e⟩ := h
  cases pre with
  | nil => exact .inl ⟨post, by simpa using e.symm⟩
  | cons x pre =>
    simp only [List.cons_append, List.cons.injEq] at e
    exact .inr ⟨pre, post, by simpa using e.2⟩

theorem occurs_left {y : UInt8} {p a b : Bytes} (hy : y ∉ b) (h : Occurs (p ++ [y]) (a ++ b)) : Occurs (p ++ [y]) a := by
  obtain ⟨pre, post, e⟩ := h
  rcases List.append_eq_append_iff.mp e with ⟨t, e1, e2⟩ | ⟨t, e1, e2⟩
  · rcases List.eq_nil_or_concat t with rfl | ⟨t, z, rfl⟩
    · exact ⟨pre, [], by rw [e1]; simp⟩
    · rw [List.concat_eq_append] at e1 e2
      rw [← List.append_assoc, ← List.append_assoc] at e1
      have := List.append_inj_right' e1 rfl
      simp only [List.cons.injEq, and_true] at this
      exact absurd (by rw [e2, this]; simp) hy
  · exact ⟨pre, t, e1⟩

theorem pings_no_flag : ∀ l : List (UInt8 × Nat), ¬ Occurs bytes!"flag" (Happening.pings l).message
  | [] => by
    rintro ⟨pre, post, e⟩
    simp [Happening.message] at e
  | u :: l => by
    have ih := pings_no_flag l
    have e : (Happening.pings (u :: l)).message = 36 :: u.1 :: UInt8.ofNat (u.2 % 256) :: UInt8.ofNat (u.2 / 256 % 256) :: 53 ::
        u.1 :: 0 :: (Happening.pings l).message := rfl
    rw [e]
    intro h
    rcases occurs_cons h with h | h
    · simp at h
    rcases occurs_cons h with h | h
    · simp at h
    rcases occurs_cons h with h | h
    · simp at h
    rcases occurs_cons h with h | h
    · simp at h
    rcases occurs_cons h with h | h
    · simp at h
    rcases occurs_cons h with h | h
    · simp at h
    rcases occurs_cons h with h | h
    · simp at h
    exact ih h

theorem flag_occurs {e : Spec.FlagEvent} {text : Str} (h : SaysFlag e text) : Occurs bytes!"flag" (bytesOf text) := by
  obtain ⟨_, phrases, p, h1, h2, rfl⟩ := h
  have : Occurs bytes!"flag" (bytesOf p) := by
    revert h1 h2
    simp only [flagPhrases, List.mem_cons, Prod.mk.injEq, List.not_mem_nil, or_false]
    rintro (⟨_, rfl⟩ | ⟨_, rfl⟩ | ⟨_, rfl⟩ | ⟨_, rfl⟩ | ⟨_, rfl⟩ | ⟨_, rfl⟩ | ⟨_, rfl⟩) <;>
      simp only [List.mem_cons, List.not_mem_nil, or_false] <;> rintro (rfl | rfl) <;> decide +kernel
  obtain ⟨a, b, k⟩ := this
  refine ⟨bytesOf e.2 ++ a, b, ?_⟩
  rw [bytesOf, List.map_append, ← bytesOf, ← bytesOf, k]
  simp

theorem play_flags {u : Bytes → Str} (hu : ∀ s, OneByte s → u (bytesOf s) = s) {h : Happening} (hp : h.Proper)
    (hf : h.Unflagged) {f : Frame} (hb : f.body = h.message) : ReportsFlags u h.flagged f := by
  obtain ⟨ms, flags, mask, body⟩ := f
  change body = h.message at hb
  subst hb
  have one : ∀ p : PrintMsg, p.WF → AllPrints p.encode [p] := by
    intro p hw
    have := AllPrints.print hw .nil
    rwa [List.append_nil] at this
  have quiet : ∀ p : PrintMsg, p.WF → p.level ≠ 2 → ReportsFlags u [] ⟨ms, flags, mask, p.encode⟩ := by
    intro p hw h2
    by_cases ho : Occurs bytes!"flag" p.encode
    · exact .inr ⟨ho, [p], one p hw, by simpa [h2] using .none⟩
    · exact .inl ⟨rfl, ho⟩
  cases h with
  | obituary o t => exact quiet ⟨1, _⟩ (print_wf (h := .obituary o t) hp rfl).1 (show (1 : UInt8) ≠ 2 by decide)
  | chat t => exact quiet ⟨3, _⟩ (print_wf (h := .chat t) hp rfl).1 (show (3 : UInt8) ≠ 2 by decide)
  | announcement t =>
    refine .inl ⟨rfl, fun h => hf ?_⟩
    have h : Occurs bytes!"flag" (8 :: 2 :: (bytesOf t ++ [0])) := by
      simpa [Happening.message, Happening.print, PrintMsg.encode] using h
    rcases occurs_cons h with h | h
    · simp at h
    rcases occurs_cons h with h | h
    · simp at h
    exact occurs_left (y := 103) (p := bytes!"fla") (by decide) h
  | pings l => exact .inl ⟨rfl, pings_no_flag l⟩
  | other m => exact .inl ⟨rfl, hf⟩
  | flag e t =>
    obtain ⟨hw, hne⟩ := print_wf (h := .flag e t) hp rfl
    obtain ⟨a, b, k⟩ := flag_occurs hp.1
    refine .inr ⟨⟨[8, 2] ++ a, b ++ [0], ?_⟩, [⟨2, bytesOf t⟩], one _ hw, ?_⟩
    · simp [Happening.message, Happening.print, PrintMsg.encode, k]
    · have : bytesOf t ≠ [] := hne
      simpa [this, Happening.flagged] using SaysFlags.whole (t := bytesOf t) (by rw [hu t hp.2]; exact hp.1)

/-- C82: the flag counters of a recording are those of the match. -/
theorem C82_flags (g : Env) (hu : ∀ s, OneByte s → g.toUnicode (bytesOf s) = s) (play : Play) (hp : ∀ m ∈ play, m.what.Proper)
    (hf : ∀ m ∈ play, m.what.Unflagged) (hl : (record play).length < 2 ^ 31)
    (hlt : ∀ player kind, (play.flatMap fun m => m.what.flagged).count (kind, player) < 256) :
    ∃ m, flagEventsPerPlayerName g (record play) = .ok m ∧ ∀ player,
      ((∃ kind, (kind, player) ∈ play.flatMap fun m => m.what.flagged) → ∃ r, m.get player = some r ∧
        r.captures = (play.flatMap fun m => m.what.flagged).count (.captured, player) ∧
        r.pickups = (play.flatMap fun m => m.what.flagged).count (.got, player) ∧
        r.returns = (play.flatMap fun m => m.what.flagged).count (.returned, player) ∧
        r.carrierFrags = (play.flatMap fun m => m.what.flagged).count (.assist, player) ∧
        r.defends = (play.flatMap fun m => m.what.flagged).count (.defendsFlag, player) ∧
        r.carrierDefends = (play.flatMap fun m => m.what.flagged).count (.defendsCarrier, player) ∧
        r.carrierDefendsVsAggressive = (play.flatMap fun m => m.what.flagged).count (.defendsCarrierVsAggressive, player)) ∧
      ((¬ ∃ kind, (kind, player) ∈ play.flatMap fun m => m.what.flagged) → m.get player = none) := by
  obtain ⟨h, hs⟩ := record_splits hl
  refine C76_counts g _ _ _ (play.map fun m : Moment => m.what.flagged) h hs ?_ hlt
  unfold Play.frames
  rw [List.forall₂_map_left_iff, List.forall₂_map_right_iff, List.forall₂_same]
  exact fun m hm => play_flags hu (hp m hm) (hf m hm) (frame_body m)

theorem pings_lead : ∀ l : List (UInt8 × Nat), (∀ u ∈ l, u.2 < 65536) → LeadingPings (Happening.pings l).message l
  | [], _ => .stop (noPing_of_head (by simp [Happening.message]))
  | u :: l, h => by
    have e : (Happening.pings (u :: l)).message = 36 :: u.1 :: UInt8.ofNat (u.2 % 256) :: UInt8.ofNat (u.2 / 256 % 256) :: 53 ::
        u.1 :: 0 :: (Happening.pings l).message := rfl
    have hu := h u (by simp)
    have := LeadingPings.step (n := u.1) (lo := UInt8.ofNat (u.2 % 256)) (hi := UInt8.ofNat (u.2 / 256 % 256)) (x := 53)
      (t := u.1 :: 0 :: (Happening.pings l).message) (pings_lead l fun x hx => h x (List.mem_cons_of_mem _ hx))
    rw [e]
    convert this using 2
    refine Prod.ext rfl ?_
    simp only [UInt8.toNat_ofNat']
    omega

theorem play_pings {h : Happening} (hp : h.Proper) : LeadingPings h.message h.pinged := by
  cases h with
  | pings l => exact pings_lead l hp
  | other m => exact .stop (noPing_of_head hp.2)
  | _ => exact .stop (noPing_of_head (by simp [Happening.message, Happening.print, PrintMsg.encode]))

/-- C82: the pings of a recording are the means over the first eight moments with pings, rounded down. -/
theorem C82_pings (g : Env) (play : Play) (hp : ∀ m ∈ play, m.what.Proper) (hl : (record play).length < 2 ^ 31)
    (sampled : List (UInt8 × Nat)) (hsm : sampled = sampledPings (play.map fun m => m.what.pinged))
    (hne : sampled ≠ []) (hsum : ∀ p, (samplesOf sampled p).sum < 65536) :
    ∃ m, pingPerPlayerNumber g (record play) = .ok m ∧
      ∀ p, m.get p = if p ∈ sampled.map Prod.fst then some ((samplesOf sampled p).sum / (samplesOf sampled p).length)
        else none := by
  obtain ⟨h, hs⟩ := record_splits hl
  subst hsm
  refine C32_pings g _ _ _ (play.map fun m : Moment => m.what.pinged) h hs ?_ hne hsum
  unfold Play.frames
  rw [List.forall₂_map_left_iff, List.forall₂_map_right_iff, List.forall₂_same]
  exact fun m hm => frame_body m ▸ play_pings (hp m hm)

/-- C82: the duration of a recording without end-of-match print and standby is the time that passed. -/
theorem C82_duration (g : Env) (play : Play) (hl : (record play).length < 2 ^ 31)
    (ho : ¬ Occurs matchOver (record play)) (hst : ¬ Occurs standby (record play))
    (hms : (play.map fun m => m.ms.toNat).sum < 2 ^ 32) :
    ∃ ns, demoDuration g (record play) = .ok ns ∧ Converted (play.map fun m => m.ms.toNat).sum ns := by
  obtain ⟨h, hs⟩ := record_splits hl
  have e : msBefore (record play).length play.frames = (play.map fun m => m.ms.toNat).sum := by
    rw [C35_all_frames _ _ _ h, Play.frames, List.map_map]
    exact congrArg List.sum (List.map_congr_left fun m _ => congrArg UInt8.toNat (frame_duration m))
  obtain ⟨ns, h1, h2, _⟩ := C35_demo_duration_accuracy g _ _ _ _ h (.inr (.inr ⟨ho, hst, rfl⟩)) (.inl hs) (by rw [e]; exact hms)
  rw [e] at h2
  exact ⟨ns, h1, h2⟩

/-- A short match. -/
def Example.play : Play := [⟨13, .all, .pings [(0, 25), (1, 38)]⟩,
  ⟨250, .all, .obituary (.frag chars!"a" chars!"b") chars!"b was nailed by a"⟩,
  ⟨7, .all, .flag (.got, chars!"a") chars!"a çïô the ÒÅÄ flag!\n"⟩, ⟨0, .all, .announcement chars!"welcome\n"⟩, ⟨100, .one 5, .chat chars!"a: hi, the flag is here\n"⟩,
  ⟨0, .all, .other [7, 1, 2]⟩, ⟨13, .all, .pings [(0, 28)]⟩, ⟨90, .several 3, .obituary (.suicide chars!"b") chars!"b suicides"⟩]

theorem Example.oneByte_of {s : Str} (h : (s.all fun c => 0 < c.toNat ∧ c.toNat < 256) = true) : OneByte s := by
  intro c hc
  simpa using List.all_eq_true.mp h c hc

theorem Example.latin1_bytesOf (s : Str) (hs : OneByte s) : Example.latin1 (bytesOf s) = s := by
  unfold Example.latin1 bytesOf
  rw [List.map_map]
  conv_rhs => rw [← List.map_id s]
  refine List.map_congr_left fun c hc => ?_
  obtain ⟨h1, h2⟩ := hs c hc
  simp only [Function.comp, UInt8.toNat_ofNat', id]
  rw [Nat.mod_eq_of_lt h2, Char.ofNat_toNat]

theorem Example.play_proper : ∀ m ∈ Example.play, m.what.Proper := by
  intro m hm
  simp only [Example.play, List.mem_cons, List.not_mem_nil, or_false] at hm
  rcases hm with rfl | rfl | rfl | rfl | rfl | rfl | rfl | rfl
  · simp [Happening.Proper]
  · exact ⟨.victimFirst (x := chars!"b") (y := chars!"a") (p := ⟨chars!" was nailed by ", []⟩) (by decide +kernel)
      (by decide +kernel) (by decide +kernel), Example.oneByte_of (by decide), by decide⟩
  · exact ⟨⟨by decide +kernel, _, chars!" çïô the ÒÅÄ flag!\n", .tail _ (.tail _ (.tail _ (.tail _ (.head _)))), by decide, rfl⟩,
      Example.oneByte_of (by decide)⟩
  · exact ⟨by decide, Example.oneByte_of (by decide)⟩
  · exact ⟨by decide, Example.oneByte_of (by decide)⟩
  · exact ⟨by decide, by decide⟩
  · simp [Happening.Proper]
  · exact ⟨.suicide (x := chars!"b") (by decide +kernel), Example.oneByte_of (by decide), by decide⟩

theorem Example.play_unflagged : ∀ m ∈ Example.play, m.what.Unflagged := by
  intro m hm
  simp only [Example.play, List.mem_cons, List.not_mem_nil, or_false] at hm
  rcases hm with rfl | rfl | rfl | rfl | rfl | rfl | rfl | rfl
  all_goals first | exact trivial | exact (by decide +kernel : ¬ Occurs bytes!"flag" (bytesOf chars!"welcome\n")) | exact (by decide +kernel : ¬ Occurs bytes!"flag" [7, 1, 2])

/-- The hypotheses of C82 are met by a match with a frag, a suicide, a flag, pings and chat. -/
example : (∀ s, OneByte s → Example.debug.toUnicode (bytesOf s) = s) ∧ (∀ m ∈ Example.play, m.what.Proper) ∧
    (∀ m ∈ Example.play, m.what.Unflagged) ∧
    (record Example.play).length < 2 ^ 31 ∧
    (∀ player kind, (Example.play.flatMap fun m => m.what.flagged).count (kind, player) < 256) ∧
    ¬ Occurs matchOver (record Example.play) ∧ ¬ Occurs standby (record Example.play) ∧
    fragsPerPlayerName Example.debug (record Example.play) = .ok [(chars!"a", 1), (chars!"b", -2)] ∧
    flagEventsPerPlayerName Example.debug (record Example.play) = .ok [(chars!"a", { pickups := 1 })] ∧
    pingPerPlayerNumber Example.debug (record Example.play) = .ok [(0, 26), (1, 38)] ∧
    demoDuration Example.debug (record Example.play) = .ok 472999990 :=
  ⟨Example.latin1_bytesOf, Example.play_proper, Example.play_unflagged, by decide +kernel,
    fun _ _ => Nat.lt_of_le_of_lt List.count_le_length (by decide), by decide +kernel, by decide +kernel, by decide +kernel,
    by decide +kernel, by decide +kernel, by decide +kernel⟩

end Mvd

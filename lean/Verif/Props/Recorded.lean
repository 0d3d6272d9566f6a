import Verif.Spec.Plan
import Verif.Props.Timeline
import Verif.Props.People

/-! C107: every match can be recorded. -/

namespace Spec

/-- The match that is recorded, with the clients its userinfo strings stand for. -/
def Recording.asMatch (r : Recording) (c : Course) (roster : List Mvd.Client) : ServerMatch where
  info := bytesOf r.info
  userinfos := r.clients.map bytesOf
  roster := roster
  events := r.whole.map fun m => m.what.died
  pings := r.whole.map fun m => m.what.pinged
  date := c.date
  countdown := c.countdownMs
  game := c.gameMs

end Spec

namespace Mvd
open Spec

/-- Reports without anonymous teamkills. -/
theorem told_reports {u : Bytes → Str} {cs : List Client} {es : List (Option Obituary)} {fs : List Frame}
    (h : List.Forall₂ (Reports u) es fs) : Told u cs es fs := by
  induction h with
  | nil => exact .nil
  | cons h _ ih => exact .named h ih

/-- C107: a recording is a demo as servers write them, so that all that is proved about these holds. -/
theorem C107_served (g : Env) (hu : ∀ s, OneByte s → g.toUnicode (bytesOf s) = s) (r : Recording) (h : r.Proper)
    (hl : r.demo.length < 2 ^ 31) (c : Course) (hr : r.play = c.play) (hc : c.Clear r) (roster : List Client)
    (he : List.Forall₂ (fun s c => Enlisted (g.clientinfo s.1) s.2 c) r.clients.zipIdx roster)
    (hn : (roster.map (·.name)).Nodup) (hp : sampledPings (r.play.map fun m => m.what.pinged) ≠ [])
    (hlow : ∀ p, (samplesOf (sampledPings (r.play.map fun m => m.what.pinged)) p).sum < 65536)
    (hms : c.countdownMs + c.gameMs < 2 ^ 32) : Served g (r.asMatch c roster) r.demo r.whole.frames where
  whole := (record_splits hl).1
  size := ⟨demo_length h, hl⟩
  header := demo_header h
  slots := demo_slots h
  few := by have := h.few; simp [Recording.asMatch]; omega
  enlisted := by
    simp only [Recording.asMatch]
    rw [List.zipIdx_map, List.forall₂_map_left_iff]
    rw [List.forall₂_iff_get] at he ⊢
    refine ⟨he.1, fun i h1 h2 => ?_⟩
    have := he.2 i h1 h2
    have hm : (r.clients.zipIdx.get ⟨i, h1⟩).1 ∈ r.clients := by
      simp
    simp only [Prod.map, id]
    rw [hu _ (h.clients _ hm).1]
    exact this
  names := hn
  told := told_reports (by
    simp only [Recording.asMatch]
    unfold Play.frames
    rw [List.forall₂_map_left_iff, List.forall₂_map_right_iff, List.forall₂_same]
    exact fun m hm => play_reports hu (whole_proper h m hm) (frame_body m))
  pinged := by
    simp only [Recording.asMatch]
    unfold Play.frames
    rw [List.forall₂_map_left_iff, List.forall₂_map_right_iff, List.forall₂_same]
    exact fun m hm => frame_body m ▸ play_pings (whole_proper h m hm)
  some := by simp only [Recording.asMatch]; rw [whole_pings]; exact hp
  low := by simp only [Recording.asMatch]; rw [whole_pings]; exact hlow
  dated := by
    obtain ⟨post, e, hf⟩ := course_first hr hc
    have ha := utf8_ascii (s := c.date) fun x hx => (hc.line x hx).2.1
    refine ⟨_, post, by rw [e]; simp only [Recording.asMatch]; rw [ha], by simpa using hf, ?_, ?_⟩ <;> simp only [Recording.asMatch] <;> rw [ha]
    · refine not_mem_bytesOf (fun x hx => ⟨(hc.line x hx).1, by have := (hc.line x hx).2.1; omega⟩) ?_
      exact fun k => (hc.line _ k).2.2 rfl
    · rw [length_bytesOf]
      exact hc.size
  timed := by
    obtain ⟨_, _, hf⟩ := course_first hr hc
    refine ⟨_, _, hf, .inl (course_last hr hc), ?_, course_countdown hr hc, course_total hr⟩
    rw [record_append]
    simp only [List.length_append, record_cons, dateFrame c hc.size.2, List.length_cons]
    omega
  short := hms

/-! ### Words in recordings -/

/-- Messages to all that are not too long and end with a NUL, if they are not empty. -/
def Closed (m : Moment) : Prop :=
  m.whom = .all ∧ m.what.message.length < 65536 ∧ (m.what.message = [] ∨ ∃ b, m.what.message = b ++ [0])

theorem closed_encode {m : Moment} (h : Closed m) : m.frame.encode =
    [m.ms, 6, UInt8.ofNat (m.what.message.length % 256), UInt8.ofNat (m.what.message.length / 256), 0, 0] ++ m.what.message := by
  obtain ⟨ms, whom, what⟩ := m
  obtain ⟨rfl, h2, _⟩ := h
  have : (Moment.frame ⟨ms, .all, what⟩).encode = [ms, 6] ++ le32 what.message.length ++ what.message := rfl
  rw [this, le32_small h2]
  simp

/-- A word of at least three bytes, none of which is 0 or 6, occurs in such a recording only in a message. -/
theorem occurs_record {w : Bytes} (h0 : (0 : UInt8) ∉ w) (h6 : (6 : UInt8) ∉ w) (hw : 3 ≤ w.length) :
    ∀ {play : Play}, (∀ m ∈ play, Closed m) → Occurs w (record play) → ∃ m ∈ play, Occurs w m.what.message
  | [], _, h => by
    exact absurd h (not_occurs_short (by simp [record, Play.frames, Spec.encode]; omega))
  | m :: play, hc, h => by
    have hm := hc m (by simp)
    rw [record_cons, closed_encode hm] at h
    have key : Occurs w m.what.message ∨ Occurs w (record play) := by
      have h := occurs_sep (z := 6) h6 (a := [m.ms]) (b := UInt8.ofNat (m.what.message.length % 256) ::
        UInt8.ofNat (m.what.message.length / 256) :: 0 :: 0 :: (m.what.message ++ record play)) (by simpa using h)
      rcases h with h | h
      · exact absurd h (not_occurs_short (by simp; omega))
      have h := occurs_sep (z := 0) h0 (a := [UInt8.ofNat (m.what.message.length % 256), UInt8.ofNat (m.what.message.length / 256)])
        (b := 0 :: (m.what.message ++ record play)) (by simpa using h)
      rcases h with h | h
      · exact absurd h (not_occurs_short (by simp; omega))
      have h := occurs_sep (z := 0) h0 (a := []) (b := m.what.message ++ record play) (by simpa using h)
      rcases h with h | h
      · exact absurd h (not_occurs_short (by simp; omega))
      rcases hm.2.2 with e | ⟨b, e⟩
      · rw [e] at h
        exact .inr h
      · rw [e, List.append_assoc] at h
        rcases occurs_sep (z := 0) h0 h with h | h
        · obtain ⟨x, y, k⟩ := h
          exact .inl ⟨x, y ++ [0], by rw [e, k]; simp⟩
        · exact .inr h
    rcases key with h | h
    · exact ⟨m, by simp, h⟩
    · obtain ⟨m', h1, h2⟩ := occurs_record h0 h6 hw (fun x hx => hc x (.tail _ hx)) h
      exact ⟨m', .tail _ h1, h2⟩

/-! ### The recording of a plan -/

theorem printable_oneByte {s : Str} (h : Plan.Printable s) : OneByte s := fun c hc => by
  have := h c hc
  omega

theorem printable_not_mem {s : Str} (h : Plan.Printable s) {b : UInt8} (hb : b.toNat < 32 ∨ b = 34) : b ∉ bytesOf s := by
  refine not_mem_bytesOf (printable_oneByte h) fun k => ?_
  have := h _ k
  rcases hb with hb | rfl
  · have e : (Char.ofNat b.toNat).toNat = b.toNat := by
      have hv : b.toNat.isValidChar := .inl (by omega)
      simp [Char.ofNat, hv, Char.ofNatAux, Char.toNat]
    omega
  · exact this.2.2 rfl

theorem forall₂_right {α β : Type} {R : α → β → Prop} {l : List α} {l' : List β} (h : List.Forall₂ R l l') {b : β} (hb : b ∈ l') :
    ∃ a ∈ l, R a b := by
  induction h with
  | nil => simp at hb
  | cons h _ ih =>
    rcases List.mem_cons.mp hb with rfl | hb
    · exact ⟨_, by simp, h⟩
    · obtain ⟨a, h1, h2⟩ := ih hb
      exact ⟨a, by simp [h1], h2⟩

theorem lookup_mem {entries : List (Str × Str)} {k v : Str} (h : entries.lookup k = some v) : (k, v) ∈ entries := by
  induction entries with
  | nil => simp at h
  | cons e t ih =>
    obtain ⟨a, b⟩ := e
    rw [List.lookup_cons] at h
    split at h
    · rename_i hk
      cases h
      simp only [beq_iff_eq] at hk
      simp [hk]
    · exact .tail _ (ih h)

theorem infoText_entry {entries : List (Str × Str)} {k v : Str} (h : (k, v) ∈ entries) :
    ∃ a b, infoText entries = a ++ ('\\' :: k ++ '\\' :: v) ++ b := by
  obtain ⟨x, y, rfl⟩ := List.append_of_mem h
  exact ⟨infoText x, infoText y, by simp [infoText]⟩

theorem introduced_name {entries : List (Str × Str)} {q : Person} (h : Introduces entries q) :
    (∃ a b, infoText entries = a ++ (chars!"\\name\\" ++ q.name) ++ b) ∧ q.name ≠ [] ∧ '\\' ∉ q.name := by
  have hm := lookup_mem h.name
  obtain ⟨a, b, e⟩ := infoText_entry hm
  exact ⟨⟨a, b, by rw [e]; simp⟩, h.wellformed.values _ hm⟩

/-- What is known about the name of somebody in a plan. -/
theorem plan_name {p : Plan} (h : p.Possible) {q : Person} (hq : q ∈ p.people) :
    Plan.Printable q.name ∧ '\\' ∉ q.name ∧ q.name.length ≤ 256 := by
  obtain ⟨s, hs, entries, hi, rfl⟩ := forall₂_right h.strings hq
  obtain ⟨⟨a, b, e⟩, _, hb⟩ := introduced_name hi
  obtain ⟨h1, h2⟩ := h.printable _ hs
  refine ⟨fun c hc => h1 c (by rw [e]; simp [hc]), hb, ?_⟩
  rw [e] at h2
  simp only [List.length_append] at h2
  omega

theorem updates_message (us : List (UInt8 × Nat)) : (Happening.pings us).message.length = 7 * us.length ∧
    (us ≠ [] → ∃ b, (Happening.pings us).message = b ++ [0]) := by
  induction us with
  | nil => simp [Happening.message]
  | cons u us ih =>
    obtain ⟨h1, h2⟩ := ih
    simp only [Happening.message, List.flatMap_cons, List.length_append, List.length_cons] at h1 h2 ⊢
    refine ⟨by rw [h1]; simp [le16]; omega, fun _ => ?_⟩
    by_cases e : us = []
    · subst e
      exact ⟨[36, u.1] ++ le16 u.2 ++ [53, u.1], by simp⟩
    · obtain ⟨b, hb⟩ := h2 e
      rw [hb]
      exact ⟨[36, u.1] ++ le16 u.2 ++ [53, u.1, 0] ++ b, by simp⟩

/-- A word of six bytes or more without the numbers of the message and NUL is not in the pings. -/
theorem updates_without {w : Bytes} (h0 : (0 : UInt8) ∉ w) (h36 : (36 : UInt8) ∉ w) (hw : 6 ≤ w.length) :
    ∀ us : List (UInt8 × Nat), ¬ Occurs w (Happening.pings us).message
  | [] => not_occurs_short (by simp [Happening.message]; omega)
  | u :: us => by
    intro k
    have k : Occurs w (([36, u.1] ++ le16 u.2 ++ [53, u.1]) ++ 0 :: (Happening.pings us).message) := by
      simpa [Happening.message] using k
    rcases occurs_sep h0 k with ⟨a, b, e⟩ | k
    · have e' := congrArg List.length e
      simp [le16] at e'
      have ha : a = [] := List.length_eq_zero_iff.mp (by omega)
      subst ha
      cases w with
      | nil => simp at hw
      | cons x w =>
        simp at e
        exact h36 (by simp [e.1])
    · exact updates_without h0 h36 hw us k

/-- The pings of a plan. -/
theorem plan_updates {p : Plan} (h : p.Possible) : (p.updates ≠ [] ∧ p.updates.length ≤ 24) ∧ (∀ u ∈ p.updates, u.2 < 65536) ∧
    (∀ q i, (q, i) ∈ p.people.zipIdx → samplesOf p.updates (UInt8.ofNat i) = [p.ping q.name]) ∧
    ∀ x, (samplesOf p.updates x).sum < 65536 := by
  have hf := h.few
  have small : ∀ u ∈ p.updates, u.2 < 65536 := by
    intro u hu
    obtain ⟨⟨q, i⟩, hq, rfl⟩ := List.mem_map.mp hu
    exact h.pings q ((List.mem_zipIdx' hq).2 ▸ List.getElem_mem _)
  have key : ∀ (people : List Person) (k : Nat), k + people.length ≤ 256 →
      (∀ i, i < 256 → (i < k ∨ k + people.length ≤ i) →
        samplesOf ((people.zipIdx k).map fun q => (UInt8.ofNat q.2, p.ping q.1.name)) (UInt8.ofNat i) = []) ∧
      ∀ q i, (q, i) ∈ people.zipIdx k →
        samplesOf ((people.zipIdx k).map fun q => (UInt8.ofNat q.2, p.ping q.1.name)) (UInt8.ofNat i) = [p.ping q.name] := by
    intro people
    induction people with
    | nil => intro k _; simp [samplesOf]
    | cons q people ih =>
      intro k hk
      simp only [List.length_cons] at hk
      obtain ⟨i1, i2⟩ := ih (k + 1) (by omega)
      have ne : ∀ i, i < 256 → i ≠ k → UInt8.ofNat k ≠ UInt8.ofNat i := by
        intro i hi hne e
        have := congrArg UInt8.toNat e
        simp only [UInt8.toNat_ofNat'] at this
        omega
      have head : ∀ i, samplesOf (((q :: people).zipIdx k).map fun q => (UInt8.ofNat q.2, p.ping q.1.name)) (UInt8.ofNat i) =
          (if UInt8.ofNat k = UInt8.ofNat i then [p.ping q.name] else []) ++
            samplesOf ((people.zipIdx (k + 1)).map fun q => (UInt8.ofNat q.2, p.ping q.1.name)) (UInt8.ofNat i) := by
        intro i
        simp only [samplesOf, List.zipIdx_cons, List.map_cons, List.filter_cons]
        by_cases e : UInt8.ofNat k = UInt8.ofNat i
        · simp [e]
        · simp [e]
      refine ⟨fun i hi ho => ?_, fun r i hr => ?_⟩
      · simp only [List.length_cons] at ho
        rw [head, if_neg (ne i hi (by omega)), i1 i hi (by omega)]
        rfl
      · rw [List.zipIdx_cons, List.mem_cons] at hr
        rcases hr with hr | hr
        · obtain ⟨rfl, rfl⟩ := Prod.mk.inj hr
          rw [head, if_pos rfl, i1 _ (by omega) (by omega)]
          rfl
        · have := List.mem_zipIdx hr
          rw [head, if_neg (ne i (by omega) (by omega)), i2 r i hr]
          rfl
  obtain ⟨k1, k2⟩ := key p.people 0 (by omega)
  refine ⟨⟨?_, by simpa [Plan.updates] using hf⟩, small, k2, fun x => ?_⟩
  · have := h.some
    simpa [Plan.updates] using this
  · have ex : x = UInt8.ofNat x.toNat := by simp
    by_cases hx : x.toNat < p.people.length
    · have hm : (p.people[x.toNat], x.toNat) ∈ p.people.zipIdx := by
        rw [List.mk_mem_zipIdx_iff_getElem?]
        simp [hx]
      rw [ex, Plan.updates, k2 _ _ hm]
      simpa using h.pings _ (List.getElem_mem hx)
    · rw [ex, Plan.updates, k1 _ x.toNat_lt (.inr (by omega))]
      decide

theorem updates_closed {p : Plan} (h : p.Possible) : Closed ⟨0, .all, .pings p.updates⟩ := by
  have hm := updates_message p.updates
  have hu := (plan_updates h).1
  exact ⟨rfl, by simp only [hm.1]; omega, .inr (hm.2 hu.1)⟩

/-- What happens in the recording of a plan. -/
theorem plan_moments {p : Plan} {P : Moment → Prop} (h1 : P ⟨0, .all, .other (7 :: List.replicate 1300 10 ++ [0])⟩)
    (h2 : P ⟨0, .all, .pings p.updates⟩) (h3 : ∀ ms, P ⟨ms, .all, .other []⟩) (h4 : P (dateMoment p.course))
    (h5 : ∀ q ∈ p.people, q.watching = false → P ⟨0, .all, .obituary (.frag q.name ['x']) (q.name ++ chars!" stomps x")⟩)
    (h6 : ∀ q ∈ p.people, q.watching = false → P ⟨0, .all, .obituary (.death q.name) (q.name ++ chars!" died")⟩)
    (h7 : P (overMoment p.course)) (h8 : ∀ e ∈ p.deeds, P (flagging e)) : ∀ m ∈ p.course.play, P m := by
  have wait : ∀ ms, ∀ m ∈ waiting ms, P m := by
    intro ms m hm
    simp only [waiting, List.mem_append, List.mem_replicate, List.mem_singleton] at hm
    rcases hm with ⟨_, rfl⟩ | rfl <;> exact h3 _
  intro m hm
  simp only [Course.play, Plan.course, List.cons_append, List.mem_cons, List.mem_append, List.mem_flatMap, List.not_mem_nil, or_false,
    List.mem_filter, scoring, List.mem_replicate, List.mem_map] at hm
  rcases hm with rfl | rfl | hm | rfl | ((hm | ⟨e, he, rfl⟩) | ⟨q, ⟨hq, hw⟩, (⟨_, rfl⟩ | ⟨_, rfl⟩)⟩) | rfl
  · exact h1
  · exact h2
  · exact wait _ m hm
  · exact h4
  · exact wait _ m hm
  · exact h8 e he
  · exact h5 q hq (by simpa using hw)
  · exact h6 q hq (by simpa using hw)
  · exact h7

theorem plan_text {n t : Str} (hn : Plan.Printable n) (ht : Plan.Printable t) : Plan.Printable (n ++ t) := by
  intro c hc
  rcases List.mem_append.mp hc with hc | hc
  · exact hn c hc
  · exact ht c hc

theorem plan_date {p : Plan} (h : p.Possible) : Plan.Printable (chars!"matchdate: " ++ p.date) ∧
    OneByte (chars!"matchdate: " ++ p.date ++ ['\n']) := by
  have h1 := plan_text (n := chars!"matchdate: ") (by unfold Plan.Printable; decide) h.date.1
  exact ⟨h1, oneByte_nl (printable_oneByte h1)⟩

theorem printable_stomps : Plan.Printable chars!" stomps x" := by unfold Plan.Printable; decide
theorem printable_died : Plan.Printable chars!" died" := by unfold Plan.Printable; decide

theorem flagWords_bytes (kind : FlagKind) : OneByte (flagWords kind) ∧ '"' ∉ flagWords kind ∧ '\\' ∉ flagWords kind ∧
    (flagWords kind).length ≤ 60 := by
  unfold OneByte
  cases kind <;> decide

theorem flagWords_mem (kind : FlagKind) : ∃ phrases, (kind, phrases) ∈ flagPhrases ∧ flagWords kind ∈ phrases := by
  cases kind
  · exact ⟨_, .head _, by decide⟩
  all_goals first
    | exact ⟨_, .tail _ (.head _), by decide⟩
    | exact ⟨_, .tail _ (.tail _ (.head _)), by decide⟩
    | exact ⟨_, .tail _ (.tail _ (.tail _ (.head _))), by decide⟩
    | exact ⟨_, .tail _ (.tail _ (.tail _ (.tail _ (.head _)))), by decide⟩
    | exact ⟨_, .tail _ (.tail _ (.tail _ (.tail _ (.tail _ (.head _))))), by decide⟩
    | exact ⟨_, .tail _ (.tail _ (.tail _ (.tail _ (.tail _ (.tail _ (.head _)))))), by decide⟩

theorem oneByte_append {a b : Str} (ha : OneByte a) (hb : OneByte b) : OneByte (a ++ b) := by
  intro c hc
  rcases List.mem_append.mp hc with hc | hc
  · exact ha c hc
  · exact hb c hc

/-- What is known about somebody who does something with a flag. -/
theorem plan_doer {p : Plan} (h : p.Possible) {e : Spec.FlagEvent} (he : e ∈ p.deeds) :
    Plan.Printable e.2 ∧ '\\' ∉ e.2 ∧ e.2.length ≤ 256 := by
  obtain ⟨q, hq, hn⟩ := List.mem_map.mp (h.doers e he).1
  rw [← hn]
  exact plan_name h hq

theorem plan_proper {p : Plan} (h : p.Possible) : ∀ m ∈ p.course.play, m.what.Proper := by
  refine plan_moments ⟨by decide, by decide⟩ (plan_updates h).2.1 (fun _ => ⟨by simp, by simp⟩) ⟨by simp, (plan_date h).2⟩
    (fun q hq hw => ?_) (fun q hq hw => ?_) ⟨by decide, by unfold OneByte; decide⟩ (fun e he => ?_)
  · refine ⟨?_, printable_oneByte (plan_text (plan_name h hq).1 printable_stomps), ?_⟩
    · rcases h.recognised q hq hw with hn | hn
      · have := Says.killerFirst (x := q.name) (y := ['x']) (p := ⟨chars!" stomps ", []⟩) hn (by decide +kernel) (by decide)
        simpa using this
      · have := Says.clear (.killerFirst (x := q.name) (y := ['x']) (p := ⟨chars!" stomps ", []⟩) (by decide))
          (by simp only [Obituary.names, List.mem_cons, List.not_mem_nil, or_false]; rintro n (rfl | rfl); exacts [hn, by decide +kernel])
          (by simp)
        simpa using this
    · simp only [List.getLast?_append]
      rintro c ⟨⟩
      decide
  · have hs : Says (.death q.name) (q.name ++ chars!" died") := by
      rcases h.recognised q hq hw with hn | hn
      · exact .death hn (by decide)
      · exact .clear (.death (by decide)) (by simpa [Obituary.names] using hn) (by simp)
    refine ⟨hs, printable_oneByte (plan_text (plan_name h hq).1 printable_died), ?_⟩
    simp only [List.getLast?_append]
    rintro c ⟨⟩
    decide
  · obtain ⟨phrases, h1, h2⟩ := flagWords_mem e.1
    exact ⟨⟨(h.doers e he).2, phrases, _, h1, h2, rfl⟩,
      oneByte_append (printable_oneByte (plan_doer h he).1) (flagWords_bytes e.1).1⟩

theorem print_message {h : Happening} {level : UInt8} {text : Bytes} (e : h.print = some ⟨level, text⟩) :
    h.message = [8, level] ++ text ++ [0] := by
  rw [message_of_print e]
  simp [PrintMsg.encode]

theorem plan_closed {p : Plan} (h : p.Possible) : ∀ m ∈ p.course.play, Closed m := by
  have text : ∀ (w : Happening) (level : UInt8) (t : Str), w.print = some ⟨level, bytesOf t⟩ → t.length ≤ 400 →
      Closed ⟨0, .all, w⟩ := by
    intro w level t e hl
    refine ⟨rfl, ?_, .inr ⟨_, print_message e⟩⟩
    rw [print_message e]
    simp [length_bytesOf]
    omega
  refine plan_moments ⟨rfl, by decide +kernel, .inr ⟨_, rfl⟩⟩ (updates_closed h)
    (fun _ => ⟨rfl, by simp [Happening.message], .inl rfl⟩) (text _ 2 _ rfl ?_) (fun q hq hw => text _ 1 _ rfl ?_)
    (fun q hq hw => text _ 1 _ rfl ?_) (text _ 2 _ rfl (by decide))
    (fun e he => text _ 2 _ rfl ?_)
  · have := h.date.2.2.2
    rw [show p.course.date = p.date from rfl]
    simp
    omega
  · have := (plan_name h hq).2.2
    simp
    omega
  · have := (plan_name h hq).2.2
    simp
    omega
  · have := (plan_doer h he).2.2
    have := (flagWords_bytes e.1).2.2.2
    simp
    omega

theorem mem_of_occurs {w m : Bytes} {b : UInt8} (hb : b ∈ w) (h : Occurs w m) : b ∈ m := by
  obtain ⟨x, y, rfl⟩ := h
  simp [hb]

/-- Words that are in none of the messages. -/
theorem plan_without {p : Plan} (h : p.Possible) {w : Bytes} (h0 : (0 : UInt8) ∉ w) (h36 : (36 : UInt8) ∉ w) (hl : 6 ≤ w.length)
    {b : UInt8} (hw : b ∈ w) (hb : b = 34 ∨ b = 92) : ∀ m ∈ p.course.play, ¬ Occurs w m.what.message := by
  have not : ∀ {m : Bytes}, b ∉ m → ¬ Occurs w m := fun hm k => hm (mem_of_occurs hw k)
  have text : ∀ (w : Happening) (level : UInt8) (t : Str), w.print = some ⟨level, bytesOf t⟩ → level.toNat < 32 → OneByte t →
      '"' ∉ t → '\\' ∉ t → b ∉ w.message := by
    intro w level t e hl ho h1 h2
    rw [print_message e]
    simp only [List.cons_append, List.nil_append, List.mem_cons, List.mem_append, List.not_mem_nil, or_false, not_or]
    refine ⟨by rcases hb with rfl | rfl <;> decide, ?_, ?_, by rcases hb with rfl | rfl <;> decide⟩
    · rintro rfl
      rcases hb with rfl | rfl
      · exact absurd hl (by decide)
      · exact absurd hl (by decide)
    · rcases hb with rfl | rfl
      · exact not_mem_bytesOf ho h1
      · exact not_mem_bytesOf ho h2
  have quote : ∀ {s : Str}, Plan.Printable s → '"' ∉ s := fun hs k => (hs _ k).2.2 rfl
  refine plan_moments (not ?_) (updates_without h0 h36 hl _) (fun _ => not (by simp [Happening.message]))
    (not (text _ 2 _ rfl (by decide) (plan_date h).2 ?_ ?_)) (fun q hq hw => not ?_) (fun q hq hw => not ?_)
    (not (text _ 2 _ rfl (by decide) (by unfold OneByte; decide) (by decide) (by decide))) (fun e he => not ?_)
  · rcases hb with rfl | rfl <;> decide +kernel
  · have := quote (plan_date h).1
    rw [show p.course.date = p.date from rfl]
    simp at this ⊢
    exact this
  · rw [show p.course.date = p.date from rfl]
    simpa using h.date.2.1
  · have hn := plan_name h hq
    have hp := plan_text hn.1 printable_stomps
    exact text _ 1 ((q.name ++ chars!" stomps x") ++ ['\n']) rfl (by decide) (oneByte_nl (printable_oneByte hp))
      (by simpa using quote hp) (by simpa using hn.2.1)
  · have hn := plan_name h hq
    have hp := plan_text hn.1 printable_died
    exact text _ 1 ((q.name ++ chars!" died") ++ ['\n']) rfl (by decide) (oneByte_nl (printable_oneByte hp))
      (by simpa using quote hp) (by simpa using hn.2.1)
  · have hn := plan_doer h he
    have hf := flagWords_bytes e.1
    exact text _ 2 _ rfl (by decide) (oneByte_append (printable_oneByte hn.1) hf.1)
      (by simpa using ⟨quote hn.1, hf.2.1⟩) (by simpa using ⟨hn.2.1, hf.2.2.1⟩)

theorem plan_recording {p : Plan} (h : p.Possible) : p.recording.Proper where
  info := ⟨h.info.1, h.info.2.1, printable_oneByte h.info.2.2.1, fun k => (h.info.2.2.1 _ k).2.2 rfl,
    fun k => absurd (h.info.2.2.1 _ k).1 (by decide)⟩
  some := by
    intro e
    have := h.strings.length_eq
    have e : p.strings = [] := e
    rw [e] at this
    exact h.some (List.length_eq_zero_iff.mp this.symm)
  few := by
    have := h.strings.length_eq
    have := h.few
    simp only [Plan.recording]
    omega
  clients := by
    intro s hs
    obtain ⟨h1, h2⟩ := h.printable s hs
    obtain ⟨q, _, entries, hi, rfl⟩ := forall₂_right h.strings.flip hs
    obtain ⟨⟨a, b, e⟩, hn, _⟩ := introduced_name hi
    refine ⟨printable_oneByte h1, ?_, h2, a, q.name ++ b, by rw [e]; simp⟩
    rw [e]
    have := List.length_pos_iff.mpr hn
    simp
    omega
  play := plan_proper h
  long := by
    simp only [Plan.recording, Course.play, Plan.course, List.cons_append, record_cons, List.length_append]
    have : 1280 ≤ (Moment.frame ⟨0, .all, .other (7 :: (List.replicate 1300 10 ++ [0]))⟩).encode.length := by decide +kernel
    omega
  nameless := by
    intro k
    obtain ⟨m, hm, k⟩ := occurs_record (by decide) (by decide) (by decide) (plan_closed h) k
    exact plan_without h (b := 92) (by decide) (by decide) (by decide) (by decide) (.inr rfl) m hm k

theorem plan_whole_closed {p : Plan} (h : p.Possible) : ∀ m ∈ p.recording.whole, Closed m := by
  have hp := plan_recording h
  intro m hm
  simp only [Recording.whole, List.cons_append, List.mem_cons, List.mem_append, List.not_mem_nil, or_false] at hm
  rcases hm with rfl | rfl | hm | rfl
  · refine ⟨rfl, ?_, .inr ⟨_, rfl⟩⟩
    have := serverinfo_length p.recording
    have := hp.info.2.1
    simp only [Happening.message]
    omega
  · refine ⟨rfl, ?_, ?_⟩
    · have := spawn_length hp
      simp only [Happening.message]
      omega
    · have : ∀ (l : List Str) (i : Nat), l ≠ [] → ∃ b, userinfos i l = b ++ [0] := by
        intro l
        induction l with
        | nil => simp
        | cons s l ih =>
          intro i _
          cases l with
          | nil => exact ⟨_, by rw [userinfos, userinfos, List.append_nil]⟩
          | cons s' l =>
            obtain ⟨b, e⟩ := ih (i + 1) (by simp)
            exact ⟨_, by rw [userinfos, e, ← List.append_assoc]⟩
      obtain ⟨b, e⟩ := this p.recording.clients 0 hp.some
      exact .inr ⟨9 :: bytes!"cmd spawn\n" ++ [0] ++ b, by simp [Happening.message, Recording.spawn, e]⟩
  · exact plan_closed h m hm
  · exact ⟨rfl, by decide, .inr ⟨_, rfl⟩⟩

/-- Words that are not in the userinfo strings are not in the command to spawn. -/
theorem spawn_without {w : Bytes} (h0 : (0 : UInt8) ∉ w) (hw : 4 ≤ w.length) (hs : ¬ Occurs w (9 :: bytes!"cmd spawn\n"))
    {r : Recording} (hr : r.Proper) (hc : ∀ s ∈ r.clients, ¬ Occurs w (bytesOf s)) : ¬ Occurs w r.spawn := by
  have key : ∀ (l : List Str) (i : Nat), i + l.length ≤ 24 → (∀ s ∈ l, ¬ Occurs w (bytesOf s)) → ¬ Occurs w (userinfos i l) := by
    intro l
    induction l with
    | nil => intro i _ _; exact not_occurs_short (by simp [userinfos]; omega)
    | cons s l ih =>
      intro i hi hl k
      simp only [List.length_cons] at hi
      rw [userinfos, le32_small (by omega), show (i + 1) / 256 = 0 by omega] at k
      have k := occurs_sep (z := 0) h0 (a := [40, UInt8.ofNat i, UInt8.ofNat ((i + 1) % 256)])
        (b := 0 :: 0 :: (bytesOf s ++ 0 :: userinfos (i + 1) l)) (by simpa using k)
      rcases k with k | k
      · exact not_occurs_short (by simp; omega) k
      rcases occurs_sep (z := 0) h0 (a := []) k with k | k
      · exact not_occurs_short (by simp; omega) k
      rcases occurs_sep (z := 0) h0 (a := []) k with k | k
      · exact not_occurs_short (by simp; omega) k
      rcases occurs_sep (z := 0) h0 k with k | k
      · exact hl s (by simp) k
      · exact ih (i + 1) (by omega) (fun x hx => hl x (.tail _ hx)) k
  intro k
  have k : Occurs w (9 :: bytes!"cmd spawn\n" ++ 0 :: userinfos 0 r.clients) := by simpa [Recording.spawn] using k
  rcases occurs_sep (z := 0) h0 k with k | k
  · exact hs k
  · exact key r.clients 0 (by have := hr.few; omega) hc k

theorem plan_no_stats {p : Plan} (h : p.Possible) : ¬ Occurs statsMarker p.recording.demo := by
  intro k
  have hp := plan_recording h
  obtain ⟨m, hm, k⟩ := occurs_record (by decide) (by decide) (by decide) (plan_whole_closed h) k
  simp only [Recording.whole, List.cons_append, List.mem_cons, List.mem_append, List.not_mem_nil, or_false] at hm
  rcases hm with rfl | rfl | hm | rfl
  · have k := mem_of_occurs (b := 123) (by decide) k
    have := not_mem_bytesOf (b := 123) hp.info.2.2.1 h.info.2.2.2
    simp [Happening.message, Recording.serverinfo, this] at k
  · refine spawn_without (by decide) (by decide) (by decide) hp (fun s hs k => ?_) k
    exact printable_not_mem (h.printable s hs).1 (.inr rfl) (mem_of_occurs (by decide) k)
  · exact plan_without h (b := 34) (by decide) (by decide) (by decide) (by decide) (.inl rfl) m hm k
  · exact absurd k (by decide)

theorem waiting_moments {ms : Nat} {m : Moment} (h : m ∈ waiting ms) : m.what = .other [] ∧ m.whom = .all := by
  simp only [waiting, List.mem_append, List.mem_replicate, List.mem_singleton] at h
  rcases h with ⟨_, rfl⟩ | rfl <;> exact ⟨rfl, rfl⟩

theorem plan_clear {p : Plan} (h : p.Possible) : p.course.Clear p.recording where
  line := by
    intro x hx
    have := h.date.1 x hx
    refine ⟨by omega, by omega, ?_⟩
    rintro rfl
    exact absurd this.1 (by decide)
  size := h.date.2.2
  first := by
    have hp := plan_recording h
    intro k
    have hcl : ∀ m ∈ (⟨0, .all, .other p.recording.serverinfo⟩ :: ⟨0, .all, .other p.recording.spawn⟩ :: p.course.countdown : Play),
        Closed m := by
      intro m hm
      refine plan_whole_closed h m ?_
      simp only [Recording.whole, Plan.recording, Course.play, List.cons_append, List.mem_cons, List.mem_append] at hm ⊢
      tauto
    obtain ⟨m, hm, k⟩ := occurs_record (by decide) (by decide) (by decide) hcl k
    simp only [List.mem_cons, Plan.course] at hm
    rcases hm with rfl | rfl | rfl | rfl | hm
    · have k := mem_of_occurs (b := 8) (by decide) k
      have := printable_not_mem (b := 8) h.info.2.2.1 (.inl (by decide))
      simp [Happening.message, Recording.serverinfo, Plan.recording, this] at k
    · refine spawn_without (by decide) (by decide) (by decide) hp (fun s hs k => ?_) k
      exact printable_not_mem (b := 8) (h.printable s hs).1 (.inl (by decide)) (mem_of_occurs (by decide) k)
    · exact absurd (mem_of_occurs (b := 8) (by decide) k) (by decide +kernel)
    · exact updates_without (by decide) (by decide) (by decide) _ k
    · rw [(waiting_moments hm).1] at k
      exact absurd k (by decide)
  last := by
    simp only [Plan.course]
    decide

/-! ### Sizes, times, scores and pings of a plan -/

theorem record_length_le {k : Nat} : ∀ {play : Play}, (∀ m ∈ play, m.frame.encode.length ≤ k) → (record play).length ≤ k * play.length
  | [], _ => by simp [record, Play.frames, Spec.encode]
  | m :: play, h => by
    have h1 := h m (by simp)
    have h2 := record_length_le fun x hx => h x (.tail _ hx)
    rw [record_cons, List.length_append, List.length_cons, Nat.mul_add]
    omega

theorem closed_length {m : Moment} (h : Closed m) : m.frame.encode.length = m.what.message.length + 6 := by
  rw [closed_encode h]
  simp

theorem waiting_length (ms : Nat) : (record (waiting ms)).length ≤ 6 * (ms / 255 + 1) := by
  have := record_length_le (k := 6) (play := waiting ms) (by
    intro m hm
    obtain ⟨h1, h2⟩ := waiting_moments hm
    have : Closed m := ⟨h2, by rw [h1]; simp [Happening.message], .inl (by rw [h1]; rfl)⟩
    rw [closed_length this, h1]
    simp [Happening.message])
  simpa [waiting] using this

theorem scoring_count (name : Str) (n : Int) : (scoring name n).length = n.natAbs := by
  simp [scoring]

theorem goals_count (goal : Str → Int) : ∀ people : List Person,
    ((people.filter fun q => !q.watching).flatMap fun q => scoring q.name (goal q.name)).length ≤
      (people.map fun q => (goal q.name).natAbs).sum
  | [] => by simp
  | q :: people => by
    have := goals_count goal people
    rw [List.filter_cons]
    split
    · rw [List.flatMap_cons, List.length_append, scoring_count, List.map_cons, List.sum_cons]
      omega
    · rw [List.map_cons, List.sum_cons]
      omega

theorem length_of_count {α : Type} [DecidableEq α] (k : Nat) : ∀ (all l : List α), (∀ a ∈ l, a ∈ all) → (∀ a, l.count a ≤ k) →
    l.length ≤ k * all.length
  | [], l, h, _ => by
    have : l = [] := List.eq_nil_iff_forall_not_mem.mpr fun a ha => by simpa using h a ha
    simp [this]
  | x :: all, l, h, hk => by
    have ih := length_of_count k all (l.filter fun a => a ≠ x)
      (fun a ha => by
        simp only [List.mem_filter, ne_eq, decide_eq_true_eq] at ha
        rcases List.mem_cons.mp (h a ha.1) with e | e
        · exact absurd e ha.2
        · exact e)
      (fun a => Nat.le_trans (List.Sublist.count_le a List.filter_sublist) (hk a))
    have h1 := List.length_eq_countP_add_countP (fun a => a = x) (l := l)
    have h2 := hk x
    rw [← List.countP_eq_length_filter] at ih
    have e1 : l.countP (fun a => decide (a = x)) = l.count x := by
      rw [List.count]
      exact List.countP_congr fun a _ => by simp
    have e2 : l.countP (fun a => decide (¬ decide (a = x) = true)) = l.countP fun a => decide (a ≠ x) :=
      List.countP_congr fun a _ => by simp
    rw [List.length_cons, Nat.mul_add]
    omega

theorem deeds_count {p : Plan} (h : p.Possible) : p.deeds.length ≤ 255 * 168 := by
  have hk := length_of_count 255 (p.people.flatMap fun q => [FlagKind.captured, .defendsFlag, .defendsCarrierVsAggressive, .defendsCarrier,
      .got, .returned, .assist].map fun k => (k, q.name)) p.deeds
    (fun e he => by
      obtain ⟨q, hq, hn⟩ := List.mem_map.mp (h.doers e he).1
      obtain ⟨kind, name⟩ := e
      simp only at hn
      refine List.mem_flatMap.mpr ⟨q, hq, ?_⟩
      rw [← hn]
      cases kind <;> simp)
    (fun e => Nat.le_of_lt_succ (by convert h.often e))
  have hf := h.few
  have e : (p.people.flatMap fun q => [FlagKind.captured, .defendsFlag, .defendsCarrierVsAggressive, .defendsCarrier,
      .got, .returned, .assist].map fun k => (k, q.name)).length = 7 * p.people.length := by
    induction p.people with
    | nil => rfl
    | cons q l ih =>
      rw [List.flatMap_cons, List.length_append, ih, List.length_cons]
      simp
      omega
  rw [e] at hk
  omega

theorem plan_length {p : Plan} (h : p.Possible) : p.recording.demo.length < 2 ^ 30 := by
  have hp := plan_recording h
  have hc := plan_whole_closed h
  have l1 := serverinfo_length p.recording
  have l2 := hp.info.2.1
  have l3 := spawn_length hp
  have w1 := waiting_length p.countdown
  have w2 := waiting_length p.game
  have ht := h.times
  have hpt := h.points
  have hg := goals_count p.goal p.people
  have hs : (record ((p.people.filter fun q => !q.watching).flatMap fun q => scoring q.name (p.goal q.name))).length ≤
      280 * ((p.people.filter fun q => !q.watching).flatMap fun q => scoring q.name (p.goal q.name)).length := by
    refine record_length_le fun m hm => ?_
    have hcm : Closed m := plan_closed h m (by
      simp only [Course.play, Plan.course, List.mem_append, List.mem_cons]
      exact .inr (.inr (.inl (.inr hm))))
    rw [closed_length hcm]
    simp only [List.mem_flatMap, List.mem_filter, scoring, List.mem_append, List.mem_replicate] at hm
    obtain ⟨q, ⟨hq, _⟩, (⟨_, rfl⟩ | ⟨_, rfl⟩)⟩ := hm
    · have := (plan_name h hq).2.2
      rw [print_message (level := 1) rfl]
      simp [length_bytesOf]
      omega
    · have := (plan_name h hq).2.2
      rw [print_message (level := 1) rfl]
      simp [length_bytesOf]
      omega
  have hd : (record (p.deeds.map flagging)).length ≤ 400 * (p.deeds.map flagging).length := by
    refine record_length_le fun m hm => ?_
    have hcm : Closed m := plan_closed h m (by
      simp only [Course.play, Plan.course, List.mem_append, List.mem_cons]
      exact .inr (.inr (.inl (.inl (.inr hm)))))
    rw [closed_length hcm]
    obtain ⟨e, he, rfl⟩ := List.mem_map.mp hm
    have := (plan_doer h he).2.2
    have := (flagWords_bytes e.1).2.2.2
    rw [flagging, print_message (level := 2) rfl]
    simp [length_bytesOf]
    omega
  have hdc := deeds_count h
  rw [List.length_map] at hd
  have e : p.recording.demo = record (p.recording.whole) := rfl
  have c1 := closed_length (hc ⟨0, .all, .other p.recording.serverinfo⟩ (by simp [Recording.whole]))
  have c2 := closed_length (hc ⟨0, .all, .other p.recording.spawn⟩ (by simp [Recording.whole]))
  have c3 : (Moment.frame ⟨0, .all, .other (7 :: (List.replicate 1300 10 ++ [0]))⟩).encode.length = 1308 := by decide +kernel
  have c4 : (Moment.frame ⟨0, .all, .pings p.updates⟩).encode.length ≤ 174 := by
    have := (plan_updates h).1.2
    rw [closed_length (updates_closed h)]
    simp only [(updates_message _).1]
    omega
  have c5 := congrArg List.length (dateFrame p.course h.date.2.2.2)
  have c6 := congrArg List.length (overFrame p.course)
  have c7 : (record [⟨0, .all, .other Recording.disconnect⟩]).length = 17 := by decide
  have hd : p.course.date.length ≤ 25 := h.date.2.2.2
  rw [dateMoment] at c5
  rw [overMoment] at c6
  simp only [Happening.message] at c1 c2
  have c6 : (overMoment p.course).frame.encode.length = 27 := c6
  rw [overMoment] at c6
  rw [e]
  have e2 : p.recording.whole = ⟨0, .all, .other p.recording.serverinfo⟩ :: ⟨0, .all, .other p.recording.spawn⟩ ::
      ⟨0, .all, .other (7 :: (List.replicate 1300 10 ++ [0]))⟩ :: ⟨0, .all, .pings p.updates⟩ :: (waiting p.countdown ++
      (⟨p.course.start, .all, .announcement (chars!"matchdate: " ++ p.course.date ++ ['\n'])⟩ ::
        (waiting p.game ++ (p.deeds.map flagging ++ (((p.people.filter fun q => !q.watching).flatMap fun q => scoring q.name (p.goal q.name)) ++
          (⟨p.course.finish, .all, .announcement chars!"The match is over\n"⟩ :: [⟨0, .all, .other Recording.disconnect⟩])))))) := by
    rw [Recording.whole, show p.recording.play = p.course.play from rfl, Course.play]
    simp only [Plan.course, List.cons_append, List.append_assoc, List.nil_append]
  rw [e2]
  simp only [record_cons, record_append, List.length_append] at c7 ⊢
  simp only [List.length_append, List.length_cons, List.length_nil, bytesOf, List.length_map] at c5
  rw [c1, c2, c3, c5, c6]
  omega

theorem waiting_ms (ms : Nat) : ((waiting ms).map fun m => m.ms.toNat).sum = ms := by
  simp [waiting]
  omega

theorem scoring_ms (goal : Str → Int) (people : List Person) :
    ((people.flatMap fun q => scoring q.name (goal q.name)).map fun m => m.ms.toNat).sum = 0 := by
  induction people with
  | nil => rfl
  | cons q people ih =>
    rw [List.flatMap_cons, List.map_append, List.sum_append, ih]
    simp [scoring]

theorem deeds_ms (deeds : List Spec.FlagEvent) : ((deeds.map flagging).map fun m => m.ms.toNat).sum = 0 := by
  induction deeds with
  | nil => rfl
  | cons e l ih => simp only [List.map_cons, List.sum_cons, ih]; rfl

theorem plan_times {p : Plan} : p.course.countdownMs = p.countdown ∧ p.course.gameMs = p.game := by
  constructor
  · have := waiting_ms p.countdown
    simp only [Course.countdownMs, Plan.course, List.map_cons, List.sum_cons, this]
    simp
  · have := waiting_ms p.game
    have h2 := scoring_ms p.goal (p.people.filter fun q => !q.watching)
    simp only [Course.gameMs, Plan.course, List.map_append, List.sum_append, this, h2, deeds_ms]
    simp

theorem score_append (a b : List (Option Obituary)) (name : Str) : score (a ++ b) name = score a name + score b name := by
  simp [score]

theorem score_silent {a : List (Option Obituary)} (h : ∀ e ∈ a, e = none) (name : Str) : score a name = 0 := by
  induction a with
  | nil => rfl
  | cons e a ih =>
    have e1 := h e (by simp)
    have := ih fun x hx => h x (.tail _ hx)
    subst e1
    simpa [score] using this

theorem scoring_score (q name : Str) (n : Int) : score ((scoring q n).map fun m => m.what.died) name = if q = name then n else 0 := by
  simp only [scoring, List.map_append, List.map_replicate, Happening.died, score_append]
  simp only [score, List.map_replicate, award, Option.bind_some, List.sum_replicate]
  split <;> simp
  omega

theorem goals_score (goal : Str → Int) (name : Str) : ∀ {people : List Person}, (people.map (·.name)).Nodup →
    score ((people.flatMap fun q => scoring q.name (goal q.name)).map fun m => m.what.died) name =
      if name ∈ people.map (·.name) then goal name else 0
  | [], _ => by simp [score]
  | q :: people, h => by
    simp only [List.map_cons, List.nodup_cons] at h
    have ih := goals_score goal name h.2
    rw [List.flatMap_cons, List.map_append, score_append, scoring_score, ih]
    by_cases e : q.name = name
    · subst e
      rw [if_pos rfl, if_neg h.1, if_pos (by simp)]
      simp
    · rw [if_neg e]
      simp [Ne.symm e]

theorem plan_score {p : Plan} (h : p.Possible) {q : Person} (hq : q ∈ p.people) (hw : q.watching = false) :
    score (p.recording.whole.map fun m => m.what.died) q.name = p.goal q.name := by
  rw [whole_score]
  have silent : ∀ ms, ∀ e ∈ (waiting ms).map fun m => m.what.died, e = none := by
    intro ms e he
    obtain ⟨m, hm, rfl⟩ := List.mem_map.mp he
    rw [(waiting_moments hm).1]
    rfl
  have deeds : ∀ e ∈ (p.deeds.map flagging).map fun m => m.what.died, e = none := by
    intro e he
    obtain ⟨m, hm, rfl⟩ := List.mem_map.mp he
    obtain ⟨e, _, rfl⟩ := List.mem_map.mp hm
    rfl
  have hn : ((p.people.filter fun q => !q.watching).map (·.name)).Nodup := h.names.sublist (List.filter_sublist.map _)
  have key := goals_score p.goal q.name hn
  rw [if_pos (List.mem_map.mpr ⟨q, by simp [hq, hw], rfl⟩)] at key
  rw [show p.recording.play = p.course.play from rfl, Course.play]
  have c : ∀ (l : List (Option Obituary)), score (none :: l) q.name = score l q.name := by intro l; simp [score]
  have d1 : ∀ b, (Happening.other b).died = none := fun _ => rfl
  have d2 : ∀ b, (Happening.pings b).died = none := fun _ => rfl
  have d3 : ∀ b, (Happening.announcement b).died = none := fun _ => rfl
  simp only [Plan.course, List.map_append, List.map_cons, List.cons_append, List.map_nil, d1, d2, d3, c, score_append,
    score_silent (silent _), score_silent deeds, key]
  simp [score]

theorem plan_pings {p : Plan} (h : p.Possible) : sampledPings (p.recording.play.map fun m => m.what.pinged) = p.updates := by
  have none : ∀ play : Play, (∀ m ∈ play, m.what.pinged = []) → (play.map fun m => m.what.pinged).filter (fun us => us ≠ []) = [] := by
    intro play hp
    rw [List.filter_eq_nil_iff]
    intro us hus
    obtain ⟨m, hm, rfl⟩ := List.mem_map.mp hus
    simp [hp m hm]
  have silent : ∀ ms, ∀ m ∈ waiting ms, m.what.pinged = [] := by
    intro ms m hm
    rw [(waiting_moments hm).1]
    rfl
  have deeds : ∀ m ∈ p.deeds.map flagging, m.what.pinged = [] := by
    intro m hm
    obtain ⟨e, _, rfl⟩ := List.mem_map.mp hm
    rfl
  have goals : ∀ people : List Person, ∀ m ∈ people.flatMap fun q => scoring q.name (p.goal q.name), m.what.pinged = [] := by
    intro people m hm
    simp only [List.mem_flatMap, scoring, List.mem_append, List.mem_replicate] at hm
    obtain ⟨q, _, (⟨_, rfl⟩ | ⟨_, rfl⟩)⟩ := hm <;> rfl
  rw [show p.recording.play = p.course.play from rfl, Course.play, sampledPings]
  have d1 : ∀ b, (Happening.other b).pinged = [] := fun _ => rfl
  have d2 : ∀ b, (Happening.pings b).pinged = b := fun _ => rfl
  have d3 : ∀ b, (Happening.announcement b).pinged = [] := fun _ => rfl
  simp only [Plan.course, List.map_append, List.map_cons, List.filter_append, List.filter_cons, List.cons_append,
    none _ (silent _), none _ deeds, none _ (goals _), d1, d2, d3]
  simp [(plan_updates h).1.1]

/-! ### Every match can be recorded -/

/-- The client a userinfo string stands for. -/
theorem enlisted_exists (info : Clientinfo) (slot : Nat) (h : slot < 256) :
    Enlisted info slot { Client.ofClientinfo info with number := asU8 slot } := by
  have e : ∀ o : Option Int, (o.any fun n => decide (n ≠ 0)) = true ↔ ∃ n, o = some n ∧ n ≠ 0 := by
    intro o
    cases o <;> simp
  refine ⟨?_, rfl, rfl, ⟨?_, ?_⟩, e _, e _, rfl, rfl⟩
  · simp only [asU8]
    omega
  · simp only [Client.ofClientinfo, asU8]
    omega
  · simp only [Client.ofClientinfo, asU8]
    omega

theorem roster_exists (g : Env) (hr : ReadsUserinfo g.clientinfo) : ∀ {strings : List Str} {people : List Person} (k : Nat),
    List.Forall₂ (fun s q => ∃ entries, Introduces entries q ∧ s = infoText entries) strings people → k + strings.length ≤ 256 →
    ∃ roster, List.Forall₂ (fun s c => Enlisted (g.clientinfo s.1) s.2 c) (strings.zipIdx k) roster ∧
      roster.map (·.name) = people.map (·.name)
  | _, _, _, .nil, _ => ⟨[], .nil, rfl⟩
  | s :: strings, q :: people, k, .cons ⟨entries, hi, e⟩ h, hk => by
    simp only [List.length_cons] at hk
    obtain ⟨roster, h1, h2⟩ := roster_exists g hr (k + 1) h (by omega)
    refine ⟨_ :: roster, .cons (enlisted_exists (g.clientinfo s) k (by omega)) h1, ?_⟩
    have := (hr entries hi.wellformed).1
    rw [hi.name, ← e] at this
    simp only [List.map_cons, h2, List.cons.injEq, and_true]
    simp [Client.ofClientinfo, this]

theorem not_occurs_mem {w m : Bytes} {b : UInt8} (hb : b ∈ w) (h : b ∉ m) : ¬ Occurs w m := fun k => h (mem_of_occurs hb k)

theorem plan_unflagged {p : Plan} (h : p.Possible) (hf : p.Unflagged) : ∀ m ∈ p.recording.whole, m.what.Unflagged := by
  have hp := plan_recording h
  intro m hm
  simp only [Recording.whole, List.cons_append, List.mem_cons, List.mem_append, List.not_mem_nil, or_false] at hm
  rcases hm with rfl | rfl | hm | rfl
  · intro k
    have k : Occurs bytes!"flag" (9 :: bytes!"fullserverinfo " ++ 34 :: (bytesOf p.info ++ 34 :: [10, 0])) := by
      simpa [Recording.serverinfo, Plan.recording] using k
    rcases occurs_sep (z := 34) (by decide) k with k | k
    · exact absurd k (by decide)
    rcases occurs_sep (z := 34) (by decide) k with k | k
    · exact hf.1 k
    · exact absurd k (by decide)
  · exact spawn_without (by decide) (by decide) (by decide) hp hf.2.1
  · refine plan_moments (P := fun m => m.what.Unflagged) ?_ trivial (fun _ => by simp only [Happening.Unflagged]; decide) ?_
      (fun _ _ _ => trivial) (fun _ _ _ => trivial) ?_ (fun _ _ => trivial) m hm
    · exact not_occurs_mem (b := 102) (by decide) (by decide +kernel)
    · intro k
      have e : bytesOf (chars!"matchdate: " ++ p.date ++ ['\n']) = bytes!"matchdate:" ++ 32 :: (bytesOf p.date ++ 10 :: []) := by
        simp [bytesOf]
      rw [show p.course.date = p.date from rfl, e] at k
      rcases occurs_sep (z := 32) (by decide) k with k | k
      · exact absurd k (by decide)
      rcases occurs_sep (z := 10) (by decide) k with k | k
      · exact hf.2.2 k
      · exact absurd k (by decide)
    · simp only [overMoment, Happening.Unflagged]
      decide
  · simp only [Happening.Unflagged]
    decide

theorem plan_flags {p : Plan} : (p.recording.play.flatMap fun m => m.what.flagged) = p.deeds := by
  have none : ∀ play : Play, (∀ m ∈ play, m.what.flagged = []) → (play.flatMap fun m => m.what.flagged) = [] := by
    intro play hp
    rw [List.flatMap_eq_nil_iff]
    exact hp
  have silent : ∀ ms, ∀ m ∈ waiting ms, m.what.flagged = [] := by
    intro ms m hm
    rw [(waiting_moments hm).1]
    rfl
  have goals : ∀ people : List Person, ∀ m ∈ people.flatMap fun q => scoring q.name (p.goal q.name), m.what.flagged = [] := by
    intro people m hm
    simp only [List.mem_flatMap, scoring, List.mem_append, List.mem_replicate] at hm
    obtain ⟨q, _, (⟨_, rfl⟩ | ⟨_, rfl⟩)⟩ := hm <;> rfl
  have deeds : ∀ l : List Spec.FlagEvent, ((l.map flagging).flatMap fun m => m.what.flagged) = l := by
    intro l
    induction l with
    | nil => rfl
    | cons e l ih => rw [List.map_cons, List.flatMap_cons, ih]; rfl
  rw [show p.recording.play = p.course.play from rfl, Course.play]
  have d1 : ∀ b, (Happening.other b).flagged = [] := fun _ => rfl
  have d2 : ∀ b, (Happening.pings b).flagged = [] := fun _ => rfl
  have d3 : ∀ b, (Happening.announcement b).flagged = [] := fun _ => rfl
  simp only [Plan.course, List.flatMap_append, List.flatMap_cons, List.cons_append, none _ (silent _), deeds, none _ (goals _), d1, d2,
    d3, List.flatMap_nil, List.nil_append, List.append_nil]

theorem plan_introduced {p : Plan} (h : p.Possible) : List.Forall₂ IntroducedBy (p.strings.map bytesOf) p.people := by
  rw [List.forall₂_map_left_iff]
  have key : ∀ {strings : List Str} {people : List Person}, List.Forall₂ (fun s q => ∃ entries, Introduces entries q ∧ s = infoText entries) strings people →
      (∀ s ∈ strings, OneByte s) → List.Forall₂ (fun s q => IntroducedBy (bytesOf s) q) strings people := by
    intro strings people hf
    induction hf with
    | nil => exact fun _ => .nil
    | cons hx _ ih =>
      intro ho
      obtain ⟨entries, hi, rfl⟩ := hx
      exact .cons ⟨entries, hi, ho _ (by simp), rfl⟩ (ih fun s hs => ho s (.tail _ hs))
  exact key h.strings fun s hs => printable_oneByte (h.printable s hs).1

/-- The demo that is made of a plan. -/
theorem plan_served (g : Env) (hu : ∀ s, OneByte s → g.toUnicode (bytesOf s) = s) (hr : ReadsUserinfo g.clientinfo) (p : Plan)
    (h : p.Possible) :
    ∃ m, Served g m p.recording.demo p.recording.whole.frames ∧ ¬ Occurs statsMarker p.recording.demo ∧
      EndsWithMarker p.recording.demo ∧ m.info = bytesOf p.info ∧ List.Forall₂ IntroducedBy m.userinfos p.people ∧
      (∀ q ∈ p.people, q.watching = false → score m.events q.name = p.goal q.name) ∧
      (∀ q i, (q, i) ∈ p.people.zipIdx → samplesOf (sampledPings m.pings) (UInt8.ofNat i) = [p.ping q.name]) ∧
      m.date = p.date ∧ m.countdown = p.countdown ∧ m.game = p.game := by
  have hlen := h.strings.length_eq
  have hfew := h.few
  obtain ⟨roster, h1, h2⟩ := roster_exists g hr 0 h.strings (by omega)
  have ht := plan_times (p := p)
  have hs := C107_served g hu p.recording (plan_recording h) (Nat.lt_trans (plan_length h) (by decide)) p.course rfl (plan_clear h) roster h1
    (by rw [h2]; exact h.names) (by rw [plan_pings h]; exact (plan_updates h).1.1)
    (by rw [plan_pings h]; exact (plan_updates h).2.2.2)
    (by rw [ht.1, ht.2]; exact h.times)
  refine ⟨_, hs, plan_no_stats h, ⟨_, by simp, demo_end _⟩, rfl, ?_, fun q hq hw => plan_score h hq hw, ?_, rfl, ht.1, ht.2⟩
  swap
  · simp only [Recording.asMatch]
    rw [whole_pings, plan_pings h]
    exact (plan_updates h).2.2.1
  exact plan_introduced h

/-- C107: for all people, scores, dates and times there is a demo, as servers write them, in which these people play and nobody
else, with these scores, at that date, and for that time. -/
theorem C107_every_match (g : Env) (hu : ∀ s, OneByte s → g.toUnicode (bytesOf s) = s) (hr : ReadsUserinfo g.clientinfo) (p : Plan)
    (h : p.Possible) :
    ∃ m data fs, Served g m data fs ∧ ¬ Occurs statsMarker data ∧ EndsWithMarker data ∧ m.info = bytesOf p.info ∧
      List.Forall₂ IntroducedBy m.userinfos p.people ∧
      (∀ q ∈ p.people, q.watching = false → score m.events q.name = p.goal q.name) ∧
      (∀ q i, (q, i) ∈ p.people.zipIdx → samplesOf (sampledPings m.pings) (UInt8.ofNat i) = [p.ping q.name]) ∧
      m.date = p.date ∧ m.countdown = p.countdown ∧ m.game = p.game := by
  obtain ⟨m, hs⟩ := plan_served g hu hr p h
  exact ⟨m, _, _, hs⟩

/-- The players of a plan as they are reported. -/
theorem plan_rows (g : Env) (hu : ∀ s, OneByte s → g.toUnicode (bytesOf s) = s) (hr : ReadsUserinfo g.clientinfo) (p : Plan)
    (h : p.Possible) (m : ServerMatch) (data : Bytes) (fs : List Frame) (hs : Served g m data fs) (hk : ¬ Occurs statsMarker data)
    (hp : List.Forall₂ IntroducedBy m.userinfos p.people)
    (hsc : ∀ q ∈ p.people, q.watching = false → score m.events q.name = p.goal q.name)
    (hpg : ∀ q i, (q, i) ∈ p.people.zipIdx → samplesOf (sampledPings m.pings) (UInt8.ofNat i) = [p.ping q.name]) :
    ∃ l, players g data = .ok l ∧ (l.map fun x => (x.name, x.team, x.color, x.frags, x.ping, x.isBot)).Perm
      ((p.people.filter fun q => !q.watching).map fun q => (q.name, q.team, (q.shirt, q.pants), p.goal q.name, p.ping q.name, q.bot)) := by
  obtain ⟨l, h1, h2⟩ := C103_pings g hu hr m data fs hs p.people hp hk
  refine ⟨l, h1, h2.trans (List.Perm.of_eq ?_)⟩
  have e : (p.people.filter fun q => !q.watching) = (p.people.zipIdx.filter fun q => !q.1.watching).map (·.1) := by
    conv_lhs => rw [← List.zipIdx_map_fst 0 p.people, List.filter_map]
    rfl
  rw [e, List.map_map]
  refine List.map_congr_left fun q hq => ?_
  obtain ⟨q, i⟩ := q
  simp only [List.mem_filter, Bool.not_eq_eq_eq_not, Bool.not_true] at hq
  have hm : q ∈ p.people := (List.mem_zipIdx' hq.1).2 ▸ List.getElem_mem _
  simp [hsc q hm hq.2, hpg q i hq.1]

/-- And the pings of their teams. -/
theorem plan_team_ping (g : Env) (p : Plan) (h : p.Possible) (data : Bytes) (l : List Player) (hl : players g data = .ok l)
    (hrows : (l.map fun x => (x.name, x.team, x.color, x.frags, x.ping, x.isBot)).Perm
      ((p.people.filter fun q => !q.watching).map fun q => (q.name, q.team, (q.shirt, q.pants), p.goal q.name, p.ping q.name, q.bot)))
    (ts : List Team) (ht : teams g data = .ok ts) (t : Team) (htm : t ∈ ts) :
    (t.ping : ℚ) ≤ (((p.people.filter fun q => q.watching = false ∧ q.team = t.name).map fun q => p.ping q.name).sum : ℚ) /
      (p.people.filter fun q => q.watching = false ∧ q.team = t.name).length + 1 / 2 ∧
    (((p.people.filter fun q => q.watching = false ∧ q.team = t.name).map fun q => p.ping q.name).sum : ℚ) /
      (p.people.filter fun q => q.watching = false ∧ q.team = t.name).length + 1 / 2 < t.ping + 1 := by
  unfold teams at ht
  rw [hl] at ht
  change teamsFromPlayers g l = .ok ts at ht
  have h1 := ((C48_partition g l ts ht).1 t htm).1
  have h2 := (C49_totals g l ts ht t htm).2
  have key := (hrows.filter fun r => r.2.1 = t.name).map fun r => r.2.2.2.2.1
  rw [List.filter_map, List.filter_map, List.map_map, List.map_map, List.filter_filter] at key
  have k1 : l.filter ((fun r => decide (r.2.1 = t.name)) ∘ fun x : Player => (x.name, x.team, x.color, x.frags, x.ping, x.isBot)) =
      t.players := by
    rw [h1]
    rfl
  have k2 : p.people.filter (fun q => ((fun r => decide (r.2.1 = t.name)) ∘ fun q : Person =>
      (q.name, q.team, (q.shirt, q.pants), p.goal q.name, p.ping q.name, q.bot)) q && !q.watching) =
      p.people.filter fun q => q.watching = false ∧ q.team = t.name := by
    refine List.filter_congr fun q _ => ?_
    cases q.watching <;> simp
  rw [k1, k2] at key
  have e1 : totalPing t.players = ((p.people.filter fun q => q.watching = false ∧ q.team = t.name).map fun q => p.ping q.name).sum :=
    key.sum_eq
  have e2 : t.players.length = (p.people.filter fun q => q.watching = false ∧ q.team = t.name).length := by
    simpa using key.length_eq
  have small : ((p.people.filter fun q => q.watching = false ∧ q.team = t.name).map fun q => p.ping q.name).sum ≤ 24 * 65535 := by
    have hb : ∀ people : List Person, (∀ q ∈ people, p.ping q.name < 65536) →
        (people.map fun q => p.ping q.name).sum ≤ people.length * 65535 := by
      intro people
      induction people with
      | nil => intro; simp
      | cons q people ih =>
        intro hq
        have i1 := ih fun r hr => hq r (.tail _ hr)
        have i2 := hq q (by simp)
        simp only [List.map_cons, List.sum_cons, List.length_cons]
        omega
    have b1 := hb (p.people.filter fun q => q.watching = false ∧ q.team = t.name) fun q hq => h.pings q (List.mem_filter.mp hq).1
    have b2 : (p.people.filter fun q => q.watching = false ∧ q.team = t.name).length ≤ p.people.length := List.length_filter_le ..
    exact b1.trans (Nat.mul_le_mul_right _ (b2.trans h.few))
  rw [e1, e2] at h2
  have h2 := h2 (Nat.lt_of_le_of_lt small (by decide))
  push_cast at h2 ⊢
  exact h2

/-- C107: there is a demo from which they are all read back, and the flag events, too, if the word is not in the other texts. -/
theorem C107_read_back (g : Env) (hu : ∀ s, OneByte s → g.toUnicode (bytesOf s) = s) (hr : ReadsUserinfo g.clientinfo) (p : Plan)
    (h : p.Possible) :
    ∃ data, isValid g data = .ok true ∧ serverinfo g data = .ok (g.settings (g.toUtf8 (bytesOf p.info))) ∧
      playerNames g data = .ok (g.unicodeSort ((p.people.filter fun q => !q.watching).map (·.name))) ∧
      spectatorNames g data = .ok (g.unicodeSort ((p.people.filter fun q => q.watching).map (·.name))) ∧
      (∃ l, players g data = .ok l ∧ (l.map fun x => (x.name, x.team, x.color, x.frags, x.ping, x.isBot)).Perm
        ((p.people.filter fun q => !q.watching).map fun q => (q.name, q.team, (q.shirt, q.pants), p.goal q.name, p.ping q.name, q.bot))) ∧
      (∃ ts, teams g data = .ok ts ∧ (∀ name, name ∈ ts.map (·.name) ↔ ∃ q ∈ p.people, q.watching = false ∧ q.team = name) ∧
        ∀ t ∈ ts, ∀ members, members = (p.people.filter fun q => q.watching = false ∧ q.team = t.name) →
          t.frags = (members.map fun q => p.goal q.name).sum ∧
          (t.ping : ℚ) ≤ ((members.map fun q => p.ping q.name).sum : ℚ) / members.length + 1 / 2 ∧
          ((members.map fun q => p.ping q.name).sum : ℚ) / members.length + 1 / 2 < t.ping + 1) ∧
      matchdateString data = .ok p.date ∧
      (∃ ns, demoDuration g data = .ok ns ∧ Converted (p.countdown + p.game) ns) ∧
      ((g.settings (g.toUtf8 (bytesOf p.info))).mode ≠ some chars!"hoonymode" →
        (∃ ns, countdownDuration g data = .ok ns ∧ Converted p.countdown ns) ∧
        ∃ ns, matchDuration g data = .ok ns ∧ |(ns : ℚ) - p.game * 10 ^ 6| ≤ (2 * p.countdown + p.game : ℚ) * 10 ^ 6 / 2 ^ 23 + 1) ∧
      ((g.settings (g.toUtf8 (bytesOf p.info))).mode = some chars!"hoonymode" → countdownDuration g data = .ok 0 ∧
        ∃ ns, matchDuration g data = .ok ns ∧ Converted (p.countdown + p.game) ns) ∧
      (p.Unflagged → ∃ f, flagEventsPerPlayerName g data = .ok f ∧ ∀ name,
        ((∃ kind, (kind, name) ∈ p.deeds) → ∃ c, f.get name = some c ∧
          c.captures = p.deeds.count (.captured, name) ∧ c.pickups = p.deeds.count (.got, name) ∧
          c.returns = p.deeds.count (.returned, name) ∧ c.carrierFrags = p.deeds.count (.assist, name) ∧
          c.defends = p.deeds.count (.defendsFlag, name) ∧ c.carrierDefends = p.deeds.count (.defendsCarrier, name) ∧
          c.carrierDefendsVsAggressive = p.deeds.count (.defendsCarrierVsAggressive, name)) ∧
        ((¬ ∃ kind, (kind, name) ∈ p.deeds) → f.get name = none)) := by
  obtain ⟨m, hs, hk, he, hinfo, hp, hsc, hpg, hd, hcd, hg⟩ := plan_served g hu hr p h
  have hflags : p.Unflagged → _ := fun hf => C83_flags g hu p.recording (plan_recording h) (plan_unflagged h hf) (Nat.lt_trans (plan_length h) (by decide))
    (by rw [plan_flags]; exact fun player kind => h.often (kind, player))
  rw [plan_flags] at hflags
  generalize p.recording.demo = data at hs hk he hflags
  generalize p.recording.whole.frames = fs at hs
  have hne : m.userinfos ≠ [] := by
    intro e
    rw [e] at hp
    exact h.some (List.forall₂_nil_left_iff.mp hp)
  have hnames := C103_names g data p.people m.roster (C97_clients g m data fs hs) (C103_match g hu hr m data fs hs p.people hp)
  obtain ⟨l, hl, hrows⟩ := plan_rows g hu hr p h m data fs hs hk hp hsc hpg
  refine ⟨data, ((C97_valid g m data fs hs hne).1).mpr he, by rw [← hinfo]; exact (C97_header g m data fs hs).1, hnames.1, hnames.2.1,
    ⟨l, hl, hrows⟩, ?_, by rw [← hd]; exact (C97_date g m data fs hs).1, by rw [← hcd, ← hg]; exact C97_recorded g m data fs hs, fun hm => ?_,
    fun hm => ?_, hflags⟩
  · have hroster : (inGame m.roster).length ≤ 255 := by
      have h1 := hs.enlisted.length_eq
      have h2 := hp.length_eq
      have h3 := h.few
      have h4 : (inGame m.roster).length ≤ m.roster.length := List.length_filter_le ..
      simp only [List.length_zipIdx] at h1
      omega
    obtain ⟨ts, ht⟩ := (C97_teams g m data fs hs hk).1 hroster
    obtain ⟨h1, h2⟩ := C103_teams g hu hr m data fs hs p.people hp hk ts ht
    refine ⟨ts, ht, h1, fun t htm members hmem => ⟨(h2 t htm).trans ?_, ?_⟩⟩
    · rw [hmem]
      congr 1
      refine List.map_congr_left fun q hq => ?_
      simp only [List.mem_filter, decide_eq_true_eq] at hq
      exact hsc q hq.1 hq.2.1
    · rw [hmem]
      exact plan_team_ping g p h data l hl hrows ts ht t htm
  · have ht := C97_times g m data fs hs (by rw [hinfo]; exact hm)
    rw [← hcd, ← hg]
    exact ⟨ht.1, ht.2.2.1 hk⟩
  · rw [← hcd, ← hg]
    exact C97_hoonymode g m data fs hs (by rw [hinfo]; exact hm)

/-! ### An example -/

namespace Example

/-- Two players, one with a space in the name and less than nothing, and somebody who watches. -/
def plan : Plan where
  info := chars!"\\mode\\1on1"
  strings := [chars!"\\name\\a z\\team\\red", chars!"\\topcolor\\4\\name\\{c}\\team\\blue", chars!"\\*spectator\\1\\name\\died"]
  people := [⟨chars!"a z", chars!"red", 0, 0, false, false⟩, ⟨chars!"{c}", chars!"blue", 4, 0, false, false⟩,
    ⟨chars!"died", [], 0, 0, true, false⟩]
  goal := fun name => if name = chars!"a z" then -3 else 7
  ping := fun name => if name = chars!"a z" then 34 else 23644
  deeds := [(.got, chars!"a z"), (.got, chars!"{c}"), (.captured, chars!"a z"), (.got, chars!"a z")]
  date := chars!"2024-04-02 21:02:17 CEST"
  countdown := 500
  game := 1000

theorem plan_possible : plan.Possible where
  info := ⟨by decide, by decide, by unfold Plan.Printable; decide, by decide⟩
  some := by decide
  few := by decide
  strings := by
    refine .cons ⟨[(chars!"name", chars!"a z"), (chars!"team", chars!"red")], ?_, by decide⟩ <|
      .cons ⟨[(chars!"topcolor", chars!"4"), (chars!"name", chars!"{c}"), (chars!"team", chars!"blue")], ?_, by decide⟩ <|
      .cons ⟨[(chars!"*spectator", chars!"1"), (chars!"name", chars!"died")], ?_, by decide⟩ .nil
    · exact ⟨⟨by decide, by decide, by decide⟩, by decide, by decide, ⟨.inr ⟨by decide, rfl⟩, by decide⟩,
        ⟨.inr ⟨by decide, rfl⟩, by decide⟩, by unfold WritesYes; decide, by unfold WritesYes; decide⟩
    · exact ⟨⟨by decide, by decide, by decide⟩, by decide, by decide,
        ⟨.inl ⟨chars!"4", by decide, ⟨by decide, by decide, by decide, by decide⟩⟩, by decide⟩,
        ⟨.inr ⟨by decide, rfl⟩, by decide⟩, by unfold WritesYes; decide, by unfold WritesYes; decide⟩
    · exact ⟨⟨by decide, by decide, by decide⟩, by decide, by decide, ⟨.inr ⟨by decide, rfl⟩, by decide⟩,
        ⟨.inr ⟨by decide, rfl⟩, by decide⟩, by unfold WritesYes; decide, by unfold WritesYes; decide⟩
  printable := by unfold Plan.Printable; decide
  names := by decide
  recognised := by decide +kernel
  doers := by decide +kernel
  often := by
    intro e
    exact Nat.lt_of_le_of_lt List.count_le_length (by decide)
  points := by decide
  pings := by decide
  date := ⟨by unfold Plan.Printable; decide, by decide, by decide, by decide⟩
  times := by decide

end Example

/-- The hypotheses of C107 are met by that plan. -/
example : (∀ s, OneByte s → Example.reader.toUnicode (bytesOf s) = s) ∧ ReadsUserinfo Example.reader.clientinfo ∧ Example.plan.Possible ∧
    (Example.reader.settings (Example.reader.toUtf8 (bytesOf Example.plan.info))).mode ≠ some chars!"hoonymode" ∧
    spectatorNames Example.reader Example.plan.recording.demo = .ok [chars!"died"] ∧
    ((players Example.reader Example.plan.recording.demo).bind fun l => .ok (l.map fun x => (x.name, x.team, x.frags, x.ping))) =
      .ok [(chars!"{c}", chars!"blue", 7, 23644), (chars!"a z", chars!"red", -3, 34)] ∧
    matchDuration Example.reader Example.plan.recording.demo = .ok 1000000000 ∧ Example.plan.Unflagged ∧
    ((flagEventsPerPlayerName Example.reader Example.plan.recording.demo).bind fun f => .ok (f.get chars!"a z")) =
      .ok (some { captures := 1, pickups := 2 }) :=
  ⟨fun s hs => Example.latin1_bytesOf s hs, Example.reads_userinfo, Example.plan_possible, by decide +kernel, by decide +kernel,
    by decide +kernel, by decide +kernel, by unfold Plan.Unflagged; decide +kernel, by decide +kernel⟩

end Mvd

import Verif.Props.Chats
import Verif.Props.Time
import Verif.Props.Players
import Verif.Spec.Forged

/-! C114: what a single chat message can make the parser report. -/

namespace Mvd
open Spec

theorem chatSaying_encode {f : Frame} {u w v : Bytes} (h : ChatSaying f u w v) (a b : List Frame) :
    Spec.encode (a ++ f :: b) = (Spec.encode a ++ f.header ++ [8, 3] ++ u) ++ w ++ (v ++ [0] ++ Spec.encode b) := by
  rw [encode_sent, Frame.encode, h.body]
  simp [PrintMsg.encode]

theorem chatSaying_last {f : Frame} {u w v : Bytes} (h : ChatSaying f u w v) (a b : List Frame) (hw : w ≠ []) (hn : NotAgain w v b) :
    LastAt w (Spec.encode (a ++ f :: b)) (Spec.encode a ++ f.header ++ [8, 3] ++ u).length := by
  rw [chatSaying_encode h]
  generalize Spec.encode a ++ f.header ++ [8, 3] ++ u = P
  refine ⟨⟨P, _, rfl, rfl⟩, fun j hj => Nat.le_of_not_lt fun hlt => hn ?_⟩
  obtain ⟨x, w', rfl⟩ := List.exists_cons_of_ne_nil hw
  obtain ⟨k, rfl⟩ := Nat.exists_eq_add_of_lt hlt
  have : OccursAt (x :: w') ((P ++ [x]) ++ (w' ++ (v ++ [0] ++ Spec.encode b))) ((P ++ [x]).length + k) := by
    have e : P ++ x :: w' ++ (v ++ [0] ++ Spec.encode b) = (P ++ [x]) ++ (w' ++ (v ++ [0] ++ Spec.encode b)) := by simp
    rw [← e]
    simpa [Nat.add_comm, Nat.add_left_comm, Nat.add_assoc] using hj
  have := occursAt_append_right this
  refine occurs_iff.mpr ⟨k, ?_⟩
  simpa using this

theorem chatSaying_first {f : Frame} {u w v : Bytes} (h : ChatSaying f u w v) (a b : List Frame) (hw : w ≠ [])
    (hn : NotBefore a f u w) : FirstAt w (Spec.encode (a ++ f :: b)) (Spec.encode a ++ f.header ++ [8, 3] ++ u).length := by
  rw [chatSaying_encode h]
  unfold NotBefore at hn
  generalize Spec.encode a ++ f.header ++ [8, 3] ++ u = P at hn
  refine ⟨⟨P, _, rfl, rfl⟩, ?_⟩
  rintro j ⟨pre, post, e, rfl⟩
  refine Nat.le_of_not_lt fun hlt => hn ?_
  have hl : w.dropLast.length + 1 = w.length := by
    have := List.length_pos_iff.mpr hw
    rw [List.length_dropLast]; omega
  have hpre : pre ++ w <+: P ++ w ++ (v ++ [0] ++ Spec.encode b) := ⟨post, e.symm⟩
  have hP : P ++ w.dropLast <+: P ++ w ++ (v ++ [0] ++ Spec.encode b) := by
    refine ((List.prefix_append_right_inj P).mpr (List.dropLast_prefix w)).trans ⟨_, rfl⟩
  obtain ⟨t, ht⟩ := List.prefix_of_prefix_length_le hpre hP (by simp only [List.length_append]; omega)
  exact ⟨pre, t, ht.symm⟩

/-- C114: saying that the game is paused makes every demo appear paused that does not end properly. -/
theorem C114_paused (a b : List Frame) (f : Frame) (u w v : Bytes) (h : ChatSaying f u w v)
    (hw : w = bytes!"Server is paused" ∨ w = bytes!"paused the game") :
    isPaused (Spec.encode (a ++ f :: b)) = true ↔ ¬ EndsWithMarker (Spec.encode (a ++ f :: b)) := by
  rw [C10_is_paused]
  refine ⟨fun h => h.1, fun hm => ⟨hm, ?_⟩⟩
  have : Occurs w (Spec.encode (a ++ f :: b)) := ⟨_, _, chatSaying_encode h a b⟩
  rcases hw with rfl | rfl
  · exact .inl this
  · exact .inr this

/-- C114: anybody can claim that bots took part. -/
theorem C114_bots (g : Env) (a b : List Frame) (f : Frame) (u v : Bytes) (h : ChatSaying f u bytes!"\"bot\": {" v) (ps : List Client)
    (hp : playerClients g (Spec.encode (a ++ f :: b)) = .ok ps) : hasBotPlayers g (Spec.encode (a ++ f :: b)) = .ok true := by
  obtain ⟨x, hx, hb⟩ := (C23_bots_humans g _ ps hp).2.1
  rw [hx, hb.mpr (.inr ⟨_, _, chatSaying_encode h a b⟩)]

/-- C114: with the bytes of the announcement, up to its NUL, at the end of a message, anybody can make a demo appear aborted. -/
theorem C114_aborted (a b : List Frame) (f : Frame) (u : Bytes) (h : ChatSaying f u stoppedByVote.dropLast []) :
    isAborted (Spec.encode (a ++ f :: b)) = true := by
  rw [C08_is_aborted]
  refine ⟨Spec.encode a ++ f.header ++ [8, 3] ++ u, Spec.encode b, ?_⟩
  have e : stoppedByVote = stoppedByVote.dropLast ++ [0] := by decide
  rw [chatSaying_encode h]
  conv_rhs => rw [e]
  simp

/-- C114: saying that the match is over, after the last announcement of it, sets the duration of the demo to the time of the
message. -/
theorem C114_duration (g : Env) (a b : List Frame) (f : Frame) (u v : Bytes) (h : ChatSaying f u matchOver v)
    (hn : NotAgain matchOver v b) (ha : ∀ x ∈ a, x.WF) (hb : ∀ x ∈ b, x.WF) (hms : lasts (a ++ [f]) < 2 ^ 32) (ns : Nat) :
    demoDuration g (Spec.encode (a ++ f :: b)) = .ok ns ↔ Converted (lasts (a ++ [f])) ns := by
  have hwf : ∀ x ∈ a ++ f :: b, x.WF := by
    intro x hx
    rcases List.mem_append.mp hx with hx | hx
    · exact ha x hx
    · rcases List.mem_cons.mp hx with rfl | hx
      · exact h.wf
      · exact hb x hx
  obtain ⟨h1, h2⟩ := splits_whole hwf
  have hl := chatSaying_last h a b (by decide) hn
  have e : msBefore (Spec.encode a ++ f.header ++ [8, 3] ++ u).length (a ++ f :: b) = lasts (a ++ [f]) := by
    have hp := header_pos f
    have hbl : f.body.length = 2 + (u ++ matchOver ++ v).length + 1 := by rw [h.body]; simp [PrintMsg.encode]; omega
    have hel := Frame_encode_length f
    rw [← msFrom_zero, msFrom_append _ _ _ _ (by simp only [List.length_append, List.length_cons, List.length_nil]; omega),
      msFrom_cons (by simp only [List.length_append, List.length_cons, List.length_nil]; omega)]
    have h0 : ∀ (fs : List Frame) (i t : Nat), t ≤ i → msFrom i t fs = 0 := by
      intro fs i t hit
      unfold msFrom
      rw [List.filter_eq_nil_iff.mpr]
      · rfl
      · intro p hp
        have := starts_ge i fs p hp
        simp only [decide_eq_true_eq]
        omega
    rw [h0 b _ _ (by
      simp only [List.length_append, List.length_cons, List.length_nil] at hbl ⊢
      omega)]
    simp [lasts]
  have := C35_demo_duration g _ _ [] _ h1 (.inl hl) (.inl h2) (by rw [e]; exact hms) ns
  rw [e] at this
  exact this

/-- C114: what is said before the last announcement of the end, even the same words, adds its time and changes nothing else. -/
theorem C114_duration_kept (g : Env) (a b : List Frame) (f : Frame) (hf : f.WF) (ha : ∀ x ∈ a, x.WF) (hb : ∀ x ∈ b, x.WF) (k : Nat)
    (hk : LastAt matchOver (Spec.encode b) k) (hms : lasts a + f.duration.toNat + msBefore k b < 2 ^ 32) (ns : Nat) :
    (demoDuration g (Spec.encode (a ++ f :: b)) = .ok ns ↔ Converted (lasts a + f.duration.toNat + msBefore k b) ns) ∧
    (demoDuration g (Spec.encode (a ++ b)) = .ok ns ↔ Converted (lasts a + msBefore k b) ns) := by
  have key : ∀ c : List Frame, (∀ x ∈ c, x.WF) → lasts c + msBefore k b < 2 ^ 32 →
      (demoDuration g (Spec.encode (c ++ b)) = .ok ns ↔ Converted (lasts c + msBefore k b) ns) := by
    intro c hc hlt
    obtain ⟨h1, h2⟩ := splits_whole (fs := c ++ b) (by
      intro x hx
      rcases List.mem_append.mp hx with hx | hx
      · exact hc x hx
      · exact hb x hx)
    have hl : LastAt matchOver (Spec.encode (c ++ b)) ((Spec.encode c).length + k) := by
      rw [encode_unsent]
      exact lastAt_prepend hk
    have e : msBefore ((Spec.encode c).length + k) (c ++ b) = lasts c + msBefore k b := by
      rw [← msFrom_zero, msFrom_append _ _ _ _ (by omega), Nat.zero_add]
      have := msFrom_shift (Spec.encode c).length b 0 k
      rw [Nat.zero_add, Nat.add_comm k] at this
      rw [this, msFrom_zero]
      rfl
    have := C35_demo_duration g _ _ [] _ h1 (.inl hl) (.inl h2) (by rw [e]; exact hlt) ns
    rw [e] at this
    exact this
  refine ⟨?_, key a ha (by omega)⟩
  have e : lasts (a ++ [f]) = lasts a + f.duration.toNat := by simp [lasts]
  have := key (a ++ [f]) (by
    intro x hx
    rcases List.mem_append.mp hx with hx | hx
    · exact ha x hx
    · rw [List.mem_singleton.mp hx]; exact hf) (by rw [e]; exact hms)
  rw [e] at this
  simpa using this

/-- C114: with the bytes of the announcement of the date, before the server sends it, anybody can choose the date. -/
theorem C114_matchdate (a b : List Frame) (f : Frame) (u v : Bytes) (s : Str)
    (h : ChatSaying f u matchdatePrint (utf8 s ++ 10 :: v)) (hn : NotBefore a f u matchdatePrint) (h10 : 10 ∉ utf8 s)
    (hl : 22 ≤ (utf8 s).length ∧ (utf8 s).length ≤ 25) : matchdateString (Spec.encode (a ++ f :: b)) = .ok s := by
  have hf := chatSaying_first h a b (by decide) hn
  rw [chatSaying_encode h] at hf ⊢
  have e : utf8 s ++ 10 :: v ++ [0] ++ Spec.encode b = utf8 s ++ 10 :: (v ++ [0] ++ Spec.encode b) := by simp
  rw [e] at hf ⊢
  exact C55_text _ _ s hf h10 hl

theorem le32_of_bytes (a b c d : UInt8) :
    [a, b, c, d] = le32 (a.toNat + 256 * b.toNat + 65536 * c.toNat + 16777216 * d.toNat) := by
  have ha := a.toNat_lt; have hb := b.toNat_lt; have hc := c.toNat_lt; have hd := d.toNat_lt
  have e : ∀ (x : UInt8) (n : Nat), n = x.toNat → x = UInt8.ofNat n := by rintro x n rfl; simp
  unfold le32
  rw [← e a _ (by omega), ← e b _ (by omega), ← e c _ (by omega), ← e d _ (by omega)]

theorem le16_of_bytes (a b : UInt8) : [a, b] = le16 (a.toNat + 256 * b.toNat) := by
  have ha := a.toNat_lt; have hb := b.toNat_lt
  have e : ∀ (x : UInt8) (n : Nat), n = x.toNat → x = UInt8.ofNat n := by rintro x n rfl; simp
  unfold le16
  rw [← e a _ (by omega), ← e b _ (by omega)]

/-- C114: saying how match stats begin, after the match stats and behind at least three other bytes, hides these: an empty text
is read instead. -/
theorem C114_stats (g : Env) (a b : List Frame) (f : Frame) (u v : Bytes) (h : ChatSaying f u statsMarker v) (hu : 3 ≤ u.length)
    (hn : NotAgain statsMarker v b) (hfar : 11 ≤ (Spec.encode a).length)
    (hlen : (Spec.encode (a ++ f :: b)).length < 2 ^ 63) : ktxstatsString g (Spec.encode (a ++ f :: b)) = .ok [] := by
  have hl := chatSaying_last h a b (by decide) hn
  have he := chatSaying_encode h a b
  have h0 : (0 : UInt8) ∉ [8, 3] ++ u := by
    intro hm
    rcases List.mem_append.mp hm with hm | hm
    · simp at hm
    · exact h.text (List.mem_append_left _ (List.mem_append_left _ hm))
  -- the eight bytes before the marker
  obtain ⟨p, q, hpq, hq5, hq0⟩ : ∃ p q : Bytes, Spec.encode a ++ f.header ++ [8, 3] ++ u = p ++ q ∧ q.length = 5 ∧ (0 : UInt8) ∉ q := by
    refine ⟨Spec.encode a ++ f.header ++ ([8, 3] ++ u).take (u.length - 3), ([8, 3] ++ u).drop (u.length - 3), ?_, ?_, ?_⟩
    · rw [List.append_assoc _ _ (List.drop _ _), List.take_append_drop]
      simp
    · rw [List.length_drop]
      simp only [List.length_append, List.length_cons, List.length_nil]
      omega
    · exact fun hm => h0 (List.mem_of_mem_drop hm)
  have hpl : 13 ≤ p.length := by
    have := congrArg List.length hpq
    have hp := header_pos f
    simp only [List.length_append, List.length_cons, List.length_nil] at this
    omega
  obtain ⟨p', s, rfl, hs3⟩ : ∃ p' s : Bytes, p = p' ++ s ∧ s.length = 3 :=
    ⟨p.take (p.length - 3), p.drop (p.length - 3), by simp, by rw [List.length_drop]; omega⟩
  match s, hs3, q, hq5 with
  | [s0, s1, s2], _, [s3, t0, t1, n0, n1], _ =>
    rw [hpq] at he hl
    have hlim : markerLimit g.checks ≤ (p' ++ [s0, s1, s2] ++ [s3, t0, t1, n0, n1]).length := by
      simp only [List.length_append, List.length_cons, List.length_nil] at hpl ⊢
      unfold markerLimit
      split <;> omega
    have hdrop : (Spec.encode (a ++ f :: b)).drop ((p' ++ [s0, s1, s2] ++ [s3, t0, t1, n0, n1]).length - 8) =
        le32 (s0.toNat + 256 * s1.toNat + 65536 * s2.toNat + 16777216 * s3.toNat) ++ le16 (t0.toNat + 256 * t1.toNat) ++
          le16 (n0.toNat + 256 * n1.toNat) ++ (statsMarker ++ (v ++ [0] ++ Spec.encode b)) := by
      rw [he, ← le32_of_bytes, ← le16_of_bytes, ← le16_of_bytes]
      have : (p' ++ [s0, s1, s2] ++ [s3, t0, t1, n0, n1]).length - 8 = p'.length := by simp
      rw [this]
      simp
    have hs3 : s3.toNat ≠ 0 := fun e => hq0 (by rw [show s3 = 0 from UInt8.toNat_inj.mp e]; simp)
    have ht1 : t1.toNat ≠ 0 := fun e => hq0 (by rw [show t1 = 0 from UInt8.toNat_inj.mp e]; simp)
    have l0 := s0.toNat_lt; have l1 := s1.toNat_lt; have l2 := s2.toNat_lt; have l3 := s3.toNat_lt
    have l4 := t0.toNat_lt; have l5 := t1.toNat_lt; have l6 := n0.toNat_lt; have l7 := n1.toNat_lt
    refine (C41_outcome g _ hlen _ hl hlim (some []) ?_).2.1 [] rfl
    rw [hdrop]
    exact .foreign (by omega) (by omega) (by omega) (by omega) (fun _ => by omega)

/-- C114: hidden match stats are not used: there is no server, players and teams are read off the messages, and so is the
duration. -/
theorem C114_hidden (g : Env) (data : Bytes) (h : ktxstatsString g data = .ok []) (hp : g.ktxstats [] = none) :
    server g data = .err .ktxstatsParse ∧ players g data = playersFromParsing g data ∧
    (1280 ≤ data.length → ¬ Hoonymode g data → matchDuration g data = matchDurationFromSeeking g data) := by
  have hk : ktxstatsV3 g data = .err .ktxstatsParse := (C42_stats g data).2.1.mpr ⟨[], h, hp⟩
  refine ⟨by unfold server; rw [hk]; rfl, by unfold players; rw [hk], fun hl hh => ?_⟩
  refine C39_fallback g data hl hh (.inr ⟨[], h, .inl ?_⟩)
  rintro ⟨t, x, y, e, _⟩
  have := congrArg List.length e
  simp at this

/-- C114: without the control character 8, which starts a print, no message has the announcement of the date or of an abort in
it. -/
theorem C114_typed (text : Bytes) (h8 : (8 : UInt8) ∉ text) :
    ¬ Occurs matchdatePrint (PrintMsg.mk 3 text).encode ∧ ¬ Occurs stoppedByVote (PrintMsg.mk 3 text).encode := by
  have key : ∀ p : Bytes, ¬ Occurs (8 :: 2 :: p) (PrintMsg.mk 3 text).encode := by
    intro p ho
    have e : (PrintMsg.mk 3 text).encode = 8 :: (3 :: text ++ [0]) := rfl
    rw [e] at ho
    rcases occurs_cons ho with ⟨t, ht⟩ | ⟨x, y, e⟩
    · simp at ht
    · have : (8 : UInt8) ∈ 3 :: text ++ [0] := by rw [e]; simp
      simp [h8] at this
  exact ⟨key _, key _⟩

/-! ### Examples -/

theorem chatSaying_example (u w v : Bytes) (h0 : (0 : UInt8) ∉ u ++ w ++ v) (hl : (u ++ w ++ v).length < 2 ^ 31) :
    ChatSaying (Example.said (u ++ w ++ v)) u w v where
  wf := (chatFrame_example _ _ (.inl rfl) h0 hl).wf
  body := rfl
  text := h0

theorem notOccurs_of_find {w d : Bytes} (h : find w d = none) : ¬ Occurs w d := find_eq_none_iff.mp h

namespace Example

/-- Match stats in one piece. -/
def oneStats : List Frame := [⟨0, 3, [0, 0, 0, 0], le32 16 ++ le16 3 ++ le16 0 ++ bytes!"{\"version\": 3}"⟩]

end Example

/-- C114: the hypotheses are met. -/
example :
    ChatSaying (Example.said bytes!"nig: who paused the game?") bytes!"nig: who " bytes!"paused the game" bytes!"?" ∧
    ChatSaying (Example.said bytes!"nig: \"bot\": {") bytes!"nig: " bytes!"\"bot\": {" [] ∧
    ChatSaying (Example.said bytes!"nig: The match is over") bytes!"nig: " matchOver [] ∧
    NotAgain matchOver [] Example.ending ∧ (∀ f ∈ Example.ending, f.WF) ∧
    ChatSaying (Example.said bytes!"nig: {\"version\": ") bytes!"nig: " statsMarker [] ∧
    NotAgain statsMarker [] Example.ending ∧
    ChatSaying (Example.said (bytes!"nig: " ++ stoppedByVote.dropLast ++ [])) bytes!"nig: " stoppedByVote.dropLast [] ∧
    ChatSaying (Example.said (bytes!"nig: " ++ matchdatePrint ++ bytes!"1999-12-31 23:59:59 UTC\n")) bytes!"nig: " matchdatePrint
      (utf8 chars!"1999-12-31 23:59:59 UTC" ++ 10 :: []) ∧
    NotBefore Example.oneStats (Example.said (bytes!"nig: " ++ matchdatePrint ++ bytes!"1999-12-31 23:59:59 UTC\n")) bytes!"nig: "
      matchdatePrint := by
  refine ⟨chatSaying_example bytes!"nig: who " bytes!"paused the game" bytes!"?" (by decide) (by decide),
    chatSaying_example bytes!"nig: " bytes!"\"bot\": {" [] (by decide) (by decide),
    chatSaying_example bytes!"nig: " matchOver [] (by decide) (by decide), notOccurs_of_find (by decide +kernel), by decide +kernel,
    chatSaying_example bytes!"nig: " statsMarker [] (by decide) (by decide), notOccurs_of_find (by decide +kernel),
    chatSaying_example _ _ _ (by decide) (by decide), chatSaying_example _ _ _ (by decide) (by decide),
    notOccurs_of_find (by decide +kernel)⟩

example : Example.debug.ktxstats [] = none := by decide +kernel

/-- C114: what the messages change. -/
theorem C114_witness :
    (let demo := fun text => Spec.encode ([Example.joined 1300] ++ Example.oneStats ++ Example.said text :: Example.ending)
     ktxstatsString Example.debug (demo bytes!"nig: hi") = .ok chars!"{\"version\": 3}" ∧
     ktxstatsString Example.debug (demo bytes!"nig: {\"version\": ") = .ok [] ∧
     matchdateString (demo bytes!"nig: hi") = .ok chars!"2024-05-16 10:00:00 UTC" ∧
     matchdateString (demo (bytes!"nig: " ++ matchdatePrint ++ bytes!"1999-12-31 23:59:59 UTC\n")) = .ok chars!"1999-12-31 23:59:59 UTC" ∧
     isAborted (demo bytes!"nig: hi") = false ∧ isAborted (demo (bytes!"nig: " ++ stoppedByVote.dropLast)) = true) := by
  decide +kernel

end Mvd

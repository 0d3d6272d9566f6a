import Verif.Props.Chat

/-! C89: any number of chat messages. -/

namespace Mvd
open Spec

theorem _root_.Spec.ChatFrame.notAnonymous {f : Frame} (h : ChatFrame f) (u : Bytes → Str) : NotAnonymous u f := by
  rintro text more v ⟨p, _, hl, _, e, _⟩
  obtain ⟨t, ht⟩ := h.body
  rw [ht] at e
  simp [PrintMsg.encode, hl] at e

theorem _root_.Spec.ChatAdded.notAnonymous {here : List Frame → Prop} {first last old new : List Frame} (h : ChatAdded here first last old new) (u : Bytes → Str)
    (hn : ∀ x ∈ old, NotAnonymous u x) : ∀ x ∈ new, NotAnonymous u x := by
  induction h with
  | none => exact hn
  | @more a b f _ sent _ ih =>
    intro x hx
    have : x = f ∨ x ∈ first ++ a ++ (b ++ last) := by
      simp only [List.mem_append, List.mem_cons] at hx ⊢
      tauto
    rcases this with rfl | hx
    · exact sent.chat.notAnonymous u
    · exact ih x hx

theorem _root_.Spec.ChatAdded.ms_le {here : List Frame → Prop} {first last old new : List Frame} (h : ChatAdded here first last old new) :
    (old.map fun x => x.duration.toNat).sum ≤ (new.map fun x => x.duration.toNat).sum := by
  induction h with
  | none => exact Nat.le_refl _
  | @more a b f _ _ _ ih =>
    simp only [List.map_append, List.map_cons, List.sum_append, List.sum_cons] at ih ⊢
    omega

/-- If the chat takes no time in total, then no chat message does. -/
theorem _root_.Spec.ChatAdded.now {here : List Frame → Prop} {first last old a b : List Frame} {f : Frame}
    (h : ChatAdded here first last old (first ++ a ++ (b ++ last)))
    (e : ((first ++ a ++ f :: (b ++ last)).map fun x => x.duration.toNat).sum = (old.map fun x => x.duration.toNat).sum) :
    f.duration = 0 ∧
    ((first ++ a ++ (b ++ last)).map fun x => x.duration.toNat).sum = (old.map fun x => x.duration.toNat).sum := by
  have := h.ms_le
  simp only [List.map_append, List.map_cons, List.sum_append, List.sum_cons] at this e ⊢
  exact ⟨UInt8.toNat_inj.mp (by change _ = 0; omega), by omega⟩

/-- C89, any number of chat messages anywhere: the scores, flag events, pings, whether the demo is reported
aborted, paused or ended, and its duration if the chat takes no time. -/
theorem C89_many (g : Env) (here : List Frame → Prop) (old new : List Frame) (h : ChatAdded here [] [] old new) :
    isAborted (Spec.encode new) = isAborted (Spec.encode old) ∧
    isPaused (Spec.encode new) = isPaused (Spec.encode old) ∧
    hasEndOfDemoPrint (Spec.encode new) = hasEndOfDemoPrint (Spec.encode old) ∧
    flagEventsPerPlayerName g (Spec.encode new) = flagEventsPerPlayerName g (Spec.encode old) ∧
    pingPerPlayerNumber g (Spec.encode new) = pingPerPlayerNumber g (Spec.encode old) ∧
    ((new.map fun x => x.duration.toNat).sum = (old.map fun x => x.duration.toNat).sum →
      demoDuration g (Spec.encode new) = demoDuration g (Spec.encode old)) ∧
    ((∀ x ∈ old, NotAnonymous g.toUnicode x) →
      fragsPerPlayerName g (Spec.encode new) = fragsPerPlayerName g (Spec.encode old)) := by
  induction h with
  | none => simp
  | @more a b f h sent _ ih =>
    obtain ⟨i1, i2, i3, i4, i5, i6, i7⟩ := ih
    obtain ⟨e1, e2, e3⟩ := C89_verdicts _ _ _ sent
    refine ⟨e1.trans i1, e2.trans i2, e3.trans i3, (C89_flags g _ _ _ sent).trans i4, (C89_pings g _ _ _ sent).trans i5,
      fun e => (C89_duration g _ _ _ sent (h.now e).1).trans (i6 (h.now e).2), fun hn => ?_⟩
    exact (C89_frags g _ _ _ sent (h.notAnonymous _ hn)).trans (i7 hn)

/-- C89, any number of chat messages after the beginning of the demo: what is known from the serverinfo and the clients, whether
the demo is valid, and the countdown if the chat takes no time. -/
theorem C89_many_header (g : Env) (here : List Frame → Prop) (first last old new : List Frame)
    (h : ChatAdded here first last old new) (o : Nat)
    (hs : FirstAt spawnCommand (Spec.encode first) o) (hl : o + 13056 ≤ (Spec.encode first).length) :
    serverinfo g (Spec.encode new) = serverinfo g (Spec.encode old) ∧
    filename g (Spec.encode new) = filename g (Spec.encode old) ∧
    timestampFromEpoch g (Spec.encode new) = timestampFromEpoch g (Spec.encode old) ∧
    clientinfo g (Spec.encode new) = clientinfo g (Spec.encode old) ∧
    clients g (Spec.encode new) = clients g (Spec.encode old) ∧
    playerNames g (Spec.encode new) = playerNames g (Spec.encode old) ∧
    spectatorNames g (Spec.encode new) = spectatorNames g (Spec.encode old) ∧
    teamNames g (Spec.encode new) = teamNames g (Spec.encode old) ∧
    hasHumanPlayers g (Spec.encode new) = hasHumanPlayers g (Spec.encode old) ∧
    hasBotPlayers g (Spec.encode new) = hasBotPlayers g (Spec.encode old) ∧
    isValid g (Spec.encode new) = isValid g (Spec.encode old) ∧
    ((new.map fun x => x.duration.toNat).sum = (old.map fun x => x.duration.toNat).sum →
      countdownDuration g (Spec.encode new) = countdownDuration g (Spec.encode old)) := by
  induction h with
  | none => simp
  | @more a b f h sent _ ih =>
    have hs' : FirstAt spawnCommand (Spec.encode (first ++ a)) o := by rw [encode_unsent]; exact firstAt_append hs
    have hl' : o + 13056 ≤ (Spec.encode (first ++ a)).length := by rw [encode_unsent, List.length_append]; omega
    obtain ⟨e1, e2, e3, e4, e5, e6, e7, e8, e9, e10, e11⟩ := C89_header g _ _ _ sent o hs' hl'
    obtain ⟨i1, i2, i3, i4, i5, i6, i7, i8, i9, i10, i11, i12⟩ := ih
    exact ⟨e1.trans i1, e2.trans i2, e3.trans i3, e4.trans i4, e5.trans i5, e6.trans i6, e7.trans i7, e8.trans i8, e9.trans i9,
      e10.trans i10, e11.trans i11,
      fun e => (C89_countdown g _ _ _ sent (h.now e).1 (by omega)).trans (i12 (h.now e).2)⟩

theorem lastAt_prepend {w a b : Bytes} {m : Nat} (h : LastAt w b m) : LastAt w (a ++ b) (a.length + m) := by
  refine ⟨occursAt_prepend h.1, fun j hj => ?_⟩
  by_cases hlt : j < a.length
  · omega
  · obtain ⟨k, rfl⟩ := Nat.exists_eq_add_of_le (Nat.le_of_not_lt hlt)
    have := h.2 k (occursAt_append_right hj)
    omega

theorem _root_.Spec.ChatAdded.words {here : List Frame → Prop} {first last old new : List Frame} (h : ChatAdded here first last old new) :
    ∀ w ∈ searchedWords, Occurs w (Spec.encode new) ↔ Occurs w (Spec.encode old) := by
  intro w hw
  induction h with
  | none => rfl
  | @more a b f h sent _ ih => rw [C89_words _ _ _ sent w hw]; exact ih

/-- C89, any number of chat messages between the beginning of the demo and the match stats (if there are any), none
among the frames that are searched for an unknown killer: the match stats, the server, the scores, the players, the teams and, if the chat takes no time, the duration of the match. -/
theorem C89_many_match (g : Env) (first last old new : List Frame)
    (h : ChatAdded (NoOpenTeamkill g.toUnicode) first last old new) (o : Nat)
    (hs : FirstAt spawnCommand (Spec.encode first) o) (hl : o + 13056 ≤ (Spec.encode first).length)
    (hlen : (Spec.encode new).length < 2 ^ 63)
    (hm : ¬ Occurs statsMarker (Spec.encode old) ∨ ∃ m, LastAt statsMarker (Spec.encode last) m ∧ 18 ≤ m) :
    ktxstatsString g (Spec.encode new) = ktxstatsString g (Spec.encode old) ∧
    server g (Spec.encode new) = server g (Spec.encode old) ∧
    fragsPerPlayerName g (Spec.encode new) = fragsPerPlayerName g (Spec.encode old) ∧
    players g (Spec.encode new) = players g (Spec.encode old) ∧
    teams g (Spec.encode new) = teams g (Spec.encode old) ∧
    ((new.map fun x => x.duration.toNat).sum = (old.map fun x => x.duration.toNat).sum →
      matchDuration g (Spec.encode new) = matchDuration g (Spec.encode old)) := by
  induction h with
  | none => simp
  | @more a b f h sent place ih =>
    have hs' : FirstAt spawnCommand (Spec.encode (first ++ a)) o := by rw [encode_unsent]; exact firstAt_append hs
    have hl' : o + 13056 ≤ (Spec.encode (first ++ a)).length := by rw [encode_unsent, List.length_append]; omega
    have hm' : ∀ m, LastAt statsMarker (Spec.encode (first ++ a ++ (b ++ last))) m →
        (Spec.encode (first ++ a)).length + 18 ≤ m := by
      intro m hlm
      rcases hm with hm | ⟨k, hk, h18⟩
      · obtain ⟨pre, post, e, _⟩ := hlm.1
        exact absurd ((h.words statsMarker (by simp [searchedWords])).mp ⟨pre, post, e⟩) hm
      · have h2 : LastAt statsMarker (Spec.encode (first ++ a ++ (b ++ last)))
            ((Spec.encode (first ++ a)).length + ((Spec.encode b).length + k)) := by
          rw [encode_unsent, encode_unsent b]
          exact lastAt_prepend (lastAt_prepend hk)
        have := hlm.2 _ h2.1
        omega
    obtain ⟨e1, _, e3⟩ := C89_stats g _ _ _ sent hlen hm'
    obtain ⟨e4, e5, e6⟩ := C89_match g _ _ _ sent o hs' hl' hlen hm' place
    have hlen' : (Spec.encode (first ++ a ++ (b ++ last))).length < 2 ^ 63 := by
      rw [encode_sent] at hlen
      rw [encode_unsent]
      simp only [List.length_append] at hlen ⊢
      omega
    obtain ⟨i1, i2, i0, i3, i4, i5⟩ := ih hlen'
    exact ⟨e1.trans i1, e3.trans i2, (C89_frags_unknown g _ _ _ sent o hs' hl' place).trans i0, e4.trans i3, e5.trans i4, fun e => (e6 (h.now e).1).trans (i5 (h.now e).2)⟩

/-- The hypotheses are met by two chat messages, one to all players and one, some time later, to one player. -/
example : ∃ new, ChatAdded (NoOpenTeamkill Example.debug.toUnicode) [Example.joined 13100] [] ([Example.joined 13100] ++ Example.ending) new ∧
    new = [Example.joined 13100, Example.said bytes!"nig: hi", Example.told bytes!"nig: who got the BLUE flag!"] ++ Example.ending ∧
    ¬ Occurs statsMarker (Spec.encode ([Example.joined 13100] ++ Example.ending)) := by
  have h1 : ChatSent [Example.joined 13100] (Example.said bytes!"nig: hi") Example.ending :=
    chatSent_example _ (by decide) _ _ (.inl rfl) (by decide) (by decide) (by decide +kernel)
  have h2 : ChatSent [Example.joined 13100, Example.said bytes!"nig: hi"] (Example.told bytes!"nig: who got the BLUE flag!")
      Example.ending := by
    have h2' : ChatSent [Example.joined 13100] (Example.told bytes!"nig: who got the BLUE flag!") Example.ending :=
      chatSent_example _ (by decide) _ _ (.inr rfl) (by decide) (by decide) (by decide +kernel)
    refine ⟨⟨?_, by simp⟩, h2'.chat, h2'.after, h2'.words, borders_of ?_ h2'.chat (.inr rfl) rfl (.inl rfl)⟩
    · intro x hx
      simp only [List.mem_cons, List.not_mem_nil, or_false] at hx
      rcases hx with rfl | rfl
      · exact h1.before.1 _ (by simp)
      · exact h1.chat.wf
    · obtain ⟨x, hx⟩ := h1.chat.ends
      exact ⟨Spec.encode [Example.joined 13100] ++ x, by
        rw [show [Example.joined 13100, Example.said bytes!"nig: hi"] = [Example.joined 13100] ++ [Example.said bytes!"nig: hi"] from rfl,
          encode_unsent, List.append_assoc, ← hx]
        simp [Spec.encode]⟩
  have quiet : ∀ l : List Frame, (∀ x ∈ l, x = Example.joined 13100 ∨ x = Example.said bytes!"nig: hi") →
      NoOpenTeamkill Example.debug.toUnicode l := by
    rintro l hl before x later t m v rfl ⟨p, _, hp, _, e, _⟩ _
    have e0 := congrArg List.head? e
    have e1 := congrArg (fun l : Bytes => l[1]?) e
    rcases hl x (by simp) with rfl | rfl
    · have : ∀ n, (Example.joined n).body.head? = some 9 := fun _ => rfl
      rw [this] at e0
      simp [PrintMsg.encode] at e0
    · simp [Example.said, PrintMsg.encode, hp] at e1
  have c0 := ChatAdded.none (here := NoOpenTeamkill Example.debug.toUnicode) (first := [Example.joined 13100]) (last := []) (old := [Example.joined 13100] ++ Example.ending)
  have c1 := ChatAdded.more (first := [Example.joined 13100]) (last := []) (old := [Example.joined 13100] ++ Example.ending)
    (a := []) (b := Example.ending) (f := Example.said bytes!"nig: hi") (by simpa using c0)
    (by simpa using h1) (quiet _ (by simp))
  have c2 := ChatAdded.more (first := [Example.joined 13100]) (last := []) (old := [Example.joined 13100] ++ Example.ending)
    (a := [Example.said bytes!"nig: hi"]) (b := Example.ending)
    (f := Example.told bytes!"nig: who got the BLUE flag!") (by simpa using c1) (by simpa using h2) (quiet _ (by simp))
  refine ⟨_, c2, by simp, ?_⟩
  rintro ⟨pre, post, e⟩
  rw [encode_unsent, joined_encode] at e
  rcases occurs_padding (by decide) (by decide) _ ⟨pre, post, e⟩ with h | h <;> exact absurd h (by decide +kernel)

end Mvd

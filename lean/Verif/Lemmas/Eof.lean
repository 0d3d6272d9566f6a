import Verif.Lemmas.Halt

/-! What does not depend on where a failed exact read leaves the cursor. -/

namespace Mvd
open Spec

/-- The environment `g` where failed exact reads move the cursor to the end (`b`) or leave it in place. -/
def Env.eof (g : Env) (b : Bool) : Env := { g with eofSeek := b }

theorem readByte_eof (g : Env) (b : Bool) (c : Cursor) : c.readByte (g.eof b) = c.readByte g := by
  obtain ⟨p, l⟩ := c
  cases l with
  | nil => rw [readByte_nil, readByte_nil]
  | cons x t => rw [readByte_cons, readByte_cons]

theorem readExact_eof (g : Env) (b : Bool) (c : Cursor) (n : Nat) (h : n ≤ c.rest.length) :
    c.readExact (g.eof b) n = c.readExact g n := by
  unfold Cursor.readExact
  rw [if_pos h, if_pos h]

theorem readU16_eof (g : Env) (b : Bool) (c : Cursor) (h : 2 ≤ c.rest.length) : c.readU16 (g.eof b) = c.readU16 g := by
  unfold Cursor.readU16
  rw [readExact_eof g b c 2 h]

theorem readU32_eof (g : Env) (b : Bool) (c : Cursor) (h : 4 ≤ c.rest.length) : c.readU32 (g.eof b) = c.readU32 g := by
  unfold Cursor.readU32
  rw [readExact_eof g b c 4 h]

theorem readMessageType_eof (g : Env) (b : Bool) (c : Cursor) : c.readMessageType (g.eof b) = c.readMessageType g := by
  unfold Cursor.readMessageType
  rw [readByte_eof]

theorem readPrint_eof (g : Env) (b : Bool) (c : Cursor) : c.readPrint (g.eof b) = c.readPrint g := by
  unfold Cursor.readPrint
  rw [readByte_eof]

theorem readUpdateFrags_eof (g : Env) (b : Bool) (c : Cursor) :
    (c.readUpdateFrags (g.eof b)).1 = (c.readUpdateFrags g).1 := by
  unfold Cursor.readUpdateFrags
  rw [readByte_eof]
  obtain ⟨o, c1⟩ := c.readByte g
  cases o with
  | none => rfl
  | some x =>
    simp only
    by_cases h : 2 ≤ c1.rest.length
    · rw [readU16_eof g b c1 h]
    · obtain ⟨y, hy⟩ := readU16_short (g.eof b) c1 (by omega)
      obtain ⟨z, hz⟩ := readU16_short g c1 (by omega)
      rw [hy, hz]

/-- Either nothing differs, or the read fails with at most one byte left. -/
theorem readUpdatePing_eof (g : Env) (b : Bool) (c : Cursor) :
    c.readUpdatePing (g.eof b) = c.readUpdatePing g ∨
    ∃ x y, c.readUpdatePing (g.eof b) = (none, x) ∧ c.readUpdatePing g = (none, y) ∧ x.rest.length < 2 ∧ y.rest.length < 2 := by
  obtain ⟨p, l⟩ := c
  by_cases h : l.length < 4
  · obtain ⟨x, hx, hx', _⟩ := readUpdatePing_none (g.eof b) p l h
    obtain ⟨y, hy, hy', _⟩ := readUpdatePing_none g p l h
    exact .inr ⟨x, y, hx, hy, hx', hy'⟩
  · obtain ⟨x1, x2, x3, x4, t, rfl⟩ := exists_four (show 4 ≤ l.length by omega)
    left
    rw [readUpdatePing_some, readUpdatePing_some]

theorem fromData_eof (g : Env) (b : Bool) (data : Bytes) (i : Nat) :
    FrameInfo.fromDataAndIndex (g.eof b) data i = FrameInfo.fromDataAndIndex g data i := by
  by_cases hi : i ≤ data.length
  · cases ha : announced (data.drop i) with
    | none => rw [fromData_none _ data i hi ha, fromData_none _ data i hi ha]
    | some p =>
      obtain ⟨d, f, t, ht, e⟩ := fromData_some g data i hi p.1 p.2 ha
      obtain ⟨d', f', t', ht', e'⟩ := fromData_some (g.eof b) data i hi p.1 p.2 ha
      rw [ht] at ht'
      cases ht'
      rw [e, e']
  · rw [fromData_panic _ data i (by omega), fromData_panic _ data i (by omega)]

theorem frameLoop_eof {σ : Type} (g : Env) (b : Bool) (data : Bytes) {body body' : σ → FrameInfo → R (Step σ)}
    (hb : ∀ s i, body s i = body' s i) : ∀ fuel index s,
    frameLoop (g.eof b) data body fuel index s = frameLoop g data body' fuel index s := by
  have : body = body' := funext fun s => funext fun i => hb s i
  subst this
  intro fuel
  induction fuel with
  | zero => intro index s; rfl
  | succ n ih =>
    intro index s
    rw [frameLoop, frameLoop, fromData_eof]
    cases FrameInfo.fromDataAndIndex g data index with
    | ok info =>
      simp only
      congr 1
      funext st
      cases st with
      | next s => exact ih _ _
      | brk s => rfl
    | err e => rfl
    | panic => rfl
    | hang => rfl

theorem printsBody_eof (g : Env) (b : Bool) : ∀ fuel c l, printsBody (g.eof b) fuel c l = printsBody g fuel c l := by
  intro fuel
  induction fuel with
  | zero => intro c l; rfl
  | succ n ih =>
    intro c l
    rw [printsBody, printsBody, readMessageType_eof]
    simp only [readPrint_eof, ih]

theorem prints_eof (g : Env) (b : Bool) (data : Bytes) : prints (g.eof b) data = prints g data := by
  unfold prints frameLoopFrom
  rw [frameLoop_eof g b data]
  intro s i
  simp only [printsBody_eof]

theorem isMessageSuffix_eof (g : Env) (b : Bool) (p : Bytes) : isMessageSuffix (g.eof b) p = isMessageSuffix g p := rfl

theorem flagBody_eof (g : Env) (b : Bool) : ∀ fuel c l x, flagBody (g.eof b) fuel c l x = flagBody g fuel c l x := by
  intro fuel
  induction fuel with
  | zero => intro c l x; rfl
  | succ n ih =>
    intro c l x
    rw [flagBody, flagBody, readMessageType_eof]
    simp only [readPrint_eof, ih]
    rfl

theorem flagPrints_eof (g : Env) (b : Bool) (data : Bytes) : flagPrints (g.eof b) data = flagPrints g data := by
  unfold flagPrints frameLoopFrom
  rw [frameLoop_eof g b data]
  intro s i
  simp only [flagBody_eof]

theorem flags_eof (g : Env) (b : Bool) (data : Bytes) : flagEventsPerPlayerName (g.eof b) data = flagEventsPerPlayerName g data := by
  unfold flagEventsPerPlayerName
  rw [flagPrints_eof]
  rfl

theorem pingBody_end (g : Env) (c : Cursor) (m : Map UInt8 (List Nat)) (d : Bool) (fuel : Nat) (h : c.rest.length < 2)
    (hf : c.rest.length < fuel) : pingBody g fuel c m d = .ok (m, d) := by
  obtain ⟨p, l⟩ := c
  obtain ⟨fuel, rfl⟩ : ∃ n, fuel = n + 1 := ⟨fuel - 1, by omega⟩
  match l, h with
  | [], _ => rw [pingBody, readMessageType_nil]
  | [x], _ =>
    rw [pingBody, readMessageType_cons]
    simp only
    split
    · have : (Cursor.mk (p + 1) []).readUpdatePing g = (none, ⟨p + 1, []⟩) := by simp [Cursor.readUpdatePing, readByte_nil]
      rw [this]
      obtain ⟨fuel, rfl⟩ : ∃ n, fuel = n + 1 := ⟨fuel - 1, by simp at hf; omega⟩
      simp only
      rw [pingBody, readMessageType_nil]
    · rfl

theorem pingBody_eof (g : Env) (b : Bool) : ∀ fuel c m d, c.rest.length < fuel →
    pingBody (g.eof b) fuel c m d = pingBody g fuel c m d := by
  intro fuel
  induction fuel with
  | zero => intro c m d h; omega
  | succ n ih =>
    intro c m d h
    rw [pingBody, pingBody, readMessageType_eof]
    cases hm : c.readMessageType g with
    | mk o c1 =>
      cases o with
      | none => rfl
      | some t =>
        have hr := readMessageType_rest hm
        simp only
        by_cases ht : t = .updatePing
        · rw [if_pos ht, if_pos ht]
          rcases readUpdatePing_eof g b c1 with he | ⟨x, y, hx, hy, hx', hy'⟩
          · rw [he]
            have hp := readUpdatePing_rest g c1
            cases hu : c1.readUpdatePing g with
            | mk o c2 =>
              rw [hu] at hp
              simp only at hp
              cases o with
              | none => exact ih c2 m d (by omega)
              | some u => exact ih _ _ _ (by have := skip_rest c2 2; omega)
          · have hpx := readUpdatePing_rest (g.eof b) c1
            have hpy := readUpdatePing_rest g c1
            rw [hx] at hpx
            rw [hy] at hpy
            simp only at hpx hpy
            rw [hx, hy]
            simp only
            rw [pingBody_end _ _ _ _ _ hx' (by omega), pingBody_end _ _ _ _ _ hy' (by omega)]
        · rw [if_neg ht, if_neg ht]

theorem totalPings_eof (g : Env) (b : Bool) (data : Bytes) : totalPings (g.eof b) data = totalPings g data := by
  unfold totalPings frameLoopFrom
  rw [frameLoop_eof g b data]
  intro s i
  have : ∀ body m, pingBody (g.eof b) (body.length + 1) (Cursor.new body) m false =
      pingBody g (body.length + 1) (Cursor.new body) m false :=
    fun body m => pingBody_eof g b _ _ _ _ (by simp [Cursor.new])
  simp only [this]

theorem pings_eof (g : Env) (b : Bool) (data : Bytes) : pingPerPlayerNumber (g.eof b) data = pingPerPlayerNumber g data := by
  unfold pingPerPlayerNumber
  rw [totalPings_eof]
  rfl

theorem clientScan_eof (g : Env) (b : Bool) (data : Bytes) (m : Nat) : ∀ fuel offset found,
    clientScan (g.eof b) data m fuel offset found = clientScan g data m fuel offset found := by
  intro fuel
  induction fuel with
  | zero => intro offset found; rfl
  | succ n ih =>
    intro offset found
    rw [clientScan, clientScan]
    simp only [ih]
    rfl

theorem clientinfoStrings_eof (g : Env) (b : Bool) (data : Bytes) : clientinfoStrings (g.eof b) data = clientinfoStrings g data := by
  unfold clientinfoStrings
  simp only [clientScan_eof]

theorem clientinfo_eof (g : Env) (b : Bool) (data : Bytes) : clientinfo (g.eof b) data = clientinfo g data := by
  unfold clientinfo
  rw [clientinfoStrings_eof]
  rfl

theorem clients_eof (g : Env) (b : Bool) (data : Bytes) : clients (g.eof b) data = clients g data := by
  unfold clients
  rw [clientinfo_eof]

theorem playerClients_eof (g : Env) (b : Bool) (data : Bytes) : playerClients (g.eof b) data = playerClients g data := by
  unfold playerClients
  rw [clients_eof]

theorem spectatorClients_eof (g : Env) (b : Bool) (data : Bytes) : spectatorClients (g.eof b) data = spectatorClients g data := by
  unfold spectatorClients
  rw [clients_eof]

theorem printFrames_eof (g : Env) (b : Bool) (data : Bytes) : printFrames (g.eof b) data = printFrames g data := by
  unfold printFrames frameLoopFrom
  rw [frameLoop_eof g b data]
  intro s i
  simp only [printFramesBody, readMessageType_eof, readPrint_eof]

theorem fragUpdatesFrom_eof (g : Env) (b : Bool) (data : Bytes) (i : Nat) :
    fragUpdatesFrom (g.eof b) data i = fragUpdatesFrom g data i := by
  unfold fragUpdatesFrom frameLoopFrom
  rw [frameLoop_eof g b data]
  intro s i
  simp only [lookBody, readMessageType_eof, readPrint_eof]
  split
  · rfl
  split
  · rfl
  congr 1
  funext bytes
  generalize (if s.1 = 1 then ((Cursor.new bytes).readPrint g).2 else Cursor.new bytes) = c
  obtain ⟨o, c1⟩ := c.readMessageType g
  cases o with
  | none => rfl
  | some t =>
    simp only
    split
    · have := readUpdateFrags_eof g b c1
      generalize c1.readUpdateFrags (g.eof b) = r1 at this ⊢
      generalize c1.readUpdateFrags g = r2 at this ⊢
      obtain ⟨o1, c2⟩ := r1
      obtain ⟨o2, c3⟩ := r2
      change o1 = o2 at this
      subst this
      cases o1 <;> rfl
    · rfl

theorem findTeamKiller_eof (g : Env) (b : Bool) (data : Bytes) (i : Nat) (v : Str) :
    findTeamKiller (g.eof b) data i v = findTeamKiller g data i v := by
  unfold findTeamKiller
  rw [fragUpdatesFrom_eof, clients_eof]

theorem frags_eof (g : Env) (b : Bool) (data : Bytes) : fragsPerPlayerName (g.eof b) data = fragsPerPlayerName g data := by
  unfold fragsPerPlayerName
  rw [printFrames_eof]
  congr 1
  funext pfs
  congr 1
  funext m pf
  unfold scorePrint
  simp only [findTeamKiller_eof]
  rfl

theorem blockInfo_eof (g : Env) (b : Bool) (l : Bytes) : BlockInfo.tryFrom (g.eof b) l = BlockInfo.tryFrom g l := by
  unfold BlockInfo.tryFrom
  simp only
  by_cases h4 : 4 ≤ l.length
  · rw [readU32_eof g b (Cursor.new l) h4]
    obtain ⟨x1, x2, x3, x4, t, rfl⟩ := exists_four h4
    simp only [Cursor.new]
    rw [readU32_cons]
    simp only
    congr 1
    funext bodySize
    congr 1
    funext total
    match t with
    | [] =>
      obtain ⟨y, hy⟩ := readU16_short (g.eof b) ⟨0 + 4, []⟩ (by simp)
      obtain ⟨z, hz⟩ := readU16_short g ⟨0 + 4, []⟩ (by simp)
      rw [hy, hz]
    | [a] =>
      obtain ⟨y, hy⟩ := readU16_short (g.eof b) ⟨0 + 4, [a]⟩ (by simp)
      obtain ⟨z, hz⟩ := readU16_short g ⟨0 + 4, [a]⟩ (by simp)
      rw [hy, hz]
    | a :: c :: t =>
      rw [readU16_cons, readU16_cons]
      simp only
      by_cases h2 : 2 ≤ t.length
      · rw [readU16_eof g b _ h2]
      · obtain ⟨y, hy⟩ := readU16_short (g.eof b) ⟨0 + 4 + 2, t⟩ (by simp; omega)
        obtain ⟨z, hz⟩ := readU16_short g ⟨0 + 4 + 2, t⟩ (by simp; omega)
        rw [hy, hz]
  · obtain ⟨y, hy⟩ := readU32_short (g.eof b) (Cursor.new l) (by simp [Cursor.new]; omega)
    obtain ⟨z, hz⟩ := readU32_short g (Cursor.new l) (by simp [Cursor.new]; omega)
    rw [hy, hz]

theorem blockLoop_eof (g : Env) (b : Bool) (data : Bytes) : ∀ fuel offset content,
    blockLoop (g.eof b) data fuel offset content = blockLoop g data fuel offset content := by
  intro fuel
  induction fuel with
  | zero => intro offset content; rfl
  | succ n ih =>
    intro offset content
    rw [blockLoop, blockLoop]
    simp only [ih, blockInfo_eof]
    rfl

theorem ktxstatsString_eof (g : Env) (b : Bool) (data : Bytes) : ktxstatsString (g.eof b) data = ktxstatsString g data := by
  unfold ktxstatsString
  simp only [blockLoop_eof]
  rfl

theorem ktxstatsV3_eof (g : Env) (b : Bool) (data : Bytes) : ktxstatsV3 (g.eof b) data = ktxstatsV3 g data := by
  unfold ktxstatsV3
  rw [ktxstatsString_eof]
  rfl

theorem server_eof (g : Env) (b : Bool) (data : Bytes) : server (g.eof b) data = server g data := by
  unfold server
  rw [ktxstatsV3_eof]

theorem durationUntilOffset_eof (g : Env) (b : Bool) (data : Bytes) (t : Nat) :
    durationUntilOffset (g.eof b) data t = durationUntilOffset g data t := by
  unfold durationUntilOffset totalMs frameLoopFrom
  rw [frameLoop_eof g b data]
  intro s i
  rfl

theorem countdownDuration_eof (g : Env) (b : Bool) (data : Bytes) : countdownDuration (g.eof b) data = countdownDuration g data := by
  unfold countdownDuration
  simp only [durationUntilOffset_eof]
  rfl

theorem demoDuration_eof (g : Env) (b : Bool) (data : Bytes) : demoDuration (g.eof b) data = demoDuration g data :=
  durationUntilOffset_eof g b data _

theorem seeking_eof (g : Env) (b : Bool) (data : Bytes) : matchDurationFromSeeking (g.eof b) data = matchDurationFromSeeking g data := by
  unfold matchDurationFromSeeking
  rw [demoDuration_eof, countdownDuration_eof]

theorem fromKtxstats_eof (g : Env) (b : Bool) (data : Bytes) :
    matchDurationFromKtxstats (g.eof b) data = matchDurationFromKtxstats g data := by
  unfold matchDurationFromKtxstats
  rw [ktxstatsString_eof]
  rfl

theorem matchDuration_eof (g : Env) (b : Bool) (data : Bytes) : matchDuration (g.eof b) data = matchDuration g data := by
  unfold matchDuration
  rw [seeking_eof, fromKtxstats_eof]
  rfl

theorem playersFromParsing_eof (g : Env) (b : Bool) (data : Bytes) : playersFromParsing (g.eof b) data = playersFromParsing g data := by
  unfold playersFromParsing
  rw [clients_eof, pings_eof, frags_eof]
  rfl

theorem players_eof (g : Env) (b : Bool) (data : Bytes) : players (g.eof b) data = players g data := by
  unfold players
  rw [ktxstatsV3_eof, playersFromParsing_eof]

theorem teamsFromPlayers_eof (g : Env) (b : Bool) (l : List Player) : teamsFromPlayers (g.eof b) l = teamsFromPlayers g l := rfl

theorem teams_eof (g : Env) (b : Bool) (data : Bytes) : teams (g.eof b) data = teams g data := by
  unfold teams
  rw [players_eof]
  rfl

end Mvd

import Verif.Lemmas.Frame
import Verif.Model.Teams
import Verif.Model.Duration
import Verif.Model.Flags
import Verif.Model.Prints

/-! What the build profile (overflow checks on or off) can change. -/

namespace Mvd

/-- The environment `g` compiled with (`b`) or without overflow checks. -/
def Env.profile (g : Env) (b : Bool) : Env := { g with checks := b }

/-- `x` panics or is the same as `y`. -/
def PanicOr {α : Type} (x y : R α) : Prop := x = .panic ∨ x = y

theorem PanicOr.refl {α : Type} (x : R α) : PanicOr x x := .inr rfl

theorem PanicOr.bind {α β : Type} {x y : R α} {f f' : α → R β} (h : PanicOr x y) (hf : ∀ a, PanicOr (f a) (f' a)) :
    PanicOr (x.bind f) (y.bind f') := by
  rcases h with rfl | rfl
  · exact .inl rfl
  · cases x with
    | ok a => exact hf a
    | err e => exact .inr rfl
    | panic => exact .inl rfl
    | hang => exact .inr rfl

theorem PanicOr.isOkAnd {α : Type} {x y : R α} {f : α → Bool} (h : PanicOr x y) : PanicOr (x.isOkAnd f) (y.isOkAnd f) := by
  rcases h with rfl | rfl
  · exact .inl rfl
  · exact .inr rfl

theorem PanicOr.unwrapOr {α : Type} {x y : R α} {d : α} (h : PanicOr x y) : PanicOr (x.unwrapOr d) (y.unwrapOr d) := by
  rcases h with rfl | rfl
  · exact .inl rfl
  · exact .inr rfl

theorem PanicOr.orElse {α : Type} {x y z w : R α} (h : PanicOr x y) (h' : PanicOr z w) : PanicOr (x.orElse z) (y.orElse w) := by
  rcases h with rfl | rfl
  · exact .inl rfl
  · cases x with
    | err e => exact h'
    | ok a => exact .inr rfl
    | panic => exact .inr rfl
    | hang => exact .inr rfl

theorem addU_profile (bits a b : Nat) : PanicOr (addU true bits a b) (addU false bits a b) := by
  unfold addU
  by_cases h : a + b < 2 ^ bits
  · rw [if_pos h, if_pos h]; exact .inr rfl
  · rw [if_neg h, if_neg h]; exact .inl rfl

theorem subU_profile (bits a b : Nat) : PanicOr (subU true bits a b) (subU false bits a b) := by
  unfold subU
  by_cases h : b ≤ a
  · rw [if_pos h, if_pos h]; exact .inr rfl
  · rw [if_neg h, if_neg h]; exact .inl rfl

theorem addI32_profile (a b : Int) : PanicOr (addI32 true a b) (addI32 false a b) := by
  unfold addI32
  by_cases h : -2 ^ 31 ≤ a + b ∧ a + b < 2 ^ 31
  · rw [if_pos h, if_pos h]; exact .inr rfl
  · rw [if_neg h, if_neg h]; exact .inl rfl

theorem forR_profile {α σ : Type} {f f' : σ → α → R σ} (h : ∀ s a, PanicOr (f s a) (f' s a)) :
    ∀ s l, PanicOr (forR f s l) (forR f' s l) := by
  intro s l
  induction l generalizing s with
  | nil => exact .inr rfl
  | cons a t ih => exact (h s a).bind fun s => ih s

theorem update_profile {K V : Type} [DecidableEq K] (m : Map K V) (k : K) (d : V) {f f' : V → R V}
    (h : ∀ v, PanicOr (f v) (f' v)) : PanicOr (m.update k d f) (m.update k d f') :=
  (h _).bind fun _ => .inr rfl

theorem frameLoop_profile {σ : Type} (g : Env) (data : Bytes) {body body' : σ → FrameInfo → R (Step σ)}
    (h : ∀ s i, PanicOr (body s i) (body' s i)) : ∀ fuel index s,
    PanicOr (frameLoop (g.profile true) data body fuel index s) (frameLoop (g.profile false) data body' fuel index s) := by
  intro fuel
  induction fuel with
  | zero => intro index s; exact .inr rfl
  | succ n ih =>
    intro index s
    rw [frameLoop, frameLoop]
    have : FrameInfo.fromDataAndIndex (g.profile true) data index = FrameInfo.fromDataAndIndex (g.profile false) data index := rfl
    rw [this]
    cases FrameInfo.fromDataAndIndex (g.profile false) data index with
    | ok info =>
      refine (h s info).bind fun st => ?_
      cases st with
      | next s => exact ih _ _
      | brk s => exact .inr rfl
    | err e => exact .inr rfl
    | panic => exact .inr rfl
    | hang => exact .inr rfl

/-- A frame loop whose body does not look at the profile. -/
theorem frameLoop_same {σ : Type} (g : Env) (b : Bool) (data : Bytes) {body body' : σ → FrameInfo → R (Step σ)}
    (h : ∀ s i, body s i = body' s i) : ∀ fuel index s,
    frameLoop (g.profile b) data body fuel index s = frameLoop g data body' fuel index s := by
  have : body = body' := funext fun s => funext fun i => h s i
  subst this
  intro fuel
  induction fuel with
  | zero => intro index s; rfl
  | succ n ih =>
    intro index s
    rw [frameLoop, frameLoop]
    have : FrameInfo.fromDataAndIndex (g.profile b) data index = FrameInfo.fromDataAndIndex g data index := rfl
    rw [this]
    cases FrameInfo.fromDataAndIndex g data index with
    | ok info =>
      simp only
      congr 1
      funext st
      cases st with
      | next s => exact ih _ _
      | brk s => rfl
    | err e => rfl
    | panic => rfl
    | hang => rfl

theorem printsBody_profile (g : Env) (b : Bool) : ∀ fuel c l, printsBody (g.profile b) fuel c l = printsBody g fuel c l := by
  intro fuel
  induction fuel with
  | zero => intro c l; rfl
  | succ n ih =>
    intro c l
    rw [printsBody, printsBody]
    have h1 : c.readMessageType (g.profile b) = c.readMessageType g := rfl
    have h2 : ∀ c : Cursor, c.readPrint (g.profile b) = c.readPrint g := fun _ => rfl
    rw [h1]
    simp only [h2, ih]

theorem prints_profile (g : Env) (b : Bool) (data : Bytes) : prints (g.profile b) data = prints g data := by
  unfold prints frameLoopFrom
  rw [frameLoop_same g b data]
  intro s i
  simp only [printsBody_profile]

theorem clientScan_profile (g : Env) (b : Bool) (data : Bytes) (m : Nat) : ∀ fuel offset found,
    clientScan (g.profile b) data m fuel offset found = clientScan g data m fuel offset found := by
  intro fuel
  induction fuel with
  | zero => intro offset found; rfl
  | succ n ih =>
    intro offset found
    rw [clientScan, clientScan]
    simp only [ih]
    rfl

theorem clientinfoStrings_profile (g : Env) (b : Bool) (data : Bytes) :
    clientinfoStrings (g.profile b) data = clientinfoStrings g data := by
  unfold clientinfoStrings
  simp only [clientScan_profile]

theorem clientinfo_profile (g : Env) (b : Bool) (data : Bytes) : clientinfo (g.profile b) data = clientinfo g data := by
  unfold clientinfo
  rw [clientinfoStrings_profile]
  rfl

theorem clients_profile (g : Env) (b : Bool) (data : Bytes) : clients (g.profile b) data = clients g data := by
  unfold clients
  rw [clientinfo_profile]

theorem playerClients_profile (g : Env) (b : Bool) (data : Bytes) : playerClients (g.profile b) data = playerClients g data := by
  unfold playerClients
  rw [clients_profile]

theorem spectatorClients_profile (g : Env) (b : Bool) (data : Bytes) :
    spectatorClients (g.profile b) data = spectatorClients g data := by
  unfold spectatorClients
  rw [clients_profile]

theorem isValid_profile (g : Env) (b : Bool) (data : Bytes) : isValid (g.profile b) data = isValid g data := by
  have : hasClients (g.profile b) data = hasClients g data := congrArg (R.isOkAnd · _) (clientinfo_profile g b data)
  unfold isValid
  rw [this]
  rfl

theorem printFrames_profile (g : Env) (b : Bool) (data : Bytes) : printFrames (g.profile b) data = printFrames g data := by
  unfold printFrames frameLoopFrom
  exact frameLoop_same g b data (fun _ _ => rfl) _ _ _

theorem fragUpdatesFrom_profile (g : Env) (b : Bool) (data : Bytes) (i : Nat) :
    fragUpdatesFrom (g.profile b) data i = fragUpdatesFrom g data i := by
  unfold fragUpdatesFrom frameLoopFrom
  exact frameLoop_same g b data (fun _ _ => rfl) _ _ _

theorem findTeamKiller_profile (g : Env) (b : Bool) (data : Bytes) (i : Nat) (v : Str) :
    findTeamKiller (g.profile b) data i v = findTeamKiller g data i v := by
  unfold findTeamKiller
  rw [fragUpdatesFrom_profile, clients_profile]

theorem scorePrint_profile (g : Env) (data : Bytes) (m : Map Str Int) (pf : Print × FrameInfo) :
    PanicOr (scorePrint (g.profile true) data m pf) (scorePrint (g.profile false) data m pf) := by
  unfold scorePrint
  simp only [findTeamKiller_profile]
  have hu : ∀ (k : Str) (d : Int), PanicOr (m.update k 0 fun n => addI32 (g.profile true).checks n d)
      (m.update k 0 fun n => addI32 (g.profile false).checks n d) :=
    fun k d => update_profile m k 0 fun v => addI32_profile v d
  have : (g.profile true).toUnicode = (g.profile false).toUnicode := rfl
  rw [this]
  cases FragEvent.tryFrom (trimEnd ((g.profile false).toUnicode pf.1.content)) with
  | err e => exact .inr rfl
  | panic => exact .inr rfl
  | hang => exact .inr rfl
  | ok e =>
    cases e with
    | teamkillByUnknown v =>
      simp only
      cases findTeamKiller g data pf.2.index v with
      | ok n => exact hu _ _
      | err e => exact .inr rfl
      | panic => exact .inr rfl
      | hang => exact .inr rfl
    | frag a b => exact hu _ _
    | death a => exact hu _ _
    | suicide a => exact hu _ _
    | suicideByWeapon a => exact hu _ _
    | teamkill a => exact hu _ _

theorem frags_profile (g : Env) (data : Bytes) :
    PanicOr (fragsPerPlayerName (g.profile true) data) (fragsPerPlayerName (g.profile false) data) := by
  unfold fragsPerPlayerName
  rw [printFrames_profile, printFrames_profile]
  exact (PanicOr.refl _).bind fun pfs => forR_profile (scorePrint_profile g data) [] pfs

theorem flagBody_profile (g : Env) (b : Bool) : ∀ fuel c l x, flagBody (g.profile b) fuel c l x = flagBody g fuel c l x := by
  intro fuel
  induction fuel with
  | zero => intro c l x; rfl
  | succ n ih =>
    intro c l x
    rw [flagBody, flagBody]
    have h1 : c.readMessageType (g.profile b) = c.readMessageType g := rfl
    have h2 : ∀ c : Cursor, c.readPrint (g.profile b) = c.readPrint g := fun _ => rfl
    rw [h1]
    simp only [h2, ih]
    rfl

theorem flagPrints_profile (g : Env) (b : Bool) (data : Bytes) : flagPrints (g.profile b) data = flagPrints g data := by
  unfold flagPrints frameLoopFrom
  rw [frameLoop_same g b data]
  intro s i
  simp only [flagBody_profile]

theorem countFlagPrint_profile (g : Env) (m : Map Str PlayerFlagEvents) (p : Bytes) :
    PanicOr (countFlagPrint (g.profile true) m p) (countFlagPrint (g.profile false) m p) := by
  unfold countFlagPrint
  have : (g.profile true).toUnicode = (g.profile false).toUnicode := rfl
  rw [this]
  cases FlagEvent.tryFrom ((g.profile false).toUnicode p) with
  | err e => exact .inr rfl
  | panic => exact .inr rfl
  | hang => exact .inr rfl
  | ok e => cases e <;> exact update_profile m _ _ fun v => (addU_profile 8 _ 1).bind fun _ => .inr rfl

theorem flags_profile (g : Env) (data : Bytes) :
    PanicOr (flagEventsPerPlayerName (g.profile true) data) (flagEventsPerPlayerName (g.profile false) data) := by
  unfold flagEventsPerPlayerName
  rw [flagPrints_profile, flagPrints_profile]
  exact (PanicOr.refl _).bind fun ps => forR_profile (countFlagPrint_profile g) [] ps

theorem pingBody_profile (g : Env) (b : Bool) : ∀ fuel c m d, pingBody (g.profile b) fuel c m d = pingBody g fuel c m d := by
  intro fuel
  induction fuel with
  | zero => intro c m d; rfl
  | succ n ih =>
    intro c m d
    rw [pingBody, pingBody]
    have h1 : c.readMessageType (g.profile b) = c.readMessageType g := rfl
    have h2 : ∀ c : Cursor, c.readUpdatePing (g.profile b) = c.readUpdatePing g := fun _ => rfl
    rw [h1]
    simp only [h2, ih]

theorem totalPings_profile (g : Env) (b : Bool) (data : Bytes) : totalPings (g.profile b) data = totalPings g data := by
  unfold totalPings frameLoopFrom
  rw [frameLoop_same g b data]
  intro s i
  simp only [pingBody_profile]

theorem averagePing_profile (g : Env) (l : List Nat) :
    PanicOr (averagePing (g.profile true) l) (averagePing (g.profile false) l) :=
  (forR_profile (fun s p => addU_profile 16 s p) 0 l).bind fun _ => .inr rfl

theorem pings_profile (g : Env) (data : Bytes) :
    PanicOr (pingPerPlayerNumber (g.profile true) data) (pingPerPlayerNumber (g.profile false) data) := by
  unfold pingPerPlayerNumber
  rw [totalPings_profile, totalPings_profile]
  refine (PanicOr.refl _).bind fun t => ?_
  obtain ⟨total, n⟩ := t
  simp only
  split
  · exact .inr rfl
  · exact forR_profile (fun m (e : UInt8 × List Nat) => (averagePing_profile g e.2).bind fun _ => .inr rfl) [] _

theorem blockInfo_profile (g : Env) (l : Bytes) :
    PanicOr (BlockInfo.tryFrom (g.profile true) l) (BlockInfo.tryFrom (g.profile false) l) := by
  unfold BlockInfo.tryFrom
  have h1 : ∀ c : Cursor, c.readU32 (g.profile true) = c.readU32 (g.profile false) := fun _ => rfl
  have h2 : ∀ c : Cursor, c.readU16 (g.profile true) = c.readU16 (g.profile false) := fun _ => rfl
  simp only [h1, h2]
  generalize (Cursor.new l).readU32 (g.profile false) = r
  obtain ⟨o, c⟩ := r
  cases o with
  | none => exact .inr rfl
  | some n => exact (subU_profile 64 n SHORT).bind fun b => (addU_profile 64 _ b).bind fun t => .inr rfl

theorem blockLoop_profile (g : Env) (data : Bytes) : ∀ fuel offset content,
    PanicOr (blockLoop (g.profile true) data fuel offset content) (blockLoop (g.profile false) data fuel offset content) := by
  intro fuel
  induction fuel with
  | zero => intro offset content; exact .inr rfl
  | succ n ih =>
    intro offset content
    rw [blockLoop, blockLoop]
    refine (addU_profile 64 _ _).bind fun start => (PanicOr.refl _).bind fun tail => ?_
    rcases blockInfo_profile g tail with h | h
    · rw [h]; exact .inl rfl
    · rw [h]
      cases BlockInfo.tryFrom (g.profile false) tail with
      | err e => exact .inr rfl
      | panic => exact .inr rfl
      | hang => exact .inr rfl
      | ok info =>
        simp only
        split
        · exact .inr rfl
        · refine (addU_profile 64 _ _).bind fun o => (addU_profile 64 _ _).bind fun stop => (PanicOr.refl _).bind fun body => ?_
          split
          · exact .inr rfl
          · exact ih _ _

theorem ktxstatsString_profile (g : Env) (data : Bytes) :
    PanicOr (ktxstatsString (g.profile true) data) (ktxstatsString (g.profile false) data) := by
  unfold ktxstatsString
  cases rfind bytes!"{\"version\": " data with
  | none => exact .inr rfl
  | some o =>
    exact (subU_profile 64 _ _).bind fun o => (blockLoop_profile g data _ o []).bind fun _ => .inr rfl

theorem ktxstatsV3_profile (g : Env) (data : Bytes) :
    PanicOr (ktxstatsV3 (g.profile true) data) (ktxstatsV3 (g.profile false) data) :=
  (ktxstatsString_profile g data).bind fun _ => .inr rfl

theorem server_profile (g : Env) (data : Bytes) : PanicOr (server (g.profile true) data) (server (g.profile false) data) :=
  (ktxstatsV3_profile g data).bind fun _ => .inr rfl

theorem durationUntilOffset_profile (g : Env) (data : Bytes) (t : Nat) :
    PanicOr (durationUntilOffset (g.profile true) data t) (durationUntilOffset (g.profile false) data t) := by
  unfold durationUntilOffset totalMs frameLoopFrom
  refine PanicOr.bind (frameLoop_profile g data (fun s i => ?_) _ _ _) fun _ => .inr rfl
  split
  · exact .inr rfl
  · exact (addU_profile 32 _ _).bind fun _ => .inr rfl

theorem countdownDuration_profile (g : Env) (data : Bytes) :
    PanicOr (countdownDuration (g.profile true) data) (countdownDuration (g.profile false) data) := by
  unfold countdownDuration
  have : isHoonymode (g.profile true) data = isHoonymode (g.profile false) data := rfl
  rw [this]
  refine (PanicOr.refl _).bind fun h => ?_
  cases h with
  | true => exact .inr rfl
  | false =>
    simp only
    cases find MATCHDATE_NEEDLE data with
    | none => exact .inr rfl
    | some o => exact durationUntilOffset_profile g data o

theorem demoDuration_profile (g : Env) (data : Bytes) :
    PanicOr (demoDuration (g.profile true) data) (demoDuration (g.profile false) data) :=
  durationUntilOffset_profile g data _

theorem seeking_profile (g : Env) (data : Bytes) :
    PanicOr (matchDurationFromSeeking (g.profile true) data) (matchDurationFromSeeking (g.profile false) data) :=
  (demoDuration_profile g data).bind fun _ => (countdownDuration_profile g data).unwrapOr.bind fun _ => .inr rfl

theorem fromKtxstats_profile (g : Env) (data : Bytes) :
    PanicOr (matchDurationFromKtxstats (g.profile true) data) (matchDurationFromKtxstats (g.profile false) data) :=
  (ktxstatsString_profile g data).bind fun _ => .inr rfl

theorem matchDuration_profile (g : Env) (data : Bytes) :
    PanicOr (matchDuration (g.profile true) data) (matchDuration (g.profile false) data) := by
  unfold matchDuration
  have : isHoonymode (g.profile true) data = isHoonymode (g.profile false) data := rfl
  rw [this]
  refine (PanicOr.refl _).bind fun h => ?_
  cases h with
  | true => exact seeking_profile g data
  | false => exact (fromKtxstats_profile g data).orElse (seeking_profile g data)

theorem playersFromParsing_profile (g : Env) (data : Bytes) :
    PanicOr (playersFromParsing (g.profile true) data) (playersFromParsing (g.profile false) data) := by
  unfold playersFromParsing
  rw [clients_profile, clients_profile]
  exact (PanicOr.refl _).bind fun _ => (pings_profile g data).bind fun _ => (frags_profile g data).bind fun _ => .inr rfl

theorem players_profile (g : Env) (data : Bytes) : PanicOr (players (g.profile true) data) (players (g.profile false) data) := by
  unfold players
  rcases ktxstatsV3_profile g data with h | h
  · rw [h]; exact .inl rfl
  · rw [h]
    cases ktxstatsV3 (g.profile false) data with
    | ok s => exact .inr rfl
    | err e => exact playersFromParsing_profile g data
    | panic => exact .inr rfl
    | hang => exact .inr rfl

theorem majorityColor_profile (g : Env) (seed : Nat) (l : List (Nat × Nat)) :
    PanicOr (majorityColor (g.profile true) seed l) (majorityColor (g.profile false) seed l) := by
  match l with
  | [] => exact .inr rfl
  | [_] => exact .inr rfl
  | [_, _] => exact .inr rfl
  | a :: b :: c :: t =>
    exact (forR_profile (fun m color => update_profile m color 0 fun n => addU_profile 8 n 1) [] (a :: b :: c :: t)).bind
      fun _ => .inr rfl

theorem ofPlayers_profile (g : Env) (seed : Nat) (l : List Player) :
    PanicOr (Team.ofPlayers (g.profile true) seed l) (Team.ofPlayers (g.profile false) seed l) := by
  cases l with
  | nil => exact .inr rfl
  | cons p t =>
    exact (forR_profile (fun s p => (addI32_profile s.1 p.frags).bind fun _ => (addU_profile 32 s.2 p.ping).bind
      fun _ => .inr rfl) (0, 0) (p :: t)).bind fun _ => (majorityColor_profile g seed _).bind fun _ => .inr rfl

theorem teamsFromPlayers_profile (g : Env) (l : List Player) :
    PanicOr (teamsFromPlayers (g.profile true) l) (teamsFromPlayers (g.profile false) l) :=
  PanicOr.bind (forR_profile (fun _ (e : (Str × List Player) × Nat) => (ofPlayers_profile g (3 + e.2) e.1.2).bind
    fun _ => .inr rfl) [] _) fun _ => .inr rfl

theorem teams_profile (g : Env) (data : Bytes) : PanicOr (teams (g.profile true) data) (teams (g.profile false) data) :=
  (players_profile g data).bind fun ps => teamsFromPlayers_profile g ps

end Mvd

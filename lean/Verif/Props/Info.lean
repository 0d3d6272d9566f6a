import Verif.Lemmas.Scan
import Verif.Props.Example

/-! C07–C16: markers, validity, pause and abort detection, serverinfo. -/

namespace Mvd
open Spec (OccursAt Occurs FirstAt LastAt)

/-! ### C07 -/

/-- C07: the range between two markers. -/
theorem C07_offsets_between (data a b : Bytes) (i j : Nat) :
    offsetsBetween data a b = some (i, j) ↔
      ∃ pre mid post, data = pre ++ a ++ mid ++ b ++ post ∧ mid ≠ [] ∧
        FirstAt a data pre.length ∧ FirstAt b (mid ++ b ++ post) mid.length ∧
        i = pre.length + a.length ∧ j = pre.length + a.length + mid.length := by
  unfold offsetsBetween
  constructor
  · intro h
    split at h
    · simp at h
    rename_i k hk
    rw [find_eq_some_iff] at hk
    obtain ⟨pre, post, e, rfl⟩ := hk.1
    simp only at h
    split at h
    · simp at h
    rename_i m hm
    rw [find_eq_some_iff] at hm
    have hd : data.drop (pre.length + a.length) = post := by
      rw [e, ← List.length_append]; simp
    rw [hd] at hm
    obtain ⟨mid, post', e', rfl⟩ := hm.1
    split at h
    · rename_i hgt
      simp only [Option.some.injEq, Prod.mk.injEq] at h
      refine ⟨pre, mid, post', ?_, ?_, hk, ?_, by omega, by omega⟩
      · rw [e, e']; simp
      · rintro rfl; simp at hgt
      · rwa [e'] at hm
    · simp at h
  · rintro ⟨pre, mid, post, e, hne, hf, hb, rfl, rfl⟩
    have h1 := find_eq_some_iff.mpr hf
    rw [h1]
    have hd : data.drop (pre.length + a.length) = mid ++ b ++ post := by
      rw [e, ← List.length_append]; simp
    simp only [hd, find_eq_some_iff.mpr hb]
    have : 0 < mid.length := List.length_pos_iff.mpr hne
    rw [if_pos (by omega)]

/-- C07: there is no range exactly when the first marker is missing, the second is missing after it, or nothing lies
between them. -/
theorem C07_no_range (data a b : Bytes) :
    offsetsBetween data a b = none ↔
      ¬ Occurs a data ∨ ∃ pre post, data = pre ++ a ++ post ∧ FirstAt a data pre.length ∧
        (¬ Occurs b post ∨ ∃ post', post = b ++ post') := by
  unfold offsetsBetween
  cases hk : find a data with
  | none => simp [find_eq_none_iff.mp hk]
  | some k =>
    rw [find_eq_some_iff] at hk
    obtain ⟨pre, post, e, rfl⟩ := hk.1
    have hoc : Occurs a data := ⟨pre, post, e⟩
    have hd : data.drop (pre.length + a.length) = post := by
      rw [e, ← List.length_append]; simp
    simp only [hd, hoc, not_true_eq_false, false_or]
    have hkey : (∃ pre post, data = pre ++ a ++ post ∧ FirstAt a data pre.length ∧
        (¬ Occurs b post ∨ ∃ post', post = b ++ post')) ↔ (¬ Occurs b post ∨ ∃ post', post = b ++ post') := by
      constructor
      · rintro ⟨pre', post'', e2, hf2, h⟩
        have hl : pre'.length = pre.length := hf2.unique hk
        have e3 := e.symm.trans e2
        rw [List.append_assoc, List.append_assoc] at e3
        obtain ⟨_, e4⟩ := List.append_inj e3 hl.symm
        have e5 := List.append_cancel_left e4
        rwa [e5]
      · intro h
        exact ⟨pre, post, e, hk, h⟩
    rw [hkey]
    cases hm : find b post with
    | none => simp [find_eq_none_iff.mp hm]
    | some m =>
      rw [find_eq_some_iff] at hm
      have hob : Occurs b post := by
        obtain ⟨x, y, e, _⟩ := hm.1
        exact ⟨x, y, e⟩
      simp only [hob, not_true_eq_false, false_or]
      constructor
      · intro h
        split at h
        · simp at h
        · have : m = 0 := by omega
          subst this
          obtain ⟨x, y, e, hx⟩ := hm.1
          have : x = [] := List.length_eq_zero_iff.mp hx
          subst this
          exact ⟨y, by simpa using e⟩
      · rintro ⟨y, rfl⟩
        have : m = 0 := by
          have := hm.2 0 ⟨[], y, by simp, rfl⟩
          omega
        subst this
        simp

example : offsetsBetween bytes!"a<bc>d>" bytes!"<" bytes!">" = some (2, 4) := by decide
example : offsetsBetween bytes!"a<>d>" bytes!"<" bytes!">" = none ∧ offsetsBetween bytes!"a" [] [] = none := by decide

/-! ### C08 -/

/-- C08: a demo is reported aborted exactly when it contains the vote print. -/
theorem C08_is_aborted (data : Bytes) : isAborted data = true ↔ Occurs Spec.stoppedByVote data := by
  have : MATCH_STOPPED_PRINT = Spec.stoppedByVote := by decide
  rw [isAborted, this, find_isSome_iff]

example : isAborted ([1, 2] ++ Spec.stoppedByVote ++ [3]) = true ∧ isAborted (Spec.stoppedByVote.drop 1) = false := by
  decide +kernel

/-! ### C09 -/

theorem endOfDemo_eq : END_OF_DEMO = Spec.endOfDemo := by decide

/-- C09: the end-of-demo check. -/
theorem C09_end_of_demo (data : Bytes) : hasEndOfDemoPrint data = true ↔ Spec.EndsWithMarker data := by
  have h12 : Spec.endOfDemo.length = 12 := by decide
  unfold hasEndOfDemoPrint Spec.EndsWithMarker
  rw [endOfDemo_eq]
  simp only [Bool.and_eq_true, decide_eq_true_eq, beq_iff_eq, h12]
  constructor
  · rintro ⟨hl, he⟩
    refine ⟨data.take (data.length - 12), ?_, ?_⟩
    · intro h
      have := congrArg List.length h
      simp at this
      omega
    · rw [← he, List.take_append_drop]
  · rintro ⟨pre, hne, rfl⟩
    have : 0 < pre.length := List.length_pos_iff.mpr hne
    simp [h12]
    omega

example : Spec.EndsWithMarker (8 :: Spec.endOfDemo) ∧ ¬ Spec.EndsWithMarker Spec.endOfDemo := by
  rw [← C09_end_of_demo, ← C09_end_of_demo]; decide

/-! ### C10, C11 -/

/-- C10: pause detection. -/
theorem C10_is_paused (data : Bytes) :
    isPaused data = true ↔
      ¬ Spec.EndsWithMarker data ∧ (Occurs bytes!"Server is paused" data ∨ Occurs bytes!"paused the game" data) := by
  have h1 : IS_PAUSED_NEEDLE = bytes!"Server is paused" := by decide
  have h2 : PAUSED_THE_GAME_NEEDLE = bytes!"paused the game" := by decide
  unfold isPaused
  rw [h1, h2, ← C09_end_of_demo]
  cases h : hasEndOfDemoPrint data with
  | true => simp
  | false => simp only [Bool.false_eq_true, if_false, Bool.or_eq_true, rfind_isSome_iff]; simp

example : isPaused bytes!"x paused the game" = true ∧ isPaused bytes!"x" = false := by decide +kernel

/-- C11: a valid demo is not reported paused. -/
theorem C11_valid_not_paused (g : Env) (data : Bytes) (h : isValid g data = .ok true) : isPaused data = false := by
  unfold isValid at h
  split at h
  · split at h
    · rename_i he
      simp [isPaused, he]
    · simp at h
  · simp at h

/-! ### C14, C15, C16: serverinfo -/

theorem firstAt_byte {b : UInt8} {mid post : Bytes} : FirstAt [b] (mid ++ [b] ++ post) mid.length ↔ b ∉ mid := by
  rw [← find_eq_some_iff]
  have h := findByte_eq_some_iff (b := b) (hay := mid ++ [b] ++ post) (i := mid.length)
  unfold findByte at h
  rw [h]
  constructor
  · rintro ⟨pre, post', e, hl, hn⟩
    rw [List.append_assoc] at e
    rwa [(List.append_inj e hl.symm).1]
  · intro hn
    exact ⟨mid, post, by simp, rfl, hn⟩

theorem serverinfoString_eq (g : Env) (data : Bytes) (hl : 1280 ≤ data.length) :
    serverinfoString g data = match offsetsBetween (data.take 1280) bytes!"fullserverinfo \"" bytes!"\"" with
      | none => .err .serverinfoNotFound
      | some (i, j) => .ok (g.toUtf8 ((data.drop i).take (j - i))) := by
  have h : ¬ data.length < 1280 := by omega
  simp only [serverinfoString, sliceTo, Nat.reduceAdd]
  rw [if_pos hl]
  simp only [R.bind]
  cases h : offsetsBetween (data.take 1280) bytes!"fullserverinfo \"" bytes!"\"" with
  | none => rfl
  | some p =>
    obtain ⟨i, j⟩ := p
    obtain ⟨pre, mid, post, e, _, _, _, rfl, rfl⟩ := (C07_offsets_between _ _ _ _ _).mp h
    have := congrArg List.length e
    simp at this
    simp only
    rw [slice_ok (by omega) (by simp; omega)]

/-- C14: `serverinfo_string` returns exactly that text (decoded). -/
theorem C14_serverinfo_string (g : Env) (data : Bytes) (hl : 1280 ≤ data.length) (s : Str) :
    serverinfoString g data = .ok s ↔ ∃ text, Spec.ServerinfoText data text ∧ s = g.toUtf8 text := by
  rw [serverinfoString_eq g data hl]
  have hq : (bytes!"\"") = [(34 : UInt8)] := rfl
  constructor
  · intro h
    split at h
    · simp at h
    rename_i i j ho
    simp only [R.ok.injEq] at h
    obtain ⟨pre, mid, post, e, hne, hf, hb, rfl, rfl⟩ := (C07_offsets_between _ _ _ _ _).mp ho
    refine ⟨mid, ⟨pre, post, e, hf, hne, ?_⟩, ?_⟩
    · rwa [hq, firstAt_byte] at hb
    · rw [← h]
      congr 1
      have e2 : data = data.take 1280 ++ data.drop 1280 := (List.take_append_drop ..).symm
      rw [e] at e2
      rw [e2, ← List.length_append]
      simp
  · rintro ⟨text, ⟨pre, post, e, hf, hne, hn⟩, rfl⟩
    have ho : offsetsBetween (data.take 1280) bytes!"fullserverinfo \"" bytes!"\"" =
        some (pre.length + 16, pre.length + 16 + text.length) :=
      (C07_offsets_between _ _ _ _ _).mpr ⟨pre, text, post, e, hne, hf, by rw [hq, firstAt_byte]; exact hn, rfl, rfl⟩
    rw [ho]
    simp only [R.ok.injEq]
    congr 1
    have e2 : data = data.take 1280 ++ data.drop 1280 := (List.take_append_drop ..).symm
    rw [e] at e2
    have h16 : (pre ++ bytes!"fullserverinfo \"").length = pre.length + 16 := by simp
    rw [e2, ← h16]
    simp

/-- C14: otherwise it fails with "Serverinfo not found". -/
theorem C14_serverinfo_error (g : Env) (data : Bytes) (hl : 1280 ≤ data.length) :
    (serverinfoString g data = .err .serverinfoNotFound ↔ ¬ ∃ text, Spec.ServerinfoText data text) ∧
    (∀ text text', Spec.ServerinfoText data text → Spec.ServerinfoText data text' → text = text') := by
  constructor
  · constructor
    · rintro h ⟨text, ht⟩
      have := (C14_serverinfo_string g data hl _).mpr ⟨text, ht, rfl⟩
      rw [h] at this
      simp at this
    · intro h
      rw [serverinfoString_eq g data hl]
      split
      · rfl
      · rename_i i j ho
        have hh := serverinfoString_eq g data hl
        rw [ho] at hh
        obtain ⟨text, ht, _⟩ := (C14_serverinfo_string g data hl _).mp hh
        exact absurd ⟨text, ht⟩ h
  · rintro text text' ⟨pre, post, e, hf, _, hn⟩ ⟨pre', post', e', hf', _, hn'⟩
    have hl := hf.unique hf'
    have e2 := e.symm.trans e'
    simp only [List.append_assoc] at e2
    obtain ⟨_, e3⟩ := List.append_inj e2 hl
    have e4 := List.append_cancel_left e3
    have f1 := (firstAt_byte (b := 34) (mid := text) (post := post)).mpr hn
    have f2 := (firstAt_byte (b := 34) (mid := text') (post := post')).mpr hn'
    simp only [List.append_assoc] at f1 f2
    rw [e4] at f1
    exact (List.append_inj e4 (f1.unique f2)).1

/-- C14: the settings are those of this text, and fail with it. -/
theorem C14_settings (g : Env) (data : Bytes) :
    (∀ s, serverinfo g data = .ok s ↔ ∃ text, serverinfoString g data = .ok text ∧ s = g.settings text) ∧
    (∀ e, serverinfo g data = .err e ↔ serverinfoString g data = .err e) ∧
    (serverinfo g data = .panic ↔ serverinfoString g data = .panic) := by
  unfold serverinfo
  cases serverinfoString g data <;> simp [R.bind, eq_comm]

/-- C14: only the first 1280 bytes matter. -/
theorem C14_serverinfo_local (g : Env) (data data' : Bytes) (hl : 1280 ≤ data.length) (hl' : 1280 ≤ data'.length)
    (h : data.take 1280 = data'.take 1280) : serverinfoString g data = serverinfoString g data' := by
  have key : ∀ d : Bytes, 1280 ≤ d.length → serverinfoString g d =
      match offsetsBetween (d.take 1280) bytes!"fullserverinfo \"" bytes!"\"" with
      | none => .err .serverinfoNotFound
      | some (i, j) => .ok (g.toUtf8 (((d.take 1280).drop i).take (j - i))) := by
    intro d hd
    rw [serverinfoString_eq g d hd]
    cases ho : offsetsBetween (d.take 1280) bytes!"fullserverinfo \"" bytes!"\"" with
    | none => rfl
    | some p =>
      obtain ⟨i, j⟩ := p
      simp only
      obtain ⟨pre, mid, post, e, _, _, _, rfl, rfl⟩ := (C07_offsets_between _ _ _ _ _).mp ho
      have := congrArg List.length e
      simp at this
      rw [List.drop_take, List.take_take]
      congr 3
      simp
      omega
  rw [key data hl, key data' hl', h]

/-- Data of 1300 bytes with a serverinfo. -/
def Example.serverinfoData : Bytes :=
  [1, 2, 9] ++ bytes!"fullserverinfo \"\\mode\\1on1\\serverdemo\\a.mvd\\epoch\\77\"" ++ List.replicate 1300 10

example : 1280 ≤ Example.serverinfoData.length ∧
    serverinfoString Example.debug Example.serverinfoData = .ok chars!"\\mode\\1on1\\serverdemo\\a.mvd\\epoch\\77" := by
  decide +kernel

/-- C15: the exact panic condition of everything derived from serverinfo alone. -/
theorem C15_short_data (g : Env) (data : Bytes) :
    (serverinfoString g data = .panic ↔ data.length < 1280) ∧ (serverinfo g data = .panic ↔ data.length < 1280) ∧
    (filename g data = .panic ↔ data.length < 1280) ∧ (timestampFromEpoch g data = .panic ↔ data.length < 1280) := by
  have h1 : serverinfoString g data = .panic ↔ data.length < 1280 := by
    constructor
    · intro h
      refine Nat.lt_of_not_le fun hle => ?_
      rw [serverinfoString_eq g data hle] at h
      split at h <;> simp at h
    · intro h
      simp only [serverinfoString, sliceTo, Nat.reduceAdd]
      rw [if_neg (by omega)]
      rfl
  have h2 : serverinfo g data = .panic ↔ data.length < 1280 := by
    rw [← h1]
    unfold serverinfo
    cases serverinfoString g data <;> simp [R.bind]
  refine ⟨h1, h2, ?_, ?_⟩
  · rw [← h2]
    unfold filename
    cases serverinfo g data with
    | ok s => simp only [R.bind]; cases s.serverdemo <;> simp
    | _ => simp [R.bind]
  · rw [← h2]
    unfold timestampFromEpoch
    cases serverinfo g data with
    | ok s => simp only [R.bind]; cases s.epoch <;> simp
    | _ => simp [R.bind]

/-- C15, consequence for the functions that consult the serverinfo first. -/
theorem C15_short_data_derived (g : Env) (data : Bytes) (h : data.length < 1280) :
    timestamp g data = .panic ∧ countdownDuration g data = .panic ∧ matchDuration g data = .panic := by
  have h1 := (C15_short_data g data).2.2.2.mpr h
  have h2 := (C15_short_data g data).2.1.mpr h
  refine ⟨?_, ?_, ?_⟩
  · simp [timestamp, h1, R.orElse]
  · simp [countdownDuration, isHoonymode, h2, R.isOkAnd, R.bind]
  · simp [matchDuration, isHoonymode, h2, R.isOkAnd, R.bind]

example : serverinfo Example.release (List.replicate 1279 10) = .panic := by decide +kernel

/-- C16: `filename` is the serverdemo entry of the serverinfo. -/
theorem C16_filename (g : Env) (data : Bytes) (hl : 1280 ≤ data.length) (name : Str) :
    filename g data = .ok name ↔
      ∃ text, Spec.ServerinfoText data text ∧ (g.settings (g.toUtf8 text)).serverdemo = some name := by
  unfold filename serverinfo
  constructor
  · intro h
    cases hs : serverinfoString g data with
    | ok s =>
      obtain ⟨text, ht, rfl⟩ := (C14_serverinfo_string g data hl s).mp hs
      refine ⟨text, ht, ?_⟩
      simp only [hs, R.bind] at h
      split at h
      · simp at h
      · rename_i d hd; simp at h; rw [hd, h]
    | _ => simp [hs, R.bind] at h
  · rintro ⟨text, ht, hd⟩
    simp [(C14_serverinfo_string g data hl _).mpr ⟨text, ht, rfl⟩, R.bind, hd]

/-- C16: the errors of `filename`. -/
theorem C16_filename_errors (g : Env) (data : Bytes) (hl : 1280 ≤ data.length) :
    (filename g data = .err .serverinfoNotFound ↔ ¬ ∃ text, Spec.ServerinfoText data text) ∧
    (filename g data = .err .filenameNotFound ↔
      ∃ text, Spec.ServerinfoText data text ∧ (g.settings (g.toUtf8 text)).serverdemo = none) := by
  by_cases h : ∃ text, Spec.ServerinfoText data text
  · obtain ⟨text, ht⟩ := h
    have e := (C14_serverinfo_string g data hl _).mpr ⟨text, ht, rfl⟩
    have key : (∃ t, Spec.ServerinfoText data t ∧ (g.settings (g.toUtf8 t)).serverdemo = none) ↔
        (g.settings (g.toUtf8 text)).serverdemo = none := by
      constructor
      · rintro ⟨t, h1, h2⟩
        rwa [(C14_serverinfo_error g data hl).2 _ _ ht h1]
      · exact fun h => ⟨text, ht, h⟩
    rw [key]
    simp only [filename, serverinfo, e, R.bind]
    cases hd : (g.settings (g.toUtf8 text)).serverdemo <;> simp [show ∃ t, Spec.ServerinfoText data t from ⟨text, ht⟩]
  · have e := (C14_serverinfo_error g data hl).1.mpr h
    have : ¬ ∃ t, Spec.ServerinfoText data t ∧ (g.settings (g.toUtf8 t)).serverdemo = none := fun ⟨t, h1, _⟩ => h ⟨t, h1⟩
    simp [filename, serverinfo, e, R.bind, h, this]

example : filename Example.debug Example.serverinfoData = .ok chars!"a.mvd" := by decide +kernel

/-! ### C12, C13: validity -/

/-- C12: what a valid demo guarantees. -/
theorem C12_valid (g : Env) (data : Bytes) (h : isValid g data = .ok true) :
    1280 ≤ data.length ∧ Spec.EndsWithMarker data ∧
    (∃ text, Spec.ServerinfoText data text ∧ serverinfoString g data = .ok (g.toUtf8 text) ∧
      serverinfo g data = .ok (g.settings (g.toUtf8 text))) ∧
    (∃ infos cs, clientinfo g data = .ok infos ∧ infos ≠ [] ∧ clients g data = .ok cs ∧ cs.length = infos.length) ∧
    (∃ x, playerClients g data = .ok x) ∧ (∃ x, spectatorClients g data = .ok x) ∧
    (∃ x, playerNames g data = .ok x) ∧ (∃ x, spectatorNames g data = .ok x) ∧ (∃ x, teamNames g data = .ok x) ∧
    (∃ x, hasHumanPlayers g data = .ok x) ∧ (∃ x, hasBotPlayers g data = .ok x) := by
  unfold isValid at h
  split at h
  case isFalse => simp at h
  split at h
  case isFalse => simp at h
  rename_i h1 h2
  have hlen : 1280 ≤ data.length := by
    refine Nat.le_of_not_lt fun hlt => ?_
    simp [R.isOk, (C15_short_data g data).2.1.mpr hlt, R.isOkAnd, R.bind] at h
  have hsi : ∃ text, Spec.ServerinfoText data text := by
    by_cases ht : ∃ text, Spec.ServerinfoText data text
    · exact ht
    · have := (C14_serverinfo_error g data hlen).1.mpr ht
      simp [serverinfo, this, R.isOk, R.isOkAnd, R.bind] at h
  obtain ⟨text, ht⟩ := hsi
  have hss := (C14_serverinfo_string g data hlen _).mpr ⟨text, ht, rfl⟩
  have hs : serverinfo g data = .ok (g.settings (g.toUtf8 text)) := by simp [serverinfo, hss, R.bind]
  simp only [hs, R.isOk, R.isOkAnd, R.bind, hasClients] at h
  cases hc : clientinfo g data with
  | ok infos =>
    simp only [hc, R.ok.injEq, Bool.not_eq_true', List.isEmpty_eq_false_iff] at h
    obtain ⟨cs, hcs, hcl⟩ : ∃ cs, clients g data = .ok cs ∧ cs.length = infos.length := by simp [clients, hc, R.bind]
    refine ⟨hlen, (C09_end_of_demo data).mp h2, ⟨text, ht, hss, hs⟩, ⟨infos, cs, rfl, h, hcs, hcl⟩, ?_⟩
    simp only [hasBotPlayers, hasHumanPlayers, playerNames, spectatorNames, teamNames, playerClients, spectatorClients,
      hcs, R.bind]
    refine ⟨⟨_, rfl⟩, ⟨_, rfl⟩, ⟨_, rfl⟩, ⟨_, rfl⟩, ⟨_, rfl⟩, ⟨_, rfl⟩, ?_⟩
    split <;> exact ⟨_, rfl⟩
  | _ => simp [hc] at h

/-- C12: and nothing more is required: these are exactly the conditions for validity. -/
theorem C12_exact (g : Env) (data : Bytes) :
    isValid g data = .ok true ↔
      1280 ≤ data.length ∧ Spec.EndsWithMarker data ∧ (∃ text, Spec.ServerinfoText data text) ∧
      ∃ strings, clientinfoStrings g data = .ok strings ∧ strings ≠ [] := by
  constructor
  · intro h
    obtain ⟨h1, h2, ⟨text, h3, _⟩, ⟨infos, cs, h4, h5, _⟩, _⟩ := C12_valid g data h
    refine ⟨h1, h2, ⟨text, h3⟩, ?_⟩
    unfold clientinfo at h4
    cases hc : clientinfoStrings g data with
    | ok strings =>
      rw [hc] at h4
      simp only [R.bind, R.ok.injEq] at h4
      refine ⟨strings, rfl, ?_⟩
      rintro rfl
      exact h5 h4.symm
    | _ => rw [hc] at h4; simp [R.bind] at h4
  · rintro ⟨h1, h2, ⟨text, h3⟩, strings, h4, h5⟩
    have hss := (C14_serverinfo_string g data h1 _).mpr ⟨text, h3, rfl⟩
    unfold isValid
    rw [if_pos (by omega), if_pos ((C09_end_of_demo data).mpr h2)]
    simp only [serverinfo, hss, R.isOk, R.isOkAnd, R.bind, hasClients, clientinfo, h4]
    cases strings with
    | nil => exact absurd rfl h5
    | cons a l => rfl

/-- C12: a demo has clients if at least one userinfo string is found. -/
theorem C12_has_clients (g : Env) (data : Bytes) :
    (hasClients g data = .ok true ↔ ∃ strings, clientinfoStrings g data = .ok strings ∧ strings ≠ []) ∧
    (hasClients g data = .ok false ↔ clientinfoStrings g data = .ok [] ∨ ∃ e, clientinfoStrings g data = .err e) ∧
    (hasClients g data = .panic ↔ clientinfoStrings g data = .panic) := by
  unfold hasClients clientinfo R.isOkAnd
  cases clientinfoStrings g data with
  | ok strings => cases strings <;> simp [R.bind]
  | _ => simp [R.bind]

/-- C13: `is_valid` answers or panics, never fails otherwise, and panics exactly in the stated cases (C19 says when the
client scan panics). -/
theorem C13_valid_panics (g : Env) (data : Bytes) :
    (isValid g data = .panic ↔ Spec.EndsWithMarker data ∧
      ((1024 ≤ data.length ∧ data.length < 1280) ∨
        (1280 ≤ data.length ∧ (∃ text, Spec.ServerinfoText data text) ∧ clientinfoStrings g data = .panic))) ∧
    (isValid g data = .panic ∨ ∃ b, isValid g data = .ok b) := by
  have hnh : clientinfoStrings g data ≠ .hang := by
    rcases clientinfoStrings_cases g data with ⟨h, _⟩ | ⟨_, _, _, _, _, ⟨h, _⟩ | ⟨h, _⟩⟩ <;> simp [h]
  unfold isValid
  by_cases h1 : data.length ≥ 1024
  case neg =>
    rw [if_neg h1]
    refine ⟨⟨fun h => by simp at h, ?_⟩, .inr ⟨_, rfl⟩⟩
    rintro ⟨_, h | h⟩ <;> omega
  rw [if_pos h1]
  cases h2 : hasEndOfDemoPrint data with
  | false =>
    have : ¬ Spec.EndsWithMarker data := by rw [← C09_end_of_demo]; simp [h2]
    simp [this]
  | true =>
    have hm : Spec.EndsWithMarker data := (C09_end_of_demo data).mp h2
    simp only [if_true, hm, true_and]
    by_cases hl : data.length < 1280
    · have hp := (C15_short_data g data).2.1.mpr hl
      simp only [hp, R.isOk, R.isOkAnd, R.bind]
      simp
      exact .inl ⟨h1, hl⟩
    · have hl : 1280 ≤ data.length := by omega
      have hn : ¬ data.length < 1280 := by omega
      simp only [hn, and_false, false_or, hl, true_and]
      by_cases ht : ∃ text, Spec.ServerinfoText data text
      · have ht' := ht
        obtain ⟨text, ht⟩ := ht
        have hss := (C14_serverinfo_string g data hl _).mpr ⟨text, ht, rfl⟩
        simp only [serverinfo, hss, R.bind, R.isOk, R.isOkAnd, ht', true_and, hasClients, clientinfo]
        cases hc : clientinfoStrings g data with
        | ok x => simp [Classical.em]
        | err x => simp
        | panic => simp
        | hang => exact absurd hc hnh
      · have := (C14_serverinfo_error g data hl).1.mpr ht
        simp [serverinfo, this, R.bind, R.isOk, R.isOkAnd, ht]

/-- C13, counterexample: data that is not a demo, of 1100 bytes, makes `is_valid` panic. -/
theorem C13_witness : isValid Example.release (List.replicate 1088 10 ++ Spec.endOfDemo) = .panic := by
  decide +kernel

/-- C13, counterexample of the second kind: a demo with serverinfo whose only client string is followed by less than 512
bytes. -/
theorem C13_witness_scan : isValid Example.release
    (Example.serverinfoData ++ Spec.spawnCommand ++ [0] ++ bytes!"\\name\\a" ++ [0] ++ Spec.endOfDemo) = .panic := by
  decide +kernel

/-- A valid demo of two clients. -/
def Example.validData : Bytes :=
  Example.serverinfoData ++ Spec.spawnCommand ++ [0] ++ bytes!"\\name\\a\\team\\red" ++ [0, 7, 0] ++
    bytes!"\\*spectator\\1\\name\\b" ++ [0] ++ List.replicate 600 10 ++ Spec.endOfDemo

example : isValid Example.debug Example.validData = .ok true := by decide +kernel

/-- A demo with clients and one without. -/
example : hasClients Example.debug Example.validData = .ok true ∧ hasClients Example.debug [] = .ok false := by decide +kernel

end Mvd

import Verif.Lemmas.Prints
import Verif.Lemmas.Events
import Verif.Lemmas.Map
import Verif.Spec.Frags

/-! `frags_per_player_name` over a sequence of frames. -/

namespace Mvd
open Spec

/-! ### Trimming -/

theorem isWhitespace_iff (c : Char) : isWhitespace c = true ↔ c.toNat ∈ whiteSpace := by
  simp only [isWhitespace, whiteSpace, Bool.or_eq_true, Bool.and_eq_true, decide_eq_true_eq, beq_iff_eq, List.mem_cons,
    List.not_mem_nil, or_false]
  omega

theorem trimEnd_trims (s : Str) : Trims s (trimEnd s) := by
  refine ⟨(s.reverse.takeWhile isWhitespace).reverse, ?_, ?_, ?_⟩
  · rw [trimEnd, ← List.reverse_append, List.takeWhile_append_dropWhile, List.reverse_reverse]
  · intro c hc
    rw [List.mem_reverse] at hc
    have := List.all_takeWhile (l := s.reverse) (p := isWhitespace)
    rw [List.all_eq_true] at this
    exact (isWhitespace_iff c).mp (this c hc)
  · intro c hc
    rw [trimEnd, List.getLast?_reverse] at hc
    rw [← isWhitespace_iff]
    have := List.head?_dropWhile_not isWhitespace s.reverse
    rw [hc] at this
    simpa using this

theorem trims_unique {s t t' : Str} (h : Trims s t) (h' : Trims s t') : t = t' := by
  have key : ∀ {s t : Str}, Trims s t → trimEnd s = t := by
    rintro s t ⟨ws, rfl, hw, ht⟩
    rw [trimEnd, List.reverse_append, List.dropWhile_append]
    have h1 : ws.reverse.dropWhile isWhitespace = [] := by
      have : ∀ l : Str, (∀ c ∈ l, isWhitespace c = true) → l.dropWhile isWhitespace = [] := by
        intro l
        induction l with
        | nil => simp
        | cons a l ih =>
          intro h
          rw [List.dropWhile_cons_of_pos (h a (by simp))]
          exact ih fun c hc => h c (by simp [hc])
      apply this
      intro c hc
      exact (isWhitespace_iff c).mpr (hw c (by simpa using hc))
    rw [h1]
    simp only [List.isEmpty_nil, if_true]
    cases hr : t.reverse with
    | nil => simpa using hr.symm
    | cons c l =>
      have hc : t.getLast? = some c := by rw [List.getLast?_eq_head?_reverse, hr]; rfl
      have := ht c hc
      rw [← isWhitespace_iff] at this
      rw [List.dropWhile_cons_of_neg this, ← hr, List.reverse_reverse]
  rw [← key h, ← key h']

theorem announces_unique {u : Bytes → Str} {body : Bytes} {a b : Str} {m n : Bytes} (h : Announces u body a m)
    (h' : Announces u body b n) : a = b ∧ m = n := by
  obtain ⟨p, hp, _, _, e, ht⟩ := h
  obtain ⟨q, hq, _, _, e', ht'⟩ := h'
  obtain ⟨rfl, rfl⟩ := print_encode_inj hp hq (e.symm.trans e')
  exact ⟨trims_unique ht ht', rfl⟩

/-! ### The first loop -/

/-- The entry of a frame in the list of prints. -/
def entryOf (g : Env) (i : Nat) (f : Frame) : List (Print × FrameInfo) :=
  match (Cursor.new f.body).readMessageType g with
  | (some t, body) =>
    if t = .print then
      match body.readPrint g with
      | (some p, _) => if !p.content.isEmpty ∧ p.id = .medium then [(p, infoOf i f)] else []
      | (none, _) => []
    else []
  | (none, _) => []

theorem entryOf_some (g : Env) (i : Nat) (f : Frame) (p : PrintMsg) (t : Bytes) (hp : p.WF) (h : f.body = p.encode ++ t) :
    entryOf g i f = if p.level = 1 ∧ p.text ≠ [] then [(p.reported, infoOf i f)] else [] := by
  rw [encode_eq] at h
  simp only [entryOf, h, Cursor.new, readMessageType_cons, ofByte_print, if_true, readPrint_some g p hp]
  have e : (p.reported.content = p.text) := rfl
  have e' : (p.reported.id = p.id) := rfl
  simp only [e, e', id_medium, Bool.not_eq_true', List.isEmpty_eq_false_iff]
  by_cases h1 : p.level = 1 <;> by_cases h2 : p.text = [] <;> simp [h1, h2]

theorem entryOf_none (g : Env) (i : Nat) (f : Frame) (h : NoPrint f.body) : entryOf g i f = [] := by
  unfold entryOf
  cases hb : f.body with
  | nil => simp [Cursor.new, readMessageType_nil]
  | cons b t =>
    simp only [Cursor.new, readMessageType_cons, ofByte_print]
    by_cases h8 : b = 8
    · subst h8
      rw [hb] at h
      obtain ⟨q, hq⟩ := readPrint_none g (0 + 1) t h
      simp [hq]
    · simp [h8]

theorem print_or_not (body : Bytes) : NoPrint body ∨ ∃ (p : PrintMsg) (t : Bytes), p.WF ∧ body = p.encode ++ t := by
  by_cases h : NoPrint body
  · exact .inl h
  · simp only [NoPrint, not_forall, ne_eq, not_not] at h
    obtain ⟨p, t, hp, e⟩ := h
    exact .inr ⟨p, t, hp, e⟩

theorem printFrames_def (g : Env) (data : Bytes) :
    printFrames g data = frameLoopFrom g data 0 [] (printFramesBody g data) := rfl

theorem printFrames_describes (g : Env) (data : Bytes) :
    Describes data (printFramesBody g data) (fun acc i f => .ok (.next (acc ++ entryOf g i f))) := by
  intro s pre f post h
  have hb := body_encode h
  unfold printFramesBody
  have hs : (infoOf pre.length f).bodySize = f.body.length := rfl
  rw [hs]
  by_cases h0 : f.body = []
  · simp [h0, entryOf_none g pre.length f (by rw [h0]; exact noPrint_nil)]
  · rw [if_neg (by simpa using h0), hb]
    simp only [R.bind, entryOf]
    rcases hm : (Cursor.new f.body).readMessageType g with ⟨_ | t, c⟩
    · simp
    · simp only
      by_cases ht : t = .print
      · simp only [ht, if_true]
        rcases hp : c.readPrint g with ⟨_ | p, c'⟩
        · simp
        · simp only
          split <;> simp
      · simp [ht]

/-- The entries of consecutive frames. -/
def entries (g : Env) : Nat → List Frame → List (Print × FrameInfo)
  | _, [] => []
  | i, f :: fs => entryOf g i f ++ entries g (i + f.encode.length) fs

theorem runFrames_entries (g : Env) : ∀ (fs : List Frame) (i : Nat) (acc : List (Print × FrameInfo)),
    runFrames (fun acc i f => .ok (.next (acc ++ entryOf g i f))) i acc fs = .ok (.next (acc ++ entries g i fs))
  | [], i, acc => by simp [runFrames, entries]
  | f :: fs, i, acc => by
    simp only [runFrames, R.bind, entries]
    rw [runFrames_entries g fs]
    simp

theorem printFrames_stops (g : Env) {data : Bytes} {fs : List Frame} {rest : Bytes} (h : Splits data fs rest)
    (hs : Stops data.length rest) : printFrames g data = .ok (entries g 0 fs) := by
  have := walk_stops g (printFrames_describes g data) h.2.1 (pre := []) (by simpa using h.1) hs []
  simp only [List.length_nil] at this
  rw [printFrames_def, this, runFrames_entries]
  simp [finish]

theorem printFrames_overruns (g : Env) {data : Bytes} {fs : List Frame} {rest : Bytes} (h : Splits data fs rest)
    (hs : Overruns data.length rest) : printFrames g data = .panic := by
  obtain ⟨d, fl, hh, b, _, hlt, hb, _, e⟩ :=
    walk_overruns g (printFrames_describes g data) h.2.1 (pre := []) (by simpa using h.1) hs []
  simp only [List.length_nil] at e
  rw [printFrames_def, e, runFrames_entries]
  simp only [R.bind]
  have : printFramesBody g data ([] ++ entries g 0 fs) (infoAt (0 + (Spec.encode fs).length) d fl hh b) = .panic := by
    unfold printFramesBody
    rw [if_neg (by simp [infoAt]; omega), body_overrun (by simpa using hlt)]
    rfl
  rw [this]

/-! ### The look-ahead -/

/-- The update found in one frame. -/
def updateOf (g : Env) (c : Cursor) : List UInt8 :=
  match c.readMessageType g with
  | (some t, body) =>
    if t = .updateFrags then
      match body.readUpdateFrags g with
      | (some u, _) => [u.playerNumber]
      | (none, _) => []
    else []
  | (none, _) => []

theorem updateOf_eq (g : Env) (p : Nat) (l : Bytes) : updateOf g ⟨p, l⟩ = (scoreUpdate l).toList := by
  unfold updateOf
  match l with
  | [] => simp [readMessageType_nil, scoreUpdate]
  | b :: t =>
    simp only [readMessageType_cons, ofByte_updateFrags]
    by_cases hb : b = 14
    · subst hb
      simp only [if_true]
      match t with
      | [] => simp [Cursor.readUpdateFrags, readByte_nil, scoreUpdate]
      | [n] => simp [Cursor.readUpdateFrags, readByte_cons, Cursor.readU16, Cursor.readExact, scoreUpdate]
      | [n, a] => simp [Cursor.readUpdateFrags, readByte_cons, Cursor.readU16, Cursor.readExact, scoreUpdate]
      | n :: a :: c :: t => simp [Cursor.readUpdateFrags, readByte_cons, readU16_cons, scoreUpdate]
    · have : scoreUpdate (b :: t) = none := by
        unfold scoreUpdate
        split
        · rename_i h; simp at h; exact absurd h.1 hb
        · rfl
      simp [hb, this]

/-- The look-ahead on a frame. -/
def lookFrame (g : Env) (s : Nat × List UInt8) (_ : Nat) (f : Frame) : R (Step (Nat × List UInt8)) :=
  if s.1 ≥ 4 then .ok (.brk s)
  else if f.body = [] then .ok (.next s)
  else
    .ok (.next (s.1 + 1, s.2 ++ updateOf g (if s.1 = 1 then ((Cursor.new f.body).readPrint g).2 else Cursor.new f.body)))

theorem fragUpdatesFrom_def (g : Env) (data : Bytes) (index : Nat) :
    fragUpdatesFrom g data index = frameLoopFrom g data index (1, []) (lookBody g data) := rfl

theorem look_describes (g : Env) (data : Bytes) : Describes data (lookBody g data) (lookFrame g) := by
  rintro ⟨n, numbers⟩ pre f post h
  have hb := body_encode h
  unfold lookBody lookFrame
  simp only
  have hs : (infoOf pre.length f).bodySize = f.body.length := rfl
  rw [hs]
  by_cases h4 : n ≥ 4
  · simp [h4]
  · simp only [h4, if_false]
    by_cases h0 : f.body = []
    · simp [h0]
    · rw [if_neg (by simpa using h0), if_neg h0, hb]
      simp only [R.bind, updateOf]
      rcases hm : Cursor.readMessageType g (if n = 1 then ((Cursor.new f.body).readPrint g).2 else Cursor.new f.body)
        with ⟨_ | t, c⟩
      · simp
      · simp only
        by_cases ht : t = .updateFrags
        · simp only [ht, if_true]
          rcases hp : c.readUpdateFrags g with ⟨_ | p, c'⟩ <;> simp
        · simp [ht]

/-- The look-ahead over the frames after the first one. -/
theorem runFrames_look (g : Env) : ∀ (fs : List Frame) (i n : Nat) (numbers : List UInt8), 2 ≤ n → n ≤ 4 →
    ∃ m, (runFrames (lookFrame g) i (n, numbers) fs = .ok (.next (m, numbers ++
        ((fs.filter fun f => f.body ≠ []).take (4 - n)).filterMap fun f => scoreUpdate f.body))) ∨
      (runFrames (lookFrame g) i (n, numbers) fs = .ok (.brk (m, numbers ++
        ((fs.filter fun f => f.body ≠ []).take (4 - n)).filterMap fun f => scoreUpdate f.body)))
  | [], i, n, numbers, _, _ => ⟨n, .inl (by simp [runFrames])⟩
  | f :: fs, i, n, numbers, h2, h4 => by
    simp only [runFrames, lookFrame]
    by_cases hn : n ≥ 4
    · have : n = 4 := by omega
      subst this
      exact ⟨4, .inr (by simp [R.bind])⟩
    · simp only [hn, if_false]
      by_cases h0 : f.body = []
      · simp only [h0, if_true, R.bind]
        obtain ⟨m, hm⟩ := runFrames_look g fs (i + f.encode.length) n numbers h2 h4
        refine ⟨m, ?_⟩
        simpa [h0] using hm
      · simp only [h0, if_false, R.bind]
        rw [if_neg (by omega), Cursor.new, updateOf_eq]
        obtain ⟨m, hm⟩ := runFrames_look g fs (i + f.encode.length) (n + 1) (numbers ++ (scoreUpdate f.body).toList)
          (by omega) (by omega)
        refine ⟨m, ?_⟩
        have e4 : 4 - n = (4 - (n + 1)) + 1 := by omega
        have e : ((f :: fs).filter fun f => f.body ≠ []).take (4 - n) =
            f :: ((fs.filter fun f => f.body ≠ []).take (4 - (n + 1))) := by
          rw [e4]; simp [h0]
        rw [e]
        cases hu : scoreUpdate f.body with
        | none => simpa [hu] using hm
        | some u => simpa [hu] using hm

/-- The first frame of the look-ahead: reading a print from the message number on skips the whole print. -/
theorem readPrint_skips (g : Env) (p : PrintMsg) (hp : p.WF) (h1 : p.level = 1) (t : Bytes) :
    ∃ q, ((Cursor.new (p.encode ++ t)).readPrint g).2 = ⟨q, t⟩ := by
  have h8 : (0 : UInt8) ∉ p.level :: p.text := by
    rw [h1]
    simp only [List.mem_cons, not_or]
    exact ⟨by decide, hp⟩
  have : p.encode ++ t = 8 :: ((p.level :: p.text) ++ 0 :: t) := by rw [encode_eq]; rfl
  rw [this]
  simp only [Cursor.new]
  have := readPrint_some g ⟨8, p.level :: p.text⟩ h8 0 t
  rw [this]
  exact ⟨_, rfl⟩

theorem fragUpdates_eq (g : Env) {data pre : Bytes} {f : Frame} {later : List Frame} {rest : Bytes}
    (hwf : ∀ x ∈ f :: later, x.WF) (he : data = pre ++ Spec.encode (f :: later) ++ rest) (hs : Stops data.length rest)
    {p : PrintMsg} {more : Bytes} (hp : p.WF) (h1 : p.level = 1) (hb : f.body = p.encode ++ more) :
    ∃ m, fragUpdatesFrom g data pre.length = .ok (m, nearbyUpdates more later) := by
  have := walk_stops g (look_describes g data) hwf he hs (1, [])
  rw [fragUpdatesFrom_def, this]
  have h0 : f.body ≠ [] := by rw [hb, encode_eq]; simp
  obtain ⟨q, hq⟩ := readPrint_skips g p hp h1 more
  have hstep : runFrames (lookFrame g) pre.length (1, []) (f :: later) =
      runFrames (lookFrame g) (pre.length + f.encode.length) (2, (scoreUpdate more).toList) later := by
    simp only [runFrames, lookFrame]
    rw [if_neg (by omega), if_neg h0]
    simp only [R.bind, if_true]
    rw [hb, hq, updateOf_eq]
    simp
  rw [hstep]
  obtain ⟨m, hm | hm⟩ := runFrames_look g later (pre.length + f.encode.length) 2 (scoreUpdate more).toList (by omega) (by omega)
  · rw [hm]; exact ⟨m, rfl⟩
  · rw [hm]; exact ⟨m, rfl⟩

/-! ### The team killer -/

theorem find_firstClient {cs : List Client} {P : Client → Bool} {c : Client} :
    cs.find? P = some c ↔ FirstClient cs (fun c => P c = true) c := by
  rw [List.find?_eq_some_iff_append]
  constructor
  · rintro ⟨h, a, b, e, hn⟩
    exact ⟨a, b, e, h, by intro d hd; have := hn d hd; simpa using this⟩
  · rintro ⟨a, b, e, h, hn⟩
    exact ⟨h, a, b, e, by intro d hd; have := hn d hd; simpa using this⟩

theorem firstClient_unique {cs : List Client} {P : Client → Prop} {c d : Client} (h : FirstClient cs P c)
    (h' : FirstClient cs P d) : c = d := by
  obtain ⟨a, b, e, hc, hn⟩ := h
  obtain ⟨a', b', e', hd, hn'⟩ := h'
  rcases List.append_eq_append_iff.mp (e.symm.trans e') with ⟨l, hl, hm⟩ | ⟨l, hl, hm⟩
  · cases l with
    | nil => simp at hm; exact hm.1
    | cons x l =>
      simp only [List.cons_append, List.cons.injEq] at hm
      obtain ⟨rfl, _⟩ := hm
      exact absurd hc (hn' c (by rw [hl]; simp))
  · cases l with
    | nil => simp at hm; exact hm.1.symm
    | cons x l =>
      simp only [List.cons_append, List.cons.injEq] at hm
      obtain ⟨rfl, _⟩ := hm
      exact absurd hd (hn d (by rw [hl]; simp))

theorem suspect_unique {cs : List Client} {v c d : Client} {n : UInt8} (h : Suspect cs v n c) (h' : Suspect cs v n d) :
    c = d := firstClient_unique h.1 h'.1

/-- The search among the score updates. -/
def pick (cs : List Client) (v : Client) (numbers : List UInt8) : Option Client :=
  (numbers.filterMap fun n => cs.find? fun c => c.number = n.toNat).find? fun c => c.team = v.team ∧ c.name ≠ v.name

theorem pick_iff {cs : List Client} {v c : Client} : ∀ {numbers : List UInt8},
    pick cs v numbers = some c ↔ ∃ before n after, numbers = before ++ n :: after ∧
      (∀ m ∈ before, ∀ d, ¬ Suspect cs v m d) ∧ Suspect cs v n c
  | [] => by simp [pick]
  | n :: ns => by
    have hone : ∀ d, Suspect cs v n d ↔ (cs.find? (fun c => c.number = n.toNat) = some d ∧ d.team = v.team ∧ d.name ≠ v.name) := by
      intro d
      rw [Suspect, find_firstClient]
      simp
    have hcons : pick cs v (n :: ns) = some c ↔ (Suspect cs v n c ∨ (∀ d, ¬ Suspect cs v n d) ∧ pick cs v ns = some c) := by
      unfold pick
      cases hf : cs.find? (fun c => decide (c.number = n.toNat)) with
      | none =>
        have : ∀ d, ¬ Suspect cs v n d := by intro d hd; rw [hone, hf] at hd; simp at hd
        simp [hf, this]
      | some d =>
        have hd : ∀ x, Suspect cs v n x ↔ d = x ∧ x.team = v.team ∧ x.name ≠ v.name := by
          intro x; rw [hone, hf]; simp
        simp only [List.filterMap_cons, hf, List.find?_cons]
        by_cases hx : d.team = v.team ∧ d.name ≠ v.name
        · have h1 : ¬ ∀ x, ¬ Suspect cs v n x := fun h => h d ((hd d).mpr ⟨rfl, hx⟩)
          rw [show decide (d.team = v.team ∧ d.name ≠ v.name) = true by simpa using hx]
          simp only [Option.some.injEq]
          constructor
          · rintro rfl; exact .inl ((hd _).mpr ⟨rfl, hx⟩)
          · rintro (h | ⟨h, _⟩)
            · exact ((hd _).mp h).1
            · exact absurd h h1
        · have h1 : ∀ x, ¬ Suspect cs v n x := by
            intro x h; rw [hd] at h; obtain ⟨rfl, h⟩ := h; exact hx h
          rw [show decide (d.team = v.team ∧ d.name ≠ v.name) = false by simpa using hx]
          simp [h1]
    rw [hcons, pick_iff]
    constructor
    · rintro (h | ⟨h, before, m, after, rfl, hb, hs⟩)
      · exact ⟨[], n, ns, rfl, by simp, h⟩
      · refine ⟨n :: before, m, after, rfl, ?_, hs⟩
        intro x hx
        simp only [List.mem_cons] at hx
        rcases hx with rfl | hx
        exacts [h, hb x hx]
    · rintro ⟨before, m, after, e, hb, hs⟩
      cases before with
      | nil =>
        simp only [List.nil_append, List.cons.injEq] at e
        obtain ⟨rfl, rfl⟩ := e
        exact .inl hs
      | cons x before =>
        simp only [List.cons_append, List.cons.injEq] at e
        obtain ⟨rfl, rfl⟩ := e
        exact .inr ⟨hb n (by simp), before, m, after, rfl, fun y hy => hb y (by simp [hy]), hs⟩

/-- The blame as the code computes it. -/
def blame (cs : List Client) (numbers : List UInt8) (victim : Str) : Option Str :=
  (cs.find? fun c => c.name = victim).bind fun v => (pick cs v numbers).map (·.name)

theorem blame_iff {cs : List Client} {numbers : List UInt8} {victim k : Str} :
    blame cs numbers victim = some k ↔ Blamed cs numbers victim k := by
  unfold blame Blamed
  simp only [Option.bind_eq_some_iff, Option.map_eq_some_iff, pick_iff, find_firstClient, decide_eq_true_eq]
  constructor
  · rintro ⟨v, hv, c, ⟨b, n, a, e, hb, hs⟩, rfl⟩
    exact ⟨v, hv, b, n, a, e, hb, c, hs, rfl⟩
  · rintro ⟨v, hv, b, n, a, e, hb, c, hs, rfl⟩
    exact ⟨v, hv, c, ⟨b, n, a, e, hb, hs⟩, rfl⟩

/-- What the search for a team killer returns, given the score updates and the clients. -/
theorem findTeamKiller_eq (g : Env) (data : Bytes) (index : Nat) (victim : Str) {m : Nat} {numbers : List UInt8}
    (h : fragUpdatesFrom g data index = .ok (m, numbers)) :
    (numbers = [] → ∃ e, findTeamKiller g data index victim = .err e) ∧
    (numbers ≠ [] → clients g data = .panic → findTeamKiller g data index victim = .panic) ∧
    (numbers ≠ [] → ∀ e, clients g data = .err e → findTeamKiller g data index victim = .err e) ∧
    (∀ cs, clients g data = .ok cs →
      (∀ k, findTeamKiller g data index victim = .ok k ↔ Blamed cs numbers victim k) ∧
      ((∀ k, ¬ Blamed cs numbers victim k) → ∃ e, findTeamKiller g data index victim = .err e)) := by
  unfold findTeamKiller
  rw [h]
  simp only [R.bind, List.isEmpty_iff]
  refine ⟨?_, ?_, ?_, ?_⟩
  · intro h0; exact ⟨_, if_pos h0⟩
  · intro h0 hc; rw [if_neg h0, hc]
  · intro h0 e hc; rw [if_neg h0, hc]
  · intro cs hc
    simp only [← blame_iff]
    by_cases h0 : numbers = []
    · subst h0
      have : ∀ k, blame cs [] victim ≠ some k := by
        intro k hk
        rw [blame_iff] at hk
        obtain ⟨v, _, b, n, a, e, _⟩ := hk
        simp at e
      simp only [if_true, reduceCtorEq, false_iff]
      exact ⟨this, fun _ => ⟨_, rfl⟩⟩
    · simp only [h0, if_false, hc]
      unfold blame pick
      cases hv : cs.find? (fun c => decide (c.name = victim)) with
      | none => simp
      | some v =>
        simp only [Option.bind_some]
        cases hp : (numbers.filterMap fun n => cs.find? fun c => c.number = n.toNat).find?
          (fun c => decide (c.team = v.team ∧ c.name ≠ v.name)) with
        | none => simp
        | some c => simp

end Mvd

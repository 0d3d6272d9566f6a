import Verif.Props.Recorder
import Verif.Props.Report
import Verif.Props.Clients
import Verif.Props.Info

/-! C83: a complete recording is read back. -/

namespace Mvd
open Spec

/-! ### Occurrences -/

theorem occurs_skip {x : UInt8} {p : Bytes} : ∀ {a t : Bytes}, x ∉ a → Occurs (x :: p) (a ++ t) → Occurs (x :: p) t
  | [], _, _, h => h
  | b :: a, t, hx, h => by
    rw [List.cons_append] at h
    rcases occurs_cons h with h | h
    · obtain ⟨post, e⟩ := h
      simp only [List.cons_append, List.cons.injEq] at e
      exact absurd (by simp [e.1] : x ∈ b :: a) hx
    · exact occurs_skip (fun k => hx (.tail _ k)) h

/-- A word is found first where it is if its first two bytes do not occur before. -/
theorem firstAt_of_pair {x y : UInt8} {p pre post : Bytes} (h : ¬ Occurs [x, y] (pre ++ [x])) :
    FirstAt (x :: y :: p) (pre ++ x :: y :: p ++ post) pre.length := by
  refine ⟨⟨pre, post, by simp, rfl⟩, ?_⟩
  rintro j ⟨a, c, e, rfl⟩
  by_contra hlt
  apply h
  have hlt : a.length + 1 ≤ pre.length := by omega
  have e2 := congrArg (List.take (pre.length + 1)) e
  have l2 : List.take (pre.length + 1) (pre ++ x :: y :: p ++ post) = pre ++ [x] := by
    rw [show pre ++ x :: y :: p ++ post = (pre ++ [x]) ++ (y :: p ++ post) by simp, List.take_left' (by simp)]
  have r2 : List.take (pre.length + 1) (a ++ x :: y :: p ++ c) =
      a ++ [x, y] ++ List.take (pre.length + 1 - (a.length + 2)) (p ++ c) := by
    rw [show a ++ x :: y :: p ++ c = (a ++ [x, y]) ++ (p ++ c) by simp, List.take_append]
    rw [List.take_of_length_le (by simp; omega)]
    simp
  rw [l2, r2] at e2
  exact ⟨a, _, e2⟩

theorem not_mem_bytesOf {text : Str} (h : OneByte text) {b : UInt8} (hb : Char.ofNat b.toNat ∉ text) : b ∉ bytesOf text := by
  intro k
  obtain ⟨c, hc, e⟩ := List.mem_map.mp k
  refine hb ?_
  have := congrArg UInt8.toNat e
  simp only [UInt8.toNat_ofNat'] at this
  rw [Nat.mod_eq_of_lt (h c hc).2] at this
  rw [← this, Char.ofNat_toNat]
  exact hc

theorem occurs_bytesOf {p text : Str} (h : Occurs p text) : Occurs (bytesOf p) (bytesOf text) := by
  obtain ⟨a, b, rfl⟩ := h
  exact ⟨bytesOf a, bytesOf b, by simp [bytesOf]⟩

theorem length_bytesOf (text : Str) : (bytesOf text).length = text.length := by simp [bytesOf]

/-! ### The layout of a recording -/

/-- The bytes before the serverinfo. -/
theorem demo_info (r : Recording) : ∃ post,
    r.demo = ([0, 6] ++ le32 r.serverinfo.length ++ [9]) ++ bytes!"fullserverinfo \"" ++ bytesOf r.info ++ [34] ++ post :=
  ⟨bytes!"\n" ++ [0] ++ Spec.encode (Play.frames (⟨0, .all, .other r.spawn⟩ :: r.play ++ [⟨0, .all, .other Recording.disconnect⟩])), by
    have : r.demo = [0, 6] ++ le32 r.serverinfo.length ++ r.serverinfo ++
      Spec.encode (Play.frames (⟨0, .all, .other r.spawn⟩ :: r.play ++ [⟨0, .all, .other Recording.disconnect⟩])) := rfl
    rw [this]
    simp [Recording.serverinfo]⟩

/-- The bytes before the spawn command. -/
def beforeSpawn (r : Recording) : Bytes :=
  [0, 6] ++ le32 r.serverinfo.length ++ r.serverinfo ++ [0, 6] ++ le32 r.spawn.length

theorem demo_spawn (r : Recording) : r.demo = beforeSpawn r ++ spawnCommand ++ ([10, 0] ++ userinfos 0 r.clients) ++
    Spec.encode (Play.frames (r.play ++ [⟨0, .all, .other Recording.disconnect⟩])) := by
  have : r.demo = [0, 6] ++ le32 r.serverinfo.length ++ r.serverinfo ++ ([0, 6] ++ le32 r.spawn.length ++ r.spawn ++
      Spec.encode (Play.frames (r.play ++ [⟨0, .all, .other Recording.disconnect⟩]))) := rfl
  rw [this]
  simp [Recording.spawn, beforeSpawn, spawnCommand]

theorem demo_end (r : Recording) : r.demo = record (⟨0, .all, .other r.serverinfo⟩ :: ⟨0, .all, .other r.spawn⟩ :: r.play) ++ [0, 6, 11, 0, 0] ++
    Spec.endOfDemo := by
  unfold Recording.demo Recording.whole record Play.frames
  rw [List.map_append, Spec.encode, List.flatMap_append, ← Spec.encode]
  simp [Spec.encode, Moment.frame, Frame.encode, Frame.header, Frame.kind, Frame.sized, Happening.message, Recording.disconnect, le32,
    Spec.endOfDemo]

/-! ### Serverinfo -/

theorem serverinfo_length (r : Recording) : r.serverinfo.length = r.info.length + 20 := by
  simp [Recording.serverinfo, length_bytesOf]

theorem demo_length {r : Recording} (h : r.Proper) : 1280 ≤ r.demo.length := by
  rw [demo_end]
  have := h.long
  unfold record Spec.encode Play.frames at this ⊢
  simp only [List.length_append, List.map_cons, List.flatMap_cons]
  omega

theorem le32_small {n : Nat} (h : n < 65536) : le32 n = [UInt8.ofNat (n % 256), UInt8.ofNat (n / 256), 0, 0] := by
  unfold le32
  rw [Nat.mod_eq_of_lt (show n / 256 < 256 by omega), show n / 65536 = 0 by omega, show n / 16777216 = 0 by omega]
  rfl

theorem ofNat_ne {n k : Nat} (hn : n < 256) (hk : k < 256) (h : n ≠ k) : UInt8.ofNat n ≠ UInt8.ofNat k := by
  intro e
  have := congrArg UInt8.toNat e
  simp only [UInt8.toNat_ofNat'] at this
  omega

theorem demo_header {r : Recording} (h : r.Proper) : ServerinfoText r.demo (bytesOf r.info) := by
  obtain ⟨hne, hlen, hone, hq, ht⟩ := h.info
  obtain ⟨post, e⟩ := demo_info r
  have sz := serverinfo_length r
  have cut : r.demo.take 1280 = ([0, 6] ++ le32 r.serverinfo.length ++ [9]) ++ bytes!"fullserverinfo \"" ++ bytesOf r.info ++
      [34] ++ post.take (1280 - (24 + r.info.length)) := by
    rw [e, List.take_append, List.take_of_length_le (by simp [le32, length_bytesOf]; omega)]
    congr 2
    simp [le32, length_bytesOf]
    omega
  refine ⟨_, _, cut, ?_, by simpa [bytesOf] using hne, not_mem_bytesOf hone hq⟩
  rw [cut]
  have := firstAt_of_pair (x := 102) (y := 117) (p := bytes!"llserverinfo \"") (pre := [0, 6] ++ le32 r.serverinfo.length ++ [9])
    (post := bytesOf r.info ++ [34] ++ post.take (1280 - (24 + r.info.length))) ?_
  · simpa using this
  · rw [sz, le32_small (by omega)]
    have hy := ofNat_ne (n := (r.info.length + 20) / 256) (k := 117) (by omega) (by omega) (by omega)
    intro k
    simp only [List.cons_append, List.nil_append] at k
    repeat
      rcases occurs_cons k with k | k
      · simp_all
    · exact absurd k (by decide)

/-- C83: the serverinfo of a recording. -/
theorem C83_serverinfo (g : Env) (r : Recording) (h : r.Proper) :
    serverinfoString g r.demo = .ok (g.toUtf8 (bytesOf r.info)) ∧
    serverinfo g r.demo = .ok (g.settings (g.toUtf8 (bytesOf r.info))) := by
  have hs := (C14_serverinfo_string g _ (demo_length h) _).mpr ⟨_, demo_header h, rfl⟩
  refine ⟨hs, ?_⟩
  simp [serverinfo, hs, R.bind]

/-! ### Clients -/

/-- The clients as entries of the client section. -/
def userEntries (gap : Bytes) : Nat → List Str → List ClientEntry
  | _, [] => []
  | i, s :: t => ⟨gap ++ [40, UInt8.ofNat i] ++ le32 (i + 1), bytesOf s⟩ :: userEntries [] (i + 1) t

theorem clientBytes_users (gap : Bytes) (i : Nat) (s : Str) (t : List Str) :
    clientBytes (userEntries gap i (s :: t)) = gap ++ userinfos i (s :: t) := by
  induction t generalizing gap i s with
  | nil => simp [userEntries, clientBytes, userinfos]
  | cons s' t ih =>
    have := ih [] (i + 1) s'
    simp only [List.nil_append] at this
    rw [userEntries, clientBytes, List.flatMap_cons, ← clientBytes, this]
    simp [userinfos]

theorem entry_info : ∀ (gap : Bytes) (i : Nat) (l : List Str), (userEntries gap i l).map (fun e => e.info) = l.map bytesOf
  | _, _, [] => rfl
  | gap, i, s :: t => by rw [userEntries, List.map_cons, entry_info, List.map_cons]

theorem entry_section {tail : Bytes} (ht : 512 ≤ tail.length) (hn : ¬ Occurs nameKey tail) (sep gap : Bytes) (i : Nat) (l : List Str)
    (hsep : (92 : UInt8) ∉ sep ++ gap) (hlen : (sep ++ gap).length ≤ 12) (hi : i + l.length ≤ 24)
    (hl : ∀ s ∈ l, OneByte s ∧ 7 ≤ s.length ∧ s.length ≤ 256 ∧ Occurs chars!"\\name\\" s) (h0 : l = [] → sep = [0]) :
    ClientSection tail sep (userEntries gap i l) := by
  induction l generalizing sep gap i with
  | nil =>
    rw [h0 rfl]
    refine ⟨by simp; omega, fun k => hn ?_⟩
    have k2 : Occurs nameKey ([0] ++ tail) := by
      obtain ⟨a, b, e⟩ := k
      exact ⟨a, b ++ ([0] ++ tail).drop 512, by rw [← List.append_assoc, ← e, List.take_append_drop]⟩
    exact occurs_skip (by decide) k2
  | cons s l ih =>
    obtain ⟨h1, h2, h3, h4⟩ := hl s (by simp)
    simp only [List.length_cons] at hi
    have no92 : (92 : UInt8) ∉ sep ++ (gap ++ [40, UInt8.ofNat i] ++ le32 (i + 1)) := by
      rw [le32_small (by omega)]
      intro k
      have e1 := ofNat_ne (n := i) (k := 92) (by omega) (by omega) (by omega)
      have e2 := ofNat_ne (n := (i + 1) % 256) (k := 92) (by omega) (by omega) (by omega)
      have e3 := ofNat_ne (n := (i + 1) / 256) (k := 92) (by omega) (by omega) (by omega)
      simp only [List.append_assoc, List.mem_append, List.mem_cons, List.not_mem_nil, or_false, not_or] at k hsep
      rcases k with k | k | (k | k) | k | k | k | k
      · exact hsep.1 k
      · exact hsep.2 k
      · exact absurd k (by decide)
      · exact e1 k.symm
      · exact e2 k.symm
      · exact e3 k.symm
      · exact absurd k (by decide)
      · exact absurd k (by decide)
    refine ⟨⟨sep ++ gap ++ [40, UInt8.ofNat i, UInt8.ofNat ((i + 1) % 256), UInt8.ofNat ((i + 1) / 256), 0], ?_⟩, ?_, bytesOf_nul h1,
      by rw [length_bytesOf]; exact h2, by rw [length_bytesOf]; exact h3, ?_, ?_⟩
    · rw [le32_small (by omega)]
      simp
    · rintro ⟨a, b, e⟩
      refine no92 ?_
      rw [e]
      simp [nameKey]
    · have occ : Occurs nameKey (bytesOf s) := occurs_bytesOf h4
      obtain ⟨k, hk⟩ := Option.isSome_iff_exists.mp (find_isSome_iff.mpr occ)
      have hf := find_eq_some_iff.mp hk
      have hb := hf.1.bound
      refine ⟨k, hf, ?_⟩
      simp only [length_bytesOf, List.length_append, List.length_cons, List.length_nil] at hb hlen ⊢
      simp only [le32, List.length_cons, List.length_nil]
      omega
    · exact ih [0] [] (i + 1) (by decide) (by decide) (by omega) (fun x hx => hl x (.tail _ hx)) fun _ => rfl

theorem userinfos_length : ∀ (i : Nat) (l : List Str), (∀ s ∈ l, s.length ≤ 256) → (userinfos i l).length ≤ 263 * l.length
  | _, [], _ => by simp [userinfos]
  | i, s :: t, h => by
    have := userinfos_length (i + 1) t fun x hx => h x (.tail _ hx)
    have := h s (by simp)
    simp [userinfos, le32, length_bytesOf]
    omega

theorem spawn_length {r : Recording} (h : r.Proper) : r.spawn.length ≤ 6400 := by
  have := userinfos_length 0 r.clients fun s hs => (h.clients s hs).2.2.1
  have := h.few
  simp [Recording.spawn]
  omega

theorem spawn_first {r : Recording} (h : r.Proper) (post : Bytes) :
    FirstAt spawnCommand (beforeSpawn r ++ spawnCommand ++ post) (beforeSpawn r).length := by
  obtain ⟨hne, hlen, hone, hq, ht⟩ := h.info
  refine firstAt_of_pair (x := 9) (y := 99) (p := bytes!"md spawn") ?_
  have sp := spawn_length h
  unfold beforeSpawn
  rw [serverinfo_length, le32_small (by omega), le32_small (by omega), Recording.serverinfo]
  have hy := ofNat_ne (n := (r.info.length + 20) / 256) (k := 99) (by omega) (by omega) (by omega)
  have hz := ofNat_ne (n := r.spawn.length / 256) (k := 99) (by omega) (by omega) (by omega)
  intro k
  simp only [List.cons_append, List.nil_append, List.append_assoc] at k
  repeat
    rcases occurs_cons k with k | k
    · simp_all
  have k := occurs_skip (not_mem_bytesOf (b := 9) hone ht) k
  repeat
    rcases occurs_cons k with k | k
    · simp_all
  exact absurd k (by decide)

/-- The play and the end of a recording. -/
theorem rest_eq (r : Recording) : Spec.encode (Play.frames (r.play ++ [⟨0, .all, .other Recording.disconnect⟩])) =
    record r.play ++ ([0, 6, 11, 0, 0] ++ Spec.endOfDemo) := by
  unfold record Play.frames
  rw [List.map_append, Spec.encode, List.flatMap_append, ← Spec.encode]
  simp [Moment.frame, Frame.encode, Frame.header, Frame.kind, Frame.sized, Happening.message, Recording.disconnect, le32, Spec.endOfDemo]

theorem rest_nameless {r : Recording} (h : r.Proper) :
    ¬ Occurs nameKey (Spec.encode (Play.frames (r.play ++ [⟨0, .all, .other Recording.disconnect⟩]))) := by
  rw [rest_eq]
  exact fun k => h.nameless (occurs_left (y := 92) (p := bytes!"\\name") (by decide) k)

/-- Where the clients are. -/
theorem demo_slots {r : Recording} (h : r.Proper) : ∃ before entries tail, r.demo = before ++ spawnCommand ++ clientBytes entries ++ tail ∧
    FirstAt spawnCommand r.demo before.length ∧ ClientSection tail spawnCommand entries ∧
    (spawnCommand ++ clientBytes entries).length ≤ 24 * 512 ∧ entries.map (·.info) = r.clients.map bytesOf := by
  cases hc : r.clients with
  | nil => exact absurd hc h.some
  | cons s t =>
    have e := demo_spawn r
    rw [hc, ← clientBytes_users] at e
    refine ⟨_, _, _, e, by rw [e, List.append_assoc]; exact spawn_first h _, ?_, ?_, entry_info _ _ _⟩
    · refine entry_section ?_ (rest_nameless h) _ _ _ _ (by decide) (by decide) ?_ (fun x hx => h.clients x (by rw [hc]; exact hx))
        (by simp)
      · rw [rest_eq]
        have := h.long
        simp only [List.length_append]
        omega
      · have := h.few
        rw [hc] at this
        omega
    · rw [clientBytes_users, ← hc]
      have := userinfos_length 0 r.clients fun s hs => (h.clients s hs).2.2.1
      have := h.few
      simp [spawnCommand]
      omega

/-- C83: the clients of a recording. -/
theorem C83_clients (g : Env) (hu : ∀ s, OneByte s → g.toUnicode (bytesOf s) = s) (r : Recording) (h : r.Proper) :
    clientinfoStrings g r.demo = .ok r.clients := by
  obtain ⟨before, entries, tail, e, hf, hs, hl, hi⟩ := demo_slots h
  rw [e] at hf ⊢
  rw [C18_finds_every_client g _ _ _ hf hs hl]
  have := congrArg (List.map g.toUnicode) hi
  rw [List.map_map, List.map_map] at this
  refine congrArg R.ok (this.trans ?_)
  conv_rhs => rw [← List.map_id r.clients]
  exact List.map_congr_left fun x hx => hu x (h.clients x hx).1

/-- C83: a recording is a valid demo, and not a paused one. -/
theorem C83_valid (g : Env) (hu : ∀ s, OneByte s → g.toUnicode (bytesOf s) = s) (r : Recording) (h : r.Proper) :
    isValid g r.demo = .ok true ∧ isPaused r.demo = false := by
  have hv : isValid g r.demo = .ok true := by
    rw [C12_exact]
    refine ⟨demo_length h, ⟨_, ?_, demo_end r⟩, ?_, r.clients, C83_clients g hu r h, h.some⟩
    · simp
    · obtain ⟨text, ht, _⟩ := (C14_serverinfo_string g _ (demo_length h) _).mp (C83_serverinfo g r h).1
      exact ⟨text, ht⟩
  exact ⟨hv, C11_valid_not_paused g _ hv⟩

/-! ### The match -/

theorem whole_proper {r : Recording} (h : r.Proper) : ∀ m ∈ r.whole, m.what.Proper := by
  intro m hm
  simp only [Recording.whole, List.cons_append, List.mem_cons, List.mem_append, List.not_mem_nil, or_false] at hm
  rcases hm with rfl | rfl | hm | rfl
  · exact ⟨by simp [Recording.serverinfo], by simp [Recording.serverinfo]⟩
  · exact ⟨by simp [Recording.spawn], by simp [Recording.spawn]⟩
  · exact h.play m hm
  · exact ⟨by simp [Recording.disconnect], by simp [Recording.disconnect]⟩

theorem whole_died (r : Recording) : r.whole.map (fun m => m.what.died) = none :: none :: r.play.map (fun m => m.what.died) ++ [none] := by
  simp [Recording.whole, Happening.died]

theorem whole_score (r : Recording) (name : Str) :
    score (r.whole.map fun m => m.what.died) name = score (r.play.map fun m => m.what.died) name := by
  rw [whole_died]
  simp [score]

theorem whole_scores (r : Recording) (name : Str) :
    Scores (r.whole.map fun m => m.what.died) name ↔ Scores (r.play.map fun m => m.what.died) name := by
  rw [whole_died]
  simp [Scores]

theorem whole_pings (r : Recording) : sampledPings (r.whole.map fun m => m.what.pinged) = sampledPings (r.play.map fun m => m.what.pinged) := by
  simp [sampledPings, Recording.whole, Happening.pinged]

theorem whole_flags (r : Recording) : (r.whole.flatMap fun m => m.what.flagged) = r.play.flatMap fun m => m.what.flagged := by
  simp [Recording.whole, Happening.flagged]

/-- C83: the scores of a recording. -/
theorem C83_frags (g : Env) (hu : ∀ s, OneByte s → g.toUnicode (bytesOf s) = s) (r : Recording) (h : r.Proper)
    (hl : r.demo.length < 2 ^ 31) :
    ∃ m, fragsPerPlayerName g r.demo = .ok m ∧ ∀ name,
      (Scores (r.play.map fun m => m.what.died) name → m.get name = some (score (r.play.map fun m => m.what.died) name)) ∧
      (¬ Scores (r.play.map fun m => m.what.died) name → m.get name = none) := by
  obtain ⟨m, e, hm⟩ := C82_frags g hu r.whole (whole_proper h) hl
  refine ⟨m, e, fun name => ?_⟩
  have := hm name
  rwa [whole_scores, whole_score] at this

/-- C83: the prints of a recording. -/
theorem C83_prints (g : Env) (r : Recording) (h : r.Proper) (hl : r.demo.length < 2 ^ 31) :
    ∃ out, prints g r.demo = .ok out ∧ Collapses (r.play.filterMap fun m => m.what.print.map PrintMsg.reported) out := by
  obtain ⟨out, e, ho⟩ := C82_prints g r.whole (whole_proper h) hl
  refine ⟨out, e, ?_⟩
  convert ho using 1
  simp [Recording.whole, Happening.print]

/-- C83: the flag counters of a recording, when the word `flag` is not in the serverinfo, the userinfo strings and other
messages. -/
theorem C83_flags (g : Env) (hu : ∀ s, OneByte s → g.toUnicode (bytesOf s) = s) (r : Recording) (h : r.Proper)
    (hf : ∀ m ∈ r.whole, m.what.Unflagged) (hl : r.demo.length < 2 ^ 31)
    (hlt : ∀ player kind, (r.play.flatMap fun m => m.what.flagged).count (kind, player) < 256) :
    ∃ m, flagEventsPerPlayerName g r.demo = .ok m ∧ ∀ player,
      ((∃ kind, (kind, player) ∈ r.play.flatMap fun m => m.what.flagged) → ∃ c, m.get player = some c ∧
        c.captures = (r.play.flatMap fun m => m.what.flagged).count (.captured, player) ∧
        c.pickups = (r.play.flatMap fun m => m.what.flagged).count (.got, player) ∧
        c.returns = (r.play.flatMap fun m => m.what.flagged).count (.returned, player) ∧
        c.carrierFrags = (r.play.flatMap fun m => m.what.flagged).count (.assist, player) ∧
        c.defends = (r.play.flatMap fun m => m.what.flagged).count (.defendsFlag, player) ∧
        c.carrierDefends = (r.play.flatMap fun m => m.what.flagged).count (.defendsCarrier, player) ∧
        c.carrierDefendsVsAggressive = (r.play.flatMap fun m => m.what.flagged).count (.defendsCarrierVsAggressive, player)) ∧
      ((¬ ∃ kind, (kind, player) ∈ r.play.flatMap fun m => m.what.flagged) → m.get player = none) := by
  rw [← whole_flags] at hlt ⊢
  exact C82_flags g hu r.whole (whole_proper h) hf hl hlt

/-- C83: the duration of a recording. -/
theorem C83_duration (g : Env) (r : Recording) (hl : r.demo.length < 2 ^ 31)
    (ho : ¬ Occurs matchOver r.demo) (hst : ¬ Occurs standby r.demo) (hms : (r.play.map fun m => m.ms.toNat).sum < 2 ^ 32) :
    ∃ ns, demoDuration g r.demo = .ok ns ∧ Converted (r.play.map fun m => m.ms.toNat).sum ns := by
  have e : (r.whole.map fun m => m.ms.toNat).sum = (r.play.map fun m => m.ms.toNat).sum := by
    simp [Recording.whole]
  rw [← e] at hms ⊢
  exact C82_duration g r.whole hl ho hst hms

/-- C83: the players of a recording: the clients that are no spectators, with their scores and mean pings, ranked. The
clients are described by their userinfo strings. -/
theorem C83_players (g : Env) (hu : ∀ s, OneByte s → g.toUnicode (bytesOf s) = s) (r : Recording) (h : r.Proper)
    (hl : r.demo.length < 2 ^ 31) (hk : ¬ Occurs statsMarker r.demo) (sampled : List (UInt8 × Nat))
    (hsm : sampled = sampledPings (r.play.map fun m => m.what.pinged)) (hne : sampled ≠ [])
    (hsum : ∀ p, (samplesOf sampled p).sum < 65536) :
    ∃ cs ps l, clients g r.demo = .ok cs ∧
      List.Forall₂ (fun s c => c.name = (g.clientinfo s).name.getD [] ∧ c.team = (g.clientinfo s).team.getD []) r.clients cs ∧
      List.Forall₂ (ReportedAs (r.play.map fun m => m.what.died) sampled) (inGame cs) ps ∧
      players g r.demo = .ok l ∧ l.Perm ps ∧ l.Pairwise fun a b => ¬ Outranks b a := by
  subst hsm
  have hcs := C83_clients g hu r h
  obtain ⟨cs, ec⟩ := ((C21_failure g r.demo).1 ⟨_, hcs⟩).2.1
  obtain ⟨hsp, hst⟩ := record_splits hl
  obtain ⟨strings, es, hlen, _⟩ := C20_client_numbers g r.demo cs ec
  rw [hcs] at es
  cases es
  have hst2 := (C41_not_found g r.demo).mpr hk
  have hk2 : ktxstatsV3 g r.demo = .err .ktxstatsNotFound := by
    simp [ktxstatsV3, hst2, R.bind]
  rw [← whole_pings] at hne hsum ⊢
  obtain ⟨ps, l, h1, h2, h3, h4⟩ := C77_players g r.demo r.whole.frames [] _ cs (r.whole.map fun m => m.what.died)
    (r.whole.map fun m => m.what.pinged) hsp hst hl hk2 ec (by have := h.few; omega) (by
      unfold Play.frames
      rw [List.forall₂_map_left_iff, List.forall₂_map_right_iff, List.forall₂_same]
      exact fun m hm => play_reports hu (whole_proper h m hm) (frame_body m)) (by
      unfold Play.frames
      rw [List.forall₂_map_left_iff, List.forall₂_map_right_iff, List.forall₂_same]
      exact fun m hm => frame_body m ▸ play_pings (whole_proper h m hm)) hne hsum
  refine ⟨cs, ps, l, ec, ?_, h1.imp fun c p k => { k with frags := by rw [k.frags, whole_score] }, h2, h3, h4⟩
  obtain ⟨strings, es, hf⟩ := C21_client_fields g r.demo cs ec
  rw [hcs] at es
  cases es
  rw [List.forall₂_iff_get]
  refine ⟨hlen.symm, fun i hi hi' => ?_⟩
  have := hf i hi hi'
  exact ⟨this.1, this.2.1⟩

/-- C83: the teams of a recording whose players have different names: a team for every team name of a player, with the sum of
the scores of its players. -/
theorem C83_teams (g : Env) (hu : ∀ s, OneByte s → g.toUnicode (bytesOf s) = s) (r : Recording) (h : r.Proper)
    (hl : r.demo.length < 2 ^ 31) (hk : ¬ Occurs statsMarker r.demo)
    (hne : sampledPings (r.play.map fun m => m.what.pinged) ≠ [])
    (hsum : ∀ p, (samplesOf (sampledPings (r.play.map fun m => m.what.pinged)) p).sum < 65536)
    (cs : List Client) (ec : clients g r.demo = .ok cs) (hnames : ((inGame cs).map (·.name)).Nodup) (ts : List Team)
    (ht : teams g r.demo = .ok ts) :
    (∀ name, name ∈ ts.map (·.name) ↔ ∃ c ∈ inGame cs, c.team = name) ∧
    ∀ t ∈ ts, t.frags = (((inGame cs).filter fun c => c.team = t.name).map fun c =>
      score (r.play.map fun m => m.what.died) c.name).sum := by
  obtain ⟨hsp, hst⟩ := record_splits hl
  obtain ⟨strings, es, hlen, _⟩ := C20_client_numbers g r.demo cs ec
  rw [C83_clients g hu r h] at es
  cases es
  have hst2 := (C41_not_found g r.demo).mpr hk
  have hk2 : ktxstatsV3 g r.demo = .err .ktxstatsNotFound := by
    simp [ktxstatsV3, hst2, R.bind]
  rw [← whole_pings] at hne hsum
  have := C78_teams g r.demo r.whole.frames [] _ cs (r.whole.map fun m => m.what.died)
    (r.whole.map fun m => m.what.pinged) ts hsp hst hl hk2 ec (by have := h.few; omega) (by
      unfold Play.frames
      rw [List.forall₂_map_left_iff, List.forall₂_map_right_iff, List.forall₂_same]
      exact fun m hm => play_reports hu (whole_proper h m hm) (frame_body m)) (by
      unfold Play.frames
      rw [List.forall₂_map_left_iff, List.forall₂_map_right_iff, List.forall₂_same]
      exact fun m hm => frame_body m ▸ play_pings (whole_proper h m hm)) hne hsum hnames ht
  simpa only [whole_score] using this

/-- A recording of the short match with three clients, one of them a spectator. -/
def Example.recording : Recording where
  info := chars!"\\mode\\ctf\\serverdemo\\a.mvd"
  clients := [chars!"\\name\\a\\team\\red", chars!"\\name\\b\\team\\blue", chars!"\\*spectator\\1\\name\\c"]
  play := Example.play ++ [⟨0, .all, .other (7 :: List.replicate 1300 10)⟩]

/-- The hypotheses of C83 are met by that recording. -/
example : Example.recording.Proper ∧ (∀ m ∈ Example.recording.whole, m.what.Unflagged) ∧ Example.recording.demo.length < 2 ^ 31 ∧
    ¬ Occurs statsMarker Example.recording.demo ∧ ¬ Occurs matchOver Example.recording.demo ∧
    ¬ Occurs standby Example.recording.demo ∧ sampledPings (Example.recording.play.map fun m => m.what.pinged) ≠ [] ∧
    (∀ p, (samplesOf (sampledPings (Example.recording.play.map fun m => m.what.pinged)) p).sum < 65536) ∧
    ((players Example.debug Example.recording.demo).bind fun l => .ok (l.map fun p => (p.name, p.team, p.frags, p.ping))) =
      .ok [(chars!"a", chars!"red", 1, 26), (chars!"b", chars!"blue", -2, 38)] ∧
    ((clients Example.debug Example.recording.demo).bind fun l => .ok ((inGame l).map (·.name))) = .ok [chars!"a", chars!"b"] ∧
    ((teams Example.debug Example.recording.demo).bind fun l => .ok (l.map fun t => (t.name, t.frags))) =
      .ok [(chars!"blue", -2), (chars!"red", 1)] := by
  have all : ∀ m ∈ Example.recording.play, m.what.Proper ∧ m.what.Unflagged := by
    intro m hm
    rcases List.mem_append.mp hm with hm | hm
    · exact ⟨Example.play_proper m hm, Example.play_unflagged m hm⟩
    · rw [List.mem_singleton] at hm
      subst hm
      exact ⟨⟨(by decide : (some 7 : Option UInt8) ≠ some 8), (by decide : (some 7 : Option UInt8) ≠ some 36)⟩,
        (by decide +kernel : ¬ Occurs bytes!"flag" (7 :: List.replicate 1300 10))⟩
  refine ⟨⟨⟨by decide, by decide, Example.oneByte_of (by decide), by decide, by decide⟩, by decide, by decide, ?_,
    fun m hm => (all m hm).1, by decide +kernel, by decide +kernel⟩, ?_, by decide +kernel, by decide +kernel,
    by decide +kernel, by decide +kernel, by decide, fun p => Nat.lt_of_le_of_lt (samplesOf_sum_le _ p) (by decide),
    by decide +kernel, by decide +kernel, by decide +kernel⟩
  · intro s hs
    simp only [Example.recording, List.mem_cons, List.not_mem_nil, or_false] at hs
    rcases hs with rfl | rfl | rfl <;>
      exact ⟨Example.oneByte_of (by decide), by decide, by decide, find_isSome_iff.mp (by decide)⟩
  · intro m hm
    simp only [Recording.whole, List.cons_append, List.mem_cons, List.mem_append, List.not_mem_nil, or_false] at hm
    rcases hm with rfl | rfl | hm | rfl
    · exact (by decide +kernel : ¬ Occurs bytes!"flag" Example.recording.serverinfo)
    · exact (by decide +kernel : ¬ Occurs bytes!"flag" Example.recording.spawn)
    · exact (all m hm).2
    · exact (by decide +kernel : ¬ Occurs bytes!"flag" Recording.disconnect)

end Mvd

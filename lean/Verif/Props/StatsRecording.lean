import Verif.Spec.StatsRecorder
import Verif.Spec.Server
import Verif.Props.Recording
import Verif.Props.Ktxstats
import Verif.Props.Players

/-! C85: match stats in a recording are read back and disturb nothing. -/

namespace Mvd
open Spec

theorem occurs_sep {m : Bytes} {z : UInt8} (hz : z ∉ m) {a b : Bytes} (h : Occurs m (a ++ z :: b)) : Occurs m a ∨ Occurs m b := by
  obtain ⟨pre, post, e⟩ := h
  rw [List.append_assoc] at e
  rcases List.append_eq_append_iff.mp e with ⟨t, rfl, e'⟩ | ⟨t, rfl, e'⟩
  · cases t with
    | nil =>
      rw [List.nil_append] at e'
      cases m with
      | nil => exact .inl ⟨a, [], by simp⟩
      | cons x m =>
        simp only [List.cons_append, List.cons.injEq] at e'
        exact absurd (by simp [e'.1]) hz
    | cons y t =>
      simp only [List.cons_append, List.cons.injEq] at e'
      exact .inr ⟨t, post, by rw [e'.2]; simp⟩
  · rcases List.append_eq_append_iff.mp e' with ⟨u, rfl, e''⟩ | ⟨u, rfl, e''⟩
    · exact .inl ⟨pre, u, by simp⟩
    · cases u with
      | nil => exact .inl ⟨pre, [], by simp⟩
      | cons y u =>
        simp only [List.cons_append, List.cons.injEq] at e''
        exact absurd (by simp [e''.1]) hz

theorem not_occurs_short {m a : Bytes} (h : a.length < m.length) : ¬ Occurs m a := by
  rintro ⟨x, y, rfl⟩
  simp at h
  omega

/-- The bytes of a piece. -/
def statsHeader (number : Nat) (piece : Bytes) : Bytes :=
  [0, 3, 0, 0, 0, 0, UInt8.ofNat ((piece.length + 8) % 256), UInt8.ofNat ((piece.length + 8) / 256), 0, 0,
    UInt8.ofNat ((piece.length + 2) % 256), UInt8.ofNat ((piece.length + 2) / 256), 0, 0, 3, 0,
    UInt8.ofNat (number % 256), 0]

theorem statsFrame_encode {number : Nat} {piece : Bytes} (hn : number < 256) (hp : piece.length < 65528) :
    (Moment.frame ⟨0, .several 0, .other (statsMessage number piece)⟩).encode = statsHeader number piece ++ piece := by
  have hl : (statsMessage number piece).length = piece.length + 8 := by simp [statsMessage, le32, le16]
  have e : (Moment.frame ⟨0, .several 0, .other (statsMessage number piece)⟩).encode =
      [0, 3] ++ le32 0 ++ le32 (statsMessage number piece).length ++ statsMessage number piece := rfl
  rw [e, hl, le32_small (show piece.length + 8 < 65536 by omega), statsMessage, le32_small (show piece.length + 2 < 65536 by omega)]
  have h2 : le16 number = [UInt8.ofNat (number % 256), 0] := by
    simp only [le16]
    rw [show number / 256 % 256 = 0 by omega]
    rfl
  rw [h2]
  simp [statsHeader, le32, le16]

/-- A word without NUL that occurs around the pieces occurs in one of them or outside. -/
theorem stats_occurs {m : Bytes} (h0 : (0 : UInt8) ∉ m) (h3 : 3 ≤ m.length) : ∀ (pieces : List Bytes) (n : Nat) (a tail : Bytes),
    n + pieces.length ≤ 257 → (∀ p ∈ pieces, p.length < 65528) →
    Occurs m (a ++ record (statsPlay n pieces) ++ 0 :: tail) → Occurs m a ∨ (∃ p ∈ pieces, Occurs m p) ∨ Occurs m tail
  | [], n, a, tail, _, _, h => by
    simp only [statsPlay, record, Play.frames, List.map_nil, Spec.encode, List.flatMap_nil, List.append_nil] at h
    rcases occurs_sep h0 h with h | h
    · exact .inl h
    · exact .inr (.inr h)
  | p :: rest, n, a, tail, hn, hs, h => by
    have hdr : ∀ k : Nat, ∀ t : Bytes, Occurs m (a ++ (statsHeader k p ++ t)) → Occurs m a ∨ Occurs m t := by
      intro k t h
      simp only [statsHeader, List.cons_append, List.nil_append] at h
      rcases occurs_sep h0 h with h | h
      · exact .inl h
      refine .inr ?_
      have s1 : ∀ x : UInt8, ∀ t, Occurs m (x :: 0 :: t) → Occurs m t := by
        intro x t h
        rcases occurs_sep h0 (a := [x]) h with h | h
        · exact absurd h (not_occurs_short (by simp; omega))
        · exact h
      have s2 : ∀ x y : UInt8, ∀ t, Occurs m (x :: y :: 0 :: t) → Occurs m t := by
        intro x y t h
        rcases occurs_sep h0 (a := [x, y]) h with h | h
        · exact absurd h (not_occurs_short (by simp; omega))
        · exact h
      have s0 : ∀ t, Occurs m (0 :: t) → Occurs m t := by
        intro t h
        rcases occurs_sep h0 (a := []) h with h | h
        · exact absurd h (not_occurs_short (by simp; omega))
        · exact h
      exact s1 _ _ (s1 _ _ (s0 _ (s2 _ _ _ (s0 _ (s2 _ _ _ (s0 _ (s0 _ (s0 _ (s1 _ _ h)))))))))
    have hp := hs p (by simp)
    cases rest with
    | nil =>
      have e : record (statsPlay n [p]) = statsHeader 0 p ++ p := by
        rw [← statsFrame_encode (by decide) hp]
        simp [record, statsPlay, Play.frames, Spec.encode]
      rw [e, List.append_assoc, List.append_assoc] at h
      rcases hdr _ _ h with h | h
      · exact .inl h
      · rcases occurs_sep h0 h with h | h
        · exact .inr (.inl ⟨p, by simp, h⟩)
        · exact .inr (.inr h)
    | cons q rest =>
      simp only [List.length_cons] at hn
      have e : record (statsPlay n (p :: q :: rest)) = statsHeader n p ++ p ++ record (statsPlay (n + 1) (q :: rest)) := by
        rw [← statsFrame_encode (by omega) hp]
        simp [record, statsPlay, Play.frames, Spec.encode]
      rw [e, List.append_assoc, List.append_assoc, List.append_assoc] at h
      rcases hdr _ _ h with h | h
      · exact .inl h
      · rw [← List.append_assoc] at h
        rcases stats_occurs h0 h3 (q :: rest) (n + 1) p tail (by simp; omega) (fun x hx => hs x (.tail _ hx)) h with h | ⟨x, hx, h⟩ | h
        · exact .inr (.inl ⟨p, by simp, h⟩)
        · exact .inr (.inl ⟨x, .tail _ hx, h⟩)
        · exact .inr (.inr h)

theorem occurs_mem_flatten {m p : Bytes} {l : List Bytes} (hp : p ∈ l) (h : Occurs m p) : Occurs m l.flatten := by
  obtain ⟨a, b, rfl⟩ := List.append_of_mem hp
  obtain ⟨x, y, rfl⟩ := h
  exact ⟨a.flatten ++ x, y ++ b.flatten, by simp⟩

/-- The blocks of match stats. -/
theorem stats_blocks : ∀ (pieces : List Bytes) (n : Nat), pieces ≠ [] → 1 ≤ n → n + pieces.length ≤ 257 →
    (∀ p ∈ pieces, p.length < 65528) → ∃ (init : List StatsBlock) (last : StatsBlock), record (statsPlay n pieces) = init.flatMap StatsBlock.encode ++ last.encode ∧
      (∀ b ∈ init, b.WF ∧ b.number ≠ 0) ∧ last.WF ∧ last.number = 0 ∧
      init.flatMap StatsBlock.content ++ last.content = pieces.flatten
  | [], _, hne, _, _, _ => absurd rfl hne
  | [p], n, _, _, _, hs => by
    have hp := hs p (by simp)
    refine ⟨[], ⟨(statsHeader 0 p).take 10, 0, p⟩, ?_, by simp, ⟨rfl, by simp, by simp; omega⟩, rfl, by simp⟩
    have e : record (statsPlay n [p]) = statsHeader 0 p ++ p := by
      rw [← statsFrame_encode (by decide) hp]
      simp [record, statsPlay, Play.frames, Spec.encode]
    rw [e]
    simp only [List.flatMap_nil, List.nil_append, StatsBlock.encode, StatsBlock.body]
    rw [le32_small (show p.length + 2 < 65536 by omega)]
    simp [statsHeader, le16]
  | p :: q :: rest, n, _, h1, hn, hs => by
    have hp := hs p (by simp)
    simp only [List.length_cons] at hn
    obtain ⟨init, last, e, hw, hl, h0, hc⟩ := stats_blocks (q :: rest) (n + 1) (by simp) (by omega) (by simp; omega)
      (fun x hx => hs x (.tail _ hx))
    refine ⟨⟨(statsHeader n p).take 10, n, p⟩ :: init, last, ?_, ?_, hl, h0, ?_⟩
    · have e2 : record (statsPlay n (p :: q :: rest)) = statsHeader n p ++ p ++ record (statsPlay (n + 1) (q :: rest)) := by
        rw [← statsFrame_encode (by omega) hp]
        simp [record, statsPlay, Play.frames, Spec.encode]
      rw [e2, e]
      have h2 : le16 n = [UInt8.ofNat (n % 256), 0] := by
        simp only [le16]
        rw [show n / 256 % 256 = 0 by omega]
        rfl
      simp only [List.flatMap_cons, StatsBlock.encode, StatsBlock.body]
      rw [le32_small (show p.length + 2 < 65536 by omega), h2]
      simp [statsHeader, le16]
    · intro b hb
      rcases List.mem_cons.mp hb with rfl | hb
      · exact ⟨⟨rfl, by change n < _; omega, by change p.length + 2 < _; omega⟩, by change n ≠ 0; omega⟩
      · exact hw b hb
    · rw [List.flatMap_cons, List.append_assoc, hc]
      simp

theorem withStats_demo (r : Recording) (pieces : List Bytes) : (r.withStats pieces).demo =
    record (⟨0, .all, .other r.serverinfo⟩ :: ⟨0, .all, .other r.spawn⟩ :: r.play) ++ record (statsPlay 1 pieces) ++
      0 :: ([6, 11, 0, 0] ++ Spec.endOfDemo) := by
  rw [demo_end]
  simp [Recording.withStats, record, Play.frames, Spec.encode, Recording.serverinfo, Recording.spawn]

/-- C85: a recording with match stats carries them. -/
theorem C85_carries (r : Recording) (text : Str) (pieces : List Bytes) (hc : CutInto text pieces) :
    CarriesStats (r.withStats pieces).demo text := by
  obtain ⟨first, more, e, content, hfirst⟩ := hc.begins
  have hne : pieces ≠ [] := by rw [e]; simp
  obtain ⟨init, last, e2, hw, hlw, h0, hcont⟩ := stats_blocks pieces 1 hne (by omega) (by have := hc.few; omega) hc.small
  rw [withStats_demo, e2, ← List.append_assoc]
  generalize hpre : record (⟨0, .all, .other r.serverinfo⟩ :: ⟨0, .all, .other r.spawn⟩ :: r.play) = pre
  refine ⟨pre, init, last, _, rfl, hw, hlw, h0, ?_, by rw [hcont, hc.all]⟩
  have small := hc.small
  have once : ¬ Occurs statsMarker (first.drop 1) ∧ ∀ p ∈ more, ¬ Occurs statsMarker p := by
    have h := hc.once
    rw [← hc.all, e, List.flatten_cons] at h
    have hpos : 1 ≤ first.length := by rw [← hfirst]; simp [statsMarker]
    rw [List.drop_append_of_le_length hpos] at h
    refine ⟨fun ⟨a, b, k⟩ => h ⟨a, b ++ more.flatten, by rw [k]; simp⟩, fun p hp k => h ?_⟩
    obtain ⟨a, b, k⟩ := occurs_mem_flatten hp k
    exact ⟨first.drop 1 ++ a, b, by rw [k]; simp⟩
  have tail : ¬ Occurs statsMarker ([6, 11, 0, 0] ++ Spec.endOfDemo) := by decide +kernel
  subst e
  have hlong : 1 ≤ first.length := by rw [← hfirst]; simp [statsMarker]
  cases more with
  | nil =>
    have hb : record (statsPlay 1 [first]) = StatsBlock.encode ⟨(statsHeader 0 first).take 10, 0, first⟩ := by
      rw [show record (statsPlay 1 [first]) = statsHeader 0 first ++ first by
        rw [← statsFrame_encode (by decide) (small first (by simp))]
        simp [record, statsPlay, Play.frames, Spec.encode]]
      simp only [StatsBlock.encode, StatsBlock.body]
      rw [le32_small (show first.length + 2 < 65536 by have := small first (by simp); omega)]
      simp [statsHeader, le16]
    rw [List.append_assoc pre, ← e2, hb]
    refine C40_marker _ content _ _ ⟨rfl, by change 0 < _; decide, by change first.length + 2 < _; have := small first (by simp); omega⟩
      hfirst.symm ?_
    rw [hfirst, List.drop_append_of_le_length hlong]
    intro h
    rcases occurs_sep (by decide) h with h | h
    · exact once.1 h
    · exact tail h
  | cons q rest =>
    have hb : record (statsPlay 1 (first :: q :: rest)) =
        StatsBlock.encode ⟨(statsHeader 1 first).take 10, 1, first⟩ ++ record (statsPlay 2 (q :: rest)) := by
      rw [show record (statsPlay 1 (first :: q :: rest)) = statsHeader 1 first ++ first ++ record (statsPlay 2 (q :: rest)) by
        rw [← statsFrame_encode (by decide) (small first (by simp))]
        simp [record, statsPlay, Play.frames, Spec.encode]]
      simp only [StatsBlock.encode, StatsBlock.body]
      rw [le32_small (show first.length + 2 < 65536 by have := small first (by simp); omega)]
      simp [statsHeader, le16]
    rw [List.append_assoc pre, ← e2, hb, ← List.append_assoc pre, List.append_assoc _ (record _)]
    refine C40_marker _ content _ _ ⟨rfl, by change 1 < _; decide, by change first.length + 2 < _; have := small first (by simp); omega⟩
      hfirst.symm ?_
    rw [hfirst, List.drop_append_of_le_length hlong, ← List.append_assoc]
    intro h
    have few := hc.few
    simp only [List.length_cons] at few
    rcases stats_occurs (by decide) (by decide) (q :: rest) 2 _ _ (by simp; omega) (fun x hx => small x (.tail _ hx)) h with h | ⟨x, hx, h⟩ | h
    · exact once.1 h
    · exact once.2 x hx h
    · exact tail h

/-- C85: match stats of any text, cut into pieces anyhow, are read back. -/
theorem C85_text (g : Env) (r : Recording) (text : Str) (pieces : List Bytes) (hc : CutInto text pieces)
    (hl : (r.withStats pieces).demo.length < 2 ^ 31) : ktxstatsString g (r.withStats pieces).demo = .ok text := by
  obtain ⟨before, blocks, last, after, e, h1, h2, h3, h4, h5⟩ := C85_carries r text pieces hc
  rw [e] at h4 hl ⊢
  exact C40_round_trip g before after blocks last text h1 h2 h3 (by omega) h4 h5

/-- C85: and server and players come from the stats when these can be parsed. -/
theorem C85_stats (g : Env) (r : Recording) (text : Str) (pieces : List Bytes) (hc : CutInto text pieces)
    (hl : (r.withStats pieces).demo.length < 2 ^ 31) (stats : KtxStats) (hp : g.ktxstats text = some stats) :
    ktxstatsV3 g (r.withStats pieces).demo = .ok stats ∧
    (∃ v, server g (r.withStats pieces).demo = .ok v ∧ v.hostname = stats.hostname ∧ v.ip = stats.ip ∧ v.port = stats.port) ∧
    ∃ ps l, List.Forall₂ FromStats stats.players ps ∧ players g (r.withStats pieces).demo = .ok l ∧ StablySorted Outranks ps l := by
  have hs := ((C42_stats g _).1 stats).mpr ⟨text, C85_text g r text pieces hc hl, hp⟩
  obtain ⟨v, h1, h2, h3, h4, _⟩ := C42_server g _ stats hs
  obtain ⟨ps, l, k1, k2, k3⟩ := C44_from_stats stats
  exact ⟨hs, ⟨v, h1, h2, h3, h4⟩, ps, l, k1, (C43_from_stats g _ stats hs).trans k2, k3⟩

/-! ### The rest of the recording -/

theorem stats_moment : ∀ (pieces : List Bytes) (n : Nat) (m : Moment), m ∈ statsPlay n pieces →
    ∃ k, ∃ p ∈ pieces, m = ⟨0, .several 0, .other (statsMessage k p)⟩
  | [], _, _, h => nomatch h
  | [p], _, m, h => by
    simp only [statsPlay, List.mem_singleton] at h
    exact ⟨0, p, by simp, h⟩
  | p :: q :: t, n, m, h => by
    simp only [statsPlay, List.mem_cons] at h
    rcases h with h | h
    · exact ⟨n, p, by simp, h⟩
    · obtain ⟨k, x, hx, e⟩ := stats_moment (q :: t) (n + 1) m (by simpa using h)
      exact ⟨k, x, .tail _ hx, e⟩

/-- C85: a proper recording stays proper when stats are added, if no piece has a size that looks like the number of a print (8)
or of a ping update (36), and the stats do not contain the key `\name\`. -/
theorem C85_proper (r : Recording) (h : r.Proper) (text : Str) (pieces : List Bytes) (hc : CutInto text pieces)
    (hsz : ∀ p ∈ pieces, (p.length + 2) % 256 ≠ 8 ∧ (p.length + 2) % 256 ≠ 36) (hn : ¬ Occurs bytes!"\\name\\" (utf8 text)) :
    (r.withStats pieces).Proper := by
  have app : record (r.withStats pieces).play = record r.play ++ record (statsPlay 1 pieces) := by
    simp [Recording.withStats, record, Play.frames, Spec.encode]
  refine ⟨h.info, h.some, h.few, h.clients, ?_, ?_, ?_⟩
  · intro m hm
    rcases List.mem_append.mp hm with hm | hm
    · exact h.play m hm
    · obtain ⟨k, p, hp, rfl⟩ := stats_moment pieces 1 m hm
      have e : (statsMessage k p).head? = some (UInt8.ofNat ((p.length + 2) % 256)) := rfl
      refine ⟨?_, ?_⟩
      · rw [e]
        exact fun k => ofNat_ne (by omega) (by omega) (hsz p hp).1 (Option.some.inj k)
      · rw [e]
        exact fun k => ofNat_ne (by omega) (by omega) (hsz p hp).2 (Option.some.inj k)
  · rw [app, List.length_append]
    have := h.long
    omega
  · rw [app]
    rintro ⟨a, b, e⟩
    have few := hc.few
    rcases stats_occurs (m := bytes!"\\name\\") (by decide) (by decide) pieces 1 (record r.play) [] (by omega) hc.small
      ⟨a, b ++ [0], by rw [e]; simp⟩ with k | ⟨p, hp, k⟩ | k
    · exact h.nameless k
    · exact hn (hc.all ▸ occurs_mem_flatten hp k)
    · exact absurd k (by decide)

theorem stats_died (pieces : List Bytes) (n : Nat) : ∀ m ∈ statsPlay n pieces, m.what.died = none ∧ m.what.print = none ∧
    m.what.flagged = [] ∧ m.what.pinged = [] ∧ m.ms = 0 := by
  intro m hm
  obtain ⟨k, p, _, rfl⟩ := stats_moment pieces n m hm
  exact ⟨rfl, rfl, rfl, rfl, rfl⟩

theorem score_nones {l t : List (Option Obituary)} (h : ∀ x ∈ t, x = none) (name : Str) : score (l ++ t) name = score l name := by
  have e : t = List.replicate t.length none := List.eq_replicate_iff.mpr ⟨rfl, h⟩
  rw [e]
  simp [score]

/-- C85: the stats change neither the scores, the prints nor the duration. -/
theorem C85_undisturbed (g : Env) (hu : ∀ s, OneByte s → g.toUnicode (bytesOf s) = s) (r : Recording) (pieces : List Bytes)
    (h : (r.withStats pieces).Proper) (hl : (r.withStats pieces).demo.length < 2 ^ 31) :
    (∃ m, fragsPerPlayerName g (r.withStats pieces).demo = .ok m ∧ ∀ name,
      (Scores (r.play.map fun m => m.what.died) name → m.get name = some (score (r.play.map fun m => m.what.died) name)) ∧
      (¬ Scores (r.play.map fun m => m.what.died) name → m.get name = none)) ∧
    (∃ out, prints g (r.withStats pieces).demo = .ok out ∧
      Collapses (r.play.filterMap fun m => m.what.print.map PrintMsg.reported) out) ∧
    (¬ Occurs matchOver (r.withStats pieces).demo → ¬ Occurs standby (r.withStats pieces).demo →
      (r.play.map fun m => m.ms.toNat).sum < 2 ^ 32 →
      ∃ ns, demoDuration g (r.withStats pieces).demo = .ok ns ∧ Converted (r.play.map fun m => m.ms.toNat).sum ns) := by
  have hd := stats_died pieces 1
  have hnone : ∀ x ∈ (statsPlay 1 pieces).map fun m => m.what.died, x = none := by
    intro x hx
    obtain ⟨m, hm, rfl⟩ := List.mem_map.mp hx
    exact (hd m hm).1
  refine ⟨?_, ?_, fun h1 h2 h3 => ?_⟩
  · obtain ⟨m, e, hm⟩ := C83_frags g hu _ h hl
    refine ⟨m, e, fun name => ?_⟩
    have := hm name
    rw [show (r.withStats pieces).play = r.play ++ statsPlay 1 pieces from rfl, List.map_append, score_nones hnone] at this
    have hs : Scores ((r.play.map fun m => m.what.died) ++ (statsPlay 1 pieces).map fun m => m.what.died) name ↔
        Scores (r.play.map fun m => m.what.died) name := by
      have e : (statsPlay 1 pieces).map (fun m => m.what.died) = List.replicate ((statsPlay 1 pieces).map fun m => m.what.died).length none :=
        List.eq_replicate_iff.mpr ⟨rfl, hnone⟩
      rw [e]
      simp [Scores, List.mem_replicate]
    rwa [hs] at this
  · obtain ⟨out, e, ho⟩ := C83_prints g _ h hl
    refine ⟨out, e, ?_⟩
    convert ho using 1
    rw [show (r.withStats pieces).play = r.play ++ statsPlay 1 pieces from rfl, List.filterMap_append]
    have : (statsPlay 1 pieces).filterMap (fun m => m.what.print.map PrintMsg.reported) = [] :=
      List.filterMap_eq_nil_iff.mpr fun m hm => by rw [(hd m hm).2.1]; rfl
    rw [this, List.append_nil]
  · have e : ((r.withStats pieces).play.map fun m => m.ms.toNat).sum = (r.play.map fun m => m.ms.toNat).sum := by
      rw [show (r.withStats pieces).play = r.play ++ statsPlay 1 pieces from rfl, List.map_append, List.sum_append]
      have : ((statsPlay 1 pieces).map fun m => m.ms.toNat).sum = 0 := List.sum_eq_zero fun x hx => by
        obtain ⟨m, hm, rfl⟩ := List.mem_map.mp hx
        rw [(hd m hm).2.2.2.2]
        rfl
      rw [this, Nat.add_zero]
    rw [← e] at h3 ⊢
    exact C83_duration g _ hl h1 h2 h3

/-- C85: a piece of 34 bytes is taken for a ping update. -/
theorem C85_witness : ∃ piece : Bytes, piece.length = 34 ∧
    ((pingPerPlayerNumber Example.debug (record (statsPlay 1 [piece]))).bind fun m => .ok (m.get 0)) = .ok (some 0) :=
  ⟨List.replicate 34 32, by decide, by decide +kernel⟩

/-- Match stats in two pieces; a character of two bytes is cut. -/
def Example.stats : Str := chars!"{\"version\": 3, \"å\": 10}"

def Example.pieces : List Bytes := [(utf8 Example.stats).take 17, (utf8 Example.stats).drop 17]

/-- The hypotheses of C85 are met by the recording of C83 with these stats. -/
example : CutInto Example.stats Example.pieces ∧ (Example.recording.withStats Example.pieces).demo.length < 2 ^ 31 ∧
    (∀ p ∈ Example.pieces, (p.length + 2) % 256 ≠ 8 ∧ (p.length + 2) % 256 ≠ 36) ∧
    ¬ Occurs bytes!"\\name\\" (utf8 Example.stats) ∧ ¬ Occurs matchOver (Example.recording.withStats Example.pieces).demo ∧
    ¬ Occurs standby (Example.recording.withStats Example.pieces).demo ∧ (Example.debug.ktxstats Example.stats).isSome ∧
    ktxstatsString Example.debug (Example.recording.withStats Example.pieces).demo = .ok Example.stats ∧
    Example.pieces.map List.length = [17, 7] :=
  ⟨⟨by decide +kernel, by decide, by decide +kernel, ⟨_, _, rfl, by decide +kernel⟩, by decide +kernel⟩, by decide +kernel,
    by decide +kernel, by decide +kernel, by decide +kernel, by decide +kernel, by decide +kernel, by decide +kernel, by decide +kernel⟩

end Mvd

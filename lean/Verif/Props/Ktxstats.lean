import Verif.Lemmas.Ktxstats
import Verif.Lemmas.Decimal
import Verif.Props.Clients

/-! C40–C42. -/

namespace Mvd
open Spec

instance (n : Bytes) (hay : Bytes) (i : Nat) : Decidable (LastAt n hay i) := decidable_of_iff _ rfind_eq_some_iff
instance (b : StatsBlock) : Decidable b.WF := by unfold StatsBlock.WF; infer_instance

namespace Example

/-- Two blocks of match stats; the text is cut within the second one. -/
def statsBlocks : List StatsBlock := [
  { frameHeader := [0, 6, 0, 0, 0, 0, 0, 0, 0, 0], number := 1, content := bytes!"{\"version\": 3, \"date\": \"\", \"dura" },
  { frameHeader := [0, 6, 0, 0, 0, 0, 1, 1, 1, 1], number := 0, content := bytes!"tion\": 1200, \"map\": \"dm3\"}" }]

/-- Their text. -/
def statsString : Str := chars!"{\"version\": 3, \"date\": \"\", \"duration\": 1200, \"map\": \"dm3\"}"

/-- A demo with match stats. -/
def statsData : Bytes := List.replicate 1300 7 ++ statsBlocks.flatMap StatsBlock.encode ++ [9, 9]

end Example

/-! ### C41 -/

/-- C41: "not found" exactly when the marker is absent. -/
theorem C41_not_found (g : Env) (data : Bytes) :
    ktxstatsString g data = .err .ktxstatsNotFound ↔ ¬ Occurs statsMarker data := by
  unfold ktxstatsString
  rw [marker_eq]
  cases h : rfind statsMarker data with
  | none => exact ⟨fun _ => rfind_eq_none_iff.mp h, fun _ => rfl⟩
  | some m =>
    have hm := rfind_eq_some_iff.mp h
    refine ⟨fun hh => ?_, fun hh => absurd (occurs_iff.mpr ⟨m, hm.1⟩) hh⟩
    exfalso
    simp only at hh
    unfold subU at hh
    split at hh
    · simp only [R.bind] at hh
      split at hh
      · split at hh <;> cases hh
      · rename_i hb; exact blockLoop_ne_err g data _ _ _ _ hb
      · cases hh
      · cases hh
    · split at hh
      · cases hh
      · simp only [R.bind] at hh
        split at hh
        · split at hh <;> cases hh
        · rename_i hb; exact blockLoop_ne_err g data _ _ _ _ hb
        · cases hh
        · cases hh

/-- C41: the outcome when the marker is far enough from the beginning. -/
theorem C41_outcome (g : Env) (data : Bytes) (hlen : data.length < 2 ^ 63) (m : Nat) (hm : LastAt statsMarker data m)
    (hlim : markerLimit g.checks ≤ m) (o : Option Bytes) (h : ReadsBlocks g.checks (data.drop (m - 8)) o) :
    (o = none → ktxstatsString g data = .panic) ∧
    (∀ s, o = some (utf8 s) → ktxstatsString g data = .ok s) ∧
    (∀ content, o = some content → (¬ ∃ s, utf8 s = content) → ktxstatsString g data = .err .utf8) := by
  rw [ktxstatsString_eq g hlen hm hlim h]
  refine ⟨?_, ?_, ?_⟩
  · rintro rfl; rfl
  · rintro s rfl
    simp only [statsText]
    rw [fromUtf8_eq_some_iff.mpr rfl]
  · rintro content rfl hn
    simp only [statsText]
    rw [fromUtf8_eq_none_iff.mpr hn]

/-- C41: the outcome when the marker is too close to the beginning. -/
theorem C41_early (g : Env) (data : Bytes) (hlen : data.length < 2 ^ 63) (m : Nat) (hm : LastAt statsMarker data m)
    (hlim : m < markerLimit g.checks) : ktxstatsString g data = .panic :=
  ktxstatsString_early g hlen hm hlim

/-- C41: reading blocks always has an outcome. -/
theorem C41_reads (checks : Bool) (l : Bytes) : ∃ o, ReadsBlocks checks l o :=
  readsBlocks_exists checks l.length l (Nat.le_refl _)

/-- C41: and it has only one. -/
theorem C41_reads_unique (g : Env) (l : Bytes) (hlen : l.length < 2 ^ 62) (o o' : Option Bytes)
    (h : ReadsBlocks g.checks l o) (h' : ReadsBlocks g.checks l o') : o = o' := by
  have key : ∀ o, ReadsBlocks g.checks l o →
      blockLoop g (List.replicate 10 0 ++ l) (l.length + 1) 0 [] = blocksResult [] o := by
    intro o h
    refine blockLoop_eq g (by simp; omega) h _ 0 10 [] (by omega) (if_pos (by decide)) (by simp) (if_pos (by decide)) ?_
    have : (List.replicate 10 (0 : UInt8)).length = 10 := by simp
    conv => lhs; arg 1; rw [← this]
    exact List.drop_left
  have e := (key o h).symm.trans (key o' h')
  cases o <;> cases o' <;> simp [blocksResult] at e ⊢
  exact e

/-- C41: exactly when it panics. -/
theorem C41_panic_iff (g : Env) (data : Bytes) (hlen : data.length < 2 ^ 63) :
    ktxstatsString g data = .panic ↔ ∃ m, LastAt statsMarker data m ∧
      (m < markerLimit g.checks ∨ ReadsBlocks g.checks (data.drop (m - 8)) none) := by
  constructor
  · intro h
    cases hr : rfind statsMarker data with
    | none =>
      rw [(C41_not_found g data).mpr (rfind_eq_none_iff.mp hr)] at h
      cases h
    | some m =>
      have hm := rfind_eq_some_iff.mp hr
      refine ⟨m, hm, ?_⟩
      by_cases hlim : m < markerLimit g.checks
      · exact .inl hlim
      · obtain ⟨o, ho⟩ := C41_reads g.checks (data.drop (m - 8))
        rw [ktxstatsString_eq g hlen hm (by omega) ho] at h
        cases o with
        | none => exact .inr ho
        | some c =>
          simp only [statsText] at h
          split at h <;> cases h
  · rintro ⟨m, hm, hlim | hr⟩
    · exact C41_early g data hlen m hm hlim
    · by_cases hlim : m < markerLimit g.checks
      · exact C41_early g data hlen m hm hlim
      · exact (C41_outcome g data hlen m hm (by omega) none hr).1 rfl

/-- C41: exactly when it returns a text. -/
theorem C41_ok_iff (g : Env) (data : Bytes) (hlen : data.length < 2 ^ 63) (s : Str) :
    ktxstatsString g data = .ok s ↔ ∃ m, LastAt statsMarker data m ∧ markerLimit g.checks ≤ m ∧
      ReadsBlocks g.checks (data.drop (m - 8)) (some (utf8 s)) := by
  constructor
  · intro h
    cases hr : rfind statsMarker data with
    | none =>
      rw [(C41_not_found g data).mpr (rfind_eq_none_iff.mp hr)] at h
      cases h
    | some m =>
      have hm := rfind_eq_some_iff.mp hr
      by_cases hlim : m < markerLimit g.checks
      · rw [C41_early g data hlen m hm hlim] at h; cases h
      · obtain ⟨o, ho⟩ := C41_reads g.checks (data.drop (m - 8))
        rw [ktxstatsString_eq g hlen hm (by omega) ho] at h
        cases o with
        | none => cases h
        | some c =>
          simp only [statsText] at h
          split at h
          · rename_i s' hs
            cases h
            rw [← fromUtf8_eq_some_iff.mp hs] at ho
            exact ⟨m, hm, by omega, ho⟩
          · cases h
  · rintro ⟨m, hm, hlim, hr⟩
    exact (C41_outcome g data hlen m hm hlim _ hr).2.1 s rfl

/-! ### C40 -/

theorem readsBlocks_chain (checks : Bool) {init : List StatsBlock} {last : StatsBlock} {post : Bytes}
    (hinit : ∀ b ∈ init, b.WF ∧ b.number ≠ 0) (hlast : last.WF) (h0 : last.number = 0) :
    ReadsBlocks checks (((init.flatMap StatsBlock.encode ++ last.encode) ++ post).drop 10)
      (some (init.flatMap StatsBlock.content ++ last.content)) := by
  induction init with
  | nil =>
    have : (([].flatMap StatsBlock.encode ++ last.encode) ++ post).drop 10 = last.body ++ post := by
      simp only [List.flatMap_nil, List.nil_append, StatsBlock.encode]
      rw [← hlast.1, List.append_assoc, List.drop_left]
    rw [this]
    exact .last hlast h0
  | cons b init ih =>
    have hb := hinit b (List.mem_cons_self)
    have ih' := ih (fun x hx => hinit x (List.mem_cons_of_mem _ hx))
    have hlen : 10 ≤ (((init.flatMap StatsBlock.encode ++ last.encode) ++ post)).length := by
      have := hlast.1
      simp only [List.length_append, StatsBlock.encode]
      omega
    have e : ((((b :: init).flatMap StatsBlock.encode ++ last.encode) ++ post).drop 10) =
        b.body ++ ((init.flatMap StatsBlock.encode ++ last.encode) ++ post).take 10 ++
          ((init.flatMap StatsBlock.encode ++ last.encode) ++ post).drop 10 := by
      rw [List.append_assoc b.body, List.take_append_drop]
      simp only [List.flatMap_cons, StatsBlock.encode, List.append_assoc]
      rw [← hb.1.1, List.drop_left]
    rw [e]
    have := ReadsBlocks.next (header := ((init.flatMap StatsBlock.encode ++ last.encode) ++ post).take 10) hb.1 hb.2
      (by rw [List.length_take]; omega) ih'
    simpa [List.append_assoc] using this

/-- C40: the contents of a chain of blocks, the last of which is numbered 0, are put together. -/
theorem C40_round_trip (g : Env) (pre post : Bytes) (init : List StatsBlock) (last : StatsBlock) (s : Str)
    (hinit : ∀ b ∈ init, b.WF ∧ b.number ≠ 0) (hlast : last.WF) (h0 : last.number = 0)
    (hlen : (pre ++ init.flatMap StatsBlock.encode ++ last.encode ++ post).length < 2 ^ 63)
    (hm : LastAt statsMarker (pre ++ init.flatMap StatsBlock.encode ++ last.encode ++ post) (pre.length + 18))
    (hs : init.flatMap StatsBlock.content ++ last.content = utf8 s) :
    ktxstatsString g (pre ++ init.flatMap StatsBlock.encode ++ last.encode ++ post) = .ok s := by
  refine (C41_outcome g _ hlen _ hm ?_ _ ?_).2.1 s (congrArg some hs)
  · unfold markerLimit; split <;> omega
  · have := readsBlocks_chain g.checks (post := post) hinit hlast h0
    have e : (pre ++ init.flatMap StatsBlock.encode ++ last.encode ++ post).drop (pre.length + 18 - 8) =
        ((init.flatMap StatsBlock.encode ++ last.encode) ++ post).drop 10 := by
      rw [show pre.length + 18 - 8 = pre.length + 10 by omega, ← List.drop_drop]
      simp only [List.append_assoc]
      rw [List.drop_left]
    rw [e]
    exact this

/-- C40: likewise the marker need not be the beginning of the first content. If it is, and does not occur again, the
position is right. -/
theorem C40_marker (pre content post : Bytes) (b : StatsBlock) (hb : b.WF) (hc : b.content = statsMarker ++ content)
    (hn : ¬ Occurs statsMarker ((statsMarker ++ content ++ post).drop 1)) :
    LastAt statsMarker (pre ++ b.encode ++ post) (pre.length + 18) := by
  have e : pre ++ b.encode ++ post =
      (pre ++ b.frameHeader ++ (le32 (b.content.length + 2) ++ le16 3 ++ le16 b.number)) ++ statsMarker ++ (content ++ post) := by
    simp only [StatsBlock.encode, StatsBlock.body, hc]
    simp only [List.append_assoc]
  have hl : (pre ++ b.frameHeader ++ (le32 (b.content.length + 2) ++ le16 3 ++ le16 b.number)).length = pre.length + 18 := by
    simp [hb.1, le32, le16]
  refine ⟨⟨_, _, e, hl⟩, ?_⟩
  rintro j ⟨x, y, hxy, hx⟩
  refine Classical.byContradiction fun hj => hn ?_
  generalize pre ++ b.frameHeader ++ (le32 (b.content.length + 2) ++ le16 3 ++ le16 b.number) = front at e hl
  refine ⟨x.drop (pre.length + 18 + 1), y, ?_⟩
  calc (statsMarker ++ content ++ post).drop 1
      = (front ++ (statsMarker ++ (content ++ post))).drop (front.length + 1) := by
        rw [← List.drop_drop, List.drop_left, ← List.append_assoc]
    _ = (x ++ (statsMarker ++ y)).drop (pre.length + 18 + 1) := by
        rw [← List.append_assoc, ← e, hxy, hl, List.append_assoc]
    _ = _ := by rw [List.drop_append_of_le_length (by omega), List.append_assoc]

example : (∀ b ∈ Example.statsBlocks, b.WF) ∧
    ktxstatsString Example.debug Example.statsData = .ok Example.statsString := by
  have e : Example.statsData = List.replicate 1300 (7 : UInt8) ++ [Example.statsBlocks[0]].flatMap StatsBlock.encode ++
      Example.statsBlocks[1].encode ++ [9, 9] := by decide +kernel
  refine ⟨by decide, ?_⟩
  rw [e]
  exact C40_round_trip Example.debug (List.replicate 1300 7) [9, 9] [Example.statsBlocks[0]]
    Example.statsBlocks[1] _ (by decide) (by decide) (by decide) (by decide +kernel) (by decide +kernel) (by decide +kernel)

example : Example.statsBlocks[0].content = statsMarker ++ bytes!"3, \"date\": \"\", \"dura" ∧
    ¬ Occurs statsMarker ((statsMarker ++ bytes!"3, \"date\": \"\", \"dura" ++ Example.statsBlocks[1].encode).drop 1) := by
  decide +kernel

/-- C41: the marker in the first bytes. Without overflow checks the text is found although there is no frame header. -/
theorem C41_early_witness :
    (let data := le32 14 ++ le16 3 ++ le16 0 ++ statsMarker
     ktxstatsString Example.debug data = .panic ∧
     ktxstatsString Example.release data = .ok chars!"{\"version\": " ∧
     ktxstatsString Example.release (data.drop 1) = .panic) := by decide +kernel

/-- C41: a block size below 2, with overflow checks. -/
theorem C41_size_witness :
    ktxstatsString Example.debug (List.replicate 10 0 ++ le32 1 ++ le16 3 ++ le16 0 ++ statsMarker) = .panic := by decide +kernel

/-- C41: a block that claims more bytes than there are, whatever the build. -/
theorem C41_cut_witness :
    (let data := List.replicate 10 0 ++ le32 100 ++ le16 3 ++ le16 0 ++ statsMarker
     ktxstatsString Example.debug data = .panic ∧ ktxstatsString Example.release data = .panic) := by decide +kernel

/-- C41: a missing last block. -/
theorem C41_gap_witness :
    (let data := List.replicate 10 0 ++ le32 14 ++ le16 3 ++ le16 1 ++ statsMarker
     ktxstatsString Example.debug data = .panic ∧ ktxstatsString Example.release data = .panic) := by decide +kernel

/-- The hypotheses of `C41_outcome`: a text, no UTF-8, a crash. -/
example : (LastAt statsMarker Example.statsData 1318 ∧ markerLimit true ≤ 1318) ∧
    ktxstatsString Example.debug (List.replicate 10 0 ++ le32 15 ++ le16 3 ++ le16 0 ++ statsMarker ++ [0xFF]) = .err .utf8 ∧
    ktxstatsString Example.debug [1, 2] = .err .ktxstatsNotFound := by decide +kernel

example : ReadsBlocks true (le32 15 ++ le16 3 ++ le16 0 ++ statsMarker ++ [0xFF]) (some (statsMarker ++ [0xFF])) := by
  have := ReadsBlocks.last (checks := true) (b := ⟨List.replicate 10 0, 0, statsMarker ++ [0xFF]⟩) (t := []) (by decide) rfl
  simpa [StatsBlock.body, show statsMarker.length = 12 from rfl] using this

/-! ### C42 -/

/-- The match stats are the parsed text. -/
theorem C42_stats (g : Env) (data : Bytes) :
    (∀ stats, ktxstatsV3 g data = .ok stats ↔ ∃ s, ktxstatsString g data = .ok s ∧ g.ktxstats s = some stats) ∧
    (ktxstatsV3 g data = .err .ktxstatsParse ↔ ∃ s, ktxstatsString g data = .ok s ∧ g.ktxstats s = none) ∧
    (∀ e, ktxstatsString g data = .err e → ktxstatsV3 g data = .err e) ∧
    (ktxstatsString g data = .panic → ktxstatsV3 g data = .panic) := by
  have hne : ktxstatsString g data ≠ .err .ktxstatsParse := by
    intro h
    unfold ktxstatsString at h
    split at h
    · cases h
    · obtain ⟨k, hk⟩ | hk := subU_cases g.checks 64 (by assumption) TOTAL_HEADER_SIZE
      · rw [hk] at h
        simp only [R.bind] at h
        split at h
        · split at h <;> cases h
        · rename_i hb; exact blockLoop_ne_err g data _ _ _ _ hb
        · cases h
        · cases h
      · rw [hk] at h; cases h
  unfold ktxstatsV3
  refine ⟨?_, ?_, ?_, ?_⟩
  · intro stats
    cases h : ktxstatsString g data with
    | ok s =>
      simp only [R.bind]
      cases hs : g.ktxstats s <;> simp [hs]
    | err e => simp [R.bind]
    | panic => simp [R.bind]
    | hang => simp [R.bind]
  · cases h : ktxstatsString g data with
    | ok s =>
      simp only [R.bind]
      cases hs : g.ktxstats s <;> simp [hs]
    | err e =>
      rw [h] at hne
      simpa [R.bind] using hne
    | panic => simp [R.bind]
    | hang => simp [R.bind]
  · intro e h; rw [h]; rfl
  · intro h; rw [h]; rfl

/-- C42: the server is read off the match stats; the address ends in the decimal port. -/
theorem C42_server (g : Env) (data : Bytes) (stats : KtxStats) (h : ktxstatsV3 g data = .ok stats) :
    ∃ v, server g data = .ok v ∧ v.hostname = stats.hostname ∧ v.ip = stats.ip ∧ v.port = stats.port ∧
      ∃ p, Decimal stats.port p ∧ v.address = stats.ip ++ chars!":" ++ p := by
  refine ⟨Server.ofStats stats, ?_, rfl, rfl, rfl, showNat stats.port, showNat_decimal _, rfl⟩
  unfold server
  rw [h]
  rfl

/-- C42: and it is missing for the same reason as these. -/
theorem C42_no_server (g : Env) (data : Bytes) :
    (∀ e, ktxstatsV3 g data = .err e ↔ server g data = .err e) ∧ (ktxstatsV3 g data = .panic ↔ server g data = .panic) := by
  unfold server
  cases ktxstatsV3 g data <;> simp [R.bind]

/-- The decimal notation is unique. -/
theorem C42_decimal_unique (n : Nat) (s t : Str) (hs : Decimal n s) (ht : Decimal n t) : s = t :=
  (decimal_eq _ n s (Nat.le_refl _) hs).trans (decimal_eq _ n t (Nat.le_refl _) ht).symm

example : server Example.debug Example.statsData = .ok ⟨chars!"host", chars!"1.2.3.4:27500", chars!"1.2.3.4", 27500⟩ ∧
    Decimal 27500 chars!"27500" ∧ Decimal 0 chars!"0" ∧ ¬ Decimal 7 chars!"07" := by
  refine ⟨by decide +kernel, ?_, ?_, ?_⟩ <;> unfold Decimal <;> decide

end Mvd

import Verif.Spec.Ambush
import Verif.Props.Report

/-! C88: matches with anonymous teamkills. -/

namespace Mvd
open Spec

theorem firstClient_of_nodup {α : Type} [DecidableEq α] (a : Client → α) {cs : List Client} (h : (cs.map a).Nodup) {c : Client}
    (hc : c ∈ cs) : FirstClient cs (fun d => a d = a c) c := by
  obtain ⟨x, y, rfl⟩ := List.append_of_mem hc
  refine ⟨x, y, rfl, rfl, fun d hd e => ?_⟩
  rw [List.map_append, List.nodup_append] at h
  exact h.2.2 _ (List.mem_map.mpr ⟨d, hd, rfl⟩) _ (List.mem_map.mpr ⟨c, by simp, rfl⟩) e

theorem betrayed_blamed {cs : List Client} (hnum : (cs.map (·.number)).Nodup) (hname : (cs.map (·.name)).Nodup)
    {updates : List UInt8} {killer victim : Str} (h : Betrayed cs updates killer victim) : Blamed cs updates victim killer := by
  obtain ⟨k, hk, v, hv, rfl, rfl, hne, ht, before, n, after, he, hn, hb⟩ := h
  refine ⟨v, firstClient_of_nodup (·.name) hname hv, before, n, after, he, ?_, k, ⟨?_, ht, hne⟩, rfl⟩
  · rintro m hm d ⟨⟨x, y, rfl, hd, _⟩, h2, h3⟩
    rcases hb m hm d (by simp) hd with h | h
    · exact h h2
    · exact h3 h
  · have := firstClient_of_nodup (·.number) hnum hk
    rwa [hn] at this

theorem covert_not_blamed {cs : List Client} {updates : List UInt8} {victim : Str} (h : Covert cs updates victim) (k : Str) :
    ¬ Blamed cs updates victim k := by
  rintro ⟨v, ⟨x, y, rfl, hv, _⟩, before, n, after, rfl, _, c, ⟨⟨x', y', e, hc, _⟩, ht, hn⟩, _⟩
  rcases h v (by simp) hv n (by simp) c (by rw [e]; simp) hc with h | h
  · exact h ht
  · exact hn (h.trans hv.symm)

theorem ambushed_classifies {victim text : Str} (h : SaysAmbushed victim text) : Classifies text (.teamkillByUnknown victim) := by
  cases h with
  | mk hx hp =>
    rcases hx with hx | hx
    · exact (C24_classification _ (.teamkillByUnknown _)).mp ((C84_one_name _ hx).2.2.2.2 _ hp)
    · exact (clear_says_one hx).2.2.2.2 _ hp

theorem told_charges {u : Bytes → Str} {cs : List Client} (hnum : (cs.map (·.number)).Nodup) (hname : (cs.map (·.name)).Nodup)
    {es : List (Option Obituary)} {fs : List Frame} (h : Told u cs es fs) :
    Charges u cs fs (es.flatMap fun e => (e.bind award).toList) := by
  induction h with
  | nil => exact .nil
  | named h _ ih => exact .cons (reports_charge h).1 ih
  | anonymous hs ha hb _ ih => exact .cons (.blamed ha (ambushed_classifies hs) (betrayed_blamed hnum hname hb)) ih
  | unsolved hs ha hb _ ih => exact .cons (.unsolved ha (ambushed_classifies hs) (covert_not_blamed hb)) ih

theorem told_length {u : Bytes → Str} {cs : List Client} {es : List (Option Obituary)} {fs : List Frame} (h : Told u cs es fs) :
    es.length = fs.length := by
  induction h with
  | nil => rfl
  | named _ _ ih => simp [ih]
  | anonymous _ _ _ _ ih => simp [ih]
  | unsolved _ _ _ _ ih => simp [ih]

theorem numbers_nodup {g : Env} {data : Bytes} {cs : List Client} (hc : clients g data = .ok cs) (h256 : cs.length ≤ 256) :
    (cs.map (·.number)).Nodup := by
  obtain ⟨_, _, _, _, h, _⟩ := C20_client_numbers g data cs hc
  exact h h256

/-- C88: the scores of a match in which teamkills may be reported without naming the killer: every anonymous teamkill is
charged to the killer, if the score updates nearby give the killer away, and otherwise to nobody. -/
theorem C88_scores (g : Env) (data : Bytes) (fs : List Frame) (rest : Bytes) (cs : List Client) (es : List (Option Obituary))
    (h : Splits data fs rest) (hs : Stops data.length rest) (hl : data.length < 2 ^ 31)
    (hc : clients g data = .ok cs) (h256 : cs.length ≤ 256) (hnames : (cs.map (·.name)).Nodup)
    (hr : Told g.toUnicode cs es fs) :
    ∃ m, fragsPerPlayerName g data = .ok m ∧ ∀ name,
      (Scores es name → m.get name = some (score es name)) ∧ (¬ Scores es name → m.get name = none) := by
  have hch := told_charges (numbers_nodup hc h256) hnames hr
  obtain ⟨m, em, gm⟩ := C26_frags g data fs rest cs _ h hs (.inl hc) hch (C26_bound g data fs rest cs _ h hch hl)
  refine ⟨m, em, fun name => ?_⟩
  rw [gm, points_score]
  constructor
  · intro hn
    rw [if_pos ((mem_scores es name).mpr hn)]
  · intro hn
    rw [if_neg fun k => hn ((mem_scores es name).mp k)]

/-- C88: the players of such a match, as in C77. -/
theorem C88_players (g : Env) (data : Bytes) (fs : List Frame) (rest : Bytes) (e : Err) (cs : List Client)
    (es : List (Option Obituary)) (uss : List (List (UInt8 × Nat)))
    (h : Splits data fs rest) (hs : Stops data.length rest) (hl : data.length < 2 ^ 31)
    (hk : ktxstatsV3 g data = .err e) (hc : clients g data = .ok cs) (h256 : cs.length ≤ 256)
    (hnames : (cs.map (·.name)).Nodup) (hr : Told g.toUnicode cs es fs)
    (hu : List.Forall₂ (fun f us => LeadingPings f.body us) fs uss) (hne : sampledPings uss ≠ [])
    (hsum : ∀ p, (samplesOf (sampledPings uss) p).sum < 65536) :
    ∃ ps l, List.Forall₂ (ReportedAs es (sampledPings uss)) (inGame cs) ps ∧
      players g data = .ok l ∧ l.Perm ps ∧ l.Pairwise fun a b => ¬ Outranks b a :=
  scored_players g data fs rest e cs es uss h hs hk hc h256 (C88_scores g data fs rest cs es h hs hl hc h256 hnames hr) hu hne hsum

/-- C88: and the teams, as in C78. -/
theorem C88_teams (g : Env) (data : Bytes) (fs : List Frame) (rest : Bytes) (e : Err) (cs : List Client)
    (es : List (Option Obituary)) (uss : List (List (UInt8 × Nat))) (ts : List Team)
    (h : Splits data fs rest) (hs : Stops data.length rest) (hl : data.length < 2 ^ 31)
    (hk : ktxstatsV3 g data = .err e) (hc : clients g data = .ok cs) (h256 : cs.length ≤ 256)
    (hnames : (cs.map (·.name)).Nodup) (hr : Told g.toUnicode cs es fs)
    (hu : List.Forall₂ (fun f us => LeadingPings f.body us) fs uss) (hne : sampledPings uss ≠ [])
    (hsum : ∀ p, (samplesOf (sampledPings uss) p).sum < 65536) (ht : teams g data = .ok ts) :
    (∀ name, name ∈ ts.map (·.name) ↔ ∃ c ∈ inGame cs, c.team = name) ∧
    ∀ t ∈ ts, t.frags = (((inGame cs).filter fun c => c.team = t.name).map fun c => score es c.name).sum := by
  obtain ⟨ps, l, hf, hpl, hperm, _⟩ := C88_players g data fs rest e cs es uss h hs hl hk hc h256 hnames hr hu hne hsum
  exact scored_teams g data cs es _ ts ps l hf hpl hperm (by rw [told_length hr]; exact length_lt h hl)
    (hnames.sublist (List.filter_sublist.map _)) ht

/-- C88: with at most 255 players the teams are found. -/
theorem C88_found (g : Env) (data : Bytes) (fs : List Frame) (rest : Bytes) (e : Err) (cs : List Client)
    (es : List (Option Obituary)) (uss : List (List (UInt8 × Nat)))
    (h : Splits data fs rest) (hs : Stops data.length rest) (hl : data.length < 2 ^ 31)
    (hk : ktxstatsV3 g data = .err e) (hc : clients g data = .ok cs) (h256 : cs.length ≤ 256)
    (hnames : (cs.map (·.name)).Nodup) (hr : Told g.toUnicode cs es fs)
    (hu : List.Forall₂ (fun f us => LeadingPings f.body us) fs uss) (hne : sampledPings uss ≠ [])
    (hsum : ∀ p, (samplesOf (sampledPings uss) p).sum < 65536) (hfew : (inGame cs).length ≤ 255) :
    ∃ ts, teams g data = .ok ts := by
  obtain ⟨ps, l, hf, hpl, hperm, _⟩ := C88_players g data fs rest e cs es uss h hs hl hk hc h256 hnames hr hu hne hsum
  exact scored_teams_found g data cs es _ ps l hf hpl hperm (by rw [told_length hr]; exact length_lt h hl)
    (hnames.sublist (List.filter_sublist.map _)) hsum hfew

/-! ### A match with an anonymous teamkill -/

namespace Example

/-- A frag, and an anonymous teamkill of `a` by `b` (number 1), whose score is updated after those of the victim and the
opponent; an announcement that is not an obituary; another anonymous teamkill, with no update but that of the opponent. -/
def ambushFrames : List Frame := [teamFrame, all (ping 0 25 0 ++ ping 2 44 1), all (medium bytes!"c was gibbed by a's rocket\n"),
  all (medium bytes!"a was telefragged by his teammate\n" ++ [14, 0, 1, 0]), all [14, 2, 1, 0], all [14, 1, 255, 255],
  all (medium bytes!"b takes the lead\n"), all (medium bytes!"a was jumped by his teammate\n"), all [14, 2, 2, 0]]

def ambushEvents : List (Option Obituary) :=
  [none, none, some (.frag chars!"a" chars!"c"), some (.teamkill chars!"b"), none, none, none, none, none]

theorem ambush_told : Told debug.toUnicode team ambushEvents ambushFrames := by
  have silent : ∀ (f : Frame), f.body.head? ≠ some 8 → Reports debug.toUnicode none f := by
    rintro f hf t m o ⟨p, _, _, _, e, _⟩
    rw [e] at hf
    exact (hf rfl).elim
  refine .named (silent _ (by decide +kernel)) (.named (silent _ (by decide +kernel)) (.named
    ⟨_, [], .victimFirst (x := chars!"c") (y := chars!"a") (p := ⟨chars!" was gibbed by ", chars!"'s rocket"⟩) (by decide +kernel)
      (by decide +kernel) (by decide +kernel), ⟨1, bytes!"c was gibbed by a's rocket\n"⟩, by decide, rfl, by decide,
      by decide +kernel, chars!"\n", by decide +kernel, by decide, by decide⟩ (.anonymous (victim := chars!"a")
    (more := [14, 0, 1, 0]) (.mk (x := chars!"a") (p := chars!" was telefragged by his teammate") (.inl (by decide +kernel)) (by decide +kernel))
    ⟨⟨1, bytes!"a was telefragged by his teammate\n"⟩, by decide, rfl, by decide, by decide +kernel, chars!"\n", by decide +kernel,
      by decide, by decide⟩ ?_ (.named (silent _ (by decide)) (.named (silent _ (by decide)) (.named ?_ (.unsolved (victim := chars!"a")
    (more := []) (.mk (x := chars!"a") (p := chars!" was jumped by his teammate") (.inl (by decide +kernel)) (by decide +kernel))
    ⟨⟨1, bytes!"a was jumped by his teammate\n"⟩, by decide, rfl, by decide, by decide +kernel, chars!"\n", by decide +kernel,
      by decide, by decide⟩ ?_ (.named (silent _ (by decide)) .nil))))))))
  rotate_left
  · intro t m o ha
    obtain ⟨rfl, _⟩ := announces_unique ha (⟨⟨1, bytes!"b takes the lead\n"⟩, by decide, rfl, by decide, rfl,
      chars!"\n", by decide +kernel, by decide, by decide⟩ : Announces _ _ chars!"b takes the lead" [])
    rcases C24_total chars!"b takes the lead" with ⟨e, h⟩ | h
    · exact absurd h (by
        rw [show FragEvent.tryFrom chars!"b takes the lead" = .err .fragEvent by decide +kernel]
        simp)
    · exact h.2 o
  · have e : nearbyUpdates [] [all [14, 2, 2, 0]] = [2] := by decide
    rw [e]
    unfold Covert
    decide +kernel
  have e : nearbyUpdates [14, 0, 1, 0] [all [14, 2, 1, 0], all [14, 1, 255, 255],
      all (medium bytes!"b takes the lead\n"), all (medium bytes!"a was jumped by his teammate\n"), all [14, 2, 2, 0]] =
      [0, 2] ++ 1 :: [] := by decide
  obtain ⟨a, b, c, h, ha, hb, hc⟩ : ∃ a b c, team = [a, b, c] ∧ (a.name = chars!"a" ∧ a.team = chars!"red" ∧ a.number = 0) ∧
      (b.name = chars!"b" ∧ b.team = chars!"red" ∧ b.number = 1) ∧ (c.name = chars!"c" ∧ c.team = chars!"blue" ∧ c.number = 2) :=
    ⟨team[0]'(by decide +kernel), team[1]'(by decide +kernel), team[2]'(by decide +kernel), by decide +kernel, by decide +kernel,
      by decide +kernel, by decide +kernel⟩
  rw [e, h]
  refine ⟨b, by simp, a, by simp, hb.1, ha.1, by decide, by rw [hb.2.1, ha.2.1], _, _, _, rfl, hb.2.2, ?_⟩
  intro m hm d hd hn
  simp only [List.mem_cons, List.not_mem_nil, or_false] at hm hd
  rcases hd with rfl | rfl | rfl
  · exact .inr ha.1
  · rw [hb.2.2] at hn
    rcases hm with rfl | rfl <;> simp at hn
  · left
    rw [hc.2.1, ha.2.1]
    decide

end Example

/-- The hypotheses of C88 are met by a match of three players. -/
example : ∃ (uss : List (List (UInt8 × Nat))) (ts : List Team),
    Splits (Spec.encode Example.ambushFrames) Example.ambushFrames [] ∧ Stops (Spec.encode Example.ambushFrames).length [] ∧
    (Spec.encode Example.ambushFrames).length < 2 ^ 31 ∧
    ktxstatsV3 Example.debug (Spec.encode Example.ambushFrames) = .err .ktxstatsNotFound ∧
    clients Example.debug (Spec.encode Example.ambushFrames) = .ok Example.team ∧ Example.team.length ≤ 256 ∧
    (Example.team.map (·.name)).Nodup ∧ Told Example.debug.toUnicode Example.team Example.ambushEvents Example.ambushFrames ∧
    List.Forall₂ (fun f us => LeadingPings f.body us) Example.ambushFrames uss ∧ sampledPings uss ≠ [] ∧
    (∀ p, (samplesOf (sampledPings uss) p).sum < 65536) ∧
    teams Example.debug (Spec.encode Example.ambushFrames) = .ok ts ∧ ts.map (·.frags) = [0, 0] ∧
    fragsPerPlayerName Example.debug (Spec.encode Example.ambushFrames) = .ok [(chars!"a", 1), (chars!"b", -1)] := by
  have hteams : ∃ ts, teams Example.debug (Spec.encode Example.ambushFrames) = .ok ts ∧ ts.map (·.frags) = [0, 0] := by
    have : (match teams Example.debug (Spec.encode Example.ambushFrames) with | .ok l => l.map (·.frags) | _ => []) = [0, 0] := by
      decide +kernel
    cases h : teams Example.debug (Spec.encode Example.ambushFrames) with
    | ok l => rw [h] at this; exact ⟨l, rfl, this⟩
    | _ => rw [h] at this; cases this
  obtain ⟨ts, ht, hf⟩ := hteams
  refine ⟨[[], [(0, 25), (2, 300)], [], [], [], [], [], [], []], ts, (splits_whole (by decide +kernel)).1, (splits_whole (by decide +kernel)).2,
    by decide +kernel, by decide +kernel, by decide +kernel, by decide +kernel, by decide +kernel, Example.ambush_told, ?_,
    by decide +kernel, ?_, ht, hf, by decide +kernel⟩
  · have hnil : NoPing [] := by intro n lo hi x t h; cases h
    have h0 : ∀ b t, b ≠ 36 → NoPing (b :: t) := by
      intro b t hb n lo hi x t' h
      cases h
      exact hb rfl
    exact .cons (.stop (h0 9 _ (by decide))) (.cons (.step (.step (.stop hnil))) (.cons (.stop (h0 8 _ (by decide)))
      (.cons (.stop (h0 8 _ (by decide))) (.cons (.stop (h0 14 _ (by decide))) (.cons (.stop (h0 14 _ (by decide)))
      (.cons (.stop (h0 8 _ (by decide))) (.cons (.stop (h0 8 _ (by decide))) (.cons (.stop (h0 14 _ (by decide))) .nil))))))))
  · intro p
    have : ∀ (l : List (UInt8 × Nat)), (samplesOf l p).sum ≤ (l.map Prod.snd).sum := by
      intro l
      induction l with
      | nil => simp [samplesOf]
      | cons a t ih =>
        unfold samplesOf at ih ⊢
        rw [List.filter_cons]
        split
        · rw [List.map_cons, List.map_cons, List.sum_cons, List.sum_cons]
          omega
        · rw [List.map_cons, List.sum_cons]
          omega
    exact Nat.lt_of_le_of_lt (this _) (by decide)

/-- C88, limits: when the first score update nearby is that of another team mate, that mate is charged; with the update in the
third frame, nobody is. -/
theorem C88_witness :
    let clients := Example.all (spawnCommand ++ [0] ++ bytes!"\\name\\a\\team\\red" ++ [0, 0] ++ bytes!"\\name\\b\\team\\red" ++ [0, 0] ++
      bytes!"\\name\\c\\team\\red" ++ [0] ++ List.replicate 600 10)
    let print := Example.all (Example.medium bytes!"a was telefragged by his teammate\n")
    fragsPerPlayerName Example.debug (Spec.encode [clients, print, Example.all [14, 2, 5, 0], Example.all [14, 1, 255, 255]]) =
      .ok [(chars!"c", -1)] ∧
    fragsPerPlayerName Example.debug (Spec.encode [clients, print, Example.all [7], Example.all [7], Example.all [14, 1, 255, 255]]) =
      .ok [] := by
  decide +kernel

end Mvd

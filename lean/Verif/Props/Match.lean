import Verif.Spec.Match
import Verif.Props.Awards
import Verif.Props.Names
import Verif.Lemmas.Clear

/-! C73: a match written down is scored as it was played. -/

namespace Mvd
open Spec

theorem says_classifies {o : Obituary} {text : Str} (h : Says o text) : Classifies text o := by
  cases h with
  | death hx hp => exact (C24_classification _ (.death _)).mp ((C84_one_name _ hx).1 _ hp)
  | suicide hx => exact (C24_classification _ (.suicide _)).mp (C84_one_name _ hx).2.2.1
  | suicideByWeapon hx hp => exact (C24_classification _ (.suicideByWeapon _)).mp ((C84_one_name _ hx).2.1 _ hp)
  | teamkill hx hp => exact (C24_classification _ (.teamkill _)).mp ((C84_one_name _ hx).2.2.2.1 _ hp)
  | killerFirst hx hy hp => exact (C24_classification _ (.frag _ _)).mp ((C84_two_names _ _ hx hy).1 _ hp)
  | victimFirst hx hy hp => exact (C24_classification _ (.frag _ _)).mp ((C84_two_names _ _ hx hy).2 _ hp)
  | clear hw hn => exact clear_says hw hn

theorem says_award {o : Obituary} {text : Str} (h : Says o text) : ∃ c, award o = some c := by
  cases h with
  | clear hw _ hu =>
    cases hw with
    | @teamkillByUnknown x => exact absurd rfl (hu x)
    | _ => exact ⟨_, rfl⟩
  | _ => exact ⟨_, rfl⟩

theorem reports_charge {u : Bytes → Str} {cs : List Client} {e : Option Obituary} {f : Frame} {later : List Frame}
    (h : Reports u e f) : Charge u cs f later (e.bind award) ∧ NotAnonymous u f := by
  cases e with
  | none => exact ⟨.nothing h, fun t m _ a => h t m _ a⟩
  | some o =>
    obtain ⟨text, more, hs, ha⟩ := h
    obtain ⟨c, hc⟩ := says_award hs
    have hcl := says_classifies hs
    refine ⟨?_, award_notAnonymous ha hcl hc⟩
    rw [Option.bind_some, hc]
    exact charge_award ha hcl hc

theorem reports_charges {u : Bytes → Str} {cs : List Client} {es : List (Option Obituary)} {fs : List Frame}
    (h : List.Forall₂ (Reports u) es fs) :
    Charges u cs fs (es.flatMap fun e => (e.bind award).toList) ∧ ∀ f ∈ fs, NotAnonymous u f := by
  induction h with
  | nil => exact ⟨.nil, by simp⟩
  | cons h _ ih =>
    refine ⟨.cons (reports_charge h).1 ih.1, ?_⟩
    intro f hf
    rcases List.mem_cons.mp hf with rfl | hf
    · exact (reports_charge (cs := cs) (later := []) h).2
    · exact ih.2 f hf

theorem points_score (es : List (Option Obituary)) (name : Str) :
    points (es.flatMap fun e => (e.bind award).toList) name = score es name := by
  induction es with
  | nil => rfl
  | cons e es ih =>
    rw [List.flatMap_cons, points_append, ih]
    unfold score
    rw [List.map_cons, List.sum_cons]
    congr 1
    cases e.bind award with
    | none => rfl
    | some c => by_cases h : c.1 = name <;> simp [points, h]

theorem mem_scores (es : List (Option Obituary)) (name : Str) :
    name ∈ (es.flatMap fun e => (e.bind award).toList).map Prod.fst ↔ Scores es name := by
  simp only [List.mem_map, List.mem_flatMap, Option.mem_toList, Option.bind_eq_some_iff, Scores]
  constructor
  · rintro ⟨⟨n, w⟩, ⟨e, he, o, ho, ha⟩, rfl⟩
    exact ⟨e, he, o, w, ho, ha⟩
  · rintro ⟨e, he, o, w, ho, ha⟩
    exact ⟨(name, w), ⟨e, he, o, ho, ha⟩, rfl⟩

/-- C73: if the frames of a demo report a sequence of events, the reported scores are those of the events, and exactly
the players whose score changed are listed. -/
theorem C73_scores (g : Env) (data : Bytes) (fs : List Frame) (rest : Bytes) (es : List (Option Obituary))
    (h : Splits data fs rest) (hs : Stops data.length rest) (hr : List.Forall₂ (Reports g.toUnicode) es fs)
    (hl : data.length < 2 ^ 31) :
    ∃ m, fragsPerPlayerName g data = .ok m ∧ ∀ name,
      (Scores es name → m.get name = some (score es name)) ∧ (¬ Scores es name → m.get name = none) := by
  obtain ⟨hc, hn⟩ := reports_charges (cs := []) hr
  obtain ⟨m, em, gm⟩ := C26_frags g data fs rest [] _ h hs (.inr (.inr (by
    intro before f later e
    rintro ⟨t, m, v, ha, hc, _⟩
    exact hn f (by rw [e]; simp) t m v ha hc))) hc (C26_bound g data fs rest [] _ h hc hl)
  refine ⟨m, em, fun name => ?_⟩
  rw [gm, points_score]
  constructor
  · intro hn
    rw [if_pos ((mem_scores es name).mpr hn)]
  · intro hn
    rw [if_neg fun k => hn ((mem_scores es name).mp k)]

/-- The hypotheses are met by a match of three frames, with names that contain spaces. -/
example : ∃ (fs : List Frame) (es : List (Option Obituary)), Splits (Spec.encode fs) fs [] ∧
    Stops (Spec.encode fs).length [] ∧ List.Forall₂ (Reports Example.debug.toUnicode) es fs ∧
    (Spec.encode fs).length < 2 ^ 31 ∧ score es chars!"/ tincan" = -1 ∧
    fragsPerPlayerName Example.debug (Spec.encode fs) = .ok [(chars!"/ tincan", -1)] := by
  refine ⟨[Example.all (Example.medium bytes!"/ bro rides / tincan's rocket\n"), Example.all [7],
    Example.all (Example.medium bytes!"/ tincan suicides\n")], [some (.frag chars!"/ tincan" chars!"/ bro"), none, some (.suicide chars!"/ tincan")],
    (splits_whole (by decide +kernel)).1, (splits_whole (by decide +kernel)).2, ?_, by decide +kernel, by decide +kernel,
    by decide +kernel⟩
  refine .cons ⟨_, [], .victimFirst (x := chars!"/ bro") (y := chars!"/ tincan") (p := ⟨chars!" rides ", chars!"'s rocket"⟩) (by decide +kernel)
    (by decide +kernel) (by decide +kernel), ⟨1, bytes!"/ bro rides / tincan's rocket\n"⟩, by decide, rfl, by decide,
    by decide +kernel, chars!"\n", by decide +kernel, by decide, by decide⟩ (.cons ?_ (.cons ⟨_, [], .suicide (x := chars!"/ tincan")
    (by decide +kernel), ⟨1, bytes!"/ tincan suicides\n"⟩, by decide, rfl, by decide, by decide +kernel, chars!"\n", by decide +kernel,
    by decide, by decide⟩ .nil))
  rintro t m o ⟨p, _, _, _, e, _⟩
  have := congrArg List.head? e
  revert this
  simp [Example.all, PrintMsg.encode]

end Mvd

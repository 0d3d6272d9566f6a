import Verif.Spec.Chat
import Verif.Props.Frags
import Verif.Lemmas.Halt

/-! C27: frames that come too late for the search for an unknown killer. -/

namespace Mvd
open Spec

theorem nearby_far (more : Bytes) (later b : List Frame) (f : Frame) (h : 2 ≤ (later.filter fun f => f.body ≠ []).length) :
    nearbyUpdates more (later ++ f :: b) = nearbyUpdates more (later ++ b) := by
  unfold nearbyUpdates
  rw [List.filter_append, List.filter_append, List.take_append_of_le_length h, List.take_append_of_le_length h]

theorem charge_far {u : Bytes → Str} {cs : List Client} {x f : Frame} {later b : List Frame} {c : Option (Str × Int)}
    (hn : NotAnonymous u x ∨ 2 ≤ (later.filter fun f => f.body ≠ []).length) (h : Charge u cs x (later ++ b) c) :
    Charge u cs x (later ++ f :: b) c := by
  rcases hn with hn | hn
  · exact charge_later h hn _
  · exact charge_nearby (fun m => (nearby_far m later b f hn).symm) h

theorem open_cases {u : Bytes → Str} {a before later : List Frame} {x : Frame} (h : NoOpenTeamkill u a)
    (e : a = before ++ x :: later) : NotAnonymous u x ∨ 2 ≤ (later.filter fun f => f.body ≠ []).length := by
  by_cases hn : NotAnonymous u x
  · exact .inl hn
  · unfold NotAnonymous at hn
    push Not at hn
    obtain ⟨t, m, v, ha, hc⟩ := hn
    exact .inr (h before x later t m v e ha hc)

theorem open_tail {u : Bytes → Str} {x : Frame} {a : List Frame} (h : NoOpenTeamkill u (x :: a)) : NoOpenTeamkill u a :=
  fun before f later t m v e => h (x :: before) f later t m v (by rw [e, List.cons_append])

theorem charges_far {u : Bytes → Str} {cs : List Client} {f : Frame} {b : List Frame} (hf : ¬ LeadsWithMedium f) :
    ∀ (a : List Frame) (c : List (Str × Int)), NoOpenTeamkill u a → Charges u cs (a ++ b) c → Charges u cs (a ++ f :: b) c
  | [], c, _, h => by
    have : Charge u cs f b none := .nothing fun t m o ⟨p, hp, h1, h2, e, _⟩ => absurd ⟨p, m, hp, h1, h2, e⟩ hf
    simpa using Charges.cons this h
  | x :: a, _, ho, .cons h1 h2 =>
    .cons (charge_far (open_cases ho (before := []) rfl) h1) (charges_far hf a _ (open_tail ho) h2)

theorem needs_far {u : Bytes → Str} {a b : List Frame} {f : Frame} (hf : ¬ LeadsWithMedium f) (ho : NoOpenTeamkill u a) :
    (∃ before x later, a ++ b = before ++ x :: later ∧ NeedsClients u x later) ↔
    ∃ before x later, a ++ f :: b = before ++ x :: later ∧ NeedsClients u x later := by
  have step : ∀ {before x later}, a = before ++ x :: later →
      (NeedsClients u x (later ++ b) ↔ NeedsClients u x (later ++ f :: b)) := by
    intro before x later e
    rcases open_cases ho e with hn | hn
    · constructor <;> rintro ⟨t, m, v, h1, h2, _⟩ <;> exact absurd h2 (hn t m v h1)
    · unfold NeedsClients
      simp only [nearby_far _ later b f hn]
  constructor
  · rintro ⟨before, x, later, e, h⟩
    rcases List.append_eq_append_iff.mp e with ⟨y, rfl, rfl⟩ | ⟨y, rfl, e'⟩
    · exact ⟨a ++ f :: y, x, later, by simp, h⟩
    · cases y with
      | nil => exact ⟨before ++ [f], x, later, by simpa using congrArg (before ++ f :: ·) e'.symm, h⟩
      | cons z y =>
        obtain ⟨rfl, rfl⟩ := List.cons.inj e'
        exact ⟨before, x, y ++ f :: b, by simp, (step rfl).mp h⟩
  · rintro ⟨before, x, later, e, h⟩
    have here : x ≠ f ∨ ¬ NeedsClients u x later := by
      by_cases hx : x = f
      · refine .inr ?_
        rintro ⟨t, m, v, ⟨p, hp, h1, h2, e, _⟩, _⟩
        exact hf (hx ▸ ⟨p, m, hp, h1, h2, e⟩)
      · exact .inl hx
    have hx : x ≠ f := here.resolve_right (not_not_intro h)
    rcases List.append_eq_append_iff.mp e with ⟨y, rfl, e'⟩ | ⟨y, rfl, e'⟩
    · cases y with
      | nil => exact absurd (List.cons.inj e').1.symm hx
      | cons z y =>
        obtain ⟨_, rfl⟩ := List.cons.inj e'
        exact ⟨a ++ y, x, later, by simp, h⟩
    · cases y with
      | nil => exact absurd (List.cons.inj e').1 hx
      | cons z y =>
        obtain ⟨rfl, rfl⟩ := List.cons.inj e'
        exact ⟨before, x, y ++ b, by simp, (step rfl).mpr h⟩

/-- C27: a frame that does not begin with a medium-level print changes no score, anonymous teamkills and panics included, if it
comes after the frames that are searched for unknown killers and the clients are the same. -/
theorem C27_far (g : Env) (data data' : Bytes) (a b : List Frame) (f : Frame) (rest rest' : Bytes)
    (h : Splits data (a ++ b) rest) (hs : Stops data.length rest) (h' : Splits data' (a ++ f :: b) rest')
    (hs' : Stops data'.length rest') (ho : NoOpenTeamkill g.toUnicode a) (hf : ¬ LeadsWithMedium f)
    (hc : clients g data = clients g data') : fragsPerPlayerName g data = fragsPerPlayerName g data' := by
  have both : ∀ cs, (∀ x y l, a ++ b = x ++ y :: l → ClientsFor g data cs y l) →
      (∀ x y l, a ++ f :: b = x ++ y :: l → ClientsFor g data' cs y l) →
      fragsPerPlayerName g data = fragsPerPlayerName g data' := by
    intro cs h1 h2
    obtain ⟨c, hch⟩ := charges_exists g.toUnicode cs (a ++ b)
    rw [frags_charges g h hs h1 hch, frags_charges g h' hs' h2 (charges_far hf a c ho hch)]
  have hneeds := needs_far (b := b) hf ho
  by_cases hn : ∃ before x later, a ++ b = before ++ x :: later ∧ NeedsClients g.toUnicode x later
  · cases hcl : clients g data with
    | ok cs => exact both cs (fun _ _ _ _ => .inl hcl) (fun _ _ _ _ => .inl (hc ▸ hcl))
    | err e => exact both [] (fun _ _ _ _ => .inr (.inl ⟨⟨e, hcl⟩, rfl⟩)) (fun _ _ _ _ => .inr (.inl ⟨⟨e, hc ▸ hcl⟩, rfl⟩))
    | panic => rw [C26_panic g data _ rest h hs hcl hn, C26_panic g data' _ rest' h' hs' (hc ▸ hcl) (hneeds.mp hn)]
    | hang => exact absurd hcl (clients_halts g data)
  · exact both [] (fun x y l e => .inr (.inr fun k => hn ⟨x, y, l, e, k⟩))
      (fun x y l e => .inr (.inr fun k => hn (hneeds.mpr ⟨x, y, l, e, k⟩)))

end Mvd

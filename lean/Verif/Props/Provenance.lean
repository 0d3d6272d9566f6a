import Verif.Props.FragOverflow
import Verif.Props.Match

/-! C74: no name is invented. -/

namespace Mvd
open Spec

theorem classifies_infix {text : Str} {o : Obituary} {who : Str} {worth : Int} (h : Classifies text o)
    (hw : award o = some (who, worth)) : who <:+: text := by
  cases h with
  | death => cases hw; exact (List.take_prefix _ _).isInfix
  | suicideByWeapon => cases hw; exact (List.take_prefix _ _).isInfix
  | @suicide p n _ _ h _ => cases hw; exact h ▸ (List.prefix_append _ _).isInfix
  | teamkill => cases hw; exact (List.take_prefix _ _).isInfix
  | teamkillByUnknown => cases hw
  | @fragKillerFirst x y p _ h =>
    cases hw
    obtain ⟨_, _, _, _, rest, e, _⟩ := h
    exact ⟨[], p.between ++ rest, by rw [e]; simp⟩
  | @fragVictimFirst x y p _ _ h =>
    cases hw
    obtain ⟨_, _, _, _, rest, e, _, hy⟩ := h
    split at hy
    · subst hy
      exact ⟨x ++ p.between, [], by rw [e]; simp⟩
    · obtain ⟨z, hz, _⟩ := hy
      exact ⟨x ++ p.between, p.after ++ z, by rw [e, hz]; simp⟩

/-- The charged player is named by the obituary or is a client. -/
theorem charge_source {u : Bytes → Str} {cs : List Client} {f : Frame} {later : List Frame} {who : Str} {worth : Int}
    (h : Charge u cs f later (some (who, worth))) :
    (∃ text more, Announces u f.body text more ∧ who <:+: text) ∨ ∃ c ∈ cs, c.name = who := by
  cases h with
  | frag a b => exact .inl ⟨_, _, a, classifies_infix b rfl⟩
  | death a b => exact .inl ⟨_, _, a, classifies_infix b rfl⟩
  | suicide a b => exact .inl ⟨_, _, a, classifies_infix b rfl⟩
  | suicideByWeapon a b => exact .inl ⟨_, _, a, classifies_infix b rfl⟩
  | teamkill a b => exact .inl ⟨_, _, a, classifies_infix b rfl⟩
  | blamed a b c =>
    obtain ⟨v, _, _, n, _, _, _, d, ⟨hd, _⟩, hn⟩ := c
    obtain ⟨x, y, e, _⟩ := hd
    exact .inr ⟨d, by rw [e]; simp, hn⟩

theorem charges_source {u : Bytes → Str} {cs : List Client} {fs : List Frame} {charges : List (Str × Int)}
    (h : Charges u cs fs charges) : ∀ who ∈ charges.map Prod.fst,
    (∃ f ∈ fs, ∃ text more, Announces u f.body text more ∧ who <:+: text) ∨ ∃ c ∈ cs, c.name = who := by
  induction h with
  | nil => simp
  | @cons f fs c charges h1 _ ih =>
    intro who hw
    rw [List.map_append, List.mem_append] at hw
    rcases hw with hw | hw
    · cases c with
      | none => simp at hw
      | some c =>
        simp only [Option.toList_some, List.map_cons, List.map_nil, List.mem_singleton] at hw
        subst hw
        rcases charge_source h1 with h | h
        · exact .inl ⟨f, by simp, h⟩
        · exact .inr h
    · rcases ih who hw with ⟨x, hx, h⟩ | h
      · exact .inl ⟨x, by simp [hx], h⟩
      · exact .inr h

theorem applyCharges_names (g : Env) : ∀ (l : List (Str × Int)) (m m' : Map Str Int), forR (applyCharge g) m l = .ok m' →
    ∀ name, m'.get name ≠ none ↔ m.get name ≠ none ∨ name ∈ l.map Prod.fst
  | [], m, m', h, name => by
    cases h
    simp
  | c :: l, m, m', h, name => by
    simp only [forR, applyCharge, Map.update] at h
    cases ha : addI32 g.checks ((m.get c.1).getD 0) c.2 with
    | ok v =>
      rw [ha] at h
      have ih := applyCharges_names g l (m.set c.1 v) m' h name
      rw [ih, Map.get_set]
      by_cases hn : c.1 = name
      · subst hn
        simp
      · have hn' : ¬ name = c.1 := fun e => hn e.symm
        simp only [hn, if_false, List.map_cons, List.mem_cons, hn', false_or]
    | err e => rw [ha] at h; cases h
    | panic => rw [ha] at h; cases h
    | hang => rw [ha] at h; cases h

/-- C74: every scored name is part of an obituary of the demo, or the name of a client. -/
theorem C74_frag_names (g : Env) (data : Bytes) (fs : List Frame) (rest : Bytes) (m : Map Str Int) (name : Str)
    (h : Splits data fs rest) (hs : Stops data.length rest) (hm : fragsPerPlayerName g data = .ok m)
    (hn : m.get name ≠ none) :
    (∃ f ∈ fs, ∃ text more, Announces g.toUnicode f.body text more ∧ name <:+: text) ∨
    ∃ cs, clients g data = .ok cs ∧ ∃ c ∈ cs, c.name = name := by
  have go : ∀ cs, (clients g data = .ok cs ∨ ((∃ e, clients g data = .err e) ∧ cs = []) ∨
      ∀ before f later, fs = before ++ f :: later → ¬ NeedsClients g.toUnicode f later) →
      (∃ f ∈ fs, ∃ text more, Announces g.toUnicode f.body text more ∧ name <:+: text) ∨ ∃ c ∈ cs, c.name = name := by
    intro cs hcs
    obtain ⟨c, hc⟩ := charges_exists g.toUnicode cs fs
    rw [frags_eq g h hs hcs hc] at hm
    rcases (applyCharges_names g c [] m hm name).mp hn with h0 | h0
    · simp [Map.get] at h0
    · exact charges_source hc name h0
  by_cases hneed : ∃ before f later, fs = before ++ f :: later ∧ NeedsClients g.toUnicode f later
  · cases hcl : clients g data with
    | ok cs =>
      rcases go cs (.inl hcl) with h | h
      · exact .inl h
      · exact .inr ⟨cs, rfl, h⟩
    | err e =>
      rcases go [] (.inr (.inl ⟨⟨e, hcl⟩, rfl⟩)) with h | ⟨c, hc, _⟩
      · exact .inl h
      · simp at hc
    | panic =>
      rw [C26_panic g data fs rest h hs hcl hneed] at hm
      cases hm
    | hang => exact absurd hcl (clients_halts g data)
  · rcases go [] (.inr (.inr fun a f l e k => hneed ⟨a, f, l, e, k⟩)) with h | ⟨c, hc, _⟩
    · exact .inl h
    · simp at hc

/-- C74: every name with flag events is the beginning of a text about flags. -/
theorem C74_flag_names (g : Env) (data : Bytes) (fs : List Frame) (rest : Bytes) (m : Map Str PlayerFlagEvents) (name : Str)
    (h : Splits data fs rest) (hs : Stops data.length rest) (hm : flagEventsPerPlayerName g data = .ok m)
    (hn : m.get name ≠ none) :
    ∃ f ∈ fs, ∃ texts, FlagTexts g.toUnicode f texts ∧ ∃ t ∈ texts, name <+: g.toUnicode t := by
  obtain ⟨tss, ht⟩ := forall2_exists (flagTexts_exists g.toUnicode) fs
  have hex : ∃ t ∈ tss.flatten, ∃ kind, ClassifiesFlag (g.toUnicode t) kind name := by
    by_contra hno
    cases hc : g.checks
    · obtain ⟨n, en, _, nn⟩ := C30_wraps g data fs rest tss h hs ht hc
      rw [hm] at en
      cases en
      exact hn (nn name hno)
    · have hall : ∀ p k, flagCount g.toUnicode tss.flatten p k < 256 := by
        intro p k
        by_contra hge
        rw [C30_panics g data fs rest tss h hs ht hc p k (by omega)] at hm
        cases hm
      obtain ⟨n, en, _, nn⟩ := C30_counts g data fs rest tss h hs ht hall
      rw [hm] at en
      cases en
      exact hn (nn name hno)
  obtain ⟨t, htm, kind, _, _, _, i, _, _, _, rfl⟩ := hex
  obtain ⟨ts, hts, htt⟩ := List.mem_flatten.mp htm
  have key : ∀ {fs tss}, List.Forall₂ (FlagTexts g.toUnicode) fs tss → ts ∈ tss → ∃ f ∈ fs, FlagTexts g.toUnicode f ts := by
    intro fs tss hf hmem
    induction hf with
    | nil => simp at hmem
    | cons h1 _ ih =>
      rcases List.mem_cons.mp hmem with rfl | hmem
      · exact ⟨_, by simp, h1⟩
      · obtain ⟨f, hf, hk⟩ := ih hmem
        exact ⟨f, by simp [hf], hk⟩
  obtain ⟨f, hf, hft⟩ := key ht hts
  exact ⟨f, hf, ts, hft, t, htt, List.take_prefix _ _⟩

/-- The hypotheses are met by a frag and by flag messages. -/
example : fragsPerPlayerName Example.debug (Spec.encode [Example.all (Example.medium bytes!"a rides b's rocket\n")]) =
      .ok [(chars!"b", 1)] ∧ Map.get [(chars!"b", (1 : Int))] chars!"b" ≠ none ∧
    flagEventsPerPlayerName Example.debug (Spec.encode Example.flagFrames) =
      .ok [(chars!"a", { pickups := 1, carrierFrags := 1 }), (chars!"b", { pickups := 1 })] := by decide +kernel

end Mvd

import Verif.Props.Prints
import Verif.Props.Flags

/-! C61: demos that grow by whole frames. -/

namespace Mvd
open Spec

theorem splits_whole {fs : List Frame} (h : ∀ f ∈ fs, f.WF) : Splits (Spec.encode fs) fs [] ∧ Stops (Spec.encode fs).length [] :=
  ⟨⟨by simp, h, noFrame_iff.mpr (by simp [Spec.announced])⟩, by simp [Stops, Spec.announced]⟩

theorem dedup_cons_cons {α : Type} [DecidableEq α] (a b : α) (t : List α) :
    dedup (a :: b :: t) = if a = b then dedup (b :: t) else a :: dedup (b :: t) := by rw [dedup]

theorem dedup_head {α : Type} [DecidableEq α] (a : α) : ∀ l : List α, ∃ t, dedup (a :: l) = a :: t
  | [] => ⟨[], rfl⟩
  | b :: t => by
    rw [dedup_cons_cons]
    split
    · rename_i h
      subst h
      exact dedup_head a t
    · exact ⟨_, rfl⟩

/-- Collapsing a part first makes no difference. -/
theorem dedup_dedup_append {α : Type} [DecidableEq α] (y : List α) : ∀ x : List α, dedup (dedup x ++ y) = dedup (x ++ y)
  | [] => rfl
  | [_] => rfl
  | a :: b :: t => by
    rw [dedup_cons_cons]
    by_cases h : a = b
    · subst h
      rw [if_pos rfl, dedup_dedup_append y (a :: t)]
      simp only [List.cons_append]
      rw [dedup_cons_cons a a, if_pos rfl]
    · rw [if_neg h]
      obtain ⟨u, hu⟩ := dedup_head b t
      have ih := dedup_dedup_append y (b :: t)
      rw [hu] at ih ⊢
      simp only [List.cons_append] at ih ⊢
      rw [dedup_cons_cons, if_neg h, ih, dedup_cons_cons, if_neg h]

theorem dedup_append_dedup {α : Type} [DecidableEq α] (y : List α) : ∀ x : List α, dedup (x ++ dedup y) = dedup (x ++ y)
  | [] => by have := dedup_dedup_append [] y; simpa using this
  | [a] => by
    cases y with
    | nil => rfl
    | cons b t =>
      obtain ⟨u, hu⟩ := dedup_head b t
      have h0 : dedup (dedup (b :: t)) = dedup (b :: t) := by have := dedup_dedup_append [] (b :: t); simpa using this
      rw [hu] at h0 ⊢
      simp only [List.cons_append, List.nil_append]
      rw [dedup_cons_cons, dedup_cons_cons, h0, hu]
  | a :: b :: t => by
    have ih := dedup_append_dedup y (b :: t)
    simp only [List.cons_append] at ih ⊢
    rw [dedup_cons_cons, dedup_cons_cons, ih]

/-- C61: the prints of a demo that has grown are the old ones followed by the new ones; only where they meet a repetition
may be collapsed. -/
theorem C61_prints (g : Env) (fs more : List Frame) (hf : ∀ f ∈ fs, f.WF) (hm : ∀ f ∈ more, f.WF) :
    ∃ a b c, prints g (Spec.encode fs) = .ok a ∧ prints g (Spec.encode more) = .ok b ∧
      prints g (Spec.encode (fs ++ more)) = .ok c ∧ Collapses (a ++ b) c := by
  obtain ⟨pss, hp⟩ := leading_exists fs
  obtain ⟨qss, hq⟩ := leading_exists more
  have h1 := splits_whole hf
  have h2 := splits_whole hm
  have h3 := splits_whole (fs := fs ++ more) (by
    intro f h
    rcases List.mem_append.mp h with h | h
    · exact hf f h
    · exact hm f h)
  refine ⟨_, _, _, prints_stops g h1.1 h1.2 hp, prints_stops g h2.1 h2.2 hq, prints_stops g h3.1 h3.2 (List.rel_append hp hq), ?_⟩
  have : dedup (reportedPrints (pss ++ qss).flatten) =
      dedup (dedup (reportedPrints pss.flatten) ++ dedup (reportedPrints qss.flatten)) := by
    rw [dedup_append_dedup, dedup_dedup_append]
    simp [reportedPrints]
  rw [this]
  exact dedup_collapses _

/-- A repetition is collapsed where the parts meet. -/
example : prints Example.debug (Spec.encode [⟨0, 6, [], [8, 2, 104, 0]⟩]) = .ok [⟨.high, [104]⟩] ∧
    prints Example.debug (Spec.encode [⟨0, 6, [], [8, 2, 104, 0]⟩, ⟨0, 6, [], [8, 2, 104, 0, 8, 3, 104, 0]⟩]) =
      .ok [⟨.high, [104]⟩, ⟨.chat, [104]⟩] ∧
    ∀ f ∈ ([⟨0, 6, [], [8, 2, 104, 0]⟩, ⟨0, 6, [], [8, 2, 104, 0, 8, 3, 104, 0]⟩] : List Frame), f.WF := by decide +kernel

theorem points_append (a b : List (Str × Int)) (name : Str) : points (a ++ b) name = points a name + points b name := by
  simp [points]

theorem points_not_mem {a : List (Str × Int)} {name : Str} (h : name ∉ a.map Prod.fst) : points a name = 0 := by
  unfold points
  have : a.filter (fun c => c.1 = name) = [] := by
    rw [List.filter_eq_nil_iff]
    intro c hc
    simp only [decide_eq_true_eq]
    rintro rfl
    exact h (List.mem_map_of_mem hc)
  rw [this]
  rfl

theorem charges_append {u : Bytes → Str} {cs : List Client} : ∀ {fs more : List Frame} {a b : List (Str × Int)},
    Charges u cs fs a → Charges u cs more b → (∀ f ∈ fs, NotAnonymous u f) → Charges u cs (fs ++ more) (a ++ b)
  | [], _, _, _, .nil, hb, _ => hb
  | f :: fs, _, _, _, .cons h1 h2, hb, hn => by
    rw [List.append_assoc]
    exact .cons (charge_later h1 (hn f (by simp)) _) (charges_append h2 hb fun x hx => hn x (by simp [hx]))

/-- C61: the scores of a demo that has grown are the old ones plus those of the new part (for demos of less than 2 GB and when
no killer is unknown). -/
theorem C61_frags (g : Env) (fs more : List Frame) (hf : ∀ f ∈ fs, f.WF) (hm : ∀ f ∈ more, f.WF)
    (hn : ∀ f ∈ fs ++ more, NotAnonymous g.toUnicode f) (hl : (Spec.encode (fs ++ more)).length < 2 ^ 31) :
    ∃ a b c, fragsPerPlayerName g (Spec.encode fs) = .ok a ∧ fragsPerPlayerName g (Spec.encode more) = .ok b ∧
      fragsPerPlayerName g (Spec.encode (fs ++ more)) = .ok c ∧
      ∀ name, ((c.get name).isSome ↔ (a.get name).isSome ∨ (b.get name).isSome) ∧
        (c.get name).getD 0 = (a.get name).getD 0 + (b.get name).getD 0 := by
  obtain ⟨ca, ha⟩ := charges_exists g.toUnicode [] fs
  obtain ⟨cb, hb⟩ := charges_exists g.toUnicode [] more
  have hab := charges_append ha hb fun f h => hn f (by simp [h])
  have hw : ∀ f ∈ fs ++ more, f.WF := by
    intro f h
    rcases List.mem_append.mp h with h | h
    · exact hf f h
    · exact hm f h
  have h1 := splits_whole hf
  have h2 := splits_whole hm
  have h3 := splits_whole hw
  have hlen : (Spec.encode (fs ++ more)).length = (Spec.encode fs).length + (Spec.encode more).length := by simp [Spec.encode]
  have need : ∀ {l : List Frame}, (∀ f ∈ l, NotAnonymous g.toUnicode f) →
      ∀ before f later, l = before ++ f :: later → ¬ NeedsClients g.toUnicode f later := by
    intro l hn before f later e
    rintro ⟨t, m, v, ha, hc, _⟩
    exact hn f (by rw [e]; simp) t m v ha hc
  obtain ⟨a, ea, ga⟩ := C26_frags g _ fs [] [] ca h1.1 h1.2 (.inr (.inr (need fun f h => hn f (by simp [h])))) ha
    (C26_bound g _ fs [] [] ca h1.1 ha (by omega))
  obtain ⟨b, eb, gb⟩ := C26_frags g _ more [] [] cb h2.1 h2.2 (.inr (.inr (need fun f h => hn f (by simp [h])))) hb
    (C26_bound g _ more [] [] cb h2.1 hb (by omega))
  obtain ⟨c, ec, gc⟩ := C26_frags g _ (fs ++ more) [] [] (ca ++ cb) h3.1 h3.2 (.inr (.inr (need hn))) hab
    (C26_bound g _ (fs ++ more) [] [] (ca ++ cb) h3.1 hab hl)
  refine ⟨a, b, c, ea, eb, ec, fun name => ?_⟩
  rw [ga, gb, gc, points_append]
  by_cases h1 : name ∈ ca.map Prod.fst <;> by_cases h2 : name ∈ cb.map Prod.fst <;>
    simp [h1, h2, points_not_mem, -List.mem_map, List.map_append]

/-- The hypotheses are met by a suicide followed by a suicide. -/
example : ∃ fs more : List Frame, (∀ f ∈ fs, f.WF) ∧ (∀ f ∈ more, f.WF) ∧
    (∀ f ∈ fs ++ more, NotAnonymous Example.debug.toUnicode f) ∧ (Spec.encode (fs ++ more)).length < 2 ^ 31 ∧
    fragsPerPlayerName Example.debug (Spec.encode fs) = .ok [(chars!"a", -2)] ∧
    fragsPerPlayerName Example.debug (Spec.encode (fs ++ more)) = .ok [(chars!"a", -4)] := by
  have hn : NotAnonymous Example.debug.toUnicode (Example.all (Example.medium bytes!"a suicides\n")) := by
    intro text more v ha hc
    obtain ⟨rfl, _⟩ := announces_unique ha
      (⟨⟨1, bytes!"a suicides\n"⟩, by decide, rfl, by decide, by decide, trimEnd_trims _⟩ :
        Announces Example.debug.toUnicode (Example.all (Example.medium bytes!"a suicides\n")).body _ [])
    have := (C24_classification _ (.teamkillByUnknown v)).mpr hc
    have h2 : FragEvent.tryFrom (trimEnd (Example.debug.toUnicode bytes!"a suicides\n")) = .ok (.suicide chars!"a") := by
      decide +kernel
    rw [h2] at this
    cases this
  refine ⟨[Example.all (Example.medium bytes!"a suicides\n")], [Example.all (Example.medium bytes!"a suicides\n")],
    by decide +kernel, by decide +kernel, ?_, by decide +kernel, by decide +kernel, by decide +kernel⟩
  intro f hf
  simp at hf
  subst hf
  exact hn

open Classical in
theorem flagCount_append (u : Bytes → Str) (a b : List Bytes) (p : Str) (k : FlagKind) :
    flagCount u (a ++ b) p k = flagCount u a p k + flagCount u b p k := by
  simp [flagCount]

/-- C61: so are the flag statistics, as long as no counter exceeds 255. -/
theorem C61_flags (g : Env) (fs more : List Frame) (hf : ∀ f ∈ fs, f.WF) (hm : ∀ f ∈ more, f.WF)
    (tss : List (List Bytes)) (ht : List.Forall₂ (FlagTexts g.toUnicode) (fs ++ more) tss)
    (hlt : ∀ player kind, flagCount g.toUnicode tss.flatten player kind < 256) :
    ∃ a b c, flagEventsPerPlayerName g (Spec.encode fs) = .ok a ∧ flagEventsPerPlayerName g (Spec.encode more) = .ok b ∧
      flagEventsPerPlayerName g (Spec.encode (fs ++ more)) = .ok c ∧
      ∀ name, ((c.get name).isSome ↔ (a.get name).isSome ∨ (b.get name).isSome) ∧
        ∀ x y z, (a.get name).getD {} = x → (b.get name).getD {} = y → (c.get name).getD {} = z →
          z.captures = x.captures + y.captures ∧ z.pickups = x.pickups + y.pickups ∧ z.returns = x.returns + y.returns ∧
          z.carrierFrags = x.carrierFrags + y.carrierFrags ∧ z.defends = x.defends + y.defends ∧
          z.carrierDefends = x.carrierDefends + y.carrierDefends ∧
          z.carrierDefendsVsAggressive = x.carrierDefendsVsAggressive + y.carrierDefendsVsAggressive := by
  obtain ⟨ta, ha, _⟩ := C30_texts g.toUnicode fs
  obtain ⟨tb, hb, _⟩ := C30_texts g.toUnicode more
  obtain ⟨tc, hc, hu⟩ := C30_texts g.toUnicode (fs ++ more)
  have e : tss = ta ++ tb := (hu _ ht).trans (hu _ (List.rel_append ha hb)).symm
  subst e
  have hcount : ∀ p k, flagCount g.toUnicode (ta ++ tb).flatten p k =
      flagCount g.toUnicode ta.flatten p k + flagCount g.toUnicode tb.flatten p k := by
    intro p k
    rw [List.flatten_append, flagCount_append]
  have hw : ∀ f ∈ fs ++ more, f.WF := by
    intro f h
    rcases List.mem_append.mp h with h | h
    · exact hf f h
    · exact hm f h
  have h1 := splits_whole hf
  have h2 := splits_whole hm
  have h3 := splits_whole hw
  obtain ⟨a, ea, ga, na⟩ := C30_counts g _ fs [] ta h1.1 h1.2 ha (fun p k => by have := hlt p k; rw [hcount] at this; omega)
  obtain ⟨b, eb, gb, nb⟩ := C30_counts g _ more [] tb h2.1 h2.2 hb (fun p k => by have := hlt p k; rw [hcount] at this; omega)
  obtain ⟨c, ec, gc, nc⟩ := C30_counts g _ (fs ++ more) [] (ta ++ tb) h3.1 h3.2 ht hlt
  refine ⟨a, b, c, ea, eb, ec, fun name => ?_⟩
  have zero : ∀ {ts : List Bytes}, (¬ ∃ t ∈ ts, ∃ kind, ClassifiesFlag (g.toUnicode t) kind name) → ∀ k,
      flagCount g.toUnicode ts name k = 0 := by
    intro ts hn k
    unfold flagCount
    rw [List.length_eq_zero_iff, List.filter_eq_nil_iff]
    intro t ht
    simp only [decide_eq_true_eq]
    exact fun h => hn ⟨t, ht, k, h⟩
  have mem : (∃ t ∈ (ta ++ tb).flatten, ∃ kind, ClassifiesFlag (g.toUnicode t) kind name) ↔
      (∃ t ∈ ta.flatten, ∃ kind, ClassifiesFlag (g.toUnicode t) kind name) ∨
      (∃ t ∈ tb.flatten, ∃ kind, ClassifiesFlag (g.toUnicode t) kind name) := by
    rw [List.flatten_append]
    constructor
    · rintro ⟨t, ht, h⟩
      rcases List.mem_append.mp ht with ht | ht
      · exact .inl ⟨t, ht, h⟩
      · exact .inr ⟨t, ht, h⟩
    · rintro (⟨t, ht, h⟩ | ⟨t, ht, h⟩)
      · exact ⟨t, List.mem_append_left _ ht, h⟩
      · exact ⟨t, List.mem_append_right _ ht, h⟩
  by_cases p1 : ∃ t ∈ ta.flatten, ∃ kind, ClassifiesFlag (g.toUnicode t) kind name <;>
    by_cases p2 : ∃ t ∈ tb.flatten, ∃ kind, ClassifiesFlag (g.toUnicode t) kind name
  · rw [ga name p1, gb name p2, gc name (mem.mpr (.inl p1))]
    refine ⟨by simp, ?_⟩
    rintro x y z rfl rfl rfl
    simp only [Option.getD_some, flagReport, hcount, and_self]
  · rw [ga name p1, nb name p2, gc name (mem.mpr (.inl p1))]
    refine ⟨by simp, ?_⟩
    rintro x y z rfl rfl rfl
    simp only [Option.getD_some, Option.getD_none, flagReport, hcount, zero p2, Nat.add_zero, and_self]
  · rw [na name p1, gb name p2, gc name (mem.mpr (.inr p2))]
    refine ⟨by simp, ?_⟩
    rintro x y z rfl rfl rfl
    simp only [Option.getD_some, Option.getD_none, flagReport, hcount, zero p1, Nat.zero_add, and_self]
  · rw [na name p1, nb name p2, nc name (fun h => (mem.mp h).elim p1 p2)]
    refine ⟨by simp, ?_⟩
    rintro x y z rfl rfl rfl
    simp

/-- The hypotheses are met by three pickups followed by two. -/
example : (∀ f ∈ Example.pickups 3, f.WF) ∧ (∀ f ∈ Example.pickups 2, f.WF) ∧
    List.Forall₂ (FlagTexts Example.debug.toUnicode) (Example.pickups 3 ++ Example.pickups 2)
      (List.replicate 5 [bytes!"b" ++ Example.gotFlag]) ∧
    (∀ player kind, flagCount Example.debug.toUnicode (List.replicate 5 [bytes!"b" ++ Example.gotFlag]).flatten player kind < 256) ∧
    flagEventsPerPlayerName Example.debug (Spec.encode (Example.pickups 3 ++ Example.pickups 2)) =
      .ok [(chars!"b", { pickups := 5 })] :=
  ⟨(Example.pickups_split 3).1.2.1, (Example.pickups_split 2).1.2.1, Example.pickups_texts 5,
    C30_few _ _ (by decide +kernel), by decide +kernel⟩

end Mvd

import Verif.Props.Damage
import Verif.Props.Chat

/-! C80: what one bad frame can do to flag events and durations. -/

namespace Mvd
open Spec

/-- The flag counters of a demo, whoever is asked for. -/
theorem flag_counters (g : Env) (fs : List Frame) (tss : List (List Bytes)) (hw : ∀ f ∈ fs, f.WF)
    (ht : List.Forall₂ (FlagTexts g.toUnicode) fs tss)
    (hlt : ∀ player kind, flagCount g.toUnicode tss.flatten player kind < 256) :
    ∃ m, flagEventsPerPlayerName g (Spec.encode fs) = .ok m ∧ ∀ player,
      ((m.get player).isSome ↔ ∃ t ∈ tss.flatten, ∃ kind, ClassifiesFlag (g.toUnicode t) kind player) ∧
      (m.get player).getD {} = flagReport (flagCount g.toUnicode tss.flatten player) := by
  have hs := splits_whole hw
  obtain ⟨m, em, h1, h2⟩ := C30_counts g _ fs [] tss hs.1 hs.2 ht hlt
  refine ⟨m, em, fun player => ?_⟩
  by_cases h : ∃ t ∈ tss.flatten, ∃ kind, ClassifiesFlag (g.toUnicode t) kind player
  · rw [h1 player h]
    exact ⟨by simpa using h, rfl⟩
  · rw [h2 player h]
    refine ⟨by simpa using h, ?_⟩
    have zero : ∀ kind, flagCount g.toUnicode tss.flatten player kind = 0 := by
      intro kind
      unfold flagCount
      rw [List.length_eq_zero_iff, List.filter_eq_nil_iff]
      intro t ht hc
      exact h ⟨t, ht, kind, by simpa using hc⟩
    simp [flagReport, zero]

theorem flagCount_le (u : Bytes → Str) (x : List Bytes) (player : Str) (kind : FlagKind) :
    flagCount u x player kind ≤ x.length := List.length_filter_le _ _

/-- C80: replacing one frame of a demo changes flag counters only of players that a text of the old or the new frame is about; no
counter falls by more than the number of texts in the old frame, or rises by more than that in the new one. -/
theorem C80_flags (g : Env) (a b : List Frame) (f f' : Frame) (ha : ∀ x ∈ a, x.WF) (hb : ∀ x ∈ b, x.WF) (hf : f.WF) (hf' : f'.WF)
    (ta tb : List (List Bytes)) (t t' : List Bytes) (hta : List.Forall₂ (FlagTexts g.toUnicode) a ta)
    (htb : List.Forall₂ (FlagTexts g.toUnicode) b tb) (ht : FlagTexts g.toUnicode f t) (ht' : FlagTexts g.toUnicode f' t')
    (hlt : ∀ player kind, flagCount g.toUnicode (ta ++ t :: tb).flatten player kind < 256)
    (hlt' : ∀ player kind, flagCount g.toUnicode (ta ++ t' :: tb).flatten player kind < 256) :
    ∃ m m', flagEventsPerPlayerName g (Spec.encode (a ++ f :: b)) = .ok m ∧
      flagEventsPerPlayerName g (Spec.encode (a ++ f' :: b)) = .ok m' ∧
      (∀ name, (∀ x ∈ t ++ t', ∀ kind, ¬ ClassifiesFlag (g.toUnicode x) kind name) → m.get name = m'.get name) ∧
      ∀ name x y, (m.get name).getD {} = x → (m'.get name).getD {} = y →
        (x.captures ≤ y.captures + t.length ∧ y.captures ≤ x.captures + t'.length) ∧
        (x.pickups ≤ y.pickups + t.length ∧ y.pickups ≤ x.pickups + t'.length) ∧
        (x.returns ≤ y.returns + t.length ∧ y.returns ≤ x.returns + t'.length) ∧
        (x.carrierFrags ≤ y.carrierFrags + t.length ∧ y.carrierFrags ≤ x.carrierFrags + t'.length) ∧
        (x.defends ≤ y.defends + t.length ∧ y.defends ≤ x.defends + t'.length) ∧
        (x.carrierDefends ≤ y.carrierDefends + t.length ∧ y.carrierDefends ≤ x.carrierDefends + t'.length) ∧
        (x.carrierDefendsVsAggressive ≤ y.carrierDefendsVsAggressive + t.length ∧
          y.carrierDefendsVsAggressive ≤ x.carrierDefendsVsAggressive + t'.length) := by
  have wf : ∀ {z : Frame}, z.WF → ∀ x ∈ a ++ z :: b, x.WF := by
    intro z hz x hx
    simp only [List.mem_append, List.mem_cons] at hx
    rcases hx with hx | rfl | hx
    · exact ha x hx
    · exact hz
    · exact hb x hx
  obtain ⟨m, em, h1⟩ := flag_counters g _ _ (wf hf) (List.rel_append hta (.cons ht htb)) hlt
  obtain ⟨m', em', h2⟩ := flag_counters g _ _ (wf hf') (List.rel_append hta (.cons ht' htb)) hlt'
  have split : ∀ (s : List Bytes) player kind, flagCount g.toUnicode (ta ++ s :: tb).flatten player kind =
      flagCount g.toUnicode ta.flatten player kind + (flagCount g.toUnicode s player kind +
        flagCount g.toUnicode tb.flatten player kind) := by
    intro s player kind
    rw [List.flatten_append, List.flatten_cons, flagCount_append, flagCount_append]
  refine ⟨m, m', em, em', fun name hno => ?_, ?_⟩
  · have zero : ∀ s, (∀ x ∈ s, x ∈ t ++ t') → ∀ kind, flagCount g.toUnicode s name kind = 0 := by
      intro s hs kind
      unfold flagCount
      rw [List.length_eq_zero_iff, List.filter_eq_nil_iff]
      intro x hx hc
      exact hno x (hs x hx) kind (by simpa using hc)
    have some_iff : (m.get name).isSome ↔ (m'.get name).isSome := by
      rw [(h1 name).1, (h2 name).1]
      simp only [List.flatten_append, List.flatten_cons, List.mem_append]
      constructor
      · rintro ⟨x, hx | hx | hx, kind, hk⟩
        · exact ⟨x, .inl hx, kind, hk⟩
        · exact absurd hk (hno x (by simp [hx]) kind)
        · exact ⟨x, .inr (.inr hx), kind, hk⟩
      · rintro ⟨x, hx | hx | hx, kind, hk⟩
        · exact ⟨x, .inl hx, kind, hk⟩
        · exact absurd hk (hno x (by simp [hx]) kind)
        · exact ⟨x, .inr (.inr hx), kind, hk⟩
    have same : (m.get name).getD {} = (m'.get name).getD {} := by
      rw [(h1 name).2, (h2 name).2]
      simp only [flagReport, split, zero t (by simp +contextual), zero t' (by simp +contextual)]
    cases e : m.get name <;> cases e' : m'.get name <;> simp_all
  · rintro name x y rfl rfl
    rw [(h1 name).2, (h2 name).2]
    have le := flagCount_le g.toUnicode t name
    have le' := flagCount_le g.toUnicode t' name
    simp only [split]
    refine ⟨?_, ?_, ?_, ?_, ?_, ?_, ?_⟩
    · have := le .captured; have := le' .captured; omega
    · have := le .got; have := le' .got; omega
    · have := le .returned; have := le' .returned; omega
    · have := le .assist; have := le' .assist; omega
    · have := le .defendsFlag; have := le' .defendsFlag; omega
    · have := le .defendsCarrier; have := le' .defendsCarrier; omega
    · have := le .defendsCarrierVsAggressive; have := le' .defendsCarrierVsAggressive; omega

/-- C80: replacing one frame changes the measured time by the difference of the times of the two frames, hence by at most 255 ms,
if the demo is still measured up to the same place after it. -/
theorem C80_duration (g : Env) (a b : List Frame) (f f' : Frame) (ha : ∀ x ∈ a, x.WF) (hb : ∀ x ∈ b, x.WF) (hf : f.WF) (hf' : f'.WF)
    (t : Nat) (ht : MeasuredTo (Spec.encode (a ++ f :: b)) ((Spec.encode (a ++ [f])).length + t))
    (ht' : MeasuredTo (Spec.encode (a ++ f' :: b)) ((Spec.encode (a ++ [f'])).length + t))
    (hms : ((a ++ f :: f' :: b).map fun x => x.duration.toNat).sum < 2 ^ 32) :
    ∃ ms ms' ns ns', demoDuration g (Spec.encode (a ++ f :: b)) = .ok ns ∧ Converted ms ns ∧
      demoDuration g (Spec.encode (a ++ f' :: b)) = .ok ns' ∧ Converted ms' ns' ∧
      ms + f'.duration.toNat = ms' + f.duration.toNat ∧ ms ≤ ms' + 255 ∧ ms' ≤ ms + 255 := by
  have wf : ∀ {z : Frame}, z.WF → ∀ x ∈ a ++ z :: b, x.WF := by
    intro z hz x hx
    simp only [List.mem_append, List.mem_cons] at hx
    rcases hx with hx | rfl | hx
    · exact ha x hx
    · exact hz
    · exact hb x hx
  have ms : ∀ z : Frame, msBefore ((Spec.encode (a ++ [z])).length + t) (a ++ z :: b) =
      (a.map fun x => x.duration.toNat).sum + (z.duration.toNat + msFrom 0 t b) := by
    intro z
    have hz := encode_pos z
    have e : (Spec.encode (a ++ [z])).length = (Spec.encode a).length + z.encode.length := by simp [Spec.encode]
    rw [← msFrom_zero, e, msFrom_append _ _ _ _ (by omega), msFrom_cons (by omega), ← msFrom_shift ((Spec.encode a).length + z.encode.length) b 0 t]
    congr 3 <;> omega
  have le : msFrom 0 t b ≤ (b.map fun x => x.duration.toNat).sum := by
    rw [← msFrom_all b 0 (t + (Spec.encode b).length) (by omega), msFrom_zero, msFrom_zero]
    simpa using msBefore_mono b [] t (t + (Spec.encode b).length) (by omega)
  simp only [List.map_append, List.map_cons, List.sum_append, List.sum_cons] at hms
  have s1 := splits_whole (wf hf)
  have s2 := splits_whole (wf hf')
  obtain ⟨ns, e1, c1, _⟩ := C35_demo_duration_accuracy g _ _ [] _ s1.1 ht (.inl s1.2) (by rw [ms]; omega)
  obtain ⟨ns', e2, c2, _⟩ := C35_demo_duration_accuracy g _ _ [] _ s2.1 ht' (.inl s2.2) (by rw [ms]; omega)
  refine ⟨_, _, ns, ns', e1, c1, e2, c2, ?_⟩
  rw [ms, ms]
  have := f.duration.toNat_lt
  have := f'.duration.toNat_lt
  omega

/-- The hypotheses of C80 for flags are met: a frame with a pickup is replaced by one without. -/
example : ∃ (a b : List Frame) (f f' : Frame) (ta tb : List (List Bytes)) (t t' : List Bytes),
    (∀ x ∈ a, x.WF) ∧ (∀ x ∈ b, x.WF) ∧ f.WF ∧ f'.WF ∧
    List.Forall₂ (FlagTexts Example.debug.toUnicode) a ta ∧ List.Forall₂ (FlagTexts Example.debug.toUnicode) b tb ∧
    FlagTexts Example.debug.toUnicode f t ∧ FlagTexts Example.debug.toUnicode f' t' ∧
    (ta ++ t :: tb).flatten.length < 256 ∧ (ta ++ t' :: tb).flatten.length < 256 ∧
    ((flagEventsPerPlayerName Example.debug (Spec.encode (a ++ f :: b))).bind fun m => .ok (m.map fun e => (e.1, e.2.pickups))) =
      .ok [(chars!"a", 2)] ∧
    ((flagEventsPerPlayerName Example.debug (Spec.encode (a ++ f' :: b))).bind fun m => .ok (m.map fun e => (e.1, e.2.pickups))) =
      .ok [(chars!"a", 1)] :=
  ⟨[Example.all (Example.high (bytes!"a" ++ Example.gotFlag))], [], Example.all (Example.high (bytes!"a" ++ Example.gotFlag)),
    Example.all [7], [[bytes!"a" ++ Example.gotFlag]], [], [bytes!"a" ++ Example.gotFlag], [], by decide +kernel, by decide,
    by decide +kernel, by decide +kernel,
    .cons (.inl ⟨by decide +kernel, [⟨2, bytes!"a" ++ Example.gotFlag⟩],
      .print (p := ⟨2, bytes!"a" ++ Example.gotFlag⟩) (t := []) (by decide +kernel) .nil, by decide +kernel⟩) .nil, .nil,
    .inl ⟨by decide +kernel, [⟨2, bytes!"a" ++ Example.gotFlag⟩],
      .print (p := ⟨2, bytes!"a" ++ Example.gotFlag⟩) (t := []) (by decide +kernel) .nil, by decide +kernel⟩,
    .inr ⟨by decide +kernel, rfl⟩, by decide, by decide, by decide +kernel, by decide +kernel⟩

/-- The hypotheses of C80 for durations are met: 245 ms are lost. -/
example : ∃ (a b : List Frame) (f f' : Frame) (t : Nat), (∀ x ∈ a, x.WF) ∧ (∀ x ∈ b, x.WF) ∧ f.WF ∧ f'.WF ∧
    MeasuredTo (Spec.encode (a ++ f :: b)) ((Spec.encode (a ++ [f])).length + t) ∧
    MeasuredTo (Spec.encode (a ++ f' :: b)) ((Spec.encode (a ++ [f'])).length + t) ∧
    ((a ++ f :: f' :: b).map fun x => x.duration.toNat).sum < 2 ^ 32 ∧
    demoDuration Example.debug (Spec.encode (a ++ f :: b)) = .ok 250000000 ∧
    demoDuration Example.debug (Spec.encode (a ++ f' :: b)) = .ok 5000000 :=
  ⟨[⟨2, 6, [], [7]⟩], [⟨3, 6, [], matchOver⟩, ⟨9, 6, [], [7]⟩], ⟨245, 6, [], [7]⟩, ⟨0, 6, [], [7, 7]⟩, 6, by decide +kernel,
    by decide +kernel, by decide +kernel, by decide +kernel, .inl (rfind_eq_some_iff.mp (by decide +kernel)),
    .inl (rfind_eq_some_iff.mp (by decide +kernel)), by decide, by decide +kernel, by decide +kernel⟩

end Mvd

import Verif.Props.Provenance
import Verif.Props.Healthy
import Verif.Props.Flags

/-! C75: what is reported is not larger than the demo. -/

namespace Mvd
open Spec

theorem sum_sublist {α : Type} (f : α → Nat) {l l' : List α} (h : l.Sublist l') : (l.map f).sum ≤ (l'.map f).sum := by
  induction h with
  | slnil => simp
  | cons a _ ih => simp only [List.map_cons, List.sum_cons]; omega
  | cons_cons a _ ih => simp only [List.map_cons, List.sum_cons]; omega

theorem prints_size {body : Bytes} {ps : List PrintMsg} (h : LeadingPrints body ps) :
    (ps.map fun p => p.text.length + 3).sum ≤ body.length := by
  obtain ⟨rem, rfl, _, _⟩ := h
  rw [List.length_append, List.length_flatMap]
  have : (ps.map fun p => p.text.length + 3) = ps.map fun p => p.encode.length := by
    apply List.map_congr_left
    intro p _
    simp [PrintMsg.encode]
  rw [this]
  omega

theorem all_prints_size {fs : List Frame} {pss : List (List PrintMsg)}
    (h : List.Forall₂ (fun (f : Frame) ps => LeadingPrints f.body ps) fs pss) :
    (pss.flatten.map fun p => p.text.length + 3).sum ≤ (Spec.encode fs).length := by
  induction h with
  | nil => simp
  | @cons f ps fs pss h1 _ ih =>
    have e : Spec.encode (f :: fs) = f.encode ++ Spec.encode fs := rfl
    rw [e, List.flatten_cons, List.map_append, List.sum_append, List.length_append, Frame.encode, List.length_append]
    have := prints_size h1
    omega

theorem frames_size (fs : List Frame) : 2 * fs.length ≤ (Spec.encode fs).length := by
  induction fs with
  | nil => simp
  | cons f fs ih =>
    have hf : 2 ≤ f.encode.length := by simp [Frame.encode, Frame.header]
    have : Spec.encode (f :: fs) = f.encode ++ Spec.encode fs := rfl
    rw [this, List.length_append, List.length_cons]
    omega

/-- C75: the texts of the prints, with three bytes for each print, fit into the demo. -/
theorem C75_prints (g : Env) (data : Bytes) (out : List Print) (h : prints g data = .ok out) :
    (out.map fun p => p.content.length + 3).sum ≤ data.length := by
  obtain ⟨fs, rest, hsp, hst⟩ := (C06_prints g data).2.mp ⟨out, h⟩
  obtain ⟨pss, hp⟩ := leading_exists fs
  rw [prints_stops g hsp hst hp] at h
  cases h
  have h1 := all_prints_size hp
  have h2 := sum_sublist (fun p : Print => p.content.length + 3) (dedup_sublist (reportedPrints pss.flatten))
  have h3 : ((reportedPrints pss.flatten).map fun p => p.content.length + 3).sum ≤
      (pss.flatten.map fun p => p.text.length + 3).sum := by
    unfold reportedPrints
    rw [List.map_map]
    exact sum_sublist (fun p : PrintMsg => p.text.length + 3) List.filter_sublist
  have h4 : data.length = (Spec.encode fs).length + rest.length := by
    conv => lhs; rw [hsp.1]
    simp
  omega

theorem set_length {β : Type} (m : Map Str β) (k : Str) (v : β) : (m.set k v).length ≤ m.length + 1 := by
  induction m with
  | nil => simp [Map.set]
  | cons e m ih =>
    simp only [Map.set]
    split
    · simp
    · simp only [List.length_cons]
      omega

theorem applyCharges_length (g : Env) : ∀ (l : List (Str × Int)) (m m' : Map Str Int), forR (applyCharge g) m l = .ok m' →
    m'.length ≤ m.length + l.length
  | [], m, m', h => by
    cases h
    simp
  | c :: l, m, m', h => by
    simp only [forR, applyCharge, Map.update] at h
    cases ha : addI32 g.checks ((m.get c.1).getD 0) c.2 with
    | ok v =>
      rw [ha] at h
      have ih := applyCharges_length g l (m.set c.1 v) m' h
      have := set_length m c.1 v
      simp only [List.length_cons]
      omega
    | err e => rw [ha] at h; cases h
    | panic => rw [ha] at h; cases h
    | hang => rw [ha] at h; cases h

theorem charges_length {u : Bytes → Str} {cs : List Client} {fs : List Frame} {charges : List (Str × Int)}
    (h : Charges u cs fs charges) : charges.length ≤ fs.length := by
  induction h with
  | nil => simp
  | @cons f fs c charges hc _ ih => cases c <;> simp <;> omega

/-- C75: there are at most as many names in the score table as frames in the demo, and a frame has at least two bytes. -/
theorem C75_frags (g : Env) (data : Bytes) (fs : List Frame) (rest : Bytes) (m : Map Str Int) (h : Splits data fs rest)
    (hs : Stops data.length rest) (hm : fragsPerPlayerName g data = .ok m) :
    m.length ≤ fs.length ∧ 2 * fs.length ≤ data.length := by
  have h4 : data.length = (Spec.encode fs).length + rest.length := by
    conv => lhs; rw [h.1]
    simp
  refine ⟨?_, by have := frames_size fs; omega⟩
  have go : ∀ cs, (clients g data = .ok cs ∨ ((∃ e, clients g data = .err e) ∧ cs = []) ∨
      ∀ before f later, fs = before ++ f :: later → ¬ NeedsClients g.toUnicode f later) → m.length ≤ fs.length := by
    intro cs hcs
    obtain ⟨c, hc⟩ := charges_exists g.toUnicode cs fs
    rw [frags_eq g h hs hcs hc] at hm
    have := applyCharges_length g c [] m hm
    have := charges_length hc
    simp only [List.length_nil] at *
    omega
  by_cases hneed : ∃ before f later, fs = before ++ f :: later ∧ NeedsClients g.toUnicode f later
  · cases hcl : clients g data with
    | ok cs => exact go cs (.inl hcl)
    | err e => exact go [] (.inr (.inl ⟨⟨e, hcl⟩, rfl⟩))
    | panic =>
      rw [C26_panic g data fs rest h hs hcl hneed] at hm
      cases hm
    | hang => exact absurd hcl (clients_halts g data)
  · exact go [] (.inr (.inr fun a f l e k => hneed ⟨a, f, l, e, k⟩))

theorem update_length {β : Type} {m m' : Map Str β} {k : Str} {d : β} {f : β → R β} (h : m.update k d f = .ok m') :
    m'.length ≤ m.length + 1 := by
  unfold Map.update at h
  cases hf : f ((m.get k).getD d) with
  | ok v =>
    rw [hf] at h
    cases h
    exact set_length m k v
  | err e => rw [hf] at h; cases h
  | panic => rw [hf] at h; cases h
  | hang => rw [hf] at h; cases h

theorem countFlagPrint_length {g : Env} {m m' : Map Str PlayerFlagEvents} {t : Bytes} (h : countFlagPrint g m t = .ok m') :
    m'.length ≤ m.length + 1 := by
  unfold countFlagPrint at h
  split at h
  all_goals first
    | exact update_length h
    | (cases h; omega)
    | cases h

theorem countFlagPrints_length (g : Env) : ∀ (l : List Bytes) (m m' : Map Str PlayerFlagEvents),
    forR (countFlagPrint g) m l = .ok m' → m'.length ≤ m.length + l.length
  | [], m, m', h => by
    cases h
    simp
  | t :: l, m, m', h => by
    simp only [forR] at h
    cases ha : countFlagPrint g m t with
    | ok v =>
      rw [ha] at h
      have ih := countFlagPrints_length g l v m' h
      have := countFlagPrint_length ha
      simp only [List.length_cons]
      omega
    | err e => rw [ha] at h; cases h
    | panic => rw [ha] at h; cases h
    | hang => rw [ha] at h; cases h

theorem allPrints_size {body : Bytes} {ps : List PrintMsg} (h : AllPrints body ps) :
    4 * (ps.filter fun p => p.level = 2 ∧ p.text ≠ []).length ≤ body.length := by
  induction h with
  | nil => simp
  | skip _ _ ih => simp only [List.length_cons]; omega
  | @print p t ps _ _ ih =>
    rw [List.filter_cons, List.length_append]
    have : p.encode.length = p.text.length + 3 := by simp [PrintMsg.encode]
    split
    · rename_i hp
      have : 0 < p.text.length := List.length_pos_of_ne_nil (by simpa using (show _ ∧ _ by simpa using hp).2)
      simp only [List.length_cons]
      omega
    · omega
  | cut _ => simp

theorem inPairs_length (u : Bytes → Str) : ∀ l : List Bytes, (inPairs u l).length ≤ l.length
  | [] => by simp [inPairs]
  | [a] => by simp [inPairs]
  | a :: b :: t => by
    have := inPairs_length u t
    simp only [inPairs, List.length_cons]
    omega

theorem flagTexts_size {u : Bytes → Str} {fs : List Frame} {tss : List (List Bytes)} (h : List.Forall₂ (FlagTexts u) fs tss) :
    4 * tss.flatten.length ≤ (Spec.encode fs).length := by
  induction h with
  | nil => simp
  | @cons f ts fs tss h1 _ ih =>
    have e : Spec.encode (f :: fs) = f.encode ++ Spec.encode fs := rfl
    rw [e, List.flatten_cons, List.length_append, List.length_append, Frame.encode, List.length_append]
    have : 4 * ts.length ≤ f.body.length := by
      rcases h1 with ⟨_, ps, hp, rfl⟩ | ⟨_, rfl⟩
      · have h2 := allPrints_size hp
        have h3 := inPairs_length u ((ps.filter fun p => p.level = 2 ∧ p.text ≠ []).map PrintMsg.text)
        rw [List.length_map] at h3
        omega
      · simp
    omega

/-- C75: every player with flag events has a print of four bytes or more in the demo. -/
theorem C75_flags (g : Env) (data : Bytes) (m : Map Str PlayerFlagEvents) (h : flagEventsPerPlayerName g data = .ok m) :
    4 * m.length ≤ data.length := by
  obtain ⟨fs, rest, hsp⟩ := (C03_unique_split data).1
  have h4 : data.length = (Spec.encode fs).length + rest.length := by
    conv => lhs; rw [hsp.1]
    simp
  unfold flagEventsPerPlayerName at h
  rcases C03_remainder data fs rest hsp with ⟨hs, -⟩ | ⟨ho, -⟩
  · obtain ⟨tss, ht, -⟩ := C30_texts g.toUnicode fs
    rw [flagPrints_stops g hsp hs ht] at h
    have h1 := countFlagPrints_length g _ _ _ h
    have h2 := flagTexts_size ht
    simp only [List.length_nil] at h1
    omega
  · rw [flagPrints_overruns g hsp ho] at h
    cases h

theorem totalMs_size {g : Env} {data : Bytes} {target ms : Nat} (h : totalMs g data target = .ok ms) :
    2 * ms ≤ 255 * data.length := by
  obtain ⟨fs, rest, hsp⟩ := (C03_unique_split data).1
  have h4 : data.length = (Spec.encode fs).length + rest.length := by
    conv => lhs; rw [hsp.1]
    simp
  have key : CompleteUpTo data fs rest target → 2 * ms ≤ 255 * data.length := by
    intro hc
    rw [totalMs_eq g hsp hc] at h
    have h1 : ms ≤ msBefore target fs := by
      unfold sumMs at h
      split at h
      · cases h; exact Nat.le_refl _
      · split at h
        · cases h
        · cases h; exact Nat.mod_le _ _
    have h2 := msBefore_le target fs
    have h3 : (fs.map fun f => f.duration.toNat).sum ≤ 255 * fs.length := by
      clear * -
      induction fs with
      | nil => simp
      | cons f fs ih =>
        have := f.duration.toNat_lt
        simp only [List.map_cons, List.sum_cons, List.length_cons]
        omega
    have h5 := frames_size fs
    omega
  rcases C03_remainder data fs rest hsp with ⟨hs, -⟩ | ⟨ho, -⟩
  · exact key (.inl hs)
  · by_cases ht : target ≤ (Spec.encode fs).length
    · exact key (.inr ⟨ho, ht⟩)
    · rw [totalMs_panic g hsp ho (by omega)] at h
      cases h

theorem durationUntilOffset_size {g : Env} {data : Bytes} {target ns : Nat} (h : durationUntilOffset g data target = .ok ns) :
    ∃ ms, Converted ms ns ∧ 2 * ms ≤ 255 * data.length := by
  unfold durationUntilOffset at h
  cases ht : totalMs g data target with
  | ok ms =>
    rw [ht] at h
    cases h
    exact ⟨ms, (C36_conversion _ _).mpr rfl, totalMs_size ht⟩
  | _ => rw [ht] at h; cases h

/-- C75: a duration found by adding up frames is at most 127.5 ms for each byte of the demo. -/
theorem C75_durations (g : Env) (data : Bytes) (ns : Nat)
    (h : demoDuration g data = .ok ns ∨ countdownDuration g data = .ok ns ∨ matchDurationFromSeeking g data = .ok ns) :
    ∃ ms most, ns ≤ most ∧ Converted ms most ∧ 2 * ms ≤ 255 * data.length := by
  have hdemo : ∀ ns, demoDuration g data = .ok ns → ∃ ms, Converted ms ns ∧ 2 * ms ≤ 255 * data.length :=
    fun _ h => durationUntilOffset_size h
  rcases h with h | h | h
  · obtain ⟨ms, h1, h2⟩ := hdemo ns h
    exact ⟨ms, ns, Nat.le_refl _, h1, h2⟩
  · unfold countdownDuration at h
    cases hh : isHoonymode g data with
    | ok b =>
      rw [hh] at h
      cases b with
      | true =>
        cases h
        exact ⟨0, _, Nat.zero_le _, (C36_conversion _ _).mpr rfl, by omega⟩
      | false =>
        simp only [R.bind] at h
        split at h
        · cases h
        · obtain ⟨ms, h1, h2⟩ := durationUntilOffset_size h
          exact ⟨ms, ns, Nat.le_refl _, h1, h2⟩
    | _ => rw [hh] at h; cases h
  · unfold matchDurationFromSeeking at h
    cases hd : demoDuration g data with
    | ok d =>
      rw [hd] at h
      simp only [R.bind] at h
      obtain ⟨ms, h1, h2⟩ := hdemo d hd
      refine ⟨ms, d, ?_, h1, h2⟩
      cases hc : (countdownDuration g data).unwrapOr 0 with
      | ok c =>
        rw [hc] at h
        simp only [durationSub] at h
        split at h
        · cases h; omega
        · cases h
      | _ => rw [hc] at h; cases h
    | _ => rw [hd] at h; cases h

/-- The hypotheses are met by a demo with two prints, one of them an obituary. -/
example : prints Example.debug (Spec.encode [Example.all (Example.medium bytes!"a suicides\n" ++ [8, 3, 104, 0])]) =
      .ok [⟨.medium, bytes!"a suicides\n"⟩, ⟨.chat, [104]⟩] ∧
    fragsPerPlayerName Example.debug (Spec.encode [Example.all (Example.medium bytes!"a suicides\n" ++ [8, 3, 104, 0])]) =
      .ok [(chars!"a", -2)] := by decide +kernel

/-- The hypotheses are met by a demo with flag events of two players, and one frame of 250 ms. -/
example : flagEventsPerPlayerName Example.debug (Spec.encode Example.flagFrames) =
      .ok [(chars!"a", { pickups := 1, carrierFrags := 1 }), (chars!"b", { pickups := 1 })] ∧
    demoDuration Example.debug [250, 0] = .ok 250000000 := by decide +kernel

end Mvd

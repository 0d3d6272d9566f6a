import Verif.Props.Content
import Verif.Props.Locality
import Verif.Props.Duration
import Verif.Props.Time

/-! C70–C72: what recording on, and what lies in the middle of a demo, can and cannot change. -/

namespace Mvd
open Spec

/-! ### C70: the header -/

/-- C70: what is read off the serverinfo does not change when data is appended. -/
theorem C70_header (g : Env) (data more : Bytes) (hl : 1280 ≤ data.length) :
    serverinfoString g (data ++ more) = serverinfoString g data ∧ serverinfo g (data ++ more) = serverinfo g data ∧
    filename g (data ++ more) = filename g data ∧ timestampFromEpoch g (data ++ more) = timestampFromEpoch g data := by
  have h1 : serverinfoString g (data ++ more) = serverinfoString g data :=
    C14_serverinfo_local g _ _ (by simp; omega) hl (by rw [List.take_append_of_le_length hl])
  have h2 : serverinfo g (data ++ more) = serverinfo g data := by
    unfold serverinfo
    rw [h1]
  exact ⟨h1, h2, by unfold filename; rw [h2], by unfold timestampFromEpoch; rw [h2]⟩

theorem matchdateString_append (data more : Bytes) (o : Nat) (ho : FirstAt matchdatePrint data o)
    (hn : 10 ∈ data.drop (o + matchdatePrint.length)) : matchdateString (data ++ more) = matchdateString data := by
  have hN : MATCHDATE_NEEDLE = matchdatePrint := by decide
  have hb := ho.1.bound
  obtain ⟨z, hz⟩ : ∃ z, findByte 10 (data.drop (o + matchdatePrint.length)) = some z := by
    cases hf : findByte 10 (data.drop (o + matchdatePrint.length)) with
    | some z => exact ⟨z, rfl⟩
    | none => exact absurd hn (findByte_eq_none_iff.mp hf)
  have hz' : findByte 10 ((data ++ more).drop (o + matchdatePrint.length)) = some z := by
    rw [List.drop_append_of_le_length hb]
    obtain ⟨pre, post, e, hp, hm⟩ := findByte_eq_some_iff.mp hz
    exact findByte_eq_some_iff.mpr ⟨pre, post ++ more, by rw [e]; simp, hp, hm⟩
  have hlen : z + (o + matchdatePrint.length) ≤ data.length := by
    obtain ⟨pre, post, e, hp, _⟩ := findByte_eq_some_iff.mp hz
    have := congrArg List.length e
    simp only [List.length_drop, List.length_append, List.length_cons] at this
    omega
  unfold matchdateString
  rw [hN, find_eq_some_iff.mpr ho, find_eq_some_iff.mpr (firstAt_append ho)]
  simp only [hz, hz']
  have hsl : slice (data ++ more) (o + matchdatePrint.length) (z + (o + matchdatePrint.length)) =
      slice data (o + matchdatePrint.length) (z + (o + matchdatePrint.length)) := by
    unfold slice
    rw [if_pos ⟨by omega, by simp; omega⟩, if_pos ⟨by omega, hlen⟩]
    congr 1
    rw [List.drop_append_of_le_length (by omega), List.take_append_of_le_length (by simp; omega)]
  rw [hsl]

/-- C70: once the line with the match date is complete, the match date and the timestamp do not change when data is
appended. -/
theorem C70_matchdate (g : Env) (data more : Bytes) (o : Nat) (ho : FirstAt matchdatePrint data o)
    (hn : 10 ∈ data.drop (o + matchdatePrint.length)) :
    matchdateString (data ++ more) = matchdateString data ∧ matchdate g (data ++ more) = matchdate g data ∧
    (1280 ≤ data.length → timestamp g (data ++ more) = timestamp g data) := by
  have h1 := matchdateString_append data more o ho hn
  have h2 : matchdate g (data ++ more) = matchdate g data := by
    unfold matchdate
    rw [h1]
  refine ⟨h1, h2, fun hl => ?_⟩
  unfold timestamp
  rw [h2, (C70_header g data more hl).2.2.2]

/-- C70: a demo that is aborted remains aborted. -/
theorem C70_aborted (data more : Bytes) (h : isAborted data = true) : isAborted (data ++ more) = true := by
  rw [C08_is_aborted] at h ⊢
  obtain ⟨s, t, e⟩ := h
  exact ⟨s, t ++ more, by rw [e]; simp⟩

/-- The hypotheses are met by data with a match date; a second date that is appended is ignored. -/
example : FirstAt matchdatePrint (matchdatePrint ++ bytes!"2024-01-02 03:04:05 CET" ++ [10]) 0 ∧
    10 ∈ (matchdatePrint ++ bytes!"2024-01-02 03:04:05 CET" ++ [10]).drop (0 + matchdatePrint.length) ∧
    matchdateString (matchdatePrint ++ bytes!"2024-01-02 03:04:05 CET" ++ [10] ++ matchdatePrint ++ bytes!"2025" ++ [10]) =
      .ok chars!"2024-01-02 03:04:05 CET" ∧
    isAborted Spec.stoppedByVote = true ∧
    1280 ≤ Example.serverinfoData.length ∧
    serverinfoString Example.debug Example.serverinfoData = .ok chars!"\\mode\\1on1\\serverdemo\\a.mvd\\epoch\\77" :=
  ⟨⟨⟨[], _, rfl, rfl⟩, fun j _ => Nat.zero_le j⟩, by decide +kernel, by decide +kernel, by decide +kernel, by decide +kernel,
    by decide +kernel⟩

theorem starts_append : ∀ (fs more : List Frame) (i : Nat),
    starts i (fs ++ more) = starts i fs ++ starts (i + (Spec.encode fs).length) more
  | [], more, i => by simp [starts, Spec.encode]
  | f :: fs, more, i => by
    simp only [List.cons_append, starts]
    rw [starts_append fs more]
    have : i + f.encode.length + (Spec.encode fs).length = i + (Spec.encode (f :: fs)).length := by
      simp [Spec.encode]
      omega
    rw [this]

theorem msBefore_append (fs more : List Frame) (t : Nat) (h : t ≤ (Spec.encode fs).length) :
    msBefore t (fs ++ more) = msBefore t fs := by
  unfold msBefore
  rw [starts_append, List.filter_append]
  have : (starts (0 + (Spec.encode fs).length) more).filter (fun p => p.1 < t) = [] := by
    rw [List.filter_eq_nil_iff]
    intro p hp
    have := starts_ge _ _ p hp
    simp only [decide_eq_true_eq]
    omega
  rw [this, List.append_nil]

theorem msBefore_mono (fs more : List Frame) (t t' : Nat) (h : t ≤ t') : msBefore t fs ≤ msBefore t' (fs ++ more) := by
  unfold msBefore
  rw [starts_append, List.filter_append, List.map_append, List.sum_append]
  refine Nat.le_trans ?_ (Nat.le_add_right _ _)
  generalize starts 0 fs = l
  induction l with
  | nil => simp
  | cons p l ih =>
    by_cases h1 : p.1 < t
    · rw [List.filter_cons_of_pos (by simpa using h1), List.filter_cons_of_pos (by simp; omega)]
      simp only [List.map_cons, List.sum_cons]
      omega
    · rw [List.filter_cons_of_neg (by simpa using h1)]
      by_cases h2 : p.1 < t'
      · rw [List.filter_cons_of_pos (by simpa using h2)]
        simp only [List.map_cons, List.sum_cons]
        omega
      · rw [List.filter_cons_of_neg (by simpa using h2)]
        exact ih

theorem append_wf {fs more : List Frame} (hf : ∀ f ∈ fs, f.WF) (hm : ∀ f ∈ more, f.WF) : ∀ f ∈ fs ++ more, f.WF :=
  fun f h => (List.mem_append.mp h).elim (hf f) (hm f)

theorem encode_append (fs more : List Frame) : Spec.encode (fs ++ more) = Spec.encode fs ++ Spec.encode more := by
  simp [Spec.encode]

theorem isHoonymode_append (g : Env) (data more : Bytes) (hl : 1280 ≤ data.length) :
    isHoonymode g (data ++ more) = isHoonymode g data := by
  unfold isHoonymode
  rw [(C70_header g data more hl).2.1]

/-- C70: once the match has started, the countdown does not change when frames are appended. -/
theorem C70_countdown (g : Env) (fs more : List Frame) (o : Nat) (hf : ∀ f ∈ fs, f.WF) (hm : ∀ f ∈ more, f.WF)
    (hl : 1280 ≤ (Spec.encode fs).length) (ho : FirstAt matchdatePrint (Spec.encode fs) o) :
    countdownDuration g (Spec.encode (fs ++ more)) = countdownDuration g (Spec.encode fs) := by
  have h1 := splits_whole hf
  have h2 := splits_whole (append_wf hf hm)
  have hb := ho.1.bound
  have e1 : totalMs g (Spec.encode fs) o = sumMs g (msBefore o fs) := totalMs_eq g h1.1 (.inl h1.2)
  have e2 : totalMs g (Spec.encode (fs ++ more)) o = sumMs g (msBefore o fs) := by
    rw [totalMs_eq g h2.1 (.inl h2.2), msBefore_append _ _ _ (by omega)]
  have hN : MATCHDATE_NEEDLE = matchdatePrint := by decide
  rw [encode_append] at e2 ⊢
  unfold countdownDuration
  rw [isHoonymode_append g _ _ hl, hN, find_eq_some_iff.mpr ho, find_eq_some_iff.mpr (firstAt_append ho)]
  have e3 : durationUntilOffset g (Spec.encode fs ++ Spec.encode more) o = durationUntilOffset g (Spec.encode fs) o := by
    unfold durationUntilOffset
    rw [e1, e2]
  simp only [e3]

/-- The hypotheses are met by a demo whose match starts after 5 ms; 9 ms are appended. -/
example : ∃ (fs more : List Frame) (o : Nat), (∀ f ∈ fs, f.WF) ∧ (∀ f ∈ more, f.WF) ∧ 1280 ≤ (Spec.encode fs).length ∧
    FirstAt matchdatePrint (Spec.encode fs) o ∧ countdownDuration Example.debug (Spec.encode (fs ++ more)) = .ok 5000000 :=
  ⟨[⟨2, 6, [], List.replicate 1300 7⟩, ⟨3, 6, [], matchdatePrint⟩], [⟨9, 6, [], matchdatePrint⟩], 1312, by decide +kernel,
    by decide +kernel, by decide +kernel, find_eq_some_iff.mp (by decide +kernel), by decide +kernel⟩

/-! ### C71: the middle of a demo does not matter for its validity -/

/-- C71: with the client strings and 1024 further bytes at the beginning and the end marker at the end, the verdict does not
depend on what lies between. -/
theorem C71_valid_local (g : Env) (head mid mid' : Bytes) (o : Nat) (hs : FirstAt spawnCommand head o)
    (hl : o + 13056 ≤ head.length) :
    isValid g (head ++ mid ++ Spec.endOfDemo) = isValid g (head ++ mid' ++ Spec.endOfDemo) := by
  have key : ∀ m, isValid g (head ++ m ++ Spec.endOfDemo) =
      (serverinfo g head).isOk.bind fun b => match b with
        | true => (clientinfo g head).isOkAnd fun c => !c.isEmpty
        | false => .ok false := by
    intro m
    have he : hasEndOfDemoPrint (head ++ m ++ Spec.endOfDemo) = true := by
      rw [C09_end_of_demo]
      refine ⟨head ++ m, ?_, rfl⟩
      intro h
      have := congrArg List.length h
      simp at this
      rw [this.1] at hl
      simp at hl
    unfold isValid hasClients
    rw [if_pos (by simp; omega), if_pos he, List.append_assoc, (C70_header g head _ (by omega)).2.1,
      (C63_clients g head _ o hs hl).1]
    rfl
  rw [key, key]

/-- The hypotheses are met by a valid demo. -/
example : ∃ (head : Bytes) (o : Nat), FirstAt spawnCommand head o ∧ o + 13056 ≤ head.length ∧
    isValid Example.debug (head ++ [1, 2, 3] ++ Spec.endOfDemo) = .ok true :=
  ⟨Example.serverinfoData ++ spawnCommand ++ [0] ++ bytes!"\\name\\a" ++ [0] ++ List.replicate 13100 0,
    Example.serverinfoData.length, find_eq_some_iff.mp (by decide +kernel), by decide +kernel, by decide +kernel⟩

/-! ### C72: a demo that grows -/

/-- C72: after the end of the match nothing changes the demo duration, until another match ends. -/
theorem C72_settled (g : Env) (fs more : List Frame) (t : Nat) (hf : ∀ f ∈ fs, f.WF) (hm : ∀ f ∈ more, f.WF)
    (ht : LastAt matchOver (Spec.encode fs) t) (ht' : LastAt matchOver (Spec.encode (fs ++ more)) t) :
    demoDuration g (Spec.encode (fs ++ more)) = demoDuration g (Spec.encode fs) := by
  have h1 := splits_whole hf
  have h2 := splits_whole (append_wf hf hm)
  have hb := ht.1.bound
  rw [demoDuration_eq g (.inl ht), demoDuration_eq g (.inl ht'), totalMs_eq g h1.1 (.inl h1.2), totalMs_eq g h2.1 (.inl h2.2),
    msBefore_append _ _ _ (by omega)]

/-- C72: a demo that has grown and is measured at least as far is not reported shorter. -/
theorem C72_monotone (g : Env) (fs more : List Frame) (t t' : Nat) (hf : ∀ f ∈ fs, f.WF) (hm : ∀ f ∈ more, f.WF)
    (ht : MeasuredTo (Spec.encode fs) t) (ht' : MeasuredTo (Spec.encode (fs ++ more)) t') (hle : t ≤ t')
    (hms : msBefore t' (fs ++ more) < 2 ^ 32) :
    ∃ d d', demoDuration g (Spec.encode fs) = .ok d ∧ demoDuration g (Spec.encode (fs ++ more)) = .ok d' ∧ d ≤ d' := by
  have h1 := splits_whole hf
  have h2 := splits_whole (append_wf hf hm)
  have hle' := msBefore_mono fs more t t' hle
  exact ⟨_, _, demo_ms g _ fs [] t h1.1 ht (.inl h1.2) (by omega),
    demo_ms g _ _ [] t' h2.1 ht' (.inl h2.2) hms, C36_monotone _ _ hle'⟩

/-- The hypotheses are met by a match of 5 ms after which 9 ms more are recorded. -/
example : ∃ (fs more : List Frame) (t : Nat), (∀ f ∈ fs, f.WF) ∧ (∀ f ∈ more, f.WF) ∧
    LastAt matchOver (Spec.encode fs) t ∧ LastAt matchOver (Spec.encode (fs ++ more)) t ∧ more ≠ [] ∧
    demoDuration Example.debug (Spec.encode (fs ++ more)) = .ok 5000000 :=
  ⟨[⟨2, 6, [], [7]⟩, ⟨3, 6, [], matchOver⟩], [⟨9, 6, [], [7]⟩], 13, by decide +kernel, by decide +kernel,
    rfind_eq_some_iff.mp (by decide +kernel), rfind_eq_some_iff.mp (by decide +kernel), by decide, by decide +kernel⟩

/-- The hypotheses are met by a recording of 2 ms that goes on for 3 ms. -/
example : ∃ (fs more : List Frame) (t t' : Nat), (∀ f ∈ fs, f.WF) ∧ (∀ f ∈ more, f.WF) ∧
    MeasuredTo (Spec.encode fs) t ∧ MeasuredTo (Spec.encode (fs ++ more)) t' ∧ t ≤ t' ∧ msBefore t' (fs ++ more) < 2 ^ 32 ∧
    demoDuration Example.debug (Spec.encode fs) = .ok 2000000 ∧
    demoDuration Example.debug (Spec.encode (fs ++ more)) = .ok 5000000 :=
  ⟨[⟨2, 6, [], [7]⟩], [⟨3, 6, [], [7]⟩], 7, 14, by decide +kernel, by decide +kernel,
    .inr (.inr ⟨by decide +kernel, by decide +kernel, rfl⟩), .inr (.inr ⟨by decide +kernel, by decide +kernel, rfl⟩), by decide,
    by decide +kernel, by decide +kernel, by decide +kernel⟩

end Mvd

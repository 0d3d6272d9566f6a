import Verif.Lemmas.Boundary
import Verif.Lemmas.Time
import Verif.Model.Utf8Events
import Verif.Props.Events

/-! Messages are searched for phrases and cut on UTF-8 bytes (C91). -/

namespace Mvd
open Spec

/-- C91: the bytes of a non-empty phrase occur in the bytes of a text only where the phrase itself occurs: never in the
middle of a character, and never across characters that merely share bytes with it. -/
theorem C91_occurs {p s : Str} (hp : p ≠ []) (k : Nat) :
    OccursAt (utf8 p) (utf8 s) k ↔ ∃ x y, s = x ++ p ++ y ∧ (utf8 x).length = k := by
  constructor
  · rintro ⟨a, r, e, rfl⟩
    obtain ⟨x, y, hs, rfl, -⟩ := utf8_occurs hp e
    exact ⟨x, y, hs, rfl⟩
  · rintro ⟨x, y, rfl, rfl⟩
    exact ⟨utf8 x, utf8 y, by simp [utf8_append], rfl⟩

theorem utf8_take_mono (s : Str) {i j : Nat} (h : i ≤ j) : (utf8 (s.take i)).length ≤ (utf8 (s.take j)).length := by
  obtain ⟨d, rfl⟩ := Nat.exists_eq_add_of_le h
  rw [List.take_add, utf8_append, List.length_append]
  omega

theorem strFind_eq {p : Str} (hp : p ≠ []) (v : Str) :
    strFind v p = (find p v).map fun i => (utf8 (v.take i)).length := by
  unfold strFind
  rw [asBytes_eq, asBytes_eq]
  cases h : find p v with
  | none =>
    simp only [Option.map_none]
    rw [find_eq_none_iff] at h ⊢
    rintro ⟨a, r, e⟩
    obtain ⟨x, y, e, -, -⟩ := utf8_occurs hp e
    exact h ⟨x, y, e⟩
  | some i =>
    simp only [Option.map_some]
    rw [find_eq_some_iff] at h ⊢
    obtain ⟨⟨pre, post, e, rfl⟩, hm⟩ := h
    refine ⟨(C91_occurs hp _).mpr ⟨pre, post, e, by simp [e]⟩, ?_⟩
    intro j hj
    obtain ⟨x, y, e', rfl⟩ := (C91_occurs hp j).mp hj
    have := hm x.length ⟨x, y, e', rfl⟩
    have h2 := utf8_take_mono v this
    have h3 : v.take x.length = x := by simp [e']
    rwa [h3] at h2

theorem strFindAny_eq {ps : List Str} (hp : ∀ p ∈ ps, p ≠ []) (v : Str) :
    strFindAny ps v = (findAny ps v).map fun i => (utf8 (v.take i)).length := by
  unfold strFindAny findAny
  induction ps with
  | nil => rfl
  | cons p ps ih =>
    rw [List.findSome?_cons, List.findSome?_cons, strFind_eq (hp p (by simp)), ih fun q hq => hp q (by simp [hq])]
    cases find p v <;> rfl

theorem strTo_take (v : Str) (i : Nat) : strTo v (utf8 (v.take i)).length = .ok (v.take i) :=
  strTo_ok_iff.mpr ⟨v.drop i, (List.take_append_drop i v).symm, rfl⟩

theorem strSplitOnce_eq {d : Str} (hd : d ≠ []) (v : Str) : strSplitOnce v d = .ok (splitOnce v d) := by
  unfold strSplitOnce
  rw [strFind_eq hd]
  cases h : find d v with
  | none => simp [splitOnce, h]
  | some i =>
    simp only [Option.map_some, strTo_take, R.bind]
    obtain ⟨⟨pre, post, e, rfl⟩, -⟩ := find_eq_some_iff.mp h
    have h1 : v.take pre.length = pre := by simp [e]
    have h2 : splitOnce v d = some (pre, post) := splitOnce_eq_some_iff.mpr ⟨e, find_eq_some_iff.mp h⟩
    rw [h1, h2, strFrom_ok_iff.mpr ⟨pre ++ d, e, by rw [utf8_append, List.length_append, asBytes_eq]⟩]

theorem utf8_eq_nil {y : Str} (h : utf8 y = []) : y = [] := utf8_inj (h.trans utf8_nil.symm)

theorem strEndsWith_eq {p : Str} (hp : p ≠ []) (v : Str) : strEndsWith v p = endsWith v p := by
  rw [Bool.eq_iff_iff]
  unfold strEndsWith endsWith
  rw [List.isSuffixOf_iff_suffix, List.isSuffixOf_iff_suffix, asBytes_eq, asBytes_eq]
  constructor
  · rintro ⟨a, e⟩
    obtain ⟨x, y, rfl, -, hy⟩ := utf8_occurs (r := []) hp (by rw [List.append_nil]; exact e.symm)
    rw [utf8_eq_nil hy]
    exact ⟨x, by simp⟩
  · rintro ⟨x, rfl⟩
    exact ⟨utf8 x, (utf8_append x p).symm⟩

theorem strTrimEndMatches_eq {p : Str} (hp : p ≠ []) : ∀ (n m : Nat) (v : Str), v.length ≤ n → v.length ≤ m →
    strTrimEndMatches p n v = .ok (trimEndMatchesAux p m v)
  | 0, m, v, hn, hm => by
    obtain rfl := List.length_eq_zero_iff.mp (Nat.le_zero.mp hn)
    cases m with
    | zero => rfl
    | succ m =>
      rw [strTrimEndMatches, trimEndMatchesAux, if_neg]
      rintro ⟨-, h⟩
      exact hp (by simpa using h)
  | n + 1, 0, v, hn, hm => by
    obtain rfl := List.length_eq_zero_iff.mp (Nat.le_zero.mp hm)
    rw [strTrimEndMatches, trimEndMatchesAux, if_neg]
    rintro ⟨-, h⟩
    rw [strEndsWith_eq hp] at h
    exact hp (by simpa [endsWith] using h)
  | n + 1, m + 1, v, hn, hm => by
    rw [strTrimEndMatches, trimEndMatchesAux, strEndsWith_eq hp]
    have hpos : 0 < p.length := List.length_pos_iff.mpr hp
    by_cases h : endsWith v p = true
    · rw [if_pos ⟨hp, h⟩, if_pos ⟨hp, h⟩]
      obtain ⟨x, rfl⟩ := List.isSuffixOf_iff_suffix.mp h
      have hx : (x ++ p).take ((x ++ p).length - p.length) = x := by simp
      have hs : strTo (x ++ p) ((asBytes (x ++ p)).length - (asBytes p).length) = .ok x :=
        strTo_ok_iff.mpr ⟨p, rfl, by rw [asBytes_eq, asBytes_eq, utf8_append, List.length_append]; omega⟩
      rw [hs, hx]
      simp only [List.length_append] at hn hm
      exact strTrimEndMatches_eq hp n m x (by omega) (by omega)
    · rw [if_neg fun k => h k.2, if_neg fun k => h k.2]

theorem strPatternMatch_eq {p : Str} (hp : p ≠ [])
    (hw : ∀ a b, splitOnce p WILDCARD = some (a, b) → a ≠ [] ∧ b ≠ []) (v : Str) :
    strPatternMatch v p = .ok (patternMatch v p) := by
  have hW : WILDCARD ≠ [] := by decide
  unfold strPatternMatch patternMatch
  rw [strFind_eq hW, Option.isSome_map, strSplitOnce_eq hW, strSplitOnce_eq hp]
  split
  · simp only [R.bind]
    cases h : splitOnce p WILDCARD with
    | none => rfl
    | some ab =>
      obtain ⟨a, b⟩ := ab
      obtain ⟨ha, hb⟩ := hw a b h
      simp only [strSplitOnce_eq ha, R.bind]
      cases splitOnce v a with
      | none => rfl
      | some xr =>
        obtain ⟨x, r⟩ := xr
        simp only [strSplitOnce_eq hb, R.bind]
        cases splitOnce r b with
        | none => rfl
        | some yz => rfl
  · rfl

/-- Nothing is searched for with an empty phrase. -/
theorem patterns_proper : ∀ p ∈ X_FRAG_Y ++ Y_FRAG_X, p ≠ [] ∧
    ((splitOnce p WILDCARD).all fun ab => !ab.1.isEmpty && !ab.2.isEmpty) = true := by decide +kernel

theorem strFragPatternLoop_eq (v : Str) : ∀ ps : List Str, (∀ p ∈ ps, p ∈ X_FRAG_Y ++ Y_FRAG_X) →
    strFragPatternLoop v ps = fragPatternLoop v ps
  | [], _ => rfl
  | p :: ps, h => by
    have hp := patterns_proper p (h p (by simp))
    rw [strFragPatternLoop, fragPatternLoop, strPatternMatch_eq hp.1 (by
      intro a b hab
      have := hp.2
      rw [hab] at this
      simpa using this)]
    simp only [R.bind]
    cases patternMatch v p with
    | none => exact strFragPatternLoop_eq v ps fun q hq => h q (by simp [hq])
    | some xy => rfl

/-- C91: obituaries are classified the same way on bytes as on characters; in particular cutting out the names never
panics, whatever the characters of the message. -/
theorem C91_frag_event (text : Str) : FragEvent.strTryFrom text = FragEvent.tryFrom text := by
  have h1 : ∀ p ∈ X_DEATH, p ≠ [] := by decide
  have h2 : ∀ p ∈ X_SUICIDE_BY_WEAPON, p ≠ [] := by decide
  have h3 : X_SUICIDE ≠ [] := by decide
  have h4 : ∀ p ∈ X_TEAMKILL_UNKNOWN, p ≠ [] := by decide
  have h5 : ∀ p ∈ UNKNOWN_TEAMKILL_X, p ≠ [] := by decide
  unfold FragEvent.strTryFrom FragEvent.tryFrom
  rw [strFindAny_eq h1, strFindAny_eq h2, strFindAny_eq h4, strFindAny_eq h5, strEndsWith_eq h3,
    strFragPatternLoop_eq text _ fun _ h => h, strTrimEndMatches_eq h3 _ text.length text (by
      rw [asBytes_eq]; exact utf8_length_ge text) (Nat.le_refl _)]
  cases findAny X_DEATH text with
  | some i => simp only [Option.map_some, strTo_take, R.bind]
  | none =>
  cases findAny X_SUICIDE_BY_WEAPON text with
  | some i => simp only [Option.map_some, Option.map_none, strTo_take, R.bind]
  | none =>
  simp only [Option.map_none]
  split
  · rfl
  cases findAny X_TEAMKILL_UNKNOWN text with
  | some i => simp only [Option.map_some, strTo_take, R.bind]
  | none =>
  cases findAny UNKNOWN_TEAMKILL_X text with
  | some i => simp only [Option.map_some, Option.map_none, strTo_take, R.bind]
  | none => rfl

theorem strFlagPrintLoop_eq (v : Str) : ∀ cs : List ((Str → FlagEvent) × List Str), (∀ c ∈ cs, ∀ p ∈ c.2, p ≠ []) →
    strFlagPrintLoop v cs = flagPrintLoop v cs
  | [], _ => rfl
  | (ev, ps) :: cs, h => by
    rw [strFlagPrintLoop, flagPrintLoop, strFindAny_eq (h (ev, ps) (by simp))]
    change _ = match findAny ps v with
      | some pos => _
      | none => _
    cases findAny ps v with
    | none => exact strFlagPrintLoop_eq v cs fun c hc => h c (by simp [hc])
    | some i => simp only [Option.map_some, strTo_take, R.bind]

/-- C91: flag messages are classified the same way on bytes as on characters, without a panic. -/
theorem C91_flag_event (text : Str) : FlagEvent.strTryFrom text = FlagEvent.tryFrom text := by
  have h : ∀ l ∈ flagPrintTypes.map Prod.snd, ∀ p ∈ l, p ≠ [] := by decide
  exact strFlagPrintLoop_eq text _ fun c hc => h c.2 (List.mem_map_of_mem hc)

/-- C91: so is the test for the second half of a flag message. -/
theorem C91_suffix (g : Env) (print : Bytes) : strIsMessageSuffix g print = isMessageSuffix g print := by
  have h : ∀ p ∈ X_RETURNED_FLAG ++ X_GOT_FLAG ++ X_CAPTURED_FLAG, p ≠ [] := by decide
  unfold strIsMessageSuffix isMessageSuffix
  rw [Bool.eq_iff_iff, List.any_eq_true, List.any_eq_true]
  constructor
  · rintro ⟨p, hp, e⟩
    exact ⟨p, hp, by rw [← strEndsWith_eq (h p hp)]; exact e⟩
  · rintro ⟨p, hp, e⟩
    exact ⟨p, hp, by rw [strEndsWith_eq (h p hp)]; exact e⟩

/-- C91: the result in terms of the message: the obituary the message is by the table of phrases, or an error. -/
theorem C91_classification (text : Str) :
    (∃ e, FragEvent.strTryFrom text = .ok e ∧ Classifies text e.spec) ∨
    (FragEvent.strTryFrom text = .err .fragEvent ∧ ∀ o, ¬ Classifies text o) := by
  rw [C91_frag_event]
  rcases C24_total text with ⟨e, h⟩ | h
  · exact .inl ⟨e, h, (C24_classification text e).mp h⟩
  · exact .inr h

/-- Names with characters of two, three and four bytes; the offsets are byte offsets. -/
example : FragEvent.strTryFrom chars!"ñ€𝄞 rides á's rocket" = .ok (.frag chars!"á" chars!"ñ€𝄞") ∧
    strFind chars!"ñ€𝄞 died" chars!" died" = some 9 ∧ find chars!" died" chars!"ñ€𝄞 died" = some 3 := by
  refine ⟨?_, ?_, ?_⟩ <;> decide +kernel

/-- The bytes of the message that are not the start of a character do occur as bytes, but are no text. -/
example : OccursAt [0xA9] (utf8 chars!"é") 1 ∧ ∀ p : Str, utf8 p ≠ [0xA9] := by
  refine ⟨⟨[0xC3], [], by decide +kernel, rfl⟩, ?_⟩
  intro p hp
  have h : fromUtf8 [0xA9] = none := by decide +kernel
  exact fromUtf8_eq_none_iff.mp h ⟨p, hp⟩

end Mvd

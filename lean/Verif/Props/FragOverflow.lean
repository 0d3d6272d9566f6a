import Verif.Props.Content

/-! C26 without a bound on the number of charges, and C74: no name is invented. -/

namespace Mvd
open Spec

/-- The scores are what the charges come to, one after the other. -/
theorem frags_eq (g : Env) {data : Bytes} {fs : List Frame} {rest : Bytes} {cs : List Client} {c : List (Str × Int)}
    (h : Splits data fs rest) (hs : Stops data.length rest)
    (hcs : clients g data = .ok cs ∨ ((∃ e, clients g data = .err e) ∧ cs = []) ∨
      ∀ before f later, fs = before ++ f :: later → ¬ NeedsClients g.toUnicode f later)
    (hc : Charges g.toUnicode cs fs c) : fragsPerPlayerName g data = forR (applyCharge g) [] c := by
  unfold fragsPerPlayerName
  rw [printFrames_stops g h hs]
  have := score_frames g (cs := cs) hs fs [] c [] h.2.1 (by simpa using h.1) (by
    intro a f l e
    rcases hcs with hcs | hcs | hcs
    · exact .inl hcs
    · exact .inr (.inl hcs)
    · exact .inr (.inr (hcs a f l e))) hc
  simpa [R.bind] using this

theorem addI32_wrap (a b : Int) : addI32 false a b = .ok (Int.bmod (a + b) (2 ^ 32)) := by
  unfold addI32
  split
  · rename_i h
    congr 1
    symm
    apply Int.bmod_eq_of_le <;> norm_num <;> omega
  · rfl

theorem points_snoc (l : List (Str × Int)) (c : Str × Int) (name : Str) :
    points (l ++ [c]) name = points l name + if c.1 = name then c.2 else 0 := by
  unfold points
  by_cases h : c.1 = name <;> simp [List.filter_append, h]

theorem applyCharges_wrap (g : Env) (hc : g.checks = false) : ∀ (l pre : List (Str × Int)) (m : Map Str Int),
    (∀ name, m.get name = if name ∈ pre.map Prod.fst then some (Int.bmod (points pre name) (2 ^ 32)) else none) →
    ∃ m', forR (applyCharge g) m l = .ok m' ∧ ∀ name, m'.get name =
      if name ∈ (pre ++ l).map Prod.fst then some (Int.bmod (points (pre ++ l) name) (2 ^ 32)) else none
  | [], pre, m, hm => ⟨m, rfl, by rw [List.append_nil]; exact hm⟩
  | c :: l, pre, m, hm => by
    have hold : ∃ x, (m.get c.1).getD 0 = x ∧ Int.bmod (x + c.2) (2 ^ 32) = Int.bmod (points pre c.1 + c.2) (2 ^ 32) := by
      refine ⟨_, rfl, ?_⟩
      rw [hm]
      by_cases hp : c.1 ∈ pre.map Prod.fst
      · rw [if_pos hp, Option.getD_some, Int.bmod_add_bmod]
      · rw [if_neg hp, Option.getD_none, points_not_mem hp]
    obtain ⟨x, hx, hb⟩ := hold
    have hstep : applyCharge g m c = .ok (m.set c.1 (Int.bmod (points pre c.1 + c.2) (2 ^ 32))) := by
      unfold applyCharge Map.update
      dsimp only
      rw [hc, addI32_wrap, hx, hb]
      rfl
    obtain ⟨m', h1, h2⟩ := applyCharges_wrap g hc l (pre ++ [c]) (m.set c.1 (Int.bmod (points pre c.1 + c.2) (2 ^ 32))) (by
      intro name
      rw [Map.get_set, points_snoc]
      by_cases hn : c.1 = name
      · subst hn
        simp
      · have hn' : ¬ name = c.1 := fun e => hn e.symm
        simp only [hn, if_false, Int.add_zero, hm, List.map_append, List.mem_append, List.map_cons, List.map_nil,
          List.mem_singleton, hn', or_false])
    refine ⟨m', by simp only [forR, hstep, R.bind]; exact h1, ?_⟩
    rw [show pre ++ c :: l = pre ++ [c] ++ l by simp]
    exact h2

/-- C26, release builds: however many charges there are, the score is their sum, reduced to 32 bits. -/
theorem C26_release (g : Env) (data : Bytes) (fs : List Frame) (rest : Bytes) (cs : List Client)
    (charges : List (Str × Int)) (h : Splits data fs rest) (hs : Stops data.length rest)
    (hcs : clients g data = .ok cs ∨ ((∃ e, clients g data = .err e) ∧ cs = []) ∨
      ∀ before f later, fs = before ++ f :: later → ¬ NeedsClients g.toUnicode f later)
    (hch : Charges g.toUnicode cs fs charges) (hc : g.checks = false) :
    ∃ m, fragsPerPlayerName g data = .ok m ∧ ∀ name, m.get name =
      if name ∈ charges.map Prod.fst then some (Int.bmod (points charges name) (2 ^ 32)) else none := by
  rw [frags_eq g h hs hcs hch]
  simpa using applyCharges_wrap g hc charges [] [] (by simp [Map.get])

/-- At no time does a score leave the range of 32-bit integers. -/
def InRange (charges : List (Str × Int)) : Prop :=
  ∀ sofar, sofar <+: charges → ∀ name, -2 ^ 31 ≤ points sofar name ∧ points sofar name < 2 ^ 31

theorem applyCharges_checked (g : Env) (hc : g.checks = true) : ∀ (l pre : List (Str × Int)) (m : Map Str Int),
    (∀ name, m.get name = if name ∈ pre.map Prod.fst then some (points pre name) else none) →
    (∀ name, -2 ^ 31 ≤ points pre name ∧ points pre name < 2 ^ 31) →
    ((∀ s, s <+: l → ∀ name, -2 ^ 31 ≤ points (pre ++ s) name ∧ points (pre ++ s) name < 2 ^ 31) →
      ∃ m', forR (applyCharge g) m l = .ok m' ∧ ∀ name, m'.get name =
        if name ∈ (pre ++ l).map Prod.fst then some (points (pre ++ l) name) else none) ∧
    (¬ (∀ s, s <+: l → ∀ name, -2 ^ 31 ≤ points (pre ++ s) name ∧ points (pre ++ s) name < 2 ^ 31) →
      forR (applyCharge g) m l = .panic)
  | [], pre, m, hm, hr => by
    refine ⟨fun _ => ⟨m, rfl, by rw [List.append_nil]; exact hm⟩, fun hn => absurd ?_ hn⟩
    intro s hs
    rw [List.prefix_nil.mp hs, List.append_nil]
    exact hr
  | c :: l, pre, m, hm, hr => by
    have hx : (m.get c.1).getD 0 = points pre c.1 := by
      rw [hm]
      by_cases hp : c.1 ∈ pre.map Prod.fst
      · rw [if_pos hp, Option.getD_some]
      · rw [if_neg hp, Option.getD_none, points_not_mem hp]
    have hself : points (pre ++ [c]) c.1 = points pre c.1 + c.2 := by rw [points_snoc, if_pos rfl]
    by_cases hin : -2 ^ 31 ≤ points pre c.1 + c.2 ∧ points pre c.1 + c.2 < 2 ^ 31
    · have hstep : applyCharge g m c = .ok (m.set c.1 (points pre c.1 + c.2)) := by
        unfold applyCharge Map.update addI32
        dsimp only
        rw [hx, if_pos hin]
        rfl
      have hr' : ∀ name, -2 ^ 31 ≤ points (pre ++ [c]) name ∧ points (pre ++ [c]) name < 2 ^ 31 := by
        intro name
        rw [points_snoc]
        by_cases hn : c.1 = name
        · subst hn
          rw [if_pos rfl]
          exact hin
        · rw [if_neg hn, Int.add_zero]
          exact hr name
      obtain ⟨i1, i2⟩ := applyCharges_checked g hc l (pre ++ [c]) (m.set c.1 (points pre c.1 + c.2)) (by
        intro name
        rw [Map.get_set, points_snoc]
        by_cases hn : c.1 = name
        · subst hn
          simp
        · have hn' : ¬ name = c.1 := fun e => hn e.symm
          simp only [hn, if_false, Int.add_zero, hm, List.map_append, List.mem_append, List.map_cons, List.map_nil,
            List.mem_singleton, hn', or_false]) hr'
      have hiff : (∀ s, s <+: c :: l → ∀ name, -2 ^ 31 ≤ points (pre ++ s) name ∧ points (pre ++ s) name < 2 ^ 31) ↔
          ∀ s, s <+: l → ∀ name, -2 ^ 31 ≤ points (pre ++ [c] ++ s) name ∧ points (pre ++ [c] ++ s) name < 2 ^ 31 := by
        constructor
        · intro h s hs name
          have := h (c :: s) (List.cons_prefix_cons.mpr ⟨rfl, hs⟩) name
          simpa using this
        · intro h s hs name
          cases s with
          | nil =>
            rw [List.append_nil]
            exact hr name
          | cons d s =>
            obtain ⟨rfl, hs'⟩ := List.cons_prefix_cons.mp hs
            have := h s hs' name
            simpa using this
      have e : forR (applyCharge g) m (c :: l) = forR (applyCharge g) (m.set c.1 (points pre c.1 + c.2)) l := by
        simp only [forR, hstep, R.bind]
      rw [hiff, e]
      refine ⟨fun h => ?_, i2⟩
      rw [show pre ++ c :: l = pre ++ [c] ++ l by simp]
      exact i1 h
    · have hstep : applyCharge g m c = .panic := by
        unfold applyCharge Map.update addI32
        dsimp only
        rw [hx, if_neg hin, hc]
        rfl
      refine ⟨fun h => absurd ?_ hin, fun _ => by simp only [forR, hstep, R.bind]⟩
      have := h [c] ⟨l, rfl⟩ c.1
      rwa [hself] at this

/-- C26, debug builds: with overflow checks the scores are exact if they stay in range all the time, and otherwise the
call panics. -/
theorem C26_debug (g : Env) (data : Bytes) (fs : List Frame) (rest : Bytes) (cs : List Client)
    (charges : List (Str × Int)) (h : Splits data fs rest) (hs : Stops data.length rest)
    (hcs : clients g data = .ok cs ∨ ((∃ e, clients g data = .err e) ∧ cs = []) ∨
      ∀ before f later, fs = before ++ f :: later → ¬ NeedsClients g.toUnicode f later)
    (hch : Charges g.toUnicode cs fs charges) (hc : g.checks = true) :
    (InRange charges → ∃ m, fragsPerPlayerName g data = .ok m ∧ ∀ name, m.get name =
      if name ∈ charges.map Prod.fst then some (points charges name) else none) ∧
    (¬ InRange charges → fragsPerPlayerName g data = .panic) := by
  rw [frags_eq g h hs hcs hch]
  have := applyCharges_checked g hc charges [] [] (by simp [Map.get]) (by simp [points])
  simpa [InRange] using this

/-- Both cases occur: the range is kept by every short list and left by a long one. -/
example : InRange [(chars!"a", 1), (chars!"b", -2)] ∧ ¬ InRange (List.replicate (2 ^ 31) (chars!"a", 1)) := by
  constructor
  · intro s hs name
    have hlen := hs.length_le
    have key : ∀ s : List (Str × Int), (∀ c ∈ s, -2 ≤ c.2 ∧ c.2 ≤ 1) → -2 * (s.length : Int) ≤ points s name ∧ points s name ≤ s.length := by
      intro s
      induction s with
      | nil => intro _; simp [points]
      | cons c s ih =>
        intro h
        have h1 := h c (by simp)
        have h2 := ih fun x hx => h x (by simp [hx])
        rw [points_cons]
        simp only [List.length_cons]
        split <;> push_cast <;> omega
    have := key s fun c hc => by
      have := hs.subset hc
      simp only [List.mem_cons, List.not_mem_nil, or_false] at this
      rcases this with rfl | rfl <;> decide
    simp only [List.length_cons, List.length_nil] at hlen
    omega
  · intro h
    have := h _ (List.prefix_refl _) chars!"a"
    have e : ∀ n : Nat, points (List.replicate n (chars!"a", (1 : Int))) chars!"a" = n := by
      intro n
      induction n with
      | zero => rfl
      | succ n ih => rw [List.replicate_succ, points_cons, ih, if_pos rfl]; push_cast; omega
    rw [e] at this
    norm_num at this

/-- Both kinds of build exist. -/
example : Example.release.checks = false ∧ Example.debug.checks = true := ⟨rfl, rfl⟩

end Mvd

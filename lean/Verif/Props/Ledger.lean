import Verif.Props.Frags

/-! C65: the scores reported add up to the points charged. -/

namespace Mvd
open Spec

theorem Map.sum_set {K : Type} [DecidableEq K] : ∀ (m : Map K Int) (k : K) (v : Int),
    ((m.set k v).map fun e => e.2).sum = (m.map fun e => e.2).sum + v - (m.get k).getD 0
  | [], k, v => by simp [Map.set, Map.get]
  | e :: m, k, v => by
    unfold Map.set Map.get
    split
    · simp; omega
    · have := Map.sum_set m k v
      simp only [List.map_cons, List.sum_cons, this]
      omega

theorem applyCharges_sum (g : Env) : ∀ (l : List (Str × Int)) (m : Map Str Int) (B : Nat), m.keys.Nodup →
    (∀ e ∈ l, -2 ≤ e.2 ∧ e.2 ≤ 1) → (∀ k n, m.get k = some n → -(B : Int) ≤ n ∧ n ≤ B) → B + 2 * l.length < 2 ^ 31 →
    ∃ m', forR (applyCharge g) m l = .ok m' ∧ m'.keys.Nodup ∧
      (m'.map fun e => e.2).sum = (m.map fun e => e.2).sum + (l.map fun e => e.2).sum
  | [], m, B, hn, _, _, _ => ⟨m, rfl, hn, by simp⟩
  | c :: l, m, B, hn, hl, hm, hB => by
    have hB' : B + 2 * (l.length + 1) < 2 ^ 31 := by simpa using hB
    have hold : -(B : Int) ≤ (m.get c.1).getD 0 ∧ (m.get c.1).getD 0 ≤ B := by
      cases h : m.get c.1 with
      | none => simp
      | some n => simpa using hm _ _ h
    have hc := hl c (by simp)
    have hstep : applyCharge g m c = .ok (m.set c.1 ((m.get c.1).getD 0 + c.2)) := by
      unfold applyCharge Map.update addI32
      dsimp only
      rw [if_pos (by omega)]
      rfl
    obtain ⟨m', h1, h2, h3⟩ := applyCharges_sum g l (m.set c.1 ((m.get c.1).getD 0 + c.2)) (B + 2) (Map.nodup_set hn _ _)
      (fun e he => hl e (by simp [he])) (by
        intro k n hk
        rw [Map.get_set] at hk
        split at hk
        · simp only [Option.some.injEq] at hk
          omega
        · have := hm _ _ hk
          omega) (by omega)
    refine ⟨m', by simp only [forR, hstep, R.bind]; exact h1, h2, ?_⟩
    rw [h3, Map.sum_set]
    simp only [List.map_cons, List.sum_cons]
    omega

/-- C65: every name is listed once, and the scores of all names add up to the points charged over all frames. -/
theorem C65_total (g : Env) (data : Bytes) (fs : List Frame) (rest : Bytes) (cs : List Client)
    (charges : List (Str × Int)) (h : Splits data fs rest) (hs : Stops data.length rest)
    (hcs : clients g data = .ok cs ∨ ((∃ e, clients g data = .err e) ∧ cs = []) ∨
      ∀ before f later, fs = before ++ f :: later → ¬ NeedsClients g.toUnicode f later)
    (hch : Charges g.toUnicode cs fs charges) (hlen : charges.length < 2 ^ 30) :
    ∃ m, fragsPerPlayerName g data = .ok m ∧ (m.map fun e => e.1).Nodup ∧
      (m.map fun e => e.2).sum = (charges.map fun e => e.2).sum := by
  obtain ⟨m, hm, hn, hsum⟩ := applyCharges_sum g charges [] 0 (by simp [Map.keys]) (charges_size hch) (by simp [Map.get]) (by omega)
  refine ⟨m, ?_, hn, by simpa using hsum⟩
  unfold fragsPerPlayerName
  rw [printFrames_stops g h hs]
  simp only [R.bind]
  have := score_frames g (cs := cs) hs fs [] charges [] h.2.1 (by simpa using h.1) (by
    intro a f l e
    rcases hcs with hcs | hcs | hcs
    · exact .inl hcs
    · exact .inr (.inl hcs)
    · exact .inr (.inr (hcs a f l e))) hch
  simp only [List.length_nil] at this
  rw [this, hm]

/-- C65: a frame adds at most one point to the total and takes at most two off. -/
theorem C65_bounds (toUnicode : Bytes → Str) (cs : List Client) (fs : List Frame) (charges : List (Str × Int))
    (h : Charges toUnicode cs fs charges) :
    -2 * (fs.length : Int) ≤ (charges.map fun e => e.2).sum ∧ (charges.map fun e => e.2).sum ≤ fs.length := by
  induction h with
  | nil => simp
  | @cons f fs c charges hc _ ih =>
    cases c with
    | none => simp; omega
    | some e =>
      have := charge_size (k := e.1) (n := e.2) hc
      simp; omega

/-- The hypotheses are met by a demo with frags, a suicide and an anonymous teamkill; its total is -2. -/
example : ∃ charges, Splits (Spec.encode Example.fragFrames) Example.fragFrames [] ∧
    Stops (Spec.encode Example.fragFrames).length [] ∧ clients Example.debug (Spec.encode Example.fragFrames) = .ok Example.team ∧
    Charges Example.debug.toUnicode Example.team Example.fragFrames charges ∧ charges.length < 2 ^ 30 ∧
    (charges.map fun e => e.2).sum = -2 := by
  obtain ⟨c, hc, _⟩ := C26_charges Example.debug.toUnicode Example.team Example.fragFrames
  have hl := C26_bound Example.debug _ _ _ _ c Example.fragFrames_split.1 hc (by decide +kernel)
  refine ⟨c, Example.fragFrames_split.1, Example.fragFrames_split.2, Example.team_eq, hc, hl, ?_⟩
  obtain ⟨m, hm, _, hsum⟩ := C65_total Example.debug _ _ _ _ c Example.fragFrames_split.1 Example.fragFrames_split.2
    (.inl Example.team_eq) hc hl
  have e : fragsPerPlayerName Example.debug (Spec.encode Example.fragFrames) = .ok [(chars!"a", -1), (chars!"b", -1)] := by
    decide +kernel
  rw [hm] at e
  cases e
  simpa using hsum.symm

end Mvd

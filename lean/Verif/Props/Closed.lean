import Verif.Props.Open
import Verif.Props.Loss
import Verif.Props.Ambush

/-! C61, C68, C69, C80, C94: scores in demos with anonymous teamkills. Two demos have parts in common whose teamkills are cleared
up before the part ends; the clients are the same. -/

namespace Mvd
open Spec

theorem nearby_closed (more : Bytes) (later b : List Frame) (h : 2 ≤ (later.filter fun f => f.body ≠ []).length) :
    nearbyUpdates more (later ++ b) = nearbyUpdates more later := by
  unfold nearbyUpdates
  rw [List.filter_append, List.take_append_of_le_length h]

theorem charges_closed {u : Bytes → Str} {cs : List Client} {more : List Frame} {b : List (Str × Int)} (hb : Charges u cs more b) :
    ∀ {fs : List Frame} {a : List (Str × Int)}, NoOpenTeamkill u fs → Charges u cs fs a → Charges u cs (fs ++ more) (a ++ b)
  | [], _, _, .nil => hb
  | f :: fs, _, ho, .cons h1 h2 => by
    rw [List.append_assoc]
    refine .cons ?_ (charges_closed hb (open_tail ho) h2)
    rcases open_cases ho (before := []) rfl with hn | hn
    · exact charge_later h1 hn _
    · exact charge_nearby (fun m => (nearby_closed m fs more hn).symm) h1

/-- Scores of whole frames, whatever the charges. -/
theorem whole_frags (g : Env) {fs : List Frame} (hw : ∀ f ∈ fs, f.WF) {cs : List Client} (hc : clients g (Spec.encode fs) = .ok cs)
    {c : List (Str × Int)} (h : Charges g.toUnicode cs fs c) (hl : (Spec.encode fs).length < 2 ^ 31) :
    ∃ m, fragsPerPlayerName g (Spec.encode fs) = .ok m ∧
      ∀ name, m.get name = if name ∈ c.map Prod.fst then some (points c name) else none := by
  have hs := splits_whole hw
  exact C26_frags g _ _ _ _ _ hs.1 hs.2 (.inl hc) h (C26_bound g _ _ _ _ _ hs.1 h hl)

theorem get_points {m : Map Str Int} {c : List (Str × Int)}
    (hm : ∀ name, m.get name = if name ∈ c.map Prod.fst then some (points c name) else none) (name : Str) :
    (m.get name).getD 0 = points c name ∧ ((m.get name).isSome ↔ name ∈ c.map Prod.fst) := by
  rw [hm]
  split
  · rename_i h
    exact ⟨rfl, by simpa using h⟩
  · rename_i h
    rw [points_not_mem h]
    exact ⟨rfl, by simpa using h⟩

/-- C61: a demo with anonymous teamkills that has grown: the scores are the old ones plus the charges for the new frames. -/
theorem C61_frags_closed (g : Env) (fs more : List Frame) (hf : ∀ f ∈ fs, f.WF) (hm : ∀ f ∈ more, f.WF)
    (ho : NoOpenTeamkill g.toUnicode fs) (cs : List Client) (hc : clients g (Spec.encode fs) = .ok cs)
    (hc' : clients g (Spec.encode (fs ++ more)) = .ok cs) (hl : (Spec.encode (fs ++ more)).length < 2 ^ 31)
    (new : List (Str × Int)) (hn : Charges g.toUnicode cs more new) :
    ∃ a c, fragsPerPlayerName g (Spec.encode fs) = .ok a ∧ fragsPerPlayerName g (Spec.encode (fs ++ more)) = .ok c ∧
      ∀ name, ((c.get name).isSome ↔ (a.get name).isSome ∨ name ∈ new.map Prod.fst) ∧
        (c.get name).getD 0 = (a.get name).getD 0 + points new name := by
  obtain ⟨ca, ha, _⟩ := C26_charges g.toUnicode cs fs
  have hlen : (Spec.encode (fs ++ more)).length = (Spec.encode fs).length + (Spec.encode more).length := by simp [Spec.encode]
  obtain ⟨a, ea, ga⟩ := whole_frags g hf hc ha (by omega)
  obtain ⟨c, ec, gc⟩ := whole_frags g (fun f h => (List.mem_append.mp h).elim (hf f) (hm f)) hc' (charges_closed hn ho ha) hl
  refine ⟨a, c, ea, ec, fun name => ?_⟩
  obtain ⟨h1, h2⟩ := get_points ga name
  obtain ⟨h3, h4⟩ := get_points gc name
  rw [h1, h2, h3, h4, points_append, List.map_append, List.mem_append]
  exact ⟨Iff.rfl, rfl⟩

/-- C68: a frame that announces an obituary, in a demo with anonymous teamkills. -/
theorem C68_obituary_closed (g : Env) (a b : List Frame) (f : Frame) (text : Str) (more : Bytes) (o : Obituary) (who : Str)
    (worth : Int) (ha : ∀ x ∈ a, x.WF) (hf : f.WF) (hb : ∀ x ∈ b, x.WF) (ho : NoOpenTeamkill g.toUnicode a)
    (hann : Announces g.toUnicode f.body text more) (hc : Classifies text o) (hw : award o = some (who, worth))
    (cs : List Client) (h1 : clients g (Spec.encode (a ++ b)) = .ok cs) (h2 : clients g (Spec.encode (a ++ f :: b)) = .ok cs)
    (hl : (Spec.encode (a ++ f :: b)).length < 2 ^ 31) :
    ∃ m m', fragsPerPlayerName g (Spec.encode (a ++ b)) = .ok m ∧ fragsPerPlayerName g (Spec.encode (a ++ f :: b)) = .ok m' ∧
      m'.get who = some ((m.get who).getD 0 + worth) ∧ ∀ name, name ≠ who → m'.get name = m.get name := by
  obtain ⟨ca, hca, _⟩ := C26_charges g.toUnicode cs a
  obtain ⟨cb, hcb, _⟩ := C26_charges g.toUnicode cs b
  have hle : (Spec.encode (a ++ b)).length ≤ (Spec.encode (a ++ f :: b)).length := by simp [Spec.encode]
  obtain ⟨m, em, gm⟩ := whole_frags g (fun x h => (List.mem_append.mp h).elim (ha x) (hb x)) h1 (charges_closed hcb ho hca) (by omega)
  obtain ⟨m', em', gm'⟩ := whole_frags g (fun x h => by
    simp only [List.mem_append, List.mem_cons] at h
    rcases h with h | rfl | h
    · exact ha x h
    · exact hf
    · exact hb x h) h2 (charges_closed (.cons (charge_award hann hc hw) hcb) ho hca) hl
  refine ⟨m, m', em, em', ?_, fun name hne => ?_⟩
  · rw [(get_points gm who).1, gm', if_pos (by simp)]
    simp only [Option.toList_some, points_append]
    have one : points [(who, worth)] who = worth := by simp [points]
    rw [one]
    congr 1
    omega
  · have none : points [(who, worth)] name = 0 := by simp [points, Ne.symm hne]
    rw [gm, gm']
    simp only [Option.toList_some, points_append, none, List.map_append, List.mem_append, List.map_cons, List.map_nil,
      List.mem_singleton, hne, false_or, Int.zero_add]

/-- C69: parts of a demo, with their anonymous teamkills, put together in another order: no score changes. -/
theorem C69_frags_closed (g : Env) (parts parts' : List (List Frame)) (hp : parts.Perm parts')
    (hf : ∀ p ∈ parts, ∀ f ∈ p, f.WF) (ho : ∀ p ∈ parts, NoOpenTeamkill g.toUnicode p) (cs : List Client)
    (hc : clients g (Spec.encode parts.flatten) = .ok cs) (hc' : clients g (Spec.encode parts'.flatten) = .ok cs)
    (hl : (Spec.encode parts.flatten).length < 2 ^ 31) :
    ∃ m m', fragsPerPlayerName g (Spec.encode parts.flatten) = .ok m ∧ fragsPerPlayerName g (Spec.encode parts'.flatten) = .ok m' ∧
      ∀ name, m.get name = m'.get name := by
  have key : ∀ (l : List (List Frame)), (∀ p ∈ l, NoOpenTeamkill g.toUnicode p) →
      Charges g.toUnicode cs l.flatten (l.flatMap fun p => (C26_charges g.toUnicode cs p).choose) := by
    intro l
    induction l with
    | nil => exact fun _ => .nil
    | cons p l ih =>
      intro h
      rw [List.flatten_cons, List.flatMap_cons]
      exact charges_closed (ih fun q hq => h q (by simp [hq])) (h p (by simp)) (C26_charges g.toUnicode cs p).choose_spec.1
  have hlen : (Spec.encode parts'.flatten).length = (Spec.encode parts.flatten).length := by
    have := (hp.flatten.flatMap_right Frame.encode).length_eq
    simpa [Spec.encode] using this.symm
  obtain ⟨m, em, gm⟩ := whole_frags g (fun f h => by
    obtain ⟨p, hp, h⟩ := List.mem_flatten.mp h
    exact hf p hp f h) hc (key parts ho) hl
  obtain ⟨m', em', gm'⟩ := whole_frags g (fun f h => by
    obtain ⟨p, hp', h⟩ := List.mem_flatten.mp h
    exact hf p (hp.mem_iff.mpr hp') f h) hc' (key parts' fun p h => ho p (hp.mem_iff.mpr h)) (by omega)
  have hcc := hp.flatMap_right fun p => (C26_charges g.toUnicode cs p).choose
  refine ⟨m, m', em, em', fun name => ?_⟩
  rw [gm, gm', points_perm hcc]
  simp only [(hcc.map Prod.fst).mem_iff]

/-- C94: frames replaced in a demo with anonymous teamkills, none of which is open before them. -/
theorem C94_frags_closed (g : Env) (a b x x' : List Frame) (ha : ∀ f ∈ a, f.WF) (hb : ∀ f ∈ b, f.WF) (hx : ∀ f ∈ x, f.WF)
    (hx' : ∀ f ∈ x', f.WF) (ho : NoOpenTeamkill g.toUnicode a) (cs : List Client)
    (hc : clients g (Spec.encode (a ++ (x ++ b))) = .ok cs) (hc' : clients g (Spec.encode (a ++ (x' ++ b))) = .ok cs)
    (hl : (Spec.encode (a ++ (x ++ b))).length < 2 ^ 31) (hl' : (Spec.encode (a ++ (x' ++ b))).length < 2 ^ 31) :
    ∃ (m m' : Map Str Int) (touched : List Str), fragsPerPlayerName g (Spec.encode (a ++ (x ++ b))) = .ok m ∧
      fragsPerPlayerName g (Spec.encode (a ++ (x' ++ b))) = .ok m' ∧ touched.length ≤ x.length + x'.length ∧
      (∀ name, name ∉ touched → m.get name = m'.get name) ∧
      ∀ name, (m.get name).getD 0 - (m'.get name).getD 0 ≤ x.length + 2 * x'.length ∧
        (m'.get name).getD 0 - (m.get name).getD 0 ≤ 2 * x.length + x'.length := by
  have wf : ∀ {x : List Frame}, (∀ f ∈ x, f.WF) → ∀ f ∈ a ++ (x ++ b), f.WF := by
    intro x hx f hf
    simp only [List.mem_append] at hf
    rcases hf with hf | hf | hf
    · exact ha f hf
    · exact hx f hf
    · exact hb f hf
  obtain ⟨ca, hca, _⟩ := C26_charges g.toUnicode cs a
  obtain ⟨c, h, _⟩ := C26_charges g.toUnicode cs (x ++ b)
  obtain ⟨c', h', _⟩ := C26_charges g.toUnicode cs (x' ++ b)
  obtain ⟨m, em, hm⟩ := whole_frags g (wf hx) hc (charges_closed h ho hca) hl
  obtain ⟨m', em', hm'⟩ := whole_frags g (wf hx') hc' (charges_closed h' ho hca) hl'
  obtain ⟨cx, cb, rfl, hcx, hcb⟩ := charges_split h
  obtain ⟨cx', cb', rfl, hcx', hcb'⟩ := charges_split h'
  cases charges_unique hcb hcb'
  have d := ((differ_refl ca).append ((differ_any (chargesBefore_size hcx) (chargesBefore_size hcx')
    (chargesBefore_length hcx) (chargesBefore_length hcx')).append (differ_refl cb)))
  obtain ⟨t, hlt, h1, h2⟩ := differ_get d hm hm'
  refine ⟨m, m', t, em, em', by omega, h1, fun name => ?_⟩
  have := h2 name
  omega

/-- C80: one frame replaced in a demo with anonymous teamkills, none of which is open before it. -/
theorem C80_frags_closed (g : Env) (a b : List Frame) (f f' : Frame) (ha : ∀ x ∈ a, x.WF) (hb : ∀ x ∈ b, x.WF) (hf : f.WF)
    (hf' : f'.WF) (ho : NoOpenTeamkill g.toUnicode a) (cs : List Client) (hc : clients g (Spec.encode (a ++ f :: b)) = .ok cs)
    (hc' : clients g (Spec.encode (a ++ f' :: b)) = .ok cs)
    (hl : (Spec.encode (a ++ f :: b)).length < 2 ^ 31) (hl' : (Spec.encode (a ++ f' :: b)).length < 2 ^ 31) :
    ∃ m m' who who', fragsPerPlayerName g (Spec.encode (a ++ f :: b)) = .ok m ∧
      fragsPerPlayerName g (Spec.encode (a ++ f' :: b)) = .ok m' ∧
      (∀ name, name ≠ who → name ≠ who' → m.get name = m'.get name) ∧
      ∀ name, |(m.get name).getD 0 - (m'.get name).getD 0| ≤ 3 := by
  obtain ⟨m, m', t, em, em', ht, h1, h2⟩ := C94_frags_closed g a b [f] [f'] ha hb (by simpa using hf) (by simpa using hf') ho cs
    hc hc' hl hl'
  refine ⟨m, m', t.getD 0 [], t.getD 1 [], em, em', fun name n1 n2 => h1 name fun hmem => ?_, fun name => ?_⟩
  · match t, ht with
    | [], _ => cases hmem
    | [p], _ => simp at hmem n1; exact n1 hmem
    | [p, q], _ => simp at hmem n1 n2; rcases hmem with rfl | rfl <;> contradiction
  · have := h2 name
    simp only [List.length_singleton] at this
    rw [abs_le]
    omega

/-- It is enough that every frame that begins with a print is followed by two more frames. -/
theorem closed_of_heads {u : Bytes → Str} {fs : List Frame}
    (key : ∀ k < fs.length, (fs[k]?.bind fun f => f.body.head?) = some 8 → 2 ≤ ((fs.drop (k + 1)).filter fun f => f.body ≠ []).length) :
    NoOpenTeamkill u fs := by
  rintro before x later t m v rfl ⟨p, _, _, _, hb, _⟩ _
  have h8 : x.body.head? = some 8 := by rw [hb]; rfl
  have := key before.length (by simp) (by simpa using h8)
  simpa using this

/-- No teamkill is open after the first six frames of the match with anonymous teamkills. -/
theorem Example.ambush_closed : NoOpenTeamkill Example.debug.toUnicode (Example.ambushFrames.take 6) :=
  closed_of_heads (by decide +kernel)

/-- The hypotheses are met by the match with anonymous teamkills: the frames after the first six are appended, come first, or are
preceded by another obituary, which may be replaced. -/
example : let a := Example.ambushFrames.take 6
    let b := Example.ambushFrames.drop 6
    let f := Example.all (Example.medium bytes!"b suicides\n")
    let f' := Example.all (Example.medium bytes!"c died\n")
    NoOpenTeamkill Example.debug.toUnicode a ∧ (∀ x ∈ a ++ f :: f' :: b, x.WF) ∧
    (∀ d ∈ [a, a ++ b, a ++ f :: b, a ++ f' :: b], clients Example.debug (Spec.encode d) = .ok Example.team) ∧
    (fragsPerPlayerName Example.debug (Spec.encode a) = .ok [(chars!"a", 1), (chars!"b", -1)]) ∧
    (fragsPerPlayerName Example.debug (Spec.encode (a ++ f :: b)) = .ok [(chars!"a", 1), (chars!"b", -3)]) ∧
    fragsPerPlayerName Example.debug (Spec.encode (a ++ f' :: b)) = .ok [(chars!"a", 1), (chars!"b", -1), (chars!"c", -1)] :=
  ⟨Example.ambush_closed, by decide +kernel, by decide +kernel, by decide +kernel, by decide +kernel, by decide +kernel⟩

/-- And those of `C69_frags_closed`: the header, the teamkill with the frames searched, and an obituary change places. -/
example : let parts := [Example.ambushFrames.take 2, (Example.ambushFrames.drop 3).take 3, (Example.ambushFrames.drop 2).take 1]
    (∀ p ∈ parts, NoOpenTeamkill Example.debug.toUnicode p) ∧ (∀ p ∈ parts, ∀ f ∈ p, f.WF) ∧
    parts.Perm [Example.ambushFrames.take 2, (Example.ambushFrames.drop 2).take 1, (Example.ambushFrames.drop 3).take 3] ∧
    parts.flatten ≠ Example.ambushFrames.take 6 ∧
    clients Example.debug (Spec.encode parts.flatten) = .ok Example.team ∧
    fragsPerPlayerName Example.debug (Spec.encode parts.flatten) = .ok [(chars!"b", -1), (chars!"a", 1)] := by
  refine ⟨?_, by decide +kernel, .cons _ (.swap _ _ _), by decide +kernel, by decide +kernel, by decide +kernel⟩
  intro p hp
  simp only [List.mem_cons, List.not_mem_nil, or_false] at hp
  rcases hp with rfl | rfl | rfl
  · exact closed_of_heads (by decide +kernel)
  · exact closed_of_heads (by decide +kernel)
  · have hn : NotAnonymous Example.debug.toUnicode (Example.all (Example.medium bytes!"c was gibbed by a's rocket\n")) :=
      notAnonymous_of_event (p := ⟨1, bytes!"c was gibbed by a's rocket\n"⟩) (more := []) (o := .frag chars!"a" chars!"c") (by decide) rfl
        (by decide) (by decide +kernel) (by decide +kernel) (by simp)
    intro before x later t m v e ha hc
    have hx : x ∈ (Example.ambushFrames.drop 2).take 1 := by rw [e]; simp
    rw [show (Example.ambushFrames.drop 2).take 1 = [Example.all (Example.medium bytes!"c was gibbed by a's rocket\n")] from rfl,
      List.mem_singleton] at hx
    subst hx
    exact absurd hc (hn t m v ha)

end Mvd

import Verif.Props.Growth
import Verif.Props.Size
import Verif.Props.Locality
import Verif.Props.Chats
import Verif.Props.Instances

/-! C94: frames that are lost, repeated or damaged. A run of frames of a demo is replaced by another run; without frames in the
second run they are lost, without frames in the first run there are frames too many. -/

namespace Mvd
open Spec

/-! ### Charges of the first part of a demo -/

/-- The charges for the frames before `later`. -/
inductive ChargesBefore (u : Bytes → Str) (cs : List Client) (later : List Frame) : List Frame → List (Str × Int) → Prop
  | nil : ChargesBefore u cs later [] []
  | cons {f fs c l} : Charge u cs f (fs ++ later) c → ChargesBefore u cs later fs l →
      ChargesBefore u cs later (f :: fs) (c.toList ++ l)

theorem charges_split {u : Bytes → Str} {cs : List Client} {later : List Frame} : ∀ {fs : List Frame} {c : List (Str × Int)},
    Charges u cs (fs ++ later) c → ∃ a b, c = a ++ b ∧ ChargesBefore u cs later fs a ∧ Charges u cs later b
  | [], c, h => ⟨[], c, rfl, .nil, h⟩
  | f :: fs, _, .cons h t => by
    obtain ⟨a, b, rfl, ha, hb⟩ := charges_split (fs := fs) t
    exact ⟨_ ++ a, b, by rw [List.append_assoc], .cons h ha, hb⟩

theorem chargesBefore_length {u : Bytes → Str} {cs : List Client} {later : List Frame} {fs : List Frame} {c : List (Str × Int)}
    (h : ChargesBefore u cs later fs c) : c.length ≤ fs.length := by
  induction h with
  | nil => simp
  | @cons f fs c l _ _ ih => cases c <;> simp <;> omega

theorem chargesBefore_size {u : Bytes → Str} {cs : List Client} {later : List Frame} {fs : List Frame} {c : List (Str × Int)}
    (h : ChargesBefore u cs later fs c) : ∀ e ∈ c, -2 ≤ e.2 ∧ e.2 ≤ 1 := by
  induction h with
  | nil => simp
  | @cons f fs c l hc _ ih =>
    intro e he
    rcases List.mem_append.mp he with he | he
    · rw [Option.mem_toList] at he
      exact charge_size (k := e.1) (n := e.2) (by rw [he] at hc; exact hc)
    · exact ih e he

/-! ### Charges that differ little -/

/-- Apart from `n` players the charges are the same; the points of the first are at most `lo` less and `hi` more. -/
def Differ (n : Nat) (lo hi : Int) (a b : List (Str × Int)) : Prop :=
  ∃ touched : List Str, touched.length ≤ n ∧
    (∀ name, name ∉ touched → (name ∈ a.map Prod.fst ↔ name ∈ b.map Prod.fst) ∧ points a name = points b name) ∧
    ∀ name, -lo ≤ points a name - points b name ∧ points a name - points b name ≤ hi

theorem differ_refl (a : List (Str × Int)) : Differ 0 0 0 a a :=
  ⟨[], Nat.le_refl _, fun _ _ => ⟨Iff.rfl, rfl⟩, fun _ => by omega⟩

theorem Differ.append {n n' : Nat} {lo hi lo' hi' : Int} {a a' b b' : List (Str × Int)} (h : Differ n lo hi a b)
    (h' : Differ n' lo' hi' a' b') : Differ (n + n') (lo + lo') (hi + hi') (a ++ a') (b ++ b') := by
  obtain ⟨t, hl, h1, h2⟩ := h
  obtain ⟨t', hl', h1', h2'⟩ := h'
  refine ⟨t ++ t', by simp; omega, fun name hn => ?_, fun name => ?_⟩
  · rw [List.mem_append, not_or] at hn
    rw [List.map_append, List.map_append, List.mem_append, List.mem_append, points_append, points_append,
      (h1 name hn.1).1, (h1' name hn.2).1, (h1 name hn.1).2, (h1' name hn.2).2]
    exact ⟨Iff.rfl, rfl⟩
  · rw [points_append, points_append]
    have := h2 name
    have := h2' name
    omega

theorem Differ.mono {n n' : Nat} {lo hi lo' hi' : Int} {a b : List (Str × Int)} (h : Differ n lo hi a b) (hn : n ≤ n')
    (hlo : lo ≤ lo') (hhi : hi ≤ hi') : Differ n' lo' hi' a b := by
  obtain ⟨t, hl, h1, h2⟩ := h
  refine ⟨t, Nat.le_trans hl hn, h1, fun name => ?_⟩
  have := h2 name
  omega

theorem points_between {c : List (Str × Int)} (h : ∀ e ∈ c, -2 ≤ e.2 ∧ e.2 ≤ 1) (name : Str) :
    -2 * (c.length : Int) ≤ points c name ∧ points c name ≤ c.length := by
  induction c with
  | nil => simp [points]
  | cons e c ih =>
    have h1 := h e (by simp)
    have h2 := ih fun x hx => h x (by simp [hx])
    rw [points_cons, List.length_cons]
    split <;> push_cast <;> omega

theorem differ_any {a b : List (Str × Int)} (ha : ∀ e ∈ a, -2 ≤ e.2 ∧ e.2 ≤ 1) (hb : ∀ e ∈ b, -2 ≤ e.2 ∧ e.2 ≤ 1) {n n' : Nat}
    (hn : a.length ≤ n) (hn' : b.length ≤ n') : Differ (n + n') (2 * n + n') (n + 2 * n') a b := by
  refine ⟨a.map Prod.fst ++ b.map Prod.fst, by simp; omega, fun name h => ?_, fun name => ?_⟩
  · rw [List.mem_append, not_or] at h
    exact ⟨iff_of_false h.1 h.2, by rw [points_not_mem h.1, points_not_mem h.2]⟩
  · have := points_between ha name
    have := points_between hb name
    omega

theorem nearby_append (more : Bytes) (fs later later' : List Frame) (h : 2 ≤ (fs.filter fun f => f.body ≠ []).length) :
    nearbyUpdates more (fs ++ later) = nearbyUpdates more (fs ++ later') := by
  unfold nearbyUpdates
  rw [List.filter_append, List.filter_append, List.take_append_of_le_length h, List.take_append_of_le_length h]

/-- Only the charge for an anonymous teamkill depends on later frames. -/
theorem charge_two {u : Bytes → Str} {cs : List Client} {f : Frame} {l l' : List Frame} {c c' : Option (Str × Int)}
    (h : Charge u cs f l c) (h' : Charge u cs f l' c') :
    c = c' ∨ f.body ≠ [] ∧ (∀ e ∈ c, e.2 = -1) ∧ ∀ e ∈ c', e.2 = -1 := by
  by_cases hn : NotAnonymous u f
  · exact .inl (charge_unique (charge_later h hn l') h')
  · refine .inr ?_
    unfold NotAnonymous at hn
    push_neg at hn
    obtain ⟨text, more, v, ha, hc⟩ := hn
    have key : ∀ {l c}, Charge u cs f l c → ∀ e ∈ c, e.2 = -1 := by
      intro l c h
      have clash : ∀ {text' more' o}, Announces u f.body text' more' → Classifies text' o → o = .teamkillByUnknown v := by
        intro text' more' o ha' hc'
        obtain ⟨rfl, _⟩ := announces_unique ha ha'
        exact C24_unique _ _ _ hc' hc
      cases h with
      | frag a b => cases clash a b
      | death a b => cases clash a b
      | suicide a b => cases clash a b
      | suicideByWeapon a b => cases clash a b
      | teamkill a b => cases clash a b
      | blamed a b c => simp
      | unsolved a b c => simp
      | nothing h => exact absurd hc (h _ _ _ ha)
    refine ⟨?_, key h, key h'⟩
    obtain ⟨p, _, _, _, e, _⟩ := ha
    rw [e]
    simp [PrintMsg.encode]

theorem differ_two {c c' : Option (Str × Int)} (h : ∀ e ∈ c, e.2 = -1) (h' : ∀ e ∈ c', e.2 = -1) :
    Differ 2 1 1 c.toList c'.toList := by
  refine ⟨c.toList.map Prod.fst ++ c'.toList.map Prod.fst, ?_, fun name hn => ?_, fun name => ?_⟩
  · cases c <;> cases c' <;> simp
  · rw [List.mem_append, not_or] at hn
    exact ⟨iff_of_false hn.1 hn.2, by rw [points_not_mem hn.1, points_not_mem hn.2]⟩
  · have key : ∀ {c : Option (Str × Int)}, (∀ e ∈ c, e.2 = -1) → -1 ≤ points c.toList name ∧ points c.toList name ≤ 0 := by
      intro c h
      cases c with
      | none => simp [points]
      | some e =>
        have := h e rfl
        rw [Option.toList_some, points_cons, this]
        split <;> simp [points]
    have := key h
    have := key h'
    omega

/-- What comes later matters to two frames at most. -/
theorem chargesBefore_differ {u : Bytes → Str} {cs : List Client} {later later' : List Frame} :
    ∀ {fs : List Frame} {c c' : List (Str × Int)}, ChargesBefore u cs later fs c → ChargesBefore u cs later' fs c' →
    Differ (2 * min 2 (fs.filter fun f => f.body ≠ []).length) (min 2 (fs.filter fun f => f.body ≠ []).length : Nat)
      (min 2 (fs.filter fun f => f.body ≠ []).length : Nat) c c'
  | [], _, _, .nil, .nil => by simpa using differ_refl []
  | f :: fs, _, _, .cons (c := c) h t, .cons (c := c') h' t' => by
    have ih := chargesBefore_differ t t'
    by_cases h2 : 2 ≤ (fs.filter fun f => f.body ≠ []).length
    · have e : c = c' := charge_unique (charge_nearby (fun more => nearby_append more fs later later' h2) h) h'
      subst e
      refine ((differ_refl c.toList).append ih).mono ?_ ?_ ?_ <;> (rw [List.filter_cons]; split <;>
        try simp only [List.length_cons]) <;> omega
    · rcases charge_two h h' with rfl | ⟨hb, h1, h1'⟩
      · refine ((differ_refl c.toList).append ih).mono ?_ ?_ ?_ <;> (rw [List.filter_cons]; split <;>
          try simp only [List.length_cons]) <;> omega
      · rw [List.filter_cons_of_pos (by simpa using hb), List.length_cons]
        refine ((differ_two h1 h1').append ih).mono ?_ ?_ ?_ <;> omega

theorem chargesBefore_named {u : Bytes → Str} {cs : List Client} {later later' : List Frame} :
    ∀ {fs : List Frame} {c c' : List (Str × Int)}, (∀ f ∈ fs, NotAnonymous u f) → ChargesBefore u cs later fs c →
    ChargesBefore u cs later' fs c' → c = c'
  | [], _, _, _, .nil, .nil => rfl
  | f :: fs, _, _, hn, .cons h t, .cons h' t' => by
    rw [charge_unique (charge_later h (hn f (by simp)) _) h', chargesBefore_named (fun x hx => hn x (by simp [hx])) t t']

/-! ### Scores -/

theorem differ_get {n : Nat} {lo hi : Int} {c c' : List (Str × Int)} (h : Differ n lo hi c c') {m m' : Map Str Int}
    (hm : ∀ name, m.get name = if name ∈ c.map Prod.fst then some (points c name) else none)
    (hm' : ∀ name, m'.get name = if name ∈ c'.map Prod.fst then some (points c' name) else none) :
    ∃ touched : List Str, touched.length ≤ n ∧ (∀ name, name ∉ touched → m.get name = m'.get name) ∧
      ∀ name, -lo ≤ (m.get name).getD 0 - (m'.get name).getD 0 ∧ (m.get name).getD 0 - (m'.get name).getD 0 ≤ hi := by
  obtain ⟨t, hl, h1, h2⟩ := h
  have key : ∀ {m : Map Str Int} {c : List (Str × Int)},
      (∀ name, m.get name = if name ∈ c.map Prod.fst then some (points c name) else none) →
      ∀ name, (m.get name).getD 0 = points c name := by
    intro m c hm name
    rw [hm]
    split
    · rfl
    · rename_i hn
      rw [points_not_mem hn]
      rfl
  refine ⟨t, hl, fun name hn => ?_, fun name => ?_⟩
  · rw [hm, hm', (h1 name hn).2]
    simp only [(h1 name hn).1]
  · rw [key hm, key hm']
    exact h2 name

/-- C94: the scores. With `k` frames replaced by `k'` frames at most `k + k' + 4` players have another score, and a player has
at most `k + 2 k' + 2` points more and `2 k + k' + 2` less in the first demo. The clients are the same. -/
theorem C94_frags (g : Env) (a b x x' : List Frame) (ha : ∀ f ∈ a, f.WF) (hb : ∀ f ∈ b, f.WF) (hx : ∀ f ∈ x, f.WF)
    (hx' : ∀ f ∈ x', f.WF) (cs : List Client) (hc : clients g (Spec.encode (a ++ (x ++ b))) = .ok cs)
    (hc' : clients g (Spec.encode (a ++ (x' ++ b))) = .ok cs)
    (hl : (Spec.encode (a ++ (x ++ b))).length < 2 ^ 31) (hl' : (Spec.encode (a ++ (x' ++ b))).length < 2 ^ 31) :
    ∃ (m m' : Map Str Int) (touched : List Str), fragsPerPlayerName g (Spec.encode (a ++ (x ++ b))) = .ok m ∧
      fragsPerPlayerName g (Spec.encode (a ++ (x' ++ b))) = .ok m' ∧ touched.length ≤ x.length + x'.length + 4 ∧
      (∀ name, name ∉ touched → m.get name = m'.get name) ∧
      ∀ name, (m.get name).getD 0 - (m'.get name).getD 0 ≤ x.length + 2 * x'.length + 2 ∧
        (m'.get name).getD 0 - (m.get name).getD 0 ≤ 2 * x.length + x'.length + 2 := by
  have wf : ∀ {x : List Frame}, (∀ f ∈ x, f.WF) → ∀ f ∈ a ++ (x ++ b), f.WF := by
    intro x hx f hf
    simp only [List.mem_append] at hf
    rcases hf with hf | hf | hf
    · exact ha f hf
    · exact hx f hf
    · exact hb f hf
  have hs := splits_whole (wf hx)
  have hs' := splits_whole (wf hx')
  obtain ⟨c, h, _⟩ := C26_charges g.toUnicode cs (a ++ (x ++ b))
  obtain ⟨c', h', _⟩ := C26_charges g.toUnicode cs (a ++ (x' ++ b))
  obtain ⟨m, em, hm⟩ := C26_frags g _ _ _ _ _ hs.1 hs.2 (.inl hc) h (C26_bound g _ _ _ _ _ hs.1 h hl)
  obtain ⟨m', em', hm'⟩ := C26_frags g _ _ _ _ _ hs'.1 hs'.2 (.inl hc') h' (C26_bound g _ _ _ _ _ hs'.1 h' hl')
  obtain ⟨ca, cr, rfl, hca, hcr⟩ := charges_split h
  obtain ⟨cx, cb, rfl, hcx, hcb⟩ := charges_split hcr
  obtain ⟨ca', cr', rfl, hca', hcr'⟩ := charges_split h'
  obtain ⟨cx', cb', rfl, hcx', hcb'⟩ := charges_split hcr'
  cases charges_unique hcb hcb'
  have d := ((chargesBefore_differ hca hca').append ((differ_any (chargesBefore_size hcx) (chargesBefore_size hcx')
    (chargesBefore_length hcx) (chargesBefore_length hcx')).append (differ_refl cb)))
  obtain ⟨t, hlt, h1, h2⟩ := differ_get d hm hm'
  refine ⟨m, m', t, em, em', by omega, h1, fun name => ?_⟩
  have := h2 name
  omega

/-- C94: the scores when no killer is unknown. Then at most `k + k'` players are concerned. -/
theorem C94_frags_named (g : Env) (a b x x' : List Frame) (ha : ∀ f ∈ a, f.WF) (hb : ∀ f ∈ b, f.WF) (hx : ∀ f ∈ x, f.WF)
    (hx' : ∀ f ∈ x', f.WF) (hn : ∀ f ∈ a ++ (x ++ (x' ++ b)), NotAnonymous g.toUnicode f)
    (hl : (Spec.encode (a ++ (x ++ b))).length < 2 ^ 31) (hl' : (Spec.encode (a ++ (x' ++ b))).length < 2 ^ 31) :
    ∃ (m m' : Map Str Int) (touched : List Str), fragsPerPlayerName g (Spec.encode (a ++ (x ++ b))) = .ok m ∧
      fragsPerPlayerName g (Spec.encode (a ++ (x' ++ b))) = .ok m' ∧ touched.length ≤ x.length + x'.length ∧
      (∀ name, name ∉ touched → m.get name = m'.get name) ∧
      ∀ name, (m.get name).getD 0 - (m'.get name).getD 0 ≤ x.length + 2 * x'.length ∧
        (m'.get name).getD 0 - (m.get name).getD 0 ≤ 2 * x.length + x'.length := by
  have wf : ∀ {x : List Frame}, (∀ f ∈ x, f.WF) → ∀ f ∈ a ++ (x ++ b), f.WF := by
    intro x hx f hf
    simp only [List.mem_append] at hf
    rcases hf with hf | hf | hf
    · exact ha f hf
    · exact hx f hf
    · exact hb f hf
  have named : ∀ {y : List Frame}, (∀ f ∈ y, NotAnonymous g.toUnicode f) →
      ∀ before f later, y = before ++ f :: later → ¬ NeedsClients g.toUnicode f later := by
    rintro y hy before f later e ⟨t, more, v, h1, h2, _⟩
    exact hy f (by rw [e]; simp) t more v h1 h2
  have hs := splits_whole (wf hx)
  have hs' := splits_whole (wf hx')
  obtain ⟨c, h, _⟩ := C26_charges g.toUnicode [] (a ++ (x ++ b))
  obtain ⟨c', h', _⟩ := C26_charges g.toUnicode [] (a ++ (x' ++ b))
  obtain ⟨m, em, hm⟩ := C26_frags g _ _ _ _ _ hs.1 hs.2 (.inr (.inr (named fun f hf => hn f (by
    simp only [List.mem_append] at hf ⊢
    rcases hf with hf | hf | hf <;> simp [hf])))) h (C26_bound g _ _ _ _ _ hs.1 h hl)
  obtain ⟨m', em', hm'⟩ := C26_frags g _ _ _ _ _ hs'.1 hs'.2 (.inr (.inr (named fun f hf => hn f (by
    simp only [List.mem_append] at hf ⊢
    rcases hf with hf | hf | hf <;> simp [hf])))) h' (C26_bound g _ _ _ _ _ hs'.1 h' hl')
  obtain ⟨ca, cr, rfl, hca, hcr⟩ := charges_split h
  obtain ⟨cx, cb, rfl, hcx, hcb⟩ := charges_split hcr
  obtain ⟨ca', cr', rfl, hca', hcr'⟩ := charges_split h'
  obtain ⟨cx', cb', rfl, hcx', hcb'⟩ := charges_split hcr'
  cases charges_unique hcb hcb'
  cases chargesBefore_named (fun f hf => hn f (by simp [hf])) hca hca'
  have d := ((differ_refl ca).append ((differ_any (chargesBefore_size hcx) (chargesBefore_size hcx')
    (chargesBefore_length hcx) (chargesBefore_length hcx')).append (differ_refl cb)))
  obtain ⟨t, hlt, h1, h2⟩ := differ_get d hm hm'
  refine ⟨m, m', t, em, em', by omega, h1, fun name => ?_⟩
  have := h2 name
  omega

/-! ### Flag events, pings, durations -/

/-- C94: the flag counters. They differ by the flag messages in the replaced frames, and by nothing else. -/
theorem C94_flags (g : Env) (a b x x' : List Frame) (ha : ∀ f ∈ a, f.WF) (hb : ∀ f ∈ b, f.WF) (hx : ∀ f ∈ x, f.WF)
    (hx' : ∀ f ∈ x', f.WF) (ta tb tx tx' : List (List Bytes)) (hta : List.Forall₂ (FlagTexts g.toUnicode) a ta)
    (htb : List.Forall₂ (FlagTexts g.toUnicode) b tb) (htx : List.Forall₂ (FlagTexts g.toUnicode) x tx)
    (htx' : List.Forall₂ (FlagTexts g.toUnicode) x' tx')
    (hlt : ∀ player kind, flagCount g.toUnicode (ta ++ (tx ++ tb)).flatten player kind < 256)
    (hlt' : ∀ player kind, flagCount g.toUnicode (ta ++ (tx' ++ tb)).flatten player kind < 256) :
    ∃ m m' : Map Str PlayerFlagEvents, flagEventsPerPlayerName g (Spec.encode (a ++ (x ++ b))) = .ok m ∧
      flagEventsPerPlayerName g (Spec.encode (a ++ (x' ++ b))) = .ok m' ∧
      ∀ player kind, counter ((m.get player).getD {}) kind + flagCount g.toUnicode tx'.flatten player kind =
        counter ((m'.get player).getD {}) kind + flagCount g.toUnicode tx.flatten player kind := by
  have key : ∀ (x : List Frame) (tx : List (List Bytes)), (∀ f ∈ x, f.WF) → List.Forall₂ (FlagTexts g.toUnicode) x tx →
      (∀ player kind, flagCount g.toUnicode (ta ++ (tx ++ tb)).flatten player kind < 256) →
      ∃ m : Map Str PlayerFlagEvents, flagEventsPerPlayerName g (Spec.encode (a ++ (x ++ b))) = .ok m ∧
        ∀ player kind, counter ((m.get player).getD {}) kind = flagCount g.toUnicode ta.flatten player kind +
          (flagCount g.toUnicode tx.flatten player kind + flagCount g.toUnicode tb.flatten player kind) := by
    intro x tx hx htx hlt
    have hs := splits_whole (fs := a ++ (x ++ b)) (by
      intro f hf
      simp only [List.mem_append] at hf
      rcases hf with hf | hf | hf
      · exact ha f hf
      · exact hx f hf
      · exact hb f hf)
    obtain ⟨m, em, h1, h2⟩ := C30_counts g _ _ _ _ hs.1 hs.2 (List.rel_append hta (List.rel_append htx htb)) hlt
    refine ⟨m, em, fun player kind => ?_⟩
    rw [← flagCount_append, ← flagCount_append, ← List.flatten_append, ← List.flatten_append]
    by_cases ho : ∃ t ∈ (ta ++ (tx ++ tb)).flatten, ∃ kind, ClassifiesFlag (g.toUnicode t) kind player
    · rw [h1 player ho]
      cases kind <;> rfl
    · rw [h2 player ho]
      have : flagCount g.toUnicode (ta ++ (tx ++ tb)).flatten player kind = 0 := by
        unfold flagCount
        rw [List.length_eq_zero_iff, List.filter_eq_nil_iff]
        intro t ht hc
        exact ho ⟨t, ht, kind, by simpa using hc⟩
      rw [this]
      cases kind <;> rfl
  obtain ⟨m, em, h⟩ := key x tx hx htx hlt
  obtain ⟨m', em', h'⟩ := key x' tx' hx' htx' hlt'
  refine ⟨m, m', em, em', fun player kind => ?_⟩
  rw [h, h']
  omega

open Classical in
/-- C94: the pings do not differ if eight frames with pings come before the replaced frames. -/
theorem C94_pings (g : Env) (a b x x' : List Frame) (ha : ∀ f ∈ a, f.WF) (hb : ∀ f ∈ b, f.WF) (hx : ∀ f ∈ x, f.WF)
    (hx' : ∀ f ∈ x', f.WF) (h8 : 8 ≤ (a.filter fun f => decide (¬ NoPing f.body)).length) :
    pingPerPlayerNumber g (Spec.encode (a ++ (x ++ b))) = pingPerPlayerNumber g (Spec.encode (a ++ (x' ++ b))) := by
  have wf : ∀ {x : List Frame}, (∀ f ∈ x, f.WF) → ∀ f ∈ a ++ (x ++ b), f.WF := by
    intro x hx f hf
    simp only [List.mem_append] at hf
    rcases hf with hf | hf | hf
    · exact ha f hf
    · exact hx f hf
    · exact hb f hf
  have hs := splits_whole (wf hx)
  have hs' := splits_whole (wf hx')
  refine C67_window g _ _ _ _ _ _ hs.1 hs.2 hs'.1 hs'.2 ?_
  rw [List.filter_append (l₁ := a), List.filter_append (l₁ := a), List.take_append_of_le_length h8,
    List.take_append_of_le_length h8]

/-- C94: the duration of a demo whose end-of-match print comes after the replaced frames. It differs by the time of these
frames. -/
theorem C94_duration (g : Env) (a b x x' : List Frame) (ha : ∀ f ∈ a, f.WF) (hb : ∀ f ∈ b, f.WF) (hx : ∀ f ∈ x, f.WF)
    (hx' : ∀ f ∈ x', f.WF) (o : Nat) (ho : LastAt matchOver (Spec.encode b) o)
    (hms : ((a ++ (x ++ b)).map fun f => f.duration.toNat).sum < 2 ^ 32)
    (hms' : ((a ++ (x' ++ b)).map fun f => f.duration.toNat).sum < 2 ^ 32) :
    ∃ ms ns ns', demoDuration g (Spec.encode (a ++ (x ++ b))) = .ok ns ∧
      demoDuration g (Spec.encode (a ++ (x' ++ b))) = .ok ns' ∧
      Converted (ms + (x.map fun f => f.duration.toNat).sum) ns ∧ Converted (ms + (x'.map fun f => f.duration.toNat).sum) ns' := by
  have key : ∀ x : List Frame, (∀ f ∈ x, f.WF) → ((a ++ (x ++ b)).map fun f => f.duration.toNat).sum < 2 ^ 32 →
      ∃ ns, demoDuration g (Spec.encode (a ++ (x ++ b))) = .ok ns ∧
        Converted ((a.map fun f => f.duration.toNat).sum + msBefore o b + (x.map fun f => f.duration.toNat).sum) ns := by
    intro x hx hms
    have hs := splits_whole (fs := a ++ (x ++ b)) (by
      intro f hf
      simp only [List.mem_append] at hf
      rcases hf with hf | hf | hf
      · exact ha f hf
      · exact hx f hf
      · exact hb f hf)
    have he : Spec.encode (a ++ (x ++ b)) = Spec.encode (a ++ x) ++ Spec.encode b := by simp [Spec.encode]
    have hlast : LastAt matchOver (Spec.encode (a ++ (x ++ b))) ((Spec.encode (a ++ x)).length + o) := by
      rw [he]
      exact lastAt_prepend ho
    have hb4 : msBefore ((Spec.encode (a ++ x)).length + o) (a ++ (x ++ b)) =
        (a.map fun f => f.duration.toNat).sum + msBefore o b + (x.map fun f => f.duration.toNat).sum := by
      rw [← List.append_assoc, ← msFrom_zero, msFrom_append _ _ _ _ (by omega), Nat.add_comm (Spec.encode (a ++ x)).length o,
        msFrom_shift, msFrom_zero, List.map_append, List.sum_append]
      omega
    have hle := msBefore_le ((Spec.encode (a ++ x)).length + o) (a ++ (x ++ b))
    refine ⟨_, demo_ms g _ _ _ _ hs.1 (.inl hlast) (.inl hs.2) (by omega), ?_⟩
    rw [← hb4]
    exact (C36_conversion _ _).mpr rfl
  obtain ⟨ns, h1, h2⟩ := key x hx hms
  obtain ⟨ns', h1', h2'⟩ := key x' hx' hms'
  exact ⟨_, ns, ns', h1, h1', h2, h2'⟩

/-! ### Clients and match stats -/

/-- C94: the clients do not differ if the replaced bytes come after the client strings. -/
theorem C94_clients (g : Env) (a x x' : Bytes) (o : Nat) (hs : FirstAt spawnCommand a o) (hl : o + 13056 ≤ a.length) :
    clients g (a ++ x) = clients g (a ++ x') ∧ playerNames g (a ++ x) = playerNames g (a ++ x') ∧
    teamNames g (a ++ x) = teamNames g (a ++ x') := by
  have h := C63_clients g a x o hs hl
  have h' := C63_clients g a x' o hs hl
  exact ⟨h.2.1.trans h'.2.1.symm, h.2.2.1.trans h'.2.2.1.symm, h.2.2.2.2.1.trans h'.2.2.2.2.1.symm⟩

/-- C94: match stats at the end of a demo are read whatever comes before, and so are the server, the players and the teams if
the stats can be parsed. -/
theorem C94_stats (g : Env) (a a' b : Bytes) (m : Nat) (hm : LastAt statsMarker b m) (h18 : 18 ≤ m)
    (hl : (a ++ b).length < 2 ^ 63) (hl' : (a' ++ b).length < 2 ^ 63) :
    ktxstatsString g (a ++ b) = ktxstatsString g (a' ++ b) ∧ server g (a ++ b) = server g (a' ++ b) ∧
    ((∃ stats, ktxstatsV3 g (a ++ b) = .ok stats) →
      players g (a ++ b) = players g (a' ++ b) ∧ teams g (a ++ b) = teams g (a' ++ b)) := by
  have key : ktxstatsString g (a ++ b) = ktxstatsString g (a' ++ b) := by
    have hlim : markerLimit g.checks ≤ 18 := by unfold markerLimit; split <;> omega
    obtain ⟨r, hr⟩ := C41_reads g.checks (b.drop (m - 8))
    have hd : ∀ a : Bytes, ReadsBlocks g.checks ((a ++ b).drop (a.length + m - 8)) r := by
      intro a
      rw [show a.length + m - 8 = a.length + (m - 8) by omega, List.drop_length_add_append]
      exact hr
    obtain ⟨p1, p2, p3⟩ := C41_outcome g _ hl _ (lastAt_prepend hm) (by omega) r (hd a)
    obtain ⟨q1, q2, q3⟩ := C41_outcome g _ hl' _ (lastAt_prepend hm) (by omega) r (hd a')
    cases r with
    | none => rw [p1 rfl, q1 rfl]
    | some content =>
      by_cases hu : ∃ s, utf8 s = content
      · obtain ⟨s, rfl⟩ := hu
        rw [p2 s rfl, q2 s rfl]
      · rw [p3 content rfl hu, q3 content rfl hu]
  have key' : ktxstatsV3 g (a ++ b) = ktxstatsV3 g (a' ++ b) := by
    unfold ktxstatsV3
    rw [key]
  refine ⟨key, by unfold server; rw [key'], fun ⟨stats, hst⟩ => ?_⟩
  have hp : players g (a ++ b) = players g (a' ++ b) := by
    rw [C43_from_stats g _ stats hst, C43_from_stats g _ stats (key' ▸ hst)]
  exact ⟨hp, by unfold teams; rw [hp]⟩

namespace Example

/-- Two anonymous teamkills, some frames, and the score update of player 1. -/
def lossy (x : List Frame) : List Frame :=
  [teamFrame, all (medium bytes!"a was telefragged by his teammate\n"), all (medium bytes!"a was telefragged by his teammate\n")] ++
    (x ++ [all [14, 1, 1, 0]])

end Example

/-- C94, witness: the bounds are reached. Two frames too many take two charges away from a player and give two frags: four
points. -/
theorem C94_witness :
    fragsPerPlayerName Example.debug (Spec.encode (Example.lossy [])) = .ok [(chars!"b", -2)] ∧
    fragsPerPlayerName Example.debug (Spec.encode (Example.lossy [Example.all (Example.medium bytes!"c was gibbed by b's rocket\n"),
      Example.all (Example.medium bytes!"c was gibbed by b's rocket\n")])) = .ok [(chars!"b", 2)] := by
  decide +kernel

/-- The hypotheses of `C94_frags` are met: the clients are the same. -/
example : clients Example.debug (Spec.encode (Example.lossy [])) = .ok Example.team ∧
    clients Example.debug (Spec.encode (Example.lossy [Example.all (Example.medium bytes!"c was gibbed by b's rocket\n")])) =
      .ok Example.team ∧ ∀ f ∈ Example.lossy [Example.all (Example.medium bytes!"c was gibbed by b's rocket\n")], f.WF := by
  decide +kernel

/-- Those of `C94_duration`, with two frames lost before the end of the match. -/
example : LastAt matchOver (Spec.encode [⟨2, 6, [], [8, 2] ++ matchOver ++ [0]⟩, ⟨50, 6, [], standby⟩]) 8 ∧
    demoDuration Example.debug (Spec.encode ([Example.pad 200] ++ ([Example.all [7], Example.all [7]] ++
      [⟨2, 6, [], [8, 2] ++ matchOver ++ [0]⟩, ⟨50, 6, [], standby⟩]))) = .ok (msToDuration 204) ∧
    demoDuration Example.debug (Spec.encode ([Example.pad 200] ++ ([] ++
      [⟨2, 6, [], [8, 2] ++ matchOver ++ [0]⟩, ⟨50, 6, [], standby⟩]))) = .ok (msToDuration 202) :=
  ⟨rfind_eq_some_iff.mp (by decide +kernel), by decide +kernel, by decide +kernel⟩

/-- Those of `C94_flags`: frames without flag messages, and one with a pickup. -/
example : List.Forall₂ (FlagTexts Example.debug.toUnicode) (Example.pickups 3) (List.replicate 3 [bytes!"b" ++ Example.gotFlag]) ∧
    List.Forall₂ (FlagTexts Example.debug.toUnicode) (Example.slow 2) [[], []] :=
  ⟨Example.pickups_texts 3, .cons (.inr ⟨by decide +kernel, rfl⟩) (.cons (.inr ⟨by decide +kernel, rfl⟩) .nil)⟩

/-- Those of `C94_pings`: eight frames with pings. -/
example : ∀ f ∈ Example.slow 8, ¬ NoPing f.body := by
  intro f hf h
  rw [(List.mem_replicate.mp hf).2] at h
  exact h _ _ _ _ _ rfl

/-- Those of `C94_clients` and `C94_stats`. -/
example : FirstAt spawnCommand ([7] ++ spawnCommand ++ List.replicate 20000 7) 1 ∧
    1 + 13056 ≤ ([7] ++ spawnCommand ++ List.replicate 20000 7 : Bytes).length := by
  refine ⟨find_eq_some_iff.mp rfl, ?_⟩
  rw [List.length_append, List.length_replicate]
  omega

example : LastAt statsMarker (Example.statsWith bytes!"{\"version\": 3}") 1324 ∧
    ktxstatsV3 Example.debug (List.replicate 100 3 ++ Example.statsWith bytes!"{\"version\": 3}") =
      .ok { hostname := chars!"host", ip := chars!"1.2.3.4", port := 27500, players := [] } :=
  ⟨rfind_eq_some_iff.mp (by decide +kernel), by decide +kernel⟩

end Mvd

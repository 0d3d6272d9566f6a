import Verif.Lemmas.Frags
import Verif.Props.Events

/-! The second loop of `frags_per_player_name`. -/

namespace Mvd
open Spec

theorem charge_exists (u : Bytes → Str) (cs : List Client) (f : Frame) (later : List Frame) :
    ∃ c, Charge u cs f later c := by
  by_cases h : ∃ text more o, Announces u f.body text more ∧ Classifies text o
  · obtain ⟨text, more, o, ha, hc⟩ := h
    cases o with
    | death p => exact ⟨_, .death ha hc⟩
    | suicide p => exact ⟨_, .suicide ha hc⟩
    | suicideByWeapon p => exact ⟨_, .suicideByWeapon ha hc⟩
    | frag k v => exact ⟨_, .frag ha hc⟩
    | teamkill k => exact ⟨_, .teamkill ha hc⟩
    | teamkillByUnknown v =>
      by_cases hb : ∃ k, Blamed cs (nearbyUpdates more later) v k
      · obtain ⟨k, hb⟩ := hb
        exact ⟨_, .blamed ha hc hb⟩
      · exact ⟨_, .unsolved ha hc fun k hk => hb ⟨k, hk⟩⟩
  · exact ⟨_, .nothing fun text more o ha hc => h ⟨text, more, o, ha, hc⟩⟩

theorem charges_exists (u : Bytes → Str) (cs : List Client) : ∀ fs, ∃ c, Charges u cs fs c
  | [] => ⟨_, .nil⟩
  | f :: fs => by
    obtain ⟨c, hc⟩ := charge_exists u cs f fs
    obtain ⟨l, hl⟩ := charges_exists u cs fs
    exact ⟨_, .cons hc hl⟩

theorem charge_unique {u : Bytes → Str} {cs : List Client} {f : Frame} {later : List Frame} {c d : Option (Str × Int)}
    (h : Charge u cs f later c) (h' : Charge u cs f later d) : c = d := by
  have key : ∀ {text more o text' more' o'}, Announces u f.body text more → Classifies text o →
      Announces u f.body text' more' → Classifies text' o' → more = more' ∧ o = o' := by
    intro text more o text' more' o' a c a' c'
    obtain ⟨rfl, rfl⟩ := announces_unique a a'
    exact ⟨rfl, C24_unique _ _ _ c c'⟩
  have blamed_unique : ∀ {n v k k'}, Blamed cs n v k → Blamed cs n v k' → k = k' := by
    intro n v k k' hk hk'
    rw [← blame_iff] at hk hk'
    rw [hk] at hk'
    simpa using hk'
  cases h with
  | nothing hn =>
    cases h' with
    | nothing _ => rfl
    | unsolved a c _ => exact absurd c (hn _ _ _ a)
    | frag a c => exact absurd c (hn _ _ _ a)
    | death a c => exact absurd c (hn _ _ _ a)
    | suicide a c => exact absurd c (hn _ _ _ a)
    | suicideByWeapon a c => exact absurd c (hn _ _ _ a)
    | teamkill a c => exact absurd c (hn _ _ _ a)
    | blamed a c _ => exact absurd c (hn _ _ _ a)
  | unsolved a c hb =>
    cases h' with
    | nothing hn => rfl
    | unsolved a' c' _ => rfl
    | blamed a' c' hb' =>
      obtain ⟨rfl, e⟩ := key a c a' c'
      cases e
      exact absurd hb' (hb _)
    | frag a' c' => exact absurd (key a c a' c').2 (by simp)
    | death a' c' => exact absurd (key a c a' c').2 (by simp)
    | suicide a' c' => exact absurd (key a c a' c').2 (by simp)
    | suicideByWeapon a' c' => exact absurd (key a c a' c').2 (by simp)
    | teamkill a' c' => exact absurd (key a c a' c').2 (by simp)
  | blamed a c hb =>
    cases h' with
    | nothing hn => exact absurd c (hn _ _ _ a)
    | unsolved a' c' hb' =>
      obtain ⟨rfl, e⟩ := key a c a' c'
      cases e
      exact absurd hb (hb' _)
    | blamed a' c' hb' =>
      obtain ⟨rfl, e⟩ := key a c a' c'
      cases e
      rw [blamed_unique hb hb']
    | frag a' c' => exact absurd (key a c a' c').2 (by simp)
    | death a' c' => exact absurd (key a c a' c').2 (by simp)
    | suicide a' c' => exact absurd (key a c a' c').2 (by simp)
    | suicideByWeapon a' c' => exact absurd (key a c a' c').2 (by simp)
    | teamkill a' c' => exact absurd (key a c a' c').2 (by simp)
  | frag a c | death a c | suicide a c | suicideByWeapon a c | teamkill a c =>
    cases h' with
    | nothing hn => exact absurd c (hn _ _ _ a)
    | unsolved a' c' hb' => exact absurd (key a c a' c').2 (by simp)
    | blamed a' c' hb' => exact absurd (key a c a' c').2 (by simp)
    | frag a' c' | death a' c' | suicide a' c' | suicideByWeapon a' c' | teamkill a' c' =>
      have := (key a c a' c').2
      cases this <;> rfl

theorem charges_unique {u : Bytes → Str} {cs : List Client} : ∀ {fs : List Frame} {c d : List (Str × Int)},
    Charges u cs fs c → Charges u cs fs d → c = d
  | [], _, _, .nil, .nil => rfl
  | _ :: _, _, _, .cons h1 h2, .cons h1' h2' => by rw [charge_unique h1 h1', charges_unique h2 h2']

theorem charge_size {u : Bytes → Str} {cs : List Client} {f : Frame} {later : List Frame} {k : Str} {n : Int}
    (h : Charge u cs f later (some (k, n))) : -2 ≤ n ∧ n ≤ 1 := by
  cases h <;> omega

theorem charges_size {u : Bytes → Str} {cs : List Client} : ∀ {fs : List Frame} {c : List (Str × Int)},
    Charges u cs fs c → ∀ e ∈ c, -2 ≤ e.2 ∧ e.2 ≤ 1
  | [], _, .nil => by simp
  | _ :: _, _, .cons (c := c) h1 h2 => by
    intro e he
    rw [List.mem_append] at he
    rcases he with he | he
    · cases c with
      | none => simp at he
      | some c =>
        simp only [Option.toList_some, List.mem_cons, List.not_mem_nil, or_false] at he
        subst he
        exact charge_size (k := e.1) h1
    · exact charges_size h2 e he

/-! ### Applying the charges -/

/-- One charge. -/
def applyCharge (g : Env) (m : Map Str Int) (c : Str × Int) : R (Map Str Int) :=
  m.update c.1 0 fun n => addI32 g.checks n c.2

theorem points_cons (c : Str × Int) (l : List (Str × Int)) (name : Str) :
    points (c :: l) name = (if c.1 = name then c.2 else 0) + points l name := by
  unfold points
  by_cases h : c.1 = name
  · simp [h]
  · simp [h]

theorem applyCharges_get (g : Env) : ∀ (l : List (Str × Int)) (m : Map Str Int) (B : Nat),
    (∀ e ∈ l, -2 ≤ e.2 ∧ e.2 ≤ 1) → (∀ k n, m.get k = some n → -(B : Int) ≤ n ∧ n ≤ B) → B + 2 * l.length < 2 ^ 31 →
    ∃ m', forR (applyCharge g) m l = .ok m' ∧
      ∀ name, m'.get name =
        if name ∈ l.map Prod.fst then some ((m.get name).getD 0 + points l name) else m.get name
  | [], m, B, _, _, _ => ⟨m, rfl, by simp⟩
  | c :: l, m, B, hl, hm, hB => by
    have hB' : B + 2 * (l.length + 1) < 2 ^ 31 := by simpa using hB
    have hold : -(B : Int) ≤ (m.get c.1).getD 0 ∧ (m.get c.1).getD 0 ≤ B := by
      cases h : m.get c.1 with
      | none => simp
      | some n => simpa using hm _ _ h
    have hc := hl c (by simp)
    have hstep : applyCharge g m c = .ok (m.set c.1 ((m.get c.1).getD 0 + c.2)) := by
      unfold applyCharge Map.update addI32
      dsimp only
      rw [if_pos (by omega)]
      rfl
    obtain ⟨m', h1, h2⟩ := applyCharges_get g l (m.set c.1 ((m.get c.1).getD 0 + c.2)) (B + 2)
      (fun e he => hl e (by simp [he])) (by
        intro k n hk
        rw [Map.get_set] at hk
        split at hk
        · simp only [Option.some.injEq] at hk
          omega
        · have := hm _ _ hk
          omega) (by omega)
    refine ⟨m', by simp only [forR, hstep, R.bind]; exact h1, ?_⟩
    intro name
    rw [h2, points_cons, Map.get_set]
    by_cases hn : c.1 = name
    · subst hn
      by_cases hl' : c.1 ∈ l.map Prod.fst
      · rw [if_pos hl']
        simp
        omega
      · rw [if_neg hl']
        have : points l c.1 = 0 := by
          unfold points
          rw [List.filter_eq_nil_iff.mpr]
          · rfl
          · intro e he h
            exact hl' (List.mem_map.mpr ⟨e, he, by simpa using h⟩)
        simp [this]
    · have hn' : ¬ name = c.1 := fun e => hn e.symm
      simp only [hn, if_false, List.map_cons, List.mem_cons, hn', false_or, Int.zero_add]

theorem applyCharges_safe (g : Env) : ∀ (l : List (Str × Int)) (m : Map Str Int),
    (∃ m', forR (applyCharge g) m l = .ok m') ∨ forR (applyCharge g) m l = .panic
  | [], m => .inl ⟨m, rfl⟩
  | c :: l, m => by
    simp only [forR, applyCharge, Map.update, addI32]
    split
    · exact applyCharges_safe g l _
    · split
      · exact .inr rfl
      · exact applyCharges_safe g l _

/-! ### One frame -/

/-- The clients are known, or unknown, or not needed. -/
def ClientsFor (g : Env) (data : Bytes) (cs : List Client) (f : Frame) (later : List Frame) : Prop :=
  clients g data = .ok cs ∨ ((∃ e, clients g data = .err e) ∧ cs = []) ∨ ¬ NeedsClients g.toUnicode f later

theorem entry_cases (g : Env) (i : Nat) (f : Frame) :
    (entryOf g i f = [] ∧ ∀ text more, ¬ Announces g.toUnicode f.body text more) ∨
    ∃ (p : PrintMsg) (more : Bytes), p.WF ∧ p.level = 1 ∧ f.body = p.encode ++ more ∧
      entryOf g i f = [(p.reported, infoOf i f)] ∧
      Announces g.toUnicode f.body (trimEnd (g.toUnicode p.text)) more := by
  rcases print_or_not f.body with h | ⟨p, more, hp, e⟩
  · refine .inl ⟨entryOf_none g i f h, ?_⟩
    rintro text more ⟨q, hq, _, _, e, _⟩
    exact h q more hq e
  · by_cases hc : p.level = 1 ∧ p.text ≠ []
    · exact .inr ⟨p, more, hp, hc.1, e, by rw [entryOf_some g i f p more hp e, if_pos hc],
        p, hp, hc.1, hc.2, e, trimEnd_trims _⟩
    · refine .inl ⟨by rw [entryOf_some g i f p more hp e, if_neg hc], ?_⟩
      rintro text more' ⟨q, hq, h1, h2, e', _⟩
      obtain ⟨rfl, _⟩ := print_encode_inj hp hq (e.symm.trans e')
      exact hc ⟨h1, h2⟩

theorem not_blamed_nil {cs : List Client} {v k : Str} : ¬ Blamed cs [] v k := by
  rintro ⟨_, _, b, n, a, e, _⟩
  simp at e

theorem not_blamed_no_clients {n : List UInt8} {v k : Str} : ¬ Blamed [] n v k := by
  rintro ⟨_, ⟨b, a, e, _⟩, _⟩
  simp at e

theorem score_frame (g : Env) {data pre : Bytes} {f : Frame} {later : List Frame} {rest : Bytes} {cs : List Client}
    (hwf : ∀ x ∈ f :: later, x.WF) (he : data = pre ++ Spec.encode (f :: later) ++ rest) (hs : Stops data.length rest)
    (hcs : ClientsFor g data cs f later) {c : Option (Str × Int)} (hc : Charge g.toUnicode cs f later c)
    (m : Map Str Int) :
    forR (scorePrint g data) m (entryOf g pre.length f) = forR (applyCharge g) m c.toList := by
  rcases entry_cases g pre.length f with ⟨h0, hno⟩ | ⟨p, more, hp, hl, hb, hent, hann⟩
  · have : c = none := charge_unique hc (.nothing fun t mo o a => absurd a (hno t mo))
    rw [h0, this]
    rfl
  · rw [hent]
    simp only [forR]
    have bind_id : ∀ x : R (Map Str Int), (x.bind fun s => .ok s) = x := by intro x; cases x <;> rfl
    rw [bind_id]
    have htext : p.reported.content = p.text := rfl
    unfold scorePrint
    simp only [htext]
    have hcl := fun e => C24_classification (trimEnd (g.toUnicode p.text)) e
    rcases C24_total (trimEnd (g.toUnicode p.text)) with ⟨e, hev⟩ | ⟨hev, hnone⟩
    · rw [hev]
      have hcl := (hcl e).mp hev
      cases e with
      | frag k v => rw [charge_unique hc (.frag hann hcl)]; exact (bind_id _).symm
      | death k => rw [charge_unique hc (.death hann hcl)]; exact (bind_id _).symm
      | suicide k => rw [charge_unique hc (.suicide hann hcl)]; exact (bind_id _).symm
      | suicideByWeapon k => rw [charge_unique hc (.suicideByWeapon hann hcl)]; exact (bind_id _).symm
      | teamkill k => rw [charge_unique hc (.teamkill hann hcl)]; exact (bind_id _).symm
      | teamkillByUnknown v =>
        obtain ⟨n, hn⟩ := fragUpdates_eq g hwf he hs hp hl hb
        obtain ⟨k1, k2, k3, k4⟩ := findTeamKiller_eq g data pre.length v hn
        have hidx : (infoOf pre.length f).index = pre.length := rfl
        simp only [hidx]
        have unsolved : (∃ e, findTeamKiller g data pre.length v = .err e) →
            (∀ k, ¬ Blamed cs (nearbyUpdates more later) v k) →
            (match findTeamKiller g data pre.length v with
              | .ok name => m.update name 0 fun n => addI32 g.checks n (-1)
              | .err _ => .ok m
              | .panic => .panic
              | .hang => .hang) = forR (applyCharge g) m c.toList := by
          rintro ⟨e, he⟩ hk
          rw [charge_unique hc (.unsolved hann hcl hk), he]
          rfl
        by_cases h0 : nearbyUpdates more later = []
        · exact unsolved (k1 h0) (by rw [h0]; exact fun k => not_blamed_nil)
        · rcases hcs with hcs | ⟨⟨e, hcs⟩, rfl⟩ | hcs
          · obtain ⟨k5, k6⟩ := k4 cs hcs
            by_cases hbl : ∃ k, Blamed cs (nearbyUpdates more later) v k
            · obtain ⟨k, hbl⟩ := hbl
              rw [charge_unique hc (.blamed hann hcl hbl), (k5 k).mpr hbl]
              exact (bind_id _).symm
            · have hbl : ∀ k, ¬ Blamed cs (nearbyUpdates more later) v k := fun k hk => hbl ⟨k, hk⟩
              exact unsolved (k6 hbl) hbl
          · exact unsolved ⟨_, k3 h0 e hcs⟩ fun k => not_blamed_no_clients
          · exact absurd ⟨_, _, _, hann, hcl, h0⟩ hcs
    · have : c = none := by
        refine charge_unique hc (.nothing fun t mo o a => ?_)
        obtain ⟨rfl, _⟩ := announces_unique hann a
        exact hnone o
      rw [hev, this]
      rfl

theorem score_frames (g : Env) {data rest : Bytes} {cs : List Client} (hs : Stops data.length rest) :
    ∀ (fs : List Frame) (pre : Bytes) (charges : List (Str × Int)) (m : Map Str Int), (∀ x ∈ fs, x.WF) →
      data = pre ++ Spec.encode fs ++ rest → (∀ a f l, fs = a ++ f :: l → ClientsFor g data cs f l) →
      Charges g.toUnicode cs fs charges →
      forR (scorePrint g data) m (entries g pre.length fs) = forR (applyCharge g) m charges
  | [], pre, _, m, _, _, _, .nil => rfl
  | f :: fs, pre, _, m, hwf, he, hcs, .cons (charges := charges) h1 h2 => by
    simp only [entries]
    rw [forR_append, forR_append, score_frame g hwf he hs (hcs [] f fs rfl) h1]
    cases forR (applyCharge g) m _ with
    | err => rfl
    | panic => rfl
    | hang => rfl
    | ok m =>
      simp only [R.bind]
      have hpre : pre.length + f.encode.length = (pre ++ f.encode).length := by simp
      rw [hpre]
      exact score_frames g hs fs (pre ++ f.encode) charges m (fun x hx => hwf x (by simp [hx]))
        (by rw [he]; simp [Spec.encode]) (fun a x l e => hcs (f :: a) x l (by rw [e]; rfl)) h2

theorem score_frame_panics (g : Env) {data pre : Bytes} {f : Frame} {later : List Frame} {rest : Bytes}
    (hwf : ∀ x ∈ f :: later, x.WF) (he : data = pre ++ Spec.encode (f :: later) ++ rest) (hs : Stops data.length rest)
    (hcs : clients g data = .panic) (hn : NeedsClients g.toUnicode f later) (m : Map Str Int) :
    forR (scorePrint g data) m (entryOf g pre.length f) = .panic := by
  obtain ⟨text, more, v, ha, hcl, h0⟩ := hn
  rcases entry_cases g pre.length f with ⟨_, hno⟩ | ⟨p, more', hp, hl, hb, hent, hann⟩
  · exact absurd ha (hno _ _)
  · obtain ⟨rfl, rfl⟩ := announces_unique ha hann
    rw [hent]
    obtain ⟨n, hn⟩ := fragUpdates_eq g hwf he hs hp hl hb
    obtain ⟨_, k2, _, _⟩ := findTeamKiller_eq g data pre.length v hn
    have hev := (C24_classification (trimEnd (g.toUnicode p.text)) (.teamkillByUnknown v)).mpr hcl
    have htext : p.reported.content = p.text := rfl
    have hidx : (infoOf pre.length f).index = pre.length := rfl
    simp only [forR, scorePrint, htext, hev, hidx, k2 h0 hcs, R.bind]

/-- If the client list panics, so does the score as soon as it is needed. -/
theorem score_frames_panic (g : Env) {data rest : Bytes} (hs : Stops data.length rest) (hcs : clients g data = .panic) :
    ∀ (fs : List Frame) (pre : Bytes) (m : Map Str Int), (∀ x ∈ fs, x.WF) → data = pre ++ Spec.encode fs ++ rest →
      (∃ a f l, fs = a ++ f :: l ∧ NeedsClients g.toUnicode f l) →
      forR (scorePrint g data) m (entries g pre.length fs) = .panic
  | [], pre, m, _, _, h => by
    obtain ⟨a, f, l, e, _⟩ := h
    simp at e
  | f :: fs, pre, m, hwf, he, h => by
    simp only [entries]
    rw [forR_append]
    by_cases hn : NeedsClients g.toUnicode f fs
    · rw [score_frame_panics g hwf he hs hcs hn]
      rfl
    · have h' : ∃ a x l, fs = a ++ x :: l ∧ NeedsClients g.toUnicode x l := by
        obtain ⟨a, x, l, e, hx⟩ := h
        cases a with
        | nil => simp at e; obtain ⟨rfl, rfl⟩ := e; exact absurd hx hn
        | cons y a => simp at e; exact ⟨a, x, l, e.2, hx⟩
      obtain ⟨c, hc⟩ := charge_exists g.toUnicode [] f fs
      rw [score_frame g hwf he hs (.inr (.inr hn)) hc]
      rcases applyCharges_safe g c.toList m with ⟨m', e⟩ | e
      · rw [e]
        simp only [R.bind]
        have hpre : pre.length + f.encode.length = (pre ++ f.encode).length := by simp
        rw [hpre]
        exact score_frames_panic g hs hcs fs (pre ++ f.encode) m' (fun x hx => hwf x (by simp [hx]))
          (by rw [he]; simp [Spec.encode]) h'
      · rw [e]
        rfl

end Mvd

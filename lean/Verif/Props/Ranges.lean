import Verif.Props.Report
import Verif.Props.Ctf
import Verif.Props.Duration

/-! C79: every number in a result is one of its machine type. -/

namespace Mvd
open Spec

theorem addU_range {c : Bool} {bits a b x : Nat} (h : addU c bits a b = .ok x) : x < 2 ^ bits := by
  unfold addU at h
  split at h
  · cases h
    assumption
  · split at h
    · cases h
    · cases h
      exact Nat.mod_lt _ (Nat.two_pow_pos _)

theorem addI32_range {c : Bool} {a b x : Int} (h : addI32 c a b = .ok x) : -2147483648 ≤ x ∧ x ≤ 2147483647 := by
  unfold addI32 at h
  split at h
  · cases h
    omega
  · split at h
    · cases h
    · cases h
      have h1 := Int.le_bmod (x := a + b) (m := 2 ^ 32) (by decide)
      have h2 := Int.bmod_lt (x := a + b) (m := 2 ^ 32) (by decide)
      constructor <;> omega

theorem mem_set {K V : Type} [DecidableEq K] {m : Map K V} {k : K} {v : V} {e : K × V} (h : e ∈ m.set k v) :
    e ∈ m ∨ e = (k, v) := by
  induction m with
  | nil => exact .inr (by simpa [Map.set] using h)
  | cons a m ih =>
    obtain ⟨k0, v0⟩ := a
    simp only [Map.set] at h
    split at h
    · rename_i hk
      rcases List.mem_cons.mp h with rfl | h
      · exact .inr rfl
      · exact .inl (.tail _ h)
    · rcases List.mem_cons.mp h with rfl | h
      · exact .inl (.head _)
      · exact (ih h).imp_left (.tail _)

theorem get_mem {K V : Type} [DecidableEq K] {m : Map K V} {k : K} {v : V} (h : m.get k = some v) : (k, v) ∈ m := by
  induction m with
  | nil => cases h
  | cons a m ih =>
    obtain ⟨k0, v0⟩ := a
    simp only [Map.get] at h
    split at h
    · rename_i hk
      cases h
      rw [hk]
      exact .head _
    · exact .tail _ (ih h)

/-- A property of all values of a map that updates keep. -/
theorem update_all {K V : Type} [DecidableEq K] {P : V → Prop} {m m' : Map K V} {k : K} {d : V} {f : V → R V}
    (hm : ∀ e ∈ m, P e.2) (hd : P d) (hf : ∀ v w, P v → f v = .ok w → P w) (h : m.update k d f = .ok m') :
    ∀ e ∈ m', P e.2 := by
  unfold Map.update at h
  cases hv : f ((m.get k).getD d) with
  | ok v =>
    rw [hv] at h
    cases h
    intro e he
    rcases mem_set he with he | rfl
    · exact hm e he
    · refine hf _ _ ?_ hv
      cases hg : m.get k with
      | none => exact hd
      | some x => exact hm _ (get_mem hg)
  | _ => rw [hv] at h; cases h

/-- An invariant of a loop. -/
theorem forR_all {α σ : Type} {P : σ → Prop} {f : σ → α → R σ} : ∀ (l : List α) {s s' : σ}, P s →
    (∀ s, ∀ a ∈ l, ∀ s', P s → f s a = .ok s' → P s') → forR f s l = .ok s' → P s'
  | [], _, _, hs, _, h => by cases h; exact hs
  | a :: l, s, s', hs, hf, h => by
    rw [forR] at h
    cases ha : f s a with
    | ok x =>
      rw [ha] at h
      exact forR_all l (hf s a (by simp) x hs ha) (fun s b hb => hf s b (by simp [hb])) h
    | _ => rw [ha] at h; cases h

/-- C79: scores are 32-bit numbers. -/
theorem C79_frags (g : Env) (data : Bytes) (m : Map Str Int) (h : fragsPerPlayerName g data = .ok m) :
    ∀ e ∈ m, -2147483648 ≤ e.2 ∧ e.2 ≤ 2147483647 := by
  unfold fragsPerPlayerName at h
  cases hp : printFrames g data with
  | ok pfs =>
    rw [hp] at h
    refine forR_all (P := fun m : Map Str Int => ∀ e ∈ m, -2147483648 ≤ e.2 ∧ e.2 ≤ 2147483647) pfs (by simp) ?_ h
    intro s a _ s' hs hstep
    unfold scorePrint at hstep
    have up : ∀ {k : Str} {n : Int}, s.update k 0 (fun x => addI32 g.checks x n) = .ok s' →
        ∀ e ∈ s', -2147483648 ≤ e.2 ∧ e.2 ≤ 2147483647 :=
      fun hu => update_all (P := fun v : Int => -2147483648 ≤ v ∧ v ≤ 2147483647) hs (by decide) (fun _ _ _ => addI32_range) hu
    split at hstep
    · exact up hstep
    · exact up hstep
    · exact up hstep
    · exact up hstep
    · exact up hstep
    · split at hstep
      · exact up hstep
      · cases hstep; exact hs
      · cases hstep
      · cases hstep
    · cases hstep; exact hs
    · cases hstep
    · cases hstep
  | _ => rw [hp] at h; cases h

/-- C79: flag counters are 8-bit numbers. -/
theorem C79_flags (g : Env) (data : Bytes) (m : Map Str PlayerFlagEvents) (h : flagEventsPerPlayerName g data = .ok m) :
    ∀ e ∈ m, e.2.captures ≤ 255 ∧ e.2.pickups ≤ 255 ∧ e.2.returns ≤ 255 ∧ e.2.carrierFrags ≤ 255 ∧ e.2.defends ≤ 255 ∧
      e.2.carrierDefends ≤ 255 ∧ e.2.carrierDefendsVsAggressive ≤ 255 := by
  suffices hP : ∀ e ∈ m, ∀ k, shownCount e.2 k ≤ 255 from fun e he => ⟨hP e he .captured, hP e he .got, hP e he .returned,
    hP e he .assist, hP e he .defendsFlag, hP e he .defendsCarrier, hP e he .defendsCarrierVsAggressive⟩
  unfold flagEventsPerPlayerName at h
  cases hp : flagPrints g data with
  | ok prints =>
    rw [hp] at h
    refine forR_all (P := fun m : Map Str PlayerFlagEvents => ∀ e ∈ m, ∀ k, shownCount e.2 k ≤ 255) prints (by simp) ?_ h
    intro s a _ s' hs hstep
    have up : ∀ {k : Str} {get : PlayerFlagEvents → Nat} {set : PlayerFlagEvents → Nat → PlayerFlagEvents},
        (∀ e n k, shownCount (set e n) k = n ∨ shownCount (set e n) k = shownCount e k) →
        s.update k {} (fun e => (addU g.checks 8 (get e) 1).bind fun n => .ok (set e n)) = .ok s' →
        ∀ e ∈ s', ∀ k, shownCount e.2 k ≤ 255 := by
      intro k get set hset hu
      refine update_all (P := fun v => ∀ k, shownCount v k ≤ 255) hs (by intro k; cases k <;> decide) ?_ hu
      intro v w hv hw k
      cases hn : addU g.checks 8 (get v) 1 with
      | ok n =>
        rw [hn] at hw
        cases hw
        have := addU_range hn
        rcases hset v n k with h | h <;> rw [h]
        · omega
        · exact hv k
      | _ => rw [hn] at hw; cases hw
    unfold countFlagPrint at hstep
    split at hstep
    · exact up (set := fun e n => { e with captures := n }) (by intro e n k; cases k <;> simp [shownCount]) hstep
    · exact up (set := fun e n => { e with defends := n }) (by intro e n k; cases k <;> simp [shownCount]) hstep
    · exact up (set := fun e n => { e with carrierDefends := n }) (by intro e n k; cases k <;> simp [shownCount]) hstep
    · exact up (set := fun e n => { e with carrierDefendsVsAggressive := n }) (by intro e n k; cases k <;> simp [shownCount]) hstep
    · exact up (set := fun e n => { e with pickups := n }) (by intro e n k; cases k <;> simp [shownCount]) hstep
    · exact up (set := fun e n => { e with returns := n }) (by intro e n k; cases k <;> simp [shownCount]) hstep
    · exact up (set := fun e n => { e with carrierFrags := n }) (by intro e n k; cases k <;> simp [shownCount]) hstep
    · cases hstep; exact hs
    · cases hstep
    · cases hstep
  | _ => rw [hp] at h; cases h

theorem averagePing_range {g : Env} {l : List Nat} {n : Nat} (h : averagePing g l = .ok n) : n ≤ 65535 := by
  by_cases hl : l = []
  · subst hl
    have : averagePing g [] = .ok 0 := by
      cases hc : g.checks <;> simp only [averagePing, forR, hc, R.bind, R.ok.injEq] <;> decide +kernel
    rw [this] at h
    cases h
    decide
  · by_cases hs : l.sum < 2 ^ 16
    · rw [averagePing_ok g l hs hl] at h
      cases h
      exact Nat.le_trans (Nat.div_le_self _ _) (by omega)
    · cases hc : g.checks with
      | false =>
        rw [averagePing_wrap g hc l hl] at h
        cases h
        exact Nat.le_trans (Nat.div_le_self _ _) (by omega)
      | true =>
        rw [averagePing_panic g hc l (by omega)] at h
        cases h

/-- C79: pings are 16-bit numbers, although the field has 32 bits. -/
theorem C79_pings (g : Env) (data : Bytes) (m : Map UInt8 Nat) (h : pingPerPlayerNumber g data = .ok m) :
    ∀ e ∈ m, e.2 ≤ 65535 := by
  unfold pingPerPlayerNumber at h
  cases ht : totalPings g data with
  | ok x =>
    obtain ⟨total, n⟩ := x
    rw [ht] at h
    simp only [R.bind] at h
    split at h
    · cases h
    · refine forR_all (P := fun m : Map UInt8 Nat => ∀ e ∈ m, e.2 ≤ 65535) _ (by simp) ?_ h
      intro s a _ s' hs hstep
      cases hv : averagePing g a.2 with
      | ok v =>
        rw [hv] at hstep
        cases hstep
        intro e he
        rcases mem_set he with he | rfl
        · exact hs e he
        · exact averagePing_range hv
      | _ => rw [hv] at hstep; cases hstep
  | _ => rw [ht] at h; cases h

theorem asU8_range (x : Int) : asU8 x ≤ 255 := by
  unfold asU8
  omega

/-- C79: client numbers and colors are 8-bit numbers. -/
theorem C79_clients (g : Env) (data : Bytes) (cs : List Client) (h : clients g data = .ok cs) :
    ∀ c ∈ cs, c.number ≤ 255 ∧ c.color.1 ≤ 255 ∧ c.color.2 ≤ 255 := by
  unfold clients at h
  cases hi : clientinfo g data with
  | ok infos =>
    rw [hi] at h
    cases h
    intro c hc
    obtain ⟨⟨info, number⟩, _, rfl⟩ := List.mem_map.mp hc
    exact ⟨asU8_range number, asU8_range (info.topcolor.getD 0), asU8_range (info.bottomcolor.getD 0)⟩
  | _ => rw [hi] at h; cases h

/-- The frags in the match stats are 32-bit numbers. -/
def StatsInRange (g : Env) (data : Bytes) : Prop :=
  ∀ stats, ktxstatsV3 g data = .ok stats → ∀ k ∈ stats.players, -2147483648 ≤ k.frags ∧ k.frags ≤ 2147483647

theorem latest_subset {α κ : Type} [DecidableEq κ] (key : α → κ) : ∀ (l : List α), ∀ a ∈ latest key l, a ∈ l
  | [], a, h => by cases h
  | b :: t, a, h => by
    rw [latest] at h
    split at h
    · exact .tail _ (latest_subset key t a h)
    · rcases List.mem_cons.mp h with rfl | h
      · exact .head _
      · exact .tail _ (latest_subset key t a h)

/-- C79: colors of players are 8-bit numbers, pings and frags 32-bit numbers. -/
theorem C79_players (g : Env) (data : Bytes) (hst : StatsInRange g data) (l : List Player) (h : players g data = .ok l) :
    ∀ p ∈ l, p.color.1 ≤ 255 ∧ p.color.2 ≤ 255 ∧ p.ping ≤ 4294967295 ∧ -2147483648 ≤ p.frags ∧ p.frags ≤ 2147483647 := by
  cases hk : ktxstatsV3 g data with
  | ok stats =>
    rw [C43_from_stats g data stats hk] at h
    obtain ⟨ps, l', hf, hl, hp, _⟩ := C44_from_stats stats
    rw [h] at hl
    cases hl
    intro p hpl
    obtain ⟨k, hkm, hkp⟩ := forall2_mem_right hf (hp.mem_iff.mp hpl)
    have := C47_unique k p _ hkp (C47_conversion k)
    subst this
    refine ⟨asU8_range _, asU8_range _, ?_, hst stats hk k hkm⟩
    simp only [Player.ofKtx, asU32]
    omega
  | err e =>
    rw [C43_from_messages g data e hk] at h
    obtain ⟨cs, pings, frags, hc, hp, hf⟩ := (C45_failure g data).2.2 l h
    obtain ⟨ps, l', hfr, hl', hperm, _⟩ := C45_from_messages g data cs pings frags hc hp hf
    rw [h] at hl'
    cases hl'
    intro p hpl
    obtain ⟨c, hcm, _, _, h3, _, _, _, h7, h8⟩ := forall2_mem_right hfr (hperm.mem_iff.mp hpl)
    obtain ⟨_, hc1, hc2⟩ := C79_clients g data cs hc c (List.mem_of_mem_filter (latest_subset _ _ _ hcm))
    rw [h3, h7, h8]
    refine ⟨hc1, hc2, ?_, ?_⟩
    · cases hg : pings.get (UInt8.ofNat c.number) with
      | none => simp
      | some v =>
        have := C79_pings g data pings hp _ (get_mem hg)
        simp only [Option.getD_some] at this ⊢
        omega
    · cases hg : frags.get c.name with
      | none => simp
      | some v => exact C79_frags g data frags hf _ (get_mem hg)
  | panic =>
    rw [C43_panic g data hk] at h
    cases h
  | hang =>
    unfold players at h
    rw [hk] at h
    cases h

/-- C79: frags and pings of teams are 32-bit numbers, whatever the players are. -/
theorem C79_teams (g : Env) (ps : List Player) (ts : List Team) (h : teamsFromPlayers g ps = .ok ts) :
    ∀ t ∈ ts, -2147483648 ≤ t.frags ∧ t.frags ≤ 2147483647 ∧ t.ping ≤ 4294967295 := by
  intro t ht
  obtain ⟨seed, ho, hne, hp⟩ := mem_teams g h ht
  obtain ⟨first, hf, _⟩ := head_members hne
  obtain ⟨r, c, hr, _, _, _, hfr, hpi, _⟩ := ofPlayers_ok g _ hf ho
  have hr1 : -2147483648 ≤ r.1 ∧ r.1 ≤ 2147483647 := by
    refine forR_all (P := fun s : Int × Nat => -2147483648 ≤ s.1 ∧ s.1 ≤ 2147483647) _ (by decide) ?_ hr
    intro s a _ s' _ hstep
    unfold totalsStep at hstep
    cases hv : addI32 g.checks s.1 a.frags with
    | ok v =>
      rw [hv] at hstep
      simp only [R.bind] at hstep
      cases hw : addU g.checks 32 s.2 a.ping with
      | ok w =>
        rw [hw] at hstep
        cases hstep
        exact addI32_range hv
      | _ => rw [hw] at hstep; cases hstep
    | _ => rw [hv] at hstep; cases hstep
  rw [hfr, hpi]
  refine ⟨hr1.1, hr1.2, ?_⟩
  unfold f32AsU32
  omega

/-- An invariant of the loop over the frames. -/
theorem frameLoop_all {σ : Type} {P : σ → Prop} {g : Env} {data : Bytes} {body : σ → FrameInfo → R (Step σ)}
    (hb : ∀ s i, P s → (∀ s', body s i = .ok (.next s') → P s') ∧ ∀ s', body s i = .ok (.brk s') → P s') :
    ∀ (fuel index : Nat) (s s' : σ), P s → frameLoop g data body fuel index s = .ok s' → P s'
  | 0, _, _, _, _, h => by cases h
  | fuel + 1, index, s, s', hs, h => by
    rw [frameLoop] at h
    split at h
    · rename_i info _
      cases hi : body s info with
      | ok st =>
        rw [hi] at h
        cases st with
        | next x => exact frameLoop_all hb fuel _ x s' ((hb s info hs).1 x hi) h
        | brk x => cases h; exact (hb s info hs).2 _ hi
      | _ => rw [hi] at h; cases h
    · cases h; exact hs
    · cases h
    · cases h

theorem durationUntilOffset_range {g : Env} {data : Bytes} {target ns : Nat} (h : durationUntilOffset g data target = .ok ns) :
    ns ≤ 4294967500000000 := by
  unfold durationUntilOffset at h
  cases ht : totalMs g data target with
  | ok ms =>
    rw [ht] at h
    cases h
    have hms : ms < 2 ^ 32 := by
      refine frameLoop_all (P := fun ms => ms < 2 ^ 32) (fun s i hs => ⟨?_, ?_⟩) _ _ _ _ (by decide) ht
      · intro s' h
        split at h
        · cases h
        · cases ha : addU g.checks 32 s i.duration with
          | ok v =>
            rw [ha] at h
            cases h
            exact addU_range ha
          | _ => rw [ha] at h; cases h
      · intro s' h
        split at h
        · cases h
          exact hs
        · cases ha : addU g.checks 32 s i.duration with
          | ok v =>
            rw [ha] at h
            cases h
          | _ => rw [ha] at h; cases h
    exact Nat.le_trans (C36_monotone ms (2 ^ 32 - 1) (by omega)) (by decide +kernel)
  | _ => rw [ht] at h; cases h

/-- C79: a duration found by adding up frames is at most 4294967.5 s (2^32 ms, rounded), about 50 days. -/
theorem C79_durations (g : Env) (data : Bytes) (ns : Nat)
    (h : demoDuration g data = .ok ns ∨ countdownDuration g data = .ok ns ∨ matchDurationFromSeeking g data = .ok ns) :
    ns ≤ 4294967500000000 := by
  have hdemo : ∀ ns, demoDuration g data = .ok ns → ns ≤ 4294967500000000 := fun _ h => durationUntilOffset_range h
  rcases h with h | h | h
  · exact hdemo ns h
  · unfold countdownDuration at h
    cases hh : isHoonymode g data with
    | ok b =>
      rw [hh] at h
      cases b with
      | true => cases h; omega
      | false =>
        simp only [R.bind] at h
        split at h
        · cases h
        · exact durationUntilOffset_range h
    | _ => rw [hh] at h; cases h
  · unfold matchDurationFromSeeking at h
    cases hd : demoDuration g data with
    | ok d =>
      rw [hd] at h
      simp only [R.bind] at h
      have := hdemo d hd
      cases hc : (countdownDuration g data).unwrapOr 0 with
      | ok c =>
        rw [hc] at h
        simp only [durationSub] at h
        split at h
        · cases h; omega
        · cases h
      | _ => rw [hc] at h; cases h
    | _ => rw [hd] at h; cases h

/-- The hypotheses are met: a demo with scores, pings, clients, players, teams and a duration, and one with flag events. -/
example : (∃ m, fragsPerPlayerName Example.debug (Spec.encode Example.scoreFrames) = .ok m ∧ m ≠ []) ∧
    (∃ m, pingPerPlayerNumber Example.debug (Spec.encode Example.scoreFrames) = .ok m ∧ m ≠ []) ∧
    (∃ cs, clients Example.debug (Spec.encode Example.scoreFrames) = .ok cs ∧ cs ≠ []) ∧
    StatsInRange Example.debug (Spec.encode Example.scoreFrames) ∧
    (∃ l, players Example.debug (Spec.encode Example.scoreFrames) = .ok l ∧ l ≠ []) ∧
    (∃ ns, demoDuration Example.debug (Spec.encode Example.scoreFrames) = .ok ns) ∧
    (∃ m, flagEventsPerPlayerName Example.debug (Spec.encode Example.flagFrames) = .ok m ∧ m ≠ []) := by
  have ex : ∀ {α : Type} (x : R (List α)), (match x with | .ok l => !l.isEmpty | _ => false) = true → ∃ l, x = .ok l ∧ l ≠ [] := by
    intro α x h
    cases x with
    | ok l => exact ⟨l, rfl, by simpa using h⟩
    | _ => cases h
  have ex1 : ∀ (x : R Nat), (match x with | .ok _ => true | _ => false) = true → ∃ n, x = .ok n := by
    intro x h
    cases x with
    | ok n => exact ⟨n, rfl⟩
    | _ => cases h
  refine ⟨ex _ (by decide +kernel), ex _ (by decide +kernel), ex _ (by decide +kernel), ?_, ex _ (by decide +kernel),
    ex1 _ (by decide +kernel), ex _ (by decide +kernel)⟩
  intro stats h
  rw [show ktxstatsV3 Example.debug (Spec.encode Example.scoreFrames) = .err .ktxstatsNotFound by decide +kernel] at h
  cases h

end Mvd

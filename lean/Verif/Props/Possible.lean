import Verif.Props.Ranges
import Verif.Props.Size
import Verif.Props.Instances
import Verif.Props.Time

/-! C110: exactly which reports are possible. -/

namespace Spec

/-- The byte that stands for a print level. -/
def levelByte : Mvd.PrintId → UInt8
  | .low => 0
  | .medium => 1
  | .high => 2
  | .chat => 3
  | .unknown => 4

end Spec

namespace Mvd
open Spec

theorem levelByte_id (p : Print) : (PrintMsg.mk (levelByte p.id) p.content).reported = p := by
  obtain ⟨id, content⟩ := p
  cases id <;> rfl

theorem collapses_self {α : Type} (l : List α) (h : ∀ i, ∀ hi : i + 1 < l.length, l[i] ≠ l[i + 1]) : Collapses l l := by
  refine ⟨h, List.replicate l.length 0, by simp, ?_⟩
  clear h
  induction l with
  | nil => rfl
  | cons a l ih =>
    rw [List.length_cons, List.replicate_succ, List.zipWith_cons_cons, List.flatten_cons, ← ih]
    rfl

theorem dedup_self {α : Type} [DecidableEq α] : ∀ l : List α, (∀ i, ∀ hi : i + 1 < l.length, l[i] ≠ l[i + 1]) → dedup l = l
  | l, h => collapses_unique (dedup_collapses l) (collapses_self l h)

/-- C110: a list is what `prints` reports of some demo exactly if the texts are neither empty nor contain a NUL, fit into a frame,
and neighbours differ. -/
theorem C110_prints (g : Env) (out : List Print) : (∃ data, prints g data = .ok out) ↔
    (∀ p ∈ out, p.content ≠ [] ∧ (0 : UInt8) ∉ p.content ∧ p.content.length + 3 < 2 ^ 32) ∧
    ∀ i, ∀ hi : i + 1 < out.length, out[i] ≠ out[i + 1] := by
  constructor
  · rintro ⟨data, h⟩
    obtain ⟨h1, h2⟩ := C05_print_shape g data out h
    refine ⟨fun p hp => ⟨(h1 p hp).1, (h1 p hp).2.1, ?_⟩, h2⟩
    obtain ⟨fs, rest, hsp, hst⟩ := (C06_prints g data).2.mp ⟨out, h⟩
    obtain ⟨pss, hl⟩ := leading_exists fs
    rw [prints_stops g hsp hst hl] at h
    cases h
    have hm := (dedup_sublist _).subset hp
    unfold reportedPrints at hm
    obtain ⟨q, hq, rfl⟩ := List.mem_map.mp hm
    obtain ⟨ps, hps, hqm⟩ := List.mem_flatten.mp (List.mem_filter.mp hq).1
    obtain ⟨f, hf, hlp⟩ := forall2_mem_right hl hps
    have hsz := prints_size hlp
    have hle : q.text.length + 3 ≤ (ps.map fun p => p.text.length + 3).sum := by
      clear hsz hlp hps
      induction ps with
      | nil => cases hqm
      | cons a ps ih =>
        rw [List.map_cons, List.sum_cons]
        rcases List.mem_cons.mp hqm with rfl | hqm
        · omega
        · have := ih hqm
          omega
    have hwf := hsp.2.1 f hf
    have hb : f.body.length < 2 ^ 32 := by
      have := hwf.2
      split at this
      · exact this
      · split at this <;> omega
    show q.text.length + 3 < 2 ^ 32
    omega
  · rintro ⟨h1, h2⟩
    let msg : Print → PrintMsg := fun p => ⟨levelByte p.id, p.content⟩
    let fs : List Frame := out.map fun p => ⟨0, 6, [], (msg p).encode⟩
    have hw : ∀ f ∈ fs, f.WF := by
      intro f hf
      obtain ⟨p, hp, rfl⟩ := List.mem_map.mp hf
      have := (h1 p hp).2.2
      refine ⟨rfl, ?_⟩
      rw [if_pos (by rfl)]
      simp only [PrintMsg.encode, List.length_append, List.length_cons, List.length_nil, msg]
      omega
    obtain ⟨hsp, hst⟩ := splits_whole hw
    have hl : List.Forall₂ (fun (f : Frame) ps => LeadingPrints f.body ps) fs (out.map fun p => [msg p]) := by
      refine List.forall₂_map_left_iff.mpr (List.forall₂_map_right_iff.mpr (List.forall₂_same.mpr fun p hp => ?_))
      exact ⟨[], by simp, by simpa [PrintMsg.WF, msg] using (h1 p hp).2.1, noPrint_nil⟩
    refine ⟨Spec.encode fs, ?_⟩
    rw [prints_stops g hsp hst hl]
    have e : reportedPrints (out.map fun p => [msg p]).flatten = out := by
      unfold reportedPrints
      have : (out.map fun p => [msg p]).flatten = out.map msg := by
        rw [← List.flatMap_def]
        exact List.flatMap_pure_eq_map msg out
      rw [this, List.filter_eq_self.mpr, List.map_map]
      · conv => rhs; rw [← List.map_id out]
        exact List.map_congr_left fun p _ => levelByte_id p
      · intro a ha
        obtain ⟨p, hp, rfl⟩ := List.mem_map.mp ha
        simpa [msg] using (h1 p hp).1
    rw [e, dedup_self out h2]

/-! ### Pings -/

theorem map_get_mem {m : Map UInt8 Nat} {p : UInt8} {v : Nat} (h : m.get p = some v) : (p, v) ∈ m := by
  induction m with
  | nil => cases h
  | cons e m ih =>
    simp only [Map.get] at h
    split at h
    · cases h
      rename_i he
      rw [← he]
      exact List.mem_cons_self
    · exact List.mem_cons_of_mem _ (ih h)

theorem nodup_singleton {α : Type} {l : List α} {a : α} (hn : l.Nodup) (ha : a ∈ l) (hall : ∀ x ∈ l, x = a) : l = [a] := by
  match l, hn with
  | [], _ => cases ha
  | [x], _ => rw [hall x List.mem_cons_self]
  | x :: y :: t, hn =>
    have h1 := hall x List.mem_cons_self
    have h2 := hall y (List.mem_cons_of_mem _ List.mem_cons_self)
    rw [h1, h2] at hn
    simp at hn

theorem ping_nonempty (g : Env) (data : Bytes) (m : Map UInt8 Nat) (h : pingPerPlayerNumber g data = .ok m) :
    ∃ p v, m.get p = some v := by
  unfold pingPerPlayerNumber at h
  cases ht : totalPings g data with
  | ok r =>
    obtain ⟨total, n⟩ := r
    rw [ht] at h
    simp only [R.bind] at h
    split at h
    · cases h
    · rename_i hne
      have ho : g.order 0 total ≠ [] := by
        intro e
        have := (g.order_perm 0 total).length_eq
        rw [e] at this
        cases total <;> simp at this hne
      have go : ∀ (l : List (UInt8 × List Nat)) (a : Map UInt8 Nat), (a ≠ [] ∨ l ≠ []) →
          forR (fun avg (e : UInt8 × List Nat) => (averagePing g e.2).bind fun a => .ok (Map.set avg e.1 a)) a l = .ok m →
          m ≠ [] := by
        intro l
        induction l with
        | nil =>
          intro a ha h
          cases h
          simpa using ha
        | cons e l ih =>
          intro a _ h
          simp only [forR] at h
          cases hv : averagePing g e.2 with
          | ok v =>
            rw [hv] at h
            simp only [R.bind] at h
            refine ih _ (.inl ?_) h
            cases a with
            | nil => simp [Map.set]
            | cons x a =>
              simp only [Map.set]
              split <;> simp
          | _ => rw [hv] at h; cases h
      have hm := go _ _ (.inr ho) h
      cases m with
      | nil => exact absurd rfl hm
      | cons x m => exact ⟨x.1, x.2, by simp [Map.get]⟩
  | _ => rw [ht] at h; cases h

/-- A frame body with a ping update for each of some players. -/
def Spec.pingBody (us : List (UInt8 × Nat)) : Bytes :=
  us.flatMap fun u => [36, u.1, UInt8.ofNat (u.2 % 256), UInt8.ofNat (u.2 / 256), 53, u.1, 0]

theorem pingBody_leading : ∀ us : List (UInt8 × Nat), (∀ u ∈ us, u.2 < 65536) → LeadingPings (Spec.pingBody us) us
  | [], _ => .stop (by intro n lo hi x t h; cases h)
  | (p, v) :: us, h => by
    have hv : v < 65536 := h (p, v) List.mem_cons_self
    have ih := pingBody_leading us fun u hu => h u (List.mem_cons_of_mem _ hu)
    have e : v = (UInt8.ofNat (v % 256)).toNat + 256 * (UInt8.ofNat (v / 256)).toNat := by
      simp only [UInt8.toNat_ofNat']
      omega
    have hs : LeadingPings (36 :: p :: UInt8.ofNat (v % 256) :: UInt8.ofNat (v / 256) :: 53 :: (p :: 0 :: Spec.pingBody us)) _ :=
      .step (by simpa using ih)
    rw [← e] at hs
    exact hs

/-- C110: numbers are what the pings of some demo are exactly if they have 16 bits and there is at least one. -/
theorem C110_pings (g : Env) (pings : UInt8 → Option Nat) :
    (∃ data m, pingPerPlayerNumber g data = .ok m ∧ ∀ p, m.get p = pings p) ↔
    (∃ p v, pings p = some v) ∧ ∀ p v, pings p = some v → v < 65536 := by
  constructor
  · rintro ⟨data, m, h, hm⟩
    obtain ⟨p, v, hp⟩ := ping_nonempty g data m h
    refine ⟨⟨p, v, by rw [← hm]; exact hp⟩, fun p v hv => ?_⟩
    rw [← hm] at hv
    have := C79_pings g data m h (p, v) (map_get_mem hv)
    simp only at this
    omega
  · rintro ⟨⟨p0, v0, h0⟩, hlt⟩
    let us : List (UInt8 × Nat) := (List.finRange 256).filterMap fun n => (pings (UInt8.ofFin n)).map fun v => (UInt8.ofFin n, v)
    have hus : ∀ p v, (p, v) ∈ us ↔ pings p = some v := by
      intro p v
      simp only [us, List.mem_filterMap, List.mem_finRange, true_and, Option.map_eq_some_iff, Prod.mk.injEq]
      constructor
      · rintro ⟨n, w, hw, rfl, rfl⟩
        exact hw
      · intro h
        exact ⟨p.toFin, v, by simpa using h, by simp, rfl⟩
    have hsmall : us.length ≤ 256 := by
      have := List.length_filterMap_le (fun n => (pings (UInt8.ofFin n)).map fun v => (UInt8.ofFin n, v)) (List.finRange 256)
      simpa [us] using this
    have hnod : us.Nodup := by
      refine List.Nodup.filterMap ?_ (List.nodup_finRange 256)
      intro a a' b h h'
      simp only [Option.mem_def, Option.map_eq_some_iff] at h h'
      obtain ⟨_, _, rfl⟩ := h
      obtain ⟨_, _, h'⟩ := h'
      simp only [Prod.mk.injEq] at h'
      exact (congrArg UInt8.toFin h'.1).symm
    clear_value us
    have hne : us ≠ [] := List.ne_nil_of_mem ((hus p0 v0).mpr h0)
    have hsam : sampledPings [us] = us := by
      simp [sampledPings, hne]
    have hof : ∀ p v, pings p = some v → samplesOf us p = [v] := by
      intro p v hv
      have : (us.filter fun u => u.1 = p) = [(p, v)] := by
        refine nodup_singleton (hnod.filter _) (List.mem_filter.mpr ⟨(hus p v).mpr hv, by simp⟩) ?_
        rintro ⟨q, w⟩ hx
        obtain ⟨hm, hq⟩ := List.mem_filter.mp hx
        have hq : q = p := by simpa using hq
        subst hq
        have := (hus q w).mp hm
        rw [hv] at this
        cases this
        rfl
      unfold samplesOf
      rw [this]
      rfl
    have hbody : (Spec.pingBody us).length ≤ 1792 := by
      have : ∀ us : List (UInt8 × Nat), (Spec.pingBody us).length = 7 * us.length := by
        intro us
        induction us with
        | nil => rfl
        | cons u us ih =>
          have e : Spec.pingBody (u :: us) = [36, u.1, UInt8.ofNat (u.2 % 256), UInt8.ofNat (u.2 / 256), 53, u.1, 0] ++ Spec.pingBody us := rfl
          rw [e, List.length_append, ih]
          simp only [List.length_cons, List.length_nil]
          omega
      rw [this]
      omega
    have hw : ∀ f ∈ [(⟨0, 6, [], Spec.pingBody us⟩ : Frame)], f.WF := by
      intro f hf
      rw [List.mem_singleton.mp hf]
      refine ⟨rfl, ?_⟩
      rw [if_pos (by rfl)]
      show (Spec.pingBody us).length < 2 ^ 32
      omega
    obtain ⟨hsp, hst⟩ := splits_whole hw
    obtain ⟨m, hm, hg⟩ := C32_pings g _ _ _ [us] hsp hst
      (.cons (pingBody_leading us fun u hu => hlt u.1 u.2 ((hus _ _).mp hu)) .nil) (by rw [hsam]; exact hne) (by
        intro p
        rw [hsam]
        cases hv : pings p with
        | some v =>
          rw [hof p v hv]
          have := hlt p v hv
          simpa using this
        | none =>
          have : (us.filter fun u => u.1 = p) = [] := by
            refine List.filter_eq_nil_iff.mpr ?_
            rintro ⟨q, w⟩ hx hq
            have hq : q = p := by simpa using hq
            subst hq
            rw [(hus q w).mp hx] at hv
            cases hv
          unfold samplesOf
          rw [this]
          decide)
    refine ⟨_, m, hm, fun p => ?_⟩
    rw [hg p, hsam]
    cases hv : pings p with
    | some v =>
      rw [if_pos (List.mem_map_of_mem (f := Prod.fst) ((hus p v).mpr hv)), hof p v hv]
      simp
    | none =>
      rw [if_neg]
      intro h
      obtain ⟨⟨q, w⟩, hx, rfl⟩ := List.mem_map.mp h
      rw [(hus q w).mp hx] at hv
      cases hv

/-! ### Durations, serverinfo and match date -/

theorem durationUntilOffset_total {g : Env} {data : Bytes} {target ns : Nat} (h : durationUntilOffset g data target = .ok ns) :
    ∃ ms, ms < 2 ^ 32 ∧ ns = msToDuration ms := by
  unfold durationUntilOffset at h
  cases ht : totalMs g data target with
  | ok ms =>
    rw [ht] at h
    cases h
    have hms : ms < 2 ^ 32 := by
      refine frameLoop_all (P := fun ms => ms < 2 ^ 32) (fun s i hs => ⟨?_, ?_⟩) _ _ _ _ (by decide) ht
      · intro s' h
        split at h
        · cases h
        · cases ha : addU g.checks 32 s i.duration with
          | ok v =>
            rw [ha] at h
            cases h
            exact addU_range ha
          | _ => rw [ha] at h; cases h
      · intro s' h
        split at h
        · cases h
          exact hs
        · cases ha : addU g.checks 32 s i.duration with
          | ok v =>
            rw [ha] at h
            cases h
          | _ => rw [ha] at h; cases h
    exact ⟨ms, hms, rfl⟩
  | _ => rw [ht] at h; cases h

/-- C110: durations of demos are the 32-bit numbers of milliseconds, as they are converted. -/
theorem C110_duration (g : Env) (ns : Nat) : (∃ data, demoDuration g data = .ok ns) ↔ ∃ ms, ms < 2 ^ 32 ∧ Converted ms ns := by
  constructor
  · rintro ⟨data, h⟩
    obtain ⟨ms, h1, h2⟩ := durationUntilOffset_total h
    exact ⟨ms, h1, (C36_conversion ms ns).mpr h2⟩
  · rintro ⟨ms, hms, hc⟩
    let r : UInt8 := UInt8.ofNat (ms % 255)
    let fs : List Frame := ⟨r, 7, [], []⟩ :: Example.idle (ms / 255)
    have hw : ∀ f ∈ fs, f.WF := by
      intro f hf
      rcases List.mem_cons.mp hf with rfl | hf
      · exact ⟨rfl, rfl⟩
      · exact idle_wf f hf
    obtain ⟨hsp, hst⟩ := splits_whole hw
    have hbytes : ∀ b ∈ Spec.encode fs, b = r ∨ b = 7 ∨ b = 255 := by
      intro b hb
      have e : Spec.encode fs = r :: 7 :: Spec.encode (Example.idle (ms / 255)) := rfl
      rw [e, List.mem_cons, List.mem_cons] at hb
      rcases hb with h | h | h
      · exact .inl h
      · exact .inr (.inl h)
      · rcases idle_bytes h with h | h
        · exact .inr (.inr h)
        · exact .inr (.inl h)
    have hno : ∀ (w : Bytes) (a b : UInt8), a ∈ w → b ∈ w → a ≠ b → a ≠ 7 → a ≠ 255 → b ≠ 7 → b ≠ 255 →
        ¬ Occurs w (Spec.encode fs) := by
      intro w a b ha hb hab h1 h2 h3 h4 ho
      rcases hbytes a (occurs_mem ho ha) with ea | ea | ea
      · rcases hbytes b (occurs_mem ho hb) with eb | eb | eb
        · exact hab (ea.trans eb.symm)
        · exact h3 eb
        · exact h4 eb
      · exact h1 ea
      · exact h2 ea
    have ht : MeasuredTo (Spec.encode fs) (Spec.encode fs).length :=
      .inr (.inr ⟨hno _ 84 104 (by decide) (by decide) (by decide) (by decide) (by decide) (by decide) (by decide),
        hno _ 52 115 (by decide) (by decide) (by decide) (by decide) (by decide) (by decide) (by decide), rfl⟩)
    have e : msBefore (Spec.encode fs).length fs = ms := by
      rw [C35_all_frames _ _ _ hsp]
      have : (fs.map fun f => f.duration.toNat).sum = r.toNat + ((Example.idle (ms / 255)).map fun f => f.duration.toNat).sum := by
        simp only [fs, List.map_cons, List.sum_cons]
      rw [this, idle_total]
      simp only [r, UInt8.toNat_ofNat']
      omega
    refine ⟨Spec.encode fs, (C35_demo_duration g _ _ _ _ hsp ht (.inl hst) (by omega) ns).mpr ?_⟩
    rw [e]
    exact hc

/-- C110: a serverinfo text is possible exactly if it is not empty, has at most 1263 bytes and no quote. -/
theorem C110_serverinfo (g : Env) (s : Str) : (∃ data, serverinfoString g data = .ok s) ↔
    ∃ text : Bytes, text ≠ [] ∧ text.length ≤ 1263 ∧ (34 : UInt8) ∉ text ∧ s = g.toUtf8 text := by
  constructor
  · rintro ⟨data, h⟩
    have hl : 1280 ≤ data.length := by
      refine Nat.le_of_not_lt fun hlt => ?_
      rw [(C15_short_data g data).1.mpr hlt] at h
      cases h
    obtain ⟨text, ⟨pre, post, e, _, h1, h2⟩, rfl⟩ := (C14_serverinfo_string g data hl s).mp h
    refine ⟨text, h1, ?_, h2, rfl⟩
    have := congrArg List.length e
    simp only [List.length_take, List.length_append, List.length_cons, List.length_nil,
      show (bytes!"fullserverinfo \"").length = 16 from by decide] at this
    omega
  · rintro ⟨text, h1, h2, h3, rfl⟩
    refine ⟨bytes!"fullserverinfo \"" ++ text ++ [34] ++ List.replicate (1263 - text.length) 0, ?_⟩
    have hl : (bytes!"fullserverinfo \"" ++ text ++ [34] ++ List.replicate (1263 - text.length) 0).length = 1280 := by
      simp only [List.length_append, List.length_replicate, List.length_cons, List.length_nil,
        show (bytes!"fullserverinfo \"").length = 16 from by decide]
      omega
    refine (C14_serverinfo_string g _ (by omega) _).mpr ⟨text, ⟨[], List.replicate (1263 - text.length) 0, ?_, ?_, h1, h3⟩, rfl⟩
    · rw [← hl, List.take_length]
      rfl
    · rw [← hl, List.take_length]
      exact ⟨⟨[], text ++ [34] ++ List.replicate (1263 - text.length) 0, by simp [List.append_assoc], rfl⟩, fun j _ => Nat.zero_le j⟩

/-- C110: a match date is possible exactly if it has 22 to 25 bytes and no newline. -/
theorem C110_matchdate (s : Str) : (∃ data, matchdateString data = .ok s) ↔
    22 ≤ (utf8 s).length ∧ (utf8 s).length ≤ 25 ∧ (10 : UInt8) ∉ utf8 s := by
  constructor
  · rintro ⟨data, h⟩
    rcases C55_outcome data with ⟨e, he, _⟩ | ⟨pre, s', post, _, _, h1, h2, h3, h4⟩
    · rw [he] at h
      cases h
    · rw [h4] at h
      cases h
      exact ⟨h2, h3, h1⟩
  · rintro ⟨h1, h2, h3⟩
    exact ⟨[] ++ matchdatePrint ++ (utf8 s ++ 10 :: []), C55_text [] [] s
      ⟨⟨[], utf8 s ++ 10 :: [], rfl, rfl⟩, fun j _ => Nat.zero_le j⟩ h3 ⟨h1, h2⟩⟩

/-! ### Instances -/

/-- Two different prints are some demo's report, the same one twice is not. -/
example : (∃ data, prints Example.debug data = .ok [⟨.high, bytes!"go"⟩, ⟨.chat, bytes!"go"⟩]) ∧
    ¬ ∃ data, prints Example.debug data = .ok [⟨.high, bytes!"go"⟩, ⟨.high, bytes!"go"⟩] := by
  rw [C110_prints, C110_prints]
  refine ⟨⟨by decide, fun i hi => ?_⟩, fun h => h.2 0 (by decide) rfl⟩
  match i, hi with
  | 0, _ => exact fun h => by cases h

/-- Everybody's ping may be their player number, but nobody's can be 65536. -/
example : (∃ data m, pingPerPlayerNumber Example.release data = .ok m ∧ ∀ p, m.get p = some p.toNat) ∧
    ¬ ∃ data m, pingPerPlayerNumber Example.release data = .ok m ∧ m.get 3 = some 65536 := by
  refine ⟨(C110_pings _ fun p => some p.toNat).mpr ⟨⟨0, 0, rfl⟩, fun p v h => ?_⟩, ?_⟩
  · cases h
    have := p.toNat_lt
    omega
  · rintro ⟨data, m, h, h3⟩
    have := ((C110_pings Example.release m.get).mp ⟨data, m, h, fun _ => rfl⟩).2 3 _ h3
    omega

/-- A demo may take 13 ms, and none takes 1 ns. -/
example : (∃ data, demoDuration Example.debug data = .ok 13000000) ∧ ¬ ∃ data, demoDuration Example.debug data = .ok 1 := by
  rw [C110_duration, C110_duration]
  refine ⟨⟨13, by decide, (C36_conversion _ _).mpr (by decide +kernel)⟩, ?_⟩
  rintro ⟨ms, _, h⟩
  have h := (C36_conversion _ _).mp h
  rcases Nat.eq_zero_or_pos ms with rfl | hp
  · revert h
    decide +kernel
  · have := C36_monotone 1 ms hp
    rw [← h] at this
    revert this
    decide +kernel

/-- A serverinfo may be a single byte, but not empty. -/
example : (∃ data, serverinfoString Example.debug data = .ok (Example.debug.toUtf8 bytes!"\\")) := by
  rw [C110_serverinfo]
  exact ⟨bytes!"\\", by decide, by decide, by decide, rfl⟩

/-- Both lengths of match dates that servers print are possible, and the short form of RFC 3339 is not. -/
example : (∃ data, matchdateString data = .ok chars!"2024-05-17 20:31:07 CEST") ∧
    ¬ ∃ data, matchdateString data = .ok chars!"2024-05-17T20:31:07Z" := by
  rw [C110_matchdate, C110_matchdate]
  decide +kernel

end Mvd

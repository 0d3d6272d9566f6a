import Verif.Spec.Ctf
import Verif.Props.Awards
import Verif.Props.Names

/-! C76: a game of capture the flag written down is counted as it was played. -/

namespace Mvd
open Spec

theorem saysFlag_classifies {e : Spec.FlagEvent} {text : Str} (h : SaysFlag e text) : ClassifiesFlag text e.1 e.2 := by
  obtain ⟨hx, phrases, p, hk, hp, rfl⟩ := h
  have := (C29_classification _ _).mp (C84_flags e.2 hx (e.1, phrases) hk p hp)
  rwa [(ofKind_iff.mp (Eq.refl (ofKind e.1 e.2))).1, (ofKind_iff.mp (Eq.refl (ofKind e.1 e.2))).2] at this

theorem saysFlags_inPairs {u : Bytes → Str} {es : List Spec.FlagEvent} {ts : List Bytes} (h : SaysFlags u es ts) :
    List.Forall₂ (fun e t => ClassifiesFlag (u t) e.1 e.2) es (inPairs u ts) := by
  induction h with
  | none => exact .nil
  | whole h => exact .cons (saysFlag_classifies h) .nil
  | halves h he _ ih =>
    rw [inPairs, if_pos he]
    exact .cons (saysFlag_classifies h) ih

theorem reportsFlags_texts {u : Bytes → Str} {es : List Spec.FlagEvent} {f : Frame} (h : ReportsFlags u es f) :
    ∃ ts, FlagTexts u f ts ∧ List.Forall₂ (fun e t => ClassifiesFlag (u t) e.1 e.2) es ts := by
  rcases h with ⟨rfl, hn⟩ | ⟨ho, ps, hps, hs⟩
  · exact ⟨[], .inr ⟨hn, rfl⟩, .nil⟩
  · exact ⟨_, .inl ⟨ho, ps, hps, rfl⟩, saysFlags_inPairs hs⟩

theorem reportsFlags_all {u : Bytes → Str} {ess : List (List Spec.FlagEvent)} {fs : List Frame}
    (h : List.Forall₂ (ReportsFlags u) ess fs) :
    ∃ tss, List.Forall₂ (FlagTexts u) fs tss ∧
      List.Forall₂ (fun e t => ClassifiesFlag (u t) e.1 e.2) ess.flatten tss.flatten := by
  induction h with
  | nil => exact ⟨[], .nil, .nil⟩
  | cons h _ ih =>
    obtain ⟨ts, h1, h2⟩ := reportsFlags_texts h
    obtain ⟨tss, h3, h4⟩ := ih
    exact ⟨ts :: tss, .cons h1 h3, List.rel_append h2 h4⟩

theorem flagCount_events {u : Bytes → Str} {es : List Spec.FlagEvent} {ts : List Bytes}
    (h : List.Forall₂ (fun e t => ClassifiesFlag (u t) e.1 e.2) es ts) (player : Str) (kind : FlagKind) :
    flagCount u ts player kind = es.count (kind, player) := by
  induction h with
  | nil => simp [flagCount]
  | @cons e t es ts h _ ih =>
    rw [← List.singleton_append, flagCount_append, flagCount_single u t e.2 e.1 h, ih, List.count_cons]
    obtain ⟨k, p⟩ := e
    simp only [beq_iff_eq, Prod.mk.injEq]
    by_cases hk : player = p ∧ kind = k
    · rw [if_pos hk, if_pos ⟨hk.2.symm, hk.1.symm⟩]
      omega
    · rw [if_neg hk, if_neg fun x => hk ⟨x.2.symm, x.1.symm⟩]
      omega

theorem exists_event {u : Bytes → Str} {es : List Spec.FlagEvent} {ts : List Bytes}
    (h : List.Forall₂ (fun e t => ClassifiesFlag (u t) e.1 e.2) es ts) (player : Str) :
    (∃ t ∈ ts, ∃ kind, ClassifiesFlag (u t) kind player) ↔ ∃ kind, (kind, player) ∈ es := by
  induction h with
  | nil => simp
  | @cons e t es ts h _ ih =>
    simp only [List.mem_cons, exists_eq_or_imp, ih, exists_or]
    refine or_congr ?_ Iff.rfl
    constructor
    · rintro ⟨k, hk⟩
      have := C29_unique _ _ _ _ _ hk h
      exact ⟨k, by rw [this.1, this.2]⟩
    · rintro ⟨k, rfl⟩
      exact ⟨k, h⟩

/-- C76: if the frames of a demo report flag events, every counter is the number of such events, and exactly the players with
an event are listed. -/
theorem C76_counts (g : Env) (data : Bytes) (fs : List Frame) (rest : Bytes) (ess : List (List Spec.FlagEvent))
    (h : Splits data fs rest) (hs : Stops data.length rest) (hr : List.Forall₂ (ReportsFlags g.toUnicode) ess fs)
    (hlt : ∀ player kind, ess.flatten.count (kind, player) < 256) :
    ∃ m, flagEventsPerPlayerName g data = .ok m ∧ ∀ player,
      ((∃ kind, (kind, player) ∈ ess.flatten) → ∃ r, m.get player = some r ∧
        r.captures = ess.flatten.count (.captured, player) ∧ r.pickups = ess.flatten.count (.got, player) ∧
        r.returns = ess.flatten.count (.returned, player) ∧ r.carrierFrags = ess.flatten.count (.assist, player) ∧
        r.defends = ess.flatten.count (.defendsFlag, player) ∧
        r.carrierDefends = ess.flatten.count (.defendsCarrier, player) ∧
        r.carrierDefendsVsAggressive = ess.flatten.count (.defendsCarrierVsAggressive, player)) ∧
      ((¬ ∃ kind, (kind, player) ∈ ess.flatten) → m.get player = none) := by
  obtain ⟨tss, ht, hc⟩ := reportsFlags_all hr
  obtain ⟨m, em, gm, nm⟩ := C30_counts g data fs rest tss h hs ht fun p k => by
    rw [flagCount_events hc]
    exact hlt p k
  refine ⟨m, em, fun player => ⟨fun hp => ⟨_, gm player ((exists_event hc player).mpr hp), ?_⟩,
    fun hp => nm player fun k => hp ((exists_event hc player).mp k)⟩⟩
  simp only [flagCount_events hc, and_self]

/-- The hypotheses are met by a frame with two events, the first in two prints, the second in one. -/
example : ∃ (fs : List Frame) (ess : List (List Spec.FlagEvent)), Splits (Spec.encode fs) fs [] ∧
    Stops (Spec.encode fs).length [] ∧ List.Forall₂ (ReportsFlags Example.debug.toUnicode) ess fs ∧
    (∀ player kind, ess.flatten.count (kind, player) < 256) ∧
    flagEventsPerPlayerName Example.debug (Spec.encode fs) =
      .ok [(chars!"b", { pickups := 1 }), (chars!"c", { pickups := 1 })] := by
  refine ⟨[Example.all (Example.high bytes!"b" ++ Example.high Example.gotFlag ++
    Example.high (bytes!"c" ++ Example.gotFlag)), Example.all [7]], [[(.got, chars!"b"), (.got, chars!"c")], []],
    (splits_whole (by decide +kernel)).1, (splits_whole (by decide +kernel)).2, ?_, ?_, by decide +kernel⟩
  · refine .cons (.inr ⟨by decide +kernel, [⟨2, bytes!"b"⟩, ⟨2, Example.gotFlag⟩, ⟨2, bytes!"c" ++ Example.gotFlag⟩], ?_, ?_⟩)
      (.cons (.inl ⟨rfl, by decide +kernel⟩) .nil)
    · exact .print (p := ⟨2, bytes!"b"⟩) (by decide +kernel) (.print (p := ⟨2, Example.gotFlag⟩) (by decide +kernel)
        (.print (p := ⟨2, bytes!"c" ++ Example.gotFlag⟩) (t := []) (by decide +kernel) .nil))
    · refine .halves (es := [(.got, chars!"c")]) ⟨by decide, _, chars!" çïô the ÂÌÕÅ flag!\n", .tail _ (.tail _ (.tail _
        (.tail _ (.head _)))), by decide +kernel, by decide +kernel⟩ ?_ (.whole ⟨by decide, _, chars!" çïô the ÂÌÕÅ flag!\n",
        .tail _ (.tail _ (.tail _ (.tail _ (.head _)))), by decide +kernel, by decide +kernel⟩)
      exact ⟨chars!" çïô the ÂÌÕÅ flag!\n", by decide +kernel, by decide +kernel⟩
  · intro p k
    exact Nat.lt_of_le_of_lt List.count_le_length (by decide)

/-- The end of a message about a defended flag. -/
def Example.defendsFlag : Bytes := chars!" defends the ÒÅÄ flag\n".map fun c => UInt8.ofNat c.toNat

/-- C76, limits: of two whole messages in one frame the second is not counted. -/
theorem C76_witness : flagEventsPerPlayerName Example.release (Spec.encode [Example.all
    (Example.high (bytes!"b" ++ Example.defendsFlag) ++ Example.high (bytes!"c" ++ Example.defendsFlag))]) = .ok [(chars!"b", { defends := 1 })] := by
  decide +kernel

end Mvd

import Verif.Spec.Hearsay
import Verif.Props.Closed
import Verif.Props.Provenance

/-! C109: a player's score depends only on what is said about them. -/

namespace Mvd
open Spec

/-- If the call returns scores at all, they are the sums of the charges, reduced to 32 bits. -/
theorem scores_of_ok (g : Env) {data : Bytes} {fs : List Frame} {rest : Bytes} {cs : List Client} {c : List (Str × Int)}
    (h : Splits data fs rest) (hs : Stops data.length rest)
    (hcs : clients g data = .ok cs ∨ ((∃ e, clients g data = .err e) ∧ cs = []) ∨
      ∀ before f later, fs = before ++ f :: later → ¬ NeedsClients g.toUnicode f later)
    (hc : Charges g.toUnicode cs fs c) {m : Map Str Int} (hm : fragsPerPlayerName g data = .ok m) (name : Str) :
    m.get name = if name ∈ c.map Prod.fst then some (Int.bmod (points c name) (2 ^ 32)) else none := by
  cases hk : g.checks
  · obtain ⟨m', e, hg⟩ := C26_release g data fs rest cs c h hs hcs hc hk
    cases e.symm.trans hm
    exact hg name
  · obtain ⟨h1, h2⟩ := C26_debug g data fs rest cs c h hs hcs hc hk
    by_cases hr : InRange c
    · obtain ⟨m', e, hg⟩ := h1 hr
      cases e.symm.trans hm
      rw [hg name]
      have := hr c (List.prefix_refl c) name
      have hb : Int.bmod (points c name) (2 ^ 32) = points c name := by
        apply Int.bmod_eq_of_le <;> norm_num <;> omega
      rw [hb]
    · cases (h2 hr).symm.trans hm

/-- Equal charges, in any order, make equal scores. -/
theorem scores_of_perm {c c' : List (Str × Int)} {name : Str}
    (h : (c.filter fun x => x.1 = name).Perm (c'.filter fun x => x.1 = name)) :
    points c name = points c' name ∧ (name ∈ c.map Prod.fst ↔ name ∈ c'.map Prod.fst) := by
  refine ⟨(h.map _).sum_eq, ?_⟩
  have key : ∀ l : List (Str × Int), name ∈ l.map Prod.fst ↔ name ∈ (l.filter fun x => x.1 = name).map Prod.fst := by
    intro l
    simp only [List.mem_map, List.mem_filter, decide_eq_true_eq]
    exact ⟨fun ⟨a, h, e⟩ => ⟨a, ⟨h, e⟩, e⟩, fun ⟨a, ⟨h, _⟩, e⟩ => ⟨a, h, e⟩⟩
  rw [key c, key c']
  exact (h.map _).mem_iff

theorem charges_concern {u : Bytes → Str} {cs : List Client} {fs : List Frame} {charges : List (Str × Int)}
    (h : Charges u cs fs charges) : ∀ who ∈ charges.map Prod.fst, Concerns u who fs := by
  induction h with
  | nil => simp
  | @cons f fs c charges h1 _ ih =>
    intro who hw
    rw [List.map_append, List.mem_append] at hw
    rcases hw with hw | hw
    · refine ⟨f, by simp, ?_⟩
      cases c with
      | none => simp at hw
      | some c =>
        simp only [Option.toList_some, List.map_cons, List.map_nil, List.mem_singleton] at hw
        subst hw
        cases h1 with
        | frag a b => exact .inl ⟨_, _, a, classifies_infix b rfl⟩
        | death a b => exact .inl ⟨_, _, a, classifies_infix b rfl⟩
        | suicide a b => exact .inl ⟨_, _, a, classifies_infix b rfl⟩
        | suicideByWeapon a b => exact .inl ⟨_, _, a, classifies_infix b rfl⟩
        | teamkill a b => exact .inl ⟨_, _, a, classifies_infix b rfl⟩
        | blamed a b _ => exact .inr ⟨_, _, _, a, b⟩
    · obtain ⟨x, hx, h⟩ := ih who hw
      exact ⟨x, by simp [hx], h⟩

/-- The charges of a player, part by part. -/
theorem charges_parts (u : Bytes → Str) (cs : List Client) (name : Str) : ∃ own : List Bytes → List (Str × Int),
    ∀ (parts : List (List Frame)) (c : List (Str × Int)), (∀ p ∈ parts, NoOpenTeamkill u p) → Charges u cs parts.flatten c →
      c.filter (fun x => x.1 = name) = (partPayloads (Concerns u name) parts).flatMap own := by
  classical
  choose all hall using charges_exists u cs
  refine ⟨fun bs => (all (bs.map fun b => ⟨0, 0, [], b⟩)).filter fun x => x.1 = name, fun parts c ho hc => ?_⟩
  have key : ∀ (l : List (List Frame)), (∀ p ∈ l, NoOpenTeamkill u p) → Charges u cs l.flatten (l.flatMap all) := by
    intro l
    induction l with
    | nil => exact fun _ => .nil
    | cons p l ih =>
      intro h
      rw [List.flatten_cons, List.flatMap_cons]
      exact charges_closed (ih fun q hq => h q (by simp [hq])) (h p (by simp)) (hall p)
  rw [charges_unique hc (key parts ho)]
  clear hc ho key
  have same : ∀ p : List Frame, all ((p.map Frame.body).map fun b => ⟨0, 0, [], b⟩) = all p := fun p =>
    charges_unique (hall _) (charges_bodies (by simp) (hall p))
  induction parts with
  | nil => rfl
  | cons p l ih =>
    unfold partPayloads at ih ⊢
    rw [List.flatMap_cons, List.filter_append, ih, List.filter_cons]
    by_cases hp : Concerns u name p
    · rw [if_pos (by simpa using hp), List.map_cons, List.flatMap_cons, same]
    · rw [if_neg (by simpa using hp)]
      have : (all p).filter (fun x => x.1 = name) = [] := by
        rw [List.filter_eq_nil_iff]
        intro x hx e
        exact hp (charges_concern (hall p) name (List.mem_map.mpr ⟨x, hx, by simpa using e⟩))
      rw [this, List.nil_append]

/-- The score of a player, when the clients are known or not needed. -/
theorem scores_parts (g : Env) {data data' : Bytes} {parts parts' : List (List Frame)} {rest rest' : Bytes} {name : Str}
    (h : Splits data parts.flatten rest) (hs : Stops data.length rest)
    (h' : Splits data' parts'.flatten rest') (hs' : Stops data'.length rest')
    (ho : ∀ p ∈ parts, NoOpenTeamkill g.toUnicode p) (ho' : ∀ p ∈ parts', NoOpenTeamkill g.toUnicode p) {cs : List Client}
    (hc : clients g data = .ok cs ∨ ((∃ e, clients g data = .err e) ∧ cs = []) ∨
      ∀ before f later, parts.flatten = before ++ f :: later → ¬ NeedsClients g.toUnicode f later)
    (hc' : clients g data' = .ok cs ∨ ((∃ e, clients g data' = .err e) ∧ cs = []) ∨
      ∀ before f later, parts'.flatten = before ++ f :: later → ¬ NeedsClients g.toUnicode f later)
    (he : (partPayloads (Concerns g.toUnicode name) parts).Perm (partPayloads (Concerns g.toUnicode name) parts'))
    {m m' : Map Str Int} (hm : fragsPerPlayerName g data = .ok m) (hm' : fragsPerPlayerName g data' = .ok m') :
    m.get name = m'.get name := by
  obtain ⟨own, hown⟩ := charges_parts g.toUnicode cs name
  obtain ⟨c, ch⟩ := charges_exists g.toUnicode cs parts.flatten
  obtain ⟨c', ch'⟩ := charges_exists g.toUnicode cs parts'.flatten
  obtain ⟨h1, h2⟩ := scores_of_perm (c := c) (c' := c') (name := name) (by
    rw [hown parts c ho ch, hown parts' c' ho' ch']
    exact he.flatMap_right own)
  rw [scores_of_ok g h hs hc ch hm, scores_of_ok g h' hs' hc' ch' hm', h1]
  simp only [h2]

/-- C109: the score of a player depends only on the parts of the demo that mention them or contain an anonymous teamkill, and
not on their order: everything else may differ. -/
theorem C109_parts (g : Env) (data data' : Bytes) (parts parts' : List (List Frame)) (rest rest' : Bytes) (name : Str)
    (h : Splits data parts.flatten rest) (hs : Stops data.length rest)
    (h' : Splits data' parts'.flatten rest') (hs' : Stops data'.length rest')
    (ho : ∀ p ∈ parts, NoOpenTeamkill g.toUnicode p) (ho' : ∀ p ∈ parts', NoOpenTeamkill g.toUnicode p)
    (cs : List Client) (hc : clients g data = .ok cs) (hc' : clients g data' = .ok cs)
    (he : (partPayloads (Concerns g.toUnicode name) parts).Perm (partPayloads (Concerns g.toUnicode name) parts'))
    (m m' : Map Str Int) (hm : fragsPerPlayerName g data = .ok m) (hm' : fragsPerPlayerName g data' = .ok m') :
    m.get name = m'.get name := by
  exact scores_parts g h hs h' hs' ho ho' (.inl hc) (.inl hc') he hm hm'

/-- C109: in a demo without anonymous teamkills, the score of a player depends only on the payloads that mention them. -/
theorem C109_frags (g : Env) (data data' : Bytes) (fs fs' : List Frame) (rest rest' : Bytes) (name : Str)
    (h : Splits data fs rest) (hs : Stops data.length rest) (h' : Splits data' fs' rest') (hs' : Stops data'.length rest')
    (hn : ∀ f ∈ fs, ¬ AnonymousTeamkill g.toUnicode f.body) (hn' : ∀ f ∈ fs', ¬ AnonymousTeamkill g.toUnicode f.body)
    (he : (payloads (fun f => SpeaksOf g.toUnicode name f.body) fs).Perm
      (payloads (fun f => SpeaksOf g.toUnicode name f.body) fs'))
    (m m' : Map Str Int) (hm : fragsPerPlayerName g data = .ok m) (hm' : fragsPerPlayerName g data' = .ok m') :
    m.get name = m'.get name := by
  classical
  have fl : ∀ l : List Frame, (l.map fun f => [f]).flatten = l := by
    intro l
    induction l with
    | nil => rfl
    | cons a l ih => simp [ih]
  have op : ∀ {l : List Frame}, (∀ f ∈ l, ¬ AnonymousTeamkill g.toUnicode f.body) →
      ∀ p ∈ l.map fun f => [f], NoOpenTeamkill g.toUnicode p := by
    intro l hl p hp before f later t mo v e ha hcl
    obtain ⟨f', hf', rfl⟩ := List.mem_map.mp hp
    have hmem : f ∈ [f'] := by rw [e]; simp
    rw [List.mem_singleton] at hmem
    subst hmem
    exact absurd ⟨t, mo, v, ha, hcl⟩ (hl f hf')
  have need : ∀ {l : List Frame}, (∀ f ∈ l, ¬ AnonymousTeamkill g.toUnicode f.body) →
      ∀ before f later, (l.map fun f => [f]).flatten = before ++ f :: later → ¬ NeedsClients g.toUnicode f later := by
    intro l hl before f later e
    rw [fl] at e
    rintro ⟨t, mo, v, ha, hcl, _⟩
    exact hl f (by rw [e]; simp) ⟨t, mo, v, ha, hcl⟩
  have pay : ∀ {l : List Frame}, (∀ f ∈ l, ¬ AnonymousTeamkill g.toUnicode f.body) →
      partPayloads (Concerns g.toUnicode name) (l.map fun f => [f]) =
        (payloads (fun f => SpeaksOf g.toUnicode name f.body) l).map fun b => [b] := by
    intro l hl
    unfold partPayloads payloads
    rw [List.filter_map, List.map_map, List.map_map]
    have : l.filter ((fun p => decide (Concerns g.toUnicode name p)) ∘ fun f => [f]) =
        l.filter fun f => decide (SpeaksOf g.toUnicode name f.body) := by
      apply List.filter_congr
      intro f hf
      simp [Concerns, hl f hf]
    rw [this]
    rfl
  exact scores_parts g (cs := []) (by rw [fl]; exact h) hs (by rw [fl]; exact h') hs' (op hn) (op hn') (.inr (.inr (need hn)))
    (.inr (.inr (need hn'))) (by rw [pay hn, pay hn']; exact he.map _) hm hm'

/-- If the call returns flag events at all, they are the numbers of texts, reduced to 8 bits. -/
theorem flags_of_ok (g : Env) {data : Bytes} {fs : List Frame} {rest : Bytes} {tss : List (List Bytes)}
    (h : Splits data fs rest) (hs : Stops data.length rest) (ht : List.Forall₂ (FlagTexts g.toUnicode) fs tss)
    {m : Map Str PlayerFlagEvents} (hm : flagEventsPerPlayerName g data = .ok m) (name : Str) :
    ((∃ t ∈ tss.flatten, ∃ kind, ClassifiesFlag (g.toUnicode t) kind name) →
      m.get name = some (flagReport fun kind => flagCount g.toUnicode tss.flatten name kind % 256)) ∧
    ((¬ ∃ t ∈ tss.flatten, ∃ kind, ClassifiesFlag (g.toUnicode t) kind name) → m.get name = none) := by
  cases hc : g.checks
  · obtain ⟨n, en, h1, h2⟩ := C30_wraps g data fs rest tss h hs ht hc
    cases en.symm.trans hm
    exact ⟨h1 name, h2 name⟩
  · have hall : ∀ p k, flagCount g.toUnicode tss.flatten p k < 256 := by
      intro p k
      by_contra hge
      cases (C30_panics g data fs rest tss h hs ht hc p k (by omega)).symm.trans hm
    obtain ⟨n, en, h1, h2⟩ := C30_counts g data fs rest tss h hs ht hall
    cases en.symm.trans hm
    refine ⟨fun hx => ?_, h2 name⟩
    rw [h1 name hx]
    exact congrArg (fun c => some (flagReport c)) (funext fun k => (Nat.mod_eq_of_lt (hall name k)).symm)

/-- C109: the flag events of a player depend only on the frames with texts about flags that begin with their name. -/
theorem C109_flags (g : Env) (data data' : Bytes) (fs fs' : List Frame) (rest rest' : Bytes) (name : Str)
    (h : Splits data fs rest) (hs : Stops data.length rest) (h' : Splits data' fs' rest') (hs' : Stops data'.length rest')
    (he : (payloads (SpeaksOfFlags g.toUnicode name) fs).Perm (payloads (SpeaksOfFlags g.toUnicode name) fs'))
    (m m' : Map Str PlayerFlagEvents) (hm : flagEventsPerPlayerName g data = .ok m)
    (hm' : flagEventsPerPlayerName g data' = .ok m') : m.get name = m'.get name := by
  classical
  choose one hone using fun b : Bytes => flagTexts_exists g.toUnicode ⟨0, 0, [], b⟩
  have hone' : ∀ f : Frame, FlagTexts g.toUnicode f (one f.body) := fun f => hone f.body
  have own : ∀ l : List Frame, (l.map fun f => one f.body).flatten.filter (fun t => decide (name <+: g.toUnicode t)) =
      (payloads (SpeaksOfFlags g.toUnicode name) l).flatMap fun b => (one b).filter fun t => decide (name <+: g.toUnicode t) := by
    intro l
    unfold payloads
    induction l with
    | nil => rfl
    | cons f l ih =>
      rw [List.map_cons, List.flatten_cons, List.filter_append, ih, List.filter_cons]
      by_cases hp : SpeaksOfFlags g.toUnicode name f
      · rw [if_pos (by simpa using hp), List.map_cons, List.flatMap_cons]
      · rw [if_neg (by simpa using hp)]
        have : (one f.body).filter (fun t => decide (name <+: g.toUnicode t)) = [] := by
          rw [List.filter_eq_nil_iff]
          intro t ht e
          exact hp ⟨_, hone' f, t, ht, by simpa using e⟩
        rw [this, List.nil_append]
  have hpre : ∀ {t kind}, ClassifiesFlag (g.toUnicode t) kind name → name <+: g.toUnicode t := by
    rintro t kind ⟨_, _, _, i, _, _, _, e⟩
    rw [e]
    exact List.take_prefix _ _
  have count : ∀ (l : List Bytes) kind, flagCount g.toUnicode l name kind =
      flagCount g.toUnicode (l.filter fun t => decide (name <+: g.toUnicode t)) name kind := by
    intro l kind
    unfold flagCount
    rw [List.filter_filter]
    congr 1
    apply List.filter_congr
    intro t _
    by_cases hc : ClassifiesFlag (g.toUnicode t) kind name
    · simp [hc, hpre hc]
    · simp [hc]
  have ex : ∀ l : List Bytes, (∃ t ∈ l, ∃ kind, ClassifiesFlag (g.toUnicode t) kind name) ↔
      ∃ t ∈ l.filter fun t => decide (name <+: g.toUnicode t), ∃ kind, ClassifiesFlag (g.toUnicode t) kind name := by
    intro l
    constructor
    · rintro ⟨t, ht, k, hk⟩
      exact ⟨t, List.mem_filter.mpr ⟨ht, by simpa using hpre hk⟩, k, hk⟩
    · rintro ⟨t, ht, k⟩
      exact ⟨t, (List.mem_filter.mp ht).1, k⟩
  have hp := he.flatMap_right fun b => (one b).filter fun t => decide (name <+: g.toUnicode t)
  rw [← own, ← own] at hp
  obtain ⟨a1, a2⟩ := flags_of_ok g h hs (forall2_map (fun f : Frame => one f.body) hone' fs) hm name
  obtain ⟨b1, b2⟩ := flags_of_ok g h' hs' (forall2_map (fun f : Frame => one f.body) hone' fs') hm' name
  have hex : (∃ t ∈ (fs.map fun f => one f.body).flatten, ∃ kind, ClassifiesFlag (g.toUnicode t) kind name) ↔
      ∃ t ∈ (fs'.map fun f => one f.body).flatten, ∃ kind, ClassifiesFlag (g.toUnicode t) kind name := by
    rw [ex, ex (fs'.map fun f => one f.body).flatten]
    constructor <;> rintro ⟨t, ht, k⟩
    · exact ⟨t, hp.mem_iff.mp ht, k⟩
    · exact ⟨t, hp.mem_iff.mpr ht, k⟩
  by_cases hx : ∃ t ∈ (fs.map fun f => one f.body).flatten, ∃ kind, ClassifiesFlag (g.toUnicode t) kind name
  · rw [a1 hx, b1 (hex.mp hx)]
    refine congrArg (fun c => some (flagReport c)) (funext fun k => ?_)
    rw [count, count (fs'.map fun f => one f.body).flatten, flagCount_perm hp]
  · rw [a2 hx, b2 fun k => hx (hex.mpr k)]

/-- C109: the ping of a player number depends only on its own samples. -/
theorem C109_pings (g : Env) (data data' : Bytes) (fs fs' : List Frame) (rest rest' : Bytes)
    (uss uss' : List (List (UInt8 × Nat))) (player : UInt8)
    (h : Splits data fs rest) (hs : Stops data.length rest) (h' : Splits data' fs' rest') (hs' : Stops data'.length rest')
    (hu : List.Forall₂ (fun f us => LeadingPings f.body us) fs uss)
    (hu' : List.Forall₂ (fun f us => LeadingPings f.body us) fs' uss')
    (he : (samplesOf (sampledPings uss) player).Perm (samplesOf (sampledPings uss') player))
    (m m' : Map UInt8 Nat) (hm : pingPerPlayerNumber g data = .ok m) (hm' : pingPerPlayerNumber g data' = .ok m') :
    m.get player = m'.get player := by
  have mem : ∀ l : List (UInt8 × Nat), player ∈ l.map Prod.fst ↔ samplesOf l player ≠ [] := by
    intro l
    unfold samplesOf
    simp [List.filter_eq_nil_iff]
  have key : ∀ {data fs rest uss m}, Splits data fs rest → Stops data.length rest →
      List.Forall₂ (fun (f : Frame) us => LeadingPings f.body us) fs uss → pingPerPlayerNumber g data = .ok m →
      m.get player = if samplesOf (sampledPings uss) player ≠ [] then
        some ((samplesOf (sampledPings uss) player).sum % 65536 / (samplesOf (sampledPings uss) player).length) else none := by
    intro data fs rest uss m h hs hu hm
    have hne : sampledPings uss ≠ [] := by
      intro h0
      obtain ⟨n, ht⟩ := totalPings_eq g h (.inl hs) hu
      unfold pingPerPlayerNumber at hm
      rw [ht] at hm
      simp only [R.bind] at hm
      rw [ping_isEmpty, if_pos (by simp [h0])] at hm
      cases hm
    cases hc : g.checks
    · obtain ⟨n, en, hg⟩ := C33_wraps g data fs rest uss h hs hu hne hc
      cases en.symm.trans hm
      rw [hg]
      simp only [mem]
    · have hall : ∀ p, (samplesOf (sampledPings uss) p).sum < 65536 := by
        intro p
        by_contra hge
        cases (C33_panics g data fs rest uss h hs hu hc p (by omega)).symm.trans hm
      obtain ⟨n, en, hg⟩ := C32_pings g data fs rest uss h hs hu hne hall
      cases en.symm.trans hm
      rw [hg, Nat.mod_eq_of_lt (hall player)]
      simp only [mem]
  rw [key h hs hu hm, key h' hs' hu' hm', he.sum_eq, he.length_eq]
  have : samplesOf (sampledPings uss) player = [] ↔ samplesOf (sampledPings uss') player = [] := by
    rw [← List.length_eq_zero_iff, he.length_eq, List.length_eq_zero_iff]
  simp only [ne_eq, this]

/-- C109: so the whole row of a player in the list of players is the same in two demos with the same clients that say the
same about this player and have the same ping samples of their number. -/
theorem C109_row (g : Env) (data data' : Bytes) (parts parts' : List (List Frame)) (rest rest' : Bytes)
    (uss uss' : List (List (UInt8 × Nat))) (cs : List Client) (player : Client)
    (h : Splits data parts.flatten rest) (hs : Stops data.length rest)
    (h' : Splits data' parts'.flatten rest') (hs' : Stops data'.length rest')
    (ho : ∀ p ∈ parts, NoOpenTeamkill g.toUnicode p) (ho' : ∀ p ∈ parts', NoOpenTeamkill g.toUnicode p)
    (hc : clients g data = .ok cs) (hc' : clients g data' = .ok cs) (hl : cs.length ≤ 256) (hin : player ∈ cs)
    (hplays : player.isSpectator = false)
    (he : (partPayloads (Concerns g.toUnicode player.name) parts).Perm (partPayloads (Concerns g.toUnicode player.name) parts'))
    (hu : List.Forall₂ (fun f us => LeadingPings f.body us) parts.flatten uss)
    (hu' : List.Forall₂ (fun f us => LeadingPings f.body us) parts'.flatten uss')
    (hsame : (samplesOf (sampledPings uss) (UInt8.ofNat player.number)).Perm
      (samplesOf (sampledPings uss') (UInt8.ofNat player.number)))
    (l l' : List Player) (hp : playersFromParsing g data = .ok l) (hp' : playersFromParsing g data' = .ok l') :
    ∃ row, row ∈ l ∧ row ∈ l' ∧ row.name = player.name ∧ row.team = player.team ∧
      row.color = player.color := by
  obtain ⟨cs1, pings, frags, e1, ep, ef⟩ := (C45_failure g data).2.2 l hp
  obtain ⟨cs2, pings', frags', e2, ep', ef'⟩ := (C45_failure g data').2.2 l' hp'
  cases e1.symm.trans hc
  cases e2.symm.trans hc'
  have hfr := C109_parts g data data' parts parts' rest rest' player.name h hs h' hs' ho ho' cs hc hc' he frags frags' ef ef'
  have hpi := C109_pings g data data' parts.flatten parts'.flatten rest rest' uss uss' (UInt8.ofNat player.number) h hs h' hs' hu hu'
    hsame pings pings' ep ep'
  have row : ∀ {data pings frags l}, clients g data = .ok cs → pingPerPlayerNumber g data = .ok pings →
      fragsPerPlayerName g data = .ok frags → playersFromParsing g data = .ok l →
      ∃ p ∈ l, FromClient frags.get pings.get player p := by
    intro data pings frags l hc ep ef hp
    obtain ⟨ps, l1, hps, e, hperm, _⟩ := C45_from_messages g data cs pings frags hc ep ef
    cases e.symm.trans hp
    rw [C45_all g data cs hc hl] at hps
    obtain ⟨p, hpm, hf⟩ := forall2_mem_left hps (List.mem_filter.mpr ⟨hin, by simpa using hplays⟩)
    exact ⟨p, hperm.mem_iff.mpr hpm, hf⟩
  obtain ⟨p, hpm, k⟩ := row hc ep ef hp
  obtain ⟨p', hpm', k'⟩ := row hc' ep' ef' hp'
  have : p = p' := by
    obtain ⟨n, t, c, f, pi, b, a, cc⟩ := p
    obtain ⟨n', t', c', f', pi', b', a', cc'⟩ := p'
    obtain ⟨k1, k2, k3, k4, k5, k6, k7, k8⟩ := k
    obtain ⟨j1, j2, j3, j4, j5, j6, j7, j8⟩ := k'
    rw [← hfr] at j7
    rw [← hpi] at j8
    dsimp only at k1 k2 k3 k4 k5 k6 k7 k8 j1 j2 j3 j4 j5 j6 j7 j8
    rw [k1, k2, k3, k4, k5, k6, k7, k8, j1, j2, j3, j4, j5, j6, j7, j8]
  subst this
  exact ⟨p, hpm, hpm', k.1, k.2.1, k.2.2.1⟩

theorem speaksOf_iff {u : Bytes → Str} {name : Str} {p : PrintMsg} {body more : Bytes} (hp : p.WF) (h1 : p.level = 1)
    (ht : p.text ≠ []) (e : body = p.encode ++ more) : SpeaksOf u name body ↔ name <:+: trimEnd (u p.text) := by
  have ha : Announces u body (trimEnd (u p.text)) more := ⟨p, hp, h1, ht, e, trimEnd_trims _⟩
  constructor
  · rintro ⟨text, more', ha', hi⟩
    obtain ⟨rfl, _⟩ := announces_unique ha' ha
    exact hi
  · exact fun hi => ⟨_, _, ha, hi⟩

/-- `zed` kills themselves in two matches that have nothing else in common. -/
def Example.zed : List Frame := [Example.all (Example.medium bytes!"b was nailed by c\n"),
  Example.all (Example.medium bytes!"zed suicides\n")]

/-- The other match. -/
def Example.zed' : List Frame := [Example.all (Example.medium bytes!"zed suicides\n"), ⟨7, 1, [], Example.medium bytes!"d died\n"⟩,
  Example.all (Example.medium bytes!"c suicides\n")]

theorem Example.zed_payloads : payloads (fun f => SpeaksOf Example.debug.toUnicode chars!"zed" f.body) Example.zed =
    [Example.medium bytes!"zed suicides\n"] ∧
    payloads (fun f => SpeaksOf Example.debug.toUnicode chars!"zed" f.body) Example.zed' = [Example.medium bytes!"zed suicides\n"] := by
  have key : ∀ text : Bytes, text ≠ [] → (0 : UInt8) ∉ text →
      (SpeaksOf Example.debug.toUnicode chars!"zed" (Example.medium text) ↔ chars!"zed" <:+: trimEnd (Example.debug.toUnicode text)) :=
    fun text h0 hz => speaksOf_iff (p := ⟨1, text⟩) (more := []) hz rfl h0 (by simp [Example.medium, PrintMsg.encode])
  have k1 := key bytes!"zed suicides\n" (by decide) (by decide)
  have k2 := key bytes!"b was nailed by c\n" (by decide) (by decide)
  have k3 := key bytes!"d died\n" (by decide) (by decide)
  have k4 := key bytes!"c suicides\n" (by decide) (by decide)
  have y1 := k1.mpr (by decide +kernel)
  have y2 := mt k2.mp (by decide +kernel)
  have y3 := mt k3.mp (by decide +kernel)
  have y4 := mt k4.mp (by decide +kernel)
  constructor
  · simp only [payloads, Example.zed, Example.all, List.filter_cons, y1, y2, List.filter_nil, decide_true, decide_false]
    rfl
  · simp only [payloads, Example.zed', Example.all, List.filter_cons, y1, y3, y4, List.filter_nil, decide_true, decide_false]
    rfl

/-- The hypotheses are met by two matches of `zed`: the score is the same in both. -/
example : (∀ f ∈ Example.zed ++ Example.zed', f.WF ∧ ¬ AnonymousTeamkill Example.debug.toUnicode f.body) ∧
    payloads (fun f => SpeaksOf Example.debug.toUnicode chars!"zed" f.body) Example.zed =
      payloads (fun f => SpeaksOf Example.debug.toUnicode chars!"zed" f.body) Example.zed' ∧
    fragsPerPlayerName Example.debug (Spec.encode Example.zed) = .ok [(chars!"c", 1), (chars!"zed", -2)] ∧
    fragsPerPlayerName Example.debug (Spec.encode Example.zed') = .ok [(chars!"zed", -2), (chars!"d", -1), (chars!"c", -2)] := by
  refine ⟨?_, by rw [Example.zed_payloads.1, Example.zed_payloads.2], by decide +kernel, by decide +kernel⟩
  intro f hf
  refine ⟨(by decide +kernel : ∀ f ∈ Example.zed ++ Example.zed', f.WF) f hf, ?_⟩
  rintro ⟨text, more, v, ha, hc⟩
  simp only [Example.zed, Example.zed', List.cons_append, List.nil_append, List.mem_cons, List.not_mem_nil, or_false] at hf
  rcases hf with rfl | rfl | rfl | rfl | rfl
  · exact notAnonymous_of_event (p := ⟨1, bytes!"b was nailed by c\n"⟩) (more := []) (o := .frag chars!"c" chars!"b") (by decide)
      rfl (by decide) (by decide) (by decide +kernel) (by intro v h; cases h) text more v ha hc
  · exact notAnonymous_of_event (p := ⟨1, bytes!"zed suicides\n"⟩) (more := []) (o := .suicide chars!"zed") (by decide)
      rfl (by decide) (by decide) (by decide +kernel) (by intro v h; cases h) text more v ha hc
  · exact notAnonymous_of_event (p := ⟨1, bytes!"zed suicides\n"⟩) (more := []) (o := .suicide chars!"zed") (by decide)
      rfl (by decide) (by decide) (by decide +kernel) (by intro v h; cases h) text more v ha hc
  · exact notAnonymous_of_event (p := ⟨1, bytes!"d died\n"⟩) (more := []) (o := .death chars!"d") (by decide)
      rfl (by decide) (by decide) (by decide +kernel) (by intro v h; cases h) text more v ha hc
  · exact notAnonymous_of_event (p := ⟨1, bytes!"c suicides\n"⟩) (more := []) (o := .suicide chars!"c") (by decide)
      rfl (by decide) (by decide) (by decide +kernel) (by intro v h; cases h) text more v ha hc

/-- The hypotheses of C109_parts are met: after two different beginnings, `b` (number 1) is blamed for the same anonymous
teamkill. -/
example : let a := Example.ambushFrames.take 6
    let x := [Example.all (Example.medium bytes!"c died\n")]
    let x' := [Example.all (Example.medium bytes!"c suicides\n")]
    (∀ p ∈ [x, a, x'], (∀ f ∈ p, f.WF) ∧ NoOpenTeamkill Example.debug.toUnicode p) ∧
    clients Example.debug (Spec.encode [x, a].flatten) = .ok Example.team ∧
    clients Example.debug (Spec.encode [a, x'].flatten) = .ok Example.team ∧
    (partPayloads (Concerns Example.debug.toUnicode chars!"b") [x, a]).Perm
      (partPayloads (Concerns Example.debug.toUnicode chars!"b") [a, x']) ∧
    fragsPerPlayerName Example.debug (Spec.encode [x, a].flatten) = .ok [(chars!"c", -1), (chars!"a", 1), (chars!"b", -1)] ∧
    fragsPerPlayerName Example.debug (Spec.encode [a, x'].flatten) = .ok [(chars!"a", 1), (chars!"b", -1), (chars!"c", -2)] := by
  intro a x x'
  have nx : NotAnonymous Example.debug.toUnicode (Example.all (Example.medium bytes!"c died\n")) :=
    notAnonymous_of_event (p := ⟨1, bytes!"c died\n"⟩) (more := []) (o := .death chars!"c") (by decide)
      rfl (by decide) (by decide) (by decide +kernel) (by intro v h; cases h)
  have nx' : NotAnonymous Example.debug.toUnicode (Example.all (Example.medium bytes!"c suicides\n")) :=
    notAnonymous_of_event (p := ⟨1, bytes!"c suicides\n"⟩) (more := []) (o := .suicide chars!"c") (by decide)
      rfl (by decide) (by decide) (by decide +kernel) (by intro v h; cases h)
  have op : ∀ f : Frame, NotAnonymous Example.debug.toUnicode f → NoOpenTeamkill Example.debug.toUnicode [f] := by
    intro f hf before f' later t m v e ha hc
    have : f' ∈ [f] := by rw [e]; simp
    rw [List.mem_singleton] at this
    subst this
    exact absurd hc (hf t m v ha)
  have cx : ¬ Concerns Example.debug.toUnicode chars!"b" x := by
    rintro ⟨f, hf, h⟩
    rw [List.mem_singleton] at hf
    subst hf
    rcases h with h | ⟨t, m, v, ha, hc⟩
    · exact absurd ((speaksOf_iff (p := ⟨1, bytes!"c died\n"⟩) (more := []) (by decide) rfl (by decide) (by decide)).mp h)
        (by decide +kernel)
    · exact nx t m v ha hc
  have cx' : ¬ Concerns Example.debug.toUnicode chars!"b" x' := by
    rintro ⟨f, hf, h⟩
    rw [List.mem_singleton] at hf
    subst hf
    rcases h with h | ⟨t, m, v, ha, hc⟩
    · exact absurd ((speaksOf_iff (p := ⟨1, bytes!"c suicides\n"⟩) (more := []) (by decide) rfl (by decide) (by decide)).mp h)
        (by decide +kernel)
    · exact nx' t m v ha hc
  refine ⟨?_, by decide +kernel, by decide +kernel, ?_, by decide +kernel, by decide +kernel⟩
  · intro p hp
    simp only [List.mem_cons, List.not_mem_nil, or_false] at hp
    rcases hp with rfl | rfl | rfl
    · exact ⟨by decide +kernel, op _ nx⟩
    · exact ⟨by decide +kernel, Example.ambush_closed⟩
    · exact ⟨by decide +kernel, op _ nx'⟩
  · have : partPayloads (Concerns Example.debug.toUnicode chars!"b") [x, a] =
        partPayloads (Concerns Example.debug.toUnicode chars!"b") [a, x'] := by
      clear_value a x x'
      simp [partPayloads, List.filter_cons, cx, cx']
    rw [this]

/-- The hypotheses of C109_pings are met: another player's pings come and go, those of number 3 arrive in another order. -/
example : let fs' := [Example.all (Example.ping 3 1 1), Example.all (Example.ping 7 9 0 ++ Example.ping 3 0 1)]
    ∃ uss uss', List.Forall₂ (fun (f : Frame) us => LeadingPings f.body us) Example.pingFrames uss ∧
    List.Forall₂ (fun (f : Frame) us => LeadingPings f.body us) fs' uss' ∧
    (samplesOf (sampledPings uss) 3).Perm (samplesOf (sampledPings uss') 3) ∧
    pingPerPlayerNumber Example.debug (Spec.encode Example.pingFrames) = .ok [(0, 25), (3, 256)] ∧
    pingPerPlayerNumber Example.debug (Spec.encode fs') = .ok [(3, 256), (7, 9)] := by
  intro fs'
  have hnil : NoPing [] := by intro n lo hi x t h; cases h
  exact ⟨_, [[(3, 257)], [(7, 9), (3, 256)]], Example.pingFrames_updates,
    .cons (.step (.stop hnil)) (.cons (.step (.step (.stop hnil))) .nil), by decide, by decide +kernel, by decide +kernel⟩

theorem speaksOfFlags_iff {u : Bytes → Str} {name : Str} {f : Frame} {texts : List Bytes} (h : FlagTexts u f texts) :
    SpeaksOfFlags u name f ↔ ∃ t ∈ texts, name <+: u t :=
  ⟨fun ⟨_, h', k⟩ => flagTexts_unique h' h ▸ k, fun k => ⟨texts, h, k⟩⟩

/-- The hypotheses of C109_flags are met: `b` picks up a flag in two demos, `a` and `c` only in one of them. -/
example : let b := Example.all (Example.high (bytes!"b" ++ Example.gotFlag))
    let a := Example.all (Example.high (bytes!"a" ++ Example.gotFlag))
    let c := Example.all (Example.high (bytes!"c" ++ Example.gotFlag))
    payloads (SpeaksOfFlags Example.debug.toUnicode chars!"b") [a, b] = [b.body] ∧
    payloads (SpeaksOfFlags Example.debug.toUnicode chars!"b") [b, c] = [b.body] ∧
    flagEventsPerPlayerName Example.debug (Spec.encode [a, b]) =
      .ok [(chars!"a", { pickups := 1 }), (chars!"b", { pickups := 1 })] ∧
    flagEventsPerPlayerName Example.debug (Spec.encode [b, c]) =
      .ok [(chars!"b", { pickups := 1 }), (chars!"c", { pickups := 1 })] := by
  intro b a c
  have one : ∀ text : Bytes, (0 : UInt8) ∉ text → text ≠ [] → Occurs bytes!"flag" (Example.high text) →
      FlagTexts Example.debug.toUnicode (Example.all (Example.high text)) [text] := by
    intro text hz hne ho
    refine .inl ⟨ho, [⟨2, text⟩], ?_, by simp [hne, inPairs]⟩
    have : (Example.all (Example.high text)).body = (⟨2, text⟩ : PrintMsg).encode ++ [] := by
      simp [Example.all, Example.high, PrintMsg.encode]
    rw [this]
    exact .print hz .nil
  have sb : SpeaksOfFlags Example.debug.toUnicode chars!"b" b :=
    (speaksOfFlags_iff (one _ (by decide) (by decide) (by decide +kernel))).mpr (by decide +kernel)
  have sa : ¬ SpeaksOfFlags Example.debug.toUnicode chars!"b" a :=
    mt (speaksOfFlags_iff (one _ (by decide) (by decide) (by decide +kernel))).mp (by decide +kernel)
  have sc : ¬ SpeaksOfFlags Example.debug.toUnicode chars!"b" c :=
    mt (speaksOfFlags_iff (one _ (by decide) (by decide) (by decide +kernel))).mp (by decide +kernel)
  refine ⟨?_, ?_, by decide +kernel, by decide +kernel⟩
  · clear_value a b c
    simp [payloads, sa, sb]
  · clear_value a b c
    simp [payloads, sb, sc]

/-- The other hypotheses of C109_row are met by the same two demos: the rows of `b` are equal, that of `c` is not. -/
example : let a := Example.ambushFrames.take 6
    let x := [Example.all (Example.medium bytes!"c died\n")]
    let x' := [Example.all (Example.medium bytes!"c suicides\n")]
    (∃ uss uss', List.Forall₂ (fun (f : Frame) us => LeadingPings f.body us) [x, a].flatten uss ∧
      List.Forall₂ (fun (f : Frame) us => LeadingPings f.body us) [a, x'].flatten uss' ∧ sampledPings uss = sampledPings uss') ∧
    (∃ player ∈ Example.team, player.name = chars!"b" ∧ player.isSpectator = false) ∧
    ∃ l l', playersFromParsing Example.debug (Spec.encode [x, a].flatten) = .ok l ∧
      playersFromParsing Example.debug (Spec.encode [a, x'].flatten) = .ok l' ∧
      l.map (fun p => (p.name, p.frags, p.ping)) = [(chars!"a", 1, 25), (chars!"b", -1, 0), (chars!"c", -1, 300)] ∧
      l'.map (fun p => (p.name, p.frags, p.ping)) = [(chars!"a", 1, 25), (chars!"b", -1, 0), (chars!"c", -2, 300)] := by
  intro a x x'
  have hnil : NoPing [] := by intro n lo hi x t h; cases h
  have h0 : ∀ b t, b ≠ 36 → NoPing (b :: t) := by
    intro b t hb n lo hi x t' h
    cases h
    exact hb rfl
  have rows : ∀ {r : R (List Player)} {rs : List (Str × Int × Nat)}, (match r with
      | .ok l => some (l.map fun p => (p.name, p.frags, p.ping))
      | _ => none) = some rs → ∃ l, r = .ok l ∧ l.map (fun p => (p.name, p.frags, p.ping)) = rs := by
    intro r rs h
    cases r with
    | ok l => exact ⟨l, rfl, by simpa using h⟩
    | _ => cases h
  obtain ⟨l, h1, h2⟩ := rows (r := playersFromParsing Example.debug (Spec.encode [x, a].flatten))
    (rs := [(chars!"a", 1, 25), (chars!"b", -1, 0), (chars!"c", -1, 300)]) (by decide +kernel)
  obtain ⟨l', h1', h2'⟩ := rows (r := playersFromParsing Example.debug (Spec.encode [a, x'].flatten))
    (rs := [(chars!"a", 1, 25), (chars!"b", -1, 0), (chars!"c", -2, 300)]) (by decide +kernel)
  refine ⟨⟨[[], [], [(0, 25), (2, 300)], [], [], [], []], [[], [(0, 25), (2, 300)], [], [], [], [], []], ?_, ?_, by decide⟩,
    by decide +kernel, l, l', h1, h1', h2, h2'⟩
  · exact .cons (.stop (h0 8 _ (by decide))) (.cons (.stop (h0 9 _ (by decide))) (.cons (.step (.step (.stop hnil)))
      (.cons (.stop (h0 8 _ (by decide))) (.cons (.stop (h0 8 _ (by decide))) (.cons (.stop (h0 14 _ (by decide)))
      (.cons (.stop (h0 14 _ (by decide))) .nil))))))
  · exact .cons (.stop (h0 9 _ (by decide))) (.cons (.step (.step (.stop hnil)))
      (.cons (.stop (h0 8 _ (by decide))) (.cons (.stop (h0 8 _ (by decide))) (.cons (.stop (h0 14 _ (by decide)))
      (.cons (.stop (h0 14 _ (by decide))) (.cons (.stop (h0 8 _ (by decide))) .nil))))))

end Mvd

import Verif.Lemmas.Frame
import Verif.Spec.Messages
import Verif.Model.Prints
import Verif.Model.Flags
import Verif.Model.Ping

/-! Message readers and the loops over the messages of one frame body. -/

namespace Mvd
open Spec (PrintMsg NoPrint LeadingPrints NoPing LeadingPings AllPrints)

/-! ### Strings and prints -/

theorem bstringLoop_some : ∀ (text acc t : Bytes), (0 : UInt8) ∉ text →
    Cursor.bstringLoop acc (text ++ 0 :: t) = (some (acc ++ text), text.length + 1)
  | [], acc, t, _ => by simp [Cursor.bstringLoop]
  | b :: text, acc, t, h => by
    simp only [List.mem_cons, not_or] at h
    have hb : ¬ b = 0 := fun e => h.1 e.symm
    simp [Cursor.bstringLoop, hb, bstringLoop_some text (acc ++ [b]) t h.2]

theorem bstringLoop_none : ∀ (l acc : Bytes), (0 : UInt8) ∉ l → Cursor.bstringLoop acc l = (none, l.length)
  | [], acc, _ => by simp [Cursor.bstringLoop]
  | b :: l, acc, h => by
    simp only [List.mem_cons, not_or] at h
    have hb : ¬ b = 0 := fun e => h.1 e.symm
    simp [Cursor.bstringLoop, hb, bstringLoop_none l (acc ++ [b]) h.2]

theorem split_zero {l : Bytes} (h : (0 : UInt8) ∈ l) : ∃ a b, l = a ++ 0 :: b ∧ (0 : UInt8) ∉ a := by
  induction l with
  | nil => simp at h
  | cons x l ih =>
    by_cases hx : x = 0
    · exact ⟨[], l, by simp [hx], by simp⟩
    · have hm : (0 : UInt8) ∈ l := by
        simp only [List.mem_cons] at h
        rcases h with h | h
        · exact absurd h.symm hx
        · exact h
      obtain ⟨a, b, rfl, ha⟩ := ih hm
      exact ⟨x :: a, b, by simp, by simp [ha]; exact fun e => hx e.symm⟩

theorem readBstring_some (p : Nat) (text t : Bytes) (h : (0 : UInt8) ∉ text) :
    (Cursor.mk p (text ++ 0 :: t)).readBstring = (some text, ⟨p + (text.length + 1), t⟩) := by
  simp [Cursor.readBstring, bstringLoop_some text [] t h, Cursor.skip, List.drop_append]

theorem readBstring_none (p : Nat) (l : Bytes) (h : (0 : UInt8) ∉ l) :
    (Cursor.mk p l).readBstring = (none, ⟨p + l.length, []⟩) := by
  simp [Cursor.readBstring, bstringLoop_none l [] h, Cursor.skip]

theorem printId_eq (p : PrintMsg) : PrintId.ofByte p.level = p.id := by
  unfold PrintId.ofByte PrintMsg.id
  have e (n : Nat) (hn : n < 256) : (p.level = UInt8.ofNat n) ↔ p.level.toNat = n := by
    rw [← UInt8.toNat_inj, UInt8.toNat_ofNat']
    simp [Nat.mod_eq_of_lt hn]
  have e0 := e 0 (by omega); have e1 := e 1 (by omega); have e2 := e 2 (by omega); have e3 := e 3 (by omega)
  simp only [UInt8.reduceOfNat] at e0 e1 e2 e3
  simp only [e0, e1, e2, e3]
  split
  · simp_all
  · simp_all
  · simp_all
  · simp_all
  · rename_i h0 h1 h2 h3
    rw [if_neg h0, if_neg h1, if_neg h2, if_neg h3]

theorem readPrint_some (g : Env) (p : PrintMsg) (hp : p.WF) (pos : Nat) (t : Bytes) :
    (Cursor.mk pos (p.level :: (p.text ++ 0 :: t))).readPrint g =
      (some p.reported, ⟨pos + 1 + (p.text.length + 1), t⟩) := by
  simp [Cursor.readPrint, readByte_cons, readBstring_some _ _ _ hp, PrintMsg.reported, printId_eq]

theorem encode_eq (p : PrintMsg) (t : Bytes) : p.encode ++ t = 8 :: p.level :: (p.text ++ 0 :: t) := by
  simp [PrintMsg.encode]

theorem noPrint_cons_iff {b : UInt8} {t : Bytes} : NoPrint (b :: t) ↔ b ≠ 8 ∨ t = [] ∨ (0 : UInt8) ∉ t.tail := by
  constructor
  · intro h
    by_cases hb : b = 8
    · right
      cases t with
      | nil => simp
      | cons l t =>
        right
        intro hm
        obtain ⟨a, c, e, ha⟩ := split_zero hm
        simp only [List.tail_cons] at e
        exact h ⟨l, a⟩ c ha (by rw [encode_eq]; simp [e, hb])
    · exact .inl hb
  · rintro h p t' hp e
    rw [encode_eq] at e
    simp only [List.cons.injEq] at e
    obtain ⟨rfl, rfl⟩ := e
    simp at h

theorem noPrint_nil : NoPrint [] := by
  rintro p t - e
  rw [encode_eq] at e
  simp at e

/-- A print message that is not complete: the read fails with everything consumed. -/
theorem readPrint_none (g : Env) (pos : Nat) (t : Bytes) (h : NoPrint (8 :: t)) :
    ∃ q, (Cursor.mk pos t).readPrint g = (none, ⟨q, []⟩) := by
  rw [noPrint_cons_iff] at h
  cases t with
  | nil => exact ⟨pos, by simp [Cursor.readPrint, readByte_nil]⟩
  | cons l t =>
    simp at h
    exact ⟨pos + 1 + t.length, by simp [Cursor.readPrint, readByte_cons, readBstring_none _ _ h]⟩

theorem ofByte_print {b : UInt8} : MessageType.ofByte b = .print ↔ b = 8 := by
  constructor
  · intro h
    apply UInt8.toNat_inj.mp
    unfold MessageType.ofByte at h
    split at h <;> first | assumption | cases h
  · rintro rfl; rfl

theorem ofByte_updatePing {b : UInt8} : MessageType.ofByte b = .updatePing ↔ b = 36 := by
  constructor
  · intro h
    apply UInt8.toNat_inj.mp
    unfold MessageType.ofByte at h
    split at h <;> first | assumption | cases h
  · rintro rfl; rfl

theorem ofByte_updateFrags {b : UInt8} : MessageType.ofByte b = .updateFrags ↔ b = 14 := by
  constructor
  · intro h
    apply UInt8.toNat_inj.mp
    unfold MessageType.ofByte at h
    split at h <;> first | assumption | cases h
  · rintro rfl; rfl

theorem readMessageType_nil (g : Env) (p : Nat) : (Cursor.mk p []).readMessageType g = (none, ⟨p, []⟩) := by
  simp [Cursor.readMessageType, readByte_nil]

theorem readMessageType_cons (g : Env) (p : Nat) (b : UInt8) (t : Bytes) :
    (Cursor.mk p (b :: t)).readMessageType g = (some (MessageType.ofByte b), ⟨p + 1, t⟩) := by
  simp [Cursor.readMessageType, readByte_cons]

/-! ### Leading prints -/

theorem leadingPrints_exists : ∀ (n : Nat) (body : Bytes), body.length ≤ n → ∃ ps, LeadingPrints body ps
  | 0, body, h => by
    have : body = [] := List.length_eq_zero_iff.mp (by omega)
    subst this
    exact ⟨[], [], by simp, by simp, noPrint_nil⟩
  | n + 1, body, h => by
    by_cases hn : NoPrint body
    · exact ⟨[], body, by simp, by simp, hn⟩
    · simp only [NoPrint, not_forall, ne_eq, not_not] at hn
      obtain ⟨p, t, hp, rfl⟩ := hn
      obtain ⟨ps, rem, h1, h2, h3⟩ := leadingPrints_exists n t (by simp [PrintMsg.encode] at h; omega)
      refine ⟨p :: ps, rem, by simp [h1], ?_, h3⟩
      intro q hq
      simp only [List.mem_cons] at hq
      rcases hq with rfl | hq
      · exact hp
      · exact h2 q hq

theorem print_encode_inj {p q : PrintMsg} {t u : Bytes} (hp : p.WF) (hq : q.WF) (h : p.encode ++ t = q.encode ++ u) :
    p = q ∧ t = u := by
  rw [encode_eq, encode_eq] at h
  simp only [List.cons.injEq, true_and] at h
  obtain ⟨h1, h2⟩ := h
  have : p.text = q.text ∧ t = u := by
    obtain ⟨l, a⟩ := p
    obtain ⟨l', b⟩ := q
    simp only [PrintMsg.WF] at hp hq h2
    clear h1
    induction a generalizing b with
    | nil =>
      cases b with
      | nil => simpa using h2
      | cons y b => simp at h2 hq; exact absurd h2.1 hq.1
    | cons x a ih =>
      cases b with
      | nil => simp at h2 hp; exact absurd h2.1.symm hp.1
      | cons y b =>
        simp only [List.cons_append, List.cons.injEq] at h2
        simp only [List.mem_cons, not_or] at hp hq
        have := ih hp.2 b hq.2 h2.2
        simp_all
  refine ⟨?_, this.2⟩
  cases p; cases q; simp_all

theorem leadingPrints_unique : ∀ {body : Bytes} {ps qs : List PrintMsg}, LeadingPrints body ps → LeadingPrints body qs →
    ps = qs
  | body, [], [], _, _ => rfl
  | body, [], q :: qs, ⟨r, e, _, hn⟩, ⟨r', e', h', _⟩ => by
    simp at e e'
    exact absurd (e.symm.trans e') (hn q _ (h' q (by simp)))
  | body, p :: ps, [], ⟨r, e, h, _⟩, ⟨r', e', _, hn'⟩ => by
    simp at e e'
    exact absurd (e'.symm.trans e) (hn' p _ (h p (by simp)))
  | body, p :: ps, q :: qs, ⟨r, e, h, hn⟩, ⟨r', e', h', hn'⟩ => by
    simp only [List.flatMap_cons, List.append_assoc] at e e'
    obtain ⟨rfl, e2⟩ := print_encode_inj (h p (by simp)) (h' q (by simp)) (e.symm.trans e')
    have := leadingPrints_unique (body := ps.flatMap PrintMsg.encode ++ r) (ps := ps) (qs := qs)
      ⟨r, rfl, fun x hx => h x (by simp [hx]), hn⟩ ⟨r', e2, fun x hx => h' x (by simp [hx]), hn'⟩
    rw [this]

theorem printsBody_noPrint (g : Env) {rem : Bytes} (hn : NoPrint rem) (fuel pos : Nat) (acc : List Print)
    (hf : rem.length < fuel) : printsBody g fuel ⟨pos, rem⟩ acc = .ok acc := by
  cases fuel with
  | zero => omega
  | succ fuel =>
    cases rem with
    | nil => simp [printsBody, readMessageType_nil]
    | cons b t =>
      simp only [printsBody, readMessageType_cons, ofByte_print]
      by_cases hb : b = 8
      · subst hb
        obtain ⟨q, hq⟩ := readPrint_none g (pos + 1) t hn
        simp only [if_true, hq]
        cases fuel with
        | zero => simp at hf
        | succ fuel => simp [printsBody, readMessageType_nil]
      · simp [hb]

/-- The prints of one frame body. -/
theorem printsBody_eq (g : Env) : ∀ (ps : List PrintMsg) (rem : Bytes) (fuel pos : Nat) (acc : List Print),
    (∀ p ∈ ps, p.WF) → NoPrint rem → (ps.flatMap PrintMsg.encode ++ rem).length < fuel →
    printsBody g fuel ⟨pos, ps.flatMap PrintMsg.encode ++ rem⟩ acc =
      .ok (acc ++ (ps.filter fun p => !p.text.isEmpty).map PrintMsg.reported)
  | [], rem, fuel, pos, acc, _, hn, hf => by
    simpa using printsBody_noPrint g hn fuel pos acc (by simpa using hf)
  | p :: ps, rem, 0, pos, acc, _, _, hf => by omega
  | p :: ps, rem, fuel + 1, pos, acc, hp, hn, hf => by
    have hl : ((p :: ps).flatMap PrintMsg.encode ++ rem) = p.encode ++ (ps.flatMap PrintMsg.encode ++ rem) := by simp
    have hf' : (ps.flatMap PrintMsg.encode ++ rem).length < fuel := by
      rw [hl] at hf
      simp [PrintMsg.encode] at hf ⊢
      omega
    rw [hl, encode_eq]
    simp only [printsBody, readMessageType_cons, ofByte_print, if_true, readPrint_some g p (hp p (by simp))]
    rw [printsBody_eq g ps rem fuel _ _ (fun q hq => hp q (by simp [hq])) hn hf']
    by_cases ht : p.text = []
    · simp [PrintMsg.reported, ht]
    · simp [PrintMsg.reported, ht]

/-! ### Leading pings -/

theorem leadingPings_exists : ∀ (n : Nat) (body : Bytes), body.length ≤ n → ∃ us, LeadingPings body us
  | 0, body, h => by
    have : body = [] := List.length_eq_zero_iff.mp (by omega)
    subst this
    exact ⟨[], .stop (by simp [NoPing])⟩
  | n + 1, body, h => by
    by_cases hn : NoPing body
    · exact ⟨[], .stop hn⟩
    · simp only [NoPing, not_forall, ne_eq, not_not] at hn
      obtain ⟨k, lo, hi, x, t, rfl⟩ := hn
      obtain ⟨us, hu⟩ := leadingPings_exists n (t.drop 2) (by simp at h ⊢; omega)
      exact ⟨_, .step hu⟩

theorem leadingPings_unique {body : Bytes} {us vs : List (UInt8 × Nat)} (h : LeadingPings body us)
    (k : LeadingPings body vs) : us = vs := by
  induction h generalizing vs with
  | stop hn =>
    cases k with
    | stop => rfl
    | step => exact absurd rfl (hn _ _ _ _ _)
  | step h ih =>
    cases k with
    | stop hn => exact absurd rfl (hn _ _ _ _ _)
    | step k => rw [ih k]

/-- The ping table after one more update. -/
def addPing (total : Map UInt8 (List Nat)) (u : UInt8 × Nat) : Map UInt8 (List Nat) :=
  total.set u.1 ((total.get u.1).getD [] ++ [u.2])

theorem readUpdatePing_some (g : Env) (pos : Nat) (n lo hi x : UInt8) (t : Bytes) :
    (Cursor.mk pos (n :: lo :: hi :: x :: t)).readUpdatePing g =
      (some ⟨n, lo.toNat + 256 * hi.toNat⟩, ⟨pos + 1 + 2 + 1, t⟩) := by
  simp [Cursor.readUpdatePing, readByte_cons, readU16_cons]

theorem readUpdatePing_none (g : Env) (pos : Nat) (t : Bytes) (h : t.length < 4) :
    ∃ c, (Cursor.mk pos t).readUpdatePing g = (none, c) ∧ c.rest.length < 2 ∧ c.rest.length ≤ t.length - 1 := by
  match t with
  | [] => simp [Cursor.readUpdatePing, readByte_nil]
  | [a] =>
    cases he : g.eofSeek <;> simp [Cursor.readUpdatePing, readByte_cons, Cursor.readU16, Cursor.readExact, he, Cursor.skip]
  | [a, b] =>
    cases he : g.eofSeek <;> simp [Cursor.readUpdatePing, readByte_cons, Cursor.readU16, Cursor.readExact, he, Cursor.skip]
  | [a, b, c] => simp [Cursor.readUpdatePing, readByte_cons, readU16_cons, readByte_nil]
  | a :: b :: c :: d :: t => simp at h; omega

theorem pingBody_short (g : Env) (r : Bytes) (fuel pos : Nat) (total : Map UInt8 (List Nat)) (did : Bool)
    (h : r.length < 2) (hf : r.length < fuel) :
    pingBody g fuel ⟨pos, r⟩ total did = .ok (total, did) := by
  match fuel, r, hf, h with
  | fuel + 1, [], _, _ => simp [pingBody, readMessageType_nil]
  | fuel + 2, [b], _, _ =>
    simp only [pingBody, readMessageType_cons, ofByte_updatePing]
    by_cases hb : b = 36
    · simp [hb, Cursor.readUpdatePing, readByte_nil, readMessageType_nil]
    · simp [hb]

theorem pingBody_noPing (g : Env) {rem : Bytes} (hn : NoPing rem) (fuel pos : Nat) (total : Map UInt8 (List Nat))
    (did : Bool) (hf : rem.length < fuel) : pingBody g fuel ⟨pos, rem⟩ total did = .ok (total, did) := by
  match fuel, rem, hf, hn with
  | fuel + 1, [], _, _ => simp [pingBody, readMessageType_nil]
  | fuel + 1, b :: t, hf, hn =>
    simp only [pingBody, readMessageType_cons, ofByte_updatePing]
    by_cases hb : b = 36
    · subst hb
      have ht : t.length < 4 := by
        refine Nat.lt_of_not_le fun hle => ?_
        obtain ⟨a, b, c, d, t', rfl⟩ := exists_four hle
        exact hn _ _ _ _ _ rfl
      obtain ⟨⟨q, r⟩, hq, hr, hrt⟩ := readUpdatePing_none g (pos + 1) t ht
      simp only [if_true, hq]
      simp at hf hrt
      exact pingBody_short g r fuel q total did hr (by omega)
    · simp [hb]

/-- The ping samples of one frame body. -/
theorem pingBody_eq (g : Env) {body : Bytes} {us : List (UInt8 × Nat)} (h : LeadingPings body us) :
    ∀ (fuel pos : Nat) (total : Map UInt8 (List Nat)) (did : Bool), body.length < fuel →
      pingBody g fuel ⟨pos, body⟩ total did = .ok (us.foldl addPing total, did || !us.isEmpty) := by
  induction h with
  | stop hn =>
    intro fuel pos total did hf
    simpa using pingBody_noPing g hn fuel pos total did hf
  | @step n lo hi x t us h ih =>
    intro fuel pos total did hf
    cases fuel with
    | zero => omega
    | succ fuel =>
      have e36 : MessageType.ofByte 36 = .updatePing := rfl
      simp only [pingBody, readMessageType_cons, e36, if_true, readUpdatePing_some, Cursor.skip]
      rw [ih _ _ _ _ (by simp at hf ⊢; omega)]
      simp [addPing]

/-! ### All prints of a body -/

theorem allPrints_exists : ∀ (n : Nat) (body : Bytes), body.length ≤ n → ∃ ps, AllPrints body ps
  | 0, body, h => by
    have : body = [] := List.length_eq_zero_iff.mp (by omega)
    subst this
    exact ⟨[], .nil⟩
  | n + 1, [], h => ⟨[], .nil⟩
  | n + 1, b :: t, h => by
    by_cases hb : b = 8
    · subst hb
      by_cases hn : NoPrint (8 :: t)
      · exact ⟨[], .cut hn⟩
      · simp only [NoPrint, not_forall, ne_eq, not_not] at hn
        obtain ⟨p, t', hp, e⟩ := hn
        have hlen := congrArg List.length e
        simp [PrintMsg.encode] at hlen h
        obtain ⟨ps, hps⟩ := allPrints_exists n t' (by omega)
        exact ⟨p :: ps, e ▸ .print hp hps⟩
    · obtain ⟨ps, hps⟩ := allPrints_exists n t (by simp at h; omega)
      exact ⟨ps, .skip hb hps⟩

theorem allPrints_unique {body : Bytes} {ps qs : List PrintMsg} (h : AllPrints body ps) (k : AllPrints body qs) :
    ps = qs := by
  induction h generalizing qs with
  | nil =>
    generalize hb : ([] : Bytes) = b at k
    cases k with
    | nil => rfl
    | print => simp [encode_eq] at hb
    | _ => simp at hb
  | @skip b t ps hb h ih =>
    generalize hl : b :: t = l at k
    cases k with
    | nil => simp at hl
    | skip _ k => simp at hl; obtain ⟨rfl, rfl⟩ := hl; exact ih k
    | print => rw [encode_eq] at hl; simp at hl; exact absurd hl.1 hb
    | cut => simp at hl; exact absurd hl.1 hb
  | @print p t ps hp h ih =>
    generalize hl : p.encode ++ t = l at k
    cases k with
    | nil => simp [encode_eq] at hl
    | skip hb k => rw [encode_eq] at hl; simp at hl; exact absurd hl.1.symm hb
    | print hq k =>
      obtain ⟨rfl, rfl⟩ := print_encode_inj hp hq hl
      rw [ih k]
    | cut hn => exact absurd hl.symm (hn p t hp)
  | @cut t hn =>
    generalize hl : 8 :: t = l at k
    cases k with
    | nil => simp at hl
    | skip hb k => simp at hl; exact absurd hl.1.symm hb
    | print hq k => exact absurd hl (hn _ _ hq)
    | cut => rfl

/-- Pairs up the texts collected from one frame. -/
def flagStep (g : Env) (s : List Bytes × Bytes) (p : PrintMsg) : List Bytes × Bytes :=
  if p.level = 2 ∧ p.text ≠ [] then
    if s.2 = [] then (s.1, p.text)
    else (s.1 ++ [if isMessageSuffix g p.text then s.2 ++ p.text else s.2], [])
  else s

theorem id_high (p : PrintMsg) : p.id = .high ↔ p.level = 2 := by
  unfold PrintMsg.id
  split
  · rename_i h; simp [h]
  · split
    · rename_i h; simp [h]
    · split
      · rename_i h; simp [h]
      · rename_i h; simp [h]; split <;> simp

theorem id_medium (p : PrintMsg) : p.id = .medium ↔ p.level = 1 := by
  unfold PrintMsg.id
  split
  · rename_i h; simp [h]
  · split
    · rename_i h; simp [h]
    · rename_i h; simp [h]; split
      · simp
      · split <;> simp

theorem flagBody_eq (g : Env) {body : Bytes} {ps : List PrintMsg} (h : AllPrints body ps) :
    ∀ (fuel pos : Nat) (s : List Bytes × Bytes), body.length < fuel →
      flagBody g fuel ⟨pos, body⟩ s.1 s.2 = .ok (ps.foldl (flagStep g) s) := by
  induction h with
  | nil =>
    intro fuel pos s hf
    cases fuel with
    | zero => simp at hf
    | succ fuel => simp [flagBody, readMessageType_nil]
  | @skip b t ps hb h ih =>
    intro fuel pos s hf
    cases fuel with
    | zero => simp at hf
    | succ fuel =>
      simp only [flagBody, readMessageType_cons, ofByte_print, hb, if_false]
      exact ih fuel _ s (by simpa using hf)
  | @print p t ps hp h ih =>
    intro fuel pos s hf
    cases fuel with
    | zero => simp at hf
    | succ fuel =>
      have hf' : t.length < fuel := by simp [PrintMsg.encode] at hf; omega
      rw [encode_eq]
      simp only [flagBody, readMessageType_cons, ofByte_print, if_true, readPrint_some g p hp]
      simp only [PrintMsg.reported, id_high, List.foldl_cons]
      by_cases h2 : p.level = 2 ∧ p.text ≠ []
      · have hc : p.level = 2 ∧ (!p.text.isEmpty) = true := by simpa using h2
        rw [if_pos hc]
        by_cases hs : s.2 = []
        · have : flagStep g s p = (s.1, p.text) := by simp [flagStep, h2, hs]
          rw [this, ← ih fuel (pos + 1 + 1 + (p.text.length + 1)) (s.1, p.text) hf']
          simp [hs]
        · have : flagStep g s p = (s.1 ++ [if isMessageSuffix g p.text then s.2 ++ p.text else s.2], []) := by
            simp [flagStep, h2, hs]
          rw [this, ← ih fuel (pos + 1 + 1 + (p.text.length + 1)) (_, _) hf']
          simp [hs]
          rfl
      · have hc : ¬ (p.level = 2 ∧ (!p.text.isEmpty) = true) := by simpa using h2
        have : flagStep g s p = s := by simp only [flagStep, if_neg h2]
        rw [if_neg hc, this]
        exact ih fuel _ s hf'
  | @cut t hn =>
    intro fuel pos s hf
    cases fuel with
    | zero => simp at hf
    | succ fuel =>
      obtain ⟨q, hq⟩ := readPrint_none g (pos + 1) t hn
      simp only [flagBody, readMessageType_cons, ofByte_print, if_true, hq]
      cases fuel with
      | zero => simp at hf
      | succ fuel => simp [flagBody, readMessageType_nil]

end Mvd

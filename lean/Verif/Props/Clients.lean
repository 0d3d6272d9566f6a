import Verif.Lemmas.Sort
import Verif.Props.Info

/-! C17–C23: the client scan, clients, names. -/

namespace Mvd
open Spec

/-! ### C17 -/

theorem chain_spans {data : Bytes} {limit o e : Nat} {spans : List (Nat × Nat)} (h : ClientChain data limit o spans e) :
    (∀ p ∈ spans, NulDelimited data p.1 p.2 ∧ Occurs nameKey ((data.drop p.1).take (p.2 - p.1))) ∧
    spans.Pairwise (fun p q => p.2 < q.1) ∧ (data[o]? = some 0 → ∀ p ∈ spans, o < p.1) := by
  have one : ∀ {o f t : Nat}, NextClient data o f t →
      NulDelimited data f t ∧ Occurs nameKey ((data.drop f).take (t - f)) := by
    rintro o f t ⟨k, hk, hf, ht, hd⟩
    refine ⟨hd, ?_⟩
    have hle := NextClient_key_inside hk.1 hd.after ht
    obtain ⟨pre, post, e, hl⟩ := nameKey_at hk.1
    have htl : t < data.length := (List.getElem?_eq_some_iff.mp hd.after).1
    refine ⟨pre.drop f, post.take (t - (o + k + 6)), ?_⟩
    have h6 : nameKey.length = 6 := rfl
    rw [e, List.append_assoc, List.drop_append, show f - pre.length = 0 by omega, List.drop_zero, List.take_append]
    rw [List.take_of_length_le (by simp; omega)]
    rw [List.take_append, List.take_of_length_le (by simp [h6]; omega)]
    simp only [List.length_drop, h6]
    rw [show t - f - (pre.length - f) - 6 = t - (o + k + 6) by omega]
    simp
  induction h with
  | nil => simp
  | last hn =>
    refine ⟨?_, by simp, ?_⟩
    · intro p hp; simp at hp; subst hp; exact one hn
    · intro h0 p hp; simp at hp; subst hp; exact nextClient_after hn h0
  | cons hn _ _ ih =>
    obtain ⟨h1, h2, h3⟩ := ih
    obtain ⟨hd, ho⟩ := one hn
    refine ⟨?_, ?_, ?_⟩
    · intro p hp
      simp only [List.mem_cons] at hp
      rcases hp with rfl | hp
      · exact ⟨hd, ho⟩
      · exact h1 p hp
    · exact List.Pairwise.cons (fun q hq => h3 hd.after q hq) h2
    · intro h0 p hp
      simp only [List.mem_cons] at hp
      have := nextClient_after hn h0
      rcases hp with rfl | hp
      · exact this
      · have h5 := h3 hd.after p hp
        have := hd.short
        omega

/-- C17: the strings found are NUL-delimited userinfo strings of 7 to 256 bytes that contain `\name\`, in data order
and without overlap. -/
theorem C17_client_strings (g : Env) (data : Bytes) (strings : List Str) (h : clientinfoStrings g data = .ok strings) :
    ∃ spans : List (Nat × Nat),
      strings = spans.map (fun p => g.toUnicode ((data.drop p.1).take (p.2 - p.1))) ∧
      (∀ p ∈ spans, NulDelimited data p.1 p.2 ∧ Occurs nameKey ((data.drop p.1).take (p.2 - p.1))) ∧
      spans.Pairwise (fun p q => p.2 < q.1) := by
  rcases clientinfoStrings_cases g data with ⟨e, _⟩ | ⟨o, _, spans, e, hc, ⟨hr, _⟩ | ⟨hr, _⟩⟩
  · rw [h] at e; simp at e
  · rw [h] at hr
    simp only [R.ok.injEq] at hr
    obtain ⟨h1, h2, _⟩ := chain_spans hc
    exact ⟨spans, hr, h1, h2⟩
  · rw [h] at hr; simp at hr

theorem nextClient_unique {data : Bytes} {o f t f' t' : Nat} (h : NextClient data o f t) (h' : NextClient data o f' t') :
    f = f' ∧ t = t' := by
  have := (scanStep_of h).symm.trans (scanStep_of h')
  simpa using this

theorem chain_unique {data : Bytes} {limit o e e' : Nat} {spans spans' : List (Nat × Nat)}
    (h : ClientChain data limit o spans e) (h' : ClientChain data limit o spans' e')
    (hf : (spans ≠ [] ∧ limit ≤ e) ∨ ∀ f t, ¬ NextClient data e f t)
    (hf' : (spans' ≠ [] ∧ limit ≤ e') ∨ ∀ f t, ¬ NextClient data e' f t) : spans = spans' := by
  induction h generalizing spans' with
  | nil =>
    rcases hf with hf | hf
    · exact absurd rfl hf.1
    · cases h' with
      | nil => rfl
      | last hn => exact absurd hn (hf _ _)
      | cons hn => exact absurd hn (hf _ _)
  | @last o f t hn =>
    cases h' with
    | nil =>
      rcases hf' with hf' | hf'
      · exact absurd rfl hf'.1
      · exact absurd hn (hf' _ _)
    | last hn' => obtain ⟨rfl, rfl⟩ := nextClient_unique hn hn'; rfl
    | @cons _ f' t' rest _ hn' hlt hc =>
      obtain ⟨rfl, rfl⟩ := nextClient_unique hn hn'
      have hno : ∀ f' t', ¬ NextClient data t f' t' := by
        rcases hf with hf | hf
        · omega
        · exact hf
      cases hc with
      | nil => rfl
      | last hn => exact absurd hn (hno _ _)
      | cons hn => exact absurd hn (hno _ _)
  | @cons o f t rest e hn hlt hc ih =>
    cases h' with
    | nil =>
      rcases hf' with hf' | hf'
      · exact absurd rfl hf'.1
      · exact absurd hn (hf' _ _)
    | last hn' =>
      obtain ⟨rfl, rfl⟩ := nextClient_unique hn hn'
      have hno : ∀ f' t', ¬ NextClient data t f' t' := by
        rcases hf' with hf' | hf'
        · omega
        · exact hf'
      cases hc with
      | nil => rfl
      | last hn => exact absurd hn (hno _ _)
      | cons hn => exact absurd hn (hno _ _)
    | @cons _ f' t' rest' _ hn' hlt' hc' =>
      obtain ⟨rfl, rfl⟩ := nextClient_unique hn hn'
      have fin : ∀ {r : List (Nat × Nat)} {x : Nat}, ClientChain data limit t r x →
          (((f, t) :: r ≠ [] ∧ limit ≤ x) ∨ ∀ f t, ¬ NextClient data x f t) →
          ((r ≠ [] ∧ limit ≤ x) ∨ ∀ f t, ¬ NextClient data x f t) := by
        intro r x hc h
        rcases h with ⟨_, h⟩ | h
        · refine .inl ⟨?_, h⟩
          rintro rfl
          cases hc
          omega
        · exact .inr h
      rw [ih hc' (fin hc hf) (fin hc' hf')]

/-- C17: unless the scan panics (C19 says when), it finds exactly the following strings: from the first spawn command on,
one after the other, until a search fails or the limit of 24 * 512 bytes is reached. -/
theorem C17_exact (g : Env) (data : Bytes) (hp : clientinfoStrings g data ≠ .panic) (strings : List Str) :
    clientinfoStrings g data = .ok strings ↔
      ∃ o spans e, FirstAt spawnCommand data o ∧ ClientChain data (o + 24 * 512) o spans e ∧
        ((spans ≠ [] ∧ o + 24 * 512 ≤ e) ∨ ∀ f t, ¬ NextClient data e f t) ∧
        strings = spans.map (fun p => g.toUnicode ((data.drop p.1).take (p.2 - p.1))) := by
  constructor
  · intro h
    rcases clientinfoStrings_cases g data with ⟨e, _⟩ | ⟨o, ho, spans, e, hc, ⟨hr, hf⟩ | ⟨hr, _⟩⟩
    · rw [h] at e; simp at e
    · rw [h] at hr
      simp only [R.ok.injEq] at hr
      exact ⟨o, spans, e, ho, hc, hf.imp id And.right, hr⟩
    · exact absurd hr hp
  · rintro ⟨o, spans, e, ho, hc, hf, rfl⟩
    rcases clientinfoStrings_cases g data with ⟨_, hn⟩ | ⟨o', ho', spans', e', hc', ⟨hr, hf'⟩ | ⟨hr, _⟩⟩
    · obtain ⟨pre, post, he, _⟩ := ho.1
      exact absurd ⟨pre, post, he⟩ hn
    · have : o = o' := Nat.le_antisymm (ho.2 _ ho'.1) (ho'.2 _ ho.1)
      subst this
      rw [hr, chain_unique hc hc' hf (hf'.imp id And.right)]
      rfl
    · exact absurd hr hp

/-! ### C18 -/

theorem occursAt_zero_cross {a b : Bytes} {j : Nat} (h : OccursAt nameKey (a ++ 0 :: b) j) :
    j + 6 ≤ a.length ∨ a.length + 1 ≤ j := by
  refine Classical.byContradiction fun hc => ?_
  have h1 : j ≤ a.length := by omega
  have h2 : a.length - j < 6 := by omega
  have := occursAt_getElem? h (a.length - j) (by simpa [nameKey] using h2)
  rw [show j + (a.length - j) = a.length by omega] at this
  simp only [List.getElem?_append_right (Nat.le_refl _), Nat.sub_self, List.getElem?_cons_zero] at this
  exact nameKey_no_zero _ this.symm

theorem occursAt_of_append_left {α : Type} {n a b : List α} {j : Nat} (h : OccursAt n (a ++ b) j)
    (hle : j + n.length ≤ a.length) : OccursAt n a j := by
  obtain ⟨pre, post, e, hl⟩ := h
  refine ⟨pre, post.take (a.length - (j + n.length)), ?_, hl⟩
  have := congrArg (List.take a.length) e
  simp only [List.take_left'] at this
  rw [this, List.take_append, List.take_of_length_le (by simp; omega)]
  simp
  omega

theorem occursAt_append {α : Type} {n a b : List α} {j : Nat} (h : OccursAt n a j) : OccursAt n (a ++ b) j := by
  obtain ⟨pre, post, rfl, hl⟩ := h
  exact ⟨pre, post ++ b, by simp, hl⟩

theorem occursAt_take {α : Type} {n a : List α} {j m : Nat} (h : OccursAt n a j) (hle : j + n.length ≤ m) :
    OccursAt n (a.take m) j := by
  by_cases hm : m ≤ a.length
  · have e : a.take m ++ a.drop m = a := List.take_append_drop ..
    rw [← e] at h
    exact occursAt_of_append_left h (by simp; omega)
  · rwa [List.take_of_length_le (by omega)]

theorem occursAt_of_take {α : Type} {n a : List α} {j m : Nat} (h : OccursAt n (a.take m) j) : OccursAt n a j := by
  have e : a.take m ++ a.drop m = a := List.take_append_drop ..
  rw [← e]
  exact occursAt_append h

theorem occursAt_append_right {α : Type} {n a b : List α} {j : Nat} (h : OccursAt n (a ++ b) (a.length + j)) :
    OccursAt n b j := by
  obtain ⟨pre, post, e, hl⟩ := h
  refine ⟨pre.drop a.length, post, ?_, by simp; omega⟩
  have := congrArg (List.drop a.length) e
  simp only [List.drop_left'] at this
  rw [this, List.append_assoc, List.drop_append, show a.length - pre.length = 0 by omega]
  simp

/-- The first `\name\` after a separator, a gap and in front of whatever follows. -/
theorem firstAt_window {sg info post : Bytes} {k : Nat} (hz : ∃ a, sg = a ++ [0]) (hno : ¬ Occurs nameKey sg)
    (hk : FirstAt nameKey info k) (h512 : sg.length + k + 6 ≤ 512) :
    FirstAt nameKey ((sg ++ info ++ post).take 512) (sg.length + k) := by
  obtain ⟨a, rfl⟩ := hz
  constructor
  · apply occursAt_take _ (by simpa [nameKey] using h512)
    apply occursAt_append
    obtain ⟨p, q, rfl, rfl⟩ := hk.1
    exact ⟨a ++ [0] ++ p, q, by simp, by simp; omega⟩
  · intro j hj
    have hj := occursAt_of_take hj
    rw [show a ++ [0] ++ info ++ post = a ++ 0 :: (info ++ post) by simp] at hj
    refine Nat.le_of_not_lt fun hlt => ?_
    rcases occursAt_zero_cross hj with h | h
    · have := occursAt_of_append_left hj (by simpa [nameKey] using h)
      obtain ⟨p, q, e, _⟩ := this
      exact hno ⟨p, q ++ [0], by rw [e]; simp⟩
    · have hj2 : OccursAt nameKey (info ++ post) (j - (a ++ [0]).length) := by
        apply occursAt_append_right (a := a ++ [0])
        have e : (a ++ [(0 : UInt8)]).length + (j - (a ++ [(0 : UInt8)]).length) = j := by simp; omega
        have hj' : OccursAt nameKey (a ++ [0] ++ (info ++ post)) j := by simpa using hj
        rwa [← e] at hj'
      have hkb := hk.1.bound
      have h6 : nameKey.length = 6 := rfl
      simp only [List.length_append, List.length_cons, List.length_nil] at hlt hj2
      have := hk.2 _ (occursAt_of_append_left hj2 (by omega))
      omega

theorem clientScan_section (g : Env) {data tail : Bytes} {limit : Nat} : ∀ (es : List ClientEntry) (p sep : Bytes)
    (fuel : Nat) (result : List Str), data = p ++ sep ++ clientBytes es ++ tail → ClientSection tail sep es →
    p.length + sep.length + (clientBytes es).length ≤ limit → es.length < fuel →
    clientScan g data limit fuel p.length result = .ok (result ++ es.map fun e => g.toUnicode e.info)
  | [], p, sep, fuel, result, hd, hs, hl, hf => by
    obtain ⟨fuel, rfl⟩ : ∃ f, fuel = f + 1 := ⟨fuel - 1, by simp at hf; omega⟩
    obtain ⟨h1, h2⟩ := hs
    have hd' : data.drop p.length = sep ++ tail := by simp [hd, clientBytes]
    rw [clientScan_step, if_pos (by rw [hd]; simp [clientBytes] at h1 ⊢; omega)]
    have : scanStep data p.length = none := by
      rw [scanStep_none]
      rintro f t ⟨k, hk, _⟩
      rw [hd'] at hk
      exact h2 (occurs_iff.mpr ⟨k, hk.1⟩)
    simp [this]
  | e :: es, p, sep, fuel, result, hd, hs, hl, hf => by
    obtain ⟨fuel, rfl⟩ : ∃ f, fuel = f + 1 := ⟨fuel - 1, by simp at hf; omega⟩
    obtain ⟨hz, hno, h0, h7, h256, ⟨k, hk, h512⟩, hrest⟩ := hs
    have h6 : nameKey.length = 6 := rfl
    rw [h6] at h512
    have hd' : data.drop p.length = (sep ++ e.gap) ++ e.info ++ ([0] ++ clientBytes es ++ tail) := by
      simp [hd, clientBytes]
    have hdata : data = p ++ ((sep ++ e.gap) ++ e.info ++ ([0] ++ clientBytes es ++ tail)) := by
      simp [hd, clientBytes]
    have hlast : 512 ≤ 1 + (clientBytes es).length + tail.length := by
      clear hf hd hdata hd' hl
      revert hrest
      clear hz hno h0 h7 h256 hk h512
      generalize hsep : ([0] : Bytes) = sep0
      have hsl : sep0.length = 1 := by rw [← hsep]; rfl
      induction es with
      | nil => intro h; have := h.1; simp [clientBytes] at this ⊢; omega
      | cons e' es ih =>
        intro h
        have := ih (hsep ▸ h.2.2.2.2.2.2)
        simp [clientBytes] at this ⊢
        omega
    have hfirst := firstAt_window (post := [0] ++ clientBytes es ++ tail) hz hno hk h512
    have hlen : data.length = p.length + (sep ++ e.gap).length + e.info.length + 1 + (clientBytes es).length + tail.length := by
      rw [hdata]; simp; omega
    have hkb := hk.1.bound
    have hnc : NextClient data p.length (p.length + (sep ++ e.gap).length)
        (p.length + (sep ++ e.gap).length + e.info.length) := by
      refine ⟨(sep ++ e.gap).length + k, by rw [hd']; exact hfirst, by omega, by omega, ⟨?_, ?_, ?_, by omega, by omega⟩⟩
      · obtain ⟨a, ha⟩ := hz
        rw [hdata, ha]
        simp only [List.length_append, List.length_cons, List.length_nil]
        refine ⟨by omega, ?_⟩
        rw [List.getElem?_append_right (by omega), show p.length + (a.length + (0 + 1)) - 1 - p.length = a.length by omega]
        simp
      · rw [hdata, List.getElem?_append_right (by omega),
          List.getElem?_append_right (by simp; omega)]
        simp only [List.length_append]
        rw [show p.length + (sep.length + e.gap.length) + e.info.length - p.length - (sep.length + e.gap.length + e.info.length) = 0 by omega]
        rfl
      · intro j h1 h2 hj
        apply h0
        rw [hdata, List.getElem?_append_right (by omega), List.getElem?_append_left (by simp at h2 ⊢; omega),
          List.getElem?_append_right (by omega)] at hj
        exact List.mem_of_getElem? hj
    rw [clientScan_step, if_pos (by simp at hlen; omega), scanStep_of hnc]
    simp only
    have hinfo : (data.drop (p.length + (sep ++ e.gap).length)).take
        (p.length + (sep ++ e.gap).length + e.info.length - (p.length + (sep ++ e.gap).length)) = e.info := by
      rw [Nat.add_sub_cancel_left, ← List.drop_drop, hd', List.append_assoc (sep ++ e.gap)]
      rw [List.drop_left', List.take_left']
      · rfl
      · rfl
    rw [hinfo, if_neg (by simp [clientBytes] at hl ⊢; omega)]
    have := clientScan_section g (data := data) (tail := tail) (limit := limit) es (p ++ (sep ++ e.gap) ++ e.info) [0] fuel
      (result ++ [g.toUnicode e.info]) (by rw [hdata]; simp) hrest (by simp [clientBytes] at hl ⊢; omega)
      (by simpa using hf)
    simp only [List.length_append] at this ⊢
    rw [this]
    simp

/-- C18: userinfo strings laid out as servers write them are found exactly, in order. -/
theorem C18_finds_every_client (g : Env) (pre : Bytes) (es : List ClientEntry) (tail : Bytes)
    (hspawn : FirstAt spawnCommand (pre ++ spawnCommand ++ clientBytes es ++ tail) pre.length)
    (hsec : ClientSection tail spawnCommand es) (hlen : (spawnCommand ++ clientBytes es).length ≤ 24 * 512) :
    clientinfoStrings g (pre ++ spawnCommand ++ clientBytes es ++ tail) = .ok (es.map fun e => g.toUnicode e.info) := by
  have hne : es.length < (pre ++ spawnCommand ++ clientBytes es ++ tail).length + 1 := by
    have : es.length ≤ (clientBytes es).length := by
      clear hspawn hsec hlen
      induction es with
      | nil => simp
      | cons e es ih => simp [clientBytes] at ih ⊢; omega
    simp only [List.length_append]
    omega
  unfold clientinfoStrings
  rw [spawn_eq, find_eq_some_iff.mpr hspawn]
  simp only
  have := clientScan_section g (limit := pre.length + MAX_PLAYERS * MAX_LOOKAHEAD) es pre spawnCommand _ [] rfl hsec
    (by simp [MAX_PLAYERS, MAX_LOOKAHEAD] at hlen ⊢; omega) hne
  simpa using this

/-- Two clients, the second right after the first, the first with a longer gap. -/
def Example.entries : List ClientEntry := [⟨[7, 0, 3, 0], bytes!"\\*client\\x\\name\\a"⟩, ⟨[], bytes!"\\name\\b"⟩]

instance (n : Bytes) (hay : Bytes) : Decidable (Occurs n hay) := decidable_of_iff _ find_isSome_iff
instance (n : Bytes) (hay : Bytes) (i : Nat) : Decidable (FirstAt n hay i) := decidable_of_iff _ find_eq_some_iff

theorem Example.entries_section : ClientSection (List.replicate 600 10) spawnCommand Example.entries := by
  refine ⟨⟨spawnCommand ++ [7, 0, 3], rfl⟩, by decide +kernel, by decide, by decide, by decide, ⟨10, by decide +kernel, by decide⟩,
    ⟨[], rfl⟩, by decide +kernel, by decide, by decide, by decide, ⟨0, by decide +kernel, by decide⟩, by decide +kernel,
    by decide +kernel⟩

example : FirstAt spawnCommand ([1, 2] ++ spawnCommand ++ clientBytes Example.entries ++ List.replicate 600 10) 2 ∧
    (spawnCommand ++ clientBytes Example.entries).length ≤ 24 * 512 := by decide +kernel

/-! ### C19 -/

theorem chain_length {data : Bytes} {limit o e : Nat} {spans : List (Nat × Nat)} (h : ClientChain data limit o spans e) :
    ∀ b, data[o]? = some 0 → b ≤ o → (spans ≠ [] → o < limit) → b + 8 * spans.length < limit + 8 ∨ spans = [] := by
  induction h with
  | nil => intro b _ _ _; exact .inr rfl
  | last hn =>
    intro b _ hb hlt
    left
    have := hlt (by simp)
    simp; omega
  | @cons o f t spans e hn hlt _ ih =>
    intro b h0 hb hl
    left
    obtain ⟨k, hk, hf, ht, hd⟩ := hn
    have h1 := nextClient_after ⟨k, hk, hf, ht, hd⟩ h0
    have h2 := hd.short
    have hol := hl (by simp)
    rcases ih (b + 8) hd.after (by omega) (fun _ => hlt) with h | h
    · simp; omega
    · subst h; simp; omega

/-- C19: at most 1535 strings are found. -/
theorem C19_bound (g : Env) (data : Bytes) (strings : List Str) (h : clientinfoStrings g data = .ok strings) :
    strings.length ≤ 1535 := by
  rcases clientinfoStrings_cases g data with ⟨e, _⟩ | ⟨o, ho, spans, e, hc, ⟨hr, _⟩ | ⟨hr, _⟩⟩
  · rw [h] at e; simp at e
  · rw [h] at hr
    simp only [R.ok.injEq] at hr
    rw [hr]
    simp only [spanTexts, List.length_map]
    cases hc with
    | nil => simp
    | last => simp
    | @cons _ f t spans' e hn hlt hc =>
      have hp : o + 16 ≤ t := by
        obtain ⟨k, hk, hf, ht, hd⟩ := hn
        have hle := NextClient_key_inside hk.1 hd.after ht
        have : 10 ≤ k := by
          -- the key cannot begin inside the spawn command
          refine Nat.le_of_not_lt fun hlt => ?_
          have h1 := occursAt_getElem? ho.1 k (by simpa [spawnCommand] using hlt)
          have h2 := occursAt_getElem? (nameKey_at hk.1) 0 (by simp [nameKey])
          rw [Nat.add_zero] at h2
          rw [h2] at h1
          have : ∀ j < 10, nameKey[0]? ≠ spawnCommand[j]? := by decide
          exact this k hlt h1
        omega
      have h0 : data[t]? = some 0 := by
        obtain ⟨_, _, _, _, hd⟩ := hn
        exact hd.after
      rcases chain_length hc (o + 16) h0 hp (fun _ => hlt) with h | h
      · simp; omega
      · simp [h]
  · rw [h] at hr; simp at hr

/-- C19: the scan fails exactly without spawn command. -/
theorem C19_error (g : Env) (data : Bytes) (e : Err) :
    clientinfoStrings g data = .err e ↔ ¬ Occurs spawnCommand data ∧ e = .clientinfoNotFound := by
  rcases clientinfoStrings_cases g data with ⟨h, hn⟩ | ⟨o, ho, spans, x, hc, ⟨hr, _⟩ | ⟨hr, _⟩⟩
  · rw [h]
    simp only [R.err.injEq, hn, not_false_eq_true, true_and]
    exact eq_comm
  all_goals
    have : Occurs spawnCommand data := occurs_iff.mpr ⟨o, ho.1⟩
    simp [hr, this]

/-- C19: the scan panics exactly when a search window of 512 bytes runs past the end of the data: the one at the spawn
command, or the one at the end of a string found, below the limit of 24 * 512 bytes. -/
theorem C19_panic (g : Env) (data : Bytes) :
    clientinfoStrings g data = .panic ↔
      ∃ o, FirstAt spawnCommand data o ∧ ∃ spans e, ClientChain data (o + 24 * 512) o spans e ∧
        (spans = [] ∨ e < o + 24 * 512) ∧ data.length < e + 512 := by
  constructor
  · intro h
    rcases clientinfoStrings_cases g data with ⟨e, hn⟩ | ⟨o, ho, spans, x, hc, ⟨hr, _⟩ | ⟨hr, h1, h2⟩⟩
    · rw [h] at e; simp at e
    · rw [h] at hr; simp at hr
    · exact ⟨o, ho, spans, x, hc, h1, h2⟩
  · rintro ⟨o, ho, spans, e, hc, h1, h2⟩
    unfold clientinfoStrings
    rw [spawn_eq, find_eq_some_iff.mpr ho]
    simp only [MAX_PLAYERS, MAX_LOOKAHEAD]
    have key : ∀ (fuel : Nat) (o : Nat) (spans : List (Nat × Nat)) (result : List Str) (limit : Nat),
        ClientChain data limit o spans e → (spans = [] ∨ e < limit) → o ≤ data.length →
        data.length + 1 ≤ o + fuel →
        clientScan g data limit fuel o result = .panic := by
      intro fuel
      induction fuel with
      | zero =>
        intro o spans result limit hc _ hf hf2
        omega
      | succ fuel ih =>
        intro o spans result limit hc hl _ hf
        rw [clientScan_step]
        by_cases hw : o + 512 ≤ data.length
        · rw [if_pos hw]
          cases hc with
          | nil => omega
          | @last _ f t hn =>
            have := nextClient_progress hn
            have := nextClient_bound hn
            rw [scanStep_of hn]
            simp only [reduceCtorEq, false_or] at hl
            simp only
            rw [if_neg (by omega)]
            exact ih e [] _ limit .nil (.inl rfl) (by omega) (by omega)
          | @cons _ f t spans' _ hn hlt hc =>
            have := nextClient_progress hn
            have := nextClient_bound hn
            rw [scanStep_of hn]
            simp only [reduceCtorEq, false_or] at hl
            simp only
            rw [if_neg (by omega)]
            exact ih t spans' _ limit hc (.inr hl) (by omega) (by omega)
        · rw [if_neg hw]
    exact key _ o spans [] _ (by simpa using hc) (by simpa using h1) (by have := ho.1.bound; omega) (by omega)

/-- C19, simple consequences: no panic when 25 * 512 bytes follow the beginning of the spawn command; a panic when
less than 512 do. -/
theorem C19_panic_simple (g : Env) (data : Bytes) (o : Nat) (ho : FirstAt spawnCommand data o) :
    (o + 25 * 512 ≤ data.length → clientinfoStrings g data ≠ .panic) ∧
    (data.length < o + 512 → clientinfoStrings g data = .panic) := by
  constructor
  · intro hl h
    obtain ⟨o', ho', spans, e, hc, h1, h2⟩ := (C19_panic g data).mp h
    have := ho.unique ho'
    subst this
    rcases h1 with rfl | h1
    · cases hc; omega
    · omega
  · intro hl
    exact (C19_panic g data).mpr ⟨o, ho, [], o, .nil, .inl rfl, hl⟩

/-- Witness: a short recording with a client makes the scan panic. -/
theorem C19_witness : clientinfoStrings Example.release (spawnCommand ++ [0] ++ bytes!"\\name\\a" ++ [0, 10, 10]) = .panic := by
  decide +kernel

/-! ### C20 -/

/-- C20: clients are numbered by their position, modulo 256, and correspond to the userinfo strings. -/
theorem C20_client_numbers (g : Env) (data : Bytes) (cs : List Client) (h : clients g data = .ok cs) :
    ∃ strings, clientinfoStrings g data = .ok strings ∧ cs.length = strings.length ∧
      (∀ i, ∀ hi : i < cs.length, cs[i].number = i % 256) ∧
      (cs.length ≤ 256 → (cs.map (·.number)).Nodup) ∧
      (256 < cs.length → ∃ i j, ∃ hi : i < cs.length, ∃ hj : j < cs.length, i ≠ j ∧ cs[i].number = cs[j].number) := by
  unfold clients clientinfo at h
  cases hs : clientinfoStrings g data with
  | ok strings =>
    simp only [hs, R.bind, R.ok.injEq] at h
    have hlen : cs.length = strings.length := by rw [← h]; simp
    have hnum : ∀ i, ∀ hi : i < cs.length, cs[i].number = i % 256 := by
      intro i hi
      subst h
      simp [asU8]
      omega
    refine ⟨strings, rfl, hlen, hnum, ?_, ?_⟩
    · intro hle
      rw [List.nodup_iff_pairwise_ne, List.pairwise_iff_getElem]
      intro i j hi hj hij
      simp only [List.length_map] at hi hj
      simp only [List.getElem_map, hnum i hi, hnum j hj]
      omega
    · intro hlt
      exact ⟨0, 256, by omega, hlt, by omega, by rw [hnum, hnum]⟩
  | _ => simp [hs, R.bind] at h

example : ∃ cs, clients Example.debug Example.validData = .ok cs ∧ cs.length = 2 := by
  have : (clients Example.debug Example.validData).isOkAnd (fun cs => cs.length == 2) = .ok true := by decide +kernel
  cases h : clients Example.debug Example.validData with
  | ok cs => exact ⟨cs, rfl, by simpa [h, R.isOkAnd] using this⟩
  | _ => simp [h, R.isOkAnd] at this

/-! ### C21 -/

/-- C21: players and spectators partition the clients; the spectators are those with a non-zero spectator setting. -/
theorem C21_partition (g : Env) (data : Bytes) (cs : List Client) (h : clients g data = .ok cs) :
    ∃ strings ps ss, clientinfoStrings g data = .ok strings ∧
      playerClients g data = .ok ps ∧ spectatorClients g data = .ok ss ∧
      ps.Sublist cs ∧ ss.Sublist cs ∧ (ps ++ ss).Perm cs ∧
      (∀ c ∈ cs, (c ∈ ps ↔ ¬ c ∈ ss)) ∧
      ∀ i, ∀ hi : i < strings.length, ∀ hi' : i < cs.length,
        (cs[i] ∈ ss ↔ ∃ n, (g.clientinfo strings[i]).spectator = some n ∧ n ≠ 0) := by
  have h' := h
  unfold clients clientinfo at h
  cases hs : clientinfoStrings g data with
  | ok strings =>
    simp only [hs, R.bind, R.ok.injEq] at h
    refine ⟨strings, cs.filter (fun c => !c.isSpectator), cs.filter (fun c => c.isSpectator), rfl,
      by simp [playerClients, h', R.bind], by simp [spectatorClients, h', R.bind],
      List.filter_sublist, List.filter_sublist, ?_, ?_, ?_⟩
    · have := List.filter_append_perm (fun c : Client => !c.isSpectator) cs
      simpa using this
    · intro c hc
      simp [hc]
    · intro i hi hi'
      simp only [List.mem_filter, List.getElem_mem, true_and]
      subst h
      simp only [List.getElem_map, List.getElem_zipIdx, Client.ofClientinfo]
      cases (g.clientinfo strings[i]).spectator with
      | none => simp
      | some n => simp
  | _ => simp [hs, R.bind] at h

/-- C21: everything about clients succeeds, fails or panics with the scan. -/
theorem C21_failure (g : Env) (data : Bytes) :
    ((∃ s, clientinfoStrings g data = .ok s) → (∃ x, clientinfo g data = .ok x) ∧ (∃ x, clients g data = .ok x) ∧
      (∃ x, playerClients g data = .ok x) ∧ (∃ x, spectatorClients g data = .ok x) ∧ (∃ x, playerNames g data = .ok x) ∧
      (∃ x, spectatorNames g data = .ok x) ∧ (∃ x, teamNames g data = .ok x) ∧ (∃ x, hasBotPlayers g data = .ok x) ∧
      ∃ x, hasHumanPlayers g data = .ok x) ∧
    (∀ e, clientinfoStrings g data = .err e → clientinfo g data = .err e ∧ clients g data = .err e ∧
      playerClients g data = .err e ∧ spectatorClients g data = .err e ∧ playerNames g data = .err e ∧
      spectatorNames g data = .err e ∧ teamNames g data = .err e ∧ hasBotPlayers g data = .err e ∧
      hasHumanPlayers g data = .err e) ∧
    (clientinfoStrings g data = .panic → clientinfo g data = .panic ∧ clients g data = .panic ∧
      playerClients g data = .panic ∧ spectatorClients g data = .panic ∧ playerNames g data = .panic ∧
      spectatorNames g data = .panic ∧ teamNames g data = .panic ∧ hasBotPlayers g data = .panic ∧
      hasHumanPlayers g data = .panic) := by
  refine ⟨fun ⟨s, h⟩ => ?_, fun e h => ?_, fun h => ?_⟩
  · simp only [clientinfo, clients, playerClients, spectatorClients, playerNames, spectatorNames, teamNames, hasBotPlayers,
      hasHumanPlayers, h, R.bind, R.ok.injEq, exists_eq', true_and, and_true]
    split
    · exact ⟨_, rfl⟩
    · exact ⟨_, rfl⟩
  · simp [clientinfo, clients, playerClients, spectatorClients, playerNames, spectatorNames, teamNames, hasBotPlayers,
      hasHumanPlayers, h, R.bind]
  · simp [clientinfo, clients, playerClients, spectatorClients, playerNames, spectatorNames, teamNames, hasBotPlayers,
      hasHumanPlayers, h, R.bind]

/-- C21: the infos are the parsed userinfo strings. -/
theorem C21_infos (g : Env) (data : Bytes) (infos : List Clientinfo) (h : clientinfo g data = .ok infos) :
    ∃ strings, clientinfoStrings g data = .ok strings ∧ infos.length = strings.length ∧
      ∀ i, ∀ hi : i < infos.length, ∀ hi' : i < strings.length, infos[i] = g.clientinfo strings[i] := by
  unfold clientinfo at h
  cases hs : clientinfoStrings g data with
  | ok strings =>
    simp only [hs, R.bind, R.ok.injEq] at h
    subst h
    exact ⟨strings, rfl, by simp, by simp⟩
  | _ => simp [hs, R.bind] at h

/-- C21: the other fields of a client, as in its userinfo string. -/
theorem C21_client_fields (g : Env) (data : Bytes) (cs : List Client) (h : clients g data = .ok cs) :
    ∃ strings, clientinfoStrings g data = .ok strings ∧
      ∀ i, ∀ hi : i < strings.length, ∀ hi' : i < cs.length,
        let info := g.clientinfo strings[i]
        cs[i].name = info.name.getD [] ∧ cs[i].team = info.team.getD [] ∧
        ((cs[i].color.1 : Int) = info.topcolor.getD 0 % 256) ∧ ((cs[i].color.2 : Int) = info.bottomcolor.getD 0 % 256) ∧
        (cs[i].isBot ↔ ∃ n, info.bot = some n ∧ n ≠ 0) ∧ cs[i].authUsername = info.auth ∧ cs[i].authCc = info.flag := by
  unfold clients clientinfo at h
  cases hs : clientinfoStrings g data with
  | ok strings =>
    simp only [hs, R.bind, R.ok.injEq] at h
    refine ⟨strings, rfl, ?_⟩
    intro i hi hi'
    subst h
    simp only [List.getElem_map, List.getElem_zipIdx, Client.ofClientinfo, asU8]
    refine ⟨trivial, trivial, by omega, by omega, ?_, trivial, trivial⟩
    cases (g.clientinfo strings[i]).bot with
    | none => simp
    | some n => simp
  | _ => simp [hs, R.bind] at h

/-! ### C22 -/

/-- C22: the name lists, for every name sort that permutes its input. -/
theorem C22_names (g : Env) (hsort : ∀ l, (g.unicodeSort l).Perm l) (data : Bytes) (ps ss : List Client)
    (hp : playerClients g data = .ok ps) (hss : spectatorClients g data = .ok ss) :
    (∃ out, playerNames g data = .ok out ∧ out.Perm (ps.map (·.name))) ∧
    (∃ out, spectatorNames g data = .ok out ∧ out.Perm (ss.map (·.name))) ∧
    ∃ out, teamNames g data = .ok out ∧ (∀ t, t ∈ out ↔ ∃ p ∈ ps, p.team = t) ∧
      (∀ i, ∀ h : i + 1 < out.length, out[i] ≠ out[i + 1]) ∧
      Collapses (g.unicodeSort (ps.map (·.team))) out := by
  refine ⟨⟨_, by simp [playerNames, hp, R.bind], hsort _⟩, ⟨_, by simp [spectatorNames, hss, R.bind], hsort _⟩,
    dedup (g.unicodeSort (ps.map (·.team))), by simp [teamNames, hp, R.bind], ?_, (dedup_collapses _).1, dedup_collapses _⟩
  intro t
  have h1 : t ∈ dedup (g.unicodeSort (ps.map (·.team))) ↔ t ∈ g.unicodeSort (ps.map (·.team)) :=
    ⟨fun h => collapses_mem (dedup_collapses _) h, fun h => collapses_mem' (dedup_collapses _) h⟩
  rw [h1, (hsort _).mem_iff]
  simp

/-- C22: the lists are in whatever order the name sort establishes. -/
theorem C22_sorted (g : Env) (le : Str → Str → Prop) (hsort : ∀ l, (g.unicodeSort l).Pairwise le) (data : Bytes)
    (out : List Str) :
    (playerNames g data = .ok out → out.Pairwise le) ∧ (spectatorNames g data = .ok out → out.Pairwise le) ∧
    (teamNames g data = .ok out → out.Pairwise le) := by
  refine ⟨fun h => ?_, fun h => ?_, fun h => ?_⟩
  · unfold playerNames at h
    cases hp : playerClients g data <;> simp only [hp, R.bind, R.ok.injEq, reduceCtorEq] at h
    exact h ▸ hsort _
  · unfold spectatorNames at h
    cases hp : spectatorClients g data <;> simp only [hp, R.bind, R.ok.injEq, reduceCtorEq] at h
    exact h ▸ hsort _
  · unfold teamNames at h
    cases hp : playerClients g data <;> simp only [hp, R.bind, R.ok.injEq, reduceCtorEq] at h
    exact h ▸ (hsort _).sublist (dedup_sublist _)

/-- The name sort of the example environment establishes an order: no name is followed by one that belongs before it. -/
example (l : List Str) : (Example.debug.unicodeSort l).Pairwise fun a b => ¬ Before b a :=
  sortBy_sorted (lt := Before)
    ⟨before_irrefl, fun _ _ => before_asymm, fun a b c h h' hc => by
      rcases before_total a b with e | e | e
      · rw [e] at hc; exact h' hc
      · exact h' (before_trans hc e)
      · exact h e⟩ (fun _ _ => strCmp_gt_iff) l

/-- C22: no duplicate team names when the sort places equal names next to each other, that is, whenever two equal names
are separated only by names equal to them. -/
theorem C22_team_names_nodup (g : Env) (data : Bytes) (out : List Str) (h : teamNames g data = .ok out)
    (ps : List Client) (hp : playerClients g data = .ok ps)
    (hadj : ∀ i j k, ∀ hk : k < (g.unicodeSort (ps.map (·.team))).length, ∀ hij : i ≤ j, ∀ hjk : j ≤ k,
      (g.unicodeSort (ps.map (·.team)))[i] = (g.unicodeSort (ps.map (·.team)))[k] →
      (g.unicodeSort (ps.map (·.team)))[j] = (g.unicodeSort (ps.map (·.team)))[k]) : out.Nodup := by
  simp only [teamNames, hp, R.bind, R.ok.injEq] at h
  subst h
  exact collapses_nodup (dedup_collapses _) hadj

example : teamNames Example.debug Example.validData = .ok [chars!"red"] ∧
    spectatorNames Example.debug Example.validData = .ok [chars!"b"] := by decide +kernel

/-! ### C23 -/

/-- C23: bots and humans. -/
theorem C23_bots_humans (g : Env) (data : Bytes) (ps : List Client) (hp : playerClients g data = .ok ps) :
    (∃ b, hasHumanPlayers g data = .ok b ∧ (b = true ↔ ∃ p ∈ ps, p.isBot = false)) ∧
    (∃ b, hasBotPlayers g data = .ok b ∧ (b = true ↔ (∃ p ∈ ps, p.isBot = true) ∨ Occurs bytes!"\"bot\": {" data)) ∧
    (hasHumanPlayers g data = .ok false → hasBotPlayers g data = .ok false → ps = []) := by
  have hb : ∃ b, hasBotPlayers g data = .ok b ∧ (b = true ↔ (∃ p ∈ ps, p.isBot = true) ∨ Occurs bytes!"\"bot\": {" data) := by
    simp only [hasBotPlayers, hp, R.bind]
    by_cases h : ps.any (·.isBot) = true
    · rw [if_pos h]
      exact ⟨true, rfl, by simpa using .inl (by simpa using h)⟩
    · rw [if_neg h]
      refine ⟨_, rfl, ?_⟩
      rw [rfind_isSome_iff]
      constructor
      · exact .inr
      · rintro (h' | h')
        · exact absurd (by simpa using h') h
        · exact h'
  have hh : ∃ b, hasHumanPlayers g data = .ok b ∧ (b = true ↔ ∃ p ∈ ps, p.isBot = false) := by
    simp only [hasHumanPlayers, hp, R.bind]
    exact ⟨_, rfl, by simp⟩
  refine ⟨hh, hb, ?_⟩
  intro h1 h2
  obtain ⟨b, e, hb⟩ := hb
  obtain ⟨b', e', hh⟩ := hh
  rw [h1] at e'; rw [h2] at e
  cases e; cases e'
  cases ps with
  | nil => rfl
  | cons p ps =>
    cases hpb : p.isBot with
    | true => exact absurd (hb.mpr (.inl ⟨p, by simp, hpb⟩)) (by simp)
    | false => exact absurd (hh.mpr ⟨p, by simp, hpb⟩) (by simp)

example : hasHumanPlayers Example.debug Example.validData = .ok true ∧
    hasBotPlayers Example.debug Example.validData = .ok false := by decide +kernel

end Mvd

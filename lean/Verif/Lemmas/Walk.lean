import Verif.Lemmas.Frame

/-! Frame decomposition and the generic frame loop. -/

namespace Mvd
open Spec (le16 le32 announced Frame Stops Overruns NoFrame Splits)

/-! ### Encoding and announced sizes -/

theorem u8_ofNat (n : Nat) : (UInt8.ofNat n).toNat = n % 256 := by simp

theorem le32_length (n : Nat) : (le32 n).length = 4 := rfl

theorem le32_value (n : Nat) (h : n < 2 ^ 32) :
    (UInt8.ofNat (n % 256)).toNat + 256 * (UInt8.ofNat (n / 256 % 256)).toNat
      + 65536 * (UInt8.ofNat (n / 65536 % 256)).toNat + 16777216 * (UInt8.ofNat (n / 16777216 % 256)).toNat = n := by
  simp only [u8_ofNat]
  omega

theorem exists_le32 (a b c d : UInt8) :
    le32 (a.toNat + 256 * b.toNat + 65536 * c.toNat + 16777216 * d.toNat) = [a, b, c, d] ∧
      a.toNat + 256 * b.toNat + 65536 * c.toNat + 16777216 * d.toNat < 2 ^ 32 := by
  have ha := a.toNat_lt; have hb := b.toNat_lt; have hc := c.toNat_lt; have hd := d.toNat_lt
  constructor
  · simp only [le32, List.cons.injEq, and_true]
    refine ⟨?_, ?_, ?_, ?_⟩ <;> apply UInt8.toNat_inj.mp <;> rw [u8_ofNat] <;> omega
  · omega

theorem Frame_encode_length (f : Frame) : f.encode.length = f.header.length + f.body.length := by
  simp [Frame.encode]

theorem announced_encode {f : Frame} (hf : f.WF) (t : Bytes) :
    announced (f.encode ++ t) = some (f.header.length, f.body.length) := by
  obtain ⟨d, fl, mask, body⟩ := f
  obtain ⟨hm, hb⟩ := hf
  simp only [Frame.kind] at hm hb
  simp only [Frame.encode, Frame.header, Frame.kind]
  rcases kind_cases fl with hk | hk | hk | hk | hk | hk | hk | hk <;> simp only [hk] at hm hb ⊢ <;>
    simp [Frame.sized] at hm hb ⊢
  case inr.inr.inr.inl =>
    obtain ⟨a, b, c, e, t', rfl⟩ := exists_four (show 4 ≤ mask.length by omega)
    simp at hm
    subst hm
    simp only [announced, hk, le32, List.cons_append, List.nil_append, List.length_cons, List.length_nil]
    rw [le32_value _ hb]
  case inl | inr.inr.inr.inr.inr.inr.inr | inr.inr.inl =>
    simp [announced, hk, hm, hb]
  all_goals
    subst hm
    simp only [announced, hk, le32, List.cons_append, List.nil_append, List.length_cons, List.length_nil]
    rw [le32_value _ hb]

theorem announced_cases {l : Bytes} {h b : Nat} (ha : announced l = some (h, b)) :
    ∃ d fl t, l = d :: fl :: t ∧
      (((fl.toNat % 8 = 0 ∨ fl.toNat % 8 = 7) ∧ h = 2 ∧ b = 0) ∨ (fl.toNat % 8 = 2 ∧ h = 2 ∧ b = 8) ∨
        (fl.toNat % 8 = 3 ∧ ∃ m t' n, t = m ++ le32 n ++ t' ∧ m.length = 4 ∧ n < 2 ^ 32 ∧ h = 10 ∧ b = n) ∨
        (Frame.sized (fl.toNat % 8) = true ∧ fl.toNat % 8 ≠ 3 ∧ ∃ t' n, t = le32 n ++ t' ∧ n < 2 ^ 32 ∧ h = 6 ∧ b = n)) := by
  match l, ha with
  | d :: fl :: t, ha =>
    refine ⟨d, fl, t, rfl, ?_⟩
    simp only [announced] at ha
    split at ha
    · rename_i hk; simp at ha; omega
    · rename_i hk; simp at ha; omega
    · rename_i hk; simp at ha; omega
    · rename_i m1 m2 m3 m4 a b c e t' hk
      simp at ha
      obtain ⟨rfl, rfl⟩ := ha
      obtain ⟨e1, e2⟩ := exists_le32 a b c e
      refine Or.inr (Or.inr (Or.inl ⟨hk, [m1, m2, m3, m4], t', _, ?_, rfl, e2, rfl, rfl⟩))
      rw [e1]; rfl
    · simp at ha
    · rename_i a b c e t' h0 h7 h2 h3 _
      simp at ha
      obtain ⟨rfl, rfl⟩ := ha
      obtain ⟨e1, e2⟩ := exists_le32 a b c e
      refine Or.inr (Or.inr (Or.inr ⟨?_, ?_, t', _, ?_, e2, rfl, rfl⟩))
      · have := kind_cases fl
        simp only [Frame.sized, decide_eq_true_eq]
        grind
      · grind
      · rw [e1]; rfl
    · simp at ha

theorem announced_complete {l : Bytes} {h b : Nat} (ha : announced l = some (h, b)) (hl : h + b ≤ l.length) :
    ∃ (f : Frame) (t : Bytes), f.WF ∧ l = f.encode ++ t ∧ f.header.length = h ∧ f.body.length = b := by
  obtain ⟨d, fl, t, rfl, hc⟩ := announced_cases ha
  rcases hc with ⟨hk, rfl, rfl⟩ | ⟨hk, rfl, rfl⟩ | ⟨hk, m, t', n, rfl, hm, hn, rfl, rfl⟩ | ⟨hk, h3, t', n, rfl, hn, rfl, rfl⟩
  · refine ⟨⟨d, fl, [], []⟩, t, ?_⟩
    rcases hk with hk | hk <;> simp [Frame.WF, Frame.encode, Frame.header, Frame.kind, Frame.sized, hk]
  · refine ⟨⟨d, fl, [], t.take 8⟩, t.drop 8, ?_⟩
    simp at hl
    simp [Frame.WF, Frame.encode, Frame.header, Frame.kind, Frame.sized, hk]
    omega
  · refine ⟨⟨d, fl, m, t'.take b⟩, t'.drop b, ?_⟩
    simp [le32_length, hm] at hl
    have : min b t'.length = b := by omega
    simp [Frame.WF, Frame.encode, Frame.header, Frame.kind, Frame.sized, hk, this, hm, le32_length]
    omega
  · refine ⟨⟨d, fl, [], t'.take b⟩, t'.drop b, ?_⟩
    simp [le32_length] at hl
    have : min b t'.length = b := by omega
    simp [Frame.WF, Frame.encode, Frame.header, Frame.kind, hk, h3, this, le32_length]
    omega

theorem noFrame_iff {l : Bytes} :
    NoFrame l ↔ ∀ h b, announced l = some (h, b) → l.length < h + b := by
  constructor
  · intro hn h b ha
    refine Nat.lt_of_not_le fun hle => ?_
    obtain ⟨f, t, hf, rfl, _⟩ := announced_complete ha hle
    exact hn f t hf rfl
  · rintro hn f t hf rfl
    have := hn _ _ (announced_encode hf t)
    simp [Frame_encode_length] at this

theorem header_pos (f : Frame) : 2 ≤ f.header.length := by simp [Frame.header]

theorem encode_pos (f : Frame) : 2 ≤ f.encode.length := by
  rw [Frame_encode_length]; have := header_pos f; omega

/-- The announced sizes determine the frame. -/
theorem encode_inj {f f' : Frame} {t t' : Bytes} (hf : f.WF) (hf' : f'.WF) (h : f.encode ++ t = f'.encode ++ t') :
    f = f' ∧ t = t' := by
  have ha := announced_encode hf t
  rw [h, announced_encode hf' t'] at ha
  simp at ha
  have hlen : f.encode.length = f'.encode.length := by simp [Frame_encode_length, ha]
  obtain ⟨h1, h2⟩ := List.append_inj h hlen
  refine ⟨?_, h2⟩
  obtain ⟨h3, h4⟩ := List.append_inj h1 ha.1.symm
  obtain ⟨d, fl, mask, body⟩ := f
  obtain ⟨d', fl', mask', body'⟩ := f'
  simp [Frame.header] at h3
  obtain ⟨rfl, rfl, h5⟩ := h3
  simp at h4
  subst h4
  have hm : mask.length = mask'.length := by
    rw [hf.1, hf'.1]; rfl
  rw [(List.append_inj h5 hm).1]

theorem splits_exists : ∀ (n : Nat) (data : Bytes), data.length ≤ n → ∃ fs rest, Splits data fs rest
  | 0, data, h => by
    have : data = [] := List.length_eq_zero_iff.mp (by omega)
    subst this
    refine ⟨[], [], rfl, by simp, noFrame_iff.mpr (by simp [announced])⟩
  | n + 1, data, h => by
    by_cases hn : NoFrame data
    · exact ⟨[], data, by simp [Spec.encode], by simp, hn⟩
    · simp only [NoFrame, not_forall, ne_eq, not_not] at hn
      obtain ⟨f, t, hf, rfl⟩ := hn
      have := encode_pos f
      obtain ⟨fs, rest, h1, h2, h3⟩ := splits_exists n t (by simp at h; omega)
      refine ⟨f :: fs, rest, by simp [Spec.encode, h1], ?_, h3⟩
      intro f' hf'
      simp at hf'
      rcases hf' with rfl | hf'
      · exact hf
      · exact h2 _ hf'

theorem splits_unique : ∀ {data fs rest fs' rest'}, Splits data fs rest → Splits data fs' rest' → fs = fs' ∧ rest = rest'
  | data, [], rest, [], rest', h, h' => by
    have h1 := h.1; have h2 := h'.1
    simp [Spec.encode] at h1 h2
    simp [← h1, ← h2]
  | data, [], rest, f :: fs', rest', h, h' => by
    have h1 := h.1; have h2 := h'.1
    simp [Spec.encode] at h1 h2
    exact absurd (h1.symm.trans h2) (h.2.2 f _ (h'.2.1 f (by simp)))
  | data, f :: fs, rest, [], rest', h, h' => by
    have h1 := h.1; have h2 := h'.1
    simp [Spec.encode] at h1 h2
    exact absurd (h2.symm.trans h1) (h'.2.2 f _ (h.2.1 f (by simp)))
  | data, f :: fs, rest, f' :: fs', rest', h, h' => by
    have h1 := h.1; have h2 := h'.1
    simp [Spec.encode] at h1 h2
    obtain ⟨rfl, e⟩ := encode_inj (h.2.1 f (by simp)) (h'.2.1 f' (by simp)) (h1.symm.trans h2)
    obtain ⟨rfl, rfl⟩ := splits_unique (data := fs.flatMap Frame.encode ++ rest) (fs := fs) (fs' := fs')
      ⟨rfl, fun x hx => h.2.1 x (by simp [hx]), h.2.2⟩ ⟨e, fun x hx => h'.2.1 x (by simp [hx]), h'.2.2⟩
    exact ⟨rfl, rfl⟩

/-- The remainder either stops the walk or is a cut-off frame that fits the total length. -/
theorem stops_or_overruns {n : Nat} {rest : Bytes} (h : NoFrame rest) :
    (Stops n rest ∧ ¬ Overruns n rest) ∨ (Overruns n rest ∧ ¬ Stops n rest) := by
  unfold Stops Overruns
  rw [noFrame_iff] at h
  cases ha : announced rest with
  | none => simp
  | some p =>
    have := h p.1 p.2 ha
    simp only
    omega

theorem stops_noFrame {n : Nat} {rest : Bytes} (hn : rest.length ≤ n) (h : Stops n rest) : NoFrame rest := by
  rw [noFrame_iff]
  intro a b ha
  simp only [Stops, ha] at h
  omega

theorem overruns_noFrame {n : Nat} {rest : Bytes} (h : Overruns n rest) : NoFrame rest := by
  rw [noFrame_iff]
  intro a b ha
  simp only [Overruns, ha] at h
  omega

/-! ### The frame loop -/

/-- The description the parser gives of a frame at an index. -/
def infoOf (index : Nat) (f : Frame) : FrameInfo := infoAt index f.duration f.flags f.header.length f.body.length

theorem fromData_encode (g : Env) {data pre : Bytes} {f : Frame} {t : Bytes} (hf : f.WF)
    (h : data = pre ++ f.encode ++ t) : FrameInfo.fromDataAndIndex g data pre.length = .ok (infoOf pre.length f) := by
  have hd : data.drop pre.length = f.encode ++ t := by simp [h]
  obtain ⟨d, fl, t', e, hr⟩ := fromData_some g data pre.length (by simp [h]) _ _ (hd ▸ announced_encode hf t)
  rw [hr]
  rw [hd] at e
  simp [Frame.encode, Frame.header] at e
  obtain ⟨rfl, rfl, _⟩ := e
  have : ¬ data.length < f.header.length + f.body.length := by
    simp [h, Frame_encode_length]; omega
  rw [if_neg this]
  rfl

theorem body_encode {data pre : Bytes} {f : Frame} {t : Bytes} (h : data = pre ++ f.encode ++ t) :
    (infoOf pre.length f).body data = .ok f.body := by
  subst h
  unfold FrameInfo.body slice infoOf infoAt
  simp only
  rw [if_pos]
  · have h1 : pre.length + (f.header.length + f.body.length) - (pre.length + f.header.length) = f.body.length := by omega
    simp [Frame.encode, List.drop_append, List.drop_eq_nil_of_le, h1]
  · simp [Frame.encode]

theorem body_overrun {data : Bytes} {i : Nat} {d fl : UInt8} {h b : Nat} (hlt : data.length < i + (h + b)) :
    (infoAt i d fl h b).body data = .panic := by
  unfold FrameInfo.body slice infoAt
  simp only
  rw [if_neg]
  omega

/-- A loop body over a sequence of frames starting at an index. -/
def runFrames {σ : Type} (body : σ → Nat → Frame → R (Step σ)) : Nat → σ → List Frame → R (Step σ)
  | _, s, [] => .ok (.next s)
  | i, s, f :: fs => (body s i f).bind fun
    | .next s => runFrames body (i + f.encode.length) s fs
    | .brk s => .ok (.brk s)

/-- The loop body, described on frames. -/
def Describes {σ : Type} (data : Bytes) (body : σ → FrameInfo → R (Step σ)) (body' : σ → Nat → Frame → R (Step σ)) :
    Prop :=
  ∀ s pre f post, data = pre ++ f.encode ++ post → body s (infoOf pre.length f) = body' s pre.length f

theorem R.bind_assoc {α β γ : Type} (x : R α) (f : α → R β) (k : β → R γ) :
    (x.bind f).bind k = x.bind fun a => (f a).bind k := by
  cases x <;> rfl

theorem frameLoop_walk {σ : Type} (g : Env) {data : Bytes} {body : σ → FrameInfo → R (Step σ)}
    {body' : σ → Nat → Frame → R (Step σ)} (hd : Describes data body body') :
    ∀ (fs : List Frame) (fuel : Nat) (pre rest : Bytes) (s : σ), (∀ f ∈ fs, f.WF) → data = pre ++ Spec.encode fs ++ rest →
      fs.length ≤ fuel →
      frameLoop g data body fuel pre.length s = (runFrames body' pre.length s fs).bind fun
        | .brk s => .ok s
        | .next s => frameLoop g data body (fuel - fs.length) (pre.length + (Spec.encode fs).length) s
  | [], fuel, pre, rest, s, _, _, _ => by simp [runFrames, R.bind, Spec.encode]
  | f :: fs, 0, pre, rest, s, _, _, h => by simp at h
  | f :: fs, fuel + 1, pre, rest, s, hwf, he, hfuel => by
    have he' : data = pre ++ f.encode ++ (Spec.encode fs ++ rest) := by simp [he, Spec.encode]
    simp only [frameLoop, fromData_encode g (hwf f (by simp)) he', runFrames, hd s pre f _ he']
    rw [R.bind_assoc]
    congr 1
    funext st
    cases st with
    | brk s => rfl
    | next s =>
      simp only
      have := frameLoop_walk g hd fs fuel (pre ++ f.encode) rest s (fun x hx => hwf x (by simp [hx]))
        (by simp [he']) (by simpa using hfuel)
      have hsz : (infoOf pre.length f).size = f.encode.length := by simp [infoOf, infoAt, Frame_encode_length]
      rw [hsz]
      simp only [List.length_append] at this
      rw [this]
      simp [Spec.encode, Nat.add_assoc]

theorem frameLoop_stops {σ : Type} (g : Env) {data pre rest : Bytes} {body : σ → FrameInfo → R (Step σ)}
    (he : data = pre ++ rest) (hs : Stops data.length rest) (fuel : Nat) (s : σ) :
    frameLoop g data body (fuel + 1) pre.length s = .ok s := by
  have hdrop : data.drop pre.length = rest := by simp [he]
  have hle : pre.length ≤ data.length := by simp [he]
  unfold Stops at hs
  cases ha : announced rest with
  | none => simp [frameLoop, fromData_none g data pre.length hle (by rw [hdrop, ha])]
  | some p =>
    obtain ⟨d, fl, t, _, hr⟩ := fromData_some g data pre.length hle p.1 p.2 (by rw [hdrop, ha])
    simp only [ha] at hs
    simp [frameLoop, hr, hs]

theorem frameLoop_overruns {σ : Type} (g : Env) {data pre rest : Bytes} {body : σ → FrameInfo → R (Step σ)}
    (he : data = pre ++ rest) (hs : Overruns data.length rest) (fuel : Nat) (s : σ) :
    ∃ d fl h b, announced rest = some (h, b) ∧ data.length < pre.length + (h + b) ∧ 0 < b ∧
      rest.take 2 = [d, fl] ∧
      frameLoop g data body (fuel + 2) pre.length s = (body s (infoAt pre.length d fl h b)).bind fun
        | .next _ => .panic
        | .brk s => .ok s := by
  have hdrop : data.drop pre.length = rest := by simp [he]
  have hle : pre.length ≤ data.length := by simp [he]
  unfold Overruns at hs
  cases ha : announced rest with
  | none => simp [ha] at hs
  | some p =>
    obtain ⟨h, b⟩ := p
    obtain ⟨d, fl, t, ht, hr⟩ := fromData_some g data pre.length hle h b (by rw [hdrop, ha])
    simp only [ha] at hs
    have hlt : data.length < pre.length + (h + b) := by
      have : data.length = pre.length + rest.length := by simp [he]
      omega
    have hnlt : ¬ data.length < h + b := by omega
    refine ⟨d, fl, h, b, rfl, hlt, ?_, ?_, ?_⟩
    · refine Nat.pos_of_ne_zero fun h0 => ?_
      subst h0
      have : h ≤ rest.length := by
        rw [hdrop] at ht
        subst ht
        simp only [announced] at ha
        split at ha <;> simp at ha <;> simp <;> omega
      omega
    · rw [hdrop] at ht
      simp [ht]
    · rw [frameLoop, hr, if_neg hnlt]
      simp only
      congr 1
      funext st
      cases st with
      | brk s => rfl
      | next s =>
        simp only [frameLoop]
        rw [fromData_panic]
        exact hlt

/-- The state after the loop. -/
def finish {σ : Type} : R (Step σ) → R σ
  | .ok (.next s) => .ok s
  | .ok (.brk s) => .ok s
  | .err e => .err e
  | .panic => .panic
  | .hang => .hang

theorem length_le_encode (fs : List Frame) : 2 * fs.length ≤ (Spec.encode fs).length := by
  induction fs with
  | nil => simp
  | cons f fs ih =>
    have := encode_pos f
    simp [Spec.encode] at ih ⊢
    omega

theorem walk_stops {σ : Type} (g : Env) {data pre rest : Bytes} {fs : List Frame} {body : σ → FrameInfo → R (Step σ)}
    {body' : σ → Nat → Frame → R (Step σ)} (hd : Describes data body body') (hwf : ∀ f ∈ fs, f.WF)
    (he : data = pre ++ Spec.encode fs ++ rest) (hs : Stops data.length rest) (s : σ) :
    frameLoopFrom g data pre.length s body = finish (runFrames body' pre.length s fs) := by
  have hl := length_le_encode fs
  have hlen : data.length = pre.length + (Spec.encode fs).length + rest.length := by simp [he]; omega
  rw [frameLoopFrom, frameLoop_walk g hd fs _ pre rest s hwf he (by omega)]
  cases hr : runFrames body' pre.length s fs with
  | ok st =>
    cases st with
    | brk s => rfl
    | next s =>
      simp only [R.bind, finish]
      obtain ⟨k, hk⟩ : ∃ k, data.length + 1 - fs.length = k + 1 := ⟨data.length - fs.length, by omega⟩
      have := frameLoop_stops g (pre := pre ++ Spec.encode fs) (body := body) he hs k s
      rw [hk]
      simpa using this
  | err e => rfl
  | panic => rfl
  | hang => rfl

theorem walk_overruns {σ : Type} (g : Env) {data pre rest : Bytes} {fs : List Frame}
    {body : σ → FrameInfo → R (Step σ)}
    {body' : σ → Nat → Frame → R (Step σ)} (hd : Describes data body body') (hwf : ∀ f ∈ fs, f.WF)
    (he : data = pre ++ Spec.encode fs ++ rest) (hs : Overruns data.length rest) (s : σ) :
    ∃ d fl h b, announced rest = some (h, b) ∧ data.length < pre.length + (Spec.encode fs).length + (h + b) ∧ 0 < b ∧
      rest.take 2 = [d, fl] ∧
      frameLoopFrom g data pre.length s body = (runFrames body' pre.length s fs).bind fun
        | .brk s => .ok s
        | .next s => (body s (infoAt (pre.length + (Spec.encode fs).length) d fl h b)).bind fun
          | .next _ => .panic
          | .brk s => .ok s := by
  have hl := length_le_encode fs
  have hlen : data.length = pre.length + (Spec.encode fs).length + rest.length := by simp [he]; omega
  have hpos : 1 ≤ rest.length := by
    cases rest with
    | nil => simp [Overruns, announced] at hs
    | cons _ _ => simp
  obtain ⟨k, hk⟩ : ∃ k, data.length + 1 - fs.length = k + 2 := ⟨data.length - fs.length - 1, by omega⟩
  have key := fun s => frameLoop_overruns g (pre := pre ++ Spec.encode fs) (body := body) he hs k s
  obtain ⟨d, fl, h, b, h1, h2, h3, h4, _⟩ := key s
  refine ⟨d, fl, h, b, h1, by simpa using h2, h3, h4, ?_⟩
  rw [frameLoopFrom, frameLoop_walk g hd fs _ pre rest s hwf he (by omega)]
  congr 1
  funext st
  cases st with
  | brk s => rfl
  | next s' =>
    simp only
    obtain ⟨d', fl', h', b', h1', _, _, h4', h5'⟩ := key s'
    rw [h1] at h1'
    rw [h4] at h4'
    simp at h1' h4'
    obtain ⟨rfl, rfl⟩ := h1'
    obtain ⟨rfl, rfl⟩ := h4'
    rw [hk]
    simpa using h5'

end Mvd

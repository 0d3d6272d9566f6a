import Verif.Lemmas.Walk
import Verif.Lemmas.Utf8
import Verif.Model.Ktxstats
import Verif.Spec.Ktxstats

/-! Reading the match stats blocks. -/

namespace Mvd
open Spec

theorem exists_le16 (a b : UInt8) : ∃ n, n < 2 ^ 16 ∧ [a, b] = le16 n := by
  have ha := a.toNat_lt
  have hb := b.toNat_lt
  refine ⟨a.toNat + 256 * b.toNat, by omega, ?_⟩
  unfold le16
  rw [show (a.toNat + 256 * b.toNat) % 256 = a.toNat by omega, show (a.toNat + 256 * b.toNat) / 256 % 256 = b.toNat by omega]
  simp

theorem readU32_le32 (g : Env) (p : Nat) {n : Nat} (h : n < 2 ^ 32) (t : Bytes) :
    (Cursor.mk p (le32 n ++ t)).readU32 g = (some n, ⟨p + 4, t⟩) := by
  have := le32_value n h
  simp only [le32, List.cons_append, List.nil_append] at this ⊢
  rw [readU32_cons]
  simp only [u8_ofNat] at this ⊢
  congr 2

theorem readU16_le16 (g : Env) (p : Nat) {n : Nat} (h : n < 2 ^ 16) (t : Bytes) :
    (Cursor.mk p (le16 n ++ t)).readU16 g = (some n, ⟨p + 2, t⟩) := by
  simp only [le16, List.cons_append, List.nil_append]
  rw [readU16_cons]
  simp only [u8_ofNat]
  congr 2
  omega

theorem demoinfo_iff (n : Nat) : HiddenMessage.ofU16 n = .demoinfo ↔ n = 3 := by
  unfold HiddenMessage.ofU16
  constructor
  · intro h
    repeat' split at h
    all_goals first | assumption | cases h
  · rintro rfl; rfl

theorem tryFrom_header (g : Env) {size type number : Nat} {t : Bytes} (hs : size < 2 ^ 32) (h2 : 2 ≤ size)
    (ht : type < 2 ^ 16) (hn : number < 2 ^ 16) :
    BlockInfo.tryFrom g (le32 size ++ le16 type ++ le16 number ++ t) =
      .ok ⟨size - 2, 8 + (size - 2), HiddenMessage.ofU16 type, number⟩ := by
  unfold BlockInfo.tryFrom Cursor.new
  simp only [List.append_assoc]
  rw [readU32_le32 g 0 hs]
  have h1 : subU g.checks 64 size SHORT = .ok (size - 2) := if_pos h2
  have h3 : addU g.checks 64 BLOCK_HEADER_SIZE (size - 2) = .ok (8 + (size - 2)) := if_pos (by
    simp only [BLOCK_HEADER_SIZE, LONG, SHORT]; omega)
  simp only [h1, R.bind, h3]
  rw [readU16_le16 g _ ht]
  simp only
  rw [readU16_le16 g _ hn]

/-- What the loop makes of a read. -/
def blocksResult (content : Bytes) : Option Bytes → R Bytes
  | some c => .ok (content ++ c)
  | none => .panic

theorem body_length (b : StatsBlock) : b.body.length = 8 + b.content.length := by
  simp [StatsBlock.body, le16, le32]
  omega

/-- One round of the loop, the block header being found at `k`. -/
theorem blockLoop_round (g : Env) {data : Bytes} {offset k : Nat} {b : StatsBlock} {t : Bytes} (fuel : Nat) (content : Bytes)
    (hlen : data.length < 2 ^ 63) (hstart : addU g.checks 64 offset MULTI_HEADER_SIZE = .ok k) (hk : k ≤ data.length)
    (hbody : addU g.checks 64 offset TOTAL_HEADER_SIZE = .ok (k + 8)) (hd : data.drop k = b.body ++ t) (hb : b.WF) :
    blockLoop g data (fuel + 1) offset content =
      if b.number = 0 then .ok (content ++ b.content)
      else blockLoop g data fuel (k + 8 + b.content.length) (content ++ b.content) := by
  have hdl : data.length = k + (8 + b.content.length) + t.length := by
    have := congrArg List.length hd
    rw [List.length_append, body_length] at this
    simp at this
    omega
  rw [blockLoop, hstart]
  simp only [R.bind]
  rw [sliceFrom, if_pos hk]
  simp only
  rw [hd]
  have hbt : b.body ++ t = le32 (b.content.length + 2) ++ le16 3 ++ le16 b.number ++ (b.content ++ t) := by
    simp [StatsBlock.body]
  rw [hbt, tryFrom_header g hb.2.2 (by omega) (by omega) hb.2.1]
  simp only [Nat.add_sub_cancel]
  rw [if_neg (by simp [HiddenMessage.ofU16]), hbody]
  simp only [R.bind]
  have hadd : addU g.checks 64 (k + 8) b.content.length = .ok (k + 8 + b.content.length) := if_pos (by omega)
  rw [hadd]
  simp only
  have hslice : slice data (k + 8) (k + 8 + b.content.length) = .ok b.content := by
    unfold slice
    rw [if_pos (by omega)]
    congr 1
    rw [← List.drop_drop, hd, hbt]
    have h8 : (le32 (b.content.length + 2) ++ le16 3 ++ le16 b.number).length = 8 := by simp [le32, le16]
    rw [← h8, List.drop_left]
    rw [h8, show k + 8 + b.content.length - (k + 8) = b.content.length by omega]
    simp
  rw [hslice]

theorem ktx_bad (g : Env) {data : Bytes} {offset k : Nat} (fuel : Nat) (content : Bytes)
    (hstart : addU g.checks 64 offset MULTI_HEADER_SIZE = .ok k) (hk : k ≤ data.length) :
    blockLoop g data (fuel + 1) offset content = match BlockInfo.tryFrom g (data.drop k) with
    | .ok info =>
      if info.hiddenMessage ≠ .demoinfo then .ok content
      else
        (addU g.checks 64 offset TOTAL_HEADER_SIZE).bind fun offset =>
        (addU g.checks 64 offset info.bodySize).bind fun stop =>
        (slice data offset stop).bind fun body =>
        let content := content ++ body
        if info.number = 0 then .ok content else blockLoop g data fuel stop content
    | .err _ => .ok content
    | .panic => .panic
    | .hang => .hang := by
  rw [blockLoop, hstart]
  simp only [R.bind]
  rw [sliceFrom, if_pos hk]
  rfl

theorem subU_small (g : Env) {size : Nat} (h : size < 2) :
    subU g.checks 64 size SHORT = if g.checks then .panic else .ok (2 ^ 64 + size - 2) := by
  unfold subU
  rw [if_neg (by simp only [SHORT]; omega)]
  rfl

theorem tryFrom_small_checks (g : Env) (hc : g.checks = true) {size : Nat} {t : Bytes} (hs : size < 2) :
    BlockInfo.tryFrom g (le32 size ++ t) = .panic := by
  unfold BlockInfo.tryFrom Cursor.new
  simp only
  rw [readU32_le32 g 0 (by omega)]
  simp only
  rw [subU_small g hs, hc]
  rfl

theorem tryFrom_small_wrap (g : Env) (hc : g.checks = false) {size type number : Nat} {t : Bytes} (hs : size < 2)
    (ht : type < 2 ^ 16) (hn : number < 2 ^ 16) :
    BlockInfo.tryFrom g (le32 size ++ le16 type ++ le16 number ++ t) =
      .ok ⟨2 ^ 64 + size - 2, 6 + size, HiddenMessage.ofU16 type, number⟩ := by
  unfold BlockInfo.tryFrom Cursor.new
  simp only [List.append_assoc]
  rw [readU32_le32 g 0 (by omega)]
  simp only
  have h3 : addU g.checks 64 BLOCK_HEADER_SIZE (2 ^ 64 + size - 2) = .ok (6 + size) := by
    unfold addU
    rw [if_neg (by simp only [BLOCK_HEADER_SIZE, LONG, SHORT]; omega), hc]
    rw [show BLOCK_HEADER_SIZE = 8 from rfl]
    simp only [Bool.false_eq_true, if_false]
    congr 1
    omega
  have h1 : subU g.checks 64 size SHORT = .ok (2 ^ 64 + size - 2) := by rw [subU_small g hs, hc]; rfl
  rw [h1]
  simp only [R.bind]
  rw [h3]
  simp only
  rw [readU16_le16 g _ ht]
  simp only
  rw [readU16_le16 g _ hn]

theorem tryFrom_short (g : Env) {l : Bytes} (h : l.length < 8)
    (hc : g.checks = true → ∀ size t, size < 2 → l ≠ le32 size ++ t) :
    ∃ e, BlockInfo.tryFrom g l = .err e := by
  unfold BlockInfo.tryFrom Cursor.new
  simp only
  by_cases h4 : l.length < 4
  · obtain ⟨x, hx⟩ := readU32_short g ⟨0, l⟩ h4
    rw [hx]
    exact ⟨_, rfl⟩
  · obtain ⟨a, b, c, d, t, rfl⟩ := exists_four (by omega : 4 ≤ l.length)
    obtain ⟨n, he, hn⟩ : ∃ n, [a, b, c, d] = le32 n ∧ n < 2 ^ 32 := ⟨_, (exists_le32 a b c d).1.symm, (exists_le32 a b c d).2⟩
    have hl : a :: b :: c :: d :: t = le32 n ++ t := by rw [← he]; rfl
    rw [hl] at h hc ⊢
    have ht : t.length < 4 := by simp [le32] at h; omega
    rw [readU32_le32 g 0 hn]
    simp only
    have key : ∃ m, subU g.checks 64 n SHORT = .ok m := by
      by_cases h2 : 2 ≤ n
      · exact ⟨_, if_pos h2⟩
      · cases hg : g.checks with
        | true => exact absurd rfl (hc hg n t (by omega))
        | false => rw [← hg, subU_small g (by omega), hg]; exact ⟨_, rfl⟩
    obtain ⟨m, hm⟩ := key
    rw [hm]
    simp only [R.bind]
    have key2 : ∃ k, addU g.checks 64 BLOCK_HEADER_SIZE m = .ok k := by
      by_cases h2 : 2 ≤ n
      · have : m = n - 2 := by
          have e : subU g.checks 64 n SHORT = .ok (n - 2) := if_pos h2
          rw [e] at hm; exact (R.ok.inj hm).symm
        subst this
        exact ⟨_, if_pos (by simp only [BLOCK_HEADER_SIZE, LONG, SHORT]; omega)⟩
      · cases hg : g.checks with
        | true => exact absurd rfl (hc hg n t (by omega))
        | false =>
          unfold addU
          by_cases hlt : BLOCK_HEADER_SIZE + m < 2 ^ 64
          · exact ⟨_, if_pos hlt⟩
          · rw [if_neg hlt]; exact ⟨_, rfl⟩
    obtain ⟨k, hk⟩ := key2
    rw [hk]
    simp only
    by_cases h2 : t.length < 2
    · obtain ⟨x, hx⟩ := readU16_short g ⟨0 + 4, t⟩ h2
      rw [hx]
      exact ⟨_, rfl⟩
    · obtain ⟨a, b, u, rfl⟩ : ∃ a b u, t = a :: b :: u := by
        rcases t with _ | ⟨a, _ | ⟨b, u⟩⟩
        · simp at h2
        · simp at h2
        · exact ⟨a, b, u, rfl⟩
      rw [readU16_cons]
      simp only
      have hu : u.length < 2 := by simp at ht; omega
      obtain ⟨x, hx⟩ := readU16_short g ⟨0 + 4 + 2, u⟩ hu
      rw [hx]
      exact ⟨_, rfl⟩

/-- The loop against the specification. -/
theorem blockLoop_eq (g : Env) {data : Bytes} (hlen : data.length < 2 ^ 63) {l : Bytes} {o : Option Bytes}
    (h : ReadsBlocks g.checks l o) : ∀ (fuel offset k : Nat) (content : Bytes), l.length < fuel →
    addU g.checks 64 offset MULTI_HEADER_SIZE = .ok k → k ≤ data.length →
    addU g.checks 64 offset TOTAL_HEADER_SIZE = .ok (k + 8) → data.drop k = l →
    blockLoop g data fuel offset content = blocksResult content o := by
  induction h with
  | ends hl hc =>
    intro fuel offset k content hf hstart hk _ hd
    obtain ⟨f, rfl⟩ : ∃ f, fuel = f + 1 := ⟨fuel - 1, by omega⟩
    rw [ktx_bad g f content hstart hk, hd]
    obtain ⟨e, he⟩ := tryFrom_short g hl hc
    rw [he]
    simp [blocksResult]
  | @foreign size type number t hs ht hn hne hc =>
    intro fuel offset k content hf hstart hk _ hd
    obtain ⟨f, rfl⟩ : ∃ f, fuel = f + 1 := ⟨fuel - 1, by omega⟩
    rw [ktx_bad g f content hstart hk, hd]
    have hdi : HiddenMessage.ofU16 type ≠ .demoinfo := fun h => hne ((demoinfo_iff type).mp h)
    by_cases h2 : 2 ≤ size
    · rw [tryFrom_header g hs h2 ht hn]
      simp only
      rw [if_pos hdi]
      simp [blocksResult]
    · cases hg : g.checks with
      | true => exact absurd (hc hg) h2
      | false =>
        rw [tryFrom_small_wrap g hg (by omega) ht hn]
        simp only
        rw [if_pos hdi]
        simp [blocksResult]
  | @small size t hc hs =>
    intro fuel offset k content hf hstart hk _ hd
    obtain ⟨f, rfl⟩ : ∃ f, fuel = f + 1 := ⟨fuel - 1, by omega⟩
    rw [ktx_bad g f content hstart hk, hd, tryFrom_small_checks g hc hs]
    rfl
  | @wraps size number t hc hs hn =>
    intro fuel offset k content hf hstart hk hbody hd
    obtain ⟨f, rfl⟩ : ∃ f, fuel = f + 1 := ⟨fuel - 1, by omega⟩
    rw [ktx_bad g f content hstart hk, hd, tryFrom_small_wrap g hc hs (by omega) hn]
    simp only
    rw [if_neg (by simp [HiddenMessage.ofU16]), hbody]
    simp only [R.bind]
    have hlen' : (data.drop k).length = data.length - k := by simp
    have h8 : 8 ≤ data.length - k := by
      rw [← hlen', hd]; simp [le32, le16]
    have e : addU g.checks 64 (k + 8) (2 ^ 64 + size - 2) = .ok (k + 6 + size) := by
      unfold addU
      rw [if_neg (by omega), hc]
      simp only [Bool.false_eq_true, if_false]
      congr 1
      omega
    rw [e]
    simp only
    rw [slice, if_neg (by omega)]
    rfl
  | @cut size number t hs h2 hn hlt =>
    intro fuel offset k content hf hstart hk hbody hd
    obtain ⟨f, rfl⟩ : ∃ f, fuel = f + 1 := ⟨fuel - 1, by omega⟩
    rw [ktx_bad g f content hstart hk, hd, tryFrom_header g hs h2 (by omega) hn]
    simp only
    rw [if_neg (by simp [HiddenMessage.ofU16]), hbody]
    simp only [R.bind]
    have hlen' : (data.drop k).length = data.length - k := by simp
    have h8 : data.length - k = 8 + t.length := by
      rw [← hlen', hd]; simp [le32, le16]; omega
    have e : addU g.checks 64 (k + 8) (size - 2) = .ok (k + 8 + (size - 2)) := if_pos (by omega)
    rw [e]
    simp only
    rw [slice, if_neg (by omega)]
    rfl
  | @last b t hb h0 =>
    intro fuel offset k content hf hstart hk hbody hd
    obtain ⟨f, rfl⟩ : ∃ f, fuel = f + 1 := ⟨fuel - 1, by omega⟩
    rw [blockLoop_round g f content hlen hstart hk hbody hd hb, if_pos h0]
    rfl
  | @gap b t hb h0 hlt =>
    intro fuel offset k content hf hstart hk hbody hd
    have hbl := body_length b
    obtain ⟨f, rfl⟩ : ∃ f, fuel = f + 2 := ⟨fuel - 2, by rw [List.length_append] at hf; omega⟩
    rw [blockLoop_round g (f + 1) content hlen hstart hk hbody hd hb, if_neg h0]
    have hdl : data.length = k + (8 + b.content.length) + t.length := by
      have := congrArg List.length hd
      rw [List.length_append, hbl] at this
      simp at this
      omega
    rw [blockLoop]
    have e : addU g.checks 64 (k + 8 + b.content.length) MULTI_HEADER_SIZE = .ok (k + 8 + b.content.length + MULTI_HEADER_SIZE) :=
      if_pos (by rw [show MULTI_HEADER_SIZE = 10 from rfl]; omega)
    rw [e]
    simp only [R.bind]
    rw [sliceFrom, if_neg (by rw [show MULTI_HEADER_SIZE = 10 from rfl]; omega)]
    rfl
  | @next b header t o hb h0 hh hr ih =>
    intro fuel offset k content hf hstart hk hbody hd
    have hbl := body_length b
    obtain ⟨f, rfl⟩ : ∃ f, fuel = f + 1 := ⟨fuel - 1, by omega⟩
    rw [List.append_assoc] at hd
    rw [blockLoop_round g f content hlen hstart hk hbody hd hb, if_neg h0]
    have hdl : data.length = k + (8 + b.content.length) + 10 + t.length := by
      have := congrArg List.length hd
      simp only [List.length_append, hbl, List.length_drop, hh] at this
      omega
    rw [ih f _ (k + 8 + b.content.length + 10) (content ++ b.content)]
    · cases o with
      | none => rfl
      | some c => simp [blocksResult]
    · simp only [List.length_append, hbl] at hf; omega
    · exact if_pos (by rw [show MULTI_HEADER_SIZE = 10 from rfl]; omega)
    · omega
    · have : addU g.checks 64 (k + 8 + b.content.length) TOTAL_HEADER_SIZE =
          .ok (k + 8 + b.content.length + TOTAL_HEADER_SIZE) :=
        if_pos (by rw [show TOTAL_HEADER_SIZE = 18 from rfl]; omega)
      rw [this]
      rfl
    · rw [show k + 8 + b.content.length + 10 = k + ((b.body ++ header).length) by
        rw [List.length_append, hbl, hh]; omega]
      rw [← List.drop_drop, hd, ← List.append_assoc, List.drop_left]

theorem readsBlocks_exists (checks : Bool) : ∀ (n : Nat) (l : Bytes), l.length ≤ n → ∃ o, ReadsBlocks checks l o := by
  intro n
  induction n with
  | zero =>
    intro l hl
    have : l = [] := List.length_eq_zero_iff.mp (by omega)
    subst this
    exact ⟨_, .ends (by simp) (by intro _ s t _ h; simp [le32] at h)⟩
  | succ n ih =>
    intro l hl
    by_cases h8 : l.length < 8
    · by_cases hc : checks = true → ∀ size t, size < 2 → l ≠ le32 size ++ t
      · exact ⟨_, .ends h8 hc⟩
      · have hc' : checks = true ∧ ∃ size t, size < 2 ∧ l = le32 size ++ t := by
          refine Classical.byContradiction fun hcon => hc fun hck size t hs he => hcon ⟨hck, size, t, hs, he⟩
        obtain ⟨hck, size, t, hs, rfl⟩ := hc'
        exact ⟨_, .small hck hs⟩
    · obtain ⟨a, b, c, d, t, rfl⟩ := exists_four (by omega : 4 ≤ l.length)
      obtain ⟨e, f, x, y, t, rfl⟩ := exists_four (by simp at h8; omega : 4 ≤ t.length)
      obtain ⟨size, e1, hs⟩ : ∃ n, [a, b, c, d] = le32 n ∧ n < 2 ^ 32 := ⟨_, (exists_le32 a b c d).1.symm, (exists_le32 a b c d).2⟩
      obtain ⟨type, ht, e2⟩ := exists_le16 e f
      obtain ⟨number, hn, e3⟩ := exists_le16 x y
      have hl' : a :: b :: c :: d :: e :: f :: x :: y :: t = le32 size ++ le16 type ++ le16 number ++ t := by
        rw [← e1, ← e2, ← e3]; rfl
      have hlen8 : (le32 size ++ le16 type ++ le16 number).length = 8 := by simp [le32, le16]
      rw [hl'] at hl ⊢
      by_cases h3 : type = 3
      · subst h3
        by_cases h2 : 2 ≤ size
        · by_cases hcut : t.length < size - 2
          · exact ⟨_, .cut hs h2 hn hcut⟩
          · have hsplit : le32 size ++ le16 3 ++ le16 number ++ t =
                StatsBlock.body ⟨[], number, t.take (size - 2)⟩ ++ t.drop (size - 2) := by
              have hmin : (t.take (size - 2)).length = size - 2 := by rw [List.length_take]; omega
              simp only [StatsBlock.body, hmin]
              rw [show size - 2 + 2 = size by omega]
              simp
            have hmin : (t.take (size - 2)).length = size - 2 := by rw [List.length_take]; omega
            have hsplit' : le32 size ++ le16 3 ++ le16 number ++ t =
                StatsBlock.body ⟨List.replicate 10 0, number, t.take (size - 2)⟩ ++ t.drop (size - 2) := hsplit
            have hwf : StatsBlock.WF ⟨List.replicate 10 0, number, t.take (size - 2)⟩ :=
              ⟨by simp, hn, by show (t.take (size - 2)).length + 2 < 2 ^ 32; rw [hmin]; omega⟩
            rw [hsplit']
            by_cases h0 : number = 0
            · exact ⟨_, .last hwf h0⟩
            · by_cases hg : (t.drop (size - 2)).length < 10
              · exact ⟨_, .gap hwf h0 hg⟩
              · obtain ⟨o, ho⟩ := ih ((t.drop (size - 2)).drop 10) (by
                  rw [List.length_append, hlen8] at hl
                  simp only [List.length_drop]; omega)
                have := ReadsBlocks.next (header := (t.drop (size - 2)).take 10) hwf h0 (by
                  rw [List.length_take]; omega) ho
                rw [List.append_assoc, List.take_append_drop] at this
                exact ⟨_, this⟩
        · cases hck : checks with
          | true => rw [List.append_assoc, List.append_assoc]; exact ⟨_, .small rfl (by omega)⟩
          | false => exact ⟨_, .wraps rfl (by omega) hn⟩
      · by_cases hc : checks = true → 2 ≤ size
        · exact ⟨_, .foreign hs ht hn h3 hc⟩
        · have hck : checks = true := Classical.byContradiction fun h => hc fun h' => absurd h' h
          have h2 : ¬ 2 ≤ size := fun h => hc fun _ => h
          rw [List.append_assoc, List.append_assoc]
          exact ⟨_, .small hck (by omega)⟩

/-- The outcome after the blocks have been read. -/
def statsText : Option Bytes → R Str
  | none => .panic
  | some content => match fromUtf8 content with
    | some s => .ok s
    | none => .err .utf8

theorem marker_eq : bytes!"{\"version\": " = statsMarker := rfl

theorem ktxstatsString_eq (g : Env) {data : Bytes} (hlen : data.length < 2 ^ 63) {m : Nat}
    (hm : LastAt statsMarker data m) (hlim : markerLimit g.checks ≤ m) {o : Option Bytes}
    (h : ReadsBlocks g.checks (data.drop (m - 8)) o) : ktxstatsString g data = statsText o := by
  have hb := hm.1.bound
  have h8 : 8 ≤ m := by unfold markerLimit at hlim; split at hlim <;> omega
  unfold ktxstatsString
  rw [marker_eq, rfind_eq_some_iff.mpr hm]
  simp only
  have key : ∃ offset, subU g.checks 64 m TOTAL_HEADER_SIZE = .ok offset ∧
      addU g.checks 64 offset MULTI_HEADER_SIZE = .ok (m - 8) ∧
      addU g.checks 64 offset TOTAL_HEADER_SIZE = .ok (m - 8 + 8) := by
    rw [show TOTAL_HEADER_SIZE = 18 from rfl, show MULTI_HEADER_SIZE = 10 from rfl]
    by_cases h18 : 18 ≤ m
    · refine ⟨m - 18, if_pos h18, ?_, ?_⟩
      · unfold addU; rw [if_pos (by omega)]; congr 1; omega
      · unfold addU; rw [if_pos (by omega)]; congr 1; omega
    · cases hg : g.checks with
      | true => rw [hg] at hlim; simp [markerLimit] at hlim; omega
      | false =>
        refine ⟨2 ^ 64 + m - 18, ?_, ?_, ?_⟩
        · unfold subU; rw [if_neg h18]; rfl
        · unfold addU; rw [if_neg (by omega)]
          simp only [Bool.false_eq_true, if_false]
          congr 1; omega
        · unfold addU; rw [if_neg (by omega)]
          simp only [Bool.false_eq_true, if_false]
          congr 1; omega
  obtain ⟨offset, h1, h2, h3⟩ := key
  rw [h1]
  simp only [R.bind]
  rw [blockLoop_eq g hlen h (data.length + 1) offset (m - 8) [] (by simp; omega) h2 (by omega) h3 rfl]
  cases o with
  | none => rfl
  | some c =>
    simp only [blocksResult, List.nil_append, statsText]
    rfl

theorem ktxstatsString_early (g : Env) {data : Bytes} {m : Nat} (hlen : data.length < 2 ^ 63)
    (hm : LastAt statsMarker data m) (hlim : m < markerLimit g.checks) : ktxstatsString g data = .panic := by
  unfold ktxstatsString
  rw [marker_eq, rfind_eq_some_iff.mpr hm]
  simp only
  rw [show TOTAL_HEADER_SIZE = 18 from rfl]
  cases hg : g.checks with
  | true =>
    rw [hg] at hlim
    simp only [markerLimit, if_true] at hlim
    have : subU true 64 m 18 = .panic := by unfold subU; rw [if_neg (by omega)]; rfl
    rw [this]
    rfl
  | false =>
    rw [hg] at hlim
    simp only [markerLimit, Bool.false_eq_true, if_false] at hlim
    have : subU false 64 m 18 = .ok (2 ^ 64 + m - 18) := by unfold subU; rw [if_neg (by omega)]; rfl
    rw [this]
    simp only [R.bind]
    rw [blockLoop, hg, show MULTI_HEADER_SIZE = 10 from rfl]
    have e : addU false 64 (2 ^ 64 + m - 18) 10 = .ok (2 ^ 64 + m - 18 + 10) := if_pos (by omega)
    rw [e]
    simp only [R.bind]
    rw [sliceFrom, if_neg (by omega)]

theorem addU_cases (checks : Bool) (bits a b : Nat) : (∃ k, addU checks bits a b = .ok k) ∨ addU checks bits a b = .panic := by
  unfold addU
  split
  · exact .inl ⟨_, rfl⟩
  · split
    · exact .inr rfl
    · exact .inl ⟨_, rfl⟩

theorem subU_cases (checks : Bool) (bits a b : Nat) : (∃ k, subU checks bits a b = .ok k) ∨ subU checks bits a b = .panic := by
  unfold subU
  split
  · exact .inl ⟨_, rfl⟩
  · split
    · exact .inr rfl
    · exact .inl ⟨_, rfl⟩

theorem slice_cases (l : Bytes) (a b : Nat) : (∃ k, slice l a b = .ok k) ∨ slice l a b = .panic := by
  unfold slice
  split
  · exact .inl ⟨_, rfl⟩
  · exact .inr rfl

theorem sliceFrom_cases (l : Bytes) (a : Nat) : (∃ k, sliceFrom l a = .ok k) ∨ sliceFrom l a = .panic := by
  unfold sliceFrom
  split
  · exact .inl ⟨_, rfl⟩
  · exact .inr rfl

theorem blockLoop_ne_err (g : Env) (data : Bytes) : ∀ fuel offset content e, blockLoop g data fuel offset content ≠ .err e := by
  intro fuel
  induction fuel with
  | zero => intro offset content e h; cases h
  | succ n ih =>
    intro offset content e h
    rw [blockLoop] at h
    obtain ⟨k, hk⟩ | hk := addU_cases g.checks 64 offset MULTI_HEADER_SIZE
    · rw [hk] at h
      simp only [R.bind] at h
      obtain ⟨l, hl⟩ | hl := sliceFrom_cases data k
      · rw [hl] at h
        simp only at h
        cases ht : BlockInfo.tryFrom g l with
        | ok info =>
          rw [ht] at h
          simp only at h
          split at h
          · cases h
          · obtain ⟨k1, hk1⟩ | hk1 := addU_cases g.checks 64 offset TOTAL_HEADER_SIZE
            · rw [hk1] at h
              simp only [R.bind] at h
              obtain ⟨k2, hk2⟩ | hk2 := addU_cases g.checks 64 k1 info.bodySize
              · rw [hk2] at h
                simp only at h
                obtain ⟨b, hb⟩ | hb := slice_cases data k1 k2
                · rw [hb] at h
                  simp only at h
                  split at h
                  · cases h
                  · exact ih _ _ _ h
                · rw [hb] at h; cases h
              · rw [hk2] at h; cases h
            · rw [hk1] at h; cases h
        | err e' => rw [ht] at h; cases h
        | panic => rw [ht] at h; cases h
        | hang => rw [ht] at h; cases h
      · rw [hl] at h; cases h
    · rw [hk] at h; cases h

end Mvd

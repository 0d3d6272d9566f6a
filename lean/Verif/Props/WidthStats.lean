import Verif.Lemmas.Ktxstats
import Verif.Props.Width

/-! Offset arithmetic in reading match stats (C92). -/

namespace Mvd
open Spec

/-- What a 32-bit and a 64-bit target read in a block header. -/
inductive SameBlock (checks : Bool) : R BlockInfo → R BlockInfo → Prop
  | err {e e' : Err} : SameBlock checks (.err e) (.err e')
  | panic : SameBlock checks .panic .panic
  | ok {i j : BlockInfo} : i.hiddenMessage = j.hiddenMessage → i.number = j.number →
      (i.bodySize = j.bodySize ∧ i.bodySize < 2 ^ 32 ∨
        checks = false ∧ ∃ k, 1 ≤ k ∧ k ≤ 2 ∧ i.bodySize = 2 ^ 32 - k ∧ j.bodySize = 2 ^ 64 - k) →
      SameBlock checks (.ok i) (.ok j)

theorem tryFromW_same (g : Env) {l : Bytes} (h : g.checks = false ∨ SizesFit 32 l) :
    SameBlock g.checks (BlockInfo.tryFromW 32 g l) (BlockInfo.tryFromW 64 g l) := by
  unfold BlockInfo.tryFromW
  dsimp only
  rcases hr : (Cursor.new l).readU32 g with ⟨_ | n, c⟩
  · exact .err
  · obtain ⟨-, a, b, d, e, ht, hn⟩ := readU32_some hr
    have := a.toNat_lt
    have := b.toNat_lt
    have := d.toNat_lt
    have := e.toNat_lt
    have hlt : n < 2 ^ 32 := by omega
    have hfit : g.checks = false ∨ n + 10 < 2 ^ 32 := by
      rcases h with h | h
      · exact .inl h
      · right
        have := h a b d e (by rw [← ht]; exact (List.take_prefix _ _).isInfix)
        omega
    have tail : ∀ s t s' t' : Nat, (s = s' ∧ s < 2 ^ 32 ∨
        g.checks = false ∧ ∃ k, 1 ≤ k ∧ k ≤ 2 ∧ s = 2 ^ 32 - k ∧ s' = 2 ^ 64 - k) →
        SameBlock g.checks
          (match c.readU16 g with
            | (none, _) => .err .io
            | (some hidden, cur) =>
              match cur.readU16 g with
              | (none, _) => .err .io
              | (some number, _) =>
                .ok { bodySize := s, totalSize := t, hiddenMessage := HiddenMessage.ofU16 hidden, number := number })
          (match c.readU16 g with
            | (none, _) => .err .io
            | (some hidden, cur) =>
              match cur.readU16 g with
              | (none, _) => .err .io
              | (some number, _) =>
                .ok { bodySize := s', totalSize := t', hiddenMessage := HiddenMessage.ofU16 hidden, number := number }) := by
      intro s t s' t' hs
      rcases c.readU16 g with ⟨_ | hid, c2⟩
      · exact .err
      · dsimp only
        rcases c2.readU16 g with ⟨_ | num, c3⟩
        · exact .err
        · exact .ok rfl rfl hs
    have hS : SHORT = 2 := rfl
    have hB : BLOCK_HEADER_SIZE = 8 := rfl
    rw [hS, hB]
    dsimp only
    by_cases h2 : 2 ≤ n
    · have hsub : ∀ w, subU g.checks w n 2 = .ok (n - 2) := fun w => if_pos h2
      rw [hsub, hsub]
      simp only [R.bind]
      have h64 : addU g.checks 64 8 (n - 2) = .ok (8 + (n - 2)) := addU_fits (by omega)
      rw [h64]
      obtain ⟨t, h32⟩ : ∃ t, addU g.checks 32 8 (n - 2) = .ok t := by
        unfold addU
        rcases hfit with hf | hf
        · rw [hf]
          split
          · exact ⟨_, rfl⟩
          · exact ⟨_, rfl⟩
        · exact ⟨_, if_pos (by omega)⟩
      rw [h32]
      exact tail _ _ _ _ (.inl ⟨rfl, by omega⟩)
    · by_cases hc : g.checks = true
      · have hsub : ∀ w, subU g.checks w n 2 = .panic := fun w => by unfold subU; rw [if_neg h2, if_pos hc]
        rw [hsub, hsub]
        exact .panic
      · have hsub : ∀ w, subU g.checks w n 2 = .ok (2 ^ w + n - 2) := fun w => by unfold subU; rw [if_neg h2, if_neg hc]
        rw [hsub, hsub]
        simp only [R.bind]
        have hadd : ∀ w a, ∃ t, addU g.checks w 8 a = .ok t := by
          intro w a
          unfold addU
          split
          · exact ⟨_, rfl⟩
          · exact ⟨_, rfl⟩
        obtain ⟨t, ht⟩ := hadd 32 (2 ^ 32 + n - 2)
        obtain ⟨t', ht'⟩ := hadd 64 (2 ^ 64 + n - 2)
        rw [ht, ht']
        rw [Bool.not_eq_true] at hc
        exact tail _ _ _ _ (.inr ⟨hc, 2 - n, by omega, by omega, by omega, by omega⟩)

/-- The offsets of the two loops are equal, or the same distance below zero. -/
def SameOffset (checks : Bool) (bound a b : Nat) : Prop :=
  a = b ∧ a ≤ bound ∨ checks = false ∧ ∃ k, 1 ≤ k ∧ k ≤ 18 ∧ a = 2 ^ 32 - k ∧ b = 2 ^ 64 - k

theorem addU_wrap {w k c : Nat} (h1 : 1 ≤ k) (hk : k ≤ c) (hc : c < 2 ^ w) : addU false w (2 ^ w - k) c = .ok (c - k) := by
  unfold addU
  rw [if_neg (show ¬ 2 ^ w - k + c < 2 ^ w by omega)]
  have : 2 ^ w - k + c = (c - k) + 2 ^ w := by omega
  rw [this, Nat.add_mod_right, Nat.mod_eq_of_lt (by omega)]
  rfl

theorem addU_same {checks : Bool} {n a b c : Nat} (hn : n < 2 ^ 31) (hc : c ≤ 18) (h : SameOffset checks n a b) :
    ∃ x y, addU checks 32 a c = .ok x ∧ addU checks 64 b c = .ok y ∧
      (x = y ∧ (x = a + c ∧ a ≤ n ∨ x + 2 ^ 32 = a + c) ∨ n < x ∧ n < y ∧ n < a ∧ a + c < 2 ^ 32) := by
  rcases h with ⟨rfl, ha⟩ | ⟨rfl, k, hk1, hk2, rfl, rfl⟩
  · exact ⟨a + c, a + c, addU_fits (by omega), addU_fits (by omega), .inl ⟨rfl, .inl ⟨rfl, ha⟩⟩⟩
  · by_cases hkc : k ≤ c
    · exact ⟨c - k, c - k, addU_wrap hk1 hkc (by omega), addU_wrap hk1 hkc (by omega), .inl ⟨rfl, .inr (by omega)⟩⟩
    · exact ⟨_, _, addU_fits (by omega), addU_fits (by omega), .inr ⟨by omega, by omega, by omega, by omega⟩⟩

theorem blockLoopW_same (g : Env) {data : Bytes} (hd : data.length < 2 ^ 31) (h : g.checks = false ∨ SizesFit 32 data) :
    ∀ fuel a b content, SameOffset g.checks data.length a b →
      blockLoopW 32 g data fuel a content = blockLoopW 64 g data fuel b content := by
  intro fuel
  induction fuel with
  | zero => intros; rfl
  | succ fuel ih =>
    intro a b content hab
    unfold blockLoopW
    have hM : MULTI_HEADER_SIZE = 10 := rfl
    have hT : TOTAL_HEADER_SIZE = 18 := rfl
    rw [hM, hT]
    obtain ⟨x, y, hx, hy, hxy⟩ := addU_same hd (show 10 ≤ 18 by decide) hab
    rw [hx, hy]
    simp only [R.bind, sliceFrom]
    rcases hxy with ⟨rfl, hxa⟩ | ⟨h1, h2, -⟩
    swap
    · rw [if_neg (by omega), if_neg (by omega)]
    by_cases hxd : x ≤ data.length
    swap
    · rw [if_neg hxd]
    rw [if_pos hxd]
    dsimp only
    have hs := tryFromW_same g (l := data.drop x)
      (h.imp id fun h a b c d hi => h a b c d (hi.trans (List.drop_suffix _ _).isInfix))
    generalize BlockInfo.tryFromW 32 g (data.drop x) = r at hs
    generalize BlockInfo.tryFromW 64 g (data.drop x) = r' at hs
    cases hs with
    | err => rfl
    | panic => rfl
    | @ok i j hm hnum hsize =>
      dsimp only
      rw [hm, hnum]
      split
      · rfl
      · obtain ⟨u, v, hu, hv, huv⟩ := addU_same hd (show 18 ≤ 18 by decide) hab
        rw [hu, hv]
        dsimp only
        have huv : u = v ∧ 8 ≤ u ∧ u ≤ data.length + 18 := by clear hsize; omega
        obtain ⟨rfl, hu8, hul⟩ := huv
        have hbad : ∀ {p : R Nat}, (p = .panic ∨ ∃ q, p = .ok q ∧ (q < u ∨ data.length < q)) →
            (p.bind fun q => (slice data u q).bind fun body =>
              if j.number = 0 then .ok (content ++ body) else blockLoopW 32 g data fuel q (content ++ body)) = .panic ∧
            (p.bind fun q => (slice data u q).bind fun body =>
              if j.number = 0 then .ok (content ++ body) else blockLoopW 64 g data fuel q (content ++ body)) = .panic := by
          rintro p (rfl | ⟨q, rfl, hq⟩)
          · exact ⟨rfl, rfl⟩
          · have : slice data u q = .panic := if_neg (by omega)
            simp only [R.bind, this, and_self]
        rcases hsize with ⟨hij, hlt⟩ | ⟨hc, k, hk1, hk2, hi, hj⟩
        · rw [← hij]
          have h64 : addU g.checks 64 u i.bodySize = .ok (u + i.bodySize) := addU_fits (by omega)
          by_cases hfit : u + i.bodySize ≤ data.length
          · have h32 : addU g.checks 32 u i.bodySize = .ok (u + i.bodySize) := addU_fits (by omega)
            rw [h64, h32]
            have : slice data u (u + i.bodySize) = .ok ((data.drop u).take (u + i.bodySize - u)) := if_pos (by omega)
            simp only [this]
            split
            · rfl
            · exact ih _ _ _ (.inl ⟨rfl, hfit⟩)
          · refine ((hbad (p := addU g.checks 32 u i.bodySize) ?_).1).trans
              ((hbad (p := addU g.checks 64 u i.bodySize) ?_).2).symm
            · unfold addU
              split
              · exact .inr ⟨_, rfl, .inr (by omega)⟩
              · split
                · exact .inl rfl
                · exact .inr ⟨_, rfl, .inl (by omega)⟩
            · exact .inr ⟨_, h64, .inr (by omega)⟩
        · refine ((hbad (p := addU g.checks 32 u i.bodySize) ?_).1).trans
            ((hbad (p := addU g.checks 64 u j.bodySize) ?_).2).symm
          · rw [hi, hc, show addU false 32 u (2 ^ 32 - k) = addU false 32 (2 ^ 32 - k) u by unfold addU; rw [Nat.add_comm],
              addU_wrap hk1 (by omega) (by omega)]
            exact .inr ⟨_, rfl, .inl (by omega)⟩
          · rw [hj, hc, show addU false 64 u (2 ^ 64 - k) = addU false 64 (2 ^ 64 - k) u by unfold addU; rw [Nat.add_comm],
              addU_wrap hk1 (by omega) (by omega)]
            exact .inr ⟨_, rfl, .inl (by omega)⟩

theorem blockLoopW_64 (g : Env) (data : Bytes) : ∀ fuel offset content,
    blockLoopW 64 g data fuel offset content = blockLoop g data fuel offset content := by
  intro fuel
  induction fuel with
  | zero => intros; rfl
  | succ fuel ih =>
    intro offset content
    unfold blockLoopW blockLoop
    simp only [ih]
    rfl

/-- C92: the arithmetic in reading match stats on a 64-bit target is what it is in the model. -/
theorem C92_stats (g : Env) (data : Bytes) : ktxstatsStringW 64 g data = ktxstatsString g data := by
  unfold ktxstatsStringW ktxstatsString
  simp only [blockLoopW_64]
  rfl

/-- C92: match stats are read on a 32-bit target as on a 64-bit target, sizes too large and too small included; with
overflow checks if no size in the data is close to 2^32. -/
theorem C92_stats_32 (g : Env) (data : Bytes) (hd : data.length < 2 ^ 31) (h : g.checks = false ∨ SizesFit 32 data) :
    ktxstatsStringW 32 g data = ktxstatsString g data := by
  rw [← C92_stats]
  unfold ktxstatsStringW
  rcases hm : rfind bytes!"{\"version\": " data with _ | m
  · rfl
  · have hb := (rfind_eq_some_iff.mp hm).1.bound
    have hT : TOTAL_HEADER_SIZE = 18 := rfl
    rw [hT]
    dsimp only
    have key : (∃ x y, subU g.checks 32 m 18 = .ok x ∧ subU g.checks 64 m 18 = .ok y ∧ SameOffset g.checks data.length x y) ∨
        subU g.checks 32 m 18 = .panic ∧ subU g.checks 64 m 18 = .panic := by
      unfold subU
      by_cases h18 : 18 ≤ m
      · rw [if_pos h18, if_pos h18]
        exact .inl ⟨_, _, rfl, rfl, .inl ⟨rfl, by omega⟩⟩
      · rw [if_neg h18, if_neg h18]
        by_cases hc : g.checks = true
        · rw [if_pos hc, if_pos hc]
          exact .inr ⟨rfl, rfl⟩
        · rw [if_neg hc, if_neg hc]
          exact .inl ⟨_, _, rfl, rfl, .inr ⟨by simpa using hc, 18 - m, by omega, by omega, by omega, by omega⟩⟩
    rcases key with ⟨x, y, hx, hy, hxy⟩ | ⟨hx, hy⟩
    · rw [hx, hy]
      simp only [R.bind]
      rw [blockLoopW_same g hd h _ _ _ _ hxy]
    · rw [hx, hy]
      rfl

/-- C92: stats in one block, then a block of another kind whose size is close to 2^32: with overflow checks a 32-bit
target panics where all others stop and return the stats. -/
theorem C92_stats_witness :
    let data := List.replicate 10 0 ++ le32 15 ++ le16 3 ++ le16 1 ++ statsMarker ++ [0x33] ++
      List.replicate 10 0 ++ le32 (2 ^ 32 - 1) ++ le16 4 ++ le16 0
    ktxstatsStringW 32 Example.debug data = .panic ∧
    ktxstatsStringW 32 Example.release data = .ok chars!"{\"version\": 3" ∧
    ktxstatsString Example.debug data = .ok chars!"{\"version\": 3" := by
  decide +kernel

end Mvd

import Verif.Lemmas.Scan
import Verif.Lemmas.Ktxstats
import Verif.Lemmas.Messages
import Verif.Lemmas.Time
import Verif.Model.Duration
import Verif.Model.Flags
import Verif.Model.Prints
import Verif.Model.Teams

/-! Every call terminates: no loop runs out of its fuel, which is the length of the data plus one. -/

namespace Mvd
open Spec

theorem bind_halts {α β : Type} {x : R α} {f : α → R β} (hx : x ≠ .hang) (hf : ∀ a, x = .ok a → f a ≠ .hang) :
    x.bind f ≠ .hang := by
  cases x with
  | ok a => exact hf a rfl
  | err e => intro h; cases h
  | panic => intro h; cases h
  | hang => exact absurd rfl hx

theorem ok_halts {α : Type} (a : α) : (R.ok a) ≠ .hang := by intro h; cases h
theorem err_halts {α : Type} (e : Err) : (R.err e : R α) ≠ .hang := by intro h; cases h
theorem panic_halts {α : Type} : (R.panic : R α) ≠ .hang := by intro h; cases h

theorem orElse_halts {α : Type} {x y : R α} (hx : x ≠ .hang) (hy : y ≠ .hang) : x.orElse y ≠ .hang := by
  cases x with
  | ok a => exact ok_halts a
  | err e => exact hy
  | panic => exact panic_halts
  | hang => exact absurd rfl hx

theorem unwrapOr_halts {α : Type} {x : R α} {d : α} (hx : x ≠ .hang) : x.unwrapOr d ≠ .hang := by
  cases x with
  | ok a => exact ok_halts a
  | err e => exact ok_halts d
  | panic => exact panic_halts
  | hang => exact absurd rfl hx

theorem isOkAnd_halts {α : Type} {x : R α} {f : α → Bool} (hx : x ≠ .hang) : x.isOkAnd f ≠ .hang := by
  cases x with
  | ok a => exact ok_halts _
  | err e => exact ok_halts _
  | panic => exact panic_halts
  | hang => exact absurd rfl hx

theorem slice_halts {α : Type} (l : List α) (a b : Nat) : slice l a b ≠ .hang := by
  unfold slice
  split
  · exact ok_halts _
  · exact panic_halts

theorem sliceFrom_halts {α : Type} (l : List α) (a : Nat) : sliceFrom l a ≠ .hang := by
  unfold sliceFrom
  split
  · exact ok_halts _
  · exact panic_halts

theorem sliceTo_halts {α : Type} (l : List α) (a : Nat) : sliceTo l a ≠ .hang := by
  unfold sliceTo
  split
  · exact ok_halts _
  · exact panic_halts

theorem addU_halts (c : Bool) (n a b : Nat) : addU c n a b ≠ .hang := by
  unfold addU
  split
  · exact ok_halts _
  · split
    · exact panic_halts
    · exact ok_halts _

theorem subU_halts (c : Bool) (n a b : Nat) : subU c n a b ≠ .hang := by
  unfold subU
  split
  · exact ok_halts _
  · split
    · exact panic_halts
    · exact ok_halts _

theorem addI32_halts (c : Bool) (a b : Int) : addI32 c a b ≠ .hang := by
  unfold addI32
  split
  · exact ok_halts _
  · split
    · exact panic_halts
    · exact ok_halts _

theorem strFrom_halts (s : Str) (n : Nat) : strFrom s n ≠ .hang := by
  unfold strFrom
  split
  · exact ok_halts _
  · exact panic_halts

theorem strTo_halts (s : Str) (n : Nat) : strTo s n ≠ .hang := by
  unfold strTo
  split
  · exact ok_halts _
  · exact panic_halts

theorem strSlice_halts (s : Str) (a b : Nat) : strSlice s a b ≠ .hang := by
  unfold strSlice
  split
  · split
    · exact strTo_halts _ _
    · exact panic_halts
  · exact panic_halts

theorem forR_halts {α σ : Type} {f : σ → α → R σ} : ∀ {l : List α} {s : σ}, (∀ s, ∀ a ∈ l, f s a ≠ .hang) → forR f s l ≠ .hang
  | [], s, _ => ok_halts s
  | a :: l, s, h => bind_halts (h s a (by simp)) fun s' _ => forR_halts fun s b hb => h s b (by simp [hb])

theorem update_halts {K V : Type} [DecidableEq K] {m : Map K V} {k : K} {d : V} {f : V → R V} (hf : ∀ v, f v ≠ .hang) :
    m.update k d f ≠ .hang := bind_halts (hf _) fun v _ => ok_halts _

/-! ### The frame loop -/

theorem fromData_halts (g : Env) (data : Bytes) (i : Nat) : FrameInfo.fromDataAndIndex g data i ≠ .hang := by
  by_cases hi : i ≤ data.length
  · cases ha : announced (data.drop i) with
    | none => rw [fromData_none g data i hi ha]; exact err_halts _
    | some p =>
      obtain ⟨d, f, t, _, e⟩ := fromData_some g data i hi p.1 p.2 ha
      rw [e]
      split
      · exact err_halts _
      · exact ok_halts _
  · rw [fromData_panic g data i (by omega)]; exact panic_halts

theorem announced_pos {l : Bytes} {h b : Nat} (ha : announced l = some (h, b)) : 2 ≤ h := by
  unfold announced at ha
  split at ha
  · split at ha <;> cases ha <;> omega
  · cases ha

theorem fromData_bounds {g : Env} {data : Bytes} {i : Nat} {info : FrameInfo}
    (h : FrameInfo.fromDataAndIndex g data i = .ok info) : i + 2 ≤ data.length ∧ 2 ≤ info.size := by
  by_cases hi : i ≤ data.length
  · cases ha : announced (data.drop i) with
    | none => rw [fromData_none g data i hi ha] at h; cases h
    | some p =>
      obtain ⟨d, f, t, ht, e⟩ := fromData_some g data i hi p.1 p.2 ha
      have hp := announced_pos ha
      rw [e] at h
      have hl := congrArg List.length ht
      simp only [List.length_drop, List.length_cons] at hl
      split at h
      · cases h
      · cases h
        refine ⟨by omega, ?_⟩
        show 2 ≤ p.1 + p.2
        omega
  · rw [fromData_panic g data i (by omega)] at h; cases h

theorem frameLoop_halts {σ : Type} (g : Env) (data : Bytes) {body : σ → FrameInfo → R (Step σ)}
    (hb : ∀ s info, body s info ≠ .hang) : ∀ fuel index s, data.length < index + fuel → 0 < fuel →
    frameLoop g data body fuel index s ≠ .hang
  | 0, _, _, _, h => absurd h (by omega)
  | fuel + 1, index, s, h, _ => by
    rw [frameLoop]
    cases hf : FrameInfo.fromDataAndIndex g data index with
    | ok info =>
      obtain ⟨h1, h2⟩ := fromData_bounds hf
      refine bind_halts (hb s info) fun st _ => ?_
      cases st with
      | next s => exact frameLoop_halts g data hb fuel _ s (by omega) (by omega)
      | brk s => exact ok_halts s
    | err e => exact ok_halts s
    | panic => exact panic_halts
    | hang => exact absurd hf (fromData_halts g data index)

theorem frameLoopFrom_halts {σ : Type} (g : Env) (data : Bytes) (index : Nat) (s : σ) {body : σ → FrameInfo → R (Step σ)}
    (hb : ∀ s info, body s info ≠ .hang) : frameLoopFrom g data index s body ≠ .hang :=
  frameLoop_halts g data hb _ _ _ (by omega) (by omega)

/-! ### The message loops -/

theorem skip_rest (c : Cursor) (n : Nat) : (c.skip n).rest.length ≤ c.rest.length := by
  simp [Cursor.skip]

theorem readExact_rest (g : Env) (c : Cursor) (n : Nat) : (c.readExact g n).2.rest.length ≤ c.rest.length := by
  unfold Cursor.readExact
  split
  · exact skip_rest c n
  · split
    · exact skip_rest c _
    · exact Nat.le_refl _

theorem readByte_rest (g : Env) (c : Cursor) : (c.readByte g).2.rest.length ≤ c.rest.length := by
  have : (c.readByte g).2 = (c.readExact g 1).2 := by
    unfold Cursor.readByte
    split <;> simp_all
  rw [this]
  exact readExact_rest g c 1

theorem readU16_rest (g : Env) (c : Cursor) : (c.readU16 g).2.rest.length ≤ c.rest.length := by
  have : (c.readU16 g).2 = (c.readExact g 2).2 := by
    unfold Cursor.readU16
    split <;> simp_all
  rw [this]
  exact readExact_rest g c 2

theorem readBstring_rest (c : Cursor) : c.readBstring.2.rest.length ≤ c.rest.length := skip_rest c _

theorem readPrint_rest (g : Env) (c : Cursor) : (c.readPrint g).2.rest.length ≤ c.rest.length := by
  have h1 := readByte_rest g c
  unfold Cursor.readPrint
  split
  · rename_i b c' h
    rw [h] at h1
    have h2 := readBstring_rest c'
    split <;> (rename_i h'; rw [h'] at h2; exact Nat.le_trans h2 h1)
  · rename_i c' h
    rw [h] at h1
    exact h1

theorem readUpdatePing_rest (g : Env) (c : Cursor) : (c.readUpdatePing g).2.rest.length ≤ c.rest.length := by
  have h1 := readByte_rest g c
  unfold Cursor.readUpdatePing
  split
  · rename_i b c1 h
    rw [h] at h1
    have h2 := readU16_rest g c1
    split
    · rename_i n c2 h'
      rw [h'] at h2
      have h3 := readByte_rest g c2
      split <;> (rename_i h''; rw [h''] at h3; exact Nat.le_trans h3 (Nat.le_trans h2 h1))
    · rename_i c2 h'
      rw [h'] at h2
      exact Nat.le_trans h2 h1
  · rename_i c' h
    rw [h] at h1
    exact h1

theorem readMessageType_rest {g : Env} {c c' : Cursor} {t : MessageType} (h : c.readMessageType g = (some t, c')) :
    c'.rest.length < c.rest.length := by
  obtain ⟨p, l⟩ := c
  cases l with
  | nil => rw [readMessageType_nil] at h; cases h
  | cons b l => rw [readMessageType_cons] at h; cases h; simp

theorem printsBody_halts (g : Env) : ∀ fuel c l, c.rest.length < fuel → printsBody g fuel c l ≠ .hang
  | 0, _, _, h => absurd h (by omega)
  | fuel + 1, c, l, h => by
    rw [printsBody]
    split
    · rename_i t c1 h1
      have hr := readMessageType_rest h1
      split
      · have hp := readPrint_rest g c1
        split
        · rename_i p c2 h2
          rw [h2] at hp
          exact printsBody_halts g fuel _ _ (by simp only at hp; omega)
        · rename_i c2 h2
          rw [h2] at hp
          exact printsBody_halts g fuel _ _ (by simp only at hp; omega)
      · exact ok_halts _
    · exact ok_halts _

theorem flagBody_halts (g : Env) : ∀ fuel c l x, c.rest.length < fuel → flagBody g fuel c l x ≠ .hang
  | 0, _, _, _, h => absurd h (by omega)
  | fuel + 1, c, l, x, h => by
    rw [flagBody]
    split
    · exact ok_halts _
    · rename_i t c1 h1
      have hr := readMessageType_rest h1
      split
      · have hp := readPrint_rest g c1
        split
        · rename_i p c2 h2
          rw [h2] at hp
          simp only at hp
          split
          · split <;> exact flagBody_halts g fuel _ _ _ (by omega)
          · exact flagBody_halts g fuel _ _ _ (by omega)
        · rename_i c2 h2
          rw [h2] at hp
          exact flagBody_halts g fuel _ _ _ (by simp only at hp; omega)
      · exact flagBody_halts g fuel _ _ _ (by omega)

theorem pingBody_halts (g : Env) : ∀ fuel c m d, c.rest.length < fuel → pingBody g fuel c m d ≠ .hang
  | 0, _, _, _, h => absurd h (by omega)
  | fuel + 1, c, m, d, h => by
    rw [pingBody]
    split
    · rename_i t c1 h1
      have hr := readMessageType_rest h1
      split
      · have hp := readUpdatePing_rest g c1
        split
        · rename_i p c2 h2
          rw [h2] at hp
          have := skip_rest c2 2
          exact pingBody_halts g fuel _ _ _ (by simp only at hp; omega)
        · rename_i c2 h2
          rw [h2] at hp
          exact pingBody_halts g fuel _ _ _ (by simp only at hp; omega)
      · exact ok_halts _
    · exact ok_halts _

theorem body_halts (info : FrameInfo) (data : Bytes) : info.body data ≠ .hang := slice_halts _ _ _

/-! ### More fuel does not change a result -/

theorem bind_more {α β : Type} {x : R α} {f f' : α → R β} (h : x.bind f ≠ .hang) (hf : ∀ a, f a ≠ .hang → f' a = f a) :
    x.bind f' = x.bind f := by
  cases x with
  | ok a => exact hf a h
  | err e => rfl
  | panic => rfl
  | hang => exact absurd rfl h

theorem frameLoop_more {σ : Type} (g : Env) (data : Bytes) {body : σ → FrameInfo → R (Step σ)} : ∀ fuel more index s,
    frameLoop g data body fuel index s ≠ .hang → frameLoop g data body (fuel + more) index s = frameLoop g data body fuel index s
  | 0, _, _, _, h => absurd rfl h
  | fuel + 1, more, index, s, h => by
    rw [Nat.add_right_comm, frameLoop, frameLoop]
    rw [frameLoop] at h
    cases hf : FrameInfo.fromDataAndIndex g data index with
    | ok info =>
      rw [hf] at h
      refine bind_more h fun st hst => ?_
      cases st with
      | next s => exact frameLoop_more g data fuel more _ s hst
      | brk s => rfl
    | err e => rfl
    | panic => rfl
    | hang => rfl

theorem printsBody_more (g : Env) : ∀ fuel more c l, printsBody g fuel c l ≠ .hang →
    printsBody g (fuel + more) c l = printsBody g fuel c l
  | 0, _, _, _, h => absurd rfl h
  | fuel + 1, more, c, l, h => by
    rw [Nat.add_right_comm, printsBody, printsBody]
    rw [printsBody] at h
    generalize Cursor.readMessageType g c = r at h ⊢
    obtain ⟨o, c1⟩ := r
    cases o with
    | none => rfl
    | some t =>
      simp only at h ⊢
      by_cases ht : t = .print
      · rw [if_pos ht] at h ⊢
        rw [if_pos ht]
        generalize Cursor.readPrint g c1 = r at h ⊢
        obtain ⟨o, c2⟩ := r
        cases o with
        | none => exact printsBody_more g fuel more _ _ h
        | some p => exact printsBody_more g fuel more _ _ h
      · rw [if_neg ht, if_neg ht]

theorem flagBody_more (g : Env) : ∀ fuel more c l x, flagBody g fuel c l x ≠ .hang →
    flagBody g (fuel + more) c l x = flagBody g fuel c l x
  | 0, _, _, _, _, h => absurd rfl h
  | fuel + 1, more, c, l, x, h => by
    rw [Nat.add_right_comm, flagBody, flagBody]
    rw [flagBody] at h
    generalize Cursor.readMessageType g c = r at h ⊢
    obtain ⟨o, c1⟩ := r
    cases o with
    | none => rfl
    | some t =>
      simp only at h ⊢
      by_cases ht : t = .print
      · rw [if_pos ht] at h ⊢
        rw [if_pos ht]
        generalize Cursor.readPrint g c1 = r at h ⊢
        obtain ⟨o, c2⟩ := r
        cases o with
        | none => exact flagBody_more g fuel more _ _ _ h
        | some p =>
          simp only at h ⊢
          by_cases hp : p.id = .high ∧ !p.content.isEmpty
          · rw [if_pos hp] at h ⊢
            rw [if_pos hp]
            by_cases hx : x.isEmpty
            · rw [if_pos hx] at h ⊢
              rw [if_pos hx]
              exact flagBody_more g fuel more _ _ _ h
            · rw [if_neg hx] at h ⊢
              rw [if_neg hx]
              exact flagBody_more g fuel more _ _ _ h
          · rw [if_neg hp] at h ⊢
            rw [if_neg hp]
            exact flagBody_more g fuel more _ _ _ h
      · rw [if_neg ht] at h ⊢
        rw [if_neg ht]
        exact flagBody_more g fuel more _ _ _ h

theorem pingBody_more (g : Env) : ∀ fuel more c m d, pingBody g fuel c m d ≠ .hang →
    pingBody g (fuel + more) c m d = pingBody g fuel c m d
  | 0, _, _, _, _, h => absurd rfl h
  | fuel + 1, more, c, m, d, h => by
    rw [Nat.add_right_comm, pingBody, pingBody]
    rw [pingBody] at h
    generalize Cursor.readMessageType g c = r at h ⊢
    obtain ⟨o, c1⟩ := r
    cases o with
    | none => rfl
    | some t =>
      simp only at h ⊢
      by_cases ht : t = .updatePing
      · rw [if_pos ht] at h ⊢
        rw [if_pos ht]
        generalize Cursor.readUpdatePing g c1 = r at h ⊢
        obtain ⟨o, c2⟩ := r
        cases o with
        | none => exact pingBody_more g fuel more _ _ _ h
        | some p => exact pingBody_more g fuel more _ _ _ h
      · rw [if_neg ht, if_neg ht]

theorem clientScan_more (g : Env) (data : Bytes) (m : Nat) : ∀ fuel more offset l, clientScan g data m fuel offset l ≠ .hang →
    clientScan g data m (fuel + more) offset l = clientScan g data m fuel offset l
  | 0, _, _, _, h => absurd rfl h
  | fuel + 1, more, offset, l, h => by
    rw [Nat.add_right_comm, clientScan, clientScan]
    rw [clientScan] at h
    refine bind_more h fun w hw => ?_
    generalize find bytes!"\\name\\" w = r at hw ⊢
    cases r with
    | none => rfl
    | some o =>
      simp only at hw ⊢
      generalize rfindByte 0 (data.take (offset + o)) = r at hw ⊢
      cases r with
      | none => rfl
      | some z =>
        simp only at hw ⊢
        generalize findByte 0 (data.drop (z + 1)) = r at hw ⊢
        cases r with
        | none => rfl
        | some k =>
          simp only at hw ⊢
          split
          · rename_i hc
            rw [if_pos hc] at hw
            refine bind_more hw fun s hs => ?_
            split
            · rfl
            · rename_i hn
              rw [if_neg hn] at hs
              exact clientScan_more g data m fuel more _ _ hs
          · rfl

theorem blockLoop_more (g : Env) (data : Bytes) : ∀ fuel more offset content, blockLoop g data fuel offset content ≠ .hang →
    blockLoop g data (fuel + more) offset content = blockLoop g data fuel offset content
  | 0, _, _, _, h => absurd rfl h
  | fuel + 1, more, offset, content, h => by
    rw [Nat.add_right_comm, blockLoop, blockLoop]
    rw [blockLoop] at h
    refine bind_more h fun start hs => bind_more hs fun tail ht => ?_
    generalize BlockInfo.tryFrom g tail = r at ht ⊢
    cases r with
    | ok info =>
      simp only at ht ⊢
      split
      · rfl
      · rename_i hd
        rw [if_neg hd] at ht
        refine bind_more ht fun o ho => bind_more ho fun stop hst => bind_more hst fun body hb => ?_
        split
        · rfl
        · rename_i hn
          rw [if_neg hn] at hb
          exact blockLoop_more g data fuel more _ _ hb
    | err e => rfl
    | panic => rfl
    | hang => rfl

/-! ### Functions on the data -/

theorem prints_halts (g : Env) (data : Bytes) : prints g data ≠ .hang := by
  refine bind_halts (frameLoopFrom_halts g data 0 _ fun s info => ?_) fun _ _ => ok_halts _
  split
  · refine bind_halts (body_halts info data) fun b _ => ?_
    exact bind_halts (printsBody_halts g _ _ _ (by simp [Cursor.new])) fun _ _ => ok_halts _
  · exact ok_halts _

theorem serverinfoString_halts (g : Env) (data : Bytes) : serverinfoString g data ≠ .hang := by
  refine bind_halts (sliceTo_halts _ _) fun head _ => ?_
  split
  · exact err_halts _
  · exact bind_halts (slice_halts _ _ _) fun _ _ => ok_halts _

theorem serverinfo_halts (g : Env) (data : Bytes) : serverinfo g data ≠ .hang :=
  bind_halts (serverinfoString_halts g data) fun _ _ => ok_halts _

theorem filename_halts (g : Env) (data : Bytes) : filename g data ≠ .hang := by
  refine bind_halts (serverinfo_halts g data) fun s _ => ?_
  split
  · exact err_halts _
  · exact ok_halts _

theorem clientScan_halts (g : Env) (data : Bytes) (m : Nat) (fuel offset : Nat) (l : List Str)
    (h : data.length < offset + fuel) (hf : 0 < fuel) : clientScan g data m fuel offset l ≠ .hang := by
  obtain ⟨_, _, ⟨_, ⟨h, _⟩ | ⟨h, _⟩⟩ | ⟨h0, _⟩⟩ := clientScan_chain g data m fuel offset l h
  · rw [h]; exact ok_halts _
  · rw [h]; exact panic_halts
  · omega

theorem clientinfoStrings_halts (g : Env) (data : Bytes) : clientinfoStrings g data ≠ .hang := by
  unfold clientinfoStrings
  split
  · exact err_halts _
  · exact clientScan_halts g data _ _ _ _ (by omega) (by omega)

theorem clientinfo_halts (g : Env) (data : Bytes) : clientinfo g data ≠ .hang :=
  bind_halts (clientinfoStrings_halts g data) fun _ _ => ok_halts _

theorem clients_halts (g : Env) (data : Bytes) : clients g data ≠ .hang :=
  bind_halts (clientinfo_halts g data) fun _ _ => ok_halts _

theorem playerClients_halts (g : Env) (data : Bytes) : playerClients g data ≠ .hang :=
  bind_halts (clients_halts g data) fun _ _ => ok_halts _

theorem spectatorClients_halts (g : Env) (data : Bytes) : spectatorClients g data ≠ .hang :=
  bind_halts (clients_halts g data) fun _ _ => ok_halts _

theorem hasBotPlayers_halts (g : Env) (data : Bytes) : hasBotPlayers g data ≠ .hang := by
  refine bind_halts (playerClients_halts g data) fun cs _ => ?_
  split <;> exact ok_halts _

theorem hasHumanPlayers_halts (g : Env) (data : Bytes) : hasHumanPlayers g data ≠ .hang :=
  bind_halts (playerClients_halts g data) fun _ _ => ok_halts _

theorem playerNames_halts (g : Env) (data : Bytes) : playerNames g data ≠ .hang :=
  bind_halts (playerClients_halts g data) fun _ _ => ok_halts _

theorem spectatorNames_halts (g : Env) (data : Bytes) : spectatorNames g data ≠ .hang :=
  bind_halts (spectatorClients_halts g data) fun _ _ => ok_halts _

theorem teamNames_halts (g : Env) (data : Bytes) : teamNames g data ≠ .hang :=
  bind_halts (playerClients_halts g data) fun _ _ => ok_halts _

theorem hasClients_halts (g : Env) (data : Bytes) : hasClients g data ≠ .hang := isOkAnd_halts (clientinfo_halts g data)

theorem isValid_halts (g : Env) (data : Bytes) : isValid g data ≠ .hang := by
  unfold isValid
  split
  · split
    · refine bind_halts (isOkAnd_halts (serverinfo_halts g data)) fun b _ => ?_
      cases b
      · exact ok_halts _
      · exact hasClients_halts g data
    · exact ok_halts _
  · exact ok_halts _

theorem fragPatternLoop_halts (v : Str) : ∀ l, fragPatternLoop v l ≠ .hang
  | [] => err_halts _
  | p :: ps => by
    rw [fragPatternLoop]
    split
    · split <;> exact ok_halts _
    · exact fragPatternLoop_halts v ps

theorem fragEvent_halts (v : Str) : FragEvent.tryFrom v ≠ .hang := by
  unfold FragEvent.tryFrom
  repeat' split
  all_goals first | exact ok_halts _ | exact fragPatternLoop_halts _ _

theorem flagPrintLoop_halts (v : Str) : ∀ l, flagPrintLoop v l ≠ .hang
  | [] => err_halts _
  | p :: ps => by
    rw [flagPrintLoop]
    split
    · exact ok_halts _
    · exact flagPrintLoop_halts v ps

theorem flagEvent_halts (v : Str) : FlagEvent.tryFrom v ≠ .hang := flagPrintLoop_halts _ _

theorem printFramesBody_halts (g : Env) (data : Bytes) (s : List (Print × FrameInfo)) (info : FrameInfo) :
    printFramesBody g data s info ≠ .hang := by
  unfold printFramesBody
  split
  · exact ok_halts _
  · refine bind_halts (body_halts info data) fun b _ => ?_
    repeat' split
    all_goals exact ok_halts _

theorem printFrames_halts (g : Env) (data : Bytes) : printFrames g data ≠ .hang :=
  frameLoopFrom_halts g data 0 _ (printFramesBody_halts g data)

theorem lookBody_halts (g : Env) (data : Bytes) (s : Nat × List UInt8) (info : FrameInfo) : lookBody g data s info ≠ .hang := by
  unfold lookBody
  simp only
  split
  · exact ok_halts _
  · split
    · exact ok_halts _
    · refine bind_halts (body_halts info data) fun b _ => ?_
      repeat' split
      all_goals exact ok_halts _

theorem fragUpdatesFrom_halts (g : Env) (data : Bytes) (i : Nat) : fragUpdatesFrom g data i ≠ .hang :=
  frameLoopFrom_halts g data i _ (lookBody_halts g data)

theorem findTeamKiller_halts (g : Env) (data : Bytes) (i : Nat) (v : Str) : findTeamKiller g data i v ≠ .hang := by
  refine bind_halts (fragUpdatesFrom_halts g data i) fun x _ => ?_
  simp only
  split
  · exact err_halts _
  · refine bind_halts (clients_halts g data) fun cs _ => ?_
    repeat' split
    all_goals first | exact ok_halts _ | exact err_halts _

theorem scorePrint_halts (g : Env) (data : Bytes) (m : Map Str Int) (pf : Print × FrameInfo) : scorePrint g data m pf ≠ .hang := by
  have hu : ∀ k d, Map.update m k 0 (fun n => addI32 g.checks n d) ≠ .hang := fun k d => update_halts fun v => addI32_halts _ _ _
  unfold scorePrint
  split
  case h_6 =>
    split
    · exact hu _ _
    · exact ok_halts _
    · exact panic_halts
    · rename_i h; exact absurd h (findTeamKiller_halts _ _ _ _)
  all_goals first | exact hu _ _ | exact ok_halts _ | exact panic_halts | (rename_i h; exact absurd h (fragEvent_halts _))

theorem frags_halts (g : Env) (data : Bytes) : fragsPerPlayerName g data ≠ .hang :=
  bind_halts (printFrames_halts g data) fun _ _ => forR_halts fun m pf _ => scorePrint_halts g data m pf

theorem flagPrints_halts (g : Env) (data : Bytes) : flagPrints g data ≠ .hang := by
  refine frameLoopFrom_halts g data 0 _ fun s info => ?_
  split
  · exact ok_halts _
  · refine bind_halts (body_halts info data) fun b _ => ?_
    split
    · exact ok_halts _
    · exact bind_halts (flagBody_halts g _ _ _ _ (by simp [Cursor.new])) fun _ _ => ok_halts _

theorem countFlagPrint_halts (g : Env) (m : Map Str PlayerFlagEvents) (p : Bytes) : countFlagPrint g m p ≠ .hang := by
  unfold countFlagPrint
  split
  all_goals first
    | exact ok_halts _
    | exact panic_halts
    | (rename_i h; exact absurd h (flagEvent_halts _))
    | (refine update_halts fun e => ?_
       exact bind_halts (addU_halts _ _ _ _) fun _ _ => ok_halts _)

theorem flags_halts (g : Env) (data : Bytes) : flagEventsPerPlayerName g data ≠ .hang :=
  bind_halts (flagPrints_halts g data) fun _ _ => forR_halts fun m p _ => countFlagPrint_halts g m p

theorem totalPings_halts (g : Env) (data : Bytes) : totalPings g data ≠ .hang := by
  refine frameLoopFrom_halts g data 0 _ fun s info => ?_
  refine bind_halts ?_ fun x _ => ?_
  · split
    · refine bind_halts (body_halts info data) fun b _ => ?_
      exact bind_halts (pingBody_halts g _ _ _ _ (by simp [Cursor.new])) fun _ _ => ok_halts _
    · exact ok_halts _
  · simp only
    split <;> exact ok_halts _

theorem averagePing_halts (g : Env) (l : List Nat) : averagePing g l ≠ .hang :=
  bind_halts (forR_halts fun _ _ _ => addU_halts _ _ _ _) fun _ _ => ok_halts _

theorem pings_halts (g : Env) (data : Bytes) : pingPerPlayerNumber g data ≠ .hang := by
  refine bind_halts (totalPings_halts g data) fun x _ => ?_
  simp only
  split
  · exact err_halts _
  · exact forR_halts fun m e _ => bind_halts (averagePing_halts g e.2) fun _ _ => ok_halts _

/-! ### The stats block -/

theorem blockInfo_halts (g : Env) (l : Bytes) : BlockInfo.tryFrom g l ≠ .hang := by
  unfold BlockInfo.tryFrom
  simp only
  split
  · exact err_halts _
  · refine bind_halts (subU_halts _ _ _ _) fun _ _ => bind_halts (addU_halts _ _ _ _) fun _ _ => ?_
    repeat' split
    all_goals first | exact ok_halts _ | exact err_halts _

theorem addU_le {c : Bool} {a b x : Nat} (h : addU c 64 a b = .ok x) (hlt : a + b < 2 ^ 64) : x = a + b := by
  unfold addU at h
  rw [if_pos hlt] at h
  cases h
  rfl

theorem blockLoop_halts (g : Env) (data : Bytes) (hd : data.length < 2 ^ 63) : ∀ fuel offset content,
    offset ≤ data.length → data.length < offset + 18 * fuel → blockLoop g data fuel offset content ≠ .hang
  | 0, offset, _, h1, h2 => absurd h2 (by omega)
  | fuel + 1, offset, content, h1, h2 => by
    rw [blockLoop]
    refine bind_halts (addU_halts _ _ _ _) fun start hs => bind_halts (sliceFrom_halts _ _) fun tail ht => ?_
    cases hb : BlockInfo.tryFrom g tail with
    | ok info =>
      simp only
      split
      · exact ok_halts _
      · refine bind_halts (addU_halts _ _ _ _) fun o ho => bind_halts (addU_halts _ _ _ _) fun stop hstop =>
          bind_halts (slice_halts _ _ _) fun body hbody => ?_
        split
        · exact ok_halts _
        · have e := addU_le ho (by show offset + 18 < _; omega)
          have h18 : TOTAL_HEADER_SIZE = 18 := by decide
          unfold slice at hbody
          split at hbody
          · rename_i hle
            exact blockLoop_halts g data hd fuel stop _ (by omega) (by omega)
          · cases hbody
    | err e => exact ok_halts _
    | panic => exact panic_halts
    | hang => exact absurd hb (blockInfo_halts g tail)

theorem blockLoop_first_halts (g : Env) (data : Bytes) (hd : data.length < 2 ^ 63) (fuel : Nat) (h0 : data.length < 18 * fuel) (offset : Nat)
    (content : Bytes) : blockLoop g data (fuel + 1) offset content ≠ .hang := by
  rw [blockLoop]
  refine bind_halts (addU_halts _ _ _ _) fun start hs => bind_halts (sliceFrom_halts _ _) fun tail ht => ?_
  cases hb : BlockInfo.tryFrom g tail with
  | ok info =>
    simp only
    split
    · exact ok_halts _
    · refine bind_halts (addU_halts _ _ _ _) fun o ho => bind_halts (addU_halts _ _ _ _) fun stop hstop =>
        bind_halts (slice_halts _ _ _) fun body hbody => ?_
      split
      · exact ok_halts _
      · unfold slice at hbody
        split at hbody
        · exact blockLoop_halts g data hd fuel stop _ (by omega) (by omega)
        · cases hbody
  | err e => exact ok_halts _
  | panic => exact panic_halts
  | hang => exact absurd hb (blockInfo_halts g tail)

theorem ktxstatsString_halts (g : Env) (data : Bytes) (hd : data.length < 2 ^ 63) : ktxstatsString g data ≠ .hang := by
  unfold ktxstatsString
  split
  · exact err_halts _
  · rename_i i hi
    have h0 : 0 < data.length := by
      obtain ⟨pre, post, rfl, _⟩ := (rfind_eq_some_iff.mp hi).1
      simp
    refine bind_halts (subU_halts _ _ _ _) fun _ _ => bind_halts (blockLoop_first_halts g data hd _ (by omega) _ _) fun _ _ => ?_
    split
    · exact ok_halts _
    · exact err_halts _

theorem ktxstatsV3_halts (g : Env) (data : Bytes) (hd : data.length < 2 ^ 63) : ktxstatsV3 g data ≠ .hang := by
  refine bind_halts (ktxstatsString_halts g data hd) fun _ _ => ?_
  split
  · exact ok_halts _
  · exact err_halts _

theorem server_halts (g : Env) (data : Bytes) (hd : data.length < 2 ^ 63) : server g data ≠ .hang :=
  bind_halts (ktxstatsV3_halts g data hd) fun _ _ => ok_halts _

/-! ### Durations and dates -/

theorem durationUntilOffset_halts (g : Env) (data : Bytes) (t : Nat) : durationUntilOffset g data t ≠ .hang := by
  refine bind_halts (frameLoopFrom_halts g data 0 _ fun s info => ?_) fun _ _ => ok_halts _
  split
  · exact ok_halts _
  · exact bind_halts (addU_halts _ _ _ _) fun _ _ => ok_halts _

theorem isHoonymode_halts (g : Env) (data : Bytes) : isHoonymode g data ≠ .hang := isOkAnd_halts (serverinfo_halts g data)

theorem countdownDuration_halts (g : Env) (data : Bytes) : countdownDuration g data ≠ .hang := by
  refine bind_halts (isHoonymode_halts g data) fun b _ => ?_
  cases b
  · simp only
    split
    · exact err_halts _
    · exact durationUntilOffset_halts g data _
  · exact ok_halts _

theorem demoDuration_halts (g : Env) (data : Bytes) : demoDuration g data ≠ .hang := durationUntilOffset_halts g data _

theorem durationSub_halts (a b : Nat) : durationSub a b ≠ .hang := by
  unfold durationSub
  split
  · exact ok_halts _
  · exact panic_halts

theorem durationFromSecsF64_halts (x : F64) : durationFromSecsF64 x ≠ .hang := by
  unfold durationFromSecsF64
  repeat' split
  all_goals first | exact ok_halts _ | exact panic_halts

theorem seeking_halts (g : Env) (data : Bytes) : matchDurationFromSeeking g data ≠ .hang :=
  bind_halts (demoDuration_halts g data) fun _ _ =>
    bind_halts (unwrapOr_halts (countdownDuration_halts g data)) fun _ _ => durationSub_halts _ _

theorem fromKtxstats_halts (g : Env) (data : Bytes) (hd : data.length < 2 ^ 63) : matchDurationFromKtxstats g data ≠ .hang := by
  refine bind_halts (ktxstatsString_halts g data hd) fun s _ => ?_
  split
  · exact err_halts _
  · refine bind_halts (strSlice_halts _ _ _) fun t _ => ?_
    split
    · exact err_halts _
    · exact durationFromSecsF64_halts _

theorem matchDuration_halts (g : Env) (data : Bytes) (hd : data.length < 2 ^ 63) : matchDuration g data ≠ .hang := by
  refine bind_halts (isHoonymode_halts g data) fun b _ => ?_
  cases b
  · exact orElse_halts (fromKtxstats_halts g data hd) (seeking_halts g data)
  · exact seeking_halts g data

theorem utcOffset_halts (s : Str) : utcOffset s ≠ .hang := by
  obtain ⟨r, hr⟩ := utcOffset_ok s
  rw [hr]
  exact ok_halts r

theorem matchdateString_halts (data : Bytes) : matchdateString data ≠ .hang := by
  unfold matchdateString
  split
  · exact err_halts _
  · simp only
    split
    · exact err_halts _
    · split
      · refine bind_halts (slice_halts _ _ _) fun s _ => ?_
        split
        · exact ok_halts _
        · exact err_halts _
      · exact err_halts _

theorem matchdate_halts (g : Env) (data : Bytes) : matchdate g data ≠ .hang := by
  refine bind_halts (matchdateString_halts data) fun s _ => bind_halts ?_ fun t _ => ?_
  · refine bind_halts (strFrom_halts _ _) fun z _ => bind_halts (utcOffset_halts z) fun o _ => ?_
    cases o with
    | none => exact err_halts _
    | some o => exact bind_halts (strTo_halts _ _) fun _ _ => ok_halts _
  · split
    · exact ok_halts _
    · exact err_halts _

theorem timestampFromEpoch_halts (g : Env) (data : Bytes) : timestampFromEpoch g data ≠ .hang := by
  refine bind_halts (serverinfo_halts g data) fun s _ => ?_
  split
  · exact err_halts _
  · exact ok_halts _

theorem timestamp_halts (g : Env) (data : Bytes) : timestamp g data ≠ .hang :=
  orElse_halts (timestampFromEpoch_halts g data) (matchdate_halts g data)

/-! ### Players and teams -/

theorem playersFromParsing_halts (g : Env) (data : Bytes) : playersFromParsing g data ≠ .hang :=
  bind_halts (clients_halts g data) fun _ _ => bind_halts (pings_halts g data) fun _ _ =>
    bind_halts (frags_halts g data) fun _ _ => ok_halts _

theorem players_halts (g : Env) (data : Bytes) (hd : data.length < 2 ^ 63) : players g data ≠ .hang := by
  unfold players
  split
  · exact ok_halts _
  · exact playersFromParsing_halts g data
  · exact panic_halts
  · rename_i h; exact absurd h (ktxstatsV3_halts g data hd)

theorem majorityColor_halts (g : Env) (seed : Nat) (l : List (Nat × Nat)) : majorityColor g seed l ≠ .hang := by
  unfold majorityColor
  split
  · exact ok_halts _
  · exact ok_halts _
  · exact ok_halts _
  · exact bind_halts (forR_halts fun m c _ => update_halts fun n => addU_halts _ _ _ _) fun _ _ => ok_halts _

theorem ofPlayers_halts (g : Env) (seed : Nat) (l : List Player) : Team.ofPlayers g seed l ≠ .hang := by
  unfold Team.ofPlayers
  split
  · exact ok_halts _
  · refine bind_halts (forR_halts fun s p _ => ?_) fun _ _ => bind_halts (majorityColor_halts g seed _) fun _ _ => ok_halts _
    exact bind_halts (addI32_halts _ _ _) fun _ _ => bind_halts (addU_halts _ _ _ _) fun _ _ => ok_halts _

theorem teamsFromPlayers_halts (g : Env) (l : List Player) : teamsFromPlayers g l ≠ .hang :=
  bind_halts (forR_halts fun _ e _ => bind_halts (ofPlayers_halts g _ _) fun _ _ => ok_halts _) fun _ _ => ok_halts _

theorem teams_halts (g : Env) (data : Bytes) (hd : data.length < 2 ^ 63) : teams g data ≠ .hang :=
  bind_halts (players_halts g data hd) fun _ _ => teamsFromPlayers_halts g _

theorem teamsFromKtxstats_halts (g : Env) (stats : KtxStats) : teamsFromKtxstats g stats ≠ .hang := teamsFromPlayers_halts g _

end Mvd

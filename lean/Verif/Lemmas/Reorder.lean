import Verif.Lemmas.Ping
import Verif.Model.Teams

/-! What does not depend on the iteration order of hash maps. -/

namespace Mvd

/-- The environment `g` with the hash map iteration order of `o`. -/
def Env.reorder (g o : Env) : Env := { g with order := o.order, order_perm := o.order_perm }

theorem frameInfo_reorder (g o : Env) (data : Bytes) (i : Nat) :
    FrameInfo.fromDataAndIndex (g.reorder o) data i = FrameInfo.fromDataAndIndex g data i := rfl

theorem frameLoop_reorder {σ : Type} (g o : Env) (data : Bytes) {body body' : σ → FrameInfo → R (Step σ)}
    (hb : ∀ s i, body s i = body' s i) : ∀ fuel index s,
    frameLoop (g.reorder o) data body fuel index s = frameLoop g data body' fuel index s := by
  have : body = body' := funext fun s => funext fun i => hb s i
  subst this
  intro fuel
  induction fuel with
  | zero => intro index s; rfl
  | succ n ih =>
    intro index s
    rw [frameLoop, frameLoop, frameInfo_reorder]
    cases FrameInfo.fromDataAndIndex g data index with
    | ok info =>
      simp only
      congr 1
      funext st
      cases st with
      | next s => exact ih _ _
      | brk s => rfl
    | err e => rfl
    | panic => rfl
    | hang => rfl

theorem readMessageType_reorder (g o : Env) (c : Cursor) : c.readMessageType (g.reorder o) = c.readMessageType g := rfl
theorem readPrint_reorder (g o : Env) (c : Cursor) : c.readPrint (g.reorder o) = c.readPrint g := rfl
theorem readUpdatePing_reorder (g o : Env) (c : Cursor) : c.readUpdatePing (g.reorder o) = c.readUpdatePing g := rfl
theorem readUpdateFrags_reorder (g o : Env) (c : Cursor) : c.readUpdateFrags (g.reorder o) = c.readUpdateFrags g := rfl
theorem blockInfo_reorder (g o : Env) (b : Bytes) : BlockInfo.tryFrom (g.reorder o) b = BlockInfo.tryFrom g b := rfl
theorem averagePing_reorder (g o : Env) (l : List Nat) : averagePing (g.reorder o) l = averagePing g l := rfl

theorem pingBody_reorder (g o : Env) : ∀ fuel c total did,
    pingBody (g.reorder o) fuel c total did = pingBody g fuel c total did := by
  intro fuel
  induction fuel with
  | zero => intro c total did; rfl
  | succ n ih =>
    intro c total did
    rw [pingBody, pingBody, readMessageType_reorder]
    simp only [readUpdatePing_reorder, ih]

theorem totalPings_reorder (g o : Env) (data : Bytes) : totalPings (g.reorder o) data = totalPings g data := by
  unfold totalPings frameLoopFrom
  refine frameLoop_reorder g o data ?_ _ _ _
  intro s i
  simp only [pingBody_reorder]

theorem clientScan_reorder (g o : Env) (data : Bytes) (m : Nat) : ∀ fuel offset found,
    clientScan (g.reorder o) data m fuel offset found = clientScan g data m fuel offset found := by
  intro fuel
  induction fuel with
  | zero => intro offset found; rfl
  | succ n ih =>
    intro offset found
    rw [clientScan, clientScan]
    simp only [ih]
    rfl

theorem clients_reorder (g o : Env) (data : Bytes) : clients (g.reorder o) data = clients g data := by
  unfold clients clientinfo clientinfoStrings
  simp only [clientScan_reorder]
  rfl

theorem printFrames_reorder (g o : Env) (data : Bytes) : printFrames (g.reorder o) data = printFrames g data := by
  unfold printFrames frameLoopFrom
  refine frameLoop_reorder g o data ?_ _ _ _
  intro s i
  simp only [printFramesBody, readMessageType_reorder, readPrint_reorder]

theorem fragUpdatesFrom_reorder (g o : Env) (data : Bytes) (i : Nat) :
    fragUpdatesFrom (g.reorder o) data i = fragUpdatesFrom g data i := by
  unfold fragUpdatesFrom frameLoopFrom
  refine frameLoop_reorder g o data ?_ _ _ _
  intro s i
  simp only [lookBody, readMessageType_reorder, readPrint_reorder, readUpdateFrags_reorder]

theorem findTeamKiller_reorder (g o : Env) (data : Bytes) (i : Nat) (v : Str) :
    findTeamKiller (g.reorder o) data i v = findTeamKiller g data i v := by
  unfold findTeamKiller
  rw [fragUpdatesFrom_reorder, clients_reorder]

theorem frags_reorder (g o : Env) (data : Bytes) : fragsPerPlayerName (g.reorder o) data = fragsPerPlayerName g data := by
  unfold fragsPerPlayerName
  rw [printFrames_reorder]
  congr 1
  funext pfs
  congr 1
  funext m pf
  unfold scorePrint
  simp only [findTeamKiller_reorder]
  rfl

theorem blockLoop_reorder (g o : Env) (data : Bytes) : ∀ fuel offset content,
    blockLoop (g.reorder o) data fuel offset content = blockLoop g data fuel offset content := by
  intro fuel
  induction fuel with
  | zero => intro offset content; rfl
  | succ n ih =>
    intro offset content
    rw [blockLoop, blockLoop]
    simp only [ih, blockInfo_reorder]
    rfl

theorem ktxstatsString_reorder (g o : Env) (data : Bytes) : ktxstatsString (g.reorder o) data = ktxstatsString g data := by
  unfold ktxstatsString
  simp only [blockLoop_reorder]
  rfl

theorem ktxstatsV3_reorder (g o : Env) (data : Bytes) : ktxstatsV3 (g.reorder o) data = ktxstatsV3 g data := by
  unfold ktxstatsV3
  rw [ktxstatsString_reorder]
  rfl

end Mvd

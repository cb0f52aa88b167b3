import Verif.Proofs.Client.Facts
import Verif.Spec.Client
import Verif.Proofs.Client.ClosedBy
/-! # The order of what is written -/
namespace Stomp.Client
open Stomp

theorem handleWrite_wire (m : AMap Nat) (r : Req) : (handleWrite m r).2.2 = Spec.wire r.frame := by
  unfold handleWrite Spec.wire
  dsimp only
  by_cases h1 : r.frame.command = Cmd.subscribe
  · have h2 : r.frame.command ≠ Cmd.unsubscribe := by rw [h1]; decide
    rw [if_pos h1, if_neg h2]
    split
    · rename_i k hk; rw [if_pos (show Spec.TempQueue r.frame from ⟨.inl h1, by rw [hk]; simp⟩)]
    · rename_i hk; rw [if_neg (show ¬ Spec.TempQueue r.frame from fun h => h.2 hk)]
  · rw [if_neg h1]
    by_cases h2 : r.frame.command = Cmd.unsubscribe
    · rw [if_pos h2, if_pos h2]
      split
      · rename_i k hk
        rw [if_pos (show Spec.TempQueue r.frame from ⟨.inr h2, by rw [hk]; simp⟩)]
        split <;> rfl
      · rename_i hk; rw [if_neg (show ¬ Spec.TempQueue r.frame from fun h => h.2 hk)]
    · rw [if_neg h2, if_neg h2, if_neg (show ¬ Spec.TempQueue r.frame from fun h => h.1.elim h1 h2)]

def takenIn (tr : List Obs) : List Req :=
  tr.filterMap fun o => match o with
    | .taken r => some r
    | _ => none

def sentIn (tr : List Obs) : List Frame :=
  tr.filterMap fun o => match o with
    | .sent f => some f
    | _ => none

def handedIn (tr : List Obs) : List Req :=
  tr.filterMap fun o => match o with
    | .accepted _ r => some r
    | _ => none

theorem takenIn_append (a b : List Obs) : takenIn (a ++ b) = takenIn a ++ takenIn b := List.filterMap_append
theorem sentIn_append (a b : List Obs) : sentIn (a ++ b) = sentIn a ++ sentIn b := List.filterMap_append
theorem handedIn_append (a b : List Obs) : handedIn (a ++ b) = handedIn a ++ handedIn b := List.filterMap_append

/-- `processLoop` will take no further request. -/
def LoopPc.stopped : LoopPc → Bool
  | .fail _ _ | .done => true
  | _ => false

structure OrderInv (s : Sys) : Prop where
  queue : handedIn s.trace = takenIn s.trace ++ s.writeCh
  wire : sentIn s.trace = (takenIn s.trace).filterMap (fun r => Spec.wire r.frame) ∨
    (s.loop.stopped = true ∧ ∃ pre r, takenIn s.trace = pre ++ [r] ∧ sentIn s.trace = pre.filterMap (fun r => Spec.wire r.frame))

/-- Nothing accepted, taken or written. -/
def Obs.quiet : Obs → Bool
  | .accepted .. | .taken _ | .sent _ => false
  | _ => true

theorem order_congr {s s' : Sys} {l : List Obs} (hi : OrderInv s) (hw : s'.writeCh = s.writeCh)
    (hl : s.loop.stopped = true → s'.loop.stopped = true) (ht : s'.trace = s.trace ++ l) (hq : l.all Obs.quiet = true) :
    OrderInv s' := by
  have h1 : handedIn s'.trace = handedIn s.trace ∧ takenIn s'.trace = takenIn s.trace ∧ sentIn s'.trace = sentIn s.trace := by
    rw [ht, handedIn_append, takenIn_append, sentIn_append]
    have : handedIn l = [] ∧ takenIn l = [] ∧ sentIn l = [] := by
      clear ht
      induction l with
      | nil => exact ⟨rfl, rfl, rfl⟩
      | cons o l ih =>
        simp only [List.all_cons, Bool.and_eq_true] at hq
        obtain ⟨a, b, c⟩ := ih hq.2
        cases o <;> simp_all [Obs.quiet, handedIn, takenIn, sentIn]
    rw [this.1, this.2.1, this.2.2]
    simp
  constructor
  · rw [h1.1, h1.2.1, hw]; exact hi.queue
  · rw [h1.2.1, h1.2.2]
    rcases hi.wire with h | ⟨h, h'⟩
    · exact .inl h
    · exact .inr ⟨hl h, h'⟩

theorem order_same {s s' : Sys} (hi : OrderInv s) (hw : s'.writeCh = s.writeCh)
    (hl : s.loop.stopped = true → s'.loop.stopped = true) (ht : s'.trace = s.trace) : OrderInv s' :=
  order_congr (l := []) hi hw hl (by simpa using ht) rfl

theorem order_accept {s s' : Sys} {l : List Obs} {t : Nat} {r : Req} (hi : OrderInv s) (hw : s'.writeCh = s.writeCh ++ [r])
    (hl : s'.loop = s.loop) (ht : s'.trace = s.trace ++ [.accepted t r] ++ l) (hq : l.all Obs.quiet = true) :
    OrderInv s' := by
  refine order_congr (s := { s with writeCh := s.writeCh ++ [r], trace := s.trace ++ [.accepted t r] }) ?_ hw
    (by rw [hl]; exact id) ht hq
  obtain ⟨hqu, hwi⟩ := hi
  constructor
  · simp only [handedIn_append, takenIn_append, hqu]
    simp [handedIn, takenIn]
  · simpa [takenIn_append, sentIn_append, takenIn, sentIn] using hwi

theorem order_accept_same {s s' : Sys} {t : Nat} {r : Req} (hi : OrderInv s) (hw : s'.writeCh = s.writeCh ++ [r])
    (hl : s'.loop = s.loop) (ht : s'.trace = s.trace ++ [.accepted t r]) : OrderInv s' :=
  order_accept (l := []) hi hw hl (by simpa using ht) rfl

theorem order_frameDone {s : Sys} {t : Nat} {c : Call} {r : Res} (hi : OrderInv s) : OrderInv (s.frameDone t c r) := by
  obtain ⟨pc, hcore, _, _, _, ⟨_, _, htr⟩ | ⟨_, _, htr⟩⟩ := frameDone_spec s t c r
  · exact order_congr hi hcore.writeCh (by rw [hcore.loop]; exact id) htr rfl
  · exact order_congr (l := []) hi hcore.writeCh (by rw [hcore.loop]; exact id) (by simpa using htr) rfl

theorem order_handOver {s s' : Sys} {n : Nat} {f : Frame} {b : Bool} (hi : OrderInv s)
    (h : s.handOver n f b = some s') : OrderInv s' := by
  cases handOver_cases h with
  | send => exact order_congr hi rfl id rfl rfl
  | discOk => exact order_congr hi rfl id rfl rfl
  | discErr => exact order_congr hi rfl id rfl rfl
  | frame => exact order_frameDone hi
  | sub => exact order_same hi rfl id rfl

theorem handOver_loop {s s' : Sys} {n : Nat} {f : Frame} {b : Bool} (h : s.handOver n f b = some s') :
    s'.loop = s.loop := by
  cases handOver_cases h with
  | frame =>
    obtain ⟨pc, hcore, _⟩ := frameDone_spec s ‹Nat› ‹Thread›.call (resOf f)
    exact hcore.loop
  | _ => rfl

theorem order_step {cfg : Cfg} {s s' : Sys} (hi : OrderInv s) (h : Step cfg s s') : OrderInv s' := by
  cases h with
  | frameClosed => exact order_frameDone (order_same hi rfl id rfl)
  | pushWait => exact order_accept_same hi rfl rfl rfl
  | pushRet => exact order_accept hi rfl rfl rfl rfl
  | @pushSub t th r n =>
    have := handOut_spec { s with writeCh := s.writeCh ++ [r], trace := s.trace ++ [.accepted t r] } n
    refine order_accept hi this.1.writeCh this.1.loop ?_ ?_ (l := [.ret t .ok]) (t := t)
    · exact congrArg (· ++ [Obs.ret t .ok]) this.2.1
    · rfl
  | pushFrameWait => exact order_accept_same hi rfl rfl rfl
  | pushFrameRet => exact order_frameDone (order_accept_same hi rfl rfl rfl)
  | waitClosed => exact order_frameDone hi
  | frameTimeout => exact order_frameDone hi
  | unsub ht hcall hb hpc h =>
    obtain ⟨hcore, ⟨_, h2, _⟩ | ⟨_, pc, hp, _, _, ⟨_, h2⟩ | ⟨r, _, h2⟩⟩⟩ := unsub_spec h
    · exact order_congr (l := []) hi hcore.writeCh (by rw [hcore.loop]; exact id) (by simpa using h2) rfl
    · exact order_congr (l := []) hi hcore.writeCh (by rw [hcore.loop]; exact id) (by simpa using h2) rfl
    · exact order_congr hi hcore.writeCh (by rw [hcore.loop]; exact id) h2 rfl
  | helper ht hcall hb h =>
    obtain ⟨hcore, h2, _⟩ := helper_spec h
    exact order_congr (l := []) hi hcore.writeCh (by rw [hcore.loop]; exact id) (by simpa using h2) rfl
  | sub h =>
    obtain ⟨hcore, h2, _⟩ := subStep_spec h
    exact order_congr (l := []) hi hcore.writeCh (by rw [hcore.loop]; exact id) (by simpa using h2) rfl
  | @takeQuiet r rest hl hw ho =>
    have sp := takeReq_spec s r rest
    rw [handleWrite_wire] at ho
    obtain ⟨hqu, hwi⟩ := hi
    rw [hl] at hwi
    constructor
    · rw [sp.2.2.1, sp.2.2.2.2.2.2.2.2.2.1, handedIn_append, takenIn_append, hqu, hw]
      simp [handedIn, takenIn]
    · rw [sp.2.2.2.2.2.2.2.2.2.1]
      left
      rcases hwi with h | ⟨h, _⟩
      · rw [sentIn_append, takenIn_append, List.filterMap_append, ← h]
        simp [sentIn, takenIn, ho]
      · cases h
  | @takeSent r rest f hl hw ho =>
    have sp := takeReq_spec s r rest
    rw [handleWrite_wire] at ho
    obtain ⟨hqu, hwi⟩ := hi
    rw [hl] at hwi
    constructor
    · simp only [Sys.log]
      rw [sp.2.2.1, sp.2.2.2.2.2.2.2.2.2.1, handedIn_append, takenIn_append, handedIn_append, takenIn_append, hqu, hw]
      simp [handedIn, takenIn]
    · simp only [Sys.log]
      rw [sp.2.2.2.2.2.2.2.2.2.1]
      left
      rcases hwi with h | ⟨h, _⟩
      · rw [sentIn_append, takenIn_append, sentIn_append, takenIn_append, List.filterMap_append, List.filterMap_append, ← h]
        simp [sentIn, takenIn, ho]
      · cases h
  | @takeFail r rest f order hl hw ho hp =>
    have sp := takeReq_spec s r rest
    rw [handleWrite_wire] at ho
    obtain ⟨hqu, hwi⟩ := hi
    rw [hl] at hwi
    constructor
    · simp only [Sys.log]
      rw [sp.2.2.1, sp.2.2.2.2.2.2.2.2.2.1, handedIn_append, takenIn_append, handedIn_append, takenIn_append, hqu, hw]
      simp [handedIn, takenIn]
    · simp only [Sys.log]
      rw [sp.2.2.2.2.2.2.2.2.2.1]
      right
      refine ⟨rfl, takenIn s.trace, r, ?_, ?_⟩
      · simp [takenIn]
      · rcases hwi with h | ⟨h, _⟩
        · rw [sentIn_append, sentIn_append, ← h]
          simp [sentIn]
        · cases h
  | @giveReceipt f id n b s1 hl hc h1 =>
    have h2 := order_handOver hi h1
    have h3 := handOver_loop h1
    have sp := closeChan_spec { s1 with channels := s1.channels.del id, loop := .select } n
    refine order_congr (l := []) h2 sp.2.2.1 ?_ (by simpa using sp.2.2.2.2.2.2.2.2.2.1) rfl
    rw [h3, hl]; simp [LoopPc.stopped]
  | giveMessage hl hc h1 =>
    refine order_congr (l := []) (order_handOver hi h1) rfl ?_ (by simp) rfl
    rw [handOver_loop h1, hl]; simp [LoopPc.stopped]
  | @giveErr f n l b s1 hl hc h1 =>
    have h2 := order_handOver hi h1
    have h3 := handOver_loop h1
    have sp := closeChan_spec { s1 with loop := .errs f l } n
    refine order_congr (l := []) h2 sp.2.2.1 ?_ (by simpa using sp.2.2.2.2.2.2.2.2.2.1) rfl
    rw [h3, hl]; simp [LoopPc.stopped]
  | giveFail hl hc h1 => exact order_congr (l := []) (order_handOver hi h1) rfl (fun _ => rfl) (by simp) rfl
  | readReceipt hl hr hf hid hn => refine order_congr hi rfl ?_ rfl rfl; rw [hl]; simp [LoopPc.stopped]
  | readMessage hl hr hf hid hn => refine order_congr hi rfl ?_ rfl rfl; rw [hl]; simp [LoopPc.stopped]
  | readErr hl hr hf hp => refine order_congr hi rfl ?_ rfl rfl; rw [hl]; simp [LoopPc.stopped]
  | readMissing hl hr hf hp => exact order_congr hi rfl (fun _ => rfl) rfl rfl
  | readSkip hl hr hs => exact order_congr hi rfl id rfl rfl
  | _ =>
    first
      | exact order_same hi rfl id rfl
      | exact order_congr hi rfl id rfl rfl
      | exact order_same hi rfl (fun _ => rfl) rfl

end Stomp.Client

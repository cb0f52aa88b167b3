import Verif.Proofs.Client.Origin
import Verif.Proofs.Client.Order
import Verif.Proofs.AMap
/-! # Registered response channels and the receipts sent on them -/
namespace Stomp.Client
open Stomp

/-- Neither SUBSCRIBE nor UNSUBSCRIBE. -/
def Plain (f : Frame) : Prop := f.command ≠ Cmd.subscribe ∧ f.command ≠ Cmd.unsubscribe

theorem wire_plain {f : Frame} (h : Plain f) : Spec.wire f = some f := by
  unfold Spec.wire
  rw [if_neg (fun hc : Spec.TempQueue f => hc.1.elim h.1 h.2), if_neg h.2]

theorem handleWrite_get {m : AMap Nat} {r : Req} {k : Bytes} {n : Nat} (h : (handleWrite m r).1.get? k = some n) :
    m.get? k = some n ∨ (r.chan = some n ∧ Spec.Registers r.frame k) := by
  have base : ∀ k' n', (match r.chan, r.frame.header.contains Hdr.receipt with
      | some n, some k => m.set k n
      | _, _ => m).get? k' = some n' → m.get? k' = some n' ∨ (r.chan = some n' ∧ Spec.Registers r.frame k') := by
    intro k' n' hg
    split at hg
    · rename_i n1 k1 hn hk
      rw [AMap.get?_set] at hg
      split at hg
      · rename_i e; subst e; cases hg; exact .inr ⟨hn, .inl hk⟩
      · exact .inl hg
    · exact .inl hg
  unfold handleWrite at h
  dsimp only at h
  split at h
  · rename_i hc
    split at h
    · rename_i k1 hk1
      dsimp only at h
      split at h
      · rename_i n1 hn1
        rw [AMap.get?_set] at h
        split at h
        · rename_i e; subst e; cases h; exact .inr ⟨hn1, .inr ⟨hc, by rw [hk1]; rfl⟩⟩
        · exact base _ _ h
      · exact base _ _ h
    · rename_i hk1
      dsimp only at h
      split at h
      · rename_i n1 hn1
        rw [AMap.get?_set] at h
        split at h
        · rename_i e; subst e; cases h; exact .inr ⟨hn1, .inr ⟨hc, by rw [hk1]; rfl⟩⟩
        · exact base _ _ h
      · exact base _ _ h
  · split at h
    · split at h
      · split at h
        · dsimp only at h
          rw [AMap.get?_del] at h
          split at h
          · cases h
          · exact base _ _ h
        · exact base _ _ h
      · exact base _ _ h
    · exact base _ _ h

structure RegInv (s : Sys) : Prop where
  reg : ∀ (k : Bytes) (n : Nat), s.channels.get? k = some n → ∃ t r, (t, r) ∈ acceptedIn s.trace ∧ r.chan = some n ∧
    Spec.Registers r.frame k ∧
    (Plain r.frame → s.loop.stopped = false → [Obs.accepted t r, .sent r.frame].Sublist s.trace)
  receipt : ∀ (f : Frame) (id : Bytes) (n : Nat), s.loop = .receipt f id n → f.command = Cmd.receipt ∧
    f.header.contains Hdr.receiptId = some id ∧ ∃ t r, (t, r) ∈ acceptedIn s.trace ∧ r.chan = some n ∧
      Spec.Registers r.frame id ∧ (Plain r.frame → [Obs.accepted t r, .sent r.frame, .took (some f)].Sublist s.trace)
  message : ∀ (f : Frame) (n : Nat), s.loop = .message f n → f.command = Cmd.message ∧ .took (some f) ∈ s.trace ∧
    ∃ id, f.header.contains Hdr.subscription = some id ∧ ∃ t r, (t, r) ∈ acceptedIn s.trace ∧ r.chan = some n ∧
      Spec.Registers r.frame id
  errs : ∀ (f : Frame) (l : List Nat), s.loop = .errs f l → f.command = Cmd.error
  fail : ∀ (f : Frame) (l : List Nat), s.loop = .fail f l → f.command = Cmd.error

theorem acceptedIn_ext {s s' : Sys} (he : Ext s s') {t : Nat} {r : Req} (h : (t, r) ∈ acceptedIn s.trace) :
    (t, r) ∈ acceptedIn s'.trace := by
  obtain ⟨l, e⟩ := he.trace
  rw [e, acceptedIn_append]
  exact List.mem_append_left _ h

theorem sublist_ext {s s' : Sys} (he : Ext s s') {l : List Obs} (h : l.Sublist s.trace) : l.Sublist s'.trace := by
  obtain ⟨l', e⟩ := he.trace
  rw [e]
  exact h.trans (List.sublist_append_left _ _)

/-- `channels` lost entries at most, and `processLoop` is where it was or past its critical positions. -/
theorem reg_keep {s s' : Sys} (hi : RegInv s) (he : Ext s s')
    (hc : ∀ k n, s'.channels.get? k = some n → s.channels.get? k = some n)
    (hl : s'.loop = s.loop ∨ (s'.loop = .select ∧ s.loop.stopped = false) ∨ s'.loop = .done) : RegInv s' := by
  have hst : s'.loop.stopped = false → s.loop.stopped = false := by
    rcases hl with h | ⟨h, h1⟩ | h
    · rw [h]; exact id
    · intro _; exact h1
    · rw [h]; simp [LoopPc.stopped]
  constructor
  · intro k n h
    obtain ⟨t, r, h1, h2, h3, h4⟩ := hi.reg k n (hc k n h)
    exact ⟨t, r, acceptedIn_ext he h1, h2, h3, fun a b => sublist_ext he (h4 a (hst b))⟩
  · intro f id n h
    rcases hl with hl | ⟨hl, _⟩ | hl
    · rw [hl] at h
      obtain ⟨h1, h2, t, r, h3, h4, h5, h6⟩ := hi.receipt f id n h
      exact ⟨h1, h2, t, r, acceptedIn_ext he h3, h4, h5, fun a => sublist_ext he (h6 a)⟩
    · rw [hl] at h; cases h
    · rw [hl] at h; cases h
  · intro f n h
    rcases hl with hl | ⟨hl, _⟩ | hl
    · rw [hl] at h
      obtain ⟨h1, h2, id, h3, t, r, h4, h5, h6⟩ := hi.message f n h
      obtain ⟨l, e⟩ := he.trace
      exact ⟨h1, by rw [e]; exact List.mem_append_left _ h2, id, h3, t, r, acceptedIn_ext he h4, h5, h6⟩
    · rw [hl] at h; cases h
    · rw [hl] at h; cases h
  · intro f l h
    rcases hl with hl | ⟨hl, _⟩ | hl
    · rw [hl] at h; exact hi.errs f l h
    · rw [hl] at h; cases h
    · rw [hl] at h; cases h
  · intro f l h
    rcases hl with hl | ⟨hl, _⟩ | hl
    · rw [hl] at h; exact hi.fail f l h
    · rw [hl] at h; cases h
    · rw [hl] at h; cases h

/-- `processLoop` begins to tell everybody. -/
theorem reg_err {s s' : Sys} (hi : RegInv s) (he : Ext s s') {f : Frame} {l : List Nat}
    (hc : ∀ k n, s'.channels.get? k = some n → s.channels.get? k = some n) (hf : f.command = Cmd.error)
    (hl : (s'.loop = .errs f l ∧ s.loop.stopped = false) ∨ s'.loop = .fail f l) : RegInv s' := by
  have hst : s'.loop.stopped = false → s.loop.stopped = false := by
    rcases hl with ⟨h, h1⟩ | h
    · intro _; exact h1
    · rw [h]; simp [LoopPc.stopped]
  constructor
  · intro k n h
    obtain ⟨t, r, h1, h2, h3, h4⟩ := hi.reg k n (hc k n h)
    exact ⟨t, r, acceptedIn_ext he h1, h2, h3, fun a b => sublist_ext he (h4 a (hst b))⟩
  all_goals intros
  all_goals rename_i h
  all_goals rcases hl with ⟨hl, _⟩ | hl
  all_goals rw [hl] at h
  all_goals first
    | (cases h; done)
    | (cases h; exact hf)

theorem mem_handedIn {tr : List Obs} {r : Req} (h : r ∈ handedIn tr) : ∃ t, (t, r) ∈ acceptedIn tr := by
  obtain ⟨o, ho, h1⟩ := List.mem_filterMap.1 h
  cases o with
  | accepted t r' =>
    simp only [Option.some.injEq] at h1
    subst h1
    exact ⟨t, List.mem_filterMap.2 ⟨_, ho, rfl⟩⟩
  | _ => cases h1

theorem mem_acceptedIn {tr : List Obs} {t : Nat} {r : Req} (h : (t, r) ∈ acceptedIn tr) : Obs.accepted t r ∈ tr := by
  obtain ⟨o, ho, h1⟩ := List.mem_filterMap.1 h
  cases o with
  | accepted t' r' =>
    simp only [Option.some.injEq, Prod.mk.injEq] at h1
    obtain ⟨rfl, rfl⟩ := h1
    exact ho
  | _ => cases h1

theorem reg_take {s s' : Sys} (hi : RegInv s) (ho : OrderInv s) (he : Ext s s') {r : Req} {rest : List Req}
    (hw : s.writeCh = r :: rest) (hl : s.loop = .select) (hc : s'.channels = (handleWrite s.channels r).1)
    (hs : (s'.loop = .select ∧ (Plain r.frame → .sent r.frame ∈ s'.trace.drop s.trace.length)) ∨
      ∃ f l, f.command = Cmd.error ∧ s'.loop = .fail f l) : RegInv s' := by
  have hrec : ∃ t, (t, r) ∈ acceptedIn s.trace := by
    apply mem_handedIn
    rw [ho.queue, hw]
    simp
  constructor
  · intro k n h
    rw [hc] at h
    rcases handleWrite_get h with h | ⟨h1, h2⟩
    · obtain ⟨t, r, h1, h2, h3, h4⟩ := hi.reg k n h
      refine ⟨t, r, acceptedIn_ext he h1, h2, h3, fun a b => sublist_ext he (h4 a ?_)⟩
      rw [hl]; rfl
    · obtain ⟨t, ht⟩ := hrec
      refine ⟨t, r, acceptedIn_ext he ht, h1, h2, fun hp hst => ?_⟩
      rcases hs with ⟨_, hs⟩ | ⟨f, l, _, hs⟩
      · obtain ⟨l, e⟩ := he.trace
        have hs := hs hp
        rw [e, List.drop_left] at hs
        rw [e]
        exact List.Sublist.append (l₁ := [Obs.accepted t r]) (List.singleton_sublist.2 (mem_acceptedIn ht))
          (List.singleton_sublist.2 hs)
      · rw [hs] at hst; cases hst
  all_goals intros
  all_goals rename_i h
  all_goals rcases hs with ⟨hs, _⟩ | ⟨f, l, hf, hs⟩
  all_goals rw [hs] at h
  all_goals first
    | (cases h; done)
    | (cases h; exact hf)

theorem SameCore.reg {s s' : Sys} (h : SameCore s s') (hi : RegInv s) (he : Ext s s') : RegInv s' :=
  reg_keep hi he (by rw [h.channels]; exact fun _ _ h => h) (.inl h.loop)

theorem handOver_channels {s s' : Sys} {n : Nat} {f : Frame} {b : Bool} (h : s.handOver n f b = some s') :
    s'.channels = s.channels := by
  cases handOver_cases h with
  | frame =>
    obtain ⟨pc, hcore, _⟩ := frameDone_spec s ‹Nat› ‹Thread›.call (resOf f)
    exact hcore.channels
  | _ => rfl

theorem reg_step {cfg : Cfg} {s s' : Sys} (ho : OrderInv s) (hi : RegInv s) (h : Step cfg s s') : RegInv s' := by
  have he := ext_step h
  cases h with
  | @frameClosed t th =>
    obtain ⟨_, hcore, _⟩ := frameDone_spec s.closeNet t th.call .closedUnexpectedly
    exact reg_keep hi he (by rw [hcore.channels]; exact fun _ _ h => h) (.inl hcore.loop)
  | @pushSub t th r n d a o ht hpc =>
    have := (handOut_spec { s with writeCh := s.writeCh ++ [r], trace := s.trace ++ [.accepted t r] } n).1
    refine reg_keep hi he ?_ (.inl this.loop)
    intro k m hk
    rw [← show _ = s.channels from this.channels]
    exact hk
  | @pushFrameRet t th r =>
    obtain ⟨_, hcore, _⟩ := frameDone_spec
      (Sys.unlock { s with writeCh := s.writeCh ++ [r], trace := s.trace ++ [.accepted t r] }) t th.call .ok
    exact reg_keep hi he (by rw [hcore.channels]; exact fun _ _ h => h) (.inl hcore.loop)
  | @waitClosed t th n ht =>
    obtain ⟨_, hcore, _⟩ := frameDone_spec s t th.call .closedUnexpectedly
    exact hcore.reg hi he
  | @frameTimeout t th n ht =>
    obtain ⟨_, hcore, _⟩ := frameDone_spec s t th.call .closedUnexpectedly
    exact hcore.reg hi he
  | unsub ht hcall hb hpc h => exact (unsub_spec h).1.reg hi he
  | helper ht hcall hb h => exact (helper_spec h).1.reg hi he
  | sub h => exact (subStep_spec h).1.reg hi he
  | fail hl hp => exact reg_err hi he (fun _ _ h => h) rfl (.inr rfl)
  | readReceipt hl hr hf hid hn =>
    constructor
    · intro k n h
      obtain ⟨t, r, h1, h2, h3, h4⟩ := hi.reg k n h
      exact ⟨t, r, acceptedIn_ext he h1, h2, h3, fun a b => sublist_ext he (h4 a (by rw [hl]; rfl))⟩
    · intro g id' n' h
      cases h
      obtain ⟨t, r, h1, h2, h3, h4⟩ := hi.reg _ _ hn
      refine ⟨hf, hid, t, r, acceptedIn_ext he h1, h2, h3, fun a => ?_⟩
      exact List.Sublist.append (h4 a (by rw [hl]; rfl)) (List.Sublist.refl _)
    · intro f n h; cases h
    · intro f n h; cases h
    · intro f n h; cases h
  | readMissing hl hr hf hid hp => exact reg_err hi he (fun _ _ h => h) rfl (.inr rfl)
  | readErr hl hr hf hp => exact reg_err hi he (fun _ _ h => h) hf (.inl ⟨rfl, by rw [hl]; rfl⟩)
  | readMessage hl hr hf hid hn =>
    constructor
    · intro k n h
      obtain ⟨t, r, h1, h2, h3, h4⟩ := hi.reg k n h
      exact ⟨t, r, acceptedIn_ext he h1, h2, h3, fun a b => sublist_ext he (h4 a (by rw [hl]; rfl))⟩
    · intro f id n h; cases h
    · intro g n' h
      cases h
      obtain ⟨t, r, h1, h2, h3, h4⟩ := hi.reg _ _ hn
      exact ⟨hf, by simp, _, hid, t, r, acceptedIn_ext he h1, h2, h3⟩
    · intro f n h; cases h
    · intro f n h; cases h
  | @takeQuiet r rest hl hw hq =>
    have sp := takeReq_spec s r rest
    refine reg_take hi ho he hw hl sp.2.2.2.2.2.2.1 (.inl ⟨sp.2.2.2.2.2.1.trans hl, fun hp => ?_⟩)
    rw [handleWrite_wire, wire_plain hp] at hq
    cases hq
  | @takeSent r rest f hl hw hq =>
    have sp := takeReq_spec s r rest
    refine reg_take hi ho he hw hl sp.2.2.2.2.2.2.1 (.inl ⟨sp.2.2.2.2.2.1.trans hl, fun hp => ?_⟩)
    rw [handleWrite_wire, wire_plain hp] at hq
    cases hq
    simp only [Sys.log]
    rw [sp.2.2.2.2.2.2.2.2.2.1, List.append_assoc, List.drop_left]
    simp
  | @takeFail r rest f order hl hw hq hp =>
    have sp := takeReq_spec s r rest
    exact reg_take hi ho he hw hl sp.2.2.2.2.2.2.1 (.inr ⟨_, _, rfl, rfl⟩)
  | @giveReceipt f id n b s1 hl hc h1 =>
    have sp := closeChan_spec { s1 with channels := s1.channels.del id, loop := .select } n
    refine reg_keep hi he ?_ (.inr (.inl ⟨sp.2.2.2.2.2.1, by rw [hl]; rfl⟩))
    intro k m h
    rw [sp.2.2.2.2.2.2.1] at h
    simp only [handOver_channels h1] at h
    rw [AMap.get?_del] at h
    split at h
    · cases h
    · exact h
  | giveMessage hl hc h1 =>
    refine reg_keep hi he ?_ (.inr (.inl ⟨rfl, by rw [hl]; rfl⟩))
    simp only [handOver_channels h1]
    exact fun _ _ h => h
  | @giveErr f n l b s1 hl hc h1 =>
    have sp := closeChan_spec { s1 with loop := .errs f l } n
    refine reg_err hi he ?_ (hi.errs _ _ hl) (.inl ⟨sp.2.2.2.2.2.1, by rw [hl]; rfl⟩)
    rw [sp.2.2.2.2.2.2.1]
    simp only [handOver_channels h1]
    exact fun _ _ h => h
  | giveFail hl hc h1 =>
    refine reg_err hi he ?_ (hi.fail _ _ hl) (.inr rfl)
    simp only [handOver_channels h1]
    exact fun _ _ h => h
  | finErrs => exact reg_keep hi he (fun _ _ h => h) (.inr (.inr rfl))
  | finClosed => exact reg_keep hi he (fun _ _ h => h) (.inr (.inr rfl))
  | finFail => exact reg_keep hi he (fun _ _ h => h) (.inr (.inr rfl))
  | _ => exact reg_keep hi he (fun _ _ h => h) (.inl rfl)

/-! ## Results -/

/-- `Send`, `Disconnect`, and the calls of `sendFrame` by `Ack`, `Nack`, `Begin` and the transaction methods. -/
def Call.waits : Call → Bool
  | .send .. | .frame _ | .disconnect => true
  | _ => false

theorem applySendOpts_command {last last' : Nat} {f g : Frame} {o : List SendOpt}
    (h : applySendOpts last f o = some (last', g)) : g.command = f.command := by
  induction o generalizing last f with
  | nil => cases h; rfl
  | cons a o ih =>
    unfold applySendOpts at h
    split at h
    · cases h
    rename_i last1 f1 h1
    rw [ih h]
    unfold applySendOpt at h1
    repeat' split at h1
    all_goals first
      | contradiction
      | (cases h1; rfl)

theorem createSendFrame_command {last last' : Nat} {d c b : Bytes} {o : List SendOpt} {f : Frame}
    (h : createSendFrame last d c b o = some (last', f)) : f.command = Cmd.send := by
  unfold createSendFrame at h
  rw [applySendOpts_command h]
  split <;> rfl

theorem frameOf_plain {s : Sys} {call : Call} {f : Frame} (hw : call.waits = true) (h : Spec.FrameOf s call f) : Plain f := by
  cases call with
  | send d c b o =>
    obtain ⟨_, _, h⟩ := h
    unfold Plain
    rw [createSendFrame_command h]
    decide
  | frame g =>
    obtain ⟨rfl, h⟩ := h
    unfold Plain
    unfold rawCommands at h
    simp only [List.mem_cons, List.not_mem_nil, or_false] at h
    rcases h with h | h | h | h | h | h <;> rw [h] <;> decide
  | disconnect => obtain ⟨_, rfl⟩ := h; exact ⟨by simp [Frame.new]; decide, by simp [Frame.new]; decide⟩
  | _ => cases hw

/-- A receipted call that returned nil got its RECEIPT. -/
def Receipted (tr : List Obs) (t : Nat) (r : Req) (res : Res) : Prop :=
  ∀ k, r.frame.header.contains Hdr.receipt = some k → ∃ g : Frame, g.command = Cmd.receipt ∧
    g.header.contains Hdr.receiptId = some k ∧
    [Obs.accepted t r, .sent r.frame, .took (some g), .ret t res].Sublist tr

/-- Why a caller may have returned nil: its request was handed over, and if a receipt was asked for it came; or it
was a `Disconnect` of a closed connection. -/
def Good (s : Sys) (t : Nat) (call : Call) (res : Res) : Prop :=
  (∃ r, (t, r) ∈ acceptedIn s.trace ∧ Receipted s.trace t r res) ∨
  (call = .disconnect ∧ s.closed = true ∧ ∀ r, (t, r) ∉ acceptedIn s.trace)

def DoneInv (s : Sys) : Prop :=
  ∀ (t : Nat) (th : Thread) (res : Res), s.threads[t]? = some th → th.call.waits = true → th.pc = .ret res →
    (res = .ok ∨ res = .closeError) → Good s t th.call res

theorem handOver_closed {s s1 : Sys} {n : Nat} {f : Frame} {b : Bool} (h : s.handOver n f b = some s1)
    (hc : s.closed = true) : s1.closed = true := by
  cases handOver_cases h with
  | @frame t th =>
    obtain ⟨_, hcore, _⟩ := frameDone_spec s t th.call (resOf f)
    rw [hcore.closed]; exact hc
  | discOk => rfl
  | _ => exact hc

theorem closed_step {cfg : Cfg} {s s' : Sys} (h : Step cfg s s') (hc : s.closed = true) : s'.closed = true := by
  cases h with
  | @frameClosed t th =>
    obtain ⟨_, hcore, _⟩ := frameDone_spec s.closeNet t th.call .closedUnexpectedly
    rw [hcore.closed]; exact hc
  | @pushSub t th r n =>
    have := (handOut_spec { s with writeCh := s.writeCh ++ [r], trace := s.trace ++ [.accepted t r] } n).1
    exact this.closed.trans hc
  | @pushFrameRet t th r =>
    obtain ⟨_, hcore, _⟩ := frameDone_spec
      (Sys.unlock { s with writeCh := s.writeCh ++ [r], trace := s.trace ++ [.accepted t r] }) t th.call .ok
    rw [hcore.closed]; exact hc
  | @waitClosed t th =>
    obtain ⟨_, hcore, _⟩ := frameDone_spec s t th.call .closedUnexpectedly
    rw [hcore.closed]; exact hc
  | @frameTimeout t th =>
    obtain ⟨_, hcore, _⟩ := frameDone_spec s t th.call .closedUnexpectedly
    rw [hcore.closed]; exact hc
  | unsub ht hcall hb hpc h => rw [(unsub_spec h).1.closed]; exact hc
  | helper ht hcall hb h => rw [(helper_spec h).1.closed]; exact hc
  | sub h => rw [(subStep_spec h).1.closed]; exact hc
  | @takeQuiet r rest => exact (takeReq_spec s r rest).1.trans hc
  | @takeSent r rest => exact (takeReq_spec s r rest).1.trans hc
  | @takeFail r rest => exact (takeReq_spec s r rest).1.trans hc
  | giveReceipt hl hn h1 => have := handOver_closed h1 hc; exact (closeChan_spec _ _).1.trans this
  | giveMessage hl hn h1 => have := handOver_closed h1 hc; exact this
  | giveErr hl hn h1 => have := handOver_closed h1 hc; exact (closeChan_spec _ _).1.trans this
  | giveFail hl hn h1 => have := handOver_closed h1 hc; exact this
  | mustGo => rfl
  | disconnectTimeout => rfl
  | finErrs => rfl
  | finFail => rfl
  | _ => exact hc

/-- `closed` stays set, and only a caller about to hand over its request does so. -/
structure Keeps (s s' : Sys) : Prop where
  closed : s.closed = true → s'.closed = true
  acc : ∀ t r, (t, r) ∈ acceptedIn s'.trace → (t, r) ∈ acceptedIn s.trace ∨
    ∃ (th : Thread) (r' : Req), s.threads[t]? = some th ∧ th.pc = .push r'

theorem Keeps.mk' {s s' : Sys} (hc : s.closed = true → s'.closed = true) (h : acceptedIn s'.trace = acceptedIn s.trace) :
    Keeps s s' := ⟨hc, by rw [h]; exact fun _ _ h => .inl h⟩

theorem keeps_step {cfg : Cfg} {s s' : Sys} (h : Step cfg s s') : Keeps s s' := by
  have he := eff_step h
  refine ⟨closed_step h, fun t r hm => ?_⟩
  cases he with
  | accept ht hpc h1 hp h2 =>
    rw [h2] at hm
    simp only [List.mem_append, List.mem_singleton, Prod.mk.injEq] at hm
    rcases hm with hm | ⟨rfl, _⟩
    · exact .inl hm
    · exact .inr ⟨_, _, ht, hpc⟩
  | same h1 h2 => exact .inl (h2 ▸ hm)
  | call _ _ _ h2 => exact .inl (h2 ▸ hm)
  | past _ _ _ _ h2 => exact .inl (h2 ▸ hm)
  | helper _ _ h2 => exact .inl (h2 ▸ hm)
  | acquire => exact .inl (by simpa [*] using hm)
  | acquireBare => exact .inl (by simpa [*] using hm)
  | subscribe => exact .inl (by simpa [*] using hm)
  | lock => exact .inl (by simpa [*] using hm)

theorem good_ext {s s' : Sys} (he : Ext s s') (hk : Keeps s s') {t : Nat} {th : Thread} {res : Res} (ht : s.threads[t]? = some th)
    (hpc : th.pc = .ret res) (h : Good s t th.call res) : Good s' t th.call res := by
  rcases h with ⟨r, hm, h⟩ | ⟨h1, h2, h3⟩
  · refine .inl ⟨r, acceptedIn_ext he hm, ?_⟩
    intro k hk
    obtain ⟨g, h1, h2, h3⟩ := h k hk
    exact ⟨g, h1, h2, sublist_ext he h3⟩
  · refine .inr ⟨h1, hk.closed h2, fun r hm => ?_⟩
    rcases hk.acc t r hm with h | ⟨th', r', h4, h5⟩
    · exact h3 r h
    · rw [ht] at h4; cases h4; rw [hpc] at h5; cases h5

/-- No caller is newly at a good result. -/
theorem done_keep {s s' : Sys} (hi : DoneInv s) (he : Ext s s') (hcl : Keeps s s')
    (hth : ∀ (t : Nat) (th : Thread) (res : Res), s'.threads[t]? = some th → th.call.waits = true → th.pc = .ret res →
      (res = .ok ∨ res = .closeError) → s.threads[t]? = some th) : DoneInv s' := by
  intro t th res ht hw hpc hr
  exact good_ext he hcl (hth t th res ht hw hpc hr) hpc (hi t th res (hth t th res ht hw hpc hr) hw hpc hr)

/-- A caller moves. -/
theorem done_move {s s' : Sys} {t : Nat} {th : Thread} {g : Thread → Thread} (hi : DoneInv s) (he : Ext s s')
    (hcl : Keeps s s')
    (ht : s.threads[t]? = some th) (h1 : s'.threads = s.threads.modify t g) (hg : (g th).call = th.call)
    (hnew : ∀ res, th.call.waits = true → (g th).pc = .ret res → (res = .ok ∨ res = .closeError) →
      Good s' t th.call res) : DoneInv s' := by
  intro u thu res hu hw hpc hr
  rw [h1, List.getElem?_modify] at hu
  split at hu
  · rename_i e
    subst e
    rw [ht] at hu
    simp only [Option.map_eq_map, Option.map_some, Option.some.injEq] at hu
    subst hu
    rw [hg] at hw ⊢
    exact hnew res hw hpc hr
  · simp at hu
    exact good_ext he hcl hu hpc (hi u thu res hu hw hpc hr)

/-- The receiver of a RECEIPT returns. -/
theorem done_receipt {s s' : Sys} {t n : Nat} {th : Thread} {f : Frame} {id : Bytes} {res : Res} (hr : RegInv s) (ho : OriginInv s)
    (hl : s.loop = .receipt f id n) (ht : s.threads[t]? = some th) (hpc : th.pc = .wait n) (hw : th.call.waits = true)
    (htr : s'.trace = s.trace ++ [.ret t res]) : Good s' t th.call res := by
  obtain ⟨r, hm', h2⟩ := (ho.callers t th ht).wait n hpc
  obtain ⟨hf, hid, t2, r2, h3, h4, h5, h6⟩ := hr.receipt f id n hl
  have e2 := ho.chan _ _ _ _ n hm' h3 h2 h4
  subst e2
  have e3 := ho.one hm' h3
  subst e3
  obtain ⟨th', ht', hreq⟩ := ho.acc t r hm'
  rw [ht] at ht'
  cases ht'
  have hns : ∀ d a o, th.call ≠ .subscribe d a o := by
    intro d a o h; rw [h] at hw; cases hw
  have hp := frameOf_plain hw ((reqOf_caller hns).1 hreq).1
  refine .inl ⟨r, by rw [htr, acceptedIn_ret]; exact hm', ?_⟩
  intro k hk
  refine ⟨f, hf, ?_, ?_⟩
  · rcases h5 with h5 | ⟨h5, _⟩
    · rw [h5] at hk; cases hk; exact hid
    · exact absurd h5 hp.1
  · rw [htr]
    exact List.Sublist.append (h6 hp) (List.Sublist.refl [_])

theorem loop_receipt {s : Sys} (hr : RegInv s) {f : Frame} {n : Nat} (hf : f.command = Cmd.receipt)
    (hl : (∃ id, s.loop = .receipt f id n) ∨ s.loop = .message f n ∨ (∃ l, s.loop = .errs f (n :: l)) ∨ ∃ l, s.loop = .fail f (n :: l)) :
    ∃ id, s.loop = .receipt f id n := by
  rcases hl with h | h | ⟨l, h⟩ | ⟨l, h⟩
  · exact h
  · have := (hr.message _ _ h).1; rw [hf] at this; exact absurd this (by decide)
  · have := hr.errs _ _ h; rw [hf] at this; exact absurd this (by decide)
  · have := hr.fail _ _ h; rw [hf] at this; exact absurd this (by decide)

theorem resOf_ok {f : Frame} {r : Res} (h : resOf f = r) (hr : r = .ok ∨ r = .closeError) : f.command = Cmd.receipt := by
  unfold resOf at h
  split at h
  · assumption
  · subst h; simp at hr

theorem done_handOver {s s1 : Sys} {n : Nat} {f : Frame} {b : Bool} (hi : DoneInv s) (hr : RegInv s) (ho : OriginInv s)
    (hl : (∃ id, s.loop = .receipt f id n) ∨ s.loop = .message f n ∨ (∃ l, s.loop = .errs f (n :: l)) ∨ ∃ l, s.loop = .fail f (n :: l))
    (h : s.handOver n f b = some s1) : DoneInv s1 := by
  have he := handOver_ext h
  have hk : Keeps s s1 := .mk' (handOver_closed h) (handOver_past h).1
  cases handOver_cases h with
  | send hn ht hpc hcall =>
    refine done_move hi he hk ht rfl rfl ?_
    intro res hw hres hg
    cases hres
    obtain ⟨id, hl⟩ := loop_receipt hr (resOf_ok rfl hg) hl
    exact done_receipt hr ho hl ht hpc hw rfl
  | discOk hn ht hpc hcall hf =>
    refine done_move hi he hk ht rfl rfl ?_
    intro res hw hres hg
    cases hres
    obtain ⟨id, hl⟩ := loop_receipt hr hf hl
    exact done_receipt hr ho hl ht hpc hw rfl
  | discErr hn ht hpc hcall hf =>
    refine done_move hi he hk ht rfl rfl ?_
    intro res hw hres hg
    cases hres
    simp at hg
  | @frame t th c hn ht hpc hcall =>
    obtain ⟨pc, hcore, _, _, hth, hp⟩ := frameDone_spec s t th.call (resOf f)
    refine done_move hi he hk ht hth rfl ?_
    intro res hw hres hg
    rcases hp with ⟨rfl, _, htr⟩ | ⟨_, ⟨i, o, hc⟩, _⟩
    · cases hres
      obtain ⟨id, hl⟩ := loop_receipt hr (resOf_ok rfl hg) hl
      exact done_receipt hr ho hl ht hpc hw htr
    · rw [hc] at hw; cases hw
  | sub => exact done_keep hi he hk (fun _ _ _ h _ _ _ => h)

theorem done_same {s s' : Sys} (hi : DoneInv s) (he : Ext s s') (hcl : Keeps s s')
    (h1 : s'.threads = s.threads) : DoneInv s' :=
  done_keep hi he hcl (by rw [h1]; exact fun _ _ _ h _ _ _ => h)

theorem done_bad {s s' : Sys} {t : Nat} {th : Thread} {g : Thread → Thread} (hi : DoneInv s) (he : Ext s s')
    (hcl : Keeps s s')
    (ht : s.threads[t]? = some th) (h1 : s'.threads = s.threads.modify t g) (hg : (g th).call = th.call)
    (hbad : th.call.waits = true → ∀ res, (g th).pc = .ret res → res ≠ .ok ∧ res ≠ .closeError) : DoneInv s' :=
  done_move hi he hcl ht h1 hg (fun res hw hpc hr => by
    have := hbad hw res hpc
    rcases hr with h | h
    · exact absurd h this.1
    · exact absurd h this.2)

theorem done_bare {s : Sys} {t : Nat} {th : Thread} {r : Req} (ho : OriginInv s) (ht : s.threads[t]? = some th)
    (hpc : th.pc = .push r) (hr : r.chan = none) (hw : th.call.waits = true) : r.frame.header.contains Hdr.receipt = none := by
  have h := ((ho.callers t th ht).push r hpc).1
  have hns : ∀ d a o, th.call ≠ .subscribe d a o := by
    intro d a o h; rw [h] at hw; cases hw
  rcases ((reqOf_caller hns).1 h).2 with ⟨_, h⟩ | ⟨n, _, h, _⟩
  · exact h
  · rw [hr] at h; cases h

theorem done_step {cfg : Cfg} {s s' : Sys} (ho : OriginInv s) (hr : RegInv s) (hi : DoneInv s) (h : Step cfg s s') : DoneInv s' := by
  have he := ext_step h
  have hcl := keeps_step h
  cases h with
  | call c hl =>
    refine done_keep hi he hcl ?_
    intro t th res ht hw hpc hres
    rw [List.getElem?_append] at ht
    split at ht
    · exact ht
    · rw [List.getElem?_singleton] at ht
      split at ht
      · cases ht; cases hpc
      · cases ht
  | @early t th r nc ht hpc hm c hcall hea =>
    refine done_move hi he hcl ht rfl rfl ?_
    intro res hw hres hg
    cases hres
    subst hcall
    generalize hc : th.call = c at hea
    cases hea with
    | disconnect h =>
      refine .inr ⟨rfl, h, fun r hm => ?_⟩
      replace hm : (t, r) ∈ acceptedIn (s.trace ++ [Obs.ret t .ok]) := hm
      rw [acceptedIn_ret] at hm
      exact (ho.callers t th ht).early (.inl hpc) r hm
    | mustDisconnect h => rw [hc] at hw; cases hw
    | _ => simp at hg
  | acquire ht => exact done_bad hi he hcl ht rfl rfl (by intro _ res h; cases h)
  | acquireBare ht => exact done_bad hi he hcl ht rfl rfl (by intro _ res h; cases h)
  | @frameClosed t th ht =>
    obtain ⟨pc, hcore, _, _, hth, hp⟩ := frameDone_spec s.closeNet t th.call .closedUnexpectedly
    obtain ⟨_, _, _, hacc⟩ := frameDone_past s.closeNet t th.call .closedUnexpectedly
    refine done_bad hi he hcl ht hth rfl ?_
    intro _ res h
    rcases hp with ⟨rfl, _⟩ | ⟨rfl | rfl, _⟩ <;> cases h
    simp
  | subscribe ht => exact done_bad hi he hcl ht rfl rfl (by intro _ res h; cases h)
  | unsubOption ht => exact done_bad hi he hcl ht rfl rfl (by intro _ res h; cases h; simp)
  | unsubGo ht => exact done_bad hi he hcl ht rfl rfl (by intro _ res h; cases h)
  | unsubDone ht => exact done_bad hi he hcl ht rfl rfl (by intro _ res h; cases h; simp)
  | mustGo ht hpc hcall =>
    exact done_bad hi he hcl ht rfl rfl (by intro hw; rw [hcall] at hw; cases hw)
  | pushWait ht hpc =>
    exact done_bad hi he hcl ht rfl rfl (by intro _ res h; cases h)
  | @pushRet t th r d c b o ht hpc hw hcap hr' hcall =>
    refine done_move hi he hcl ht rfl rfl ?_
    intro res hw hres hg
    refine .inl ⟨r, ?_, fun k hk => ?_⟩
    · show (t, r) ∈ acceptedIn (s.trace ++ [Obs.accepted t r] ++ [.ret t .ok])
      rw [acceptedIn_ret, acceptedIn_one]
      simp
    · rw [done_bare ho ht hpc hr' hw] at hk; cases hk
  | @pushSub t th r n d a o ht hpc hw hcap hr' hcall =>
    have := handOut_spec { s with writeCh := s.writeCh ++ [r], trace := s.trace ++ [.accepted t r] } n
    refine done_bad (g := fun th => { th with pc := .ret .ok }) hi he hcl ht ?_ rfl (by intro hw; rw [hcall] at hw; cases hw)
    simp only [Sys.ret, Sys.goto, Sys.log, Sys.unlock, this.2.2.1]
  | pushFrameWait ht hpc =>
    exact done_bad hi he hcl ht rfl rfl (by intro _ res h; cases h)
  | @pushFrameRet t th r ht hpc hw hcap hr' hcall =>
    obtain ⟨pc, hcore, _, _, hth, hp⟩ := frameDone_spec (Sys.unlock { s with writeCh := s.writeCh ++ [r], trace := s.trace ++ [.accepted t r] }) t th.call .ok
    obtain ⟨_, _, _, hacc⟩ := frameDone_past (Sys.unlock { s with writeCh := s.writeCh ++ [r], trace := s.trace ++ [.accepted t r] }) t th.call .ok
    have hacc' := hacc.trans (acceptedIn_one s.trace t r)
    refine done_move hi he hcl ht hth rfl ?_
    intro res hw hres hg
    refine .inl ⟨r, ?_, fun k hk => ?_⟩
    · rw [hacc']
      simp
    · rw [done_bare ho ht hpc hr' hw] at hk; cases hk
  | @waitClosed t th n ht =>
    obtain ⟨pc, hcore, _, _, hth, hp⟩ := frameDone_spec s t th.call .closedUnexpectedly
    obtain ⟨_, _, _, hacc⟩ := frameDone_past s t th.call .closedUnexpectedly
    refine done_bad hi he hcl ht hth rfl ?_
    intro _ res h
    rcases hp with ⟨rfl, _⟩ | ⟨rfl | rfl, _⟩ <;> cases h
    simp
  | @frameTimeout t th n ht =>
    obtain ⟨pc, hcore, _, _, hth, hp⟩ := frameDone_spec s t th.call .closedUnexpectedly
    obtain ⟨_, _, _, hacc⟩ := frameDone_past s t th.call .closedUnexpectedly
    refine done_bad hi he hcl ht hth rfl ?_
    intro _ res h
    rcases hp with ⟨rfl, _⟩ | ⟨rfl | rfl, _⟩ <;> cases h
    simp
  | unsub ht hcall hb hpc h =>
    obtain ⟨hcore, ⟨h1, h2, _⟩ | ⟨_, pc, hp, h1, hpast, ⟨_, h2⟩ | ⟨r, _, h2⟩⟩⟩ := unsub_spec h
    · exact done_same hi he hcl h1
    · exact done_bad hi he hcl ht h1 rfl (by intro hw; rw [hcall] at hw; cases hw)
    · exact done_bad hi he hcl ht h1 rfl (by intro hw; rw [hcall] at hw; cases hw)
  | sendTimeout ht => exact done_bad hi he hcl ht rfl rfl (by intro _ res h; cases h; simp)
  | receiptTimeout ht => exact done_bad hi he hcl ht rfl rfl (by intro _ res h; cases h; simp)
  | disconnectTimeout ht => exact done_bad hi he hcl ht rfl rfl (by intro _ res h; cases h; simp)
  | selectTimeout ht => exact done_bad hi he hcl ht rfl rfl (by intro _ res h; cases h)
  | helper ht hcall hb h =>
    obtain ⟨hcore, h2, ⟨h1, _⟩ | ⟨_, hp, h1⟩⟩ := helper_spec h
    · exact done_same hi he hcl h1
    · exact done_bad hi he hcl ht h1 rfl (by intro hw; rw [hcall] at hw; cases hw)
  | @takeQuiet r rest hl hw hq =>
    have sp := takeReq_spec s r rest
    exact done_same hi he hcl sp.2.2.2.2.2.2.2.1
  | @takeSent r rest f hl hw hq =>
    have sp := takeReq_spec s r rest
    exact done_same hi he hcl sp.2.2.2.2.2.2.2.1
  | @takeFail r rest f order hl hw hq hp =>
    have sp := takeReq_spec s r rest
    exact done_same hi he hcl sp.2.2.2.2.2.2.2.1
  | @giveReceipt f id n b s1 hl hc h1 =>
    have h2 := done_handOver hi hr ho (.inl ⟨id, hl⟩) h1
    have sp := closeChan_spec { s1 with channels := s1.channels.del id, loop := .select } n
    refine done_same h2 ?_ (.mk' sp.1.trans (by rw [sp.2.2.2.2.2.2.2.2.2.1])) sp.2.2.2.2.2.2.2.1
    refine ext_trans ?_ (closeChan_ext _ _)
    exact ext_of (l := []) .same .same .same (by simp)
  | giveMessage hl hc h1 =>
    exact done_same (done_handOver hi hr ho (.inr (.inl hl)) h1) (ext_of (l := []) .same .same .same (by simp)) (.mk' id rfl) rfl
  | @giveErr f n l b s1 hl hc h1 =>
    have h2 := done_handOver hi hr ho (.inr (.inr (.inl ⟨l, hl⟩))) h1
    have sp := closeChan_spec { s1 with loop := .errs f l } n
    refine done_same h2 ?_ (.mk' sp.1.trans (by rw [sp.2.2.2.2.2.2.2.2.2.1])) sp.2.2.2.2.2.2.2.1
    refine ext_trans ?_ (closeChan_ext _ _)
    exact ext_of (l := []) .same .same .same (by simp)
  | giveFail hl hc h1 =>
    exact done_same (done_handOver hi hr ho (.inr (.inr (.inr ⟨_, hl⟩))) h1) (ext_of (l := []) .same .same .same (by simp)) (.mk' id rfl) rfl
  | sub h =>
    obtain ⟨hcore, h2, h1⟩ := subStep_spec h
    exact done_same hi he hcl h1
  | _ => exact done_same hi he hcl rfl

structure AllInv (s : Sys) : Prop where
  lock : LockInv s
  order : OrderInv s
  origin : OriginInv s
  reg : RegInv s
  done : DoneInv s

theorem all_run {cfg : Cfg} {n : Nat} {s : Sys} {es : List Ev} (h : (Sys.init n).run cfg es = some s) : AllInv s := by
  refine run_induction (P := AllInv) (fun s e s' hp h => ?_) es _ _ ⟨lock_init n, ⟨rfl, .inl rfl⟩, origin_init n, ?_, ?_⟩ h
  · have hs := (step_cases h).2
    exact ⟨lock_step hp.lock h, order_step hp.order hs, origin_step hp.lock hp.origin (ext_step hs) (eff_step hs),
      reg_step hp.order hp.reg hs, done_step hp.origin hp.reg hp.done hs⟩
  · constructor <;> intros <;> rename_i h <;> first | (simp [Sys.init, AMap.get?] at h; done) | cases h
  · intro t th res ht; simp [Sys.init] at ht

end Stomp.Client

import Verif.Proofs.Client.Flow
/-! # What a step means to `processLoop`, its map and the log -/
namespace Stomp.Client
open Stomp

/-- Entries of the log that neither begin nor end a subscription nor are due to one. -/
def Neutral (l : List Obs) : Prop := ∀ o ∈ l, ∀ n k w, Spec.watch n k w o = w

theorem neutral_nil : Neutral [] := by intro o h; cases h

theorem neutral_one {o : Obs} (h1 : ∀ r, o ≠ .taken r) (h2 : ∀ f, o ≠ .took (some f)) : Neutral [o] := by
  intro o' ho n k w
  rw [List.mem_singleton] at ho
  subst ho
  cases o' with
  | taken r => exact absurd rfl (h1 r)
  | took f =>
    cases f with
    | none => rfl
    | some f => exact absurd rfl (h2 f)
  | _ => rfl

theorem neutral_append {a b : List Obs} (h1 : Neutral a) (h2 : Neutral b) : Neutral (a ++ b) := by
  intro o ho
  rcases List.mem_append.1 ho with h | h
  · exact h1 o h
  · exact h2 o h

theorem neutral_error {f : Frame} (h : f.command = Cmd.error) : Neutral [.took (some f)] := by
  intro o ho n k w
  rw [List.mem_singleton] at ho
  subst ho
  show (if f.command = Cmd.message then _ else if f.command = Cmd.receipt ∧ _ then _ else w) = w
  rw [if_neg (by rw [h]; decide), if_neg (fun g => absurd (h.symm.trans g.1) (by decide))]

theorem neutral_missing {f : Frame} (hc : f.command = Cmd.receipt) (h : f.header.contains Hdr.receiptId = none) :
    Neutral [.took (some f)] := by
  intro o ho n k w
  rw [List.mem_singleton] at ho
  subst ho
  show (if f.command = Cmd.message then _ else if f.command = Cmd.receipt ∧ f.header.contains Hdr.receiptId = some k then _ else w) = w
  rw [if_neg (by rw [hc]; decide), if_neg (fun g => by rw [h] at g; cases g.2)]

inductive LoopEff (s s' : Sys) : Prop
  | quiet {l : List Obs} (h1 : s'.loop = s.loop) (h2 : s'.channels = s.channels) (h3 : s'.trace = s.trace ++ l) (h4 : Neutral l)
  | stop {l : List Obs} (h0 : s.loop = .select ∨ s.loop.stopped = true ∨ ∃ f l, s.loop = .errs f l)
      (h1 : s'.loop.stopped = true ∨ ∃ f l, s'.loop = .errs f l)
      (h2 : s'.channels = s.channels) (h3 : s'.trace = s.trace ++ l) (h4 : Neutral l)
  | skip {x : Option Frame} (h0 : s.loop = .select) (h1 : s'.loop = s.loop) (h2 : s'.channels = s.channels)
      (h3 : s'.trace = s.trace ++ [.took x]) (h4 : Skipped s x)
  | receipt {f : Frame} {id : Bytes} {n : Nat} (h0 : s.loop = .select) (h1 : s'.loop = .receipt f id n)
      (h2 : s'.channels = s.channels) (h3 : s'.trace = s.trace ++ [.took (some f)]) (hf : f.command = Cmd.receipt)
      (hid : f.header.contains Hdr.receiptId = some id) (hn : s.channels.get? id = some n)
  | message {f : Frame} {id : Bytes} {n : Nat} (h0 : s.loop = .select) (h1 : s'.loop = .message f n)
      (h2 : s'.channels = s.channels) (h3 : s'.trace = s.trace ++ [.took (some f)]) (hf : f.command = Cmd.message)
      (hid : f.header.contains Hdr.subscription = some id) (hn : s.channels.get? id = some n)
  | take {r : Req} {rest : List Req} {l : List Obs} (h0 : s.loop = .select) (h1 : s'.loop = .select ∨ ∃ f l, s'.loop = .fail f l)
      (hw : s.writeCh = r :: rest) (h2 : s'.channels = (handleWrite s.channels r).1)
      (h3 : s'.trace = s.trace ++ (.taken r :: l)) (h4 : Neutral l)
  | gaveReceipt {f : Frame} {id : Bytes} {n : Nat} {l : List Obs} (h0 : s.loop = .receipt f id n) (h1 : s'.loop = .select)
      (h2 : s'.channels = s.channels.del id) (h3 : s'.trace = s.trace ++ l) (h4 : Neutral l)
  | gaveMessage {f : Frame} {n : Nat} {l : List Obs} {b : Bool} {s1 : Sys} (hg : s.handOver n f b = some s1)
      (hs : s'.subs = s1.subs) (h0 : s.loop = .message f n) (h1 : s'.loop = .select)
      (h2 : s'.channels = s.channels) (h3 : s'.trace = s.trace ++ l) (h4 : Neutral l)

theorem neutral_ret (t : Nat) (r : Res) : Neutral [.ret t r] := neutral_one (by simp) (by simp)
theorem neutral_acc (t : Nat) (r : Req) : Neutral [.accepted t r] := neutral_one (by simp) (by simp)

theorem frameDone_eff (s : Sys) (t : Nat) (c : Call) (r : Res) : ∃ l, (s.frameDone t c r).trace = s.trace ++ l ∧ Neutral l := by
  obtain ⟨_, _, _, _, _, ⟨_, _, h⟩ | ⟨_, _, h⟩⟩ := frameDone_spec s t c r
  · exact ⟨_, h, neutral_ret _ _⟩
  · exact ⟨[], by rw [h, List.append_nil], neutral_nil⟩

theorem handOver_eff {s s1 : Sys} {n : Nat} {f : Frame} {b : Bool} (h : s.handOver n f b = some s1) :
    s1.loop = s.loop ∧ s1.channels = s.channels ∧ ∃ l, s1.trace = s.trace ++ l ∧ Neutral l := by
  refine ⟨handOver_loop h, handOver_channels h, ?_⟩
  cases handOver_cases h with
  | frame => exact frameDone_eff _ _ _ _
  | sub => exact ⟨[], (List.append_nil _).symm, neutral_nil⟩
  | send => exact ⟨_, rfl, neutral_ret _ _⟩
  | discOk => exact ⟨_, rfl, neutral_ret _ _⟩
  | discErr => exact ⟨_, rfl, neutral_ret _ _⟩

theorem quiet_same {s s' : Sys} (h1 : s'.loop = s.loop) (h2 : s'.channels = s.channels) (h3 : s'.trace = s.trace) : LoopEff s s' :=
  .quiet (l := []) h1 h2 (by rw [h3, List.append_nil]) neutral_nil

theorem loopEff_step {cfg : Cfg} {s s' : Sys} (h : Step cfg s s') : LoopEff s s' := by
  cases h with
  | early => exact .quiet rfl rfl rfl (neutral_ret _ _)
  | @frameClosed t th =>
    obtain ⟨_, hcore, _⟩ := frameDone_spec s.closeNet t th.call .closedUnexpectedly
    obtain ⟨l, hl, hn⟩ := frameDone_eff s.closeNet t th.call .closedUnexpectedly
    exact .quiet hcore.loop hcore.channels hl hn
  | unsubOption => exact .quiet rfl rfl rfl (neutral_ret _ _)
  | unsubDone => exact .quiet rfl rfl rfl (neutral_ret _ _)
  | mustGo => exact .quiet rfl rfl rfl (neutral_ret _ _)
  | pushWait => exact .quiet rfl rfl rfl (neutral_acc _ _)
  | @pushRet t th r =>
    refine .quiet (l := [.accepted t r] ++ [.ret t .ok]) rfl rfl ?_ (neutral_append (neutral_acc _ _) (neutral_ret _ _))
    show (s.trace ++ [.accepted t r]) ++ [.ret t .ok] = _
    rw [List.append_assoc]
  | @pushSub t th r n =>
    have sp := handOut_spec { s with writeCh := s.writeCh ++ [r], trace := s.trace ++ [.accepted t r] } n
    exact .quiet (l := [.accepted t r] ++ [.ret t .ok]) sp.1.loop sp.1.channels
      ((congrArg (· ++ [Obs.ret t .ok]) sp.2.1).trans (List.append_assoc _ [Obs.accepted t r] _))
      (neutral_append (neutral_acc _ _) (neutral_ret _ _))
  | pushFrameWait => exact .quiet rfl rfl rfl (neutral_acc _ _)
  | @pushFrameRet t th r =>
    obtain ⟨_, hcore, _⟩ := frameDone_spec (Sys.unlock { s with writeCh := s.writeCh ++ [r], trace := s.trace ++ [.accepted t r] }) t th.call .ok
    obtain ⟨l, hl, hn⟩ := frameDone_eff (Sys.unlock { s with writeCh := s.writeCh ++ [r], trace := s.trace ++ [.accepted t r] }) t th.call .ok
    exact .quiet (l := [.accepted t r] ++ l) hcore.loop hcore.channels
      (hl.trans (List.append_assoc _ [Obs.accepted t r] _)) (neutral_append (neutral_acc _ _) hn)
  | @waitClosed t th =>
    obtain ⟨_, hcore, _⟩ := frameDone_spec s t th.call .closedUnexpectedly
    obtain ⟨l, hl, hn⟩ := frameDone_eff s t th.call .closedUnexpectedly
    exact .quiet hcore.loop hcore.channels hl hn
  | @frameTimeout t th =>
    obtain ⟨_, hcore, _⟩ := frameDone_spec s t th.call .closedUnexpectedly
    obtain ⟨l, hl, hn⟩ := frameDone_eff s t th.call .closedUnexpectedly
    exact .quiet hcore.loop hcore.channels hl hn
  | unsub ht hcall hb hpc h =>
    obtain ⟨hcore, ⟨_, h2, _⟩ | ⟨_, pc, hp, h1, hpast, ⟨_, h2⟩ | ⟨r, _, h2⟩⟩⟩ := unsub_spec h
    · exact quiet_same hcore.loop hcore.channels h2
    · exact quiet_same hcore.loop hcore.channels h2
    · exact .quiet hcore.loop hcore.channels h2 (neutral_ret _ _)
  | sendTimeout => exact .quiet rfl rfl rfl (neutral_ret _ _)
  | receiptTimeout => exact .quiet rfl rfl rfl (neutral_ret _ _)
  | disconnectTimeout => exact .quiet rfl rfl rfl (neutral_ret _ _)
  | helper ht hcall hb h =>
    obtain ⟨hcore, h2, _⟩ := helper_spec h
    exact quiet_same hcore.loop hcore.channels h2
  | net => exact .quiet rfl rfl rfl (neutral_one (by simp) (by simp))
  | fail hl => exact .stop (l := []) (.inl hl) (.inl rfl) rfl (List.append_nil _).symm neutral_nil
  | readSkip hl hr hs => exact .skip hl rfl rfl rfl hs
  | readReceipt hl hr hf hid hn => exact .receipt hl rfl rfl rfl hf hid hn
  | readMissing hl hr hf hid => exact .stop (.inl hl) (.inl rfl) rfl rfl (neutral_missing hf hid)
  | readErr hl hr hf => exact .stop (.inl hl) (.inr ⟨_, _, rfl⟩) rfl rfl (neutral_error hf)
  | readMessage hl hr hf hid hn => exact .message hl rfl rfl rfl hf hid hn
  | @takeQuiet r rest hl hw ho =>
    have sp := takeReq_spec s r rest
    exact .take (l := []) hl (.inl (sp.2.2.2.2.2.1.trans hl)) hw sp.2.2.2.2.2.2.1 sp.2.2.2.2.2.2.2.2.2.1 neutral_nil
  | @takeSent r rest f hl hw ho =>
    have sp := takeReq_spec s r rest
    refine .take (l := [.sent f]) hl (.inl (sp.2.2.2.2.2.1.trans hl)) hw sp.2.2.2.2.2.2.1 ?_ (neutral_one (by simp) (by simp))
    show (s.takeReq r rest).1.trace ++ [.sent f] = _
    rw [sp.2.2.2.2.2.2.2.2.2.1, List.append_assoc]
    rfl
  | @takeFail r rest f order hl hw ho =>
    have sp := takeReq_spec s r rest
    refine .take (l := [.failed f]) hl (.inr ⟨_, _, rfl⟩) hw sp.2.2.2.2.2.2.1 ?_ (neutral_one (by simp) (by simp))
    show (s.takeReq r rest).1.trace ++ [.failed f] = _
    rw [sp.2.2.2.2.2.2.2.2.2.1, List.append_assoc]
    rfl
  | beat => exact .quiet rfl rfl rfl (neutral_one (by simp) (by simp))
  | @giveReceipt f id n b s1 hl hc h1 =>
    obtain ⟨_, g2, l, g3, g4⟩ := handOver_eff h1
    have sp := closeChan_spec { s1 with channels := s1.channels.del id, loop := .select } n
    exact .gaveReceipt hl sp.2.2.2.2.2.1 (sp.2.2.2.2.2.2.1.trans (by rw [g2])) (sp.2.2.2.2.2.2.2.2.2.1.trans g3) g4
  | giveMessage hl hc h1 =>
    obtain ⟨_, g2, l, g3, g4⟩ := handOver_eff h1
    exact .gaveMessage h1 rfl hl rfl g2 g3 g4
  | @giveErr f n l b s1 hl hc h1 =>
    obtain ⟨_, g2, l', g3, g4⟩ := handOver_eff h1
    have sp := closeChan_spec { s1 with loop := .errs f l } n
    exact .stop (.inr (.inr ⟨_, _, hl⟩)) (.inr ⟨f, l, sp.2.2.2.2.2.1⟩) (sp.2.2.2.2.2.2.1.trans g2) (sp.2.2.2.2.2.2.2.2.2.1.trans g3) g4
  | giveFail hl hc h1 =>
    obtain ⟨_, g2, l', g3, g4⟩ := handOver_eff h1
    exact .stop (.inr (.inl (by rw [hl]; rfl))) (.inl rfl) g2 g3 g4
  | finErrs hl => exact .stop (l := []) (.inr (.inr ⟨_, _, hl⟩)) (.inl rfl) rfl (List.append_nil _).symm neutral_nil
  | finClosed hl => exact .stop (l := []) (.inr (.inl (by rw [hl]; rfl))) (.inl rfl) rfl (List.append_nil _).symm neutral_nil
  | finFail hl => exact .stop (l := []) (.inr (.inl (by rw [hl]; rfl))) (.inl rfl) rfl (List.append_nil _).symm neutral_nil
  | sub h =>
    obtain ⟨hcore, h2, _⟩ := subStep_spec h
    exact quiet_same hcore.loop hcore.channels h2
  | _ => exact quiet_same rfl rfl rfl

end Stomp.Client

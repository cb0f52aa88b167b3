import Verif.Proofs.Client.Facts
import Verif.Proofs.Client.Closed
/-! # What no step of the client system takes back -/
namespace Stomp.Client
open Stomp

/-- Subscriptions keep their id, kind and response channel, response channels their owner, callers their call,
and the log only grows. -/
structure Ext (s s' : Sys) : Prop where
  subs : ∀ (i : Nat) (b : Sub), s.subs[i]? = some b →
    ∃ b', s'.subs[i]? = some b' ∧ b'.id = b.id ∧ b'.replyTo = b.replyTo ∧ b'.chan = b.chan
  chans : ∀ (n : Nat) (c : Chan), s.chans[n]? = some c → ∃ c', s'.chans[n]? = some c' ∧ c'.owner = c.owner
  threads : ∀ (t : Nat) (th : Thread), s.threads[t]? = some th → ∃ th', s'.threads[t]? = some th' ∧ th'.call = th.call
  trace : ∃ l, s'.trace = s.trace ++ l

theorem ext_refl (s : Sys) : Ext s s :=
  ⟨fun _ b h => ⟨b, h, rfl, rfl, rfl⟩, fun _ c h => ⟨c, h, rfl⟩, fun _ th h => ⟨th, h, rfl⟩, [], by simp⟩

theorem ext_trans {s s1 s2 : Sys} (h1 : Ext s s1) (h2 : Ext s1 s2) : Ext s s2 := by
  constructor
  · intro i b h
    obtain ⟨b1, g1, a1, a2, a3⟩ := h1.subs i b h
    obtain ⟨b2, g2, c1, c2, c3⟩ := h2.subs i b1 g1
    exact ⟨b2, g2, c1.trans a1, c2.trans a2, c3.trans a3⟩
  · intro n c h
    obtain ⟨c1, g1, a1⟩ := h1.chans n c h
    obtain ⟨c2, g2, a2⟩ := h2.chans n c1 g1
    exact ⟨c2, g2, a2.trans a1⟩
  · intro n c h
    obtain ⟨c1, g1, a1⟩ := h1.threads n c h
    obtain ⟨c2, g2, a2⟩ := h2.threads n c1 g1
    exact ⟨c2, g2, a2.trans a1⟩
  · obtain ⟨l1, e1⟩ := h1.trace
    obtain ⟨l2, e2⟩ := h2.trace
    exact ⟨l1 ++ l2, by rw [e2, e1, List.append_assoc]⟩

/-- How each list may change. -/
inductive SubsCh (l : List Sub) : List Sub → Prop
  | same : SubsCh l l
  | set {i : Nat} {b b' : Sub} (hb : l[i]? = some b) (h1 : b'.id = b.id) (h2 : b'.replyTo = b.replyTo)
      (h3 : b'.chan = b.chan) : SubsCh l (l.set i b')
  | modify {i : Nat} {g : Sub → Sub} (h : ∀ b, (g b).id = b.id ∧ (g b).replyTo = b.replyTo ∧ (g b).chan = b.chan) :
      SubsCh l (l.modify i g)
  | append (b : Sub) : SubsCh l (l ++ [b])

inductive ChansCh (l : List Chan) : List Chan → Prop
  | same : ChansCh l l
  | modify {i : Nat} {g : Chan → Chan} (h : ∀ b, (g b).owner = b.owner) : ChansCh l (l.modify i g)
  | append (b : Chan) : ChansCh l (l ++ [b])

inductive ThreadsCh (l : List Thread) : List Thread → Prop
  | same : ThreadsCh l l
  | modify {i : Nat} {g : Thread → Thread} (h : ∀ b, (g b).call = b.call) : ThreadsCh l (l.modify i g)
  | append (b : Thread) : ThreadsCh l (l ++ [b])

theorem getElem?_append_some {α : Type} {l : List α} {i : Nat} {a b : α} (h : l[i]? = some a) : (l ++ [b])[i]? = some a := by
  rw [List.getElem?_append_left (List.getElem?_eq_some_iff.1 h).1]; exact h

theorem SubsCh.keep {l l' : List Sub} (h : SubsCh l l') {i : Nat} {b : Sub} (hb : l[i]? = some b) :
    ∃ b', l'[i]? = some b' ∧ b'.id = b.id ∧ b'.replyTo = b.replyTo ∧ b'.chan = b.chan := by
  cases h with
  | same => exact ⟨b, hb, rfl, rfl, rfl⟩
  | @set j c c' hc h1 h2 h3 =>
    by_cases hij : j = i
    · subst hij
      rw [hc] at hb
      cases hb
      refine ⟨c', ?_, h1, h2, h3⟩
      rw [List.getElem?_set_self (List.getElem?_eq_some_iff.1 hc).1]
    · exact ⟨b, by rw [List.getElem?_set_ne hij]; exact hb, rfl, rfl, rfl⟩
  | @modify j g hg =>
    rw [List.getElem?_modify, hb]
    by_cases hij : j = i
    · exact ⟨g b, by simp [hij], hg b⟩
    · exact ⟨b, by simp [hij], rfl, rfl, rfl⟩
  | append c => exact ⟨b, getElem?_append_some hb, rfl, rfl, rfl⟩

theorem ChansCh.keep {l l' : List Chan} (h : ChansCh l l') {i : Nat} {b : Chan} (hb : l[i]? = some b) :
    ∃ b', l'[i]? = some b' ∧ b'.owner = b.owner := by
  cases h with
  | same => exact ⟨b, hb, rfl⟩
  | @modify j g hg =>
    rw [List.getElem?_modify, hb]
    by_cases hij : j = i
    · exact ⟨g b, by simp [hij], hg b⟩
    · exact ⟨b, by simp [hij], rfl⟩
  | append c => exact ⟨b, getElem?_append_some hb, rfl⟩

theorem ThreadsCh.keep {l l' : List Thread} (h : ThreadsCh l l') {i : Nat} {b : Thread} (hb : l[i]? = some b) :
    ∃ b', l'[i]? = some b' ∧ b'.call = b.call := by
  cases h with
  | same => exact ⟨b, hb, rfl⟩
  | @modify j g hg =>
    rw [List.getElem?_modify, hb]
    by_cases hij : j = i
    · exact ⟨g b, by simp [hij], hg b⟩
    · exact ⟨b, by simp [hij], rfl⟩
  | append c => exact ⟨b, getElem?_append_some hb, rfl⟩

theorem ext_of {s s' : Sys} {l : List Obs} (h1 : SubsCh s.subs s'.subs) (h2 : ChansCh s.chans s'.chans)
    (h3 : ThreadsCh s.threads s'.threads) (h4 : s'.trace = s.trace ++ l) : Ext s s' :=
  ⟨fun _ _ h => h1.keep h, fun _ _ h => h2.keep h, fun _ _ h => h3.keep h, l, h4⟩

theorem closeStep_subs {b b' : Sub} {p p' : ClosePc} (h : closeStep b p = .next b' p' ∨ closeStep b p = .fin b') :
    b'.id = b.id ∧ b'.replyTo = b.replyTo ∧ b'.chan = b.chan := by
  rcases h with h | h
  all_goals
    unfold closeStep at h
    repeat' split at h
    all_goals first
      | contradiction
      | (cases h; exact ⟨rfl, rfl, rfl⟩)

theorem closeChan_ext (s : Sys) (n : Nat) : Ext s (s.closeChan n) := by
  unfold Sys.closeChan
  split
  · exact ext_of (l := []) .same .same .same (by simp [Sys.crash])
  · exact ext_of (l := []) .same (.modify (fun _ => rfl)) .same (by simp)

theorem handOut_ext (s : Sys) (n : Nat) : Ext s (s.handOut n) := by
  unfold Sys.handOut
  split
  · exact ext_of (l := []) (.modify (fun _ => ⟨rfl, rfl, rfl⟩)) .same .same (by simp)
  · exact ext_refl s

theorem frameDone_ext (s : Sys) (t : Nat) (c : Call) (r : Res) : Ext s (s.frameDone t c r) := by
  obtain ⟨pc, hcore, _, hs, hth, ⟨_, _, htr⟩ | ⟨_, _, htr⟩⟩ := frameDone_spec s t c r
  · exact ext_of (hs ▸ .same) (hcore.chans ▸ .same) (hth ▸ .modify (fun _ => rfl)) htr
  · exact ext_of (l := []) (hs ▸ .same) (hcore.chans ▸ .same) (hth ▸ .modify (fun _ => rfl)) (by simpa using htr)

theorem handOver_ext {s s' : Sys} {n : Nat} {f : Frame} {b : Bool} (h : s.handOver n f b = some s') : Ext s s' := by
  cases handOver_cases h with
  | send => exact ext_of .same .same (.modify (fun _ => rfl)) rfl
  | discOk => exact ext_of .same .same (.modify (fun _ => rfl)) rfl
  | discErr => exact ext_of .same .same (.modify (fun _ => rfl)) rfl
  | frame => exact frameDone_ext _ _ _ _
  | sub hn hb => exact ext_of (l := []) (.set hb rfl rfl rfl) .same .same (by simp [Sys.setSub])

theorem unsub_ext {cfg : Cfg} {s s' : Sys} {t i : Nat} {th : Thread} {b : Sub} (hb : s.subs[i]? = some b)
    (h : s.unsub cfg t th i b = some s') : Ext s s' := by
  have sp := unsub_spec h
  refine ⟨?_, fun n c hc => ⟨c, by rw [sp.1.chans]; exact hc, rfl⟩, ?_, ?_⟩
  · unfold Sys.unsub at h
    repeat' split at h
    all_goals first
      | contradiction
      | simp only [Option.some.injEq] at h
    all_goals subst h
    all_goals clear sp
    all_goals refine fun j c hc => SubsCh.keep ?_ hc
    all_goals first
      | exact .same
      | exact .set hb rfl rfl rfl
      | (rename_i b' p' hs; exact .set hb (closeStep_subs (.inl hs)).1 (closeStep_subs (.inl hs)).2.1 (closeStep_subs (.inl hs)).2.2)
      | (rename_i b' hs; exact .set hb (closeStep_subs (p' := .store) (.inr hs)).1 (closeStep_subs (p' := .store) (.inr hs)).2.1
          (closeStep_subs (p' := .store) (.inr hs)).2.2)
  · rcases sp.2 with ⟨h1, _⟩ | ⟨_, pc, hp, h1, _⟩
    · exact fun u thu hu => (h1 ▸ ThreadsCh.same : ThreadsCh s.threads s'.threads).keep hu
    · exact fun u thu hu => (h1 ▸ .modify (fun _ => rfl) : ThreadsCh s.threads s'.threads).keep hu
  · rcases sp.2 with ⟨_, h1, _⟩ | ⟨_, pc, hp, _, _, ⟨_, h1⟩ | ⟨r, _, h1⟩⟩
    · exact ⟨[], by simpa using h1⟩
    · exact ⟨[], by simpa using h1⟩
    · exact ⟨_, h1⟩

theorem helper_ext {s s' : Sys} {t i : Nat} {o : List SubOpt} {th : Thread} {b : Sub} (ht : s.threads[t]? = some th)
    (hcall : th.call = .unsubscribe i o) (hb : s.subs[i]? = some b) (h : s.helper t = some s') : Ext s s' := by
  unfold Sys.helper at h
  simp only [ht, hcall, hb] at h
  repeat' split at h
  all_goals first
    | contradiction
    | simp only [Option.some.injEq] at h
  all_goals subst h
  all_goals first
    | exact ext_of (l := []) .same .same .same (by simp [Sys.crash])
    | exact ext_of (l := []) .same .same (.modify (fun _ => rfl)) (by simp [Sys.setHelper])
    | exact ext_of (l := []) (.set hb rfl rfl rfl) .same (.modify (fun _ => rfl)) (by simp [Sys.setHelper, Sys.setSub])

theorem subStep_ext {s s' : Sys} {i : Nat} (h : s.subStep i = some s') : Ext s s' := by
  unfold Sys.subStep at h
  split at h
  · cases h
  rename_i b hb
  repeat' split at h
  all_goals first
    | contradiction
    | simp only [Option.some.injEq] at h
  all_goals subst h
  all_goals refine ext_of (l := []) ?_ .same .same (by simp [Sys.setSub, Sys.crash])
  all_goals first
    | exact .same
    | exact .set hb rfl rfl rfl
    | (rename_i b' p' hs; exact .set hb (closeStep_subs (.inl hs)).1 (closeStep_subs (.inl hs)).2.1 (closeStep_subs (.inl hs)).2.2)
    | (rename_i b' hs; exact .set hb (closeStep_subs (p' := .store) (.inr hs)).1 (closeStep_subs (p' := .store) (.inr hs)).2.1
        (closeStep_subs (p' := .store) (.inr hs)).2.2)

theorem takeReq_ext (s : Sys) (r : Req) (rest : List Req) : Ext s (s.takeReq r rest).1 := by
  unfold Sys.takeReq
  dsimp only
  split
  · refine ext_trans ?_ (closeChan_ext _ _)
    exact ext_of .same .same .same rfl
  · exact ext_of .same .same .same rfl

theorem ext_step {cfg : Cfg} {s s' : Sys} (h : Step cfg s s') : Ext s s' := by
  cases h with
  | call => exact ext_of (l := []) .same .same (.append _) (by simp)
  | acquire => exact ext_of (l := []) .same (.append _) (.modify (fun _ => rfl)) (by simp [Sys.goto, Sys.newChan])
  | acquireBare => exact ext_of (l := []) .same .same (.modify (fun _ => rfl)) (by simp [Sys.goto])
  | subscribe =>
    exact ext_of (l := []) (.append _) (.append _) (.modify (fun _ => rfl)) (by simp [Sys.goto, Sys.newChan])
  | frameClosed => exact ext_trans (s1 := s.closeNet) (ext_of (l := []) .same .same .same (by simp [Sys.closeNet])) (frameDone_ext _ _ _ _)
  | unsubOption ht hpc hcall hb => exact ext_of (.set hb rfl rfl rfl) .same (.modify (fun _ => rfl)) rfl
  | unsubGo ht hpc hcall hb => exact ext_of (l := []) (.set hb rfl rfl rfl) .same (.modify (fun _ => rfl)) (by simp [Sys.goto, Sys.setSub])
  | @pushSub t th r n =>
    refine ext_trans ?_ (ext_trans (handOut_ext { s with writeCh := s.writeCh ++ [r], trace := s.trace ++ [.accepted t r] } n) ?_)
    · exact ext_of .same .same .same rfl
    · exact ext_of .same .same (.modify (fun _ => rfl)) rfl
  | @pushFrameRet t th r =>
    refine ext_trans (s1 := Sys.unlock { s with writeCh := s.writeCh ++ [r], trace := s.trace ++ [.accepted t r] }) ?_
      (frameDone_ext _ _ _ _)
    exact ext_of .same .same .same rfl
  | @pushRet t th r =>
    exact ext_of (l := [.accepted t r, .ret t .ok]) .same .same (.modify (fun _ => rfl)) (by simp [Sys.ret, Sys.goto, Sys.log, Sys.unlock])
  | waitClosed => exact frameDone_ext _ _ _ _
  | frameTimeout => exact frameDone_ext _ _ _ _
  | unsub ht hcall hb hpc h => exact unsub_ext hb h
  | helper ht hcall hb h => exact helper_ext ht hcall hb h
  | takeQuiet => exact takeReq_ext _ _ _
  | takeSent => exact ext_trans (takeReq_ext _ _ _) (ext_of .same .same .same rfl)
  | takeFail => exact ext_trans (takeReq_ext _ _ _) (ext_of .same .same .same rfl)
  | giveReceipt hl hc h1 =>
    refine ext_trans (handOver_ext h1) (ext_trans ?_ (closeChan_ext _ _))
    exact ext_of (l := []) .same .same .same (by simp)
  | giveMessage hl hc h1 => exact ext_trans (handOver_ext h1) (ext_of (l := []) .same .same .same (by simp))
  | giveErr hl hc h1 =>
    refine ext_trans (handOver_ext h1) (ext_trans ?_ (closeChan_ext _ _))
    exact ext_of (l := []) .same .same .same (by simp)
  | giveFail hl hc h1 => exact ext_trans (handOver_ext h1) (ext_of (l := []) .same .same .same (by simp))
  | sub h => exact subStep_ext h
  | take hb => exact ext_of (l := []) (.set hb rfl rfl rfl) .same .same (by simp [Sys.setSub])
  | _ =>
    first
      | exact ext_of .same .same .same rfl
      | exact ext_of .same .same (.modify (fun _ => rfl)) rfl
      | exact ext_of (l := []) .same .same .same (by simp [Sys.crash, Sys.markClosed])
      | exact ext_of (l := []) .same .same (.modify (fun _ => rfl)) (by simp [Sys.goto])

theorem ext_run {cfg : Cfg} {s s' : Sys} {es : List Ev} (h : s.run cfg es = some s') : Ext s s' :=
  run_induction (P := Ext s) (fun _ _ _ hp h => ext_trans hp (ext_step (step_cases h).2)) es _ _ (ext_refl s) h

end Stomp.Client

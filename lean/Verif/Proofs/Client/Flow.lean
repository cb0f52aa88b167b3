import Verif.Proofs.Client.SubSteps
import Verif.Proofs.Header
/-! # The way of MESSAGE frames to the subscriptions -/
namespace Stomp.Client
open Stomp

def CMsg.frame? : CMsg → Option Frame
  | .msg f => some f
  | _ => none

/-- The MESSAGE frames among what was put on `C`. -/
def msgs (l : List CMsg) : List Frame := l.filterMap CMsg.frame?

theorem msgs_append (a b : List CMsg) : msgs (a ++ b) = msgs a ++ msgs b := by simp [msgs]

/-- Put on `C`, or about to be. -/
def Sub.out (b : Sub) : List Frame :=
  msgs b.got ++ (match b.rl with
    | .put m => msgs [m]
    | _ => [])

def ClosePc.noMsg : ClosePc → Prop
  | .enter (some m) => m.frame? = none
  | .put m => m.frame? = none
  | _ => True

def RlPc.noMsg : RlPc → Prop
  | .check (some m) => m.frame? = none
  | .closing p => p.noMsg
  | _ => True

def Pc.noMsg : Pc → Prop
  | .closing p => p.noMsg
  | _ => True

/-- What ends a subscription is no MESSAGE; the channel of a subscription is its own. -/
structure SubInv (s : Sys) : Prop where
  rl : ∀ (i : Nat) (b : Sub), s.subs[i]? = some b → b.rl.noMsg
  pc : ∀ (t : Nat) (th : Thread), s.threads[t]? = some th → th.pc.noMsg
  chan : ∀ (i : Nat) (b : Sub), s.subs[i]? = some b → ∃ c, s.chans[b.chan]? = some c ∧ c.owner = .sub i

/-- How one subscription may have changed. -/
inductive SubCh (s : Sys) : List Sub → Prop
  | same : SubCh s s.subs
  | set {i : Nat} {b b' : Sub} (hb : s.subs[i]? = some b) (h1 : b'.id = b.id) (h2 : b'.chan = b.chan)
      (h3 : b.rl.noMsg → b'.rl.noMsg ∧ b'.out = b.out) : SubCh s (s.subs.set i b')
  | modify {i : Nat} : SubCh s (s.subs.modify i fun b => { b with returned := true })
  | append {b : Sub} (h1 : b.chan = s.chans.length) (h2 : b.rl = .recv) (h3 : b.got = []) : SubCh s (s.subs ++ [b])

theorem SubCh.get {s : Sys} {l : List Sub} (h : SubCh s l) {i : Nat} {b' : Sub} (hb : l[i]? = some b') :
    (∃ b, s.subs[i]? = some b ∧ b'.id = b.id ∧ b'.chan = b.chan ∧ (b.rl.noMsg → b'.rl.noMsg ∧ b'.out = b.out)) ∨
    (i = s.subs.length ∧ b'.chan = s.chans.length ∧ b'.rl = .recv ∧ b'.got = [] ∧ l = s.subs ++ [b']) := by
  cases h with
  | same => exact .inl ⟨b', hb, rfl, rfl, fun h => ⟨h, rfl⟩⟩
  | @set j c c' hc h1 h2 h3 =>
    rw [List.getElem?_set] at hb
    split at hb
    · rename_i e
      subst e
      split at hb
      · cases hb; exact .inl ⟨c, hc, h1, h2, h3⟩
      · cases hb
    · exact .inl ⟨b', hb, rfl, rfl, fun h => ⟨h, rfl⟩⟩
  | @modify j =>
    rw [List.getElem?_modify] at hb
    split at hb
    · cases hc : s.subs[i]? with
      | none => rw [hc] at hb; cases hb
      | some b =>
        rw [hc] at hb
        cases hb
        exact .inl ⟨b, rfl, rfl, rfl, fun h => ⟨h, rfl⟩⟩
    · simp at hb
      exact .inl ⟨b', hb, rfl, rfl, fun h => ⟨h, rfl⟩⟩
  | @append b h1 h2 h3 =>
    rw [List.getElem?_append] at hb
    split at hb
    · exact .inl ⟨b', hb, rfl, rfl, fun h => ⟨h, rfl⟩⟩
    · rename_i hlt
      rw [List.getElem?_singleton] at hb
      split at hb
      · cases hb
        exact .inr ⟨by omega, h1, h2, h3, rfl⟩
      · cases hb

theorem CNext.sub {b b' : Sub} {p p' : ClosePc} (h : CNext b p b' p') : b'.id = b.id ∧ b'.chan = b.chan ∧ b'.rl = b.rl ∧
    (p.noMsg → p'.noMsg ∧ msgs b'.got = msgs b.got) := by
  cases h with
  | enterMsg => exact ⟨rfl, rfl, rfl, fun h => ⟨h, rfl⟩⟩
  | put =>
    refine ⟨rfl, rfl, rfl, fun h => ⟨trivial, ?_⟩⟩
    rename_i m _ _
    have hm : m.frame? = none := h
    rw [msgs_append]
    simp [msgs, hm]
  | _ => exact ⟨rfl, rfl, rfl, fun _ => ⟨trivial, rfl⟩⟩

theorem CFin.sub {b b' : Sub} {p : ClosePc} (h : CFin b p b') : b'.id = b.id ∧ b'.chan = b.chan ∧ b'.rl = b.rl ∧ b'.got = b.got := by
  cases h <;> exact ⟨rfl, rfl, rfl, rfl⟩

theorem out_closing {b : Sub} {p : ClosePc} (h : b.rl = .closing p) : b.out = msgs b.got := by
  simp [Sub.out, h]

theorem out_eq {b b' : Sub} (h1 : b'.rl = b.rl) (h2 : msgs b'.got = msgs b.got) : b'.out = b.out := by
  simp [Sub.out, h1, h2]

theorem sstep_ch {s s' : Sys} {i : Nat} {b : Sub} (hb : s.subs[i]? = some b) (h : SStep s i b s') : SubCh s s'.subs := by
  cases h with
  | eof hr =>
    refine .set hb rfl rfl (fun _ => ⟨?_, ?_⟩)
    · exact (rfl : CMsg.frame? .readFailed = none)
    · simp [Sub.out, hr]
  | putCrash => exact .same
  | @put m hr =>
    refine .set hb rfl rfl (fun _ => ⟨trivial, ?_⟩)
    simp only [Sub.out, hr]
    rw [msgs_append, List.append_nil]
  | @checkClosed m hr => exact .set hb rfl rfl (fun _ => ⟨trivial, by simp [Sub.out, hr]⟩)
  | @checkOpen m hr =>
    refine .set hb rfl rfl (fun h => ⟨?_, by simp [Sub.out, hr]⟩)
    rw [hr] at h
    cases m with
    | none => trivial
    | some m => exact h
  | closeCrash => exact .same
  | closeNext hr h =>
    obtain ⟨h1, h2, _, h4⟩ := h.sub
    refine .set hb h1 h2 (fun h => ?_)
    rw [hr] at h
    refine ⟨(h4 h).1, ?_⟩
    rw [out_closing rfl, out_closing hr]
    exact (h4 h).2
  | closeFin hr h =>
    obtain ⟨h1, h2, _, h4⟩ := h.sub
    refine .set hb h1 h2 (fun _ => ⟨trivial, ?_⟩)
    simp [Sub.out, hr, h4]

/-- What `Unsubscribe` does to its subscription and to itself. -/
theorem ustep_ch {cfg : Cfg} {s s' : Sys} {t : Nat} {th : Thread} {i : Nat} {b : Sub} (hp : th.pc.noMsg) (hb : s.subs[i]? = some b)
    (h : UStep cfg s t th i b s') : SubCh s s'.subs ∧ (s'.threads = s.threads ∨
      ∃ g : Thread → Thread, s'.threads = s.threads.modify t g ∧ (g th).pc.noMsg) := by
  have hm : ∀ pc : Pc, ∃ g : Thread → Thread, s.threads.modify t (fun th => { th with pc := pc }) = s.threads.modify t g ∧
      ((g th).pc = pc) := fun pc => ⟨_, rfl, rfl⟩
  cases h with
  | closeCrash => exact ⟨.same, .inl rfl⟩
  | closeNext hpc h =>
    obtain ⟨h1, h2, h3, h4⟩ := h.sub
    rw [hpc] at hp
    refine ⟨.set hb h1 h2 (fun h => ⟨by rw [h3]; exact h, out_eq h3 (h4 hp).2⟩), .inr ⟨_, rfl, (h4 hp).1⟩⟩
  | closeFin hpc h =>
    obtain ⟨h1, h2, h3, h4⟩ := h.sub
    exact ⟨.set hb h1 h2 (fun h => ⟨by rw [h3]; exact h, out_eq h3 (by rw [h4])⟩), .inr ⟨_, rfl, trivial⟩⟩
  | put =>
    refine ⟨.set hb rfl rfl (fun h => ⟨h, out_eq rfl ?_⟩), .inr ⟨_, rfl, trivial⟩⟩
    show msgs (b.got ++ [.unsubTimeout]) = _
    rw [msgs_append]
    simp [msgs, CMsg.frame?]
  | doneCrash => exact ⟨.same, .inl rfl⟩
  | sleepCrash => exact ⟨.same, .inl rfl⟩
  | putCrash => exact ⟨.same, .inl rfl⟩
  | timed => exact ⟨.same, .inr ⟨_, rfl, trivial⟩⟩
  | wait => exact ⟨.same, .inr ⟨_, rfl, trivial⟩⟩
  | wake => exact ⟨.same, .inr ⟨_, rfl, trivial⟩⟩
  | selected => exact ⟨.same, .inr ⟨_, rfl, trivial⟩⟩
  | timedClosed => exact ⟨.same, .inr ⟨_, rfl, trivial⟩⟩
  | timedOpen => exact ⟨.same, .inr ⟨_, rfl, trivial⟩⟩
  | lock => exact ⟨.set hb rfl rfl (fun h => ⟨h, rfl⟩), .inr ⟨_, rfl, trivial⟩⟩
  | done => exact ⟨.set hb rfl rfl (fun h => ⟨h, rfl⟩), .inr ⟨_, rfl, trivial⟩⟩
  | sleep => exact ⟨.set hb rfl rfl (fun h => ⟨h, rfl⟩), .inr ⟨_, rfl, trivial⟩⟩
  | relock => exact ⟨.set hb rfl rfl (fun h => ⟨h, rfl⟩), .inr ⟨_, rfl, trivial⟩⟩

theorem hstep_ch {s s' : Sys} {t : Nat} {th : Thread} {i : Nat} {b : Sub} (hb : s.subs[i]? = some b)
    (h : HStep s t th i b s') : SubCh s s'.subs ∧ (s'.threads = s.threads ∨
      ∃ g : Thread → Thread, s'.threads = s.threads.modify t g ∧ (g th).pc = th.pc) := by
  cases h with
  | sleep => exact ⟨.set hb rfl rfl (fun h => ⟨h, rfl⟩), .inr ⟨_, rfl, rfl⟩⟩
  | sleepCrash => exact ⟨.same, .inl rfl⟩
  | wake => exact ⟨.same, .inr ⟨_, rfl, rfl⟩⟩
  | relock => exact ⟨.set hb rfl rfl (fun h => ⟨h, rfl⟩), .inr ⟨_, rfl, rfl⟩⟩

theorem pc_modify {s : Sys} {l : List Thread} {t : Nat} {th : Thread} (hi : SubInv s) (ht : s.threads[t]? = some th)
    (g : Thread → Thread) (hl : l = s.threads.modify t g) (hg : (g th).pc.noMsg) :
    ∀ (u : Nat) (thu : Thread), l[u]? = some thu → thu.pc.noMsg := by
  subst hl
  exact all_modify (P := fun _ th => th.pc.noMsg) (Q := fun _ th => th.pc.noMsg) hi.pc ht (fun _ => hg) (fun _ _ _ _ h => h)

theorem subInv_mk {s s' : Sys} (hi : SubInv s) (he : Ext s s') (hc : SubCh s s'.subs)
    (hn : s'.subs.length = s.subs.length ∨ ∃ c, s'.chans = s.chans ++ [c] ∧ c.owner = .sub s.subs.length)
    (hp : ∀ (u : Nat) (thu : Thread), s'.threads[u]? = some thu → thu.pc.noMsg) : SubInv s' := by
  refine ⟨?_, hp, ?_⟩
  · intro i b' hb
    rcases hc.get hb with ⟨b, h1, h2, h3, h4⟩ | ⟨_, _, h, _⟩
    · exact (h4 (hi.rl i b h1)).1
    · rw [h]; trivial
  · intro i b' hb
    rcases hc.get hb with ⟨b, h1, h2, h3, h4⟩ | ⟨h1, h2, h3, h4, h5⟩
    · obtain ⟨c, h5, h6⟩ := hi.chan i b h1
      obtain ⟨c', h7, h8⟩ := he.chans _ _ h5
      exact ⟨c', by rw [h3]; exact h7, h8.trans h6⟩
    · rcases hn with hn | ⟨c, hn, ho⟩
      · rw [h5] at hn; simp at hn
      · exact ⟨c, by rw [hn, h2]; simp, by rw [ho, h1]⟩

theorem frameDone_noMsg (s : Sys) (t : Nat) (c : Call) (r : Res) :
    ∃ g : Thread → Thread, (s.frameDone t c r).threads = s.threads.modify t g ∧ ∀ th, (g th).pc.noMsg := by
  obtain ⟨pc, _, _, _, hth, ⟨rfl, _⟩ | ⟨rfl | rfl, _⟩⟩ := frameDone_spec s t c r
  · exact ⟨_, hth, fun _ => trivial⟩
  · exact ⟨_, hth, fun _ => rfl⟩
  · exact ⟨_, hth, fun _ => trivial⟩

/-- What `processLoop`'s `ch <- f` does to callers and subscriptions. -/
theorem handOver_noMsg {s s1 : Sys} {n : Nat} {f : Frame} {b : Bool} (hi : SubInv s) (h : s.handOver n f b = some s1) :
    SubInv s1 ∧ s1.chans = s.chans := by
  have he := handOver_ext h
  cases handOver_cases h with
  | send hn ht => exact ⟨subInv_mk hi he .same (.inl rfl) (pc_modify hi ht _ rfl trivial), rfl⟩
  | discOk hn ht => exact ⟨subInv_mk hi he .same (.inl rfl) (pc_modify hi ht _ rfl trivial), rfl⟩
  | discErr hn ht => exact ⟨subInv_mk hi he .same (.inl rfl) (pc_modify hi ht _ rfl trivial), rfl⟩
  | @frame t th c hn ht =>
    obtain ⟨g, hg, hg2⟩ := frameDone_noMsg s t th.call (resOf f)
    obtain ⟨pc, hcore, _, hsub, _⟩ := frameDone_spec s t th.call (resOf f)
    refine ⟨subInv_mk hi he (by rw [hsub]; exact .same) (.inl (by rw [hsub])) (pc_modify hi ht _ hg (hg2 _)), hcore.chans⟩
  | @sub i b c hn hb hrl =>
    refine ⟨⟨?_, hi.pc, ?_⟩, rfl⟩
    · intro j b' hj
      simp only [Sys.setSub] at hj
      rw [List.getElem?_set] at hj
      split at hj
      · split at hj
        · cases hj
          unfold Sys.rlRecv
          simp only
          repeat' split
          all_goals trivial
        · cases hj
      · exact hi.rl j b' hj
    · intro j b' hj
      simp only [Sys.setSub] at hj
      rw [List.getElem?_set] at hj
      split at hj
      · rename_i e
        subst e
        split at hj
        · cases hj
          have := hi.chan _ _ hb
          exact this
        · cases hj
      · exact hi.chan j b' hj

theorem subInv_step {cfg : Cfg} {s s' : Sys} (hi : SubInv s) (h : Step cfg s s') : SubInv s' := by
  have he := ext_step h
  cases h with
  | call c hl =>
    exact subInv_mk hi he .same (.inl rfl) (all_append (Q := fun _ th => th.pc.noMsg) hi.pc trivial)
  | early ht => exact subInv_mk hi he .same (.inl rfl) (pc_modify hi ht _ rfl trivial)
  | acquire ht => exact subInv_mk hi he .same (.inl rfl) (pc_modify hi ht _ rfl trivial)
  | acquireBare ht => exact subInv_mk hi he .same (.inl rfl) (pc_modify hi ht _ rfl trivial)
  | @frameClosed t th ht =>
    obtain ⟨g, hg, hg2⟩ := frameDone_noMsg s.closeNet t th.call .closedUnexpectedly
    obtain ⟨pc, hcore, _, hsub, _⟩ := frameDone_spec s.closeNet t th.call .closedUnexpectedly
    exact subInv_mk hi he (by rw [hsub]; exact .same) (.inl (by rw [hsub]; rfl)) (pc_modify hi ht _ hg (hg2 _))
  | subscribe ht =>
    exact subInv_mk hi he (.append rfl rfl rfl) (.inr ⟨_, rfl, rfl⟩) (pc_modify hi ht _ rfl trivial)
  | unsubOption ht hpc hcall hb =>
    exact subInv_mk hi he (.set hb rfl rfl (fun h => ⟨h, rfl⟩)) (.inl (List.length_set ..)) (pc_modify hi ht _ rfl trivial)
  | unsubGo ht hpc hcall hb =>
    exact subInv_mk hi he (.set hb rfl rfl (fun h => ⟨h, rfl⟩)) (.inl (List.length_set ..)) (pc_modify hi ht _ rfl trivial)
  | unsubDone ht => exact subInv_mk hi he .same (.inl rfl) (pc_modify hi ht _ rfl trivial)
  | mustGo ht => exact subInv_mk hi he .same (.inl rfl) (pc_modify hi ht _ rfl trivial)
  | pushWait ht => exact subInv_mk hi he .same (.inl rfl) (pc_modify hi ht _ rfl trivial)
  | pushRet ht => exact subInv_mk hi he .same (.inl rfl) (pc_modify hi ht _ rfl trivial)
  | @pushSub t th r n d a o ht =>
    have sp := handOut_spec { s with writeCh := s.writeCh ++ [r], trace := s.trace ++ [.accepted t r] } n
    refine subInv_mk hi he ?_ (.inl ?_) (pc_modify hi ht (fun th => { th with pc := .ret .ok }) ?_ trivial)
    · show SubCh s (Sys.handOut _ n).subs
      unfold Sys.handOut
      split
      · exact .modify
      · exact .same
    · show (Sys.handOut _ n).subs.length = _
      unfold Sys.handOut
      split
      · simp
      · rfl
    · simp only [Sys.ret, Sys.goto, Sys.log, Sys.unlock, sp.2.2.1]
  | pushFrameWait ht => exact subInv_mk hi he .same (.inl rfl) (pc_modify hi ht _ rfl trivial)
  | @pushFrameRet t th r ht =>
    obtain ⟨g, hg, hg2⟩ := frameDone_noMsg (Sys.unlock { s with writeCh := s.writeCh ++ [r], trace := s.trace ++ [.accepted t r] }) t th.call .ok
    obtain ⟨pc, hcore, _, hsub, _⟩ := frameDone_spec (Sys.unlock { s with writeCh := s.writeCh ++ [r], trace := s.trace ++ [.accepted t r] }) t th.call .ok
    exact subInv_mk hi he (by rw [hsub]; exact .same) (.inl (by rw [hsub]; rfl)) (pc_modify hi ht _ hg (hg2 _))
  | @waitClosed t th n ht =>
    obtain ⟨g, hg, hg2⟩ := frameDone_noMsg s t th.call .closedUnexpectedly
    obtain ⟨pc, hcore, _, hsub, _⟩ := frameDone_spec s t th.call .closedUnexpectedly
    exact subInv_mk hi he (by rw [hsub]; exact .same) (.inl (by rw [hsub])) (pc_modify hi ht _ hg (hg2 _))
  | @frameTimeout t th n ht =>
    obtain ⟨g, hg, hg2⟩ := frameDone_noMsg s t th.call .closedUnexpectedly
    obtain ⟨pc, hcore, _, hsub, _⟩ := frameDone_spec s t th.call .closedUnexpectedly
    exact subInv_mk hi he (by rw [hsub]; exact .same) (.inl (by rw [hsub])) (pc_modify hi ht _ hg (hg2 _))
  | @unsub t th i o b s' ht hcall hb hpc h =>
    obtain ⟨h1, h2⟩ := ustep_ch (hi.pc t th ht) hb (unsub_cases h)
    have h3 : s'.subs.length = s.subs.length := by
      cases unsub_cases h <;> simp [Sys.setSub, Sys.ret, Sys.goto, Sys.log, Sys.crash]
    refine subInv_mk hi he h1 (.inl h3) ?_
    rcases h2 with h2 | ⟨g, h2, h4⟩
    · rw [h2]; exact hi.pc
    · exact pc_modify hi ht _ h2 h4
  | sendTimeout ht => exact subInv_mk hi he .same (.inl rfl) (pc_modify hi ht _ rfl trivial)
  | receiptTimeout ht => exact subInv_mk hi he .same (.inl rfl) (pc_modify hi ht _ rfl trivial)
  | disconnectTimeout ht => exact subInv_mk hi he .same (.inl rfl) (pc_modify hi ht _ rfl trivial)
  | selectTimeout ht => exact subInv_mk hi he .same (.inl rfl) (pc_modify hi ht _ rfl trivial)
  | helper _ _ _ h =>
    obtain ⟨th, i, o, b, ht, hcall, hb, hs⟩ := helper_cases h
    obtain ⟨h1, h2⟩ := hstep_ch hb hs
    have h3 : s'.subs.length = s.subs.length := by
      cases hs <;> simp [Sys.setSub, Sys.setHelper, Sys.crash]
    refine subInv_mk hi he h1 (.inl h3) ?_
    rcases h2 with h2 | ⟨g, h2, h4⟩
    · rw [h2]; exact hi.pc
    · exact pc_modify hi ht _ h2 (by rw [h4]; exact hi.pc _ _ ht)
  | @takeQuiet r rest =>
    have sp := takeReq_spec s r rest
    exact subInv_mk hi he (by rw [sp.2.2.2.2.2.2.2.2.1]; exact .same) (.inl (by rw [sp.2.2.2.2.2.2.2.2.1])) (by rw [sp.2.2.2.2.2.2.2.1]; exact hi.pc)
  | @takeSent r rest =>
    have sp := takeReq_spec s r rest
    exact subInv_mk hi he (by show SubCh s (s.takeReq r rest).1.subs; rw [sp.2.2.2.2.2.2.2.2.1]; exact .same) (.inl (by show (s.takeReq r rest).1.subs.length = _; rw [sp.2.2.2.2.2.2.2.2.1]))
      (by show ∀ u thu, (s.takeReq r rest).1.threads[u]? = some thu → _; rw [sp.2.2.2.2.2.2.2.1]; exact hi.pc)
  | @takeFail r rest =>
    have sp := takeReq_spec s r rest
    exact subInv_mk hi he (by show SubCh s (s.takeReq r rest).1.subs; rw [sp.2.2.2.2.2.2.2.2.1]; exact .same) (.inl (by show (s.takeReq r rest).1.subs.length = _; rw [sp.2.2.2.2.2.2.2.2.1]))
      (by show ∀ u thu, (s.takeReq r rest).1.threads[u]? = some thu → _; rw [sp.2.2.2.2.2.2.2.1]; exact hi.pc)
  | @giveReceipt f id n b s1 hl hc h1 =>
    have h2 := (handOver_noMsg hi h1).1
    have sp := closeChan_spec { s1 with channels := s1.channels.del id, loop := .select } n
    refine subInv_mk (s := { s1 with channels := s1.channels.del id, loop := .select }) ⟨h2.rl, h2.pc, h2.chan⟩
      (closeChan_ext _ _) ?_ (.inl ?_) ?_
    · rw [sp.2.2.2.2.2.2.2.2.1]; exact .same
    · rw [sp.2.2.2.2.2.2.2.2.1]
    · rw [sp.2.2.2.2.2.2.2.1]; exact h2.pc
  | giveMessage hl hc h1 =>
    have h2 := (handOver_noMsg hi h1).1
    exact ⟨h2.rl, h2.pc, h2.chan⟩
  | @giveErr f n l b s1 hl hc h1 =>
    have h2 := (handOver_noMsg hi h1).1
    have sp := closeChan_spec { s1 with loop := .errs f l } n
    refine subInv_mk (s := { s1 with loop := .errs f l }) ⟨h2.rl, h2.pc, h2.chan⟩
      (closeChan_ext _ _) ?_ (.inl ?_) ?_
    · rw [sp.2.2.2.2.2.2.2.2.1]; exact .same
    · rw [sp.2.2.2.2.2.2.2.2.1]
    · rw [sp.2.2.2.2.2.2.2.1]; exact h2.pc
  | giveFail hl hc h1 =>
    have h2 := (handOver_noMsg hi h1).1
    exact ⟨h2.rl, h2.pc, h2.chan⟩
  | sub h =>
    obtain ⟨b, hb, hs⟩ := subStep_cases h
    have h3 : s'.subs.length = s.subs.length := by
      cases hs <;> simp [Sys.setSub, Sys.crash]
    have h4 : s'.threads = s.threads := (subStep_spec h).2.2
    exact subInv_mk hi he (sstep_ch hb hs) (.inl h3) (by rw [h4]; exact hi.pc)
  | take hb => exact subInv_mk hi he (.set hb rfl rfl (fun h => ⟨h, rfl⟩)) (.inl (by simp [Sys.setSub])) hi.pc
  | _ => exact subInv_mk hi he .same (.inl rfl) hi.pc

/-- `processLoop` is about to send `f` on the response channel `n`. -/
def AtSend (s : Sys) (f : Frame) (n : Nat) : Prop :=
  (∃ id, s.loop = .receipt f id n) ∨ s.loop = .message f n ∨ (∃ l, s.loop = .errs f (n :: l)) ∨ ∃ l, s.loop = .fail f (n :: l)

/-- How the subscriptions change in a step. -/
theorem subCh_step {cfg : Cfg} {s s' : Sys} (hi : SubInv s) (h : Step cfg s s') : SubCh s s'.subs ∨
    ∃ f n b s1, AtSend s f n ∧ s.handOver n f b = some s1 ∧ s'.subs = s1.subs ∧ s'.loop ≠ s.loop := by
  cases h with
  | @frameClosed t th ht =>
    obtain ⟨pc, hcore, _, hsub, _⟩ := frameDone_spec s.closeNet t th.call .closedUnexpectedly
    exact .inl (by rw [hsub]; exact .same)
  | subscribe ht => exact .inl (.append rfl rfl rfl)
  | unsubOption ht hpc hcall hb => exact .inl (.set hb rfl rfl (fun h => ⟨h, rfl⟩))
  | unsubGo ht hpc hcall hb => exact .inl (.set hb rfl rfl (fun h => ⟨h, rfl⟩))
  | @pushSub t th r n d a o ht =>
    left
    show SubCh s (Sys.handOut _ n).subs
    unfold Sys.handOut
    split
    · exact .modify
    · exact .same
  | @pushFrameRet t th r ht =>
    obtain ⟨pc, hcore, _, hsub, _⟩ := frameDone_spec (Sys.unlock { s with writeCh := s.writeCh ++ [r], trace := s.trace ++ [.accepted t r] }) t th.call .ok
    exact .inl (by rw [hsub]; exact .same)
  | @waitClosed t th n ht =>
    obtain ⟨pc, hcore, _, hsub, _⟩ := frameDone_spec s t th.call .closedUnexpectedly
    exact .inl (by rw [hsub]; exact .same)
  | @frameTimeout t th n ht =>
    obtain ⟨pc, hcore, _, hsub, _⟩ := frameDone_spec s t th.call .closedUnexpectedly
    exact .inl (by rw [hsub]; exact .same)
  | @unsub t th i o b s' ht hcall hb hpc h => exact .inl (ustep_ch (hi.pc t th ht) hb (unsub_cases h)).1
  | helper _ _ _ h =>
    obtain ⟨th, i, o, b, ht, hcall, hb, hs⟩ := helper_cases h
    exact .inl (hstep_ch hb hs).1
  | @takeQuiet r rest =>
    have sp := takeReq_spec s r rest
    exact .inl (by rw [sp.2.2.2.2.2.2.2.2.1]; exact .same)
  | @takeSent r rest =>
    have sp := takeReq_spec s r rest
    exact .inl (by show SubCh s (s.takeReq r rest).1.subs; rw [sp.2.2.2.2.2.2.2.2.1]; exact .same)
  | @takeFail r rest =>
    have sp := takeReq_spec s r rest
    exact .inl (by show SubCh s (s.takeReq r rest).1.subs; rw [sp.2.2.2.2.2.2.2.2.1]; exact .same)
  | @giveReceipt f id n b s1 hl hc h1 =>
    have sp := closeChan_spec { s1 with channels := s1.channels.del id, loop := .select } n
    exact .inr ⟨f, n, b, s1, .inl ⟨id, hl⟩, h1, sp.2.2.2.2.2.2.2.2.1, by rw [sp.2.2.2.2.2.1, hl]; simp⟩
  | giveMessage hl hc h1 => exact .inr ⟨_, _, _, _, .inr (.inl hl), h1, rfl, by rw [hl]; simp⟩
  | @giveErr f n l b s1 hl hc h1 =>
    have sp := closeChan_spec { s1 with loop := .errs f l } n
    exact .inr ⟨f, n, b, s1, .inr (.inr (.inl ⟨l, hl⟩)), h1, sp.2.2.2.2.2.2.2.2.1, by rw [sp.2.2.2.2.2.1, hl]; simp⟩
  | giveFail hl hc h1 => exact .inr ⟨_, _, _, _, .inr (.inr (.inr ⟨_, hl⟩)), h1, rfl, by rw [hl]; simp⟩
  | sub h =>
    obtain ⟨b, hb, hs⟩ := subStep_cases h
    exact .inl (sstep_ch hb hs)
  | take hb => exact .inl (.set hb rfl rfl (fun h => ⟨h, rfl⟩))
  | _ => exact .inl .same

end Stomp.Client

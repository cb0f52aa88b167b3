import Verif.Proofs.Client.Facts
/-! # Results that imply that the connection is closed -/
namespace Stomp.Client
open Stomp

/-- The call has returned with a result that says the connection is closed. -/
def Thread.closedBy (th : Thread) : Bool :=
  match th.call, th.pc with
  | .disconnect, .ret .ok => true
  | .disconnect, .ret .closeError => true
  | .disconnect, .ret .disconnectTimeout => true
  | .mustDisconnect, .ret _ => true
  | _, _ => false

/-- Where the callers of each kind can be. -/
def Thread.wf (th : Thread) : Bool :=
  match th.call, th.pc with
  | .mustDisconnect, .start | .mustDisconnect, .ret _ => true
  | .mustDisconnect, _ => false
  | .unsubscribe .., _ => true
  | _, .start | _, .push _ | _, .wait _ | _, .ret _ => true
  | _, _ => false

structure ByInv (s : Sys) : Prop where
  th : ∀ (t : Nat) (th : Thread), s.threads[t]? = some th → th.wf = true ∧ (th.closedBy = true → s.closed = true)
  loop : s.loop = .done → s.closed = true

theorem by_congr {s s' : Sys} (hi : ByInv s) (h1 : s.closed = true → s'.closed = true)
    (h2 : s'.loop = .done → s'.closed = true) (h3 : s'.threads = s.threads) : ByInv s' := by
  refine ⟨?_, h2⟩
  rw [h3]
  exact fun t th ht => ⟨(hi.th t th ht).1, fun h => h1 ((hi.th t th ht).2 h)⟩

theorem by_goto {s s' : Sys} {t : Nat} {th : Thread} {g : Thread → Thread} (hi : ByInv s)
    (ht : s.threads[t]? = some th) (h1 : s.closed = true → s'.closed = true)
    (h2 : s'.loop = .done → s'.closed = true) (h3 : s'.threads = s.threads.modify t g)
    (h4 : th.wf = true → (g th).wf = true ∧ ((g th).closedBy = true → s'.closed = true)) : ByInv s' := by
  refine ⟨?_, h2⟩
  rw [h3]
  exact all_modify (Q := fun _ th => th.wf = true ∧ (th.closedBy = true → s'.closed = true)) hi.th ht
    (fun h => h4 h.1) (fun u thu _ _ h => ⟨h.1, fun hc => h1 (h.2 hc)⟩)

theorem by_frameDone {s : Sys} {t : Nat} {th : Thread} {r : Res} (hi : ByInv s) (ht : s.threads[t]? = some th)
    (hg : th.call ≠ .disconnect ∧ th.call ≠ .mustDisconnect) : ByInv (s.frameDone t th.call r) := by
  obtain ⟨pc, hcore, _, _, hth, hpc⟩ := frameDone_spec s t th.call r
  refine by_goto hi ht (by rw [hcore.closed]; exact id) (by rw [hcore.closed, hcore.loop]; exact hi.loop) hth ?_
  intro hw
  rcases hpc with ⟨rfl, h, _⟩ | ⟨_, ⟨i, o, h⟩, _⟩
  · grind [Thread.closedBy, Thread.wf]
  · simp [Thread.closedBy, Thread.wf, h]

theorem by_handOver {s s' : Sys} {n : Nat} {f : Frame} {b : Bool} (hi : ByInv s)
    (h : s.handOver n f b = some s') : ByInv s' := by
  have h := handOver_cases h
  cases h with
  | send hn ht hpc hcall => refine by_goto hi ht id hi.loop rfl ?_; simp [Thread.closedBy, Thread.wf, hcall]
  | discOk hn ht hpc hcall hf hr =>
    refine by_goto hi ht (fun _ => rfl) (fun _ => rfl) rfl ?_; simp [Thread.wf, hcall, Sys.ret, Sys.goto, Sys.log, Sys.unlock, Sys.markClosed]
  | discErr hn ht hpc hcall hf => refine by_goto hi ht id hi.loop rfl ?_; simp [Thread.closedBy, Thread.wf, hcall]
  | frame hn ht hpc hcall =>
    refine by_frameDone hi ht ⟨fun h => hcall (.inr h), fun h => ?_⟩
    have := (hi.th _ _ ht).1
    simp [Thread.wf, h, hpc] at this
  | sub hn hb hrl => exact by_congr hi id hi.loop rfl

theorem by_step {cfg : Cfg} {s s' : Sys} (hi : ByInv s) (h : Step cfg s s') : ByInv s' := by
  cases h with
  | call c _ => exact ⟨all_append hi.th (by cases c <;> simp [Thread.wf, Thread.closedBy]), hi.loop⟩
  | early ht hpc hm hcall he =>
    refine by_goto hi ht id hi.loop rfl ?_
    intro hw
    cases he <;> simp_all [Thread.wf, Thread.closedBy, Sys.ret, Sys.goto, Sys.log]
  | acquire ht hm hc ha hr =>
    refine by_goto hi ht id hi.loop rfl ?_
    intro hw
    cases ha <;> grind [Thread.wf, Thread.closedBy]
  | acquireBare ht hm hc ha hr =>
    refine by_goto hi ht id hi.loop rfl ?_
    intro hw
    cases ha <;> grind [Thread.wf, Thread.closedBy]
  | frameClosed ht hm hc hpc =>
    refine by_frameDone (s := Sys.closeNet s) (by_congr hi id hi.loop rfl) ht ?_
    have := (hi.th _ _ ht).1
    rcases hpc with ⟨_, f, h⟩ | ⟨f, h⟩
    · simp [h]
    · grind [Thread.wf]
  | subscribe ht hpc hcall => refine by_goto hi ht id hi.loop rfl ?_; simp [Thread.closedBy, Thread.wf, hcall]
  | unsubOption ht hpc hcall => refine by_goto hi ht id hi.loop rfl ?_; simp [Thread.closedBy, Thread.wf, hcall]
  | unsubGo ht hpc hcall => refine by_goto hi ht id hi.loop rfl ?_; simp [Thread.closedBy, Thread.wf, hcall]
  | unsubDone ht hpc hcall => refine by_goto hi ht id hi.loop rfl ?_; simp [Thread.closedBy, Thread.wf, hcall]
  | mustGo ht hpc hcall =>
    refine by_goto hi ht (fun _ => rfl) (fun _ => rfl) rfl ?_
    simp [Thread.wf, hcall, Sys.ret, Sys.goto, Sys.log, Sys.markClosed]
  | pushWait ht hpc hw hcap hr hcall => refine by_goto hi ht id hi.loop rfl ?_; grind [Thread.closedBy, Thread.wf]
  | pushRet ht hpc hw hcap hr hcall => refine by_goto hi ht id hi.loop rfl ?_; grind [Thread.closedBy, Thread.wf]
  | @pushSub t th r n d a o ht hpc hw hcap hr hcall =>
    have := handOut_spec { s with writeCh := s.writeCh ++ [r], trace := s.trace ++ [.accepted t r] } n
    refine by_goto hi ht ?_ ?_ ?_ (g := fun th => { th with pc := .ret .ok }) ?_
    · exact fun h => (this.1.closed).trans h
    · exact fun h => (this.1.closed).trans (hi.loop ((this.1.loop).symm.trans h))
    · simp only [Sys.ret, Sys.goto, Sys.log, Sys.unlock, this.2.2.1]
    · grind [Thread.closedBy, Thread.wf]
  | pushFrameWait ht hpc hw hcap hr hcall => refine by_goto hi ht id hi.loop rfl ?_; grind [Thread.closedBy, Thread.wf]
  | pushFrameRet ht hpc hw hcap hr hcall =>
    refine by_frameDone (s := Sys.unlock _) (by_congr hi id hi.loop rfl) ht ?_
    grind
  | waitClosed ht hpc hc hcall =>
    refine by_frameDone hi ht ?_
    have := (hi.th _ _ ht).1
    grind [Thread.wf]
  | unsub ht hcall hb hpc h =>
    obtain ⟨hcore, ⟨h1, _⟩ | ⟨_, pc, hp, hth, _⟩⟩ := unsub_spec h
    · exact by_congr hi (by rw [hcore.closed]; exact id) (by rw [hcore.closed, hcore.loop]; exact hi.loop) h1
    · refine by_goto hi ht (by rw [hcore.closed]; exact id) (by rw [hcore.closed, hcore.loop]; exact hi.loop) hth ?_
      simp [Thread.closedBy, Thread.wf, hcall]
  | sendTimeout ht hpc hcall => refine by_goto hi ht id hi.loop rfl ?_; simp [Thread.closedBy, Thread.wf, hcall]
  | receiptTimeout ht hpc hcall => refine by_goto hi ht id hi.loop rfl ?_; simp [Thread.closedBy, Thread.wf, hcall]
  | disconnectTimeout ht hpc hcall =>
    refine by_goto hi ht (fun _ => rfl) (fun _ => rfl) rfl ?_
    simp [Thread.wf, hcall, Sys.ret, Sys.goto, Sys.log, Sys.markClosed, Sys.unlock]
  | frameTimeout ht hpc hcall => exact by_frameDone hi ht (by grind)
  | selectTimeout ht hpc hcall => refine by_goto hi ht id hi.loop rfl ?_; simp [Thread.closedBy, Thread.wf, hcall]
  | helper ht hcall hb h =>
    obtain ⟨hcore, _, ⟨h1, _⟩ | ⟨_, hp, hth⟩⟩ := helper_spec h
    · exact by_congr hi (by rw [hcore.closed]; exact id) (by rw [hcore.closed, hcore.loop]; exact hi.loop) h1
    · refine by_goto hi ht (by rw [hcore.closed]; exact id) (by rw [hcore.closed, hcore.loop]; exact hi.loop) hth ?_
      simp [Thread.closedBy, Thread.wf, hcall]
  | @takeQuiet r rest hl hw ho =>
    have := takeReq_spec s r rest
    exact by_congr hi (by rw [this.1]; exact id) (by rw [this.1, this.2.2.2.2.2.1]; exact hi.loop) this.2.2.2.2.2.2.2.1
  | @takeSent r rest f hl hw ho =>
    have := takeReq_spec s r rest
    refine by_congr hi (fun h => this.1.trans h) (fun h => this.1.trans ?_) this.2.2.2.2.2.2.2.1
    exact hi.loop ((this.2.2.2.2.2.1).symm.trans h)
  | @takeFail r rest f order hl hw ho hp =>
    have := takeReq_spec s r rest
    exact by_congr hi (fun h => this.1.trans h) (fun h => by cases h) this.2.2.2.2.2.2.2.1
  | giveReceipt hl hc h1 =>
    have h2 := by_handOver hi h1
    have := closeChan_spec
    refine by_congr h2 ?_ ?_ ((closeChan_spec _ _).2.2.2.2.2.2.2.1)
    · intro h; rw [(closeChan_spec _ _).1]; exact h
    · intro h; rw [(closeChan_spec _ _).2.2.2.2.2.1] at h; cases h
  | giveMessage hl hc h1 => exact by_congr (by_handOver hi h1) id (fun h => by cases h) rfl
  | giveErr hl hc h1 =>
    refine by_congr (by_handOver hi h1) ?_ ?_ ((closeChan_spec _ _).2.2.2.2.2.2.2.1)
    · intro h; rw [(closeChan_spec _ _).1]; exact h
    · intro h; rw [(closeChan_spec _ _).2.2.2.2.2.1] at h; cases h
  | giveFail hl hc h1 => exact by_congr (by_handOver hi h1) id (fun h => by cases h) rfl
  | finErrs hl hm => exact by_congr hi (fun _ => rfl) (fun _ => rfl) rfl
  | finClosed hl hm hc => exact by_congr hi id (fun _ => hc) rfl
  | finFail hl hm hc hw => exact by_congr hi (fun _ => rfl) (fun _ => rfl) rfl
  | sub h =>
    obtain ⟨hcore, _, hth⟩ := subStep_spec h
    exact by_congr hi (by rw [hcore.closed]; exact id) (by rw [hcore.closed, hcore.loop]; exact hi.loop) hth
  | _ =>
    first
      | exact by_congr hi id hi.loop rfl
      | exact by_congr hi id (fun h => by cases h) rfl

end Stomp.Client

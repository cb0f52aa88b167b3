import Verif.Proofs.Client.OwnStep
import Verif.Proofs.Client.Woken
/-! # What the client does by itself comes to an end -/
set_option linter.unusedSimpArgs false
namespace Stomp.Client
open Stomp

/-! ## What is left to do -/

def ClosePc.ahead : ClosePc → Nat
  | .enter _ => 6 | .put _ => 5 | .store => 3 | .close => 2 | .broadcast => 1

/-- `cl`: the subscription has been closed. -/
def Pc.ahead (cl : Bool) : Pc → Nat
  | .start => 10 | .lock _ => 9 | .push _ => 8 | .wait _ => 7 | .closing p => p.ahead | .subLock _ => 6
  | .check _ => if cl then 1 else 5
  | .condWait => 4 | .select => 4 | .asleep _ => 3 | .timedOut => 3 | .relock => 2 | .putTimeout => 2 | .ret _ => 0

def HPc.ahead : HPc → Nat
  | .none => 0 | .start => 3 | .asleep _ => 2 | .relock => 1 | .done => 0

def Sys.gone (s : Sys) (i : Nat) : Bool := (s.subs[i]?.map fun b => decide (b.state = .closed)).getD false

def Thread.gone (s : Sys) (th : Thread) : Bool :=
  match th.call with
  | .unsubscribe i _ => s.gone i
  | _ => false

def Thread.ahead (s : Sys) (th : Thread) : Nat := 4 * th.pc.ahead (th.gone s) + th.helper.ahead

/-- What the callers have before them, and the requests not yet written. -/
def Sys.callers (s : Sys) : Nat := if s.crashed.isSome then 0 else 1 + (s.threads.map (Thread.ahead s)).sum + s.writeCh.length

/-- `processLoop` is running, is giving up, has returned. -/
def LoopPc.phase : LoopPc → Nat
  | .select | .receipt .. | .message .. => 2
  | .errs .. | .fail .. => 1
  | .done => 0

def LoopPc.ahead : LoopPc → Nat
  | .receipt .. | .message .. => 3
  | .errs _ l | .fail _ l => 3 * l.length
  | _ => 0

def RlPc.ahead : RlPc → Nat
  | .put _ => 10 | .recv => 8 | .check _ => 7 | .closing p => p.ahead | .done => 0

def Sub.ahead (b : Sub) : Nat := b.rl.ahead + b.buf.length

/-- What has been read and not been given to the program. -/
def Sys.pending (s : Sys) : Nat := 4 * s.readCh.length + s.loop.ahead + (s.subs.map Sub.ahead).sum

/-- One thing after the other gets less. -/
inductive Less : (a b c : Nat) → (a' b' c' : Nat) → Prop
  | callers {a b c a' b' c' : Nat} (h : a' < a) : Less a b c a' b' c'
  | phase {a b c a' b' c' : Nat} (ha : a' ≤ a) (h : b' < b) : Less a b c a' b' c'
  | pending {a b c a' b' c' : Nat} (ha : a' ≤ a) (hb : b' ≤ b) (h : c' < c) : Less a b c a' b' c'

def Sys.Less (s s' : Sys) : Prop := Client.Less s.callers s.loop.phase s.pending s'.callers s'.loop.phase s'.pending

/-! ## Sums -/

theorem sum_modify_le {f f' : Thread → Nat} {g : Thread → Thread} : ∀ {l : List Thread} {t : Nat} {th : Thread}, (∀ x ∈ l, f' x ≤ f x) → l[t]? = some th →
    ((l.modify t g).map f').sum + f th ≤ (l.map f).sum + f' (g th)
  | [], _, _, _, ht => by cases ht
  | a :: l, 0, th, hf, ht => by
    injection ht with ht
    subst ht
    have : (l.map f').sum ≤ (l.map f).sum := by
      have hf' : ∀ x ∈ l, f' x ≤ f x := fun x hx => hf x (List.mem_cons_of_mem _ hx)
      clear hf
      induction l with
      | nil => simp
      | cons b l ih =>
        have h1 := ih (fun x hx => hf' x (List.mem_cons_of_mem _ hx))
        have h2 := hf' b List.mem_cons_self
        simp only [List.map_cons, List.sum_cons]; omega
    simp only [List.modify_zero_cons, List.map_cons, List.sum_cons]
    omega
  | a :: l, t + 1, th, hf, ht => by
    have h1 := sum_modify_le (g := g) (fun x hx => hf x (List.mem_cons_of_mem _ hx)) (show l[t]? = some th from ht)
    have h2 := hf a List.mem_cons_self
    simp only [List.modify_succ_cons, List.map_cons, List.sum_cons]
    omega

theorem sum_le {f f' : Thread → Nat} : ∀ {l : List Thread}, (∀ x ∈ l, f' x ≤ f x) → (l.map f').sum ≤ (l.map f).sum
  | [], _ => by simp
  | a :: l, hf => by
    have h1 := sum_le (fun x hx => hf x (List.mem_cons_of_mem _ hx))
    have h2 := hf a List.mem_cons_self
    simp only [List.map_cons, List.sum_cons]; omega

theorem sum_set {f : Sub → Nat} : ∀ {l : List Sub} {i : Nat} {b b' : Sub}, l[i]? = some b → ((l.set i b').map f).sum + f b = (l.map f).sum + f b'
  | [], _, _, _, h => by cases h
  | a :: l, 0, b, b', h => by injection h with h; subst h; simp only [List.set_cons_zero, List.map_cons, List.sum_cons]; omega
  | a :: l, i + 1, b, b', h => by
    have := sum_set (f := f) (b' := b') (show l[i]? = some b from h)
    simp only [List.set_cons_succ, List.map_cons, List.sum_cons]; omega

/-! ## A closed subscription stays closed -/

def StayClosed (s s' : Sys) : Prop := ∀ i, s.gone i = true → s'.gone i = true

theorem gone_iff {s : Sys} {i : Nat} : s.gone i = true ↔ ∃ b, s.subs[i]? = some b ∧ b.state = .closed := by
  unfold Sys.gone
  cases s.subs[i]? <;> simp

theorem closed_same {s s' : Sys} (h : s'.subs = s.subs) : StayClosed s s' := by
  intro i hi; rw [gone_iff] at *; rw [h]; exact hi

theorem closed_set {s s' : Sys} {j : Nat} {b b' : Sub} (hb : s.subs[j]? = some b) (h : s'.subs = s.subs.set j b') (hst : b.state = .closed → b'.state = .closed) :
    StayClosed s s' := by
  intro i hi
  rw [gone_iff] at *
  obtain ⟨c, hc, hcl⟩ := hi
  by_cases hij : i = j
  · subst hij
    rw [hb] at hc; cases hc
    exact ⟨b', by rw [h]; exact set_get hb, hst hcl⟩
  · exact ⟨c, by rw [h, List.getElem?_set, if_neg (fun e => hij e.symm)]; exact hc, hcl⟩

theorem closed_append {s s' : Sys} {b : Sub} (h : s'.subs = s.subs ++ [b]) : StayClosed s s' := by
  intro i hi
  rw [gone_iff] at *
  obtain ⟨c, hc, hcl⟩ := hi
  refine ⟨c, ?_, hcl⟩
  rw [h, List.getElem?_append_left (List.getElem?_eq_some_iff.1 hc).1]
  exact hc

theorem closed_handOut {s s' : Sys} {n : Nat} {r : Sys} (hr : r.subs = s.subs) (h : s'.subs = (r.handOut n).subs) : StayClosed s s' := by
  intro i hi
  rw [gone_iff] at *
  obtain ⟨c, hc, hcl⟩ := hi
  rw [h]
  unfold Sys.handOut
  split
  · rename_i j _ _
    rw [List.getElem?_modify, hr, hc]
    by_cases e : j = i
    · simp [e, hcl]
    · simp [e, hcl]
  · exact ⟨c, by rw [hr]; exact hc, hcl⟩

theorem ahead_mono {s s' : Sys} (hm : StayClosed s s') (th : Thread) : th.ahead s' ≤ th.ahead s := by
  have hg : th.gone s = true → th.gone s' = true := by
    unfold Thread.gone
    split
    · exact hm _
    · exact id
  unfold Thread.ahead
  have : th.pc.ahead (th.gone s') ≤ th.pc.ahead (th.gone s) := by
    cases h : th.pc <;> simp only [Pc.ahead, Nat.le_refl]
    cases h1 : th.gone s
    · cases th.gone s' <;> simp
    · rw [hg h1]; simp
  omega

theorem callers_thr {s s' : Sys} {t : Nat} {th : Thread} {g : Thread → Thread} (hc : s.crashed = none) (ht : s.threads[t]? = some th)
    (hth : s'.threads = s.threads.modify t g) (hm : StayClosed s s') (hlt : (g th).ahead s' + s'.writeCh.length < th.ahead s + s.writeCh.length) :
    s'.callers < s.callers := by
  unfold Sys.callers
  rw [hc, hth]
  have := sum_modify_le (g := g) (l := s.threads) (fun x _ => ahead_mono hm x) ht
  cases s'.crashed <;> simp <;> omega

theorem callers_same {s s' : Sys} (hc : s.crashed = none) (hth : s'.threads = s.threads) (hm : StayClosed s s') (hw : s'.writeCh.length ≤ s.writeCh.length) :
    s'.callers ≤ s.callers := by
  unfold Sys.callers
  rw [hc, hth]
  have := sum_le (l := s.threads) (fun x _ => ahead_mono hm x)
  cases s'.crashed <;> simp <;> omega

theorem callers_write {s s' : Sys} (hc : s.crashed = none) (hth : s'.threads = s.threads) (hm : StayClosed s s') (hw : s'.writeCh.length < s.writeCh.length) :
    s'.callers < s.callers := by
  unfold Sys.callers
  rw [hc, hth]
  have := sum_le (l := s.threads) (fun x _ => ahead_mono hm x)
  cases s'.crashed <;> simp <;> omega

theorem callers_crash {s : Sys} {p : Panic} (hc : s.crashed = none) : (s.crash p).callers < s.callers := by
  unfold Sys.callers
  rw [hc]
  simp [Sys.crash]
  omega

/-- `sendFrame` returns to its caller. -/
theorem callers_frameDone {s r : Sys} {t : Nat} {th : Thread} {c : Call} {x : Res} (hc : s.crashed = none) (ht : s.threads[t]? = some th)
    (hr : r.threads = s.threads) (hsub : r.subs = s.subs) (hlt : 24 + th.helper.ahead + r.writeCh.length < th.ahead s + s.writeCh.length) :
    (r.frameDone t c x).callers < s.callers := by
  obtain ⟨pc, hcore, _, hs, hth, hpc⟩ := frameDone_spec r t c x
  refine callers_thr hc ht (by rw [hth, hr]) (closed_same (by rw [hs, hsub])) ?_
  rw [hcore.writeCh]
  refine Nat.lt_of_le_of_lt ?_ hlt
  have : pc.ahead (Thread.gone (r.frameDone t c x) { th with pc := pc }) ≤ 6 := by
    rcases hpc with ⟨e, _⟩ | ⟨e | e, _⟩ <;> rw [e] <;> simp [Pc.ahead, ClosePc.ahead]
  unfold Thread.ahead
  simp only
  omega

theorem CNext.less {b b' : Sub} {p p' : ClosePc} (h : CNext b p b' p') : p'.ahead < p.ahead ∧ p'.ahead + b'.buf.length < p.ahead + b.buf.length ∧ b'.rl = b.rl := by
  cases h <;> simp [ClosePc.ahead] <;> omega

theorem CFin.less {b b' : Sub} {p : ClosePc} (h : CFin b p b') : 0 < p.ahead ∧ b'.buf = b.buf ∧ b'.rl = b.rl ∧ (b.state = .closed → b'.state = .closed) := by
  cases h <;> simp [ClosePc.ahead]

theorem gone_of {s : Sys} {th : Thread} {i : Nat} {o : List SubOpt} (hc : th.call = .unsubscribe i o) : th.gone s = s.gone i := by
  unfold Thread.gone; rw [hc]

theorem check_ahead (cl : Bool) (r : Res) : 1 ≤ (Pc.check r).ahead cl ∧ (Pc.check r).ahead cl ≤ 5 := by
  cases cl <;> simp [Pc.ahead]

theorem unsub_less {cfg : Cfg} {s s' : Sys} {t : Nat} {th : Thread} {i : Nat} {o} {b : Sub} (hi : UInv s) (hw : WokenInv s) (hc : s.crashed = none)
    (ht : s.threads[t]? = some th) (hcall : th.call = .unsubscribe i o) (hb : s.subs[i]? = some b) (h : UStep cfg s t th i b s') : s'.callers < s.callers := by
  -- whoever was woken finds the subscription closed
  have closed : Woke th.pc th.helper → th.pc ≠ .start → th.pc ≠ .ret .completedSubscription → b.state = .closed := fun hk h1 h2 =>
    hi.done_closed hb (hw.woke t i th.pc th.helper b (won_of ht hcall h1 h2) hb hk)
  have gone : ∀ {s1 : Sys} {b1 : Sub}, s1.subs[i]? = some b1 → b1.state = .closed → s1.gone i = true := fun h1 h2 => gone_iff.2 ⟨_, h1, h2⟩
  cases h with
  | closeCrash => exact callers_crash hc
  | doneCrash => exact callers_crash hc
  | sleepCrash => exact callers_crash hc
  | putCrash => exact callers_crash hc
  | closeNext hpc hn =>
    refine callers_thr hc ht rfl (closed_set hb rfl hn.once.2.2.2) ?_
    have := hn.less.1
    simp only [Thread.ahead, hpc, Pc.ahead, Sys.setSub, Sys.goto]
    omega
  | closeFin hpc hf =>
    refine callers_thr hc ht rfl (closed_set hb rfl hf.less.2.2.2) ?_
    have := hf.less.1
    simp only [Thread.ahead, hpc, Pc.ahead, Sys.setSub, Sys.goto, Sys.ret, Sys.log]
    omega
  | lock hpc hl =>
    refine callers_thr hc ht rfl (closed_set hb rfl id) ?_
    unfold Thread.ahead
    rw [hpc]
    dsimp only [Sys.setSub, Sys.goto]
    refine Nat.lt_of_le_of_lt (Nat.add_le_add_right (Nat.add_le_add_right (Nat.mul_le_mul_left 4 (check_ahead _ _).2) _) _) ?_
    simp only [Pc.ahead]
    omega
  | done hpc hs hl =>
    refine callers_thr hc ht rfl (closed_set hb rfl id) ?_
    unfold Thread.ahead
    rw [hpc]
    dsimp only [Sys.setSub, Sys.goto, Sys.ret, Sys.log]
    refine Nat.lt_of_lt_of_le ?_ (Nat.add_le_add_right (Nat.add_le_add_right (Nat.mul_le_mul_left 4 (check_ahead _ _).1) _) _)
    simp only [Pc.ahead]
    omega
  | timed hpc hs =>
    refine callers_thr hc ht rfl (closed_same rfl) ?_
    have hg : th.gone s = false := by
      rw [gone_of hcall]
      cases h : s.gone i with
      | false => rfl
      | true => obtain ⟨c, h1, h2⟩ := gone_iff.1 h; rw [hb] at h1; cases h1; exact absurd h2 hs
    simp only [Thread.ahead, hpc, Pc.ahead, hg, HPc.ahead]
    simp
    omega
  | wait hpc hs =>
    refine callers_thr hc ht rfl (closed_same rfl) ?_
    have hg : th.gone s = false := by
      rw [gone_of hcall]
      cases h : s.gone i with
      | false => rfl
      | true => obtain ⟨c, h1, h2⟩ := gone_iff.1 h; rw [hb] at h1; cases h1; exact absurd h2 hs
    simp only [Thread.ahead, hpc, Pc.ahead, hg, HPc.ahead, Sys.goto]
    simp
  | sleep hpc hl =>
    refine callers_thr hc ht rfl (closed_set hb rfl id) ?_
    simp only [Thread.ahead, hpc, Pc.ahead, Sys.setSub, Sys.goto]
    omega
  | wake hpc hk =>
    refine callers_thr hc ht rfl (closed_same rfl) ?_
    simp only [Thread.ahead, hpc, Pc.ahead, Sys.goto]
    omega
  | relock hpc hl =>
    refine callers_thr hc ht rfl (closed_set hb rfl id) ?_
    have hcl := closed (.inl hpc) (by rw [hpc]; simp) (by rw [hpc]; simp)
    have hg : ∀ x : Pc, Thread.gone ((s.setSub i { b with locked := true }).goto t (.check .ok)) { th with pc := x } = true := by
      intro x
      exact (gone_of (th := { th with pc := x }) hcall).trans (gone (set_get hb) hcl)
    simp only [Thread.ahead, hpc, Pc.ahead, hg]
    simp [Sys.setSub, Sys.goto]
  | selected hpc hh =>
    refine callers_thr hc ht rfl (closed_same rfl) ?_
    have hcl := closed (.inr (.inr hh)) (by rw [hpc]; simp) (by rw [hpc]; simp)
    have hg : ∀ x : Pc, Thread.gone (s.goto t (.check .ok)) { th with pc := x } = true := by
      intro x
      exact (gone_of (th := { th with pc := x }) hcall).trans (gone hb hcl)
    simp only [Thread.ahead, hpc, Pc.ahead, hg]
    simp [Sys.goto]
  | timedClosed hpc hs =>
    refine callers_thr hc ht rfl (closed_same rfl) ?_
    simp only [Thread.ahead, hpc, Pc.ahead, Sys.goto, Sys.ret, Sys.log]
    omega
  | timedOpen hpc hs =>
    refine callers_thr hc ht rfl (closed_same rfl) ?_
    simp only [Thread.ahead, hpc, Pc.ahead, Sys.goto]
    omega
  | put hpc hcc hl =>
    refine callers_thr hc ht rfl (closed_set hb rfl id) ?_
    simp only [Thread.ahead, hpc, Pc.ahead, Sys.setSub, Sys.goto, Sys.ret, Sys.log]
    omega

theorem helper_less {s s' : Sys} {t : Nat} {th : Thread} {i : Nat} {b : Sub} (hc : s.crashed = none)
    (ht : s.threads[t]? = some th) (hb : s.subs[i]? = some b) (h : HStep s t th i b s') : s'.callers < s.callers := by
  have key : ∀ {s1 : Sys} {x : HPc}, StayClosed s s1 → s1.threads = s.threads.modify t (fun th => { th with helper := x }) → s1.writeCh = s.writeCh → x.ahead < th.helper.ahead →
      s1.callers < s.callers := by
    intro s1 x hm hth hwc hx
    refine callers_thr hc ht hth hm ?_
    rw [hwc]
    have := ahead_mono hm th
    unfold Thread.ahead at *
    have e : Thread.gone s1 { th with helper := x } = th.gone s1 := rfl
    simp only [e] at *
    omega
  cases h with
  | sleepCrash => exact callers_crash hc
  | sleep hh hl => exact key (closed_set hb rfl id) rfl rfl (by rw [hh]; simp [HPc.ahead])
  | wake hh hk => exact key (closed_same rfl) rfl rfl (by rw [hh]; simp [HPc.ahead])
  | relock hh hl => exact key (closed_set hb rfl id) rfl rfl (by rw [hh]; simp [HPc.ahead])

/-- What `processLoop` hands over: to a caller, which then has less before it, or to a subscription. -/
theorem handOver_less {s s' : Sys} {n : Nat} {f : Frame} (hc : s.crashed = none) (h : HandOver s n f s') :
    (s'.callers < s.callers ∧ s'.loop = s.loop) ∨
    (s'.callers ≤ s.callers ∧ s'.loop = s.loop ∧ s'.readCh = s.readCh ∧ (s'.subs.map Sub.ahead).sum ≤ (s.subs.map Sub.ahead).sum + 2) := by
  cases h with
  | send hn ht hpc hcall =>
    refine .inl ⟨callers_thr hc ht rfl (closed_same rfl) ?_, rfl⟩
    simp only [Thread.ahead, hpc, Pc.ahead, Sys.goto, Sys.ret, Sys.log, Sys.unlock]
    omega
  | discOk hn ht hpc hcall hf hr =>
    refine .inl ⟨callers_thr hc ht rfl (closed_same rfl) ?_, rfl⟩
    simp only [Thread.ahead, hpc, Pc.ahead, Sys.goto, Sys.ret, Sys.log, Sys.unlock, Sys.markClosed]
    omega
  | discErr hn ht hpc hcall hf =>
    refine .inl ⟨callers_thr hc ht rfl (closed_same rfl) ?_, rfl⟩
    simp only [Thread.ahead, hpc, Pc.ahead, Sys.goto, Sys.ret, Sys.log, Sys.unlock]
    omega
  | frame hn ht hpc hcall =>
    refine .inl ⟨callers_frameDone hc ht rfl rfl ?_, ?_⟩
    · simp only [Thread.ahead, hpc, Pc.ahead]; omega
    · obtain ⟨pc, hcore, _⟩ := frameDone_spec s _ _ (resOf f)
      exact hcore.loop
  | @sub i b c hn hb hrl =>
    refine .inr ⟨callers_same hc rfl (closed_set hb rfl id) (Nat.le_refl _), rfl, rfl, ?_⟩
    have := sum_set (f := Sub.ahead) (b' := { b with rl := Sys.rlRecv f }) hb
    have h1 : (Sys.rlRecv f).ahead ≤ 10 := by
      unfold Sys.rlRecv
      repeat' split
      all_goals simp [RlPc.ahead]
    have h2 : Sub.ahead b = 8 + b.buf.length := by simp [Sub.ahead, hrl, RlPc.ahead]
    have h3 : Sub.ahead { b with rl := Sys.rlRecv f } = (Sys.rlRecv f).ahead + b.buf.length := rfl
    rw [h2, h3] at this
    simp only [Sys.setSub]
    omega

theorem sub_less {s s' : Sys} {i : Nat} {b : Sub} (hc : s.crashed = none) (hb : s.subs[i]? = some b) (h : SStep s i b s') : s.Less s' := by
  have key : ∀ {b' : Sub}, (b.state = .closed → b'.state = .closed) → b'.ahead < b.ahead → s.Less (s.setSub i b') := by
    intro b' hst hl
    refine .pending (callers_same hc rfl (closed_set hb rfl hst) (Nat.le_refl _)) (Nat.le_refl _) ?_
    have := sum_set (f := Sub.ahead) (b' := b') hb
    simp only [Sys.pending, Sys.setSub]
    omega
  cases h with
  | putCrash => exact .callers (callers_crash hc)
  | closeCrash => exact .callers (callers_crash hc)
  | eof hr => exact key id (by simp [Sub.ahead, RlPc.ahead, hr])
  | put hr => exact key id (by simp [Sub.ahead, RlPc.ahead, hr]; omega)
  | checkClosed hr => exact key id (by simp [Sub.ahead, RlPc.ahead, hr])
  | checkOpen hr => exact key id (by simp [Sub.ahead, RlPc.ahead, ClosePc.ahead, hr])
  | closeNext hr hn =>
    refine key hn.once.2.2.2 ?_
    have := hn.less.2.1
    simp only [Sub.ahead, RlPc.ahead, hr]
    omega
  | closeFin hr hf =>
    refine key hf.less.2.2.2 ?_
    have h1 := hf.less.1
    simp only [Sub.ahead, RlPc.ahead, hr, hf.less.2.1]
    omega

theorem own_less {cfg : Cfg} {s s' : Sys} (hi : UInv s) (hw : WokenInv s) (hc : s.crashed = none) (h : OStep cfg s s') : s.Less s' := by
  cases h with
  | early ht hpc hm hcall he =>
    refine .callers (callers_thr hc ht rfl (closed_same rfl) ?_)
    simp only [Thread.ahead, hpc, Pc.ahead, Sys.goto, Sys.ret, Sys.log]
    omega
  | acquire ht hm hcl ha hr =>
    refine .callers (callers_thr hc ht rfl (closed_same rfl) ?_)
    cases ha <;> simp only [Thread.ahead, *, Pc.ahead, Sys.goto, Sys.newChan] <;> omega
  | acquireBare ht hm hcl ha hr =>
    refine .callers (callers_thr hc ht rfl (closed_same rfl) ?_)
    cases ha <;> simp only [Thread.ahead, *, Pc.ahead, Sys.goto, Sys.newChan] <;> omega
  | frameClosed ht hm hcl hpc =>
    refine .callers (callers_frameDone hc ht rfl rfl ?_)
    rcases hpc with ⟨hpc, _⟩ | ⟨f, hpc⟩ <;> simp only [Thread.ahead, hpc, Pc.ahead, Sys.closeNet] <;> omega
  | subscribe ht hpc hcall hm hcl hf =>
    refine .callers (callers_thr hc ht rfl (closed_append rfl) ?_)
    simp only [Thread.ahead, hpc, Pc.ahead, Sys.goto, Sys.newChan]
    omega
  | unsubOption ht hpc hcall hb hst hf =>
    refine .callers (callers_thr hc ht rfl (closed_set hb rfl (by rw [hst]; intro e; cases e)) ?_)
    simp only [Thread.ahead, hpc, Pc.ahead, Sys.goto, Sys.ret, Sys.log, Sys.setSub]
    omega
  | unsubGo ht hpc hcall hb hst hf =>
    refine .callers (callers_thr hc ht rfl (closed_set hb rfl (by rw [hst]; intro e; cases e)) ?_)
    simp only [Thread.ahead, hpc, Pc.ahead, Sys.goto, Sys.setSub]
    omega
  | unsubDone ht hpc hcall hb hst =>
    refine .callers (callers_thr hc ht rfl (closed_same rfl) ?_)
    simp only [Thread.ahead, hpc, Pc.ahead, Sys.goto, Sys.ret, Sys.log]
    omega
  | mustCrash => exact .callers (callers_crash hc)
  | mustGo ht hpc hcall hm hcl hwc =>
    refine .callers (callers_thr hc ht rfl (closed_same rfl) ?_)
    simp only [Thread.ahead, hpc, Pc.ahead, Sys.goto, Sys.ret, Sys.log, Sys.markClosed]
    omega
  | pushCrash => exact .callers (callers_crash hc)
  | pushWait ht hpc hwc hcap hr hcall =>
    refine .callers (callers_thr hc ht rfl (closed_same rfl) ?_)
    simp only [Thread.ahead, hpc, Pc.ahead, Sys.goto, List.length_append, List.length_cons, List.length_nil]
    omega
  | pushRet ht hpc hwc hcap hr hcall =>
    refine .callers (callers_thr hc ht rfl (closed_same rfl) ?_)
    simp only [Thread.ahead, hpc, Pc.ahead, Sys.goto, Sys.ret, Sys.log, Sys.unlock, List.length_append, List.length_cons, List.length_nil]
    omega
  | @pushSub t th r n d a o ht hpc hwc hcap hr hcall =>
    obtain ⟨hcore, _, hth, _⟩ := handOut_spec { s with writeCh := s.writeCh ++ [r], trace := s.trace ++ [Obs.accepted t r] } n
    refine .callers (callers_thr hc ht (g := fun th => { th with pc := .ret .ok }) ?_ (closed_handOut (s := s) (n := n) (r := { s with writeCh := s.writeCh ++ [r], trace := s.trace ++ [Obs.accepted t r] }) rfl rfl) ?_)
    · simp only [Sys.ret, Sys.log, Sys.goto, Sys.unlock]
      rw [hth]
    · simp only [Sys.ret, Sys.log, Sys.goto, Sys.unlock]
      rw [hcore.writeCh]
      simp only [Thread.ahead, hpc, Pc.ahead, List.length_append, List.length_cons, List.length_nil]
      omega
  | pushFrameWait ht hpc hwc hcap hr hcall =>
    refine .callers (callers_thr hc ht rfl (closed_same rfl) ?_)
    simp only [Thread.ahead, hpc, Pc.ahead, Sys.goto, Sys.unlock, List.length_append, List.length_cons, List.length_nil]
    omega
  | pushFrameRet ht hpc hwc hcap hr hcall =>
    refine .callers (callers_frameDone hc ht rfl rfl ?_)
    simp only [Thread.ahead, hpc, Pc.ahead, Sys.unlock, List.length_append, List.length_cons, List.length_nil]
    omega
  | nilResponse => exact .callers (callers_crash hc)
  | waitClosed ht hpc hcl hcall =>
    refine .callers (callers_frameDone hc ht rfl rfl ?_)
    simp only [Thread.ahead, hpc, Pc.ahead]
    omega
  | unsub ht hcall hb hpc h => exact .callers (unsub_less hi hw hc ht hcall hb (unsub_cases h))
  | sendTimeout ht hpc hcall hcfg =>
    refine .callers (callers_thr hc ht rfl (closed_same rfl) ?_)
    simp only [Thread.ahead, hpc, Pc.ahead, Sys.goto, Sys.ret, Sys.log, Sys.unlock]
    omega
  | receiptTimeout ht hpc hcall hcfg =>
    refine .callers (callers_thr hc ht rfl (closed_same rfl) ?_)
    simp only [Thread.ahead, hpc, Pc.ahead, Sys.goto, Sys.ret, Sys.log, Sys.unlock]
    omega
  | disconnectTimeout ht hpc hcall hcfg =>
    refine .callers (callers_thr hc ht rfl (closed_same rfl) ?_)
    simp only [Thread.ahead, hpc, Pc.ahead, Sys.goto, Sys.ret, Sys.log, Sys.unlock, Sys.markClosed]
    omega
  | frameTimeout ht hpc hcall hcfg =>
    refine .callers (callers_frameDone hc ht rfl rfl ?_)
    simp only [Thread.ahead, hpc, Pc.ahead]
    omega
  | selectTimeout ht hpc hcall hcfg =>
    refine .callers (callers_thr hc ht rfl (closed_same rfl) ?_)
    simp only [Thread.ahead, hpc, Pc.ahead, Sys.goto]
    omega
  | helper ht hcall hb h =>
    obtain ⟨th, i, o, b, ht, _, hb, hs⟩ := helper_cases h
    exact .callers (helper_less hc ht hb hs)
  | fail hl hp => exact .phase (callers_same hc rfl (closed_same rfl) (Nat.le_refl _)) (by rw [hl]; simp [LoopPc.phase])
  | readSkip hl hr hs =>
    refine .pending (callers_same hc rfl (closed_same rfl) (Nat.le_refl _)) (Nat.le_refl _) ?_
    simp only [Sys.pending, hr, List.length_cons]
    omega
  | readReceipt hl hr hf hid hn =>
    refine .pending (callers_same hc rfl (closed_same rfl) (Nat.le_refl _)) (by rw [hl]; simp [LoopPc.phase]) ?_
    simp only [Sys.pending, hr, hl, LoopPc.ahead, List.length_cons]
    omega
  | readMissing hl hr => exact .phase (callers_same hc rfl (closed_same rfl) (Nat.le_refl _)) (by rw [hl]; simp [LoopPc.phase])
  | readErr hl hr => exact .phase (callers_same hc rfl (closed_same rfl) (Nat.le_refl _)) (by rw [hl]; simp [LoopPc.phase])
  | readMessage hl hr hf hid hn =>
    refine .pending (callers_same hc rfl (closed_same rfl) (Nat.le_refl _)) (by rw [hl]; simp [LoopPc.phase]) ?_
    simp only [Sys.pending, hr, hl, LoopPc.ahead, List.length_cons]
    omega
  | @takeQuiet r rest hl hwc ho =>
    obtain ⟨_, _, h1, _, _, _, _, h2, h3, _⟩ := takeReq_spec s r rest
    exact .callers (callers_write hc h2 (closed_same h3) (by rw [h1, hwc]; simp))
  | @takeSent r rest f hl hwc ho =>
    obtain ⟨_, _, h1, _, _, _, _, h2, h3, _⟩ := takeReq_spec s r rest
    exact .callers (callers_write hc h2 (closed_same h3) (by show (s.takeReq r rest).1.writeCh.length < _; rw [h1, hwc]; simp))
  | @takeFail r rest f order hl hwc ho hp =>
    obtain ⟨_, _, h1, _, _, _, _, h2, h3, _⟩ := takeReq_spec s r rest
    exact .callers (callers_write hc h2 (closed_same h3) (by show (s.takeReq r rest).1.writeCh.length < _; rw [h1, hwc]; simp))
  | deliverCrash => exact .callers (callers_crash hc)
  | @giveReceipt f id n b s1 hl hcl h1 =>
    have key : ∀ s2 : Sys, s2.threads = s1.threads → s2.subs = s1.subs → s2.writeCh = s1.writeCh → s2.crashed = s1.crashed ∨ s2.crashed.isSome → s2.callers ≤ s1.callers := by
      intro s2 e1 e2 e3 e4
      have : Thread.ahead s2 = Thread.ahead s1 := by funext th; unfold Thread.ahead Thread.gone Sys.gone; rw [e2]
      unfold Sys.callers
      rw [e1, e3, this]
      rcases e4 with e4 | e4
      · rw [e4]; omega
      · rw [e4]; simp
    obtain ⟨c1, c2, c3, c4, c5, c6, c7, c8, c9, _⟩ := closeChan_spec { s1 with channels := s1.channels.del id, loop := .select } n
    have c10 : (Sys.closeChan { s1 with channels := s1.channels.del id, loop := .select } n).crashed = s1.crashed ∨ (Sys.closeChan { s1 with channels := s1.channels.del id, loop := .select } n).crashed.isSome := by
      unfold Sys.closeChan; split
      · exact .inr rfl
      · exact .inl rfl
    have k := key _ c8 c9 c3 c10
    rcases handOver_less hc (handOver_cases h1) with ⟨h2, h3⟩ | ⟨h2, h3, h4, h5⟩
    · exact .callers (Nat.lt_of_le_of_lt k h2)
    · refine .pending (Nat.le_trans k h2) (by rw [c6, hl]; simp [LoopPc.phase]) ?_
      unfold Sys.pending
      rw [c5, c6, c9, hl]
      simp only [h4, LoopPc.ahead]
      omega
  | @giveMessage f n b s1 hl hcl h1 =>
    rcases handOver_less hc (handOver_cases h1) with ⟨h2, h3⟩ | ⟨h2, h3, h4, h5⟩
    · exact .callers h2
    · refine .pending h2 (by rw [hl]; simp [LoopPc.phase]) ?_
      simp only [Sys.pending, hl, h4, LoopPc.ahead]
      omega
  | @giveErr f n l b s1 hl hcl h1 =>
    have key : ∀ s2 : Sys, s2.threads = s1.threads → s2.subs = s1.subs → s2.writeCh = s1.writeCh → s2.crashed = s1.crashed ∨ s2.crashed.isSome → s2.callers ≤ s1.callers := by
      intro s2 e1 e2 e3 e4
      have : Thread.ahead s2 = Thread.ahead s1 := by funext th; unfold Thread.ahead Thread.gone Sys.gone; rw [e2]
      unfold Sys.callers
      rw [e1, e3, this]
      rcases e4 with e4 | e4
      · rw [e4]; omega
      · rw [e4]; simp
    obtain ⟨c1, c2, c3, c4, c5, c6, c7, c8, c9, _⟩ := closeChan_spec { s1 with loop := .errs f l } n
    have c10 : (Sys.closeChan { s1 with loop := .errs f l } n).crashed = s1.crashed ∨ (Sys.closeChan { s1 with loop := .errs f l } n).crashed.isSome := by
      unfold Sys.closeChan; split
      · exact .inr rfl
      · exact .inl rfl
    have k := key _ c8 c9 c3 c10
    rcases handOver_less hc (handOver_cases h1) with ⟨h2, h3⟩ | ⟨h2, h3, h4, h5⟩
    · exact .callers (Nat.lt_of_le_of_lt k h2)
    · refine .pending (Nat.le_trans k h2) (by rw [c6, hl]; simp [LoopPc.phase]) ?_
      unfold Sys.pending
      rw [c5, c6, c9, hl]
      simp only [h4, LoopPc.ahead, List.length_cons]
      omega
  | @giveFail f n l b s1 hl hcl h1 =>
    rcases handOver_less hc (handOver_cases h1) with ⟨h2, h3⟩ | ⟨h2, h3, h4, h5⟩
    · exact .callers h2
    · refine .pending h2 (by rw [hl]; simp [LoopPc.phase]) ?_
      simp only [Sys.pending, hl, h4, LoopPc.ahead, List.length_cons]
      omega
  | finErrs hl => exact .phase (callers_same hc rfl (closed_same rfl) (Nat.le_refl _)) (by rw [hl]; simp [LoopPc.phase, Sys.markClosed])
  | finClosed hl => exact .phase (callers_same hc rfl (closed_same rfl) (Nat.le_refl _)) (by rw [hl]; simp [LoopPc.phase])
  | finCrash => exact .callers (callers_crash hc)
  | finFail hl => exact .phase (callers_same hc rfl (closed_same rfl) (Nat.le_refl _)) (by rw [hl]; simp [LoopPc.phase, Sys.markClosed])
  | sub h =>
    obtain ⟨b, hb, hs⟩ := subStep_cases h
    exact sub_less hc hb hs
  | @take i b m rest hb hbuf =>
    refine .pending (callers_same hc rfl (closed_set hb rfl id) (Nat.le_refl _)) (Nat.le_refl _) ?_
    have := sum_set (f := Sub.ahead) (b' := { b with buf := rest }) hb
    simp only [Sub.ahead, hbuf, List.length_cons] at this
    simp only [Sys.pending, Sys.setSub, Sub.ahead]
    omega

end Stomp.Client

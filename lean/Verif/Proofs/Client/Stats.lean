import Verif.Model.Client.Stats
import Verif.Proofs.Client.NoRead
/-! # The counters of a connection -/
namespace Stomp.Client
open Stomp

/-- The call was counted, and its request has not been accepted: it waits for room in `writeCh`, or has given up waiting. -/
def Thread.owes (th : Thread) : Bool :=
  match th.pc, th.call with
  | .push _, _ => true
  | .ret .sendTimeout, .send .. => true
  | _, _ => false

def debt (s : Sys) : Nat := (handedIn s.trace).length + s.threads.countP Thread.owes

theorem countP_modify {α : Type} (p : α → Bool) (f : α → α) : ∀ (l : List α) (t : Nat) (x : α), l[t]? = some x →
    (l.modify t f).countP p + (p x).toNat = l.countP p + (p (f x)).toNat
  | [], t, x, h => by simp at h
  | a :: l, 0, x, h => by
    simp only [List.getElem?_cons_zero, Option.some.injEq] at h; subst h
    rw [List.modify_zero_cons, List.countP_cons, List.countP_cons]
    cases p a <;> cases p (f a) <;> simp <;> omega
  | a :: l, t + 1, x, h => by
    rw [List.getElem?_cons_succ] at h
    have := countP_modify p f l t x h
    rw [List.modify_succ_cons, List.countP_cons, List.countP_cons]
    omega

/-- A caller goes on, and nothing is accepted. -/
theorem debt_goto {s s0 : Sys} {t : Nat} {th : Thread} {pc : Pc} {k : Nat} (ht : s.threads[t]? = some th) (h1 : s0.threads = s.threads) (h2 : s0.trace = s.trace)
    (hk : ({ th with pc := pc } : Thread).owes.toNat = th.owes.toNat + k) : debt (s0.goto t pc) = debt s + k := by
  unfold debt Sys.goto
  dsimp only
  rw [h1, h2]
  have := countP_modify Thread.owes (fun th => { th with pc := pc }) s.threads t th ht
  omega

theorem handedIn_ret (tr : List Obs) (t : Nat) (r : Res) : handedIn (tr ++ [.ret t r]) = handedIn tr := by
  rw [handedIn_append]; exact List.append_nil _

theorem debt_ret {s s0 : Sys} {t : Nat} {th : Thread} {r : Res} (ht : s.threads[t]? = some th) (h1 : s0.threads = s.threads) (h2 : s0.trace = s.trace)
    (hk : ({ th with pc := .ret r } : Thread).owes.toNat = th.owes.toNat) : debt (s0.ret t r) = debt s := by
  have := debt_goto (s0 := s0) (k := 0) ht h1 h2 (by rw [hk, Nat.add_zero])
  unfold debt Sys.ret Sys.log at *
  dsimp only at *
  rw [handedIn_ret]
  exact this

theorem debt_frameDone {s s0 : Sys} {t : Nat} {th : Thread} {r : Res} (ht : s.threads[t]? = some th) (h1 : s0.threads = s.threads) (h2 : s0.trace = s.trace)
    (ho : th.owes = false) (hr : r ≠ .sendTimeout) : debt (s0.frameDone t th.call r) = debt s := by
  have e : ∀ {pc : Pc}, (∀ r, pc ≠ .push r) → pc ≠ .ret .sendTimeout → ({ th with pc := pc } : Thread).owes.toNat = th.owes.toNat := by
    intro pc h1 h2
    rw [ho]
    unfold Thread.owes
    split
    · rename_i h; exact absurd h (h1 _)
    · rename_i h _; exact absurd h h2
    · rfl
  unfold Sys.frameDone
  repeat' split
  · exact debt_goto (k := 0) ht h1 h2 (by rw [e (by simp) (by simp)]; rfl)
  · exact debt_goto (k := 0) ht h1 h2 (by rw [e (by simp) (by simp)]; rfl)
  · exact debt_ret ht h1 h2 (e (by simp) (by simp [hr]))

theorem debt_same {s s' : Sys} (h1 : s'.threads = s.threads) (h2 : s'.trace = s.trace) : debt s' = debt s := by unfold debt; rw [h1, h2]

theorem owes_pc {th : Thread} (h1 : ∀ r, th.pc ≠ .push r) (h2 : th.pc ≠ .ret .sendTimeout) : th.owes = false := by
  unfold Thread.owes
  split
  · rename_i h; exact absurd h (h1 _)
  · rename_i h _; exact absurd h h2
  · rfl

theorem debt_frameEnter {s s' : Sys} {t : Nat} {th : Thread} {f : Frame} (ht : s.threads[t]? = some th) (ho : th.owes = false) (h : s.frameEnter t th.call f = some s') :
    debt s' = debt s + (s.mutex.isNone && !s.closed).toNat := by
  unfold Sys.frameEnter at h
  repeat' split at h
  all_goals first
    | contradiction
    | (simp only [Option.some.injEq] at h; subst h)
  · rename_i hm hc
    rw [hc]
    simp only [Bool.not_true, Bool.and_false, Bool.toNat_false, Nat.add_zero]
    exact debt_frameDone ht rfl rfl ho (by simp)
  all_goals
    rename_i hm hc _
    rw [show (s.mutex.isNone && !s.closed) = true by simp_all]
    exact debt_goto ht rfl rfl (by rw [ho]; rfl)

theorem debt_begin {s s' : Sys} {t : Nat} {th : Thread} (ht : s.threads[t]? = some th) (hp : th.pc = .start) (h : s.begin t th.call = some s') :
    debt s' = debt s + (passes s t).toNat := by
  have ho : th.owes = false := owes_pc (by rw [hp]; simp) (by rw [hp]; simp)
  unfold passes
  rw [ht]
  obtain ⟨call, pc, hl⟩ := th
  dsimp only at *
  subst hp
  unfold Sys.begin at h
  cases call with
  | frame f => exact debt_frameEnter (th := ⟨.frame f, .start, hl⟩) ht ho h
  | send d c b o =>
    dsimp only at h ⊢
    split at h
    · cases h
    split at h
    · rename_i hm hc
      simp only [Option.some.injEq] at h; subst h
      rw [hc]
      simpa using debt_ret ht rfl rfl (by rfl)
    split at h
    · rename_i hm hc hs
      simp only [Option.some.injEq] at h; subst h
      rw [hs]
      simpa using debt_ret ht rfl rfl (by rfl)
    · rename_i hm hc last f hs
      rw [hs, show (s.mutex.isNone && !s.closed && (some _).isSome) = true by simp_all]
      split at h <;> (simp only [Option.some.injEq] at h; subst h; exact debt_goto ht rfl rfl (by rfl))
  | subscribe d a o =>
    dsimp only at h ⊢
    split at h
    · cases h
    split at h
    · rename_i hm hc
      simp only [Option.some.injEq] at h; subst h
      rw [hc]
      simpa using debt_ret (s0 := s.closeNet) ht rfl rfl (by rfl)
    split at h
    · rename_i hm hc hs
      simp only [Option.some.injEq] at h; subst h
      rw [hs]
      simpa using debt_ret ht rfl rfl (by rfl)
    · rename_i hm hc last f hs
      rw [hs, show (s.mutex.isNone && !s.closed && (some _).isSome) = true by simp_all]
      simp only [Option.some.injEq] at h; subst h; exact debt_goto ht rfl rfl (by rfl)
  | unsubscribe i o =>
    dsimp only at h ⊢
    show _ = debt s + 0
    rw [Nat.add_zero]
    repeat' split at h
    all_goals first
      | contradiction
      | (simp only [Option.some.injEq] at h; subst h)
    · exact debt_ret ht rfl rfl (by rfl)
    · exact debt_goto (k := 0) ht rfl rfl (by rfl)
    · exact debt_ret ht rfl rfl (by rfl)
  | disconnect =>
    dsimp only at h ⊢
    split at h
    · cases h
    split at h
    · rename_i hm hc
      simp only [Option.some.injEq] at h; subst h
      rw [hc]
      simpa using debt_ret ht rfl rfl (by rfl)
    · rename_i hm hc
      rw [show (s.mutex.isNone && !s.closed) = true by simp_all]
      simp only [Option.some.injEq] at h; subst h; exact debt_goto ht rfl rfl (by rfl)
  | mustDisconnect =>
    dsimp only at h ⊢
    show _ = debt s + 0
    rw [Nat.add_zero]
    repeat' split at h
    all_goals first
      | contradiction
      | (simp only [Option.some.injEq] at h; subst h)
    · exact debt_ret ht rfl rfl (by rfl)
    · exact debt_same rfl rfl
    · exact debt_ret (s0 := ({ s with writeClosed := true } : Sys).markClosed) ht rfl rfl (by rfl)

theorem debt_handOut (s : Sys) (n : Nat) : debt (s.handOut n) = debt s := by
  unfold Sys.handOut
  split <;> rfl

theorem handOut_same (s : Sys) (n : Nat) : (s.handOut n).threads = s.threads ∧ (s.handOut n).trace = s.trace := by
  unfold Sys.handOut
  split <;> exact ⟨rfl, rfl⟩

/-- The request is accepted: the call is settled. -/
theorem debt_accept {s s' : Sys} {t : Nat} {th : Thread} {r : Req} {pc : Pc} {l : List Obs} (ht : s.threads[t]? = some th) (hp : th.owes = true)
    (h1 : s'.threads = s.threads.modify t fun th => { th with pc := pc }) (h2 : s'.trace = s.trace ++ [.accepted t r] ++ l) (hl : handedIn l = [])
    (ho : ({ th with pc := pc } : Thread).owes = false) : debt s' = debt s := by
  unfold debt
  rw [h1, h2, handedIn_append, handedIn_append, hl]
  have := countP_modify Thread.owes (fun th => { th with pc := pc }) s.threads t th ht
  rw [hp, ho] at this
  simp only [Bool.toNat_true, Bool.toNat_false] at this
  have : (handedIn [Obs.accepted t r]).length = 1 := rfl
  simp only [List.length_append, List.length_nil]
  omega

theorem debt_push {cfg : Cfg} {s s' : Sys} {t : Nat} {th : Thread} {r : Req} (ht : s.threads[t]? = some th) (hp : th.pc = .push r) (h : s.push cfg t th.call r = some s') :
    debt s' = debt s := by
  have ho : th.owes = true := by unfold Thread.owes; rw [hp]
  obtain ⟨call, pc, hl⟩ := th
  dsimp only at h
  unfold Sys.push at h
  dsimp only at h
  repeat' split at h
  all_goals first
    | contradiction
    | (simp only [Option.some.injEq] at h; subst h)
  · exact debt_same rfl rfl
  · exact debt_accept (l := []) ht ho rfl (List.append_nil _).symm rfl rfl
  · exact debt_accept (l := []) ht ho rfl (List.append_nil _).symm rfl rfl
  · exact debt_accept (l := [.ret t .ok]) ht ho rfl rfl rfl rfl
  · rename_i n _
    have e := handOut_same { s with writeCh := s.writeCh ++ [r], trace := s.trace ++ [.accepted t r] } n
    refine debt_accept (r := r) (l := [.ret t .ok]) (pc := .ret .ok) ht ho ?_ ?_ rfl rfl
    · show (Sys.handOut _ _).threads.modify t _ = _
      rw [e.1]
    · show (Sys.handOut _ _).trace ++ _ = _
      rw [e.2]
  · exact debt_accept (l := []) ht ho rfl (List.append_nil _).symm rfl rfl
  · exact debt_accept (l := []) ht ho rfl (List.append_nil _).symm rfl rfl
  · exact debt_accept (l := [.ret t .ok]) ht ho rfl rfl rfl rfl
  · exact debt_accept (l := []) (pc := .subLock .ok) ht ho rfl (List.append_nil _).symm rfl rfl

theorem debt_waitClosed {s s' : Sys} {t n : Nat} {th : Thread} (ht : s.threads[t]? = some th) (hp : th.pc = .wait n) (h : s.waitClosed t th.call n = some s') :
    debt s' = debt s := by
  have ho : th.owes = false := owes_pc (by rw [hp]; simp) (by rw [hp]; simp)
  unfold Sys.waitClosed at h
  repeat' split at h
  all_goals first
    | contradiction
    | (simp only [Option.some.injEq] at h; subst h)
  · exact debt_same rfl rfl
  · exact debt_same rfl rfl
  · exact debt_frameDone ht rfl rfl ho (by simp)

theorem debt_unsub {cfg : Cfg} {s s' : Sys} {t i j : Nat} {th : Thread} {b : Sub} {o : List SubOpt} (ht : s.threads[t]? = some th) (hc : th.call = .unsubscribe j o)
    (hp : ∀ r, th.pc ≠ .push r) (h : s.unsub cfg t th i b = some s') : debt s' = debt s := by
  have ho : ∀ pc : Pc, (∀ r, pc ≠ .push r) → ({ th with pc := pc } : Thread).owes = false := by
    intro pc hp
    unfold Thread.owes
    dsimp only
    rw [hc]
    split
    · exact absurd rfl (hp _)
    · rename_i h; cases h
    · rfl
  have h0 : th.owes = false := ho th.pc hp
  unfold Sys.unsub at h
  repeat' split at h
  all_goals first
    | contradiction
    | (simp only [Option.some.injEq] at h; subst h)
  all_goals first
    | exact debt_same rfl rfl
    | exact debt_goto (k := 0) ht rfl rfl (by rw [ho _ (by simp), h0]; rfl)
    | exact debt_ret ht rfl rfl (by rw [ho _ (by simp), h0])
    | skip
  have := countP_modify Thread.owes (fun th => { th with pc := .select, helper := .start }) s.threads t th ht
  unfold debt
  dsimp only
  rw [h0, show ({ th with pc := Pc.select, helper := HPc.start } : Thread).owes = false by unfold Thread.owes; rfl] at this
  omega

theorem debt_thread {cfg : Cfg} {s s' : Sys} {t : Nat} (h : s.thread cfg t = some s') : debt s' = debt s + (passes s t).toNat := by
  unfold Sys.thread at h
  split at h
  · cases h
  rename_i th ht
  have no : (∀ f, th.pc ≠ .lock f) → th.pc ≠ .start → passes s t = false := by
    intro h1 h2
    unfold passes
    rw [ht]
    dsimp only
    split <;> first | rfl | (rename_i h _; exact absurd h h2) | (rename_i h; exact absurd h (h1 _)) | (rename_i h _; exact absurd h (h1 _))
  split at h
  · exact debt_begin ht (by assumption) h
  · rename_i f hp
    rw [debt_frameEnter ht (owes_pc (by rw [hp]; simp) (by rw [hp]; simp)) h]
    have : passes s t = (s.mutex.isNone && !s.closed) := by
      unfold passes
      rw [ht]
      obtain ⟨call, pc, hl⟩ := th
      dsimp only at hp
      subst hp
      cases call <;> rfl
    rw [this]
  · rename_i r hp
    rw [no (by rw [hp]; simp) (by rw [hp]; simp)]
    exact debt_push ht hp h
  · rename_i n hp
    rw [no (by rw [hp]; simp) (by rw [hp]; simp)]
    exact debt_waitClosed ht hp h
  · cases h
  · rename_i h1 h2 h3 h4 h5
    rw [no (by intro f e; exact h2 f e) (by intro e; exact h1 e)]
    split at h
    · rename_i hc
      split at h
      · cases h
      · exact debt_unsub ht hc (by intro r e; exact h3 r e) h
    · cases h

theorem debt_timeout {cfg : Cfg} {s s' : Sys} {t : Nat} (h : s.timeout cfg t = some s') : debt s' = debt s := by
  unfold Sys.timeout at h
  split at h
  · cases h
  rename_i th ht
  obtain ⟨call, pc, hl⟩ := th
  dsimp only at h
  repeat' split at h
  all_goals first
    | contradiction
    | (simp only [Option.some.injEq] at h; subst h)
  all_goals first
    | exact debt_ret ht rfl rfl rfl
    | exact debt_goto (k := 0) ht rfl rfl rfl
    | exact debt_frameDone ht rfl rfl rfl (by simp)

theorem debt_helper {s s' : Sys} {t : Nat} (h : s.helper t = some s') : debt s' = debt s := by
  unfold Sys.helper at h
  split at h
  · cases h
  rename_i th ht
  have key : ∀ (s0 : Sys) (p : HPc), s0.threads = s.threads → s0.trace = s.trace → debt (s0.setHelper t p) = debt s := by
    intro s0 p h1 h2
    unfold debt Sys.setHelper
    dsimp only
    rw [h1, h2]
    have := countP_modify Thread.owes (fun th => { th with helper := p }) s.threads t th ht
    have e : ({ th with helper := p } : Thread).owes = th.owes := rfl
    rw [e] at this
    omega
  repeat' split at h
  all_goals first
    | contradiction
    | (simp only [Option.some.injEq] at h; subst h)
  all_goals first
    | exact debt_same rfl rfl
    | exact key _ _ rfl rfl

theorem debt_response {s : Sys} {t n : Nat} {th : Thread} {f : Frame} {k : Bool} (ht : s.threads[t]? = some th) (hp : th.pc = .wait n) : debt (s.response t th.call f k) = debt s := by
  have ho : th.owes = false := owes_pc (by rw [hp]; simp) (by rw [hp]; simp)
  have e : ∀ r : Res, r ≠ .sendTimeout → ({ th with pc := .ret r } : Thread).owes.toNat = th.owes.toNat := by
    intro r hr
    rw [ho, owes_pc (by simp) (by simp [hr])]
  have hr : ∀ x : Prop, ∀ _ : Decidable x, (if x then Res.ok else Res.response f) ≠ .sendTimeout := by
    intro x _; split <;> simp
  unfold Sys.response
  dsimp only
  split
  · exact debt_ret ht rfl rfl (e _ (hr _ _))
  · split
    · exact debt_ret ht rfl rfl (e _ (by split <;> simp))
    · exact debt_ret ht rfl rfl (e _ (by first | exact hr _ _ | simp))
  · exact debt_frameDone ht rfl rfl ho (hr _ _)

theorem debt_handOver {s s' : Sys} {n : Nat} {f : Frame} {k : Bool} (h : s.handOver n f k = some s') : debt s' = debt s := by
  unfold Sys.handOver at h
  repeat' split at h
  all_goals first
    | contradiction
    | (simp only [Option.some.injEq] at h; subst h)
  · rename_i ht hp
    exact debt_response ht hp
  · exact debt_same rfl rfl

theorem closeChan_same (s : Sys) (n : Nat) : (s.closeChan n).threads = s.threads ∧ (s.closeChan n).trace = s.trace := by
  unfold Sys.closeChan
  split <;> exact ⟨rfl, rfl⟩

theorem debt_closeChan (s : Sys) (n : Nat) : debt (s.closeChan n) = debt s := debt_same (closeChan_same s n).1 (closeChan_same s n).2

theorem debt_deliver {s s' : Sys} {k : Bool} (h : s.deliver k = some s') : debt s' = debt s := by
  unfold Sys.deliver at h
  repeat' split at h
  all_goals first
    | contradiction
    | (simp only [Option.some.injEq] at h; subst h; exact debt_same rfl rfl)
    | (obtain ⟨s1, h1, rfl⟩ := Option.map_eq_some_iff.1 h
       rw [← debt_handOver h1]
       first
         | exact debt_closeChan _ _
         | exact debt_same rfl rfl)

theorem debt_finish {s s' : Sys} (h : s.finish = some s') : debt s' = debt s := by
  unfold Sys.finish at h
  repeat' split at h
  all_goals first
    | contradiction
    | (simp only [Option.some.injEq] at h; subst h; exact debt_same rfl rfl)

theorem debt_log {s s' : Sys} {l : List Obs} (h1 : s'.threads = s.threads) (h2 : s'.trace = s.trace ++ l) (h : handedIn l = []) : debt s' = debt s := by
  unfold debt
  rw [h1, h2, handedIn_append, h, List.append_nil]

theorem failWith_threads {s s' : Sys} {x : Bytes} {o : List Nat} (h : s.failWith x o = some s') : s'.threads = s.threads := by
  unfold Sys.failWith at h
  split at h
  · injection h with h; subst h; rfl
  · cases h

theorem debt_fail {s s0 s' : Sys} {x : Bytes} {o : List Nat} (h0 : debt s0 = debt s) (h : s0.failWith x o = some s') : debt s' = debt s :=
  (debt_same (failWith_threads h) (failWith_trace h)).trans h0

theorem debt_took {s s0 s' : Sys} {x : Bytes} {o : List Nat} {f : Option Frame} (h : s0.failWith x o = some s') (h1 : s0.threads = s.threads) (h2 : s0.trace = s.trace ++ [.took f]) : debt s' = debt s :=
  debt_fail (debt_log h1 h2 rfl) h

theorem debt_loopRead {s s' : Sys} {o : List Nat} (h : s.loopRead o = some s') : debt s' = debt s := by
  unfold Sys.loopRead at h
  dsimp only at h
  repeat' split at h
  all_goals first
    | contradiction
    | exact debt_fail rfl h
    | exact debt_took h rfl rfl
    | (simp only [Option.some.injEq] at h; subst h; exact debt_log (l := [.took _]) rfl rfl rfl)

theorem debt_takeReq (s : Sys) (r : Req) (rest : List Req) : debt (s.takeReq r rest).1 = debt s := by
  unfold Sys.takeReq
  dsimp only
  split
  · exact (debt_same (closeChan_same _ _).1 (closeChan_same _ _).2).trans (debt_log (l := [.taken r]) rfl rfl rfl)
  · exact debt_log (l := [.taken r]) rfl rfl rfl

theorem debt_loopWrite {s s' : Sys} {k : Bool} {o : List Nat} (h : s.loopWrite k o = some s') : debt s' = debt s := by
  unfold Sys.loopWrite at h
  split at h
  · split at h
    · exact debt_fail rfl h
    · cases h
  · rename_i r rest _
    have ht := debt_takeReq s r rest
    split at h
    · rename_i s1 h1
      rw [h1] at ht
      injection h with h; subst h
      exact ht
    · rename_i s1 f h1
      rw [h1] at ht
      split at h
      · split at h
        · cases h
        · injection h with h; subst h
          exact (debt_log (s := s1) (s' := s1.log (.sent f)) (l := [.sent f]) rfl rfl rfl).trans ht
      · exact debt_fail ((debt_log (s := s1) (s' := s1.log (.failed f)) (l := [.failed f]) rfl rfl rfl).trans ht) h

theorem debt_loopBeat {cfg : Cfg} {s s' : Sys} {k : Bool} {o : List Nat} (h : s.loopBeat cfg k o = some s') : debt s' = debt s := by
  unfold Sys.loopBeat at h
  repeat' split at h
  all_goals first
    | contradiction
    | exact debt_fail rfl h
    | (simp only [Option.some.injEq] at h; subst h; exact debt_log (l := [.beat]) rfl rfl rfl)

theorem debt_subStep {s s' : Sys} {i : Nat} (h : s.subStep i = some s') : debt s' = debt s := by
  unfold Sys.subStep at h
  repeat' split at h
  all_goals first
    | contradiction
    | (simp only [Option.some.injEq] at h; subst h; exact debt_same rfl rfl)

/-- What a step adds to the requests accepted and the calls that wait for acceptance or have given up: one, if a caller gets past the counter. -/
theorem debt_step {cfg : Cfg} {x : CSys} {s' : Sys} {e : Ev} (h : x.sys.step cfg e = some s') : debt s' = debt x.sys + (x.counts e).toNat := by
  unfold Sys.step at h
  split at h
  · cases h
  cases e with
  | thread t => exact debt_thread h
  | timeout t => exact debt_timeout h
  | helper t => exact debt_helper h
  | deliver k => exact debt_deliver h
  | finish => exact debt_finish h
  | sub i => exact debt_subStep h
  | net f =>
    dsimp only at h
    repeat' split at h
    all_goals first
      | contradiction
      | (simp only [Option.some.injEq] at h; subst h; exact debt_log (l := [.read f]) rfl rfl rfl)
  | loopRead o =>
    dsimp only at h
    split at h
    · exact debt_loopRead h
    · cases h
  | loopWrite k o =>
    dsimp only at h
    split at h
    · exact debt_loopWrite h
    · cases h
  | loopBeat k o =>
    dsimp only at h
    split at h
    · exact debt_loopBeat h
    · cases h
  | loopTimeout o =>
    dsimp only at h
    split at h
    · exact debt_fail rfl h
    · cases h
  | call c =>
    dsimp only at h
    split at h
    · injection h with h; subst h
      show _ = debt x.sys + 0
      unfold debt
      dsimp only
      rw [List.countP_append]
      have : List.countP Thread.owes [⟨c, .start, .none⟩] = 0 := by rw [List.countP_singleton]; rfl
      omega
    · cases h
  | netErr =>
    dsimp only at h
    split at h
    · cases h
    · injection h with h; subst h; exact debt_same rfl rfl
  | take i =>
    dsimp only at h
    repeat' split at h
    all_goals first
      | contradiction
      | (simp only [Option.some.injEq] at h; subst h; exact debt_same rfl rfl)
  | tick => injection h with h; subst h; exact debt_same rfl rfl

end Stomp.Client

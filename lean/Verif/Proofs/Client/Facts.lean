import Verif.Proofs.Client.Step
/-! # What the compound steps of the client system change -/
namespace Stomp.Client
open Stomp

/-- Only `threads`, `subs`, `crashed` and `trace` differ. -/
structure SameCore (s s' : Sys) : Prop where
  closed : s'.closed = s.closed
  netClosed : s'.netClosed = s.netClosed
  mutex : s'.mutex = s.mutex
  writeCh : s'.writeCh = s.writeCh
  writeClosed : s'.writeClosed = s.writeClosed
  readCh : s'.readCh = s.readCh
  readDone : s'.readDone = s.readDone
  loop : s'.loop = s.loop
  channels : s'.channels = s.channels
  chans : s'.chans = s.chans
  lastId : s'.lastId = s.lastId

/-- Positions of a caller that has handed over its request, or never will. -/
def Pc.past : Pc → Bool
  | .start | .lock _ | .push _ | .wait _ => false
  | _ => true

theorem unsub_spec {cfg : Cfg} {s s' : Sys} {t i : Nat} {th : Thread} {b : Sub} (h : s.unsub cfg t th i b = some s') :
    SameCore s s' ∧ ((s'.threads = s.threads ∧ s'.trace = s.trace ∧ s'.crashed ≠ none) ∨
      (s'.crashed = s.crashed ∧ ∃ (pc : Pc) (hp : Thread → HPc), s'.threads = s.threads.modify t (fun th => { th with pc := pc, helper := hp th }) ∧
        pc.past = true ∧
        ((∀ r, pc ≠ .ret r) ∧ s'.trace = s.trace ∨ ∃ r, pc = .ret r ∧ s'.trace = s.trace ++ [.ret t r]))) := by
  unfold Sys.unsub at h
  repeat' split at h
  all_goals first
    | contradiction
    | simp only [Option.some.injEq] at h
  all_goals subst h
  all_goals refine ⟨⟨rfl, rfl, rfl, rfl, rfl, rfl, rfl, rfl, rfl, rfl, rfl⟩, ?_⟩
  all_goals first
    | exact Or.inl ⟨rfl, rfl, by simp [Sys.crash]⟩
    | exact Or.inr ⟨rfl, _, fun th => th.helper, rfl, rfl, Or.inl ⟨by simp, rfl⟩⟩
    | exact Or.inr ⟨rfl, _, fun th => th.helper, rfl, rfl, Or.inr ⟨_, rfl, rfl⟩⟩
    | exact Or.inr ⟨rfl, _, fun _ => .start, rfl, rfl, Or.inl ⟨by simp, rfl⟩⟩

theorem helper_spec {s s' : Sys} {t : Nat} (h : s.helper t = some s') :
    SameCore s s' ∧ s'.trace = s.trace ∧ ((s'.threads = s.threads ∧ s'.crashed ≠ none) ∨
      (s'.crashed = s.crashed ∧ ∃ hp, s'.threads = s.threads.modify t (fun th => { th with helper := hp }))) := by
  unfold Sys.helper at h
  repeat' split at h
  all_goals first
    | contradiction
    | simp only [Option.some.injEq] at h
  all_goals subst h
  all_goals refine ⟨⟨rfl, rfl, rfl, rfl, rfl, rfl, rfl, rfl, rfl, rfl, rfl⟩, rfl, ?_⟩
  all_goals first
    | exact Or.inl ⟨rfl, by simp [Sys.crash]⟩
    | exact Or.inr ⟨rfl, _, rfl⟩

theorem subStep_spec {s s' : Sys} {i : Nat} (h : s.subStep i = some s') :
    SameCore s s' ∧ s'.trace = s.trace ∧ s'.threads = s.threads := by
  unfold Sys.subStep at h
  repeat' split at h
  all_goals first
    | contradiction
    | simp only [Option.some.injEq] at h
  all_goals subst h
  all_goals exact ⟨⟨rfl, rfl, rfl, rfl, rfl, rfl, rfl, rfl, rfl, rfl, rfl⟩, rfl, rfl⟩

theorem handOut_spec (s : Sys) (n : Nat) :
    SameCore s (s.handOut n) ∧ (s.handOut n).trace = s.trace ∧ (s.handOut n).threads = s.threads ∧
      (s.handOut n).crashed = s.crashed := by
  unfold Sys.handOut
  split <;> exact ⟨⟨rfl, rfl, rfl, rfl, rfl, rfl, rfl, rfl, rfl, rfl, rfl⟩, rfl, rfl, rfl⟩

/-- What a response means to a waiting caller. -/
def resOf (f : Frame) : Res := if f.command = Cmd.receipt then .ok else .response f

inductive HandOver (s : Sys) (n : Nat) (f : Frame) : Sys → Prop
  | send {t : Nat} {th : Thread} {c : Bool} {d ct b o} (hn : s.chans[n]? = some ⟨.caller t, c⟩)
      (ht : s.threads[t]? = some th) (hpc : th.pc = .wait n) (hcall : th.call = .send d ct b o) :
      HandOver s n f (s.unlock.ret t (resOf f))
  | discOk {t : Nat} {th : Thread} {c : Bool} {r : Res} (hn : s.chans[n]? = some ⟨.caller t, c⟩)
      (ht : s.threads[t]? = some th) (hpc : th.pc = .wait n) (hcall : th.call = .disconnect)
      (hf : f.command = Cmd.receipt) (hr : r = .ok ∨ r = .closeError) :
      HandOver s n f (s.markClosed.unlock.ret t r)
  | discErr {t : Nat} {th : Thread} {c : Bool} (hn : s.chans[n]? = some ⟨.caller t, c⟩)
      (ht : s.threads[t]? = some th) (hpc : th.pc = .wait n) (hcall : th.call = .disconnect)
      (hf : f.command ≠ Cmd.receipt) :
      HandOver s n f (s.unlock.ret t (.response f))
  | frame {t : Nat} {th : Thread} {c : Bool} (hn : s.chans[n]? = some ⟨.caller t, c⟩)
      (ht : s.threads[t]? = some th) (hpc : th.pc = .wait n)
      (hcall : ¬ ((∃ d c b o, th.call = .send d c b o) ∨ th.call = .disconnect)) :
      HandOver s n f (s.frameDone t th.call (resOf f))
  | sub {i : Nat} {b : Sub} {c : Bool} (hn : s.chans[n]? = some ⟨.sub i, c⟩)
      (hb : s.subs[i]? = some b) (hrl : b.rl = .recv) :
      HandOver s n f (s.setSub i { b with rl := Sys.rlRecv f })

theorem handOver_cases {s s' : Sys} {n : Nat} {f : Frame} {b : Bool} (h : s.handOver n f b = some s') :
    HandOver s n f s' := by
  unfold Sys.handOver at h
  repeat' split at h
  all_goals first
    | contradiction
    | simp only [Option.some.injEq] at h
  · rename_i t c hn _ th ht hpc
    subst h
    unfold Sys.response
    dsimp only
    split
    · rename_i hcall
      exact .send hn ht hpc hcall
    · rename_i hcall
      by_cases hf : f.command = Cmd.receipt
      · simp only [hf, if_true]
        refine .discOk hn ht hpc hcall hf ?_
        cases b <;> simp
      · simp only [hf, if_false]
        exact .discErr hn ht hpc hcall hf
    · rename_i h1 h2
      refine .frame hn ht hpc ?_
      rintro (⟨_, _, _, _, h⟩ | h)
      · exact h1 _ _ _ _ h
      · exact h2 h
  · subst h
    exact .sub (by assumption) (by assumption) (by assumption)

theorem closeChan_spec (s : Sys) (n : Nat) :
    (s.closeChan n).closed = s.closed ∧ (s.closeChan n).mutex = s.mutex ∧ (s.closeChan n).writeCh = s.writeCh ∧
    (s.closeChan n).writeClosed = s.writeClosed ∧ (s.closeChan n).readCh = s.readCh ∧
    (s.closeChan n).loop = s.loop ∧ (s.closeChan n).channels = s.channels ∧ (s.closeChan n).threads = s.threads ∧
    (s.closeChan n).subs = s.subs ∧ (s.closeChan n).trace = s.trace ∧ (s.closeChan n).lastId = s.lastId := by
  unfold Sys.closeChan
  split <;> exact ⟨rfl, rfl, rfl, rfl, rfl, rfl, rfl, rfl, rfl, rfl, rfl⟩

theorem takeReq_spec (s : Sys) (r : Req) (rest : List Req) :
    (s.takeReq r rest).1.closed = s.closed ∧ (s.takeReq r rest).1.mutex = s.mutex ∧
    (s.takeReq r rest).1.writeCh = rest ∧
    (s.takeReq r rest).1.writeClosed = s.writeClosed ∧ (s.takeReq r rest).1.readCh = s.readCh ∧
    (s.takeReq r rest).1.loop = s.loop ∧ (s.takeReq r rest).1.channels = (handleWrite s.channels r).1 ∧
    (s.takeReq r rest).1.threads = s.threads ∧ (s.takeReq r rest).1.subs = s.subs ∧
    (s.takeReq r rest).1.trace = s.trace ++ [.taken r] ∧ (s.takeReq r rest).1.lastId = s.lastId := by
  unfold Sys.takeReq
  dsimp only
  split
  · exact closeChan_spec _ _
  · exact ⟨rfl, rfl, rfl, rfl, rfl, rfl, rfl, rfl, rfl, rfl, rfl⟩

/-- `frameDone` moves the caller; what it may leave it at. -/
theorem frameDone_spec (s : Sys) (t : Nat) (call : Call) (r : Res) :
    ∃ pc, SameCore s (s.frameDone t call r) ∧ (s.frameDone t call r).crashed = s.crashed ∧
      (s.frameDone t call r).subs = s.subs ∧
      (s.frameDone t call r).threads = s.threads.modify t (fun th => { th with pc := pc }) ∧
      ((pc = .ret r ∧ (∀ i o, call ≠ .unsubscribe i o) ∧ (s.frameDone t call r).trace = s.trace ++ [.ret t r]) ∨
       ((pc = .closing (.enter (some .closedUnexpectedly)) ∨ pc = .subLock r) ∧ (∃ i o, call = .unsubscribe i o) ∧
         (s.frameDone t call r).trace = s.trace)) := by
  unfold Sys.frameDone
  split
  · split
    · exact ⟨_, ⟨rfl, rfl, rfl, rfl, rfl, rfl, rfl, rfl, rfl, rfl, rfl⟩, rfl, rfl, rfl, Or.inr ⟨.inl rfl, ⟨_, _, rfl⟩, rfl⟩⟩
    · exact ⟨_, ⟨rfl, rfl, rfl, rfl, rfl, rfl, rfl, rfl, rfl, rfl, rfl⟩, rfl, rfl, rfl, Or.inr ⟨.inr rfl, ⟨_, _, rfl⟩, rfl⟩⟩
  · rename_i h
    exact ⟨_, ⟨rfl, rfl, rfl, rfl, rfl, rfl, rfl, rfl, rfl, rfl, rfl⟩, rfl, rfl, rfl, Or.inl ⟨rfl, fun i o => h i o, rfl⟩⟩

end Stomp.Client

namespace Stomp.Client
open Stomp

/-- A statement about every caller, after one of them has moved. -/
theorem all_modify {l : List Thread} {P Q : Nat → Thread → Prop} {t : Nat} {th : Thread} {g : Thread → Thread}
    (h : ∀ u thu, l[u]? = some thu → P u thu) (ht : l[t]? = some th) (hg : P t th → Q t (g th))
    (ho : ∀ u thu, u ≠ t → l[u]? = some thu → P u thu → Q u thu) :
    ∀ u thu, (l.modify t g)[u]? = some thu → Q u thu := by
  intro u thu hu
  rw [List.getElem?_modify] at hu
  split at hu
  · rename_i heq
    subst heq
    rw [ht] at hu
    simp only [Option.map_eq_map, Option.map_some, Option.some.injEq] at hu
    subst hu
    exact hg (h t th ht)
  · rename_i hne
    simp at hu
    exact ho u thu (fun e => hne e.symm) hu (h u thu hu)

theorem all_append {l : List Thread} {Q : Nat → Thread → Prop} {x : Thread}
    (h : ∀ u thu, l[u]? = some thu → Q u thu) (hx : Q l.length x) :
    ∀ u thu, (l ++ [x])[u]? = some thu → Q u thu := by
  intro u thu hu
  rw [List.getElem?_append] at hu
  split at hu
  · exact h u thu hu
  · rename_i hlt
    have h1 : u - l.length = 0 := by
      have := (List.getElem?_eq_some_iff.1 hu).1
      simpa using this
    rw [h1] at hu
    have : u = l.length := by omega
    simp only [List.getElem?_cons_zero, Option.some.injEq] at hu
    subst hu
    rw [this]
    exact hx

end Stomp.Client

import Verif.Proofs.Client.Refused
import Verif.Props.Client.Unsubscribe
/-!
# Property C84: a call that fails on account of its options has no effect

True of `Send`, `Subscribe` and the `Send` of a transaction. `Unsubscribe` marks the subscription as given up before it looks at its options, and leaves it so.
-/
namespace Stomp.Client
open Stomp

/-- **C84**. The error of an option is returned only to a call with an option that fails. -/
theorem C84_only {cfg : Cfg} {n : Nat} {es : List Ev} {s : Sys} (h : (Sys.init n).run cfg es = some s) {t : Nat} {call : Call}
    (hr : Spec.Returned s t call .optionError) : Spec.Wrong call := by
  obtain ⟨th, ht, hc, hp⟩ := hr
  exact hc ▸ ((ref_run h t th ht).refused (.inl hp)).1

/-- **C84**. A call with an option that fails does not succeed and hands nothing over: if it returns, then with the error of the option, or because the
connection is closed or the subscription has been given up before. -/
theorem C84_silent {cfg : Cfg} {n : Nat} {es : List Ev} {s : Sys} (h : (Sys.init n).run cfg es = some s) {t : Nat} {th : Thread}
    (ht : s.threads[t]? = some th) (hw : Spec.Wrong th.call) :
    (th.pc = .start ∨ ∃ r, Spec.Returned s t th.call r ∧
      (r = .optionError ∨ r = .alreadyClosed ∨ r = .closedUnexpectedly ∨ r = .completedSubscription)) ∧
    ∀ r, Obs.accepted t r ∉ s.trace := by
  refine ⟨?_, wrong_silent h ht hw⟩
  rcases (ref_run h t th ht).wrong hw with e | e | e | e | e
  · exact .inl e
  all_goals exact .inr ⟨_, ⟨th, ht, rfl, e⟩, by simp⟩

/-- **C84**, partial: `Send` and `Subscribe`. All that such a call does is to return. (Missing: `Unsubscribe`, for which this is false, `C84_false`.) -/
theorem C84_nothing_partial {cfg : Cfg} {n : Nat} {es : List Ev} {s s' : Sys} (h : (Sys.init n).run cfg es = some s) {t : Nat} {th : Thread}
    (ht : s.threads[t]? = some th) (hw : Spec.Wrong th.call) (hu : ¬Spec.Unsubscribes th.call) (hs : s.step cfg (.thread t) = some s') :
    Spec.NothingBut t s s' := by
  refine wrong_step ht hw hu ?_ hs
  rcases (ref_run h t th ht).wrong hw with e | e | e | e | e
  · exact .inl e
  all_goals exact .inr ⟨_, e⟩

/-- **C84**, the `Send` of a transaction. With an option that fails it does nothing but return, and the transaction goes on. -/
theorem C84_transaction {cfg : Cfg} {version : Bytes} {x x' : XSys} {j : Nat} {th : XThread} {o : XTx} {d c b : Bytes} {os : List SendOpt}
    (hj : x.threads[j]? = some th) (ho : x.txs[th.tx]? = some o) (hc : th.call = .send d c b os) (hw : .fail ∈ os) (hn : o.tx.completed = false)
    (hs : x.step cfg version (.go j) = some x') :
    x'.sys = x.sys ∧ x'.txs = x.txs ∧ (∀ k, k ≠ j → x'.threads[k]? = x.threads[k]?) ∧ x'.threads[j]? = some { th with pc := .ret .rejected } := by
  have hf : txStep version x.sys.lastId o.tx th.call true = (x.sys.lastId, o.tx, none, .rejected) := by
    rw [hc]; simp [txStep, hn, createSendFrame_none.2 hw]
  unfold XSys.step at hs
  split at hs
  · cases hs
  · simp only [hj, ho] at hs
    split at hs
    · simp only [XSys.go, hf] at hs
      cases hs
      refine ⟨rfl, rfl, fun k hk => ?_, ?_⟩
      · exact List.getElem?_set_ne (Ne.symm hk)
      · exact List.getElem?_set_self (List.getElem?_eq_some_iff.1 hj).1
    · cases hs

/-- **C84**. What a refused `Unsubscribe` leaves behind, for ever: the subscription counts as given up (so `Read` on it fails), every other
`Unsubscribe` is refused, and no UNSUBSCRIBE for it is ever handed over. -/
theorem C84_given_up {cfg : Cfg} {n : Nat} {es : List Ev} {s : Sys} (h : (Sys.init n).run cfg es = some s) {t i : Nat} {o : List SubOpt}
    (hr : Spec.Returned s t (.unsubscribe i o) .optionError) :
    (∃ b, s.subs[i]? = some b ∧ b.state ≠ .active) ∧
    (∀ u o' r, u ≠ t → Spec.Returned s u (.unsubscribe i o') r → r = .completedSubscription) ∧
    ∀ u th r, s.threads[u]? = some th → Obs.accepted u r ∈ s.trace → ∀ o', th.call ≠ .unsubscribe i o' := by
  obtain ⟨th, ht, hc, hp⟩ := hr
  have hU := uinv_run (uinv_init n) h
  have hwon : s.won t = some (i, .ret .optionError, th.helper) := by
    have := won_of ht hc (by rw [hp]; simp) (by rw [hp]; simp)
    rw [hp] at this; exact this
  obtain ⟨b, hb⟩ := won_sub hU.dom hwon
  have one : ∀ u th' o', s.threads[u]? = some th' → th'.call = .unsubscribe i o' → u ≠ t → th'.pc = .start ∨ th'.pc = .ret .completedSubscription := by
    intro u th' o' hu hc' hne
    refine Classical.byContradiction fun hn => hne ?_
    exact hU.one u t i _ _ _ _ (won_of hu hc' (fun e => hn (.inl e)) (fun e => hn (.inr e))) hwon
  refine ⟨⟨b, hb, (hU.held t i _ _ b hwon hb).act (by simp)⟩, ?_, ?_⟩
  · rintro u o' r hne ⟨th', hu, hc', hp'⟩
    rcases one u th' o' hu hc' hne with e | e
    · rw [hp'] at e; cases e
    · rw [hp'] at e; cases e; rfl
  · intro u th' r hu hm o' hc'
    by_cases hut : u = t
    · subst hut
      rw [ht] at hu; cases hu
      exact wrong_silent h ht ((ref_run h _ th ht).refused (.inl hp)).1 r hm
    · rcases one u th' o' hu hc' hut with e | e
      · exact ((origin_run h).callers u th' hu).early (.inl e) r (List.mem_filterMap.2 ⟨_, hm, rfl⟩)
      · exact heard_run h u r th' i o' (List.mem_filterMap.2 ⟨_, hm, rfl⟩) hu hc' (won_none hu (.inr (.inr e)))

namespace Ex

/-- `Subscribe`; `Unsubscribe` with a nil option; `Unsubscribe` again, without; a MESSAGE arrives. -/
def refusedRun : List Ev :=
  [.call (.subscribe b!"/q" .auto []), .thread 0, .thread 0, .loopWrite true [],
   .call (.unsubscribe 0 [.nilOpt]), .thread 1, .call (.unsubscribe 0 []), .thread 2,
   .net (some (message b!"1" b!"a")), .loopRead [], .deliver true, .sub 0]

def endRefused : Sys := ((Sys.init 0).run cfg refusedRun).getD (Sys.init 0)
theorem refused_run : (Sys.init 0).run cfg refusedRun = some endRefused := by decide +kernel

end Ex

/-- **C84, in full, is false**. `Unsubscribe` with a nil option returns the error; the subscription is no longer active, a second `Unsubscribe`
without options is refused, the server never hears of it and goes on sending messages, which arrive on `C`. -/
theorem C84_false : ∃ es s b, (Sys.init 0).run Ex.cfg es = some s ∧ s.crashed = none ∧ s.closed = false ∧
    Spec.Returned s 1 (.unsubscribe 0 [.nilOpt]) .optionError ∧ Spec.Returned s 2 (.unsubscribe 0 []) .completedSubscription ∧
    s.subs[0]? = some b ∧ b.state = .closing ∧ (Spec.written s).map (·.command) = [b!"SUBSCRIBE"] ∧
    b.buf = [.msg (Ex.message b!"1" b!"a")] := by
  refine ⟨Ex.refusedRun, Ex.endRefused, (Ex.endRefused.subs[0]?).getD (Sub.new [] false 0), Ex.refused_run, by decide +kernel, by decide +kernel,
    ⟨⟨.unsubscribe 0 [.nilOpt], .ret .optionError, .none⟩, ?_, rfl, rfl⟩, ⟨⟨.unsubscribe 0 [], .ret .completedSubscription, .none⟩, ?_, rfl, rfl⟩,
    ?_, ?_, ?_, ?_⟩ <;> decide +kernel

-- C84_only, C84_silent, C84_given_up: the hypotheses hold at the end of that run.
example : Spec.Returned Ex.endRefused 1 (.unsubscribe 0 [.nilOpt]) .optionError ∧ Spec.Wrong (.unsubscribe 0 [.nilOpt]) :=
  ⟨⟨⟨.unsubscribe 0 [.nilOpt], .ret .optionError, .none⟩, by decide +kernel, rfl, rfl⟩, .inr (.inl (by simp))⟩

-- C84_nothing_partial: a `Send` that asks for a receipt and then fails, beside a subscription.
example : ∃ s s', (Sys.init 0).run Ex.cfg [.call (.subscribe b!"/q" .auto []), .thread 0, .thread 0, .call (.send b!"/q" [] b!"x" [.receipt, .fail])] = some s ∧
    s.step Ex.cfg (.thread 1) = some s' ∧ Spec.Wrong (.send b!"/q" [] b!"x" [.receipt, .fail]) ∧
    s.threads[1]? = some ⟨.send b!"/q" [] b!"x" [.receipt, .fail], .start, .none⟩ ∧ s'.threads[1]? = some ⟨.send b!"/q" [] b!"x" [.receipt, .fail], .ret .optionError, .none⟩ :=
  ⟨((Sys.init 0).run Ex.cfg [.call (.subscribe b!"/q" .auto []), .thread 0, .thread 0, .call (.send b!"/q" [] b!"x" [.receipt, .fail])]).getD (Sys.init 0),
    ((Sys.init 0).run Ex.cfg [.call (.subscribe b!"/q" .auto []), .thread 0, .thread 0, .call (.send b!"/q" [] b!"x" [.receipt, .fail]), .thread 1]).getD (Sys.init 0),
    by decide +kernel, by decide +kernel, by simp [Spec.Wrong], by decide +kernel, by decide +kernel⟩

-- C84_transaction: BEGIN, then a `Send` whose option fails.
example : ∃ x x', (XSys.init 0).run Ex.cfg V12 [.begin_, .sys (.thread 0), .sys (.thread 0), .method 0 (.send b!"/q" [] b!"x" [.fail])] = some x ∧
    x.threads[0]? = some ⟨0, .send b!"/q" [] b!"x" [.fail], .start, none⟩ ∧ (x.txs[0]?.map (·.tx.completed)) = some false ∧ x.step Ex.cfg V12 (.go 0) = some x' :=
  ⟨((XSys.init 0).run Ex.cfg V12 [.begin_, .sys (.thread 0), .sys (.thread 0), .method 0 (.send b!"/q" [] b!"x" [.fail])]).getD (XSys.init 0),
    ((XSys.init 0).run Ex.cfg V12 [.begin_, .sys (.thread 0), .sys (.thread 0), .method 0 (.send b!"/q" [] b!"x" [.fail]), .go 0]).getD (XSys.init 0),
    by decide +kernel, by decide +kernel, by decide +kernel, by decide +kernel⟩

end Stomp.Client

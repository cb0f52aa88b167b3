import Verif.Spec.TxSystem
import Verif.Proofs.Client.Live
import Verif.Proofs.Client.Library
import Verif.Proofs.Client.Read
import Verif.Props.Client.Frames
import Verif.Props.Client.Order
import Verif.Props.EndToEnd
/-! # Transactions used by several goroutines -/
namespace Stomp.Client
open Stomp

/-! ## The counter -/

/-- `b` is reached from `a` by calls of `allocateId`. -/
inductive Ticks : Nat → Nat → Prop
  | refl (a : Nat) : Ticks a a
  | step {a b : Nat} : Ticks (allocateId a).1 b → Ticks a b

theorem Ticks.trans {a b c : Nat} (h : Ticks a b) (h' : Ticks b c) : Ticks a c := by
  induction h with
  | refl => exact h'
  | step _ ih => exact .step (ih h')

theorem applySendOpts_ticks {os : List SendOpt} {last last' : Nat} {f f' : Frame} (h : applySendOpts last f os = some (last', f')) : Ticks last last' := by
  induction os generalizing last f with
  | nil =>
    simp only [applySendOpts, Option.some.injEq, Prod.mk.injEq] at h
    rw [h.1]; exact .refl _
  | cons o os ih =>
    unfold applySendOpts at h
    split at h
    · cases h
    · rename_i last1 f1 h1
      refine Ticks.trans ?_ (ih h)
      unfold applySendOpt at h1
      split at h1
      · cases h1; exact .refl _
      · split at h1
        · cases h1
        · cases h1; exact .step (.refl _)
      · split at h1
        · cases h1
        · cases h1; exact .refl _
      · split at h1
        · cases h1
        · cases h1; exact .refl _
      · cases h1

theorem txStep_ticks (version : Bytes) (last : Nat) (tx : Tx) (c : TxCall) (ok : Bool) : Ticks last (txStep version last tx c ok).1 := by
  cases c <;> simp only [txStep] <;> split <;> try exact .refl _
  · split <;> split <;> first | exact .refl _ | exact .step (.refl _)
  · split <;> split <;> first | exact .refl _ | exact .step (.refl _)
  · split
    · exact .refl _
    · rename_i h; exact applySendOpts_ticks h
  · split <;> exact .refl _
  · split <;> exact .refl _

theorem ticks_run {cfg : Cfg} {a b : Nat} (h : Ticks a b) : ∀ s : Sys, s.crashed = none → s.lastId = a →
    ∃ es, s.run cfg es = some { s with lastId := b } := by
  induction h with
  | refl a => rintro s _ rfl; exact ⟨[], rfl⟩
  | step _ ih =>
    rintro s hc rfl
    obtain ⟨es, he⟩ := ih { s with lastId := (allocateId s.lastId).1 } hc rfl
    refine ⟨.tick :: es, ?_⟩
    have : s.step cfg .tick = some { s with lastId := (allocateId s.lastId).1 } := by simp [Sys.step, hc]
    show (s.step cfg .tick).bind _ = _
    rw [this]; exact he

/-! ## The frames of the methods -/

theorem ackNack_command {version : Bytes} {m : MsgInfo} {ack : Bool} {f : Frame} (h : createAckNackFrame version m ack = .ok (some f)) :
    f.command = if ack then Cmd.ack else Cmd.nack := by
  unfold createAckNackFrame at h
  cases ack
  all_goals simp only [Bool.false_eq_true, if_false, if_true] at h ⊢
  all_goals repeat' split at h
  all_goals first
    | (cases h; done)
    | (injection h with h; injection h with h; subst h; rfl)

theorem txStep_command {version : Bytes} {last : Nat} {tx : Tx} {c : TxCall} {ok : Bool} {f : Frame} (h : (txStep version last tx c ok).2.2.1 = some f) :
    (c.ends = true ∧ (f.command = b!"COMMIT" ∨ f.command = b!"ABORT")) ∨ (c.ends = false ∧ Server.Spec.operation f) := by
  cases c <;> simp only [txStep] at h <;> split at h <;> try (cases h; done)
  case abort.isFalse r _ => cases r <;> cases ok <;> cases h <;> exact .inl ⟨rfl, .inr rfl⟩
  case commit.isFalse r _ => cases r <;> cases ok <;> cases h <;> exact .inl ⟨rfl, .inl rfl⟩
  case send.isFalse =>
    split at h
    · cases h
    · rename_i h1; have h2 := createSendFrame_command h1; cases h; exact .inr ⟨rfl, .inl h2⟩
  case ack.isFalse =>
    split at h
    · cases h
    · cases h
    · rename_i h1; cases h; exact .inr ⟨rfl, .inr (.inl (ackNack_command h1))⟩
  case nack.isFalse =>
    split at h
    · cases h
    · cases h
    · rename_i h1; cases h; exact .inr ⟨rfl, .inr (.inr (ackNack_command h1))⟩

theorem txStep_open {version : Bytes} {last : Nat} {tx : Tx} {c : TxCall} {ok : Bool} {f : Frame} (h : (txStep version last tx c ok).2.2.1 = some f) :
    tx.completed = false := by
  cases hc : tx.completed with
  | false => rfl
  | true => rw [txStep_completed version last tx c ok hc] at h; cases h

theorem txStep_end_none {version : Bytes} {last : Nat} {tx : Tx} {c : TxCall} {ok : Bool} (he : c.ends = true) (h : (txStep version last tx c ok).2.2.1 = none) :
    (txStep version last tx c ok).2.2.2 = .completedTx := by
  cases c <;> simp [TxCall.ends] at he <;> simp only [txStep] at h ⊢ <;> split at h <;> rename_i hc
  · rw [if_pos hc]
  · rename_i r; cases r <;> cases ok <;> cases h
  · rw [if_pos hc]
  · rename_i r; cases r <;> cases ok <;> cases h

theorem applySendOpts_plain {os : List SendOpt} {last last' : Nat} {f f' : Frame} {q : Bytes} (hq : q ≠ Hdr.receipt) (hq' : q ≠ Hdr.contentLength)
    (ho : ∀ v, .header q v ∉ os) (h : applySendOpts last f os = some (last', f')) : f'.header.contains q = f.header.contains q := by
  induction os generalizing last f with
  | nil =>
    simp only [applySendOpts, Option.some.injEq, Prod.mk.injEq] at h
    rw [h.2]
  | cons o os ih =>
    unfold applySendOpts at h
    split at h
    · cases h
    · rename_i last1 f1 h1
      rw [ih (fun v hv => ho v (List.mem_cons_of_mem _ hv)) h]
      unfold applySendOpt at h1
      split at h1
      · cases h1; rfl
      · split at h1
        · cases h1
        · cases h1
          show Header.contains (Header.set _ _ _) _ = _
          rw [hdr_contains_set, if_neg (fun e => hq e.symm)]
      · split at h1
        · cases h1
        · cases h1
          exact hdr_contains_del _ _ _ (fun e => hq' e.symm)
      · split at h1
        · cases h1
        · cases h1
          rename_i k v _
          refine hdr_contains_add _ _ _ _ ?_
          rintro rfl
          exact ho v List.mem_cons_self
      · cases h1

theorem send_plain {last last' : Nat} {d c b : Bytes} {os : List SendOpt} {f : Frame} (ho : ∀ v, .header b!"transaction" v ∉ os)
    (h : createSendFrame last d c b os = some (last', f)) : f.header.contains b!"transaction" = none := by
  have := applySendOpts_plain (q := b!"transaction") (by decide) (by decide) ho h
  rw [this]
  split
  · rw [hdr_contains_set, if_neg (by decide), hdr_contains_set, if_neg (by decide)]
    show Header.contains [(Hdr.contentLength, _)] b!"transaction" = none
    simp [Header.contains, show Hdr.contentLength ≠ b!"transaction" from by decide]
  · rw [hdr_contains_set, if_neg (by decide)]
    show Header.contains [(Hdr.contentLength, _)] b!"transaction" = none
    simp [Header.contains, show Hdr.contentLength ≠ b!"transaction" from by decide]

/-! ## What a step of the system does -/

theorem returned_some {s : Sys} {n : Nat} {r : Res} : s.returned n = some r ↔ ∃ th, s.threads[n]? = some th ∧ th.pc = .ret r := by
  unfold Sys.returned
  constructor
  · intro h
    split at h
    · split at h
      · rename_i h1 _ _ h2; cases h; exact ⟨_, h1, h2⟩
      · cases h
    · cases h
  · rintro ⟨th, h1, h2⟩
    rw [h1]; simp only [h2]

theorem ret_step {cfg : Cfg} {s s' : Sys} (h : Step cfg s s') {n : Nat} {th : Thread} {f : Frame} {r : Res} (ht : s.threads[n]? = some th)
    (hc : th.call = .frame f) (hr : th.pc = .ret r) : ∃ th', s'.threads[n]? = some th' ∧ th'.pc = .ret r := by
  rcases th_step h with hg | hg
  · obtain ⟨_, _, h1, h2, _, _, _, _⟩ := hg
    obtain ⟨_, hth | ⟨t, th1, pc, ht1, hpc, _, hth⟩⟩ := handOver_past h1
    · exact ⟨th, by rw [h2, hth]; exact ht, hr⟩
    · refine ⟨th, ?_, hr⟩
      rw [h2, hth, List.getElem?_modify, ht]
      by_cases e : t = n
      · subst e; rw [ht] at ht1; cases ht1; rw [hr] at hpc; cases hpc
      · simp [e]
  · obtain ⟨th', ht', _⟩ := (ext_step h).threads n th ht
    refine ⟨th', ht', ?_⟩
    cases hg n th th' ht ht' with
    | same h => rw [h, hr]
    | early h => rw [hr] at h; cases h
    | gaveUp h => rw [hr] at h; cases h
    | closed h => rw [hr] at h; cases h
    | past h => rw [hc] at h; cases h

/-- What the system does to the calls between two states. -/
structure Adv (s s' : Sys) : Prop where
  calls : ∀ (n : Nat) (th : Thread), s.threads[n]? = some th → ∃ th', s'.threads[n]? = some th' ∧ th'.call = th.call
  rets : ∀ (n : Nat) (th : Thread) (f : Frame) (r : Res), s.threads[n]? = some th → th.call = .frame f → s.returned n = some r → s'.returned n = some r
  acc : acceptedIn s'.trace = acceptedIn s.trace ∨
    ∃ (t : Nat) (th : Thread) (r : Req), s.threads[t]? = some th ∧ th.pc = .push r ∧ acceptedIn s'.trace = acceptedIn s.trace ++ [(t, r)]
  crash : s.crashed = none

theorem adv_step {cfg : Cfg} {s s' : Sys} {e : Ev} (h : s.step cfg e = some s') : Adv s s' := by
  obtain ⟨hc, hs⟩ := step_cases h
  refine ⟨(ext_step hs).threads, ?_, ?_, hc⟩
  · intro n th f r ht hf hr
    obtain ⟨th1, h1, h2⟩ := returned_some.1 hr
    rw [ht] at h1; cases h1
    exact returned_some.2 (ret_step hs ht hf h2)
  · cases eff_step hs with
    | accept ht hpc _ _ h2 => exact .inr ⟨_, _, _, ht, hpc, h2⟩
    | _ => first | (left; assumption) | skip

theorem adv_id {s : Sys} (hc : s.crashed = none) : Adv s s :=
  ⟨fun _ th h => ⟨th, h, rfl⟩, fun _ _ _ _ _ _ h => h, .inl rfl, hc⟩

/-! ## Executions -/

/-- The steps. -/
inductive XStep (cfg : Cfg) (version : Bytes) (x : XSys) : XEv → XSys → Prop
  | sys {e : Ev} {s : Sys} (h : x.sys.step cfg e = some s) (he : ∀ c, e ≠ .call c) : XStep cfg version x (.sys e) { x with sys := s }
  | call {c : Call} {s : Sys} (h : x.sys.step cfg (.call c) = some s) (hf : ∀ f, c = .frame f → f.header.contains Hdr.transaction = none) :
      XStep cfg version x (.sys (.call c)) { x with sys := s }
  | begin_ {s : Sys} (h : { x.sys with lastId := (txBegin x.sys.lastId).1 }.step cfg (.call (.frame (txBegin x.sys.lastId).2.2)) = some s) :
      XStep cfg version x .begin_ { x with sys := s, txs := x.txs ++ [(⟨(txBegin x.sys.lastId).2.1, x.sys.threads.length⟩ : XTx)] }
  | method {i : Nat} {c : TxCall} {o : XTx} (ho : x.txs[i]? = some o) (h : (x.sys.returned o.begun).isSome = true) :
      XStep cfg version x (.method i c) { x with threads := x.threads ++ [(⟨i, c, .start, none⟩ : XThread)] }
  | refuse {j : Nat} {th : XThread} {o : XTx} (ht : x.threads[j]? = some th) (ho : x.txs[th.tx]? = some o) (hpc : th.pc = .start)
      (h : (txStep version x.sys.lastId o.tx th.call true).2.2.1 = none) :
      XStep cfg version x (.go j) { x with threads := x.threads.set j { th with pc := .ret (.of (txStep version x.sys.lastId o.tx th.call true).2.2.2) } }
  | send {j : Nat} {th : XThread} {o : XTx} {f : Frame} {s : Sys} (ht : x.threads[j]? = some th) (ho : x.txs[th.tx]? = some o) (hpc : th.pc = .start)
      (h : (txStep version x.sys.lastId o.tx th.call true).2.2.1 = some f)
      (hs : { x.sys with lastId := (txStep version x.sys.lastId o.tx th.call true).1 }.step cfg (.call (.frame f)) = some s) :
      XStep cfg version x (.go j)
        { x with sys := s, threads := x.threads.set j { th with pc := .sending x.sys.threads.length, via := some x.sys.threads.length } }
  | back {j : Nat} {th : XThread} {n : Nat} {r : Res} (ht : x.threads[j]? = some th) (hpc : th.pc = .sending n) (hr : x.sys.returned n = some r) :
      XStep cfg version x (.back j) (x.back j th r)

theorem xstep_cases {cfg : Cfg} {version : Bytes} {x x' : XSys} {e : XEv} (h : x.step cfg version e = some x') :
    x.sys.crashed = none ∧ XStep cfg version x e x' := by
  unfold XSys.step at h
  split at h
  · cases h
  rename_i hc
  refine ⟨isSome_false hc, ?_⟩
  split at h
  · rename_i f
    split at h
    · rename_i hf
      obtain ⟨s, hs, rfl⟩ := Option.map_eq_some_iff.1 h
      exact .call hs (by rintro _ ⟨⟩; exact hf.2)
    · cases h
  · rename_i e hf
    obtain ⟨s, hs, rfl⟩ := Option.map_eq_some_iff.1 h
    cases e with
    | call c => exact .call hs (fun f e => absurd (by rw [e]) (hf f))
    | _ => exact .sys hs (by simp)
  · obtain ⟨s, hs, rfl⟩ := Option.map_eq_some_iff.1 h
    exact .begin_ hs
  · split at h
    · rename_i ho
      split at h
      · rename_i hr; injection h with h; subst h; exact .method ho hr
      · cases h
    · cases h
  · split at h
    · rename_i ht
      split at h
      · rename_i ho
        split at h
        · rename_i hpc
          unfold XSys.go at h
          split at h
          · rename_i hn
            injection h with h; subst h; exact .refuse ht ho hpc hn
          · rename_i f hn
            obtain ⟨s, hs, rfl⟩ := Option.map_eq_some_iff.1 h
            exact .send ht ho hpc hn hs
        · cases h
      · cases h
    · cases h
  · split at h
    · rename_i ht
      split at h
      · rename_i hpc
        obtain ⟨r, hr, rfl⟩ := Option.map_eq_some_iff.1 h
        exact .back ht hpc hr
      · cases h
    · cases h

theorem call_threads {cfg : Cfg} {s s' : Sys} {c : Call} (h : s.step cfg (.call c) = some s') :
    s'.threads = s.threads ++ [{ call := c, pc := .start, helper := .none }] := by
  unfold Sys.step at h
  split at h
  · cases h
  simp only at h
  split at h
  · injection h with h; subst h; rfl
  · cases h

theorem xreach_step {cfg : Cfg} {m : Nat} {s s0 s' : Sys} {e : Ev} {last : Nat} (hs : ∃ es, (Sys.init m).run cfg es = some s) (hc : s.crashed = none)
    (ht : Ticks s.lastId last) (h0 : s0 = { s with lastId := last }) (h : s0.step cfg e = some s') : ∃ es, (Sys.init m).run cfg es = some s' := by
  obtain ⟨es, he⟩ := hs
  obtain ⟨es', he'⟩ := ticks_run (cfg := cfg) ht s hc rfl
  refine ⟨es ++ (es' ++ [e]), ?_⟩
  rw [sys_run_append, he]
  show s.run cfg (es' ++ [e]) = _
  rw [sys_run_append, he']
  show (Sys.step cfg _ e).bind _ = _
  rw [← h0, h]; rfl

/-- Call `n` of the system was made by transaction `i`. -/
def Of (x : XSys) (i : Nat) (o : XTx) (n : Nat) : Prop := n = o.begun ∨ ∃ (j : Nat) (th : XThread), x.threads[j]? = some th ∧ th.tx = i ∧ th.via = some n

structure ThOk (s : Sys) (th : XThread) (o : XTx) : Prop where
  start : th.pc = .start → th.via = none
  sending : ∀ n, th.pc = .sending n → th.via = some n
  ret : ∀ r n, th.pc = .ret r → th.via = some n → ∃ r', s.returned n = some r' ∧ (r' = .ok → r = .ok)
  frame : ∀ n, th.via = some n → ∃ (sth : Thread) (f : Frame), s.threads[n]? = some sth ∧ sth.call = .frame f ∧ f.header.contains Hdr.transaction = some o.tx.id ∧
    ((th.call.ends = true ∧ (f.command = b!"COMMIT" ∨ f.command = b!"ABORT")) ∨ (th.call.ends = false ∧ Server.Spec.operation f))
  done : th.call.ends = true → th.pc = .ret .ok → o.tx.completed = true
  begun : (s.returned o.begun).isSome = true

def BeginOk (s : Sys) (o : XTx) : Prop :=
  ∃ (sth : Thread) (f : Frame), s.threads[o.begun]? = some sth ∧ sth.call = .frame f ∧ f.command = b!"BEGIN" ∧ f.header.contains Hdr.transaction = some o.tx.id

structure XBase (cfg : Cfg) (m : Nat) (x : XSys) : Prop where
  reach : ∃ es, (Sys.init m).run cfg es = some x.sys
  txs : ∀ (i : Nat) (o : XTx), x.txs[i]? = some o → BeginOk x.sys o
  ths : ∀ (j : Nat) (th : XThread), x.threads[j]? = some th → ∃ o, x.txs[th.tx]? = some o ∧ ThOk x.sys th o
  others : ∀ (n : Nat) (sth : Thread) (f : Frame), x.sys.threads[n]? = some sth → sth.call = .frame f →
    f.header.contains Hdr.transaction = none ∨ ∃ i o, x.txs[i]? = some o ∧ Of x i o n

def TxsLe (l l' : List XTx) : Prop := ∀ (i : Nat) (o : XTx), l[i]? = some o →
  ∃ o', l'[i]? = some o' ∧ o'.tx.id = o.tx.id ∧ o'.begun = o.begun ∧ (o.tx.completed = true → o'.tx.completed = true)

theorem txsLe_refl (l : List XTx) : TxsLe l l := fun _ o h => ⟨o, h, rfl, rfl, id⟩

theorem txsLe_append (l : List XTx) (a : XTx) : TxsLe l (l ++ [a]) := fun _ o h => ⟨o, getElem?_append_some h, rfl, rfl, id⟩

theorem txsLe_modify (l : List XTx) (i : Nat) : TxsLe l (l.modify i fun o => { o with tx := { o.tx with completed := true } }) := by
  intro k o h
  rw [List.getElem?_modify, h]
  by_cases e : i = k
  · exact ⟨{ o with tx := { o.tx with completed := true } }, by simp [e], rfl, rfl, fun _ => rfl⟩
  · exact ⟨o, by simp [e], rfl, rfl, id⟩

theorem beginOk_adv {s s' : Sys} {o o' : XTx} (ha : Adv s s') (h1 : o'.tx.id = o.tx.id) (h2 : o'.begun = o.begun) (h : BeginOk s o) : BeginOk s' o' := by
  obtain ⟨sth, f, g1, g2, g3, g4⟩ := h
  obtain ⟨sth', g5, g6⟩ := ha.calls _ _ g1
  exact ⟨sth', f, by rw [h2]; exact g5, g6.trans g2, g3, by rw [h1]; exact g4⟩

theorem isSome_adv {s s' : Sys} (ha : Adv s s') {n : Nat} {sth : Thread} {f : Frame} (h1 : s.threads[n]? = some sth) (h2 : sth.call = .frame f)
    (h : (s.returned n).isSome = true) : (s'.returned n).isSome = true := by
  obtain ⟨r, hr⟩ := Option.isSome_iff_exists.1 h
  rw [ha.rets n sth f r h1 h2 hr]; rfl

theorem thOk_adv {s s' : Sys} {th : XThread} {o o' : XTx} (ha : Adv s s') (hb : BeginOk s o) (h1 : o'.tx.id = o.tx.id) (h2 : o'.begun = o.begun)
    (h3 : o.tx.completed = true → o'.tx.completed = true) (h : ThOk s th o) : ThOk s' th o' := by
  refine ⟨h.start, h.sending, ?_, ?_, fun a b => h3 (h.done a b), ?_⟩
  · intro r n a b
    obtain ⟨r', c, d⟩ := h.ret r n a b
    obtain ⟨sth, f, e1, e2, _⟩ := h.frame n b
    exact ⟨r', ha.rets n sth f r' e1 e2 c, d⟩
  · intro n a
    obtain ⟨sth, f, e1, e2, e3, e4⟩ := h.frame n a
    obtain ⟨sth', e5, e6⟩ := ha.calls _ _ e1
    exact ⟨sth', f, e5, e6.trans e2, by rw [h1]; exact e3, e4⟩
  · obtain ⟨sth, f, e1, e2, _⟩ := hb
    rw [h2]; exact isSome_adv ha e1 e2 h.begun

theorem base_step {cfg : Cfg} {m : Nat} {x x' : XSys} (hb : XBase cfg m x) (ha : Adv x.sys x'.sys) (hr : ∃ es, (Sys.init m).run cfg es = some x'.sys)
    (hle : TxsLe x.txs x'.txs) (hnew : ∀ (i : Nat) (o : XTx), x'.txs[i]? = some o → i < x.txs.length ∨ BeginOk x'.sys o)
    (hth : ∀ (j : Nat) (th : XThread), x'.threads[j]? = some th → x.threads[j]? = some th ∨ ∃ o, x'.txs[th.tx]? = some o ∧ ThOk x'.sys th o)
    (hof : ∀ (j : Nat) (th : XThread) (n : Nat), x.threads[j]? = some th → th.via = some n →
      ∃ th', x'.threads[j]? = some th' ∧ th'.tx = th.tx ∧ th'.via = some n)
    (hoth : ∀ (n : Nat) (sth : Thread) (f : Frame), x'.sys.threads[n]? = some sth → sth.call = .frame f →
      n < x.sys.threads.length ∨ f.header.contains Hdr.transaction = none ∨ ∃ i o, x'.txs[i]? = some o ∧ Of x' i o n) : XBase cfg m x' := by
  refine ⟨hr, ?_, ?_, ?_⟩
  · intro i o hi
    rcases hnew i o hi with h | h
    · obtain ⟨o', h1, h2, h3, _⟩ := hle i _ (List.getElem?_eq_getElem h)
      rw [hi] at h1; cases h1
      exact beginOk_adv ha h2 h3 (hb.txs i _ (List.getElem?_eq_getElem h))
    · exact h
  · intro j th ht
    rcases hth j th ht with h | h
    · obtain ⟨o, ho, hok⟩ := hb.ths j th h
      obtain ⟨o', h1, h2, h3, h4⟩ := hle _ _ ho
      exact ⟨o', h1, thOk_adv ha (hb.txs _ _ ho) h2 h3 h4 hok⟩
    · exact h
  · intro n sth f hn hc
    rcases hoth n sth f hn hc with h | h | h
    · have h0 := List.getElem?_eq_getElem h
      obtain ⟨sth', g1, g2⟩ := ha.calls _ _ h0
      rw [hn] at g1; cases g1
      rcases hb.others n _ f h0 (g2.symm.trans hc) with h1 | ⟨i, o, h1, h2⟩
      · exact .inl h1
      · obtain ⟨o', k1, _, k3, _⟩ := hle i o h1
        refine .inr ⟨i, o', k1, ?_⟩
        rcases h2 with h2 | ⟨j, th, a, b, c⟩
        · exact .inl (h2.trans k3.symm)
        · obtain ⟨th', a', b', c'⟩ := hof j th n a c
          exact .inr ⟨j, th', a', b'.trans b, c'⟩
    · exact .inl h
    · exact .inr h

theorem xget_set {l : List XThread} {j k : Nat} {a b : XThread} (h : (l.set j a)[k]? = some b) : (j = k ∧ b = a) ∨ (j ≠ k ∧ l[k]? = some b) := by
  rw [List.getElem?_set] at h
  split at h
  · split at h
    · simp only [Option.some.injEq] at h; exact .inl ⟨by assumption, h.symm⟩
    · cases h
  · exact .inr ⟨by assumption, h⟩

theorem xset_get {l : List XThread} {j : Nat} {a b : XThread} (h : l[j]? = some b) : (l.set j a)[j]? = some a := by
  rw [List.getElem?_set_self (List.getElem?_eq_some_iff.1 h).1]

theorem xset_via {l : List XThread} {j : Nat} {a b : XThread} (h : l[j]? = some b) (h1 : a.tx = b.tx) (h2 : b.via = none ∨ a.via = b.via) (k : Nat) (th : XThread) (n : Nat)
    (hk : l[k]? = some th) (hv : th.via = some n) : ∃ th', (l.set j a)[k]? = some th' ∧ th'.tx = th.tx ∧ th'.via = some n := by
  by_cases e : j = k
  · subst e
    rw [h] at hk; cases hk
    refine ⟨a, xset_get h, h1, ?_⟩
    rcases h2 with h2 | h2
    · rw [hv] at h2; cases h2
    · rw [h2, hv]
  · exact ⟨th, by rw [List.getElem?_set_ne e]; exact hk, rfl, hv⟩

theorem snoc_get {l : List XThread} {a b : XThread} {k : Nat} (h : (l ++ [a])[k]? = some b) : l[k]? = some b ∨ (k = l.length ∧ b = a) := by
  rw [List.getElem?_append] at h
  split at h
  · exact .inl h
  · rename_i hk
    have : k - l.length = 0 := by
      have := (List.getElem?_eq_some_iff.1 h).1
      simp at this; omega
    rw [this] at h
    simp only [List.getElem?_cons_zero, Option.some.injEq] at h
    exact .inr ⟨by omega, h.symm⟩

theorem call_new {cfg : Cfg} {s s' : Sys} {c : Call} (h : s.step cfg (.call c) = some s') {n : Nat} {sth : Thread} (hn : s'.threads[n]? = some sth) :
    n < s.threads.length ∨ (n = s.threads.length ∧ sth.call = c) := by
  rw [call_threads h, List.getElem?_append] at hn
  split at hn
  · exact .inl (by assumption)
  · rename_i hk
    have : n - s.threads.length = 0 := by
      have := (List.getElem?_eq_some_iff.1 hn).1
      simp at this; omega
    rw [this] at hn
    simp only [List.getElem?_cons_zero, Option.some.injEq] at hn
    exact .inr ⟨by omega, by rw [← hn]⟩

theorem call_last {cfg : Cfg} {s s' : Sys} {c : Call} (h : s.step cfg (.call c) = some s') :
    s'.threads[s.threads.length]? = some { call := c, pc := .start, helper := .none } := by
  rw [call_threads h]; simp

theorem xadv {x : XSys} {last : Nat} {s : Sys} {cfg : Cfg} {e : Ev} (h : { x.sys with lastId := last }.step cfg e = some s) : Adv x.sys s :=
  let ⟨a, b, c, d⟩ := adv_step h
  ⟨a, b, c, d⟩

theorem txBegin_ticks (n : Nat) : Ticks n (txBegin n).1 := .step (.refl _)

theorem base_xstep {cfg : Cfg} {version : Bytes} {m : Nat} {x x' : XSys} {e : XEv} (hb : XBase cfg m x) (hc : x.sys.crashed = none) (h : XStep cfg version x e x') :
    XBase cfg m x' := by
  have keep : ∀ (j : Nat) (th : XThread) (n : Nat), x.threads[j]? = some th → th.via = some n →
      ∃ th', x.threads[j]? = some th' ∧ th'.tx = th.tx ∧ th'.via = some n := fun j th n a b => ⟨th, a, rfl, b⟩
  have old : ∀ {i : Nat} {o : XTx}, x.txs[i]? = some o → i < x.txs.length := fun h => (List.getElem?_eq_some_iff.1 h).1
  have olds : ∀ {i : Nat} {o : Thread}, x.sys.threads[i]? = some o → i < x.sys.threads.length := fun h => (List.getElem?_eq_some_iff.1 h).1
  cases h with
  | @sys e s h he =>
    refine base_step hb (adv_step h) (xreach_step hb.reach hc (.refl _) rfl h) (txsLe_refl _) (fun i o h => .inl (old h)) (fun j th h => .inl h) keep ?_
    intro n sth f hn _
    left
    have := (List.getElem?_eq_some_iff.1 hn).1
    rw [show s.threads.length = _ from len_step h he] at this
    exact this
  | @call c s h hf =>
    refine base_step hb (adv_step h) (xreach_step hb.reach hc (.refl _) rfl h) (txsLe_refl _) (fun i o h => .inl (old h)) (fun j th h => .inl h) keep ?_
    intro n sth f hn hcall
    rcases call_new h hn with h1 | ⟨_, h1⟩
    · exact .inl h1
    · exact .inr (.inl (hf f (h1.symm.trans hcall)))
  | @begin_ s h =>
    refine base_step hb (xadv h) (xreach_step hb.reach hc (txBegin_ticks _) rfl h) (txsLe_append _ _) ?_ (fun j th h => .inl h) keep ?_
    · intro i o hi
      rw [List.getElem?_append] at hi
      split at hi
      · exact .inl (by assumption)
      · right
        have : i - x.txs.length = 0 := by
          have := (List.getElem?_eq_some_iff.1 hi).1
          simp at this; omega
        rw [this] at hi
        simp only [List.getElem?_cons_zero, Option.some.injEq] at hi
        subst hi
        have hl := call_last h
        exact ⟨_, (txBegin x.sys.lastId).2.2, hl, rfl, rfl, by simp [txBegin, Frame.new, Header.contains, Header.add]⟩
    · intro n sth f hn _
      rcases call_new h hn with h1 | ⟨h1, _⟩
      · exact .inl h1
      · exact .inr (.inr ⟨x.txs.length, _, by simp; rfl, .inl h1⟩)
  | @method i c o ho h =>
    refine base_step hb (adv_id hc) hb.reach (txsLe_refl _) (fun i o h => .inl (old h)) ?_ ?_ (fun n sth f h _ => .inl (olds h))
    · intro j th hj
      rcases snoc_get hj with h1 | ⟨_, rfl⟩
      · exact .inl h1
      · refine .inr ⟨o, ho, fun _ => rfl, ?_, ?_, ?_, ?_, h⟩
        · intro n hn; cases hn
        · intro r n hn; cases hn
        · intro n hn; cases hn
        · intro _ hn; cases hn
    · intro j th n a b
      exact ⟨th, getElem?_append_some a, rfl, b⟩
  | @refuse j th o ht ho hpc h =>
    obtain ⟨o1, ho1, hok⟩ := hb.ths j th ht
    rw [ho] at ho1; cases ho1
    refine base_step hb (adv_id hc) hb.reach (txsLe_refl _) (fun i o h => .inl (old h)) ?_ ?_ (fun n sth f h _ => .inl (olds h))
    · intro k thk hk
      rcases xget_set hk with ⟨_, rfl⟩ | ⟨_, h1⟩
      · have hv := hok.start hpc
        refine .inr ⟨o, ho, ?_, ?_, ?_, ?_, ?_, hok.begun⟩
        · intro hn; cases hn
        · intro n hn; cases hn
        · intro r n _ hn; rw [show th.via = _ from hn] at hv; cases hv
        · intro n hn; rw [show th.via = _ from hn] at hv; cases hv
        · intro he hn
          rw [txStep_end_none he h] at hn
          cases hn
      · exact .inl h1
    · exact xset_via ht rfl (.inr rfl)
  | @send j th o f s ht ho hpc h hs =>
    obtain ⟨o1, ho1, hok⟩ := hb.ths j th ht
    rw [ho] at ho1; cases ho1
    have ha := xadv hs
    refine base_step hb ha (xreach_step hb.reach hc (txStep_ticks _ _ _ _ _) rfl hs) (txsLe_refl _) (fun i o h => .inl (old h)) ?_ ?_ ?_
    · intro k thk hk
      rcases xget_set hk with ⟨_, rfl⟩ | ⟨_, h1⟩
      · refine .inr ⟨o, ho, ?_, ?_, ?_, ?_, ?_, ?_⟩
        · intro hn; cases hn
        · intro n hn; cases hn; rfl
        · intro r n hn; cases hn
        · intro n hn
          cases hn
          have hl := call_last hs
          exact ⟨_, f, hl, rfl, by rw [contains_eq]; exact txStep_frame _ _ _ _ _ _ h, txStep_command h⟩
        · intro _ hn; cases hn
        · obtain ⟨sth, g, e1, e2, _⟩ := hb.txs _ _ ho
          exact isSome_adv ha e1 e2 hok.begun
      · exact .inl h1
    · exact xset_via ht rfl (.inl (hok.start hpc))
    · intro n sth g hn _
      rcases call_new hs hn with h1 | ⟨h1, _⟩
      · exact .inl h1
      · exact .inr (.inr ⟨th.tx, o, ho, .inr ⟨j, _, xset_get ht, rfl, by rw [h1]⟩⟩)
  | @back j th n r ht hpc hr =>
    obtain ⟨o, ho, hok⟩ := hb.ths j th ht
    have hv := hok.sending n hpc
    unfold XSys.back
    split
    · rename_i hrok
      have hle : TxsLe x.txs (if th.call.ends = true then x.txs.modify th.tx (fun o => { o with tx := { o.tx with completed := true } }) else x.txs) := by
        split
        · exact txsLe_modify _ _
        · exact txsLe_refl _
      have hlen : (if th.call.ends = true then x.txs.modify th.tx (fun o => { o with tx := { o.tx with completed := true } }) else x.txs).length = x.txs.length := by
        split
        · simp
        · rfl
      refine base_step hb (adv_id hc) hb.reach hle (fun i o h => .inl ?_) ?_ (xset_via ht rfl (.inr rfl)) (fun n sth f h _ => .inl (olds h))
      · have := (List.getElem?_eq_some_iff.1 h).1
        rw [hlen] at this; exact this
      · intro k thk hk
        rcases xget_set hk with ⟨_, rfl⟩ | ⟨_, h1⟩
        · obtain ⟨o', k1, k2, k3, k4⟩ := hle _ _ ho
          refine .inr ⟨o', k1, ?_, ?_, ?_, ?_, ?_, by rw [k3]; exact hok.begun⟩
          · intro hn; cases hn
          · intro n hn; cases hn
          · intro r' n' h1 h2
            cases h1
            rw [show th.via = _ from h2] at hv; cases hv
            exact ⟨r, hr, fun _ => rfl⟩
          · rw [k2]; exact hok.frame
          · intro he _
            simp only [show th.call.ends = true from he, if_true] at k1
            rw [List.getElem?_modify, ho] at k1
            simp at k1
            rw [← k1]
        · exact .inl h1
    · rename_i hrok
      refine base_step hb (adv_id hc) hb.reach (txsLe_refl _) (fun i o h => .inl (old h)) ?_ (xset_via ht rfl (.inr rfl)) (fun n sth f h _ => .inl (olds h))
      intro k thk hk
      rcases xget_set hk with ⟨_, rfl⟩ | ⟨_, h1⟩
      · refine .inr ⟨o, ho, ?_, ?_, ?_, hok.frame, ?_, hok.begun⟩
        · intro hn; cases hn
        · intro n hn; cases hn
        · intro r' n' h1 h2
          rw [show th.via = _ from h2] at hv; cases hv
          exact ⟨r, hr, fun e => absurd e hrok⟩
        · intro _ hn; cases hn
      · exact .inl h1

theorem base_init (cfg : Cfg) (m : Nat) : XBase cfg m (XSys.init m) := by
  refine ⟨⟨[], rfl⟩, ?_, ?_, ?_⟩
  · intro i o h; simp [XSys.init] at h
  · intro i o h; simp [XSys.init] at h
  · intro i o f h; simp [XSys.init, Sys.init] at h

theorem xrun_induction {cfg : Cfg} {version : Bytes} {P : XSys → Prop} (hstep : ∀ x e x', P x → x.step cfg version e = some x' → P x') :
    ∀ (es : List XEv) (x x' : XSys), P x → x.run cfg version es = some x' → P x' := by
  intro es
  induction es with
  | nil => intro x x' hp h; cases h; exact hp
  | cons e es ih =>
    intro x x' hp h
    unfold XSys.run at h
    obtain ⟨x1, h1, h2⟩ := Option.bind_eq_some_iff.1 h
    exact ih x1 x' (hstep x e x1 hp h1) h2

theorem base_run {cfg : Cfg} {version : Bytes} {m : Nat} {es : List XEv} {x : XSys} (h : (XSys.init m).run cfg version es = some x) : XBase cfg m x :=
  xrun_induction (P := XBase cfg m) (fun _ _ _ hb h => base_xstep hb (xstep_cases h).1 (xstep_cases h).2) es _ _ (base_init cfg m) h

/-! ## After the end -/

/-- Transaction `i` is completed, and the calls of its methods among `K`, and all to come, find this out. -/
structure XShut (i : Nat) (K : Nat → Prop) (x : XSys) : Prop where
  tx : ∃ o, x.txs[i]? = some o ∧ o.tx.completed = true
  late : ∀ k, x.threads.length ≤ k → K k
  ths : ∀ (k : Nat) (th : XThread), K k → x.threads[k]? = some th → th.tx = i → th.via = none ∧ (th.pc = .start ∨ th.pc = .ret .completedTx)

theorem xshut_step {cfg : Cfg} {version : Bytes} {x x' : XSys} {e : XEv} {i : Nat} {K : Nat → Prop} (hs : XShut i K x) (h : XStep cfg version x e x') : XShut i K x' := by
  obtain ⟨o, ho, hoc⟩ := hs.tx
  have setk : ∀ (j : Nat) (th th' : XThread), x.threads[j]? = some th → th'.tx = th.tx →
      (K j → th.tx = i → th'.via = none ∧ (th'.pc = .start ∨ th'.pc = .ret .completedTx)) →
      ∀ (k : Nat) (a : XThread), K k → (x.threads.set j th')[k]? = some a → a.tx = i → a.via = none ∧ (a.pc = .start ∨ a.pc = .ret .completedTx) := by
    intro j th th' ht h1 h2 k a hk ha hai
    rcases xget_set ha with ⟨rfl, rfl⟩ | ⟨_, h3⟩
    · exact h2 hk (h1 ▸ hai)
    · exact hs.ths k a hk h3 hai
  cases h with
  | sys => exact ⟨hs.tx, hs.late, hs.ths⟩
  | call => exact ⟨hs.tx, hs.late, hs.ths⟩
  | begin_ => exact ⟨⟨o, getElem?_append_some ho, hoc⟩, hs.late, hs.ths⟩
  | method =>
    refine ⟨hs.tx, fun k hk => hs.late k (by simp at hk; omega), ?_⟩
    intro k th hk ht hi
    rcases snoc_get ht with h1 | ⟨_, rfl⟩
    · exact hs.ths k th hk h1 hi
    · exact ⟨rfl, .inl rfl⟩
  | @refuse j th o' ht ho' hpc h =>
    refine ⟨hs.tx, fun k hk => hs.late k (by simpa using hk), setk j th _ ht rfl ?_⟩
    intro hk hi
    rw [hi, ho] at ho'; cases ho'
    refine ⟨(hs.ths j th hk ht hi).1, .inr ?_⟩
    rw [txStep_completed _ _ _ _ _ hoc]; rfl
  | @send j th o' f s ht ho' hpc h hs' =>
    refine ⟨hs.tx, fun k hk => hs.late k (by simpa using hk), setk j th _ ht rfl ?_⟩
    intro hk hi
    rw [hi, ho] at ho'; cases ho'
    rw [txStep_open h] at hoc; cases hoc
  | @back j th n r ht hpc hr =>
    unfold XSys.back
    split
    · refine ⟨?_, fun k hk => hs.late k (by simpa using hk), setk j th _ ht rfl ?_⟩
      · show ∃ o, (if th.call.ends = true then _ else _)[i]? = some o ∧ _
        split
        · obtain ⟨o', h1, _, _, h4⟩ := txsLe_modify x.txs th.tx i o ho
          exact ⟨o', h1, h4 hoc⟩
        · exact hs.tx
      · intro hk hi
        rcases (hs.ths j th hk ht hi).2 with h | h <;> rw [hpc] at h <;> cases h
    · refine ⟨hs.tx, fun k hk => hs.late k (by simpa using hk), setk j th _ ht rfl ?_⟩
      intro hk hi
      rcases (hs.ths j th hk ht hi).2 with h | h <;> rw [hpc] at h <;> cases h

/-! ## Used in turn -/

structure XTurn (x : XSys) : Prop where
  one : ∀ (j k : Nat) (a b : XThread), j < k → x.threads[j]? = some a → x.threads[k]? = some b → a.tx = b.tx → ∃ r, a.pc = .ret r
  lt : ∀ (j k : Nat) (a b : XThread) (n n' : Nat), j < k → x.threads[j]? = some a → x.threads[k]? = some b → a.tx = b.tx → a.via = some n → b.via = some n' → n < n'
  first : ∀ (j : Nat) (a : XThread) (n : Nat) (o : XTx), x.threads[j]? = some a → x.txs[a.tx]? = some o → a.via = some n → o.begun < n
  ended : ∀ (j k : Nat) (a b : XThread) (n : Nat), j < k → x.threads[j]? = some a → x.threads[k]? = some b → a.tx = b.tx → b.via = some n → a.call.ends = true → a.pc ≠ .ret .ok
  ord : (acceptedIn x.sys.trace).Pairwise fun p q => ∀ (i : Nat) (o : XTx), x.txs[i]? = some o → Of x i o p.1 → Of x i o q.1 → p.1 < q.1
  sends : ∀ (n : Nat) (th : Thread) (d c b : Bytes) (os : List SendOpt), x.sys.threads[n]? = some th → th.call = .send d c b os → ∀ v, .header b!"transaction" v ∉ os

theorem turn_init (m : Nat) : XTurn (XSys.init m) := by
  constructor
  · intro j k a b _ h; simp [XSys.init] at h
  · intro j k a b n n' _ h; simp [XSys.init] at h
  · intro j a n o h; simp [XSys.init] at h
  · intro j k a b n _ h; simp [XSys.init] at h
  · exact .nil
  · intro j a d c b os h; simp [XSys.init, Sys.init] at h

theorem acc_lt {s : Sys} (ho : OriginInv s) {p : Nat × Req} (h : p ∈ acceptedIn s.trace) : p.1 < s.threads.length := by
  obtain ⟨th, ht, _⟩ := ho.acc p.1 p.2 h
  exact (List.getElem?_eq_some_iff.1 ht).1

theorem of_lt {cfg : Cfg} {m : Nat} {x : XSys} (hb : XBase cfg m x) {i n : Nat} {o : XTx} (ho : x.txs[i]? = some o) (h : Of x i o n) : n < x.sys.threads.length := by
  rcases h with rfl | ⟨j, th, h1, h2, h3⟩
  · obtain ⟨sth, f, h, _⟩ := hb.txs i o ho
    exact (List.getElem?_eq_some_iff.1 h).1
  · obtain ⟨o', _, hok⟩ := hb.ths j th h1
    obtain ⟨sth, f, h, _⟩ := hok.frame n h3
    exact (List.getElem?_eq_some_iff.1 h).1

/-- All but the last of the calls of a transaction have returned. -/
theorem of_returned {cfg : Cfg} {m : Nat} {x : XSys} (hb : XBase cfg m x) (ht : XTurn x) {i a b : Nat} {o : XTx} (ho : x.txs[i]? = some o)
    (ha : Of x i o a) (hb' : Of x i o b) (hab : a < b) : (x.sys.returned a).isSome = true := by
  rcases ha with rfl | ⟨j, th, h1, h2, h3⟩
  · rcases hb' with rfl | ⟨k, th', g1, g2, g3⟩
    · omega
    · obtain ⟨o', ho', hok⟩ := hb.ths k th' g1
      rw [g2, ho] at ho'; cases ho'
      exact hok.begun
  · obtain ⟨o', ho', hok⟩ := hb.ths j th h1
    rw [h2, ho] at ho'; cases ho'
    rcases hb' with rfl | ⟨k, th', g1, g2, g3⟩
    · have := ht.first j th a o h1 (by rw [h2]; exact ho) h3
      omega
    · rcases Nat.lt_trichotomy j k with hjk | hjk | hjk
      · obtain ⟨r, hr⟩ := ht.one j k th th' hjk h1 g1 (h2.trans g2.symm)
        obtain ⟨r', hr', _⟩ := hok.ret r a hr h3
        rw [hr']; rfl
      · subst hjk; rw [h1] at g1; cases g1; rw [h3] at g3; cases g3; omega
      · have := ht.lt k j th' th b a hjk g1 h1 (g2.trans h2.symm) g3 h3
        omega

theorem ord_step {cfg : Cfg} {m : Nat} {x x' : XSys} (hb : XBase cfg m x) (ht : XTurn x) (ha : Adv x.sys x'.sys)
    (hof : ∀ (i n : Nat) (o' : XTx), n < x.sys.threads.length → x'.txs[i]? = some o' → Of x' i o' n → ∃ o, x.txs[i]? = some o ∧ Of x i o n) :
    (acceptedIn x'.sys.trace).Pairwise fun p q => ∀ (i : Nat) (o : XTx), x'.txs[i]? = some o → Of x' i o p.1 → Of x' i o q.1 → p.1 < q.1 := by
  obtain ⟨es, hes⟩ := hb.reach
  have hall := all_run hes
  have old : (acceptedIn x.sys.trace).Pairwise fun p q => ∀ (i : Nat) (o : XTx), x'.txs[i]? = some o → Of x' i o p.1 → Of x' i o q.1 → p.1 < q.1 := by
    refine List.Pairwise.imp_of_mem ?_ ht.ord
    intro p q hp hq h i o ho h1 h2
    obtain ⟨o1, g1, g2⟩ := hof i p.1 o (acc_lt hall.origin hp) ho h1
    obtain ⟨o2, k1, k2⟩ := hof i q.1 o (acc_lt hall.origin hq) ho h2
    rw [g1] at k1; cases k1
    exact h i o1 g1 g2 k2
  rcases ha.acc with h | ⟨t, th, r, h1, h2, h3⟩
  · rw [h]; exact old
  · rw [h3]
    refine List.pairwise_append.2 ⟨old, List.pairwise_singleton _ _, ?_⟩
    intro p hp q hq i o ho hp' hq'
    rw [List.mem_singleton] at hq; subst hq
    have hlt := (List.getElem?_eq_some_iff.1 h1).1
    obtain ⟨o1, g1, g2⟩ := hof i p.1 o (acc_lt hall.origin hp) ho hp'
    obtain ⟨o2, k1, k2⟩ := hof i t o hlt ho hq'
    rw [g1] at k1; cases k1
    apply Classical.byContradiction
    intro hn
    have hne : p.1 ≠ t := by
      intro e
      refine (hall.origin.callers t th h1).early (.inr (.inr ⟨r, h2⟩)) p.2 ?_
      rw [← e]; exact hp
    have := of_returned hb ht g1 k2 g2 (show t < p.1 by simp at hn; omega)
    obtain ⟨r', hr'⟩ := Option.isSome_iff_exists.1 this
    obtain ⟨th', e1, e2⟩ := returned_some.1 hr'
    rw [h1] at e1; cases e1; rw [h2] at e2; cases e2

/-- A call of a method moves. -/
theorem turn_set {cfg : Cfg} {m : Nat} {x x' : XSys} {j : Nat} {th th' : XThread} {o : XTx} (hb : XBase cfg m x) (ht : XTurn x) (hj : x.threads[j]? = some th)
    (ho : x.txs[th.tx]? = some o) (hpc : ∀ r, th.pc ≠ .ret r) (h1 : x'.threads = x.threads.set j th') (h2 : th'.tx = th.tx) (h3 : th'.call = th.call)
    (h4 : th'.via = th.via ∨ (th'.via = some x.sys.threads.length ∧ o.tx.completed = false))
    (htx : ∀ (i : Nat) (o' : XTx), x'.txs[i]? = some o' → ∃ o, x.txs[i]? = some o ∧ o'.begun = o.begun) (ha : Adv x.sys x'.sys)
    (hs : ∀ (n : Nat) (th : Thread) (d c b : Bytes) (os : List SendOpt), x'.sys.threads[n]? = some th → th.call = .send d c b os →
      ∀ v, .header b!"transaction" v ∉ os) : XTurn x' := by
  have vlt : ∀ {k n : Nat} {a : XThread}, x.threads[k]? = some a → a.via = some n → n < x.sys.threads.length := by
    intro k n a hk hv
    obtain ⟨o', ho', hok⟩ := hb.ths k a hk
    exact of_lt hb ho' (.inr ⟨k, a, hk, rfl, hv⟩)
  have last : ∀ {k : Nat} {b : XThread}, j < k → x.threads[k]? = some b → th.tx = b.tx → False := by
    intro k b hl hk he
    obtain ⟨r, hr⟩ := ht.one j k th b hl hj hk he
    exact hpc r hr
  refine ⟨?_, ?_, ?_, ?_, ord_step hb ht ha ?_, hs⟩
  · intro k l a b hkl hk hl he
    rw [h1] at hk hl
    rcases xget_set hl with ⟨rfl, rfl⟩ | ⟨_, hl'⟩
    · rcases xget_set hk with ⟨rfl, _⟩ | ⟨_, hk'⟩
      · omega
      · exact ht.one k j a th hkl hk' hj (he.trans h2)
    · rcases xget_set hk with ⟨rfl, rfl⟩ | ⟨_, hk'⟩
      · exact (last hkl hl' (h2.symm.trans he)).elim
      · exact ht.one k l a b hkl hk' hl' he
  · intro k l a b n n' hkl hk hl he hv hv'
    rw [h1] at hk hl
    rcases xget_set hl with ⟨rfl, rfl⟩ | ⟨_, hl'⟩
    · rcases xget_set hk with ⟨rfl, _⟩ | ⟨_, hk'⟩
      · omega
      · rcases h4 with h4 | ⟨h4, _⟩
        · exact ht.lt k j a th n n' hkl hk' hj (he.trans h2) hv (h4.symm.trans hv')
        · rw [h4] at hv'; cases hv'
          exact vlt hk' hv
    · rcases xget_set hk with ⟨rfl, rfl⟩ | ⟨_, hk'⟩
      · exact (last hkl hl' (h2.symm.trans he)).elim
      · exact ht.lt k l a b n n' hkl hk' hl' he hv hv'
  · intro k a n o' hk ho' hv
    rw [h1] at hk
    obtain ⟨o1, ho1, hb1⟩ := htx _ _ ho'
    rw [hb1]
    rcases xget_set hk with ⟨rfl, rfl⟩ | ⟨_, hk'⟩
    · rw [h2, ho] at ho1; cases ho1
      rcases h4 with h4 | ⟨h4, _⟩
      · exact ht.first j th n o hj ho (h4.symm.trans hv)
      · rw [h4] at hv; cases hv
        exact of_lt hb ho (.inl rfl)
    · exact ht.first k a n o1 hk' ho1 hv
  · intro k l a b n hkl hk hl he hv hend
    rw [h1] at hk hl
    rcases xget_set hl with ⟨rfl, rfl⟩ | ⟨_, hl'⟩
    · rcases xget_set hk with ⟨rfl, _⟩ | ⟨_, hk'⟩
      · omega
      · rcases h4 with h4 | ⟨_, h4⟩
        · exact ht.ended k j a th n hkl hk' hj (he.trans h2) (h4.symm.trans hv) hend
        · intro hr
          obtain ⟨o1, ho1, hok⟩ := hb.ths k a hk'
          rw [he, h2, ho] at ho1; cases ho1
          rw [hok.done hend hr] at h4; cases h4
    · rcases xget_set hk with ⟨rfl, rfl⟩ | ⟨_, hk'⟩
      · exact (last hkl hl' (h2.symm.trans he)).elim
      · exact ht.ended k l a b n hkl hk' hl' he hv hend
  · intro i n o' hn hi hof
    obtain ⟨o1, ho1, hb1⟩ := htx _ _ hi
    refine ⟨o1, ho1, ?_⟩
    rcases hof with hof | ⟨k, a, hk, hk2, hk3⟩
    · exact .inl (hof.trans hb1)
    · rw [h1] at hk
      rcases xget_set hk with ⟨rfl, rfl⟩ | ⟨_, hk'⟩
      · rcases h4 with h4 | ⟨h4, _⟩
        · exact .inr ⟨j, th, hj, h2.symm.trans hk2, h4.symm.trans hk3⟩
        · rw [h4] at hk3; cases hk3; omega
      · exact .inr ⟨k, a, hk', hk2, hk3⟩

theorem turn_step {cfg : Cfg} {version : Bytes} {m : Nat} {x x' : XSys} {e : XEv} (hb : XBase cfg m x) (ht : XTurn x) (hi : Spec.InTurn x e)
    (h : x.step cfg version e = some x') : XTurn x' := by
  obtain ⟨hc, hs⟩ := xstep_cases h
  clear h
  have ofOld : ∀ (i n : Nat) (o : XTx), x.txs[i]? = some o → Of x i o n → ∃ o, x.txs[i]? = some o ∧ Of x i o n := fun i n o h1 h2 => ⟨o, h1, h2⟩
  have sendsCall : ∀ {c : Call} {s s0 : Sys}, s0.step cfg (.call c) = some s → s0.threads = x.sys.threads →
      (∀ d ct b os, c = .send d ct b os → ∀ v, .header b!"transaction" v ∉ os) →
      ∀ (n : Nat) (th : Thread) (d c b : Bytes) (os : List SendOpt), s.threads[n]? = some th → th.call = .send d c b os → ∀ v, .header b!"transaction" v ∉ os := by
    intro c s s0 hs h0 hn n th d c' b os h1 h2
    rcases call_new hs h1 with h3 | ⟨_, h3⟩
    · rw [h0] at h3
      obtain ⟨th', g1, g2⟩ := (adv_step hs).calls n _ (by rw [h0]; exact List.getElem?_eq_getElem h3)
      rw [h1] at g1; cases g1
      exact ht.sends n _ d c' b os (List.getElem?_eq_getElem h3) (g2.symm.trans h2)
    · exact hn d c' b os (h3.symm.trans h2)
  cases hs with
  | @sys e s h he =>
    refine ⟨ht.one, ht.lt, ht.first, ht.ended, ord_step hb ht (adv_step h) fun i n o _ h1 h2 => ofOld i n o h1 h2, ?_⟩
    intro n th d c b os h1 h2
    have h3 := (List.getElem?_eq_some_iff.1 h1).1
    rw [show s.threads.length = _ from len_step h he] at h3
    obtain ⟨th', g1, g2⟩ := (adv_step h).calls n _ (List.getElem?_eq_getElem h3)
    rw [show s.threads[n]? = _ from h1] at g1; cases g1
    exact ht.sends n _ d c b os (List.getElem?_eq_getElem h3) (g2.symm.trans h2)
  | @call c s h hf =>
    refine ⟨ht.one, ht.lt, ht.first, ht.ended, ord_step hb ht (adv_step h) fun i n o _ h1 h2 => ofOld i n o h1 h2, sendsCall h rfl ?_⟩
    rintro d ct b os rfl
    exact hi
  | @begin_ s h =>
    have back : ∀ {i : Nat} {o : XTx}, i < x.txs.length → (x.txs ++ [(⟨(txBegin x.sys.lastId).2.1, x.sys.threads.length⟩ : XTx)])[i]? = some o → x.txs[i]? = some o := by
      intro i o hl h; rwa [List.getElem?_append_left hl] at h
    refine ⟨ht.one, ht.lt, ?_, ht.ended, ord_step hb ht (xadv h) ?_, sendsCall h rfl (by simp)⟩
    · intro j a n o h1 h2 h3
      obtain ⟨o', ho', _⟩ := hb.ths j a h1
      exact ht.first j a n o h1 (back (List.getElem?_eq_some_iff.1 ho').1 h2) h3
    · intro i n o hn h1 h2
      rw [show _ = (x.txs ++ [(⟨(txBegin x.sys.lastId).2.1, x.sys.threads.length⟩ : XTx)])[i]? from rfl, List.getElem?_append] at h1
      split at h1
      · exact ⟨o, h1, h2⟩
      · rename_i hl
        exfalso
        rcases h2 with h2 | ⟨j, th, g1, g2, g3⟩
        · have : i - x.txs.length = 0 := by
            have := (List.getElem?_eq_some_iff.1 h1).1
            simp at this; omega
          rw [this] at h1
          simp only [List.getElem?_cons_zero, Option.some.injEq] at h1
          rw [← h1] at h2
          simp only at h2
          omega
        · obtain ⟨o', ho', _⟩ := hb.ths j th g1
          rw [g2] at ho'
          exact hl (List.getElem?_eq_some_iff.1 ho').1
  | @method i c o ho h =>
    have old : ∀ {k k' : Nat} {a b : XThread}, k < k' → (x.threads ++ [(⟨i, c, .start, none⟩ : XThread)])[k]? = some a →
        (x.threads ++ [(⟨i, c, .start, none⟩ : XThread)])[k']? = some b → x.threads[k]? = some a := by
      intro k k' a b hl h1 h2
      rcases snoc_get h1 with h3 | ⟨h3, _⟩
      · exact h3
      · have := (List.getElem?_eq_some_iff.1 h2).1
        simp at this; omega
    refine ⟨?_, ?_, ?_, ?_, ord_step hb ht (adv_id hc) ?_, ht.sends⟩
    · intro j k a b hjk h1 h2 he
      rcases snoc_get h2 with h3 | ⟨_, rfl⟩
      · exact ht.one j k a b hjk (old hjk h1 h2) h3 he
      · exact hi a (List.mem_of_getElem? (old hjk h1 h2)) he
    · intro j k a b n n' hjk h1 h2 he hv hv'
      rcases snoc_get h2 with h3 | ⟨_, rfl⟩
      · exact ht.lt j k a b n n' hjk (old hjk h1 h2) h3 he hv hv'
      · cases hv'
    · intro j a n o h1 h2 h3
      rcases snoc_get h1 with h4 | ⟨_, rfl⟩
      · exact ht.first j a n o h4 h2 h3
      · cases h3
    · intro j k a b n hjk h1 h2 he hv
      rcases snoc_get h2 with h3 | ⟨_, rfl⟩
      · exact ht.ended j k a b n hjk (old hjk h1 h2) h3 he hv
      · cases hv
    · intro i' n o' _ h1 h2
      refine ⟨o', h1, ?_⟩
      rcases h2 with h2 | ⟨j, th, g1, g2, g3⟩
      · exact .inl h2
      · rcases snoc_get g1 with g4 | ⟨_, rfl⟩
        · exact .inr ⟨j, th, g4, g2, g3⟩
        · cases g3
  | @refuse j th o hj ho hpc h =>
    exact turn_set hb ht hj ho (by rw [hpc]; simp) rfl rfl rfl (.inl rfl) (fun i o h => ⟨o, h, rfl⟩) (adv_id hc) ht.sends
  | @send j th o f s hj ho hpc h hs =>
    exact turn_set hb ht hj ho (by rw [hpc]; simp) rfl rfl rfl (.inr ⟨rfl, txStep_open h⟩) (fun i o h => ⟨o, h, rfl⟩) (xadv hs) (sendsCall hs rfl (by simp))
  | @back j th n r hj hpc hr =>
    obtain ⟨o, ho, _⟩ := hb.ths j th hj
    unfold XSys.back
    split
    · refine turn_set hb ht hj ho (by rw [hpc]; simp) rfl rfl rfl (.inl rfl) ?_ (adv_id hc) ht.sends
      intro i o' h
      replace h : (if th.call.ends = true then x.txs.modify th.tx (fun o => { o with tx := { o.tx with completed := true } }) else x.txs)[i]? = some o' := h
      split at h
      · have hl := (List.getElem?_eq_some_iff.1 h).1
        rw [List.length_modify] at hl
        obtain ⟨o1, k1, _, k3, _⟩ := txsLe_modify x.txs th.tx i _ (List.getElem?_eq_getElem hl)
        rw [h] at k1; cases k1
        exact ⟨_, List.getElem?_eq_getElem hl, k3⟩
      · exact ⟨o', h, rfl⟩
    · exact turn_set hb ht hj ho (by rw [hpc]; simp) rfl rfl rfl (.inl rfl) (fun i o h => ⟨o, h, rfl⟩) (adv_id hc) ht.sends

theorem turn_orderly {cfg : Cfg} {version : Bytes} {m : Nat} {x : XSys} (h : Spec.Orderly cfg version m x) : XBase cfg m x ∧ XTurn x := by
  induction h with
  | init => exact ⟨base_init cfg m, turn_init m⟩
  | step _ hi hs ih => exact ⟨base_xstep ih.1 (xstep_cases hs).1 (xstep_cases hs).2, turn_step ih.1 ih.2 hi hs⟩

/-! ## The frames of a transaction, in turn -/

theorem bracket_prefix {l l' : List Frame} (h : Spec.Bracket l) (hp : l' <+: l) : Spec.Bracket l' := by
  obtain ⟨b, ops, e, rfl, hb, he, h1, h2, h3, h4⟩ := h
  by_cases c1 : l'.length ≤ b.length
  · refine ⟨l', [], [], by simp, by omega, by simp, ?_, by simp, by simp, fun _ => ⟨rfl, rfl⟩⟩
    have : l' <+: b := by
      rw [List.append_assoc] at hp
      exact List.prefix_of_prefix_length_le hp (List.prefix_append _ _) c1
    exact fun f hf => h1 f (this.subset hf)
  · by_cases c2 : l'.length ≤ (b ++ ops).length
    · have hp' : l' <+: b ++ ops := List.prefix_of_prefix_length_le hp (List.prefix_append _ _) c2
      obtain ⟨ops', rfl⟩ := List.prefix_of_prefix_length_le (List.prefix_append b ops) hp' (by omega)
      have hp3 : ops' <+: ops := (List.prefix_append_right_inj b).1 hp'
      refine ⟨b, ops', [], by simp, hb, by simp, h1, fun f hf => h2 f (hp3.subset hf), by simp, ?_⟩
      intro e
      rw [(h4 e).1] at hp3
      exact ⟨List.prefix_nil.1 hp3, rfl⟩
    · obtain ⟨e', rfl⟩ := List.prefix_of_prefix_length_le (List.prefix_append (b ++ ops) e) hp (by omega)
      have : e' <+: e := (List.prefix_append_right_inj (b ++ ops)).1 hp
      refine ⟨b, ops, e', rfl, hb, Nat.le_trans this.length_le he, h1, h2, fun f hf => h3 f (this.subset hf), ?_⟩
      intro e0
      obtain ⟨r1, r2⟩ := h4 e0
      subst r2
      exact ⟨r1, List.prefix_nil.1 this⟩

theorem acc_frame {s : Sys} (ho : OriginInv s) {t : Nat} {r : Req} {th : Thread} {f : Frame} (h : (t, r) ∈ acceptedIn s.trace) (ht : s.threads[t]? = some th)
    (hc : th.call = .frame f) : r.frame = f := by
  obtain ⟨th', ht', hr⟩ := ho.acc t r h
  rw [ht] at ht'; cases ht'
  rw [hc] at hr
  exact hr.1.1

theorem ok_accepted {cfg : Cfg} {m : Nat} {x : XSys} (hb : XBase cfg m x) {n : Nat} {th : Thread} {f : Frame} (ht : x.sys.threads[n]? = some th)
    (hc : th.call = .frame f) (hr : x.sys.returned n = some .ok) : ∃ r, (n, r) ∈ acceptedIn x.sys.trace ∧ r.frame = f := by
  obtain ⟨es, hes⟩ := hb.reach
  have hall := all_run hes
  obtain ⟨th', ht', hp⟩ := returned_some.1 hr
  rw [ht] at ht'; cases ht'
  rcases hall.done n th .ok ht (by rw [hc]; rfl) hp (.inl rfl) with ⟨r, h1, _⟩ | ⟨h1, _⟩
  · exact ⟨r, h1, acc_frame hall.origin h1 ht hc⟩
  · rw [hc] at h1; cases h1

/-- Which frames belong to a transaction. -/
theorem inTx_of {cfg : Cfg} {m : Nat} {x : XSys} (hb : XBase cfg m x) (ht : XTurn x) (hd : (x.txs.map (·.tx.id)).Nodup) {i : Nat} {o : XTx} (ho : x.txs[i]? = some o)
    {t : Nat} {r : Req} (h : (t, r) ∈ acceptedIn x.sys.trace) (hin : Spec.inTx o.tx.id r.frame = true) : Of x i o t := by
  obtain ⟨es, hes⟩ := hb.reach
  have hall := all_run hes
  obtain ⟨th, hth, hr⟩ := hall.origin.acc t r h
  simp only [Spec.inTx, decide_eq_true_eq] at hin
  obtain ⟨hcmd, hhdr⟩ := hin
  have hcon : r.frame.header.contains b!"transaction" = some o.tx.id := by rw [contains_eq]; exact hhdr
  cases hc : th.call with
  | send d c b os =>
    rw [hc] at hr
    obtain ⟨l, l', hf⟩ := hr.1
    rw [send_plain (ht.sends t th d c b os hth hc) hf] at hcon; cases hcon
  | frame f =>
    rw [acc_frame hall.origin h hth hc] at hcon
    rcases hb.others t th f hth hc with h1 | ⟨i', o', h1, h2⟩
    · rw [show b!"transaction" = Hdr.transaction from rfl, h1] at hcon; cases hcon
    · have hid : o'.tx.id = o.tx.id := by
        rcases h2 with rfl | ⟨j, a, g1, g2, g3⟩
        · obtain ⟨sth, g, k1, k2, _, k4⟩ := hb.txs i' o' h1
          rw [hth] at k1; cases k1; rw [hc] at k2; cases k2
          rw [show b!"transaction" = Hdr.transaction from rfl, k4] at hcon
          exact Option.some.inj hcon
        · obtain ⟨o1, g4, hok⟩ := hb.ths j a g1
          rw [g2, h1] at g4; cases g4
          obtain ⟨sth, g, k1, k2, k4, _⟩ := hok.frame t g3
          rw [hth] at k1; cases k1; rw [hc] at k2; cases k2
          rw [show b!"transaction" = Hdr.transaction from rfl, k4] at hcon
          exact Option.some.inj hcon
      have hl := (List.getElem?_eq_some_iff.1 h1).1
      have : i' = i := by
        refine (List.getElem?_inj (by simpa using hl) hd).1 ?_
        rw [List.getElem?_map, List.getElem?_map, h1, ho]
        simp [hid]
      subst this
      rw [ho] at h1; cases h1
      exact h2
  | subscribe d a os =>
    rw [hc] at hr
    obtain ⟨_, _, _, _, _, _, _, _, _, _, _, hf⟩ := hr
    rw [(createSubscribe_dest hf).1] at hcmd
    exact absurd hcmd (by decide)
  | unsubscribe i os =>
    rw [hc] at hr
    obtain ⟨_, _, hf⟩ := hr.1
    rw [unsub_command hf] at hcmd
    exact absurd hcmd (by decide)
  | disconnect =>
    rw [hc] at hr
    obtain ⟨_, hf⟩ := hr.1
    rw [hf] at hcmd
    exact absurd hcmd (by show ¬(Cmd.disconnect ∈ _ ∨ Cmd.disconnect ∈ _); decide)
  | mustDisconnect => rw [hc] at hr; exact hr.1.elim

theorem of_inTx {cfg : Cfg} {m : Nat} {x : XSys} (hb : XBase cfg m x) {i : Nat} {o : XTx} (ho : x.txs[i]? = some o)
    {t : Nat} (h : Of x i o t) : ∃ (th : Thread) (f : Frame), x.sys.threads[t]? = some th ∧ th.call = .frame f ∧ Spec.inTx o.tx.id f = true := by
  rcases h with rfl | ⟨j, a, g1, g2, g3⟩
  · obtain ⟨sth, g, k1, k2, k3, k4⟩ := hb.txs i o ho
    refine ⟨sth, g, k1, k2, ?_⟩
    simp only [Spec.inTx, decide_eq_true_eq]
    rw [contains_eq] at k4
    exact ⟨.inl (by rw [k3]; decide), k4⟩
  · obtain ⟨o1, g4, hok⟩ := hb.ths j a g1
    rw [g2, ho] at g4; cases g4
    obtain ⟨sth, g, k1, k2, k4, k3⟩ := hok.frame t g3
    refine ⟨sth, g, k1, k2, ?_⟩
    simp only [Spec.inTx, decide_eq_true_eq]
    rw [contains_eq] at k4
    refine ⟨?_, k4⟩
    rcases k3 with ⟨_, h | h⟩ | ⟨_, h | h | h⟩ <;> rw [h] <;> decide

theorem bracket_of {cfg : Cfg} {m : Nat} {x : XSys} (hb : XBase cfg m x) (ht : XTurn x) (hd : (x.txs.map (·.tx.id)).Nodup) {i : Nat} {o : XTx} (ho : x.txs[i]? = some o)
    (hu : Spec.Unfailing x i) : Spec.Bracket (((acceptedIn x.sys.trace).filter fun p => Spec.inTx o.tx.id p.2.frame).map (·.2.frame)) := by
  obtain ⟨es, hes⟩ := hb.reach
  have hall := all_run hes
  -- in order of the calls
  have hlt : ((acceptedIn x.sys.trace).filter fun p => Spec.inTx o.tx.id p.2.frame).Pairwise fun p q => p.1 < q.1 := by
    refine List.Pairwise.imp_of_mem ?_ (ht.ord.sublist List.filter_sublist)
    intro p q hp hq h
    obtain ⟨hp1, hp2⟩ := List.mem_filter.1 hp
    obtain ⟨hq1, hq2⟩ := List.mem_filter.1 hq
    exact h i o ho (inTx_of hb ht hd ho hp1 hp2) (inTx_of hb ht hd ho hq1 hq2)
  have hmem : ∀ p ∈ (acceptedIn x.sys.trace).filter fun p => Spec.inTx o.tx.id p.2.frame, p ∈ acceptedIn x.sys.trace ∧ Of x i o p.1 := by
    intro p hp
    obtain ⟨hp1, hp2⟩ := List.mem_filter.1 hp
    exact ⟨hp1, inTx_of hb ht hd ho hp1 hp2⟩
  have hfirst : ∀ n, Of x i o n → o.begun < n → ∃ r, (o.begun, r) ∈ (acceptedIn x.sys.trace).filter fun p => Spec.inTx o.tx.id p.2.frame := by
    intro n hn hlt
    have hret := of_returned hb ht ho (.inl rfl) hn hlt
    obtain ⟨r, hr⟩ := Option.isSome_iff_exists.1 hret
    have := hu.1 o ho r hr
    subst this
    obtain ⟨th, f, k1, k2, k3⟩ := of_inTx hb ho (.inl rfl)
    obtain ⟨r, h1, h2⟩ := ok_accepted hb k1 k2 hr
    exact ⟨r, List.mem_filter.2 ⟨h1, by rw [h2]; exact k3⟩⟩
  -- the frame of a call of a method
  have hvia : ∀ p, p ∈ acceptedIn x.sys.trace → Of x i o p.1 → o.begun < p.1 →
      (p.2.frame.command = b!"COMMIT" ∨ p.2.frame.command = b!"ABORT") ∨ Server.Spec.operation p.2.frame := by
    intro p hp hof hl
    rcases hof with h | ⟨j, a, g1, g2, g3⟩
    · omega
    · obtain ⟨o1, g4, hok⟩ := hb.ths j a g1
      rw [g2, ho] at g4; cases g4
      obtain ⟨sth, g, k1, k2, _, k3⟩ := hok.frame p.1 g3
      rw [acc_frame hall.origin hp k1 k2]
      rcases k3 with ⟨_, k3⟩ | ⟨_, k3⟩
      · exact .inl k3
      · exact .inr k3
  have hop : ∀ p q, p ∈ acceptedIn x.sys.trace → Of x i o p.1 → Of x i o q → o.begun < p.1 → p.1 < q → Server.Spec.operation p.2.frame := by
    intro p q hp hof hq hl hpq
    have hret := of_returned hb ht ho hof hq hpq
    obtain ⟨r, hr⟩ := Option.isSome_iff_exists.1 hret
    rcases hof with h | ⟨j, a, g1, g2, g3⟩
    · omega
    · obtain ⟨o1, g4, hok⟩ := hb.ths j a g1
      rw [g2, ho] at g4; cases g4
      obtain ⟨sth, g, k1, k2, _, k3⟩ := hok.frame p.1 g3
      rw [acc_frame hall.origin hp k1 k2]
      rcases k3 with ⟨he, k3⟩ | ⟨_, k3⟩
      · exfalso
        have := hu.2 a (List.mem_of_getElem? g1) g2 he p.1 g3 r hr
        subst this
        rcases hq with h | ⟨k, b, m1, m2, m3⟩
        · omega
        · rcases Nat.lt_trichotomy j k with hjk | hjk | hjk
          · obtain ⟨r', hr'⟩ := ht.one j k a b hjk g1 m1 (g2.trans m2.symm)
            obtain ⟨r2, e1, e2⟩ := hok.ret r' p.1 hr' g3
            rw [hr] at e1; cases e1
            have := e2 rfl
            subst this
            exact ht.ended j k a b q hjk g1 m1 (g2.trans m2.symm) m3 he hr'
          · subst hjk; rw [g1] at m1; cases m1; rw [g3] at m3; cases m3; omega
          · have := ht.lt k j b a q p.1 hjk m1 g1 (m2.trans g2.symm) m3 g3
            omega
      · exact k3
  revert hlt hmem hfirst
  generalize (acceptedIn x.sys.trace).filter (fun p => Spec.inTx o.tx.id p.2.frame) = l
  intro hlt hmem hfirst
  cases l with
  | nil => exact ⟨[], [], [], rfl, by simp, by simp, by simp, by simp, by simp, fun _ => ⟨rfl, rfl⟩⟩
  | cons a l =>
    have hge : ∀ n, Of x i o n → o.begun = n ∨ o.begun < n := by
      intro n hn
      rcases hn with h | ⟨j, b, g1, g2, g3⟩
      · exact .inl h.symm
      · exact .inr (ht.first j b n o g1 (by rw [g2]; exact ho) g3)
    rw [List.pairwise_cons] at hlt
    have ha : o.begun = a.1 := by
      rcases hge a.1 (hmem a List.mem_cons_self).2 with h | h
      · exact h
      · obtain ⟨r, hr⟩ := hfirst a.1 (hmem a List.mem_cons_self).2 h
        rcases List.mem_cons.1 hr with h1 | h1
        · rw [← h1] at h; exact absurd h (Nat.lt_irrefl _)
        · have := hlt.1 _ h1
          simp only at this; omega
    have hab : a.2.frame.command = b!"BEGIN" := by
      obtain ⟨sth, g, k1, k2, k3, _⟩ := hb.txs i o ho
      rw [ha] at k1
      rw [acc_frame hall.origin (hmem a List.mem_cons_self).1 k1 k2]
      exact k3
    rcases List.eq_nil_or_concat l with rfl | ⟨init, z, rfl⟩
    · exact ⟨[a.2.frame], [], [], rfl, by simp, by simp, by simpa using hab, by simp, by simp, by simp⟩
    · have hz := hmem z (by simp)
      have hzl : o.begun < z.1 := by have := hlt.1 z (by simp); omega
      have hinit : ∀ f ∈ init.map (·.2.frame), Server.Spec.operation f := by
        intro f hf
        obtain ⟨p, hp, rfl⟩ := List.mem_map.1 hf
        have h1 := hmem p (by simp [hp])
        have h2 := hlt.1 p (by simp [hp])
        have h3 := (List.pairwise_append.1 (show (init ++ [z]).Pairwise _ by simpa using hlt.2)).2.2 p hp z (by simp)
        exact hop p z.1 h1.1 h1.2 hz.2 (by omega) h3
      rcases hvia z hz.1 hz.2 hzl with h | h
      · exact ⟨[a.2.frame], init.map (·.2.frame), [z.2.frame], by simp, by simp, by simp, by simpa using hab, hinit, by simpa using h, by simp⟩
      · refine ⟨[a.2.frame], init.map (·.2.frame) ++ [z.2.frame], [], by simp, by simp, by simp, by simpa using hab, ?_, by simp, by simp⟩
        intro f hf
        rcases List.mem_append.1 hf with hf | hf
        · exact hinit f hf
        · rw [List.mem_singleton.1 hf]; exact h

end Stomp.Client

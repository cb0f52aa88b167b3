import Verif.Proofs.Client.Told
import Verif.Proofs.Client.Library
import Verif.Spec.ClientConversation
/-! # After a DISCONNECT nothing is sent; an UNSUBSCRIBE follows its SUBSCRIBE -/
namespace Stomp.Client
open Stomp

theorem wire_command {f g : Frame} (h : Spec.wire f = some g) : g.command = f.command := by
  unfold Spec.wire at h
  split at h
  · cases h
  · split at h <;> (injection h with h; subst h; rfl)

theorem takenIn_one {tr : List Obs} {o : Obs} (h : ∀ r, o ≠ .taken r) : takenIn (tr ++ [o]) = takenIn tr := by
  rw [takenIn_append]
  cases o <;> first | exact absurd rfl (h _) | exact List.append_nil _

theorem taken_frameDone (s : Sys) (t : Nat) (c : Call) (r : Res) : takenIn (s.frameDone t c r).trace = takenIn s.trace := by
  obtain ⟨_, _, _, _, _, ⟨_, _, h⟩ | ⟨_, _, h⟩⟩ := frameDone_spec s t c r
  · rw [h]; exact takenIn_one (by simp)
  · rw [h]

theorem taken_handOver {s s1 : Sys} {n : Nat} {f : Frame} {b : Bool} (h : s.handOver n f b = some s1) : takenIn s1.trace = takenIn s.trace := by
  cases handOver_cases h with
  | send => exact takenIn_one (by simp)
  | discOk => exact takenIn_one (by simp)
  | discErr => exact takenIn_one (by simp)
  | frame => exact taken_frameDone _ _ _ _
  | sub => rfl

/-- `processLoop` takes a request only at its `select`. -/
theorem taken_step {cfg : Cfg} {s s' : Sys} (h : Step cfg s s') : takenIn s'.trace = takenIn s.trace ∨ s.loop = .select := by
  cases h with
  | frameClosed => exact .inl (taken_frameDone _ _ _ _)
  | pushWait => exact .inl (takenIn_one (by simp))
  | pushRet => exact .inl ((takenIn_one (by simp)).trans (takenIn_one (by simp)))
  | @pushSub t th r n =>
    have sp := handOut_spec { s with writeCh := s.writeCh ++ [r], trace := s.trace ++ [.accepted t r] } n
    exact .inl ((takenIn_one (by simp)).trans ((congrArg takenIn sp.2.1).trans (takenIn_one (by simp))))
  | pushFrameWait => exact .inl (takenIn_one (by simp))
  | pushFrameRet => exact .inl ((taken_frameDone _ _ _ _).trans (takenIn_one (by simp)))
  | waitClosed => exact .inl (taken_frameDone _ _ _ _)
  | frameTimeout => exact .inl (taken_frameDone _ _ _ _)
  | unsub ht hcall hb hpc h =>
    obtain ⟨hcore, ⟨_, h2, _⟩ | ⟨_, pc, hp, h1, hpast, ⟨_, h2⟩ | ⟨r, _, h2⟩⟩⟩ := unsub_spec h
    · exact .inl (by rw [h2])
    · exact .inl (by rw [h2])
    · exact .inl (by rw [h2]; exact takenIn_one (by simp))
  | helper ht hcall hb h => exact .inl (by rw [(helper_spec h).2.1])
  | sub h => exact .inl (by rw [(subStep_spec h).2.1])
  | @giveReceipt _ _ _ _ s1 hl hc h1 =>
    exact .inl ((congrArg takenIn (closeChan_spec _ _).2.2.2.2.2.2.2.2.2.1).trans (show takenIn s1.trace = _ from taken_handOver h1))
  | @giveMessage _ _ _ s1 hl hc h1 => exact .inl (show takenIn s1.trace = _ from taken_handOver h1)
  | @giveErr _ _ _ _ s1 hl hc h1 =>
    exact .inl ((congrArg takenIn (closeChan_spec _ _).2.2.2.2.2.2.2.2.2.1).trans (show takenIn s1.trace = _ from taken_handOver h1))
  | @giveFail _ _ _ _ s1 hl hc h1 => exact .inl (show takenIn s1.trace = _ from taken_handOver h1)
  | _ =>
    first
      | exact .inl rfl
      | exact .inr (by assumption)
      | exact .inl (takenIn_one (by simp))

/-- A step accepts nothing, or a request from a caller, who then waits, or is not one of `Disconnect`. -/
theorem accept_step {cfg : Cfg} {s s' : Sys} (h : Step cfg s s') : acceptedIn s'.trace = acceptedIn s.trace ∨
    ∃ (u : Nat) (th : Thread) (r : Req), s.threads[u]? = some th ∧ th.pc = .push r ∧ acceptedIn s'.trace = acceptedIn s.trace ++ [(u, r)] ∧
      (th.call = .disconnect → ∃ n, s'.threads = s.threads.modify u fun th => { th with pc := .wait n }) := by
  cases h with
  | pushWait ht hpc hw hcap hr => exact .inr ⟨_, _, _, ht, hpc, acceptedIn_one _ _ _, fun _ => ⟨_, rfl⟩⟩
  | pushRet ht hpc hw hcap hr hcall =>
    exact .inr ⟨_, _, _, ht, hpc, (acceptedIn_ret _ _ _).trans (acceptedIn_one _ _ _), fun e => by rw [hcall] at e; cases e⟩
  | @pushSub t th r n d a o ht hpc hw hcap hr hcall =>
    have := handOut_spec { s with writeCh := s.writeCh ++ [r], trace := s.trace ++ [.accepted t r] } n
    exact .inr ⟨_, _, _, ht, hpc, (acceptedIn_ret _ _ _).trans ((congrArg acceptedIn this.2.1).trans (acceptedIn_one _ _ _)),
      fun e => by rw [hcall] at e; cases e⟩
  | pushFrameWait ht hpc hw hcap hr => exact .inr ⟨_, _, _, ht, hpc, acceptedIn_one _ _ _, fun _ => ⟨_, rfl⟩⟩
  | @pushFrameRet t th r ht hpc hw hcap hr hcall =>
    obtain ⟨pc, hp, h1, h2⟩ := frameDone_past
      (Sys.unlock { s with writeCh := s.writeCh ++ [r], trace := s.trace ++ [.accepted t r] }) t th.call .ok
    refine .inr ⟨_, _, _, ht, hpc, h2.trans (acceptedIn_one _ _ _), fun e => ?_⟩
    rcases hcall with ⟨_, hc⟩ | ⟨_, _, hc⟩ <;> rw [hc] at e <;> cases e
  | @frameClosed t th ht =>
    obtain ⟨pc, hp, h1, h2⟩ := frameDone_past s.closeNet t th.call .closedUnexpectedly
    exact .inl h2
  | @waitClosed t th n ht =>
    obtain ⟨pc, hp, h1, h2⟩ := frameDone_past s t th.call .closedUnexpectedly
    exact .inl h2
  | @frameTimeout t th n ht =>
    obtain ⟨pc, hp, h1, h2⟩ := frameDone_past s t th.call .closedUnexpectedly
    exact .inl h2
  | unsub ht hcall hb hpc h =>
    obtain ⟨hcore, ⟨h1, h2, _⟩ | ⟨_, pc, hp, h1, hpast, ⟨_, h2⟩ | ⟨r, _, h2⟩⟩⟩ := unsub_spec h
    · exact .inl (by rw [h2])
    · exact .inl (by rw [h2])
    · exact .inl (by rw [h2]; exact acceptedIn_ret _ _ _)
  | helper ht hcall hb h => exact .inl (by rw [(helper_spec h).2.1])
  | sub h => exact .inl (by rw [(subStep_spec h).2.1])
  | @takeQuiet r rest hl hw ho =>
    have sp := takeReq_spec s r rest
    exact .inl (by rw [sp.2.2.2.2.2.2.2.2.2.1]; exact acceptedIn_quiet (by simp))
  | @takeSent r rest f hl hw ho =>
    have sp := takeReq_spec s r rest
    refine .inl ((acceptedIn_quiet (by simp)).trans ?_)
    rw [sp.2.2.2.2.2.2.2.2.2.1]; exact acceptedIn_quiet (by simp)
  | @takeFail r rest f order hl hw ho hp =>
    have sp := takeReq_spec s r rest
    refine .inl ((acceptedIn_quiet (by simp)).trans ?_)
    rw [sp.2.2.2.2.2.2.2.2.2.1]; exact acceptedIn_quiet (by simp)
  | @giveReceipt _ _ _ _ s1 hl hc h1 =>
    exact .inl ((congrArg acceptedIn (closeChan_spec _ _).2.2.2.2.2.2.2.2.2.1).trans (show acceptedIn s1.trace = _ from (handOver_past h1).1))
  | @giveMessage _ _ _ s1 hl hc h1 => exact .inl (show acceptedIn s1.trace = _ from (handOver_past h1).1)
  | @giveErr _ _ _ _ s1 hl hc h1 =>
    exact .inl ((congrArg acceptedIn (closeChan_spec _ _).2.2.2.2.2.2.2.2.2.1).trans (show acceptedIn s1.trace = _ from (handOver_past h1).1))
  | @giveFail _ _ _ _ s1 hl hc h1 => exact .inl (show acceptedIn s1.trace = _ from (handOver_past h1).1)
  | _ =>
    first
      | exact .inl rfl
      | exact .inl (acceptedIn_quiet (by simp))

/-- Only `Disconnect` makes DISCONNECT frames. -/
theorem frameOf_disconnect {s : Sys} {call : Call} {f : Frame} (h : Spec.FrameOf s call f) (hc : f.command = Cmd.disconnect) : call = .disconnect := by
  cases call with
  | send d c b o =>
    obtain ⟨_, _, h⟩ := h
    rw [createSendFrame_command h] at hc; cases hc
  | frame g => obtain ⟨rfl, h⟩ := h; rw [hc] at h; exact absurd h (by decide)
  | subscribe d a o =>
    obtain ⟨_, _, _, _, h⟩ := h
    rw [(subscribe_key h).1] at hc; cases hc
  | unsubscribe i o =>
    obtain ⟨b, _, h⟩ := h
    rw [unsub_command h] at hc; cases hc
  | disconnect => rfl
  | mustDisconnect => exact h.elim

/-- Nothing has been read for a subscription with the name of the receipt of a DISCONNECT. -/
def Apart (s : Sys) : Prop := ∀ (m : Frame) (t : Nat) (r : Req), .took (some m) ∈ s.trace → m.command = Cmd.message → (t, r) ∈ acceptedIn s.trace →
  r.frame.command = Cmd.disconnect → m.header.contains Hdr.subscription ≠ r.frame.header.contains Hdr.receipt

theorem Apart.back {s s' : Sys} (he : Ext s s') (h : Apart s') : Apart s := by
  intro m t r hm hc ha hd
  obtain ⟨l, hl⟩ := he.trace
  exact h m t r (by rw [hl]; exact List.mem_append_left _ hm) hc (acceptedIn_ext he ha) hd

/-- `b` has been accepted after the DISCONNECT of `t`, and `a` before it: nothing, and the connection is closed or `t` waits for the receipt; or the
connection has ended before anything of `b` was taken. -/
def Final (s : Sys) (a b : List (Nat × Req)) (t : Nat) : Prop :=
  b = [] ∧ (s.closed = true ∨ ∃ (th : Thread) (n : Nat), s.threads[t]? = some th ∧ th.call = .disconnect ∧ th.pc = .wait n) ∨
  s.loop.ended = true ∧ (takenIn s.trace).length ≤ a.length + 1

def ByeInv (s : Sys) : Prop := Apart s → ∀ (a b : List (Nat × Req)) (t : Nat) (r : Req), acceptedIn s.trace = a ++ (t, r) :: b →
  r.frame.command = Cmd.disconnect → Final s a b t

/-- The one who waits for the receipt of its DISCONNECT goes on waiting, or the connection is closed or ends. -/
theorem wait_step {cfg : Cfg} {s s' : Sys} (ha : AllInv s) (hb' : ByInv s') (hap : Apart s) (h : Step cfg s s') {t n : Nat} {th : Thread}
    (ht : s.threads[t]? = some th) (hc : th.call = .disconnect) (hp : th.pc = .wait n) :
    s'.closed = true ∨ s'.loop.ended = true ∨ ∃ (th : Thread), s'.threads[t]? = some th ∧ th.call = .disconnect ∧ th.pc = .wait n := by
  obtain ⟨th', ht', hc'⟩ := (ext_step h).threads t th ht
  have hcd : th'.call = .disconnect := hc'.trans hc
  have closes : th'.gaveUp → s'.closed = true := by
    intro hg
    refine (hb'.th t th' ht').2 ?_
    unfold Thread.gaveUp at hg
    rw [hcd] at hg
    dsimp only at hg
    unfold Thread.closedBy
    rw [hcd, hg]
  rcases th_step h with hg | hg
  · cases hg with
    | @mk f m b s1 hat hch h1 hts hss hw hl hch' =>
      by_cases he : s.loop.ended = true
      · exact .inr (.inl (ended_step h he))
      · have hloop : (∃ id, s.loop = .receipt f id m) ∨ s.loop = .message f m := by
          rcases hl with ⟨id, h, _⟩ | ⟨h, _⟩ | ⟨_, _, ⟨l, h⟩ | ⟨l, h⟩⟩
          · exact .inl ⟨id, h⟩
          · exact .inr h
          · rw [h] at he; exact absurd rfl he
          · rw [h] at he; exact absurd rfl he
        have other : ∀ (u : Nat) (thu : Thread) (pc : Pc), s.threads[u]? = some thu → s1.threads = s.threads.modify u (fun th => { th with pc := pc }) →
            thu.call ≠ .disconnect → ∃ (th : Thread), s'.threads[t]? = some th ∧ th.call = .disconnect ∧ th.pc = .wait n := by
          intro u thu pc hu hm hne
          refine ⟨th, ?_, hc, hp⟩
          rw [hts, hm, List.getElem?_modify, ht]
          by_cases e : u = t
          · subst e; rw [ht] at hu; cases hu; exact absurd hc hne
          · simp [e]
        cases handOver_cases h1 with
        | send hn hu hpc hcall => exact .inr (.inr (other _ _ _ hu rfl (by rw [hcall]; simp)))
        | @discOk u thu c r hn hu hpc hcall hf hr =>
          left
          refine (hb'.th u { thu with pc := .ret r } ?_).2 ?_
          · rw [hts]
            show (s.threads.modify u _)[u]? = _
            rw [List.getElem?_modify, hu]; simp
          · unfold Thread.closedBy
            dsimp only
            rw [hcall]
            rcases hr with rfl | rfl <;> rfl
        | @discErr u thu c hn hu hpc hcall hf =>
          exfalso
          rcases hloop with ⟨id, hl⟩ | hl
          · exact hf (ha.reg.receipt f id m hl).1
          · obtain ⟨hm1, hm2, id, hm3, v, r, hm4, hm5, hm6⟩ := ha.reg.message f m hl
            obtain ⟨thv, hv, hq⟩ := ha.origin.acc v r hm4
            obtain ⟨r2, k1, k2⟩ := (ha.origin.callers u thu hu).wait m hpc
            have : u = v := ha.origin.chan u v r2 r m k1 hm4 k2 hm5
            subst this
            rw [hu] at hv; cases hv
            rw [hcall] at hq
            obtain ⟨⟨last, hq1⟩, _⟩ := hq
            have hcm : r.frame.command = Cmd.disconnect := by rw [hq1]; rfl
            refine hap f u r hm2 hm1 hm4 hcm ?_
            rw [hm3]
            rcases hm6 with h6 | ⟨h6, _⟩
            · exact h6.symm
            · rw [hcm] at h6; cases h6
        | frame hn hu hpc hcall =>
          obtain ⟨pc, _, e1, _⟩ := frameDone_past s _ _ _
          exact .inr (.inr (other _ _ _ hu e1 (fun e => hcall (.inr e))))
        | sub hn hb hrl => exact .inr (.inr ⟨th, by rw [hts]; exact ht, hc, hp⟩)
  · cases hg t th th' ht ht' with
    | same e => exact .inr (.inr ⟨th', ht', hcd, e.trans hp⟩)
    | early e => rw [hp] at e; cases e
    | gaveUp _ e => exact .inl (closes e)
    | closed _ _ e => exact .inl (closes e)
    | past e => rw [hc] at e; cases e

theorem bye_step {cfg : Cfg} {s s' : Sys} (ha : AllInv s) (ho' : OrderInv s') (hb' : ByInv s') (hi : ByeInv s) (h : Step cfg s s') : ByeInv s' := by
  intro hap a b t r hacc hd
  have he := ext_step h
  have hap0 := hap.back he
  -- what was accepted before
  have old : ∀ b0, acceptedIn s.trace = a ++ (t, r) :: b0 → (b = b0 ∨ s.closed = false ∧ ∃ u, s.mutex = some u ∧ ∃ thu r', s.threads[u]? = some thu ∧ thu.pc = .push r') → Final s' a b t := by
    intro b0 h0 hbb
    have ended : s.loop.ended = true → (takenIn s.trace).length ≤ a.length + 1 → Final s' a b t := by
      intro h1 h2
      refine .inr ⟨ended_step h h1, ?_⟩
      rcases taken_step h with h3 | h3
      · rw [h3]; exact h2
      · rw [h3] at h1; cases h1
    rcases hi hap0 a b0 t r h0 hd with ⟨hb0, h1⟩ | ⟨h1, h2⟩
    · have stop : s'.loop.ended = true → b = [] → Final s' a b t := by
        intro hs hb
        refine .inr ⟨hs, ?_⟩
        have hq := congrArg List.length ho'.queue
        rw [handedIn_acc, hacc, hb] at hq
        simp only [List.length_map, List.length_append, List.length_cons, List.length_nil] at hq
        omega
      rcases hbb with hbb | ⟨hcl, u, hu, thu, r', hu1, hu2⟩
      · rw [hb0] at hbb
        rcases h1 with h1 | ⟨th, n, k1, k2, k3⟩
        · exact .inl ⟨hbb, .inl (closed_step h h1)⟩
        · rcases wait_step ha hb' hap0 h k1 k2 k3 with g | g | ⟨th', g1, g2, g3⟩
          · exact .inl ⟨hbb, .inl g⟩
          · exact stop g hbb
          · exact .inl ⟨hbb, .inr ⟨th', n, g1, g2, g3⟩⟩
      · exfalso
        rcases h1 with h1 | ⟨th, n, k1, k2, k3⟩
        · rw [hcl] at h1; cases h1
        · have := (ha.lock.hold t th k1 (by unfold Thread.holds; rw [k2, k3])).1
          rw [hu] at this; cases this
          rw [k1] at hu1; cases hu1
          rw [k3] at hu2; cases hu2
    · exact ended h1 h2
  by_cases hsame : acceptedIn s'.trace = acceptedIn s.trace
  · exact old b (by rw [← hsame]; exact hacc) (.inl rfl)
  · obtain ⟨u, thu, r', hu1, hu2, hu3, hu4⟩ := (accept_step h).resolve_left hsame
    have hold := ha.lock.hold u thu hu1 (by unfold Thread.holds; rw [hu2])
    rw [hu3] at hacc
    rcases List.eq_nil_or_concat b with hb | ⟨b0, x, hb⟩
    · subst hb
      have hx := List.append_inj' hacc rfl
      obtain ⟨rfl, rfl⟩ := Prod.mk.inj (List.cons.inj hx.2).1
      have hc : thu.call = .disconnect := by
        have hq := ((ha.origin.callers u thu hu1).push r' hu2).1
        by_cases hcall : ∃ d a o, thu.call = .subscribe d a o
        · obtain ⟨d, a, o, hcall⟩ := hcall
          rw [hcall] at hq
          obtain ⟨_, _, _, _, _, _, _, _, _, _, _, hf⟩ := hq
          rw [(subscribe_key hf).1] at hd; cases hd
        · exact frameOf_disconnect ((reqOf_caller (fun d a o h => hcall ⟨d, a, o, h⟩)).1 hq).1 hd
      obtain ⟨n, hn⟩ := hu4 hc
      refine .inl ⟨rfl, .inr ⟨{ thu with pc := .wait n }, n, ?_, hc, rfl⟩⟩
      rw [hn, List.getElem?_modify, hu1]; simp
    · rw [List.concat_eq_append] at hb
      subst hb
      refine old b0 ?_ (.inr ⟨hold.2, u, hold.1, thu, r', hu1, hu2⟩)
      rw [show a ++ (t, r) :: (b0 ++ [x]) = (a ++ (t, r) :: b0) ++ [x] by simp] at hacc
      exact (List.append_inj' hacc rfl).1

theorem bye_run {cfg : Cfg} {n : Nat} {es : List Ev} {s : Sys} (h : (Sys.init n).run cfg es = some s) : ByeInv s := by
  refine (run_induction (P := fun s => AllInv s ∧ ByInv s ∧ ByeInv s) (fun s e s' hp h => ?_) es _ _
    ⟨all_run (cfg := cfg) (es := []) rfl, ⟨fun t th ht => (by cases ht), fun h => (by cases h)⟩, fun _ a b t r h => ?_⟩ h).2.2
  · have hs := (step_cases h).2
    have ha : AllInv s' := ⟨lock_step hp.1.lock h, order_step hp.1.order hs, origin_step hp.1.lock hp.1.origin (ext_step hs) (eff_step hs),
      reg_step hp.1.order hp.1.reg hs, done_step hp.1.origin hp.1.reg hp.1.done hs⟩
    have hb := by_step hp.2.1 hs
    exact ⟨ha, hb, bye_step hp.1 ha.order hb hp.2.2 hs⟩
  · have := congrArg List.length h
    simp [Sys.init, acceptedIn] at this

/-- No frame is written after a DISCONNECT. -/
theorem bye_written {cfg : Cfg} {n : Nat} {es : List Ev} {s : Sys} (h : (Sys.init n).run cfg es = some s) (hap : Apart s) {a b : List Frame} {f : Frame}
    (hw : sentIn s.trace = a ++ f :: b) (hf : f.command = Cmd.disconnect) : b = [] := by
  have hi := bye_run h hap
  have ho := (all_run h).order
  obtain ⟨pre, rest, h1, h2⟩ : ∃ pre rest, takenIn s.trace = pre ++ rest ∧ sentIn s.trace = pre.filterMap (fun r => Spec.wire r.frame) := by
    rcases ho.wire with h | ⟨_, pre, r, h1, h2⟩
    · exact ⟨_, [], (List.append_nil _).symm, h⟩
    · exact ⟨pre, [r], h1, h2⟩
  rw [h2] at hw
  obtain ⟨p1, p2, e1, e2, e3⟩ := List.filterMap_eq_append_iff.1 hw
  obtain ⟨q1, r, q2, e4, e5, e6, e7⟩ := List.filterMap_eq_cons_iff.1 e3
  have hr : r.frame.command = Cmd.disconnect := by rw [← wire_command e6]; exact hf
  have hq : (acceptedIn s.trace).map (·.2) = (p1 ++ q1) ++ r :: (q2 ++ rest ++ s.writeCh) := by
    rw [← handedIn_acc, ho.queue, h1, e1, e4]; simp
  obtain ⟨l1, l2, g1, g2, g3⟩ := List.map_eq_append_iff.1 hq
  obtain ⟨x, l3, g4, g5, g6⟩ := List.map_eq_cons_iff.1 g3
  obtain ⟨t, r'⟩ := x
  subst g5
  have hq2 : q2 = [] := by
    rcases hi l1 l3 t r' (by rw [g1, g4]) hr with ⟨hb, _⟩ | ⟨_, hb⟩
    · rw [hb] at g6
      cases q2 with
      | nil => rfl
      | cons => cases g6
    · have hl := congrArg List.length g2
      rw [h1, e1, e4] at hb
      simp only [List.length_map, List.length_append, List.length_cons] at hl hb
      cases q2 with
      | nil => rfl
      | cons => simp only [List.length_cons] at hb; omega
  rw [← e7, hq2]; rfl

/-! An UNSUBSCRIBE follows its SUBSCRIBE -/

/-- Every subscription handed out was handed out before. -/
def Handed (s : Sys) (l : List Sub) : Prop := ∀ (i : Nat) (b' : Sub), l[i]? = some b' → b'.returned = true → ∃ b, s.subs[i]? = some b ∧ b.returned = true

theorem handed_same (s : Sys) : Handed s s.subs := fun _ b h hr => ⟨b, h, hr⟩

theorem handed_set {s : Sys} {i : Nat} {b b' : Sub} (hb : s.subs[i]? = some b) (h : b'.returned = b.returned) : Handed s (s.subs.set i b') := by
  intro j c hc hr
  rw [List.getElem?_set] at hc
  split at hc
  · rename_i e
    subst e
    split at hc
    · cases hc; exact ⟨b, hb, h ▸ hr⟩
    · cases hc
  · exact ⟨c, hc, hr⟩

theorem handed_append {s : Sys} {b : Sub} (h : b.returned = false) : Handed s (s.subs ++ [b]) := by
  intro j c hc hr
  rw [List.getElem?_append] at hc
  split at hc
  · exact ⟨c, hc, hr⟩
  · rw [List.getElem?_singleton] at hc
    split at hc
    · cases hc; rw [h] at hr; cases hr
    · cases hc

theorem handed_handOver {s s1 : Sys} {n : Nat} {f : Frame} {b : Bool} (h : s.handOver n f b = some s1) : Handed s s1.subs := by
  cases handOver_cases h with
  | frame => rw [(frameDone_spec _ _ _ _).choose_spec.2.2.1]; exact handed_same s
  | sub hn hb hrl =>
    refine handed_set hb ?_
    unfold Sys.rlRecv
    repeat' split
    all_goals rfl
  | _ => exact handed_same s

theorem handed_step {cfg : Cfg} {s s' : Sys} (h : Step cfg s s') : Handed s s'.subs ∨
    ∃ (t : Nat) (th : Thread) (r : Req) (n : Nat), s.threads[t]? = some th ∧ th.pc = .push r ∧ r.chan = some n ∧ (∃ d a o, th.call = .subscribe d a o) ∧
      acceptedIn s'.trace = acceptedIn s.trace ++ [(t, r)] ∧ s'.subs = (s.handOut n).subs ∧ s'.chans = s.chans := by
  cases h with
  | subscribe => exact .inl (handed_append rfl)
  | @pushSub t th r n d a o ht hpc hw hcap hr hcall =>
    have := handOut_spec { s with writeCh := s.writeCh ++ [r], trace := s.trace ++ [.accepted t r] } n
    refine .inr ⟨_, _, _, _, ht, hpc, hr, ⟨_, _, _, hcall⟩, (acceptedIn_ret _ _ _).trans ((congrArg acceptedIn this.2.1).trans (acceptedIn_one _ _ _)), ?_, ?_⟩
    · show (Sys.handOut _ n).subs = _
      unfold Sys.handOut
      dsimp only
      split <;> rfl
    · exact this.1.chans
  | unsubOption ht hpc hcall hb => exact .inl (handed_set hb rfl)
  | unsubGo ht hpc hcall hb => exact .inl (handed_set hb rfl)
  | frameClosed => exact .inl (by rw [(frameDone_spec _ _ _ _).choose_spec.2.2.1]; exact handed_same s)
  | pushFrameRet => exact .inl (by rw [(frameDone_spec _ _ _ _).choose_spec.2.2.1]; exact handed_same s)
  | waitClosed => exact .inl (by rw [(frameDone_spec _ _ _ _).choose_spec.2.2.1]; exact handed_same s)
  | frameTimeout => exact .inl (by rw [(frameDone_spec _ _ _ _).choose_spec.2.2.1]; exact handed_same s)
  | unsub ht hcall hb hpc h =>
    left
    cases unsub_cases h with
    | closeNext _ hn => cases hn <;> exact handed_set hb rfl
    | closeFin _ hn => cases hn <;> exact handed_set hb rfl
    | _ => first | exact handed_same s | exact handed_set hb rfl
  | helper _ _ _ h =>
    obtain ⟨th, i, o, b, ht, hcall, hb, hs⟩ := helper_cases h
    left
    cases hs <;> first | exact handed_same s | exact handed_set hb rfl
  | sub h =>
    obtain ⟨b, hb, hs⟩ := subStep_cases h
    left
    cases hs with
    | closeNext _ hn => cases hn <;> exact handed_set hb rfl
    | closeFin _ hn => cases hn <;> exact handed_set hb rfl
    | _ => first | exact handed_same s | exact handed_set hb rfl
  | take hb => exact .inl (handed_set hb rfl)
  | @takeQuiet r rest => exact .inl (by rw [(takeReq_spec s r rest).2.2.2.2.2.2.2.2.1]; exact handed_same s)
  | @takeSent r rest => exact .inl (by show Handed s (s.takeReq r rest).1.subs; rw [(takeReq_spec s r rest).2.2.2.2.2.2.2.2.1]; exact handed_same s)
  | @takeFail r rest => exact .inl (by show Handed s (s.takeReq r rest).1.subs; rw [(takeReq_spec s r rest).2.2.2.2.2.2.2.2.1]; exact handed_same s)
  | @giveReceipt f id n b s1 hl hc h1 =>
    left; rw [(closeChan_spec _ _).2.2.2.2.2.2.2.2.1]; exact handed_handOver (s1 := s1) h1
  | @giveErr f n l b s1 hl hc h1 =>
    left; rw [(closeChan_spec _ _).2.2.2.2.2.2.2.2.1]; exact handed_handOver (s1 := s1) h1
  | @giveMessage _ _ _ s1 hl hc h1 => exact .inl (handed_handOver (s1 := s1) h1)
  | @giveFail _ _ _ _ s1 hl hc h1 => exact .inl (handed_handOver (s1 := s1) h1)
  | _ => exact .inl (handed_same s)

/-- The SUBSCRIBE of `b` is among `l`. -/
def Started (l : List (Nat × Req)) (b : Sub) : Prop := ∃ t r, (t, r) ∈ l ∧ r.frame.command = Cmd.subscribe ∧ r.chan = some b.chan ∧
  (b.replyTo = false → Spec.wire r.frame = some r.frame ∧ r.frame.header.contains Hdr.id = some b.id)

theorem Started.mono {l l' : List (Nat × Req)} {b b' : Sub} (h : Started l b) (hl : ∀ x ∈ l, x ∈ l') (h1 : b'.id = b.id) (h2 : b'.replyTo = b.replyTo)
    (h3 : b'.chan = b.chan) : Started l' b' := by
  obtain ⟨t, r, g1, g2, g4, g3⟩ := h
  exact ⟨t, r, hl _ g1, g2, h3 ▸ g4, fun h => by rw [h1]; exact g3 (h2 ▸ h)⟩

structure UnsubInv (s : Sys) : Prop where
  ret : ∀ (i : Nat) (b : Sub), s.subs[i]? = some b → b.returned = true → Started (acceptedIn s.trace) b
  call : ∀ (t : Nat) (th : Thread) (i : Nat) (o : List SubOpt), s.threads[t]? = some th → th.call = .unsubscribe i o →
    ∃ b, s.subs[i]? = some b ∧ Started (acceptedIn s.trace) b
  order : ∀ (a c : List (Nat × Req)) (t : Nat) (r : Req), acceptedIn s.trace = a ++ (t, r) :: c → r.frame.command = Cmd.unsubscribe →
    ∃ b o, createUnsubscribeFrame b.id b.replyTo o = some r.frame ∧ Started a b

/-- Only `Unsubscribe` makes UNSUBSCRIBE frames. -/
theorem frameOf_unsubscribe {s : Sys} {call : Call} {f : Frame} (h : Spec.FrameOf s call f) (hc : f.command = Cmd.unsubscribe) :
    ∃ i o, call = .unsubscribe i o := by
  cases call with
  | send d c b o =>
    obtain ⟨_, _, h⟩ := h
    rw [createSendFrame_command h] at hc; cases hc
  | frame g => obtain ⟨rfl, h⟩ := h; rw [hc] at h; exact absurd h (by decide)
  | subscribe d a o =>
    obtain ⟨_, _, _, _, h⟩ := h
    rw [(subscribe_key h).1] at hc; cases hc
  | unsubscribe i o => exact ⟨i, o, rfl⟩
  | disconnect => obtain ⟨_, h⟩ := h; rw [h] at hc; cases hc
  | mustDisconnect => exact h.elim

/-- Without reply-to the SUBSCRIBE goes out, with the id of the subscription. -/
theorem subscribe_wire {last last' : Nat} {d : Bytes} {a : AckMode} {os : List SubOpt} {f : Frame} {id : Bytes}
    (h : createSubscribeFrame last d a os = some (last', f, id, false)) : Spec.wire f = some f ∧ f.header.contains Hdr.id = some id := by
  have go : f.command = Cmd.subscribe → f.header.contains Hdr.replyTo = none → Spec.wire f = some f := by
    intro hc hr
    unfold Spec.wire
    rw [if_neg (by rintro ⟨_, h⟩; exact h hr), if_neg (by rw [hc]; decide)]
  have hc := (subscribe_key h).1
  unfold createSubscribeFrame at h
  dsimp only at h
  split at h
  · cases h
  · rename_i g hg
    cases hr : g.header.contains Hdr.replyTo with
    | some r =>
      rw [hr] at h
      dsimp only at h
      have h1 : (g.header.set Hdr.id r).contains Hdr.id = some r := by
        rw [contains_eq, firstValue_set, if_pos rfl]
      rw [h1] at h
      cases h
    | none =>
      rw [hr] at h
      dsimp only at h
      cases hid : g.header.contains Hdr.id with
      | some i =>
        rw [hid] at h
        cases h
        exact ⟨go hc hr, hid⟩
      | none =>
        rw [hid] at h
        cases h
        refine ⟨go hc ?_, ?_⟩
        · show (g.header.add Hdr.id (allocateId last).2).contains Hdr.replyTo = none
          rw [contains_eq, firstValue_add, ← contains_eq, hr]; simp; decide
        · show (g.header.add Hdr.id (allocateId last).2).contains Hdr.id = _
          rw [contains_eq, firstValue_add, ← contains_eq, hid]; simp

theorem applyUnsubOpts_id {os : List SubOpt} {f f' : Frame} (hf : f.command = Cmd.unsubscribe) (h : applyUnsubOpts f os = some f') {v : Bytes}
    (hv : f.header.contains Hdr.id = some v) : f'.header.contains Hdr.id = some v := by
  induction os generalizing f with
  | nil => cases h; exact hv
  | cons o os ih =>
    cases o with
    | nilOpt => cases h
    | fail => cases h
    | id i =>
      simp only [applyUnsubOpts, applySubOpt, hf] at h
      cases h
    | header k v =>
      simp only [applyUnsubOpts, applySubOpt, hf] at h
      refine ih ?_ h ?_
      · rfl
      · show (f.header.add k v).contains Hdr.id = _
        rw [contains_eq, firstValue_add, ← contains_eq, hv]; rfl

/-- An UNSUBSCRIBE that goes out is for a subscription without reply-to, and has its id. -/
theorem unsubscribe_wire {id : Bytes} {rt : Bool} {os : List SubOpt} {f g : Frame} (h : createUnsubscribeFrame id rt os = some f)
    (hw : Spec.wire f = some g) : rt = false ∧ g.header.contains Hdr.id = some id := by
  have hc := unsub_command h
  unfold createUnsubscribeFrame at h
  split at h
  · cases h
  rename_i f1 h1
  have hid := applyUnsubOpts_id (v := id) rfl h1 (by rfl)
  cases rt with
  | true =>
    cases h
    exfalso
    unfold Spec.wire at hw
    have ht : Spec.TempQueue { f1 with header := f1.header.set Hdr.replyTo id } := by
      refine ⟨.inr hc, ?_⟩
      show (f1.header.set Hdr.replyTo id).contains Hdr.replyTo ≠ none
      rw [contains_eq, firstValue_set, if_pos rfl]; simp
    rw [if_pos rfl, if_pos ht] at hw
    cases hw
  | false =>
    cases h
    have hc : f1.command = Cmd.unsubscribe := hc
    have hw : Spec.wire f1 = some g := hw
    refine ⟨rfl, ?_⟩
    unfold Spec.wire at hw
    split at hw
    · cases hw
    · cases hw
      show (f1.header.set Hdr.receipt _).contains Hdr.id = _
      rw [contains_eq, firstValue_set, if_neg (by decide), ← contains_eq]
      exact hid

/-- The calls after a step are those before it and a legal one. -/
theorem th_new {cfg : Cfg} {s s' : Sys} (h : Step cfg s s') {t : Nat} {th' : Thread} (ht' : s'.threads[t]? = some th') :
    (∃ th, s.threads[t]? = some th ∧ th'.call = th.call) ∨ s.legal th'.call = true := by
  have mod : ∀ (u : Nat) (g : Thread → Thread), s'.threads = s.threads.modify u g → (∀ b, (g b).call = b.call) →
      ∃ th, s.threads[t]? = some th ∧ th'.call = th.call := by
    intro u g hm hg
    rw [hm, List.getElem?_modify] at ht'
    cases ht : s.threads[t]? with
    | none => rw [ht] at ht'; cases ht'
    | some th =>
      rw [ht] at ht'
      simp only [Option.map_eq_map, Option.map_some, Option.some.injEq] at ht'
      refine ⟨th, rfl, ?_⟩
      rw [← ht']
      split
      · exact hg th
      · rfl
  cases eff_step h with
  | same h1 => exact .inl ⟨th', h1 ▸ ht', rfl⟩
  | call c hl h1 =>
    rw [h1, List.getElem?_append] at ht'
    split at ht'
    · exact .inl ⟨th', ht', rfl⟩
    · rw [List.getElem?_singleton] at ht'
      split at ht'
      · cases ht'; exact .inr hl
      · cases ht'
  | past ht h1 hg => exact .inl (mod _ _ h1 hg)
  | helper h1 hg => exact .inl (mod _ _ h1 fun b => (hg b).1)
  | acquire _ _ _ _ h1 => exact .inl (mod _ _ h1 fun _ => rfl)
  | acquireBare _ _ _ _ h1 => exact .inl (mod _ _ h1 fun _ => rfl)
  | subscribe _ _ _ _ _ h1 => exact .inl (mod _ _ h1 fun _ => rfl)
  | lock _ _ _ _ _ h1 => exact .inl (mod _ _ h1 fun _ => rfl)
  | accept _ _ h1 => exact .inl (mod _ _ h1 fun _ => rfl)

theorem unsub_inv_step {cfg : Cfg} {s s' : Sys} (ha : AllInv s) (hi : UnsubInv s) (h : Step cfg s s') : UnsubInv s' := by
  have he := ext_step h
  have hsub : ∀ x ∈ acceptedIn s.trace, x ∈ acceptedIn s'.trace := fun x hx => acceptedIn_ext he hx
  have hret : ∀ (i : Nat) (b : Sub), s'.subs[i]? = some b → b.returned = true → Started (acceptedIn s'.trace) b := by
    intro i b' hb' hr
    have old : (∃ b, s.subs[i]? = some b ∧ b.returned = true) → Started (acceptedIn s'.trace) b' := by
      rintro ⟨b, hb, hbr⟩
      obtain ⟨b2, g1, g2, g3, g4⟩ := he.subs i b hb
      rw [hb'] at g1; cases g1
      exact (hi.ret i b hb hbr).mono hsub g2 g3 g4
    rcases handed_step h with hk | ⟨t, th, r, n, ht, hpc, hn, ⟨d, a, o, hcall⟩, hacc, hss, _⟩
    · exact old (hk i b' hb' hr)
    · have hq := ((ha.origin.callers t th ht).push r hpc).1
      rw [hcall] at hq
      obtain ⟨n', j, last, last', b, c, q1, q2, q3, q4, q5, q6⟩ := hq
      rw [hn] at q1; cases q1
      rw [hss] at hb'
      have hout : (s.handOut n).subs = s.subs.modify j fun b => { b with returned := true } := by
        unfold Sys.handOut
        obtain ⟨ow, cl⟩ := c
        cases q3
        rw [q2]
      rw [hout, List.getElem?_modify] at hb'
      by_cases e : j = i
      · subst e
        rw [q4] at hb'
        simp only [if_true, Option.map_eq_map, Option.map_some, Option.some.injEq] at hb'
        subst hb'
        refine ⟨t, r, by rw [hacc]; simp, (subscribe_key q6).1, hn.trans (congrArg some q5.symm), fun h0 => ?_⟩
        have h0 : b.replyTo = false := h0
        rw [h0] at q6
        exact subscribe_wire q6
      · simp only [if_neg e, Option.map_eq_map, Option.map_id_fun', id] at hb'
        exact old ⟨b', hb', hr⟩
  have hcall : ∀ (t : Nat) (th : Thread) (i : Nat) (o : List SubOpt), s'.threads[t]? = some th → th.call = .unsubscribe i o →
      ∃ b, s'.subs[i]? = some b ∧ Started (acceptedIn s'.trace) b := by
    intro t th' i o ht' hc
    rcases th_new h ht' with ⟨th, ht, hc'⟩ | hl
    · obtain ⟨b, hb, hst⟩ := hi.call t th i o ht (hc' ▸ hc)
      obtain ⟨b2, g1, g2, g3, g4⟩ := he.subs i b hb
      exact ⟨b2, g1, hst.mono hsub g2 g3 g4⟩
    · rw [hc] at hl
      unfold Sys.legal at hl
      dsimp only at hl
      cases hb : s.subs[i]? with
      | none => rw [hb] at hl; cases hl
      | some b =>
        rw [hb] at hl
        have hl : b.returned = true := hl
        obtain ⟨b2, g1, g2, g3, g4⟩ := he.subs i b hb
        exact ⟨b2, g1, (hi.ret i b hb hl).mono hsub g2 g3 g4⟩
  refine ⟨hret, hcall, ?_⟩
  intro a c t r hacc hd
  by_cases hsame : acceptedIn s'.trace = acceptedIn s.trace
  · exact hi.order a c t r (by rw [← hsame]; exact hacc) hd
  · obtain ⟨u, thu, r', hu1, hu2, hu3, _⟩ := (accept_step h).resolve_left hsame
    rw [hu3] at hacc
    rcases List.eq_nil_or_concat c with hb | ⟨b0, x, hb⟩
    · subst hb
      have hx := List.append_inj' hacc rfl
      obtain ⟨rfl, rfl⟩ := Prod.mk.inj (List.cons.inj hx.2).1
      rw [← hx.1]
      have hq := ((ha.origin.callers u thu hu1).push r' hu2).1
      by_cases hcs : ∃ d a o, thu.call = .subscribe d a o
      · obtain ⟨d, a, o, hcs⟩ := hcs
        rw [hcs] at hq
        obtain ⟨_, _, _, _, _, _, _, _, _, _, _, hf⟩ := hq
        rw [(subscribe_key hf).1] at hd; cases hd
      · have hf := ((reqOf_caller (fun d a o h => hcs ⟨d, a, o, h⟩)).1 hq).1
        obtain ⟨i, o, hcu⟩ := frameOf_unsubscribe hf hd
        rw [hcu] at hf
        obtain ⟨b, hb1, hb2⟩ := hf
        obtain ⟨b2, hb3, hst⟩ := hi.call u thu i o hu1 hcu
        rw [hb1] at hb3; cases hb3
        exact ⟨b, o, hb2, hst⟩
    · rw [List.concat_eq_append] at hb
      subst hb
      rw [show a ++ (t, r) :: (b0 ++ [x]) = (a ++ (t, r) :: b0) ++ [x] by simp] at hacc
      exact hi.order a b0 t r (List.append_inj' hacc rfl).1 hd

theorem unsub_inv_run {cfg : Cfg} {n : Nat} {es : List Ev} {s : Sys} (h : (Sys.init n).run cfg es = some s) : UnsubInv s := by
  refine (run_induction (P := fun s => AllInv s ∧ UnsubInv s) (fun s e s' hp h => ?_) es _ _
    ⟨all_run (cfg := cfg) (es := []) rfl, fun i b hb => (by cases hb), fun t th i o ht => (by cases ht), fun a b t r h => ?_⟩ h).2
  · have hs := (step_cases h).2
    exact ⟨⟨lock_step hp.1.lock h, order_step hp.1.order hs, origin_step hp.1.lock hp.1.origin (ext_step hs) (eff_step hs),
      reg_step hp.1.order hp.1.reg hs, done_step hp.1.origin hp.1.reg hp.1.done hs⟩, unsub_inv_step hp.1 hp.2 hs⟩
  · have := congrArg List.length h
    simp [Sys.init, acceptedIn] at this

/-- An UNSUBSCRIBE that is written has the id of a SUBSCRIBE written before. -/
theorem unsub_written {cfg : Cfg} {n : Nat} {es : List Ev} {s : Sys} (h : (Sys.init n).run cfg es = some s) {a b : List Frame} {f : Frame}
    (hw : sentIn s.trace = a ++ f :: b) (hf : f.command = Cmd.unsubscribe) :
    ∃ i q, f.header.contains Hdr.id = some i ∧ q ∈ a ∧ q.command = Cmd.subscribe ∧ q.header.contains Hdr.id = some i := by
  have hi := unsub_inv_run h
  have ho := (all_run h).order
  obtain ⟨pre, rest, h1, h2⟩ : ∃ pre rest, takenIn s.trace = pre ++ rest ∧ sentIn s.trace = pre.filterMap (fun r => Spec.wire r.frame) := by
    rcases ho.wire with h | ⟨_, pre, r, h1, h2⟩
    · exact ⟨_, [], (List.append_nil _).symm, h⟩
    · exact ⟨pre, [r], h1, h2⟩
  rw [h2] at hw
  obtain ⟨p1, p2, e1, e2, e3⟩ := List.filterMap_eq_append_iff.1 hw
  obtain ⟨q1, r, q2, e4, e5, e6, e7⟩ := List.filterMap_eq_cons_iff.1 e3
  have hr : r.frame.command = Cmd.unsubscribe := by rw [← wire_command e6]; exact hf
  have hq : (acceptedIn s.trace).map (·.2) = (p1 ++ q1) ++ r :: (q2 ++ rest ++ s.writeCh) := by
    rw [← handedIn_acc, ho.queue, h1, e1, e4]; simp
  obtain ⟨l1, l2, g1, g2, g3⟩ := List.map_eq_append_iff.1 hq
  obtain ⟨x, l3, g4, g5, g6⟩ := List.map_eq_cons_iff.1 g3
  obtain ⟨t, r'⟩ := x
  subst g5
  obtain ⟨b0, o, k1, u, ru, k2, k3, _, k4⟩ := hi.order l1 l3 t r' (by rw [g1, g4]) hr
  obtain ⟨k5, k6⟩ := unsubscribe_wire k1 e6
  obtain ⟨k7, k8⟩ := k4 k5
  refine ⟨b0.id, ru.frame, k6, ?_, k3, k8⟩
  have hmem : ru ∈ p1 ++ q1 := by rw [← g2]; exact List.mem_map.2 ⟨_, k2, rfl⟩
  rw [← e2]
  rcases List.mem_append.1 hmem with hm | hm
  · exact List.mem_filterMap.2 ⟨ru, hm, k7⟩
  · have := e5 ru hm
    rw [k7] at this; cases this

end Stomp.Client

import Verif.Proofs.Client.Outcome
/-!
# What ends a subscription

The `readLoop` of a subscription ends, and its channel is closed, only when a RECEIPT with its id has been taken from the connection, or `processLoop` has ended, or the
program asked for the end of a temporary reply queue of this name.
-/
namespace Stomp.Client
open Stomp

/-- An UNSUBSCRIBE for the temporary reply queue `k` has been taken by `processLoop`. -/
def TempEnded (s : Sys) (k : Bytes) : Prop :=
  ∃ r, .taken r ∈ s.trace ∧ r.frame.command = Cmd.unsubscribe ∧ r.frame.header.contains Hdr.replyTo = some k

def SubEnds (s : Sys) (k : Bytes) : Prop := ReceiptTaken s k ∨ s.loop.ended = true ∨ TempEnded s k

def RlPc.over : RlPc → Bool
  | .recv | .put _ => false
  | _ => true

theorem subEnds_step {cfg : Cfg} {s s' : Sys} (h : Step cfg s s') {k : Bytes} (hk : SubEnds s k) : SubEnds s' k := by
  rcases hk with hk | hk | ⟨r, h1, h2⟩
  · exact .inl (receiptTaken_ext (ext_step h) hk)
  · exact .inr (.inl (ended_step h hk))
  · obtain ⟨l, e⟩ := (ext_step h).trace
    exact .inr (.inr ⟨r, by rw [e]; exact List.mem_append_left _ h1, h2⟩)

theorem handleWrite_closes {m : AMap Nat} {r : Req} {x : Nat} (h : (handleWrite m r).2.1 = some x) :
    r.frame.command = Cmd.unsubscribe ∧ ∃ k, r.frame.header.contains Hdr.replyTo = some k ∧ (regBase m r).get? k = some x := by
  have hdef : (handleWrite m r).2.1 =
      if r.frame.command = Cmd.subscribe then none
      else if r.frame.command = Cmd.unsubscribe then
        match r.frame.header.contains Hdr.replyTo with
        | some k => (regBase m r).get? k
        | none => none
      else none := by
    unfold handleWrite regBase
    dsimp only
    split
    · split <;> rfl
    split
    · split
      · rename_i e
        rw [e]
        split <;> rename_i e <;> exact e.symm
      · rename_i e
        rw [e]
    · rfl
  rw [hdef] at h
  split at h
  · cases h
  split at h
  · rename_i hu
    refine ⟨hu, ?_⟩
    split at h
    · rename_i k hk
      exact ⟨k, hk, h⟩
    · cases h
  · cases h

/-- A step closes the channel of a subscription only if it ends it. -/
theorem closes_sub {cfg : Cfg} {s s' : Sys} (hi : EndInv s) (hd : Spec.Distinct s) (h : Step cfg s s') {i : Nat} {b : Sub} (hb : s.subs[i]? = some b)
    (ho : s.chanClosed b.chan = false) (hc : s'.chanClosed b.chan = true) : SubEnds s' b.id := by
  have ha := hi.told.full.all
  have own := own_sub hd ha.origin hi.sub hb
  rcases live_step h with hg | hl
  · cases hg with
    | @mk f n x s1 hat hcl h1 ht hs hw hl hch =>
      have hn : n = b.chan := by
        rcases hch _ hc with e | e
        · cases e; rfl
        · rw [ho] at e; cases e
      subst hn
      rcases hl with ⟨id, e, _⟩ | ⟨_, _, _, e⟩ | ⟨_, _, e⟩
      · obtain ⟨g1, g2, t', r', g3, g4, g5, _⟩ := ha.reg.receipt _ _ _ e
        have : id = b.id := ((own.sub t' r' g3 g4).2 id).1 g5
        subst this
        exact .inl (receiptTaken_ext (ext_step h) ⟨f, hi.took _ _ _ e, g1, g2⟩)
      · rcases e _ hc with e | e
        · cases e
        · rw [ho] at e; cases e
      · refine .inr (.inl (ended_step h ?_))
        rcases e with ⟨l, e⟩ | ⟨l, e⟩ <;> rw [e] <;> rfl
  · have none : ¬ ChansOk s s' .none := fun e => by
      rcases e _ hc with e | e
      · cases e
      · rw [ho] at e; cases e
    cases hl with
    | quiet _ _ _ e => exact absurd e none
    | over _ _ _ _ e => exact absurd e none
    | push _ _ _ _ _ e => exact absurd e none
    | @took r rest hsel hw hw' hp h2 hch hcl htr =>
      have hx : (handleWrite s.channels r).2.1 = some b.chan := by
        rcases hch _ hc with e | e
        · exact e
        · rw [ho] at e; cases e
      obtain ⟨u1, k, u2, u3⟩ := handleWrite_closes hx
      refine .inr (.inr ⟨r, htr, u1, ?_⟩)
      rw [u2]
      congr 1
      obtain ⟨t, hacc⟩ : ∃ t, (t, r) ∈ acceptedIn s.trace := mem_handedIn (tr := s.trace) (r := r) (by rw [ha.order.queue, hw]; simp)
      rw [regBase_get] at u3
      split at u3
      · have := (own.sub t r hacc u3).1
        rw [u1] at this; cases this
      · obtain ⟨t', r', g1, g2, g3, _⟩ := ha.reg.reg _ _ u3
        exact ((own.sub t' r' g1 g2).2 k).1 g3

/-- A step does not close a channel that is not there. -/
theorem closes_new {cfg : Cfg} {s s' : Sys} (hi : EndInv s) (h : Step cfg s s') : s'.chanClosed s.chans.length = false := by
  have ha := hi.told.full.all
  have ho : s.chanClosed s.chans.length = false := by unfold Sys.chanClosed; simp
  have acc : ∀ t r, (t, r) ∈ acceptedIn s.trace → r.chan ≠ some s.chans.length := by
    intro t r hr hn
    obtain ⟨th, hth, hq⟩ := ha.origin.acc t r hr
    rcases reqOf_owner hq hn with ⟨j', c', b2, q1, _⟩ | ⟨c', q1, _⟩ <;> simp at q1
  have none : ∀ x, ChansOk s s' x → x ≠ some s.chans.length → s'.chanClosed s.chans.length = false := by
    intro x e hx
    refine Bool.eq_false_iff.2 fun hc => ?_
    rcases e _ hc with e | e
    · exact hx e
    · rw [ho] at e; cases e
  rcases live_step h with hg | hl
  · cases hg with
    | @mk f n x s1 hat hcl h1 ht hs hw hl hch =>
      refine none _ hch fun e => ?_
      cases e
      obtain ⟨u, r, hu, hrn⟩ := all_acc ha.order hi.told.full.map (List.mem_append_left _ (atSend_live hi.told.full.map hat))
      exact acc u r hu hrn
  · cases hl with
    | quiet _ _ _ e => exact none _ e (by simp)
    | over _ _ _ _ e => exact none _ e (by simp)
    | push _ _ _ _ _ e => exact none _ e (by simp)
    | @took r rest hsel hw hw' hp h2 hch hcl htr =>
      refine none _ hch fun hx => ?_
      obtain ⟨u1, k, u2, u3⟩ := handleWrite_closes hx
      obtain ⟨t, hacc⟩ : ∃ t, (t, r) ∈ acceptedIn s.trace := mem_handedIn (tr := s.trace) (r := r) (by rw [ha.order.queue, hw]; simp)
      rw [regBase_get] at u3
      split at u3
      · exact acc t r hacc u3
      · obtain ⟨t', r', g1, g2, g3, _⟩ := ha.reg.reg _ _ u3
        exact acc t' r' g1 g2

/-- Known of every subscription. -/
def Dismissed (s : Sys) : Prop := Spec.Distinct s → ∀ (i : Nat) (b : Sub), s.subs[i]? = some b → b.rl.over = true ∨ s.chanClosed b.chan = true → SubEnds s b.id

theorem rstep_over {cfg : Cfg} {s s' : Sys} (hi : EndInv s) (hd : Spec.Distinct s) (h : Step cfg s s') (hp : Dismissed s) {i : Nat} {b b' : Sub} (hb : s.subs[i]? = some b)
    (hr : RStep s b b') : b'.id = b.id ∧ b'.chan = b.chan ∧ (b'.rl.over = true → SubEnds s' b.id) := by
  have ha := hi.told.full.all
  have own := own_sub hd ha.origin hi.sub hb
  have old : b.rl.over = true → SubEnds s' b.id := fun e => subEnds_step h (hp hd i b hb (.inl e))
  cases hr with
  | @recv f n hat hr ho =>
    refine ⟨rfl, rfl, fun hov => ?_⟩
    obtain ⟨j, c, hn, hbj⟩ := ho
    obtain ⟨u, r, hu, hrn⟩ := all_acc ha.order hi.told.full.map (List.mem_append_left _ (atSend_live hi.told.full.map hat))
    obtain ⟨th, hth, hq⟩ := ha.origin.acc u r hu
    have hbn : b.chan = n := by
      rcases reqOf_owner hq hrn with ⟨j', c', b2, q1, q2, q3, _⟩ | ⟨c', q1, _⟩
      · rw [hn] at q1; cases q1
        rw [hbj] at q2; cases q2
        exact q3
      · rw [hn] at q1; cases q1
    rcases hat with ⟨id, e⟩ | e | ⟨l, e⟩ | ⟨l, e⟩
    · obtain ⟨g1, g2, t', r', g3, g4, g5, _⟩ := ha.reg.receipt _ _ _ e
      have : id = b.id := ((own.sub t' r' g3 (by rw [g4, hbn])).2 id).1 g5
      subst this
      exact .inl (receiptTaken_ext (ext_step h) ⟨f, hi.took _ _ _ e, g1, g2⟩)
    · simp only [rlRecv_message (ha.reg.message _ _ e).1] at hov
      cases hov
    · exact .inr (.inl (ended_step h (by rw [e]; rfl)))
    · exact .inr (.inl (ended_step h (by rw [e]; rfl)))
  | eof hr hc => exact ⟨rfl, rfl, fun _ => subEnds_step h (hp hd i b hb (.inr hc))⟩
  | put hr => exact ⟨rfl, rfl, fun e => by cases e⟩
  | checkClosed hr => exact ⟨rfl, rfl, fun _ => old (by rw [hr]; rfl)⟩
  | checkOpen hr => exact ⟨rfl, rfl, fun _ => old (by rw [hr]; rfl)⟩
  | closeNext hr h => exact ⟨h.sub.1, h.sub.2.1, fun _ => old (by rw [hr]; rfl)⟩
  | closeFin hr h => exact ⟨h.sub.1, h.sub.2.1, fun _ => old (by rw [hr]; rfl)⟩

theorem tstep_sub {cfg : Cfg} {b b' : Sub} {p p' : Pc} {h h' : HPc} (hs : TStep cfg b p h b' p' h') : b'.id = b.id ∧ b'.chan = b.chan ∧ b'.rl = b.rl := by
  cases hs with
  | closeNext hc => exact ⟨hc.sub.1, hc.sub.2.1, hc.sub.2.2.1⟩
  | closeFin hc => exact ⟨hc.sub.1, hc.sub.2.1, hc.sub.2.2.1⟩
  | _ => exact ⟨rfl, rfl, rfl⟩

theorem dismissed_step {cfg : Cfg} {s s' : Sys} (hi : EndInv s) (h : Step cfg s s') (hp : Dismissed s) : Dismissed s' := by
  intro hd' i b' hb' hov
  have hd := distinct_ext (ext_step h) hd'
  have key : ∀ b, s.subs[i]? = some b → b'.id = b.id → b'.chan = b.chan → (b'.rl.over = true → SubEnds s' b.id) → SubEnds s' b'.id := by
    intro b hb e1 e2 e3
    rw [e1]
    rcases hov with hov | hov
    · exact e3 hov
    · rw [e2] at hov
      cases hc : s.chanClosed b.chan with
      | true => exact subEnds_step h (hp hd i b hb (.inr hc))
      | false => exact closes_sub hi hd h hb hc hov
  have same : ∀ b, s.subs[i]? = some b → b'.id = b.id → b'.chan = b.chan → b'.rl = b.rl → SubEnds s' b'.id := fun b hb e1 e2 e3 =>
    key b hb e1 e2 fun e => subEnds_step h (hp hd i b hb (.inl (by rw [← e3]; exact e)))
  cases ueff_step (cfg := cfg) hi.u.dom h with
  | quiet ht hsub =>
    rcases hsub i b' hb' with ⟨b, hb, heq⟩ | ⟨_, id, rt, n, rfl, rfl⟩
    · cases heq <;> exact same _ hb rfl rfl rfl
    · rcases hov with hov | hov
      · cases hov
      · rw [show (Sub.new id rt s.chans.length).chan = s.chans.length from rfl, closes_new hi h] at hov
        cases hov
  | @rl j b0 b1 ht hb hb1 hsb hr =>
    by_cases e : i = j
    · subst e
      rw [hb1] at hb'; cases hb'
      obtain ⟨e1, e2, e3⟩ := rstep_over hi hd h hp hb hr
      exact key b0 hb e1 e2 e3
    · rw [hsb i e] at hb'
      exact same b' hb' rfl rfl rfl
  | @cas t j b0 pc ht ht' hw hb hb1 hsb =>
    by_cases e : i = j
    · subst e
      rw [hb1] at hb'; cases hb'
      exact same b0 hb rfl rfl rfl
    · rw [hsb i e] at hb'
      exact same b' hb' rfl rfl rfl
  | @thr t j b0 b1 pc pc' h0 h1 ht ht' hw hb hb1 hsb hst =>
    by_cases e : i = j
    · subst e
      rw [hb1] at hb'; cases hb'
      obtain ⟨e1, e2, e3⟩ := tstep_sub hst
      exact same b0 hb e1 e2 e3
    · rw [hsb i e] at hb'
      exact same b' hb' rfl rfl rfl

/-! ## What `Unsubscribe` returns -/

/-- Errors `Unsubscribe` returns without having seen the subscription closed by others. -/
def Res.givenUp : Res → Bool
  | .closedUnexpectedly | .unsubTimeout | .optionError => true
  | _ => false

theorem state_rstep {s : Sys} {b b' : Sub} (h : RStep s b b') (hc : b.state = .closed) : b'.state = .closed := by
  cases h with
  | closeNext _ h => cases h <;> first | exact hc | rfl
  | closeFin _ h => cases h <;> exact hc
  | _ => exact hc

theorem state_tstep {cfg : Cfg} {b b' : Sub} {p p' : Pc} {h h' : HPc} (hs : TStep cfg b p h b' p' h') (hc : b.state = .closed) : b'.state = .closed := by
  cases hs with
  | closeNext h => cases h <;> first | exact hc | rfl
  | closeFin h => cases h <;> exact hc
  | _ => exact hc

/-- When `Unsubscribe` has returned otherwise, the subscription is closed. -/
def Returned (s : Sys) : Prop := ∀ (t i : Nat) (r : Res) (h : HPc) (b : Sub), s.won t = some (i, .ret r, h) → r.givenUp = false → s.subs[i]? = some b → b.state = .closed

theorem returned_step {cfg : Cfg} {s s' : Sys} (hi : EndInv s) (h : Step cfg s s') (hp : Returned s) : Returned s' := by
  intro t i r hh b' hw' hr hb'
  cases ueff_step (cfg := cfg) hi.u.dom h with
  | quiet ht hsub =>
    rw [ht] at hw'
    obtain ⟨b0, hb0⟩ := won_sub hi.u.dom hw'
    rcases hsub i b' hb' with ⟨b, hb, heq⟩ | ⟨e, _⟩
    · have := hp t i r hh b hw' hr hb
      cases heq <;> exact this
    · rw [← e] at hb0; simp at hb0
  | @rl j b0 b1 ht hb hb1 hsb hst =>
    rw [ht] at hw'
    by_cases e : i = j
    · subst e
      rw [hb1] at hb'; cases hb'
      exact state_rstep hst (hp t i r hh b0 hw' hr hb)
    · rw [hsb i e] at hb'
      exact hp t i r hh b' hw' hr hb'
  | @cas u j b0 pc hu hu' hwb hb hb1 hsb hst hpc =>
    by_cases et : t = u
    · subst et
      rw [hu'] at hw'; cases hw'
      rcases hpc with ⟨f, e⟩ | e
      · cases e
      · cases e; cases hr
    · rw [hwb t et] at hw'
      by_cases e : i = j
      · subst e
        have := hp t i r hh b0 hw' hr hb
        rw [this] at hst; cases hst
      · rw [hsb i e] at hb'
        exact hp t i r hh b' hw' hr hb'
  | @thr u j b0 b1 pc pc' h0 h1 hu hu' hwb hb hb1 hsb hst =>
    by_cases et : t = u
    · subst et
      rw [hu'] at hw'; cases hw'
      rw [hb1] at hb'; cases hb'
      have stay : ∀ h, s.won t = some (i, .ret r, h) → b0.state = .closed := fun h hw => hp t i r h b0 hw hr hb
      cases hst with
      | move h1 h2 => cases h2
      | closeFin => cases hr
      | done hs => exact hs
      | timedClosed => cases hr
      | put => cases hr
      | hSleep => exact stay _ hu
      | hWake => exact stay _ hu
      | hRelock => exact stay _ hu
    · rw [hwb t et] at hw'
      by_cases e : i = j
      · subst e
        rw [hb1] at hb'; cases hb'
        exact state_tstep hst (hp t i r hh b0 hw' hr hb)
      · rw [hsb i e] at hb'
        exact hp t i r hh b' hw' hr hb'

theorem dismissed_run {cfg : Cfg} {n : Nat} {s : Sys} {es : List Ev} (h : (Sys.init n).run cfg es = some s) : Dismissed s ∧ Returned s := by
  refine (run_induction (P := fun s => EndInv s ∧ Dismissed s ∧ Returned s) (fun s e s' hp h => ?_) es _ _ ⟨end_run (cfg := cfg) (es := []) rfl, ?_, ?_⟩ h).2
  · exact ⟨end_step hp.1 h, dismissed_step hp.1 (step_cases h).2 hp.2.1, returned_step hp.1 (step_cases h).2 hp.2.2⟩
  · intro _ i b hb; simp [Sys.init] at hb
  · intro t i r hh b hw; simp [Sys.won, Sys.init] at hw

/-- A subscription found closed by `Unsubscribe`: its `readLoop` is over. -/
theorem closed_over {b : Sub} {r : Res} {h : HPc} (hk : SubOk b (some (.ret r, h))) (hr : r.givenUp = false) (hc : b.state = .closed) : b.rl.over = true := by
  have hcl : b.cClosed = true → b.rl.over = true := by
    intro e
    rcases hk.closer e with e | e | ⟨h', e | e⟩
    · rw [e]; rfl
    · rw [e]; rfl
    · cases e
    · cases e; cases hr
  rcases hk.once with ⟨_, e⟩ | ⟨_, e⟩
  · unfold OnceOk at e
    simp only [wonAt] at e
    split at e
    · exact absurd hc e.2
    all_goals first
      | (rename_i h; cases h; done)
      | exact hcl e.1
      | exact e.elim
  · cases hrl : b.rl with
    | recv =>
      rw [← hrl]
      unfold OnceOk at e
      rw [hrl] at e
      simp only [RlPc.at?] at e
      split at e
      · exact absurd hc e.2
      all_goals first
        | (rename_i h; cases h; done)
        | exact hcl e.1
        | exact e.elim
    | put m =>
      rw [← hrl]
      unfold OnceOk at e
      rw [hrl] at e
      simp only [RlPc.at?] at e
      split at e
      · exact absurd hc e.2
      all_goals first
        | (rename_i h; cases h; done)
        | exact hcl e.1
        | exact e.elim
    | _ => rfl

/-- `Unsubscribe` returns otherwise than with one of its own errors only if the subscription was ended from elsewhere. -/
theorem unsub_dismissed {cfg : Cfg} {n : Nat} {s : Sys} {es : List Ev} (h : (Sys.init n).run cfg es = some s) (hd : Spec.Distinct s) {t i : Nat} {th : Thread} {o : List SubOpt} {b : Sub}
    {r : Res} (ht : s.threads[t]? = some th) (hc : th.call = .unsubscribe i o) (hpc : th.pc = .ret r) (hr : r.givenUp = false) (hr' : r ≠ .completedSubscription)
    (hb : s.subs[i]? = some b) : SubEnds s b.id := by
  have hw := won_of ht hc (by rw [hpc]; simp) (by rw [hpc]; simpa using hr')
  rw [hpc] at hw
  have hi := end_run h
  obtain ⟨h1, h2⟩ := dismissed_run h
  exact h1 hd i b hb (.inl (closed_over (hi.u.held t i _ _ b hw hb) hr (h2 t i r _ b hw hr hb)))

end Stomp.Client

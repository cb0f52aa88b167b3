import Verif.Proofs.Client.Serve
/-! # `processLoop` blocked -/
namespace Stomp.Client
open Stomp

/-- Entries of the log that are not made by `processLoop`. -/
def Obs.outside : Obs → Bool
  | .accepted .. | .read _ | .ret .. => true
  | _ => false

/-- `processLoop` goes no further, and logs nothing. -/
def Rests (s s' : Sys) : Prop := s'.loop = s.loop ∧ ∃ l, s'.trace = s.trace ++ l ∧ ∀ o ∈ l, o.outside = true

theorem rests_same {s s' : Sys} (h1 : s'.loop = s.loop) (h2 : s'.trace = s.trace) : Rests s s' :=
  ⟨h1, [], by rw [h2, List.append_nil], by simp⟩

theorem rests_one {s s' : Sys} {o : Obs} (h1 : s'.loop = s.loop) (h2 : s'.trace = s.trace ++ [o]) (h3 : o.outside = true) : Rests s s' :=
  ⟨h1, [o], h2, by simpa using h3⟩

theorem rests_two {s s' : Sys} {o o' : Obs} (h1 : s'.loop = s.loop) (h2 : s'.trace = s.trace ++ [o] ++ [o']) (h3 : o.outside = true)
    (h4 : o'.outside = true) : Rests s s' :=
  ⟨h1, [o, o'], by rw [h2]; simp, by simp [h3, h4]⟩

theorem rests_trans {s s1 s2 : Sys} (h1 : Rests s s1) (h2 : Rests s1 s2) : Rests s s2 := by
  obtain ⟨a1, l1, a2, a3⟩ := h1
  obtain ⟨b1, l2, b2, b3⟩ := h2
  refine ⟨b1.trans a1, l1 ++ l2, by rw [b2, a2, List.append_assoc], ?_⟩
  intro o ho
  rcases List.mem_append.1 ho with h | h
  · exact a3 o h
  · exact b3 o h

theorem rests_frameDone (s : Sys) (t : Nat) (c : Call) (r : Res) : Rests s (s.frameDone t c r) := by
  obtain ⟨_, h1, _, _, _, ⟨_, _, h⟩ | ⟨_, _, h⟩⟩ := frameDone_spec s t c r
  · exact rests_one h1.loop h rfl
  · exact rests_same h1.loop h

/-- Where `processLoop` ends. -/
def Ends (s : Sys) : Prop := s.mutex = none ∧ ((∃ f, s.loop = .errs f []) ∨ ∃ f, s.loop = .fail f [])

/-- What a step is to a `processLoop` that is not at its `select`. -/
theorem rests_step {cfg : Cfg} {s s' : Sys} (h : Step cfg s s') (hl : s.loop ≠ .select) : Gives s s' ∨ Ends s ∨ Rests s s' := by
  cases h with
  | giveReceipt hl hc h1 => exact .inl (gives_receipt hl hc h1)
  | giveMessage hl hc h1 => exact .inl (gives_message hl hc h1)
  | giveErr hl hc h1 => exact .inl (gives_err hl hc h1)
  | giveFail hl hc h1 => exact .inl (gives_fail hl hc h1)
  | finErrs hl hm => exact .inr (.inl ⟨hm, .inl ⟨_, hl⟩⟩)
  | finClosed hl hm => exact .inr (.inl ⟨hm, .inr ⟨_, hl⟩⟩)
  | finCrash hl hm => exact .inr (.inl ⟨hm, .inr ⟨_, hl⟩⟩)
  | finFail hl hm => exact .inr (.inl ⟨hm, .inr ⟨_, hl⟩⟩)
  | fail h => exact absurd h hl
  | readSkip h => exact absurd h hl
  | readReceipt h => exact absurd h hl
  | readMissing h => exact absurd h hl
  | readErr h => exact absurd h hl
  | readMessage h => exact absurd h hl
  | takeQuiet h => exact absurd h hl
  | takeSent h => exact absurd h hl
  | takeFail h => exact absurd h hl
  | beat h => exact absurd h hl
  | frameClosed => exact .inr (.inr (rests_trans (rests_same (s := s) (s' := s.closeNet) rfl rfl) (rests_frameDone _ _ _ _)))
  | waitClosed => exact .inr (.inr (rests_frameDone _ _ _ _))
  | frameTimeout => exact .inr (.inr (rests_frameDone _ _ _ _))
  | @pushFrameRet t th r =>
    exact .inr (.inr (rests_trans (rests_one (s := s)
      (s' := Sys.unlock { s with writeCh := s.writeCh ++ [r], trace := s.trace ++ [Obs.accepted t r] }) rfl rfl rfl) (rests_frameDone _ _ _ _)))
  | @pushSub t th r n =>
    refine .inr (.inr (rests_two (o := .accepted t r) (o' := .ret t .ok) ?_ ?_ rfl rfl))
    · show (Sys.handOut _ n).loop = _
      unfold Sys.handOut
      split <;> rfl
    · show (Sys.handOut _ n).trace ++ _ = _
      unfold Sys.handOut
      split <;> rfl
  | unsub ht hcall hb hpc h =>
    obtain ⟨hc, ⟨_, h2, _⟩ | ⟨_, _, _, _, _, ⟨_, h2⟩ | ⟨_, _, h2⟩⟩⟩ := unsub_spec h
    · exact .inr (.inr (rests_same hc.loop h2))
    · exact .inr (.inr (rests_same hc.loop h2))
    · exact .inr (.inr (rests_one hc.loop h2 rfl))
  | helper ht hcall hb h => exact .inr (.inr (rests_same (helper_spec h).1.loop (helper_spec h).2.1))
  | sub h => exact .inr (.inr (rests_same (subStep_spec h).1.loop (subStep_spec h).2.1))
  | pushRet => exact .inr (.inr (rests_two rfl rfl rfl rfl))
  | _ => first
    | exact .inr (.inr (rests_same rfl rfl))
    | exact .inr (.inr (rests_one rfl rfl rfl))

/-- Only `Gives` and `took` close response channels. -/
theorem chans_step {cfg : Cfg} {s s' : Sys} (h : Step cfg s s') (hl : s.loop ≠ .select) : Gives s s' ∨ ChansOk s s' none := by
  rcases live_step h with hg | hm
  · exact .inl hg
  · cases hm with
    | quiet _ _ _ hc => exact .inr hc
    | over _ _ _ _ hc => exact .inr hc
    | push _ _ _ _ _ hc => exact .inr hc
    | took h => exact absurd h hl

theorem atSend_loop {s : Sys} {f : Frame} {n : Nat} (h : AtSend s f n) : s.loop ≠ .select := by
  rcases h with ⟨_, h⟩ | h | ⟨_, h⟩ | ⟨_, h⟩ <;> rw [h] <;> exact (fun h => by cases h)

theorem atSend_unique {s : Sys} {f g : Frame} {n m : Nat} (h : AtSend s f n) (h' : AtSend s g m) : f = g ∧ n = m := by
  rcases h with ⟨_, h⟩ | h | ⟨_, h⟩ | ⟨_, h⟩ <;> rcases h' with ⟨_, h'⟩ | h' | ⟨_, h'⟩ | ⟨_, h'⟩ <;> rw [h] at h' <;> cases h' <;>
    exact ⟨rfl, rfl⟩

theorem atSend_not_ends {s : Sys} {f : Frame} {n : Nat} (h : AtSend s f n) : ¬ Ends s := by
  rintro ⟨_, ⟨_, h'⟩ | ⟨_, h'⟩⟩ <;> rcases h with ⟨_, h⟩ | h | ⟨_, h⟩ | ⟨_, h⟩ <;> rw [h] at h' <;> cases h'

theorem chanClosed_of {s : Sys} {n : Nat} {o : Owner} {c : Bool} (h : s.chans[n]? = some ⟨o, c⟩) : s.chanClosed n = c := by
  unfold Sys.chanClosed; rw [h]; rfl

/-! ## The receiver is gone -/

/-- `processLoop` sends on the response channel `n` of a caller that receives no more. -/
structure Gone (t n : Nat) (s : Sys) : Prop where
  at_ : ∃ f, AtSend s f n
  chan : s.chans[n]? = some ⟨.caller t, false⟩
  past : ∃ th, s.threads[t]? = some th ∧ th.pc.past = true

theorem gone_not_gives {s s' : Sys} {t n : Nat} (hg : Gone t n s) : ¬ Gives s s' := by
  rintro ⟨hat, hc, h1, _⟩
  obtain ⟨f, hf⟩ := hg.at_
  obtain ⟨th, hth, hp⟩ := hg.past
  obtain ⟨_, rfl⟩ := atSend_unique hf hat
  unfold Sys.handOver at h1
  rw [hg.chan] at h1
  dsimp only at h1
  rw [hth] at h1
  dsimp only at h1
  split at h1
  · rename_i e; rw [e] at hp; cases hp
  · cases h1

theorem chan_keep {s s' : Sys} (he : Ext s s') (hc : ChansOk s s' none) {n : Nat} {o : Owner} (h : s.chans[n]? = some ⟨o, false⟩) :
    s'.chans[n]? = some ⟨o, false⟩ := by
  obtain ⟨c', h1, h2⟩ := he.chans n _ h
  obtain ⟨o', b⟩ := c'
  cases h2
  cases b with
  | false => exact h1
  | true =>
    rcases hc n (chanClosed_of h1) with h3 | h3
    · cases h3
    · rw [chanClosed_of h] at h3; cases h3

theorem gone_step {cfg : Cfg} {s s' : Sys} {t n : Nat} (hg : Gone t n s) (h : Step cfg s s') : Gone t n s' ∧ Rests s s' := by
  have hng := gone_not_gives (s' := s') hg
  obtain ⟨f, hf⟩ := hg.at_
  have hl := atSend_loop hf
  have hr : Rests s s' := by
    rcases rests_step h hl with h1 | h1 | h1
    · exact absurd h1 hng
    · exact absurd h1 (atSend_not_ends hf)
    · exact h1
  have hc : ChansOk s s' none := (chans_step h hl).resolve_left hng
  refine ⟨⟨⟨f, ?_⟩, chan_keep (ext_step h) hc hg.chan, ?_⟩, hr⟩
  · unfold AtSend at hf ⊢
    rw [hr.1]
    exact hf
  · obtain ⟨th, hth, hp⟩ := hg.past
    obtain ⟨th', hth', _⟩ := (ext_step h).threads t th hth
    refine ⟨th', hth', ?_⟩
    cases ((th_step h).resolve_left hng) t th th' hth hth' with
    | same h => rw [h]; exact hp
    | early h => revert h hp; cases th.pc <;> simp [Pc.early, Pc.past]
    | gaveUp h => rw [h] at hp; cases hp
    | closed h => rw [h] at hp; cases hp
    | past _ _ h' => exact h'

theorem gone_run {cfg : Cfg} {s s' : Sys} {t n : Nat} {es : List Ev} (hg : Gone t n s) (h : s.run cfg es = some s') :
    Gone t n s' ∧ Rests s s' :=
  run_induction (P := fun s' => Gone t n s' ∧ Rests s s')
    (fun _ _ _ hp h => ⟨(gone_step hp.1 (step_cases h).2).1, rests_trans hp.2 (gone_step hp.1 (step_cases h).2).2⟩)
    es s s' ⟨hg, rests_same rfl rfl⟩ h

/-! ## Callers that wait meanwhile -/

/-- A call that waits for its receipt on an open channel, or whose timer made it give up. -/
def Hopeless (cfg : Cfg) (u m : Nat) (s : Sys) : Prop :=
  (∃ o, s.chans[m]? = some ⟨o, false⟩) ∧ ∃ th, s.threads[u]? = some th ∧ (th.pc = .wait m ∨ (th.gaveUp ∧ cfg.arms th.call = true))

theorem gaveUp_past {th : Thread} (h : th.gaveUp) : th.pc.past = true := Thread.left_past (Thread.gaveUp_left h)

theorem hopeless_keep {cfg : Cfg} {s s' : Sys} {f : Frame} {n u m : Nat} (hng : ¬ Gives s s') (hf : AtSend s f n) (hu : Hopeless cfg u m s)
    (h : Step cfg s s') : Hopeless cfg u m s' := by
  have hc : ChansOk s s' none := (chans_step h (atSend_loop hf)).resolve_left hng
  obtain ⟨⟨o, ho⟩, th, hth, hp⟩ := hu
  obtain ⟨th', hth', hcall⟩ := (ext_step h).threads u th hth
  refine ⟨⟨o, chan_keep (ext_step h) hc ho⟩, th', hth', ?_⟩
  rw [hcall]
  cases ((th_step h).resolve_left hng) u th th' hth hth' with
  | same h =>
    rcases hp with hp | ⟨hp, hc⟩
    · exact .inl (h.trans hp)
    · refine .inr ⟨?_, hc⟩
      unfold Thread.gaveUp at hp ⊢
      rw [hcall, h]
      exact hp
  | early h =>
    rcases hp with hp | ⟨hp, _⟩
    · rw [hp] at h; cases h
    · have := gaveUp_past hp
      revert h this
      cases th.pc <;> simp [Pc.early, Pc.past]
  | gaveUp _ h' hc => exact .inr ⟨h', hc⟩
  | closed h hcl =>
    rcases hp with hp | ⟨hp, _⟩
    · rw [h] at hp; cases hp
      rw [chanClosed_of ho] at hcl; cases hcl
    · have := gaveUp_past hp
      rw [h] at this; cases this
  | past hc h0 h' =>
    rcases hp with hp | ⟨_, ha⟩
    · rw [hp] at h0; cases h0
    · refine .inr ⟨?_, ha⟩
      unfold Thread.gaveUp
      rw [hcall, hc]
      exact h'

theorem hopeless_step {cfg : Cfg} {s s' : Sys} {t n u m : Nat} (hg : Gone t n s) (hu : Hopeless cfg u m s) (h : Step cfg s s') :
    Hopeless cfg u m s' :=
  hopeless_keep (gone_not_gives hg) hg.at_.choose_spec hu h

theorem hopeless_run {cfg : Cfg} {s s' : Sys} {t n u m : Nat} {es : List Ev} (hg : Gone t n s) (hu : Hopeless cfg u m s)
    (h : s.run cfg es = some s') : Hopeless cfg u m s' :=
  (run_induction (P := fun s' => Gone t n s' ∧ Hopeless cfg u m s')
    (fun _ _ _ hp h => ⟨(gone_step hp.1 (step_cases h).2).1, hopeless_step hp.1 hp.2 (step_cases h).2⟩) es s s' ⟨hg, hu⟩ h).2

/-- A subscription that waits for its next frame on an open channel. -/
def Unserved (i m : Nat) (s : Sys) : Prop :=
  (∃ o, s.chans[m]? = some ⟨o, false⟩) ∧ ∃ b : Sub, s.subs[i]? = some b ∧ b.chan = m ∧ b.rl = .recv

theorem unserved_keep {cfg : Cfg} {s s' : Sys} {f : Frame} {n i m : Nat} (hng : ¬ Gives s s') (hf : AtSend s f n) (hu : Unserved i m s)
    (h : Step cfg s s') : Unserved i m s' := by
  have hc : ChansOk s s' none := (chans_step h (atSend_loop hf)).resolve_left hng
  obtain ⟨⟨o, ho⟩, b, hb, hbn, hrl⟩ := hu
  obtain ⟨b', hb', _, _, hbc⟩ := (ext_step h).subs i b hb
  refine ⟨⟨o, chan_keep (ext_step h) hc ho⟩, b', hb', by rw [hbc]; exact hbn, ?_⟩
  cases ((rl_step h).resolve_left hng) i b b' hb hb' with
  | same e => rw [e]; exact hrl
  | put e => rw [hrl] at e; cases e
  | closed _ hcl => rw [hbn, chanClosed_of ho] at hcl; cases hcl
  | ending e => rcases e with ⟨_, e⟩ | ⟨_, e⟩ <;> rw [hrl] at e <;> cases e

theorem unserved_step {cfg : Cfg} {s s' : Sys} {t n i m : Nat} (hg : Gone t n s) (hu : Unserved i m s) (h : Step cfg s s') :
    Unserved i m s' :=
  unserved_keep (gone_not_gives hg) hg.at_.choose_spec hu h

theorem unserved_run {cfg : Cfg} {s s' : Sys} {t n i m : Nat} {es : List Ev} (hg : Gone t n s) (hu : Unserved i m s)
    (h : s.run cfg es = some s') : Unserved i m s' :=
  (run_induction (P := fun s' => Gone t n s' ∧ Unserved i m s')
    (fun _ _ _ hp h => ⟨(gone_step hp.1 (step_cases h).2).1, unserved_step hp.1 hp.2 (step_cases h).2⟩) es s s' ⟨hg, hu⟩ h).2

/-! ## The mutex that `processLoop` needs is held by a caller that waits for `processLoop` -/

structure Jam (cfg : Cfg) (t n : Nat) (s : Sys) : Prop where
  lock : LockInv s
  at_ : (∃ f, s.loop = .errs f []) ∨ ∃ f, s.loop = .fail f []
  chan : ∃ o, s.chans[n]? = some ⟨o, false⟩
  waits : ∃ th, s.threads[t]? = some th ∧ th.pc = .wait n ∧ th.holds = true ∧ cfg.arms th.call = false

theorem jam_step {cfg : Cfg} {s s' : Sys} {t n : Nat} {e : Ev} (hj : Jam cfg t n s) (h : s.step cfg e = some s') :
    Jam cfg t n s' ∧ Rests s s' := by
  have hs := (step_cases h).2
  obtain ⟨th, hth, hpc, hh, harm⟩ := hj.waits
  have hm := (hj.lock.hold t th hth hh).1
  have hl : s.loop ≠ .select := by
    rcases hj.at_ with ⟨_, h⟩ | ⟨_, h⟩ <;> rw [h] <;> exact (fun h => by cases h)
  have hng : ¬ Gives s s' := by
    rintro ⟨hat, _⟩
    rcases hj.at_ with ⟨_, h1⟩ | ⟨_, h1⟩ <;> rcases hat with ⟨_, h2⟩ | h2 | ⟨_, h2⟩ | ⟨_, h2⟩ <;> rw [h1] at h2 <;> cases h2
  have hr : Rests s s' := by
    rcases rests_step hs hl with h1 | h1 | h1
    · exact absurd h1 hng
    · have := h1.1
      rw [hm] at this; cases this
    · exact h1
  have hc : ChansOk s s' none := (chans_step hs hl).resolve_left hng
  obtain ⟨o, ho⟩ := hj.chan
  obtain ⟨th', hth', hcall⟩ := (ext_step hs).threads t th hth
  refine ⟨⟨lock_step hj.lock h, by rw [hr.1]; exact hj.at_, ⟨o, chan_keep (ext_step hs) hc ho⟩, th', hth', ?_⟩, hr⟩
  cases ((th_step hs).resolve_left hng) t th th' hth hth' with
  | same h =>
    refine ⟨h.trans hpc, ?_, by rw [hcall]; exact harm⟩
    unfold Thread.holds at hh ⊢
    rw [h, hcall]
    exact hh
  | early h => rw [hpc] at h; cases h
  | gaveUp _ _ h' => rw [harm] at h'; cases h'
  | closed h hcl =>
    rw [h] at hpc; cases hpc
    rw [chanClosed_of ho] at hcl; cases hcl
  | past _ h => rw [hpc] at h; cases h

theorem jam_run {cfg : Cfg} {s s' : Sys} {t n : Nat} {es : List Ev} (hg : Jam cfg t n s) (h : s.run cfg es = some s') :
    Jam cfg t n s' ∧ Rests s s' :=
  run_induction (P := fun s' => Jam cfg t n s' ∧ Rests s s')
    (fun _ _ _ hp h => ⟨(jam_step hp.1 h).1, rests_trans hp.2 (jam_step hp.1 h).2⟩)
    es s s' ⟨hg, rests_same rfl rfl⟩ h

/-- A jam: nobody closes the connection. -/
theorem jam_closed {cfg : Cfg} {s : Sys} {t n : Nat} (hg : Jam cfg t n s) : s.closed = false := by
  obtain ⟨th, hth, _, hh, _⟩ := hg.waits
  exact (hg.lock.hold t th hth hh).2

end Stomp.Client

import Verif.Proofs.Client.Stuck
/-! # Who is told of the end of the connection -/
namespace Stomp.Client
open Stomp

/-- `processLoop` is reporting the end of the connection, or has returned. -/
def LoopPc.ended : LoopPc → Bool
  | .errs .. | .fail .. | .done => true
  | _ => false

theorem ended_step {cfg : Cfg} {s s' : Sys} (h : Step cfg s s') (he : s.loop.ended = true) : s'.loop.ended = true := by
  cases loopEff_step h with
  | quiet h1 => rw [h1]; exact he
  | stop _ h1 =>
    rcases h1 with h1 | ⟨f, l, h1⟩
    · revert h1; cases s'.loop <;> simp [LoopPc.stopped, LoopPc.ended]
    · rw [h1]; rfl
  | skip h0 => rw [h0] at he; cases he
  | receipt h0 => rw [h0] at he; cases he
  | message h0 => rw [h0] at he; cases he
  | take h0 => rw [h0] at he; cases he
  | gaveReceipt h0 => rw [h0] at he; cases he
  | gaveMessage _ _ h0 => rw [h0] at he; cases he

/-- A request accepted in this step is in `writeCh`. -/
theorem acc_step {s s' : Sys} (h : Eff s s') {t : Nat} {r : Req} (ha : (t, r) ∈ acceptedIn s'.trace) :
    (t, r) ∈ acceptedIn s.trace ∨ r ∈ s'.writeCh := by
  cases h with
  | accept _ _ _ _ h2 hw =>
    rw [h2] at ha
    rcases List.mem_append.1 ha with ha | ha
    · exact .inl ha
    · rw [List.mem_singleton] at ha
      cases ha
      right; rw [hw]; simp
  | same _ h2 => rw [h2] at ha; exact .inl ha
  | _ => simp_all

theorem acc_trace {s s' : Sys} (he : Ext s s') {t : Nat} {r : Req} (h : (t, r) ∈ acceptedIn s.trace) : Obs.accepted t r ∈ s'.trace := by
  have h := acceptedIn_ext he h
  unfold acceptedIn at h
  obtain ⟨o, ho, e⟩ := List.mem_filterMap.1 h
  cases o <;> simp at e
  obtain ⟨rfl, rfl⟩ := e
  exact ho

/-- Someone still receives from the open channel `n`. -/
def Awaits (s : Sys) (n : Nat) : Prop :=
  s.chanClosed n = false ∧
  ((∃ (u : Nat) (c : Bool) (th : Thread), s.chans[n]? = some ⟨.caller u, c⟩ ∧ s.threads[u]? = some th ∧ th.pc = .wait n) ∨
   (∃ (i : Nat) (c : Bool) (b : Sub), s.chans[n]? = some ⟨.sub i, c⟩ ∧ s.subs[i]? = some b ∧ (b.rl = .recv ∨ ∃ m, b.rl = .put m)))

theorem awaits_open {cfg : Cfg} {s s' : Sys} (h : Step cfg s s') {n : Nat} (hc : s'.chanClosed n = false) : s.chanClosed n = false :=
  Bool.eq_false_iff.2 fun hc' => by rw [mono_step h hc'] at hc; cases hc

theorem awaits_back {cfg : Cfg} {s s' : Sys} (ha : AllInv s) (h : Step cfg s s')
    (hth : ∀ (t : Nat) (th th' : Thread), s.threads[t]? = some th → s'.threads[t]? = some th' → ThMove cfg s th th')
    (hrl : ∀ (i : Nat) (b b' : Sub), s.subs[i]? = some b → s'.subs[i]? = some b' → RlMove s b b')
    {t : Nat} {r : Req} {n : Nat} (hr : (t, r) ∈ acceptedIn s.trace) (hn : r.chan = some n) (hw : Awaits s' n) : Awaits s n := by
  have he := ext_step h
  obtain ⟨hc, hw⟩ := hw
  refine ⟨awaits_open h hc, ?_⟩
  obtain ⟨th, ht, hq⟩ := ha.origin.acc t r hr
  rcases reqOf_owner hq hn with ⟨i, c, b, k1, k2, k3, _⟩ | ⟨c, k1, _⟩
  · rcases hw with ⟨u, c', th', g1, _⟩ | ⟨j, c', b', g1, g2, g3⟩
    · have := chans_back he k1 g1
      rw [k1] at this; cases this
    · have := chans_back he k1 g1
      rw [k1] at this; cases this
      refine .inr ⟨i, c, b, k1, k2, ?_⟩
      cases hrl i b b' k2 g2 with
      | same e => rw [← e]; exact g3
      | put e => exact .inr ⟨_, e⟩
      | closed e => exact .inl e
      | ending _ e =>
        rcases e with ⟨p, e⟩ | e <;> rw [e] at g3 <;> rcases g3 with g3 | ⟨_, g3⟩ <;> cases g3
  · rcases hw with ⟨u, c', th', g1, g2, g3⟩ | ⟨j, c', b', g1, _⟩
    · have := chans_back he k1 g1
      rw [k1] at this; cases this
      refine .inl ⟨t, c, th, k1, ht, ?_⟩
      cases hth t th th' ht g2 with
      | same e => rw [← e]; exact g3
      | early e =>
        refine absurd hr ((ha.origin.callers t th ht).early ?_ r)
        revert e
        cases th.pc <;> simp [Pc.early]
      | gaveUp _ e => have := Thread.left_past (Thread.gaveUp_left e); rw [g3] at this; cases this
      | closed _ _ e => have := Thread.left_past (Thread.gaveUp_left e); rw [g3] at this; cases this
      | past _ _ e => rw [g3] at e; cases e
    · have := chans_back he k1 g1
      rw [k1] at this; cases this

theorem handOver_moved {s s1 : Sys} {n : Nat} {f : Frame} {b : Bool} (h : s.handOver n f b = some s1) :
    (∃ (t : Nat) (c : Bool) (th' : Thread), s.chans[n]? = some ⟨.caller t, c⟩ ∧ s1.threads[t]? = some th' ∧ th'.pc.past = true) ∨
    (∃ (i : Nat) (c : Bool) (b' : Sub), s.chans[n]? = some ⟨.sub i, c⟩ ∧ s1.subs[i]? = some b' ∧ b'.rl = Sys.rlRecv f) := by
  have key : ∀ {t : Nat} {c : Bool} {th : Thread} {pc : Pc}, s.chans[n]? = some ⟨.caller t, c⟩ → s.threads[t]? = some th →
      s1.threads = s.threads.modify t (fun th => { th with pc := pc }) → pc.past = true →
      ∃ (t : Nat) (c : Bool) (th' : Thread), s.chans[n]? = some ⟨.caller t, c⟩ ∧ s1.threads[t]? = some th' ∧ th'.pc.past = true := by
    intro t c th pc hn ht hs hp
    refine ⟨t, c, { th with pc := pc }, hn, ?_, hp⟩
    rw [hs, List.getElem?_modify, ht]
    simp
  cases handOver_cases h with
  | send hn ht hpc => exact .inl (key hn ht rfl rfl)
  | discOk hn ht hpc => exact .inl (key hn ht rfl rfl)
  | discErr hn ht hpc => exact .inl (key hn ht rfl rfl)
  | @frame t th c hn ht hpc =>
    obtain ⟨pc, hp, h1, h2⟩ := frameDone_past s t th.call (resOf f)
    exact .inl (key hn ht h1 hp)
  | @sub i b0 c hn hb hrl =>
    refine .inr ⟨i, c, { b0 with rl := Sys.rlRecv f }, hn, ?_, rfl⟩
    show (s.subs.set i _)[i]? = _
    rw [List.getElem?_set_self (List.getElem?_eq_some_iff.1 hb).1]

/-- Still receiving after a hand-over: received before it too, and what was handed over was not for it, or was a
MESSAGE. -/
theorem awaits_gives {cfg : Cfg} {s s' : Sys} (ha : AllInv s) (h : Step cfg s s') {f : Frame} {n0 : Nat} {bb : Bool} {s1 : Sys}
    (h1 : s.handOver n0 f bb = some s1) (hts : s'.threads = s1.threads) (hss : s'.subs = s1.subs)
    {t : Nat} {r : Req} {n : Nat} (hr : (t, r) ∈ acceptedIn s.trace) (hn : r.chan = some n) (hw : Awaits s' n) :
    Awaits s n ∧ (n = n0 → f.command ≠ Cmd.receipt ∧ f.command ≠ Cmd.error) := by
  have he := ext_step h
  obtain ⟨hc, hw⟩ := hw
  refine ⟨⟨awaits_open h hc, ?_⟩, ?_⟩
  · obtain ⟨th, ht, hq⟩ := ha.origin.acc t r hr
    rcases reqOf_owner hq hn with ⟨i, c, b, k1, k2, k3, _⟩ | ⟨c, k1, _⟩
    · rcases hw with ⟨u, c', th', g1, _⟩ | ⟨j, c', b', g1, g2, g3⟩
      · have := chans_back he k1 g1
        rw [k1] at this; cases this
      · have := chans_back he k1 g1
        rw [k1] at this; cases this
        refine .inr ⟨i, c, b, k1, k2, ?_⟩
        rw [hss] at g2
        rcases handOver_subs h1 k2 g2 with e | ⟨_, e, _⟩
        · rw [← e]; exact g3
        · exact .inl e
    · rcases hw with ⟨u, c', th', g1, g2, g3⟩ | ⟨j, c', b', g1, _⟩
      · have := chans_back he k1 g1
        rw [k1] at this; cases this
        refine .inl ⟨t, c, th, k1, ht, ?_⟩
        rw [hts] at g2
        rcases handOver_threads ha.origin h1 ht g2 with rfl | ⟨_, _, e, _⟩
        · exact g3
        · rw [g3] at e; cases e
      · have := chans_back he k1 g1
        rw [k1] at this; cases this
  · rintro rfl
    rcases handOver_moved h1 with ⟨u, c, th', k1, k2, k3⟩ | ⟨i, c, b', k1, k2, k3⟩
    · rcases hw with ⟨u', c', th'', g1, g2, g3⟩ | ⟨j, c', b', g1, _⟩
      · have := chans_back he k1 g1
        rw [k1] at this; cases this
        rw [hts, k2] at g2; cases g2
        rw [g3] at k3; cases k3
      · have := chans_back he k1 g1
        rw [k1] at this; cases this
    · rcases hw with ⟨u, c', th', g1, _⟩ | ⟨j, c', b'', g1, g2, g3⟩
      · have := chans_back he k1 g1
        rw [k1] at this; cases this
      · have := chans_back he k1 g1
        rw [k1] at this; cases this
        rw [hss, k2] at g2; cases g2
        rw [k3] at g3
        constructor
        · intro hf; rw [rlRecv_receipt hf] at g3; rcases g3 with g3 | ⟨_, g3⟩ <;> cases g3
        · intro hf; rw [rlRecv_error hf] at g3; rcases g3 with g3 | ⟨_, g3⟩ <;> cases g3

/-- Registered with the key `k`, or about to be told of the end. -/
def Reg (s : Sys) (k : Bytes) (n : Nat) : Prop :=
  (s.loop.ended = false → s.channels.get? k = some n) ∧ (s.loop.ended = true → n ∈ s.live)

/-- Whoever receives for a request that was taken is registered. -/
def Told (s : Sys) : Prop :=
  Spec.Distinct s → ∀ t r n k, (t, r) ∈ acceptedIn s.trace → r.chan = some n → n ∉ s.writeCh.filterMap (·.chan) →
    Spec.Registers r.frame k → Awaits s n → Reg s k n

theorem live_running {s : Sys} (h : s.loop.ended = false) : s.live = s.channels.map (·.2) := by
  unfold Sys.live
  cases hl : s.loop <;> rw [hl] at h <;> first | rfl | cases h

theorem reg_quiet {cfg : Cfg} {s s' : Sys} (h : Step cfg s s') (hl : ∀ n, n ∈ s.live → n ∈ s'.live) (hc : s'.channels = s.channels)
    {k : Bytes} {n : Nat} (hr : Reg s k n) : Reg s' k n := by
  constructor
  · intro h'
    rw [hc]
    apply hr.1
    cases he : s.loop.ended with
    | false => rfl
    | true => rw [ended_step h he] at h'; cases h'
  · intro _
    apply hl
    cases he : s.loop.ended with
    | true => exact hr.2 he
    | false => rw [live_running he]; exact values_of_get (hr.1 he)

theorem hw_close {m : AMap Nat} {r : Req} {k : Bytes} {n : Nat} (h : EndsTemp r.frame k) (hn : (regBase m r).get? k = some n) :
    (handleWrite m r).2.1 = some n := by
  have hdef : handleWrite m r =
      if r.frame.command = Cmd.subscribe then
        match r.frame.header.contains Hdr.replyTo with
        | some k => ((match r.chan with | some n => (regBase m r).set k n | none => regBase m r), none, none)
        | none =>
          ((match r.chan with | some n => (regBase m r).set ((r.frame.header.contains Hdr.id).getD []) n | none => regBase m r),
            none, some r.frame)
      else if r.frame.command = Cmd.unsubscribe then
        match r.frame.header.contains Hdr.replyTo with
        | some k => match (regBase m r).get? k with
          | some n => ((regBase m r).del k, some n, none)
          | none => (regBase m r, none, none)
        | none =>
          (regBase m r, none, some { r.frame with
            header := r.frame.header.set Hdr.receipt ((r.frame.header.contains Hdr.id).getD []) })
      else (regBase m r, none, some r.frame) := rfl
  rw [hdef, if_neg (by rw [h.1]; decide), if_pos h.1]
  simp only [h.2]
  rw [hn]

theorem told_step {cfg : Cfg} {s s' : Sys} (hf : FullInv s) (ht : Told s) (h : Step cfg s s') : Told s' := by
  intro hd t r n k hr hn hnw hk hw
  have he := ext_step h
  have ha := hf.all
  have hd0 := distinct_ext he hd
  have hr0 : (t, r) ∈ acceptedIn s.trace := by
    rcases acc_step (eff_step h) hr with h | h
    · exact h
    · exact absurd (List.mem_filterMap.2 ⟨r, h, hn⟩) hnw
  have gives : Gives s s' → Reg s' k n := by
    intro hg
    obtain ⟨hat, hc, h1, hts, hss, hww, hl, hch⟩ := hg
    rename_i f n0 bb s1
    obtain ⟨hw0, hne⟩ := awaits_gives ha h h1 hts hss hr0 hn hw
    have hreg := ht hd0 t r n k hr0 hn (by rw [← hww]; exact hnw) hk hw0
    rcases hl with ⟨id, hl, g1, g2⟩ | ⟨hl, g1, g2, _⟩ | ⟨g2, g1, gl⟩
    · have hne' : n ≠ n0 := fun e => (hne e).1 (ha.reg.receipt _ _ _ hl).1
      have h0 := hreg.1 (by rw [hl]; rfl)
      have hid := hf.map.receipt _ _ _ hl
      have hki : id ≠ k := by
        rintro rfl
        rw [h0] at hid; cases hid; exact hne' rfl
      have : s'.channels.get? k = some n := by
        rw [g1, AMap.get?_del, if_neg hki]; exact h0
      refine ⟨fun _ => this, fun _ => ?_⟩
      rw [g2, ← g1]; exact values_of_get this
    · exact reg_quiet h (fun n hn => by rw [g2]; exact hn) g1 hreg
    · have hne' : n ≠ n0 := fun e => (hne e).2 (by
        rcases gl with ⟨l, gl⟩ | ⟨l, gl⟩
        · exact ha.reg.errs _ _ gl
        · exact ha.reg.fail _ _ gl)
      have hend : s.loop.ended = true := by rcases gl with ⟨l, gl⟩ | ⟨l, gl⟩ <;> rw [gl] <;> rfl
      have hm := hreg.2 hend
      rw [g2] at hm
      refine ⟨fun e => (by rw [ended_step h hend] at e; cases e), fun _ => ?_⟩
      rcases List.mem_cons.1 hm with e | e
      · exact absurd e hne'
      · exact e
  rcases th_step h with hg | hth
  · exact gives hg
  rcases rl_step h with hg | hrl
  · exact gives hg
  have hw0 := awaits_back ha h hth hrl hr0 hn hw
  rcases live_step h with hg | hm
  · exact gives hg
  cases hm with
  | quiet hp hc hww _ => exact reg_quiet h (fun n hn => hp.mem_iff.2 hn) hc (ht hd0 t r n k hr0 hn (by rw [← hww]; exact hnw) hk hw0)
  | over h0 hp hc hww _ =>
    exact reg_quiet h (fun n hn => by rw [h0] at hn; cases hn) hc (ht hd0 t r n k hr0 hn (by rw [← hww]; exact hnw) hk hw0)
  | push _ _ hp hc hww =>
    refine reg_quiet h (fun n hn => by rw [hp]; exact hn) hc (ht hd0 t r n k hr0 hn ?_ hk hw0)
    rw [hww, List.filterMap_append] at hnw
    exact fun hm => hnw (List.mem_append_left _ hm)
  | @took r0 rest hl hww hww' hp hc hcl0 hcl htr =>
    have hacc : ∃ t0, (t0, r0) ∈ acceptedIn s.trace := mem_handedIn (by rw [ha.order.queue, hww]; simp)
    obtain ⟨t0, ht0⟩ := hacc
    have hlt : n < s.chans.length := by
      obtain ⟨th, _, hq⟩ := ha.origin.acc t r hr0
      exact reqOf_lt hq hn
    have old : r0.chan ≠ some n → s.channels.get? k = some n := by
      intro hne
      refine (ht hd0 t r n k hr0 hn ?_ hk hw0).1 (by rw [hl]; rfl)
      rw [hww']  at hnw
      rw [hww, List.filterMap_cons]
      intro hm
      split at hm
      · exact hnw hm
      · rename_i b hb
        rcases List.mem_cons.1 hm with e | e
        · rw [← e] at hb; exact hne hb
        · exact hnw e
    have mine : r0.chan = some n → r0 = r := by
      intro e
      have := ha.origin.chan t0 t r0 r n ht0 hr0 e hn
      subst this
      exact ha.origin.one ht0 hr0
    have uniq : Spec.Registers r0.frame k → r0.chan ≠ none → r0.chan = some n := by
      intro e1 e2
      have : t0 = t := hd.uniq t0 r0 t r k (acc_trace he ht0) (acc_trace he hr0) e2 (by rw [hn]; simp) e1 hk
      subst this
      rw [ha.origin.one ht0 hr0]; exact hn
    have hget : s'.channels.get? k = some n := by
      rw [hc]
      by_cases hen : EndsTemp r0.frame k
      · exfalso
        have : (regBase s.channels r0).get? k = some n := by
          rw [regBase_get]
          split
          · rename_i hh; exact uniq (.inl hh.1) hh.2
          · rename_i hh
            apply old
            intro e
            have e' := mine e
            subst e'
            rcases hk with hk | ⟨hk, _⟩
            · exact hh ⟨hk, by rw [e]; simp⟩
            · rw [hen.1] at hk; exact absurd hk (by decide)
        have := hcl n (hw_close hen this) hlt
        rw [hw.1] at this; cases this
      · rw [hw_get hen]
        split
        · rename_i hh; exact uniq hh.1 hh.2
        · rename_i hh
          apply old
          intro e
          have e' := mine e
          subst e'
          exact hh ⟨hk, by rw [e]; simp⟩
    refine ⟨fun _ => hget, fun _ => hp.mem_iff.2 ?_⟩
    rw [← hc]; exact values_of_get hget

structure ToldInv (s : Sys) : Prop where
  full : FullInv s
  told : Told s

theorem told_run {cfg : Cfg} {n : Nat} {s : Sys} {es : List Ev} (h : (Sys.init n).run cfg es = some s) : ToldInv s := by
  refine run_induction (P := ToldInv) (fun s e s' hp h => ?_) es _ _ ⟨full_run (es := []) (cfg := cfg) rfl, ?_⟩ h
  · exact ⟨full_step hp.full h, told_step hp.full hp.told (step_cases h).2⟩
  · intro _ t r n k hr
    cases hr

theorem handedIn_acc (tr : List Obs) : handedIn tr = (acceptedIn tr).map (·.2) := by
  unfold handedIn acceptedIn
  rw [List.map_filterMap]
  congr 1
  funext o
  cases o <;> rfl

/-- The channel of a request that was taken is not that of one still to be taken. -/
theorem taken_once {s : Sys} (ha : AllInv s) {r : Req} {n : Nat} (hr : .taken r ∈ s.trace) (hn : r.chan = some n) :
    n ∉ s.writeCh.filterMap (·.chan) := by
  intro hm
  obtain ⟨r', hr', hn'⟩ := List.mem_filterMap.1 hm
  have hq := ha.order.queue
  have hnd := ha.origin.nodup
  have hch := ha.origin.chan
  rw [handedIn_acc] at hq
  obtain ⟨l1, l2, e, e1, e2⟩ := List.map_eq_append_iff.1 hq
  rw [e] at hnd hch
  have h1 : r ∈ takenIn s.trace := List.mem_filterMap.2 ⟨_, hr, rfl⟩
  rw [← e1] at h1
  rw [← e2] at hr'
  obtain ⟨⟨t, q⟩, ht, rfl⟩ := List.mem_map.1 h1
  obtain ⟨⟨t', q'⟩, ht', rfl⟩ := List.mem_map.1 hr'
  have := hch t t' q q' n (List.mem_append_left _ ht) (List.mem_append_right _ ht') hn hn'
  subst this
  rw [List.map_append, List.nodup_append] at hnd
  exact hnd.2.2 t (List.mem_map.2 ⟨_, ht, rfl⟩) t (List.mem_map.2 ⟨_, ht', rfl⟩) rfl

/-- Once `processLoop` has returned nobody receives for a request it had taken. -/
theorem told_done {s : Sys} (hi : ToldInv s) (hd : Spec.Distinct s) (hl : s.loop = .done) {r : Req} {n : Nat} {k : Bytes}
    (hr : .taken r ∈ s.trace) (hn : r.chan = some n) (hk : Spec.Registers r.frame k) : ¬ Awaits s n := by
  intro hw
  obtain ⟨t, ht⟩ := mem_handedIn (tr := s.trace) (r := r) (by rw [hi.full.all.order.queue]; exact List.mem_append_left _ (List.mem_filterMap.2 ⟨_, hr, rfl⟩))
  have := (hi.told hd t r n k ht hn (taken_once hi.full.all hr hn) hk hw).2 (by rw [hl]; rfl)
  unfold Sys.live at this
  rw [hl] at this
  cases this

end Stomp.Client

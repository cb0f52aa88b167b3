import Verif.Proofs.Client.LoopEff
/-! # Every subscription gets what is due to it -/
namespace Stomp.Client
open Stomp

theorem applySubOpts_command {os : List SubOpt} {f g : Frame} (h : applySubOpts f os = some g) : g.command = f.command := by
  induction os generalizing f with
  | nil => cases h; rfl
  | cons o os ih =>
    simp only [applySubOpts] at h
    split at h
    · cases h
    · rename_i f1 hf
      rw [ih h]
      cases o with
      | nilOpt => cases hf; rfl
      | id i => simp only [applySubOpt] at hf; split at hf <;> cases hf; rfl
      | header k v => simp only [applySubOpt] at hf; split at hf <;> cases hf; rfl
      | fail => cases hf

/-- The key of a SUBSCRIBE is the id of the subscription. -/
theorem subscribe_key {last last' : Nat} {d : Bytes} {a : AckMode} {os : List SubOpt} {f : Frame} {id : Bytes} {rt : Bool}
    (h : createSubscribeFrame last d a os = some (last', f, id, rt)) : f.command = Cmd.subscribe ∧
    (f.header.contains Hdr.replyTo).getD ((f.header.contains Hdr.id).getD []) = id := by
  unfold createSubscribeFrame at h
  dsimp only at h
  split at h
  · cases h
  · rename_i g hg
    have hc : g.command = Cmd.subscribe := applySubOpts_command hg
    cases hr : g.header.contains Hdr.replyTo with
    | some r =>
      rw [hr] at h
      dsimp only at h
      have h1 : (g.header.set Hdr.id r).contains Hdr.id = some r := by
        rw [contains_eq, firstValue_set, if_pos rfl]
      rw [h1] at h
      cases h
      refine ⟨hc, ?_⟩
      have h2 : (g.header.set Hdr.id id).contains Hdr.replyTo = some id := by
        rw [contains_eq, firstValue_set, if_neg (by decide), ← contains_eq, hr]
      show Option.getD ((g.header.set Hdr.id id).contains Hdr.replyTo) _ = _
      rw [h2]
      rfl
    | none =>
      rw [hr] at h
      dsimp only at h
      cases hid : g.header.contains Hdr.id with
      | some i =>
        rw [hid] at h
        cases h
        exact ⟨hc, by rw [hr, hid]; rfl⟩
      | none =>
        rw [hid] at h
        cases h
        refine ⟨hc, ?_⟩
        have h1 : (g.header.add Hdr.id (allocateId last).2).contains Hdr.id = some (allocateId last).2 := by
          rw [contains_eq, firstValue_add, ← contains_eq, hid]; simp
        have h2 : (g.header.add Hdr.id (allocateId last).2).contains Hdr.replyTo = none := by
          rw [contains_eq, firstValue_add, ← contains_eq, hr]; simp; decide
        show Option.getD ((g.header.add Hdr.id (allocateId last).2).contains Hdr.replyTo)
          (Option.getD ((g.header.add Hdr.id (allocateId last).2).contains Hdr.id) []) = _
        rw [h1, h2]
        rfl

/-! ## The map of `processLoop` -/

/-- The UNSUBSCRIBE of the temporary queue `k`. -/
def EndsTemp (f : Frame) (k : Bytes) : Prop := f.command = Cmd.unsubscribe ∧ f.header.contains Hdr.replyTo = some k

def regBase (m : AMap Nat) (r : Req) : AMap Nat :=
  match r.chan, r.frame.header.contains Hdr.receipt with
  | some n, some k => m.set k n
  | _, _ => m

theorem regBase_get (m : AMap Nat) (r : Req) (k : Bytes) : (regBase m r).get? k =
    if r.frame.header.contains Hdr.receipt = some k ∧ r.chan ≠ none then r.chan else m.get? k := by
  unfold regBase
  split
  · rename_i n k' hn hk
    rw [AMap.get?_set, hn, hk]
    by_cases e : k' = k
    · subst e; simp
    · rw [if_neg e, if_neg (by simp [e])]
  · rename_i h
    rw [if_neg]
    rintro ⟨h1, h2⟩
    cases hn : r.chan with
    | none => exact h2 hn
    | some n => exact h n k hn h1

theorem hw_eq (m : AMap Nat) (r : Req) : (handleWrite m r).1 =
    if r.frame.command = Cmd.subscribe then
      (match r.chan with
        | some n => (regBase m r).set ((r.frame.header.contains Hdr.replyTo).getD ((r.frame.header.contains Hdr.id).getD [])) n
        | none => regBase m r)
    else if r.frame.command = Cmd.unsubscribe then
      (match r.frame.header.contains Hdr.replyTo with
        | some k => (regBase m r).del k
        | none => regBase m r)
    else regBase m r := by
  have hdel : ∀ (m : AMap Nat) k, m.get? k = none → m.del k = m := by
    intro m k
    induction m with
    | nil => intro _; rfl
    | cons e m ih =>
      intro h
      obtain ⟨k', v⟩ := e
      by_cases hk : k' = k
      · subst hk; simp [AMap.get?] at h
      · rw [show AMap.get? ((k', v) :: m) k = AMap.get? m k by simp [AMap.get?, hk]] at h
        simp only [AMap.del]
        rw [ih h]
        simp [hk]
  have hdef : handleWrite m r =
      if r.frame.command = Cmd.subscribe then
        match r.frame.header.contains Hdr.replyTo with
        | some k => ((match r.chan with | some n => (regBase m r).set k n | none => regBase m r), none, none)
        | none =>
          ((match r.chan with | some n => (regBase m r).set ((r.frame.header.contains Hdr.id).getD []) n | none => regBase m r),
            none, some r.frame)
      else if r.frame.command = Cmd.unsubscribe then
        match r.frame.header.contains Hdr.replyTo with
        | some k => match (regBase m r).get? k with
          | some n => ((regBase m r).del k, some n, none)
          | none => (regBase m r, none, none)
        | none =>
          (regBase m r, none, some { r.frame with
            header := r.frame.header.set Hdr.receipt ((r.frame.header.contains Hdr.id).getD []) })
      else (regBase m r, none, some r.frame) := rfl
  rw [hdef]
  split
  · split
    · rename_i k hk
      rw [hk]
      rfl
    · rename_i hk
      rw [hk]
      rfl
  · split
    · split
      · rename_i k hk
        split
        · rfl
        · rename_i hn
          rw [hdel _ _ hn]
      · rfl
    · rfl

theorem hw_off {m : AMap Nat} {r : Req} {k : Bytes} (h : EndsTemp r.frame k) : (handleWrite m r).1.get? k = none := by
  rw [hw_eq, if_neg (by rw [h.1]; decide), if_pos h.1, h.2]
  show AMap.get? ((regBase m r).del k) k = none
  rw [AMap.get?_del, if_pos rfl]

/-- Not the end of a temporary queue: registered under its keys, the others are kept. -/
theorem hw_get {m : AMap Nat} {r : Req} {k : Bytes} (h : ¬ EndsTemp r.frame k) : (handleWrite m r).1.get? k =
    if Spec.Registers r.frame k ∧ r.chan ≠ none then r.chan else m.get? k := by
  rw [hw_eq]
  split
  · rename_i hc
    split
    · rename_i n hn
      rw [AMap.get?_set]
      split
      · rename_i e
        rw [if_pos ⟨.inr ⟨hc, e⟩, by simp [hn]⟩, hn]
      · rename_i e
        rw [regBase_get]
        by_cases h1 : r.frame.header.contains Hdr.receipt = some k
        · rw [if_pos ⟨h1, by simp [hn]⟩, if_pos ⟨.inl h1, by simp [hn]⟩]
        · rw [if_neg (fun g => h1 g.1), if_neg]
          rintro ⟨g | g, _⟩
          · exact h1 g
          · exact e g.2
    · rename_i hn
      rw [regBase_get, if_neg (fun g => g.2 hn), if_neg (fun g => g.2 hn)]
  · rename_i hc
    have hb : (regBase m r).get? k = if Spec.Registers r.frame k ∧ r.chan ≠ none then r.chan else m.get? k := by
      rw [regBase_get]
      by_cases h1 : r.frame.header.contains Hdr.receipt = some k ∧ r.chan ≠ none
      · rw [if_pos h1, if_pos ⟨.inl h1.1, h1.2⟩]
      · rw [if_neg h1, if_neg]
        rintro ⟨g | g, g2⟩
        · exact h1 ⟨g, g2⟩
        · exact hc g.1
    split
    · rename_i hu
      split
      · rename_i k' hk
        rw [AMap.get?_del, if_neg, hb]
        rintro rfl
        exact h ⟨hu, hk⟩
      · exact hb
    · exact hb

/-! ## What is due -/

/-- The MESSAGE frame on its way to the channel `n`. -/
def pend (l : LoopPc) (n : Nat) : List Frame :=
  match l with
  | .message f m => if m = n then [f] else []
  | _ => []

theorem due_append (n : Nat) (k : Bytes) (a b : List Obs) :
    Spec.due n k (a ++ b) = b.foldl (Spec.watch n k) (Spec.due n k a) := by
  unfold Spec.due
  rw [List.foldl_append]

theorem foldl_neutral {l : List Obs} (h : Neutral l) (n : Nat) (k : Bytes) (w : Spec.Watch) :
    l.foldl (Spec.watch n k) w = w := by
  induction l generalizing w with
  | nil => rfl
  | cons o l ih =>
    rw [List.foldl_cons, h o (List.mem_cons_self ..), ih (fun o ho => h o (List.mem_cons_of_mem _ ho))]

/-- `o` was or is about to be put on the `C` of the subscription with channel `n` and id `k`. -/
structure Flow (s : Sys) (n : Nat) (k : Bytes) (o : List Frame) : Prop where
  due : o ++ pend s.loop n = (Spec.due n k s.trace).due
  on : (Spec.due n k s.trace).on = true ↔ s.channels.get? k = some n ∧ ∀ f m, s.loop ≠ .receipt f k m

/-- What is known of the requests made for the channel `n` and of those with key `k`. -/
structure Own (s : Sys) (n : Nat) (k : Bytes) : Prop where
  sub : ∀ t r, (t, r) ∈ acceptedIn s.trace → r.chan = some n → r.frame.command = Cmd.subscribe ∧ ∀ q, Spec.Registers r.frame q ↔ q = k
  key : ∀ t r t' r', (t, r) ∈ acceptedIn s.trace → (t', r') ∈ acceptedIn s.trace → r.chan = some n → r'.chan ≠ none →
    Spec.Registers r'.frame k → r'.chan = some n

theorem LoopPc.stopped_not {l : LoopPc} (h : l.stopped = true ∨ ∃ f q, l = .errs f q) :
    (∀ f k m, l ≠ .receipt f k m) ∧ ∀ n, pend l n = [] := by
  rcases h with h | ⟨f, q, rfl⟩
  · cases l <;> simp [LoopPc.stopped] at h <;> exact ⟨by simp, fun _ => rfl⟩
  · exact ⟨by simp, fun _ => rfl⟩

/-- One step: `o` grows by the frame handed over, if it is for `n`. -/
theorem flow_step {s s' : Sys} {n : Nat} {k : Bytes} {o o' : List Frame} (ho : OrderInv s) (hr : RegInv s) (hown : Own s n k)
    (hf : Flow s n k o) (h : LoopEff s s')
    (hsame : (∀ f, s.loop ≠ .message f n) ∨ s'.loop = s.loop → o' = o)
    (hgive : ∀ f, s.loop = .message f n → s'.loop = .select → o' = o ++ [f]) : Flow s' n k o' := by
  have hacc : ∀ (r : Req) (rest : List Req), s.writeCh = r :: rest → ∃ t, (t, r) ∈ acceptedIn s.trace := by
    intro r rest hw
    apply mem_handedIn
    rw [ho.queue, hw]
    simp
  cases h with
  | quiet h1 h2 h3 h4 =>
    have e : Spec.due n k s'.trace = Spec.due n k s.trace := by rw [h3, due_append, foldl_neutral h4]
    constructor
    · rw [hsame (.inr h1), e, h1]; exact hf.due
    · rw [e, h1, h2]; exact hf.on
  | stop h0 h1 h2 h3 h4 =>
    have e : Spec.due n k s'.trace = Spec.due n k s.trace := by rw [h3, due_append, foldl_neutral h4]
    have hn0 : (∀ f k m, s.loop ≠ .receipt f k m) ∧ ∀ n, pend s.loop n = [] := by
      rcases h0 with h0 | h0
      · rw [h0]; exact ⟨by simp, fun _ => rfl⟩
      · exact LoopPc.stopped_not h0
    have hn1 := LoopPc.stopped_not h1
    have hm : ∀ f, s.loop ≠ .message f n := by
      intro f hc
      have := hn0.2 n
      rw [hc] at this
      simp [pend] at this
    constructor
    · rw [hsame (.inl hm), e, hn1.2, ← hn0.2 n]; exact hf.due
    · rw [e, hf.on, h2]
      exact ⟨fun g => ⟨g.1, fun f m => hn1.1 f k m⟩, fun g => ⟨g.1, fun f m => hn0.1 f k m⟩⟩
  | @skip x h0 h1 h2 h3 h4 =>
    have e : Spec.due n k s'.trace = Spec.due n k s.trace := by
      rw [h3, due_append]
      show Spec.watch n k (Spec.due n k s.trace) (.took x) = _
      cases x with
      | none => rfl
      | some f =>
        obtain ⟨_, h5, h6⟩ := h4 f rfl
        have hoff : s.channels.get? k = none → (Spec.due n k s.trace).on = false := by
          intro hc
          cases hw : (Spec.due n k s.trace).on with
          | false => rfl
          | true => rw [hf.on, hc] at hw; cases hw.1
        simp only [Spec.watch]
        split
        · rename_i hc
          split
          · rename_i hd
            have := hoff (h6 hc k hd.1)
            rw [hd.2] at this
            cases this
          · rfl
        · split
          · rename_i hd
            obtain ⟨id, h7, h8⟩ := h5 hd.1
            rw [hd.2] at h7
            cases h7
            rw [← hoff h8]
          · rfl
    constructor
    · rw [hsame (.inr h1), e, h1]; exact hf.due
    · rw [e, h1, h2]; exact hf.on
  | @receipt f id m h0 h1 h2 h3 hc hid hn =>
    have e : Spec.due n k s'.trace = if id = k then { Spec.due n k s.trace with on := false } else Spec.due n k s.trace := by
      rw [h3, due_append]
      show Spec.watch n k (Spec.due n k s.trace) (.took (some f)) = _
      simp only [Spec.watch]
      rw [if_neg (by rw [hc]; decide)]
      by_cases hk : id = k
      · rw [if_pos ⟨hc, by rw [hid, hk]⟩, if_pos hk]
      · rw [if_neg (fun g => by rw [hid] at g; exact hk (Option.some.inj g.2)), if_neg hk]
    constructor
    · rw [hsame (.inl (by rw [h0]; simp)), e, h1]
      have := hf.due
      rw [h0] at this
      rw [show pend (.receipt f id m) n = pend .select n from rfl, this]
      split <;> rfl
    · rw [e, h1, h2]
      by_cases hk : id = k
      · subst hk
        rw [if_pos rfl]
        simp
      · rw [if_neg hk, hf.on, h0]
        constructor
        · exact fun g => ⟨g.1, fun f m hc => by cases hc; exact hk rfl⟩
        · exact fun g => ⟨g.1, fun f m hc => by cases hc⟩
  | @message f id m h0 h1 h2 h3 hc hid hn =>
    have hiff : (id = k ∧ (Spec.due n k s.trace).on = true) ↔ m = n := by
      constructor
      · rintro ⟨rfl, h⟩
        have := (hf.on.1 h).1
        rw [hn] at this
        exact Option.some.inj this
      · rintro rfl
        obtain ⟨t, r, g1, g2, g3, _⟩ := hr.reg _ _ hn
        have := ((hown.sub t r g1 g2).2 id).1 g3
        subst this
        exact ⟨rfl, hf.on.2 ⟨hn, by rw [h0]; simp⟩⟩
    have e : Spec.due n k s'.trace = if m = n then { Spec.due n k s.trace with due := (Spec.due n k s.trace).due ++ [f] }
        else Spec.due n k s.trace := by
      rw [h3, due_append]
      show Spec.watch n k (Spec.due n k s.trace) (.took (some f)) = _
      simp only [Spec.watch]
      rw [if_pos hc, hid]
      by_cases hm : m = n
      · rw [if_pos hm, if_pos ⟨by rw [(hiff.2 hm).1], (hiff.2 hm).2⟩]
      · rw [if_neg hm, if_neg]
        rintro ⟨g1, g2⟩
        exact hm (hiff.1 ⟨Option.some.inj g1, g2⟩)
    constructor
    · rw [hsame (.inl (by rw [h0]; simp)), e, h1]
      have := hf.due
      rw [h0] at this
      simp only [pend, List.append_nil] at this
      simp only [pend]
      split
      · rw [this]
      · rw [List.append_nil, this]
    · rw [e, h1, h2]
      have := hf.on
      rw [h0] at this
      have h5 : (if m = n then { Spec.due n k s.trace with due := (Spec.due n k s.trace).due ++ [f] }
        else Spec.due n k s.trace).on = (Spec.due n k s.trace).on := by split <;> rfl
      rw [h5, this]
      simp
  | @take r rest l h0 h1 hw h2 h3 h4 =>
    obtain ⟨t, ht⟩ := hacc r rest hw
    have e : Spec.due n k s'.trace = Spec.watch n k (Spec.due n k s.trace) (.taken r) := by
      rw [h3, due_append, List.foldl_cons, foldl_neutral h4]
    have hp : pend s'.loop n = [] := by rcases h1 with h1 | ⟨f, q, h1⟩ <;> rw [h1] <;> rfl
    have hn : ∀ f m, s'.loop ≠ .receipt f k m := by rcases h1 with h1 | ⟨f, q, h1⟩ <;> rw [h1] <;> simp
    have hd : (Spec.watch n k (Spec.due n k s.trace) (.taken r)).due = (Spec.due n k s.trace).due := by
      simp only [Spec.watch]
      repeat' split
      all_goals rfl
    constructor
    · rw [hsame (.inl (by rw [h0]; simp)), e, hd, hp, ← hf.due, h0]
      rfl
    · rw [e, h2]
      by_cases hc : r.chan = some n
      · obtain ⟨g1, g2⟩ := hown.sub t r ht hc
        simp only [Spec.watch]
        rw [if_pos hc, hw_get (fun g => absurd (g1.symm.trans g.1) (by decide)), if_pos ⟨(g2 k).2 rfl, by rw [hc]; simp⟩]
        exact ⟨fun _ => ⟨hc, hn⟩, fun _ => rfl⟩
      · simp only [Spec.watch]
        rw [if_neg hc]
        by_cases hu : r.frame.command = Cmd.unsubscribe ∧ r.frame.header.contains Hdr.replyTo = some k
        · rw [if_pos hu, hw_off hu]
          simp
        · rw [if_neg hu, hw_get hu]
          have := hf.on
          rw [h0] at this
          rw [this]
          split
          · rename_i hg
            constructor
            · rintro ⟨g1, _⟩
              obtain ⟨t0, r0, g2, g3, g4, _⟩ := hr.reg _ _ g1
              exact absurd (hown.key t0 r0 t r g2 ht g3 hg.2 hg.1) hc
            · rintro ⟨g1, _⟩
              exact absurd g1 hc
          · exact ⟨fun g => ⟨g.1, hn⟩, fun g => ⟨g.1, by simp⟩⟩
  | @gaveReceipt f id m l h0 h1 h2 h3 h4 =>
    have e : Spec.due n k s'.trace = Spec.due n k s.trace := by rw [h3, due_append, foldl_neutral h4]
    constructor
    · rw [hsame (.inl (by rw [h0]; simp)), e, h1, ← hf.due, h0]
      rfl
    · rw [e, h1, h2, hf.on, AMap.get?_del, h0]
      by_cases hk : id = k
      · rw [if_pos hk]
        subst hk
        simp
      · rw [if_neg hk]
        exact ⟨fun g => ⟨g.1, by simp⟩, fun g => ⟨g.1, fun f m hc => by cases hc; exact hk rfl⟩⟩
  | @gaveMessage f m l b s1 hg hs h0 h1 h2 h3 h4 =>
    have e : Spec.due n k s'.trace = Spec.due n k s.trace := by rw [h3, due_append, foldl_neutral h4]
    constructor
    · rw [e, h1, ← hf.due, h0]
      by_cases hm : m = n
      · subst hm
        rw [hgive f h0 h1]
        simp [pend]
      · rw [hsame (.inl (by rw [h0]; simp [hm]))]
        simp [pend, hm]
    · rw [e, h1, h2, hf.on, h0]
      simp

end Stomp.Client

namespace Stomp.Client
open Stomp

theorem acceptedIn_mem {tr : List Obs} {t : Nat} {r : Req} (h : Obs.accepted t r ∈ tr) : (t, r) ∈ acceptedIn tr :=
  List.mem_filterMap.2 ⟨_, h, rfl⟩

/-- A request for the channel of a subscription is the SUBSCRIBE made for it. -/
theorem chan_sub {s : Sys} (ho : OriginInv s) (hi : SubInv s) {i : Nat} {b : Sub} (hb : s.subs[i]? = some b) {t : Nat} {r : Req}
    (h : (t, r) ∈ acceptedIn s.trace) (hn : r.chan = some b.chan) : r.frame.command = Cmd.subscribe ∧
    (r.frame.header.contains Hdr.replyTo).getD ((r.frame.header.contains Hdr.id).getD []) = b.id ∧
    ∃ th d a o, s.threads[t]? = some th ∧ th.call = .subscribe d a o := by
  obtain ⟨th, ht, hq⟩ := ho.acc t r h
  obtain ⟨c, hc, hco⟩ := hi.chan i b hb
  by_cases hcall : ∃ d a o, th.call = .subscribe d a o
  · obtain ⟨d, a, o, hcall⟩ := hcall
    rw [hcall] at hq
    obtain ⟨n, j, last, last', b', c', g1, g2, g3, g4, g5, g6⟩ := hq
    rw [hn] at g1
    cases g1
    rw [hc] at g2
    cases g2
    rw [hco] at g3
    cases g3
    rw [hb] at g4
    cases g4
    exact ⟨(subscribe_key g6).1, (subscribe_key g6).2, th, d, a, o, ht, hcall⟩
  · have hcall' : ∀ d a o, th.call ≠ .subscribe d a o := fun d a o h => hcall ⟨d, a, o, h⟩
    obtain ⟨_, ⟨g1, _⟩ | ⟨n, c', g1, g2, g3, _⟩⟩ := (reqOf_caller hcall').1 hq
    · rw [hn] at g1; cases g1
    · rw [hn] at g1
      cases g1
      rw [hc] at g2
      cases g2
      rw [hco] at g3
      cases g3

theorem own_sub {s : Sys} (hd : Spec.Distinct s) (ho : OriginInv s) (hi : SubInv s) {i : Nat} {b : Sub}
    (hb : s.subs[i]? = some b) : Own s b.chan b.id := by
  have key : ∀ t r, (t, r) ∈ acceptedIn s.trace → r.chan = some b.chan → r.frame.command = Cmd.subscribe ∧
      ∀ q, Spec.Registers r.frame q ↔ q = b.id := by
    intro t r h hn
    obtain ⟨h1, h2, _⟩ := chan_sub ho hi hb h hn
    refine ⟨h1, fun q => ⟨?_, fun e => .inr ⟨h1, by rw [h2, e]⟩⟩⟩
    rintro (g | g)
    · rw [hd.noReceipt t r (mem_acceptedIn h) h1] at g; cases g
    · rw [← g.2, h2]
  refine ⟨key, ?_⟩
  intro t r t' r' h h' hn hn' hr
  have := hd.uniq t r t' r' b.id (mem_acceptedIn h) (mem_acceptedIn h') (by rw [hn]; simp) hn' (((key t r h hn).2 _).2 rfl) hr
  subst this
  rw [← ho.one h h', hn]

theorem due_off {n : Nat} {k : Bytes} {tr : List Obs} (h : ∀ r ∈ takenIn tr, r.chan ≠ some n) :
    Spec.due n k tr = ⟨false, []⟩ := by
  have key : ∀ l : List Obs, (∀ r ∈ takenIn l, r.chan ≠ some n) → l.foldl (Spec.watch n k) ⟨false, []⟩ = ⟨false, []⟩ := by
    intro l
    induction l with
    | nil => intro _; rfl
    | cons o l ih =>
      intro h
      have h1 : Spec.watch n k ⟨false, []⟩ o = ⟨false, []⟩ := by
        cases o with
        | taken r =>
          have := h r (List.mem_filterMap.2 ⟨_, List.mem_cons_self .., rfl⟩)
          simp only [Spec.watch]
          rw [if_neg this]
          split <;> rfl
        | took x =>
          cases x with
          | none => rfl
          | some f =>
            simp only [Spec.watch]
            repeat' split
            all_goals first | rfl | (rename_i hh; cases hh.2)
        | _ => rfl
      rw [List.foldl_cons, h1]
      apply ih
      intro r hr
      obtain ⟨o', ho', h2⟩ := List.mem_filterMap.1 hr
      exact h r (List.mem_filterMap.2 ⟨o', List.mem_cons_of_mem _ ho', h2⟩)
  exact key tr h

theorem fresh_lt {s : Sys} (ho : OriginInv s) {t : Nat} {r : Req} (h : (t, r) ∈ acceptedIn s.trace) : r.chan ≠ some s.chans.length := by
  intro hn
  obtain ⟨th, ht, hq⟩ := ho.acc t r h
  exact absurd (reqOf_lt hq hn) (Nat.lt_irrefl _)

/-- The next channel to be made. -/
theorem flow_fresh {s : Sys} (ho : OriginInv s) (hq : OrderInv s) (hr : RegInv s) (k : Bytes) : Flow s s.chans.length k [] := by
  have hd : Spec.due s.chans.length k s.trace = ⟨false, []⟩ := by
    apply due_off
    intro r h
    have : r ∈ handedIn s.trace := by rw [hq.queue]; exact List.mem_append_left _ h
    obtain ⟨t, ht⟩ := mem_handedIn this
    exact fresh_lt ho ht
  constructor
  · rw [hd]
    cases hl : s.loop with
    | message f m =>
      obtain ⟨_, _, id, _, t, r, g1, g2, _⟩ := hr.message f m hl
      simp only [pend]
      rw [if_neg]
      · rfl
      · rintro rfl
        exact fresh_lt ho g1 g2
    | _ => rfl
  · rw [hd]
    constructor
    · intro h; cases h
    · rintro ⟨h, _⟩
      obtain ⟨t, r, g1, g2, _⟩ := hr.reg _ _ h
      exact absurd g2 (fresh_lt ho g1)

theorem LoopEff.gave {s s' : Sys} (h : LoopEff s s') {f : Frame} {n : Nat} (h0 : s.loop = .message f n) (h1 : s'.loop = .select) :
    ∃ b s1, s.handOver n f b = some s1 ∧ s'.subs = s1.subs := by
  cases h with
  | quiet g => rw [h0] at g; rw [g] at h1; cases h1
  | stop g =>
    rw [h0] at g
    rcases g with g | g | ⟨_, _, g⟩ <;> cases g
  | skip g => rw [h0] at g; cases g
  | receipt g => rw [h0] at g; cases g
  | message g => rw [h0] at g; cases g
  | take g => rw [h0] at g; cases g
  | gaveReceipt g => rw [h0] at g; cases g
  | gaveMessage hg hs g => rw [h0] at g; cases g; exact ⟨_, _, hg, hs⟩

/-- The channel of a MESSAGE on its way is that of the subscription that owns it. -/
theorem message_chan {s : Sys} (ho : OriginInv s) (hi : SubInv s) (hr : RegInv s) {f : Frame} {m i : Nat} {b : Sub} {c : Bool}
    (hl : s.loop = .message f m) (hb : s.subs[i]? = some b) (hc : s.chans[m]? = some ⟨.sub i, c⟩) : b.chan = m := by
  obtain ⟨_, _, id, _, t, r, g1, g2, g3⟩ := hr.message f m hl
  obtain ⟨th, ht, hq⟩ := ho.acc t r g1
  by_cases hcall : ∃ d a o, th.call = .subscribe d a o
  · obtain ⟨d, a, o, hcall⟩ := hcall
    rw [hcall] at hq
    obtain ⟨n, j, last, last', b', c', k1, k2, k3, k4, k5, k6⟩ := hq
    rw [g2] at k1
    cases k1
    rw [hc] at k2
    cases k2
    cases k3
    rw [hb] at k4
    cases k4
    exact k5
  · have hcall' : ∀ d a o, th.call ≠ .subscribe d a o := fun d a o h => hcall ⟨d, a, o, h⟩
    obtain ⟨_, ⟨k1, _⟩ | ⟨n, c', k1, k2, k3, _⟩⟩ := (reqOf_caller hcall').1 hq
    · rw [g2] at k1; cases k1
    · rw [g2] at k1
      cases k1
      rw [hc] at k2
      cases k2
      cases k3

/-- What the subscription `i` has after a frame was handed over. -/
theorem handOver_out {s s1 : Sys} {n : Nat} {f : Frame} {y : Bool} (h : s.handOver n f y = some s1) {i : Nat} {b' : Sub}
    (hb : s1.subs[i]? = some b') : ∃ b, s.subs[i]? = some b ∧ b'.id = b.id ∧ b'.chan = b.chan ∧ b'.got = b.got ∧
      ((b' = b ∧ ∀ c, s.chans[n]? ≠ some ⟨.sub i, c⟩) ∨
        (∃ c, s.chans[n]? = some ⟨.sub i, c⟩ ∧ b.rl = .recv ∧ b'.rl = Sys.rlRecv f)) := by
  cases handOver_cases h with
  | send hn => exact ⟨b', hb, rfl, rfl, rfl, .inl ⟨rfl, by rw [hn]; simp⟩⟩
  | discOk hn => exact ⟨b', hb, rfl, rfl, rfl, .inl ⟨rfl, by rw [hn]; simp⟩⟩
  | discErr hn => exact ⟨b', hb, rfl, rfl, rfl, .inl ⟨rfl, by rw [hn]; simp⟩⟩
  | @frame t th c hn =>
    obtain ⟨pc, hcore, _, hsub, _⟩ := frameDone_spec s t th.call (resOf f)
    rw [hsub] at hb
    exact ⟨b', hb, rfl, rfl, rfl, .inl ⟨rfl, by rw [hn]; simp⟩⟩
  | @sub j b c hn hj hrl =>
    simp only [Sys.setSub] at hb
    rw [List.getElem?_set] at hb
    split at hb
    · rename_i e
      subst e
      split at hb
      · cases hb
        exact ⟨b, hj, rfl, rfl, rfl, .inr ⟨c, hn, hrl, rfl⟩⟩
      · cases hb
    · rename_i e
      refine ⟨b', hb, rfl, rfl, rfl, .inl ⟨rfl, ?_⟩⟩
      intro c' hc
      rw [hn] at hc
      cases hc
      exact e rfl

theorem rlRecv_message {f : Frame} (h : f.command = Cmd.message) : Sys.rlRecv f = .put (.msg f) := by
  unfold Sys.rlRecv; rw [if_pos h]

theorem rlRecv_error {f : Frame} (h : f.command = Cmd.error) : Sys.rlRecv f = .check (some (.error f)) := by
  unfold Sys.rlRecv; rw [if_neg (by rw [h]; decide), if_pos h]

theorem rlRecv_receipt {f : Frame} (h : f.command = Cmd.receipt) : Sys.rlRecv f = .check none := by
  unfold Sys.rlRecv; rw [if_neg (by rw [h]; decide), if_neg (by rw [h]; decide), if_pos h]

/-- How `out` of a subscription changes: by the MESSAGE handed over. -/
theorem out_step {cfg : Cfg} {s s' : Sys} (ho : OriginInv s) (hi : SubInv s) (hr : RegInv s) (h : Step cfg s s') {i : Nat} {b' : Sub}
    (hb : s'.subs[i]? = some b') :
    (∃ b, s.subs[i]? = some b ∧ b'.id = b.id ∧ b'.chan = b.chan ∧
      ((∀ f, s.loop ≠ .message f b.chan) ∨ s'.loop = s.loop → b'.out = b.out) ∧
      (∀ f, s.loop = .message f b.chan → s'.loop = .select → b'.out = b.out ++ [f])) ∨
    (b'.chan = s.chans.length ∧ b'.out = []) := by
  have hgive : ∀ b, s.subs[i]? = some b → b'.chan = b.chan → ∀ f, s.loop = .message f b.chan → s'.loop = .select →
      b'.out = b.out ++ [f] := by
    intro b hb0 hcb f hl hl'
    obtain ⟨y, s1, g1, g2⟩ := (loopEff_step h).gave hl hl'
    rw [g2] at hb
    obtain ⟨b1, k1, k2, k3, k4, k5⟩ := handOver_out g1 hb
    rw [hb0] at k1
    cases k1
    obtain ⟨c, hc, hco⟩ := hi.chan i b hb0
    rcases k5 with ⟨rfl, k5⟩ | ⟨_, _, k6, k7⟩
    · exfalso
      obtain ⟨o, cl⟩ := c
      cases hco
      exact k5 cl hc
    · rw [rlRecv_message (hr.message f _ hl).1] at k7
      simp [Sub.out, k4, k6, k7, msgs, CMsg.frame?]
  rcases subCh_step hi h with hc | ⟨f, m, y, s1, hat, h1, h2, h3⟩
  · rcases hc.get hb with ⟨b, g1, g2, g3, g4⟩ | ⟨_, g2, g3, g4, _⟩
    · exact .inl ⟨b, g1, g2, g3, fun _ => (g4 (hi.rl i b g1)).2, hgive b g1 g3⟩
    · exact .inr ⟨g2, by simp [Sub.out, g3, g4, msgs]⟩
  · rw [h2] at hb
    obtain ⟨b, k1, k2, k3, k4, k5⟩ := handOver_out h1 hb
    refine .inl ⟨b, k1, k2, k3, ?_, hgive b k1 k3⟩
    intro hm
    replace hm := hm.resolve_right h3
    rcases k5 with ⟨rfl, _⟩ | ⟨c, k5, k6, k7⟩
    · rfl
    · have hnm : f.command = Cmd.error ∨ f.command = Cmd.receipt := by
        rcases hat with ⟨id, hat⟩ | hat | ⟨l, hat⟩ | ⟨l, hat⟩
        · exact .inr (hr.receipt _ _ _ hat).1
        · exact absurd hat (by rw [← message_chan ho hi hr hat k1 k5]; exact hm f)
        · exact .inl (hr.errs _ _ hat)
        · exact .inl (hr.fail _ _ hat)
      rcases hnm with hnm | hnm
      · rw [rlRecv_error hnm] at k7; simp [Sub.out, k4, k6, k7]
      · rw [rlRecv_receipt hnm] at k7; simp [Sub.out, k4, k6, k7]

theorem distinct_ext {s s' : Sys} (he : Ext s s') (h : Spec.Distinct s') : Spec.Distinct s := by
  obtain ⟨l, e⟩ := he.trace
  have key : ∀ o, o ∈ s.trace → o ∈ s'.trace := fun o ho => by rw [e]; exact List.mem_append_left _ ho
  exact ⟨fun t r t' r' k a b => h.uniq t r t' r' k (key _ a) (key _ b), fun t r a => h.noReceipt t r (key _ a)⟩

structure FlowInv (s : Sys) : Prop where
  all : AllInv s
  sub : SubInv s
  flow : Spec.Distinct s → ∀ (i : Nat) (b : Sub), s.subs[i]? = some b → Flow s b.chan b.id b.out

theorem flow_run {cfg : Cfg} {n : Nat} {s : Sys} {es : List Ev} (h : (Sys.init n).run cfg es = some s) : FlowInv s := by
  refine run_induction (P := FlowInv) (fun s e s' hp h => ?_) es _ _ ⟨all_run (es := []) (cfg := cfg) rfl, ?_, ?_⟩ h
  · have hs := (step_cases h).2
    have ha := hp.all
    refine ⟨⟨lock_step ha.lock h, order_step ha.order hs, origin_step ha.lock ha.origin (ext_step hs) (eff_step hs),
      reg_step ha.order ha.reg hs, done_step ha.origin ha.reg ha.done hs⟩, subInv_step hp.sub hs, ?_⟩
    intro hd i b' hb
    have hd0 := distinct_ext (ext_step hs) hd
    rcases out_step ha.origin hp.sub ha.reg hs hb with ⟨b, g1, g2, g3, g4, g5⟩ | ⟨g1, g2⟩
    · rw [g2, g3]
      exact flow_step ha.order ha.reg (own_sub hd0 ha.origin hp.sub g1) (hp.flow hd0 i b g1) (loopEff_step hs) g4 g5
    · rw [g1, g2]
      refine flow_step ha.order ha.reg ⟨?_, ?_⟩ (flow_fresh ha.origin ha.order ha.reg _) (loopEff_step hs) (fun _ => rfl) ?_
      · intro t r k1 k2; exact absurd k2 (fresh_lt ha.origin k1)
      · intro t r t' r' k1 _ k2; exact absurd k2 (fresh_lt ha.origin k1)
      · intro f hl _
        obtain ⟨_, _, id, _, t, r, k1, k2, _⟩ := ha.reg.message f _ hl
        exact absurd k2 (fresh_lt ha.origin k1)
  · constructor <;> intro i b hb <;> simp [Sys.init] at hb
  · intro _ i b hb; simp [Sys.init] at hb

end Stomp.Client

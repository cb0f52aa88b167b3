import Verif.Spec.ClientWire
import Verif.Props.Client.Receipts
import Verif.Props.Client.Frames
import Verif.Props.Codec
import Verif.Proofs.Client.Tame
/-!
# C55: the client's side of the wire
-/
namespace Stomp.Client
open Stomp

theorem createSend_wf {last last' : Nat} {dest ctype body : Bytes} {opts : List SendOpt} {f : Frame}
    (h : createSendFrame last dest ctype body opts = some (last', f)) (hs : Spec.SendSound body opts) : Stomp.Spec.WellFormed f := by
  obtain ⟨a, b, c, d, e⟩ := createSendFrame_spec last last' dest ctype body opts f h hs.names (fun hm => (hs.bare hm).2)
  refine ⟨by rw [a]; decide, d, ?_⟩
  unfold Stomp.Spec.BodyOk
  rcases e with ⟨e1, e2⟩ | ⟨_, e2⟩
  · rw [e2, b]; exact (hs.bare e1).1
  · rw [e2, b]
    exact ⟨fmtUint_numeral _, hs.length⟩

/-- A frame without body and length, with all names there. -/
def Bare (f : Frame) : Prop :=
  f.body = [] ∧ (∀ e ∈ f.header, e.1 ≠ []) ∧ Stomp.Spec.firstValue f.header b!"content-length" = none

theorem Bare.wf {f : Frame} (h : Bare f) (hc : f.command ∈ Stomp.Spec.commands) : Stomp.Spec.WellFormed f := by
  refine ⟨hc, h.2.1, ?_⟩
  unfold Stomp.Spec.BodyOk
  rw [h.2.2, h.1]; simp

theorem Bare.set {f : Frame} (h : Bare f) {k : Bytes} (v : Bytes) (hk : k ≠ []) (hl : k ≠ b!"content-length") :
    Bare { f with header := f.header.set k v } := by
  refine ⟨h.1, names_set _ _ _ hk h.2.1, ?_⟩
  dsimp only
  rw [firstValue_set, if_neg hl]; exact h.2.2

theorem Bare.add {f : Frame} (h : Bare f) {k : Bytes} (v : Bytes) (hk : k ≠ []) (hl : k ≠ b!"content-length") :
    Bare { f with header := f.header.add k v } := by
  refine ⟨h.1, names_add _ _ _ hk h.2.1, ?_⟩
  dsimp only
  rw [firstValue_add, h.2.2, if_neg hl]; rfl

theorem wf_set {f : Frame} (h : Stomp.Spec.WellFormed f) {k : Bytes} (v : Bytes) (hk : k ≠ []) (hl : k ≠ b!"content-length") :
    Stomp.Spec.WellFormed { f with header := f.header.set k v } := by
  refine ⟨h.1, names_set _ _ _ hk h.2.1, ?_⟩
  have := h.2.2
  unfold Stomp.Spec.BodyOk at this ⊢
  dsimp only
  rw [firstValue_set, if_neg hl]; exact this

theorem applySubOpt_bare {f f' : Frame} {o : SubOpt} (h : applySubOpt f o = some f') (hb : Bare f)
    (hs : ∀ k v, o = .header k v → k ≠ [] ∧ k ≠ b!"content-length") : Bare f' ∧ f'.command = f.command := by
  cases o with
  | nilOpt => simp only [applySubOpt, Option.some.injEq] at h; subst h; exact ⟨hb, rfl⟩
  | id i =>
    simp only [applySubOpt] at h
    split at h
    · cases h
    · injection h with h; subst h
      exact ⟨hb.set _ (by decide) (by decide), rfl⟩
  | header k v =>
    simp only [applySubOpt] at h
    split at h
    · cases h
    · injection h with h; subst h
      exact ⟨hb.add _ (hs k v rfl).1 (hs k v rfl).2, rfl⟩
  | fail => cases h

theorem applySubOpts_bare {f f' : Frame} {os : List SubOpt} (h : applySubOpts f os = some f') (hb : Bare f) (hs : Spec.SubSound os) :
    Bare f' ∧ f'.command = f.command := by
  induction os generalizing f with
  | nil => simp only [applySubOpts, Option.some.injEq] at h; subst h; exact ⟨hb, rfl⟩
  | cons o os ih =>
    simp only [applySubOpts] at h
    split at h
    · cases h
    · rename_i g hg
      obtain ⟨h1, h2⟩ := applySubOpt_bare hg hb (fun k v hv => hs k v (by rw [hv]; simp))
      obtain ⟨h3, h4⟩ := ih h h1 (fun k v hv => hs k v (List.mem_cons_of_mem _ hv))
      exact ⟨h3, h4.trans h2⟩

theorem applyUnsubOpts_bare {f f' : Frame} {os : List SubOpt} (h : applyUnsubOpts f os = some f') (hb : Bare f) (hs : Spec.SubSound os) :
    Bare f' ∧ f'.command = f.command := by
  induction os generalizing f with
  | nil => simp only [applyUnsubOpts, Option.some.injEq] at h; subst h; exact ⟨hb, rfl⟩
  | cons o os ih =>
    have go : ∀ o, (match applySubOpt f o with | none => none | some f => applyUnsubOpts f os) = some f' →
        (∀ k v, o = .header k v → k ≠ [] ∧ k ≠ b!"content-length") → Bare f' ∧ f'.command = f.command := by
      intro o h ho
      split at h
      · cases h
      · rename_i g hg
        obtain ⟨h1, h2⟩ := applySubOpt_bare hg hb ho
        obtain ⟨h3, h4⟩ := ih h h1 (fun k v hv => hs k v (List.mem_cons_of_mem _ hv))
        exact ⟨h3, h4.trans h2⟩
    have ho : ∀ k v, o = .header k v → k ≠ [] ∧ k ≠ b!"content-length" := fun k v hv => hs k v (by rw [hv]; simp)
    cases o with
    | nilOpt => cases h
    | id i => exact go _ h ho
    | header k v => exact go _ h ho
    | fail => simp [applyUnsubOpts, applySubOpt] at h

theorem createSubscribe_wf {last last' : Nat} {d : Bytes} {a : AckMode} {os : List SubOpt} {f : Frame} {id : Bytes} {rt : Bool}
    (h : createSubscribeFrame last d a os = some (last', f, id, rt)) (hs : Spec.SubSound os) : Stomp.Spec.WellFormed f := by
  unfold createSubscribeFrame at h
  dsimp only at h
  split at h
  · cases h
  · rename_i g hg
    have h0 : Bare (Frame.new Cmd.subscribe [(Hdr.destination, d), (Hdr.ack, a.str)]) := by
      refine ⟨rfl, ?_, ?_⟩
      · intro e he
        simp only [Frame.new, Header.add, List.foldl_cons, List.foldl_nil, List.nil_append, List.cons_append, List.mem_cons, List.not_mem_nil, or_false] at he
        rcases he with rfl | rfl
        · exact (by decide : Hdr.destination ≠ [])
        · exact (by decide : Hdr.ack ≠ [])
      · simp only [Frame.new, List.foldl_cons, List.foldl_nil]
        rw [firstValue_add, firstValue_add, firstValue_nil, if_neg (by decide), if_neg (by decide)]; rfl
    obtain ⟨h1, h2⟩ := applySubOpts_bare hg h0 hs
    have hc : g.command = Cmd.subscribe := h2
    -- the reply-to header becomes the id
    have key : ∀ g' : Frame, Bare g' → g'.command = Cmd.subscribe →
        (match g'.header.contains Hdr.id with
          | some id => some (last, g', id, (g.header.contains Hdr.replyTo).isSome)
          | none => some ((allocateId last).1, { g' with header := g'.header.add Hdr.id (allocateId last).2 }, (allocateId last).2, (g.header.contains Hdr.replyTo).isSome)) = some (last', f, id, rt) →
        Stomp.Spec.WellFormed f := by
      intro g' hb hc h
      split at h
      · injection h with h; injection h with _ h; injection h with h _; subst h
        exact hb.wf (by rw [hc]; decide)
      · injection h with h; injection h with _ h; injection h with h _; subst h
        exact (hb.add _ (by decide) (by decide)).wf (by show g'.command ∈ _; rw [hc]; decide)
    cases hr : g.header.contains Hdr.replyTo with
    | none => rw [hr] at h; exact key g h1 hc (by rw [hr]; exact h)
    | some r => rw [hr] at h; exact key _ (h1.set (k := Hdr.id) r (by decide) (by decide)) hc (by rw [hr]; exact h)

theorem createUnsubscribe_wf {id : Bytes} {rt : Bool} {os : List SubOpt} {f : Frame}
    (h : createUnsubscribeFrame id rt os = some f) (hs : Spec.SubSound os) : Stomp.Spec.WellFormed f := by
  unfold createUnsubscribeFrame at h
  split at h
  · cases h
  · rename_i g hg
    have h0 : Bare (Frame.new Cmd.unsubscribe [(Hdr.id, id)]) := by
      refine ⟨rfl, ?_, ?_⟩
      · intro e he
        simp only [Frame.new, Header.add, List.foldl_cons, List.foldl_nil, List.nil_append, List.mem_cons, List.not_mem_nil, or_false] at he
        rcases he with rfl; exact (by decide : Hdr.id ≠ [])
      · simp only [Frame.new, List.foldl_cons, List.foldl_nil]
        rw [firstValue_add, firstValue_nil, if_neg (by decide)]; rfl
    obtain ⟨h1, h2⟩ := applyUnsubOpts_bare hg h0 hs
    have hc : g.command = Cmd.unsubscribe := h2
    injection h with h; subst h
    split
    · exact (h1.set _ (by decide) (by decide)).wf (by show g.command ∈ _; rw [hc]; decide)
    · exact h1.wf (by rw [hc]; decide)

/-- The frame of an unproblematic call is well-formed. -/
theorem frameOf_wf {s : Sys} {c : Call} {f : Frame} (h : Spec.FrameOf s c f) (hs : Spec.Sound c) : Stomp.Spec.WellFormed f := by
  cases c with
  | send d c b o => obtain ⟨_, _, h⟩ := h; exact createSend_wf h hs
  | frame g => obtain ⟨rfl, _⟩ := h; exact hs
  | subscribe d a o => obtain ⟨_, _, _, _, h⟩ := h; exact createSubscribe_wf h hs
  | unsubscribe i o => obtain ⟨_, _, h⟩ := h; exact createUnsubscribe_wf h hs
  | disconnect =>
    obtain ⟨last, rfl⟩ := h
    refine Bare.wf ⟨rfl, ?_, ?_⟩ (by show Cmd.disconnect ∈ _; decide)
    · intro e he
      simp only [Frame.new, Header.add, List.foldl_cons, List.foldl_nil, List.nil_append, List.mem_cons, List.not_mem_nil, or_false] at he
      rcases he with rfl; exact (by decide : Hdr.receipt ≠ [])
    · simp only [Frame.new, List.foldl_cons, List.foldl_nil]
      rw [firstValue_add, firstValue_nil, if_neg (by decide)]; rfl
  | mustDisconnect => exact h.elim

theorem wire_wf {f g : Frame} (h : Spec.wire f = some g) (hf : Stomp.Spec.WellFormed f) : Stomp.Spec.WellFormed g := by
  unfold Spec.wire at h
  split at h
  · cases h
  · split at h
    · injection h with h; subst h; exact wf_set hf _ (by decide) (by decide)
    · injection h with h; subst h; exact hf

/-- Every frame written was made by a call. -/
theorem written_call {cfg : Cfg} {n : Nat} {es : List Ev} {s : Sys} (h : (Sys.init n).run cfg es = some s) {g : Frame} (hg : some g ∈ Spec.stream s) :
    ∃ (t : Nat) (th : Thread) (r : Req), .accepted t r ∈ s.trace ∧ Spec.wire r.frame = some g ∧ s.threads[t]? = some th ∧ Spec.FrameOf s th.call r.frame ∧ .call th.call ∈ es := by
  obtain ⟨o, ho, hog⟩ := List.mem_filterMap.1 hg
  have hw : g ∈ Spec.written s := by
    cases o <;> simp only [Option.some.injEq, reduceCtorEq] at hog
    subst hog
    exact List.mem_filterMap.2 ⟨_, ho, rfl⟩
  obtain ⟨out, rest, h1, h2⟩ := C21_prefix h
  rw [h2] at hw
  obtain ⟨r, hr, hrg⟩ := List.mem_filterMap.1 hw
  have hr' : r ∈ Spec.handedOver s := by rw [h1]; exact List.mem_append_left _ hr
  obtain ⟨o, ho, hor⟩ := List.mem_filterMap.1 hr'
  cases o <;> simp only [Option.some.injEq, reduceCtorEq] at hor
  rename_i t r0
  subst hor
  obtain ⟨⟨th, ht, hf⟩, _⟩ := C21_frames h (t := t) (r := r0) (List.singleton_sublist.2 ho)
  exact ⟨t, th, r0, ho, hrg, ht, hf, calls_run (P := fun c => .call c ∈ es) (fun _ hc => hc) (by intro t th ht; simp [Sys.init] at ht) h t th ht⟩

/-- Everything written by unproblematic calls is well-formed. -/
theorem stream_wf {cfg : Cfg} {n : Nat} {es : List Ev} {s : Sys} (h : (Sys.init n).run cfg es = some s)
    (hs : ∀ c, .call c ∈ es → Spec.Sound c) : ∀ g, some g ∈ Spec.stream s → Stomp.Spec.WellFormed g := by
  intro g hg
  obtain ⟨t, th, r, _, hw, _, hf, hc⟩ := written_call h hg
  exact wire_wf hw (frameOf_wf hf (hs _ hc))

/-- **C55** (part). Whatever calls a program makes, from any goroutines and in any interleaving, if their arguments are unproblematic (`Spec.Sound`), the peer that reads what the
client has written gets exactly the frames and heart-beats the client wrote, in order, and then the end of the stream. Missing: calls with problematic arguments, which
the library accepts (`C55_false_injection`, `C55_false_swallowed`). -/
theorem C55_readable_partial {cfg : Cfg} {n : Nat} {es : List Ev} {s : Sys} (h : (Sys.init n).run cfg es = some s)
    (hs : ∀ c, .call c ∈ es → Spec.Sound c) : readAll (writeAll (Spec.stream s)) = (Spec.stream s, .eof) :=
  C02_stream _ (stream_wf h hs)

/-- **C55.** The frames that `Ack`, `Nack`, `Begin` and the methods of a transaction hand over are well-formed, whatever the message and its headers are;
for `Send` in a transaction if its arguments are unproblematic. -/
theorem C55_api (version : Bytes) (last : Nat) (tx : Tx) (call : TxCall) (ok : Bool) (f : Frame)
    (hs : ∀ d c b o, call = .send d c b o → Spec.SendSound b o) :
    ((txStep version last tx call ok).2.2.1 = some f → Spec.Sound (.frame f)) ∧
    (∀ m a, createAckNackFrame version m a = .ok (some f) → Spec.Sound (.frame f)) ∧ Spec.Sound (.frame (txBegin last).2.2) := by
  have ack : ∀ m a (f : Frame), createAckNackFrame version m a = .ok (some f) → Stomp.Spec.WellFormed f := by
    intro m a f h
    unfold createAckNackFrame at h
    have b0 : Bare (Frame.new (if a then Cmd.ack else Cmd.nack) []) :=
      ⟨rfl, by simp [Frame.new], rfl⟩
    have c0 : (Frame.new (if a then Cmd.ack else Cmd.nack) []).command ∈ Stomp.Spec.commands := by
      show (if a then Cmd.ack else Cmd.nack) ∈ _
      cases a <;> decide
    split at h
    · cases h
    · split at h
      · split at h
        · split at h <;> cases h
        · dsimp only at h
          split at h
          · split at h
            · injection h with h; injection h with h; subst h
              exact ((b0.add _ (by decide) (by decide)).add _ (by decide) (by decide)).wf c0
            · cases h
          · split at h
            · split at h
              · injection h with h; injection h with h; subst h
                exact (b0.add _ (by decide) (by decide)).wf c0
              · cases h
            · injection h with h; injection h with h; subst h
              exact b0.wf c0
      · cases h
  have one : ∀ (cmd id : Bytes), cmd ∈ Stomp.Spec.commands → Bare (Frame.new cmd [(Hdr.transaction, id)]) := by
    intro cmd id _
    refine ⟨rfl, ?_, ?_⟩
    · intro e he
      simp only [Frame.new, Header.add, List.foldl_cons, List.foldl_nil, List.nil_append, List.mem_cons, List.not_mem_nil, or_false] at he
      rcases he with rfl; exact (by decide : Hdr.transaction ≠ [])
    · simp only [Frame.new, List.foldl_cons, List.foldl_nil]
      rw [firstValue_add, firstValue_nil, if_neg (by decide)]; rfl
  refine ⟨fun h => ?_, fun m a h => ack m a f h, (one _ _ (by decide)).wf (by show Cmd.begin_ ∈ _; decide)⟩
  show Stomp.Spec.WellFormed f
  have ending : ∀ (cmd : Bytes) (r : Bool), cmd ∈ Stomp.Spec.commands →
      f = (if r then (let (l, id) := allocateId last; (l, { Frame.new cmd [(Hdr.transaction, tx.id)] with header := (Frame.new cmd [(Hdr.transaction, tx.id)]).header.set Hdr.receipt id }))
        else (last, Frame.new cmd [(Hdr.transaction, tx.id)])).2 → Stomp.Spec.WellFormed f := by
    intro cmd r hc hf
    cases r with
    | false => rw [hf]; exact (one cmd _ hc).wf hc
    | true => rw [hf]; exact ((one cmd _ hc).set _ (by decide) (by decide)).wf hc
  cases call with
  | abort r =>
    simp only [txStep] at h
    split at h
    · cases h
    · refine ending Cmd.abort r (by decide) ?_
      cases ok <;> (injection h with h; exact h.symm)
  | commit r =>
    simp only [txStep] at h
    split at h
    · cases h
    · refine ending Cmd.commit r (by decide) ?_
      cases ok <;> (injection h with h; exact h.symm)
  | send d c b o =>
    simp only [txStep] at h
    split at h
    · cases h
    · split at h
      · cases h
      · rename_i hcs
        injection h with h; subst h
        exact wf_set (createSend_wf hcs (hs _ _ _ _ rfl)) _ (by decide) (by decide)
  | ack m =>
    simp only [txStep] at h
    split at h
    · cases h
    · split at h
      · cases h
      · cases h
      · rename_i hcs
        injection h with h; subst h
        exact wf_set (ack _ _ _ hcs) _ (by decide) (by decide)
  | nack m =>
    simp only [txStep] at h
    split at h
    · cases h
    · split at h
      · cases h
      · cases h
      · rename_i hcs
        injection h with h; subst h
        exact wf_set (ack _ _ _ hcs) _ (by decide) (by decide)

namespace Ex

/-- A body that a program passes on, with `NoContentLength`. -/
def evil : Bytes := b!"x" ++ [0] ++ b!"SEND\ndestination:/queue/admin\n\nboo"

def injection : List Ev := [.call (.send b!"/queue/a" [] evil [.noContentLength]), .thread 0, .thread 0, .loopWrite true []]

def swallow : List Ev :=
  [.call (.subscribe b!"/queue/a" .auto [.header b!"content-length" b!"46"]), .call (.send b!"/queue/b" [] b!"x" []),
   .thread 0, .thread 0, .loopWrite true [], .thread 1, .thread 1, .loopWrite true []]

end Ex

/-- **C55** fails: with `NoContentLength` a NUL in the body ends the frame, and the rest of the body is read as further frames: the program sent one message, the peer reads two,
the second for another destination. -/
theorem C55_false_injection : ∃ s, (Sys.init 0).run Ex.cfg Ex.injection = some s ∧
    Spec.stream s = [some ⟨b!"SEND", [(b!"destination", b!"/queue/a")], Ex.evil⟩] ∧
    readAll (writeAll (Spec.stream s)) = ([some ⟨b!"SEND", [(b!"destination", b!"/queue/a")], b!"x"⟩, some ⟨b!"SEND", [(b!"destination", b!"/queue/admin")], b!"boo"⟩], .eof) :=
  ⟨((Sys.init 0).run Ex.cfg Ex.injection).getD (Sys.init 0), by decide +kernel, by decide +kernel, by decide +kernel⟩

/-- **C55** fails: a content-length header on a SUBSCRIBE (which has no body) makes the peer read the next frame as its body. -/
theorem C55_false_swallowed : ∃ s, (Sys.init 0).run Ex.cfg Ex.swallow = some s ∧ (Spec.stream s).length = 2 ∧
    (readAll (writeAll (Spec.stream s))).2 = .eof ∧ (readAll (writeAll (Spec.stream s))).1.map (fun x => x.map fun f => f.command) = [some b!"SUBSCRIBE"] :=
  ⟨((Sys.init 0).run Ex.cfg Ex.swallow).getD (Sys.init 0), by decide +kernel, by decide +kernel, by decide +kernel, by decide +kernel⟩

-- C55: five calls with unproblematic arguments and a heart-beat.
example : ∀ c, .call c ∈ Ex.five → Spec.Sound c := by
  intro c hc
  simp only [Ex.five, List.mem_cons, Ev.call.injEq, List.not_mem_nil, or_false, reduceCtorEq, false_or] at hc
  rcases hc with rfl | rfl | rfl | rfl | rfl
  · exact ⟨by simp, by decide, by simp⟩
  · intro k v hv
    simp only [List.mem_cons, List.not_mem_nil, or_false, SubOpt.header.injEq] at hv
    rw [hv.1]; decide
  · intro k v hv
    simp only [List.mem_cons, List.not_mem_nil, or_false, SubOpt.header.injEq] at hv
    rw [hv.1]; decide
  · exact ⟨by simp, by decide, by simp⟩
  · intro k v hv
    simp at hv
example : Spec.stream Ex.endFive = (((Spec.written Ex.endFive).take 1).map some ++ [none] ++ ((Spec.written Ex.endFive).drop 1).map some) := by decide +kernel

end Stomp.Client

import Verif.Proofs.Client.Reads
import Verif.Props.Client.Order
/-!
# C22: a nil result from a receipted call means that the RECEIPT arrived

and what the requests are that C21 is about.
-/
namespace Stomp.Client
open Stomp

namespace Spec

/-- The entries `l` are in the log, in this order. -/
def Logged (s : Sys) (l : List Obs) : Prop := l.Sublist s.trace

instance (s : Sys) (l : List Obs) : Decidable (Logged s l) := by unfold Logged; infer_instance

/-- `g` is a RECEIPT with receipt-id `k`. -/
def ReceiptFor (g : Frame) (k : Bytes) : Prop := g.command = Cmd.receipt ∧ g.header.contains Hdr.receiptId = some k

instance (g : Frame) (k : Bytes) : Decidable (ReceiptFor g k) := by unfold ReceiptFor; infer_instance

/-- Calls that report the outcome of the one request they make: `Send`, `Disconnect`, and `Ack`, `Nack` and the
transaction methods, which go through `sendFrame`. -/
def Reports : Call → Prop
  | .send .. | .frame _ | .disconnect => True
  | _ => False

end Spec

theorem waits_of_reports {c : Call} (h : Spec.Reports c) : c.waits = true := by
  cases c <;> first | rfl | exact h.elim

/-- **C21**, what is accepted: every request accepted by the writer comes from a call that was made, its frame is
one that this call makes, and no call has two requests accepted. -/
theorem C21_frames {cfg : Cfg} {n : Nat} {es : List Ev} {s : Sys} (h : (Sys.init n).run cfg es = some s)
    {t : Nat} {r : Req} (hm : Spec.Logged s [.accepted t r]) :
    (∃ th, s.threads[t]? = some th ∧ Spec.FrameOf s th.call r.frame) ∧
    (∀ r', ¬ Spec.Logged s [.accepted t r, .accepted t r']) := by
  have ho := (all_run h).origin
  have hm' : (t, r) ∈ acceptedIn s.trace := List.mem_filterMap.2 ⟨_, List.singleton_sublist.1 hm, rfl⟩
  constructor
  · obtain ⟨th, ht, hr⟩ := ho.acc t r hm'
    refine ⟨th, ht, ?_⟩
    by_cases hs : ∃ d a o, th.call = .subscribe d a o
    · obtain ⟨d, a, o, hs⟩ := hs
      rw [hs] at hr ⊢
      obtain ⟨n, i, last, last', b, c, _, _, _, _, _, hf⟩ := hr
      exact ⟨last, last', _, _, hf⟩
    · exact ((reqOf_caller (fun d a o hc => hs ⟨d, a, o, hc⟩)).1 hr).1
  · intro r' hl
    have h2 : (acceptedIn [.accepted t r, .accepted t r']).Sublist (acceptedIn s.trace) := by
      unfold acceptedIn; exact hl.filterMap _
    replace h2 : [(t, r), (t, r')].Sublist (acceptedIn s.trace) := h2
    have h3 := ho.nodup.sublist (h2.map Prod.fst)
    simp at h3

/-- **C22.** If a call that reports the outcome of its request returned nil, then its request was accepted by the
writer, and if the request asked for a receipt, then: the request was written, `processLoop` then took from
`readCh` a RECEIPT with exactly this id, which had been read from the network, and then the call returned.
(A `Disconnect` of a connection that is closed already returns nil without a request.)

`_partial`: that the RECEIPT was *read* only after the request was *written* depends on the server, see
`C22_honest_partial` and `C22_false`. -/
theorem C22_receipt_partial {cfg : Cfg} {n : Nat} {es : List Ev} {s : Sys} (h : (Sys.init n).run cfg es = some s)
    {t : Nat} {call : Call} (hret : Spec.Returned s t call .ok) (hcall : Spec.Reports call) :
    (∃ r, Spec.Logged s [.accepted t r] ∧ Spec.FrameOf s call r.frame ∧
      ∀ k, r.frame.header.contains Hdr.receipt = some k → ∃ g, Spec.ReceiptFor g k ∧
        Spec.Logged s [.accepted t r, .sent r.frame, .took (some g), .ret t .ok] ∧
        Spec.Logged s [.read (some g), .took (some g)]) ∨
    (call = .disconnect ∧ s.closed = true ∧ ∀ r, ¬ Spec.Logged s [.accepted t r]) := by
  obtain ⟨th, ht, rfl, hpc⟩ := hret
  have hi := all_run h
  have hw := waits_of_reports hcall
  rcases hi.done t th .ok ht hw hpc (.inl rfl) with ⟨r, hm, hr⟩ | hd
  · refine .inl ⟨r, List.singleton_sublist.2 (mem_acceptedIn hm), ?_, ?_⟩
    · obtain ⟨th', ht', hq⟩ := hi.origin.acc t r hm
      rw [ht] at ht'
      cases ht'
      refine ((reqOf_caller ?_).1 hq).1
      intro d a o hc
      rw [hc] at hw
      cases hw
    · intro k hk
      obtain ⟨g, h1, h2, h3⟩ := hr k hk
      refine ⟨g, ⟨h1, h2⟩, h3, ?_⟩
      obtain ⟨p, q, e, _, _⟩ := sublist_split (l := [Obs.accepted t r, Obs.sent r.frame]) (x := .took (some g)) (r := [.ret t .ok]) h3
      show List.Sublist _ s.trace
      rw [e]
      exact List.Sublist.append (l₁ := [Obs.read (some g)]) (List.singleton_sublist.2 (took_read (read_run h) e))
        (List.singleton_sublist.2 (List.mem_cons_self ..))
  · refine .inr ⟨hd.1, hd.2.1, fun r hl => hd.2.2 r ?_⟩
    exact List.mem_filterMap.2 ⟨_, List.singleton_sublist.1 hl, rfl⟩

/-- **C22** for a server that sends no RECEIPT with this id before it got the request: the RECEIPT was read after
the request had been written.

`_partial`: the hypothesis on the server. -/
theorem C22_honest_partial {cfg : Cfg} {n : Nat} {es : List Ev} {s : Sys} (h : (Sys.init n).run cfg es = some s)
    {t : Nat} {call : Call} (hret : Spec.Returned s t call .ok) (hcall : Spec.Reports call)
    {r : Req} {k : Bytes} (hm : Spec.Logged s [.accepted t r]) (hk : r.frame.header.contains Hdr.receipt = some k)
    (hserver : ∀ p q g, s.trace = p ++ .read (some g) :: q → Spec.ReceiptFor g k → .sent r.frame ∈ p) :
    ∃ g, Spec.ReceiptFor g k ∧ Spec.Logged s [.sent r.frame, .read (some g), .took (some g), .ret t .ok] := by
  have hm' : (t, r) ∈ acceptedIn s.trace := List.mem_filterMap.2 ⟨_, List.singleton_sublist.1 hm, rfl⟩
  have hi := all_run h
  obtain ⟨th, ht, rfl, hpc⟩ := hret
  have hw := waits_of_reports hcall
  have key : ∃ g : Frame, g.command = Cmd.receipt ∧ g.header.contains Hdr.receiptId = some k ∧
      [Obs.accepted t r, .sent r.frame, .took (some g), .ret t .ok].Sublist s.trace := by
    rcases hi.done t th .ok ht hw hpc (.inl rfl) with ⟨r', hm2, hr⟩ | ⟨_, _, hc⟩
    · rw [hi.origin.one hm2 hm'] at hr
      exact hr k hk
    · exact absurd hm' (hc r)
  obtain ⟨g, h1, h2, h3⟩ := key
  refine ⟨g, ⟨h1, h2⟩, ?_⟩
  obtain ⟨p, q, e, _, hq⟩ := sublist_split (l := [Obs.accepted t r, Obs.sent r.frame]) (x := .took (some g)) (r := [.ret t .ok]) h3
  obtain ⟨u, v, e2⟩ := List.append_of_mem (took_read (read_run h) e)
  subst e2
  have h4 := hserver u (v ++ .took (some g) :: q) g (by rw [e]; simp) ⟨h1, h2⟩
  show List.Sublist _ s.trace
  rw [e, List.append_assoc]
  refine List.Sublist.append (l₁ := [Obs.sent r.frame]) (List.singleton_sublist.2 h4) ?_
  refine List.Sublist.cons_cons _ ?_
  exact (List.Sublist.cons_cons (Obs.took (some g)) hq).trans (List.sublist_append_right _ _)

/-! ## A server that confirms too early -/

namespace Ex

def receipted : Call := .send b!"/q" [] b!"x" [.receipt]

/-- A RECEIPT with id 1 is read before `Send` is even called. -/
def early : List Ev :=
  [.net (some (receiptFrame b!"1")), .call receipted, .thread 0, .thread 0, .loopWrite true [], .loopRead [], .deliver true]

def endEarly : Sys := ((Sys.init 0).run cfg early).getD (Sys.init 0)
theorem early_run : (Sys.init 0).run cfg early = some endEarly := by decide +kernel

/-- The same with the RECEIPT in time, with a RECEIPT for somebody else and a repeated one. -/
def inTime : List Ev :=
  [.net (some (receiptFrame b!"9")), .call receipted, .thread 0, .thread 0, .loopWrite true [],
   .net (some (receiptFrame b!"1")), .net (some (receiptFrame b!"1")), .loopRead [], .loopRead [], .deliver true,
   .loopRead []]

def endInTime : Sys := ((Sys.init 0).run cfg inTime).getD (Sys.init 0)
theorem inTime_run : (Sys.init 0).run cfg inTime = some endInTime := by decide +kernel

/-- The frame of the `Send`. -/
def receiptedFrame : Frame := ((createSendFrame 0 b!"/q" [] b!"x" [.receipt]).map (·.2)).getD (Frame.new [] [])

end Ex

/-- **C22, in full, is false** of a server that sends RECEIPTs in advance: `Send` returns nil, although no RECEIPT
was read after its request was written. -/
theorem C22_false : ∃ s es r, (Sys.init 0).run Ex.cfg es = some s ∧ Spec.Returned s 0 Ex.receipted .ok ∧
    Spec.Logged s [.accepted 0 r] ∧ r.frame.header.contains Hdr.receipt = some b!"1" ∧
    ¬ ∃ g, Spec.ReceiptFor g b!"1" ∧ Spec.Logged s [.sent r.frame, .read (some g)] := by
  refine ⟨Ex.endEarly, Ex.early, ⟨Ex.receiptedFrame, some 0⟩, Ex.early_run,
    ⟨⟨Ex.receipted, .ret .ok, .none⟩, by decide +kernel, rfl, rfl⟩, by decide +kernel, by decide +kernel, ?_⟩
  rintro ⟨g, _, hl⟩
  obtain ⟨p, q, e, _, h2⟩ := sublist_split (l := []) (x := Obs.sent Ex.receiptedFrame) (r := [Obs.read (some g)]) hl
  have h3 : (Ex.endEarly.trace.dropWhile (fun o => !(match o with | .sent _ => true | _ => false))).all
      (fun o => match o with | .read _ => false | _ => true) = true := by decide +kernel
  have h4 : ∀ (p : List Obs), (Obs.read (some g)) ∈ q →
      (((p ++ Obs.sent Ex.receiptedFrame :: q).dropWhile (fun o => !(match o with | .sent _ => true | _ => false))).all
      (fun o => match o with | .read _ => false | _ => true)) = false := by
    intro p hm
    induction p with
    | nil =>
      simp only [List.nil_append]
      rw [List.dropWhile_cons_of_neg (by simp)]
      rw [List.all_eq_false]
      exact ⟨_, List.mem_cons_of_mem _ hm, by simp⟩
    | cons a p ih =>
      rw [List.cons_append]
      by_cases ha : (match a with | .sent _ => true | _ => false) = true
      · rw [List.dropWhile_cons_of_neg (by simpa using ha), List.all_eq_false]
        exact ⟨_, List.mem_cons_of_mem _ (List.mem_append_right _ (List.mem_cons_of_mem _ hm)), by simp⟩
      · rw [List.dropWhile_cons_of_pos (by simpa using ha)]
        exact ih
  have h5 := h4 p (List.singleton_sublist.1 h2)
  rw [e, h5] at h3
  cases h3

/-! ## Examples -/

example : Spec.Returned Ex.endInTime 0 Ex.receipted .ok ∧ Spec.Reports Ex.receipted :=
  ⟨⟨⟨Ex.receipted, .ret .ok, .none⟩, by decide +kernel, rfl, rfl⟩, trivial⟩
example : Spec.Logged Ex.endInTime [.accepted 0 ⟨Ex.receiptedFrame, some 0⟩, .sent Ex.receiptedFrame,
    .read (some (Ex.receiptFrame b!"1")), .took (some (Ex.receiptFrame b!"1")), .ret 0 .ok] := by decide +kernel
-- The hypothesis of `C22_honest_partial` about the server holds of this run.
example : ∀ p q g, Ex.endInTime.trace = p ++ .read (some g) :: q → Spec.ReceiptFor g b!"1" →
    .sent Ex.receiptedFrame ∈ p := by
  intro p q g e hg
  have h : ∀ i < Ex.endInTime.trace.length, ∀ g, Ex.endInTime.trace[i]? = some (.read (some g)) →
      g.header.contains Hdr.receiptId = some b!"1" → .sent Ex.receiptedFrame ∈ Ex.endInTime.trace.take i := by
    intro i hi g hg h1
    have hall : (List.range Ex.endInTime.trace.length).all (fun i => match Ex.endInTime.trace[i]? with
      | some (.read (some g)) => !decide (g.header.contains Hdr.receiptId = some b!"1") ||
          (Ex.endInTime.trace.take i).contains (.sent Ex.receiptedFrame)
      | _ => true) = true := by decide +kernel
    have := List.all_eq_true.1 hall i (List.mem_range.2 hi)
    simp only [hg, h1, decide_true, Bool.not_true, Bool.false_or] at this
    simpa using this
  have h1 := h p.length (by rw [e]; simp) g (by rw [e]; simp) hg.2
  rw [e] at h1
  simpa using h1
-- A call without a receipt, of which the theorem says that its request was accepted.
example : Spec.Returned Ex.endFive 3 (.send b!"/q" [] b!"y" []) .ok :=
  ⟨⟨.send b!"/q" [] b!"y" [], .ret .ok, .none⟩, by decide +kernel, rfl, rfl⟩

end Stomp.Client

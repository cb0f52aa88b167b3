import Verif.Props.Interop
import Verif.Props.Server.Basics
/-! # C51: the handshake between the library's client and the library's server -/
namespace Stomp
open Stomp.Client Stomp.Server

/-! ## What the option list asks for -/

/-- The accepted versions: those listed, or all. -/
def offered (opts : List ConnOpt) : List Bytes :=
  if opts.flatMap selVersions = [] then [b!"1.0", b!"1.1", b!"1.2"] else opts.flatMap selVersions

/-- The custom header entry with a name. -/
def customHeader (opts : List ConnOpt) (k : Bytes) : Option Bytes := Spec.firstValue (opts.filterMap selHeader) k

/-- Login and passcode: those of the last `Login` option, or if both are empty those of custom header entries. -/
def credentials (opts : List ConnOpt) : Bytes × Bytes :=
  let l := (lastOf selLogin opts).getD ([], [])
  if l.1 ≠ [] ∨ l.2 ≠ [] then l
  else ((customHeader opts b!"login").getD [], (customHeader opts b!"passcode").getD [])

/-- The heart-beat intervals (nanoseconds) of the last `HeartBeat` option. -/
def intervals (opts : List ConnOpt) : Int × Int := (lastOf selHeartBeat opts).getD (60000000000, 60000000000)

/-- An interval the server can read: no negative number of milliseconds, and at most nine digits of them. -/
def readable (d : Int) : Prop := -1000000 < d ∧ d < 10 ^ 15

instance (d : Int) : Decidable (readable d) := by unfold readable; infer_instance

/-- Why the server refuses, if it does. -/
def refusal (auth : Bytes → Bytes → Bool) (opts : List ConnOpt) : Option Bytes :=
  if (customHeader opts b!"receipt").isSome then some b!"receipt header prohibited in CONNECT or STOMP frame"
  else if auth (credentials opts).1 (credentials opts).2 = false then some b!"authentication failed"
  else if b!"1.1" ∉ offered opts ∧ b!"1.2" ∉ offered opts then some b!"unsupported version"
  else if ¬(readable (intervals opts).1 ∧ readable (intervals opts).2) then some b!"invalid format for heart-beat"
  else none

/-! ## Lemmas -/

theorem splitOn_join (l : List Bytes) (hne : l ≠ []) (h : ∀ p ∈ l, (44 : UInt8) ∉ p) : splitOn 44 (joinWith 44 l) = l := by
  induction l with
  | nil => exact absurd rfl hne
  | cons p l ih =>
    cases l with
    | nil => exact splitOn_plain 44 p (h p (by simp))
    | cons q l =>
      rw [joinWith, splitOn_append 44 p _ (h p (by simp)), ih (by simp) (fun r hr => h r (by simp [hr]))]

theorem fmtAux_length (fuel n k : Nat) (h : n < 10 ^ (k + 1)) : (fmtAux fuel n).length ≤ k + 1 := by
  induction fuel generalizing n k with
  | zero => simp [fmtAux]
  | succ fuel ih =>
    unfold fmtAux
    split
    · simp
    · rename_i hn
      cases k with
      | zero => omega
      | succ k =>
        have := ih (n / 10) k (by rw [Nat.pow_succ] at h; omega)
        simp only [List.length_append, List.length_singleton]
        omega

theorem fmtUint_length (n : Nat) (h : n < 10 ^ 9) : (fmtUint n).length ≤ 9 := fmtAux_length _ n 8 h

theorem getHeartBeat_error (f : Frame) (hc : f.command = b!"CONNECT" ∨ f.command = b!"STOMP") (e : HbErr)
    (h : getHeartBeat f = .error e) : e = .invalidHeartBeat := by
  unfold getHeartBeat at h
  have hcmd : ¬ (f.command ≠ Cmd.connect ∧ f.command ≠ Cmd.stomp ∧ f.command ≠ Cmd.connected) := by
    rcases hc with h | h <;> rw [h] <;> decide
  rw [if_neg hcmd] at h
  split at h
  · cases h
  · split at h
    · injection h with h; exact h.symm
    · split at h <;> cases h

/-- The header of the client's frame is read as numbers exactly when both intervals are readable. -/
theorem getHeartBeat_options (f : Frame) (hc : f.command = b!"CONNECT" ∨ f.command = b!"STOMP") (s r : Int)
    (hhb : Spec.firstValue f.header b!"heart-beat" = some (fmtInt (Int.tdiv s 1000000) ++ b!"," ++ fmtInt (Int.tdiv r 1000000))) :
    (readable s ∧ readable r → ∃ cx cy, getHeartBeat f = .ok (cx, cy) ∧ cx < 10 ^ 9 ∧ cy < 10 ^ 9) ∧
    (¬(readable s ∧ readable r) → getHeartBeat f = .error .invalidHeartBeat) := by
  have htd : ∀ d : Int, readable d ↔ ∃ n : Nat, Int.tdiv d 1000000 = n ∧ n < 10 ^ 9 := by
    intro d
    have ht : Int.tdiv d 1000000 = if 0 ≤ d then d / 1000000 else -((-d) / 1000000) := by
      split
      · rename_i h; exact Int.tdiv_eq_ediv_of_nonneg h
      · rename_i h
        have := Int.neg_tdiv (-d) 1000000
        rw [Int.neg_neg] at this
        rw [this, Int.tdiv_eq_ediv_of_nonneg (by omega)]
    unfold readable
    constructor
    · rintro ⟨h1, h2⟩
      refine ⟨(Int.tdiv d 1000000).toNat, ?_, ?_⟩ <;> split at ht <;> omega
    · rintro ⟨n, h1, h2⟩
      split at ht <;> omega
  constructor
  · rintro ⟨hs, hr⟩
    obtain ⟨n, n1, n2⟩ := (htd s).1 hs
    obtain ⟨m, m1, m2⟩ := (htd r).1 hr
    refine ⟨n, m, (C10_server_parse f hc n m).2 (Or.inr ⟨fmtUint n, fmtUint m, ?_, fmtUint_numeral _, fmtUint_numeral _,
      fmtUint_length n n2, fmtUint_length m m2⟩), n2, m2⟩
    rw [hhb, n1, m1]; rfl
  · intro hn
    cases hg : getHeartBeat f with
    | error e => rw [getHeartBeat_error f hc e hg]
    | ok p =>
      exfalso
      obtain ⟨cx, cy⟩ := p
      rcases (C10_server_parse f hc cx cy).1 hg with ⟨h0, _⟩ | ⟨a, b, h0, na, nb, la, lb⟩
      · rw [hhb] at h0; cases h0
      · rw [hhb] at h0
        simp only [Option.some.injEq, List.append_assoc, List.cons_append, List.nil_append] at h0
        obtain ⟨e1, e2⟩ := comma_split h0 (comma_not_fmtInt _) (comma_not_digits a na.2.1)
        exact hn ⟨(htd s).2 ⟨cx, fmtInt_numeral e1 na, numeral_lt na la⟩, (htd r).2 ⟨cy, fmtInt_numeral e2 nb, numeral_lt nb lb⟩⟩

/-- The ERROR frame of a refused handshake: its message, and the receipt id if the client asked for a receipt. -/
def refusedFrame (msg : Bytes) (receipt : Option Bytes) : Frame :=
  ⟨b!"ERROR", (b!"message", msg) :: (match receipt with | some r => [(b!"receipt-id", r)] | none => []), []⟩

theorem refusedFrame_wf (msg : Bytes) (r : Option Bytes) : Spec.WellFormed (refusedFrame msg r) := by
  refine ⟨?_, ?_, ?_⟩
  · show b!"ERROR" ∈ Spec.commands
    decide
  · intro e he
    cases r <;> simp only [refusedFrame, List.mem_cons, List.not_mem_nil, or_false] at he
    · subst he; simp
    · rcases he with rfl | rfl <;> simp
  · unfold Spec.BodyOk
    have : Spec.firstValue (refusedFrame msg r).header b!"content-length" = none := by
      cases r <;> simp [refusedFrame, firstValue_cons, firstValue_nil]
    rw [this]
    simp [refusedFrame]

theorem process_err (cfg : Config) (f : Frame) (me : Nat) (e : Err) (hc : f.command = b!"CONNECT" ∨ f.command = b!"STOMP")
    (h : ∀ c : Conn, ∃ v, c.handleConnect cfg true f = ({ c with version := v }, f, .err e)) :
    ∃ v, (Conn.init me).processFrame cfg true true f =
        { Conn.init me with hist := [f], version := v, out := [⟨some (refusedFrame (e.text cfg) (f.header.contains Hdr.receipt)), none⟩],
                            stage := .discard1 } := by
  obtain ⟨v, hv⟩ := h { Conn.init me with hist := (Conn.init me).hist ++ [f] }
  refine ⟨v, ?_⟩
  unfold Conn.processFrame Conn.stateFunc
  rw [if_pos (by rfl)]
  unfold Conn.connecting
  rw [if_pos (show f.command = Cmd.connect ∨ f.command = Cmd.stomp from hc), hv]
  simp only [Conn.sendError]
  cases f.header.contains Hdr.receipt <;> rfl

/-- The server's reaction to the frame of a client with these options. -/
theorem server_reaction (cfg : Config) (opts : List ConnOpt) (remote : Option Bytes) (f : Frame) (me : Nat)
    (hf : (connect opts remote true []).1 = some f) :
    match refusal cfg.auth opts with
    | some msg => ∃ v, (Conn.init me).processFrame cfg true true f =
        { Conn.init me with hist := [f], version := v, out := [⟨some (refusedFrame msg (customHeader opts b!"receipt")), none⟩],
                            stage := .discard1 }
    | none => ∃ cx cy v, v = (if b!"1.2" ∈ offered opts then b!"1.2" else b!"1.1") ∧ cx < 10 ^ 9 ∧ cy < 10 ^ 9 ∧
        (Conn.init me).processFrame cfg true true f =
        { Conn.init me with hist := [f], version := v, out := [⟨some (connectedFrame v cx cy), none⟩], writeTimeout := cy,
                            connected := true, outbox := [.req (.connected me)], log := [.connected me] } := by
  have A := C14_frame opts remote true [] f hf
  simp only at A
  obtain ⟨host, -, -, -, -, hcmd, -, hh⟩ := A
  have hc : f.command = b!"CONNECT" ∨ f.command = b!"STOMP" := by rw [hcmd]; split <;> simp
  have hvs : ∀ v ∈ opts.flatMap selVersions, v ∈ [b!"1.0", b!"1.1", b!"1.2"] := by
    rw [← applyOpts_isSome opts {}]
    unfold connect newConnOptions at hf
    cases h : applyOpts {} opts with
    | none => rw [h] at hf; cases hf
    | some o => rfl
  have hov : ∀ v ∈ offered opts, v ∈ [b!"1.0", b!"1.1", b!"1.2"] := by
    intro v hv
    unfold offered at hv
    split at hv
    · exact hv
    · exact hvs v hv
  have hone : offered opts ≠ [] := by
    unfold offered
    split
    · simp
    · assumption
  have hrec : f.header.contains Hdr.receipt = customHeader opts b!"receipt" := by
    rw [contains_eq, hh]
    show Spec.firstValue _ b!"receipt" = _
    unfold customHeader
    split <;> simp [firstValue_cons]
  have hav : Spec.firstValue f.header b!"accept-version" = some (joinWith 44 (offered opts)) := by
    rw [hh]
    unfold offered
    split <;> split <;> simp [firstValue_cons]
  have hhb : Spec.firstValue f.header b!"heart-beat" =
      some (fmtInt (Int.tdiv (intervals opts).1 1000000) ++ b!"," ++ fmtInt (Int.tdiv (intervals opts).2 1000000)) := by
    rw [hh]
    unfold intervals
    simp [firstValue_cons]
  have hlog : f.header.get Hdr.login = (credentials opts).1 ∧ f.header.get Hdr.passcode = (credentials opts).2 := by
    rw [get_eq, get_eq, hh]
    show (Spec.firstValue _ b!"login").getD [] = _ ∧ (Spec.firstValue _ b!"passcode").getD [] = _
    unfold credentials customHeader
    simp only
    split <;> simp [firstValue_cons]
  have hsplit : splitOn 44 (joinWith 44 (offered opts)) = offered opts := by
    refine splitOn_join _ hone (fun p hp => ?_)
    have := hov p hp
    simp only [List.mem_cons, List.not_mem_nil, or_false] at this
    rcases this with rfl | rfl | rfl <;> decide
  have hdv := C31_highest f _ hc hav
  rw [hsplit] at hdv
  have hhigh : Spec.highest (offered opts) = if b!"1.2" ∈ offered opts then some b!"1.2"
      else if b!"1.1" ∈ offered opts then some b!"1.1" else some b!"1.0" := by
    unfold Spec.highest
    split
    · rfl
    · split
      · rfl
      · rename_i h2 h1
        rw [if_pos]
        cases ho : offered opts with
        | nil => exact absurd ho hone
        | cons a l =>
          have := hov a (by rw [ho]; simp)
          rw [ho] at h1 h2
          simp only [List.mem_cons, List.not_mem_nil, or_false] at this
          rcases this with rfl | rfl | rfl
          · simp
          · exact absurd (by simp) h1
          · exact absurd (by simp) h2
  rw [hhigh] at hdv
  have hgh := getHeartBeat_options f hc _ _ hhb
  have herr : ∀ e, (∀ c : Conn, ∃ v, c.handleConnect cfg true f = ({ c with version := v }, f, .err e)) →
      ∃ v, (Conn.init me).processFrame cfg true true f =
        { Conn.init me with hist := [f], version := v, out := [⟨some (refusedFrame (e.text cfg) (customHeader opts b!"receipt")), none⟩],
                            stage := .discard1 } := by
    intro e he
    rw [← hrec]
    exact process_err cfg f me e hc he
  unfold refusal
  cases hr : customHeader opts b!"receipt" with
  | some r =>
    rw [hr] at hrec herr
    refine herr .receiptInConnect (fun c => ⟨c.version, ?_⟩)
    unfold Conn.handleConnect
    rw [hrec]
  | none =>
    rw [hr] at hrec herr
    rw [if_neg (by simp)]
    cases ha : cfg.auth (credentials opts).1 (credentials opts).2 with
    | false =>
      rw [if_pos rfl]
      refine herr .authenticationFailed (fun c => ⟨c.version, ?_⟩)
      unfold Conn.handleConnect
      rw [hrec]
      simp only
      rw [hlog.1, hlog.2, ha, if_pos (by rfl)]
    | true =>
      rw [if_neg (by simp)]
      have hstep : ∀ c : Conn, c.handleConnect cfg true f = match determineVersion f with
          | .error e => (c, f, .err e)
          | .ok v =>
            let c := { c with version := v }
            if v = Client.V10 then (c, f, .err .unsupportedVersion)
            else
              match getHeartBeat f with
              | .error .invalidOperationForFrame => (c, f, .err .invalidOperationForFrame)
              | .error .invalidHeartBeat => (c, f, .err .invalidHeartBeat)
              | .ok (cx, cy) =>
                let min := asMilliseconds cfg.heartBeat maxHeartBeat
                let cx := Conn.raise cx min
                let cy := Conn.raise cy min
                let c := { c with writeTimeout := cy }
                let (c, _) := c.write true (some (connectedFrame v cx cy))
                (({ c with connected := true } : Conn).emit [.connected c.me], f, .ok) := by
        intro c
        unfold Conn.handleConnect
        rw [hrec]
        simp only
        rw [hlog.1, hlog.2, ha, if_neg (by simp)]
        rfl
      by_cases hv : b!"1.1" ∉ offered opts ∧ b!"1.2" ∉ offered opts
      · rw [if_neg hv.2, if_neg hv.1] at hdv
        rw [if_pos hv]
        refine herr .unsupportedVersion (fun c => ⟨b!"1.0", ?_⟩)
        rw [hstep, hdv]
        rfl
      · rw [if_neg hv]
        obtain ⟨v, hv1, hv2⟩ : ∃ v, v = (if b!"1.2" ∈ offered opts then b!"1.2" else b!"1.1") ∧ determineVersion f = .ok v := by
          refine ⟨_, rfl, ?_⟩
          rw [hdv]
          by_cases h2 : b!"1.2" ∈ offered opts
          · rw [if_pos h2, if_pos h2]
          · rw [if_neg h2, if_neg h2, if_pos (Classical.not_not.1 (fun h => hv ⟨h, h2⟩))]
        have hv10 : v ≠ Client.V10 := by rw [hv1]; split <;> decide
        by_cases hi : readable (intervals opts).1 ∧ readable (intervals opts).2
        · rw [if_neg (not_not_intro hi)]
          obtain ⟨cx, cy, h1, h2, h3⟩ := hgh.1 hi
          refine ⟨_, _, v, hv1, raise_lt cx cfg.heartBeat h2, raise_lt cy cfg.heartBeat h3, ?_⟩
          unfold Conn.processFrame Conn.stateFunc
          rw [if_pos (by rfl)]
          unfold Conn.connecting
          rw [if_pos (show f.command = Cmd.connect ∨ f.command = Cmd.stomp from hc), hstep, hv2]
          simp only [if_neg hv10, h1]
          rfl
        · rw [if_pos hi]
          refine herr .invalidHeartBeat (fun c => ⟨v, ?_⟩)
          rw [hstep, hv2]
          simp only [if_neg hv10, hgh.2 hi]

/-! ## C51 -/

/-- **C51.** A client of the library against a server of the library, over the wire. The server reads exactly the frame the
client meant and answers it with exactly one frame, and the client reads exactly that answer. If the options give no reason for
refusal (custom receipt header, wrong credentials, only 1.0 accepted, intervals that are negative or of ten digits or more) then
`Connect` succeeds and both sides have the same version: the greatest the application accepts. If there is a reason the server
answers with an ERROR frame with that reason and closes, and `Connect` returns that frame as its error. -/
theorem C51_handshake (cfg : Config) (opts : List ConnOpt) (remote : Option Bytes) (f : Frame) (me : Nat) (rest : Bytes)
    (hf : (connect opts remote true []).1 = some f)
    (hsafe : ∀ e ∈ opts.filterMap selHeader, e.1 ≠ [] ∧ e.1 ≠ b!"content-length") :
    ∃ c resp, readFrame (writeFrame (some f)) = .frame f [] ∧ (Conn.init me).processFrame cfg true true f = c ∧
      c.out = [⟨some resp, none⟩] ∧
      (refusal cfg.auth opts = none →
        ∃ info, (connect opts remote true (writeFrame (some resp) ++ rest)).2 = .ok info ∧
          info.version = (if b!"1.2" ∈ offered opts then b!"1.2" else b!"1.1") ∧ c.version = info.version ∧
          c.connected = true ∧ c.stage = .run) ∧
      (∀ msg, refusal cfg.auth opts = some msg →
        (connect opts remote true (writeFrame (some resp) ++ rest)).2 = .error (.notConnected resp) ∧
          resp.command = b!"ERROR" ∧ Spec.firstValue resp.header b!"message" = some msg ∧
          Spec.firstValue resp.header b!"receipt-id" = customHeader opts b!"receipt" ∧
          c.connected = false ∧ c.stage ≠ .run) := by
  have hw := C14_wire opts remote true [] f [] hf hsafe
  rw [List.append_nil] at hw
  have hcon : ∀ inp, ∃ o, (connect opts remote true inp).2 = handleResponse o (readFrame inp) := by
    intro inp
    unfold connect at hf ⊢
    cases ho : newConnOptions opts with
    | none => rw [ho] at hf; cases hf
    | some o => exact ⟨_, rfl⟩
  have R := server_reaction cfg opts remote f me hf
  cases hr : refusal cfg.auth opts with
  | some msg =>
    rw [hr] at R
    obtain ⟨v, hp⟩ := R
    refine ⟨_, refusedFrame msg (customHeader opts b!"receipt"), hw, hp, rfl, (by intro h; cases h), ?_⟩
    intro m hm
    injection hm with hm; subst hm
    obtain ⟨o, ho⟩ := hcon (writeFrame (some (refusedFrame msg (customHeader opts b!"receipt"))) ++ rest)
    refine ⟨?_, rfl, ?_, ?_, rfl, by simp⟩
    · rw [ho, readFrame_writeFrame _ _ (refusedFrame_wf _ _)]
      unfold handleResponse
      simp only
      rw [if_pos (by simp [refusedFrame, Cmd.connected])]
    · simp [refusedFrame, firstValue_cons]
    · unfold refusedFrame
      cases customHeader opts b!"receipt" <;> simp [firstValue_cons, firstValue_nil]
  | none =>
    rw [hr] at R
    obtain ⟨cx, cy, v, hv, hx, hy, hp⟩ := R
    refine ⟨_, connectedFrame v cx cy, hw, hp, rfl, ?_, (by intro m h; cases h)⟩
    intro _
    obtain ⟨o, ho⟩ := hcon (writeFrame (some (connectedFrame v cx cy)) ++ rest)
    obtain ⟨info, h1, h2, -, -⟩ := handleResponse_connected o v cx cy rest hx hy (by rw [hv]; split <;> decide)
    refine ⟨info, ?_, h2.trans hv, h2.symm, rfl, rfl⟩
    rw [ho, readFrame_writeFrame _ _ (connectedFrame_wf _ _ _)]
    exact h1

/-- **C51.** `Connect` to a server of the library succeeds exactly when there is no reason for refusal. -/
theorem C51_iff (cfg : Config) (opts : List ConnOpt) (remote : Option Bytes) (f resp : Frame) (me : Nat) (rest : Bytes)
    (hf : (connect opts remote true []).1 = some f)
    (hsafe : ∀ e ∈ opts.filterMap selHeader, e.1 ≠ [] ∧ e.1 ≠ b!"content-length")
    (hr : ((Conn.init me).processFrame cfg true true f).out = [⟨some resp, none⟩]) :
    (∃ info, (connect opts remote true (writeFrame (some resp) ++ rest)).2 = .ok info) ↔
      customHeader opts b!"receipt" = none ∧ cfg.auth (credentials opts).1 (credentials opts).2 = true ∧
      (b!"1.1" ∈ offered opts ∨ b!"1.2" ∈ offered opts) ∧ readable (intervals opts).1 ∧ readable (intervals opts).2 := by
  obtain ⟨c, resp', -, hp, ho, h1, h2⟩ := C51_handshake cfg opts remote f me rest hf hsafe
  have : resp' = resp := by
    rw [hp, ho] at hr
    simpa using hr
  subst this
  have key : (∃ info, (connect opts remote true (writeFrame (some resp') ++ rest)).2 = .ok info) ↔ refusal cfg.auth opts = none := by
    constructor
    · rintro ⟨info, hi⟩
      cases hm : refusal cfg.auth opts with
      | none => rfl
      | some msg => rw [(h2 msg hm).1] at hi; cases hi
    · intro h
      obtain ⟨info, hi, _⟩ := h1 h
      exact ⟨info, hi⟩
  rw [key]
  unfold refusal
  cases customHeader opts b!"receipt" with
  | some r => simp
  | none =>
    cases cfg.auth (credentials opts).1 (credentials opts).2 with
    | false => simp
    | true =>
      by_cases hv : b!"1.1" ∉ offered opts ∧ b!"1.2" ∉ offered opts
      · rw [if_neg (by simp), if_neg (by simp), if_pos hv]
        simp only [reduceCtorEq, true_and, false_iff]
        rintro ⟨h | h, _⟩
        · exact hv.1 h
        · exact hv.2 h
      · have hv' : b!"1.1" ∈ offered opts ∨ b!"1.2" ∈ offered opts := by
          by_cases h1 : b!"1.1" ∈ offered opts
          · exact Or.inl h1
          · exact Or.inr (Classical.not_not.1 (fun h => hv ⟨h1, h⟩))
        by_cases hi : readable (intervals opts).1 ∧ readable (intervals opts).2
        · simp [hv, hi, hv']
        · simp [hv, hi]

/-- A server that knows one user. -/
def oneUser : Config := ⟨fun l p => l == b!"bob" && p == b!"s:ecret\n", 60000000000, id⟩

-- Accepted, with all that may differ from the defaults.
example : refusal oneUser.auth [.login b!"bob" b!"s:ecret\n", .useStomp, .acceptVersion [b!"1.1", b!"1.0"],
      .heartBeat 500000 999999999999999, .header b!"client" b!"x\\y"] = none := by decide +kernel
-- Each reason for refusal.
example : refusal oneUser.auth [.login b!"bob" b!"s:ecret\n", .header b!"receipt" b!"1"] =
      some b!"receipt header prohibited in CONNECT or STOMP frame" ∧
    refusal oneUser.auth [.login b!"bob" []] = some b!"authentication failed" ∧
    refusal oneUser.auth [.login b!"bob" b!"s:ecret\n", .acceptVersion [b!"1.0"]] = some b!"unsupported version" ∧
    refusal oneUser.auth [.login b!"bob" b!"s:ecret\n", .heartBeat 0 1000000000000000] = some b!"invalid format for heart-beat" ∧
    refusal oneUser.auth [.header b!"login" b!"bob", .header b!"passcode" b!"s:ecret\n"] = none := by decide +kernel

end Stomp

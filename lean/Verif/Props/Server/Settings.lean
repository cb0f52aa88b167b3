import Verif.Proofs.Server.Timer
import Verif.Props.HeartBeat
import Verif.Props.Server.Session
/-! # C67: the settings of the server -/
namespace Stomp.Server
open Stomp

/-- The heart-beat intervals a client declares in its first frame: "cx,cy" in milliseconds, or none. -/
def Spec.Declares (f : Frame) (cx cy : Nat) : Prop :=
  (Spec.hdr f b!"heart-beat" = none ∧ cx = 0 ∧ cy = 0) ∨
  ∃ a b, Spec.hdr f b!"heart-beat" = some (a ++ b!"," ++ b) ∧ Stomp.Spec.Numeral a cx ∧ Stomp.Spec.Numeral b cy

/-- The shortest interval the server agrees to, in milliseconds, from the setting in nanoseconds: a minute if nothing is set. -/
def Spec.shortest (setting : Int) : Nat := if setting = 0 then 60000 else min (setting.toNat / 1000000) 999999999

/-- No heart-beats stay none; other intervals are made at least `m`. -/
def Spec.atLeast (m x : Nat) : Nat := if x = 0 then 0 else max x m

theorem raise_atLeast (setting : Int) (x : Nat) :
    Conn.raise x (asMilliseconds (configHeartBeat setting) maxHeartBeat) = Spec.atLeast (Spec.shortest setting) x := by
  unfold Conn.raise Spec.atLeast Spec.shortest configHeartBeat
  by_cases h0 : setting = 0
  · rw [if_pos h0, if_pos h0]
    rw [show asMilliseconds Client.minute maxHeartBeat = 60000 by decide]
    by_cases hx : x = 0
    · subst hx; rfl
    · rw [if_neg hx]
      split <;> omega
  · rw [if_neg h0, if_neg h0]
    have hm : asMilliseconds setting maxHeartBeat = if Int.tdiv setting 1000000 > 999999999 then 999999999 else Int.tdiv setting 1000000 := rfl
    rw [hm]
    by_cases hx : x = 0
    · subst hx; simp
    · rw [if_neg hx]
      rcases Int.le_total 0 setting with hs | hs
      · obtain ⟨n, rfl⟩ := Int.eq_ofNat_of_zero_le hs
        have : Int.tdiv (n : Int) 1000000 = ((n / 1000000 : Nat) : Int) := rfl
        rw [this]
        simp only [Int.toNat_natCast]
        repeat' split
        all_goals omega
      · have h1 : setting.toNat = 0 := Int.toNat_of_nonpos hs
        rw [h1]
        have h2 : Int.tdiv setting 1000000 ≤ 0 := by
          obtain ⟨n, rfl⟩ := Int.exists_eq_neg_ofNat hs
          rw [Int.neg_tdiv]
          have : Int.tdiv (n : Int) 1000000 = ((n / 1000000 : Nat) : Int) := rfl
          omega
        repeat' split
        all_goals omega

/-- **C67** (heart-beats). Whatever the settings of the server, in every execution of a connection: the intervals announced by the CONNECTED frame are those the client declared, the other way round, with
the non-zero ones raised to the setting; and to one minute if nothing is set. -/
theorem C67_intervals (o : Settings) (pe : Bytes → Bytes) (me : Nat) (es : List Conn.Ev) (c : Conn) (h : (Conn.init me).run (o.config pe) es = some c) (he : ∀ e ∈ es, EnvOk e)
    (a b : Nat) (ha : Spec.Announced c a b) :
    ∃ f rest cx cy, received es = f :: rest ∧ Spec.Declares f cx cy ∧ a = Spec.atLeast (Spec.shortest o.heartBeat) cy ∧ b = Spec.atLeast (Spec.shortest o.heartBeat) cx := by
  obtain ⟨h1, _, f, rest, cx, cy, h2, h3, h4, h5⟩ := announced_eq (told_conn he h) ha
  obtain ⟨f', rest', v, cx', cy', h6, h7, _⟩ := (gate_run _ me es c h).opened h1
  rw [h2] at h6
  injection h6 with h6 _
  subst h6
  refine ⟨f, rest ++ c.inq, cx, cy, by rw [received_eq h, h2]; rfl, ?_, by rw [h5]; exact raise_atLeast .., by rw [h4]; exact raise_atLeast ..⟩
  rcases (C10_server_parse f h7.command cx cy).1 h3 with h8 | ⟨u, w, h8, h9, h10, _⟩
  · exact .inl h8
  · exact .inr ⟨u, w, h8, h9, h10⟩

/-- **C67** (authentication). A connection is opened only if the authenticator accepts the login and passcode of the first frame (the empty string for one that is absent); without an authenticator every
acceptable first frame opens the connection, whatever its login and passcode. -/
theorem C67_authenticator (o : Settings) (pe : Bytes → Bytes) (me : Nat) (es : List Conn.Ev) (c : Conn) (h : (Conn.init me).run (o.config pe) es = some c) (f : Frame) (rest : List Frame)
    (hf : c.hist = f :: rest) :
    (∀ a, o.authenticator = some a → c.connected = true → a ((Spec.hdr f b!"login").getD []) ((Spec.hdr f b!"passcode").getD []) = true) ∧
    (o.authenticator = none → Spec.accepts (fun _ _ => true) f → c.connected = true) := by
  have hg := gate_run _ me es c h
  constructor
  · intro a ha hc
    obtain ⟨f', rest', v, cx, cy, h1, h2, _⟩ := hg.opened hc
    rw [hf] at h1
    injection h1 with h1 _
    subst h1
    have h3 := ((accepts_iff _ f).2 ⟨v, cx, cy, h2⟩).auth
    unfold Settings.config Settings.authenticate at h3
    simp only [ha] at h3
    exact h3
  · intro ha hacc
    have hacc' : Spec.accepts (o.config pe).auth f := by
      have : (o.config pe).auth = fun _ _ => true := by
        funext x y
        unfold Settings.config Settings.authenticate
        simp only [ha]
      rw [this]
      exact hacc
    cases hc : c.connected with
    | true => rfl
    | false =>
      obtain ⟨_, _, _, _, _, _, _, h8⟩ := hg.closed hc
      rcases h8 with h8 | ⟨⟨f', h8, h9⟩, _⟩
      · rw [hf] at h8; cases h8
      · rw [hf] at h8
        injection h8 with h8 _
        subst h8
        exact absurd ((accepts_iff _ f).1 hacc') h9

/-- A client that declares "100,90000" to a server with nothing set. -/
def defaultsRun : List Conn.Ev :=
  [.recv ⟨b!"CONNECT", [(b!"accept-version", b!"1.2"), (b!"heart-beat", b!"100,90000")], []⟩, .frame true true, .flushed]

-- C67_intervals: "90000,60000" is announced.
example : ∃ c, (Conn.init 0).run (({} : Settings).config id) defaultsRun = some c ∧ (∀ e ∈ defaultsRun, EnvOk e) ∧ Spec.Announced c 90000 60000 ∧ c.connected = true ∧
    Spec.shortest ({} : Settings).heartBeat = 60000 ∧ Spec.atLeast 60000 100 = 60000 ∧ Spec.atLeast 60000 90000 = 90000 := by
  refine ⟨((Conn.init 0).run (({} : Settings).config id) defaultsRun).getD (Conn.init 0), by rfl, ?_, ?_, by decide +kernel, rfl, rfl, rfl⟩
  · intro e he
    simp only [defaultsRun, List.mem_cons, List.not_mem_nil, or_false] at he
    rcases he with rfl | rfl | rfl <;> exact trivial
  · refine ⟨⟨some (connectedFrame b!"1.2" 60000 90000), none⟩, by decide +kernel, _, rfl, rfl, b!"90000", b!"60000", by decide +kernel, ?_, ?_⟩
    · exact ⟨by decide, by decide, by decide⟩
    · exact ⟨by decide, by decide, by decide⟩

-- C67_authenticator: refused by the authenticator, and accepted without one.
example : ((Conn.init 0).run (({ authenticator := some fun l _ => l == b!"me" } : Settings).config id) defaultsRun).map (fun c => (c.hist.length, c.connected)) = none ∧
    ((Conn.init 0).run (({ authenticator := some fun l _ => l == b!"me" } : Settings).config id) (defaultsRun.take 2)).map (fun c => (c.hist.length, c.connected)) = some (1, false) ∧
    ((Conn.init 0).run (({} : Settings).config id) defaultsRun).map (fun c => (c.hist.length, c.connected)) = some (1, true) := by
  decide +kernel

end Stomp.Server

import Verif.Props.Client.Connect
import Verif.Props.HeartBeat
import Verif.Proofs.Server.Connect
import Verif.Proofs.Codec
/-! # C13: heart-beat negotiation between the library's client and the library's server -/
namespace Stomp
open Stomp.Client Stomp.Server

theorem fmtInt_numeral {x : Int} {s : Bytes} {n : Nat} (h : fmtInt x = s) (hs : Spec.Numeral s n) : x = n := by
  cases x with
  | ofNat k =>
    have h1 : fmtUint k = s := h
    have h2 := fmtUint_numeral k
    rw [h1] at h2
    have := h2.2.2.symm.trans hs.2.2
    simp [this]
  | negSucc k =>
    exfalso
    have h1 : (45 : UInt8) ∈ s := by rw [← h]; simp [fmtInt]
    have := hs.2.1 45 h1
    revert this; decide

theorem comma_split {a b c d : Bytes} (h : a ++ (44 : UInt8) :: b = c ++ 44 :: d) (ha : (44 : UInt8) ∉ a)
    (hc : (44 : UInt8) ∉ c) : a = c ∧ b = d := by
  have h1 := indexByte_append 44 a b ha
  have h2 := indexByte_append 44 c d hc
  rw [h, h2] at h1
  injection h1 with h1
  have := List.append_inj h h1.symm
  exact ⟨this.1, by simpa using this.2⟩

theorem comma_not_fmtInt (x : Int) : (44 : UInt8) ∉ fmtInt x := by
  cases x with
  | ofNat k =>
    intro hm
    have := (fmtUint_numeral k).2.1 44 hm
    revert this; decide
  | negSucc k =>
    intro hm
    simp only [fmtInt, List.mem_cons] at hm
    rcases hm with hm | hm
    · revert hm; decide
    · have := (fmtUint_numeral (k + 1)).2.1 44 hm
      revert this; decide

/-- **C13 (false in general).** For every client option list and server configuration: if the client then has a
read timeout, the server sends heart-beats at least that often. -/
def C13_claim : Prop :=
  ∀ (cfg : Config) (opts : List ConnOpt) (remote : Option Bytes) (f resp : Frame) (c : Conn) (info : ConnInfo),
    (connect opts remote true []).1 = some f →
    (Conn.init 0).processFrame cfg true true f = c → c.out = [⟨some resp, none⟩] →
    (connect opts remote true (writeFrame (some resp))).2 = .ok info →
    0 < info.readTimeout → 0 < c.writeTimeout ∧ (c.writeTimeout : Int) * 1000000 ≤ info.readTimeout

/-- **C13 is false**: a client with `HeartBeat(1min, 500µs)` announces 0 (no heart-beats wanted), so the server
sends none, but the client itself gives up after its read timeout (5.0005 s of silence with default settings). -/
theorem C13_negation : ¬ C13_claim := by
  intro h
  have key := h ⟨fun _ _ => true, 60000000000, id⟩ [.heartBeat 60000000000 500000] none _ (connectedFrame b!"1.2" 60000 0) _
    _ rfl rfl (by decide +kernel) (by rfl) (by decide +kernel)
  revert key
  decide +kernel

theorem connectedFrame_wf (v : Bytes) (cx cy : Nat) : Spec.WellFormed (connectedFrame v cx cy) := by
  refine ⟨?_, ?_, ?_⟩
  · show b!"CONNECTED" ∈ Spec.commands
    decide
  · intro e he
    simp only [connectedFrame, List.mem_cons, List.not_mem_nil, or_false] at he
    rcases he with rfl | rfl | rfl <;> simp
  · unfold Spec.BodyOk
    have : Spec.firstValue (connectedFrame v cx cy).header b!"content-length" = none := by
      simp [connectedFrame, firstValue_cons, firstValue_nil]
    rw [this]
    simp [connectedFrame]

theorem decimal_lt (a : Bytes) (h : ∀ c ∈ a, 48 ≤ c.toNat ∧ c.toNat ≤ 57) : Spec.decimal a < 10 ^ a.length := by
  induction a with
  | nil => simp [Spec.decimal]
  | cons c cs ih =>
    have := ih (fun c hc => h c (by simp [hc]))
    have hc := h c (by simp)
    simp only [Spec.decimal, List.length_cons, Nat.pow_succ]
    have : (c.toNat - 48) * 10 ^ cs.length ≤ 9 * 10 ^ cs.length := Nat.mul_le_mul_right _ (by omega)
    omega

theorem numeral_lt {a : Bytes} {n : Nat} (h : Spec.Numeral a n) (hl : a.length ≤ 9) : n < 10 ^ 9 := by
  have := decimal_lt a h.2.1
  rw [h.2.2] at this
  have h2 : 10 ^ a.length ≤ 10 ^ 9 := Nat.pow_le_pow_right (by omega) hl
  omega

theorem pickVersion_mem (l : List Bytes) (acc : Option Bytes) (v : Bytes) (h : pickVersion acc l = some v) :
    acc = some v ∨ v ∈ [V10, V11, V12] := by
  induction l generalizing acc with
  | nil => left; exact h
  | cons w l ih =>
    unfold pickVersion at h
    split at h
    · rcases ih _ h with h | h
      · right; injection h with h; subst h; simp
      · right; exact h
    split at h
    · rcases ih _ h with h | h
      · right; injection h with h; subst h; simp
      · right; exact h
    split at h
    · rcases ih _ h with h | h
      · right; injection h with h; subst h; simp
      · right; exact h
    · exact ih _ h

theorem determineVersion_mem (f : Frame) (v : Bytes) (h : determineVersion f = .ok v) : v ∈ [V10, V11, V12] := by
  unfold determineVersion at h
  split at h
  · cases h
  · split at h
    · split at h
      · rename_i hp
        injection h with h
        subst h
        rcases pickVersion_mem _ _ _ hp with h | h
        · cases h
        · exact h
      · cases h
    · split at h
      · injection h with h; subst h; simp
      · cases h

theorem raise_lt (x : Nat) (d : Int) (h : x < 10 ^ 9) : Conn.raise x (asMilliseconds d maxHeartBeat) < 10 ^ 9 := by
  unfold Conn.raise asMilliseconds maxHeartBeat
  simp only
  split <;> (repeat' split) <;> omega

theorem raise_pos (x : Nat) (m : Int) : 0 < Conn.raise x m ↔ 0 < x := by
  unfold Conn.raise
  split <;> omega

/-- The heart-beat header of the CONNECT frame. -/
theorem newFrame_heartBeat (o : Options) :
    Spec.firstValue o.newFrame.header b!"heart-beat" =
      some (fmtInt (Int.tdiv o.writeTimeout 1000000) ++ b!"," ++ fmtInt (Int.tdiv o.readTimeout 1000000)) := by
  unfold Options.newFrame
  simp only
  rw [addHeader_eq, firstValue_append, firstValue_set]
  rw [if_neg (by simp [Hdr.acceptVersion])]
  have : ∀ h : Header, Spec.firstValue (if o.login ≠ [] ∨ o.passcode ≠ []
      then (h.set Hdr.login o.login).set Hdr.passcode o.passcode else h)
      b!"heart-beat" = Spec.firstValue h b!"heart-beat" := by
    intro h
    split
    · rw [firstValue_set, firstValue_set]; simp [Hdr.login, Hdr.passcode]
    · rfl
  rw [this, firstValue_set, if_pos (by rfl)]
  rfl

theorem connected_firstValue_hb (v : Bytes) (cx cy : Nat) :
    Spec.firstValue (connectedFrame v cx cy).header b!"heart-beat" = some (fmtUint cy ++ b!"," ++ fmtUint cx) := by
  simp [connectedFrame, firstValue_cons]

theorem connected_firstValue_version (v : Bytes) (cx cy : Nat) :
    Spec.firstValue (connectedFrame v cx cy).header b!"version" = some v := by
  simp [connectedFrame, firstValue_cons]

theorem handleResponse_connected (o : Options) (v : Bytes) (rx ry : Nat) (rest : Bytes) (hrx : rx < 10 ^ 9)
    (hry : ry < 10 ^ 9) (hv : v ∈ [V10, V11, V12]) :
    ∃ info, handleResponse o (.frame (connectedFrame v rx ry) rest) = .ok info ∧ info.version = v ∧
      (let rt := if (ry : Int) * 1000000 < o.readTimeout then o.readTimeout else (ry : Int) * 1000000
       info.readTimeout = if rt > 0 then wrap64 (rt + o.heartBeatError) else rt) ∧
      info.writeTimeout = if (rx : Int) * 1000000 > o.heartBeatError then wrap64 ((rx : Int) * 1000000 - o.heartBeatError)
        else (rx : Int) * 1000000 := by
  have hparse : parseHeartBeat (fmtUint ry ++ b!"," ++ fmtUint rx) = some ((ry : Int) * 1000000, (rx : Int) * 1000000) :=
    (C10_parse _ _ _).2 ⟨_, _, ry, rx, rfl, fmtUint_numeral _, fmtUint_numeral _, by omega, by omega, rfl, rfl⟩
  have hsup : checkSupported v = true ∧ v ≠ [] := by
    simp only [List.mem_cons, List.not_mem_nil, or_false] at hv
    rcases hv with rfl | rfl | rfl <;> simp [V10, V11, V12, checkSupported]
  have hget : (connectedFrame v rx ry).header.get Hdr.version = v := by
    rw [get_eq]
    show (Spec.firstValue (connectedFrame v rx ry).header b!"version").getD [] = v
    rw [connected_firstValue_version]; rfl
  have hneg : negotiate o (connectedFrame v rx ry).header = some
      (if (if (ry : Int) * 1000000 < o.readTimeout then o.readTimeout else (ry : Int) * 1000000) > 0
        then wrap64 ((if (ry : Int) * 1000000 < o.readTimeout then o.readTimeout else (ry : Int) * 1000000) + o.heartBeatError)
        else (if (ry : Int) * 1000000 < o.readTimeout then o.readTimeout else (ry : Int) * 1000000),
       if (rx : Int) * 1000000 > o.heartBeatError then wrap64 ((rx : Int) * 1000000 - o.heartBeatError)
        else (rx : Int) * 1000000) := by
    unfold negotiate
    have hc : (connectedFrame v rx ry).header.contains Hdr.heartBeat = some (fmtUint ry ++ b!"," ++ fmtUint rx) := by
      rw [contains_eq]; exact connected_firstValue_hb v rx ry
    rw [hc]
    simp only [hparse]
  unfold handleResponse
  simp only [hget, hneg, hsup.1]
  rw [if_neg (by simp [connectedFrame, Cmd.connected]), if_neg (by simp), if_pos hsup.2]
  exact ⟨_, rfl, rfl, rfl, rfl⟩

/-- **C13 (partial: restricted to non-negative error margins, and read timeouts that are not strictly between 0 and
1 ms; see `C13_negation` and `C13_margin_needed` for the excluded cases).** If the server accepts the client's CONNECT frame then the client
accepts the server's answer, and with the resulting values: if the client has a read timeout then the server's heart-beat
interval is positive and not longer; if the server has a read deadline then the client's write interval is positive and at
most half of it; a side that announced that it does not send, or that it wants none, is not held to anything. -/
theorem C13_compatible_partial (cfg : Config) (opts : List ConnOpt) (remote : Option Bytes) (f : Frame) (c : Conn)
    (o : Options) (me : Nat) (rest : Bytes)
    (ho : newConnOptions opts = some o)
    (hf : (connect opts remote true []).1 = some f)
    (hs : (Conn.init me).processFrame cfg true true f = c) (hc : c.connected = true)
    (hbe : 0 ≤ o.heartBeatError ∧ o.heartBeatError < 2 ^ 63)
    (hrt : o.readTimeout < 2 ^ 63) (hsub : ¬(0 < o.readTimeout ∧ o.readTimeout < 1000000)) :
    ∃ resp info, c.out = [⟨some resp, none⟩] ∧
      (connect opts remote true (writeFrame (some resp) ++ rest)).2 = .ok info ∧ info.version = c.version ∧
      (0 < info.readTimeout → 0 < c.writeTimeout ∧ (c.writeTimeout : Int) * 1000000 ≤ info.readTimeout) ∧
      (∀ d, (({} : ReadLoop).frame cfg f).deadline = some d → 0 < info.writeTimeout ∧ info.writeTimeout * 2 ≤ d) ∧
      (Int.tdiv o.writeTimeout 1000000 = 0 → (({} : ReadLoop).frame cfg f).deadline = none) ∧
      (Int.tdiv o.readTimeout 1000000 = 0 → c.writeTimeout = 0 ∧ info.readTimeout ≤ 0) := by
  -- the CONNECT frame
  have hfe : f = (resolveHost o remote).newFrame := by
    unfold connect at hf
    rw [ho] at hf
    simp only [Bool.not_true, Bool.false_eq_true, if_false, Option.some.injEq] at hf
    exact hf.symm
  have hro : (resolveHost o remote).readTimeout = o.readTimeout ∧ (resolveHost o remote).writeTimeout = o.writeTimeout ∧
      (resolveHost o remote).heartBeatError = o.heartBeatError := by
    unfold resolveHost
    split
    · cases remote <;> simp only <;> split <;> exact ⟨rfl, rfl, rfl⟩
    · exact ⟨rfl, rfl, rfl⟩
  have hhb : Spec.firstValue f.header b!"heart-beat" =
      some (fmtInt (Int.tdiv o.writeTimeout 1000000) ++ b!"," ++ fmtInt (Int.tdiv o.readTimeout 1000000)) := by
    rw [hfe, newFrame_heartBeat, hro.1, hro.2.1]
  -- the server
  unfold Conn.processFrame Conn.stateFunc at hs
  rw [if_pos (by rfl)] at hs
  rcases connecting_cases cfg { Conn.init me with hist := (Conn.init me).hist ++ [f] } true f with
    ⟨v, cx, cy, ha, he⟩ | ⟨_, e, v, he⟩
  · rw [he] at hs
    simp only at hs
    generalize hmin : asMilliseconds cfg.heartBeat maxHeartBeat = min at hs
    generalize hrx : Conn.raise cx min = rx at hs
    generalize hry : Conn.raise cy min = ry at hs
    have hout : c.out = [⟨some (connectedFrame v rx ry), none⟩] := by rw [← hs]; rfl
    have hwt : c.writeTimeout = ry := by rw [← hs]; rfl
    have hver : c.version = v := by rw [← hs]; rfl
    -- values
    have hcxy : Int.tdiv o.writeTimeout 1000000 = cx ∧ Int.tdiv o.readTimeout 1000000 = cy ∧ cx < 10 ^ 9 ∧ cy < 10 ^ 9 := by
      rcases (C10_server_parse f ha.command cx cy).1 ha.heartBeat with ⟨h0, _⟩ | ⟨a, b, h0, na, nb, la, lb⟩
      · rw [hhb] at h0; cases h0
      · rw [hhb] at h0
        simp only [Option.some.injEq, List.append_assoc, List.cons_append, List.nil_append] at h0
        obtain ⟨e1, e2⟩ := comma_split h0 (comma_not_fmtInt _) (comma_not_digits a na.2.1)
        exact ⟨fmtInt_numeral e1 na, fmtInt_numeral e2 nb, numeral_lt na la, numeral_lt nb lb⟩
    obtain ⟨ecx, ecy, lcx, lcy⟩ := hcxy
    have htd : 0 ≤ o.readTimeout → o.readTimeout / 1000000 = cy := fun h => by
      rw [← ecy, Int.tdiv_eq_ediv_of_nonneg h]
    have lrx : rx < 10 ^ 9 := by rw [← hrx, ← hmin]; exact raise_lt _ _ lcx
    have lry : ry < 10 ^ 9 := by rw [← hry, ← hmin]; exact raise_lt _ _ lcy
    have prx : 0 < rx ↔ 0 < cx := by rw [← hrx]; exact raise_pos _ _
    have pry : 0 < ry ↔ 0 < cy := by rw [← hry]; exact raise_pos _ _
    have hdl : (({} : ReadLoop).frame cfg f).deadline = if rx = 0 then none else some ((rx : Int) * 1000000 * 2) := by
      unfold ReadLoop.frame
      rw [if_pos rfl, ha.heartBeat]
      simp only [hmin, hrx]
      rfl
    -- the client
    have hread := readFrame_writeFrame (connectedFrame v rx ry) rest (connectedFrame_wf v rx ry)
    obtain ⟨info, h1, h2, h3, h4⟩ := handleResponse_connected (resolveHost o remote) v rx ry rest lrx lry
      (determineVersion_mem f v ha.version)
    rw [hro.1, hro.2.2] at h3
    rw [hro.2.2] at h4
    simp only at h3
    refine ⟨connectedFrame v rx ry, info, hout, ?_, h2.trans hver.symm, ?_, ?_, ?_, ?_⟩
    · unfold connect
      rw [ho]
      simp only [hread, Bool.not_true, Bool.false_eq_true, if_false]
      exact h1
    · intro hp
      rw [hwt]
      unfold wrap64 at h3
      split at h3 <;> split at h3 <;> omega
    · intro d hd
      rw [hdl] at hd
      split at hd
      · cases hd
      · injection hd with hd
        unfold wrap64 at h4
        split at h4 <;> omega
    · intro h0
      rw [hdl, if_pos (by omega)]
    · intro h0
      rw [hwt]
      refine ⟨by omega, ?_⟩
      unfold wrap64 at h3
      split at h3 <;> split at h3 <;> omega
  · rw [he] at hs
    simp only at hs
    rw [← hs] at hc
    simp only [Conn.startCleanup, Conn.sendError] at hc
    revert hc
    simp only [Conn.write]
    split <;> simp [Conn.init]

/-- A configuration that meets the hypotheses, with the timeouts both sides end up with: the server raises the client's
20 s to its minimum of 60 s; the client waits 65 s and sends every 55 s, within the server's 120 s. -/
def sampleServer : Conn :=
  (Conn.init 3).processFrame ⟨fun _ _ => true, 60000000000, id⟩ true true
    ((connect [.heartBeat 20000000000 20000000000] none true []).1.getD default)

example : sampleServer.connected = true ∧ sampleServer.writeTimeout = 60000 ∧
    sampleServer.out = [⟨some (connectedFrame b!"1.2" 60000 60000), none⟩] ∧
    (connect [.heartBeat 20000000000 20000000000] none true (writeFrame (some (connectedFrame b!"1.2" 60000 60000)))).2.toOption.map
      (fun i => (i.readTimeout, i.writeTimeout)) = some (65000000000, 55000000000) := by
  decide +kernel

/-- **C13**: a negative error margin breaks it as well: the client gives up before the server's interval is over. -/
theorem C13_margin_needed :
    ∃ (opts : List ConnOpt) (f resp : Frame) (c : Conn) (info : ConnInfo),
      (connect opts none true []).1 = some f ∧
      (Conn.init 0).processFrame ⟨fun _ _ => true, 60000000000, id⟩ true true f = c ∧ c.out = [⟨some resp, none⟩] ∧
      (connect opts none true (writeFrame (some resp))).2 = .ok info ∧
      0 < info.readTimeout ∧ info.readTimeout < (c.writeTimeout : Int) * 1000000 :=
  ⟨[.heartBeatError (-1000000000)], _, connectedFrame b!"1.2" 60000 60000, _, _, rfl, rfl, by decide +kernel, by rfl,
    by decide +kernel, by decide +kernel⟩

end Stomp

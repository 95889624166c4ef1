import Verif.Proofs.StreamRx8
import Verif.Props.StreamRx
/-
  C82: what arrives is handed over, under its own number.
-/
namespace Str0m.Rcv
open Str0m Str0m.Rtp NackRegister

variable {U : Type}

theorem head_reverse {α : Type} (l : List α) : l.reverse.getLast? = l.head? := by
  rw [List.getLast?_reverse]

theorem lane_takes {r : ReceiverRegister} {q : Option Nat} {l : List Nat} (h : Lane (some r) q l.reverse) (n : Nat) :
    r.nack.accepts n = true ↔ Takes l n := by
  rw [h.accepts n, head_reverse]
  simp [Takes]

theorem lane_tells {r : ReceiverRegister} {q : Option Nat} {l : List Nat} (h : Lane (some r) q l.reverse) {n w : Nat} (ht : Tells l n)
    (hw : w % 65536 = n % 65536) : extend 16 r.nack.maxSeq w = n := by
  obtain ⟨h1, h2, h3, h4⟩ := ht
  refine h.extend hw h1 (fun e => h2 (by simpa using e)) (fun m hm => h3 m (by simpa using hm)) (fun hne => ?_)
  obtain ⟨m, hm, hlt⟩ := h4 (by simpa using hne)
  exact ⟨m, by simpa using hm, hlt⟩

theorem open_of_authentic {c : Cfg U} {d : Srtp.Derived} {buf : List Byte} {e : Header U × Nat × List Byte} (hd : c.srtp = some d)
    (ha : Authentic c buf e) : open_ c d e.1 buf e.2.1 = .ok e.2.2 := by
  obtain ⟨_, _, _, d', x, h1, h2, h3, h4⟩ := ha
  rw [hd] at h1; cases h1
  unfold open_
  rw [h2]
  simp only [unpad]
  split
  · rename_i hp; exact h4 hp
  · rename_i hp; rw [h3 (by simpa using hp)]

/-- **C82**: in RTP mode, an authentic media packet that arrives on the stream is handed over exactly if its number was not handed over
before, is not before the first and at most 100 behind the highest; and then with its true number (its SRTP index), its header and its
payload. This holds after every history of datagrams, polls, timeouts, reports and requests on the stream, if the packets are fetched and
no number handed over is more than 101 ahead of all before it, and as long as the number is less than 2^15 away from the highest. -/
theorem C82_media (c : Cfg U) (hm : c.rtpMode = true) (a x : Nat) (ha : a ≠ 0) (hax : x ≠ a) (ops : List Op) (s : Sess U) (es : List (Ev U))
    (hrun : run c { rx := { ssrc := a, rtx := some x } } ops = .ok (s, es)) (hst : ∀ op ∈ ops, Steady op)
    (hlab : ∀ op ∈ ops, Labelled (· = a) (· = x) c op) (hdr : Drained c { rx := { ssrc := a, rtx := some x } } ops)
    (hc1 : Close (numbersOf s es)) (hc2 : Close (openedOn x s)) (hp : s.pending = none)
    (now : Nat) (buf : List Byte) (e : Header U × Nat × List Byte) (hauth : Authentic c buf e) (hs : e.1.ssrc = a)
    (q : Param) (hq : c.params.find? (fun p => p.pt == e.1.payloadType || p.resend == some e.1.payloadType) = some q) (hpt : q.pt = e.1.payloadType)
    (ht : Tells (numbersOf s es) e.2.1) :
    ∃ s', step c s (.packet now buf) = .ok (s', []) ∧
      (Takes (numbersOf s es) e.2.1 → ∃ p, s'.pending = some p ∧ p.seqNo = e.2.1 ∧ p.header = e.1 ∧ p.payload = e.2.2 ∧ p.at_ = now) ∧
      (¬ Takes (numbersOf s es) e.2.1 → s'.pending = none) := by
  have tr := track_run hm ha hax ops s es hrun hst hlab hdr hc1 hc2
  obtain ⟨hparse, hlow, _, d, _, hd, _⟩ := id hauth
  have hopen := open_of_authentic hd hauth
  have hop := tr.main.opened
  obtain ⟨r, hr⟩ : ∃ r, s.rx.reg.getD (ReceiverRegister.new (seqOf s.seqs s.rx.ssrc)) = r := ⟨_, rfl⟩
  rw [← tr.ssrc, hr] at hop
  have hn := lane_tells hop ht hlow.symm
  have hacc := lane_takes hop e.2.1
  obtain ⟨s', e1, e2⟩ := media_step hm d tr.roc (by rw [tr.ssrc]; exact ha) now e.1 q buf hpt (by rw [tr.ssrc]; exact hs) hr hn
  have hrecv : receive c s now buf = .ok (s', none) := by
    unfold receive
    rw [hparse]
    dsimp only
    unfold handle
    rw [if_pos (.inl (by rw [tr.ssrc]; exact hs)), hd, paramOf, tr.ssrc, if_neg ha, hq]
    exact e1
  refine ⟨s', by simp [step, hrecv], ?_, ?_⟩
  · intro hk
    have hk := hacc.2 hk
    rcases e2 with ⟨_, _, _, _, h | h⟩ | ⟨data, p, h1, h2, _, _, _, h3, h4, h5, h6, h7⟩
    · rw [hk] at h; cases h
    · exact absurd hopen (h _)
    · rw [hopen] at h2; cases h2
      exact ⟨p, h3, h4, h5, h6, h7⟩
  · intro hk
    rcases e2 with ⟨_, _, _, h, _⟩ | ⟨data, p, h1, _⟩
    · rw [h]; exact hp
    · exact absurd (hacc.1 h1) hk

/-- **C82**: the same for a repair packet that is new on its own stream: the packet it carries is handed over under its own number, with
SSRC and payload type of the media stream. -/
theorem C82_repair (c : Cfg U) (hm : c.rtpMode = true) (a x : Nat) (ha : a ≠ 0) (hax : x ≠ a) (ops : List Op) (s : Sess U) (es : List (Ev U))
    (hrun : run c { rx := { ssrc := a, rtx := some x } } ops = .ok (s, es)) (hst : ∀ op ∈ ops, Steady op)
    (hlab : ∀ op ∈ ops, Labelled (· = a) (· = x) c op) (hdr : Drained c { rx := { ssrc := a, rtx := some x } } ops)
    (hc1 : Close (numbersOf s es)) (hc2 : Close (openedOn x s)) (hp : s.pending = none)
    (now : Nat) (buf : List Byte) (e : Header U × Nat × List Byte) (hauth : Authentic c buf e) (hs : e.1.ssrc = x)
    (q : Param) (hq : c.params.find? (fun p => p.pt == e.1.payloadType || p.resend == some e.1.payloadType) = some q) (hpt : q.pt ≠ e.1.payloadType)
    (ht : Tells (openedOn x s) e.2.1) (htk : Takes (openedOn x s) e.2.1)
    (n : Nat) (b1 b2 : Byte) (rest : List Byte) (hbody : e.2.2 = b1 :: b2 :: rest) (hosn : n % 65536 = b1.val * 256 + b2.val) (htn : Tells (numbersOf s es) n) :
    ∃ s', step c s (.packet now buf) = .ok (s', []) ∧
      (Takes (numbersOf s es) n → ∃ p, s'.pending = some p ∧ p.seqNo = n ∧ p.header.ssrc = a ∧ p.header.payloadType = q.pt ∧
        p.header.sequenceNumber = n % 65536 ∧ p.header.timestamp = e.1.timestamp ∧ p.header.marker = e.1.marker ∧ p.payload = rest ∧ p.at_ = now) ∧
      (¬ Takes (numbersOf s es) n → s'.pending = none) := by
  have tr := track_run hm ha hax ops s es hrun hst hlab hdr hc1 hc2
  obtain ⟨hparse, hlow, _, d, _, hd, _⟩ := id hauth
  have hopen := open_of_authentic hd hauth
  have hop := tr.main.opened
  obtain ⟨r, hr⟩ : ∃ r, s.rx.reg.getD (ReceiverRegister.new (seqOf s.seqs s.rx.ssrc)) = r := ⟨_, rfl⟩
  rw [← tr.ssrc, hr] at hop
  have hop2 := tr.rep.opened
  obtain ⟨r2, hr2⟩ : ∃ r, s.rx.regRtx.getD (ReceiverRegister.new (seqOf s.seqs x)) = r := ⟨_, rfl⟩
  rw [hr2] at hop2
  have hk := lane_tells hop2 ht hlow.symm
  have hacc2 := (lane_takes hop2 e.2.1).2 htk
  have hrd : readOsn e.2.2 = (some (b1.val * 256 + b2.val), rest) := by rw [hbody]; rfl
  have hn : extend 16 r.nack.maxSeq ((readOsn e.2.2).1.getD 0) = n := by
    rw [hrd]
    exact lane_tells hop htn (by simp only [Option.getD_some]; omega)
  have hacc := lane_takes hop n
  obtain ⟨s', e1, e2⟩ := rtx_step hm d tr.roc (by rw [tr.ssrc]; exact ha) now e.1 q buf hpt hs (by rw [tr.ssrc]; exact hax) hr2 hk hr
  have hrecv : receive c s now buf = .ok (s', none) := by
    unfold receive
    rw [hparse]
    dsimp only
    unfold handle
    rw [if_pos (.inr (by rw [tr.rtx, hs])), hd, paramOf, tr.ssrc, if_neg ha, hq]
    exact e1
  refine ⟨s', by simp [step, hrecv], ?_⟩
  rcases e2 with ⟨_, _, _, _, h | h⟩ | ⟨_, h, _⟩ | ⟨data, n', h1, h2, h3, h4, _, _, _, h5⟩
  · rw [hacc2] at h; cases h
  · exact absurd hopen (h _)
  · rw [hopen] at h; simp only [Res.ok.injEq] at h; rw [hbody] at h; cases h
  · rw [hopen] at h2; simp only [Res.ok.injEq] at h2
    subst h2
    have hnn : n' = n := h4.symm.trans hn
    subst hnn
    rcases h5 with ⟨h6, h7⟩ | ⟨h6, p, h7, h8, h9, h10, h11⟩
    · refine ⟨fun hk => ?_, fun _ => h7.trans hp⟩
      rw [hacc.2 hk] at h6; cases h6
    · refine ⟨fun _ => ⟨p, h7, h8, ?_, ?_, ?_, ?_, ?_, ?_, h11⟩, fun hk => absurd (hacc.1 h6) hk⟩
      · rw [h9]; exact tr.ssrc
      · rw [h9]; rfl
      · rw [h9]; show (readOsn e.2.2).1.getD 0 = _; rw [hrd]; exact hosn.symm
      · rw [h9]; rfl
      · rw [h9]; rfl
      · rw [h10]; show (readOsn e.2.2).2 = _; rw [hrd]

/-- What the peer sends with the same keys is authentic in that sense, with the index it was sent with. -/
theorem C82_sent_is_authentic (c : Cfg U) (L : Srtp.Laws c.prim) (d : Srtp.Derived) (hd : c.srtp = some d) (h : Header U) (payload : List Byte) (index : Nat)
    (hm : c.exts.length = 16) (hv : Rtp.Valid h) (hau : Rtp.AsciiUtf8 c.env) (hu : Rtp.UserFits c.env c.exts h.extVals)
    (hs : h.sequenceNumber = index % 65536) (hi : index < 2 ^ 64) (hnp : h.hasPadding = false) :
    ∃ w hl, Srtp.sendRtp c.prim d c.env c.exts h payload index = .ok w ∧
      Authentic c w ({ h with extVals := carried c.env c.exts h.extVals, headerLen := hl }, index, payload) := by
  obtain ⟨head, hw, hparse⟩ := Rtp.C11_round_trip_partial c.env c.exts h hm hv hau hu
  obtain ⟨w, h1, -, h3, h4⟩ := Srtp.C37_rtp_round_trip c.prim L d head payload h.ssrc h.sequenceNumber index
  refine ⟨w, head.length, ?_, ?_, ?_, hi, d, payload, hd, h4, fun _ => rfl, fun hp => ?_⟩
  · unfold Srtp.sendRtp; rw [hw]; exact h1
  · have hw' : w = head ++ w.drop head.length := by
      conv_lhs => rw [← List.take_append_drop head.length w, h3]
    have hpw := hparse (w.drop head.length)
    rw [← hw'] at hpw
    exact hpw
  · dsimp only; rw [hs]; omega
  · dsimp only at hp; rw [hnp] at hp; cases hp

/-! ### A case -/

/-- The history: 65530, then a gap over the wrap to 65540, then the packet in between arrives by repair -/
def wrapOps : List Op := [.packet 0 (datagram 96 7 65530 5000 [1]), .poll, .poll, .packet 1 (datagram 96 7 65540 7000 [3]), .poll]

example : outcome exampleCfg { rx := { ssrc := 7, rtx := some 9 } } (wrapOps ++ [.packet 2 (datagram 97 9 50 6000 (be16 (65537 % 65536) ++ [2])), .poll]) =
    some [(7, 65530, 5000, [1]), (7, 65540, 7000, [3]), (7, 65537, 6000, [2])] := by
  decide +kernel

theorem exampleCfg_labelled {buf : List Byte} (h : (match Header.parse exampleCfg.env exampleCfg.exts buf with
      | .ok h => decide (h.payloadType = 96 ∧ h.ssrc = 7) || decide (h.payloadType = 97 ∧ h.ssrc = 9)
      | _ => true) = true) (now : Nat) : Labelled (· = 7) (· = 9) exampleCfg (.packet now buf) := by
  intro hd p hp hf
  rw [hp] at h
  simp only [Bool.or_eq_true, decide_eq_true_eq] at h
  have hpar : p = ⟨96, some 97, 90000⟩ := by simpa [exampleCfg] using List.mem_of_find?_eq_some hf
  subst hpar
  rcases h with ⟨h1, h2⟩ | ⟨h1, h2⟩
  · exact ⟨fun _ => by simp [h2], fun h => absurd h1.symm h⟩
  · exact ⟨fun h => by dsimp only at h; omega, fun _ => by simp [h2]⟩

/-- The hypotheses of C82 are met by that history -/
example : ∃ s es, run exampleCfg { rx := { ssrc := 7, rtx := some 9 } } wrapOps = .ok (s, es) ∧ (∀ op ∈ wrapOps, Steady op) ∧
    (∀ op ∈ wrapOps, Labelled (· = 7) (· = 9) exampleCfg op) ∧ Drained exampleCfg { rx := { ssrc := 7, rtx := some 9 } } wrapOps ∧
    Close (numbersOf s es) ∧ Close (openedOn 9 s) ∧ s.pending = none ∧ Takes (numbersOf s es) 65537 ∧ Tells (numbersOf s es) 65537 ∧
    Takes (openedOn 9 s) 50 ∧ Tells (openedOn 9 s) 50 := by
  have hrun : ∃ s es, run exampleCfg { rx := { ssrc := 7, rtx := some 9 } } wrapOps = .ok (s, es) ∧ numbersOf s es = [65530, 65540] ∧
      openedOn 9 s = [] ∧ s.pending.isNone = true := by
    have : (match run exampleCfg { rx := { ssrc := 7, rtx := some 9 } } wrapOps with
      | .ok (s, es) => decide (numbersOf s es = [65530, 65540]) && (decide (openedOn 9 s = []) && s.pending.isNone)
      | _ => false) = true := by decide +kernel
    split at this
    · rename_i s es hr
      simp only [Bool.and_eq_true, decide_eq_true_eq] at this
      exact ⟨s, es, hr, this.1, this.2.1, this.2.2⟩
    · cases this
  obtain ⟨s, es, hr, h1, h2, h3⟩ := hrun
  refine ⟨s, es, hr, ?_, ?_, ?_, ?_, ?_, by simpa using h3, ?_, ?_, ?_, ?_⟩
  · intro op hop
    simp only [wrapOps, List.mem_cons, List.not_mem_nil, or_false] at hop
    rcases hop with rfl | rfl | rfl | rfl | rfl <;> trivial
  · intro op hop
    simp only [wrapOps, List.mem_cons, List.not_mem_nil, or_false] at hop
    rcases hop with rfl | rfl | rfl | rfl | rfl
    · exact exampleCfg_labelled (by decide +kernel) _
    · trivial
    · trivial
    · exact exampleCfg_labelled (by decide +kernel) _
    · trivial
  · have key : ∀ pre : List Op, (match run exampleCfg { rx := { ssrc := 7, rtx := some 9 } } pre with
        | .ok (s, _) => s.pending.isNone
        | _ => true) = true → ∀ s es, run exampleCfg ({ rx := { ssrc := 7, rtx := some 9 } } : Sess Nat) pre = .ok (s, es) → s.pending = none := by
      intro pre h s es hr
      rw [hr] at h
      simpa using h
    intro pre now buf post h
    match pre, h with
    | [], h => exact key [] (by decide +kernel)
    | [_], h => simp [wrapOps] at h
    | [_, _], h => simp [wrapOps] at h
    | [a, b, d], h =>
      simp only [wrapOps, List.cons_append, List.nil_append, List.cons.injEq] at h
      obtain ⟨rfl, rfl, rfl, _⟩ := h
      exact key _ (by decide +kernel)
    | [_, _, _, _], h => simp [wrapOps] at h
    | _ :: _ :: _ :: _ :: _ :: pre, h => simp [wrapOps] at h
  · rw [h1]
    intro pre n post h
    match pre, h with
    | [], h => exact .inl rfl
    | [_], h => simp at h; obtain ⟨rfl, rfl, _⟩ := h; exact .inr ⟨65530, by simp, by omega⟩
    | _ :: _ :: pre, h => simp at h
  · rw [h2]; intro pre n post h; simp at h
  · rw [h1]; exact ⟨by simp, by simp, by simp⟩
  · rw [h1]; exact ⟨by norm_num, by simp, by simp, fun _ => ⟨65540, by simp, by norm_num⟩⟩
  · rw [h2]; exact ⟨by simp, by simp, by simp⟩
  · rw [h2]; exact ⟨by norm_num, by simp, by simp, by simp⟩

/-- **Violation**: a packet that arrives before the first one of the stream by number is dropped, even if it is only one behind. -/
theorem C82_violation_first : outcome exampleCfg { rx := { ssrc := 7 } }
    [.packet 0 (datagram 96 7 1001 5000 [2]), .poll, .poll, .packet 1 (datagram 96 7 1000 4000 [1]), .poll, .poll] = some [(7, 1001, 5000, [2])] := by
  decide +kernel

end Str0m.Rcv

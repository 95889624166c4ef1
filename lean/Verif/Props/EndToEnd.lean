import Verif.Proofs.EndToEnd
import Verif.Props.StreamRx2
/-
  C85: a sending and a receiving stream with a hostile network in between.
-/
namespace Str0m.E2E
open Str0m

variable {U : Type}

/-- **C85**: whatever a network does to the datagrams of a sending stream (lose, repeat, reorder, delay; mix with datagrams made up without
the key), every packet the receiving application gets in RTP mode is one the sender sent as a new packet: same bytes, same 64-bit number,
same payload type, marker and SSRC, same time stamp (32 bits), whether it came directly, as a retransmission or as padding; and no number is
handed over twice. -/
theorem C85_only_what_was_sent (c : Rcv.Cfg U) (hm : c.rtpMode = true) (a x : Nat) (ha : a ≠ 0) (hax : x ≠ a) (P : List Tx.Param) (hag : Agreed P c.params)
    (mid : Nat) (rid : Option Nat) (mtu s1 s2 : Nat) (sops : List Tx.Op) (hk : ∀ op ∈ sops, Keeps P op) (t : Tx.Tx) (outs : List Tx.Out)
    (hs : Tx.run (Tx.new a (some x) mid rid mtu s1 s2) sops = .ok (t, outs)) (hsm : ∀ o ∈ outs, o.seqNo < 2 ^ 47)
    (rops : List Rcv.Op) (s : Rcv.Sess U) (es : List (Rcv.Ev U)) (hr : Rcv.run c { rx := { ssrc := a, rtx := some x } } rops = .ok (s, es))
    (hst : ∀ op ∈ rops, Rcv.Steady op) (hdr : Rcv.Drained c { rx := { ssrc := a, rtx := some x } } rops) (hnet : Network c a x outs rops)
    (htim : Timely c { rx := { ssrc := a, rtx := some x } } outs rops) :
    (∀ p ∈ Rcv.packetsOf es, ∃ r ∈ outs, r.kind = .regular ∧ Same p r.seqNo r.body r.pt r.time r.marker a) ∧
      ((Rcv.packetsOf es).map (·.seqNo)).Nodup := by
  have inv := inv_run hm ha hax hag (sender_run hk hs) hsm rops s es hr hst hdr hnet htim
  refine ⟨fun p hp => inv.good p (List.mem_append_left _ hp), ?_⟩
  have := inv.once
  unfold Rcv.numbersOf at this
  rw [List.map_append] at this
  exact (List.nodup_append.1 this).1

/-- **C85**, when the sending application writes packets (RTP mode): each packet received is one that was written. -/
theorem C85_only_what_was_written (c : Rcv.Cfg U) (hm : c.rtpMode = true) (a x : Nat) (ha : a ≠ 0) (hax : x ≠ a) (P : List Tx.Param) (hag : Agreed P c.params)
    (mid : Nat) (rid : Option Nat) (mtu s1 s2 : Nat) (sops : List Tx.Op) (hk : ∀ op ∈ sops, Keeps P op) (hf : ∀ f cs, Tx.Op.frame f cs ∉ sops)
    (t : Tx.Tx) (outs : List Tx.Out) (hs : Tx.run (Tx.new a (some x) mid rid mtu s1 s2) sops = .ok (t, outs)) (hsm : ∀ o ∈ outs, o.seqNo < 2 ^ 47)
    (rops : List Rcv.Op) (s : Rcv.Sess U) (es : List (Rcv.Ev U)) (hr : Rcv.run c { rx := { ssrc := a, rtx := some x } } rops = .ok (s, es))
    (hst : ∀ op ∈ rops, Rcv.Steady op) (hdr : Rcv.Drained c { rx := { ssrc := a, rtx := some x } } rops) (hnet : Network c a x outs rops)
    (htim : Timely c { rx := { ssrc := a, rtx := some x } } outs rops) :
    ∀ p ∈ Rcv.packetsOf es, ∃ w, Tx.Op.write w ∈ sops ∧ Same p w.seqNo w.payload w.pt w.time w.marker a := by
  intro p hp
  obtain ⟨r, hr1, hr2, hr3⟩ := (C85_only_what_was_sent c hm a x ha hax P hag mid rid mtu s1 s2 sops hk t outs hs hsm rops s es hr hst hdr hnet htim).1 p hp
  have hsub := Tx.C39_in_order a (some x) mid rid mtu s1 s2 sops hf t outs hs
  have hmem : r.key ∈ Tx.fresh outs := List.mem_map.2 ⟨r, List.mem_filter.2 ⟨hr1, by simp [hr2]⟩, rfl⟩
  obtain ⟨op, ho, hw⟩ := List.mem_filterMap.1 (hsub.subset hmem)
  cases op with
  | write w =>
    have e : w.key = r.key := by simpa using hw
    simp only [Tx.Write.key, Tx.Out.key, Prod.mk.injEq] at e
    obtain ⟨e1, e2, e3, e4, e5, _⟩ := e
    refine ⟨w, ho, ?_⟩
    rw [e1, e2, e3, e4, e5]
    exact hr3
  | _ => cases hw

/-- What the sender's session makes of an `Out` is carried in the sense of the theorems above, if no other index of the same sequence number
opens it. -/
theorem C85_carried (c : Rcv.Cfg U) (L : Srtp.Laws c.prim) (d : Srtp.Derived) (hd : c.srtp = some d) (h : Rtp.Header U) (o : Tx.Out)
    (hm : c.exts.length = 16) (hv : Rtp.Valid h) (hau : Rtp.AsciiUtf8 c.env) (hu : Rtp.UserFits c.env c.exts h.extVals)
    (h1 : h.ssrc = o.ssrc) (h2 : h.sequenceNumber = o.seq16) (h3 : h.payloadType = o.pt) (h4 : h.timestamp = o.time % 2 ^ 32)
    (h5 : h.marker = o.marker) (h6 : h.hasPadding = true ↔ ∃ len, o.kind = .blank len) :
    ∃ w hl, Srtp.sendRtp c.prim d c.env c.exts h o.body o.seqNo = .ok w ∧
      Srtp.unprotectRtp c.prim d w hl h.ssrc h.sequenceNumber o.seqNo = .ok o.body ∧
      ((∀ n x, n % 65536 = o.seq16 → Srtp.unprotectRtp c.prim d w hl h.ssrc h.sequenceNumber n = .ok x → n % 2 ^ 48 = o.seqNo % 2 ^ 48) →
        Carries c w o) := by
  obtain ⟨head, hw, hparse⟩ := Rtp.C11_round_trip_partial c.env c.exts h hm hv hau hu
  obtain ⟨w, k1, -, k3, k4⟩ := Srtp.C37_rtp_round_trip c.prim L d head o.body h.ssrc h.sequenceNumber o.seqNo
  have hpw : Rtp.Header.parse c.env c.exts w = .ok { h with extVals := Rtp.carried c.env c.exts h.extVals, headerLen := head.length } := by
    have hw' : w = head ++ w.drop head.length := by
      conv_lhs => rw [← List.take_append_drop head.length w, k3]
    have := hparse (w.drop head.length)
    rw [← hw'] at this
    exact this
  refine ⟨w, head.length, by unfold Srtp.sendRtp; rw [hw]; exact k1, k4, fun hid => ⟨⟨_, hpw, h1, h2, h3, h4, h5, h6⟩, ?_⟩⟩
  intro h' d' n x hp hd' hn hx
  rw [hpw] at hp; cases hp
  rw [hd] at hd'; cases hd'
  refine ⟨hid n x hn hx, fun e => ?_⟩
  subst e
  dsimp only at hx
  rw [k4] at hx
  cases hx; rfl

/-! ### A case -/

/-- A provider whose tags name the nonce, so that no other index opens a datagram. -/
def named : Srtp.Prim where
  ctrEnc := fun _ _ m => m
  ctrDec := fun _ _ m => m
  seal_ := fun k iv a m => m ++ ((iv ++ List.replicate 12 0).take 12 ++ List.replicate 4 (u8 ((k ++ a ++ m).map (·.val)).sum))
  open_ := fun k iv a c =>
    if c.drop (c.length - 16) = (iv ++ List.replicate 12 0).take 12 ++ List.replicate 4 (u8 ((k ++ a ++ c.take (c.length - 16)).map (·.val)).sum) then
      some (c.take (c.length - 16)) else none
  hmac := fun k m => List.replicate 20 (u8 ((k ++ m).map (·.val)).sum)
  ecb := fun _ x => (x ++ List.replicate 16 0).take 16

theorem named_laws : Srtp.Laws named where
  ctr := fun _ _ _ => rfl
  ctrLen := fun _ _ _ => rfl
  gcm := by
    intro k iv a m
    simp [named]
  gcmLen := by intro k iv a m; simp [named]
  hmacLen := by intro k m; simp [named]

/-- Video with payload type 96, repaired with 97 -/
def demoCfg : Rcv.Cfg Nat := { Rcv.exampleCfg with prim := named }

/-- The header the session writes, without extensions -/
def demoHeader (o : Tx.Out) : Rtp.Header Nat :=
  { hasPadding := (match o.kind with | .blank _ => true | _ => false), hasExtension := true, csrcCount := 0, marker := o.marker, payloadType := o.pt,
    sequenceNumber := o.seq16, timestamp := o.time % 2 ^ 32, ssrc := o.ssrc, csrc := List.replicate 15 0, extVals := Rtp.Vals.default 7, headerLen := 0 }

def wire (o : Tx.Out) : List Byte :=
  match Srtp.sendRtp named Srtp.exampleDerived Rtp.exampleEnv Rtp.exampleMap (demoHeader o) o.body o.seqNo with
  | .ok w => w
  | _ => []

theorem gcmIv_length (ssrc roc seq : Nat) : (Srtp.gcmRtpIv Srtp.exampleDerived.salt ssrc roc seq).length = 12 := by
  simp [Srtp.gcmRtpIv, Srtp.xorBytes, Srtp.exampleDerived]

/-- What a tag says -/
theorem named_tag {w x : List Byte} {hl ssrc seq n : Nat} (h : Srtp.unprotectRtp named Srtp.exampleDerived w hl ssrc seq n = .ok x) :
    (w.drop hl).drop ((w.drop hl).length - 16) = Srtp.gcmRtpIv Srtp.exampleDerived.salt ssrc (Srtp.rocOf n) seq ++
      List.replicate 4 (u8 ((Srtp.exampleDerived.key ++ w.take hl ++ (w.drop hl).take ((w.drop hl).length - 16)).map (·.val)).sum) := by
  unfold Srtp.unprotectRtp at h
  split at h
  · cases h
  · rename_i hlen
    have hlen : hl ≤ w.length := by
      have : ¬ w.length < hl + 16 := hlen
      omega
    have e1 : (Res.upto w hl : Res Unit (List Byte)) = .ok (w.take hl) := Res.upto_of_le hlen
    have e2 : (Res.from_ w hl : Res Unit (List Byte)) = .ok (w.drop hl) := Res.from_of_le hlen
    have hpr : Srtp.exampleDerived.profile = .gcm256 := rfl
    rw [hpr] at h
    dsimp only at h
    rw [e1, e2] at h
    simp only [Res.bind_def, Res.bind_ok] at h
    split at h
    · rename_i m' hm
      unfold named at hm
      dsimp only at hm
      split at hm
      · rename_i he
        rw [List.take_append_of_le_length (by rw [gcmIv_length]), List.take_of_length_le (by rw [gcmIv_length])] at he
        exact he
      · cases hm
    · cases h

/-- A tag names the index -/
theorem named_index {w x y : List Byte} {hl ssrc seq n m : Nat} (hs : ssrc < 2 ^ 32) (hq : seq < 65536)
    (h1 : Srtp.unprotectRtp named Srtp.exampleDerived w hl ssrc seq n = .ok x) (h2 : Srtp.unprotectRtp named Srtp.exampleDerived w hl ssrc seq m = .ok y) :
    Srtp.rocOf n = Srtp.rocOf m := by
  have e := (named_tag h1).symm.trans (named_tag h2)
  have e := (List.append_inj e (by rw [gcmIv_length, gcmIv_length])).1
  exact (Srtp.C38_gcm_rtp Srtp.exampleDerived.salt rfl ssrc ssrc _ _ seq seq hs hs (by unfold Srtp.rocOf; omega) (by unfold Srtp.rocOf; omega) (by omega) (by omega) e).2.1

theorem wire_carries (o : Tx.Out) (h1 : o.pt < 128) (h2 : o.ssrc < 2 ^ 32) (h3 : o.seq16 = o.seqNo % 65536) : Carries demoCfg (wire o) o := by
  have hv : Rtp.Valid (demoHeader o) := by
    refine ⟨rfl, by simp [demoHeader], by simp [demoHeader], by simp [demoHeader], ?_, h1, by show o.seq16 < _; omega, by show _ % _ < _; omega, h2, ?_⟩
    · intro y hy
      simp [demoHeader] at hy
      omega
    · constructor <;> simp [demoHeader, Rtp.Vals.default]
  have hau : Rtp.AsciiUtf8 demoCfg.env := by
    intro s hs
    have : s.all (fun b => decide (b.val < 128)) = true := by simpa using hs
    show (if s.all (fun b => decide (b.val < 128)) then some (s.map (·.val)) else none) = _
    rw [if_pos this]
  have hus : Rtp.UserFits demoCfg.env demoCfg.exts (demoHeader o).extVals := by
    intro uri _
    constructor
    · show ([u8 _] : List Byte).length ≤ 255; simp
    · intro _; show ([u8 _] : List Byte).length ≤ 16; simp
  have hpad : (demoHeader o).hasPadding = true ↔ ∃ len, o.kind = .blank len := by
    show (match o.kind with | .blank _ => true | _ => false) = true ↔ _
    cases o.kind <;> simp
  obtain ⟨w, hl, e1, e0, e2⟩ := C85_carried demoCfg named_laws Srtp.exampleDerived rfl (demoHeader o) o rfl hv hau hus rfl rfl rfl rfl rfl hpad
  have hw : wire o = w := by
    unfold wire
    have : Srtp.sendRtp named Srtp.exampleDerived Rtp.exampleEnv Rtp.exampleMap (demoHeader o) o.body o.seqNo = .ok w := e1
    rw [this]
  rw [hw]
  refine e2 (fun n x hn hx => ?_)
  have := named_index (show (demoHeader o).ssrc < 2 ^ 32 from h2) (show o.seq16 < 65536 by omega) hx e0
  unfold Srtp.rocOf at this
  omega

/-- Three packets around the wrap of the sequence number; the second is asked for again. -/
def demoSend : List Tx.Op :=
  [.write { seqNo := 65534, payload := [1, 2], pt := 96, time := 3000, nackable := true }, .write { seqNo := 65535, payload := [3], pt := 96, time := 3000, marker := true, nackable := true },
   .write { seqNo := 65536, payload := [4], pt := 96, time := 6000, nackable := true },
   .timeout 0 none, .poll 0 20 [⟨96, some 97⟩] false, .poll 0 20 [⟨96, some 97⟩] false, .poll 0 20 [⟨96, some 97⟩] false, .nack [⟨65535, 0⟩], .poll 1 20 [⟨96, some 97⟩] false]

/-- What it sends -/
def demoOuts : List Tx.Out :=
  match Tx.run (Tx.new 7 (some 9) 5 none 1150 1 20) demoSend with
  | .ok (_, outs) => outs
  | _ => []

/-- A datagram made up without the key -/
def fake : List Byte := [u8 128, u8 96] ++ be16 5 ++ be32 100 ++ be32 7 ++ [1] ++ List.replicate 12 0 ++ List.replicate 4 0

/-- The first packet arrives, one that is made up, the third, the repeated second; then the first again and the second itself. -/
def demoRecv : List Rcv.Op :=
  (match demoOuts with
  | [p, q, r, z] => [Rcv.Op.packet 0 (wire p), .poll, .poll, .packet 1 fake, .packet 2 (wire r), .poll, .packet 3 (wire z), .poll, .packet 4 (wire p),
      .packet 5 (wire q), .poll]
  | _ => [])

example : Rcv.outcome demoCfg { rx := { ssrc := 7, rtx := some 9 } } demoRecv = some [(7, 65534, 3000, [1, 2]), (7, 65536, 6000, [4]), (7, 65535, 3000, [3])] := by
  decide +kernel

theorem fake_forged : Rcv.Forged demoCfg fake := by
  intro h d n x hp hd hx
  cases hd
  have hl : h.headerLen = 12 := by
    have : (match Rtp.Header.parse demoCfg.env demoCfg.exts fake with
      | .ok h => decide (h.headerLen = 12)
      | _ => true) = true := by decide +kernel
    rw [hp] at this
    simpa using this
  have e := congrArg (List.drop 12) (named_tag hx)
  rw [hl, List.drop_left' (gcmIv_length _ _ _)] at e
  revert e
  decide +kernel

/-- A test on all states of the demo -/
theorem demo_states (f : Rcv.Sess Nat → List (Rcv.Ev Nat) → Option Rcv.Op → Bool)
    (h : ∀ k < 12, (match Rcv.run demoCfg { rx := { ssrc := 7, rtx := some 9 } } (demoRecv.take k) with | .ok (s, es) => f s es demoRecv[k]? | _ => false) = true)
    {pre post : List Rcv.Op} (hp : demoRecv = pre ++ post) {s : Rcv.Sess Nat} {es : List (Rcv.Ev Nat)}
    (hr : Rcv.run demoCfg { rx := { ssrc := 7, rtx := some 9 } } pre = .ok (s, es)) : f s es post.head? = true := by
  have hlen : demoRecv.length = 11 := by decide +kernel
  have hk : pre.length < 12 := by
    have := congrArg List.length hp
    rw [hlen, List.length_append] at this
    omega
  have := h pre.length hk
  have e1 : demoRecv.take pre.length = pre := by rw [hp]; simp
  have e2 : demoRecv[pre.length]? = post.head? := by rw [hp, List.head?_eq_getElem?, List.getElem?_append_right (le_refl _), Nat.sub_self]
  rw [e1, hr, e2] at this
  exact this

/-- The hypotheses of C85 are met by that history -/
example : Agreed [⟨96, some 97⟩] demoCfg.params ∧ (∀ op ∈ demoSend, Keeps [⟨96, some 97⟩] op) ∧ (∃ t, Tx.run (Tx.new 7 (some 9) 5 none 1150 1 20) demoSend = .ok (t, demoOuts)) ∧
    (∀ o ∈ demoOuts, o.seqNo < 2 ^ 47) ∧ (∀ op ∈ demoRecv, Rcv.Steady op) ∧ Rcv.Drained demoCfg { rx := { ssrc := 7, rtx := some 9 } } demoRecv ∧
    Network demoCfg 7 9 demoOuts demoRecv ∧ Timely demoCfg { rx := { ssrc := 7, rtx := some 9 } } demoOuts demoRecv := by
  obtain ⟨p, q, r, z, ho⟩ : ∃ p q r z, demoOuts = [p, q, r, z] := ⟨_, _, _, _, rfl⟩
  have hrecv : demoRecv = [Rcv.Op.packet 0 (wire p), .poll, .poll, .packet 1 fake, .packet 2 (wire r), .poll, .packet 3 (wire z), .poll, .packet 4 (wire p),
      .packet 5 (wire q), .poll] := by unfold demoRecv; rw [ho]
  have hall : ∀ o ∈ demoOuts, o.pt < 128 ∧ o.ssrc < 2 ^ 32 ∧ o.seq16 = o.seqNo % 65536 ∧ o.seqNo < 2 ^ 47 ∧ ∀ n, o.kind = .resend n → n = 65535 := by
    have : demoOuts.all (fun o => decide (o.pt < 128) && (decide (o.ssrc < 2 ^ 32) && (decide (o.seq16 = o.seqNo % 65536) && (decide (o.seqNo < 2 ^ 47) &&
      (match o.kind with | .resend n => decide (n = 65535) | _ => true))))) = true := by decide +kernel
    intro o ho
    have := List.all_eq_true.1 this o ho
    simp only [Bool.and_eq_true, decide_eq_true_eq] at this
    obtain ⟨h1, h2, h3, h4, h5⟩ := this
    refine ⟨h1, h2, h3, h4, fun n hn => ?_⟩
    rw [hn] at h5
    simpa using h5
  have hcar : ∀ o ∈ demoOuts, Carries demoCfg (wire o) o := fun o ho => wire_carries o (hall o ho).1 (hall o ho).2.1 (hall o ho).2.2.1
  refine ⟨?_, ?_, ?_, fun o ho => (hall o ho).2.2.2.1, ?_, ?_, ?_, ?_⟩
  · intro p hp
    rw [List.mem_singleton.1 hp]
    refine ⟨fun q hq => ?_, fun r hr q hq => ?_⟩
    · rw [List.mem_singleton.1 hq]; simp
    · cases hr; rw [List.mem_singleton.1 hq]; simp
  · intro op hop
    simp only [demoSend, List.mem_cons, List.not_mem_nil, or_false] at hop
    rcases hop with rfl | rfl | rfl | rfl | rfl | rfl | rfl | rfl | rfl <;> trivial
  · exact ⟨_, rfl⟩
  · intro op hop
    rw [hrecv] at hop
    simp only [List.mem_cons, List.not_mem_nil, or_false] at hop
    rcases hop with rfl | rfl | rfl | rfl | rfl | rfl | rfl | rfl | rfl | rfl | rfl <;> trivial
  · intro pre now buf post e s es hr
    have := demo_states (fun s _ op => match op with | some (.packet _ _) => s.pending.isNone | _ => true) (by decide +kernel) e hr
    simpa using this
  · intro now buf hb
    rw [hrecv] at hb
    have m : ∀ o ∈ [p, q, r, z], Carries demoCfg (wire o) o := by rw [← ho]; exact hcar
    simp only [List.mem_cons, Rcv.Op.packet.injEq, reduceCtorEq, List.not_mem_nil, or_false, false_or] at hb
    rw [ho]
    rcases hb with ⟨_, rfl⟩ | ⟨_, rfl⟩ | ⟨_, rfl⟩ | ⟨_, rfl⟩ | ⟨_, rfl⟩ | ⟨_, rfl⟩
    · exact .inl ⟨p, by simp, m p (by simp)⟩
    · exact .inr (.inr ⟨fake_forged, Rcv.exampleCfg_labelled (buf := fake) (by decide +kernel) 0⟩)
    · exact .inl ⟨r, by simp, m r (by simp)⟩
    · exact .inl ⟨z, by simp, m z (by simp)⟩
    · exact .inl ⟨p, by simp, m p (by simp)⟩
    · exact .inl ⟨q, by simp, m q (by simp)⟩
  · intro pre now buf post s es e hr o ho _ n hn
    rw [(hall o ho).2.2.2.2 n hn]
    have := demo_states (fun s es _ => (Rcv.numbersOf s es).all fun m => decide (m < 65535 + 2 ^ 15) && decide (65535 < m + 2 ^ 15)) (by decide +kernel) e hr
    simp only [List.all_eq_true, Bool.and_eq_true, decide_eq_true_eq] at this
    refine ⟨by norm_num, fun _ => by norm_num, fun m hm => (this m hm).1, fun hne => ?_⟩
    obtain ⟨m, hm⟩ := List.exists_mem_of_ne_nil _ hne
    exact ⟨m, hm, (this m hm).2⟩

/-- Without the assumption that retransmissions are timely C85 fails: a retransmission of packet 40000 that the network delivers late, when
80000 has been handed over, is taken for packet 105536 (40000 is handed over a second time under that number), and then 80001 is refused. -/
theorem C85_violation_delayed_rtx : Rcv.outcome Rcv.exampleCfg { rx := { ssrc := 7, rtx := some 9 } }
    [.packet 0 (Rcv.datagram 96 7 40000 5000 [1]), .poll, .poll, .packet 1 (Rcv.datagram 96 7 60000 6000 [2]), .poll, .packet 2 (Rcv.datagram 96 7 80000 7000 [3]), .poll,
     .packet 3 (Rcv.datagram 97 9 50 5000 (be16 40000 ++ [1])), .poll, .packet 4 (Rcv.datagram 96 7 80001 7100 [4]), .poll] =
    some [(7, 40000, 5000, [1]), (7, 60000, 6000, [2]), (7, 80000, 7000, [3]), (7, 105536, 5000, [1])] := by
  decide +kernel

end Str0m.E2E

import Mathlib.Data.List.Chain
import Verif.Proofs.Repair
import Verif.Props.EndToEnd
/-
  C86: a packet that is asked for is sent again and handed over.
-/
namespace Str0m.Tx
open Str0m

/-- Where a history begins: a new stream with a cache for `m` packets of age up to `a` (the default is 2000 packets and three seconds) -/
def begin_ (ssrc x mid : Nat) (rid : Option Nat) (mtu s1 s2 m a : Nat) (cap : Bool) : Tx := setCache (new ssrc (some x) mid rid mtu s1 s2) m a cap

theorem begin_default (ssrc x mid : Nat) (rid : Option Nat) (mtu s1 s2 : Nat) :
    begin_ ssrc x mid rid mtu s1 s2 2000 3000000 true = new ssrc (some x) mid rid mtu s1 s2 := rfl

/-- **C86** (the sender): a NACK for a new packet that is among the last `m` sent and was sent at most `a` before the last of them is answered: at
the latest after as many polls as numbers were asked for so far, the packet has been sent again, on the RTX SSRC with the RTX payload type of its
payload type, as RFC 4588 says; whatever else is written, asked for or reported in between. -/
theorem C86_resent (ssrc x mid : Nat) (rid : Option Nat) (mtu s1 s2 m a : Nat) (cap : Bool) (ha : 0 < a) (hm : m ≤ 2 ^ 15)
    (P : List Param) (hP : ∀ p ∈ P, p.resend.isSome = true) (ops1 : List Op) (hv1 : ∀ op ∈ ops1, Video P op) (hclk : Clock 0 ops1) (s : Tx) (outs1 : List Out)
    (h1 : run (begin_ ssrc x mid rid mtu s1 s2 m a cap) ops1 = .ok (s, outs1)) (hsm : ∀ o ∈ outs1, o.seqNo < 2 ^ 64)
    (hfol : Following (timed (begin_ ssrc x mid rid mtu s1 s2 m a cap) ops1))
    (j now : Nat) (o : Out) (ho : (news (timed (begin_ ssrc x mid rid mtu s1 s2 m a cap) ops1)).reverse[j]? = some (o, now)) (hj : j < max 10 m)
    (hy : ∀ y ∈ news (timed (begin_ ssrc x mid rid mtu s1 s2 m a cap) ops1), y.2 ≤ now + a)
    (es : List NackEntry) (e : NackEntry) (he : e ∈ es) (hask : Asks e o.seq16) (ops2 : List Op) (hv2 : ∀ op ∈ ops2, Video P op ∧ Free op) (t : Tx) (outs2 : List Out)
    (h2 : run s (.nack es :: ops2) = .ok (t, outs2)) (hn : ((nacksOf ops1 ++ es).flatMap numbers).length ≤ polls ops2) :
    ∃ z ∈ outs2, Repeats z o ∧ z.ssrc = x ∧ z.isPadding = false ∧ ∃ p ∈ P, p.pt = o.pt ∧ p.resend = some z.pt := by
  obtain ⟨s0, hs0⟩ : ∃ s0, s0 = begin_ ssrc x mid rid mtu s1 s2 m a cap := ⟨_, rfl⟩
  rw [← hs0] at h1 hfol ho hy
  -- the cache
  have k0 : Kept m a { cache := .new m a } [] := by
    refine ⟨RtxObs.good_new _ _, rfl, fun _ i => ?_, fun _ _ _ h => (by cases h), fun _ _ _ _ h => (by cases h), fun _ _ _ _ h => (by cases h)⟩
    simp only [RtxCache.new, EvictingBuffer.slot, EvictingBuffer.new, List.getD_eq_getElem?_getD, List.getElem?_replicate]
    split <;> rfl
  have t0 : Tracked m a P s0 [] 0 := by
    rw [hs0]
    exact ⟨⟨_, k0, rfl, le_refl _⟩, rfl, fun i hi => by cases hi⟩
  obtain ⟨hout, now', tr⟩ := tracked_run ha hP ops1 s0 [] 0 s outs1 t0 hv1 hclk h1
  rw [List.append_nil] at tr
  -- what was sent
  have hsend : E2E.Sender ssrc x P (nacksOf ops1) s outs1 := by
    have := run_induct (E2E.Sender ssrc x P) (fun _ op => E2E.Keeps P op) asked (fun es s outs op t o hj hk hs => E2E.sender_step ssrc x P es s outs op t o hj hk hs)
      ops1 [] s0 [] s outs1 (by rw [hs0]; exact ⟨⟨cached_new _ _, fun n hn => by cases hn⟩, rfl, rfl, fun o ho => by cases ho⟩)
      (fun pre op post e => by
        have := hv1 op (by rw [e]; simp)
        cases op <;> first | exact this | trivial) h1
    rw [asked_fold] at this
    simpa using this
  have hque : Queued (nacksOf ops1) s outs1 := by
    have := run_induct Queued (fun _ _ => True) asked (fun es s outs op t o hj _ hs => queued_step es s outs op t o hj hs) ops1 [] s0 [] s outs1
      (by rw [hs0]; exact ⟨cached_new _ _, List.Sublist.refl _⟩) (fun _ _ _ _ => trivial) h1
    rw [asked_fold] at this
    simpa using this
  have hmem : (o, now) ∈ news (timed s0 ops1) := List.mem_reverse.1 (List.mem_iff_getElem?.2 ⟨j, ho⟩)
  have hreg : o.kind = .regular := by
    have := (List.mem_filter.1 hmem).2
    dsimp only at this
    split at this
    · assumption
    · cases this
  have hin : ∀ y ∈ news (timed s0 ops1), y.1 ∈ outs1 := by
    intro y hy
    rw [hout]
    exact List.mem_map.2 ⟨y, (List.mem_filter.1 hy).1, rfl⟩
  have hoin := hin _ hmem
  obtain ⟨hso, h16⟩ := hsend.sent o hoin
  -- it is cached
  obtain ⟨ob, kp, hcache, _⟩ := tr.obs
  have hcons : Consecutive ((news (timed s0 ops1)).map stored).reverse := by
    unfold Consecutive
    rw [List.isChain_reverse, List.isChain_map]
    exact hfol
  obtain ⟨y, rest, hl⟩ : ∃ y rest, ((news (timed s0 ops1)).map stored).reverse = y :: rest := by
    cases h : ((news (timed s0 ops1)).map stored).reverse with
    | nil =>
      have hnil : news (timed s0 ops1) = [] := by simpa using h
      rw [hnil] at hmem; cases hmem
    | cons y rest => exact ⟨y, rest, rfl⟩
  have hjl : ((news (timed s0 ops1)).map stored).reverse[j]? = some (packetOf o, now) := by
    rw [← List.map_reverse, List.getElem?_map, ho]; rfl
  obtain ⟨w, hw1, hw2⟩ : ∃ w ∈ news (timed s0 ops1), stored w = y := by
    have : y ∈ ((news (timed s0 ops1)).map stored).reverse := by rw [hl]; exact List.mem_cons_self ..
    exact List.mem_map.1 (List.mem_reverse.1 this)
  have hslot := (kp.keep hcons y.1 y.2 rest hl).2 j (packetOf o) now hjl hj (by rw [← hw2]; exact hy w hw1)
  have hnum := chain_number hcons hl j (packetOf o) now hjl
  have hlastp := kp.last hcons y.1 y.2 rest hl
  have hni : ¬ ob.cache.packets.isInert = true := by
    have h10 := kp.good.len.1
    simp only [EvictingBuffer.isInert, Bool.or_eq_true, List.isEmpty_iff, beq_iff_eq, kp.good.age]
    rintro (hc | hc)
    · rw [hc] at h10; simp at h10
    · omega
  have hget : s.cache.getBySeqNo o.seqNo = some (packetOf o) := by
    rw [← hcache]
    have : (packetOf o).seqNo = o.seqNo := rfl
    rw [this] at hslot
    simp [RtxCache.getBySeqNo, EvictingBuffer.get, hni, EvictingBuffer.indexFor, hslot]
  have hlast : s.cache.lastCached = some y.1.seqNo := by
    rw [← hcache]
    simp [RtxCache.lastCached, EvictingBuffer.lastPos, hni, hlastp]
  have hy64 : y.1.seqNo < 2 ^ 64 := by
    rw [← hw2]
    exact hsm w.1 (hin w hw1)
  have hnum' : y.1.seqNo = o.seqNo + j := hnum
  -- the request
  unfold run at h2
  obtain ⟨⟨s', o'⟩, hstep, h2⟩ := Pts.bind_eq_ok h2
  obtain ⟨⟨t', l'⟩, h2', h2⟩ := Pts.bind_eq_ok h2
  cases h2
  have hstep : (nack s es, none) = (s', o') := Res.ok.inj hstep
  cases hstep
  have hq2 := queued_step (nacksOf ops1) s outs1 (.nack es) (nack s es) none hque rfl
  obtain ⟨i, hi⟩ := nack_takes hlast hget (hsm o hoin) hy64 (by omega) (by omega) he (by rw [← h16]; exact hask)
  have hilt : i < polls ops2 := by
    have a1 := (List.getElem?_eq_some_iff.1 hi).1
    have a2 := hq2.2.length_le
    rw [List.length_append, List.length_map] at a2
    have a3 : asked (nacksOf ops1) (.nack es) = nacksOf ops1 ++ es := rfl
    rw [a3] at a2
    omega
  obtain ⟨lx, hlx⟩ := nack_eq s es
  have hptP : ∃ q ∈ P, q.pt = (packetOf o).info.pt := by
    cases hso with
    | media hk hs p hp hpt => exact ⟨p, hp, hpt⟩
    | resend r hr hrep hra hs p hp hpt hrs h16 => rw [hrep.number] at hreg; cases hreg
    | blank len hk hl hb hs p hp hrs => rw [hk] at hreg; cases hreg
  obtain ⟨z, hz, z1, z2, z3, z4, z5, z6, z7, q, hq, hq1, hq2⟩ := answered hP hptP ops2 (nack s es) i _ l' (by rw [hlx]; exact hsend.rtx) (by rw [hlx]; exact hget) hi hv2 hilt h2'
  refine ⟨z, List.mem_append_right _ hz, ⟨hreg, z1, ?_, z4, z5, z6⟩, z2, z7, q, hq, hq1, hq2⟩
  rw [z3, h16]; rfl

/-- The second of three packets is asked for: the hypotheses of `C86_resent` are met by this history. -/
example : (∀ op ∈ E2E.demoSend.take 7, Video [⟨96, some 97⟩] op) ∧ Clock 0 (E2E.demoSend.take 7) ∧
    Following (timed (begin_ 7 9 5 none 1150 1 20 2000 3000000 true) (E2E.demoSend.take 7)) ∧
    (∃ o, (news (timed (begin_ 7 9 5 none 1150 1 20 2000 3000000 true) (E2E.demoSend.take 7))).reverse[1]? = some (o, 0) ∧ Asks ⟨65535, 0⟩ o.seq16) ∧
    (∀ y ∈ news (timed (begin_ 7 9 5 none 1150 1 20 2000 3000000 true) (E2E.demoSend.take 7)), y.2 ≤ 0 + 3000000) ∧
    (∀ op ∈ E2E.demoSend.drop 8, Video [⟨96, some 97⟩] op ∧ Free op) ∧
    ((nacksOf (E2E.demoSend.take 7) ++ [(⟨65535, 0⟩ : NackEntry)]).flatMap numbers).length ≤ polls (E2E.demoSend.drop 8) ∧
    E2E.demoSend = E2E.demoSend.take 7 ++ .nack [⟨65535, 0⟩] :: E2E.demoSend.drop 8 ∧
    (∃ t outs, run (begin_ 7 9 5 none 1150 1 20 2000 3000000 true) E2E.demoSend = .ok (t, outs)) := by
  refine ⟨?_, ?_, ?_, ⟨_, rfl, .inl rfl⟩, ?_, ?_, by decide, rfl, ⟨_, _, rfl⟩⟩
  · intro op hop
    simp only [E2E.demoSend, List.take, List.mem_cons, List.not_mem_nil, or_false] at hop
    rcases hop with rfl | rfl | rfl | rfl | rfl | rfl | rfl <;> first | rfl | trivial
  · simp [E2E.demoSend, Clock]
  · obtain ⟨x, y, z, e, h1, h2⟩ : ∃ x y z, news (timed (begin_ 7 9 5 none 1150 1 20 2000 3000000 true) (E2E.demoSend.take 7)) = [x, y, z] ∧
      y.1.seqNo = x.1.seqNo + 1 ∧ z.1.seqNo = y.1.seqNo + 1 := ⟨_, _, _, rfl, rfl, rfl⟩
    unfold Following
    rw [e]
    simp [h1, h2]
  · obtain ⟨x, y, z, e, h1, h2, h3⟩ : ∃ x y z, news (timed (begin_ 7 9 5 none 1150 1 20 2000 3000000 true) (E2E.demoSend.take 7)) = [x, y, z] ∧
      x.2 = 0 ∧ y.2 = 0 ∧ z.2 = 0 := ⟨_, _, _, rfl, rfl, rfl, rfl⟩
    rw [e]
    simp [h1, h2, h3]
  · intro op hop
    simp only [E2E.demoSend, List.drop, List.mem_cons, List.not_mem_nil, or_false] at hop
    rcases hop with rfl
    exact ⟨rfl, rfl⟩

end Str0m.Tx

namespace Str0m.E2E
open Str0m Str0m.Rcv

variable {U : Type}

/-- **C86** (the receiver): the retransmission `z` of a packet `o` that was not handed over yet, and that is new on the RTX stream, is handed over
as the packet it repeats: number, bytes, payload type, time stamp and marker of `o`, on the SSRC of the media stream. -/
theorem C86_repaired (c : Cfg U) (hm : c.rtpMode = true) (a x : Nat) (ha : a ≠ 0) (hax : x ≠ a) (ops : List Op) (s : Sess U) (es : List (Ev U))
    (hrun : run c { rx := { ssrc := a, rtx := some x } } ops = .ok (s, es)) (hst : ∀ op ∈ ops, Steady op)
    (hlab : ∀ op ∈ ops, Labelled (· = a) (· = x) c op) (hdr : Drained c { rx := { ssrc := a, rtx := some x } } ops)
    (hc1 : Close (numbersOf s es)) (hc2 : Close (openedOn x s)) (hp : s.pending = none)
    (P : List Tx.Param) (hagree : Agreed P c.params) (o z : Tx.Out) (hz : Tx.Repeats z o) (hzx : z.ssrc = x) (h16 : o.seq16 = o.seqNo % 65536)
    (hz16 : z.seq16 = z.seqNo % 65536) (hz64 : z.seqNo < 2 ^ 64)
    (hpt : ∃ p ∈ P, p.pt = o.pt ∧ p.resend = some z.pt) (hknown : ∃ q ∈ c.params, q.resend = some z.pt)
    (now : Nat) (buf : List Byte) (hcar : Carries c buf z)
    (hop : ∃ h d, Rtp.Header.parse c.env c.exts buf = .ok h ∧ c.srtp = some d ∧
      Srtp.unprotectRtp c.prim d buf h.headerLen h.ssrc h.sequenceNumber z.seqNo = .ok z.body)
    (ht : Tells (openedOn x s) z.seqNo) (htk : Takes (openedOn x s) z.seqNo) (htn : Tells (numbersOf s es) o.seqNo) (hnew : Takes (numbersOf s es) o.seqNo) :
    ∃ s' p, step c s (.packet now buf) = .ok (s', []) ∧ s'.pending = some p ∧ Same p o.seqNo o.body o.pt o.time o.marker a ∧ p.at_ = now := by
  obtain ⟨h, d, hpar, hd, hopen⟩ := hop
  obtain ⟨h', hpar', k1, k2, k3, k4, k5, k6⟩ := hcar.header
  rw [hpar] at hpar'
  cases hpar'
  obtain ⟨p, hpP, hp1, hp2⟩ := hpt
  obtain ⟨q0, hq0, hq0r⟩ := hknown
  obtain ⟨q, hq⟩ : ∃ q, c.params.find? (fun p => p.pt == h.payloadType || p.resend == some h.payloadType) = some q := by
    cases hf : c.params.find? (fun p => p.pt == h.payloadType || p.resend == some h.payloadType) with
    | none =>
      have := List.find?_eq_none.1 hf q0 hq0
      simp [k3, hq0r] at this
    | some q => exact ⟨q, rfl⟩
  have hqm := List.mem_of_find?_eq_some hq
  have hqs := List.find?_some hq
  simp only [Bool.or_eq_true, beq_iff_eq] at hqs
  obtain ⟨hne, hsame⟩ := (hagree p hpP).2 _ hp2 q hqm
  have hqr : q.resend = some z.pt := by
    rcases hqs with h1 | h1
    · exact absurd (h1.trans k3) hne
    · rw [h1, k3]
  have hpad : h.hasPadding = false := by
    cases hb : h.hasPadding with
    | false => rfl
    | true =>
      obtain ⟨len, hl⟩ := k6.1 hb
      rw [hz.number] at hl; cases hl
  have hauth : Authentic c buf (h, z.seqNo, z.body) := by
    refine ⟨hpar, ?_, hz64, d, z.body, hd, hopen, fun _ => rfl, fun hb => ?_⟩
    · show z.seqNo % 65536 = h.sequenceNumber % 65536
      rw [k2, hz16]; omega
    · rw [show h.hasPadding = true from hb] at hpad; cases hpad
  have hbody : z.body = u8 (o.seqNo % 65536 / 256) :: u8 (o.seqNo % 65536) :: o.body := by
    rw [hz.body, h16]
    rfl
  obtain ⟨s', e1, e2, -⟩ := C82_repair c hm a x ha hax ops s es hrun hst hlab hdr hc1 hc2 hp now buf (h, z.seqNo, z.body) hauth (k1.trans hzx) q hq
    (by rw [k3]; exact hne) ht htk o.seqNo _ _ o.body hbody (by simp only [u8_val]; omega) htn
  obtain ⟨pk, f1, f2, f3, f4, f5, f6, f7, f8, f9⟩ := e2 hnew
  exact ⟨s', pk, e1, f1, ⟨f2, f8, by rw [f4, hsame hqr, hp1], by rw [f6, k4, hz.time], by rw [f7, k5, hz.marker], f3, f5⟩, f9⟩

/-- The receiver of the demo before the retransmission arrives, and the retransmission, meet the hypotheses of `C86_repaired`. -/
example : ∃ p q r z, demoOuts = [p, q, r, z] ∧ Tx.Repeats z q ∧ z.ssrc = 9 ∧ q.seq16 = q.seqNo % 65536 ∧ z.seq16 = z.seqNo % 65536 ∧
    (∃ t ∈ [(⟨96, some 97⟩ : Tx.Param)], t.pt = q.pt ∧ t.resend = some z.pt) ∧ (∃ t ∈ demoCfg.params, t.resend = some z.pt) ∧ Carries demoCfg (wire z) z ∧
    ∃ s es, run demoCfg { rx := { ssrc := 7, rtx := some 9 } } (demoRecv.take 6) = .ok (s, es) ∧ s.pending = none ∧ demoRecv[6]? = some (.packet 3 (wire z)) ∧
      Close (numbersOf s es) ∧ Close (openedOn 9 s) ∧ Tells (openedOn 9 s) z.seqNo ∧ Takes (openedOn 9 s) z.seqNo ∧ Tells (numbersOf s es) q.seqNo ∧
      Takes (numbersOf s es) q.seqNo := by
  obtain ⟨p, q, r, z, ho⟩ : ∃ p q r z, demoOuts = [p, q, r, z] := ⟨_, _, _, _, rfl⟩
  have hqz : (match demoOuts with
      | [_, q, _, z] => decide (q.seqNo = 65535 ∧ q.seq16 = 65535 ∧ q.pt = 96 ∧ z.seqNo = 20 ∧ z.seq16 = 20 ∧ z.pt = 97 ∧ z.ssrc = 9 ∧ z.time = q.time ∧ z.marker = q.marker ∧
          z.body = be16 65535 ++ q.body) && (match q.kind, z.kind with | .regular, .resend n => decide (n = 65535) | _, _ => false)
      | _ => false) = true := by decide +kernel
  have hext : ∃ p q r z, demoOuts = [p, q, r, z] ∧ z.ext = q.ext := ⟨_, _, _, _, rfl, rfl⟩
  rw [ho] at hqz hext
  obtain ⟨_, _, _, _, e, hext⟩ := hext
  cases e
  simp only [Bool.and_eq_true, decide_eq_true_eq] at hqz
  obtain ⟨⟨h1, h2, h3, h4, h5, h6, h7, h8, h9, h10⟩, h11⟩ := hqz
  have hk : q.kind = .regular ∧ z.kind = .resend 65535 := by
    split at h11
    · rename_i n e1 e2
      rw [of_decide_eq_true h11] at e2
      exact ⟨e1, e2⟩
    · cases h11
  refine ⟨p, q, r, z, ho, ⟨hk.1, by rw [h1]; exact hk.2, by rw [h10, h2], h8, h9, hext⟩, h7, by rw [h1, h2], by rw [h4, h5],
    ⟨_, List.mem_singleton.2 rfl, h3.symm, by rw [h6]⟩, ⟨_, List.mem_singleton.2 rfl, by rw [h6]⟩,
    wire_carries z (by omega) (by omega) (by omega), ?_⟩
  have key : (match run demoCfg { rx := { ssrc := 7, rtx := some 9 } } (demoRecv.take 6) with
      | .ok (s, es) => s.pending.isNone && decide (numbersOf s es = [65534, 65536]) && decide (openedOn 9 s = [])
      | _ => false) = true := by decide +kernel
  generalize hr : run demoCfg { rx := { ssrc := 7, rtx := some 9 } } (demoRecv.take 6) = w at key
  match w, key with
  | .ok (s, es), key =>
    simp only [Bool.and_eq_true, Option.isNone_iff_eq_none, decide_eq_true_eq] at key
    obtain ⟨⟨k1, k2⟩, k3⟩ := key
    refine ⟨s, es, rfl, k1, by unfold demoRecv; rw [ho]; rfl, ?_⟩
    rw [k2, k3, h1, h4]
    refine ⟨?_, ?_, ?_, ?_, ?_, ?_⟩
    · intro pre n post e
      match pre, e with
      | [], _ => exact .inl rfl
      | [a], e => simp only [List.cons_append, List.nil_append, List.cons.injEq] at e; exact .inr ⟨a, by simp, by omega⟩
      | a :: b :: l, e => simp at e
    · intro pre n post e
      simp at e
    · simp [Tells]
    · simp [Takes]
    · simp [Tells]
    · simp [Takes]

end Str0m.E2E

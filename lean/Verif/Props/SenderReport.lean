import Verif.Model.SenderReport
import Verif.Model.StreamRx
import Verif.Props.StreamTxOrder
import Verif.Props.Extend
import Verif.Props.MediaTime
import Verif.Proofs.RtcpRound
import Verif.Props.Rtt
/-
  C89: what a sender report says about the media time and the packets.
-/
namespace Str0m.Sr
open Str0m Str0m.Tx Str0m.Pts

/-! ### Specification -/

/-- The operation writes packets with this RTP time -/
def Writes (t : Nat) : Tx.Op → Prop
  | .write w => w.time = t
  | .frame f cs => f.time = t ∧ cs ≠ []
  | _ => False

/-- The operation writes nothing, and the SSRC stays -/
def Quiet : Tx.Op → Prop
  | .write _ => False
  | .frame _ cs => cs = []
  | .resetSsrc _ _ _ _ => False
  | _ => True

/-- The bytes of the media in a datagram: without the two bytes of the original number that a retransmission has (RFC 4588) -/
def mediaBytes (o : Out) : Nat :=
  match o.kind with
  | .regular => o.body.length
  | .resend _ => o.body.length - 2
  | .blank _ => 0

/-- All payload types used are those of the media, and the SSRC stays -/
def Proper (P : List Param) : Tx.Op → Prop
  | .write w => w.pt ∈ P.map (·.pt)
  | .frame f _ => f.pt ∈ P.map (·.pt)
  | .poll _ _ params _ => params = P
  | .resetSsrc _ _ _ _ => False
  | _ => True

/-! ### The time -/

theorem rebase_same (n c : Nat) : MediaTime.rebase ⟨n, c⟩ c = ⟨n, c⟩ := if_pos rfl
theorem rebase_other {n c d : Nat} (h : d ≠ c) : MediaTime.rebase ⟨n, c⟩ d = ⟨n * d / c % 2 ^ 64, d⟩ := if_neg h

theorem rtp_err {t c d : Nat} (ht : t < 2 ^ 32) (hc : 0 < c) (hc' : c < 2 ^ 32) (hd : d < 2 ^ 60) :
    ∃ x : MediaTime, MediaTime.add ⟨t, c⟩ (.ofDurationMicros (d / 1000)) = .ok x ∧ (x.rebase c).numer * 10 ^ 9 ≤ t * 10 ^ 9 + d * c ∧
      t * 10 ^ 9 + d * c < ((x.rebase c).numer + 1) * 10 ^ 9 + 2000 * c := by
  obtain ⟨u, hu⟩ : ∃ u, u = d / 1000 := ⟨_, rfl⟩
  have hu1 : u * 1000 ≤ d := by omega
  have hu2 : d < u * 1000 + 1000 := by omega
  have huc1 : u * 1000 * c ≤ d * c := Nat.mul_le_mul_right _ hu1
  have huc2 : d * c ≤ (u * 1000 + 1000) * c := Nat.mul_le_mul_right _ hu2.le
  have huc2' : d * c < (u * 1000 + 1000) * c := (Nat.mul_lt_mul_right hc).2 hu2
  have hum : u % 2 ^ 64 = u := Nat.mod_eq_of_lt (by omega)
  rw [← hu]
  unfold MediaTime.add MediaTime.ofDurationMicros MediaTime.sameBase
  rw [hum]
  dsimp only
  rcases Nat.lt_trichotomy c 1000000 with h | h | h
  · rw [Nat.max_eq_right h.le]
    rw [rebase_other (by omega), rebase_same]
    dsimp only
    obtain ⟨a, ha⟩ : ∃ a, a = t * 1000000 / c := ⟨_, rfl⟩
    have ha1 : a * c ≤ t * 1000000 := by rw [ha]; exact Nat.div_mul_le_self _ _
    have ha2 : t * 1000000 < a * c + c := by rw [ha]; exact Nat.lt_div_mul_add hc
    have ha3 : a ≤ t * 1000000 := by rw [ha]; exact Nat.div_le_self _ _
    rw [← ha, Nat.mod_eq_of_lt (by omega : a < 2 ^ 64), if_pos (by omega)]
    refine ⟨_, rfl, ?_⟩
    rw [rebase_other (by omega)]
    dsimp only
    have hlt : (a + u) * c / 1000000 < 2 ^ 64 := by
      refine lt_of_le_of_lt (Nat.div_le_div_right (Nat.mul_le_mul_left _ h.le)) ?_
      rw [Nat.mul_div_cancel _ (by norm_num)]
      omega
    rw [Nat.mod_eq_of_lt hlt]
    obtain ⟨r, hr⟩ : ∃ r, r = (a + u) * c / 1000000 := ⟨_, rfl⟩
    have hr1 : r * 1000000 ≤ (a + u) * c := by rw [hr]; exact Nat.div_mul_le_self _ _
    have hr2 : (a + u) * c < r * 1000000 + 1000000 := by rw [hr]; exact Nat.lt_div_mul_add (by norm_num)
    rw [← hr]
    rw [Nat.add_mul] at hr1 hr2
    constructor
    · linarith
    · linarith
  · subst h
    rw [Nat.max_self, rebase_same, rebase_same]
    dsimp only
    rw [if_pos (by omega)]
    refine ⟨_, rfl, ?_⟩
    rw [rebase_same]
    dsimp only
    constructor <;> linarith
  · rw [Nat.max_eq_left h.le]
    rw [rebase_same, rebase_other (by omega)]
    dsimp only
    obtain ⟨r, hr⟩ : ∃ r, r = u * c / 1000000 := ⟨_, rfl⟩
    have hr1 : r * 1000000 ≤ u * c := by rw [hr]; exact Nat.div_mul_le_self _ _
    have hr2 : u * c < r * 1000000 + 1000000 := by rw [hr]; exact Nat.lt_div_mul_add (by norm_num)
    have hlt : r < 2 ^ 63 := by
      have h1 : u * c ≤ (2 ^ 60 / 1000) * 2 ^ 32 := Nat.mul_le_mul (by omega) hc'.le
      omega
    rw [← hr, Nat.mod_eq_of_lt (by omega : r < 2 ^ 64), if_pos (by omega)]
    refine ⟨_, rfl, ?_⟩
    rw [rebase_same]
    dsimp only
    constructor
    · linarith
    · linarith

/-! ### Histories -/

theorem step_ok {rate : Nat → Nat} {s t : Stream} {o : Op} {x : Option Out} (h : step rate s o = .ok (t, x)) :
    Tx.step s.tx o.op = .ok (t.tx, x) ∧ t.last = lastAfter s.last o ∧ t.clock = clockAfter rate s.clock x ∧
      (t.packets, t.bytes) = countAfter s o.op := by
  unfold step at h
  obtain ⟨⟨u, y⟩, h1, h2⟩ := bind_eq_ok h
  cases h2
  exact ⟨h1, rfl, rfl, rfl⟩

theorem run_spec {rate : Nat → Nat} : ∀ (ops : List Op) (s t : Stream) (outs : List Out), run rate s ops = .ok (t, outs) →
    Tx.run s.tx (ops.map (·.op)) = .ok (t.tx, outs) ∧ t.last = ops.foldl lastAfter s.last ∧
      t.clock = outs.foldl (fun c o => clockAfter rate c (some o)) s.clock := by
  intro ops
  induction ops with
  | nil => intro s t outs h; cases h; exact ⟨rfl, rfl, rfl⟩
  | cons o ops ih =>
    intro s t outs h
    unfold run at h
    obtain ⟨⟨u, x⟩, h1, h2⟩ := bind_eq_ok h
    obtain ⟨⟨v, l⟩, h3, h4⟩ := bind_eq_ok h2
    cases h4
    obtain ⟨a1, a2, a3, -⟩ := step_ok h1
    obtain ⟨b1, b2, b3⟩ := ih u v l h3
    refine ⟨?_, by rw [b2, a2]; rfl, ?_⟩
    · rw [List.map_cons]
      unfold Tx.run
      rw [a1]
      show (Tx.run u.tx (ops.map (·.op))).bind _ = _
      rw [b1]
      rfl
    · rw [b3, a3]
      cases x with
      | none => rfl
      | some y => simp

theorem quiet_last {l : Option (Nat × Nat)} : ∀ (ops : List Op), (∀ o ∈ ops, Quiet o.op) → ops.foldl lastAfter l = l := by
  intro ops
  induction ops generalizing l with
  | nil => intro _; rfl
  | cons o ops ih =>
    intro h
    have h1 := h o (List.mem_cons_self ..)
    rw [List.foldl_cons]
    have : lastAfter l o = l := by
      unfold lastAfter
      cases he : o.op <;> rw [he] at h1 <;> try rfl
      · exact h1.elim
      · rename_i f cs
        have h1 : cs = [] := h1
        rw [h1]
      · exact h1.elim
    rw [this]
    exact ih (fun o ho => h o (List.mem_cons_of_mem _ ho))

theorem quiet_clock {rate : Nat → Nat} {c : Option Nat} : ∀ (outs : List Out), (∀ o ∈ outs, o.kind ≠ .regular) →
    outs.foldl (fun c o => clockAfter rate c (some o)) c = c := by
  intro outs
  induction outs generalizing c with
  | nil => intro _; rfl
  | cons o outs ih =>
    intro h
    rw [List.foldl_cons]
    have : clockAfter rate c (some o) = c := by
      show (if o.kind = .regular then _ else c) = c
      rw [if_neg (h o (List.mem_cons_self ..))]
    rw [this]
    exact ih (fun o ho => h o (List.mem_cons_of_mem _ ho))

/-- **C89**, time: the last packets written had RTP time `t` and wallclock `w`, the last packet sent had clock rate `c`. The RTP time in a sender report is
that of the NTP time in it, on the line through `(w, t)`: it is `t + (now - w) * c / 10^9`, and too small by less than a tick and two
microseconds. -/
theorem C89_time (rate : Nat → Nat) (tx : Tx) (pre post : List Op) (op : Op) (t : Nat) (s : Stream) (a b : List Out) (o : Out) (now : Nat)
    (hw : Writes t op.op) (hq : ∀ o ∈ post, Quiet o.op) (hrun : run rate { tx := tx } (pre ++ op :: post) = .ok (s, a ++ o :: b))
    (ho : o.kind = .regular) (hb : ∀ o ∈ b, o.kind ≠ .regular) (ht : t < 2 ^ 32) (hc : 0 < rate o.pt) (hc' : rate o.pt < 2 ^ 32)
    (hnow : op.wall ≤ now) (hd : now - op.wall < 2 ^ 60) :
    ∃ r packets bytes, senderInfo s now = .ok { ssrc := s.tx.ssrc, ntp := Rtt.asNtp64 now, rtpTime := r % 2 ^ 32, packetCount := packets, octetCount := bytes } ∧
      r * 10 ^ 9 ≤ t * 10 ^ 9 + (now - op.wall) * rate o.pt ∧ t * 10 ^ 9 + (now - op.wall) * rate o.pt < (r + 1) * 10 ^ 9 + 2000 * rate o.pt := by
  obtain ⟨-, h2, h3⟩ := run_spec _ _ _ _ hrun
  have hl : s.last = some (t, op.wall) := by
    rw [h2, List.foldl_append, List.foldl_cons, quiet_last _ hq]
    unfold lastAfter
    cases he : op.op <;> rw [he] at hw <;> try exact hw.elim
    · rename_i w
      have hw : w.time = t := hw
      show some (w.time, op.wall) = _
      rw [hw]
    · rename_i f cs
      obtain ⟨e1, e2⟩ : f.time = t ∧ cs ≠ [] := hw
      cases cs with
      | nil => exact absurd rfl e2
      | cons => rw [← e1]
  have hk : s.clock = some (rate o.pt) := by
    rw [h3, List.foldl_append, List.foldl_cons, quiet_clock _ hb]
    show (if o.kind = .regular then _ else _) = _
    rw [if_pos ho]
  obtain ⟨x, e1, e2, e3⟩ := rtp_err ht hc hc' hd
  refine ⟨(x.rebase (rate o.pt)).numer, s.packets % 2 ^ 32, s.bytes % 2 ^ 32, ?_, e2, e3⟩
  unfold senderInfo currentRtpTime
  rw [hl, hk]
  dsimp only
  rw [if_neg (by omega), e1]
  rfl

/-! ### The counters -/

/-- What waits and what is cached has a payload type of the media -/
structure Known (P : List Param) (s : Tx) : Prop where
  infos : ∀ x ∈ s.infos, x.2.pt ∈ P.map (·.pt)
  cache : Cached (fun p => p.info.pt ∈ P.map (·.pt)) s.cache
  len : s.queue.queue.length = s.infos.length

theorem find_known {P : List Param} {pt : Nat} (h : pt ∈ P.map (·.pt)) : ∃ p, P.find? (fun p => decide (p.pt = pt)) = some p := by
  obtain ⟨p, hp, he⟩ := List.mem_map.1 h
  cases hf : P.find? (fun p => decide (p.pt = pt)) with
  | some q => exact ⟨q, rfl⟩
  | none => exact absurd (List.find?_eq_none.1 hf p hp) (by simp [he])

/-- What `poll_packet` counts is what it sends, unless it is padding -/
def Counts (x : Option Nat) : Option (Next × Bool) → Prop
  | some (n, false) => x = some n.payload.length ∧ (∀ l, n.kind ≠ .blank l)
  | _ => x = none

theorem pollNext_counts {s t : Tx} {now : Nat} {over : Bool} {n : Option (Next × Bool)} (h : pollNext s now over = .ok (t, n)) : Counts (counted s over) n := by
  unfold pollNext at h
  obtain ⟨⟨s1, n1⟩, h1, h⟩ := bind_eq_ok h
  have hq : s1.queue = s.queue := by
    unfold pollResend at h1
    split at h1
    · cases h1; rfl
    · split at h1
      · cases h1; rfl
      · split at h1
        · cases h1; rfl
        · cases h1
  unfold counted
  rw [h1]
  cases n1 with
  | some m =>
    cases h
    refine ⟨rfl, ?_⟩
    unfold pollResend at h1
    split at h1
    · cases h1
    · split at h1
      · cases h1
      · split at h1
        · cases h1
          intro l e
          cases e
        · cases h1
  | none =>
    dsimp only
    unfold orRegular pollRegular at h
    dsimp only at h
    rw [hq] at h
    cases hp : s.queue.peek with
    | some p =>
      rw [hp] at h
      cases h
      exact ⟨rfl, fun l e => by cases e⟩
    | none =>
      rw [hp] at h
      unfold orPadding at h
      dsimp only at h
      obtain ⟨⟨u, m⟩, h2, h⟩ := bind_eq_ok h
      cases h
      cases m with
      | none => rfl
      | some m => rfl

theorem head_known {P : List Param} {s : Tx} (k : Known P s) {q : QPacket} (hq : s.queue.peek = some q) : (headInfo s).2.pt ∈ P.map (·.pt) := by
  unfold SendQueue.peek at hq
  have hl := k.len
  have hi := k.infos
  unfold headInfo
  cases hs : s.infos with
  | nil =>
    rw [hs] at hl
    rw [List.length_eq_zero_iff.1 hl] at hq
    cases hq
  | cons x l =>
    exact hi x (by rw [hs]; exact List.mem_cons_self ..)

theorem pollNext_known {P : List Param} {s t : Tx} {now : Nat} {over : Bool} {n : Next} (k : Known P s) (h : pollNext s now over = .ok (t, some (n, false))) :
    n.info.pt ∈ P.map (·.pt) := by
  unfold pollNext at h
  obtain ⟨⟨s1, n1⟩, h1, h⟩ := bind_eq_ok h
  unfold pollResend at h1
  have hz : ∀ rs, orRegular now ({ s with resends := rs }, none) = .ok (t, some (n, false)) → n.info.pt ∈ P.map (·.pt) := by
    intro rs h
    unfold orRegular pollRegular at h
    dsimp only at h
    cases hp : s.queue.peek with
    | some p =>
      rw [hp] at h
      cases h
      exact head_known (s := s) k hp
    | none =>
      rw [hp] at h
      unfold orPadding at h
      dsimp only at h
      obtain ⟨⟨u, m⟩, h2, h⟩ := bind_eq_ok h
      cases m <;> cases h
  split at h1
  · cases h1; exact hz _ h
  · split at h1
    · cases h1; exact hz _ h
    · rename_i p rest hf
      split at h1
      · cases h1
        cases h
        obtain ⟨m, hs, hm⟩ := firstCached_some hf
        exact (k.cache.get hm).2
      · cases h1

theorem pollNext_pad {s t : Tx} {now : Nat} {over : Bool} {n : Next} (h : pollNext s now over = .ok (t, some (n, true))) : n.kind ≠ .regular := by
  obtain ⟨rs, pd, -, hp⟩ := pollNext_ok h
  cases hp <;> intro e <;> cases e

/-- A poll counts the datagram it makes, if that is not padding. -/
theorem poll_counts {P : List Param} {s t : Tx} {now hdr : Nat} {over : Bool} {o : Option Out} (k : Known P s) (h : poll s now hdr P over = .ok (t, o)) :
    counted s over = (o.filter (fun o => !o.isPadding)).map mediaBytes := by
  unfold poll at h
  obtain ⟨⟨s1, n⟩, h1, h⟩ := bind_eq_ok h
  have hc := pollNext_counts h1
  match n, h1, hc, h with
  | none, h1, hc, h =>
    have hc : counted s over = none := hc
    cases h
    rw [hc]; rfl
  | some (n, true), h1, hc, h =>
    have hc : counted s over = none := hc
    rw [hc]
    unfold finishPoll sendNext at h
    dsimp only at h
    have hpad : ∀ o', o = some o' → o'.isPadding = true := by
      intro o' e
      subst e
      split at h
      · unfold dropUnknown at h
        split at h
        · obtain ⟨r, -, h⟩ := bind_eq_ok h
          cases h
        · cases h
      · split at h
        · rename_i hk
          exfalso
          have := pollNext_pad h1
          rw [hk] at this
          exact this rfl
        · unfold sendRtx at h
          split at h
          · split at h
            · cases h
            · cases h; rfl
          · cases h
    cases o with
    | none => rfl
    | some o' => simp [Option.filter, hpad o' rfl]
  | some (n, false), h1, hc, h =>
    obtain ⟨hc, hb⟩ : counted s over = some n.payload.length ∧ (∀ l, n.kind ≠ .blank l) := hc
    rw [hc]
    unfold finishPoll sendNext at h
    dsimp only at h
    obtain ⟨p, hp⟩ := find_known (pollNext_known k h1)
    rw [hp] at h
    dsimp only at h
    split at h
    · rename_i hk
      unfold sendRegular at h
      dsimp only at h
      split at h
      · cases h
      · obtain ⟨u, -, h⟩ := bind_eq_ok h
        cases h
        simp [Option.filter, regularOut, mediaBytes, bodyOf, hk]
    · rename_i hk
      unfold sendRtx at h
      split at h
      · split at h
        · cases h
        · cases h
          cases hk' : n.kind with
          | regular => exact absurd hk' hk
          | blank l => exact absurd hk' (hb l)
          | resend x => simp [Option.filter, rtxOut, mediaBytes, bodyOf, hk']
      · cases h

theorem known_chunks {P : List Param} (f : Frame) (hf : f.pt ∈ P.map (·.pt)) (cs : List (List Byte)) : ∀ (first : Bool) (s : Tx),
    (∀ x ∈ s.infos, x.2.pt ∈ P.map (·.pt)) → ∀ x ∈ (pushChunks s f first cs).infos, x.2.pt ∈ P.map (·.pt) := by
  induction cs with
  | nil => intro _ s h; exact h
  | cons c cs ih =>
    intro first s h
    refine ih false _ ?_
    intro x hx
    unfold pushChunk Tx.write at hx
    rcases List.mem_append.1 hx with hx | hx
    · exact h x hx
    · rw [List.mem_singleton.1 hx]; exact hf

theorem known_step {P : List Param} {s t : Tx} {op : Tx.Op} {o : Option Out} (k : Known P s) (hp : Proper P op) (h : Tx.step s op = .ok (t, o)) : Known P t := by
  have hlen := len_step s op t o k.len h
  cases op with
  | write w =>
    cases h
    refine ⟨fun x hx => ?_, k.cache, hlen⟩
    rcases List.mem_append.1 hx with hx | hx
    · exact k.infos x hx
    · rw [List.mem_singleton.1 hx]; exact hp
  | frame f cs =>
    cases h
    refine ⟨known_chunks f hp cs true s k.infos, ?_, hlen⟩
    obtain ⟨q, i, n, e⟩ := pushChunks_eq f cs true s
    rw [e]; exact k.cache
  | timeout now pt =>
    obtain ⟨u, h1, h2⟩ := bind_eq_ok h
    cases h2
    obtain ⟨x, q, -, e⟩ := timeout_eq h1
    exact ⟨by rw [e]; exact k.infos, by rw [e]; exact k.cache, hlen⟩
  | poll now hdr params over =>
    have hp : params = P := hp
    subst hp
    obtain ⟨rs, pd, -, hpo⟩ := poll_ok h
    have hdrop : ∀ x ∈ s.infos.drop 1, x.2.pt ∈ params.map (·.pt) := fun x hx => k.infos x (List.mem_of_mem_drop hx)
    cases hpo with
    | none n => exact ⟨k.infos, k.cache, hlen⟩
    | dropped q r hq hpp hu => exact ⟨hdrop, k.cache, hlen⟩
    | regular q r p c i hq hr hf hi hc hfit =>
      refine ⟨hdrop, ?_, hlen⟩
      rcases hc with ⟨-, hc⟩ | ⟨-, hc⟩
      · refine k.cache.sent ?_ hc
        have : i.pt = (headInfo s).2.pt := by rw [hi]; show (announced s (headInfo s).2).pt = _; unfold announced; split <;> rfl
        show i.pt ∈ _
        rw [this]
        exact head_known k hq
      · rw [hc]; exact k.cache
    | resend p m pad hg pp pt ssrc hf hpt hr hs => exact ⟨k.infos, k.cache, hlen⟩
    | blank pm len hl hm pp pt ssrc hf hpt hr => exact ⟨k.infos, k.cache, hlen⟩
  | nack es =>
    cases h
    obtain ⟨l, e⟩ := nack_eq s es
    exact ⟨by rw [e]; exact k.infos, by rw [e]; exact k.cache, hlen⟩
  | report x =>
    cases h
    obtain ⟨a, b, e⟩ := report_eq s x
    exact ⟨by rw [e]; exact k.infos, by rw [e]; exact k.cache, hlen⟩
  | padding n =>
    cases h
    obtain ⟨a, e⟩ := padding_eq s n
    exact ⟨by rw [e]; exact k.infos, by rw [e]; exact k.cache, hlen⟩
  | setCache m a c =>
    cases h
    exact ⟨k.infos, cached_new m a, hlen⟩
  | resetBuffers =>
    cases h
    exact ⟨fun x hx => (by cases hx), cached_clear _, hlen⟩
  | resetSsrc a b c d => exact hp.elim

/-- The datagrams that are not padding -/
def real (outs : List Out) : List Out := outs.filter (fun o => !o.isPadding)

theorem counts_run {rate : Nat → Nat} {P : List Param} : ∀ (ops : List Op) (s t : Stream) (outs : List Out), Known P s.tx → (∀ o ∈ ops, Proper P o.op) →
    run rate s ops = .ok (t, outs) → t.packets = s.packets + (real outs).length ∧ t.bytes = s.bytes + ((real outs).map mediaBytes).sum := by
  intro ops
  induction ops with
  | nil => intro s t outs _ _ h; cases h; exact ⟨rfl, rfl⟩
  | cons o ops ih =>
    intro s t outs k hp h
    unfold run at h
    obtain ⟨⟨u, x⟩, h1, h2⟩ := bind_eq_ok h
    obtain ⟨⟨v, l⟩, h3, h4⟩ := bind_eq_ok h2
    cases h4
    obtain ⟨a1, -, -, a4⟩ := step_ok h1
    have hpo := hp o (List.mem_cons_self ..)
    obtain ⟨b1, b2⟩ := ih u v l (known_step k hpo a1) (fun o ho => hp o (List.mem_cons_of_mem _ ho)) h3
    have hreal : real (x.toList ++ l) = (x.filter (fun o => !o.isPadding)).toList ++ real l := by
      unfold real
      rw [List.filter_append]
      cases x with
      | none => rfl
      | some y =>
        simp only [Option.toList, Option.filter, List.filter_cons, List.filter_nil]
        split <;> rfl
    have hsum : u.packets = s.packets + (x.filter (fun o => !o.isPadding)).toList.length ∧
        u.bytes = s.bytes + ((x.filter (fun o => !o.isPadding)).toList.map mediaBytes).sum := by
      have hsame : x = none → (u.packets, u.bytes) = (s.packets, s.bytes) → u.packets = s.packets + (x.filter (fun o => !o.isPadding)).toList.length ∧
          u.bytes = s.bytes + ((x.filter (fun o => !o.isPadding)).toList.map mediaBytes).sum := by
        intro e1 e2
        obtain ⟨e2, e3⟩ := Prod.mk.inj e2
        subst e1
        exact ⟨e2, e3⟩
      cases he : o.op with
      | poll now hdr params over =>
        rw [he] at a1 a4 hpo
        have hpo : params = P := hpo
        subst hpo
        have hc := poll_counts k a1
        unfold countAfter at a4
        dsimp only at a4
        rw [hc] at a4
        cases hx : x.filter (fun o => !o.isPadding) with
        | none =>
          rw [hx] at a4
          obtain ⟨e1, e2⟩ := Prod.mk.inj a4
          exact ⟨e1, e2⟩
        | some y =>
          rw [hx] at a4
          obtain ⟨e1, e2⟩ := Prod.mk.inj a4
          exact ⟨e1, by rw [e2]; simp⟩
      | resetSsrc a b c d => rw [he] at hpo; exact hpo.elim
      | write w => rw [he] at a1 a4; exact hsame (congrArg Prod.snd (Res.ok.inj a1)).symm a4
      | frame f cs => rw [he] at a1 a4; exact hsame (congrArg Prod.snd (Res.ok.inj a1)).symm a4
      | timeout now pt =>
        rw [he] at a1 a4
        obtain ⟨y, -, h2⟩ := bind_eq_ok a1
        exact hsame (congrArg Prod.snd (Res.ok.inj h2)).symm a4
      | nack es => rw [he] at a1 a4; exact hsame (congrArg Prod.snd (Res.ok.inj a1)).symm a4
      | report y => rw [he] at a1 a4; exact hsame (congrArg Prod.snd (Res.ok.inj a1)).symm a4
      | padding n => rw [he] at a1 a4; exact hsame (congrArg Prod.snd (Res.ok.inj a1)).symm a4
      | setCache m a c => rw [he] at a1 a4; exact hsame (congrArg Prod.snd (Res.ok.inj a1)).symm a4
      | resetBuffers => rw [he] at a1 a4; exact hsame (congrArg Prod.snd (Res.ok.inj a1)).symm a4
    rw [hreal, List.length_append, List.map_append, List.sum_append, b1, b2, hsum.1, hsum.2]
    omega

theorem known_new (P : List Param) (ssrc : Nat) (rtx : Option Nat) (mid : Nat) (rid : Option Nat) (mtu s1 s2 : Nat) : Known P (Tx.new ssrc rtx mid rid mtu s1 s2) :=
  ⟨fun x hx => (by cases hx), cached_new _ _, rfl⟩

/-- **C89**, counters: a sender report counts the datagrams sent so far that are not padding, and the bytes of media in them. -/
theorem C89_counts (rate : Nat → Nat) (P : List Param) (ssrc : Nat) (rtx : Option Nat) (mid : Nat) (rid : Option Nat) (mtu s1 s2 : Nat) (ops : List Op)
    (s : Stream) (outs : List Out) (hp : ∀ o ∈ ops, Proper P o.op) (hrun : run rate { tx := Tx.new ssrc rtx mid rid mtu s1 s2 } ops = .ok (s, outs))
    (now : Nat) (i : Rtcp.SenderInfo) (hi : senderInfo s now = .ok i) :
    i.packetCount = (outs.filter (fun o => !o.isPadding)).length % 2 ^ 32 ∧
    i.octetCount = ((outs.filter (fun o => !o.isPadding)).map mediaBytes).sum % 2 ^ 32 := by
  obtain ⟨h1, h2⟩ := counts_run ops _ _ _ (known_new P ..) hp hrun
  rw [Nat.zero_add] at h1 h2
  unfold senderInfo at hi
  obtain ⟨t, -, hi⟩ := bind_eq_ok hi
  cases hi
  exact ⟨by rw [h1]; rfl, by rw [h2]; rfl⟩

/-- The NTP time of a report as the other side reads it is right to 8 microseconds, until 2036. -/
theorem ntp_seen {now : Nat} (h1 : 2 * 10 ^ 9 ≤ now) (h2 : now + 2208988800 * 10 ^ 9 < (2 ^ 32 - 2) * 10 ^ 9) :
    now ≤ Rtt.fromNtp64 (Rtt.asNtp64 now) + 8000 ∧ Rtt.fromNtp64 (Rtt.asNtp64 now) ≤ now + 8000 := by
  have hS : (Rtt.SECS_1900 : ℚ) = 2208988800 := by norm_num [Rtt.SECS_1900]
  have q1 : (2 * 10 ^ 9 : ℚ) ≤ now := by exact_mod_cast h1
  have q2 : (now : ℚ) + 2208988800 * 10 ^ 9 < 4294967294 * 10 ^ 9 := by
    have : now + 2208988800 * 10 ^ 9 < 4294967294 * 10 ^ 9 := by norm_num at h2 ⊢; exact h2
    exact_mod_cast this
  have hs : Rtt.secs now = (now : ℚ) / 10 ^ 9 := rfl
  have e1 := Rtt.asNtp_err (t := now) (by rw [hS, hs]; linarith)
  rw [abs_le, hS, hs] at e1
  have e2 := Rtt.fromNtp_err (v := Rtt.asNtp64 now) (by rw [hS]; linarith) (by linarith)
  rw [abs_le, hS] at e2
  obtain ⟨y, hy⟩ : ∃ y, y = Rtt.fromNtp64 (Rtt.asNtp64 now) := ⟨_, rfl⟩
  rw [← hy] at e2 ⊢
  have hs2 : Rtt.secs y = (y : ℚ) / 10 ^ 9 := rfl
  rw [hs2] at e2
  constructor
  · have : (now : ℚ) ≤ y + 8000 := by linarith
    exact_mod_cast this
  · have : (y : ℚ) ≤ now + 8000 := by linarith
    exact_mod_cast this

/-- **C89**, end to end: the report is written, read on the other side, and taken into account there by a stream whose last packet had the same clock rate. The
application there is told an NTP time (right to 8 microseconds) and an RTP time that belong together: on the line through what the sender last
wrote, to one tick and ten microseconds. -/
theorem C89_seen (rate : Nat → Nat) (tx : Tx) (pre post : List Op) (op : Op) (t : Nat) (s : Stream) (a b : List Out) (o : Out) (now : Nat)
    (hw : Writes t op.op) (hq : ∀ o ∈ post, Quiet o.op) (hrun : run rate { tx := tx } (pre ++ op :: post) = .ok (s, a ++ o :: b))
    (ho : o.kind = .regular) (hb : ∀ o ∈ b, o.kind ≠ .regular) (ht : t < 2 ^ 32) (hc : 0 < rate o.pt) (hc' : rate o.pt < 2 ^ 32)
    (hnow : op.wall + 8000 ≤ now) (hd : now - op.wall < 2 ^ 60) (hs : s.tx.ssrc < 2 ^ 32)
    (h1970 : 2 * 10 ^ 9 ≤ now) (h2036 : now + 2208988800 * 10 ^ 9 < (2 ^ 32 - 2) * 10 ^ 9)
    (rx : Rcv.Rx) (pt : Nat) (hrx : rx.lastClock = some (pt, rate o.pt)) (hinfo : ∀ i, rx.info = some i → i.time.numer < 2 ^ 64) (at_ : Nat) (rest : List Byte) :
    ∃ i j, senderInfo s now = .ok i ∧ Rtcp.SenderInfo.parse (i.encode ++ rest) = .ok i ∧
      (Rcv.setSenderInfo rx at_ (Rtt.fromNtp64 i.ntp) i.rtpTime i.packetCount i.octetCount).info = some j ∧
      now ≤ j.ntp + 8000 ∧ j.ntp ≤ now + 8000 ∧ j.time.denom = rate o.pt ∧
      ∃ r, j.time.numer % 2 ^ 32 = r % 2 ^ 32 ∧ r * 10 ^ 9 ≤ t * 10 ^ 9 + (j.ntp - op.wall) * rate o.pt + 8000 * rate o.pt ∧
        t * 10 ^ 9 + (j.ntp - op.wall) * rate o.pt < (r + 1) * 10 ^ 9 + 10000 * rate o.pt := by
  obtain ⟨r, p, q, e, e1, e2⟩ := C89_time rate tx pre post op t s a b o now hw hq hrun ho hb ht hc hc' (by omega) hd
  have hpq : p < 2 ^ 32 ∧ q < 2 ^ 32 := by
    unfold senderInfo at e
    obtain ⟨x, -, e⟩ := bind_eq_ok e
    have e := Res.ok.inj e
    have h1 : s.packets % 2 ^ 32 = p := congrArg (·.packetCount) e
    have h2 : s.bytes % 2 ^ 32 = q := congrArg (·.octetCount) e
    exact ⟨by rw [← h1]; exact Nat.mod_lt _ (by norm_num), by rw [← h2]; exact Nat.mod_lt _ (by norm_num)⟩
  obtain ⟨n1, n2⟩ := ntp_seen h1970 h2036
  refine ⟨_, _, e, Rtcp.SenderInfo.parse_encode ⟨hs, ?_, Nat.mod_lt _ (by norm_num), hpq.1, hpq.2⟩ rest, rfl, n1, n2, ?_, r, ?_, ?_, ?_⟩
  · show Rtt.asNtp64 now < 2 ^ 64
    unfold Rtt.asNtp64
    have := Nat.min_le_right ⌊Rtt.f64 (Rtt.f64 (Rtt.asSecsF64 now + Rtt.SECS_1900) * 2 ^ 32)⌋₊ (2 ^ 64 - 1)
    exact lt_of_le_of_lt this (by norm_num)
  · show (rx.lastClock.map (·.2)).getD 1 = _
    rw [hrx]; rfl
  · show extend 32 (rx.info.map (·.time.numer)) (r % 2 ^ 32) % 2 ^ 32 = _
    rw [(C01_extend_low_bits 32 _ _ (by norm_num) ?_).1, Nat.mod_mod]
    intro p hp
    cases hi : rx.info with
    | none => rw [hi] at hp; cases hp
    | some i => rw [hi] at hp; cases hp; exact hinfo i hi
  · show r * 10 ^ 9 ≤ t * 10 ^ 9 + (Rtt.fromNtp64 (Rtt.asNtp64 now) - op.wall) * rate o.pt + 8000 * rate o.pt
    have : now - op.wall ≤ (Rtt.fromNtp64 (Rtt.asNtp64 now) - op.wall) + 8000 := by omega
    have := Nat.mul_le_mul_right (rate o.pt) this
    rw [Nat.add_mul] at this
    linarith
  · show t * 10 ^ 9 + (Rtt.fromNtp64 (Rtt.asNtp64 now) - op.wall) * rate o.pt < (r + 1) * 10 ^ 9 + 10000 * rate o.pt
    have : (Rtt.fromNtp64 (Rtt.asNtp64 now) - op.wall) ≤ now - op.wall + 8000 := by omega
    have := Nat.mul_le_mul_right (rate o.pt) this
    rw [Nat.add_mul] at this
    linarith

/-! ### An example, and where it fails -/

def demoRate : Nat → Nat := fun pt => if pt = 96 then 90000 else 8000
def demoParams : List Param := [{ pt := 96, resend := some 97 }, { pt := 0, resend := none }]

/-- Two packets are written and sent, the first is asked for and sent again -/
def demoOps : List Op :=
  [⟨.timeout 1000000 none, 0⟩,
   ⟨.write { seqNo := 1000, payload := [1, 2, 3], pt := 96, time := 4294967290, nackable := true }, 1000000000⟩,
   ⟨.write { seqNo := 1001, payload := [4, 5], pt := 96, time := 4294967290, nackable := true }, 1000000000⟩,
   ⟨.timeout 1000010 none, 0⟩, ⟨.poll 1000010 20 demoParams false, 0⟩, ⟨.poll 1000010 20 demoParams false, 0⟩,
   ⟨.nack [{ pid := 1000, blp := 0 }], 0⟩, ⟨.poll 1000020 20 demoParams false, 0⟩]

def demoTx : Tx := Tx.new 7 (some 8) 1 none 1200 500 900

/-- The RTP time, packets and bytes of the report at a time, and the datagrams by SSRC -/
def demoReport (ops : List Op) (now : Nat) : Option (Nat × Nat × Nat × List Nat) :=
  match run demoRate { tx := demoTx } ops with
  | .ok (s, outs) =>
    match currentRtpTime s now with
    | .ok x => some ((x.getD .zero).numer % 2 ^ 32, s.packets, s.bytes, outs.map (·.ssrc))
    | _ => none
  | _ => none

/-- A millisecond after the wallclock of the packets, 90 ticks later (the RTP time wraps) -/
example : demoReport demoOps 1001000000 = some (83, 3, 8, [7, 7, 8]) := by decide +kernel

def demoKey : List Out → Bool
  | [_, y, z] => decide (y.kind = .regular ∧ y.pt = 96 ∧ z.kind ≠ .regular)
  | _ => false

theorem demoKey_spec {outs : List Out} (h : demoKey outs = true) : ∃ x y z, outs = [x] ++ y :: [z] ∧ y.kind = .regular ∧ y.pt = 96 ∧ z.kind ≠ .regular := by
  match outs, h with
  | [x, y, z], h =>
    obtain ⟨k1, k2, k3⟩ := of_decide_eq_true h
    exact ⟨x, y, z, rfl, k1, k2, k3⟩

/-- The hypotheses of `C89_time` and `C89_counts` are met by it. -/
example : ∃ s outs, run demoRate { tx := demoTx } demoOps = .ok (s, outs) ∧ (∀ o ∈ demoOps, Proper demoParams o.op) ∧
    ∃ r packets bytes, senderInfo s 1001000000 = .ok { ssrc := s.tx.ssrc, ntp := Rtt.asNtp64 1001000000, rtpTime := r % 2 ^ 32, packetCount := packets, octetCount := bytes } ∧
      r ≤ 4294967290 + 90 ∧ 4294967290 + 90 < r + 2 := by
  have key : (match run demoRate { tx := demoTx } demoOps with
    | .ok (_, outs) => demoKey outs
    | _ => false) = true := by decide +kernel
  cases hr : run demoRate { tx := demoTx } demoOps with
  | err e => rw [hr] at key; cases key
  | panic => rw [hr] at key; cases key
  | ok r =>
    obtain ⟨s, outs⟩ := r
    rw [hr] at key
    obtain ⟨x, y, z, e, k1, k2, k3⟩ := demoKey_spec key
    have hc : demoRate y.pt = 90000 := by rw [k2]; rfl
    refine ⟨s, _, rfl, by simp [demoOps, demoParams, Proper], ?_⟩
    rw [e] at hr
    obtain ⟨r, p, q, e, e1, e2⟩ := C89_time demoRate demoTx (demoOps.take 2) (demoOps.drop 3)
      ⟨.write { seqNo := 1001, payload := [4, 5], pt := 96, time := 4294967290, nackable := true }, 1000000000⟩ 4294967290 s [x] [z] y 1001000000
      rfl (by simp [demoOps, Quiet]) hr k1 (by simpa using k3) (by norm_num) (by rw [hc]; norm_num) (by rw [hc]; norm_num) (by norm_num) (by norm_num)
    rw [hc] at e1 e2
    norm_num at e1 e2
    exact ⟨r, p, q, e, by omega, by omega⟩

/-- Before anything was written, or sent, or if the wallclock of the last write is later than the report (all of which the API allows), the report says that the
RTP time is 0 at the NTP time: not the time of any packet, and no line through it. -/
theorem C89_violation_zero (rate : Nat → Nat) (tx : Tx) (pre post : List Op) (s : Stream) (outs : List Out) (now : Nat) (i : Rtcp.SenderInfo)
    (hrun : run rate { tx := tx } (pre ++ post) = .ok (s, outs)) (hq : ∀ o ∈ post, Quiet o.op) (hi : senderInfo s now = .ok i)
    (h : pre = [] ∨ (∀ o ∈ outs, o.kind ≠ .regular) ∨ (∃ pre' op t, pre = pre' ++ [op] ∧ Writes t op.op ∧ now < op.wall)) : i.rtpTime = 0 := by
  obtain ⟨-, h2, h3⟩ := run_spec _ _ _ _ hrun
  rw [List.foldl_append, quiet_last _ hq] at h2
  have hn : currentRtpTime s now = .ok none := by
    unfold currentRtpTime
    rcases h with rfl | h | ⟨pre', op, t, rfl, hw, hlt⟩
    · have : s.last = none := h2
      rw [this]
    · rw [quiet_clock _ h] at h3
      have : s.clock = none := h3
      rw [this]
      cases s.last <;> rfl
    · have hl : s.last = some (t, op.wall) := by
        rw [h2, List.foldl_append]
        show lastAfter _ op = _
        unfold lastAfter
        cases he : op.op <;> rw [he] at hw <;> try exact hw.elim
        · rename_i w
          have hw : w.time = t := hw
          show some (w.time, op.wall) = _
          rw [hw]
        · rename_i f cs
          obtain ⟨e1, e2⟩ : f.time = t ∧ cs ≠ [] := hw
          cases cs with
          | nil => exact absurd rfl e2
          | cons => rw [← e1]
      rw [hl]
      cases s.clock with
      | none => rfl
      | some c => exact if_pos hlt
  unfold senderInfo at hi
  rw [hn] at hi
  cases hi
  rfl

/-- RFC 3550 6.4.1: the packets sent by the SSRC of the report. Retransmissions have another SSRC, and are counted. -/
theorem C89_violation_counts : ∃ ops s outs, run demoRate { tx := demoTx } ops = .ok (s, outs) ∧ (outs.filter (fun o => decide (o.ssrc = s.tx.ssrc))).length = 2 ∧
    ∀ now i, senderInfo s now = .ok i → i.packetCount = 3 := by
  have key : (match run demoRate { tx := demoTx } demoOps with
    | .ok (s, outs) => decide ((outs.filter (fun o => decide (o.ssrc = s.tx.ssrc))).length = 2 ∧ s.packets = 3)
    | _ => false) = true := by decide +kernel
  cases hr : run demoRate { tx := demoTx } demoOps with
  | ok r =>
    obtain ⟨s, outs⟩ := r
    rw [hr] at key
    have key := of_decide_eq_true key
    refine ⟨demoOps, s, outs, hr, key.1, fun now i hi => ?_⟩
    unfold senderInfo at hi
    obtain ⟨x, -, hi⟩ := bind_eq_ok hi
    cases hi
    show s.packets % 2 ^ 32 = 3
    rw [key.2]
    rfl
  | err e => rw [hr] at key; cases key
  | panic => rw [hr] at key; cases key

/-- The clock rate is that of the last packet sent, the RTP time that of the last packet written: if the payload type changes in between, the times do not belong
together. A packet with 8000 ticks per second is written, one with 90000 was sent last: after a second 90000 ticks have passed. -/
theorem C89_violation_rates : demoReport (demoOps ++ [⟨.write { seqNo := 1002, payload := [6], pt := 0, time := 1000, nackable := false }, 1000000000⟩]) 2000000000
    = some (90999, 3, 8, [7, 7, 8]) := by decide +kernel

end Str0m.Sr

import Verif.Spec.Repair
import Verif.Props.RtxKeep
import Verif.Props.StreamTxOrder
import Verif.Props.Extend
import Verif.Proofs.EndToEnd

namespace Str0m.Tx
open Str0m Str0m.Pts

/-- The packet as the cache holds it -/
def packetOf (o : Out) : CachedPacket :=
  { seqNo := o.seqNo, payload := o.body, info := { pt := o.pt, time := o.time, marker := o.marker, nackable := true, mid := o.mid, rid := o.rid, ext := o.ext } }

theorem packetOf_regular (s : Tx) (n : Nat) (b : List Byte) (j i : TxInfo) (hi : i.nackable = true) :
    packetOf (regularOut s { kind := .regular, seqNo := n, payload := b, info := j } i false) = { seqNo := n, payload := b, info := i } := by
  cases i
  simp only at hi
  simp [packetOf, regularOut, bodyOf, hi]

def stored (x : Out × Nat) : CachedPacket × Nat := (packetOf x.1, x.2)

def after (now : Nat) : Op → Nat
  | .poll n _ _ _ => n
  | _ => now

/-- The cache holds the packets of `l` -/
structure Tracked (m a : Nat) (P : List Param) (s : Tx) (l : List (CachedPacket × Nat)) (now : Nat) : Prop where
  obs : ∃ o, Kept m a o l ∧ o.cache = s.cache ∧ o.time ≤ now
  len : s.queue.queue.length = s.infos.length
  nackable : ∀ i ∈ s.infos, i.2.nackable = true

theorem Tracked.same {m a : Nat} {P : List Param} {s t : Tx} {l : List (CachedPacket × Nat)} {now : Nat} (h : Tracked m a P s l now) (hc : t.cache = s.cache)
    (hl : t.queue.queue.length = t.infos.length) (hi : ∀ i ∈ t.infos, i.2.nackable = true) : Tracked m a P t l now :=
  ⟨by rw [hc]; exact h.obs, hl, hi⟩

theorem chunks_nackable (f : Frame) (hf : f.audio = false) (cs : List (List Byte)) : ∀ (first : Bool) (s : Tx), (∀ i ∈ s.infos, i.2.nackable = true) →
    ∀ i ∈ (pushChunks s f first cs).infos, i.2.nackable = true := by
  induction cs with
  | nil => intro first s h; exact h
  | cons c cs ih =>
    intro first s h
    refine ih false _ (fun i hi => ?_)
    simp only [pushChunk, Tx.write, List.mem_append, List.mem_singleton] at hi
    rcases hi with hi | rfl
    · exact h i hi
    · simp [hf]

/-- What a step leaves and makes -/
theorem tracked_step {m a : Nat} (ha : 0 < a) {P : List Param} (hP : ∀ p ∈ P, p.resend.isSome = true) {s : Tx} {l : List (CachedPacket × Nat)} {now : Nat}
    (h : Tracked m a P s l now) {op : Op} (hv : Video P op) (hn : ∀ n x y z, op = .poll n x y z → now ≤ n) {t : Tx} {o : Option Out} (hs : step s op = .ok (t, o)) :
    Tracked m a P t (((news (o.toList.map (fun x => (x, op.at_)))).map stored).reverse ++ l) (after now op) := by
  have hlen := len_step s op t o h.len hs
  have plain : ∀ t : Tx, o = none → t.cache = s.cache → t.queue.queue.length = t.infos.length → (∀ i ∈ t.infos, i.2.nackable = true) →
      Tracked m a P t (((news (o.toList.map (fun x => (x, op.at_)))).map stored).reverse ++ l) now := by
    intro t h1 h2 h3 h4
    subst h1
    exact h.same h2 h3 h4
  cases op with
  | write w =>
    cases hs
    refine plain _ rfl rfl hlen (fun i hi => ?_)
    simp only [Tx.write, List.mem_append, List.mem_singleton] at hi
    rcases hi with hi | rfl
    · exact h.nackable i hi
    · exact hv
  | frame f cs =>
    cases hs
    refine plain _ rfl ?_ hlen (chunks_nackable f hv cs true s h.nackable)
    obtain ⟨q, i, n, e⟩ := pushChunks_eq f cs true s
    rw [e]
  | timeout n pt =>
    obtain ⟨t1, h1, hs⟩ := bind_eq_ok hs
    cases hs
    obtain ⟨y, q, hq, rfl⟩ := timeout_eq h1
    exact plain _ rfl rfl hlen h.nackable
  | poll n hdr params over =>
    have hv : params = P := hv
    subst hv
    have hle := hn n hdr params over rfl
    obtain ⟨rs, pd, hsuf, hp⟩ := poll_ok hs
    have later : ∀ t : Tx, ∀ x : List (Out × Nat), news x = [] → t.cache = s.cache → t.queue.queue.length = t.infos.length → (∀ i ∈ t.infos, i.2.nackable = true) →
        Tracked m a params t (((news x).map stored).reverse ++ l) n := by
      intro t x hx h2 h3 h4
      rw [hx]
      obtain ⟨ob, k1, k2, k3⟩ := h.obs
      exact ⟨⟨ob, k1, k2.trans h2.symm, k3.trans hle⟩, h3, h4⟩
    cases hp with
    | none k => exact later _ _ rfl rfl hlen h.nackable
    | dropped q r hq hr hu => exact later _ _ rfl rfl hlen (fun i hi => h.nackable i (List.mem_of_mem_drop hi))
    | resend p x pad hg pp pt ssrc hf hpt hr hs => exact later _ _ rfl rfl hlen h.nackable
    | blank pm len hl hm pp pt ssrc hf hpt hr => exact later _ _ rfl rfl hlen h.nackable
    | regular q r p c i hq hr hf hi hc hfit =>
      obtain ⟨is, e1, e2, e3⟩ := queue_head h.len hq hr
      have hnk : (headInfo s).2.nackable = true := h.nackable _ (by rw [e1]; exact List.mem_cons_self ..)
      have hin : i.nackable = true := by
        rw [hi]
        show ((headInfo s).2.nackable && p.resend.isSome) = true
        rw [hnk, hP p (List.mem_of_find?_eq_some hf)]; rfl
      rcases hc with ⟨-, hc⟩ | ⟨hno, -⟩
      · obtain ⟨ob, k1, k2, k3⟩ := h.obs
        have hpk : packetOf (regularOut s { kind := .regular, seqNo := (headInfo s).1, payload := q.payload, info := (headInfo s).2 } i false) =
            { seqNo := (headInfo s).1, payload := q.payload, info := i } := packetOf_regular s _ _ _ i hin
        have h2000 : q.payload.length < 2000 := by
          have hsl := k1.good.slots
          rw [k2] at hsl
          unfold RtxCache.cacheSent at hc
          dsimp only at hc
          split at hc
          · rename_i hq
            rw [hsl] at hq
            simp only [RTX_QUANTIZER, RTX_SLOTS] at hq
            omega
          · cases hc
        obtain ⟨o', f1, f2, f3⟩ := k1.send ha { seqNo := (headInfo s).1, payload := q.payload, info := i } n h2000 (k3.trans hle)
        have hcache : o'.cache = c := by
          simp only [RtxObs.step] at f1
          rw [k2, hc] at f1
          cases f1; rfl
        refine ⟨⟨o', ?_, hcache, by rw [f3]; exact le_refl _⟩, hlen, fun j hj => h.nackable j (List.mem_of_mem_drop hj)⟩
        have : ((news ((some (regularOut s { kind := .regular, seqNo := (headInfo s).1, payload := q.payload, info := (headInfo s).2 } i false)).toList.map
            (fun x => (x, Op.at_ (.poll n hdr params over))))).map stored).reverse ++ l =
            ({ seqNo := (headInfo s).1, payload := q.payload, info := i }, n) :: l := by
          rw [← hpk]; rfl
        rw [this]
        exact f2
      · rw [hin] at hno; cases hno
  | nack l =>
    cases hs
    obtain ⟨l', hl⟩ := nack_eq s l
    exact plain _ rfl (by rw [hl]) hlen (by rw [hl]; exact h.nackable)
  | report y =>
    cases hs
    obtain ⟨b1, b2, hl⟩ := report_eq s y
    exact plain _ rfl (by rw [hl]) hlen (by rw [hl]; exact h.nackable)
  | padding n =>
    cases hs
    obtain ⟨b1, hl⟩ := padding_eq s n
    exact plain _ rfl (by rw [hl]) hlen (by rw [hl]; exact h.nackable)
  | setCache m g d => exact hv.elim
  | resetBuffers => exact hv.elim
  | resetSsrc a1 a2 a3 a4 => exact hv.elim

theorem news_append (x y : List (Out × Nat)) : news (x ++ y) = news x ++ news y := by unfold news; exact List.filter_append ..

theorem tracked_run {m a : Nat} (ha : 0 < a) {P : List Param} (hP : ∀ p ∈ P, p.resend.isSome = true) : ∀ (ops : List Op) (s : Tx) (l : List (CachedPacket × Nat)) (now : Nat)
    (t : Tx) (outs : List Out), Tracked m a P s l now → (∀ op ∈ ops, Video P op) → Clock now ops → run s ops = .ok (t, outs) →
    outs = (timed s ops).map (·.1) ∧ ∃ now', Tracked m a P t (((news (timed s ops)).map stored).reverse ++ l) now' := by
  intro ops
  induction ops with
  | nil =>
    intro s l now t outs h _ _ hr
    cases hr
    exact ⟨rfl, now, by simpa [timed, news] using h⟩
  | cons op ops ih =>
    intro s l now t outs h hv hc hr
    unfold run at hr
    obtain ⟨⟨s1, o⟩, h1, hr⟩ := bind_eq_ok hr
    obtain ⟨⟨s2, l2⟩, h2, hr⟩ := bind_eq_ok hr
    cases hr
    have hn : ∀ n x y z, op = .poll n x y z → now ≤ n := by
      intro n x y z e; subst e; exact hc.1
    have ht := tracked_step ha hP h (hv op (List.mem_cons_self ..)) hn h1
    have hc' : Clock (after now op) ops := by
      cases op with
      | poll n x y z => exact hc.2
      | _ => exact hc
    obtain ⟨i1, now', i2⟩ := ih s1 _ _ s2 l2 ht (fun op' ho => hv op' (List.mem_cons_of_mem _ ho)) hc' h2
    have e : timed s (op :: ops) = o.toList.map (fun x => (x, op.at_)) ++ timed s1 ops := by
      rw [timed, h1]
    refine ⟨?_, now', ?_⟩
    · rw [e, List.map_append, ← i1]
      simp [Function.comp_def]
    · rw [e, news_append, List.map_append, List.reverse_append, List.append_assoc]
      exact i2

/-! ### From the request to the retransmission -/

/-- A number that waits and is cached comes closer with each poll -/
theorem firstCached_nearer {c : RtxCache} {n : Nat} {p : CachedPacket} (hg : c.getBySeqNo n = some p) : ∀ (l : List Nat) (i : Nat), l[i]? = some n →
    ∃ p' rest, firstCached c l = some (p', rest) ∧ (p' = p ∨ ∃ i' < i, rest[i']? = some n) := by
  intro l
  induction l with
  | nil => intro i h; simp at h
  | cons x l ih =>
    intro i h
    unfold firstCached
    cases hx : c.getBySeqNo x with
    | some q =>
      refine ⟨q, l, rfl, ?_⟩
      cases i with
      | zero =>
        have : x = n := by simpa using h
        rw [this, hg] at hx
        cases hx; exact .inl rfl
      | succ i => exact .inr ⟨i, by omega, by simpa using h⟩
    | none =>
      cases i with
      | zero =>
        have : x = n := by simpa using h
        rw [this, hg] at hx
        cases hx
      | succ i =>
        obtain ⟨p', rest, e1, e2⟩ := ih i (by simpa using h)
        refine ⟨p', rest, e1, e2.imp id ?_⟩
        rintro ⟨i', h1, h2⟩
        exact ⟨i', by omega, h2⟩

/-- One poll -/
theorem poll_nearer {s : Tx} {now hdr : Nat} {P : List Param} (hP : ∀ p ∈ P, p.resend.isSome = true) {x n i : Nat} {p : CachedPacket} (hx : s.rtx = some x)
    (hg : s.cache.getBySeqNo n = some p) (hpt : ∃ q ∈ P, q.pt = p.info.pt) (hi : s.resends[i]? = some n) {t : Tx} {o : Option Out}
    (h : poll s now hdr P false = .ok (t, o)) :
    (∃ z q pt, o = some z ∧ q ∈ P ∧ q.pt = p.info.pt ∧ q.resend = some pt ∧
      z = rtxOut s x pt { kind := .resend p.seqNo, seqNo := s.seqNoRtx, payload := p.payload, info := p.info } (announced s p.info) false) ∨
      (t.cache = s.cache ∧ t.rtx = s.rtx ∧ ∃ i' < i, t.resends[i']? = some n) := by
  obtain ⟨p', rest, hf, hc⟩ := firstCached_nearer hg s.resends i hi
  unfold poll pollNext pollResend at h
  rw [show (s.capped && false) = false by simp] at h
  simp only [Bool.false_eq_true, if_false] at h
  rw [hf] at h
  dsimp only at h
  obtain ⟨r, h1, h⟩ := bind_eq_ok h
  obtain ⟨r1, h0, h1⟩ := bind_eq_ok h1
  split at h0
  · cases h0
    unfold orRegular at h1
    cases h1
    unfold finishPoll sendNext at h
    dsimp only at h
    cases hfi : P.find? (fun q => decide (q.pt = p'.info.pt)) with
    | none =>
      rw [hfi] at h
      unfold dropUnknown at h
      simp only [reduceCtorEq, if_false] at h
      cases h
      rcases hc with rfl | hc
      · obtain ⟨q, hq, he⟩ := hpt
        have := List.find?_eq_none.1 hfi q hq
        simp [he] at this
      · exact .inr ⟨rfl, rfl, hc⟩
    | some q =>
      rw [hfi] at h
      simp only [reduceCtorEq, if_false] at h
      unfold sendRtx at h
      dsimp only at h
      rw [hx] at h
      obtain ⟨pt, hres⟩ := Option.isSome_iff_exists.1 (hP q (List.mem_of_find?_eq_some hfi))
      rw [hres] at h
      dsimp only at h
      split at h
      · cases h
      · cases h
        rcases hc with rfl | hc
        · left
          refine ⟨_, q, pt, rfl, List.mem_of_find?_eq_some hfi, by simpa using List.find?_some hfi, hres, rfl⟩
        · exact .inr ⟨rfl, hx.symm, hc⟩
  · cases h0

/-- What goes out for the number -/
def Answer (P : List Param) (x : Nat) (p : CachedPacket) (z : Out) : Prop :=
  z.kind = .resend p.seqNo ∧ z.ssrc = x ∧ z.body = be16 (p.seqNo % 65536) ++ p.payload ∧ z.time = p.info.time ∧ z.marker = p.info.marker ∧ z.ext = p.info.ext ∧
    z.isPadding = false ∧ ∃ q ∈ P, q.pt = p.info.pt ∧ q.resend = some z.pt

theorem answered {P : List Param} (hP : ∀ p ∈ P, p.resend.isSome = true) {x n : Nat} {p : CachedPacket} (hpt : ∃ q ∈ P, q.pt = p.info.pt) :
    ∀ (ops : List Op) (s : Tx) (i : Nat) (t : Tx) (outs : List Out), s.rtx = some x → s.cache.getBySeqNo n = some p → s.resends[i]? = some n →
      (∀ op ∈ ops, Video P op ∧ Free op) → i < polls ops → run s ops = .ok (t, outs) → ∃ z ∈ outs, Answer P x p z := by
  intro ops
  induction ops with
  | nil => intro s i t outs _ _ _ _ h _; cases h
  | cons op ops ih =>
    intro s i t outs hx hg hi hv hl hr
    unfold run at hr
    obtain ⟨⟨s1, o⟩, h1, hr⟩ := bind_eq_ok hr
    obtain ⟨⟨s2, l2⟩, h2, hr⟩ := bind_eq_ok hr
    cases hr
    have hop := hv op (List.mem_cons_self ..)
    have hv' : ∀ op' ∈ ops, Video P op' ∧ Free op' := fun op' ho => hv op' (List.mem_cons_of_mem _ ho)
    have rest : ∀ i', s1.rtx = some x → s1.cache.getBySeqNo n = some p → s1.resends[i']? = some n → i' < polls ops → ∃ z ∈ o.toList ++ l2, Answer P x p z := by
      intro i' a1 a2 a3 a4
      obtain ⟨z, hz, ha⟩ := ih s1 i' s2 l2 a1 a2 a3 hv' a4 h2
      exact ⟨z, List.mem_append_right _ hz, ha⟩
    cases op with
    | poll now hdr params over =>
      obtain ⟨hv1, hv2⟩ := hop
      have hv1 : params = P := hv1
      have hv2 : over = false := hv2
      subst hv1 hv2
      rcases poll_nearer hP hx hg hpt hi h1 with ⟨z, q, pt, e0, e1, e2, e3, e4⟩ | ⟨e1, e2, i', e3, e4⟩
      · refine ⟨z, by rw [e0]; simp, ?_⟩
        have ha : (announced s p.info).time = p.info.time ∧ (announced s p.info).marker = p.info.marker ∧ (announced s p.info).ext = p.info.ext := by
          unfold announced; split <;> exact ⟨rfl, rfl, rfl⟩
        rw [e4]
        exact ⟨rfl, rfl, rfl, ha.1, ha.2.1, ha.2.2, rfl, q, e1, e2, e3⟩
      · have : polls (Op.poll now hdr params false :: ops) = polls ops + 1 := rfl
        exact rest i' (e2.trans hx) (by rw [e1]; exact hg) e4 (by omega)
    | write w => cases h1; exact rest i hx hg hi hl
    | frame f cs =>
      cases h1
      obtain ⟨q, j, k, e⟩ := pushChunks_eq f cs true s
      exact rest i (by rw [e]; exact hx) (by rw [e]; exact hg) (by rw [e]; exact hi) hl
    | timeout now pt =>
      obtain ⟨t1, h0, h1⟩ := bind_eq_ok h1
      cases h1
      obtain ⟨y, q, hq, rfl⟩ := timeout_eq h0
      exact rest i hx hg hi hl
    | nack l =>
      cases h1
      obtain ⟨l', e⟩ := nack_eq s l
      refine rest i (by rw [e]; exact hx) (by rw [e]; exact hg) ?_ hl
      rw [e]
      dsimp only
      rw [List.getElem?_append_left (List.getElem?_eq_some_iff.1 hi).1]
      exact hi
    | report y =>
      cases h1
      obtain ⟨b1, b2, e⟩ := report_eq s y
      exact rest i (by rw [e]; exact hx) (by rw [e]; exact hg) (by rw [e]; exact hi) hl
    | padding k =>
      cases h1
      obtain ⟨b1, e⟩ := padding_eq s k
      exact rest i (by rw [e]; exact hx) (by rw [e]; exact hg) (by rw [e]; exact hi) hl
    | setCache m g d => exact hop.1.elim
    | resetBuffers => exact hop.1.elim
    | resetSsrc a1 a2 a3 a4 => exact hop.1.elim

/-- The request is taken for the right number -/
theorem nack_takes {s : Tx} {es : List NackEntry} {last n : Nat} {p : CachedPacket} (hlast : s.cache.lastCached = some last) (hg : s.cache.getBySeqNo n = some p)
    (hn : n < 2 ^ 64) (hl : last < 2 ^ 64) (h1 : n ≤ last) (h2 : last < n + 2 ^ 15) {e : NackEntry} (he : e ∈ es) (ha : Asks e (n % 65536)) :
    ∃ i : Nat, (nack s es).resends[i]? = some n := by
  have ext : ∀ w, w % 65536 = n % 65536 → extendU16 (some last) w = n := by
    intro w hw
    refine C01_extend_recovers 16 last n w (by omega) (by omega) hl hn ?_ ?_ hw <;> omega
  have hmem : n ∈ e.intoIter last := by
    unfold NackEntry.intoIter
    rcases ha with ha | ⟨i, h1, h2, h3⟩
    · exact List.mem_cons.2 (.inl (ext _ ha.symm).symm)
    · refine List.mem_cons_of_mem _ (List.mem_map.2 ⟨i, List.mem_filter.2 ⟨List.mem_range.2 h1, h2⟩, ext _ ?_⟩)
      omega
  have : n ∈ (nack s es).resends := by
    unfold nack
    rw [hlast]
    exact List.mem_append_right _ (List.mem_filter.2 ⟨List.mem_flatMap.2 ⟨e, he, hmem⟩, by rw [hg]; rfl⟩)
  exact List.mem_iff_getElem?.1 this

end Str0m.Tx

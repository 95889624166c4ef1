import Verif.Model.StreamTx
import Verif.Proofs.PayloadType
import Verif.Props.RtxCache
/-
  What one poll of an outgoing stream does.
-/
namespace Str0m.Tx
open Str0m Str0m.Pts

theorem firstCached_some {c : RtxCache} {l rest : List Nat} {p : CachedPacket} (h : firstCached c l = some (p, rest)) :
    ∃ m, (m :: rest) <:+ l ∧ c.getBySeqNo m = some p := by
  induction l with
  | nil => cases h
  | cons n l ih =>
    unfold firstCached at h
    cases hc : c.getBySeqNo n with
    | none =>
      rw [hc] at h
      obtain ⟨m, hm, hp⟩ := ih h
      exact ⟨m, hm.trans (List.suffix_cons _ _), hp⟩
    | some q =>
      rw [hc] at h
      cases h
      exact ⟨n, List.suffix_refl _, hc⟩

theorem smaller_get {c : RtxCache} {n : Nat} {p : CachedPacket} (h : c.getSmallerThan n = .ok (some p)) : ∃ m, c.getBySeqNo m = some p := by
  unfold RtxCache.getSmallerThan at h
  dsimp only at h
  split at h
  · have h := Res.ok.inj h
    obtain ⟨m, -, hm⟩ := Option.bind_eq_some_iff.1 h
    exact ⟨m, hm⟩
  · cases h

theorem blankLen_range (n : Nat) : 16 ≤ blankLen n ∧ blankLen n ≤ 240 := by
  unfold blankLen MAX_BLANK; omega

/-- What is chosen to be sent. -/
inductive Picked (s : Tx) (now : Nat) (rs : List Nat) (pd : Nat) : Tx → Option (Next × Bool) → Prop where
  | none : Picked s now rs pd { s with resends := rs, padding := pd } none
  | resend (p : CachedPacket) (m : Nat) (pad : Bool) (hg : s.cache.getBySeqNo m = some p) (hr : pad = true → s.rtx.isSome = true)
      (hn : pad = false → p.info.nackable = true) (hs : pad = false → (m :: rs) <:+ s.resends) :
      Picked s now rs pd { s with resends := rs, padding := pd, seqNoRtx := s.seqNoRtx + 1 }
        (some ({ kind := .resend p.seqNo, seqNo := s.seqNoRtx, payload := p.payload, info := p.info }, pad))
  | regular (q : QPacket) (hq : s.queue.peek = some q) :
      Picked s now rs pd { s with resends := rs, padding := pd, queue := stampHead s.queue now }
        (some ({ kind := .regular, seqNo := (headInfo s).1, payload := q.payload, info := (headInfo s).2 }, false))
  | blank (pt len : Nat) (hp : s.ptForPadding = some pt) (hr : s.rtx.isSome = true) (hl : 16 ≤ len ∧ len ≤ 240) :
      Picked s now rs pd { s with resends := rs, padding := pd, seqNoRtx := s.seqNoRtx + 1 }
        (some ({ kind := .blank len, seqNo := s.seqNoRtx, payload := [], info := { pt := pt } }, true))

theorem pollPadding_ok {s t : Tx} {now : Nat} {n : Option Next} (rs : List Nat) (h : pollPadding { s with resends := rs } = .ok (t, n)) :
    ∃ pd, Picked s now rs pd t (n.map (fun n => (n, true))) := by
  unfold pollPadding at h
  dsimp only at h
  cases hr : s.rtx with
  | none =>
    rw [hr] at h
    cases h
    have := Picked.none (s := s) (now := now) (rs := rs) (pd := 0)
    rw [hr] at this
    exact ⟨0, this⟩
  | some r =>
    cases hp : s.ptForPadding with
    | none =>
      rw [hr, hp] at h
      cases h
      have := Picked.none (s := s) (now := now) (rs := rs) (pd := 0)
      rw [hr, hp] at this
      exact ⟨0, this⟩
    | some pt =>
      rw [hr, hp] at h
      dsimp only at h
      split at h
      · cases h
        have := Picked.none (s := s) (now := now) (rs := rs) (pd := s.padding)
        rw [hr, hp] at this
        exact ⟨_, this⟩
      · obtain ⟨c, hc, h⟩ := bind_eq_ok h
        cases h
        cases c with
        | none =>
          have := Picked.blank (s := s) (now := now) (rs := rs) (pd := s.padding - blankLen s.padding) pt (blankLen s.padding) hp (by rw [hr]; rfl)
            (blankLen_range _)
          rw [hr, hp] at this
          exact ⟨_, this⟩
        | some p =>
          have hm : ∃ m, s.cache.getBySeqNo m = some p := by
            unfold spurious at hc
            dsimp only at hc
            split at hc
            · split at hc
              · cases hc
              · exact smaller_get hc
            · cases hc
          obtain ⟨m, hm⟩ := hm
          have := Picked.resend (s := s) (now := now) (rs := rs) (pd := s.padding - p.payload.length) p m true hm (fun _ => by rw [hr]; rfl)
            (fun h => by cases h) (fun h => by cases h)
          rw [hr, hp] at this
          exact ⟨_, this⟩

theorem pollNext_ok {s t : Tx} {now : Nat} {over : Bool} {n : Option (Next × Bool)} (h : pollNext s now over = .ok (t, n)) :
    ∃ rs pd, rs <:+ s.resends ∧ Picked s now rs pd t n := by
  unfold pollNext at h
  obtain ⟨⟨s1, n1⟩, h1, h⟩ := bind_eq_ok h
  have hz : ∀ rs, rs <:+ s.resends → orRegular now ({ s with resends := rs }, none) = .ok (t, n) →
      ∃ rs pd, rs <:+ s.resends ∧ Picked s now rs pd t n := by
    intro rs hrs h
    unfold orRegular at h
    dsimp only at h
    unfold pollRegular at h
    dsimp only at h
    cases hp : s.queue.peek with
    | none =>
      rw [hp] at h
      unfold orPadding at h
      dsimp only at h
      obtain ⟨⟨u, m⟩, h2, h⟩ := bind_eq_ok h
      cases h
      obtain ⟨pd, h3⟩ := pollPadding_ok (now := now) rs h2
      exact ⟨rs, pd, hrs, h3⟩
    | some q =>
      rw [hp] at h
      cases h
      exact ⟨rs, s.padding, hrs, Picked.regular q hp⟩
  unfold pollResend at h1
  split at h1
  · cases h1
    exact hz _ (List.nil_suffix) h
  · cases hf : firstCached s.cache s.resends with
    | none =>
      rw [hf] at h1
      cases h1
      exact hz _ (List.nil_suffix) h
    | some x =>
      obtain ⟨p, rest⟩ := x
      rw [hf] at h1
      dsimp only at h1
      split at h1
      · rename_i hn
        cases h1
        cases h
        obtain ⟨m, hs, hm⟩ := firstCached_some hf
        exact ⟨rest, s.padding, (List.suffix_cons _ _).trans hs, Picked.resend p m false hm (fun h => by cases h) (fun _ => hn) (fun _ => hs)⟩
      · cases h1

/-- What one poll does. -/
inductive Polled (s : Tx) (now hdr : Nat) (params : List Param) (rs : List Nat) (pd : Nat) : Tx → Option Out → Prop where
  | none (k : Nat) : Polled s now hdr params rs pd { s with resends := rs, padding := pd, seqNoRtx := s.seqNoRtx + k } none
  | dropped (q : QPacket) (r : SendQueue × Option QPacket) (hq : s.queue.peek = some q) (hp : (stampHead s.queue now).pop now = .ok r)
      (hu : ∀ p ∈ params, p.pt ≠ (headInfo s).2.pt) :
      Polled s now hdr params rs pd { s with resends := rs, padding := pd, queue := r.1, infos := s.infos.drop 1 } none
  | regular (q : QPacket) (r : SendQueue × Option QPacket) (p : Param) (c : RtxCache) (i : TxInfo)
      (hq : s.queue.peek = some q) (hr : (stampHead s.queue now).pop now = .ok r)
      (hf : params.find? (fun p => decide (p.pt = (headInfo s).2.pt)) = some p)
      (hi : i = { announced s (headInfo s).2 with nackable := (headInfo s).2.nackable && p.resend.isSome })
      (hc : (i.nackable = true ∧ s.cache.cacheSent { seqNo := (headInfo s).1, payload := q.payload, info := i } now = .ok c) ∨ (i.nackable = false ∧ c = s.cache))
      (hfit : hdr + q.payload.length ≤ 2000) :
      Polled s now hdr params rs pd
        { s with resends := rs, padding := pd, queue := r.1, infos := s.infos.drop 1, cache := c,
                 ptForPadding := (if p.resend.isSome then some p.pt else s.ptForPadding) }
        (some (regularOut s { kind := .regular, seqNo := (headInfo s).1, payload := q.payload, info := (headInfo s).2 } i false))
  | resend (p : CachedPacket) (m : Nat) (pad : Bool) (hg : s.cache.getBySeqNo m = some p) (pp : Param) (pt ssrc : Nat)
      (hf : params.find? (fun x => decide (x.pt = p.info.pt)) = some pp) (hpt : pp.resend = some pt) (hr : s.rtx = some ssrc)
      (hs : pad = false → (m :: rs) <:+ s.resends) :
      Polled s now hdr params rs pd { s with resends := rs, padding := pd, seqNoRtx := s.seqNoRtx + 1 }
        (some (rtxOut s ssrc pt { kind := .resend p.seqNo, seqNo := s.seqNoRtx, payload := p.payload, info := p.info } (announced s p.info) pad))
  | blank (pm len : Nat) (hl : 16 ≤ len ∧ len ≤ 240) (hm : s.ptForPadding = some pm) (pp : Param) (pt ssrc : Nat)
      (hf : params.find? (fun x => decide (x.pt = pm)) = some pp) (hpt : pp.resend = some pt) (hr : s.rtx = some ssrc) :
      Polled s now hdr params rs pd { s with resends := rs, padding := pd, seqNoRtx := s.seqNoRtx + 1 }
        (some (rtxOut s ssrc pt { kind := .blank len, seqNo := s.seqNoRtx, payload := [], info := { pt := pm } } (announced s { pt := pm }) true))

theorem stampHead_pop {q : SendQueue} {now : Nat} {p : QPacket} {r : SendQueue × Option QPacket} (hq : q.peek = some p)
    (h : (stampHead q now).pop now = .ok r) : r.2 = some { p with timestamp := some now } := by
  unfold SendQueue.peek at hq
  cases hl : q.queue with
  | nil => rw [hl] at hq; cases hq
  | cons x xs =>
    rw [hl] at hq
    dsimp only at hq
    split at hq
    · cases hq
    · cases hq
      unfold stampHead SendQueue.pop at h
      rw [hl] at h
      dsimp only at h
      obtain ⟨t, -, h⟩ := bind_eq_ok (x := TotalQueue.decrease _ _ _ _) h
      cases h
      rfl

theorem learnPt_eq (s : Tx) (p : Param) : learnPt s p = { s with ptForPadding := (if p.resend.isSome then some p.pt else s.ptForPadding) } := by
  unfold learnPt; split <;> rfl

theorem poll_ok {s t : Tx} {now hdr : Nat} {params : List Param} {over : Bool} {o : Option Out}
    (h : poll s now hdr params over = .ok (t, o)) : ∃ rs pd, rs <:+ s.resends ∧ Polled s now hdr params rs pd t o := by
  unfold poll at h
  obtain ⟨⟨s1, n⟩, h1, h⟩ := bind_eq_ok h
  obtain ⟨rs, pd, hsuf, hp⟩ := pollNext_ok h1
  refine ⟨rs, pd, hsuf, ?_⟩
  clear h1
  unfold finishPoll at h
  cases hp with
  | none => cases h; exact Polled.none 0
  | resend p m pad hg hr hn hs =>
    dsimp only at h
    unfold sendNext at h
    dsimp only at h
    cases hf : params.find? (fun x => decide (x.pt = p.info.pt)) with
    | none =>
      rw [hf] at h
      unfold dropUnknown at h
      simp only [reduceCtorEq, ↓reduceIte] at h
      cases h
      exact Polled.none 1
    | some pp =>
      rw [hf] at h
      simp only [reduceCtorEq, ↓reduceIte] at h
      unfold sendRtx at h
      split at h
      · rename_i pt ssrc e1 e2
        split at h
        · cases h
        · cases h
          exact Polled.resend p m pad hg pp pt ssrc hf e1 e2 hs
      · cases h
  | blank pm len hm hr hl =>
    dsimp only at h
    unfold sendNext at h
    dsimp only at h
    cases hf : params.find? (fun x => decide (x.pt = pm)) with
    | none =>
      rw [hf] at h
      unfold dropUnknown at h
      simp only [reduceCtorEq, ↓reduceIte] at h
      cases h
      exact Polled.none 1
    | some pp =>
      rw [hf] at h
      simp only [reduceCtorEq, ↓reduceIte] at h
      unfold sendRtx at h
      split at h
      · rename_i pt ssrc e1 e2
        split at h
        · cases h
        · cases h
          exact Polled.blank pm len hl hm pp pt ssrc hf e1 e2
      · cases h
  | regular q hq =>
    dsimp only at h
    unfold sendNext at h
    dsimp only at h
    cases hf : params.find? (fun x => decide (x.pt = (headInfo s).2.pt)) with
    | none =>
      rw [hf] at h
      unfold dropUnknown popQueue at h
      simp only [↓reduceIte] at h
      obtain ⟨r, h1, h⟩ := bind_eq_ok h
      obtain ⟨r2, h2, h1⟩ := bind_eq_ok h1
      cases h1
      cases h
      exact Polled.dropped q r2 hq h2 (fun p hp => by simpa using List.find?_eq_none.1 hf p hp)
    | some p =>
      rw [hf] at h
      simp only [↓reduceIte] at h
      unfold sendRegular at h
      dsimp only at h
      split at h
      · cases h
      rename_i hfit
      obtain ⟨t1, h1, h⟩ := bind_eq_ok h
      cases h
      unfold moveToCache popQueue at h1
      obtain ⟨r, h2, h1⟩ := bind_eq_ok h1
      obtain ⟨r2, h3, h2⟩ := bind_eq_ok h2
      rw [learnPt_eq] at h3 h2
      dsimp only at h3
      have hr2 := stampHead_pop hq h3
      cases h2
      dsimp only at h1
      rw [hr2] at h1
      dsimp only at h1
      unfold cacheIf at h1
      split at h1
      · rename_i hn
        obtain ⟨c, h4, h1⟩ := bind_eq_ok h1
        cases h1
        exact Polled.regular q r2 p c _ hq h3 hf rfl (Or.inl ⟨hn, h4⟩) (by unfold DATAGRAM_MAX at hfit; omega)
      · rename_i hn
        cases h1
        exact Polled.regular q r2 p s.cache _ hq h3 hf rfl (Or.inr ⟨by simpa using hn, rfl⟩) (by unfold DATAGRAM_MAX at hfit; omega)

end Str0m.Tx

import Verif.Props.FrameQueue

/-!
C125, continued: turns, draining, and what the packets of a frame are.
-/

namespace Str0m.Frames
open Str0m Str0m.Tx Str0m.Pts

variable {σ : Type}

/-! ### Packets of a frame -/

/-- One packet of a frame. -/
def chunkWrite (f : Tx.Frame) (first last : Bool) (seq : Nat) (prev : Option (List Byte)) (c : List Byte) : Write :=
  { seqNo := seq, payload := c, pt := f.pt, time := f.time, marker := f.isMarker c prev last || (f.audio && f.spurt), nackable := !f.audio,
    ext := stripNotLast last (stripNotFirst first f.ext) }

/-- The packets, one after the other. -/
def writes (f : Tx.Frame) (first : Bool) (seq : Nat) (prev : Option (List Byte)) : List (List Byte) → List Write
  | [] => []
  | c :: cs => chunkWrite f first cs.isEmpty seq prev c :: writes f false (seq + 1) (some c) cs

theorem foldl_seq (ws : List Write) : ∀ (s : Tx) (n k : Nat), { ws.foldl Tx.write { s with seqNo := n } with seqNo := k } = { ws.foldl Tx.write s with seqNo := k } := by
  induction ws with
  | nil => intro s n k; rfl
  | cons w ws ih =>
    intro s n k
    rw [List.foldl_cons, List.foldl_cons]
    exact ih (Tx.write s w) n k

theorem pushChunks_writes (f : Tx.Frame) (cs : List (List Byte)) : ∀ (s : Tx) (first : Bool),
    pushChunks s f first cs = withPackets s (writes f first s.seqNo (lastPacket s) cs) := by
  induction cs with
  | nil => intro s first; rfl
  | cons c cs ih =>
    intro s first
    have h1 : pushChunks s f first (c :: cs) = pushChunks (pushChunk s f first cs.isEmpty c) f false cs := rfl
    have h2 : lastPacket (pushChunk s f first cs.isEmpty c) = some c := by simp [lastPacket, pushChunk, Tx.write, SendQueue.push]
    have h3 : (pushChunk s f first cs.isEmpty c).seqNo = s.seqNo + 1 := rfl
    rw [h1, ih, h2, h3]
    unfold withPackets
    rw [h3]
    show _ = { (writes f false (s.seqNo + 1) (some c) cs).foldl Tx.write (Tx.write s _) with
      seqNo := s.seqNo + ((writes f false (s.seqNo + 1) (some c) cs).length + 1) }
    have h4 : pushChunk s f first cs.isEmpty c = { Tx.write s (chunkWrite f first cs.isEmpty s.seqNo (lastPacket s) c) with seqNo := s.seqNo + 1 } := rfl
    rw [h4, foldl_seq]
    rw [show s.seqNo + 1 + (writes f false (s.seqNo + 1) (some c) cs).length = s.seqNo + ((writes f false (s.seqNo + 1) (some c) cs).length + 1) by omega]

theorem writes_length (f : Tx.Frame) (cs : List (List Byte)) : ∀ first seq prev, (writes f first seq prev cs).length = cs.length := by
  induction cs with
  | nil => intros; rfl
  | cons c cs ih => intro first seq prev; show (writes f false _ _ cs).length + 1 = _; rw [ih]; rfl

theorem writes_get (f : Tx.Frame) (cs : List (List Byte)) : ∀ (first : Bool) (seq : Nat) (prev : Option (List Byte)) (i : Nat) (h : i < (writes f first seq prev cs).length),
    (writes f first seq prev cs)[i] = chunkWrite f (first && decide (i = 0)) (decide (i + 1 = cs.length)) (seq + i)
      (if i = 0 then prev else some (cs.getD (i - 1) [])) (cs.getD i []) := by
  induction cs with
  | nil => intro first seq prev i h; exact absurd h (by simp [writes])
  | cons c cs ih =>
    intro first seq prev i h
    cases i with
    | zero =>
      have he : cs.isEmpty = decide (0 + 1 = (c :: cs).length) := by
        cases cs with
        | nil => rfl
        | cons a b => simp
      show chunkWrite f first cs.isEmpty seq prev c = _
      rw [he]
      simp
    | succ i =>
      have h' : i < (writes f false (seq + 1) (some c) cs).length := by
        exact Nat.lt_of_succ_lt_succ h
      have hi := ih false (seq + 1) (some c) i h'
      show (writes f false (seq + 1) (some c) cs)[i] = _
      rw [hi]
      have e1 : decide (i + 1 = cs.length) = decide (i + 1 + 1 = (c :: cs).length) := by simp
      have e2 : (if i = 0 then some c else some (cs.getD (i - 1) [])) = (if i + 1 = 0 then prev else some ((c :: cs).getD (i + 1 - 1) [])) := by
        rw [if_neg (Nat.succ_ne_zero i)]
        cases i with
        | zero => rfl
        | succ j => rw [if_neg (Nat.succ_ne_zero j)]; rfl
      have e3 : (false && decide (i = 0)) = (first && decide (i + 1 = 0)) := by simp
      rw [e1, e2, e3, show seq + 1 + i = seq + (i + 1) by omega]
      rfl

/-- The extensions of a packet. -/
def extAt (e : TxExt) (first last : Bool) : TxExt :=
  { absCapture := if first = true then e.absCapture else none, layers := if first = true then e.layers else none,
    orientation := if last = true then e.orientation else none, contentType := if last = true then e.contentType else none,
    timing := if last = true then e.timing else none, other := e.other }

theorem ext_at (e : TxExt) (first last : Bool) : stripNotLast last (stripNotFirst first e) = extAt e first last := by
  cases first <;> cases last <;> rfl

theorem writes_packets (c : Codec σ) (audio : Bool) (it : Item) (seq : Nat) (prev : Option (List Byte)) (cs : List (List Byte)) :
    writes (frameOf c audio it) true seq prev cs = packetsOf c audio it seq prev cs := by
  apply List.ext_getElem
  · rw [writes_length]
    simp [packetsOf]
  · intro i h1 h2
    rw [writes_get]
    have hp : (packetsOf c audio it seq prev cs)[i] = _ := List.getElem_map ..
    rw [hp, List.getElem_range]
    have hx := ext_at it.ext (decide (i = 0)) (decide (i + 1 = cs.length))
    show chunkWrite (frameOf c audio it) (true && decide (i = 0)) _ _ _ _ = _
    unfold chunkWrite
    show Write.mk _ _ _ _ _ _ (stripNotLast (decide (i + 1 = cs.length)) (stripNotFirst (true && decide (i = 0)) it.ext)) = _
    rw [Bool.true_and, hx]
    unfold extAt
    simp only [decide_eq_true_eq]
    rfl

theorem pushTo_at (mid : Nat) (rid : Option Nat) (f : Tx.Frame) (cs : List (List Byte)) : ∀ (streams : List Tx) (st : Tx), streams.find? (isMidRid mid rid) = some st →
    ∃ a b, streams = a ++ st :: b ∧ (∀ x ∈ a, isMidRid mid rid x = false) ∧ pushTo mid rid f cs streams = a ++ pushChunks st f true cs :: b := by
  intro streams
  induction streams with
  | nil => intro st h; cases h
  | cons s ss ih =>
    intro st h
    rw [List.find?_cons] at h
    by_cases hm : isMidRid mid rid s = true
    · rw [hm] at h
      injection h with h
      subst h
      refine ⟨[], ss, rfl, by simp, ?_⟩
      unfold pushTo
      rw [if_pos hm]
      rfl
    · have hm' : isMidRid mid rid s = false := by simpa using hm
      rw [hm'] at h
      obtain ⟨a, b, h1, h2, h3⟩ := ih st h
      refine ⟨s :: a, b, by rw [h1]; rfl, ?_, ?_⟩
      · intro x hx
        rcases List.mem_cons.mp hx with rfl | hx
        · exact hm'
        · exact h2 x hx
      · unfold pushTo
        rw [if_neg hm, h3]
        rfl

/-- **C125** A frame that is sent becomes packets in one stream of its media (with its RID, if it has one), made of the chunks the codec cut, behind
those already waiting there; the other streams stay as they are. -/
theorem C125_packets (params : List (Nat × Codec σ)) (mtu : Nat) (streams : List Tx) (m : Media σ) (it : Item) (m' : Media σ) (streams' : List Tx)
    (ssrc seq : Nat) (cs : List (List Byte)) (h : payItem params mtu streams m it = .ok (m', streams', .sent ssrc seq cs)) :
    ∃ a st b c pst, streams = a ++ st :: b ∧ st.ssrc = ssrc ∧ st.seqNo = seq ∧ st.mid = m.mid ∧ (∀ r, it.rid = some r → st.rid = some r) ∧
      payloaderFor params m (it.pt, it.rid) = some (c, pst) ∧ (c.cut pst (mtu - 16 - (mtu - 16) % 16) it.data).1 = some cs ∧
      streams' = a ++ withPackets st (packetsOf c m.audio it seq (lastPacket st) cs) :: b := by
  unfold payItem at h
  split at h
  · simp at h
  · rename_i st hst
    split at h
    · cases h
    · rename_i p hp
      obtain ⟨c, pst⟩ := p
      injection h with h
      unfold pay at h
      split at h
      · simp at h
      · rename_i cs' s' hc
        simp only [Prod.mk.injEq, Fate.sent.injEq] at h
        obtain ⟨_, h2, h3, h4, h5⟩ := h
        subst h5
        obtain ⟨a, b, e1, e2, e3⟩ := pushTo_at m.mid it.rid (frameOf c m.audio it) cs' streams st hst
        have hmatch := List.find?_some hst
        unfold isMidRid at hmatch
        rw [Bool.and_eq_true] at hmatch
        refine ⟨a, st, b, c, pst, e1, h3, h4, by simpa using hmatch.1, ?_, hp, ?_, ?_⟩
        · intro r hr
          have := hmatch.2
          rw [hr] at this
          simpa using this
        · show (c.cut pst (roomOf mtu) it.data).1 = some cs'
          have hc' : c.cut pst (roomOf mtu) it.data = (some cs', s') := hc
          rw [hc']
        · rw [← h2]
          show pushTo m.mid it.rid (frameOf c m.audio it) cs' streams = _
          rw [e3, pushChunks_writes, writes_packets, h4]

/-! ### Turns -/

/-- A frame was sent. -/
def Done.ok (d : Done) : Prop := ∃ a b c, d.fate = .sent a b c

theorem failed_iff (o : Option Done) : failed o = false ↔ ∀ d, o = some d → d.ok := by
  cases o with
  | none => simp [failed]
  | some d =>
    unfold failed Done.ok
    cases hf : d.fate with
    | sent a b c => simp [hf]
    | noSource => simp [hf]
    | refused => simp [hf]

/-- The first frame of each media that has some. -/
def heads (ms : List (Media σ)) : List (Nat × Item) := ms.filterMap (fun m => m.queue.head?.map (fun it => (m.mid, it)))

theorem payAll_turns (params : List (Nat × Codec σ)) (mtu : Nat) : ∀ (ms : List (Media σ)) (streams : List Tx) (r : List (Media σ) × List Tx × List Done),
    payAll params mtu streams ms = .ok r →
      r.2.2.map (fun d => (d.mid, d.item)) <+: heads ms ∧ (∀ d ∈ r.2.2.dropLast, d.ok) ∧ ((∀ d ∈ r.2.2, d.ok) → r.2.2.map (fun d => (d.mid, d.item)) = heads ms) := by
  intro ms
  induction ms with
  | nil =>
    intro streams r h
    injection h with h
    subst h
    exact ⟨List.prefix_refl _, by simp, fun _ => rfl⟩
  | cons m ms ih =>
    intro streams r h
    unfold payAll at h
    obtain ⟨x, hx, h⟩ := bind_eq_ok h
    obtain ⟨hm, hq⟩ := doPayload_spec hx
    split at h
    · rename_i hfail
      injection h with h
      subst h
      rcases hq with ⟨h1, h2⟩ | ⟨it, f, h1, h2, _⟩
      · rw [h2] at hfail
        cases hfail
      · have hh : heads (m :: ms) = (m.mid, it) :: heads ms := by simp [heads, h1]
        rw [hh]
        show (x.2.2.toList.map _ <+: _) ∧ _
        rw [h2]
        refine ⟨⟨heads ms, rfl⟩, by simp, ?_⟩
        intro hall
        have := (failed_iff x.2.2).mpr (fun d hd => hall d (by
          rw [h2] at hd
          injection hd with hd
          subst hd
          simp))
        rw [this] at hfail
        cases hfail
    · rename_i hnf
      obtain ⟨t, ht, h⟩ := bind_eq_ok h
      injection h with h
      subst h
      obtain ⟨i1, i2, i3⟩ := ih _ _ ht
      have hok : ∀ d, x.2.2 = some d → d.ok := (failed_iff _).mp (by simpa using hnf)
      have hh : heads (m :: ms) = (x.2.2.toList.map (fun d => (d.mid, d.item))) ++ heads ms := by
        rcases hq with ⟨h1, h2⟩ | ⟨it, f, h1, h2, _⟩
        · rw [h2]
          simp [heads, h1]
        · rw [h2]
          simp [heads, h1]
      show ((x.2.2.toList ++ t.2.2).map _ <+: _) ∧ (∀ d ∈ (x.2.2.toList ++ t.2.2).dropLast, _) ∧ ((∀ d ∈ x.2.2.toList ++ t.2.2, _) → (x.2.2.toList ++ t.2.2).map _ = _)
      rw [hh, List.map_append]
      refine ⟨?_, ?_, ?_⟩
      · exact (List.prefix_append_right_inj _).mpr i1
      · intro d hd
        by_cases hn : t.2.2 = []
        · rw [hn, List.append_nil] at hd
          have := List.mem_of_mem_dropLast hd
          exact hok d (by simpa using this)
        · rw [List.dropLast_append_of_ne_nil hn] at hd
          rcases List.mem_append.mp hd with hd | hd
          · exact hok d (by simpa using hd)
          · exact i2 d hd
      · intro hall
        rw [i3 (fun d hd => hall d (List.mem_append.mpr (.inr hd)))]

/-- **C125** A timeout takes the first waiting frame of every media, in the order of the medias, up to the first that cannot be sent: that error is
told and it ends there. -/
theorem C125_turns (s : Sess σ) (r : Sess σ × List Done) (hc : s.closing = false) (h : s.timeout = .ok r) :
    r.2.map (fun d => (d.mid, d.item)) <+: heads s.medias ∧ (∀ d ∈ r.2.dropLast, ∃ a b c, d.fate = .sent a b c) ∧
      ((∀ d ∈ r.2, ∃ a b c, d.fate = .sent a b c) → r.2.map (fun d => (d.mid, d.item)) = heads s.medias) := by
  unfold Sess.timeout at h
  rw [hc, if_neg (by simp)] at h
  obtain ⟨y, hy, h⟩ := bind_eq_ok h
  injection h with h
  subst h
  exact payAll_turns _ _ _ _ _ hy

/-- **C125** The session asks for a timeout at once as long as a frame waits (and it is not closing), and only then. -/
theorem C125_wake (s : Sess σ) (hc : s.closing = false) : s.wants = true ↔ ∃ mid, waitingFor mid s ≠ [] := by
  unfold Sess.wants
  rw [hc]
  simp only [Bool.not_false, Bool.true_and, List.any_eq_true, Bool.not_eq_true']
  constructor
  · rintro ⟨m, hm, he⟩
    refine ⟨m.mid, ?_⟩
    intro hn
    unfold waitingFor at hn
    rw [List.flatMap_eq_nil_iff] at hn
    have := hn m (List.mem_filter.mpr ⟨hm, by simp⟩)
    rw [this] at he
    cases he
  · rintro ⟨mid, hn⟩
    unfold waitingFor at hn
    by_contra hno
    apply hn
    rw [List.flatMap_eq_nil_iff]
    intro m hm
    by_contra he
    apply hno
    refine ⟨m, (List.mem_filter.mp hm).1, ?_⟩
    cases hq : m.queue with
    | nil => exact absurd hq he
    | cons a b => rfl

/-! ### Draining -/

/-- One media's frames can be sent, with streams of these mids and RIDs. -/
def SendM (params : List (Nat × Codec σ)) (mtu : Nat) (keys : List (Nat × Option Nat)) (m : Media σ) : Prop :=
  ∀ it ∈ m.queue, (∃ k ∈ keys, k.1 = m.mid ∧ (it.rid = none ∨ k.2 = it.rid)) ∧ (∃ p ∈ params, p.1 = it.pt) ∧
    (∀ p ∈ params, ∀ st, (p.2.cut st (roomOf mtu) it.data).1 ≠ none) ∧
    (∀ e ∈ m.payloaders, ∀ st, (e.2.1.cut st (roomOf mtu) it.data).1 ≠ none)

/-- The mids and RIDs of streams. -/
def keysOf (l : List Tx) : List (Nat × Option Nat) := l.map (fun s => (s.mid, s.rid))

theorem foldl_key (ws : List Write) : ∀ s : Tx, (ws.foldl Tx.write s).mid = s.mid ∧ (ws.foldl Tx.write s).rid = s.rid := by
  induction ws with
  | nil => intro s; exact ⟨rfl, rfl⟩
  | cons w ws ih => intro s; exact ih (Tx.write s w)

theorem pushTo_keys (mid : Nat) (rid : Option Nat) (f : Tx.Frame) (cs : List (List Byte)) : ∀ l : List Tx, keysOf (pushTo mid rid f cs l) = keysOf l := by
  intro l
  induction l with
  | nil => rfl
  | cons s ss ih =>
    unfold pushTo
    split
    · show (_, _) :: keysOf ss = (_, _) :: keysOf ss
      rw [pushChunks_writes]
      obtain ⟨h1, h2⟩ := foldl_key (writes f true s.seqNo (lastPacket s) cs) s
      show (((writes f true s.seqNo (lastPacket s) cs).foldl Tx.write s).mid, ((writes f true s.seqNo (lastPacket s) cs).foldl Tx.write s).rid) :: _ = _
      rw [h1, h2]
    · show _ :: keysOf (pushTo mid rid f cs ss) = _ :: keysOf ss
      rw [ih]

theorem put_mem (key : Nat × Option Nat) (v : Codec σ × σ) (l : List ((Nat × Option Nat) × (Codec σ × σ))) :
    ∀ e ∈ put key v l, e = (key, v) ∨ e ∈ l := by
  induction l with
  | nil => intro e he; left; simpa [put] using he
  | cons a l ih =>
    intro e he
    unfold put at he
    split at he
    · rcases List.mem_cons.mp he with h | h
      · exact .inl h
      · exact .inr (List.mem_cons_of_mem _ h)
    · rcases List.mem_cons.mp he with h | h
      · exact .inr (by rw [h]; exact List.mem_cons_self ..)
      · rcases ih e h with h | h
        · exact .inl h
        · exact .inr (List.mem_cons_of_mem _ h)

theorem payloader_from {params : List (Nat × Codec σ)} {m : Media σ} {key : Nat × Option Nat} {p : Codec σ × σ} (h : payloaderFor params m key = some p) :
    (∃ e ∈ m.payloaders, e.2 = p ∧ e.1 = key) ∨ (∃ q ∈ params, q.2 = p.1 ∧ q.1 = key.1 ∧ p.2 = q.2.init) := by
  unfold payloaderFor at h
  split at h
  · rename_i e he
    injection h with h
    exact .inl ⟨e, List.mem_of_find?_eq_some he, h, by simpa using List.find?_some he⟩
  · split at h
    · rename_i q hq
      injection h with h
      subst h
      exact .inr ⟨q, List.mem_of_find?_eq_some hq, rfl, by simpa using List.find?_some hq, rfl⟩
    · cases h

theorem doPayload_sends {params : List (Nat × Codec σ)} {mtu : Nat} {streams : List Tx} {m : Media σ} (hs : SendM params mtu (keysOf streams) m) :
    ∃ r, m.doPayload params mtu streams = .ok r ∧ r.1.queue = m.queue.tail ∧ r.1.mid = m.mid ∧ keysOf r.2.1 = keysOf streams ∧ (∀ d, r.2.2 = some d → d.ok) ∧
      SendM params mtu (keysOf streams) r.1 := by
  unfold Media.doPayload
  cases hq : m.queue with
  | nil => exact ⟨_, rfl, hq, rfl, rfl, (fun d h => by cases h), hs⟩
  | cons it q =>
    obtain ⟨⟨k, hk, hk1, hk2⟩, ⟨p, hp, hp1⟩, hc1, hc2⟩ := hs it (by rw [hq]; exact List.mem_cons_self ..)
    have hfs : ∃ st, streams.find? (isMidRid m.mid it.rid) = some st := by
      cases hf : streams.find? (isMidRid m.mid it.rid) with
      | some st => exact ⟨st, rfl⟩
      | none =>
        rw [List.find?_eq_none] at hf
        obtain ⟨st, hst, he⟩ := List.mem_map.mp hk
        exfalso
        apply hf st hst
        subst he
        have hk1' : st.mid = m.mid := hk1
        unfold isMidRid
        rcases hk2 with h | h
        · simp [h, hk1']
        · have h' : st.rid = it.rid := h
          simp [h', hk1']
    obtain ⟨st, hst⟩ := hfs
    have hpl : ∃ v, payloaderFor params { m with queue := q } (it.pt, it.rid) = some v := by
      unfold payloaderFor
      split
      · exact ⟨_, rfl⟩
      · split
        · exact ⟨_, rfl⟩
        · rename_i hn
          rw [List.find?_eq_none] at hn
          exact absurd (by simpa using hp1) (hn p hp)
    obtain ⟨v, hv⟩ := hpl
    have hvc : (∃ e ∈ m.payloaders, e.2.1 = v.1) ∨ (∃ p ∈ params, p.2 = v.1) := by
      rcases payloader_from hv with ⟨e, he, h1, _⟩ | ⟨e, he, h1, _⟩
      · exact .inl ⟨e, he, by rw [h1]⟩
      · exact .inr ⟨e, he, h1⟩
    have hcut : (v.1.cut v.2 (roomOf mtu) it.data).1 ≠ none := by
      rcases hvc with ⟨e, he, h1⟩ | ⟨e, he, h1⟩
      · rw [← h1]
        exact hc2 e he _
      · rw [← h1]
        exact hc1 e he _
    have hpay : payItem params mtu streams { m with queue := q } it = .ok (pay mtu streams { m with queue := q } it st v) := by
      unfold payItem
      show (match streams.find? (isMidRid m.mid it.rid) with
        | none => _
        | some st => _) = _
      rw [hst]
      dsimp only
      rw [hv]
    show ∃ r, (payItem params mtu streams { m with queue := q } it >>= fun r => Res.ok (r.1, r.2.1, some (⟨m.mid, it, r.2.2⟩ : Done))) = .ok r ∧ _
    rw [hpay]
    refine ⟨_, rfl, ?_⟩
    cases hcc : v.1.cut v.2 (roomOf mtu) it.data with
    | mk a s' =>
      cases a with
      | none => rw [hcc] at hcut; exact absurd rfl hcut
      | some cs =>
        have hpe : pay mtu streams { m with queue := q } it st v =
            ({ m with queue := q, payloaders := put (it.pt, it.rid) (v.1, s') m.payloaders }, pushTo m.mid it.rid (frameOf v.1 m.audio it) cs streams,
              .sent st.ssrc st.seqNo cs) := by
          unfold pay
          rw [hcc]
        rw [hpe]
        refine ⟨rfl, rfl, pushTo_keys _ _ _ _ _, ?_, ?_⟩
        · intro d hd
          injection hd with hd
          subst hd
          exact ⟨_, _, _, rfl⟩
        · intro x hx
          obtain ⟨g1, g2, g3, g4⟩ := hs x (by rw [hq]; exact List.mem_cons_of_mem _ hx)
          refine ⟨g1, g2, g3, ?_⟩
          intro e he st'
          rcases put_mem _ _ _ e he with h | h
          · rw [h]
            rcases hvc with ⟨e', he', h1⟩ | ⟨e', he', h1⟩
            · show (v.1.cut st' _ _).1 ≠ none
              rw [← h1]
              exact g4 e' he' _
            · show (v.1.cut st' _ _).1 ≠ none
              rw [← h1]
              exact g3 e' he' _
          · exact g4 e h st'

theorem payAll_sends (params : List (Nat × Codec σ)) (mtu : Nat) (keys : List (Nat × Option Nat)) : ∀ (ms : List (Media σ)) (streams : List Tx),
    keysOf streams = keys → (∀ m ∈ ms, SendM params mtu keys m) →
    ∃ r, payAll params mtu streams ms = .ok r ∧ keysOf r.2.1 = keys ∧ (∀ d ∈ r.2.2, d.ok) ∧ (∀ m ∈ r.1, SendM params mtu keys m) ∧
      r.1.map (fun m => (m.mid, m.queue)) = ms.map (fun m => (m.mid, m.queue.tail)) := by
  intro ms
  induction ms with
  | nil => intro streams hk _; exact ⟨_, rfl, hk, by simp, by simp, rfl⟩
  | cons m ms ih =>
    intro streams hk hs
    obtain ⟨x, hx, h1, h1', h2, h3, h4⟩ := doPayload_sends (streams := streams) (by rw [hk]; exact hs m (List.mem_cons_self ..))
    obtain ⟨t, ht, i1, i2, i3, i4⟩ := ih x.2.1 (by rw [h2, hk]) (fun m' hm' => hs m' (List.mem_cons_of_mem _ hm'))
    have hnf : failed x.2.2 = false := (failed_iff _).mpr h3
    refine ⟨(x.1 :: t.1, t.2.1, x.2.2.toList ++ t.2.2), ?_, i1, ?_, ?_, ?_⟩
    · unfold payAll
      rw [hx]
      show (if failed x.2.2 = true then _ else _) = _
      rw [hnf, if_neg (by simp)]
      rw [ht]
      rfl
    · intro d hd
      rcases List.mem_append.mp hd with hd | hd
      · exact h3 d (by simpa using hd)
      · exact i2 d hd
    · intro m' hm'
      rcases List.mem_cons.mp hm' with rfl | hm'
      · rw [← hk]
        exact h4
      · exact i3 m' hm'
    · show (x.1.mid, x.1.queue) :: t.1.map _ = _
      rw [i4, h1, h1']
      rfl

theorem sendable_iff (s : Sess σ) : Sendable s ↔ ∀ m ∈ s.medias, SendM s.params s.mtu (keysOf s.streams) m := by
  constructor
  · intro h m hm it hit
    obtain ⟨⟨st, h1, h2, h3⟩, h4⟩ := h m hm it hit
    exact ⟨⟨(st.mid, st.rid), List.mem_map.mpr ⟨st, h1, rfl⟩, h2, h3⟩, h4⟩
  · intro h m hm it hit
    obtain ⟨⟨k, h1, h2, h3⟩, h4⟩ := h m hm it hit
    obtain ⟨st, hst, he⟩ := List.mem_map.mp h1
    subst he
    exact ⟨⟨st, hst, h2, h3⟩, h4⟩

/-- **C125** If there is a stream for every waiting frame and the codecs take them, then all are sent within as many timeouts as frames wait in one
media, and nothing panics. -/
theorem C125_drains : ∀ (n : Nat) (s : Sess σ), s.closing = false → Sendable s → (∀ m ∈ s.medias, m.queue.length ≤ n) →
    ∃ r, timeouts s n = .ok r ∧ (∀ mid, waitingFor mid r.1 = []) ∧ ∀ d ∈ r.2, ∃ a b c, d.fate = .sent a b c := by
  intro n
  induction n with
  | zero =>
    intro s _ _ hl
    refine ⟨_, rfl, ?_, by simp⟩
    intro mid
    show (s.medias.filter _).flatMap _ = []
    rw [List.flatMap_eq_nil_iff]
    intro m hm
    have := hl m (List.mem_filter.mp hm).1
    exact List.eq_nil_of_length_eq_zero (by omega)
  | succ n ih =>
    intro s hc hs hl
    obtain ⟨x, hx, h1, h2, h3, h4⟩ := payAll_sends s.params s.mtu (keysOf s.streams) s.medias s.streams rfl ((sendable_iff s).mp hs)
    have ht : s.timeout = .ok ({ s with medias := x.1, streams := x.2.1 }, x.2.2) := by
      unfold Sess.timeout
      rw [hc, if_neg (by simp), hx]
      rfl
    obtain ⟨t, ht', i1, i2⟩ := ih { s with medias := x.1, streams := x.2.1 } hc
      ((sendable_iff _).mpr (by show ∀ m ∈ x.1, SendM s.params s.mtu (keysOf x.2.1) m; rw [h1]; exact h3)) (by
        intro m hm
        have : (m.mid, m.queue) ∈ x.1.map (fun m => (m.mid, m.queue)) := List.mem_map.mpr ⟨m, hm, rfl⟩
        rw [h4] at this
        obtain ⟨m0, hm0, he⟩ := List.mem_map.mp this
        have hq : m.queue = m0.queue.tail := (Prod.mk.inj he).2.symm
        have := hl m0 hm0
        rw [hq, List.length_tail]
        omega)
    refine ⟨(t.1, x.2.2 ++ t.2), ?_, i1, ?_⟩
    · unfold timeouts
      rw [ht]
      show (timeouts _ n >>= _) = _
      rw [ht']
      rfl
    · intro d hd
      rcases List.mem_append.mp hd with hd | hd
      · exact h2 d hd
      · exact i2 d hd

end Str0m.Frames

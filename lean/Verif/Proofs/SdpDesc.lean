import Verif.Proofs.SdpMedia

/-!
Proofs for C75: an m-line, the session and a whole SDP.
-/

namespace Str0m.Sdp
open Str0m.Text Str0m.StrId Str0m.Profiles Str0m.Pts
open Str0m.Negotiate (Dir Setup)

/-- What is printed of `a` begins with `a` and is read as `a'`, whatever follows; or it is nothing -/
def ReadsAs (env : Env Ip) (t : Str) : Option (MediaAttr Ip) → Prop
  | none => t = []
  | some a' => (∃ t', t = 'a' :: t') ∧ ∀ r, Reads (mediaAttrP env) (t ++ r) a' r

theorem media_reads (env : Env Ip) (henv : EnvOk env) (a : MediaAttr Ip) (h : a.Ok env) :
    ∃ o, a.Received o ∧ ReadsAs env (a.show env) o := by
  cases a with
  | rtcp v => exact ⟨_, rfl, ⟨_, rfl⟩, fun r => by simp only [MediaAttr.show, List.append_assoc]; exact media_rtcp env v h r⟩
  | iceUfrag v => exact ⟨_, rfl, ⟨_, rfl⟩, fun r => by simp only [MediaAttr.show, List.append_assoc]; exact media_iceUfrag env v h r⟩
  | icePwd v => exact ⟨_, rfl, ⟨_, rfl⟩, fun r => by simp only [MediaAttr.show, List.append_assoc]; exact media_icePwd env v h r⟩
  | iceOptions v => exact ⟨_, rfl, ⟨_, rfl⟩, fun r => by simp only [MediaAttr.show, List.append_assoc]; exact media_iceOptions env v h r⟩
  | sctpInit v => exact ⟨_, rfl, ⟨_, rfl⟩, fun r => by simp only [MediaAttr.show, List.append_assoc]; exact media_sctpInit env v h r⟩
  | fingerprint f => exact ⟨_, rfl, ⟨_, rfl⟩, fun r => by simp only [MediaAttr.show, List.append_assoc]; exact media_fingerprint env f h r⟩
  | setup s => exact ⟨_, rfl, ⟨_, rfl⟩, fun r => by simp only [MediaAttr.show, List.append_assoc]; exact media_setup env s r⟩
  | mid m => exact ⟨_, rfl, ⟨_, rfl⟩, fun r => by simp only [MediaAttr.show, List.append_assoc]; exact media_mid env m h r⟩
  | sctpPort n => exact ⟨_, rfl, ⟨_, rfl⟩, fun r => by simp only [MediaAttr.show, List.append_assoc]; exact media_sctpPort env n h r⟩
  | maxMessageSize n => exact ⟨_, rfl, ⟨_, rfl⟩, fun r => by simp only [MediaAttr.show, List.append_assoc]; exact media_maxMessageSize env n h r⟩
  | extMap id e => exact ⟨_, rfl, ⟨_, rfl⟩, fun r => by simp only [MediaAttr.show, List.append_assoc]; exact media_extMap env id e h r⟩
  | dir d =>
    refine ⟨_, rfl, ⟨_, rfl⟩, fun r => ?_⟩
    cases d with
    | recvOnly => exact media_dir_recvOnly env r
    | sendRecv => exact media_dir_sendRecv env r
    | sendOnly => exact media_dir_sendOnly env r
    | inactive => exact media_dir_inactive env r
  | msid s t => exact ⟨_, rfl, ⟨_, rfl⟩, fun r => by simp only [MediaAttr.show, List.append_assoc]; exact media_msid env s t h r⟩
  | rtcpMux => exact ⟨_, rfl, ⟨_, rfl⟩, fun r => media_rtcpMux env r⟩
  | rtcpMuxOnly => exact ⟨_, rfl, ⟨_, rfl⟩, fun r => media_rtcpMuxOnly env r⟩
  | rtcpRsize => exact ⟨_, rfl, ⟨_, rfl⟩, fun r => media_rtcpRsize env r⟩
  | endOfCandidates => exact ⟨_, rfl, ⟨_, rfl⟩, fun r => media_endOfCandidates env r⟩
  | candidate c =>
    refine ⟨_, rfl, ⟨_, rfl⟩, fun r => ?_⟩
    have := media_candidate env henv.ip c h r
    have e : MediaAttr.show env (.candidate c) ++ r = c!"a=candidate:" ++ ((c.foundation ++ spaced (candWords env c)) ++ (nl ++ r)) := by
      simp only [MediaAttr.show, show_words, List.append_assoc]; rfl
    rw [e]; exact this
  | rtpMap pt m => exact ⟨_, rfl, ⟨_, rfl⟩, fun r => by simp only [MediaAttr.show, List.append_assoc]; exact media_rtpMap env pt m h r⟩
  | rtcpFb pt v => exact ⟨_, rfl, ⟨_, rfl⟩, fun r => by simp only [MediaAttr.show, List.append_assoc]; exact media_rtcpFb env pt v h r⟩
  | fmtp pt vs =>
    by_cases hv : vs = []
    · exact ⟨none, by simp [MediaAttr.Received, hv], by simp [ReadsAs, MediaAttr.show, showFmtp, hv]⟩
    · obtain ⟨h1, h2, h3⟩ := h
      obtain ⟨hp1, hp2⟩ := parsePairs_pairs env henv.order vs h2 h3
      refine ⟨some (.fmtp pt (parsePairs env (vs.flatMap FP.pairs))), ?_, ?_, fun r => ?_⟩
      · simp only [MediaAttr.Received, if_neg hv]
        exact ⟨_, hp2, hp1, rfl⟩
      · exact ⟨_, by simp only [MediaAttr.show, showFmtp, if_neg hv]; rfl⟩
      · simp only [MediaAttr.show, showFmtp, if_neg hv, List.append_assoc]
        exact media_fmtp env pt vs h1 hv h2 r
  | rid id send pts rs =>
    obtain ⟨h1, rfl, h3, h4⟩ := h
    refine ⟨_, rfl, ⟨_, rfl⟩, fun r => ?_⟩
    have := media_rid env henv id send rs h1 h3 h4 r
    simp only [MediaAttr.show, List.append_assoc]
    exact this
  | simulcast s =>
    obtain ⟨h1, h2⟩ := h
    cases hm : s.munged with
    | true => exact ⟨none, by simp [MediaAttr.Received, hm], by simp [ReadsAs, MediaAttr.show, Simulcast.show, hm]⟩
    | false =>
      let s' : Simulcast := { s with send := s.send.map (fun l => { l with attributes := none }), recv := s.recv.map (fun l => { l with attributes := none }) }
      refine ⟨some (.simulcast s'), by simp [MediaAttr.Received, hm, s'], ?_, fun r => ?_⟩
      · refine ⟨_, by simp only [MediaAttr.show, Simulcast.show, hm]; rfl⟩
      · have := media_simulcast env henv s hm h1 h2 r
        rw [← sim_show s hm r] at this
        exact this
  | ssrcGroup sem ns =>
    refine ⟨_, rfl, ⟨_, rfl⟩, fun r => ?_⟩
    have := media_ssrcGroup env sem ns h r
    simp only [MediaAttr.show, showSsrcs, if_neg h.2.1, List.append_assoc]
    exact this
  | ssrc n a v => exact ⟨_, rfl, ⟨_, rfl⟩, fun r => by simp only [MediaAttr.show, List.append_assoc]; exact media_ssrc env n a v h r⟩
  | unused v => exact ⟨_, rfl, ⟨_, rfl⟩, fun r => by simp only [MediaAttr.show, List.append_assoc]; exact media_unused env v h r⟩

/-- All attributes -/
theorem attrs_reads (env : Env Ip) (henv : EnvOk env) (as : List (MediaAttr Ip)) (h : ∀ a ∈ as, a.Ok env) :
    ∃ (items : List (Str × MediaAttr Ip)) (os : List (Option (MediaAttr Ip))), List.Forall₂ MediaAttr.Received as os ∧ os.filterMap id = items.map (·.2) ∧
      (as.map (MediaAttr.show env)).flatten = (items.map (·.1)).flatten ∧
      ∀ x ∈ items, (∃ t, x.1 = 'a' :: t) ∧ ∀ r, Reads (mediaAttrP env) (x.1 ++ r) x.2 r := by
  induction as with
  | nil => exact ⟨[], [], .nil, rfl, rfl, by simp⟩
  | cons a as ih =>
    obtain ⟨items, os, h1, h2, h3, h4⟩ := ih (fun b hb => h b (by simp [hb]))
    obtain ⟨o, ho, hr⟩ := media_reads env henv a (h a (by simp))
    cases o with
    | none => exact ⟨items, none :: os, .cons ho h1, by simpa using h2, by simp [show a.show env = [] from hr, h3], h4⟩
    | some a' =>
      refine ⟨(a.show env, a') :: items, some a' :: os, .cons ho h1, by simpa using h2, by simp [h3], ?_⟩
      intro x hx
      rcases List.mem_cons.1 hx with rfl | hx
      · exact hr
      · exact h4 x hx

/-! ### Counting -/

def Keeps (f : MediaAttr Ip → Bool) : Prop := ∀ a o, MediaAttr.Received a o → match o with | none => f a = false | some a' => f a' = f a

theorem Keeps.of (f : MediaAttr Ip → Bool) (h1 : ∀ pt vs, f (.fmtp pt vs) = false) (h2 : ∀ s, f (.simulcast s) = false) : Keeps f := by
  intro a o h
  cases a with
  | fmtp pt vs =>
    by_cases hv : vs = []
    · simp only [MediaAttr.Received, if_pos hv] at h
      subst h; exact h1 pt vs
    · simp only [MediaAttr.Received, if_neg hv] at h
      obtain ⟨vs', _, _, rfl⟩ := h
      simp only [h1]
  | simulcast s =>
    by_cases hm : s.munged = true
    · simp only [MediaAttr.Received, if_pos hm] at h
      subst h; exact h2 s
    · simp only [MediaAttr.Received, if_neg hm] at h
      subst h; simp only [h2]
  | _ => cases h; rfl

theorem Keeps.countP {f : MediaAttr Ip → Bool} (hf : Keeps f) {as : List (MediaAttr Ip)} {os : List (Option (MediaAttr Ip))}
    (h : List.Forall₂ MediaAttr.Received as os) : (os.filterMap id).countP f = as.countP f := by
  induction h with
  | nil => rfl
  | @cons a o as os h1 _ ih =>
    have := hf a o h1
    cases o with
    | none => simp only at this; simpa [this] using ih
    | some a' => simp only at this; rw [List.filterMap_cons_some (f := id) rfl, List.countP_cons, List.countP_cons, this, ih]

theorem isStatic_iff (p : Nat) : isStaticPt p = true ↔ p = 0 ∨ p = 8 ∨ p = 9 ∨ p = 13 := by
  simp [isStaticPt, or_assoc]

theorem MediaLine.consistent_of (m : MediaLine Ip) (h1 : m.attrs.countP MediaAttr.isMid = 1) (h2 : m.attrs.countP MediaAttr.isSetup ≤ 1)
    (h3 : m.proto = .srtp → m.attrs.countP MediaAttr.isDir = 1) (h4 : m.proto = .srtp → m.pts ≠ [])
    (h5 : ∀ p ∈ m.pts, m.attrs.countP (MediaAttr.maps p) = 1 ∨ (m.attrs.countP (MediaAttr.maps p) = 0 ∧ (p = 0 ∨ p = 8 ∨ p = 9 ∨ p = 13))) :
    m.consistent = true := by
  unfold MediaLine.consistent
  simp only [← List.countP_eq_length_filter]
  show ((m.attrs.countP MediaAttr.isMid == 1) && decide (m.attrs.countP MediaAttr.isSetup ≤ 1) && (m.proto != .srtp || m.attrs.countP MediaAttr.isDir == 1) &&
    (m.proto != .srtp || m.pts != []) && m.pts.all (fun p => (m.attrs.countP (MediaAttr.maps p) != 0 || isStaticPt p) &&
      decide (m.attrs.countP (MediaAttr.maps p) ≤ 1))) = true
  simp only [h1, Bool.and_eq_true, decide_eq_true_eq, Bool.or_eq_true, bne_iff_ne, ne_eq, beq_iff_eq, List.all_eq_true]
  refine ⟨⟨⟨⟨trivial, h2⟩, ?_⟩, ?_⟩, ?_⟩
  · by_cases hp : m.proto = .srtp
    · exact Or.inr (h3 hp)
    · exact Or.inl hp
  · by_cases hp : m.proto = .srtp
    · exact Or.inr (h4 hp)
    · exact Or.inl hp
  · intro p hp
    rcases h5 p hp with h | ⟨h, hs⟩
    · simp [h]
    · exact ⟨Or.inr ((isStatic_iff p).2 hs), by simp [h]⟩

/-! ### Heads -/

/-- The end, or another m-line -/
def EndOrM (r : Str) : Prop := r = [] ∨ ∃ t, r = 'm' :: t

theorem EndOrM.stops {f : Char → Bool} (h : f 'm' = false) {r : Str} (hr : EndOrM r) : Stops f r := by
  rcases hr with rfl | ⟨t, rfl⟩
  · exact Stops.nil _
  · exact Stops.cons h

theorem mediaAttr_ends (env : Env Ip) {r : Str} (hr : EndOrM r) : Fails (mediaAttrP env) r := by
  rcases hr with rfl | ⟨t, rfl⟩ <;> rfl

theorem sessAttr_ends (env : Env Ip) {r : Str} (hr : EndOrM r) : Fails (sessAttrP env) r := by
  rcases hr with rfl | ⟨t, rfl⟩ <;> rfl

theorem items_stops {f : Char → Bool} {α : Type} (items : List (Str × α)) (h : ∀ x ∈ items, ∃ t, x.1 = 'a' :: t) (ha : f 'a' = false) {r : Str} (hr : Stops f r) :
    Stops f ((items.map (·.1)).flatten ++ r) := by
  cases items with
  | nil => exact hr
  | cons x xs =>
    obtain ⟨t, ht⟩ := h x (by simp)
    simp only [List.map_cons, List.flatten_cons, ht, List.cons_append]
    exact Stops.cons ha

theorem bw_reads (b : Option Bandwidth) (h : ∀ x ∈ b, BwOk x) {r : Str} (hr : Stops (fun c => c == 'b') r) :
    Reads (opt bandwidthLine) (showBw b ++ r) b r := by
  cases b with
  | none => exact Reads.optNone (typedLine_fails hr)
  | some b =>
    obtain ⟨h1, h2, h3⟩ := h b rfl
    simp only [showBw, List.append_assoc]
    refine Reads.optSome (typedLine_reads ?_)
    exact (colon_reads h1 h2 _).then ((Reads.token ':' _).then ((anyValue_reads h3 r).then (Reads.ret _ _)))

theorem showBw_stops (b : Option Bandwidth) {f : Char → Bool} (hb : f 'b' = false) {r : Str} (hr : Stops f r) : Stops f (showBw b ++ r) := by
  cases b with
  | none => exact hr
  | some b => exact Stops.cons hb

/-! ### The m-line -/

theorem mediaType_reads (t : MediaType) (h : t.Ok) (r : Str) : Reads mediaTypeP (t.show ++ (c!" " ++ r)) t (c!" " ++ r) := by
  cases t with
  | audio => exact Reads.head _ ((Reads.string c!"audio" _).pmap _).attempt
  | video => exact Reads.tail rfl (Reads.head _ ((Reads.string c!"video" _).pmap _).attempt)
  | application => exact Reads.tail rfl (Reads.tail rfl (Reads.head _ ((Reads.string c!"application" _).pmap _).attempt))
  | unknown s =>
    obtain ⟨h1, h2, h3, h4⟩ := h
    have cut : ∀ k : Str, ' ' ∉ k → ¬ k <+: s → Fails (attempt (pmap (fun _ => MediaType.audio) (string k))) (s ++ (c!" " ++ r)) := by
      intro k hk hn
      exact ((Errs.string (fun hp => hn (prefix_cut (c := ' ') hk hp))).pmap _).attempt
    have cut' : ∀ (k : Str) (x : MediaType), ' ' ∉ k → ¬ k <+: s → Fails (attempt (pmap (fun _ => x) (string k))) (s ++ (c!" " ++ r)) := by
      intro k x hk hn
      exact ((Errs.string (fun hp => hn (prefix_cut (c := ' ') hk hp))).pmap _).attempt
    refine Reads.tail (cut' _ _ (by decide) h2) (Reads.tail (cut' _ _ (by decide) h3) (Reads.tail (cut' _ _ (by decide) h4) (Reads.head _ ?_)))
    exact (notSp_sep h1 (Sep.sp _)).pmap _

theorem proto_reads (p : Proto) (r : Str) : Reads protoP (p.show ++ r) p r := by
  cases p with
  | srtp => exact Reads.head _ ((Reads.string c!"UDP/TLS/RTP/SAVPF" _).pmap _).attempt
  | sctp => exact Reads.tail rfl (Reads.tail rfl (Reads.head _ ((Reads.string c!"UDP/DTLS/SCTP" _).pmap _).attempt))

theorem pts_reads (typ : MediaType) (pts : List Nat) (h : ∀ p ∈ pts, p ≤ 255) (ha : typ = .application → pts = []) (r : Str) :
    ∃ t, showPts typ pts = t ++ nl ∧ Reads ptsP (t ++ (nl ++ r)) pts (nl ++ r) := by
  unfold showPts
  by_cases ht : typ = .application
  · rw [if_pos ht]
    refine ⟨_, rfl, ?_⟩
    rw [ha ht]
    refine Reads.tail ?_ (Reads.head _ ((anyValue_reads (s := c!"webrtc-datachannel") ⟨by decide, by decide⟩ r).pmap _))
    refine Errs.attempt (Errs.pmap _ ?_)
    have e : Reads notSp (c!"webrtc-datachannel" ++ (nl ++ r)) c!"webrtc-datachannel" (nl ++ r) := notSp_end ⟨by decide, by decide⟩ (endl r)
    obtain ⟨c, hc⟩ := e
    refine ⟨true, ?_⟩
    have : (numTok 255) (c!"webrtc-datachannel" ++ (nl ++ r)) = .err true := rfl
    simp only [opt, sepBy1, thenP, this]
  · rw [if_neg ht]
    refine ⟨_, rfl, ?_⟩
    refine Reads.head _ (Reads.attempt ?_)
    by_cases hp : pts = []
    · subst hp
      exact (Reads.optNone (p := sepBy1 (numTok 255) (token ' ')) (i := nl ++ r) rfl).pmap (fun o => o.getD [])
    · exact ((nums_reads 255 pts hp r h).optSome).pmap (fun o => o.getD [])

theorem mLine_reads (m : MediaLine Ip) (ht : m.typ.Ok) (h : ∀ p ∈ m.pts, p ≤ 255) (ha : m.typ = .application → m.pts = []) (r : Str) :
    Reads mLineP (c!"m=" ++ (m.typ.show ++ (c!" " ++ ((if m.disabled then c!"0" else c!"9") ++ (c!" " ++ (m.proto.show ++ (c!" " ++ (showPts m.typ m.pts ++ r))))))))
      (m.typ, (if m.disabled then c!"0" else c!"9"), m.proto, m.pts) r := by
  obtain ⟨t, e, hp⟩ := pts_reads m.typ m.pts h ha r
  rw [e, List.append_assoc]
  refine typedLine_reads ((mediaType_reads m.typ ht _).then ((Reads.token ' ' _).then ?_))
  have hport : Tok (if m.disabled then c!"0" else c!"9") := by
    cases m.disabled
    · exact ⟨by decide, by decide⟩
    · exact ⟨by decide, by decide⟩
  exact (notSp_sep hport (Sep.sp _)).then ((Reads.token ' ' _).then ((proto_reads m.proto _).then ((Reads.token ' ' _).then (hp.then (Reads.ret _ _)))))

theorem mediaLine_reads (env : Env Ip) (henv : EnvOk env) (m : MediaLine Ip) (h : m.Ok env) :
    ∃ m', MediaLine.Received m m' ∧ ∀ r, EndOrM r → Reads (mediaP env) (m.show env ++ r) m' r := by
  obtain ⟨items, os, h1, h2, h3, h4⟩ := attrs_reads env henv m.attrs h.attrs
  refine ⟨{ m with attrs := items.map (·.2) }, ⟨rfl, rfl, rfl, rfl, rfl, os, h1, h2.symm⟩, ?_⟩
  intro r hr
  unfold MediaLine.show
  simp only [List.append_assoc, h3]
  have hattr : Reads (many (mediaAttrP env)) ((items.map (·.1)).flatten ++ r) (items.map (·.2)) r :=
    many_free items r (mediaAttr_ends env hr) (fun x hx => (h4 x hx).2) (by
      intro x hx
      obtain ⟨t, ht⟩ := (h4 x hx).1
      simp [ht])
  have hbw := bw_reads m.bw h.bw (items_stops items (fun x hx => (h4 x hx).1) (f := fun c => c == 'b') (by decide) (hr.stops (by decide)))
  have hm := mLine_reads m h.typ h.pts h.app (c!"c=IN IP4 0.0.0.0" ++ (nl ++ (showBw m.bw ++ ((items.map (·.1)).flatten ++ r))))
  have hc : Reads (typedLine 'c' anyValue) (c!"c=IN IP4 0.0.0.0" ++ (nl ++ (showBw m.bw ++ ((items.map (·.1)).flatten ++ r)))) c!"IN IP4 0.0.0.0"
      (showBw m.bw ++ ((items.map (·.1)).flatten ++ r)) := typedLine_reads (anyValue_reads (s := c!"IN IP4 0.0.0.0") ⟨by decide, by decide⟩ _)
  refine Reads.andThen (hm.then (hc.optSome.then (hbw.then (hattr.then (Reads.ret _ _))))) ?_
  have hd : ((if m.disabled then c!"0" else c!"9") == c!"0") = m.disabled := by cases m.disabled <;> rfl
  dsimp only
  rw [hd]
  have k1 : Keeps (MediaAttr.isMid (Ip := Ip)) := Keeps.of _ (fun _ _ => rfl) (fun _ => rfl)
  have k2 : Keeps (MediaAttr.isSetup (Ip := Ip)) := Keeps.of _ (fun _ _ => rfl) (fun _ => rfl)
  have k3 : Keeps (MediaAttr.isDir (Ip := Ip)) := Keeps.of _ (fun _ _ => rfl) (fun _ => rfl)
  have k4 : ∀ p, Keeps (MediaAttr.maps (Ip := Ip) p) := fun p => Keeps.of _ (fun _ _ => rfl) (fun _ => rfl)
  rw [if_pos]
  refine MediaLine.consistent_of _ ?_ ?_ ?_ h.media ?_
  · show (items.map (·.2)).countP _ = 1
    rw [← h2, k1.countP h1]; exact h.mid
  · show (items.map (·.2)).countP _ ≤ 1
    rw [← h2, k2.countP h1]; exact h.setup
  · intro hp
    show (items.map (·.2)).countP _ = 1
    rw [← h2, k3.countP h1]; exact h.dir hp
  · intro p hp
    show (items.map (·.2)).countP _ = 1 ∨ (items.map (·.2)).countP _ = 0 ∧ _
    rw [← h2, (k4 p).countP h1]; exact h.maps p hp

theorem mLines_endOrM (env : Env Ip) (ms : List (MediaLine Ip)) : EndOrM ((ms.map (MediaLine.show env)).flatten) := by
  cases ms with
  | nil => exact Or.inl rfl
  | cons m ms => exact Or.inr ⟨_, rfl⟩

theorem mediaP_end (env : Env Ip) : Fails (mediaP env) [] := rfl

theorem mediaLines_reads (env : Env Ip) (henv : EnvOk env) (ms : List (MediaLine Ip)) (h : ∀ m ∈ ms, m.Ok env) :
    ∃ ms', List.Forall₂ MediaLine.Received ms ms' ∧ Reads (many (mediaP env)) ((ms.map (MediaLine.show env)).flatten) ms' [] := by
  have key : ∃ ms', List.Forall₂ MediaLine.Received ms ms' ∧ ∀ fuel, ms.length ≤ fuel →
      Reads (manyGo (mediaP env) fuel) ((ms.map (MediaLine.show env)).flatten) ms' [] := by
    clear * - h henv
    induction ms with
    | nil => exact ⟨[], .nil, fun fuel _ => manyGo_nil (mediaP_end env) fuel⟩
    | cons m ms ih =>
      obtain ⟨ms', h1, h2⟩ := ih (fun x hx => h x (by simp [hx]))
      obtain ⟨m', h3, h4⟩ := mediaLine_reads env henv m (h m (by simp))
      refine ⟨m' :: ms', .cons h3 h1, ?_⟩
      intro fuel hf
      cases fuel with
      | zero => simp at hf
      | succ fuel =>
        refine manyGo_cons (h4 _ (mLines_endOrM env ms)) (h2 fuel (by simpa using hf))
  obtain ⟨ms', h1, h2⟩ := key
  refine ⟨ms', h1, h2 _ ?_⟩
  have : ms.length ≤ ((ms.map (MediaLine.show env)).flatten).length := by
    clear * -
    induction ms with
    | nil => simp
    | cons m ms ih =>
      have : 0 < (m.show env).length := List.length_pos_iff.2 (by simp [MediaLine.show])
      simp only [List.map_cons, List.flatten_cons, List.length_append, List.length_cons]
      omega
  omega

/-! ### The session -/

theorem orig_reads (env : Env Ip) (henv : EnvOk env) (id : Nat) (h : id < 2 ^ 64) (r : Str) :
    Reads originatorLine (c!"o=str0m-" ++ (env.version ++ (c!" " ++ (dec id ++ (c!" 2 IN IP4 0.0.0.0" ++ (nl ++ r)))))) id r := by
  have ht : Tok (c!"str0m-" ++ env.version) := by
    refine ⟨by simp, ?_⟩
    intro c hc0
    rcases List.mem_append.1 hc0 with hc | hc
    · exact (by decide : ∀ c ∈ c!"str0m-", c ≠ ' ' ∧ c ≠ '\r' ∧ c ≠ '\n') c hc
    · exact henv.version c hc
  have e : c!"o=str0m-" ++ (env.version ++ (c!" " ++ (dec id ++ (c!" 2 IN IP4 0.0.0.0" ++ (nl ++ r))))) =
    'o' :: '=' :: ((c!"str0m-" ++ env.version) ++ (c!" " ++ (dec id ++ (c!" " ++ (c!"2 IN IP4 0.0.0.0" ++ (nl ++ r)))))) := by
    simp only [List.append_assoc]; rfl
  rw [e]
  refine Reads.andThen (v := dec id) (typedLine_reads ?_) (parseNat_dec _ _ (Nat.le_pred_of_lt h))
  refine (notSp_sep ht (Sep.sp _)).then ((Reads.token ' ' _).then ?_)
  refine (Reads.many1c (dec_ne_nil id) ?_ (Stops.cons (by decide))).then ((Reads.token ' ' _).then ((anyValue_reads ⟨by decide, by decide⟩ r).then (Reads.ret _ _)))
  intro c hc
  obtain ⟨d, hd, rfl⟩ := digitsGo_mem 10 hexDigit (by omega) _ _ c hc
  rw [hexDigit_dec ⟨d, hd⟩]; rfl

theorem sessAttr_show (env : Env Ip) (a : SessAttr Ip) : ∃ t, a.show env = 'a' :: t := by
  cases a <;> exact ⟨_, rfl⟩

theorem ignored_fails {r : Str} (h : Stops (fun c => c == 'i' || c == 'u' || c == 'e' || c == 'p' || c == 'c' || c == 'z' || c == 'k') r) : Fails ignoredLine r := by
  refine Errs.attempt (Errs.then (Fails.errs (Fails.choice_all ?_)))
  intro p hp
  simp only [List.mem_cons, List.not_mem_nil, or_false] at hp
  have : ∀ t, (t = 'i' ∨ t = 'u' ∨ t = 'e' ∨ t = 'p' ∨ t = 'c' ∨ t = 'z' ∨ t = 'k') → Fails (token t) r := by
    intro t ht
    refine Fails.token ?_
    intro c hc
    have := h c hc
    simp only [Bool.or_eq_false_iff, beq_eq_false_iff_ne, ne_eq] at this
    simp only [beq_eq_false_iff_ne, ne_eq]
    rintro rfl
    obtain ⟨⟨⟨⟨⟨⟨a1, a2⟩, a3⟩, a4⟩, a5⟩, a6⟩, a7⟩ := this
    rcases ht with h | h | h | h | h | h | h
    · exact a1 h
    · exact a2 h
    · exact a3 h
    · exact a4 h
    · exact a5 h
    · exact a6 h
    · exact a7 h
  rcases hp with rfl | rfl | rfl | rfl | rfl | rfl | rfl <;> exact this _ (by decide)

theorem session_reads (env : Env Ip) (henv : EnvOk env) (s : Session Ip) (h1 : s.id < 2 ^ 64) (h2 : ∀ b ∈ s.bw, BwOk b) (h3 : ∀ a ∈ s.attrs, a.Ok)
    (r : Str) (hr : EndOrM r) :
    Reads (sessionP env) (s.show env ++ r) { s with attrs := s.attrs.map SessAttr.received } r := by
  unfold Session.show
  simp only [List.append_assoc]
  have hv : ∀ r', Reads (typedLine 'v' (token '0')) (c!"v=0" ++ (nl ++ r')) '0' r' := fun r' => typedLine_reads (Reads.token '0' _)
  have hs : ∀ r', Reads (typedLine 's' anyValue) (c!"s=-" ++ (nl ++ r')) c!"-" r' := fun r' => typedLine_reads (anyValue_reads (s := c!"-") ⟨by decide, by decide⟩ _)
  have ht : ∀ r', Reads (typedLine 't' (string c!"0 0")) (c!"t=0 0" ++ (nl ++ r')) () r' := fun r' => typedLine_reads (Reads.string c!"0 0" _)
  let items := s.attrs.map (fun a => (a.show env, a.received))
  have e1 : (s.attrs.map (SessAttr.show env)) = items.map (·.1) := by simp [items]
  have e2 : s.attrs.map SessAttr.received = items.map (·.2) := by simp [items]
  have ha : ∀ x ∈ items, ∃ t, x.1 = 'a' :: t := by
    intro x hx
    obtain ⟨a, _, rfl⟩ := List.mem_map.1 hx
    exact sessAttr_show env a
  have hattr : Reads (many (sessAttrP env)) ((items.map (·.1)).flatten ++ r) (items.map (·.2)) r :=
    many_free items r (sessAttr_ends env hr) (by
      intro x hx r'
      obtain ⟨a, hm, rfl⟩ := List.mem_map.1 hx
      exact sess_reads env henv a (h3 a hm) r') (by
      intro x hx
      obtain ⟨t, ht⟩ := ha x hx
      simp [ht])
  rw [e1, e2]
  have hR : Reads (many (typedLine 'r' anyValue)) ((items.map (·.1)).flatten ++ r) [] ((items.map (·.1)).flatten ++ r) :=
    manyGo_nil (typedLine_fails (items_stops items ha (by decide) (hr.stops (by decide)))) _
  have hI : ∀ r', Reads (many ignoredLine) (showBw s.bw ++ (c!"t=0 0" ++ (nl ++ r'))) [] (showBw s.bw ++ (c!"t=0 0" ++ (nl ++ r'))) :=
    fun r' => manyGo_nil (ignored_fails (showBw_stops _ (by decide) (Stops.cons (by decide)))) _
  refine (hv _).then ((orig_reads env henv s.id h1 _).then ((hs _).then ((hI _).then ((bw_reads s.bw h2 (Stops.cons (by decide))).then ((ht _).then (hR.then (hattr.then ?_)))))))
  exact Reads.ret _ _

theorem finger_panics {f : Fingerprint} (h : FingerprintOk f) : f.bytes.isEmpty = false := by
  cases hb : f.bytes with
  | nil => exact absurd hb h.2
  | cons => rfl

theorem MediaAttr.Ok.noPanic {env : Env Ip} {a : MediaAttr Ip} (h : a.Ok env) : a.showPanics = false := by
  cases a with
  | fingerprint f => exact finger_panics h
  | simulcast s =>
    obtain ⟨h1, _⟩ := h
    simp only [MediaAttr.showPanics]
    rcases h1 with h1 | h1
    · cases hs : s.send with
      | nil => exact absurd hs h1
      | cons => rfl
    · cases hs : s.recv with
      | nil => exact absurd hs h1
      | cons => simp
  | _ => rfl

theorem SessAttr.Ok.noPanic {a : SessAttr Ip} (h : a.Ok) : a.showPanics = false := by
  cases a with
  | fingerprint f => exact finger_panics h
  | _ => rfl

theorem sdp_reads (env : Env Ip) (henv : EnvOk env) (s : Desc Ip) (h : s.Ok env) :
    ∃ text s', s.show env = .ok text ∧ Desc.parse env text = some s' ∧ Desc.Received s s' := by
  obtain ⟨ms', h1, h2⟩ := mediaLines_reads env henv s.media h.media
  have h3 := session_reads env henv s.session h.id h.bw h.attrs _ (mLines_endOrM env s.media)
  refine ⟨s.session.show env ++ (s.media.map (MediaLine.show env)).flatten, { session := { s.session with attrs := s.session.attrs.map SessAttr.received }, media := ms' }, ?_, ?_, ⟨rfl, rfl, rfl, h1⟩⟩
  · unfold Desc.show
    rw [if_neg]
    simp only [Bool.or_eq_true, List.any_eq_true, not_or, not_exists, not_and]
    refine ⟨fun a ha => by simp [(h.attrs a ha).noPanic], fun m hm a ha => by simp [((h.media m hm).attrs a ha).noPanic]⟩
  · obtain ⟨c, hc⟩ := (h3.then (h2.then (Reads.ret (α := Desc Ip) _ _)) : Reads (sdpP env) _ _ _)
    unfold Desc.parse sdpP
    rw [hc]

end Str0m.Sdp
